import Verif.Model.Trajectory
import Verif.Spec.Trajectory
import Verif.Lemmas.Text
import Verif.Lemmas.Dump

/-! Lemmas about trajectories. -/

namespace Pyscal

open Spec (Tiling Selected fromStart)

theorem flatten_length_const {α : Type} {m : ℕ} : ∀ {frames : List (List α)}, (∀ b ∈ frames, b.length = m) → frames.flatten.length = frames.length * m := by
  intro frames
  induction frames with
  | nil => simp
  | cons b fs ih =>
    intro h
    rw [List.flatten_cons, List.length_append, h b (by simp), ih fun c hc => h c (by simp [hc]), List.length_cons]
    ring

theorem flatten_getElem? {α : Type} {m : ℕ} (rest : List α) : ∀ {frames : List (List α)}, (∀ b ∈ frames, b.length = m) → ∀ (k j : ℕ), k < frames.length → j < m →
    (frames.flatten ++ rest)[k * m + j]? = (frames[k]?).bind fun b => b[j]? := by
  intro frames
  induction frames with
  | nil => intro _ k j hk; simp at hk
  | cons b fs ih =>
    intro h k j hk hj
    have hb := h b (by simp)
    rw [List.flatten_cons, List.append_assoc]
    cases k with
    | zero => rw [Nat.zero_mul, Nat.zero_add, List.getElem?_append_left (by omega)]; simp
    | succ k =>
      rw [List.getElem?_append_right (by rw [hb]; nlinarith), hb]
      have : (k + 1) * m + j - m = k * m + j := by rw [Nat.add_mul]; omega
      rw [this, ih (fun c hc => h c (by simp [hc])) k j (by simpa using hk) hj]
      simp

/-- `t` is the trajectory of a file with the given frames. -/
structure TrajOf (t : Traj) (n : ℕ) (frames : List (List String)) (stray : List String) : Prop where
  natoms : t.natoms = n
  tiling : Tiling (n + 9) t.lines frames stray

theorem TrajOf.length {t : Traj} {n : ℕ} {frames : List (List String)} {stray : List String} (h : TrajOf t n frames stray) :
    t.lines.length = frames.length * (n + 9) + stray.length := by
  rw [h.tiling.eq, List.length_append, flatten_length_const h.tiling.size]

theorem TrajOf.nblocks {t : Traj} {n : ℕ} {frames : List (List String)} {stray : List String} (h : TrajOf t n frames stray) : t.nblocks = frames.length := by
  unfold Traj.nblocks Traj.blocksize
  rw [h.natoms, h.length, Int.fdiv_eq_ediv_of_nonneg _ (by positivity)]
  push_cast
  have h1 : (stray.length : ℤ) < n + 9 := by exact_mod_cast h.tiling.short
  rw [add_comm, Int.add_mul_ediv_right _ _ (by omega), Int.ediv_eq_zero_of_lt (by omega) h1, zero_add]

theorem TrajOf.blocksize {t : Traj} {n : ℕ} {frames : List (List String)} {stray : List String} (h : TrajOf t n frames stray) : t.blocksize = ((n + 9 : ℕ) : ℤ) := by
  unfold Traj.blocksize; rw [h.natoms]; push_cast; rfl

theorem getBlock_at {t : Traj} {n : ℕ} {frames : List (List String)} {stray : List String} (h : TrajOf t n frames stray) {k : ℤ} {i : ℕ} (hi : i < frames.length)
    (hk : pyIdx t.lines.length (k * t.blocksize) = some (i * (n + 9))) : t.getBlock k = .ok frames[i] := by
  unfold Traj.getBlock
  rw [hk, h.blocksize]
  simp only [Int.toNat_natCast]
  congr 1
  have hb := h.tiling.size frames[i] (List.getElem_mem hi)
  apply List.ext_getElem
  · simp [hb]
  · intro j h1 h2
    have hj : j < n + 9 := by omega
    simp only [List.getElem_map, List.getElem_range]
    rw [h.tiling.eq, flatten_getElem? stray h.tiling.size i j hi hj, List.getElem?_eq_getElem hi, Option.bind_some, List.getElem?_eq_getElem h2, Option.getD_some]

theorem getBlock_nat {t : Traj} {n : ℕ} {frames : List (List String)} {stray : List String} (h : TrajOf t n frames stray) {k : ℕ} (hk : k < frames.length) :
    t.getBlock (k : ℤ) = .ok frames[k] := by
  refine getBlock_at h hk ?_
  rw [h.blocksize]
  have : (k : ℤ) * ((n + 9 : ℕ) : ℤ) = ((k * (n + 9) : ℕ) : ℤ) := by push_cast; ring
  rw [this]
  refine pyIdx_nat ?_
  rw [h.length]
  have : k * (n + 9) < frames.length * (n + 9) := Nat.mul_lt_mul_of_pos_right hk (by omega)
  omega

/-! ### Ranges -/

theorem mem_pyRange_pos {a b c x : ℤ} (hc : 0 < c) : x ∈ pyRange a b c ↔ a ≤ x ∧ x < b ∧ c ∣ x - a := by
  unfold pyRange
  simp only [if_pos hc, List.mem_map, List.mem_range]
  constructor
  · rintro ⟨j, hj, rfl⟩
    split_ifs at hj with hab
    · have h0 : 0 ≤ (b - a - 1) / c := Int.ediv_nonneg (by omega) hc.le
      have hj' : (j : ℤ) ≤ (b - a - 1) / c := by omega
      have := (Int.le_ediv_iff_mul_le hc).1 hj'
      refine ⟨?_, by omega, ⟨j, by ring⟩⟩
      have : 0 ≤ (j : ℤ) * c := by positivity
      omega
    · omega
  · rintro ⟨h1, h2, q, hq⟩
    have hq0 : 0 ≤ q := by
      by_contra hneg
      have : c * q < 0 := mul_neg_of_pos_of_neg hc (by omega)
      omega
    refine ⟨q.toNat, ?_, ?_⟩
    · rw [if_pos (by omega)]
      have : q ≤ (b - a - 1) / c := (Int.le_ediv_iff_mul_le hc).2 (by rw [mul_comm]; omega)
      omega
    · rw [Int.toNat_of_nonneg hq0, mul_comm]; omega

theorem mem_pyRange_neg {a b c x : ℤ} (hc : c < 0) : x ∈ pyRange a b c ↔ x ≤ a ∧ b < x ∧ c ∣ a - x := by
  unfold pyRange
  simp only [if_neg (by omega : ¬ 0 < c), List.mem_map, List.mem_range]
  constructor
  · rintro ⟨j, hj, rfl⟩
    split_ifs at hj with hab
    · have h0 : 0 ≤ (a - b - 1) / -c := Int.ediv_nonneg (by omega) (by omega)
      have hj' : (j : ℤ) ≤ (a - b - 1) / -c := by omega
      have := (Int.le_ediv_iff_mul_le (by omega : 0 < -c)).1 hj'
      have h2 : 0 ≤ (j : ℤ) * -c := mul_nonneg (by positivity) (by omega)
      have h3 : (j : ℤ) * -c = -(j * c) := by ring
      exact ⟨by omega, by omega, ⟨-(j : ℤ), by ring⟩⟩
    · omega
  · rintro ⟨h1, h2, q, hq⟩
    have hq0 : 0 ≤ -q := by
      by_contra hneg
      have : c * q < 0 := mul_neg_of_neg_of_pos hc (by omega)
      omega
    refine ⟨(-q).toNat, ?_, ?_⟩
    · rw [if_pos (by omega)]
      have : -q ≤ (a - b - 1) / -c := (Int.le_ediv_iff_mul_le (by omega : 0 < -c)).2 (by rw [neg_mul_neg, mul_comm]; omega)
      omega
    · rw [Int.toNat_of_nonneg hq0]
      have : -q * c = -(c * q) := by ring
      omega

theorem pyRange_pairwise_pos {a b c : ℤ} (hc : 0 < c) : (pyRange a b c).Pairwise (· < ·) := by
  unfold pyRange
  rw [List.pairwise_map]
  refine List.pairwise_lt_range.imp fun {i j} h => ?_
  have : (i : ℤ) * c < (j : ℤ) * c := mul_lt_mul_of_pos_right (by exact_mod_cast h) hc
  omega

theorem pyRange_pairwise_neg {a b c : ℤ} (hc : c < 0) : (pyRange a b c).Pairwise (· > ·) := by
  unfold pyRange
  rw [List.pairwise_map]
  refine List.pairwise_lt_range.imp fun {i j} h => ?_
  have : (j : ℤ) * c < (i : ℤ) * c := mul_lt_mul_of_neg_right (by exact_mod_cast h) hc
  show _ < _
  omega

/-- The indices of a slice. -/
theorem slice_mem {n : ℤ} (hn : 0 ≤ n) {start stop step : Option ℤ} {r : ℤ × ℤ × ℤ} (h : sliceIndices n start stop step = .ok r) (k : ℤ) :
    r.2.2 = step.getD 1 ∧ (k ∈ pyRange r.1 r.2.1 r.2.2 ↔ Selected n start stop (step.getD 1) k) := by
  unfold sliceIndices at h
  dsimp only at h
  by_cases h0 : step.getD 1 = 0
  · rw [if_pos h0] at h; cases h
  rw [if_neg h0] at h
  obtain rfl := Except.ok.inj h
  refine ⟨rfl, ?_⟩
  dsimp only
  generalize step.getD 1 = st at h0
  unfold Selected
  rcases lt_or_gt_of_ne h0 with hneg | hpos
  · rw [mem_pyRange_neg hneg]
    simp only [if_pos hneg, if_neg (by omega : ¬ 0 < st)]
    have hs : ∀ x : ℤ, (if x < 0 then (if x + n < -1 then -1 else x + n) else (if x > n - 1 then n - 1 else x)) = max (-1) (min (fromStart n x) (n - 1)) := by
      intro x; unfold fromStart; split_ifs <;> omega
    cases start with
    | none => cases stop with
      | none => simp; intro _; omega
      | some y =>
        simp only [hs, Option.map_some, Option.map_none, Option.getD_some, Option.getD_none, min_self]
        omega
    | some x => cases stop with
      | none =>
        simp only [hs, Option.map_some, Option.map_none, Option.getD_some, Option.getD_none]
        by_cases hx : -1 ≤ min (fromStart n x) (n - 1)
        · rw [max_eq_right hx]; omega
        · constructor
          · rintro ⟨h1, h2, -⟩; omega
          · rintro ⟨h1, h2, h3, -⟩; omega
      | some y =>
        simp only [hs, Option.map_some, Option.getD_some]
        by_cases hx : -1 ≤ min (fromStart n x) (n - 1)
        · rw [max_eq_right hx]; omega
        · constructor
          · rintro ⟨h1, h2, -⟩; omega
          · rintro ⟨h1, h2, h3, -⟩; omega
  · rw [mem_pyRange_pos hpos]
    simp only [if_neg (by omega : ¬ st < 0), if_pos hpos]
    have hs : ∀ x : ℤ, (if x < 0 then (if x + n < 0 then 0 else x + n) else (if x > n then n else x)) = min (max (fromStart n x) 0) n := by
      intro x; unfold fromStart; split_ifs <;> omega
    cases start with
    | none => cases stop with
      | none => simp; omega
      | some y =>
        simp only [hs, Option.map_some, Option.map_none, Option.getD_some, Option.getD_none, max_self]
        omega
    | some x => cases stop with
      | none =>
        simp only [hs, Option.map_some, Option.map_none, Option.getD_some, Option.getD_none]
        by_cases hx : max (fromStart n x) 0 ≤ n
        · rw [min_eq_left hx]; omega
        · constructor
          · rintro ⟨h1, h2, -⟩; omega
          · rintro ⟨h1, h2, h3, -⟩; omega
      | some y =>
        simp only [hs, Option.map_some, Option.getD_some]
        by_cases hx : max (fromStart n x) 0 ≤ n
        · rw [min_eq_left hx]; omega
        · constructor
          · rintro ⟨h1, h2, -⟩; omega
          · rintro ⟨h1, h2, h3, -⟩; omega

end Pyscal
