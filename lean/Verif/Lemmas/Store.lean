import Verif.Model.Store
import Verif.Spec.Periodic
import Verif.Lemmas.Geometry
import Mathlib.Data.List.Nodup
import Mathlib.Data.List.Perm.Basic
import Mathlib.Tactic.IntervalCases

namespace Pyscal
open Spec

theorem mem_repRange {r : ℕ} {i : ℤ} : i ∈ repRange r ↔ -(r : ℤ) ≤ i ∧ i ≤ r := by
  simp only [repRange, List.mem_map, List.mem_range]
  constructor
  · rintro ⟨t, ht, rfl⟩; omega
  · rintro ⟨h1, h2⟩
    exact ⟨(i + r).toNat, by omega, by omega⟩

theorem repRange_length (r : ℕ) : (repRange r).length = 2 * r + 1 := by simp [repRange]

theorem repRange_nodup (r : ℕ) : (repRange r).Nodup := by
  unfold repRange
  apply List.Nodup.map
  · intro a b h; simp at h; exact h
  · exact List.nodup_range

/-- The unfiltered triple loop. -/
def repFull (rx ry rz : ℕ) : List (ℤ × ℤ × ℤ) :=
  (repRange rx).flatMap fun i => (repRange ry).flatMap fun j => (repRange rz).map fun k => (i, j, k)

theorem mem_repFull {rx ry rz : ℕ} {c : ℤ × ℤ × ℤ} :
    c ∈ repFull rx ry rz ↔ c.1 ∈ repRange rx ∧ c.2.1 ∈ repRange ry ∧ c.2.2 ∈ repRange rz := by
  simp only [repFull, List.mem_flatMap, List.mem_map]
  constructor
  · rintro ⟨i, hi, j, hj, k, hk, rfl⟩; exact ⟨hi, hj, hk⟩
  · rintro ⟨hi, hj, hk⟩; exact ⟨_, hi, _, hj, _, hk, rfl⟩

theorem repFull_length (rx ry rz : ℕ) :
    (repFull rx ry rz).length = (2 * rx + 1) * ((2 * ry + 1) * (2 * rz + 1)) := by
  simp [repFull, List.length_flatMap, repRange_length]

theorem repFull_nodup (rx ry rz : ℕ) : (repFull rx ry rz).Nodup := by
  unfold repFull
  rw [List.nodup_flatMap]
  refine ⟨fun i _ => ?_, ?_⟩
  · rw [List.nodup_flatMap]
    refine ⟨fun j _ => ?_, ?_⟩
    · exact (repRange_nodup rz).map (fun a b h => by simpa using h)
    · refine (repRange_nodup ry).imp ?_
      intro a b hab x hx hy
      simp only [List.mem_map] at hx hy
      obtain ⟨_, _, rfl⟩ := hx
      obtain ⟨_, _, e⟩ := hy
      simp at e
      exact hab e.1.symm
  · refine (repRange_nodup rx).imp ?_
    intro a b hab x hx hy
    simp only [List.mem_flatMap, List.mem_map] at hx hy
    obtain ⟨_, _, _, _, rfl⟩ := hx
    obtain ⟨_, _, _, _, e⟩ := hy
    simp at e
    exact hab e.1.symm

theorem repCells_eq (rx ry rz : ℕ) :
    repCells rx ry rz = (repFull rx ry rz).filter (fun c => decide (c ≠ (0, 0, 0))) := by
  unfold repCells
  change (repFull rx ry rz).filter _ = _
  apply List.filter_congr
  rintro ⟨i, j, k⟩ _
  by_cases hi : i = 0 <;> by_cases hj : j = 0 <;> by_cases hk : k = 0 <;> simp [hi, hj, hk]

theorem mem_repCells {rx ry rz : ℕ} {c : ℤ × ℤ × ℤ} :
    c ∈ repCells rx ry rz ↔
      (c.1 ∈ repRange rx ∧ c.2.1 ∈ repRange ry ∧ c.2.2 ∈ repRange rz) ∧ c ≠ (0, 0, 0) := by
  rw [repCells_eq, List.mem_filter, mem_repFull]; simp

theorem repCells_nodup (rx ry rz : ℕ) : (repCells rx ry rz).Nodup := by
  rw [repCells_eq]; exact (repFull_nodup rx ry rz).filter _

theorem repCells_length (rx ry rz : ℕ) :
    (repCells rx ry rz).length + 1 = (2 * rx + 1) * ((2 * ry + 1) * (2 * rz + 1)) := by
  have hm : ((0 : ℤ), (0 : ℤ), (0 : ℤ)) ∈ repFull rx ry rz := by
    rw [mem_repFull]; simp [mem_repRange]
  have he : repCells rx ry rz = (repFull rx ry rz).erase (0, 0, 0) := by
    rw [repCells_eq, (repFull_nodup rx ry rz).erase_eq_filter]
    apply List.filter_congr
    intro c _
    by_cases h : c = (0, 0, 0) <;> simp [h]
  rw [he, List.length_erase_of_mem hm, ← repFull_length]
  have : 0 < (repFull rx ry rz).length := List.length_pos_of_mem hm
  omega

theorem repNew_length (b : Mat3) (g : Bool) (rx ry rz : ℕ) (l : List Atom) :
    (repNew b g rx ry rz l).length = (repCells rx ry rz).length * l.length := by
  simp [repNew, List.length_flatMap]

theorem mem_repNew {b : Mat3} {g : Bool} {rx ry rz : ℕ} {l : List Atom} {x : Atom} :
    x ∈ repNew b g rx ry rz l →
      ∃ c ∈ repCells rx ry rz, ∃ a ∈ l, ∃ i : ℤ, x = (repAtom b g c a).withId i := by
  intro h
  rw [repNew, List.mem_mapIdx] at h
  obtain ⟨k, hk, rfl⟩ := h
  have hm := List.getElem_mem hk
  obtain ⟨c, hc, hm⟩ := List.mem_flatMap.1 hm
  obtain ⟨a, ha, e⟩ := List.mem_map.1 hm
  exact ⟨c, hc, a, ha, _, by rw [e]⟩

theorem repNew_of_mem {b : Mat3} {g : Bool} {rx ry rz : ℕ} {l : List Atom} {c : ℤ × ℤ × ℤ} {a : Atom}
    (hc : c ∈ repCells rx ry rz) (ha : a ∈ l) :
    ∃ i : ℤ, (repAtom b g c a).withId i ∈ repNew b g rx ry rz l := by
  set L := (repCells rx ry rz).flatMap fun c => l.map (repAtom b g c) with hL
  have hm : repAtom b g c a ∈ L := by
    rw [hL, List.mem_flatMap]; exact ⟨c, hc, List.mem_map_of_mem ha⟩
  obtain ⟨k, hk, e⟩ := List.mem_iff_getElem.1 hm
  refine ⟨(l.length : ℤ) + 1 + k, ?_⟩
  rw [repNew, List.mem_mapIdx]
  exact ⟨k, hk, by rw [← e]⟩

theorem countReal_append (l m : List Atom) : countReal (l ++ m) = countReal l + countReal m := by
  simp [countReal]

theorem countGhost_append (l m : List Atom) : countGhost (l ++ m) = countGhost l + countGhost m := by
  simp [countGhost]

theorem countReal_of_real {l : List Atom} (h : ∀ a ∈ l, a.ghost = false) : countReal l = l.length := by
  rw [countReal, List.filter_eq_self.2]; intro a ha; simp [h a ha]

theorem countGhost_of_real {l : List Atom} (h : ∀ a ∈ l, a.ghost = false) : countGhost l = 0 := by
  rw [countGhost, List.filter_eq_nil_iff.2]; rfl
  intro a ha; simp [h a ha]

theorem countReal_of_ghost {l : List Atom} (h : ∀ a ∈ l, a.ghost = true) : countReal l = 0 := by
  rw [countReal, List.filter_eq_nil_iff.2]; rfl
  intro a ha; simp [h a ha]

theorem countGhost_of_ghost {l : List Atom} (h : ∀ a ∈ l, a.ghost = true) :
    countGhost l = l.length := by
  rw [countGhost, List.filter_eq_self.2]; intro a ha; simp [h a ha]

theorem repNew_ghost {b : Mat3} {rx ry rz : ℕ} {l : List Atom} :
    ∀ a ∈ repNew b true rx ry rz l, a.ghost = true := by
  intro a ha
  obtain ⟨c, _, a', _, i, rfl⟩ := mem_repNew ha
  rfl

/-- For every admissible number of atoms the padded system has at least 200 atoms. -/
theorem padReps_total {n : ℕ} (h1 : 1 ≤ n) (h2 : n < 200) :
    200 ≤ n * ((2 * padReps n + 1) * ((2 * padReps n + 1) * (2 * padReps n + 1))) := by
  have hn : 0 < n := h1
  set c := (200 - n + n - 1) / n with hc
  set r := cbrtFloor c with hr
  have hp : padReps n = (r + 1) / 2 := rfl
  -- (r+1)^3 > c
  have hlt : c < (r + 1) ^ 3 := by
    by_contra hcon
    push Not at hcon
    have hle : r + 1 ≤ c := le_trans (Nat.le_self_pow (by norm_num) _) hcon
    have := Nat.le_findGreatest (P := fun k => k ^ 3 ≤ c) hle hcon
    change r + 1 ≤ r at this
    omega
  have hk : r + 1 ≤ 2 * padReps n + 1 := by rw [hp]; omega
  have hk3 : (r + 1) ^ 3 ≤ (2 * padReps n + 1) ^ 3 := Nat.pow_le_pow_left hk 3
  have hcn : 200 ≤ n * (c + 1) := by
    have h199 : 200 - n + n - 1 = 199 := by omega
    have := Nat.lt_div_mul_add (a := 200 - n + n - 1) hn
    rw [← hc, h199] at this
    have : 199 < n * (c + 1) := by rw [Nat.mul_add, Nat.mul_comm n c]; omega
    omega
  calc 200 ≤ n * (c + 1) := hcn
    _ ≤ n * (2 * padReps n + 1) ^ 3 := Nat.mul_le_mul_left n (by omega)
    _ = _ := by ring

theorem norm_smul (k : ℝ) (hk : 0 ≤ k) (v : V3) : V3.norm (V3.smul k v) = k * V3.norm v := by
  have : V3.normSq (V3.smul k v) = k ^ 2 * V3.normSq v := by simp [V3.normSq]; ring
  rw [V3.norm, this, Real.sqrt_mul (sq_nonneg k), Real.sqrt_sq hk, V3.norm]

theorem cosine_smul {k m : ℝ} (hk : 0 < k) (hm : 0 < m) (u v : V3) :
    cosine (V3.smul k u) (V3.smul m v) = cosine u v := by
  have e : V3.dot (V3.smul k u) (V3.smul m v) = k * m * V3.dot u v := by simp [V3.dot]; ring
  unfold cosine fdiv
  rw [norm_smul k hk.le, norm_smul m hm.le, e]
  by_cases hz : V3.norm u * V3.norm v = 0
  · have : k * V3.norm u * (m * V3.norm v) = 0 := by
      rw [show k * V3.norm u * (m * V3.norm v) = k * m * (V3.norm u * V3.norm v) by ring, hz, mul_zero]
    simp [hz, this]
  · have h' : k * V3.norm u * (m * V3.norm v) ≠ 0 := by
      rw [show k * V3.norm u * (m * V3.norm v) = k * m * (V3.norm u * V3.norm v) by ring]
      exact mul_ne_zero (mul_ne_zero hk.ne' hm.ne') hz
    rw [if_neg hz, if_neg h']
    congr 1
    have hu : V3.norm u ≠ 0 := left_ne_zero_of_mul hz
    have hv : V3.norm v ≠ 0 := right_ne_zero_of_mul hz
    field_simp

theorem skewed_scale (b : Mat3) (rx ry rz : ℕ) : Skewed (scaleBox b rx ry rz) ↔ Skewed b := by
  unfold Skewed cosSum scaleBox
  simp only
  rw [cosine_smul (by positivity) (by positivity), cosine_smul (by positivity) (by positivity),
    cosine_smul (by positivity) (by positivity)]

theorem det_scale (b : Mat3) (rx ry rz : ℕ) : (scaleBox b rx ry rz).det =
    ((2 * rx + 1 : ℕ) : ℝ) * ((2 * ry + 1 : ℕ) : ℝ) * ((2 * rz + 1 : ℕ) : ℝ) * b.det := by
  simp [scaleBox, Mat3.det]; ring

theorem setBox_ok {s : System} {b : Mat3} (h : Skewed b → b.det ≠ 0) : ∃ s', s.setBox b = .ok s' := by
  unfold System.setBox
  by_cases hs : Skewed b
  · simp [hs, Mat3.det_transpose, h hs]
  · simp [hs]

theorem setBox_frame {s s' : System} {b : Mat3} (h : s.setBox b = .ok s') :
    s'.box = b ∧ s'.actualBox = s.actualBox ∧ s'.atoms = s.atoms ∧ s'.nop = s.nop
    ∧ s'.realNop = s.realNop ∧ s'.ghostNop = s.ghostNop ∧ s'.neighborsFound = s.neighborsFound := by
  unfold System.setBox at h
  by_cases hs : Skewed b
  · by_cases hd : b.transpose.det = 0
    · simp [hs, hd] at h
    · simp [hs, hd] at h
      subst h
      exact ⟨rfl, rfl, rfl, rfl, rfl, rfl, rfl⟩
  · simp [hs] at h
    subst h
    exact ⟨rfl, rfl, rfl, rfl, rfl, rfl, rfl⟩

/-- Division with remainder in the symmetric residue system. -/
theorem sym_div (r : ℕ) (n : ℤ) : ∃ q t : ℤ, n = (2 * r + 1) * q + t ∧ -(r : ℤ) ≤ t ∧ t ≤ r := by
  refine ⟨(n + r) / (2 * r + 1), (n + r) % (2 * r + 1) - r, ?_, ?_, ?_⟩
  · have := Int.mul_ediv_add_emod (n + r) (2 * r + 1); omega
  · have := Int.emod_nonneg (n + r) (b := 2 * r + 1) (by omega); omega
  · have := Int.emod_lt_of_pos (n + r) (b := 2 * r + 1) (by omega); omega

theorem latticeVec_scale (b : Mat3) (rx ry rz : ℕ) (q1 q2 q3 t1 t2 t3 : ℤ) (p : V3) :
    p + latticeVec b ((2 * rx + 1) * q1 + t1) ((2 * ry + 1) * q2 + t2) ((2 * rz + 1) * q3 + t3)
      = p + V3.smul t1 b.r0 + V3.smul t2 b.r1 + V3.smul t3 b.r2
        + latticeVec (scaleBox b rx ry rz) q1 q2 q3 := by
  ext <;> simp [latticeVec, scaleBox] <;> ring

theorem crystal_repeat (b : Mat3) (g : Bool) (rx ry rz : ℕ) (l : List Atom) :
    crystal (scaleBox b rx ry rz) (l ++ repNew b g rx ry rz l) = crystal b l := by
  ext ⟨p, t⟩
  simp only [crystal, Set.mem_ofPred_eq]
  constructor
  · rintro ⟨x, hx, n1, n2, n3, hp, ht⟩
    rw [List.mem_append] at hx
    rcases hx with hx | hx
    · refine ⟨x, hx, (2 * rx + 1) * n1 + 0, (2 * ry + 1) * n2 + 0, (2 * rz + 1) * n3 + 0, ?_, ht⟩
      rw [latticeVec_scale, hp]
      ext <;> simp
    · obtain ⟨⟨i, j, k⟩, _, a, ha, _, rfl⟩ := mem_repNew hx
      refine ⟨a, ha, (2 * rx + 1) * n1 + i, (2 * ry + 1) * n2 + j, (2 * rz + 1) * n3 + k, ?_, ht⟩
      rw [latticeVec_scale, hp]
      rfl
  · rintro ⟨a, ha, n1, n2, n3, hp, ht⟩
    obtain ⟨q1, t1, rfl, l1, u1⟩ := sym_div rx n1
    obtain ⟨q2, t2, rfl, l2, u2⟩ := sym_div ry n2
    obtain ⟨q3, t3, rfl, l3, u3⟩ := sym_div rz n3
    rw [latticeVec_scale] at hp
    by_cases h0 : (t1, t2, t3) = ((0 : ℤ), (0 : ℤ), (0 : ℤ))
    · refine ⟨a, List.mem_append_left _ ha, q1, q2, q3, ?_, ht⟩
      rw [hp]
      simp only [Prod.mk.injEq] at h0
      obtain ⟨rfl, rfl, rfl⟩ := h0
      ext <;> simp
    · have hc : (t1, t2, t3) ∈ repCells rx ry rz := by
        rw [mem_repCells]
        exact ⟨⟨mem_repRange.2 ⟨l1, u1⟩, mem_repRange.2 ⟨l2, u2⟩, mem_repRange.2 ⟨l3, u3⟩⟩, h0⟩
      obtain ⟨i, hi⟩ := repNew_of_mem (b := b) (g := g) hc ha
      exact ⟨_, List.mem_append_right _ hi, q1, q2, q3, hp, ht⟩

theorem repeatAtoms_ok {s s' : System} {rx ry rz : ℕ} {l out : List Atom} {g sc : Bool}
    (h : s.repeatAtoms rx ry rz l g sc = .ok (s', out)) :
    out = l ++ repNew s.getBox g rx ry rz l ∧ s'.actualBox = some s.getBox
    ∧ s'.box = (if sc then scaleBox s.getBox rx ry rz else s.box)
    ∧ s'.atoms = s.atoms ∧ s'.nop = s.nop ∧ s'.realNop = s.realNop ∧ s'.ghostNop = s.ghostNop
    ∧ s'.neighborsFound = s.neighborsFound := by
  unfold System.repeatAtoms at h
  cases sc with
  | false =>
    cases g <;> simp [bind, Except.bind, pure, Except.pure] at h <;> obtain ⟨rfl, rfl⟩ := h <;> simp
  | true =>
    simp only [if_true] at h
    cases hb : ({ s with actualBox := some s.getBox } : System).setBox
        (scaleBox s.getBox rx ry rz) with
    | error e => rw [hb] at h; simp [bind, Except.bind] at h
    | ok s2 =>
      rw [hb] at h
      obtain ⟨f1, f2, f3, f4, f5, f6, f7⟩ := setBox_frame hb
      cases g <;> simp [bind, Except.bind, pure, Except.pure] at h <;> obtain ⟨rfl, rfl⟩ := h <;>
        simp [f1, f2, f3, f4, f5, f6, f7]

theorem repeatAtoms_isOk {s : System} {rx ry rz : ℕ} {l : List Atom} {g sc : Bool}
    (h : Skewed s.getBox → s.getBox.det ≠ 0) :
    ∃ s' out, s.repeatAtoms rx ry rz l g sc = .ok (s', out) := by
  unfold System.repeatAtoms
  cases sc with
  | false => simp [bind, Except.bind, pure, Except.pure]
  | true =>
    have hd : Skewed (scaleBox s.getBox rx ry rz) → (scaleBox s.getBox rx ry rz).det ≠ 0 := by
      intro hs
      rw [det_scale]
      have := h ((skewed_scale _ _ _ _).1 hs)
      positivity
    obtain ⟨s2, h2⟩ := setBox_ok (s := { s with actualBox := some s.getBox }) hd
    simp [bind, Except.bind, pure, Except.pure, h2]

end Pyscal
