import Verif.Model.OrderParams
import Verif.Lemmas.Centro
import Verif.Spec.Harmonics
import Mathlib.Tactic.IntervalCases

/-! Lemmas about histograms: every value of the covered range falls in exactly one bin. -/

namespace Pyscal

/-- `v` falls in bin `k`. -/
def InBin (e : List ℝ) (k : ℕ) (v : ℝ) : Prop :=
  e.getD k 0 ≤ v ∧ (v < e.getD (k + 1) 0 ∨ (k + 2 = e.length ∧ v = e.getD (k + 1) 0))

/-- Strictly increasing edges. -/
def Increasing (e : List ℝ) : Prop := ∀ k, k + 1 < e.length → e.getD k 0 < e.getD (k + 1) 0

theorem Increasing.lt {e : List ℝ} (he : Increasing e) : ∀ {i j : ℕ}, i < j → j < e.length → e.getD i 0 < e.getD j 0 := by
  intro i j hij
  induction j with
  | zero => omega
  | succ j ih =>
    intro hj
    rcases Nat.lt_succ_iff_lt_or_eq.1 hij with h | rfl
    · exact (ih h (by omega)).trans (he j hj)
    · exact he i hj

theorem Increasing.le {e : List ℝ} (he : Increasing e) {i j : ℕ} (hij : i ≤ j) (hj : j < e.length) :
    e.getD i 0 ≤ e.getD j 0 := by
  rcases Nat.lt_or_eq_of_le hij with h | rfl
  · exact (he.lt h hj).le
  · exact le_rfl

theorem bin_unique {e : List ℝ} (he : Increasing e) {v : ℝ} {i j : ℕ} (hi : i + 1 < e.length) (hj : j + 1 < e.length)
    (h1 : InBin e i v) (h2 : InBin e j v) : i = j := by
  have key : ∀ {i j : ℕ}, i + 1 < e.length → j + 1 < e.length → InBin e i v → InBin e j v → ¬ i < j := by
    intro i j hi hj h1 h2 hlt
    have : e.getD (i + 1) 0 ≤ e.getD j 0 := he.le hlt (by omega)
    rcases h1.2 with h | ⟨h, -⟩
    · exact absurd (this.trans h2.1) (not_le.2 h)
    · omega
  have a := key hi hj h1 h2
  have b := key hj hi h2 h1
  omega

theorem bin_exists {e : List ℝ} (hl : 2 ≤ e.length) {v : ℝ} (h0 : e.getD 0 0 ≤ v)
    (h1 : v ≤ e.getD (e.length - 1) 0) : ∃ k, k + 1 < e.length ∧ InBin e k v := by
  classical
  set k := Nat.findGreatest (fun k => e.getD k 0 ≤ v) (e.length - 2) with hk
  have hle : k ≤ e.length - 2 := Nat.findGreatest_le _
  have hP : e.getD k 0 ≤ v := Nat.findGreatest_spec (P := fun k => e.getD k 0 ≤ v) (Nat.zero_le _) h0
  refine ⟨k, by omega, hP, ?_⟩
  by_cases hlast : k = e.length - 2
  · have e1 : k + 1 = e.length - 1 := by omega
    rw [e1]
    rcases lt_or_eq_of_le h1 with h | h
    · exact .inl h
    · exact .inr ⟨by omega, h⟩
  · left
    have := Nat.findGreatest_is_greatest (P := fun k => e.getD k 0 ≤ v) (n := e.length - 2) (k := k + 1) (by omega) (by omega)
    exact not_le.1 this

theorem bin_range {e : List ℝ} (he : Increasing e) {v : ℝ} {k : ℕ} (hk : k + 1 < e.length) (h : InBin e k v) :
    e.getD 0 0 ≤ v ∧ v ≤ e.getD (e.length - 1) 0 := by
  refine ⟨(he.le (Nat.zero_le _) (by omega)).trans h.1, ?_⟩
  have : e.getD (k + 1) 0 ≤ e.getD (e.length - 1) 0 := he.le (by omega) (by omega)
  rcases h.2 with h | ⟨-, h⟩
  · exact h.le.trans this
  · exact h.le.trans this

open Classical in
theorem histogram_getElem? (e : List ℝ) (xs : List (Option ℝ)) {k : ℕ} (hk : k + 1 < e.length) :
    (histogram e xs)[k]? = some (xs.countP fun x => decide (∃ v, x = some v ∧ InBin e k v)) := by
  unfold histogram
  rw [List.getElem?_map, List.getElem?_range (by omega), Option.map_some]
  congr 1
  refine List.countP_congr fun x _ => ?_
  cases x with
  | none => simp
  | some v => simp [InBin]

theorem histogram_length (e : List ℝ) (xs : List (Option ℝ)) : (histogram e xs).length = e.length - 1 := by
  simp [histogram]

open Classical in
theorem sum_countP {α : Type} (n : ℕ) (P : ℕ → α → Prop) [∀ k x, Decidable (P k x)] (xs : List α) (h : ∀ x ∈ xs, ∀ i j, i < n → j < n → P i x → P j x → i = j) :
    ((List.range n).map fun k => xs.countP fun x => decide (P k x)).sum = xs.countP fun x => decide (∃ k < n, P k x) := by
  induction xs with
  | nil => simp
  | cons x xs ih =>
    have ih := ih fun y hy => h y (List.mem_cons_of_mem _ hy)
    have h0 := h x List.mem_cons_self
    simp only [List.countP_cons]
    rw [List.sum_map_add, ih]
    congr 1
    rw [sum_map_range]
    simp only [decide_eq_true_eq]
    by_cases hx : ∃ k < n, P k x
    · obtain ⟨k, hk, hp⟩ := hx
      rw [if_pos ⟨k, hk, hp⟩, Finset.sum_eq_single k]
      · rw [if_pos hp]
      · intro j hj hne
        rw [if_neg]
        intro hpj
        exact hne (h0 j k (Finset.mem_range.1 hj) hk hpj hp)
      · intro hk'
        exact absurd (Finset.mem_range.2 hk) hk'
    · rw [if_neg hx]
      refine Finset.sum_eq_zero fun j hj => ?_
      rw [if_neg]
      intro hp
      exact hx ⟨j, Finset.mem_range.1 hj, hp⟩

open Classical in
/-- The counts add up to the number of values in the covered range. -/
theorem histogram_sum {e : List ℝ} (he : Increasing e) (hl : 2 ≤ e.length) (xs : List (Option ℝ)) :
    (histogram e xs).sum = xs.countP fun x => decide (∃ v, x = some v ∧ e.getD 0 0 ≤ v ∧ v ≤ e.getD (e.length - 1) 0) := by
  have h1 : histogram e xs = (List.range (e.length - 1)).map fun k =>
      xs.countP fun x => decide (∃ v, x = some v ∧ InBin e k v) := by
    refine List.ext_getElem? fun k => ?_
    by_cases hk : k + 1 < e.length
    · rw [histogram_getElem? e xs hk, List.getElem?_map, List.getElem?_range (by omega), Option.map_some]
    · rw [List.getElem?_eq_none (by rw [histogram_length]; omega), List.getElem?_eq_none (by simp; omega)]
  rw [h1, sum_countP (e.length - 1) (fun k (x : Option ℝ) => ∃ v, x = some v ∧ InBin e k v) xs]
  · refine List.countP_congr fun x _ => ?_
    simp only [decide_eq_true_eq]
    constructor
    · rintro ⟨k, hk, v, rfl, hb⟩
      exact ⟨v, rfl, bin_range he (by omega) hb⟩
    · rintro ⟨v, rfl, h0, h1⟩
      obtain ⟨k, hk, hb⟩ := bin_exists hl h0 h1
      exact ⟨k, by omega, v, rfl, hb⟩
  · rintro x - i j hi hj ⟨v, rfl, hv⟩ ⟨w, hw, hw'⟩
    obtain rfl := Option.some.inj hw
    exact bin_unique he (by omega) (by omega) hv hw'

/-- The counts of a duplicate-free list as cardinalities. -/
theorem countP_card {α : Type} [DecidableEq α] {l : List α} (hl : l.Nodup) (P : α → Prop) [DecidablePred P] :
    l.countP (fun x => decide (P x)) = (l.toFinset.filter P).card := by
  rw [List.countP_eq_length_filter, ← List.toFinset_card_of_nodup (hl.filter _), List.toFinset_filter]
  simp

theorem pyCos_eq {u v : V3} (hu : u ≠ 0) (hv : v ≠ 0) : pyCos u v = some (Spec.cosAngle u v) := by
  unfold pyCos fdiv
  have := V3.norm_pos_of_ne hu
  have := V3.norm_pos_of_ne hv
  rw [if_neg (by positivity)]
  rfl

theorem pyCos_none {u v : V3} (h : u = 0 ∨ v = 0) : pyCos u v = none := by
  unfold pyCos fdiv
  rw [if_pos]
  rcases h with rfl | rfl <;> simp [V3.norm_zero]

theorem cosAngle_mem {u v : V3} (hu : u ≠ 0) (hv : v ≠ 0) : -1 ≤ Spec.cosAngle u v ∧ Spec.cosAngle u v ≤ 1 := by
  have h1 := V3.norm_pos_of_ne hu
  have h2 := V3.norm_pos_of_ne hv
  have := abs_le.1 (abs_dot_le u v)
  unfold Spec.cosAngle
  constructor
  · rw [le_div_iff₀ (by positivity)]; linarith [this.1]
  · rw [div_le_iff₀ (by positivity)]; linarith [this.2]

end Pyscal
