import Verif.Lemmas.Legendre
import Verif.Lemmas.Geometry
import Verif.Lemmas.Neighbors
import Mathlib.Algebra.BigOperators.Group.Finset.Basic
import Mathlib.Algebra.Order.BigOperators.Ring.Finset
import Mathlib.Tactic.FieldSimp
import Mathlib.Tactic.Positivity

/-! Closed form of the code's harmonics and the addition theorem. -/

namespace Pyscal

/-! ### Closed form -/

theorem pmmLoop_eq (t : ℝ) (n : ℕ) : pmmLoop t n = (pmmCoef n * t ^ n, 2 * (n : ℝ) + 1) := by
  induction n with
  | zero => simp [pmmLoop, pmmCoef]
  | succ n ih =>
    simp only [pmmLoop, ih, pmmCoef, Prod.mk.injEq]
    constructor
    · ring
    · push_cast; ring

theorem pllLoop_eq (m : ℕ) (x p : ℝ) (n : ℕ) :
    pllLoop m x p (x * (2 * (m : ℝ) + 1) * p) n = (p * plmPoly m x n, p * plmPoly m x (n + 1)) := by
  induction n with
  | zero => simp only [pllLoop, plmPoly, Prod.mk.injEq]; exact ⟨by ring, by ring⟩
  | succ n ih =>
    simp only [pllLoop, ih, plmPoly, Prod.mk.injEq, true_and]
    ring

theorem PLM_eq (l m : ℕ) (h : m ≤ l) (x : ℝ) :
    PLM l m x = pmmCoef m * Real.sqrt ((1 - x) * (1 + x)) ^ m * plmPoly m x (l - m) := by
  have hp : (if m > 0 then (pmmLoop (Real.sqrt ((1 - x) * (1 + x))) m).1 else 1)
      = pmmCoef m * Real.sqrt ((1 - x) * (1 + x)) ^ m := by
    split_ifs with hm
    · rw [pmmLoop_eq]
    · obtain rfl : m = 0 := by omega
      simp [pmmCoef]
  obtain ⟨n, rfl⟩ := Nat.exists_eq_add_of_le h
  unfold PLM
  simp only [hp]
  rcases n with _ | _ | n
  · simp [plmPoly]
  · simp only [Nat.zero_add]
    rw [if_neg (by omega), if_pos trivial, Nat.add_sub_cancel_left, plmPoly]; ring
  · rw [if_neg (by omega), if_neg (by omega), pllLoop_eq, Nat.add_sub_cancel_left]
    rw [show m + (n + 1 + 1) - (m + 1) = n + 1 by omega]

/-- The transverse part of the direction of `v`, as a complex number. -/
noncomputable def V3.cx (v : V3) : ℂ := ⟨v.x / v.norm, v.y / v.norm⟩

/-- The `z` component of the direction of `v`. -/
noncomputable def V3.cz (v : V3) : ℝ := v.z / v.norm

theorem V3.normSq_cx {v : V3} (h : v ≠ 0) : Complex.normSq v.cx = 1 - v.cz ^ 2 := by
  have hr := V3.norm_pos_of_ne h
  have h2 := V3.norm_sq v
  simp only [V3.normSq] at h2
  simp only [Complex.normSq_apply, V3.cx, V3.cz]
  field_simp
  nlinarith

theorem V3.cos_theta {v : V3} (h : v ≠ 0) : Real.cos v.theta = v.cz := by
  have h1 := V3.normSq_cx h
  have h2 := Complex.normSq_nonneg v.cx
  have h3 : v.cz ^ 2 ≤ 1 := by linarith
  have h4 := abs_le.1 (abs_le_one_iff_mul_self_le_one.2 (by nlinarith : v.cz * v.cz ≤ 1))
  exact Real.cos_arccos h4.1 h4.2

theorem V3.sqrt_cz {v : V3} (h : v ≠ 0) : Real.sqrt ((1 - v.cz) * (1 + v.cz)) = ‖v.cx‖ := by
  rw [show (1 - v.cz) * (1 + v.cz) = 1 - v.cz ^ 2 by ring, ← V3.normSq_cx h, Complex.normSq_eq_norm_sq,
    Real.sqrt_sq (_root_.norm_nonneg _)]

theorem V3.arg_cx {v : V3} (h : v ≠ 0) : Complex.arg v.cx = v.phi := by
  have hr := V3.norm_pos_of_ne h
  have : v.cx = ((v.norm⁻¹ : ℝ) : ℂ) * ⟨v.x, v.y⟩ := by
    apply Complex.ext
    · rw [Complex.re_ofReal_mul, ← div_eq_inv_mul]; rfl
    · rw [Complex.im_ofReal_mul, ← div_eq_inv_mul]; rfl
  rw [this, Complex.arg_real_mul _ (inv_pos.2 hr)]
  rfl

theorem pow_cx (w : ℂ) (m : ℕ) :
    ‖w‖ ^ m * Real.cos (m * Complex.arg w) = (w ^ m).re ∧ ‖w‖ ^ m * Real.sin (m * Complex.arg w) = (w ^ m).im := by
  have h : w ^ m = ((‖w‖ ^ m : ℝ) : ℂ) * Complex.exp (((m * Complex.arg w : ℝ)) * Complex.I) := by
    conv_lhs => rw [← Complex.norm_mul_exp_arg_mul_I w]
    rw [mul_pow, ← Complex.exp_nat_mul]
    push_cast
    ring_nf
  constructor
  · rw [h, Complex.re_ofReal_mul, Complex.exp_ofReal_mul_I_re]
  · rw [h, Complex.im_ofReal_mul, Complex.exp_ofReal_mul_I_im]

/-- Amplitude of `Y_lm`. -/
noncomputable def ylmAmp (l m : ℕ) : ℝ := Real.sqrt (((2 * (l : ℝ) + 1) / (4 * PI)) * dfactorial l m)

theorem YLM_eq (l m : ℕ) (h : m ≤ l) {v : V3} (hv : v ≠ 0) :
    YLM l m v.theta v.phi =
      (ylmAmp l m * pmmCoef m * plmPoly m v.cz (l - m) * (v.cx ^ m).re,
       ylmAmp l m * pmmCoef m * plmPoly m v.cz (l - m) * (v.cx ^ m).im) := by
  have hc := pow_cx v.cx m
  rw [V3.arg_cx hv] at hc
  simp only [YLM, V3.cos_theta hv, PLM_eq l m h, V3.sqrt_cz hv, ylmAmp]
  rw [← hc.1, ← hc.2]
  ext <;> simp only <;> ring

theorem foldl_mul_eq (f : ℕ → ℝ) (l : List ℕ) (a : ℝ) : l.foldl (fun fac i => fac * f i) a = a * (l.map f).prod := by
  induction l generalizing a with
  | nil => simp
  | cons x l ih => simp [ih, mul_assoc]

theorem dfactorial_pos (l m : ℕ) (h : m ≤ l) : 0 < dfactorial l m := by
  unfold dfactorial
  rw [foldl_mul_eq, one_mul]
  refine one_div_pos.2 (List.prod_pos ?_)
  intro a ha
  obtain ⟨i, hi, rfl⟩ := List.mem_map.1 ha
  have hi : i < 2 * m := List.mem_range.1 hi
  have : (i : ℝ) + 1 ≤ 2 * m := by exact_mod_cast hi
  have : (m : ℝ) ≤ l := by exact_mod_cast h
  linarith

theorem PI_pos : 0 < PI := by unfold PI; norm_num

theorem ylmAmp_sq (l m : ℕ) (h : m ≤ l) :
    ylmAmp l m * ylmAmp l m = ((2 * (l : ℝ) + 1) / (4 * PI)) * dfactorial l m := by
  have := PI_pos
  have := dfactorial_pos l m h
  exact Real.mul_self_sqrt (by positivity)

theorem rePow_eq (w : ℂ) (m : ℕ) : (w ^ m).re = rePow w.re (Complex.normSq w) m := by
  induction m using Nat.twoStepInduction with
  | zero => simp [rePow]
  | one => simp [rePow]
  | more n h0 h1 =>
    have h2 : w ^ 2 = 2 * (w.re : ℂ) * w - (Complex.normSq w : ℂ) := by
      apply Complex.ext
      · simp [pow_two, Complex.normSq_apply]; ring
      · simp [pow_two]; ring
    have : w ^ (n + 2) = ((2 * w.re : ℝ) : ℂ) * w ^ (n + 1) - ((Complex.normSq w : ℝ) : ℂ) * w ^ n := by
      rw [pow_add, h2]; push_cast; ring
    rw [this, Complex.sub_re, Complex.re_ofReal_mul, Complex.re_ofReal_mul, h0, h1, rePow]

/-- Scalar product of two pairs. -/
def dot2 (a b : ℝ × ℝ) : ℝ := a.1 * b.1 + a.2 * b.2

theorem dot2_pow (w w' : ℂ) (m : ℕ) :
    (w ^ m).re * (w' ^ m).re + (w ^ m).im * (w' ^ m).im
      = rePow (w.re * w'.re + w.im * w'.im) (Complex.normSq w * Complex.normSq w') m := by
  have h := rePow_eq (w * (starRingEnd ℂ) w') m
  rw [mul_pow, ← map_pow] at h
  simp only [Complex.mul_re, Complex.conj_re, Complex.conj_im, map_mul, Complex.normSq_conj] at h
  rw [mul_neg, sub_neg_eq_add, mul_neg, sub_neg_eq_add] at h
  exact h

theorem YLM_dot (l m : ℕ) (h : m ≤ l) {u v : V3} (hu : u ≠ 0) (hv : v ≠ 0) :
    dot2 (YLM l m u.theta u.phi) (YLM l m v.theta v.phi)
      = ((2 * (l : ℝ) + 1) / (4 * PI)) *
        addTerm l u.cz v.cz (u.cx.re * v.cx.re + u.cx.im * v.cx.im) m := by
  rw [YLM_eq l m h hu, YLM_eq l m h hv, addTerm, ← V3.normSq_cx hu, ← V3.normSq_cx hv, ← dot2_pow, dot2]
  have := ylmAmp_sq l m h
  simp only
  calc _ = (ylmAmp l m * ylmAmp l m) * (pmmCoef m ^ 2 * (plmPoly m u.cz (l - m) * plmPoly m v.cz (l - m) *
      ((u.cx ^ m).re * (v.cx ^ m).re + (u.cx ^ m).im * (v.cx ^ m).im))) := by ring
    _ = _ := by rw [this]; ring

theorem QLM_dot (l : ℕ) (mi : ℤ) (h : mi.natAbs ≤ l) {u v : V3} (hu : u ≠ 0) (hv : v ≠ 0) :
    dot2 (QLM l mi u.theta u.phi) (QLM l mi v.theta v.phi)
      = ((2 * (l : ℝ) + 1) / (4 * PI)) *
        addTerm l u.cz v.cz (u.cx.re * v.cx.re + u.cx.im * v.cx.im) mi.natAbs := by
  rw [← YLM_dot l _ h hu hv]
  unfold QLM
  split_ifs
  · have h1 : ((-1 : ℝ) ^ mi) * (-1) ^ mi = 1 := by
      rw [← mul_zpow]; norm_num
    simp only [dot2]
    set y := YLM l mi.natAbs u.theta u.phi
    set y' := YLM l mi.natAbs v.theta v.phi
    calc _ = (((-1 : ℝ) ^ mi) * (-1) ^ mi) * (y.1 * y'.1 + y.2 * y'.2) := by ring
      _ = _ := by rw [h1, one_mul]
  · rfl

/-! ### Sums over `m` -/

/-- Scalar product of two coefficient vectors. -/
noncomputable def ip (l : ℕ) (f g : ℕ → ℝ × ℝ) : ℝ := ∑ k ∈ Finset.range (2 * l + 1), dot2 (f k) (g k)

theorem sum_natAbs (l : ℕ) (F : ℕ → ℝ) :
    ∑ k ∈ Finset.range (2 * l + 1), F ((k : ℤ) - l).natAbs = F 0 + 2 * ∑ m ∈ Finset.range l, F (m + 1) := by
  rw [show 2 * l + 1 = l + (l + 1) by ring, Finset.sum_range_add]
  rw [Finset.sum_range_succ']
  have h1 : ∑ k ∈ Finset.range l, F ((k : ℤ) - l).natAbs = ∑ m ∈ Finset.range l, F (m + 1) := by
    rw [← Finset.sum_range_reflect]
    refine Finset.sum_congr rfl fun k hk => ?_
    have := Finset.mem_range.1 hk
    congr 1
    omega
  have h2 : ∑ k ∈ Finset.range l, F (((l + (k + 1) : ℕ) : ℤ) - l).natAbs = ∑ m ∈ Finset.range l, F (m + 1) := by
    refine Finset.sum_congr rfl fun k _ => ?_
    congr 1
    omega
  rw [h1, h2, show (((l + 0 : ℕ) : ℤ) - l).natAbs = 0 by simp]
  ring

/-- The coefficient vector of a single direction. -/
noncomputable def yVec (l : ℕ) (v : V3) : ℕ → ℝ × ℝ := fun k => QLM l ((k : ℤ) - l) v.theta v.phi

theorem cosAngle_eq (u v : V3) :
    Spec.cosAngle u v = (u.cx.re * v.cx.re + u.cx.im * v.cx.im) + u.cz * v.cz := by
  simp only [Spec.cosAngle, V3.dot, V3.cx, V3.cz]
  rw [div_mul_div_comm, div_mul_div_comm, div_mul_div_comm, ← add_div, ← add_div]

/-- The addition theorem for the harmonics computed by the code. -/
theorem addition (l : ℕ) (h2 : 2 ≤ l) (h12 : l ≤ 12) {u v : V3} (hu : u ≠ 0) (hv : v ≠ 0) :
    ip l (yVec l u) (yVec l v) = ((2 * (l : ℝ) + 1) / (4 * PI)) * Spec.legendre l (Spec.cosAngle u v) := by
  rw [cosAngle_eq, ← addSum_eq l h2 h12]
  unfold ip yVec
  have : ∀ k ∈ Finset.range (2 * l + 1),
      dot2 (QLM l ((k : ℤ) - l) u.theta u.phi) (QLM l ((k : ℤ) - l) v.theta v.phi)
      = ((2 * (l : ℝ) + 1) / (4 * PI)) *
        addTerm l u.cz v.cz (u.cx.re * v.cx.re + u.cx.im * v.cx.im) ((k : ℤ) - l).natAbs := by
    intro k hk
    have := Finset.mem_range.1 hk
    exact QLM_dot l _ (by omega) hu hv
  rw [Finset.sum_congr rfl this, ← Finset.mul_sum, sum_natAbs, addSum, sum_map_range]

theorem legendre_one (l : ℕ) : Spec.legendre l 1 = 1 := by
  induction l using Nat.twoStepInduction with
  | zero => rfl
  | one => rfl
  | more n h0 h1 =>
    rw [Spec.legendre, h0, h1]
    have : ((n : ℝ) + 2) ≠ 0 := by positivity
    field_simp
    ring

theorem cosAngle_self {v : V3} (hv : v ≠ 0) : Spec.cosAngle v v = 1 := by
  have hr := V3.norm_pos_of_ne hv
  unfold Spec.cosAngle
  rw [V3.norm_sq]
  exact div_self (show V3.normSq v ≠ 0 by rw [← V3.norm_sq]; positivity)

/-! ### The bilinear form -/

theorem dot2_comm (a b : ℝ × ℝ) : dot2 a b = dot2 b a := by unfold dot2; ring

theorem ip_comm (l : ℕ) (f g : ℕ → ℝ × ℝ) : ip l f g = ip l g f := Finset.sum_congr rfl fun _ _ => dot2_comm _ _

theorem ip_self_nonneg (l : ℕ) (f : ℕ → ℝ × ℝ) : 0 ≤ ip l f f :=
  Finset.sum_nonneg fun _ _ => add_nonneg (mul_self_nonneg _) (mul_self_nonneg _)

theorem ip_smul_left (l : ℕ) (c : ℝ) (f g : ℕ → ℝ × ℝ) : ip l (fun k => (c * (f k).1, c * (f k).2)) g = c * ip l f g := by
  unfold ip
  rw [Finset.mul_sum]
  exact Finset.sum_congr rfl fun _ _ => by unfold dot2; ring

theorem ip_add_left (l : ℕ) (f f' g : ℕ → ℝ × ℝ) :
    ip l (fun k => ((f k).1 + (f' k).1, (f k).2 + (f' k).2)) g = ip l f g + ip l f' g := by
  unfold ip
  rw [← Finset.sum_add_distrib]
  exact Finset.sum_congr rfl fun _ _ => by unfold dot2; ring

theorem ip_zero_left (l : ℕ) (g : ℕ → ℝ × ℝ) : ip l (fun _ => (0, 0)) g = 0 :=
  Finset.sum_eq_zero fun _ _ => by simp [dot2]

/-- Cauchy-Schwarz. -/
theorem ip_sq_le (l : ℕ) (f g : ℕ → ℝ × ℝ) : ip l f g ^ 2 ≤ ip l f f * ip l g g := by
  by_cases hg : ip l g g = 0
  · have hz : ∀ k ∈ Finset.range (2 * l + 1), dot2 (g k) (g k) = 0 :=
      (Finset.sum_eq_zero_iff_of_nonneg (fun _ _ => add_nonneg (mul_self_nonneg _) (mul_self_nonneg _))).1 hg
    have : ip l f g = 0 := by
      refine Finset.sum_eq_zero fun k hk => ?_
      have h := hz k hk
      unfold dot2 at h ⊢
      have h1 : (g k).1 = 0 := by nlinarith [mul_self_nonneg (g k).1, mul_self_nonneg (g k).2]
      have h2 : (g k).2 = 0 := by nlinarith [mul_self_nonneg (g k).1, mul_self_nonneg (g k).2]
      simp [h1, h2]
    rw [this, hg]; simp
  · have hpos : 0 < ip l g g := lt_of_le_of_ne (ip_self_nonneg l g) (Ne.symm hg)
    set c := ip l f g / ip l g g with hc
    have h := ip_self_nonneg l (fun k => ((f k).1 + (-c * (g k).1), (f k).2 + (-c * (g k).2)))
    have e : ip l (fun k => ((f k).1 + (-c * (g k).1), (f k).2 + (-c * (g k).2)))
        (fun k => ((f k).1 + (-c * (g k).1), (f k).2 + (-c * (g k).2)))
        = ip l f f - 2 * c * ip l f g + c ^ 2 * ip l g g := by
      rw [ip_add_left l f (fun k => (-c * (g k).1, -c * (g k).2)), ip_smul_left, ip_comm l f, ip_comm l g,
        ip_add_left l f (fun k => (-c * (g k).1, -c * (g k).2)), ip_add_left l f (fun k => (-c * (g k).1, -c * (g k).2)),
        ip_smul_left, ip_smul_left, ip_comm l g f]
      ring
    rw [e] at h
    have hcg : c * ip l g g = ip l f g := by rw [hc]; field_simp
    have h' : 0 ≤ (ip l f f - 2 * c * ip l f g + c ^ 2 * ip l g g) * ip l g g := mul_nonneg h hpos.le
    have : (ip l f f - 2 * c * ip l f g + c ^ 2 * ip l g g) * ip l g g
        = ip l f f * ip l g g - 2 * (c * ip l g g) * ip l f g + (c * ip l g g) ^ 2 := by ring
    rw [this, hcg] at h'
    nlinarith

theorem sqrt_ip_add_le (l : ℕ) (f g : ℕ → ℝ × ℝ) :
    Real.sqrt (ip l (fun k => ((f k).1 + (g k).1, (f k).2 + (g k).2)) (fun k => ((f k).1 + (g k).1, (f k).2 + (g k).2)))
      ≤ Real.sqrt (ip l f f) + Real.sqrt (ip l g g) := by
  refine Real.sqrt_le_iff.2 ⟨by positivity, ?_⟩
  have e : ip l (fun k => ((f k).1 + (g k).1, (f k).2 + (g k).2)) (fun k => ((f k).1 + (g k).1, (f k).2 + (g k).2))
      = ip l f f + 2 * ip l f g + ip l g g := by
    rw [ip_add_left, ip_comm l f, ip_comm l g, ip_add_left, ip_add_left, ip_comm l g f]; ring
  rw [e, add_sq, Real.sq_sqrt (ip_self_nonneg _ _), Real.sq_sqrt (ip_self_nonneg _ _)]
  have : ip l f g ≤ Real.sqrt (ip l f f) * Real.sqrt (ip l g g) := by
    rw [← Real.sqrt_mul (ip_self_nonneg _ _)]
    exact Real.le_sqrt_of_sq_le (ip_sq_le l f g)
  linarith

theorem sqrt_ip_smul (l : ℕ) (c : ℝ) (f : ℕ → ℝ × ℝ) :
    Real.sqrt (ip l (fun k => (c * (f k).1, c * (f k).2)) (fun k => (c * (f k).1, c * (f k).2)))
      = |c| * Real.sqrt (ip l f f) := by
  rw [ip_smul_left, ip_comm, ip_smul_left, ← mul_assoc, Real.sqrt_mul (mul_self_nonneg c), Real.sqrt_mul_self_eq_abs]

/-! ### `qValue`, `qSum` -/

theorem foldl_add_eq {α : Type} (f : α → ℝ) (l : List α) (a : ℝ) :
    l.foldl (fun s k => s + f k) a = a + (l.map f).sum := by
  induction l generalizing a with
  | nil => simp
  | cons x l ih => simp [ih, add_assoc]

theorem qValue_eq (l : ℕ) (c : ℕ → ℝ × ℝ) : qValue l c = Real.sqrt ((4 * PI / (2 * l + 1)) * ip l c c) := by
  unfold qValue ip
  rw [foldl_add_eq, zero_add, sum_map_range]
  rfl

theorem qWeight_eq (nbs : List Nb) : qWeight nbs = (nbs.map Nb.weight).sum := by
  unfold qWeight; rw [foldl_add_eq, zero_add]

theorem qSum_eq (l : ℕ) (mi : ℤ) (nbs : List Nb) :
    qSum l mi nbs = ((nbs.map fun x => x.weight * (QLM l mi x.vec.theta x.vec.phi).1).sum,
      (nbs.map fun x => x.weight * (QLM l mi x.vec.theta x.vec.phi).2).sum) := by
  unfold qSum
  have : ∀ (L : List Nb) (acc : ℝ × ℝ), L.foldl (fun acc x =>
      let y := QLM l mi x.vec.theta x.vec.phi
      (acc.1 + x.weight * y.1, acc.2 + x.weight * y.2)) acc
      = (acc.1 + (L.map fun x => x.weight * (QLM l mi x.vec.theta x.vec.phi).1).sum,
         acc.2 + (L.map fun x => x.weight * (QLM l mi x.vec.theta x.vec.phi).2).sum) := by
    intro L
    induction L with
    | nil => intro acc; simp
    | cons x L ih => intro acc; simp [ih, add_assoc]
  rw [this]; simp

/-- The unnormalised coefficient vector of a neighbour list. -/
noncomputable def sumVec (l : ℕ) (nbs : List Nb) : ℕ → ℝ × ℝ := fun k => qSum l ((k : ℤ) - l) nbs

theorem sumVec_nil (l : ℕ) : sumVec l [] = fun _ => (0, 0) := by
  funext k; simp [sumVec, qSum_eq]

theorem sumVec_cons (l : ℕ) (x : Nb) (L : List Nb) : sumVec l (x :: L) = fun k =>
    (x.weight * (yVec l x.vec k).1 + (sumVec l L k).1, x.weight * (yVec l x.vec k).2 + (sumVec l L k).2) := by
  funext k; simp [sumVec, qSum_eq, yVec]

theorem ip_sumVec_left (l : ℕ) (L : List Nb) (g : ℕ → ℝ × ℝ) :
    ip l (sumVec l L) g = (L.map fun x => x.weight * ip l (yVec l x.vec) g).sum := by
  induction L with
  | nil => rw [sumVec_nil, ip_zero_left]; rfl
  | cons x L ih =>
    rw [sumVec_cons, ip_add_left l (fun k => (x.weight * (yVec l x.vec k).1, x.weight * (yVec l x.vec k).2)),
      ip_smul_left, ih]
    rfl

/-- Weights and vectors of a neighbour list. -/
def wv (L : List Nb) : List (ℝ × V3) := L.map fun x => (x.weight, x.vec)

theorem ip_sumVec_cross (l : ℕ) (h2 : 2 ≤ l) (h12 : l ≤ 12) (L L' : List Nb) (hL : ∀ x ∈ L, x.vec ≠ 0)
    (hL' : ∀ x ∈ L', x.vec ≠ 0) :
    ip l (sumVec l L) (sumVec l L') = ((2 * (l : ℝ) + 1) / (4 * PI)) * Spec.crossSum l (wv L) (wv L') := by
  rw [ip_sumVec_left, Spec.crossSum, ← List.sum_map_mul_left, show wv L = L.map fun x => (x.weight, x.vec) from rfl,
    List.map_map]
  refine congrArg List.sum (List.map_congr_left fun x hx => ?_)
  rw [ip_comm, ip_sumVec_left, Function.comp, wv, List.map_map, ← List.sum_map_mul_left, ← List.sum_map_mul_left]
  refine congrArg List.sum (List.map_congr_left fun y hy => ?_)
  rw [ip_comm, addition l h2 h12 (hL x hx) (hL' y hy)]
  simp only [Function.comp]
  ring

theorem ip_sumVec (l : ℕ) (h2 : 2 ≤ l) (h12 : l ≤ 12) (L : List Nb) (hL : ∀ x ∈ L, x.vec ≠ 0) :
    ip l (sumVec l L) (sumVec l L) = ((2 * (l : ℝ) + 1) / (4 * PI)) * Spec.pairSum l (wv L) :=
  ip_sumVec_cross l h2 h12 L L hL hL

theorem sqrt_ip_yVec (l : ℕ) (h2 : 2 ≤ l) (h12 : l ≤ 12) {v : V3} (hv : v ≠ 0) :
    ip l (yVec l v) (yVec l v) = (2 * (l : ℝ) + 1) / (4 * PI) := by
  rw [addition l h2 h12 hv hv, cosAngle_self hv, legendre_one, mul_one]

theorem qValue_smul (l : ℕ) (c : ℝ) (f : ℕ → ℝ × ℝ) : qValue l (fun k => (c * (f k).1, c * (f k).2)) = |c| * qValue l f := by
  have := PI_pos
  rw [qValue_eq, qValue_eq, Real.sqrt_mul (by positivity), Real.sqrt_mul (by positivity), sqrt_ip_smul]
  ring

theorem qValue_add_le (l : ℕ) (f g : ℕ → ℝ × ℝ) :
    qValue l (fun k => ((f k).1 + (g k).1, (f k).2 + (g k).2)) ≤ qValue l f + qValue l g := by
  have := PI_pos
  rw [qValue_eq, qValue_eq, qValue_eq, Real.sqrt_mul (by positivity), Real.sqrt_mul (by positivity),
    Real.sqrt_mul (by positivity), ← mul_add]
  exact mul_le_mul_of_nonneg_left (sqrt_ip_add_le l f g) (Real.sqrt_nonneg _)

theorem qValue_nonneg (l : ℕ) (f : ℕ → ℝ × ℝ) : 0 ≤ qValue l f := by rw [qValue_eq]; exact Real.sqrt_nonneg _

theorem qValue_yVec (l : ℕ) (h2 : 2 ≤ l) (h12 : l ≤ 12) {v : V3} (hv : v ≠ 0) : qValue l (yVec l v) = 1 := by
  have := PI_pos
  rw [qValue_eq, sqrt_ip_yVec l h2 h12 hv]
  have : (4 * PI / (2 * (l : ℝ) + 1)) * ((2 * (l : ℝ) + 1) / (4 * PI)) = 1 := by field_simp
  rw [this, Real.sqrt_one]

theorem qValue_sumVec_le (l : ℕ) (h2 : 2 ≤ l) (h12 : l ≤ 12) (L : List Nb) (hL : ∀ x ∈ L, x.vec ≠ 0)
    (hw : ∀ x ∈ L, 0 ≤ x.weight) : qValue l (sumVec l L) ≤ (L.map Nb.weight).sum := by
  induction L with
  | nil =>
    rw [sumVec_nil, qValue_eq, ip_zero_left]; simp
  | cons x L ih =>
    rw [sumVec_cons]
    refine (qValue_add_le l (fun k => (x.weight * (yVec l x.vec k).1, x.weight * (yVec l x.vec k).2)) _).trans ?_
    rw [qValue_smul, qValue_yVec l h2 h12 (hL x (by simp)), abs_of_nonneg (hw x (by simp)), mul_one,
      List.map_cons, List.sum_cons]
    exact add_le_add_right (ih (fun y hy => hL y (by simp [hy])) (fun y hy => hw y (by simp [hy]))) _

theorem qValue_sumVec (l : ℕ) (h2 : 2 ≤ l) (h12 : l ≤ 12) (L : List Nb) (hL : ∀ x ∈ L, x.vec ≠ 0) :
    qValue l (sumVec l L) = Real.sqrt (Spec.pairSum l (wv L)) := by
  have := PI_pos
  rw [qValue_eq, ip_sumVec l h2 h12 L hL, ← mul_assoc]
  have : (4 * PI / (2 * (l : ℝ) + 1)) * ((2 * (l : ℝ) + 1) / (4 * PI)) = 1 := by field_simp
  rw [this, one_mul]

end Pyscal
