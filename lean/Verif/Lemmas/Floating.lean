import Verif.Lemmas.Rounding
import Verif.Lemmas.Displaced
import Verif.Lemmas.FindNeighbors
import Verif.Model.Floating

/-! Error bounds for the distances computed with rounding. -/

namespace Pyscal

open Spec (IsDouble RoundsToNearest)

variable {fl : ℝ → ℝ}

theorem fl_zero (h : RoundsToNearest fl) : fl 0 = 0 := fl_double h ⟨0, 0, by norm_num, by simp⟩

theorem fl_mono0 (h : RoundsToNearest fl) {x : ℝ} (hx : 0 ≤ x) : 0 ≤ fl x := le_fl h ⟨0, 0, by norm_num, by simp⟩ hx

/-- Rounding changes a number by at most its 2^53-th part. -/
theorem fl_rel (h : RoundsToNearest fl) (x : ℝ) : |fl x - x| ≤ 1 / 2 ^ 53 * |x| := by
  by_cases h0 : x = 0
  · subst h0
    rw [fl_zero h]
    simp
  have hx : 0 < |x| := abs_pos.2 h0
  refine ((h x).2 _ (flExample_rounds x).1).trans ?_
  set k := Int.log 2 |x| with hk
  have hlo : (2 : ℝ) ^ k ≤ |x| := by
    have := Int.zpow_log_le_self (b := 2) (r := |x|) (by norm_num) hx
    exact_mod_cast this
  have hu : (0 : ℝ) < 2 ^ (k - 52) := zpow_pos (by norm_num) _
  set u : ℝ := 2 ^ (k - 52) with hud
  have e : flExample x = round (x / u) * u := rfl
  have hpow : (2 : ℝ) ^ k = 2 ^ 52 * u := by
    rw [hud, show k = (52 : ℤ) + (k - 52) by ring, zpow_add₀ (by norm_num)]
    norm_num
  have e1 : |round (x / u) * u - x| = |x / u - round (x / u)| * u := by
    rw [abs_sub_comm, ← abs_of_pos hu, ← abs_mul, abs_of_pos hu, sub_mul, div_mul_cancel₀ _ hu.ne']
  rw [e, e1]
  have := mul_le_mul_of_nonneg_right (abs_sub_round (x / u)) hu.le
  rw [hpow] at hlo
  linarith

theorem fl_between (h : RoundsToNearest fl) {x : ℝ} (hx : 0 ≤ x) : (1 - 1 / 2 ^ 53) * x ≤ fl x ∧ fl x ≤ (1 + 1 / 2 ^ 53) * x := by
  have := abs_le.1 (fl_rel h x)
  rw [abs_of_nonneg hx] at this
  constructor <;> linarith [this.1, this.2]

theorem double_half {x : ℝ} (h : IsDouble x) : IsDouble (x / 2) := by
  have := double_scale h (-1)
  rwa [zpow_neg_one] at this

theorem fl_half (h : RoundsToNearest fl) {b : ℝ} (hb : IsDouble b) : fl (b / 2) = b / 2 ∧ fl (-b / 2) = -b / 2 :=
  ⟨fl_double h (double_half hb), fl_double h (double_half (double_neg hb))⟩

/-- The squared length. -/
theorem flDot_self (h : RoundsToNearest fl) (v : V3) : (1 - 1 / 2 ^ 53) ^ 4 * V3.normSq v ≤ flDot fl v v ∧ flDot fl v v ≤ (1 + 1 / 2 ^ 53) ^ 4 * V3.normSq v := by
  obtain ⟨x1, x2⟩ := fl_between h (mul_self_nonneg v.x)
  obtain ⟨y1, y2⟩ := fl_between h (mul_self_nonneg v.y)
  obtain ⟨z1, z2⟩ := fl_between h (mul_self_nonneg v.z)
  have x0 := fl_mono0 h (mul_self_nonneg v.x)
  have y0 := fl_mono0 h (mul_self_nonneg v.y)
  have z0 := fl_mono0 h (mul_self_nonneg v.z)
  obtain ⟨s1, s2⟩ := fl_between h (add_nonneg x0 y0)
  have s0 := fl_mono0 h (add_nonneg x0 y0)
  obtain ⟨t1, t2⟩ := fl_between h (add_nonneg s0 z0)
  have a := mul_self_nonneg v.x
  have b := mul_self_nonneg v.y
  have c := mul_self_nonneg v.z
  unfold flDot V3.normSq
  set X := v.x * v.x
  set Y := v.y * v.y
  set Z := v.z * v.z
  constructor <;> norm_num at * <;> linarith

theorem flNorm_nonneg (h : RoundsToNearest fl) (v : V3) : 0 ≤ flNorm fl v := fl_mono0 h (Real.sqrt_nonneg _)

theorem flNorm_double (h : RoundsToNearest fl) (v : V3) : IsDouble (flNorm fl v) := (h _).1

/-- The length. -/
theorem flNorm_close (h : RoundsToNearest fl) (v : V3) : |flNorm fl v - V3.norm v| ≤ 25 / 8 / 2 ^ 53 * V3.norm v := by
  obtain ⟨h1, h2⟩ := flDot_self h v
  have hn := V3.norm_nonneg v
  have a1 : Real.sqrt (flDot fl v v) ≤ (1 + 1 / 2 ^ 53) ^ 2 * V3.norm v := by
    rw [Real.sqrt_le_left (by positivity)]
    rw [mul_pow, pow_two (V3.norm v), V3.norm_sq, ← pow_mul]
    exact h2
  have a2 : (1 - 1 / 2 ^ 53) ^ 2 * V3.norm v ≤ Real.sqrt (flDot fl v v) := by
    refine Real.le_sqrt_of_sq_le ?_
    rw [mul_pow, pow_two (V3.norm v), V3.norm_sq, ← pow_mul]
    exact h1
  obtain ⟨b1, b2⟩ := fl_between h (Real.sqrt_nonneg (flDot fl v v))
  unfold flNorm
  rw [abs_le]
  constructor <;> norm_num at * <;> linarith

/-- The square root of the rounded square of a floating-point number is the number. -/
theorem fl_sqrt_sq (h : RoundsToNearest fl) {x : ℝ} (hx : IsDouble x) (h0 : 0 ≤ x) : fl (Real.sqrt (fl (x * x))) = x := by
  rcases h0.eq_or_lt with rfl | hpos
  · simp [fl_zero h]
  set k := Int.log 2 |x| with hk
  have hax : |x| = x := abs_of_pos hpos
  have hlo : (2 : ℝ) ^ k ≤ x := by
    have := Int.zpow_log_le_self (b := 2) (r := |x|) (by norm_num) (by rw [hax]; exact hpos)
    rw [← hk, hax] at this
    exact_mod_cast this
  have hhi : x < (2 : ℝ) ^ (k + 1) := by
    have := Int.lt_zpow_succ_log_self (b := 2) (by norm_num) |x|
    rw [← hk, hax] at this
    exact_mod_cast this
  obtain ⟨m, hm⟩ := double_multiple hx (by rw [hax]; exact hlo)
  have hu : (0 : ℝ) < 2 ^ (k - 52) := zpow_pos (by norm_num) _
  have hpow : (2 : ℝ) ^ k = 2 ^ 52 * (2 : ℝ) ^ (k - 52) := by
    rw [show (2 : ℝ) ^ k = (2 : ℝ) ^ ((52 : ℤ) + (k - 52)) by rw [show (52 : ℤ) + (k - 52) = k by ring], zpow_add₀ (by norm_num)]
    norm_num
  have hpow' : (2 : ℝ) ^ (k + 1) = 2 ^ 53 * (2 : ℝ) ^ (k - 52) := by
    rw [zpow_add₀ (by norm_num), hpow]; ring
  rw [hpow] at hlo
  rw [hpow'] at hhi
  set u : ℝ := 2 ^ (k - 52) with hud
  have m1 : (2 ^ 52 : ℤ) ≤ m := by
    have : (2 ^ 52 : ℝ) ≤ m := by rw [hm] at hlo; exact le_of_mul_le_mul_right hlo hu
    exact_mod_cast this
  have m2 : m < (2 ^ 53 : ℤ) := by
    have : (m : ℝ) < 2 ^ 53 := by rw [hm] at hhi; exact lt_of_mul_lt_mul_right hhi hu.le
    exact_mod_cast this
  rcases m1.eq_or_lt with e | m1
  · have hx2 : x = (2 : ℝ) ^ k := by rw [hm, ← e, hpow]; norm_num
    have hd : IsDouble (x * x) := ⟨1, k + k, by norm_num, by rw [hx2, zpow_add₀ (by norm_num)]; simp⟩
    rw [fl_double h hd, Real.sqrt_mul_self h0, fl_double h hx]
  · have hx1 : (2 ^ 52 + 1) * u ≤ x := by
      rw [hm]
      refine mul_le_mul_of_nonneg_right ?_ hu.le
      have : (2 ^ 52 + 1 : ℤ) ≤ m := m1
      exact_mod_cast this
    have hx2 : x ≤ (2 ^ 53 - 1) * u := by
      rw [hm]
      refine mul_le_mul_of_nonneg_right ?_ hu.le
      have : m ≤ (2 ^ 53 - 1 : ℤ) := by omega
      have h2 : (m : ℝ) ≤ ((2 ^ 53 - 1 : ℤ) : ℝ) := by exact_mod_cast this
      refine h2.trans_eq (by norm_num)
    obtain ⟨f1, f2⟩ := fl_between h (mul_self_nonneg x)
    have g1 : Real.sqrt (fl (x * x)) ≤ (1 + 1 / 2 ^ 54) * x := by
      rw [Real.sqrt_le_left (by positivity)]
      refine f2.trans ?_
      nlinarith [mul_self_nonneg x]
    have g2 : (1 - 1 / 2 ^ 54 - 1 / 2 ^ 108) * x ≤ Real.sqrt (fl (x * x)) := by
      refine Real.le_sqrt_of_sq_le (le_trans ?_ f1)
      rw [mul_pow, pow_two x]
      refine mul_le_mul_of_nonneg_right ?_ (mul_self_nonneg x)
      norm_num
    rw [fl_eq h (k := k) (M := m) (by rw [abs_of_nonneg (by omega)]; exact m2) ?_ ?_, ← hud, ← hm]
    · rw [hpow]
      refine le_trans ?_ g2
      norm_num at *
      linarith
    · rw [← hud, ← hm, abs_lt]
      norm_num at *
      constructor <;> linarith

theorem flNorm_axis (h : RoundsToNearest fl) {L : ℝ} (hL : IsDouble L) (h0 : 0 ≤ L) :
    flNorm fl ⟨L, 0, 0⟩ = L ∧ flNorm fl ⟨0, L, 0⟩ = L ∧ flNorm fl ⟨0, 0, L⟩ = L := by
  have hd : fl (fl (L * L)) = fl (L * L) := fl_double h (h _).1
  refine ⟨?_, ?_, ?_⟩ <;> simp only [flNorm, flDot, mul_zero, fl_zero h, add_zero, zero_add, hd] <;> exact fl_sqrt_sq h hL h0

/-! ### The nearest image -/

/-- The nearest-image step of a floating-point number. -/
theorem flWrap_cases (h : RoundsToNearest fl) {b d : ℝ} (hb : IsDouble b) (h0 : 0 ≤ b) :
    flWrap fl b d = if d > b / 2 then fl (d - b) else if d < -b / 2 then fl (d + b) else d := by
  unfold flWrap
  rw [(fl_half h hb).1, (fl_half h hb).2]
  by_cases h1 : d > b / 2
  · rw [if_pos h1, if_pos h1]
    have : -b / 2 ≤ fl (d - b) := le_fl h (double_half (double_neg hb)) (by linarith)
    exact if_neg (not_lt.2 this)
  · rw [if_neg h1, if_neg h1]

theorem flWrap_odd (h : RoundsToNearest fl) (hodd : ∀ x, fl (-x) = -fl x) {b d : ℝ} (hb : IsDouble b) (h0 : 0 ≤ b) : flWrap fl b (-d) = -flWrap fl b d := by
  rw [flWrap_cases h hb h0, flWrap_cases h hb h0]
  split_ifs <;> first | (exfalso; linarith) | (rw [← hodd]; congr 1; ring) | rfl

theorem flDot_odd (hodd : ∀ x, fl (-x) = -fl x) (u v : V3) : flDot fl u (-v) = -flDot fl u v := by
  simp only [flDot, V3.neg_x, V3.neg_y, V3.neg_z, mul_neg, hodd, ← neg_add]

theorem flNorm_neg (v : V3) : flNorm fl (-v) = flNorm fl v := by
  simp only [flNorm, flDot, V3.neg_x, V3.neg_y, V3.neg_z, neg_mul_neg]

theorem flImage_odd (h : RoundsToNearest fl) (hodd : ∀ x, fl (-x) = -fl x) (s : System) (v : V3) : s.flImage fl (-v) = -s.flImage fl v := by
  have w : ∀ (r : V3) (d : ℝ), flWrap fl (flNorm fl r) (-d) = -flWrap fl (flNorm fl r) d := fun r d => flWrap_odd h hodd (flNorm_double h r) (flNorm_nonneg h r)
  have hm : ∀ (m : Mat3) (x : V3), flMulVec fl m (-x) = -flMulVec fl m x := by
    intro m x
    simp only [flMulVec, flDot_odd hodd]
    rfl
  unfold System.flImage
  split_ifs
  · dsimp only
    rw [← hm, hm s.rotinv]
    congr 1
    simp only [V3.neg_x, V3.neg_y, V3.neg_z, neg_mul, hodd, w, neg_div]
    rfl
  · simp only [V3.neg_x, V3.neg_y, V3.neg_z, w]
    rfl

theorem wrap_ite {b d : ℝ} (h0 : 0 ≤ b) : wrap b d = if d > b / 2 then d - b else if d < -b / 2 then d + b else d := by
  unfold wrap
  by_cases h1 : d > b / 2
  · simp only [if_pos h1]
    exact if_neg (by linarith)
  · simp only [if_neg h1]

/-- One coordinate of the displacement: computed and exact. -/
theorem flWrap_close (h : RoundsToNearest fl) {b d : ℝ} (hb : IsDouble b) (h0 : 0 ≤ b) (hd : |d| ≤ b) :
    |(|flWrap fl b (fl d)| - |wrap b d|)| ≤ 3 / 2 / 2 ^ 53 * b ∧ |flWrap fl b (fl d)| ≤ b / 2 := by
  have hr := fl_rel h d
  have hr' : |fl d - d| ≤ 1 / 2 ^ 53 * b := hr.trans (mul_le_mul_of_nonneg_left hd (by positivity))
  have d1 : fl d ≤ b := fl_le h hb (abs_le.1 hd).2
  have d2 : -b ≤ fl d := le_fl h (double_neg hb) (abs_le.1 hd).1
  rw [flWrap_cases h hb h0, wrap_ite h0]
  have hh : IsDouble (b / 2) := double_half hb
  have hh' : IsDouble (-b / 2) := double_half (double_neg hb)
  have hz : IsDouble 0 := ⟨0, 0, by norm_num, by simp⟩
  obtain ⟨q1, q2⟩ := abs_le.1 hr'
  obtain ⟨p1, p2⟩ := abs_le.1 hd
  by_cases c1 : fl d > b / 2
  · rw [if_pos c1]
    have e1 : fl (fl d - b) ≤ 0 := fl_le h hz (by linarith)
    have e2 : -b / 2 ≤ fl (fl d - b) := le_fl h hh' (by linarith)
    have e3 := fl_rel h (fl d - b)
    rw [abs_of_nonpos (by linarith : fl d - b ≤ 0)] at e3
    obtain ⟨e4, e5⟩ := abs_le.1 e3
    rw [abs_of_nonpos e1]
    refine ⟨?_, by linarith⟩
    by_cases c2 : d > b / 2
    · rw [if_pos c2, abs_of_nonpos (by linarith : d - b ≤ 0), abs_le]
      constructor <;> linarith
    · have c2' := not_lt.1 c2
      have : b / 2 ≤ d := by
        by_contra hlt
        have := fl_le h hh (not_le.1 hlt).le
        linarith
      have e : d = b / 2 := le_antisymm c2' this
      have := fl_le h hh c2'
      linarith
  · rw [if_neg c1]
    have c1' := not_lt.1 c1
    by_cases c3 : fl d < -b / 2
    · rw [if_pos c3]
      have e1 : 0 ≤ fl (fl d + b) := le_fl h hz (by linarith)
      have e2 : fl (fl d + b) ≤ b / 2 := fl_le h hh (by linarith)
      have e3 := fl_rel h (fl d + b)
      rw [abs_of_nonneg (by linarith : 0 ≤ fl d + b)] at e3
      obtain ⟨e4, e5⟩ := abs_le.1 e3
      rw [abs_of_nonneg e1]
      refine ⟨?_, e2⟩
      have c4 : d < -b / 2 := by
        by_contra hge
        have := le_fl h hh' (not_lt.1 hge)
        linarith
      rw [if_neg (by linarith), if_pos c4, abs_of_nonneg (by linarith : 0 ≤ d + b), abs_le]
      constructor <;> linarith
    · rw [if_neg c3]
      have c3' := not_lt.1 c3
      have hab : |fl d| ≤ b / 2 := abs_le.2 ⟨by linarith, c1'⟩
      refine ⟨?_, hab⟩
      by_cases c2 : d > b / 2
      · rw [if_pos c2]
        have := le_fl h hh c2.le
        have e : fl d = b / 2 := le_antisymm c1' this
        rw [e, abs_of_nonneg (by linarith : 0 ≤ b / 2), abs_of_nonpos (by linarith : d - b ≤ 0), abs_le]
        constructor <;> linarith
      · rw [if_neg c2]
        by_cases c4 : d < -b / 2
        · rw [if_pos c4]
          have := fl_le h hh' c4.le
          have e : fl d = -b / 2 := le_antisymm this c3'
          rw [e, abs_of_nonpos (by linarith : -b / 2 ≤ 0), abs_of_nonneg (by linarith : 0 ≤ d + b), abs_le]
          constructor <;> linarith
        · rw [if_neg c4]
          refine (abs_abs_sub_abs_le (fl d) d).trans (hr'.trans ?_)
          linarith

theorem norm_abs (v : V3) : V3.norm ⟨|v.x|, |v.y|, |v.z|⟩ = V3.norm v := by
  simp [V3.norm, V3.normSq, abs_mul_abs_self]

theorem norm_le_sum (v : V3) : V3.norm v ≤ |v.x| + |v.y| + |v.z| := by
  unfold V3.norm
  rw [Real.sqrt_le_left (by positivity)]
  unfold V3.normSq
  rw [← abs_mul_abs_self v.x, ← abs_mul_abs_self v.y, ← abs_mul_abs_self v.z]
  nlinarith [mul_nonneg (abs_nonneg v.x) (abs_nonneg v.y), mul_nonneg (abs_nonneg v.x) (abs_nonneg v.z), mul_nonneg (abs_nonneg v.y) (abs_nonneg v.z)]

theorem norm_diff {u v : V3} {a b c : ℝ} (hx : |(|u.x| - |v.x|)| ≤ a) (hy : |(|u.y| - |v.y|)| ≤ b) (hz : |(|u.z| - |v.z|)| ≤ c) :
    |V3.norm u - V3.norm v| ≤ a + b + c := by
  have key : ∀ u v : V3, V3.norm u ≤ V3.norm v + (|(|u.x| - |v.x|)| + |(|u.y| - |v.y|)| + |(|u.z| - |v.z|)|) := by
    intro u v
    rw [← norm_abs u, ← norm_abs v]
    have h1 := norm_triangle ⟨|v.x|, |v.y|, |v.z|⟩ ⟨|u.x| - |v.x|, |u.y| - |v.y|, |u.z| - |v.z|⟩
    have h2 := norm_le_sum ⟨|u.x| - |v.x|, |u.y| - |v.y|, |u.z| - |v.z|⟩
    have e : (⟨|v.x|, |v.y|, |v.z|⟩ : V3) + ⟨|u.x| - |v.x|, |u.y| - |v.y|, |u.z| - |v.z|⟩ = ⟨|u.x|, |u.y|, |u.z|⟩ := by
      ext <;> simp
    rw [e] at h1
    linarith
  have h1 := key u v
  have h2 := key v u
  rw [abs_sub_comm |v.x|, abs_sub_comm |v.y|, abs_sub_comm |v.z|] at h2
  rw [abs_le]
  constructor <;> linarith

/-- The computed distance of two points in an orthogonal box. -/
theorem flImage_close (h : RoundsToNearest fl) {s : System} {lx ly lz : ℝ} (dx : IsDouble lx) (dy : IsDouble ly) (dz : IsDouble lz) (hx : 0 ≤ lx) (hy : 0 ≤ ly) (hz : 0 ≤ lz)
    (ht : s.triclinic = false) (hb : s.box = Spec.diagBox lx ly lz) {p q : V3} (h1 : |p.x - q.x| ≤ lx) (h2 : |p.y - q.y| ≤ ly) (h3 : |p.z - q.z| ≤ lz) :
    |flNorm fl (s.flImage fl (flSub fl p q)) - V3.norm (s.image (p - q))| ≤ (lx + ly + lz) / 2 ^ 51 := by
  have e : s.flImage fl (flSub fl p q) = ⟨flWrap fl lx (fl (p.x - q.x)), flWrap fl ly (fl (p.y - q.y)), flWrap fl lz (fl (p.z - q.z))⟩ := by
    simp only [System.flImage, ht, hb, Spec.diagBox, (flNorm_axis h dx hx).1, (flNorm_axis h dy hy).2.1, (flNorm_axis h dz hz).2.2, flSub]
    rfl
  rw [e, image_diag s lx ly lz hx hy hz ht hb]
  obtain ⟨a1, b1⟩ := flWrap_close h dx hx h1
  obtain ⟨a2, b2⟩ := flWrap_close h dy hy h2
  obtain ⟨a3, b3⟩ := flWrap_close h dz hz h3
  set U : V3 := ⟨flWrap fl lx (fl (p.x - q.x)), flWrap fl ly (fl (p.y - q.y)), flWrap fl lz (fl (p.z - q.z))⟩ with hU
  have k1 := norm_diff (u := U) (v := ⟨wrap lx (p - q).x, wrap ly (p - q).y, wrap lz (p - q).z⟩) a1 a2 a3
  have k2 := flNorm_close h U
  have k3 := norm_le_sum U
  have k4 : V3.norm U ≤ (lx + ly + lz) / 2 := by
    simp only [hU] at k3 ⊢
    linarith
  have k5 : 25 / 8 / 2 ^ 53 * V3.norm U ≤ 25 / 8 / 2 ^ 53 * ((lx + ly + lz) / 2) := mul_le_mul_of_nonneg_left k4 (by positivity)
  have k6 := abs_sub_le (flNorm fl U) (V3.norm U) (V3.norm ⟨wrap lx (p - q).x, wrap ly (p - q).y, wrap lz (p - q).z⟩)
  norm_num at *
  linarith

end Pyscal
