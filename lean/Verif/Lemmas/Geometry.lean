import Verif.Model.System
import Verif.Spec.Geometry
import Mathlib.Tactic.FieldSimp
import Mathlib.Algebra.Order.Archimedean.Basic

namespace Pyscal
open Spec

theorem wrap_odd {b : ℝ} (hb : 0 ≤ b) (d : ℝ) : wrap b (-d) = -wrap b d := by
  unfold wrap
  simp only
  split_ifs <;> linarith

theorem wrap_cases (b d : ℝ) (_hb : 0 ≤ b) : wrap b d = d ∨ wrap b d = d - b ∨ wrap b d = d + b := by
  unfold wrap
  simp only
  split_ifs
  · linarith
  · simp
  · simp
  · simp

theorem wrap_bound {b d : ℝ} (hd : |d| ≤ 3 / 2 * b) : |wrap b d| ≤ b / 2 := by
  rw [abs_le] at hd ⊢
  unfold wrap
  simp only
  split_ifs <;> constructor <;> linarith [hd.1, hd.2]

/-- A value in `[-b/2, b/2]` is no longer than any of its translates by multiples of `b`. -/
theorem abs_le_abs_add_int_mul {b w : ℝ} (hb : 0 ≤ b) (hw : |w| ≤ b / 2) (n : ℤ) :
    |w| ≤ |w + n * b| := by
  rcases lt_trichotomy n 0 with hn | rfl | hn
  · have h1 : (n : ℝ) ≤ -1 := by exact_mod_cast Int.le_sub_one_of_lt hn
    have := abs_le.1 hw
    have h2 : (n : ℝ) * b ≤ -b := by nlinarith
    have h3 : w + n * b ≤ -(b / 2) := by linarith [this.2]
    calc |w| ≤ b / 2 := hw
      _ ≤ |w + n * b| := by rw [le_abs]; right; linarith
  · simp
  · have h1 : (1 : ℝ) ≤ n := by exact_mod_cast hn
    have := abs_le.1 hw
    have h2 : b ≤ (n : ℝ) * b := by nlinarith
    calc |w| ≤ b / 2 := hw
      _ ≤ |w + n * b| := by rw [le_abs]; left; linarith [this.1]

theorem wrap_le_image {b d : ℝ} (hb : 0 ≤ b) (hd : |d| ≤ 3 / 2 * b) (n : ℤ) :
    |wrap b d| ≤ |d + n * b| := by
  have hw := wrap_bound hd
  rcases wrap_cases b d hb with h | h | h
  · have := abs_le_abs_add_int_mul hb hw n
    rw [h] at this ⊢; exact this
  · have := abs_le_abs_add_int_mul hb hw (n + 1)
    rw [h] at this ⊢
    have e : d - b + ((n + 1 : ℤ) : ℝ) * b = d + n * b := by push_cast; ring
    rwa [e] at this
  · have := abs_le_abs_add_int_mul hb hw (n - 1)
    rw [h] at this ⊢
    have e : d + b + ((n - 1 : ℤ) : ℝ) * b = d + n * b := by push_cast; ring
    rwa [e] at this

theorem wrap_isImage (b d : ℝ) (hb : 0 ≤ b) : ∃ n : ℤ, wrap b d = d + n * b := by
  rcases wrap_cases b d hb with h | h | h
  · exact ⟨0, by rw [h]; simp⟩
  · exact ⟨-1, by rw [h]; push_cast; ring⟩
  · exact ⟨1, by rw [h]; push_cast; ring⟩

/-- If some translate of `d` by a multiple of `b` lies strictly within `b/2`, `wrap` finds it. -/
theorem wrap_unique {b d w : ℝ} (hb : 0 ≤ b) (hd : |d| ≤ 3 / 2 * b) (n : ℤ)
    (hn : w = d + n * b) (hw : |w| < b / 2) : wrap b d = w := by
  have hbpos : 0 < b := by have := abs_nonneg w; linarith
  obtain ⟨m, hm⟩ := wrap_isImage b d hb
  have hwb := abs_le.1 (wrap_bound hd)
  have hw' := abs_lt.1 hw
  have e : wrap b d - w = ((m - n : ℤ) : ℝ) * b := by rw [hm, hn]; push_cast; ring
  have hlt : |((m - n : ℤ) : ℝ)| < 1 := by
    have : |((m - n : ℤ) : ℝ) * b| < b := by
      rw [← e, abs_lt]; constructor <;> linarith [hwb.1, hwb.2, hw'.1, hw'.2]
    rw [abs_mul, abs_of_pos hbpos] at this
    by_contra hc
    push Not at hc
    nlinarith
  have hz : m - n = 0 := by
    have : |m - n| < 1 := by exact_mod_cast hlt
    exact Int.abs_lt_one_iff.1 this
  rw [hz] at e
  simp at e
  linarith

theorem norm_le_norm {a b : V3} (hx : |a.x| ≤ |b.x|) (hy : |a.y| ≤ |b.y|) (hz : |a.z| ≤ |b.z|) :
    V3.norm a ≤ V3.norm b := by
  apply Real.sqrt_le_sqrt
  unfold V3.normSq
  have h1 := mul_self_le_mul_self (abs_nonneg _) hx
  have h2 := mul_self_le_mul_self (abs_nonneg _) hy
  have h3 := mul_self_le_mul_self (abs_nonneg _) hz
  simp only [abs_mul_abs_self] at h1 h2 h3
  linarith

theorem norm_axis_x (l : ℝ) (h : 0 ≤ l) : V3.norm ⟨l, 0, 0⟩ = l := by
  simp [V3.norm, V3.normSq, Real.sqrt_mul_self h]
theorem norm_axis_y (l : ℝ) (h : 0 ≤ l) : V3.norm ⟨0, l, 0⟩ = l := by
  simp [V3.norm, V3.normSq, Real.sqrt_mul_self h]
theorem norm_axis_z (l : ℝ) (h : 0 ≤ l) : V3.norm ⟨0, 0, l⟩ = l := by
  simp [V3.norm, V3.normSq, Real.sqrt_mul_self h]

namespace Mat3

theorem det_transpose (m : Mat3) : m.transpose.det = m.det := by
  simp [det, transpose]; ring

theorem mulVec_inv (m : Mat3) (h : m.det ≠ 0) (v : V3) : m.mulVec (m.inv.mulVec v) = v := by
  have hd : m.det ≠ 0 := h
  ext <;> simp only [mulVec, inv, V3.dot] <;> field_simp <;> simp only [det] <;> ring

theorem inv_mulVec (m : Mat3) (h : m.det ≠ 0) (v : V3) : m.inv.mulVec (m.mulVec v) = v := by
  have hd : m.det ≠ 0 := h
  ext <;> simp only [mulVec, inv, V3.dot] <;> field_simp <;> simp only [det] <;> ring

theorem mulVec_add (m : Mat3) (u v : V3) : m.mulVec (u + v) = m.mulVec u + m.mulVec v := by
  ext <;> simp [mulVec, V3.dot] <;> ring

theorem mulVec_neg (m : Mat3) (u : V3) : m.mulVec (-u) = -m.mulVec u := by
  ext <;> simp [mulVec, V3.dot] <;> ring

theorem transpose_mulVec_lattice (b : Mat3) (n1 n2 n3 : ℤ) :
    b.transpose.mulVec ⟨n1, n2, n3⟩ = latticeVec b n1 n2 n3 := by
  ext <;> simp [mulVec, V3.dot, transpose, latticeVec] <;> ring

/-- A box with non-zero determinant has non-zero rows. -/
theorem rows_pos (b : Mat3) (h : b.det ≠ 0) :
    0 < V3.norm b.r0 ∧ 0 < V3.norm b.r1 ∧ 0 < V3.norm b.r2 := by
  refine ⟨V3.norm_pos_of_ne ?_, V3.norm_pos_of_ne ?_, V3.norm_pos_of_ne ?_⟩ <;>
    (intro e; apply h; simp [det, e])

end Mat3

theorem neg_sub_V3 (a b : V3) : -(a - b) = b - a := by ext <;> simp

theorem image_neg (s : System) (d : V3) : s.image (-d) = -s.image d := by
  unfold System.image
  have hx : 0 ≤ s.boxx := V3.norm_nonneg _
  have hy : 0 ≤ s.boxy := V3.norm_nonneg _
  have hz : 0 ≤ s.boxz := V3.norm_nonneg _
  split_ifs
  · simp only [Mat3.mulVec_neg, V3.neg_x, V3.neg_y, V3.neg_z, neg_mul, wrap_odd hx, wrap_odd hy,
      wrap_odd hz, neg_div]
    rw [← Mat3.mulVec_neg]; rfl
  · ext <;> simp [wrap_odd hx, wrap_odd hy, wrap_odd hz]

theorem wrap_zero {b : ℝ} (hb : 0 ≤ b) : wrap b 0 = 0 := by
  have := wrap_odd hb 0
  simp at this; linarith

theorem image_zero (s : System) : s.image 0 = 0 := by
  have h := image_neg s 0
  have e : (-(0:V3)) = 0 := by ext <;> simp
  rw [e] at h
  ext
  · have := congrArg V3.x h; simp at this; simp; linarith
  · have := congrArg V3.y h; simp at this; simp; linarith
  · have := congrArg V3.z h; simp at this; simp; linarith

/-- The orthogonal branch on an axis-aligned box. -/
theorem image_diag (s : System) (lx ly lz : ℝ) (hx : 0 ≤ lx) (hy : 0 ≤ ly) (hz : 0 ≤ lz)
    (ht : s.triclinic = false) (hb : s.box = diagBox lx ly lz) (d : V3) :
    s.image d = ⟨wrap lx d.x, wrap ly d.y, wrap lz d.z⟩ := by
  simp only [System.image, ht, System.boxx, System.boxy, System.boxz, hb, diagBox, norm_axis_x lx hx,
    norm_axis_y ly hy, norm_axis_z lz hz]
  simp

theorem image_diag_shortest (s : System) (lx ly lz : ℝ) (hx : 0 ≤ lx) (hy : 0 ≤ ly) (hz : 0 ≤ lz)
    (ht : s.triclinic = false) (hb : s.box = diagBox lx ly lz) (d : V3)
    (hdx : |d.x| ≤ 3 / 2 * lx) (hdy : |d.y| ≤ 3 / 2 * ly) (hdz : |d.z| ≤ 3 / 2 * lz) :
    IsShortestImage s.box d (s.image d) := by
  rw [image_diag s lx ly lz hx hy hz ht hb d, hb]
  constructor
  · obtain ⟨n1, h1⟩ := wrap_isImage lx d.x hx
    obtain ⟨n2, h2⟩ := wrap_isImage ly d.y hy
    obtain ⟨n3, h3⟩ := wrap_isImage lz d.z hz
    refine ⟨n1, n2, n3, ?_⟩
    ext <;> simp [latticeVec, diagBox, h1, h2, h3]
  · rintro w ⟨n1, n2, n3, rfl⟩
    apply norm_le_norm
    · simpa [latticeVec, diagBox] using wrap_le_image hx hdx n1
    · simpa [latticeVec, diagBox] using wrap_le_image hy hdy n2
    · simpa [latticeVec, diagBox] using wrap_le_image hz hdz n3

theorem cosSum_eq_some {b : Mat3} {c : ℝ} (h : cosSum b = some c) :
    ∃ c0 c1 c2, cosine b.r2 b.r0 = some c0 ∧ cosine b.r0 b.r1 = some c1 ∧
      cosine b.r1 b.r2 = some c2 ∧ c = c0 + c1 + c2 := by
  unfold cosSum at h
  cases h0 : cosine b.r2 b.r0 with
  | none => simp [h0] at h
  | some c0 =>
    cases h1 : cosine b.r0 b.r1 with
    | none => simp [h0, h1] at h
    | some c1 =>
      cases h2 : cosine b.r1 b.r2 with
      | none => simp [h0, h1, h2] at h
      | some c2 =>
        simp [h0, h1, h2] at h
        exact ⟨c0, c1, c2, rfl, rfl, rfl, h.symm⟩

theorem cosine_of_dot_zero {u v : V3} {c : ℝ} (hd : V3.dot u v = 0) (h : cosine u v = some c) :
    c = 0 := by
  unfold cosine fdiv at h
  rw [hd] at h
  split_ifs at h
  simpa using h.symm

/-- An orthogonal box is not classified as skewed. -/
theorem not_skewed_diag (lx ly lz : ℝ) : ¬ Skewed (diagBox lx ly lz) := by
  rintro ⟨c, hc, h⟩
  obtain ⟨c0, c1, c2, h0, h1, h2, rfl⟩ := cosSum_eq_some hc
  rw [cosine_of_dot_zero (by simp [V3.dot, diagBox]) h0,
    cosine_of_dot_zero (by simp [V3.dot, diagBox]) h1,
    cosine_of_dot_zero (by simp [V3.dot, diagBox]) h2] at h
  norm_num at h

theorem cosine_eq {u v : V3} (hu : V3.norm u ≠ 0) (hv : V3.norm v ≠ 0) :
    cosine u v = some (V3.dot u v / (V3.norm u * V3.norm v)) := by
  simp [cosine, fdiv, hu, hv]

theorem cosSum_eq {b : Mat3} (h0 : V3.norm b.r0 ≠ 0) (h1 : V3.norm b.r1 ≠ 0)
    (h2 : V3.norm b.r2 ≠ 0) :
    cosSum b = some (V3.dot b.r2 b.r0 / (V3.norm b.r2 * V3.norm b.r0)
      + V3.dot b.r0 b.r1 / (V3.norm b.r0 * V3.norm b.r1)
      + V3.dot b.r1 b.r2 / (V3.norm b.r1 * V3.norm b.r2)) := by
  simp [cosSum, cosine_eq, h0, h1, h2]

theorem transpose_mulVec (b : Mat3) (f : V3) : b.transpose.mulVec f = ofFrac b f := by
  ext <;> simp [Mat3.mulVec, V3.dot, Mat3.transpose, ofFrac] <;> ring

theorem ofFrac_int (b : Mat3) (n1 n2 n3 : ℤ) : ofFrac b ⟨n1, n2, n3⟩ = latticeVec b n1 n2 n3 := rfl

theorem ofFrac_add (b : Mat3) (f g : V3) : ofFrac b (f + g) = ofFrac b f + ofFrac b g := by
  ext <;> simp [ofFrac] <;> ring

theorem det_eq_volume (b : Mat3) : b.det = volume b := by
  simp [Mat3.det, volume, cross, V3.dot]; ring

theorem abs_dot_le (w v : V3) : |V3.dot w v| ≤ V3.norm w * V3.norm v := by
  rw [← Real.sqrt_sq_eq_abs, V3.norm, V3.norm, ← Real.sqrt_mul (V3.normSq_nonneg w)]
  apply Real.sqrt_le_sqrt
  unfold V3.dot V3.normSq
  nlinarith [sq_nonneg (w.x * v.y - w.y * v.x), sq_nonneg (w.x * v.z - w.z * v.x),
    sq_nonneg (w.y * v.z - w.z * v.y)]

theorem frac_lt_half {vol g nv nc : ℝ} (h : |g * vol| ≤ nc * nv) (hc : 2 * nv * nc < |vol|) :
    |g| < 1 / 2 := by
  rw [abs_mul] at h
  by_contra hg
  push Not at hg
  have := abs_nonneg vol
  nlinarith

theorem frac_of_short {b : Mat3} {g : V3} (h : ShorterThanHalfHeights b (ofFrac b g)) :
    |g.x| < 1 / 2 ∧ |g.y| < 1 / 2 ∧ |g.z| < 1 / 2 := by
  obtain ⟨h1, h2, h3⟩ := h
  have k1 := abs_dot_le (cross b.r1 b.r2) (ofFrac b g)
  have k2 := abs_dot_le (cross b.r2 b.r0) (ofFrac b g)
  have k3 := abs_dot_le (cross b.r0 b.r1) (ofFrac b g)
  have e1 : V3.dot (cross b.r1 b.r2) (ofFrac b g) = g.x * volume b := by
    simp [V3.dot, cross, ofFrac, volume]; ring
  have e2 : V3.dot (cross b.r2 b.r0) (ofFrac b g) = g.y * volume b := by
    simp [V3.dot, cross, ofFrac, volume]; ring
  have e3 : V3.dot (cross b.r0 b.r1) (ofFrac b g) = g.z * volume b := by
    simp [V3.dot, cross, ofFrac, volume]; ring
  rw [e1] at k1; rw [e2] at k2; rw [e3] at k3
  exact ⟨frac_lt_half k1 h1, frac_lt_half k2 h2, frac_lt_half k3 h3⟩

/-- A System in triclinic mode whose transformation matrices belong to its box. -/
structure TriOK (s : System) : Prop where
  tri : s.triclinic = true
  rot : s.rot = s.box.transpose
  rotinv : s.rotinv = s.box.transpose.inv
  det : s.box.det ≠ 0

/-- The triclinic branch in fractional coordinates. -/
theorem image_ofFrac {s : System} (h : TriOK s) (f : V3) :
    s.image (ofFrac s.box f) = ofFrac s.box
      ⟨wrap s.boxx (f.x * s.boxx) / s.boxx, wrap s.boxy (f.y * s.boxy) / s.boxy,
        wrap s.boxz (f.z * s.boxz) / s.boxz⟩ := by
  have hd : s.box.transpose.det ≠ 0 := by rw [Mat3.det_transpose]; exact h.det
  rw [System.image, if_pos h.tri, h.rot, h.rotinv, ← transpose_mulVec, Mat3.inv_mulVec _ hd,
    ← transpose_mulVec]

theorem TriOK.pos {s : System} (h : TriOK s) : 0 < s.boxx ∧ 0 < s.boxy ∧ 0 < s.boxz :=
  Mat3.rows_pos s.box h.det

theorem scale_bound {L f : ℝ} (hL : 0 < L) (hf : |f| ≤ 3 / 2) : |f * L| ≤ 3 / 2 * L := by
  rw [abs_mul, abs_of_pos hL]
  exact mul_le_mul_of_nonneg_right hf hL.le

theorem wrap_frac_bound {L f : ℝ} (hL : 0 < L) (hf : |f| ≤ 3 / 2) : |wrap L (f * L) / L| ≤ 1 / 2 := by
  rw [abs_div, abs_of_pos hL, div_le_iff₀ hL]
  linarith [wrap_bound (scale_bound hL hf)]

theorem wrap_frac_int {L : ℝ} (hL : 0 < L) (f : ℝ) : ∃ n : ℤ, wrap L (f * L) / L = f + n := by
  obtain ⟨n, h⟩ := wrap_isImage L (f * L) hL.le
  refine ⟨n, ?_⟩
  rw [h]; field_simp

theorem wrap_frac_unique {L f : ℝ} (hL : 0 < L) (hf : |f| ≤ 3 / 2) (n : ℤ) (h : |f + n| < 1 / 2) :
    wrap L (f * L) / L = f + n := by
  rw [wrap_unique hL.le (scale_bound hL hf) n (w := (f + n) * L) (by ring)]
  · field_simp
  · rw [abs_mul, abs_of_pos hL]; nlinarith

theorem tri_image_isImage {s : System} (h : TriOK s) (f : V3) :
    IsImage s.box (ofFrac s.box f) (s.image (ofFrac s.box f)) := by
  obtain ⟨px, py, pz⟩ := h.pos
  obtain ⟨n1, h1⟩ := wrap_frac_int px f.x
  obtain ⟨n2, h2⟩ := wrap_frac_int py f.y
  obtain ⟨n3, h3⟩ := wrap_frac_int pz f.z
  refine ⟨n1, n2, n3, ?_⟩
  rw [image_ofFrac h, h1, h2, h3, ← ofFrac_int, ← ofFrac_add]
  rfl

theorem tri_image_unique {s : System} (h : TriOK s) {f : V3} (hx : |f.x| ≤ 3 / 2)
    (hy : |f.y| ≤ 3 / 2) (hz : |f.z| ≤ 3 / 2) {v : V3} (hv : IsImage s.box (ofFrac s.box f) v)
    (hs : ShorterThanHalfHeights s.box v) : s.image (ofFrac s.box f) = v := by
  obtain ⟨px, py, pz⟩ := h.pos
  obtain ⟨n1, n2, n3, rfl⟩ := hv
  rw [← ofFrac_int, ← ofFrac_add] at hs ⊢
  obtain ⟨g1, g2, g3⟩ := frac_of_short hs
  rw [image_ofFrac h, wrap_frac_unique px hx n1 g1, wrap_frac_unique py hy n2 g2,
    wrap_frac_unique pz hz n3 g3]
  rfl

theorem setBox_skewed {s0 s : System} {b : Mat3} (hsk : Skewed b) (hs : s0.setBox b = .ok s) :
    TriOK s ∧ s.box = b := by
  have hd : b.transpose.det ≠ 0 := by
    intro h
    simp [System.setBox, hsk, h] at hs
  simp [System.setBox, hsk, hd] at hs
  subst hs
  exact ⟨⟨rfl, rfl, rfl, by rwa [Mat3.det_transpose] at hd⟩, rfl⟩

/-- The test of the box setter recognises exactly the boxes of `Spec.Skew`. -/
theorem skewed_iff (b : Mat3) : Skewed b ↔ Spec.Skew b := by
  have hn : ∀ u v : V3, u.norm * v.norm = 0 ↔ u = 0 ∨ v = 0 := fun u v => by
    rw [mul_eq_zero, V3.norm_eq_zero, V3.norm_eq_zero]
  unfold Skewed cosSum cosine fdiv Spec.Skew
  by_cases h0 : b.r0 = 0
  · simp [h0, hn, V3.norm_zero]
  by_cases h1 : b.r1 = 0
  · simp [h1, hn, V3.norm_zero]
  by_cases h2 : b.r2 = 0
  · simp [h2, hn, V3.norm_zero]
  simp only [hn, h0, h1, h2, or_self, if_false, not_false_eq_true, true_and, ne_eq]
  constructor
  · rintro ⟨c, hc, h⟩
    simp only [Option.bind_eq_bind, Option.bind_some, Option.pure_def, Option.some.injEq] at hc
    rw [hc]; norm_num at h ⊢; exact h
  · intro h
    exact ⟨_, rfl, by norm_num at h ⊢; exact h⟩

end Pyscal
