import Verif.Lemmas.Geometry

/-!
# C01, C02, C03, C04: distances and the box

Each theorem is followed by an `example` showing that its hypotheses can be met.
-/

namespace Pyscal
open Spec

/-- **C01.** Assign an orthogonal box to a System that is not (yet) triclinic.  Then for all
atoms whose coordinates differ by at most 3/2 of the box length along each axis, the vector
returned by `get_distance(..., vector=True)` is a shortest periodic image of the difference of
positions, and `get_distance` is its length. -/
theorem C01_min_image (s0 s : System) (lx ly lz : ℝ) (hx : 0 < lx) (hy : 0 < ly) (hz : 0 < lz)
    (h0 : s0.triclinic = false) (hs : s0.setBox (diagBox lx ly lz) = .ok s) (a b : Atom)
    (hdx : |a.pos.x - b.pos.x| ≤ 3 / 2 * lx) (hdy : |a.pos.y - b.pos.y| ≤ 3 / 2 * ly)
    (hdz : |a.pos.z - b.pos.z| ≤ 3 / 2 * lz) :
    IsShortestImage (diagBox lx ly lz) (a.pos - b.pos) (s.getDistanceVector a b)
    ∧ s.getDistance a b = V3.norm (s.getDistanceVector a b)
    ∧ ∀ n1 n2 n3 : ℤ,
        s.getDistance a b ≤ V3.norm (a.pos - b.pos + latticeVec (diagBox lx ly lz) n1 n2 n3) := by
  have hb : s = { s0 with box := diagBox lx ly lz } := by
    simp only [System.setBox, if_neg (not_skewed_diag lx ly lz)] at hs
    exact (Except.ok.inj hs).symm
  have key := image_diag_shortest s lx ly lz hx.le hy.le hz.le (by rw [hb]; exact h0)
    (by rw [hb]) (a.pos - b.pos) (by simpa using hdx) (by simpa using hdy) (by simpa using hdz)
  have hbox : s.box = diagBox lx ly lz := by rw [hb]
  rw [hbox] at key
  exact ⟨key, rfl, fun n1 n2 n3 => key.2 _ ⟨n1, n2, n3, rfl⟩⟩

/-- The hypotheses of C01 are met by two atoms on opposite sides of a 10 x 10 x 10 box. -/
example : ∃ s, System.init.setBox (diagBox 10 10 10) = .ok s ∧
    s.getDistance { pos := ⟨1, 1, 1⟩ } { pos := ⟨9, 1, 1⟩ } = 2 := by
  refine ⟨{ System.init with box := diagBox 10 10 10 }, ?_, ?_⟩
  · simp [System.setBox, not_skewed_diag]
  · rw [System.getDistance, image_diag _ 10 10 10 (by norm_num) (by norm_num) (by norm_num) rfl rfl]
    rw [V3.norm, show V3.normSq _ = (2 : ℝ) ^ 2 by norm_num [wrap, V3.normSq]]
    exact Real.sqrt_sq (by norm_num)

/-- The range hypothesis of C01 is needed: for atoms two box lengths apart the code
subtracts only one box length and does not return the minimum (which is 0). -/
theorem C01_range_needed : ∃ (s : System) (a b : Atom),
    System.init.setBox (diagBox 10 10 10) = .ok s ∧ s.getDistance a b = 10 ∧
    V3.norm (a.pos - b.pos + latticeVec (diagBox 10 10 10) (-2) 0 0) = 0 := by
  refine ⟨{ System.init with box := diagBox 10 10 10 }, { pos := ⟨20, 0, 0⟩ }, { pos := 0 }, ?_, ?_, ?_⟩
  · simp [System.setBox, not_skewed_diag]
  · rw [System.getDistance, image_diag _ 10 10 10 (by norm_num) (by norm_num) (by norm_num) rfl rfl]
    rw [V3.norm, show V3.normSq _ = (10 : ℝ) ^ 2 by norm_num [wrap, V3.normSq]]
    exact Real.sqrt_sq (by norm_num)
  · norm_num [V3.norm, V3.normSq, latticeVec, diagBox]

/-- **C02.** For every state of the System (any box, triclinic or not, any history) whose box
vectors are non-zero when the triclinic branch is used, and all atoms: the distance is
symmetric and non-negative, zero from an atom to itself, the norm of the displacement vector,
the displacement is antisymmetric; and the distance used inside the neighbour searches is the
same. -/
theorem C02_symmetry (s : System) (a b : Atom)
    (_hbox : s.triclinic = true → s.box.r0 ≠ 0 ∧ s.box.r1 ≠ 0 ∧ s.box.r2 ≠ 0) :
    s.getDistance a b = s.getDistance b a
    ∧ s.getDistanceVector a b = -s.getDistanceVector b a
    ∧ s.getDistance a b * s.getDistance a b
        = (s.getDistanceVector a b).x ^ 2 + (s.getDistanceVector a b).y ^ 2
          + (s.getDistanceVector a b).z ^ 2
    ∧ 0 ≤ s.getDistance a b
    ∧ s.getDistance a a = 0
    ∧ s.distIdx a.pos b.pos = s.getDistance a b
    ∧ s.diffIdx a.pos b.pos = s.getDistanceVector b a := by
  have hv : s.getDistanceVector a b = -s.getDistanceVector b a := by
    rw [System.getDistanceVector, System.getDistanceVector, ← image_neg, neg_sub_V3]
  have hsym : s.getDistance a b = s.getDistance b a := by
    change V3.norm (s.getDistanceVector a b) = V3.norm (s.getDistanceVector b a)
    rw [hv, V3.norm_neg]
  refine ⟨hsym, hv, ?_, V3.norm_nonneg _, ?_, ?_, rfl⟩
  · rw [System.getDistance, V3.norm_sq, V3.normSq, System.getDistanceVector]; ring
  · have e : a.pos - a.pos = 0 := by ext <;> simp
    rw [System.getDistance, e, image_zero, V3.norm_zero]
  · rw [hsym]; rfl

/-- C02 covers atoms exactly half a box apart, where both images have the same length. -/
example : ∃ s, System.init.setBox (diagBox 10 10 10) = .ok s ∧
    s.getDistanceVector { pos := ⟨5, 0, 0⟩ } { pos := 0 } = ⟨5, 0, 0⟩ ∧
    s.getDistanceVector { pos := 0 } { pos := ⟨5, 0, 0⟩ } = ⟨-5, 0, 0⟩ := by
  refine ⟨{ System.init with box := diagBox 10 10 10 }, ?_, ?_, ?_⟩
  · simp [System.setBox, not_skewed_diag]
  all_goals
    rw [System.getDistanceVector,
      image_diag _ 10 10 10 (by norm_num) (by norm_num) (by norm_num) rfl rfl]
    ext <;> norm_num [wrap]

/-- The skewed cell used as a witness: unit vectors with an angle of about 37 degrees. -/
noncomputable def skewBox : Mat3 := ⟨⟨1, 0, 0⟩, ⟨4 / 5, 3 / 5, 0⟩, ⟨0, 0, 1⟩⟩

theorem skewBox_norms : V3.norm skewBox.r0 = 1 ∧ V3.norm skewBox.r1 = 1 ∧ V3.norm skewBox.r2 = 1 := by
  refine ⟨?_, ?_, ?_⟩ <;> norm_num [V3.norm, V3.normSq, skewBox]

theorem skewBox_skewed : Skewed skewBox := by
  obtain ⟨h0, h1, h2⟩ := skewBox_norms
  refine ⟨4 / 5, ?_, by norm_num⟩
  rw [cosSum_eq (by rw [h0]; norm_num) (by rw [h1]; norm_num) (by rw [h2]; norm_num), h0, h1, h2]
  norm_num [V3.dot, skewBox]

/-- The state after assigning `skewBox` to a new System. -/
noncomputable def skewSys : System :=
  { System.init with rot := skewBox.transpose, rotinv := skewBox.transpose.inv, triclinic := true,
                     box := skewBox }

theorem skewSys_eq : System.init.setBox skewBox = .ok skewSys := by
  have hd : skewBox.transpose.det ≠ 0 := by norm_num [Mat3.det, Mat3.transpose, skewBox]
  simp [System.setBox, skewBox_skewed, hd, skewSys]

/-- **C03 is false** as a statement about all triclinic cells: in a strongly skewed cell two
atoms inside the cell have a periodic image closer than `get_distance` reports. -/
theorem C03_false : ∃ (s : System) (a b : Atom),
    System.init.setBox skewBox = .ok s ∧
    (∃ f : V3, a.pos = ofFrac skewBox f ∧ 0 ≤ f.x ∧ f.x < 1 ∧ 0 ≤ f.y ∧ f.y < 1
      ∧ 0 ≤ f.z ∧ f.z < 1) ∧ b.pos = 0 ∧
    ∃ n1 n2 n3 : ℤ, V3.norm (a.pos - b.pos + latticeVec skewBox n1 n2 n3) < s.getDistance a b := by
  refine ⟨skewSys, { pos := ofFrac skewBox ⟨2 / 5, 2 / 5, 0⟩ }, { pos := 0 }, skewSys_eq,
    ⟨_, rfl, by norm_num⟩, rfl, -1, 0, 0, ?_⟩
  obtain ⟨hT, hb⟩ := setBox_skewed skewBox_skewed skewSys_eq
  have hx : skewSys.boxx = 1 := skewBox_norms.1
  have hy : skewSys.boxy = 1 := skewBox_norms.2.1
  have hz : skewSys.boxz = 1 := skewBox_norms.2.2
  have e : ofFrac skewBox ⟨2 / 5, 2 / 5, 0⟩ - (0 : V3) = ofFrac skewSys.box ⟨2 / 5, 2 / 5, 0⟩ := by
    rw [hb]; ext <;> simp
  rw [System.getDistance]
  simp only [e]
  rw [image_ofFrac hT, hx, hy, hz, hb]
  apply Real.sqrt_lt_sqrt (V3.normSq_nonneg _)
  norm_num [V3.normSq, ofFrac, skewBox, latticeVec, wrap]

/-- A second way in which C03 and C01 fail: an orthogonal cell that is not aligned with the
axes is treated as if it were axis-aligned, so `get_distance` misses the shorter image
(here the second edge (-4, 3, 0) of a cell with edges (6, 8, 0), (-4, 3, 0), (0, 0, 10)). -/
theorem C03_false_rotated_orthogonal :
    let b : Mat3 := ⟨⟨6, 8, 0⟩, ⟨-4, 3, 0⟩, ⟨0, 0, 10⟩⟩
    ∃ s, System.init.setBox b = .ok s ∧
    V3.norm ((⟨-4, 3, 0⟩ : V3) - 0 + latticeVec b 0 (-1) 0) = 0 ∧
    s.getDistance { pos := ⟨-4, 3, 0⟩ } { pos := 0 } ≠ 0 := by
  intro b
  have n0 : V3.norm b.r0 = 10 := by
    rw [V3.norm, show V3.normSq b.r0 = 10 ^ 2 by norm_num [V3.normSq, b]]
    exact Real.sqrt_sq (by norm_num)
  have n1 : V3.norm b.r1 = 5 := by
    rw [V3.norm, show V3.normSq b.r1 = 5 ^ 2 by norm_num [V3.normSq, b]]
    exact Real.sqrt_sq (by norm_num)
  have n2 : V3.norm b.r2 = 10 := by
    rw [V3.norm, show V3.normSq b.r2 = 10 ^ 2 by norm_num [V3.normSq, b]]
    exact Real.sqrt_sq (by norm_num)
  have hns : ¬ Skewed b := by
    rintro ⟨c, hc, h⟩
    obtain ⟨c0, c1, c2, h0, h1, h2, rfl⟩ := cosSum_eq_some hc
    rw [cosine_of_dot_zero (by norm_num [V3.dot, b]) h0,
      cosine_of_dot_zero (by norm_num [V3.dot, b]) h1,
      cosine_of_dot_zero (by norm_num [V3.dot, b]) h2] at h
    norm_num at h
  refine ⟨{ System.init with box := b }, by simp [System.setBox, hns], ?_, ?_⟩
  · norm_num [V3.norm, V3.normSq, latticeVec, b]
  · rw [System.getDistance, Ne, V3.norm_eq_zero]
    intro h
    have := congrArg V3.x h
    simp only [System.image, System.init, System.boxx, n0] at this
    norm_num [wrap] at this

/-- **C03, what holds.**  Full statement: for every non-degenerate triclinic box and atoms inside
it `get_distance` is the minimum over all images.  Proved: after assigning a skewed box, for
atoms whose fractional coordinates differ by at most 3/2 (in particular atoms inside the cell),
the displacement is a periodic image whose fractional coordinates are within 1/2; and whenever
some periodic image `v` is shorter than half of every height of the cell, the displacement is
exactly that image, and it is the shortest one.  Missing: images longer than half a cell height,
for which the statement is false (`C03_false`). -/
theorem C03_partial (s0 s : System) (b : Mat3) (hsk : Skew b) (hs : s0.setBox b = .ok s)
    (p r : Atom) (hf : FracBound b (p.pos - r.pos) (3 / 2)) :
    IsImage b (p.pos - r.pos) (s.getDistanceVector p r)
    ∧ FracBound b (s.getDistanceVector p r) (1 / 2)
    ∧ ∀ v, IsImage b (p.pos - r.pos) v → ShorterThanHalfHeights b v →
        s.getDistanceVector p r = v ∧ s.getDistance p r = V3.norm v
        ∧ IsShortestImage b (p.pos - r.pos) v := by
  obtain ⟨hT, rfl⟩ := setBox_skewed ((skewed_iff b).2 hsk) hs
  obtain ⟨f, hd, hx, hy, hz⟩ := hf
  obtain ⟨px, py, pz⟩ := hT.pos
  have huniq : ∀ v, IsImage s.box (ofFrac s.box f) v → ShorterThanHalfHeights s.box v →
      s.image (ofFrac s.box f) = v := fun v hv hv' => tri_image_unique hT hx hy hz hv hv'
  simp only [System.getDistanceVector, System.getDistance, hd]
  refine ⟨tri_image_isImage hT f, ?_, ?_⟩
  · rw [image_ofFrac hT]
    exact ⟨_, rfl, wrap_frac_bound px hx, wrap_frac_bound py hy, wrap_frac_bound pz hz⟩
  · intro v hv hv'
    have e := huniq v hv hv'
    refine ⟨e, by rw [e], hv, ?_⟩
    intro w hw
    by_contra hlt
    push Not at hlt
    have hw' : ShorterThanHalfHeights s.box w := by
      obtain ⟨k1, k2, k3⟩ := hv'
      have m1 := V3.norm_nonneg (cross s.box.r1 s.box.r2)
      have m2 := V3.norm_nonneg (cross s.box.r2 s.box.r0)
      have m3 := V3.norm_nonneg (cross s.box.r0 s.box.r1)
      refine ⟨?_, ?_, ?_⟩ <;> nlinarith
    have e2 := huniq w hw hw'
    rw [← e, ← e2] at hlt
    exact lt_irrefl _ hlt

/-- The hypotheses of C03_partial are met: two atoms a tenth of a cell vector apart. -/
example : Skew skewBox ∧ System.init.setBox skewBox = .ok skewSys ∧
    FracBound skewBox ((⟨1 / 10, 0, 0⟩ : V3) - 0) (3 / 2) ∧
    IsImage skewBox ((⟨1 / 10, 0, 0⟩ : V3) - 0) ⟨1 / 10, 0, 0⟩ ∧
    ShorterThanHalfHeights skewBox ⟨1 / 10, 0, 0⟩ := by
  refine ⟨(skewed_iff _).1 skewBox_skewed, skewSys_eq, ⟨⟨1 / 10, 0, 0⟩, ?_, by norm_num [abs_le]⟩,
    ⟨0, 0, 0, by ext <;> simp [latticeVec]⟩, ?_⟩
  · ext <;> simp [ofFrac, skewBox]
  · have h1 : V3.norm (cross skewBox.r1 skewBox.r2) ≤ 1 := by
      rw [V3.norm]; exact Real.sqrt_le_one.2 (by norm_num [V3.normSq, cross, skewBox])
    have h2 : V3.norm (cross skewBox.r2 skewBox.r0) ≤ 1 := by
      rw [V3.norm]; exact Real.sqrt_le_one.2 (by norm_num [V3.normSq, cross, skewBox])
    have h3 : V3.norm (cross skewBox.r0 skewBox.r1) ≤ 1 := by
      rw [V3.norm]; exact Real.sqrt_le_one.2 (by norm_num [V3.normSq, cross, skewBox])
    have hv : |volume skewBox| = 3 / 5 := by norm_num [volume, cross, V3.dot, skewBox]
    rw [ShorterThanHalfHeights, norm_axis_x _ (by norm_num), hv]
    refine ⟨?_, ?_, ?_⟩ <;> linarith

end Pyscal
