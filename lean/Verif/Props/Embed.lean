import Verif.Props.Dump
import Verif.Props.Voronoi
import Verif.Props.Repeat

/-! C94: `embed_in_cubic_box`. -/

namespace Pyscal

open Spec

/-- Specification: two cells have the same shape: the same lengths and angles, that is the same products of box vectors. -/
structure Spec.SameCellShape (b c : Mat3) : Prop where
  d00 : V3.dot b.r0 b.r0 = V3.dot c.r0 c.r0
  d11 : V3.dot b.r1 b.r1 = V3.dot c.r1 c.r1
  d22 : V3.dot b.r2 b.r2 = V3.dot c.r2 c.r2
  d01 : V3.dot b.r0 b.r1 = V3.dot c.r0 c.r1
  d12 : V3.dot b.r1 b.r2 = V3.dot c.r1 c.r2
  d20 : V3.dot b.r2 b.r0 = V3.dot c.r2 c.r0

/-- Specification: the box has the edges of the smallest box along the axes around the cell. -/
def Spec.BoundingBox (n b : Mat3) : Prop :=
  ∀ bx by' bz, Spec.BoundsOf 0 b bx by' bz → n = Spec.diagBox (bx.2 - bx.1) (by'.2 - by'.1) (bz.2 - bz.1)

theorem norm_sq_dot (v : V3) : V3.norm v * V3.norm v = V3.dot v v := by
  rw [V3.norm, Real.mul_self_sqrt (V3.normSq_nonneg v)]
  rfl

theorem sq_sum_zero {x y z : ℝ} (h : x ^ 2 + y ^ 2 + z ^ 2 = 0) : x = 0 ∧ y = 0 ∧ z = 0 := by
  refine ⟨?_, ?_, ?_⟩ <;> refine pow_eq_zero_iff (two_ne_zero) |>.1 ?_ <;> nlinarith [sq_nonneg x, sq_nonneg y, sq_nonneg z]

theorem dot_pos {v : V3} (h : v ≠ 0) : 0 < V3.dot v v := by
  have h0 : 0 ≤ v.x ^ 2 + v.y ^ 2 + v.z ^ 2 := by positivity
  have e : V3.dot v v = v.x ^ 2 + v.y ^ 2 + v.z ^ 2 := by simp only [V3.dot]; ring
  rw [e]
  rcases h0.lt_or_eq with h1 | h1
  · exact h1
  · obtain ⟨a, b, c⟩ := sq_sum_zero h1.symm
    exact absurd (V3.ext a b c) h

theorem gram_pos (b : Mat3) (hdet : b.det ≠ 0) : 0 < V3.dot b.r0 b.r0 * V3.dot b.r1 b.r1 - V3.dot b.r0 b.r1 ^ 2 ∧ 0 < V3.dot b.r0 b.r0 ∧
    0 < V3.dot b.r1 b.r1 ∧ 0 < V3.dot b.r2 b.r2 := by
  refine ⟨?_, dot_pos ?_, dot_pos ?_, dot_pos ?_⟩
  · have cross : V3.dot b.r0 b.r0 * V3.dot b.r1 b.r1 - V3.dot b.r0 b.r1 ^ 2 = (b.r0.y * b.r1.z - b.r0.z * b.r1.y) ^ 2 +
        (b.r0.z * b.r1.x - b.r0.x * b.r1.z) ^ 2 + (b.r0.x * b.r1.y - b.r0.y * b.r1.x) ^ 2 := by
      simp only [V3.dot]; ring
    rw [cross]
    have h0 : 0 ≤ (b.r0.y * b.r1.z - b.r0.z * b.r1.y) ^ 2 + (b.r0.z * b.r1.x - b.r0.x * b.r1.z) ^ 2 + (b.r0.x * b.r1.y - b.r0.y * b.r1.x) ^ 2 := by positivity
    rcases h0.lt_or_eq with h1 | h1
    · exact h1
    · obtain ⟨e1, e2, e3⟩ := sq_sum_zero h1.symm
      refine absurd ?_ hdet
      rw [show b.det = b.r2.x * (b.r0.y * b.r1.z - b.r0.z * b.r1.y) + b.r2.y * (b.r0.z * b.r1.x - b.r0.x * b.r1.z) + b.r2.z * (b.r0.x * b.r1.y - b.r0.y * b.r1.x) by
        simp only [Mat3.det]; ring, e1, e2, e3]
      ring
  · intro h; exact hdet (by simp [Mat3.det, h])
  · intro h; exact hdet (by simp [Mat3.det, h])
  · intro h; exact hdet (by simp [Mat3.det, h])

/-- **C94, shape**: the box set by `embed_in_cubic_box` bounds a cell of the same shape, turned so that its first vector is along x and
the second in the xy plane. -/
theorem C94_shape (b : Mat3) (hdet : b.det ≠ 0) : ∃ l xy xz yz, 0 < l.x ∧ 0 < l.y ∧ 0 < l.z ∧
    Spec.SameCellShape (Spec.lammpsCell l xy xz yz) b ∧ Spec.BoundingBox (System.embedBox b) (Spec.lammpsCell l xy xz yz) := by
  set A := V3.dot b.r0 b.r0 with hA
  set d01 := V3.dot b.r0 b.r1 with h01
  set d11 := V3.dot b.r1 b.r1 with h11
  set d12 := V3.dot b.r1 b.r2 with h12
  set d20 := V3.dot b.r2 b.r0 with h20
  set d22 := V3.dot b.r2 b.r2 with h22
  have gram : A * d11 * d22 + 2 * d01 * d12 * d20 - A * d12 ^ 2 - d11 * d20 ^ 2 - d22 * d01 ^ 2 = b.det ^ 2 := by
    rw [hA, h01, h11, h12, h20, h22]; simp only [V3.dot, Mat3.det]; ring
  have hdp : 0 < b.det ^ 2 := by positivity
  obtain ⟨hG, hA0, h11', h22'⟩ : 0 < A * d11 - d01 ^ 2 ∧ 0 < A ∧ 0 < d11 ∧ 0 < d22 := gram_pos b hdet
  have pos : ∀ v : V3, 0 < V3.dot v v → 0 < V3.norm v := fun v h => Real.sqrt_pos.2 h
  obtain ⟨na, hna⟩ : ∃ x, x = V3.norm b.r0 := ⟨_, rfl⟩
  obtain ⟨nb, hnb⟩ : ∃ x, x = V3.norm b.r1 := ⟨_, rfl⟩
  obtain ⟨nc, hnc⟩ : ∃ x, x = V3.norm b.r2 := ⟨_, rfl⟩
  have pa : 0 < na := hna ▸ pos _ hA0
  have pb : 0 < nb := hnb ▸ pos _ h11'
  have pc : 0 < nc := hnc ▸ pos _ h22'
  have qa : na * na = A := by rw [hna, norm_sq_dot]
  have qb : nb * nb = d11 := by rw [hnb, norm_sq_dot]
  have qc : nc * nc = d22 := by rw [hnc, norm_sq_dot]
  obtain ⟨xy, hxy⟩ : ∃ x, x = nb * (d01 / (na * nb)) := ⟨_, rfl⟩
  obtain ⟨xz, hxz⟩ : ∃ x, x = nc * (d20 / (nc * na)) := ⟨_, rfl⟩
  have exy : na * xy = d01 := by rw [hxy]; field_simp
  have exz : na * xz = d20 := by rw [hxz]; field_simp
  have hly2 : (nb * nb - xy * xy) * A = A * d11 - d01 ^ 2 := by rw [qb, ← exy, ← qa]; ring
  have ply2 : 0 < nb * nb - xy * xy := by
    by_contra hcon
    nlinarith
  obtain ⟨ly, hly⟩ : ∃ x, x = Real.sqrt (nb * nb - xy * xy) := ⟨_, rfl⟩
  have ply : 0 < ly := hly ▸ Real.sqrt_pos.2 ply2
  have qly : ly * ly = nb * nb - xy * xy := by rw [hly, Real.mul_self_sqrt ply2.le]
  obtain ⟨yz, hyz⟩ : ∃ x, x = (nb * nc * (d12 / (nb * nc)) - xy * xz) / ly := ⟨_, rfl⟩
  have eyz : xy * xz + ly * yz = d12 := by rw [hyz]; field_simp; ring
  have hlz2 : (nc * nc - xz * xz - yz * yz) * ((ly * ly) * A) = b.det ^ 2 := by
    have e1 : (ly * yz) = d12 - xy * xz := by linarith
    have : (nc * nc - xz * xz - yz * yz) * ((ly * ly) * A) = ((nc * nc - xz * xz) * (ly * ly) - (ly * yz) ^ 2) * A := by ring
    rw [this, e1, qly, ← gram, qc, qb, ← qa, ← exy, ← exz]
    ring
  have plz2 : 0 < nc * nc - xz * xz - yz * yz := by
    by_contra hcon
    have : 0 < (ly * ly) * A := by positivity
    nlinarith
  obtain ⟨lz, hlz⟩ : ∃ x, x = Real.sqrt (nc * nc - xz * xz - yz * yz) := ⟨_, rfl⟩
  have plz : 0 < lz := hlz ▸ Real.sqrt_pos.2 plz2
  have qlz : lz * lz = nc * nc - xz * xz - yz * yz := by rw [hlz, Real.mul_self_sqrt plz2.le]
  refine ⟨⟨na, ly, lz⟩, xy, xz, yz, pa, ply, plz, ⟨?_, ?_, ?_, ?_, ?_, ?_⟩, ?_⟩
  · change na * na + 0 * 0 + 0 * 0 = A; linarith
  · change xy * xy + ly * ly + 0 * 0 = d11; linarith
  · change xz * xz + yz * yz + lz * lz = d22; linarith
  · change na * xy + 0 * ly + 0 * 0 = d01; linarith
  · change xy * xz + ly * yz + 0 * lz = d12; linarith
  · change xz * na + yz * 0 + lz * 0 = d20; linarith
  · intro bx by' bz hb
    obtain ⟨e1, e2, e3⟩ := bounds_lammps pa.le ply.le plz.le hb
    have : System.embedBox b = ⟨⟨na + max (max 0 xy) (max xz (xy + xz)) - min (min 0 xy) (min xz (xy + xz)), 0, 0⟩, ⟨0, ly + max 0 yz - min 0 yz, 0⟩, ⟨0, 0, lz⟩⟩ := by
      unfold System.embedBox
      simp only [← hna, ← hnb, ← hnc, ← hA, ← h01, ← h11, ← h12, ← h20, ← h22, ← hxy, ← hxz, ← hly, ← hyz, ← hlz]
    rw [this, e1, e2, e3, Spec.diagBox]
    simp only [min_assoc, max_assoc, V3.zero_x, V3.zero_y, V3.zero_z, zero_add, sub_zero]

/-- A cell in that orientation is determined by its shape. -/
theorem lammps_unique {l l' : V3} {xy xz yz xy' xz' yz' : ℝ} (hx : 0 < l.x) (hy : 0 < l.y) (hz : 0 < l.z) (hx' : 0 < l'.x) (hy' : 0 < l'.y) (hz' : 0 < l'.z)
    (h : Spec.SameCellShape (Spec.lammpsCell l xy xz yz) (Spec.lammpsCell l' xy' xz' yz')) : Spec.lammpsCell l xy xz yz = Spec.lammpsCell l' xy' xz' yz' := by
  obtain ⟨h1, h2, h3, h4, h5, h6⟩ := h
  simp only [V3.dot, Spec.lammpsCell, mul_zero, zero_mul, add_zero] at h1 h2 h3 h4 h5 h6
  have sq : ∀ {a c : ℝ}, 0 < a → 0 < c → a * a = c * c → a = c := fun ha hc h => by nlinarith
  have e1 : l.x = l'.x := sq hx hx' h1
  have e2 : xy = xy' := mul_left_cancel₀ hx.ne' (by rw [h4, e1])
  have e3 : l.y = l'.y := sq hy hy' (by rw [e2] at h2; linarith)
  have e4 : xz = xz' := mul_right_cancel₀ hx.ne' (by rw [h6, e1])
  have e5 : yz = yz' := mul_left_cancel₀ hy.ne' (by rw [e2, e4, e3] at h5; rw [e3]; linarith)
  have e6 : l.z = l'.z := sq hz hz' (by rw [e4, e5] at h3; linarith)
  simp only [Spec.lammpsCell, e1, e2, e3, e4, e5, e6]

theorem Spec.SameCellShape.symm {b c : Mat3} (h : Spec.SameCellShape b c) : Spec.SameCellShape c b :=
  ⟨h.d00.symm, h.d11.symm, h.d22.symm, h.d01.symm, h.d12.symm, h.d20.symm⟩

theorem Spec.SameCellShape.trans {a b c : Mat3} (h : Spec.SameCellShape a b) (g : Spec.SameCellShape b c) : Spec.SameCellShape a c :=
  ⟨h.d00.trans g.d00, h.d11.trans g.d11, h.d22.trans g.d22, h.d01.trans g.d01, h.d12.trans g.d12, h.d20.trans g.d20⟩

/-- **C94, turned cells**: the box is the one around the turned cell, whatever the orientation of the cell itself. -/
theorem C94_turned (b : Mat3) (l : V3) (xy xz yz : ℝ) (hx : 0 < l.x) (hy : 0 < l.y) (hz : 0 < l.z) (hs : Spec.SameCellShape (Spec.lammpsCell l xy xz yz) b) :
    Spec.BoundingBox (System.embedBox b) (Spec.lammpsCell l xy xz yz) := by
  have hg : ∀ c : Mat3, V3.dot c.r0 c.r0 * V3.dot c.r1 c.r1 * V3.dot c.r2 c.r2 + 2 * V3.dot c.r0 c.r1 * V3.dot c.r1 c.r2 * V3.dot c.r2 c.r0 -
      V3.dot c.r0 c.r0 * V3.dot c.r1 c.r2 ^ 2 - V3.dot c.r1 c.r1 * V3.dot c.r2 c.r0 ^ 2 - V3.dot c.r2 c.r2 * V3.dot c.r0 c.r1 ^ 2 = c.det ^ 2 := by
    intro c; simp only [V3.dot, Mat3.det]; ring
  have hdet : b.det ≠ 0 := by
    intro h
    have h1 := hg b
    rw [← hs.d00, ← hs.d11, ← hs.d22, ← hs.d01, ← hs.d12, ← hs.d20, hg, h] at h1
    have h2 : (Spec.lammpsCell l xy xz yz).det = l.x * l.y * l.z := by simp only [Mat3.det, Spec.lammpsCell]; ring
    have : 0 < l.x * l.y * l.z := by positivity
    rw [h2] at h1
    nlinarith
  obtain ⟨l', xy', xz', yz', h1, h2, h3, hs', hb⟩ := C94_shape _ hdet
  rwa [lammps_unique h1 h2 h3 hx hy hz (hs'.trans hs.symm)] at hb

/-- **C94, in part**: a cell whose first vector is along x and whose second vector is in the xy plane is enclosed exactly. -/
theorem C94_partial (l : V3) (xy xz yz : ℝ) (hx : 0 < l.x) (hy : 0 < l.y) (hz : 0 < l.z) :
    Spec.BoundingBox (System.embedBox (Spec.lammpsCell l xy xz yz)) (Spec.lammpsCell l xy xz yz) :=
  C94_turned _ l xy xz yz hx hy hz ⟨rfl, rfl, rfl, rfl, rfl, rfl⟩

example : Spec.BoundingBox (System.embedBox ⟨⟨4, 0, 0⟩, ⟨1, 3, 0⟩, ⟨-1, 1, 2⟩⟩) ⟨⟨4, 0, 0⟩, ⟨1, 3, 0⟩, ⟨-1, 1, 2⟩⟩ :=
  C94_partial ⟨4, 3, 2⟩ 1 (-1) 1 (by norm_num) (by norm_num) (by norm_num)

/-- A cell in another orientation. -/
example : Spec.BoundingBox (System.embedBox ⟨⟨0, 0, 4⟩, ⟨0, 3, 1⟩, ⟨2, 1, -1⟩⟩) ⟨⟨4, 0, 0⟩, ⟨1, 3, 0⟩, ⟨-1, 1, 2⟩⟩ :=
  C94_turned _ ⟨4, 3, 2⟩ 1 (-1) 1 (by norm_num) (by norm_num) (by norm_num) (by constructor <;> norm_num [V3.dot, Spec.lammpsCell])

/-! ### What the Voronoi search makes of it -/

/-- The state in which the tessellation runs, for a skewed box and 200 atoms or more. -/
theorem voronoi_state {b : Mat3} {l : List Atom} {s0 s1 p : System} (hb : System.init.setBox b = .ok s0) (ha : s0.assignAtoms l = .ok s1)
    (hreal : ∀ a ∈ l, a.ghost = false) (hsk : Skewed b) (hl : 200 ≤ l.length) {f : ℕ} {e : ℤ} (hp : voronoiStart s1 f e = .ok p) :
    p.atoms.map geo = (l ++ repNew b true 1 1 1 l).map geo ∧ p.box = System.embedBox (scaleBox b 1 1 1) ∧ p.triclinic = true ∧
      p.rot = (scaleBox b 1 1 1).transpose ∧ p.rotinv = (scaleBox b 1 1 1).transpose.inv ∧ b.det ≠ 0 := by
  obtain ⟨h1, h2⟩ := assigned_start hb ha hreal
  have hs1 := assigned_large hb ha hl
  obtain ⟨htri, hbox0⟩ := setBox_skewed hsk hb
  have hgh : s0.ghostsCreated = false := by
    unfold System.setBox at hb
    rw [if_pos hsk] at hb
    dsimp only at hb
    split_ifs at hb with hd
    obtain rfl := Except.ok.inj hb
    rfl
  have u1 : s1.triclinic = true := by rw [hs1]; exact htri.tri
  have u5 : s1.ghostsCreated = false := by rw [hs1]; exact hgh
  have hdet : b.det ≠ 0 := by rw [← hbox0]; exact htri.det
  unfold voronoiStart at hp
  have k0 : Kept s1 { s1.resetAllNeighbors with filter := f, alpha := e } :=
    (Kept.resetAll s1).trans ⟨rfl, rfl, rfl, rfl, rfl, rfl, rfl, rfl, rfl, rfl⟩
  have h0 := h2.kept k0
  generalize hsx : ({ s1.resetAllNeighbors with filter := f, alpha := e } : System) = sx at *
  unfold System.voronoiPrepare at hp
  rw [if_pos ⟨h0.tri.trans u1, k0.ghosts.trans u5⟩] at hp
  obtain ⟨cur, hcur, hp⟩ := bind_ok hp
  obtain ⟨v, hrep, hp2⟩ := bind_ok hp
  obtain ⟨sy, al⟩ := v
  dsimp only at hp2
  obtain ⟨reals', hi', hid'⟩ := h0.inv
  rw [getAtoms_inv hi'] at hcur
  obtain rfl := Except.ok.inj hcur
  obtain ⟨a1, a2, a3, _⟩ := repeatAtoms_ok hrep
  obtain ⟨c1, c2, c3, _⟩ := setBox_frame hp2
  rw [if_pos rfl, h0.getBox] at a3
  have hsy : TriOK sy := by
    unfold System.repeatAtoms at hrep
    simp only [if_true] at hrep
    obtain ⟨w, hw, hr⟩ := bind_ok hrep
    obtain ⟨e1, e2⟩ := Prod.mk.inj (Except.ok.inj hr)
    obtain ⟨hw1, hw2⟩ := setBox_skewed ((skewed_scale _ _ _ _).2 (by rw [h0.getBox]; exact hsk)) hw
    rw [← e1]
    exact ⟨hw1.tri, hw1.rot, hw1.rotinv, hw1.det⟩
  have hpe : p = { sy.setAtoms al with box := System.embedBox (sy.setAtoms al).box } := by
    unfold System.setBox at hp2
    rw [if_neg (show ¬ Skewed (System.embedBox (sy.setAtoms al).box) from not_skewed_diag _ _ _)] at hp2
    exact (Except.ok.inj hp2).symm
  refine ⟨?_, ?_, ?_, ?_, ?_, hdet⟩
  · rw [c3]
    change al.map geo = _
    rw [a1, List.map_append, List.map_append, geo_of_identity hid', h0.getBox, repNew_identity hid']
  · rw [c1]; change System.embedBox sy.box = _; rw [a3]
  · rw [hpe]; exact hsy.tri
  · rw [hpe]; change sy.rot = _; rw [hsy.rot, a3]
  · rw [hpe]; change sy.rotinv = _; rw [hsy.rotinv, a3]

/-- Embedding gives a box with positive edges. -/
theorem embed_edges (b : Mat3) (hdet : b.det ≠ 0) : ∃ x y z, 0 < x ∧ 0 < y ∧ 0 < z ∧ System.embedBox b = Spec.diagBox x y z := by
  obtain ⟨l, xy, xz, yz, hx, hy, hz, -, hb⟩ := C94_shape b hdet
  obtain ⟨bx, by', bz, hB⟩ := boundsOf_exists 0 l xy xz yz
  obtain ⟨e1, e2, e3⟩ := bounds_lammps hx.le hy.le hz.le hB
  refine ⟨_, _, _, ?_, ?_, ?_, hb _ _ _ hB⟩
  · rw [e1]
    have h1 : min 0 (min xy (min xz (xy + xz))) ≤ 0 := min_le_left _ _
    have h2 : 0 ≤ max 0 (max xy (max xz (xy + xz))) := le_max_left _ _
    simp only [V3.zero_x]
    linarith
  · rw [e2]
    have h1 : min 0 yz ≤ 0 := min_le_left _ _
    have h2 : 0 ≤ max 0 yz := le_max_left _ _
    simp only [V3.zero_y]
    linarith
  · rw [e3]; simp only [V3.zero_z]; linarith

/-- **What a Voronoi search hands to the tessellation**, for a skewed box with 200 atoms or more: a container with the edges of the
embedding box of the tripled cell, and the atoms, not turned, at their places (if these are inside half of the tripled cell). -/
theorem C94_voronoi {b : Mat3} {l : List Atom} {s0 s1 s2 : System} (hb : System.init.setBox b = .ok s0) (ha : s0.assignAtoms l = .ok s1)
    (hreal : ∀ a ∈ l, a.ghost = false) (hsk : Skewed b) (hl : 200 ≤ l.length) {T : Tessellation} {f : ℕ} {e : ℤ} (hv : s1.findVoronoi T f e = .ok s2) :
    ∃ (x y z : ℝ) (P : List V3), System.embedBox (scaleBox b 1 1 1) = Spec.diagBox x y z ∧ P.length = 27 * l.length ∧
      (∀ i c, T ⟨x, y, z⟩ P i = some c → i < P.length → ∃ a, s2.atoms[i]? = some a ∧ a.volume = c.volume) ∧
      ∀ (i : ℕ) (a : Atom) (fr : V3), l[i]? = some a → a.pos = Spec.ofFrac (scaleBox b 1 1 1) fr → |fr.x| < 1 / 2 → |fr.y| < 1 / 2 → |fr.z| < 1 / 2 →
        P[i]? = some a.pos := by
  obtain ⟨p, atoms, hp, hc, -, -, s3, hs3, rfl⟩ := findVoronoi_ok hv
  obtain ⟨q1, q2, q3, q4, q5, hdet⟩ := voronoi_state hb ha hreal hsk hl hp
  have hdet3 : (scaleBox b 1 1 1).det ≠ 0 := by
    rw [det_scale]
    exact mul_ne_zero (by norm_num) hdet
  obtain ⟨x, y, z, px, py, pz, hE⟩ := embed_edges _ hdet3
  have hlen : p.atoms.length = 27 * l.length := by
    have := congrArg List.length q1
    simp only [List.length_map, List.length_append, repNew_length] at this
    rw [this, show (repCells 1 1 1).length = 26 from by decide +kernel]
    ring
  have hbx : p.boxx = x := by rw [System.boxx, q2, hE]; exact norm_axis_x _ px.le
  have hby : p.boxy = y := by rw [System.boxy, q2, hE]; exact norm_axis_y _ py.le
  have hbz : p.boxz = z := by rw [System.boxz, q2, hE]; exact norm_axis_z _ pz.le
  refine ⟨x, y, z, p.atoms.map fun a => p.remapAtom a.pos, hE, by simp [hlen], ?_, ?_⟩
  · intro i c hT hi
    rw [List.length_map] at hi
    unfold System.voronoiCells at hc
    dsimp only at hc
    obtain ⟨hl', hall⟩ := mapM_except _ _ _ hc
    obtain ⟨a', ha', hi'⟩ := hall i (p.atoms[i], i) (by simp [hi])
    obtain ⟨-, -, c3, -⟩ := setBox_frame hs3
    change (match T ⟨p.boxx, p.boxy, p.boxz⟩ (p.atoms.map fun a => p.remapAtom a.pos) i with
      | none => _
      | some c => _) = _ at ha'
    rw [hbx, hby, hbz, hT] at ha'
    dsimp only at ha'
    unfold System.voronoiAtom at ha'
    have hvol : a'.volume = c.volume := by
      split at ha'
      · cases ha'
      · split_ifs at ha'
        rw [← Except.ok.inj ha']
    refine ⟨System.avgVolume1 { p with voronoiused := true, atoms := atoms } a', ?_, ?_⟩
    · change s3.atoms[i]? = _
      rw [c3]
      simp [hi']
    · exact hvol
  · intro i a fr hi hpos f1 f2 f3
    have hli : i < l.length := (List.getElem?_eq_some_iff.1 hi).1
    have hpi : ∃ a', p.atoms[i]? = some a' ∧ a'.pos = a.pos := by
      have := congrArg (fun L => L[i]?) q1
      simp only [List.getElem?_map] at this
      rw [List.getElem?_append_left hli, hi] at this
      obtain ⟨a', ha', hg⟩ := Option.map_eq_some_iff.1 this
      exact ⟨a', ha', congrArg Prod.fst hg⟩
    obtain ⟨a', ha', hpa⟩ := hpi
    rw [List.getElem?_map, ha', Option.map_some, hpa]
    congr 1
    have hd : (scaleBox b 1 1 1).transpose.det ≠ 0 := by rw [Mat3.det_transpose]; exact hdet3
    have key : ∀ L t : ℝ, 0 < L → |t| < 1 / 2 → wrap L (t * L) / L = t := by
      intro L t hL ht
      have h1 := abs_lt.1 ht
      have e1 : ¬ t * L > L / 2 := by nlinarith
      have e2 : ¬ t * L < -L / 2 := by nlinarith
      unfold wrap
      simp only [if_neg e1, if_neg e2]
      field_simp
    unfold System.remapAtom
    rw [if_pos q3, System.image, if_pos q3]
    dsimp only
    rw [q4, q5, hpos, ← transpose_mulVec, Mat3.inv_mulVec _ hd, hbx, hby, hbz, key _ _ px f1, key _ _ py f2, key _ _ pz f3]

/-! ### A cell in another orientation -/

/-- A skewed cell with its first vector along z. -/
def turnBox : Mat3 := ⟨⟨0, 0, 1000⟩, ⟨0, 400, 300⟩, ⟨100, 0, 0⟩⟩

/-- A row of 200 atoms along z. -/
noncomputable def turnAtoms : List Atom := (List.range 200).map fun k : ℕ => { pos := ⟨0, 0, 3 * (k : ℝ)⟩ }

theorem turnBox_det : turnBox.det ≠ 0 := by norm_num [Mat3.det, turnBox]

theorem sqrt_of_sq {x y : ℝ} (hy : 0 ≤ y) (h : x = y ^ 2) : Real.sqrt x = y := by rw [h, Real.sqrt_sq hy]

theorem turnBox_skewed : Skewed turnBox := by
  have h0 : V3.norm turnBox.r0 = 1000 := sqrt_of_sq (by norm_num) (by norm_num [V3.normSq, turnBox])
  have h1 : V3.norm turnBox.r1 = 500 := sqrt_of_sq (by norm_num) (by norm_num [V3.normSq, turnBox])
  have h2 : V3.norm turnBox.r2 = 100 := sqrt_of_sq (by norm_num) (by norm_num [V3.normSq, turnBox])
  refine ⟨_, cosSum_eq (by rw [h0]; norm_num) (by rw [h1]; norm_num) (by rw [h2]; norm_num), ?_⟩
  rw [h0, h1, h2]
  norm_num [V3.dot, turnBox]

/-- The embedding box of the cell `k` times as large. -/
theorem embed_turn (k : ℝ) (hk : 0 < k) : System.embedBox ⟨V3.smul k turnBox.r0, V3.smul k turnBox.r1, V3.smul k turnBox.r2⟩ = Spec.diagBox (1300 * k) (400 * k) (100 * k) := by
  have hb := C94_turned ⟨V3.smul k turnBox.r0, V3.smul k turnBox.r1, V3.smul k turnBox.r2⟩ ⟨1000 * k, 400 * k, 100 * k⟩ (300 * k) 0 0 (by simp [hk]) (by simp [hk]) (by simp [hk])
    ⟨by simp [V3.dot, Spec.lammpsCell, turnBox, V3.smul]; ring, by simp [V3.dot, Spec.lammpsCell, turnBox, V3.smul]; ring,
      by simp [V3.dot, Spec.lammpsCell, turnBox, V3.smul]; ring, by simp [V3.dot, Spec.lammpsCell, turnBox, V3.smul]; ring,
      by simp [V3.dot, Spec.lammpsCell, turnBox, V3.smul], by simp [V3.dot, Spec.lammpsCell, turnBox, V3.smul]⟩
  obtain ⟨bx, by', bz, hB⟩ := boundsOf_exists 0 ⟨1000 * k, 400 * k, 100 * k⟩ (300 * k) 0 0
  obtain ⟨e1, e2, e3⟩ := bounds_lammps (by positivity) (by positivity) (by positivity) hB
  rw [hb _ _ _ hB, e1, e2, e3]
  have h3 : 0 ≤ 300 * k := by positivity
  simp [h3]
  congr 1
  ring

/-- **C94 is false for a cell in another orientation**: this cell extends over 1300 along z, and the box made to embed it over 100. -/
theorem C94_false : Skewed turnBox ∧ turnBox.det ≠ 0 ∧ System.embedBox turnBox = Spec.diagBox 1300 400 100 ∧
    ∀ bx by' bz, Spec.BoundsOf 0 turnBox bx by' bz → bz.2 - bz.1 = 1300 := by
  refine ⟨turnBox_skewed, turnBox_det, ?_, ?_⟩
  · have := embed_turn 1 one_pos
    simpa [turnBox, V3.smul] using this
  · intro bx by' bz h
    have e2 : bz.2 = 1300 := by
      refine h.zhi.unique ⟨⟨_, ⟨⟨1, 1, 0⟩, by simp, by simp, by simp, rfl⟩, by norm_num [Spec.ofFrac, turnBox, V3.smul]⟩, ?_⟩
      rintro _ ⟨_, ⟨f, hx, hy, hz, rfl⟩, rfl⟩
      rcases hx with hx | hx <;> rcases hy with hy | hy <;> norm_num [Spec.ofFrac, turnBox, V3.smul, hx, hy]
    have e1 : bz.1 = 0 := by
      refine h.zlo.unique ⟨⟨_, ⟨⟨0, 0, 0⟩, by simp, by simp, by simp, rfl⟩, by norm_num [Spec.ofFrac, turnBox, V3.smul]⟩, ?_⟩
      rintro _ ⟨_, ⟨f, hx, hy, hz, rfl⟩, rfl⟩
      rcases hx with hx | hx <;> rcases hy with hy | hy <;> norm_num [Spec.ofFrac, turnBox, V3.smul, hx, hy]
    rw [e1, e2]; ring

/-- A Voronoi search whose tessellation computes no cell succeeds. -/
theorem voronoi_none_runs {b : Mat3} {l : List Atom} {s0 : System} (h0 : System.init.setBox b = .ok s0) (hreal : ∀ a ∈ l, a.ghost = false) (hdet : b.det ≠ 0)
    (hl : 200 ≤ l.length) : ∃ s2, (s0.setAtoms l).findVoronoi (fun _ _ _ => none) 0 1 = .ok s2 := by
  have h1 : s0.assignAtoms l = .ok (s0.setAtoms l) := if_neg (by omega)
  obtain ⟨a1, a2⟩ := assigned_start h0 h1 hreal
  set s1 := s0.setAtoms l with hs1
  have k0 : Kept s1 { s1.resetAllNeighbors with filter := 0, alpha := 1 } :=
    (Kept.resetAll s1).trans ⟨rfl, rfl, rfl, rfl, rfl, rfl, rfl, rfl, rfl, rfl⟩
  have g0 := a2.kept k0
  have hnb : ∀ a ∈ s1.resetAllNeighbors.atoms, a.nbrs = [] := by
    intro a ha
    simp only [System.resetAllNeighbors, List.mem_map] at ha
    obtain ⟨c, -, rfl⟩ := ha
    rfl
  have hp : ∃ t, System.voronoiPrepare { s1.resetAllNeighbors with filter := 0, alpha := 1 } = .ok t ∧ ∀ a ∈ t.atoms, a.nbrs = [] := by
    generalize hsx : ({ s1.resetAllNeighbors with filter := 0, alpha := 1 } : System) = sx at *
    have hnb : ∀ a ∈ sx.atoms, a.nbrs = [] := by rw [← hsx]; exact hnb
    unfold System.voronoiPrepare
    split_ifs with hc
    · obtain ⟨reals, hi, hid⟩ := g0.inv
      obtain ⟨sy, out, hrep⟩ := repeatAtoms_isOk (s := sx) (rx := 1) (ry := 1) (rz := 1) (l := reals) (g := true) (sc := true)
        (by rw [g0.getBox]; exact fun _ => hdet)
      simp only [bind, Except.bind, getAtoms_inv hi, hrep]
      obtain ⟨w, hw⟩ := setBox_ok (s := sy.setAtoms out) (b := System.embedBox (sy.setAtoms out).box)
        (fun h => absurd h (not_skewed_diag _ _ _))
      refine ⟨w, hw, ?_⟩
      obtain ⟨-, -, c3, -⟩ := setBox_frame hw
      rw [c3]
      change ∀ a ∈ out, _
      obtain ⟨b1, -⟩ := repeatAtoms_ok hrep
      rw [b1]
      intro a ha
      rcases List.mem_append.1 ha with ha | ha
      · obtain ⟨gs, e, -⟩ := hi.ex
        exact hnb a (by rw [e]; exact List.mem_append_left _ ha)
      · obtain ⟨c, -, a', -, i, rfl⟩ := mem_repNew ha
        rfl
    · exact ⟨sx, rfl, hnb⟩
  obtain ⟨t, ht, htn⟩ := hp
  obtain ⟨q, hq⟩ := voronoi_none_ok htn
  obtain ⟨w, hw⟩ := setBox_ok (s := q) (b := ({ s1.resetAllNeighbors with filter := 0, alpha := 1 } : System).box)
    (fun _ => by rw [g0.box, a1.large (by exact hl)]; exact hdet)
  unfold System.findVoronoi
  simp only [bind, Except.bind, ht, hq, hw]
  exact ⟨_, rfl⟩

/-- **C94, effect on Voronoi searches**: for the row of atoms in that cell the atoms 0 and 100, at a distance of 300 from each other, are
handed over as points that differ by one period of the container, that is as the same point, to every tessellation. -/
theorem C94_false_voronoi : ∃ s0 s1 : System, System.init.setBox turnBox = .ok s0 ∧ s0.assignAtoms turnAtoms = .ok s1 ∧
    (∃ s2, s1.findVoronoi (fun _ _ _ => none) 0 1 = .ok s2) ∧
    ∀ (T : Tessellation) (f : ℕ) (e : ℤ) (s2 : System), s1.findVoronoi T f e = .ok s2 → ∃ (K : V3) (P : List V3) (p q : V3),
      (∀ i c, T K P i = some c → i < P.length → ∃ a, s2.atoms[i]? = some a ∧ a.volume = c.volume) ∧
      P[0]? = some p ∧ P[100]? = some q ∧ q - p = ⟨0, 0, K.z⟩ ∧ K.z = 300 := by
  have hreal : ∀ a ∈ turnAtoms, a.ghost = false := by
    intro a ha
    obtain ⟨i, -, rfl⟩ := List.mem_map.1 ha
    rfl
  have hlen : turnAtoms.length = 200 := by rw [turnAtoms, List.length_map, List.length_range]
  obtain ⟨s0, h0⟩ := setBox_ok (s := System.init) (b := turnBox) fun _ => turnBox_det
  have h1 : s0.assignAtoms turnAtoms = .ok (s0.setAtoms turnAtoms) := if_neg (by omega)
  refine ⟨s0, _, h0, h1, voronoi_none_runs h0 hreal turnBox_det hlen.ge, ?_⟩
  intro T f e s2 hv
  obtain ⟨x, y, z, P, hE, -, hc, hP⟩ := C94_voronoi h0 h1 hreal turnBox_skewed hlen.ge hv
  have hz : z = 300 := by
    have h2 : scaleBox turnBox 1 1 1 = ⟨V3.smul 3 turnBox.r0, V3.smul 3 turnBox.r1, V3.smul 3 turnBox.r2⟩ := by norm_num [scaleBox]
    rw [h2, embed_turn 3 (by norm_num)] at hE
    have := congrArg (fun m : Mat3 => m.r2.z) hE
    simp only [Spec.diagBox] at this
    linarith
  have get : ∀ k < 200, turnAtoms[k]? = some { pos := ⟨0, 0, 3 * (k : ℝ)⟩ } := by
    intro k hk
    rw [turnAtoms, List.getElem?_map, List.getElem?_range hk]
    rfl
  have pt : ∀ k < 200, P[k]? = some ⟨0, 0, 3 * (k : ℝ)⟩ := by
    intro k hk
    have hk' : (k : ℝ) < 200 := by exact_mod_cast hk
    refine hP k _ ⟨k / 1000, 0, 0⟩ (get k hk) ?_ ?_ (by norm_num) (by norm_num)
    · ext <;> simp [Spec.ofFrac, scaleBox, turnBox, V3.smul]
      ring
    · rw [abs_of_nonneg (by positivity)]
      change (k : ℝ) / 1000 < 1 / 2
      linarith
  refine ⟨⟨x, y, z⟩, P, _, _, hc, pt 0 (by norm_num), pt 100 (by norm_num), ?_, hz⟩
  ext <;> simp [hz]
  norm_num

end Pyscal
