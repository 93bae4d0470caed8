import Verif.Lemmas.Motion
import Verif.Lemmas.Store
import Verif.Lemmas.Geometry
import Verif.Props.Harmonics

/-! Building a system commutes with motions of the whole input. -/

namespace Pyscal

open Spec (moveVec moveBox moveAtom moveNb unitMat Orthogonal)

theorem moveVec_add (M : Mat3) (c : ℝ) (u v : V3) : moveVec M c (u + v) = moveVec M c u + moveVec M c v := by
  ext <;> simp [moveVec, Mat3.mulVec, V3.dot] <;> ring

theorem moveVec_sub (M : Mat3) (c : ℝ) (u v : V3) : moveVec M c (u - v) = moveVec M c u - moveVec M c v := by
  ext <;> simp [moveVec, Mat3.mulVec, V3.dot] <;> ring

theorem moveVec_smul (M : Mat3) (c k : ℝ) (u : V3) : moveVec M c (V3.smul k u) = V3.smul k (moveVec M c u) := by
  ext <;> simp [moveVec, Mat3.mulVec, V3.dot] <;> ring

theorem moveVec_dot {M : Mat3} (hM : Orthogonal M) (c : ℝ) (u v : V3) :
    V3.dot (moveVec M c u) (moveVec M c v) = c ^ 2 * V3.dot u v := by
  have := hM u v
  simp only [V3.dot] at this
  simp only [moveVec, V3.dot, V3.smul_x, V3.smul_y, V3.smul_z]
  linear_combination c ^ 2 * this

theorem moveVec_unit (c : ℝ) (v : V3) : moveVec unitMat c v = V3.smul c v := by
  ext <;> simp [moveVec, unitMat, Mat3.mulVec, V3.dot]

theorem moveVec_one (v : V3) : moveVec unitMat 1 v = v := by
  ext <;> simp [moveVec, unitMat, Mat3.mulVec, V3.dot]

theorem moveBox_one (b : Mat3) : moveBox unitMat 1 b = b := by simp only [moveBox, moveVec_one]

theorem moveNb_one (x : Nb) : moveNb unitMat 1 x = x := by simp only [moveNb, moveVec_one, one_mul]

theorem cosine_move {M : Mat3} (hM : Orthogonal M) {c : ℝ} (hc : 0 < c) (u v : V3) :
    cosine (moveVec M c u) (moveVec M c v) = cosine u v := by
  unfold cosine fdiv
  rw [moveVec_dot hM, moveVec_norm hM hc, moveVec_norm hM hc,
    show c * u.norm * (c * v.norm) = c ^ 2 * (u.norm * v.norm) by ring]
  have h2 : c ^ 2 ≠ 0 := by positivity
  by_cases h0 : u.norm * v.norm = 0
  · rw [if_pos h0, if_pos (by rw [h0, mul_zero])]
  · rw [if_neg h0, if_neg (mul_ne_zero h2 h0), mul_div_mul_left _ _ h2]

theorem skewed_move {M : Mat3} (hM : Orthogonal M) {c : ℝ} (hc : 0 < c) (b : Mat3) :
    Skewed (moveBox M c b) ↔ Skewed b := by
  unfold Skewed cosSum
  simp only [moveBox, cosine_move hM hc]

theorem det_move (M : Mat3) (c : ℝ) (b : Mat3) : (moveBox M c b).det = c ^ 3 * M.det * b.det := by
  simp only [Mat3.det, moveBox, moveVec, Mat3.mulVec, V3.dot, V3.smul_x, V3.smul_y, V3.smul_z]; ring

theorem scaleBox_move (M : Mat3) (c : ℝ) (b : Mat3) (rx ry rz : ℕ) :
    scaleBox (moveBox M c b) rx ry rz = moveBox M c (scaleBox b rx ry rz) := by
  simp only [scaleBox, moveBox, moveVec_smul]

/-- `det M ≠ 0` for an orthogonal matrix. -/
theorem orthogonal_det {M : Mat3} (hM : Orthogonal M) : M.det ≠ 0 := by
  have h00 := hM ⟨1, 0, 0⟩ ⟨1, 0, 0⟩
  have h01 := hM ⟨1, 0, 0⟩ ⟨0, 1, 0⟩
  have h02 := hM ⟨1, 0, 0⟩ ⟨0, 0, 1⟩
  have h11 := hM ⟨0, 1, 0⟩ ⟨0, 1, 0⟩
  have h12 := hM ⟨0, 1, 0⟩ ⟨0, 0, 1⟩
  have h22 := hM ⟨0, 0, 1⟩ ⟨0, 0, 1⟩
  simp only [Mat3.mulVec, V3.dot, mul_one, mul_zero, add_zero, zero_add] at h00 h01 h02 h11 h12 h22
  intro h0
  obtain ⟨⟨a, b, c⟩, ⟨d, e, f⟩, ⟨g, h, i⟩⟩ := M
  simp only [Mat3.det] at h0 h00 h01 h02 h11 h12 h22
  -- the squared determinant is the Gram determinant of the columns
  have key : (a * (e * i - f * h) - b * (d * i - f * g) + c * (d * h - e * g)) ^ 2
      = (a * a + d * d + g * g) * ((b * b + e * e + h * h) * (c * c + f * f + i * i) - (b * c + e * f + h * i) ^ 2)
        - (a * b + d * e + g * h) * ((a * b + d * e + g * h) * (c * c + f * f + i * i) - (b * c + e * f + h * i) * (a * c + d * f + g * i))
        + (a * c + d * f + g * i) * ((a * b + d * e + g * h) * (b * c + e * f + h * i) - (b * b + e * e + h * h) * (a * c + d * f + g * i)) := by ring
  rw [h0, h00, h01, h02, h11, h12, h22] at key
  norm_num at key

theorem wrap_scale {c : ℝ} (hc : 0 < c) (b d : ℝ) : wrap (c * b) (c * d) = c * wrap b d := by
  have h1 : c * d > c * b / 2 ↔ d > b / 2 := by
    rw [mul_div_assoc]; exact mul_lt_mul_iff_right₀ hc
  have h2 : ∀ e, c * e < -(c * b) / 2 ↔ e < -b / 2 := by
    intro e
    rw [show -(c * b) / 2 = c * (-b / 2) by ring]; exact mul_lt_mul_iff_right₀ hc
  unfold wrap
  simp only [h1]
  by_cases h3 : d > b / 2
  · simp only [if_pos h3, show c * d - c * b = c * (d - b) by ring, h2]
    split_ifs <;> ring
  · simp only [if_neg h3, h2]
    split_ifs <;> ring

/-- A system and the same system after a motion of its atoms and its box. -/
structure MovedSys (M : Mat3) (c : ℝ) (t : V3) (s g : System) : Prop where
  atoms : g.atoms = s.atoms.map (moveAtom M c t)
  box : g.box = moveBox M c s.box
  tri : g.triclinic = s.triclinic
  flat : s.triclinic = false → M = unitMat
  skew : s.triclinic = true → s.box.det ≠ 0 ∧ s.rot = s.box.transpose ∧ s.rotinv = s.rot.inv ∧
    g.rot = g.box.transpose ∧ g.rotinv = g.rot.inv
  nop : g.nop = s.nop
  realNop : g.realNop = s.realNop
  vor : g.voronoiused = s.voronoiused

theorem transpose_move (M : Mat3) (c : ℝ) (b : Mat3) (v : V3) :
    (moveBox M c b).transpose.mulVec v = moveVec M c (b.transpose.mulVec v) := by
  ext <;> simp [moveBox, moveVec, Mat3.transpose, Mat3.mulVec, V3.dot] <;> ring

theorem boxVol_tri (s : System) (h : s.triclinic = true) : s.boxVol = s.rot.det := by
  unfold System.boxVol
  rw [if_pos h]
  simp only [Mat3.det]; ring

section

variable {M : Mat3} {c : ℝ} {t : V3} {s g : System}

theorem MovedSys.image (hM : Orthogonal M) (hc : 0 < c) (h : MovedSys M c t s g) (d : V3) :
    g.image (moveVec M c d) = moveVec M c (s.image d) := by
  have hx : g.boxx = c * s.boxx := by unfold System.boxx; rw [h.box]; exact moveVec_norm hM hc _
  have hy : g.boxy = c * s.boxy := by unfold System.boxy; rw [h.box]; exact moveVec_norm hM hc _
  have hz : g.boxz = c * s.boxz := by unfold System.boxz; rw [h.box]; exact moveVec_norm hM hc _
  unfold System.image
  rw [h.tri]
  by_cases ht : s.triclinic = true
  · rw [if_pos ht, if_pos ht]
    obtain ⟨hd, h1, h2, h3, h4⟩ := h.skew ht
    have hdet : s.rot.det ≠ 0 := by rw [h1, Mat3.det_transpose]; exact hd
    have hdet' : g.rot.det ≠ 0 := by
      rw [h3, Mat3.det_transpose, h.box, det_move]
      exact mul_ne_zero (mul_ne_zero (by positivity) (orthogonal_det hM)) hd
    have hrot : ∀ v, g.rot.mulVec v = moveVec M c (s.rot.mulVec v) := fun v => by
      rw [h3, h.box, transpose_move, h1]
    have hinv : g.rotinv.mulVec (moveVec M c d) = s.rotinv.mulVec d := by
      have e : moveVec M c d = g.rot.mulVec (s.rotinv.mulVec d) := by
        rw [hrot, h2, Mat3.mulVec_inv _ hdet]
      rw [e, h4, Mat3.inv_mulVec _ hdet']
    dsimp only
    have hw : ∀ x b : ℝ, wrap (c * b) (x * (c * b)) / (c * b) = wrap b (x * b) / b := fun x b => by
      rw [show x * (c * b) = c * (x * b) by ring, wrap_scale hc, mul_div_mul_left _ _ hc.ne']
    rw [hrot, hinv, hx, hy, hz, hw, hw, hw]
  · rw [if_neg ht, if_neg ht]
    have hu := h.flat (by simpa using ht)
    subst hu
    rw [moveVec_unit, moveVec_unit, hx, hy, hz]
    simp only [wrap_scale hc, V3.smul]

theorem MovedSys.len (h : MovedSys M c t s g) : g.atoms.length = s.atoms.length := by rw [h.atoms, List.length_map]

theorem MovedSys.mem (h : MovedSys M c t s g) {k : ℕ} (hk : k < s.atoms.length) : g.mem k = moveAtom M c t (s.mem k) := by
  rw [mem_eq_getElem _ _ hk, mem_eq_getElem _ _ (h.len.symm ▸ hk)]
  simp only [h.atoms, List.getElem_map]

theorem MovedSys.diff (hM : Orthogonal M) (hc : 0 < c) (h : MovedSys M c t s g) {i j : ℕ} (hi : i < s.atoms.length)
    (hj : j < s.atoms.length) : g.diffOf i j = moveVec M c (s.diffOf i j) := by
  unfold System.diffOf System.diffIdx System.posOf
  rw [h.mem hi, h.mem hj, ← h.image hM hc, moveVec_sub]
  congr 1
  ext <;> simp [moveAtom]

theorem MovedSys.vol (hM : Spec.Rotation M) (hc : 0 < c) (h : MovedSys M c t s g) : g.boxVol = c ^ 3 * s.boxVol := by
  by_cases ht : s.triclinic = true
  · obtain ⟨-, h1, -, h3, -⟩ := h.skew ht
    rw [boxVol_tri s ht, boxVol_tri g (h.tri.trans ht), h1, h3, Mat3.det_transpose, Mat3.det_transpose, h.box, det_move, hM.2]
    ring
  · have ht' : ¬ g.triclinic = true := by rw [h.tri]; exact ht
    unfold System.boxVol
    rw [if_neg ht, if_neg ht']
    unfold System.boxx System.boxy System.boxz
    rw [h.box]
    simp only [moveBox, moveVec_norm hM.1 hc]; ring

/-- `find_neighbors` on a moved system. -/
theorem MovedSys.findNeighbors (hM : Spec.Rotation M) (hc : 0 < c) (h : MovedSys M c t s g) {σ : StdSort}
    (hσ : Spec.SortScales σ c) (f : ℕ) (meth : Method) (hall : Spec.AllPairs s.realNop s.nop meth) :
    RelE (SimF M c) (s.findNeighbors σ f meth) (g.findNeighbors σ f (Spec.moveMethod c meth)) :=
  findNeighbors_simF hM.1 hc hσ h.len
    (fun k hk => by unfold System.typeOf; rw [h.mem hk]; rfl)
    (fun i hi j hj => h.diff hM.1 hc hi hj) (h.vol hM hc) h.nop h.realNop h.vor f meth hall

end

/-- `System()`, `sys.box = b`, `sys.atoms = l`. -/
noncomputable def buildSystem (b : Mat3) (l : List Atom) : Except Fault System := do
  let s ← System.init.setBox b
  s.assignAtoms l

theorem repNew_move (M : Mat3) (c : ℝ) (t : V3) (b : Mat3) (gh : Bool) (rx ry rz : ℕ) (l : List Atom) :
    repNew (moveBox M c b) gh rx ry rz (l.map (moveAtom M c t)) = (repNew b gh rx ry rz l).map (moveAtom M c t) := by
  unfold repNew
  rw [List.length_map]
  have e : ((repCells rx ry rz).flatMap fun q => (l.map (moveAtom M c t)).map (repAtom (moveBox M c b) gh q))
      = ((repCells rx ry rz).flatMap fun q => l.map (repAtom b gh q)).map (moveAtom M c t) := by
    rw [List.map_flatMap]
    congr 1
    funext q
    rw [List.map_map, List.map_map]
    refine List.map_congr_left fun a _ => ?_
    simp only [Function.comp, repAtom, moveAtom, moveBox, moveVec_add, moveVec_smul]
    congr 1
    ext <;> simp <;> ring
  rw [e]
  apply List.ext_getElem
  · simp
  · intro i h1 h2
    simp only [List.getElem_mapIdx, List.getElem_map]
    rfl

theorem countReal_move (M : Mat3) (c : ℝ) (t : V3) (l : List Atom) : countReal (l.map (moveAtom M c t)) = countReal l := by
  unfold countReal
  rw [List.filter_map, List.length_map]; rfl

theorem countGhost_move (M : Mat3) (c : ℝ) (t : V3) (l : List Atom) : countGhost (l.map (moveAtom M c t)) = countGhost l := by
  unfold countGhost
  rw [List.filter_map, List.length_map]; rfl

/-- A system without atoms and the same system with a moved box; what `assignAtoms` reads. -/
structure MovedBase (M : Mat3) (c : ℝ) (s g : System) : Prop where
  box : g.box = moveBox M c s.box
  actual : s.actualBox = none ∧ g.actualBox = none
  tri : g.triclinic = s.triclinic
  flat : s.triclinic = false → M = unitMat
  skew : s.triclinic = true → s.box.det ≠ 0 ∧ s.rot = s.box.transpose ∧ s.rotinv = s.rot.inv ∧
    g.rot = g.box.transpose ∧ g.rotinv = g.rot.inv
  skewed : s.triclinic = true ↔ Skewed s.box
  vor : g.voronoiused = s.voronoiused

theorem MovedBase.setBox {M : Mat3} (hM : Orthogonal M) {c : ℝ} (hc : 0 < c) (b : Mat3) (hflat : ¬ Skewed b → M = unitMat) :
    RelE (MovedBase M c) (System.init.setBox b) (System.init.setBox (moveBox M c b)) := by
  unfold System.setBox
  by_cases hs : Skewed b
  · rw [if_pos hs, if_pos ((skewed_move hM hc b).2 hs)]
    dsimp only
    have hdet : (moveBox M c b).transpose.det = 0 ↔ b.transpose.det = 0 := by
      rw [Mat3.det_transpose, Mat3.det_transpose, det_move]
      have : c ^ 3 * M.det ≠ 0 := mul_ne_zero (by positivity) (orthogonal_det hM)
      constructor
      · intro h; exact (mul_eq_zero.1 h).resolve_left this
      · intro h; rw [h, mul_zero]
    by_cases hd : b.transpose.det = 0
    · rw [if_pos hd, if_pos (hdet.2 hd)]; exact rfl
    · rw [if_neg hd, if_neg (fun h => hd (hdet.1 h))]
      refine ⟨rfl, ⟨rfl, rfl⟩, rfl, fun hx => (by cases hx), fun _ => ⟨?_, rfl, rfl, rfl, rfl⟩, ⟨fun _ => hs, fun _ => rfl⟩, rfl⟩
      rwa [Mat3.det_transpose] at hd
  · rw [if_neg hs, if_neg (fun h => hs ((skewed_move hM hc b).1 h))]
    exact ⟨rfl, ⟨rfl, rfl⟩, rfl, fun _ => hflat hs, fun hx => (by cases hx), ⟨fun hx => (by cases hx), fun h => absurd h hs⟩, rfl⟩

theorem skewed_scaleBox (b : Mat3) (n : ℕ) : Skewed (scaleBox b n n n) ↔ Skewed b := by
  have : scaleBox b n n n = moveBox unitMat ((2 * n + 1 : ℕ) : ℝ) b := by
    simp only [scaleBox, moveBox, moveVec_unit]
  rw [this, skewed_move (by intro u v; simp [unitMat, Mat3.mulVec, V3.dot]) (by positivity)]

theorem MovedBase.assign {M : Mat3} (hM : Orthogonal M) {c : ℝ} (hc : 0 < c) (t : V3) {s g : System} (h : MovedBase M c s g)
    (l : List Atom) (hsum : l.length < 200 → (boxSum g.box = 0 ↔ boxSum s.box = 0)) :
    RelE (MovedSys M c t) (s.assignAtoms l) (g.assignAtoms (l.map (moveAtom M c t))) := by
  have hs : s.getBox = s.box := by unfold System.getBox; rw [h.actual.1]; rfl
  have hg : g.getBox = g.box := by unfold System.getBox; rw [h.actual.2]; rfl
  unfold System.assignAtoms
  rw [List.length_map]
  by_cases hl : l.length < 200
  · rw [if_pos hl, if_pos hl]
    by_cases h0 : l.length = 0
    · rw [if_pos h0, if_pos h0]; exact rfl
    · rw [if_neg h0, if_neg h0, hs, hg]
      by_cases hb : boxSum s.box = 0
      · rw [if_pos hb, if_pos ((hsum hl).2 hb)]; exact rfl
      · rw [if_neg hb, if_neg (fun hx => hb ((hsum hl).1 hx))]
        set n := padReps l.length
        unfold System.repeatAtoms
        simp only [hs, hg, if_true]
        have hsk := skewed_scaleBox s.box n
        have hsk' : Skewed (scaleBox g.box n n n) ↔ Skewed s.box := by
          rw [h.box, scaleBox_move, skewed_move hM hc]; exact hsk
        have hnew : repNew g.box true n n n (l.map (moveAtom M c t)) = (repNew s.box true n n n l).map (moveAtom M c t) := by
          rw [h.box]; exact repNew_move _ _ _ _ _ _ _ _ _
        have hall : l.map (moveAtom M c t) ++ repNew g.box true n n n (l.map (moveAtom M c t))
            = (l ++ repNew s.box true n n n l).map (moveAtom M c t) := by rw [hnew, List.map_append]
        have hbox : scaleBox g.box n n n = moveBox M c (scaleBox s.box n n n) := by rw [h.box, scaleBox_move]
        by_cases hS : Skewed s.box
        · have hd := (h.skew (h.skewed.2 hS)).1
          have hd1 : (scaleBox s.box n n n).det ≠ 0 := by
            have e : (scaleBox s.box n n n).det = ((2 * n + 1 : ℕ) : ℝ) ^ 3 * s.box.det := by
              simp only [scaleBox, Mat3.det, V3.smul_x, V3.smul_y, V3.smul_z]; ring
            rw [e]; exact mul_ne_zero (by positivity) hd
          have hd2 : (scaleBox g.box n n n).det ≠ 0 := by
            rw [hbox, det_move]
            exact mul_ne_zero (mul_ne_zero (by positivity) (orthogonal_det hM)) hd1
          unfold System.setBox
          rw [if_pos (hsk.2 hS), if_pos (hsk'.2 hS)]
          dsimp only
          rw [if_neg (by rw [Mat3.det_transpose]; exact hd1), if_neg (by rw [Mat3.det_transpose]; exact hd2)]
          change MovedSys M c t _ _
          refine ⟨hall, hbox, rfl, fun hx => (by cases hx), fun _ => ⟨hd1, rfl, rfl, rfl, rfl⟩, ?_, ?_, h.vor⟩
          · change (l.map (moveAtom M c t) ++ repNew g.box true n n n (l.map (moveAtom M c t))).length = (l ++ repNew s.box true n n n l).length
            rw [hall, List.length_map]
          · change countReal (l.map (moveAtom M c t) ++ repNew g.box true n n n (l.map (moveAtom M c t))) = countReal (l ++ repNew s.box true n n n l)
            rw [hall, countReal_move]
        · unfold System.setBox
          rw [if_neg (fun h => hS (hsk.1 h)), if_neg (fun h => hS (hsk'.1 h))]
          change MovedSys M c t _ _
          have htri : s.triclinic = false := by
            by_contra hx
            exact hS (h.skewed.1 (by simpa using hx))
          refine ⟨hall, hbox, h.tri, fun _ => h.flat htri, fun hx => ?_, ?_, ?_, h.vor⟩
          · have : s.triclinic = true := hx
            rw [htri] at this; cases this
          · change (l.map (moveAtom M c t) ++ repNew g.box true n n n (l.map (moveAtom M c t))).length = (l ++ repNew s.box true n n n l).length
            rw [hall, List.length_map]
          · change countReal (l.map (moveAtom M c t) ++ repNew g.box true n n n (l.map (moveAtom M c t))) = countReal (l ++ repNew s.box true n n n l)
            rw [hall, countReal_move]
  · rw [if_neg hl, if_neg hl]
    exact ⟨rfl, h.box, h.tri, h.flat, h.skew, List.length_map _, countReal_move _ _ _ _, h.vor⟩

/-- Building a moved system. -/
theorem buildSystem_move {M : Mat3} (hM : Orthogonal M) {c : ℝ} (hc : 0 < c) (t : V3) (b : Mat3) (l : List Atom)
    (hflat : ¬ Skewed b → M = unitMat) (hsum : l.length < 200 → (boxSum (moveBox M c b) = 0 ↔ boxSum b = 0)) :
    RelE (MovedSys M c t) (buildSystem b l) (buildSystem (moveBox M c b) (l.map (moveAtom M c t))) := by
  unfold buildSystem
  have h0 := MovedBase.setBox hM hc b hflat
  rcases h1 : System.init.setBox b with e | s <;> rcases h2 : System.init.setBox (moveBox M c b) with e' | g <;>
    rw [h1, h2] at h0
  · exact h0
  · exact h0.elim
  · exact h0.elim
  · have hb : MovedBase M c s g := h0
    refine hb.assign hM hc t l ?_
    rw [(setBox_frame h1).1, (setBox_frame h2).1]
    exact hsum

end Pyscal
