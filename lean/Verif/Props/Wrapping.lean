import Verif.Props.Relabel

/-! Putting atoms back into the cell (C78). -/

namespace Pyscal

open Spec (diagBox ofFrac latticeVec IsImage FracBound)

/-- One fractional coordinate of the nearest image does not notice whole cells. -/
theorem wrap_frac_shift {L f f' : ℝ} (hL : 0 < L) (hf : |f| ≤ 3 / 2) (hf' : |f'| ≤ 3 / 2) (n : ℤ) (h : f' = f + n)
    (hh : ∀ n : ℤ, f ≠ n + 1 / 2) : wrap L (f' * L) / L = wrap L (f * L) / L := by
  obtain ⟨m, hm⟩ := wrap_frac_int hL f
  have hb := wrap_frac_bound hL hf
  rw [hm] at hb
  have hne : |f + m| ≠ 1 / 2 := by
    intro he
    rcases abs_eq (by norm_num : (0 : ℝ) ≤ 1 / 2) |>.1 he with h1 | h1
    · exact hh (-m) (by push_cast; linarith)
    · exact hh (-m - 1) (by push_cast; linarith)
  have hlt : |f + m| < 1 / 2 := lt_of_le_of_ne hb hne
  rw [hm, wrap_frac_unique hL hf' (m - n) (by rw [h]; push_cast; rwa [show f + n + ((m : ℝ) - n) = f + m by ring]), h]
  push_cast; ring

/-- Boxes whose nearest images are computed in fractional coordinates: the skewed ones, and the
axis-aligned ones. -/
def FracBox (s : System) : Prop :=
  0 < s.boxx ∧ 0 < s.boxy ∧ 0 < s.boxz ∧ (∀ v, ∃ f, v = ofFrac s.box f) ∧ (∀ f f', ofFrac s.box f = ofFrac s.box f' → f = f') ∧
  ∀ f, s.image (ofFrac s.box f) = ofFrac s.box
      ⟨wrap s.boxx (f.x * s.boxx) / s.boxx, wrap s.boxy (f.y * s.boxy) / s.boxy, wrap s.boxz (f.z * s.boxz) / s.boxz⟩

theorem fracBox_tri {s : System} (h : TriOK s) : FracBox s := by
  have hd : s.box.transpose.det ≠ 0 := by rw [Mat3.det_transpose]; exact h.det
  refine ⟨h.pos.1, h.pos.2.1, h.pos.2.2, fun v => ⟨s.box.transpose.inv.mulVec v, ?_⟩, fun f f' hff => ?_, fun f => image_ofFrac h f⟩
  · rw [← transpose_mulVec, Mat3.mulVec_inv _ hd]
  · rw [← transpose_mulVec, ← transpose_mulVec] at hff
    rw [← Mat3.inv_mulVec _ hd f, hff, Mat3.inv_mulVec _ hd]

theorem fracBox_diag {s : System} {lx ly lz : ℝ} (hx : 0 < lx) (hy : 0 < ly) (hz : 0 < lz) (ht : s.triclinic = false)
    (hb : s.box = diagBox lx ly lz) : FracBox s := by
  have ex : s.boxx = lx := by unfold System.boxx; rw [hb]; exact norm_axis_x lx hx.le
  have ey : s.boxy = ly := by unfold System.boxy; rw [hb]; exact norm_axis_y ly hy.le
  have ez : s.boxz = lz := by unfold System.boxz; rw [hb]; exact norm_axis_z lz hz.le
  have hof : ∀ f, ofFrac s.box f = ⟨f.x * lx, f.y * ly, f.z * lz⟩ := by
    intro f; rw [hb]; ext <;> simp [ofFrac, diagBox]
  rw [FracBox, ex, ey, ez]
  refine ⟨hx, hy, hz, fun v => ⟨⟨v.x / lx, v.y / ly, v.z / lz⟩, ?_⟩, fun f f' hff => ?_, fun f => ?_⟩
  · rw [hof]; ext <;> simp <;> field_simp
  · rw [hof, hof, V3.mk.injEq] at hff
    ext
    · exact mul_right_cancel₀ hx.ne' hff.1
    · exact mul_right_cancel₀ hy.ne' hff.2.1
    · exact mul_right_cancel₀ hz.ne' hff.2.2
  · rw [image_diag s lx ly lz hx.le hy.le hz.le ht hb, hof, hof]
    ext <;> simp <;> field_simp

/-- Nearest images of displacements that differ by whole cells. -/
theorem FracBox.image_shift {s : System} (h : FracBox s) {d d' : V3} (hd : FracBound s.box d (3 / 2)) (hd' : FracBound s.box d' (3 / 2))
    (hi : IsImage s.box d d')
    (hh : ∀ f : V3, d = ofFrac s.box f → ∀ n : ℤ, f.x ≠ n + 1 / 2 ∧ f.y ≠ n + 1 / 2 ∧ f.z ≠ n + 1 / 2) :
    s.image d' = s.image d := by
  obtain ⟨px, py, pz, -, hinj, himg⟩ := h
  obtain ⟨f, rfl, f1, f2, f3⟩ := hd
  obtain ⟨f', rfl, g1, g2, g3⟩ := hd'
  obtain ⟨n1, n2, n3, e⟩ := hi
  rw [← ofFrac_int, ← ofFrac_add] at e
  have e := hinj _ _ e
  have hn := hh f rfl
  rw [himg, himg]
  rw [wrap_frac_shift px f1 g1 n1 (by rw [e]; rfl) (fun n => (hn n).1),
    wrap_frac_shift py f2 g2 n2 (by rw [e]; rfl) (fun n => (hn n).2.1),
    wrap_frac_shift pz f3 g3 n3 (by rw [e]; rfl) (fun n => (hn n).2.2)]

/-- **C78, what is proved.**  Full statement: translating all atoms and putting every atom back into the
cell changes nothing.  Proved for at least 200 atoms (no periodic copies are added), orthogonal and
skewed cells, every search method that compares all pairs: neighbours, distances, vectors and
Steinhardt parameters are the same, provided no two atoms are exactly half a cell apart (then the sign
of the vector is arbitrary) and any two atoms are at most one and a half cells apart (which holds for
atoms inside the cell).  Fewer than 200 atoms: `C78_small` (numeric cutoffs), and any
number of atoms, also with cell lists: `C78_exact` (numeric cutoffs and the adaptive search),
`C78_number` and `C78_sann` (the same distances, and the same neighbours up to ties).  Missing: which of
several equally distant atoms these two searches list, and whether they fail alike. -/
theorem C78_wrapping_partial (σ : StdSort) (b : Mat3)
    (hb : Spec.Skew b ∨ ∃ lx ly lz, 0 < lx ∧ 0 < ly ∧ 0 < lz ∧ b = diagBox lx ly lz)
    (l l' : List Atom) (t : V3) (hw : Spec.Rewrapped b t l l') (h200 : 200 ≤ l.length)
    (hc : Spec.Compact b l) (hc' : Spec.Compact b l') (hh : Spec.NoHalfCell b l)
    (f : ℕ) (meth : Method) (hall : ∀ s, buildSystem b l = .ok s → Spec.AllPairs s.natoms s.ntotal meth) (ls : List ℤ) (av : Bool) :
    RelE (List.Forall₂ fun a b : Atom => b.type = a.type ∧ b.nbrs = a.nbrs ∧
        ∀ l : ℕ, (l : ℤ) ∈ ls → b.q l = a.q l ∧ (av = true → b.aq l = a.aq l))
      (analyse σ b l f meth ls av) (analyse σ b l' f meth ls av) := by
  have hlen : l'.length = l.length := hw.length_eq.symm
  unfold analyse
  rcases h0 : buildSystem b l with e | s
  · -- both fail when the box is refused
    have : buildSystem b l' = .error e := by
      unfold buildSystem at h0 ⊢
      rcases h1 : System.init.setBox b with e' | s0
      · rw [h1] at h0; exact h0
      · rw [h1] at h0
        simp only [bind, Except.bind, System.assignAtoms] at h0
        rw [if_neg (by omega)] at h0; cases h0
    rw [this]; exact rfl
  · obtain ⟨s0, h1, rfl, hg⟩ : ∃ s0, System.init.setBox b = .ok s0 ∧ s0.setAtoms l = s ∧ buildSystem b l' = .ok (s0.setAtoms l') := by
      unfold buildSystem at h0 ⊢
      rcases h1 : System.init.setBox b with e' | s0
      · rw [h1] at h0; cases h0
      · rw [h1] at h0
        simp only [bind, Except.bind, System.assignAtoms] at h0 ⊢
        rw [if_neg (by omega)] at h0
        rw [if_neg (by omega)]
        exact ⟨s0, rfl, Except.ok.inj h0, rfl⟩
    rw [hg]
    have hbox : s0.box = b := (setBox_frame h1).1
    have hF : FracBox (s0.setAtoms l) := by
      rcases hb with hb | ⟨lx, ly, lz, hx, hy, hz, rfl⟩
      · have hT := (setBox_skewed ((skewed_iff b).2 hb) h1).1
        exact fracBox_tri ⟨hT.tri, hT.rot, hT.rotinv, hT.det⟩
      · refine fracBox_diag (lx := lx) (ly := ly) (lz := lz) hx hy hz ?_ hbox
        have : System.init.setBox (diagBox lx ly lz) = .ok { System.init with box := diagBox lx ly lz } := by
          simp [System.setBox, not_skewed_diag]
        rw [this] at h1
        cases h1; rfl
    have hat : ∀ k (hk : k < l.length), ∃ hk' : k < l'.length, l'[k].type = l[k].type ∧ IsImage b (l[k].pos + t) l'[k].pos := by
      intro k hk
      have := (List.forall₂_iff_get.1 hw).2 k hk (hlen.symm ▸ hk)
      exact ⟨hlen.symm ▸ hk, this.1, this.2.2⟩
    have hmem : ∀ (m : List Atom) k (hk : k < m.length), (s0.setAtoms m).mem k = m[k] := fun m k hk => mem_eq_getElem (s0.setAtoms m) k hk
    have hghost : countReal l' = countReal l := by
      unfold countReal
      have : l'.map (fun a => !a.ghost) = l.map (fun a => !a.ghost) := forall₂_map_eq hw fun x y hxy => by rw [hxy.2.1]
      have key : ∀ m : List Atom, (m.filter fun a => !a.ghost).length = (m.map fun a => !a.ghost).count true := by
        intro m
        rw [List.count, List.countP_map, List.countP_eq_length_filter]
        congr 2
        funext a; simp
      rw [key, key, this]
    have hsim : RelE (SimF Spec.unitMat 1) ((s0.setAtoms l).findNeighbors σ f meth) ((s0.setAtoms l').findNeighbors σ f (Spec.moveMethod 1 meth)) := by
      refine findNeighbors_simF (s := s0.setAtoms l) (g := s0.setAtoms l') rotation_unit.1 one_pos (sortScales_one σ) hlen ?_ ?_ ?_ hlen hghost rfl f meth (hall _ h0)
      · intro k hk
        obtain ⟨hk', e, -⟩ := hat k hk
        unfold System.typeOf
        rw [hmem l k hk, hmem l' k hk']; exact e
      · intro i hi j hj
        obtain ⟨hi', -, n1, n2, n3, ei⟩ := hat i hi
        obtain ⟨hj', -, m1, m2, m3, ej⟩ := hat j hj
        rw [moveVec_one]
        simp only [System.diffOf, System.diffIdx, System.posOf, hmem l i hi, hmem l' i hi', hmem l j hj, hmem l' j hj']
        refine (image_frame rfl rfl rfl rfl _).trans (hF.image_shift ?_ ?_ ?_ ?_)
        · change FracBound s0.box _ _
          rw [hbox]; exact hc _ (List.getElem_mem hi) _ (List.getElem_mem hj)
        · change FracBound s0.box _ _
          rw [hbox]; exact hc' _ (List.getElem_mem hi') _ (List.getElem_mem hj')
        · change IsImage s0.box _ _
          rw [hbox]
          refine ⟨m1 - n1, m2 - n2, m3 - n3, ?_⟩
          rw [ei, ej]
          ext <;> simp [latticeVec] <;> ring
        · change ∀ f, _ = ofFrac s0.box f → _
          rw [hbox]; exact hh _ (List.getElem_mem hi) _ (List.getElem_mem hj)
      · change _ = 1 ^ 3 * System.boxVol _
        rw [one_pow, one_mul]; rfl
    have e2 : Spec.moveMethod 1 meth = meth := by cases meth <;> simp [Spec.moveMethod]
    rw [e2] at hsim
    have h := RelE.bind hsim fun a b hab => hab.finish rotation_unit.1 one_pos ls av
    have e3 : Spec.moveNb Spec.unitMat 1 = id := by funext x; exact moveNb_one x
    unfold Spec.SameAnalysis at h
    simp only [e3, List.map_id] at h
    exact h

/-- Atoms inside the cell satisfy the condition on their distances. -/
theorem compact_of_inside {b : Mat3} {l : List Atom}
    (h : ∀ a ∈ l, ∃ f : V3, a.pos = ofFrac b f ∧ (0 ≤ f.x ∧ f.x < 1) ∧ (0 ≤ f.y ∧ f.y < 1) ∧ (0 ≤ f.z ∧ f.z < 1)) : Spec.Compact b l := by
  intro a ha a' ha'
  obtain ⟨f, e, h1, h2, h3⟩ := h a ha
  obtain ⟨f', e', g1, g2, g3⟩ := h a' ha'
  refine ⟨f' - f, ?_, ?_, ?_, ?_⟩
  · rw [e, e']; ext <;> simp [ofFrac] <;> ring
  · rw [abs_le]; simp only [V3.sub_x]; constructor <;> linarith [h1.1, h1.2, g1.1, g1.2]
  · rw [abs_le]; simp only [V3.sub_y]; constructor <;> linarith [h2.1, h2.2, g2.1, g2.2]
  · rw [abs_le]; simp only [V3.sub_z]; constructor <;> linarith [h3.1, h3.2, g3.1, g3.2]

/-- Two hundred atoms on a line in a unit box: no two are half a cell apart. -/
example : let l : List Atom := (List.range 200).map fun (k : ℕ) => { pos := ⟨(k : ℝ) / 1000, 0, 0⟩ }
    200 ≤ l.length ∧ Spec.Compact (diagBox 1 1 1) l ∧ Spec.NoHalfCell (diagBox 1 1 1) l := by
  intro l
  have hl : ∀ a ∈ l, ∃ k : ℕ, k < 200 ∧ a.pos = ⟨(k : ℝ) / 1000, 0, 0⟩ := by
    intro a ha
    obtain ⟨k, hk, rfl⟩ := List.mem_map.1 ha
    exact ⟨k, List.mem_range.1 hk, rfl⟩
  have hof : ∀ f, ofFrac (diagBox 1 1 1) f = f := by
    intro f; ext <;> simp [ofFrac, diagBox]
  refine ⟨by rw [List.length_map, List.length_range], ?_, ?_⟩
  · apply compact_of_inside
    intro a ha
    obtain ⟨k, hk, e⟩ := hl a ha
    have hk' : (k : ℝ) < 200 := by exact_mod_cast hk
    refine ⟨⟨(k : ℝ) / 1000, 0, 0⟩, by rw [hof, e], ⟨by positivity, ?_⟩, ⟨le_refl _, by norm_num⟩, le_refl _, by norm_num⟩
    change (k : ℝ) / 1000 < 1
    linarith
  · intro a ha a' ha' f hf n
    obtain ⟨k, hk, e⟩ := hl a ha
    obtain ⟨k', hk', e'⟩ := hl a' ha'
    have r1 : (k : ℝ) < 200 := by exact_mod_cast hk
    have r2 : (k' : ℝ) < 200 := by exact_mod_cast hk'
    have r3 : (0 : ℝ) ≤ k := Nat.cast_nonneg k
    have r4 : (0 : ℝ) ≤ k' := Nat.cast_nonneg k'
    rw [hof, e, e'] at hf
    subst hf
    have key : ∀ x : ℝ, |x| < 1 / 2 → x ≠ n + 1 / 2 := by
      intro x hx he
      rw [abs_lt] at hx
      have h1 : (n : ℝ) < 0 := by linarith
      have h2 : (-1 : ℝ) < n := by linarith
      have h1 : n < 0 := by exact_mod_cast h1
      have h2 : -1 < n := by exact_mod_cast h2
      omega
    refine ⟨key _ ?_, key _ ?_, key _ ?_⟩
    · simp only [V3.sub_x]; rw [abs_lt]; constructor <;> linarith
    · simp
    · simp

/-- Any choice of lattice vectors gives a rewrapped list. -/
example (b : Mat3) (t : V3) (l : List Atom) (m : Atom → ℤ) :
    Spec.Rewrapped b t l (l.map fun a => { a with pos := a.pos + t + latticeVec b (m a) 0 0 }) := by
  unfold Spec.Rewrapped
  rw [List.forall₂_map_right_iff]
  exact List.forall₂_same.2 fun a _ => ⟨rfl, rfl, m a, 0, 0, rfl⟩

end Pyscal
