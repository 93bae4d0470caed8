import Verif.Props.AseTrajectory

/-! C93 for frames in skewed boxes, with plain or scaled coordinates. -/

namespace Pyscal

open Spec

/-- Specification: a frame as LAMMPS writes it for the cell with origin `o`, edges `l` and the given tilt factors (`none`: orthogonal): the bounds
are those of the cell, and row `k` gives the atom with the fractional coordinates `fr k`, by its position or, if `scaled`, by these coordinates. -/
structure Spec.CellFrame (C : Codec) (lines : List String) (rows : List (String → String)) (B : Mat3) (fr : ℕ → V3) : Prop where
  ex : ∃ (cols : List String) (bx by' bz : ℝ × ℝ) (tilt : Option (ℝ × ℝ × ℝ)) (scaled : Bool) (o l : V3),
    0 < l.x ∧ 0 < l.y ∧ 0 < l.z ∧ B = Spec.lammpsCell l (tilt.getD (0, 0, 0)).1 (tilt.getD (0, 0, 0)).2.1 (tilt.getD (0, 0, 0)).2.2 ∧
    DumpFile C lines cols rows bx by' bz tilt ∧ Spec.BoundsOf o B bx by' bz ∧ (∀ k ∈ ["id", "type"], k ∈ cols) ∧
    (if scaled then "xs" ∈ cols ∧ "ys" ∈ cols ∧ "zs" ∈ cols ∧ "x" ∉ cols else "x" ∈ cols ∧ "y" ∈ cols ∧ "z" ∈ cols) ∧
    ∀ (k : ℕ) (f : String → String), rows[k]? = some f → Spec.RowPosition C o B scaled (fr k) f
  num : ∀ f ∈ rows, (C.int (f "id")).isSome ∧ (C.int (f "type")).isSome

/-- Specification: the object shows the frame: it has the cell of the frame and one atom for every row, in order, with the fractional coordinates of
the row up to a common displacement, and of the species with the number of its type. -/
def Spec.ShowsCell (C : Codec) (sp : List String) (lines : List String) (o : AseAtoms) : Prop :=
  ∀ rows B fr, Spec.CellFrame C lines rows B fr → o.cell = B ∧ o.atoms.length = rows.length ∧
    ∃ T : V3, ∀ (k : ℕ) (f : String → String), rows[k]? = some f → ∃ r : String × V3, o.atoms[k]? = some r ∧ r.2 = Spec.ofFrac B (fr k) + T ∧
      ∃ j : ℕ, C.int (f "type") = some ((j : ℤ) + 1) ∧ sp[j]? = some r.1

/-- Specification: a frame with atoms of all types from 1 to the number of species; with fewer than 200 atoms the entries of the cell must
not cancel (finding 61). -/
def Spec.ConvertibleCell (C : Codec) (m : ℕ) (lines : List String) : Prop :=
  ∃ rows B fr, Spec.CellFrame C lines rows B fr ∧ rows ≠ [] ∧
    (rows.length < 200 → B.r0.x + B.r0.y + B.r0.z + B.r1.x + B.r1.y + B.r1.z + B.r2.x + B.r2.y + B.r2.z ≠ 0) ∧
    ∀ t : ℤ, t ∈ Spec.rowTypes C rows ↔ 1 ≤ t ∧ t ≤ m

theorem cell_snap {C : Codec} {lines : List String} {rows : List (String → String)} {B : Mat3} {fr : ℕ → V3} (h : Spec.CellFrame C lines rows B fr) :
    ∃ atoms T tri, C.readSnap lines [] = .ok (atoms, B, tri) ∧ atoms.length = rows.length ∧
      ∀ (k : ℕ) (f : String → String), rows[k]? = some f → ∃ a, atoms[k]? = some a ∧ RowFields C [] f a ∧ a.pos = Spec.ofFrac B (fr k) + T := by
  obtain ⟨cols, bx, by', bz, tilt, scaled, o, l, hx, hy, hz, hB, hD, hb, hc, hxyz, hp⟩ := h.ex
  obtain ⟨atoms, T, h1, h2, h3⟩ := C71_cell C lines cols [] rows bx by' bz tilt scaled o l hx hy hz B hB hD hb (by simpa using hc) hxyz (by simp) fr h.num hp
  exact ⟨atoms, T, _, h1, h2, h3⟩

theorem CellFrame.det {C : Codec} {lines : List String} {rows : List (String → String)} {B : Mat3} {fr : ℕ → V3} (h : Spec.CellFrame C lines rows B fr) :
    B.det ≠ 0 ∧ B.transpose.det ≠ 0 := by
  obtain ⟨cols, bx, by', bz, tilt, scaled, o, l, hx, hy, hz, hB, -⟩ := h.ex
  rw [hB]
  constructor <;> simp [Spec.lammpsCell, Mat3.det, Mat3.transpose] <;> exact ⟨hx.ne', hy.ne', hz.ne'⟩

theorem cell_read {C : Codec} {lines : List String} {atoms : List Atom} {B : Mat3} {tri : Bool} (hr : C.readSnap lines [] = .ok (atoms, B, tri))
    (hne : atoms ≠ []) (hb : atoms.length < 200 → boxSum B ≠ 0) (hd : B.det ≠ 0 ∧ B.transpose.det ≠ 0) :
    ∃ s, System.init.readDump C (some lines) [] = .ok s ∧ StoreInv s atoms ∧ s.getBox = B := by
  have hreal : ∀ a ∈ atoms, a.ghost = false := read_real hr
  obtain ⟨s1, hset, hgb⟩ : ∃ s1, System.init.setBox B = .ok s1 ∧ s1.getBox = B := by
    unfold System.setBox
    split
    · rw [if_neg hd.2]; exact ⟨_, rfl, rfl⟩
    · exact ⟨_, rfl, rfl⟩
  have hpos : 0 < atoms.length := List.length_pos_iff.2 hne
  obtain ⟨s, has⟩ : ∃ s, s1.assignAtoms atoms = .ok s := by
    by_cases hl : atoms.length < 200
    · exact C05_assign_succeeds s1 atoms hpos (by rw [hgb]; exact hb hl) (fun _ => by rw [hgb]; exact hd.1)
    · unfold System.assignAtoms
      rw [if_neg hl]
      exact ⟨_, rfl⟩
  obtain ⟨extra, e1, e2, e3, e4, e5, hbig, hsmall, -⟩ := assign_shape hreal has
  refine ⟨s, ?_, ⟨hreal, ⟨extra, e1, fun a ha => (e2 a ha).1, e5⟩, by rw [e4, e1], e3⟩, ?_⟩
  · unfold System.readDump
    simp only [hr, bind, Except.bind, hset, has]
  · by_cases hlt : atoms.length < 200
    · rw [(hsmall hlt).2.1, hgb]
    · rw [(hbig (by omega)).2]; exact hgb

theorem cell_types {C : Codec} {rows : List (String → String)} {atoms : List Atom} (hl : atoms.length = rows.length)
    (h : ∀ (k : ℕ) (f : String → String), rows[k]? = some f → ∃ a, atoms[k]? = some a ∧ RowFields C [] f a) (t : ℤ) :
    (∃ a ∈ atoms, a.type = t) ↔ t ∈ Spec.rowTypes C rows := by
  constructor
  · rintro ⟨a, ha, rfl⟩
    obtain ⟨k, hk, rfl⟩ := List.getElem_of_mem ha
    obtain ⟨b, hb, hf⟩ := h k _ (List.getElem?_eq_getElem (hl ▸ hk))
    rw [List.getElem?_eq_getElem hk, Option.some.injEq] at hb
    rw [hb]
    exact ⟨_, List.getElem_mem (hl ▸ hk), hf.type⟩
  · rintro ⟨f, hf, ht⟩
    obtain ⟨k, hk, rfl⟩ := List.getElem_of_mem hf
    obtain ⟨b, hb, hf⟩ := h k _ (List.getElem?_eq_getElem hk)
    refine ⟨b, List.mem_of_getElem? hb, ?_⟩
    rw [hf.type, Option.some.injEq] at ht
    exact ht

theorem cell_species {C : Codec} {rows : List (String → String)} {atoms : List Atom} (hl : atoms.length = rows.length)
    (h : ∀ (k : ℕ) (f : String → String), rows[k]? = some f → ∃ a, atoms[k]? = some a ∧ RowFields C [] f a) :
    ∀ a ∈ atoms, dictGet a.custom "species" = none := by
  intro a ha
  obtain ⟨k, hk, rfl⟩ := List.getElem_of_mem ha
  obtain ⟨b, hb, hf⟩ := h k _ (List.getElem?_eq_getElem (hl ▸ hk))
  rw [List.getElem?_eq_getElem hk, Option.some.injEq] at hb
  rw [hb, hf.custom, if_neg (by simp)]

theorem cell_ase {C : Codec} {known : String → Bool} {sp lines : List String} (hk : ∀ x ∈ sp, known x = true) (h : Spec.ConvertibleCell C sp.length lines) :
    ∃ o, (do
      let s ← System.init.readDump C (some lines) []
      (s.convertSnap known (some sp)).2) = .ok o ∧ Spec.ShowsCell C sp lines o := by
  obtain ⟨rows, B, fr, hF, hne, hb, ht⟩ := h
  obtain ⟨atoms, T, tri, hr, hl, hA⟩ := cell_snap hF
  have hA' := fun k f hf => let ⟨a, b, c, _⟩ := hA k f hf; (⟨a, b, c⟩ : ∃ a, atoms[k]? = some a ∧ RowFields C [] f a)
  have hne' : atoms ≠ [] := by
    rintro rfl
    exact hne (List.length_eq_zero_iff.1 hl.symm)
  obtain ⟨s, hs, hi, hbox⟩ := cell_read hr hne' (by rw [hl]; exact hb) (CellFrame.det hF)
  obtain ⟨s', out, hc, hrows⟩ := C73_partial known s atoms hi hne' (cell_species hl hA') sp (fun t => (cell_types hl hA' t).trans (ht t)) hk
  refine ⟨⟨s.getBox, out⟩, by simp only [hs, bind, Except.bind, hc], ?_⟩
  intro rows2 B2 fr2 hF2
  obtain ⟨atoms2, T2, tri2, hr2, hl2, hA2⟩ := cell_snap hF2
  rw [hr] at hr2
  simp only [Except.ok.injEq, Prod.mk.injEq] at hr2
  obtain ⟨rfl, rfl, -⟩ := hr2
  refine ⟨hbox, hrows.length_eq.symm.trans hl2, T2, fun k f hf => ?_⟩
  obtain ⟨a, ha, hff, hp⟩ := hA2 k f hf
  obtain ⟨hka, rfl⟩ := List.getElem?_eq_some_iff.1 ha
  have hko : k < out.length := hrows.length_eq ▸ hka
  obtain ⟨q1, j, q2, q3⟩ := (List.forall₂_iff_get.1 hrows).2 k hka hko
  refine ⟨out[k], List.getElem?_eq_getElem hko, ?_, j, ?_, q3⟩
  · rw [← hp]; exact q1
  · rw [hff.type, Option.some.injEq]; exact q2

/-- **C93, all boxes, in part**: also for frames in skewed boxes and with scaled coordinates, if every selected frame has atoms of all types from 1 to
the number of species and no others, `to_ase` returns one object for every selected block, in order, with the cell and the atoms of the frame. -/
theorem C93_cell_partial (C : Codec) (known : String → Bool) (h : TrajHeap) (ts : Slices) (sp : List String) (hk : ∀ x ∈ sp, known x = true)
    (blocks : List (List String)) (hsel : List.Forall₂ (Spec.Selects h) ts.pairs blocks) (hconv : ∀ b ∈ blocks, Spec.ConvertibleCell C sp.length b) :
    ∃ objs, C.sliceToAse known h ts (some sp) = .ok objs ∧ List.Forall₂ (Spec.ShowsCell C sp) blocks objs := by
  unfold Codec.sliceToAse
  generalize ts.pairs = ps at hsel
  induction hsel with
  | nil => exact ⟨[], rfl, .nil⟩
  | @cons p b ps bs h1 _ ih =>
    obtain ⟨objs, ho, hs⟩ := ih fun x hx => hconv x (List.mem_cons_of_mem _ hx)
    obtain ⟨o, hc, hshow⟩ := cell_ase hk (hconv b List.mem_cons_self)
    refine ⟨o :: objs, ?_, .cons hshow hs⟩
    rw [List.mapM_cons, selects_block h1]
    simp only [bind, Except.bind] at hc ho ⊢
    rw [hc, ho]
    rfl

/-- **C93 is false in a skewed box as well** if a frame has another number of types than there are species. -/
theorem C93_false_cell (C : Codec) (known : String → Bool) (h : TrajHeap) (ts : Slices) (sp : List String) (hk : ∀ x ∈ sp, known x = true)
    (before after : List (ℕ × ℤ)) (p : ℕ × ℤ) (hts : ts.pairs = before ++ p :: after) (blocks : List (List String)) (b : List String)
    (hsel : List.Forall₂ (Spec.Selects h) before blocks) (hconv : ∀ b ∈ blocks, Spec.ConvertibleCell C sp.length b) (hp : Spec.Selects h p b)
    (rows : List (String → String)) (B : Mat3) (fr : ℕ → V3) (hF : Spec.CellFrame C b rows B fr) (hne : rows ≠ [])
    (hb : rows.length < 200 → B.r0.x + B.r0.y + B.r0.z + B.r1.x + B.r1.y + B.r1.z + B.r2.x + B.r2.y + B.r2.z ≠ 0)
    (ht : (Spec.rowTypes C rows).ncard ≠ sp.length) : C.sliceToAse known h ts (some sp) = .error .valueError := by
  unfold Codec.sliceToAse
  rw [hts]
  clear hts
  induction hsel with
  | nil =>
    rw [List.nil_append, List.mapM_cons, selects_block hp]
    obtain ⟨atoms, T, tri, hr, hl, hA⟩ := cell_snap hF
    have hA' := fun k f hf => let ⟨a, b, c, _⟩ := hA k f hf; (⟨a, b, c⟩ : ∃ a, atoms[k]? = some a ∧ RowFields C [] f a)
    have hne' : atoms ≠ [] := by
      rintro rfl
      exact hne (List.length_eq_zero_iff.1 hl.symm)
    obtain ⟨s, hs, hi, -⟩ := cell_read hr hne' (by rw [hl]; exact hb) (CellFrame.det hF)
    obtain ⟨a, l, rfl⟩ := List.exists_cons_of_ne_nil hne'
    have hg := getAtoms_inv hi
    have he := ((C73_errors known s).2 a l hg (cell_species hl hA' a List.mem_cons_self)).2 sp (by
      intro types hnd hmem hlen
      refine ht ?_
      rw [← hlen, ← List.toFinset_card_of_nodup hnd, ← Set.ncard_coe_finset]
      congr 1
      ext t
      rw [Finset.mem_coe, List.mem_toFinset, hmem]
      exact (cell_types hl hA' t).symm)
    simp only [bind, Except.bind, hs, he]
  | @cons q c ps bs h1 _ ih =>
    obtain ⟨o, hc, -⟩ := cell_ase hk (hconv c List.mem_cons_self)
    have := ih fun x hx => hconv x (List.mem_cons_of_mem _ hx)
    rw [List.cons_append, List.mapM_cons, selects_block h1]
    simp only [bind, Except.bind] at hc this ⊢
    rw [hc, this]

/-! ### A concrete file -/

/-- Two atoms of the types `t` and `u` in the cell (4,0,0), (1,4,0), (0,2,4), with scaled coordinates. -/
noncomputable def skewFrame (t u : ℤ) : List String :=
  intDump ["zs", "id", "type", "ys", "xs"] [fun c => if c = "type" then t else 0, fun c => if c = "type" then u else 1] (0, 5) (0, 6) (0, 4) (1, 0, 2)

theorem skewFrame_cell (t u : ℤ) : Spec.CellFrame unaryCodec (skewFrame t u)
    [fun c => unary 'a' (if c = "type" then t else 0), fun c => unary 'a' (if c = "type" then u else 1)] ⟨⟨4, 0, 0⟩, ⟨1, 4, 0⟩, ⟨0, 2, 4⟩⟩
    (fun k => if k = 0 then 0 else ⟨1, 1, 1⟩) := by
  set l : V3 := ⟨4, 4, 4⟩ with hl
  have hb : Spec.BoundsOf 0 (Spec.lammpsCell l 1 0 2) (((0 : ℤ) : ℝ), ((5 : ℤ) : ℝ)) (((0 : ℤ) : ℝ), ((6 : ℤ) : ℝ)) (((0 : ℤ) : ℝ), ((4 : ℤ) : ℝ)) := by
    obtain ⟨bx, by', bz, hb⟩ := boundsOf_exists 0 l 1 0 2
    obtain ⟨e1, e2, e3⟩ := bounds_lammps (by norm_num [hl]) (by norm_num [hl]) (by norm_num [hl]) hb
    norm_num [hl] at e1 e2 e3
    rw [e1, e2, e3] at hb
    norm_num
    exact hb
  have D := intDump_file ["zs", "id", "type", "ys", "xs"] (by decide) (by
      intro c hc
      simp only [List.mem_cons, List.not_mem_nil, or_false] at hc
      rcases hc with rfl | rfl | rfl | rfl | rfl <;> exact word_lit _ (by decide))
    [fun c => if c = "type" then t else 0, fun c => if c = "type" then u else 1] (0, 5) (0, 6) (0, 4) (1, 0, 2)
  refine ⟨⟨_, _, _, _, _, true, 0, l, by norm_num [hl], by norm_num [hl], by norm_num [hl], ?_, by simpa [skewFrame] using D, ?_, by simp, by simp, ?_⟩, by simp [unary_int]⟩
  · norm_num [Spec.lammpsCell, hl]
  · simpa [Spec.lammpsCell, hl] using hb
  · intro k f hf
    match k, hf with
    | 0, hf =>
      simp only [List.getElem?_cons_zero, Option.some.injEq] at hf
      subst hf
      simp [Spec.RowPosition, unary_float_a]
    | 1, hf =>
      simp only [List.getElem?_cons_zero, List.getElem?_cons_succ, Option.some.injEq] at hf
      subst hf
      norm_num [Spec.RowPosition, unary_float_a]
      exact ⟨fun h => absurd h (by decide), fun h => absurd h (by decide), fun h => absurd h (by decide)⟩
    | (k + 2), hf => simp at hf

/-- The hypotheses can be met: a trajectory of one skewed frame is converted to an object with its cell. -/
example : ∃ (t : Traj) (o : AseAtoms), unaryCodec.sliceToAse (fun _ => true) (fun _ => t) [(0, [0])] (some ["Fe", "Al"]) = .ok [o] ∧
    o.cell = ⟨⟨4, 0, 0⟩, ⟨1, 4, 0⟩, ⟨0, 2, 4⟩⟩ ∧ o.atoms.length = 2 := by
  have hlen : (skewFrame 1 2).length = 11 := by simp [skewFrame, intDump]
  have hT : TrajOf ⟨skewFrame 1 2, 2, [], []⟩ 2 [skewFrame 1 2] [] := ⟨rfl, ⟨by simp, by simpa using hlen, by simp⟩⟩
  obtain ⟨objs, h1, h2⟩ := C93_cell_partial unaryCodec (fun _ => true) (fun _ => ⟨skewFrame 1 2, 2, [], []⟩) [(0, [0])] ["Fe", "Al"] (by simp) [skewFrame 1 2]
    (.cons ⟨2, _, [], 0, hT, rfl, rfl⟩ .nil) (by
      intro b hb
      rw [List.mem_singleton.1 hb]
      refine ⟨_, _, _, skewFrame_cell 1 2, by simp, by norm_num, fun v => ?_⟩
      simp only [Spec.rowTypes, List.mem_cons, List.not_mem_nil, or_false, exists_eq_or_imp, exists_eq_left, if_true, unary_int, Option.some.injEq,
        Set.mem_ofPred_eq]
      simp only [List.length_cons, List.length_nil]
      omega)
  obtain ⟨o, l, a1, h3, rfl⟩ := List.forall₂_cons_left_iff.1 h2
  obtain rfl := List.forall₂_nil_left_iff.1 h3
  obtain ⟨c1, c2, -⟩ := a1 _ _ _ (skewFrame_cell 1 2)
  exact ⟨_, o, h1, c1, by simpa using c2⟩

end Pyscal
