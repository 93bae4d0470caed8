import Verif.Model.AseTrajectory
import Verif.Props.Trajectory
import Verif.Props.Formats

/-! C93: trajectories as ASE objects. -/

namespace Pyscal

open Spec

/-- Specification: a frame of a dump file with an orthogonal box, described by its columns, rows and bounds. -/
structure Spec.Frame (C : Codec) (lines : List String) (cols : List String) (rows : List (String → String)) (bx by' bz : ℝ × ℝ) : Prop where
  file : DumpFile C lines cols rows bx by' bz none
  cols : ∀ k ∈ ["id", "type", "x", "y", "z"], k ∈ cols
  num : ∀ f ∈ rows, Numeric C "x" "y" "z" f

/-- Specification: the types found in the rows. -/
def Spec.rowTypes (C : Codec) (rows : List (String → String)) : Set ℤ := {t | ∃ f ∈ rows, C.int (f "type") = some t}

/-- Specification: the object shows the frame: the cell has the edges of the frame, and there is one atom for every row, in order, at the
position of the row and of the species with the number of its type. -/
def Spec.Shows (C : Codec) (sp : List String) (lines : List String) (o : AseAtoms) : Prop :=
  ∀ cols rows bx by' bz, Spec.Frame C lines cols rows bx by' bz →
    o.cell = Spec.diagBox (bx.2 - bx.1) (by'.2 - by'.1) (bz.2 - bz.1) ∧
    List.Forall₂ (fun (f : String → String) (r : String × V3) => C.float (f "x") = some r.2.x ∧ C.float (f "y") = some r.2.y ∧
      C.float (f "z") = some r.2.z ∧ ∃ k : ℕ, C.int (f "type") = some ((k : ℤ) + 1) ∧ sp[k]? = some r.1) rows o.atoms

/-- Specification: a frame with atoms of all types from 1 to the number of species, in a box with a non-zero sum of edges. -/
def Spec.Convertible (C : Codec) (m : ℕ) (lines : List String) : Prop :=
  ∃ cols rows bx by' bz, Spec.Frame C lines cols rows bx by' bz ∧ rows ≠ [] ∧ (bx.2 - bx.1) + (by'.2 - by'.1) + (bz.2 - bz.1) ≠ 0 ∧
    ∀ t : ℤ, t ∈ Spec.rowTypes C rows ↔ 1 ≤ t ∧ t ≤ m

/-- Specification: the pair of a trajectory and a number of a block selects the frame with the given lines. -/
def Spec.Selects (h : TrajHeap) (p : ℕ × ℤ) (lines : List String) : Prop :=
  ∃ n frames stray k, TrajOf (h p.1) n frames stray ∧ p.2 = ((k : ℕ) : ℤ) ∧ frames[k]? = some lines

/-- What a row becomes. -/
def RowAtom (C : Codec) (f : String → String) (a : Atom) : Prop :=
  RowFields C [] f a ∧ C.float (f "x") = some a.pos.x ∧ C.float (f "y") = some a.pos.y ∧ C.float (f "z") = some a.pos.z

theorem frame_snap {C : Codec} {lines cols : List String} {rows : List (String → String)} {bx by' bz : ℝ × ℝ} (h : Spec.Frame C lines cols rows bx by' bz) :
    ∃ atoms, C.readSnap lines [] = .ok (atoms, Spec.diagBox (bx.2 - bx.1) (by'.2 - by'.1) (bz.2 - bz.1), false) ∧ List.Forall₂ (RowAtom C) rows atoms := by
  obtain ⟨atoms, hr, hl, hat⟩ := C41_columns C lines cols [] rows bx by' bz h.file (by simpa using h.cols) h.num
  refine ⟨atoms, hr, ?_⟩
  rw [List.forall₂_iff_get]
  refine ⟨hl.symm, fun i h1 h2 => ?_⟩
  obtain ⟨a, ha, hra⟩ := hat i _ (List.getElem?_eq_getElem h1)
  have he : atoms[i] = a := by
    rw [List.getElem?_eq_getElem (show i < atoms.length from h2)] at ha
    exact Option.some.inj ha
  simp only [List.get_eq_getElem, he]
  exact hra

/-- Reading a frame. -/
theorem frame_read {C : Codec} {lines : List String} {atoms : List Atom} {x y z : ℝ} (hr : C.readSnap lines [] = .ok (atoms, Spec.diagBox x y z, false))
    (hne : atoms ≠ []) (hb : x + y + z ≠ 0) :
    ∃ s, System.init.readDump C (some lines) [] = .ok s ∧ StoreInv s atoms ∧ s.getBox = Spec.diagBox x y z := by
  have hreal : ∀ a ∈ atoms, a.ghost = false := read_real hr
  set s1 : System := { System.init with box := Spec.diagBox x y z } with hs1
  have hset : System.init.setBox (Spec.diagBox x y z) = .ok s1 := by
    unfold System.setBox
    rw [if_neg (not_skewed_diag _ _ _)]
  have hgb : s1.getBox = Spec.diagBox x y z := rfl
  have hpos : 0 < atoms.length := List.length_pos_iff.2 hne
  obtain ⟨s, has⟩ := C05_assign_succeeds s1 atoms hpos (by rw [hgb]; simpa [boxSum, Spec.diagBox] using hb)
    (by rw [hgb]; exact fun h => absurd ((skewed_iff _).2 h) (not_skewed_diag _ _ _))
  obtain ⟨extra, e1, e2, e3, e4, e5, hbig, hsmall, -⟩ := assign_shape hreal has
  refine ⟨s, ?_, ⟨hreal, ⟨extra, e1, fun a ha => (e2 a ha).1, e5⟩, by rw [e4, e1], e3⟩, ?_⟩
  · unfold System.readDump
    simp only [hr, bind, Except.bind, hset, has]
  · by_cases hlt : atoms.length < 200
    · rw [(hsmall hlt).2.1, hgb]
    · rw [(hbig (by omega)).2]; exact hgb

theorem types_of_rows {C : Codec} {rows : List (String → String)} {atoms : List Atom} (h : List.Forall₂ (RowAtom C) rows atoms) (t : ℤ) :
    (∃ a ∈ atoms, a.type = t) ↔ t ∈ Spec.rowTypes C rows := by
  induction h with
  | nil => simp [Spec.rowTypes]
  | cons h1 _ ih =>
    simp only [Spec.rowTypes, List.mem_cons, exists_eq_or_imp, Set.mem_ofPred_eq] at ih ⊢
    rw [ih, h1.1.type, Option.some.injEq]

theorem no_species {C : Codec} {rows : List (String → String)} {atoms : List Atom} (h : List.Forall₂ (RowAtom C) rows atoms) :
    ∀ a ∈ atoms, dictGet a.custom "species" = none := by
  induction h with
  | nil => simp
  | cons h1 _ ih =>
    intro a ha
    rcases List.mem_cons.1 ha with rfl | ha
    · rw [h1.1.custom, if_neg (by simp)]
    · exact ih a ha

theorem selects_block {h : TrajHeap} {p : ℕ × ℤ} {b : List String} (hs : Spec.Selects h p b) : (h p.1).getBlock p.2 = .ok b := by
  obtain ⟨n, frames, stray, k, hT, hk, hb⟩ := hs
  obtain ⟨hlt, rfl⟩ := List.getElem?_eq_some_iff.1 hb
  rw [hk]
  exact getBlock_nat hT hlt

/-- One frame. -/
theorem frame_ase {C : Codec} {known : String → Bool} {sp lines : List String} (hk : ∀ x ∈ sp, known x = true) (h : Spec.Convertible C sp.length lines) :
    ∃ o, (do
      let s ← System.init.readDump C (some lines) []
      (s.convertSnap known (some sp)).2) = .ok o ∧ Spec.Shows C sp lines o := by
  obtain ⟨cols, rows, bx, by', bz, hF, hne, hb, ht⟩ := h
  obtain ⟨atoms, hr, hA⟩ := frame_snap hF
  have hne' : atoms ≠ [] := by
    rintro rfl
    exact hne (List.forall₂_nil_right_iff.1 hA)
  obtain ⟨s, hs, hi, hbox⟩ := frame_read hr hne' hb
  have hno := no_species hA
  have htypes : Spec.TypesOneTo atoms sp.length := fun t => (types_of_rows hA t).trans (ht t)
  obtain ⟨s', out, hc, hrows⟩ := C73_partial known s atoms hi hne' hno sp htypes hk
  refine ⟨⟨s.getBox, out⟩, by simp only [hs, bind, Except.bind, hc], ?_⟩
  intro cols2 rows2 bx2 by2 bz2 hF2
  obtain ⟨atoms2, hr2, hA2⟩ := frame_snap hF2
  rw [hr] at hr2
  simp only [Except.ok.injEq, Prod.mk.injEq, and_true] at hr2
  obtain ⟨he, hB⟩ := hr2
  rw [← he] at hA2
  refine ⟨hbox.trans hB, ?_⟩
  clear hA hne' hi hno htypes hr hc he hF2
  induction hA2 generalizing out with
  | nil => rw [List.forall₂_nil_left_iff.1 hrows]; exact .nil
  | cons h1 _ ih =>
    rcases hrows with _ | ⟨h2, h3⟩
    refine .cons ?_ (ih _ h3)
    obtain ⟨hp, k, hk1, hk2⟩ := h2
    obtain ⟨hf, hx, hy, hz⟩ := h1
    rw [hp]
    exact ⟨hx, hy, hz, k, by rw [hf.type, hk1], hk2⟩

/-- **C93, in part**: if every selected frame contains atoms of all types from 1 to the number of species and no others, `to_ase` returns one
object for every selected block, in order, and it shows the frame. -/
theorem C93_partial (C : Codec) (known : String → Bool) (h : TrajHeap) (ts : Slices) (sp : List String) (hk : ∀ x ∈ sp, known x = true)
    (blocks : List (List String)) (hsel : List.Forall₂ (Spec.Selects h) ts.pairs blocks) (hconv : ∀ b ∈ blocks, Spec.Convertible C sp.length b) :
    ∃ objs, C.sliceToAse known h ts (some sp) = .ok objs ∧ List.Forall₂ (Spec.Shows C sp) blocks objs := by
  unfold Codec.sliceToAse
  generalize ts.pairs = ps at hsel
  induction hsel with
  | nil => exact ⟨[], rfl, .nil⟩
  | @cons p b ps bs h1 _ ih =>
    obtain ⟨objs, ho, hs⟩ := ih fun x hx => hconv x (List.mem_cons_of_mem _ hx)
    obtain ⟨o, hc, hshow⟩ := frame_ase hk (hconv b List.mem_cons_self)
    refine ⟨o :: objs, ?_, .cons hshow hs⟩
    rw [List.mapM_cons, selects_block h1]
    simp only [bind, Except.bind] at hc ho ⊢
    rw [hc, ho]
    rfl

/-- **C93 is false for a frame without atoms of one of the types**: the call raises ValueError, whatever the frames after it; with the frames
selected before it all convertible. -/
theorem C93_false_types (C : Codec) (known : String → Bool) (h : TrajHeap) (ts : Slices) (sp : List String) (hk : ∀ x ∈ sp, known x = true)
    (before after : List (ℕ × ℤ)) (p : ℕ × ℤ) (hts : ts.pairs = before ++ p :: after) (blocks : List (List String)) (b : List String)
    (hsel : List.Forall₂ (Spec.Selects h) before blocks) (hconv : ∀ b ∈ blocks, Spec.Convertible C sp.length b) (hp : Spec.Selects h p b)
    (cols : List String) (rows : List (String → String)) (bx by' bz : ℝ × ℝ) (hF : Spec.Frame C b cols rows bx by' bz) (hne : rows ≠ [])
    (hb : (bx.2 - bx.1) + (by'.2 - by'.1) + (bz.2 - bz.1) ≠ 0) (ht : (Spec.rowTypes C rows).ncard ≠ sp.length) :
    C.sliceToAse known h ts (some sp) = .error .valueError := by
  unfold Codec.sliceToAse
  rw [hts]
  clear hts
  induction hsel with
  | nil =>
    rw [List.nil_append, List.mapM_cons, selects_block hp]
    obtain ⟨atoms, hr, hA⟩ := frame_snap hF
    have hne' : atoms ≠ [] := by
      rintro rfl
      exact hne (List.forall₂_nil_right_iff.1 hA)
    obtain ⟨s, hs, hi, -⟩ := frame_read hr hne' hb
    obtain ⟨a, l, rfl⟩ := List.exists_cons_of_ne_nil hne'
    have hg := getAtoms_inv hi
    have he := ((C73_errors known s).2 a l hg (no_species hA a List.mem_cons_self)).2 sp (by
      intro types hnd hmem hlen
      refine ht ?_
      rw [← hlen, ← List.toFinset_card_of_nodup hnd, ← Set.ncard_coe_finset]
      congr 1
      ext t
      rw [Finset.mem_coe, List.mem_toFinset, hmem]
      exact (types_of_rows hA t).symm)
    simp only [bind, Except.bind, hs, he]
  | @cons q c ps bs h1 _ ih =>
    obtain ⟨o, hc, -⟩ := frame_ase hk (hconv c List.mem_cons_self)
    have := ih fun x hx => hconv x (List.mem_cons_of_mem _ hx)
    rw [List.cons_append, List.mapM_cons, selects_block h1]
    simp only [bind, Except.bind] at hc this ⊢
    rw [hc, this]

/-- **C93, without species**: the call without arguments raises ValueError for every selection whose first frame has an atom. -/
theorem C93_default (C : Codec) (known : String → Bool) (h : TrajHeap) (ts : Slices) (p : ℕ × ℤ) (after : List (ℕ × ℤ)) (hts : ts.pairs = p :: after)
    (b : List String) (hp : Spec.Selects h p b) (cols : List String) (rows : List (String → String)) (bx by' bz : ℝ × ℝ)
    (hF : Spec.Frame C b cols rows bx by' bz) (hne : rows ≠ []) (hb : (bx.2 - bx.1) + (by'.2 - by'.1) + (bz.2 - bz.1) ≠ 0) :
    C.sliceToAse known h ts none = .error .valueError := by
  unfold Codec.sliceToAse
  rw [hts, List.mapM_cons, selects_block hp]
  obtain ⟨atoms, hr, hA⟩ := frame_snap hF
  have hne' : atoms ≠ [] := by
    rintro rfl
    exact hne (List.forall₂_nil_right_iff.1 hA)
  obtain ⟨s, hs, hi, -⟩ := frame_read hr hne' hb
  obtain ⟨a, l, rfl⟩ := List.exists_cons_of_ne_nil hne'
  have he := ((C73_errors known s).2 a l (getAtoms_inv hi) (no_species hA a List.mem_cons_self)).1
  simp only [bind, Except.bind, hs, he]

/-! ### A concrete file -/

/-- An orthogonal snapshot with integer values, written with unary numerals. -/
noncomputable def flatDump (cols : List String) (rows : List (String → ℤ)) (bx by' bz : ℤ × ℤ) : List String :=
  ["", "", "", textLine [unary 'a' rows.length], "", textLine [unary 'a' bx.1, unary 'a' bx.2],
    textLine [unary 'a' by'.1, unary 'a' by'.2], textLine [unary 'a' bz.1, unary 'a' bz.2],
    textLine ("ITEM:" :: "ATOMS" :: cols)] ++ rows.map fun v => textLine (cols.map fun c => unary 'a' (v c))

theorem flatDump_bounds (lo hi : ℤ) : BoundsLine unaryCodec (textLine [unary 'a' lo, unary 'a' hi]) ((lo : ℝ), (hi : ℝ)) none := by
  refine ⟨unary 'a' lo, unary 'a' hi, unary_float_a lo, unary_float_a hi, Or.inl ⟨rfl, words_textLine _ ?_⟩⟩
  intro w hw
  simp only [List.mem_cons, List.not_mem_nil, or_false] at hw
  rcases hw with rfl | rfl <;> exact unary_word (by decide) _

theorem flatDump_file (cols : List String) (hn : cols.Nodup) (hw : ∀ c ∈ cols, IsWord c) (rows : List (String → ℤ)) (bx by' bz : ℤ × ℤ) :
    DumpFile unaryCodec (flatDump cols rows bx by' bz) cols (rows.map fun v c => unary 'a' (v c)) ((bx.1 : ℝ), (bx.2 : ℝ)) ((by'.1 : ℝ), (by'.2 : ℝ))
      ((bz.1 : ℝ), (bz.2 : ℝ)) none where
  count := ⟨_, rfl, by rw [strip_textLine (unary_word (by decide) _), unary_int]; simp⟩
  xline := ⟨_, rfl, flatDump_bounds _ _⟩
  yline := ⟨_, rfl, flatDump_bounds _ _⟩
  zline := ⟨_, rfl, flatDump_bounds _ _⟩
  header := ⟨_, rfl, words_textLine _ (by
    intro w h
    rcases List.mem_cons.1 h with rfl | h
    · exact word_lit _ (by decide)
    · rcases List.mem_cons.1 h with rfl | h
      · exact word_lit _ (by decide)
      · exact hw w h)⟩
  row k f hf := by
    rw [List.getElem?_map] at hf
    obtain ⟨v, hv, rfl⟩ := Option.map_eq_some_iff.1 hf
    refine ⟨textLine (cols.map fun c => unary 'a' (v c)), [], ?_, ?_⟩
    · unfold flatDump
      rw [List.getElem?_append_right (by simp)]
      simp [hv]
    · rw [words_textLine, List.append_nil]
      intro w h
      obtain ⟨c, -, rfl⟩ := List.mem_map.1 h
      exact unary_word (by decide) _
  nodup := hn

/-- A frame of two atoms, of the types `t` and `u`. -/
noncomputable def twoFrame (t u : ℤ) : List String :=
  flatDump ["id", "type", "x", "y", "z"] [fun c => if c = "type" then t else 1, fun c => if c = "type" then u else 2] (0, 5) (0, 6) (0, 7)

theorem twoFrame_frame (t u : ℤ) : Spec.Frame unaryCodec (twoFrame t u) ["id", "type", "x", "y", "z"]
    [fun c => unary 'a' (if c = "type" then t else 1), fun c => unary 'a' (if c = "type" then u else 2)] (0, 5) (0, 6) (0, 7) := by
  refine ⟨?_, fun k hk => hk, ?_⟩
  · have := flatDump_file ["id", "type", "x", "y", "z"] (by decide) (by
      intro c hc
      simp only [List.mem_cons, List.not_mem_nil, or_false] at hc
      rcases hc with rfl | rfl | rfl | rfl | rfl <;> exact word_lit _ (by decide))
      [fun c => if c = "type" then t else 1, fun c => if c = "type" then u else 2] (0, 5) (0, 6) (0, 7)
    simpa [twoFrame] using this
  · intro f hf
    simp only [List.mem_cons, List.not_mem_nil, or_false] at hf
    rcases hf with rfl | rfl <;> simp [Numeric, unary_int, unary_float_a]

theorem twoFrame_types (t u : ℤ) : Spec.rowTypes unaryCodec
    [fun c => unary 'a' (if c = "type" then t else 1), fun c => unary 'a' (if c = "type" then u else 2)] = {t, u} := by
  ext v
  simp only [Spec.rowTypes, List.mem_cons, List.not_mem_nil, or_false, exists_eq_or_imp, exists_eq_left, if_true, unary_int, Option.some.injEq,
    Set.mem_ofPred_eq, Set.mem_insert_iff, Set.mem_singleton_iff]
  exact or_congr eq_comm eq_comm

theorem twoFrame_length (t u : ℤ) : (twoFrame t u).length = 11 := by simp [twoFrame, flatDump]

/-- A trajectory of three frames: both types, both types in the other order, and only the first type. -/
noncomputable def threeFrames : Traj := ⟨(twoFrame 1 2 ++ twoFrame 2 1 ++ twoFrame 1 1), 2, [], []⟩

theorem threeFrames_of : TrajOf threeFrames 2 [twoFrame 1 2, twoFrame 2 1, twoFrame 1 1] [] where
  natoms := rfl
  tiling := ⟨by simp [threeFrames], by
    intro b hb
    simp only [List.mem_cons, List.not_mem_nil, or_false] at hb
    rcases hb with rfl | rfl | rfl <;> exact twoFrame_length _ _, by simp⟩

theorem twoFrame_convertible {t u : ℤ} (h : (t = 1 ∧ u = 2) ∨ (t = 2 ∧ u = 1)) : Spec.Convertible unaryCodec 2 (twoFrame t u) := by
  refine ⟨_, _, _, _, _, twoFrame_frame t u, by simp, by norm_num, fun v => ?_⟩
  rw [twoFrame_types, Set.mem_insert_iff, Set.mem_singleton_iff]
  push_cast
  omega

/-- **C93 for a concrete trajectory**: two frames are converted, and the same call with a third frame in which one of the two species has no
atom raises ValueError. -/
theorem C93_case : ∃ o o' : AseAtoms, unaryCodec.sliceToAse (fun _ => true) (fun _ => threeFrames) [(0, [0, 1])] (some ["Fe", "Al"]) = .ok [o, o'] ∧
    o.cell = Spec.diagBox 5 6 7 ∧ o.atoms = [("Fe", ⟨1, 1, 1⟩), ("Al", ⟨2, 2, 2⟩)] ∧ o'.atoms = [("Al", ⟨1, 1, 1⟩), ("Fe", ⟨2, 2, 2⟩)] ∧
    unaryCodec.sliceToAse (fun _ => true) (fun _ => threeFrames) [(0, [0, 2, 1])] (some ["Fe", "Al"]) = .error .valueError := by
  have s : ∀ (k : ℕ) (b : List String), [twoFrame 1 2, twoFrame 2 1, twoFrame 1 1][k]? = some b →
      Spec.Selects (fun _ => threeFrames) (0, ((k : ℕ) : ℤ)) b := fun k b hb => ⟨2, _, [], k, threeFrames_of, rfl, hb⟩
  obtain ⟨objs, h1, h2⟩ := C93_partial unaryCodec (fun _ => true) (fun _ => threeFrames) [(0, [0, 1])] ["Fe", "Al"] (by simp) [twoFrame 1 2, twoFrame 2 1]
    (.cons (s 0 _ rfl) (.cons (s 1 _ rfl) .nil)) (by
      intro b hb
      simp only [List.mem_cons, List.not_mem_nil, or_false] at hb
      rcases hb with rfl | rfl
      · exact twoFrame_convertible (Or.inl ⟨rfl, rfl⟩)
      · exact twoFrame_convertible (Or.inr ⟨rfl, rfl⟩))
  obtain ⟨o, l, a1, h3, rfl⟩ := List.forall₂_cons_left_iff.1 h2
  obtain ⟨o', l', a2, h4, rfl⟩ := List.forall₂_cons_left_iff.1 h3
  obtain rfl := List.forall₂_nil_left_iff.1 h4
  have key : ∀ {t u : ℤ} {o : AseAtoms}, Spec.Shows unaryCodec ["Fe", "Al"] (twoFrame t u) o → o.cell = Spec.diagBox 5 6 7 ∧
      ∃ n m : String, o.atoms = [(n, ⟨1, 1, 1⟩), (m, ⟨2, 2, 2⟩)] ∧ (∃ k : ℕ, t = (k : ℤ) + 1 ∧ ["Fe", "Al"][k]? = some n) ∧ ∃ k : ℕ, u = (k : ℤ) + 1 ∧ ["Fe", "Al"][k]? = some m := by
    intro t u o h
    obtain ⟨hc, ha⟩ := h _ _ _ _ _ (twoFrame_frame t u)
    refine ⟨by simpa using hc, ?_⟩
    obtain ⟨⟨n, v⟩, l, b1, h3, e⟩ := List.forall₂_cons_left_iff.1 ha
    obtain ⟨⟨m, w⟩, l', b2, h4, rfl⟩ := List.forall₂_cons_left_iff.1 h3
    obtain rfl := List.forall₂_nil_left_iff.1 h4
    simp only [unary_float_a, unary_int, if_true, Option.some.injEq] at b1 b2
    rw [if_neg (by decide), if_neg (by decide), if_neg (by decide)] at b1 b2
    push_cast at b1 b2
    obtain ⟨x1, y1, z1, k1⟩ := b1
    obtain ⟨x2, y2, z2, k2⟩ := b2
    refine ⟨n, m, ?_, k1, k2⟩
    rw [e, show v = ⟨1, 1, 1⟩ from V3.ext x1.symm y1.symm z1.symm, show w = ⟨2, 2, 2⟩ from V3.ext x2.symm y2.symm z2.symm]
  obtain ⟨c1, n, m, e1, ⟨i, hi, hn⟩, ⟨j, hj, hm⟩⟩ := key a1
  obtain ⟨-, n', m', e2, ⟨i', hi', hn'⟩, ⟨j', hj', hm'⟩⟩ := key a2
  obtain rfl : i = 0 := by omega
  obtain rfl : j = 1 := by omega
  obtain rfl : i' = 1 := by omega
  obtain rfl : j' = 0 := by omega
  simp only [List.getElem?_cons_zero, List.getElem?_cons_succ, Option.some.injEq] at hn hm hn' hm'
  subst hn hm hn' hm'
  refine ⟨o, o', h1, c1, e1, e2, ?_⟩
  refine C93_false_types unaryCodec (fun _ => true) (fun _ => threeFrames) _ ["Fe", "Al"] (by simp) [(0, 0)] [(0, 1)] (0, 2) rfl [twoFrame 1 2] (twoFrame 1 1)
    (.cons (s 0 _ rfl) .nil) ?_ (s 2 _ rfl) _ _ _ _ _ (twoFrame_frame 1 1) (by simp) (by norm_num) ?_
  · intro b hb
    simp only [List.mem_cons, List.not_mem_nil, or_false] at hb
    rw [hb]
    exact twoFrame_convertible (Or.inl ⟨rfl, rfl⟩)
  · rw [twoFrame_types]
    simp

/-- The hypotheses of `C93_default` can be met. -/
example : unaryCodec.sliceToAse (fun _ => true) (fun _ => threeFrames) [(0, [0])] none = .error .valueError :=
  C93_default unaryCodec _ _ _ (0, 0) [] rfl (twoFrame 1 2) ⟨2, _, [], 0, threeFrames_of, rfl, rfl⟩ _ _ _ _ _ (twoFrame_frame 1 2) (by simp) (by norm_num)

end Pyscal
