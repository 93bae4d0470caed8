import Verif.Props.Formats

/-! The layout of a dump file does not matter (C111). -/

namespace Pyscal

/-- Python's whitespace characters with numbers below 0x1680. -/
def Spec.Space (c : Char) : Prop := c.toNat ∈ [9, 10, 11, 12, 13, 28, 29, 30, 31, 32, 133, 160]

/-- A field of a line: not empty and without whitespace. -/
def Spec.Field (w : List Char) : Prop := w ≠ [] ∧ ∀ c ∈ w, ¬ Spec.Space c ∧ c.toNat < 0x1680

/-- The line consists of the given fields with any whitespace before, between and after them. -/
inductive Spec.Layout : List String → List Char → Prop
  | blank (p : List Char) : (∀ c ∈ p, Spec.Space c) → Spec.Layout [] p
  | last (p w : List Char) : (∀ c ∈ p, Spec.Space c) → Spec.Field w → Spec.Layout [String.ofList w] (p ++ w)
  | next (p w : List Char) (c : Char) (ws : List String) (l : List Char) : (∀ c ∈ p, Spec.Space c) → Spec.Field w → Spec.Space c →
      Spec.Layout ws l → Spec.Layout (String.ofList w :: ws) (p ++ (w ++ c :: l))

theorem space_iff (c : Char) (h : c.toNat < 0x1680) : isSpace c = true ↔ Spec.Space c := by
  unfold isSpace Spec.Space
  generalize c.toNat = n
  simp only [Bool.or_eq_true, Bool.and_eq_true, decide_eq_true_eq, List.mem_cons, List.not_mem_nil, or_false]
  omega

theorem Spec.Space.isSpace {c : Char} (h : Spec.Space c) : isSpace c = true := by
  refine (space_iff c ?_).2 h
  unfold Spec.Space at h
  simp only [List.mem_cons, List.not_mem_nil, or_false] at h
  omega

theorem Spec.Field.not_space {w : List Char} (h : Spec.Field w) : ∀ c ∈ w, Pyscal.isSpace c = false := by
  intro c hc
  obtain ⟨h1, h2⟩ := h.2 c hc
  rw [← Bool.not_eq_true, space_iff c h2]
  exact h1

theorem words_blank (p : List Char) (hp : ∀ c ∈ p, isSpace c = true) : words (String.ofList p) = [] := by
  have := words_indent p hp ""
  rw [String.append_empty] at this
  rw [this]
  decide

theorem words_one (w : List Char) (h : Spec.Field w) : words (String.ofList w) = [String.ofList w] := by
  unfold words
  simp only [String.toList_ofList]
  rw [List.splitOnP_eq_singleton h.not_space]
  simp [h.1]

theorem words_indent' (p l : List Char) (hp : ∀ c ∈ p, Spec.Space c) : words (String.ofList (p ++ l)) = words (String.ofList l) := by
  rw [String.ofList_append]
  exact words_indent p (fun c hc => (hp c hc).isSpace) _

theorem words_layout {ws : List String} {l : List Char} (h : Spec.Layout ws l) : words (String.ofList l) = ws := by
  induction h with
  | blank p hp => exact words_blank p fun c hc => (hp c hc).isSpace
  | last p w hp hw => rw [words_indent' p w hp, words_one w hw]
  | next p w c ws l hp hw hc _ ih => rw [words_indent' p _ hp, words_cons_word w l c hc.isSpace hw.1 hw.not_space, ih]

theorem dropWhile_spaces (p l : List Char) (hp : ∀ c ∈ p, isSpace c = true) : (p ++ l).dropWhile isSpace = l.dropWhile isSpace := by
  induction p with
  | nil => rfl
  | cons c p ih => rw [List.cons_append, List.dropWhile_cons_of_pos (hp c (by simp)), ih fun x hx => hp x (by simp [hx])]

theorem strip_padded (p w q : List Char) (hp : ∀ c ∈ p, isSpace c = true) (hq : ∀ c ∈ q, isSpace c = true) (hw : w ≠ [] ∧ ∀ c ∈ w, isSpace c = false) :
    strip (String.ofList (p ++ (w ++ q))) = String.ofList w := by
  unfold strip
  rw [String.toList_ofList, dropWhile_spaces p _ hp]
  have e : (w ++ q).dropWhile isSpace = w ++ q := by
    cases w with
    | nil => exact absurd rfl hw.1
    | cons a l => rw [List.cons_append, List.dropWhile_cons_of_neg]; simp [hw.2 a (by simp)]
  rw [e, List.reverse_append, dropWhile_spaces _ _ (fun c hc => hq c (List.mem_reverse.1 hc)),
    dropWhile_word (by intro c hc; exact hw.2 c (List.mem_reverse.1 hc)), List.reverse_reverse]

theorem strip_layout {w : String} {l : List Char} (h : Spec.Layout [w] l) : strip (String.ofList l) = w := by
  cases h with
  | last p w hp hw =>
    have := strip_padded p w [] (fun c hc => (hp c hc).isSpace) (by simp) ⟨hw.1, hw.not_space⟩
    rwa [List.append_nil] at this
  | next p w c ws l hp hw hc hl =>
    cases hl with
    | blank q hq =>
      refine strip_padded p w (c :: l) (fun c hc => (hp c hc).isSpace) ?_ ⟨hw.1, hw.not_space⟩
      intro d hd
      rcases List.mem_cons.1 hd with rfl | hd
      · exact hc.isSpace
      · exact (hq d hd).isSpace

/-! ## C111 -/

/-- Two dump files with the same fields.  The first three lines and the fifth (titles and the timestep) may be anything; the fourth has one field. -/
structure Spec.SameFields (f g : List String) : Prop where
  len : f.length = g.length
  count : ∀ l l', f[3]? = some l → g[3]? = some l' → ∃ w, Spec.Layout [w] l.toList ∧ Spec.Layout [w] l'.toList
  line : ∀ (i : ℕ) (l l' : String), 5 ≤ i → f[i]? = some l → g[i]? = some l' → ∃ ws, Spec.Layout ws l.toList ∧ Spec.Layout ws l'.toList

theorem Spec.SameFields.words {f g : List String} (h : Spec.SameFields f g) {i : ℕ} {l l' : String} (hi : 5 ≤ i) (hl : f[i]? = some l) (hl' : g[i]? = some l') :
    Pyscal.words l = Pyscal.words l' := by
  obtain ⟨ws, h1, h2⟩ := h.line i l l' hi hl hl'
  have e1 := words_layout h1
  have e2 := words_layout h2
  rw [String.ofList_toList] at e1 e2
  rw [e1, e2]

theorem Spec.SameFields.atLine {f g : List String} (h : Spec.SameFields f g) {α : Type} (F : String → Except Fault α) (i : ℕ)
    (hF : ∀ l l', f[i]? = some l → g[i]? = some l' → F l = F l') : Pyscal.atLine f i F = Pyscal.atLine g i F := by
  unfold Pyscal.atLine
  by_cases hi : i < f.length
  · have h1 := List.getElem?_eq_getElem hi
    have h2 := List.getElem?_eq_getElem (show i < g.length by rw [← h.len]; exact hi)
    have e := hF _ _ h1 h2
    rw [h1, h2]
    dsimp only
    rw [e]
  · rw [List.getElem?_eq_none (by omega), List.getElem?_eq_none (by rw [← h.len]; omega)]

theorem mapM_words {β : Type} (F : ℕ → String → Except Fault β) (hF : ∀ i l l', words l = words l' → F i l = F i l') :
    ∀ (L L' : List String) (n : ℕ), L.map words = L'.map words → (L.zipIdx n).mapM (fun p => F p.2 p.1) = (L'.zipIdx n).mapM fun p => F p.2 p.1 := by
  intro L
  induction L with
  | nil =>
    intro L' n h
    rw [List.map_nil, eq_comm, List.map_eq_nil_iff] at h
    rw [h]
  | cons l L ih =>
    intro L' n h
    cases L' with
    | nil => simp at h
    | cons l' L' =>
      rw [List.map_cons, List.map_cons, List.cons.injEq] at h
      rw [List.zipIdx_cons, List.zipIdx_cons, List.mapM_cons, List.mapM_cons, ih L' (n + 1) h.2]
      dsimp only
      rw [hF n l l' h.1]

/-- **C111.**  Two dump files with the same fields in every line give the same System or the same exception, whatever whitespace separates the fields, and whatever
the title lines and the timestep are. -/
theorem C111_layout (C : Codec) (s : System) (f g : List String) (keys : List String) (h : Spec.SameFields f g) :
    s.readDump C (some f) keys = s.readDump C (some g) keys := by
  have e3 : atLine f 3 (fun l => C.readInt (strip l)) = atLine g 3 fun l => C.readInt (strip l) := by
    refine h.atLine _ 3 fun l l' hl hl' => ?_
    obtain ⟨w, h1, h2⟩ := h.count l l' hl hl'
    have a1 := strip_layout h1
    have a2 := strip_layout h2
    rw [String.ofList_toList] at a1 a2
    rw [a1, a2]
  have eb : ∀ i, 5 ≤ i → atLine f i C.readBounds = atLine g i C.readBounds := by
    intro i hi
    refine h.atLine _ i fun l l' hl hl' => ?_
    unfold Codec.readBounds
    rw [h.words hi hl hl']
  have e8 : atLine f 8 (readHeader keys) = atLine g 8 (readHeader keys) := by
    refine h.atLine _ 8 fun l l' hl hl' => ?_
    unfold readHeader
    rw [h.words (by omega) hl hl']
  have hdrop : (f.drop 9).map words = (g.drop 9).map words := by
    refine List.ext_getElem? fun i => ?_
    rw [List.getElem?_map, List.getElem?_map, List.getElem?_drop, List.getElem?_drop]
    by_cases hi : 9 + i < f.length
    · have h1 := List.getElem?_eq_getElem hi
      have h2 := List.getElem?_eq_getElem (show 9 + i < g.length by rw [← h.len]; exact hi)
      rw [h1, h2, Option.map_some, Option.map_some, h.words (by omega) h1 h2]
    · rw [List.getElem?_eq_none (by omega), List.getElem?_eq_none (by rw [← h.len]; omega)]
  have er : ∀ n hd, C.readRows keys f n hd = C.readRows keys g n hd := by
    intro n hd
    unfold Codec.readRows
    cases n with
    | none => rfl
    | some n =>
      cases hd with
      | none => rfl
      | some hd =>
        refine mapM_words (fun i l => C.readRow hd.1 keys (i + 1) l) (fun i l l' hl => ?_) _ _ 0 ?_
        · unfold Codec.readRow
          rw [hl]
        · unfold dumpRows
          split_ifs
          · rw [List.map_take, List.map_take, hdrop]
          · exact hdrop
  have hsnap : C.readSnap f keys = C.readSnap g keys := by
    unfold Codec.readSnap
    simp only [e3, eb 5 (by omega), eb 6 (by omega), eb 7 (by omega), e8, er]
  unfold System.readDump
  dsimp only
  rw [hsnap]

/-- The fields, each followed by `c`. -/
def spaced (c : Char) (ws : List (List Char)) : List Char := (ws.map fun w => w ++ [c]).flatten

theorem layout_spaced (c : Char) (hc : Spec.Space c) (ws : List (List Char)) (h : ∀ w ∈ ws, Spec.Field w) : Spec.Layout (ws.map String.ofList) (spaced c ws) := by
  induction ws with
  | nil => exact .blank [] (by simp)
  | cons w ws ih =>
    have := Spec.Layout.next [] w c _ _ (by simp) (h w (by simp)) hc (ih fun v hv => h v (by simp [hv]))
    rw [List.nil_append] at this
    have e : spaced c (w :: ws) = w ++ c :: spaced c ws := by simp [spaced]
    rw [e, List.map_cons]
    exact this

/-- A dump file with one atom, fields followed by `c`. -/
def smallFile (c : Char) (title : String) : List String :=
  [title, title, title, String.ofList (spaced c [['1']]), title, String.ofList (spaced c [['0'], ['9']]), String.ofList (spaced c [['0'], ['9']]),
    String.ofList (spaced c [['0'], ['9']]), String.ofList (spaced c ["ITEM:".toList, "ATOMS".toList, "id".toList, "type".toList, "x".toList, "y".toList, "z".toList]),
    String.ofList (spaced c [['1'], ['2'], ['3'], ['4'], ['5']])]

/-- The file with blanks and the file with tabs, with different titles, have the same fields. -/
example (C : Codec) (s : System) : smallFile ' ' "a" ≠ smallFile '\t' "b" ∧ s.readDump C (some (smallFile ' ' "a")) [] = s.readDump C (some (smallFile '\t' "b")) [] := by
  refine ⟨by decide, C111_layout C s _ _ [] ⟨rfl, ?_, ?_⟩⟩
  · intro l l' hl hl'
    obtain rfl := Option.some.inj hl
    obtain rfl := Option.some.inj hl'
    rw [String.toList_ofList, String.toList_ofList]
    have hf : ∀ w ∈ [['1']], Spec.Field w := by unfold Spec.Field Spec.Space; decide
    exact ⟨_, layout_spaced ' ' (by unfold Spec.Space; decide) [['1']] hf, layout_spaced '\t' (by unfold Spec.Space; decide) [['1']] hf⟩
  · intro i l l' hi hl hl'
    have key : ∀ ws : List (List Char), (∀ w ∈ ws, Spec.Field w) → l = String.ofList (spaced ' ' ws) → l' = String.ofList (spaced '\t' ws) →
        ∃ vs, Spec.Layout vs l.toList ∧ Spec.Layout vs l'.toList := by
      rintro ws hf rfl rfl
      rw [String.toList_ofList, String.toList_ofList]
      exact ⟨_, layout_spaced ' ' (by unfold Spec.Space; decide) ws hf, layout_spaced '\t' (by unfold Spec.Space; decide) ws hf⟩
    have hlt : i < 10 := (List.getElem?_eq_some_iff.1 hl).1
    have hcase : i = 5 ∨ i = 6 ∨ i = 7 ∨ i = 8 ∨ i = 9 := by omega
    rcases hcase with rfl | rfl | rfl | rfl | rfl <;>
      exact key _ (by unfold Spec.Field Spec.Space; decide) (Option.some.inj hl).symm (Option.some.inj hl').symm

end Pyscal
