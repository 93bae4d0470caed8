import Verif.Props.AseTrajectory

/-! More on files: missing columns (C41), values that are not numbers (C42), uneven rows (C46). -/

namespace Pyscal

open Spec

theorem headerIdx_absent {cols : List String} {k : String} (h : k ∉ cols) (h1 : k ≠ "ITEM:") (h2 : k ≠ "ATOMS") : headerIdx ("ITEM:" :: "ATOMS" :: cols) k = none :=
  headerIdx_none (by simp only [List.mem_cons]; tauto)

/-- **C41, missing identity columns**: a dump with coordinates but without a column `id`, or with ids and without a column `type`, raises
KeyError as soon as it has a row. -/
theorem C41_missing (C : Codec) (lines cols : List String) (rows : List (String → String)) (bx by' bz : ℝ × ℝ) (h : DumpFile C lines cols rows bx by' bz none)
    (hx : "x" ∈ cols) (f : String → String) (hf : rows[0]? = some f)
    (hmiss : "id" ∉ cols ∨ "type" ∉ cols ∧ "id" ∈ cols ∧ (C.int (f "id")).isSome) : C.readSnap lines [] = .error .keyError := by
  obtain ⟨l3, h3, e3⟩ := h.count
  obtain ⟨l5, h5, e5⟩ := h.xline
  obtain ⟨l6, h6, e6⟩ := h.yline
  obtain ⟨l7, h7, e7⟩ := h.zline
  obtain ⟨l8, h8, e8⟩ := h.header
  have a3 : atLine lines 3 (fun l => C.readInt (strip l)) = .ok (some (rows.length : ℤ)) := atLine_ok h3 (by simp [Codec.readInt, e3])
  have a5 := atLine_ok (f := C.readBounds) h5 (readBounds_eq e5)
  have a6 := atLine_ok (f := C.readBounds) h6 (readBounds_eq e6)
  have a7 := atLine_ok (f := C.readBounds) h7 (readBounds_eq e7)
  have hh : readHeader [] l8 = .ok (headerIdx ("ITEM:" :: "ATOMS" :: cols), false) := by
    unfold readHeader
    simp only [e8]
    rw [if_neg (by simp), if_pos (headerIdx_isSome h.nodup hx)]
  have a8 := atLine_ok (f := readHeader []) h8 hh
  obtain ⟨hl1, hl2⟩ := rows_lines h
  have hpos : 0 < rows.length := (List.getElem?_eq_some_iff.1 hf).1
  have a9 : C.readRows [] lines (some (rows.length : ℤ)) (some (headerIdx ("ITEM:" :: "ATOMS" :: cols), false)) = .error .keyError := by
    unfold Codec.readRows
    simp only
    set R := dumpRows (rows.length : ℤ) lines with hR
    obtain ⟨r, R', hRR⟩ := List.exists_cons_of_length_pos (show 0 < R.length by omega)
    obtain ⟨f', hf', rest, hw⟩ := hl2 0 r (by rw [hRR]; rfl)
    obtain rfl := Option.some.inj (hf.symm.trans hf')
    rw [hRR, List.zipIdx_cons, List.mapM_cons]
    have : C.readRow (headerIdx ("ITEM:" :: "ATOMS" :: cols)) [] (0 + 1) r = .error .keyError := by
      unfold Codec.readRow
      rcases hmiss with hm | ⟨hm, hi, hn⟩
      · simp only [column, headerIdx_absent hm (by decide) (by decide), bind, Except.bind]
      · have hid : column (headerIdx ("ITEM:" :: "ATOMS" :: cols)) (words r) "id" = .ok (f "id") := by
          rw [hw]
          exact column_ok h.nodup f hi _ rfl rest
        obtain ⟨v, hv⟩ := Option.isSome_iff_exists.1 hn
        simp only [hid, bind, Except.bind, Codec.readInt, hv]
        simp only [column, headerIdx_absent hm (by decide) (by decide)]
    simp only [bind, Except.bind, this]
  unfold Codec.readSnap
  simp only [a3, a5, a6, a7, a8, bind, Except.bind, Option.map_none, tiltsOf, a9]

/-- The hypotheses can be met. -/
example : unaryCodec.readSnap (flatDump ["x", "y", "z", "id"] [fun _ => 1] (0, 5) (0, 6) (0, 7)) [] = .error .keyError := by
  have hw : ∀ c ∈ ["x", "y", "z", "id"], IsWord c := by
    intro c hc
    simp only [List.mem_cons, List.not_mem_nil, or_false] at hc
    rcases hc with rfl | rfl | rfl | rfl <;> exact word_lit _ (by decide)
  exact C41_missing unaryCodec _ _ _ _ _ _ (flatDump_file _ (by decide) hw _ _ _ _) (by decide) _ rfl (Or.inr ⟨by decide, by decide, by simp [unary_int]⟩)

theorem mapM_error_of {α β : Type} {g : α → Except Fault β} {e : Fault} : ∀ {l : List α}, (∀ x ∈ l, g x = .error e ∨ ∃ v, g x = .ok v) →
    (∃ x ∈ l, g x = .error e) → l.mapM g = .error e := by
  intro l
  induction l with
  | nil => rintro - ⟨x, hx, -⟩; simp at hx
  | cons a l ih =>
    rintro h ⟨x, hx, hxe⟩
    rw [List.mapM_cons]
    rcases h a (by simp) with he | ⟨v, hv⟩
    · rw [he]; rfl
    · rcases List.mem_cons.1 hx with rfl | hx
      · rw [hv] at hxe; cases hxe
      · rw [hv, ih (fun y hy => h y (by simp [hy])) ⟨x, hx, hxe⟩]; rfl

theorem readRow_error {C : Codec} {cols ck : List String} {scaled : Bool} (hn : cols.Nodup) (h : HasColumns cols ck scaled) {f : String → String}
    (hf : ¬ Numeric C (coordNames scaled).1 (coordNames scaled).2.1 (coordNames scaled).2.2 f) {line : String} {rest : List String} (hl : words line = cols.map f ++ rest) (loc : ℕ) :
    C.readRow (dictOf cols scaled) ck loc line = .error .valueError := by
  have c1 : column (dictOf cols scaled) (cols.map f ++ rest) "id" = .ok (f "id") := column_ok hn f h.id _ (by cases scaled <;> simp [dictOf]) rest
  have c2 : column (dictOf cols scaled) (cols.map f ++ rest) "type" = .ok (f "type") := column_ok hn f h.type _ (by cases scaled <;> simp [dictOf]) rest
  have c3 : column (dictOf cols scaled) (cols.map f ++ rest) "x" = .ok (f (coordNames scaled).1) := column_ok hn f h.cx _ (by cases scaled <;> simp [dictOf, coordNames]) rest
  have c4 : column (dictOf cols scaled) (cols.map f ++ rest) "y" = .ok (f (coordNames scaled).2.1) := column_ok hn f h.cy _ (by cases scaled <;> simp [dictOf, coordNames]) rest
  have c5 : column (dictOf cols scaled) (cols.map f ++ rest) "z" = .ok (f (coordNames scaled).2.2) := column_ok hn f h.cz _ (by cases scaled <;> simp [dictOf, coordNames]) rest
  unfold Codec.readRow
  simp only [hl, c1, c2, c3, c4, c5, bind, Except.bind, Codec.readInt, Codec.readFloat]
  rcases e1 : C.int (f "id") with _ | v1
  · rfl
  rcases e2 : C.int (f "type") with _ | v2
  · rfl
  rcases e3 : C.float (f (coordNames scaled).1) with _ | v3
  · rfl
  rcases e4 : C.float (f (coordNames scaled).2.1) with _ | v4
  · rfl
  rcases e5 : C.float (f (coordNames scaled).2.2) with _ | v5
  · rfl
  exact absurd ⟨by simp [e1], by simp [e2], by simp [e3], by simp [e4], by simp [e5]⟩ hf

/-- **C41, malformed numbers**: a snapshot with all columns that are needed raises ValueError if in some row the identifier or the type is not
an integer or a coordinate is not a number; nothing is read as a default value.  Orthogonal and triclinic boxes, plain and scaled coordinates. -/
theorem C41_malformed (C : Codec) (lines cols ck : List String) (rows : List (String → String)) (bx by' bz : ℝ × ℝ) (tilt : Option (ℝ × ℝ × ℝ))
    (scaled : Bool) (h : DumpFile C lines cols rows bx by' bz tilt)
    (hcols : ∀ k ∈ ["id", "type"] ++ ck, k ∈ cols) (hxyz : if scaled then "xs" ∈ cols ∧ "ys" ∈ cols ∧ "zs" ∈ cols ∧ "x" ∉ cols else "x" ∈ cols ∧ "y" ∈ cols ∧ "z" ∈ cols)
    (hck : scaled = true → ∀ k ∈ ck, k ∉ ["x", "y", "z", "xs", "ys", "zs"])
    (hbad : ∃ f ∈ rows, ¬ if scaled then Numeric C "xs" "ys" "zs" f else Numeric C "x" "y" "z" f) : C.readSnap lines ck = .error .valueError := by
  have hc : HasColumns cols ck scaled := by
    refine ⟨hcols _ (by simp), hcols _ (by simp), ?_, ?_, ?_, fun k hk => hcols k (by simp [hk]), ?_, hck⟩
    all_goals cases scaled
    all_goals simp at hxyz
    all_goals simp [coordNames, hxyz]
  obtain ⟨f0, hf0, hb0⟩ := hbad
  have hb0 : ¬ Numeric C (coordNames scaled).1 (coordNames scaled).2.1 (coordNames scaled).2.2 f0 := by
    cases scaled <;> simpa [coordNames] using hb0
  obtain ⟨l3, h3, e3⟩ := h.count
  obtain ⟨l5, h5, e5⟩ := h.xline
  obtain ⟨l6, h6, e6⟩ := h.yline
  obtain ⟨l7, h7, e7⟩ := h.zline
  obtain ⟨l8, h8, e8⟩ := h.header
  have a3 : atLine lines 3 (fun l => C.readInt (strip l)) = .ok (some (rows.length : ℤ)) := atLine_ok h3 (by simp [Codec.readInt, e3])
  have a5 := atLine_ok (f := C.readBounds) h5 (readBounds_eq e5)
  have a6 := atLine_ok (f := C.readBounds) h6 (readBounds_eq e6)
  have a7 := atLine_ok (f := C.readBounds) h7 (readBounds_eq e7)
  have a8 := atLine_ok (f := readHeader ck) h8 (readHeader_eq h.nodup hc e8)
  obtain ⟨hl1, hl2⟩ := rows_lines h
  have a9 : C.readRows ck lines (some (rows.length : ℤ)) (some (dictOf cols scaled, scaled)) = .error .valueError := by
    unfold Codec.readRows
    simp only
    set R := dumpRows (rows.length : ℤ) lines with hR
    refine mapM_error_of (fun p hp => ?_) ?_
    · obtain ⟨l, k⟩ := p
      have hk : R[k]? = some l := by
        have := List.mem_zipIdx_iff_getElem?.1 hp
        simpa using this
      obtain ⟨f, hf, rest, hw⟩ := hl2 k l hk
      by_cases hn : Numeric C (coordNames scaled).1 (coordNames scaled).2.1 (coordNames scaled).2.2 f
      · exact .inr ⟨_, readRow_eq h.nodup hc hn hw (k + 1)⟩
      · exact .inl (readRow_error h.nodup hc hn hw (k + 1))
    · obtain ⟨k, hk⟩ := List.mem_iff_getElem?.1 hf0
      have hkl : k < R.length := by rw [hl1]; exact (List.getElem?_eq_some_iff.1 hk).1
      obtain ⟨f, hf, rest, hw⟩ := hl2 k R[k] (List.getElem?_eq_getElem hkl)
      obtain rfl := Option.some.inj (hk.symm.trans hf)
      exact ⟨(R[k], k), List.mem_zipIdx_iff_getElem?.2 (by simp [hkl]), readRow_error h.nodup hc hb0 hw (k + 1)⟩
  unfold Codec.readSnap
  simp only [a3, a5, a6, a7, a8, bind, Except.bind]
  cases tilt with
  | none => simp only [Option.map_none, tiltsOf, a9]
  | some t => simp only [Option.map_some, tiltsOf, a9]

/-- A bounds line: the words in it must be numbers. -/
theorem readBounds_error {C : Codec} {line w : String} {ws : List String} (hw : words line = ws) (h2 : 2 ≤ ws.length)
    (hm : w ∈ (if ws.length = 3 then ws else ws.take 2)) (hn : C.float w = none) : C.readBounds line = .error .valueError := by
  unfold Codec.readBounds
  rw [hw]
  match ws, h2 with
  | w0 :: w1 :: rest, _ =>
    dsimp only
    simp only [Codec.readFloat, bind, Except.bind]
    rcases e0 : C.float w0 with _ | v0
    · rfl
    rcases e1 : C.float w1 with _ | v1
    · rfl
    have h0 : w ≠ w0 := by
      rintro rfl
      rw [e0] at hn; cases hn
    have h1 : w ≠ w1 := by
      rintro rfl
      rw [e1] at hn; cases hn
    match rest with
    | [w2] =>
      simp [h0, h1] at hm
      subst hm
      simp [hn]
    | [] => simp [h0, h1] at hm
    | _ :: _ :: _ => simp [h0, h1] at hm

/-- **C41, malformed numbers of atoms and bounds**: a file whose number of atoms is not an integer, or, with a proper number of atoms, a first box
line holds a bound or tilt that is not a number, raises ValueError. -/
theorem C41_malformed_head (C : Codec) (lines ck : List String) (l3 l5 : String) (h3 : lines[3]? = some l3) (h5 : lines[5]? = some l5)
    (hbad : C.int (strip l3) = none ∨ 2 ≤ (words l5).length ∧ ∃ w ∈ (if (words l5).length = 3 then words l5 else (words l5).take 2), C.float w = none) :
    C.readSnap lines ck = .error .valueError := by
  unfold Codec.readSnap atLine
  simp only [h3, bind, Except.bind, Codec.readInt]
  rcases e3 : C.int (strip l3) with _ | v3
  · rfl
  rcases hbad with hb | ⟨hb, w, hw, hn⟩
  · rw [e3] at hb; cases hb
  simp only [h5, readBounds_error rfl hb hw hn]
  rfl

/-- Conversions that do not know the number seven. -/
noncomputable def noSeven : Codec := { unaryCodec with float := fun s => open Classical in if s = unary 'a' 7 then none else unaryCodec.float s }

/-- The hypotheses can be met. -/
example : noSeven.readSnap (flatDump ["id", "type", "x", "y", "z"] [fun _ => 1, fun c => if c = "y" then 7 else 2] (0, 5) (0, 6) (0, 8)) [] = .error .valueError := by
  have hw : ∀ c ∈ ["id", "type", "x", "y", "z"], IsWord c := by
    intro c hc
    simp only [List.mem_cons, List.not_mem_nil, or_false] at hc
    rcases hc with rfl | rfl | rfl | rfl | rfl <;> exact word_lit _ (by decide)
  have h := flatDump_file ["id", "type", "x", "y", "z"] (by decide) hw [fun _ => 1, fun c => if c = "y" then 7 else 2] (0, 5) (0, 6) (0, 8)
  have fl : ∀ {w : String} {v : ℝ}, unaryCodec.float w = some v → v ≠ 7 → noSeven.float w = some v := by
    intro w v hv h7
    change (if w = unary 'a' 7 then none else unaryCodec.float w) = some v
    rw [if_neg, hv]
    rintro rfl
    rw [unary_float_a] at hv
    exact h7 (by rw [← Option.some.inj hv]; norm_num)
  have bd : ∀ {l : String} {b : ℝ × ℝ}, BoundsLine unaryCodec l b none → b.1 ≠ 7 → b.2 ≠ 7 → BoundsLine noSeven l b none := by
    rintro l b ⟨w0, w1, h0, h1, h2⟩ n0 n1
    refine ⟨w0, w1, fl h0 n0, fl h1 n1, ?_⟩
    rcases h2 with h2 | ⟨w2, t, ht, -⟩
    · exact .inl h2
    · cases ht
  obtain ⟨l5, h5, e5⟩ := h.xline
  obtain ⟨l6, h6, e6⟩ := h.yline
  obtain ⟨l7, h7, e7⟩ := h.zline
  have h' : DumpFile noSeven (flatDump ["id", "type", "x", "y", "z"] [fun _ => 1, fun c => if c = "y" then 7 else 2] (0, 5) (0, 6) (0, 8)) _ _ _ _ _ none :=
    ⟨h.count, ⟨l5, h5, bd e5 (by norm_num) (by norm_num)⟩, ⟨l6, h6, bd e6 (by norm_num) (by norm_num)⟩, ⟨l7, h7, bd e7 (by norm_num) (by norm_num)⟩,
      h.header, h.row, h.nodup⟩
  refine C41_malformed noSeven _ _ [] _ _ _ _ none false h' (by decide) (by decide) (by simp) ⟨_, List.mem_map.2 ⟨_, List.mem_cons_of_mem _ (List.mem_cons_self), rfl⟩, ?_⟩
  rintro ⟨-, -, -, hy, -⟩
  simp [noSeven] at hy

/-- Specification: how a value is printed in a dump. -/
def Spec.Printed (C : Codec) : Val → String → Prop
  | .text s, w => w = s
  | .num (some x), w => w = C.str x
  | .num none, w => w = "nan"

/-- **C42, other values, in part**: custom columns that are looked up when the file is written read back as the texts of the values; a value that
is not a number reads back as `nan`. -/
theorem C42_printed_partial {C : Codec} (hC : C.Lawful) (attr : String → Atom → Option Val) (s : System) (keys : List String) (t : ℤ)
    (atoms : List Atom) (hat : s.getAtoms = .ok atoms) (hn : keys.Nodup) (hk : ∀ k ∈ keys, IsWord k ∧ k ∉ ["id", "type", "x", "y", "z"])
    (vals : String → Atom → Val) (hv : ∀ a ∈ atoms, ∀ k ∈ keys, Lookup C attr a k (.ok (vals k a)))
    (hw : ∀ a ∈ atoms, ∀ k ∈ keys, ∀ w, Spec.Printed C (vals k a) w → IsWord w) :
    ∃ lines atoms' b, C.writeSnap attr s keys none t = .ok lines ∧ C.readSnap lines keys = .ok (atoms', b, false) ∧
      List.Forall₂ (fun a a' => ∀ k ∈ keys, ∃ w, dictGet a'.custom k = some w ∧ Spec.Printed C (vals k a) w) atoms atoms' := by
  have hshow : ∀ v, Spec.Printed C v (C.showVal v) := by
    intro v
    match v with
    | .text s => rfl
    | .num (some x) => rfl
    | .num none => rfl
  set texts := atoms.map fun a => keys.map fun k => C.showVal (vals k a) with htexts
  have hrows : C.customRows attr atoms keys none = .ok texts := by
    unfold Codec.customRows
    split_ifs with h0
    · subst h0; simp [htexts]
    · simp only
      rw [mapM_ok_map _ (fun a => keys.map fun k => C.showVal (vals k a))]
      intro a ha
      have : C.getCustom attr a keys = .ok (keys.map fun k => vals k a) := by
        rw [(C50_lookup C attr a keys).2.1, List.forall₂_map_right_iff, List.forall₂_same]
        exact fun k hk => hv a ha k hk
      simp only [this, bind, Except.bind, pure, Except.pure, List.map_map]
      rfl
  have hlen : texts.length = atoms.length := by simp [htexts]
  obtain ⟨lines, hwr, hW⟩ := written_of_write (t := t) (vals := none) hC hat hrows hlen (by
    intro cs hcs
    obtain ⟨a, ha, rfl⟩ := List.mem_map.1 hcs
    refine ⟨by simp, fun c hc => ?_⟩
    obtain ⟨k, hk', rfl⟩ := List.mem_map.1 hc
    exact hw a ha k hk' _ (hshow _))
  obtain ⟨atoms', lx, ly, lz, hr, -, -, -, hl, hatoms⟩ := read_written hC hW hn hk
  refine ⟨lines, atoms', _, hwr, hr, ?_⟩
  rw [List.forall₂_iff_get]
  refine ⟨hl.symm, fun i h1 h2 k hkk => ?_⟩
  obtain ⟨a', ha', -, -, -, -, -, q⟩ := hatoms i _ (keys.map fun k => C.showVal (vals k atoms[i])) (List.getElem?_eq_getElem h1) (by
    rw [htexts, List.getElem?_map, List.getElem?_eq_getElem h1]; rfl)
  have he : atoms'[i] = a' := by
    rw [List.getElem?_eq_getElem (show i < atoms'.length from h2)] at ha'
    exact Option.some.inj ha'
  obtain ⟨j, hj⟩ := List.mem_iff_getElem?.1 hkk
  refine ⟨C.showVal (vals k atoms[i]), ?_, hshow _⟩
  simp only [List.get_eq_getElem, he]
  exact q j k _ hj (by simp [hj])

/-- The hypotheses can be met: an atom whose angular criterion is a number and one whose criterion is not. -/
example : ∃ (s : System) (lines : List String) (a b : Atom) (bx : Mat3), unaryCodec.writeSnap (fun k a => if k = "chi" then some (.num (fdiv 1 a.pos.x)) else none) s ["chi"] none 0 = .ok lines ∧
    unaryCodec.readSnap lines ["chi"] = .ok ([a, b], bx, false) ∧ dictGet a.custom "chi" = some (unaryCodec.str 1) ∧ dictGet b.custom "chi" = some "nan" := by
  set B : Mat3 := Spec.diagBox 4 4 4 with hB
  set l : List Atom := [{ pos := ⟨1, 1, 1⟩, id := 1 }, { pos := ⟨0, 1, 1⟩, id := 2 }] with hl
  set s1 : System := { System.init with box := B } with hs1
  have hsk : Spec.Skew s1.getBox → s1.getBox.det ≠ 0 := fun h => absurd ((skewed_iff _).2 h) (not_skewed_diag _ _ _)
  have hgb : s1.getBox = Spec.diagBox 4 4 4 := rfl
  obtain ⟨s, h2⟩ := C05_assign_succeeds s1 l (by simp [hl]) (by rw [hgb]; norm_num [boxSum, Spec.diagBox]) hsk
  have hreal : ∀ a ∈ l, a.ghost = false := by simp [hl]
  have hga := (C05_assign_atoms s1 s _ hreal h2).1
  obtain ⟨lines, atoms', bx, hw, hr, hF⟩ := C42_printed_partial unary_lawful (fun k a => if k = "chi" then some (.num (fdiv 1 a.pos.x)) else none) s ["chi"] 0 l hga
    (by simp) (by
      intro k hk
      obtain rfl := List.mem_singleton.1 hk
      exact ⟨word_lit _ (by decide), by decide⟩) (fun _ a => .num (fdiv 1 a.pos.x)) (by
      intro a ha k hk
      obtain rfl := List.mem_singleton.1 hk
      refine Lookup.attr _ ?_ (by simp)
      simp only [hl, List.mem_cons, List.not_mem_nil, or_false] at ha
      rcases ha with rfl | rfl <;> rfl) (by
      intro a ha k hk w hw
      cases h : fdiv 1 a.pos.x with
      | none => rw [h] at hw; rw [show w = "nan" from hw]; exact word_lit _ (by decide)
      | some x => rw [h] at hw; rw [show w = unaryCodec.str x from hw]; exact unary_word (by decide) _)
  obtain ⟨a, t1, ha, ht, rfl⟩ := List.forall₂_cons_left_iff.1 hF
  obtain ⟨b, t2, hb, ht2, rfl⟩ := List.forall₂_cons_left_iff.1 ht
  obtain rfl := List.forall₂_nil_left_iff.1 ht2
  obtain ⟨w, hw1, hw2⟩ := ha "chi" (by simp)
  obtain ⟨v, hv1, hv2⟩ := hb "chi" (by simp)
  simp only [fdiv, one_ne_zero, if_false, div_one, Spec.Printed] at hw2
  simp only [fdiv, if_true, Spec.Printed] at hv2
  exact ⟨s, lines, a, b, bx, hw, hr, by rw [hw1, hw2], by rw [hv1, hv2]⟩

/-- **C46, uneven rows**: a frame in which a row holds another number of values than the first one cannot be loaded: ValueError, and nothing is
loaded. -/
theorem C46_uneven (C : Codec) (t : Traj) (k : ℤ) (lines : List String) (hblock : t.getBlock k = .ok lines) (box : List (List ℝ)) (w : ℕ) (hw : 0 < w)
    (hbw : ∀ r ∈ box, r.length = w) (hbox : List.Forall₂ (fun l r => (words l).map C.float = r.map some) ((lines.drop 5).take 3) box)
    (rows : List (List ℝ)) (hne : ∀ r ∈ rows, r ≠ []) (hrows : List.Forall₂ (fun l r => (words l).map C.float = r.map some) (lines.drop 9) rows)
    (i j : ℕ) (r r' : List ℝ) (hi : rows[i]? = some r) (hj : rows[j]? = some r') (hrr : r.length ≠ r'.length) :
    C.load t k = .error .valueError := by
  have e1 : C.loadRows ((lines.drop 5).take 3) = .ok box := loadRows_eq hw hbw hbox
  have e2 : C.loadRows (lines.drop 9) = .error .valueError := by
    have h1 : (((lines.drop 9).map words).filter fun ws => ws ≠ []) = (lines.drop 9).map words := by
      rw [List.filter_eq_self]
      generalize lines.drop 9 = ls at hrows
      clear hi hj
      induction hrows with
      | nil => simp
      | @cons l r ls rs ha _ ih =>
        intro ws hws
        rw [List.map_cons] at hws
        rcases List.mem_cons.1 hws with rfl | hws
        · simp only [ne_eq, decide_not, Bool.not_eq_true', decide_eq_false_iff_not]
          intro e
          rw [e] at ha
          exact hne r List.mem_cons_self (by simpa using ha.symm)
        · exact ih (fun x hx => hne x (List.mem_cons_of_mem _ hx)) ws hws
    have h2 : (((lines.drop 9).map words).mapM fun ws => ws.mapM C.readFloat) = .ok rows := by
      clear h1 hne hi hj
      generalize lines.drop 9 = ls at hrows
      induction hrows with
      | nil => rfl
      | cons ha _ ih =>
        rw [List.map_cons, List.mapM_cons, ih]
        simp only [mapM_readFloat ha, bind, Except.bind, pure, Except.pure]
    unfold Codec.loadRows
    rw [h1, h2]
    cases rows with
    | nil => simp at hi
    | cons r0 rest =>
      simp only [bind, Except.bind]
      rw [if_neg]
      intro hall
      have hlen : ∀ x ∈ r0 :: rest, x.length = r0.length := by
        intro x hx
        rcases List.mem_cons.1 hx with rfl | hx
        · rfl
        · exact hall x hx
      exact hrr ((hlen r (List.mem_of_getElem? hi)).trans (hlen r' (List.mem_of_getElem? hj)).symm)
  unfold Codec.load Codec.loadBlock
  simp only [hblock, e1, e2, bind, Except.bind]

/-- The hypotheses can be met: a frame of two atoms, the second row of which is cut short. -/
example : ∃ t : Traj, t.nblocks = 1 ∧ unaryCodec.load t 0 = .error .valueError := by
  set b : String := textLine [unary 'a' 0, unary 'a' 5] with hb
  set f : List String := ["", "", "", textLine [unary 'a' 2], "", b, b, b, "ITEM: ATOMS id type\n", textLine [unary 'a' 1, unary 'a' 1], textLine [unary 'a' 2]] with hf
  set t : Traj := { lines := f, natoms := 2, loadlist := [], data := [] } with ht
  have hT : TrajOf t 2 [f] [] := ⟨rfl, by simp [ht], by simp [hf], by simp⟩
  have hblock : t.getBlock 0 = .ok f := by simpa using getBlock_nat hT (k := 0) (by simp)
  have hw : ∀ l : List ℤ, (words (textLine (l.map (unary 'a')))).map unaryCodec.float = (l.map fun n : ℤ => (n : ℝ)).map some := by
    intro l
    rw [words_textLine _ (by
      intro w hw
      obtain ⟨n, -, rfl⟩ := List.mem_map.1 hw
      exact unary_word (by decide) _), List.map_map, List.map_map]
    exact List.map_congr_left fun n _ => unary_float_a n
  refine ⟨t, by simpa using hT.nblocks, C46_uneven unaryCodec t 0 f hblock [[0, 5].map fun n : ℤ => (n : ℝ), [0, 5].map fun n : ℤ => (n : ℝ), [0, 5].map fun n : ℤ => (n : ℝ)] 2 (by decide)
    (by simp) ?_ [[1, 1].map fun n : ℤ => (n : ℝ), [2].map fun n : ℤ => (n : ℝ)] (by simp) ?_ 0 1 _ _ rfl rfl (by simp)⟩
  · exact .cons (hw [0, 5]) (.cons (hw [0, 5]) (.cons (hw [0, 5]) .nil))
  · exact .cons (hw [1, 1]) (.cons (hw [2]) .nil)

end Pyscal
