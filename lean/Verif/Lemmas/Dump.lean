import Verif.Model.Dump
import Verif.Spec.Dump
import Verif.Lemmas.Text
import Verif.Lemmas.Centro

/-! Lemmas about the dump reader. -/

namespace Pyscal

open Spec (DumpFile BoundsLine Numeric)

theorem find_last {n j : ℕ} (P : ℕ → Bool) (hj : j < n) (hP : P j = true) (hlast : ∀ x, j < x → x < n → P x = false) :
    (List.range n).reverse.find? P = some j := by
  induction n with
  | zero => omega
  | succ n ih =>
    rw [List.range_succ, List.reverse_append, List.reverse_singleton, List.singleton_append]
    by_cases hjn : j = n
    · subst hjn; rw [List.find?_cons_of_pos hP]
    · rw [List.find?_cons_of_neg (by rw [hlast n (by omega) (by omega)]; simp)]
      exact ih (by omega) fun x h1 h2 => hlast x h1 (by omega)

theorem headerIdx_some {cols : List String} (hn : cols.Nodup) {j : ℕ} {k : String} (hj : cols[j]? = some k) :
    headerIdx ("ITEM:" :: "ATOMS" :: cols) k = some (j : ℤ) := by
  unfold headerIdx
  obtain ⟨hlt, hk⟩ := List.getElem?_eq_some_iff.1 hj
  rw [find_last (j := j + 2) _ (by simp; omega) (by simp [hj])]
  · simp
  · intro x h1 h2
    simp only [List.length_cons] at h2
    obtain ⟨y, rfl⟩ : ∃ y, x = y + 2 := ⟨x - 2, by omega⟩
    simp only [List.getElem?_cons_succ, decide_eq_false_iff_not]
    intro hy
    obtain ⟨hy1, hy2⟩ := List.getElem?_eq_some_iff.1 hy
    have := (List.Nodup.getElem_inj_iff hn).1 (hy2.trans hk.symm)
    omega

theorem headerIdx_none {raw : List String} {k : String} (h : k ∉ raw) : headerIdx raw k = none := by
  unfold headerIdx
  rw [List.find?_eq_none.2, Option.map_none]
  intro x _ hx
  simp only [decide_eq_true_eq] at hx
  exact h (List.mem_of_getElem? hx)

theorem mem_getElem? {α : Type} {l : List α} {a : α} (h : a ∈ l) : ∃ j : ℕ, l[j]? = some a := List.mem_iff_getElem?.1 h

/-- Reading a column of a row. -/
theorem column_ok {cols : List String} (hn : cols.Nodup) (f : String → String) {k : String} (hk : k ∈ cols) (hd : String → Option ℤ) {k' : String}
    (hhd : hd k' = headerIdx ("ITEM:" :: "ATOMS" :: cols) k) (rest : List String) : column hd (cols.map f ++ rest) k' = .ok (f k) := by
  obtain ⟨j, hj⟩ := mem_getElem? hk
  obtain ⟨hlt, hjk⟩ := List.getElem?_eq_some_iff.1 hj
  unfold column
  rw [hhd, headerIdx_some hn hj]
  have : pyItem (cols.map f ++ rest) (j : ℤ) = some (f k) := by
    rw [pyItem_nat (by simp; omega)]
    rw [List.getElem_append_left (by simpa using hlt)]
    simp [hjk]
  simp [this]

/-- The names of the coordinate columns. -/
def coordNames : Bool → String × String × String
  | false => ("x", "y", "z")
  | true => ("xs", "ys", "zs")

/-- The atom made from a row, before the last step. -/
noncomputable def rowAtom (C : Codec) (scaled : Bool) (ck : List String) (loc : ℕ) (f : String → String) : Atom :=
  { pos := ⟨(C.float (f (coordNames scaled).1)).getD 0, (C.float (f (coordNames scaled).2.1)).getD 0, (C.float (f (coordNames scaled).2.2)).getD 0⟩,
    id := (C.int (f "id")).getD 0, type := (C.int (f "type")).getD 0, loc := loc,
    custom := ck.foldl (fun d k => dictSet d k (f k)) [] }

/-- The header dictionary used for the rows. -/
def dictOf (cols : List String) (scaled : Bool) : String → Option ℤ :=
  let hd := headerIdx ("ITEM:" :: "ATOMS" :: cols)
  if scaled then fun k => if k = "x" then hd "xs" else if k = "y" then hd "ys" else if k = "z" then hd "zs"
      else if k = "xs" then none else if k = "ys" then none else if k = "zs" then none else hd k
  else hd

/-- The columns needed, and no confusion between scaled coordinates and requested columns. -/
structure HasColumns (cols ck : List String) (scaled : Bool) : Prop where
  id : "id" ∈ cols
  type : "type" ∈ cols
  cx : (coordNames scaled).1 ∈ cols
  cy : (coordNames scaled).2.1 ∈ cols
  cz : (coordNames scaled).2.2 ∈ cols
  keys : ∀ k ∈ ck, k ∈ cols
  noX : scaled = true → "x" ∉ cols
  noCoord : scaled = true → ∀ k ∈ ck, k ∉ ["x", "y", "z", "xs", "ys", "zs"]

theorem headerIdx_isSome {cols : List String} (hn : cols.Nodup) {k : String} (hk : k ∈ cols) :
    (headerIdx ("ITEM:" :: "ATOMS" :: cols) k).isSome = true := by
  obtain ⟨j, hj⟩ := mem_getElem? hk
  rw [headerIdx_some hn hj]; rfl

theorem readHeader_eq {cols ck : List String} {scaled : Bool} (hn : cols.Nodup) (h : HasColumns cols ck scaled) {line : String}
    (hl : words line = "ITEM:" :: "ATOMS" :: cols) : readHeader ck line = .ok (dictOf cols scaled, scaled) := by
  unfold readHeader
  simp only [hl]
  have h1 : ¬ (ck.any (fun k => (headerIdx ("ITEM:" :: "ATOMS" :: cols) k).isNone) = true) := by
    intro hc
    obtain ⟨k, hk, hk2⟩ := List.any_eq_true.1 hc
    have := headerIdx_isSome hn (h.keys k hk)
    cases hh : headerIdx ("ITEM:" :: "ATOMS" :: cols) k with
    | none => rw [hh] at this; simp at this
    | some v => rw [hh] at hk2; simp at hk2
  rw [if_neg h1]
  cases scaled with
  | false =>
    rw [if_pos (show (headerIdx ("ITEM:" :: "ATOMS" :: cols) "x").isSome = true from headerIdx_isSome hn h.cx)]
    rfl
  | true =>
    have hx : headerIdx ("ITEM:" :: "ATOMS" :: cols) "x" = none := headerIdx_none (by simp [h.noX rfl])
    have hy := headerIdx_isSome hn h.cy
    have hz := headerIdx_isSome hn h.cz
    rw [hx, if_neg (by simp), if_pos (show (headerIdx ("ITEM:" :: "ATOMS" :: cols) "xs").isSome = true from headerIdx_isSome hn h.cx)]
    rw [if_neg, if_neg]
    · rfl
    · intro hc; rw [Option.isNone_iff_eq_none] at hc; simp only [coordNames] at hz; rw [hc] at hz; simp at hz
    · intro hc; rw [Option.isNone_iff_eq_none] at hc; simp only [coordNames] at hy; rw [hc] at hy; simp at hy

theorem map_mapIdx {α β γ : Type} (g : β → γ) (f : ℕ → α → β) (l : List α) : (l.mapIdx f).map g = l.mapIdx fun i a => g (f i a) := by
  apply List.ext_getElem
  · simp
  · intro i h1 h2; simp

theorem zip_map_self {α β : Type} (l : List α) (f : α → β) : l.zip (l.map f) = l.map fun a => (a, f a) := by
  induction l with
  | nil => rfl
  | cons a l ih => simp [ih]

theorem readRow_eq {C : Codec} {cols ck : List String} {scaled : Bool} (hn : cols.Nodup) (h : HasColumns cols ck scaled) {f : String → String}
    (hf : Numeric C (coordNames scaled).1 (coordNames scaled).2.1 (coordNames scaled).2.2 f) {line : String} {rest : List String} (hl : words line = cols.map f ++ rest) (loc : ℕ) :
    C.readRow (dictOf cols scaled) ck loc line = .ok (rowAtom C scaled ck loc f) := by
  obtain ⟨f1, f2, f3, f4, f5⟩ := hf
  obtain ⟨v1, e1⟩ := Option.isSome_iff_exists.1 f1
  obtain ⟨v2, e2⟩ := Option.isSome_iff_exists.1 f2
  obtain ⟨v3, e3⟩ := Option.isSome_iff_exists.1 f3
  obtain ⟨v4, e4⟩ := Option.isSome_iff_exists.1 f4
  obtain ⟨v5, e5⟩ := Option.isSome_iff_exists.1 f5
  have c1 : column (dictOf cols scaled) (cols.map f ++ rest) "id" = .ok (f "id") := column_ok hn f h.id _ (by cases scaled <;> simp [dictOf]) rest
  have c2 : column (dictOf cols scaled) (cols.map f ++ rest) "type" = .ok (f "type") := column_ok hn f h.type _ (by cases scaled <;> simp [dictOf]) rest
  have c3 : column (dictOf cols scaled) (cols.map f ++ rest) "x" = .ok (f (coordNames scaled).1) := column_ok hn f h.cx _ (by cases scaled <;> simp [dictOf, coordNames]) rest
  have c4 : column (dictOf cols scaled) (cols.map f ++ rest) "y" = .ok (f (coordNames scaled).2.1) := column_ok hn f h.cy _ (by cases scaled <;> simp [dictOf, coordNames]) rest
  have c5 : column (dictOf cols scaled) (cols.map f ++ rest) "z" = .ok (f (coordNames scaled).2.2) := column_ok hn f h.cz _ (by cases scaled <;> simp [dictOf, coordNames]) rest
  have c6 : (ck.mapM fun k => column (dictOf cols scaled) (cols.map f ++ rest) k) = .ok (ck.map f) := by
    refine mapM_ok_map _ f ck fun k hk => column_ok hn f (h.keys k hk) _ ?_ rest
    cases scaled with
    | false => simp [dictOf]
    | true =>
      have := h.noCoord rfl k hk
      simp only [List.mem_cons, List.not_mem_nil, or_false, not_or] at this
      simp [dictOf, this]
  unfold Codec.readRow
  simp only [hl, c1, c2, c3, c4, c5, c6, bind, Except.bind, Codec.readInt, Codec.readFloat, e1, e2, e3, e4, e5, pure, Except.pure]
  unfold rowAtom
  rw [e1, e2, e3, e4, e5, zip_map_self, List.foldl_map]
  rfl

theorem readBounds_eq {C : Codec} {line : String} {b : ℝ × ℝ} {tilt : Option ℝ} (h : BoundsLine C line b tilt) :
    C.readBounds line = .ok (b.1, b.2, tilt) := by
  obtain ⟨w0, w1, h0, h1, h2⟩ := h
  unfold Codec.readBounds
  rcases h2 with ⟨rfl, hw⟩ | ⟨w2, t, rfl, ht, hw⟩
  · simp only [hw, Codec.readFloat, h0, h1, bind, Except.bind, pure, Except.pure]
  · simp only [hw, Codec.readFloat, h0, h1, ht, bind, Except.bind, pure, Except.pure]

theorem atLine_ok {α : Type} {lines : List String} {i : ℕ} {l : String} {f : String → Except Fault α} {v : α} (hl : lines[i]? = some l) (hf : f l = .ok v) :
    atLine lines i f = .ok (some v) := by
  unfold atLine
  simp only [hl, hf, bind, Except.bind, pure, Except.pure]

/-- The cell of a snapshot. -/
noncomputable def dumpCell (bx by' bz : ℝ × ℝ) : Option (ℝ × ℝ × ℝ) → Mat3
  | none => orthoCell bx by' bz
  | some t => tricCell bx by' bz t.1 t.2.1 t.2.2

/-- The shift applied to the positions. -/
def dumpShift (bx by' bz : ℝ × ℝ) (tilt : Option (ℝ × ℝ × ℝ)) : Option V3 := tilt.map fun _ => ⟨bx.1, by'.1, bz.1⟩

theorem rows_lines {C : Codec} {lines cols : List String} {rows : List (String → String)} {bx by' bz : ℝ × ℝ} {tilt : Option (ℝ × ℝ × ℝ)}
    (h : DumpFile C lines cols rows bx by' bz tilt) : (dumpRows (rows.length : ℤ) lines).length = rows.length ∧
    ∀ (k : ℕ) (l : String), (dumpRows (rows.length : ℤ) lines)[k]? = some l → ∃ f, rows[k]? = some f ∧ ∃ rest, words l = cols.map f ++ rest := by
  unfold dumpRows
  rw [if_pos (by positivity), Int.toNat_natCast]
  have hlen : 9 + rows.length ≤ lines.length := by
    by_cases h0 : rows.length = 0
    · obtain ⟨l, hl, _⟩ := h.header
      have := (List.getElem?_eq_some_iff.1 hl).1
      omega
    · obtain ⟨l, _, hl, _⟩ := h.row (rows.length - 1) _ (List.getElem?_eq_getElem (by omega))
      have := (List.getElem?_eq_some_iff.1 hl).1
      omega
  refine ⟨by simp; omega, fun k l hk => ?_⟩
  have hkl : k < rows.length := by
    have := (List.getElem?_eq_some_iff.1 hk).1
    simp at this; omega
  obtain ⟨l', rest, hl', hw⟩ := h.row k _ (List.getElem?_eq_getElem hkl)
  refine ⟨rows[k], List.getElem?_eq_getElem hkl, rest, ?_⟩
  rw [List.getElem?_take_of_lt hkl, List.getElem?_drop, hl'] at hk
  rw [← Option.some.inj hk, hw]

theorem readRows_eq {C : Codec} {lines cols ck : List String} {rows : List (String → String)} {bx by' bz : ℝ × ℝ} {tilt : Option (ℝ × ℝ × ℝ)} {scaled : Bool}
    (h : DumpFile C lines cols rows bx by' bz tilt) (hc : HasColumns cols ck scaled)
    (hnum : ∀ f ∈ rows, Numeric C (coordNames scaled).1 (coordNames scaled).2.1 (coordNames scaled).2.2 f) :
    C.readRows ck lines (some (rows.length : ℤ)) (some (dictOf cols scaled, scaled)) = .ok (rows.mapIdx fun k f => rowAtom C scaled ck (k + 1) f) := by
  obtain ⟨hl1, hl2⟩ := rows_lines h
  unfold Codec.readRows
  simp only
  set R := dumpRows (rows.length : ℤ) lines with hR
  have key : (R.zipIdx.mapM fun p => C.readRow (dictOf cols scaled) ck (p.2 + 1) p.1) =
      .ok (R.zipIdx.map fun p => rowAtom C scaled ck (p.2 + 1) (rows.getD p.2 fun _ => "")) := by
    refine mapM_ok_map _ _ _ fun p hp => ?_
    obtain ⟨l, k⟩ := p
    have hk : R[k]? = some l := by
      have := List.mem_zipIdx_iff_getElem?.1 hp
      simpa using this
    obtain ⟨f, hf, rest, hw⟩ := hl2 k l hk
    have hg : rows.getD k (fun _ => "") = f := by rw [List.getD_eq_getElem?_getD, hf]; rfl
    simp only [hg]
    exact readRow_eq h.nodup hc (hnum f (List.mem_of_getElem? hf)) hw (k + 1)
  rw [key]
  congr 1
  apply List.ext_getElem
  · simp [hl1]
  · intro i h1 h2
    have hi : i < rows.length := by simpa using h2
    simp [hi]

/-- The exact result of reading a snapshot. -/
theorem readSnap_eq {C : Codec} {lines cols ck : List String} {rows : List (String → String)} {bx by' bz : ℝ × ℝ} {tilt : Option (ℝ × ℝ × ℝ)} {scaled : Bool}
    (h : DumpFile C lines cols rows bx by' bz tilt) (hc : HasColumns cols ck scaled)
    (hnum : ∀ f ∈ rows, Numeric C (coordNames scaled).1 (coordNames scaled).2.1 (coordNames scaled).2.2 f)
    (hdet : ∀ t, tilt = some t → (dumpCell bx by' bz tilt).transpose.det ≠ 0) :
    C.readSnap lines ck = .ok (rows.mapIdx (fun k f => placeAtom (dumpShift bx by' bz tilt) scaled (dumpCell bx by' bz tilt) (rowAtom C scaled ck (k + 1) f)),
      dumpCell bx by' bz tilt, tilt.isSome) := by
  obtain ⟨l3, h3, e3⟩ := h.count
  obtain ⟨l5, h5, e5⟩ := h.xline
  obtain ⟨l6, h6, e6⟩ := h.yline
  obtain ⟨l7, h7, e7⟩ := h.zline
  obtain ⟨l8, h8, e8⟩ := h.header
  have a3 : atLine lines 3 (fun l => C.readInt (strip l)) = .ok (some (rows.length : ℤ)) := atLine_ok h3 (by simp [Codec.readInt, e3])
  have a5 := atLine_ok (f := C.readBounds) h5 (readBounds_eq e5)
  have a6 := atLine_ok (f := C.readBounds) h6 (readBounds_eq e6)
  have a7 := atLine_ok (f := C.readBounds) h7 (readBounds_eq e7)
  have a8 := atLine_ok (f := readHeader ck) h8 (readHeader_eq h.nodup hc e8)
  have a9 := readRows_eq h hc hnum
  unfold Codec.readSnap
  simp only [a3, a5, a6, a7, a8, bind, Except.bind]
  cases tilt with
  | none =>
    simp only [Option.map_none, tiltsOf, a9, finishDump]
    simp only [map_mapIdx, dumpShift, dumpCell, Option.map_none, Option.isSome_none]
  | some t =>
    obtain ⟨xy, xz, yz⟩ := t
    have hd := hdet _ rfl
    simp only [dumpCell] at hd
    simp only [Option.map_some, tiltsOf, a9, finishDump]
    rw [if_neg hd]
    simp only [map_mapIdx, dumpShift, dumpCell, Option.map_some, Option.isSome_some]

end Pyscal
