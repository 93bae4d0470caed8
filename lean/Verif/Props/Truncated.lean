import Verif.Props.Dump

/-! C89: reading a dump file whose writing was interrupted. -/

namespace Pyscal

/-- The steps of `read_snap`. -/
theorem readSnap_steps {C : Codec} {lines ck : List String} {r : List Atom × Mat3 × Bool} :
    C.readSnap lines ck = .ok r ↔ ∃ natoms bx by' bz tilts head rows,
      atLine lines 3 (fun l => C.readInt (strip l)) = .ok natoms ∧ atLine lines 5 C.readBounds = .ok bx ∧ atLine lines 6 C.readBounds = .ok by' ∧
      atLine lines 7 C.readBounds = .ok bz ∧ tiltsOf bx by' bz = .ok tilts ∧ atLine lines 8 (readHeader ck) = .ok head ∧
      C.readRows ck lines natoms head = .ok rows ∧ finishDump rows bx by' bz tilts head = .ok r := by
  unfold Codec.readSnap
  constructor
  · intro h
    cases h3 : atLine lines 3 (fun l => C.readInt (strip l)) with
    | error e => rw [h3] at h; cases h
    | ok natoms =>
      cases h5 : atLine lines 5 C.readBounds with
      | error e => rw [h3, h5] at h; cases h
      | ok bx =>
        cases h6 : atLine lines 6 C.readBounds with
        | error e => rw [h3, h5, h6] at h; cases h
        | ok by' =>
          cases h7 : atLine lines 7 C.readBounds with
          | error e => rw [h3, h5, h6, h7] at h; cases h
          | ok bz =>
            cases ht : tiltsOf bx by' bz with
            | error e => rw [h3, h5, h6, h7] at h; simp only [bind, Except.bind, ht] at h; cases h
            | ok tilts =>
              cases h8 : atLine lines 8 (readHeader ck) with
              | error e => rw [h3, h5, h6, h7] at h; simp only [bind, Except.bind, ht, h8] at h; cases h
              | ok head =>
                cases hr : C.readRows ck lines natoms head with
                | error e => rw [h3, h5, h6, h7] at h; simp only [bind, Except.bind, ht, h8, hr] at h; cases h
                | ok rows =>
                  rw [h3, h5, h6, h7] at h
                  simp only [bind, Except.bind, ht, h8, hr] at h
                  exact ⟨natoms, bx, by', bz, tilts, head, rows, rfl, rfl, rfl, rfl, ht, rfl, hr, h⟩
  · rintro ⟨natoms, bx, by', bz, tilts, head, rows, h3, h5, h6, h7, ht, h8, hr, h⟩
    simp only [h3, h5, h6, h7, bind, Except.bind, ht, h8, hr, h]

theorem atLine_congr {α : Type} {l l' : List String} {i : ℕ} (h : l[i]? = l'[i]?) (f : String → Except Fault α) : atLine l i f = atLine l' i f := by
  unfold atLine
  rw [h]

theorem atLine_none {α : Type} {l : List String} {i : ℕ} (h : l.length ≤ i) (f : String → Except Fault α) : atLine l i f = .ok none := by
  unfold atLine
  rw [List.getElem?_eq_none h]

theorem mapM_take {α β : Type} (F : α → Except Fault β) : ∀ (l : List α) (m : List β) (k : ℕ), l.mapM F = .ok m → (l.take k).mapM F = .ok (m.take k) := by
  intro l
  induction l with
  | nil => intro m k h; rw [List.mapM_nil] at h; obtain rfl := Except.ok.inj h; simp [pure, Except.pure]
  | cons x l ih =>
    intro m k h
    rw [List.mapM_cons] at h
    cases hx : F x with
    | error e => rw [hx] at h; cases h
    | ok y =>
      cases hl : l.mapM F with
      | error e => rw [hx, hl] at h; cases h
      | ok ys =>
        rw [hx, hl] at h
        obtain rfl := Except.ok.inj h
        cases k with
        | zero => rfl
        | succ k =>
          rw [List.take_succ_cons, List.mapM_cons, hx, ih ys k hl]
          rfl

theorem dumpRows_take (n : ℤ) (lines : List String) (k : ℕ) (hk : 9 ≤ k) : dumpRows n (lines.take k) = (dumpRows n lines).take (k - 9) := by
  unfold dumpRows
  have h : (lines.take k).drop 9 = (lines.drop 9).take (k - 9) := by rw [List.drop_take]
  split_ifs
  · rw [h, List.take_take, List.take_take, min_comm]
  · rw [h]

theorem zipIdx_take {α : Type} : ∀ (l : List α) (k n : ℕ), (l.take k).zipIdx n = (l.zipIdx n).take k := by
  intro l
  induction l with
  | nil => intro k n; simp
  | cons x l ih =>
    intro k n
    cases k with
    | zero => rfl
    | succ k => simp [ih]

theorem finishDump_take {rows : List Atom} {bx by' bz : Option (ℝ × ℝ × Option ℝ)} {tilts : Option (ℝ × ℝ × ℝ)} {head : Option ((String → Option ℤ) × Bool)}
    {atoms : List Atom} {b : Mat3} {t : Bool} (h : finishDump rows bx by' bz tilts head = .ok (atoms, b, t)) (k : ℕ) :
    finishDump (rows.take k) bx by' bz tilts head = .ok (atoms.take k, b, t) ∧ atoms.length = rows.length ∧ head ≠ none := by
  unfold finishDump at h ⊢
  match bx, by', bz, tilts, head with
  | none, _, _, _, _ => cases h
  | some _, none, _, _, _ => cases h
  | some _, some _, none, _, _ => cases h
  | some _, some _, some _, none, none => cases h
  | some x, some y, some z, none, some hd =>
    dsimp only at h ⊢
    obtain ⟨rfl, h2⟩ := Prod.mk.inj (Except.ok.inj h)
    obtain ⟨rfl, rfl⟩ := Prod.mk.inj h2
    exact ⟨by rw [List.map_take], by simp, by simp⟩
  | some x, some y, some z, some (xy, xz, yz), none =>
    dsimp only at h
    split_ifs at h
  | some x, some y, some z, some (xy, xz, yz), some hd =>
    dsimp only at h ⊢
    split_ifs at h ⊢ with hd0
    obtain ⟨rfl, h2⟩ := Prod.mk.inj (Except.ok.inj h)
    obtain ⟨rfl, rfl⟩ := Prod.mk.inj h2
    exact ⟨by rw [List.map_take], by simp, by simp⟩

/-- **C89, what a cut file gives**: of every dump file that can be read, the first `k` lines can be read too once the nine
lines of the header are there, without any error; they give the first `k - 9` atoms and the same box. -/
theorem C89_cut (C : Codec) (lines ck : List String) (atoms : List Atom) (b : Mat3) (t : Bool) (h : C.readSnap lines ck = .ok (atoms, b, t)) (k : ℕ)
    (hk : 9 ≤ k) : C.readSnap (lines.take k) ck = .ok (atoms.take (k - 9), b, t) := by
  obtain ⟨natoms, bx, by', bz, tilts, head, rows, h3, h5, h6, h7, ht, h8, hr, hf⟩ := readSnap_steps.1 h
  have hl : ∀ i, i < 9 → (lines.take k)[i]? = lines[i]? := fun i hi => by rw [List.getElem?_take, if_pos (by omega)]
  refine readSnap_steps.2 ⟨natoms, bx, by', bz, tilts, head, rows.take (k - 9), ?_, ?_, ?_, ?_, ht, ?_, ?_, (finishDump_take hf _).1⟩
  · rw [atLine_congr (hl 3 (by omega)), h3]
  · rw [atLine_congr (hl 5 (by omega)), h5]
  · rw [atLine_congr (hl 6 (by omega)), h6]
  · rw [atLine_congr (hl 7 (by omega)), h7]
  · rw [atLine_congr (hl 8 (by omega)), h8]
  · unfold Codec.readRows at hr ⊢
    match natoms, head with
    | none, _ => obtain rfl := Except.ok.inj hr; simp
    | some _, none => obtain rfl := Except.ok.inj hr; simp
    | some n, some hd =>
      dsimp only at hr ⊢
      rw [dumpRows_take n lines k hk, zipIdx_take]
      exact mapM_take _ _ _ _ hr

/-- **C89, cut in the header**: a file that ends within its first nine lines raises, whatever the lines are (the last one
may be incomplete). -/
theorem C89_header (C : Codec) (s : System) (lines ck : List String) (h9 : lines.length ≤ 9) : ∃ e, s.readDump C (some lines) ck = .error e := by
  unfold System.readDump
  dsimp only
  cases h : C.readSnap lines ck with
  | error e => exact ⟨e, rfl⟩
  | ok r =>
    obtain ⟨atoms, b, t⟩ := r
    obtain ⟨natoms, bx, by', bz, tilts, head, rows, h3, h5, h6, h7, ht, h8, hr, hf⟩ := readSnap_steps.1 h
    have hrows : rows = [] := by
      unfold Codec.readRows at hr
      match natoms, head with
      | none, _ => exact (Except.ok.inj hr).symm
      | some _, none => exact (Except.ok.inj hr).symm
      | some n, some hd =>
        have : dumpRows n lines = [] := by
          unfold dumpRows
          rw [List.drop_eq_nil_of_le h9]
          simp
        dsimp only at hr
        rw [this] at hr
        exact (Except.ok.inj hr).symm
    have hat : atoms = [] := List.length_eq_zero_iff.1 (by rw [(finishDump_take hf 0).2.1, hrows]; rfl)
    subst hat
    simp only [bind, Except.bind]
    cases s.setBox b with
    | error e => exact ⟨e, rfl⟩
    | ok s1 => exact ⟨_, rfl⟩

/-- **C89, cut in a row**: a row with fewer words than a needed column requires raises. -/
theorem C89_row (C : Codec) (s : System) (lines cols ck : List String) (n : ℕ) (l3 l8 l : String) (h3 : lines[3]? = some l3) (hn : C.int (strip l3) = some (n : ℤ))
    (h8 : lines[8]? = some l8) (hw : words l8 = "ITEM:" :: "ATOMS" :: cols) (hd : cols.Nodup) (r : ℕ) (hrn : r < n) (hl : lines[9 + r]? = some l)
    (j : ℕ) (key : String) (hx : "x" ∈ cols) (hkey : key ∈ ["id", "type", "x", "y", "z"] ++ ck) (hj : cols[j]? = some key) (hshort : (words l).length ≤ j) :
    ∃ e, s.readDump C (some lines) ck = .error e := by
  unfold System.readDump
  dsimp only
  cases h : C.readSnap lines ck with
  | error e => exact ⟨e, rfl⟩
  | ok res =>
    exfalso
    obtain ⟨natoms, bx, by', bz, tilts, head, rows, k3, -, -, -, -, k8, hr, -⟩ := readSnap_steps.1 h
    have e3 : natoms = some (n : ℤ) := by
      unfold atLine at k3
      rw [h3] at k3
      simp only [Codec.readInt, hn, bind, Except.bind, pure, Except.pure] at k3
      exact (Except.ok.inj k3).symm
    have e8 : head = some (headerIdx ("ITEM:" :: "ATOMS" :: cols), false) := by
      unfold atLine at k8
      rw [h8] at k8
      dsimp only at k8
      cases hh : readHeader ck l8 with
      | error e => rw [hh] at k8; cases k8
      | ok v =>
        rw [hh] at k8
        obtain rfl := Except.ok.inj k8
        unfold readHeader at hh
        rw [hw] at hh
        dsimp only at hh
        rw [headerIdx_isSome hd hx, if_pos rfl] at hh
        split_ifs at hh
        exact congrArg some (Except.ok.inj hh).symm
    subst e3 e8
    unfold Codec.readRows at hr
    dsimp only at hr
    have hget : (dumpRows n lines).zipIdx[r]? = some (l, r) := by
      rw [List.getElem?_zipIdx]
      unfold dumpRows
      rw [if_pos (by omega), List.getElem?_take, if_pos (by omega), List.getElem?_drop, hl]
      simp
    obtain ⟨a, ha, -⟩ := (mapM_except _ _ _ hr).2 r _ hget
    have hcol : ∃ w, column (headerIdx ("ITEM:" :: "ATOMS" :: cols)) (words l) key = .ok w := by
      unfold Codec.readRow at ha
      simp only [bind, Except.bind] at ha
      have hb : ∀ {α : Type} (k : String) (f : String → Except Fault α) (v : α),
          Except.bind (column (headerIdx ("ITEM:" :: "ATOMS" :: cols)) (words l) k) f = .ok v →
            ∃ w, column (headerIdx ("ITEM:" :: "ATOMS" :: cols)) (words l) k = .ok w := by
        intro α k f v hv
        cases hc : column (headerIdx ("ITEM:" :: "ATOMS" :: cols)) (words l) k with
        | error e => rw [hc] at hv; cases hv
        | ok w => exact ⟨w, rfl⟩
      split at ha
      · cases ha
      rename_i v1 g1
      split at ha
      · cases ha
      rename_i v2 g2
      split at ha
      · cases ha
      rename_i v3 g3
      split at ha
      · cases ha
      rename_i v4 g4
      split at ha
      · cases ha
      rename_i v5 g5
      split at ha
      · cases ha
      rename_i v6 g6
      simp only [List.cons_append, List.nil_append, List.mem_cons] at hkey
      rcases hkey with rfl | rfl | rfl | rfl | rfl | hkey
      · exact hb _ C.readInt _ g1
      · exact hb _ C.readInt _ g2
      · exact hb _ C.readFloat _ g3
      · exact hb _ C.readFloat _ g4
      · exact hb _ C.readFloat _ g5
      · obtain ⟨i, hi⟩ := List.mem_iff_getElem?.1 hkey
        obtain ⟨w, hw', -⟩ := (mapM_except _ _ _ g6).2 i _ hi
        exact ⟨w, hw'⟩
    obtain ⟨w, hw'⟩ := hcol
    unfold column at hw'
    rw [headerIdx_some hd hj] at hw'
    have : pyItem (words l) (j : ℤ) = none := by
      unfold pyItem pyIdx
      rw [if_pos (by omega), if_neg (by omega)]
      rfl
    dsimp only at hw'
    rw [this] at hw'
    cases hw'

/-- **C89 is false**: every dump file written from a system with an orthogonal box, cut after any complete row, is read
without an error as a smaller system.  The number of atoms stated in the file is not compared with the number of rows. -/
theorem C89_false {C : Codec} (hC : C.Lawful) (attr : String → Atom → Option Val) (s : System) (keys : List String) (t : ℤ) (atoms : List Atom) (lx ly lz : ℝ)
    (hx : 0 ≤ lx) (hy : 0 ≤ ly) (hz : 0 ≤ lz) (hpos : 3 / 1000000 < lx + ly + lz) (hbox : s.getBox = Spec.diagBox lx ly lz) (hat : s.getAtoms = .ok atoms)
    (hn : keys.Nodup) (hk : ∀ k ∈ keys, IsWord k ∧ k ∉ ["id", "type", "x", "y", "z"])
    (hcust : ∀ a ∈ atoms, ∀ k ∈ keys, ∃ v, dictGet a.custom k = some v ∧ IsWord v) :
    ∃ lines, C.writeSnap attr s keys none t = .ok lines ∧ lines.length = 9 + atoms.length ∧
      ∀ m, 1 ≤ m → m ≤ atoms.length → ∃ s' l, System.init.readDump C (some (lines.take (9 + m))) keys = .ok s' ∧ s'.getAtoms = .ok l ∧
        List.Forall₂ (SameUpTo (1 / 1000000) keys) (atoms.take m) l := by
  by_cases h1 : atoms = []
  · subst h1
    refine ⟨_, by simp only [Codec.writeSnap, hat, customRows_stored attr hcust, bind, Except.bind, pure, Except.pure]; rfl, rfl, fun m h1 h2 => ?_⟩
    simp at h2
    omega
  obtain ⟨lines, s1, atoms', lx', ly', lz', hw, hr, hb, e1, e2, e3, hga, hF⟩ := C42_partial hC attr s keys t atoms lx ly lz hx hy hz hpos hbox hat h1 hn hk hcust
  have hlen : lines.length = 9 + atoms.length := by
    have hw' := hw
    simp only [Codec.writeSnap, hat, customRows_stored attr hcust, bind, Except.bind, pure, Except.pure] at hw'
    rw [← Except.ok.inj hw']
    simp
    omega
  refine ⟨lines, hw, hlen, fun m hm1 hm2 => ?_⟩
  unfold System.readDump at hr
  dsimp only at hr
  cases hs : C.readSnap lines keys with
  | error e => rw [hs] at hr; cases hr
  | ok r =>
    obtain ⟨as, b, tr⟩ := r
    rw [hs] at hr
    simp only [bind, Except.bind] at hr
    cases hsb : System.init.setBox b with
    | error e => rw [hsb] at hr; cases hr
    | ok s2 =>
      rw [hsb] at hr
      dsimp only at hr
      have hreal := read_real hs
      have has := (C05_assign_atoms s2 s1 as hreal hr).1
      rw [hga] at has
      obtain rfl := Except.ok.inj has
      have hbb : s2.getBox = Spec.diagBox lx' ly' lz' := by
        obtain ⟨extra, -, -, -, -, -, hbig, hsmall, -⟩ := assign_shape hreal hr
        by_cases hlt : atoms'.length < 200
        · rw [← hb, (hsmall hlt).2.1]
        · rw [← hb, (hbig (by omega)).2]; rfl
      have hsum : boxSum s2.getBox ≠ 0 := by
        rw [hbb]
        have a1 := (abs_le.1 e1).1
        have a2 := (abs_le.1 e2).1
        have a3 := (abs_le.1 e3).1
        have : boxSum (Spec.diagBox lx' ly' lz') = lx' + ly' + lz' := by simp [boxSum, Spec.diagBox]
        rw [this]
        intro h0
        norm_num at a1 a2 a3 hpos
        linarith
      have hll := hF.length_eq
      obtain ⟨s', hs'⟩ := C05_assign_succeeds s2 (atoms'.take m) (by rw [List.length_take]; omega) hsum
        (by rw [hbb]; exact fun h => absurd ((skewed_iff _).2 h) (not_skewed_diag _ _ _))
      refine ⟨s', atoms'.take m, ?_, (C05_assign_atoms s2 s' _ (fun a ha => hreal a (List.mem_of_mem_take ha)) hs').1, List.forall₂_take m hF⟩
      unfold System.readDump
      dsimp only
      rw [C89_cut C lines keys _ _ _ hs (9 + m) (by omega)]
      simp only [bind, Except.bind, hsb, Nat.add_sub_cancel_left, hs']

/-- The hypotheses of `C89_false` (and, through it, of `C89_cut`) can be met with two atoms. -/
example : ∃ (s : System) (lines : List String) (s' : System), unaryCodec.writeSnap (fun _ _ => none) s [] none 0 = .ok lines ∧ lines.length = 11 ∧
    System.init.readDump unaryCodec (some (lines.take 10)) [] = .ok s' ∧ ∃ a, s'.getAtoms = .ok [a] := by
  set l : List Atom := [{ pos := ⟨1, 1, 1⟩, id := 1 }, { pos := ⟨2, 1, 1⟩, id := 2 }] with hl
  set s1 : System := { System.init with box := Spec.diagBox 4 4 4 } with hs1
  have hsk : Spec.Skew s1.getBox → s1.getBox.det ≠ 0 := fun h => absurd ((skewed_iff _).2 h) (not_skewed_diag _ _ _)
  have hgb : s1.getBox = Spec.diagBox 4 4 4 := rfl
  obtain ⟨s, h2⟩ := C05_assign_succeeds s1 l (by simp [hl]) (by rw [hgb]; norm_num [boxSum, Spec.diagBox]) hsk
  have hreal : ∀ a ∈ l, a.ghost = false := by simp [hl]
  have hga := (C05_assign_atoms s1 s _ hreal h2).1
  obtain ⟨extra, -, -, -, -, -, -, hsmall, -⟩ := assign_shape hreal h2
  have hsb : s.getBox = Spec.diagBox 4 4 4 := by rw [(hsmall (by simp [hl])).2.1, hgb]
  obtain ⟨lines, hw, hlen, hm⟩ := C89_false unary_lawful (fun _ _ => none) s [] 0 l 4 4 4 (by norm_num) (by norm_num) (by norm_num) (by norm_num)
    hsb hga (by simp) (by simp) (by simp)
  obtain ⟨s', l', h3, h4, h5⟩ := hm 1 (by omega) (by simp [hl])
  obtain ⟨a, rfl⟩ : ∃ a, l' = [a] := List.length_eq_one_iff.1 (by rw [← h5.length_eq]; simp [hl])
  exact ⟨s, lines, s', hw, by rw [hlen]; simp [hl], h3, a, h4⟩

end Pyscal
