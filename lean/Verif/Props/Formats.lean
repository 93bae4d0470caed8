import Verif.Spec.Formats
import Verif.Lemmas.Text
import Verif.Props.Dump
import Verif.Props.Sro
import Verif.Props.Store
import Verif.Props.Angles

/-!
Properties of the conversions to and from ASE, of the POSCAR writer, of `get_custom` and of the dispatch on the
format: C48, C49, C50, C51, C73.
-/

namespace Pyscal

open Spec

/-! ## C48 -/

theorem uniqueSymbols_pairwise (xs : List String) : (uniqueSymbols xs).Pairwise (· < ·) := by
  have h1 := List.pairwise_mergeSort (le := fun a b : String => decide (a ≤ b)) (fun a b c hab hbc => by
    simp only [decide_eq_true_eq] at *; exact le_trans hab hbc) (fun a b => by simp only [Bool.or_eq_true, decide_eq_true_eq]; exact le_total a b) xs.dedup
  have h2 : (uniqueSymbols xs).Nodup := (List.mergeSort_perm _ _).nodup_iff.2 (List.nodup_dedup xs)
  have h3 := List.Pairwise.and h1 h2
  exact h3.imp fun h => lt_of_le_of_ne (by simpa using h.1) h.2

theorem mem_uniqueSymbols {xs : List String} {x : String} : x ∈ uniqueSymbols xs ↔ x ∈ xs := by
  unfold uniqueSymbols; rw [List.mem_mergeSort, List.mem_dedup]

theorem idxOf_lt_iff {l : List String} (h : l.Pairwise (· < ·)) {x y : String} (hx : x ∈ l) (hy : y ∈ l) : l.idxOf x < l.idxOf y ↔ x < y := by
  have hx' := List.idxOf_lt_length_iff.2 hx
  have hy' := List.idxOf_lt_length_iff.2 hy
  have h' := List.pairwise_iff_getElem.1 h
  constructor
  · intro hlt
    have := h' _ _ hx' hy' hlt
    simpa using this
  · intro hlt
    by_contra hge
    rcases lt_or_eq_of_le (not_lt.1 hge) with hgt | he
    · have := h' _ _ hy' hx' hgt
      simp only [List.getElem_idxOf] at this
      exact lt_asymm hlt this
    · have : x = y := by
        have h1 : l[l.idxOf x] = x := List.getElem_idxOf hx'
        have h2 : l[l.idxOf y] = y := List.getElem_idxOf hy'
        rw [← h1, ← h2]; simp only [he]
      exact absurd hlt (by rw [this]; exact lt_irrefl _)

/-- **C48, types**: the types number the symbols in alphabetical order, from 1, without gaps. -/
theorem C48_types (xs : List String) :
    (∀ x ∈ xs, ∀ y ∈ xs, (typeNumber xs x < typeNumber xs y ↔ x < y) ∧ (typeNumber xs x = typeNumber xs y ↔ x = y)) ∧
    ∀ t : ℤ, (∃ x ∈ xs, typeNumber xs x = t) ↔ 1 ≤ t ∧ t ≤ xs.dedup.length := by
  have hlt : ∀ x ∈ xs, ∀ y ∈ xs, (typeNumber xs x < typeNumber xs y ↔ x < y) := by
    intro x hx y hy
    rw [← idxOf_lt_iff (uniqueSymbols_pairwise xs) (mem_uniqueSymbols.2 hx) (mem_uniqueSymbols.2 hy)]
    unfold typeNumber
    omega
  have hlen : (uniqueSymbols xs).length = xs.dedup.length := List.length_mergeSort _
  refine ⟨fun x hx y hy => ⟨hlt x hx y hy, ?_, fun h => by rw [h]⟩, fun t => ?_⟩
  · intro h
    have h1 := hlt x hx y hy
    have h2 := hlt y hy x hx
    rw [h] at h1 h2
    exact le_antisymm (not_lt.1 fun hh => lt_irrefl _ (h2.2 hh)) (not_lt.1 fun hh => lt_irrefl _ (h1.2 hh))
  · constructor
    · rintro ⟨x, hx, rfl⟩
      have := List.idxOf_lt_length_iff.2 (mem_uniqueSymbols.2 hx)
      unfold typeNumber
      omega
    · rintro ⟨h1, h2⟩
      have hk : (t - 1).toNat < (uniqueSymbols xs).length := by omega
      refine ⟨(uniqueSymbols xs)[(t - 1).toNat], mem_uniqueSymbols.1 (List.getElem_mem hk), ?_⟩
      unfold typeNumber
      have hnd : (uniqueSymbols xs).Nodup := (uniqueSymbols_pairwise xs).imp fun h => ne_of_lt h
      rw [List.Nodup.idxOf_getElem hnd]
      omega

theorem species_set (d : List (String × String)) (x : String) : dictGet (dictSet d "species" x) "species" = some x := dictGet_set_self d _ x

theorem typesKnown_ok {l : List Atom} (f : Atom → String) (h : ∀ a ∈ l, dictGet a.custom "species" = some (f a)) : ∃ ts, typesKnown l = .ok ts := by
  refine mapM_except_isOk _ _ fun t ht => ?_
  obtain ⟨a, ha, hat⟩ := mem_uniqueTypes.1 ht
  cases hf : l.find? fun a => a.type = t with
  | none => exact ⟨"", rfl⟩
  | some b => exact ⟨f b, by simp only [h b (List.mem_of_find?_eq_some hf)]⟩

theorem convert_known {known : String → Bool} {s : System} {atoms : List Atom} (hg : s.getAtoms = .ok atoms) (hne : atoms ≠ []) (f : Atom → String)
    (h : ∀ a ∈ atoms, dictGet a.custom "species" = some (f a) ∧ known (f a) = true) (sp : Option (List String)) :
    s.convertSnap known sp = (s, .ok { cell := s.getBox, atoms := atoms.map fun a => (f a, a.pos) }) := by
  obtain ⟨a, l, rfl⟩ := List.exists_cons_of_ne_nil hne
  obtain ⟨ts, hts⟩ := typesKnown_ok f fun b hb => (h b hb).1
  have hrows : (a :: l).mapM (aseRow known) = .ok ((a :: l).map fun a => (f a, a.pos)) := by
    refine mapM_ok_map _ _ _ fun b hb => ?_
    unfold aseRow
    rw [(h b hb).1]
    simp only [(h b hb).2, if_true]
  unfold System.convertSnap
  rw [hg]
  simp only [(h a (by simp)).1, hts, hrows]
  rfl

theorem readAse_fst (o : AseAtoms) : (readAse o).1 = o.atoms.mapIdx fun (i : ℕ) p => aseAtom (o.atoms.map Prod.fst) i p := rfl

theorem getBox_fresh {s s1 : System} {b : Mat3} (hf : s.actualBox = none) (h : s.setBox b = .ok s1) : s1.getBox = b := by
  obtain ⟨h1, h2, -⟩ := setBox_frame h
  simp [System.getBox, h1, h2, hf]

theorem assign_getBox {s s' : System} {l : List Atom} (hreal : ∀ a ∈ l, a.ghost = false) (h : s.assignAtoms l = .ok s') : s'.getBox = s.getBox := by
  obtain ⟨extra, -, -, -, -, -, h1, h2, -⟩ := assign_shape hreal h
  by_cases hl : l.length < 200
  · exact (h2 hl).2.1
  · rw [(h1 (by omega)).2]; rfl

theorem assign_actual {s s' : System} {l : List Atom} (h : s.assignAtoms l = .ok s') (hl : l.length < 200) : s'.actualBox = some s.getBox := by
  unfold System.assignAtoms at h
  rw [if_pos hl] at h
  dsimp only at h
  split_ifs at h
  cases hr : s.repeatAtoms (padReps l.length) (padReps l.length) (padReps l.length) l true true with
  | error e => rw [hr] at h; simp [bind, Except.bind] at h
  | ok r =>
    rw [hr] at h
    simp only [bind, Except.bind, pure, Except.pure, Except.ok.injEq] at h
    have := (repeatAtoms_ok hr).2.1
    rw [← h]
    exact this

theorem readFile_delivers {W : World} {o : AseAtoms} {src : Source} {format : String} (hd : Delivers W o src format) (keys : List String) :
    W.readFile src format keys = .ok (readAse o) := by
  unfold World.readFile
  cases hd with
  | ase => rw [if_neg (by decide), if_pos rfl]
  | mdtraj => rw [if_neg (by decide), if_neg (by decide), if_pos rfl]
  | aseFile name h => rw [if_neg (by decide), if_pos rfl]; simp only [h]; rfl
  | poscar name h => rw [if_neg (by decide), if_neg (by decide), if_neg (by decide), if_pos rfl]; simp only [h]; rfl

theorem readInput_delivers {W : World} {o : AseAtoms} {src : Source} {format : String} (hd : Delivers W o src format) (s : System) (keys : List String) :
    s.readInput W src format keys = (s.setBox o.cell).bind fun s1 => s1.assignAtoms (readAse o).1 := by
  unfold System.readInput
  rw [readFile_delivers hd]
  rfl

theorem readAse_real (o : AseAtoms) : ∀ a ∈ (readAse o).1, a.ghost = false := by
  intro a ha
  rw [readAse_fst] at ha
  obtain ⟨i, hi, rfl⟩ := List.mem_mapIdx.1 ha
  rfl

theorem readInput_ok {W : World} {o : AseAtoms} {src : Source} {format : String} (hd : Delivers W o src format) {s s' : System} {keys : List String}
    (h : s.readInput W src format keys = .ok s') : ∃ s1, s.setBox o.cell = .ok s1 ∧ s1.assignAtoms (readAse o).1 = .ok s' := by
  rw [readInput_delivers hd] at h
  cases hb : s.setBox o.cell with
  | error e => rw [hb] at h; simp [Except.bind] at h
  | ok s1 => rw [hb] at h; exact ⟨s1, rfl, h⟩

/-- **C48, reading**: atom `i` has the position of atom `i` of the object, number `i + 1` and its symbol. -/
theorem C48_read (W : World) (s s' : System) (o : AseAtoms) (src : Source) (format : String) (hd : Delivers W o src format) (keys : List String)
    (h : s.readInput W src format keys = .ok s') :
    s'.natoms = o.atoms.length ∧ ∃ atoms, s'.getAtoms = .ok atoms ∧ atoms.length = o.atoms.length ∧
    ∀ (i : ℕ) (x : String) (p : V3), o.atoms[i]? = some (x, p) → ∃ a, atoms[i]? = some a ∧ a.pos = p ∧ a.id = i + 1 ∧ a.loc = i ∧
      a.type = typeNumber (o.atoms.map Prod.fst) x ∧ dictGet a.custom "species" = some x := by
  obtain ⟨s1, hb, h⟩ := readInput_ok hd h
  · have hreal := readAse_real o
    obtain ⟨h1, h2, -⟩ := C05_assign_atoms s1 s' _ hreal h
    refine ⟨by rw [h2]; simp [readAse], _, h1, by simp [readAse], fun i x p hi => ?_⟩
    refine ⟨aseAtom (o.atoms.map Prod.fst) i (x, p), by rw [readAse_fst, List.getElem?_mapIdx, hi]; rfl, rfl, rfl, rfl, rfl, ?_⟩
    exact species_set [] x

/-- **C48, in part**: an ASE object read into a new system is given back unchanged, whatever species are passed,
and the system is left as it is. -/
theorem C48_partial (W : World) (s s' : System) (hf : s.actualBox = none) (o : AseAtoms) (hk : ∀ p ∈ o.atoms, W.known p.1 = true) (keys : List String)
    (src : Source) (format : String) (hd : Delivers W o src format) (h : s.readInput W src format keys = .ok s') (sp : Option (List String)) : s'.convertSnap W.known sp = (s', .ok o) := by
  obtain ⟨s1, hb, h⟩ := readInput_ok hd h
  · have hreal := readAse_real o
    obtain ⟨h1, -⟩ := C05_assign_atoms s1 s' _ hreal h
    have hne : (readAse o).1 ≠ [] := by
      intro e
      have h' : s1.assignAtoms (readAse o).1 = .ok s' := h
      rw [e, (C05_errors s1).1] at h'
      simp at h'
    have hbox : s'.getBox = o.cell := (assign_getBox hreal h).trans (getBox_fresh hf hb)
    rw [convert_known h1 hne (fun a => (dictGet a.custom "species").getD "") (fun a ha => ?_) sp, hbox]
    · congr 2
      have : ((readAse o).1.map fun a => ((dictGet a.custom "species").getD "", a.pos)) = o.atoms := by
        rw [readAse_fst, map_mapIdx]
        apply List.ext_getElem
        · simp
        · intro i h1 h2
          simp only [List.getElem_mapIdx, aseAtom, species_set, Option.getD_some]
      rw [this]
    · rw [readAse_fst] at ha
      obtain ⟨i, hi, rfl⟩ := List.mem_mapIdx.1 ha
      simp only [aseAtom, species_set, Option.getD_some, true_and]
      exact hk _ (List.getElem_mem hi)

/-- **C48, success and errors of reading into a new system**: at least one atom; fewer than 200 atoms need a cell whose
entries do not add up to zero; a skewed cell must not be flat. -/
theorem C48_succeeds (W : World) (s : System) (hf : s.actualBox = none) (o : AseAtoms) (src : Source) (format : String) (hd : Delivers W o src format) (keys : List String) :
    (o.atoms ≠ [] → boxSum o.cell ≠ 0 → (Spec.Skew o.cell → o.cell.det ≠ 0) → ∃ s', s.readInput W src format keys = .ok s') ∧
    (o.atoms = [] → (Spec.Skew o.cell → o.cell.det ≠ 0) → s.readInput W src format keys = .error .zeroDivision) ∧
    (o.atoms ≠ [] → o.atoms.length < 200 → boxSum o.cell = 0 → s.readInput W src format keys = .error .valueError) ∧
    (Spec.Skew o.cell → o.cell.det = 0 → s.readInput W src format keys = .error .valueError) := by
  have hunf := readInput_delivers hd s keys
  have hlen : (readAse o).1.length = o.atoms.length := by simp [readAse]
  have hbad : Spec.Skew o.cell → o.cell.det = 0 → s.setBox o.cell = .error .valueError := by
    intro h1 h2
    unfold System.setBox
    rw [if_pos ((skewed_iff _).2 h1)]
    simp [Mat3.det_transpose, h2]
  refine ⟨fun h1 h2 h3 => ?_, fun h1 h3 => ?_, fun h1 h2 h3 => ?_, fun h1 h2 => by rw [hunf, hbad h1 h2]; rfl⟩
  · obtain ⟨s1, hs1⟩ := setBox_ok (s := s) (b := o.cell) fun h => h3 ((skewed_iff _).1 h)
    have hb := getBox_fresh hf hs1
    obtain ⟨s', hs'⟩ := C05_assign_succeeds s1 (readAse o).1 (by rw [hlen]; exact List.length_pos_iff.2 h1) (by rw [hb]; exact h2) (by rw [hb]; exact h3)
    exact ⟨s', by rw [hunf, hs1]; exact hs'⟩
  · obtain ⟨s1, hs1⟩ := setBox_ok (s := s) (b := o.cell) fun h => h3 ((skewed_iff _).1 h)
    rw [hunf, hs1]
    have : (readAse o).1 = [] := by simp [readAse, h1]
    rw [this]
    exact (C05_errors s1).1
  · by_cases hsk : Spec.Skew o.cell ∧ o.cell.det = 0
    · rw [hunf, hbad hsk.1 hsk.2]; rfl
    · obtain ⟨s1, hs1⟩ := setBox_ok (s := s) (b := o.cell) fun h => fun h' => hsk ⟨(skewed_iff _).1 h, h'⟩
      rw [hunf, hs1]
      exact (C05_errors s1).2 _ (by rw [hlen]; exact List.length_pos_iff.2 h1) (by rw [hlen]; exact h2) (by rw [getBox_fresh hf hs1]; exact h3)

/-- One copper atom in a cube. -/
noncomputable def cuCube (a : ℝ) : AseAtoms := { cell := diagBox a a a, atoms := [("Cu", ⟨0, 0, 0⟩)] }

theorem cuCube_reads (W : World) (s : System) (a : ℝ) (hf : s.actualBox = none) (ha : 0 < a) (keys : List String) :
    ∃ s', s.readInput W (.ase (cuCube a)) "ase" keys = .ok s' := by
  refine (C48_succeeds W s hf _ _ _ .ase keys).1 (by simp [cuCube]) ?_ ?_
  · simp only [cuCube, boxSum, diagBox]; intro h; linarith
  · intro h; exact absurd ((skewed_iff _).2 h) (not_skewed_diag _ _ _)

/-- The hypotheses of `C48_partial` are met by one atom. -/
example (W : World) (hW : W.known "Cu" = true) : ∃ s', System.init.readInput W (.ase (cuCube 4)) "ase" [] = .ok s' ∧
    s'.convertSnap W.known none = (s', .ok (cuCube 4)) := by
  obtain ⟨s', h⟩ := cuCube_reads W System.init 4 rfl (by norm_num) []
  exact ⟨s', h, C48_partial W _ s' rfl _ (by simpa [cuCube] using hW) [] _ _ .ase h none⟩

/-- **C48 is false for a system that held few atoms before**: reading a second object keeps the cell of the first. -/
theorem C48_false_reused (W : World) (hW : W.known "Cu" = true) : ∃ s1 s2 : System,
    System.init.readInput W (.ase (cuCube 4)) "ase" [] = .ok s1 ∧ s1.readInput W (.ase (cuCube 5)) "ase" [] = .ok s2 ∧
    s2.convertSnap W.known none = (s2, .ok (cuCube 4)) := by
  obtain ⟨s1, h1⟩ := cuCube_reads W System.init 4 rfl (by norm_num) []
  obtain ⟨t1, hb1, ha1⟩ := readInput_ok .ase h1
  have hlen : ∀ a, (readAse (cuCube a)).1.length < 200 := fun a => by simp [readAse, cuCube]
  have hs1 : s1.actualBox = some (diagBox 4 4 4) := by
    rw [assign_actual ha1 (hlen 4), getBox_fresh rfl hb1]; rfl
  obtain ⟨t2, hb2⟩ := setBox_ok (s := s1) (b := (cuCube 5).cell) (fun h => absurd h (not_skewed_diag _ _ _))
  have ht2 : t2.getBox = diagBox 4 4 4 := by
    obtain ⟨-, h2, -⟩ := setBox_frame hb2
    simp [System.getBox, h2, hs1]
  obtain ⟨s2, ha2⟩ := C05_assign_succeeds t2 (readAse (cuCube 5)).1 (by simp [readAse, cuCube]) (by rw [ht2]; norm_num [boxSum, diagBox])
    (fun h => absurd ((skewed_iff _).2 h) (by rw [ht2]; exact not_skewed_diag _ _ _))
  have hs2 : s2.getBox = diagBox 4 4 4 := (assign_getBox (readAse_real _) ha2).trans ht2
  refine ⟨s1, s2, h1, by rw [readInput_delivers .ase, hb2]; exact ha2, ?_⟩
  rw [convert_known (C05_assign_atoms t2 s2 _ (readAse_real _) ha2).1 (by simp [readAse, cuCube]) (fun _ => "Cu") ?_ none, hs2]
  · rfl
  · intro a ha
    simp only [readAse, cuCube, List.mapIdx_cons, List.mapIdx_nil, List.mem_singleton] at ha
    subst ha
    exact ⟨species_set [] "Cu", hW⟩

/-! ## C73 -/

theorem assignSpecies_length (sp : List String) : ∀ l : List Atom, (assignSpecies sp l).1.length = l.length
  | [] => rfl
  | a :: l => by
    unfold assignSpecies
    split
    · rfl
    · simp [assignSpecies_length sp l]

theorem assignSpecies_ok {sp : List String} (f : Atom → String) : ∀ {l : List Atom}, (∀ a ∈ l, pyItem sp (a.type - 1) = some (f a)) →
    assignSpecies sp l = (l.map fun a => a.withSpecies (f a), .ok ())
  | [], _ => rfl
  | a :: l, h => by
    unfold assignSpecies
    rw [h a (by simp), assignSpecies_ok f fun b hb => h b (by simp [hb])]
    rfl

theorem withSpecies_species (a : Atom) (x : String) : dictGet (a.withSpecies x).custom "species" = some x := species_set _ _

/-- Converting a system whose first atom has no species. -/
theorem convert_new {known : String → Bool} {s : System} {reals : List Atom} (hi : StoreInv s reals) (hne : reals ≠ []) (hno : ∀ a ∈ reals.head?, dictGet a.custom "species" = none)
    (sp : List String) (hlen : (uniqueTypes reals).length = sp.length) (f : Atom → String) (hf : ∀ a ∈ reals, pyItem sp (a.type - 1) = some (f a))
    (hk : ∀ a ∈ reals, known (f a) = true) :
    s.convertSnap known (some sp) = ({ s with atoms := (reals.map fun a => a.withSpecies (f a)) ++ s.atoms.drop s.realNop },
      .ok { cell := s.getBox, atoms := reals.map fun a => (f a, a.pos) }) := by
  have hg := getAtoms_inv hi
  obtain ⟨a, l, rfl⟩ := List.exists_cons_of_ne_nil hne
  have h0 : dictGet a.custom "species" = none := hno a (by simp)
  have hrows : ((a :: l).map fun a => a.withSpecies (f a)).mapM (aseRow known) = .ok ((a :: l).map fun a => (f a, a.pos)) := by
    rw [mapM_ok_map (aseRow known) (fun b => ((dictGet b.custom "species").getD "", b.pos))]
    · rw [List.map_map]
      congr 1
      refine List.map_congr_left fun b _ => ?_
      simp only [Function.comp, withSpecies_species, Option.getD_some]
      rfl
    · intro b hb
      obtain ⟨c, hc, rfl⟩ := List.mem_map.1 hb
      unfold aseRow
      simp only [withSpecies_species, hk c hc, if_true, Option.getD_some]
  unfold System.convertSnap
  rw [hg]
  simp only [h0, hlen, ne_eq, not_true_eq_false, if_false, assignSpecies_ok f hf, hrows]
  rfl

/-- **C73, in part**: if the types of the atoms are 1 to `k` and `k` species are given, every atom of type `t` becomes
species number `t`, at its position, in the cell of the system. -/
theorem C73_partial (known : String → Bool) (s : System) (reals : List Atom) (hi : StoreInv s reals) (hne : reals ≠ [])
    (hno : ∀ a ∈ reals, dictGet a.custom "species" = none) (sp : List String) (ht : Spec.TypesOneTo reals sp.length) (hk : ∀ x ∈ sp, known x = true) :
    ∃ s' rows, s.convertSnap known (some sp) = (s', .ok ⟨s.getBox, rows⟩) ∧
      List.Forall₂ (fun (a : Atom) (r : String × V3) => r.2 = a.pos ∧ ∃ k : ℕ, a.type = k + 1 ∧ sp[k]? = some r.1) reals rows := by
  have hin : ∀ a ∈ reals, ∃ k : ℕ, a.type = k + 1 ∧ k < sp.length := by
    intro a ha
    have := (ht a.type).1 ⟨a, ha, rfl⟩
    exact ⟨(a.type - 1).toNat, by omega, by omega⟩
  have hpy : ∀ a ∈ reals, pyItem sp (a.type - 1) = some (sp.getD (a.type - 1).toNat "") := by
    intro a ha
    obtain ⟨k, h1, h2⟩ := hin a ha
    rw [h1]
    rw [show (k : ℤ) + 1 - 1 = k by ring, pyItem_nat h2, Int.toNat_natCast, List.getD_eq_getElem?_getD, List.getElem?_eq_getElem h2]
    rfl
  have hl : (uniqueTypes reals).length = sp.length := by rw [uniqueTypes_oneTo ht]; simp
  refine ⟨_, _, convert_new hi hne (fun a ha => hno a (List.mem_of_mem_head? ha)) sp hl (fun a => sp.getD (a.type - 1).toNat "") hpy ?_, ?_⟩
  · intro a ha
    obtain ⟨k, h1, h2⟩ := hin a ha
    have : (a.type - 1).toNat = k := by omega
    rw [this, List.getD_eq_getElem?_getD, List.getElem?_eq_getElem h2]
    exact hk _ (List.getElem_mem h2)
  · rw [List.forall₂_map_right_iff, List.forall₂_same]
    intro a ha
    obtain ⟨k, h1, h2⟩ := hin a ha
    have : (a.type - 1).toNat = k := by omega
    refine ⟨rfl, k, h1, ?_⟩
    rw [this, List.getD_eq_getElem?_getD, List.getElem?_eq_getElem h2]
    rfl

/-- **C73, errors**: an empty system, missing species and a wrong number of species are reported, and leave the
system as it is. -/
theorem C73_errors (known : String → Bool) (s : System) :
    (∀ sp, s.getAtoms = .ok [] → s.convertSnap known sp = (s, .error .indexError)) ∧
    ∀ (a : Atom) (l : List Atom), s.getAtoms = .ok (a :: l) → dictGet a.custom "species" = none →
      s.convertSnap known none = (s, .error .valueError) ∧
      ∀ sp : List String, (∀ types : List ℤ, types.Nodup → (∀ t, t ∈ types ↔ ∃ b ∈ a :: l, b.type = t) → types.length ≠ sp.length) →
        s.convertSnap known (some sp) = (s, .error .valueError) := by
  refine ⟨fun sp h => by unfold System.convertSnap; rw [h], fun a l h h0 => ⟨by unfold System.convertSnap; rw [h]; simp only [h0], fun sp hsp => ?_⟩⟩
  have hnd : (uniqueTypes (a :: l)).Nodup := (List.mergeSort_perm _ _).nodup_iff.2 (List.nodup_dedup _)
  have hne := hsp _ hnd fun t => mem_uniqueTypes
  unfold System.convertSnap
  rw [h]
  simp only [h0]
  rw [if_pos hne]

/-- **C73 is false the second time**: once a conversion has succeeded, the species of every later call are ignored. -/
theorem C73_false_sticky (known : String → Bool) (s s' : System) (reals : List Atom) (hi : StoreInv s reals) (sp : List String) (o : AseAtoms)
    (h : s.convertSnap known (some sp) = (s', .ok o)) (sp' : Option (List String)) : s'.convertSnap known sp' = (s', .ok o) := by
  have hg := getAtoms_inv hi
  obtain ⟨gs, ha, -, -⟩ := hi.ex
  have rowOk : ∀ {l : List Atom} {rows : List (String × V3)}, l.mapM (aseRow known) = .ok rows →
      (∀ a ∈ l, dictGet a.custom "species" = some ((dictGet a.custom "species").getD "") ∧ known ((dictGet a.custom "species").getD "") = true) ∧
      rows = l.map fun a => ((dictGet a.custom "species").getD "", a.pos) := by
    intro l
    induction l with
    | nil => intro rows h; simp only [List.mapM_nil, pure, Except.pure, Except.ok.injEq] at h; subst h; simp
    | cons a l ih =>
      intro rows h
      rw [List.mapM_cons] at h
      cases hr : aseRow known a with
      | error e => rw [hr] at h; simp [bind, Except.bind] at h
      | ok r =>
        cases hl : l.mapM (aseRow known) with
        | error e => rw [hr, hl] at h; simp [bind, Except.bind] at h
        | ok rs =>
          rw [hr, hl] at h
          simp only [bind, Except.bind, pure, Except.pure, Except.ok.injEq] at h
          obtain ⟨i1, i2⟩ := ih hl
          unfold aseRow at hr
          cases hd : dictGet a.custom "species" with
          | none => rw [hd] at hr; simp at hr
          | some x =>
            rw [hd] at hr
            simp only at hr
            split at hr
            · rename_i hkn
              refine ⟨fun b hb => ?_, ?_⟩
              · rcases List.mem_cons.1 hb with rfl | hb
                · rw [hd]; exact ⟨rfl, hkn⟩
                · exact i1 b hb
              · rw [← h, i2, List.map_cons, hd, ← Except.ok.inj hr]; rfl
            · simp at hr
  -- the atoms converted last, in the state afterwards
  have key : ∃ atoms, s'.getAtoms = .ok atoms ∧ atoms ≠ [] ∧ (atoms.mapM (aseRow known)).map (fun rows => ({ cell := s'.getBox, atoms := rows } : AseAtoms)) = .ok o := by
    unfold System.convertSnap at h
    rw [hg] at h
    cases hr : reals with
    | nil => rw [hr] at h; simp at h
    | cons a l =>
      rw [hr] at h
      simp only at h
      cases hd : dictGet a.custom "species" with
      | some x =>
        rw [hd] at h
        simp only at h
        cases htk : typesKnown (a :: l) with
        | error e => rw [htk] at h; simp at h
        | ok ts =>
          rw [htk] at h
          simp only [Prod.mk.injEq] at h
          obtain ⟨rfl, h⟩ := h
          exact ⟨a :: l, by rw [hg, hr], by simp, h⟩
      | none =>
        rw [hd] at h
        simp only at h
        split at h
        · simp at h
        · split at h
          · simp at h
          · simp only [Prod.mk.injEq] at h
            obtain ⟨rfl, h⟩ := h
            have hl := assignSpecies_length sp (a :: l)
            refine ⟨(assignSpecies sp (a :: l)).1, ?_, ?_, h⟩
            · have hrn : s.realNop = (assignSpecies sp (a :: l)).1.length := by rw [hl, ← hr, hi.realNop]
              unfold System.getAtoms
              simp only
              rw [if_pos (by rw [List.length_append, hrn]; omega), hrn, List.take_left]
            · intro e
              rw [e] at hl
              simp at hl
  obtain ⟨atoms, h1, h2, h3⟩ := key
  cases hm : atoms.mapM (aseRow known) with
  | error e => rw [hm] at h3; simp [Except.map] at h3
  | ok rows =>
    rw [hm] at h3
    obtain ⟨k1, k2⟩ := rowOk hm
    rw [convert_known h1 h2 _ k1 sp', ← k2]
    exact congrArg (Prod.mk s') h3

/-- A system of atoms of the given types at the origin of a cube. -/
noncomputable def typedSystem (ts : List ℤ) : System where
  atoms := ts.map fun t => { pos := 0, type := t }
  nop := ts.length
  realNop := ts.length
  box := diagBox 4 4 4

theorem typed_inv (ts : List ℤ) : StoreInv (typedSystem ts) (typedSystem ts).atoms where
  real a ha := by
    obtain ⟨t, -, rfl⟩ := List.mem_map.1 ha
    rfl
  ex := ⟨[], by simp, by simp, rfl⟩
  nop := by simp [typedSystem]
  realNop := by simp [typedSystem]

/-- A conversion to copper makes the next conversion, to gold, give copper. -/
theorem C73_sticky_case : ∃ s' : System,
    ((typedSystem [1]).convertSnap (fun _ => true) (some ["Cu"])) = (s', .ok ⟨diagBox 4 4 4, [("Cu", 0)]⟩) ∧
    s'.convertSnap (fun _ => true) (some ["Au"]) = (s', .ok ⟨diagBox 4 4 4, [("Cu", 0)]⟩) := by
  have ht : Spec.TypesOneTo (typedSystem [1]).atoms (["Cu"] : List String).length := by
    intro t
    simp only [typedSystem, List.map_cons, List.map_nil, List.mem_singleton, exists_eq_left, List.length_singleton]
    omega
  obtain ⟨s', rows, h1, h2⟩ := C73_partial (fun _ => true) (typedSystem [1]) _ (typed_inv [1]) (by simp [typedSystem]) (by simp [typedSystem, dictGet]) ["Cu"] ht (by simp)
  have hr : rows = [("Cu", 0)] := by
    simp only [typedSystem, List.map_cons, List.map_nil] at h2
    obtain ⟨⟨x, v⟩, u, hrow, hu, rfl⟩ := List.forall₂_cons_left_iff.1 h2
    rw [List.forall₂_nil_left_iff.1 hu]
    obtain ⟨hv, k, hk, hx⟩ := hrow
    simp only at hk
    have : k = 0 := by omega
    subst this
    simp only [List.getElem?_cons_zero, Option.some.injEq] at hx
    simp only at hv
    rw [hv, ← hx]
  subst hr
  exact ⟨s', h1, C73_false_sticky _ _ s' _ (typed_inv [1]) _ _ h1 _⟩

/-- **C73 is false for types with gaps**: with the types 1 and 3 and two species the call fails with IndexError
after storing the species of the first atom. -/
theorem C73_false_gap : ∃ s' : System,
    ((typedSystem [1, 3]).convertSnap (fun _ => true) (some ["Cu", "Zn"])) = (s', .error .indexError) ∧
    (s'.atoms.map fun a => dictGet a.custom "species") = [some "Cu", none] := by
  have hg : (typedSystem [1, 3]).getAtoms = .ok [{ pos := 0, type := 1 }, { pos := 0, type := 3 }] := getAtoms_inv (typed_inv [1, 3])
  have hl : (uniqueTypes [{ pos := 0, type := 1 }, { pos := 0, type := 3 }]).length = 2 := by
    unfold uniqueTypes
    rw [List.length_mergeSort]
    decide
  have ha : assignSpecies ["Cu", "Zn"] [{ pos := 0, type := 1 }, { pos := 0, type := 3 }] =
      ([({ pos := 0, type := 1 } : Atom).withSpecies "Cu", { pos := 0, type := 3 }], .error .indexError) := by
    simp [assignSpecies, pyItem, pyIdx]
  refine ⟨_, by
    unfold System.convertSnap
    rw [hg]
    simp only [dictGet, List.find?_nil, Option.map_none, hl, ha]
    rfl, ?_⟩
  simp [typedSystem, withSpecies_species]
  rfl

/-- **C73 is false for type 0**: the types 0 and 1 with two species are accepted, and type 0 becomes the last species. -/
theorem C73_false_zero : ((typedSystem [0, 1]).convertSnap (fun _ => true) (some ["Cu", "Zn"])).2 = .ok ⟨diagBox 4 4 4, [("Zn", 0), ("Cu", 0)]⟩ := by
  rw [convert_new (typed_inv [0, 1]) (by simp [typedSystem]) (by simp [typedSystem, dictGet]) ["Cu", "Zn"] ?_ (fun a => if a.type = 0 then "Zn" else "Cu") ?_ (by simp)]
  · simp [typedSystem, System.getBox]
  · unfold uniqueTypes
    rw [List.length_mergeSort]
    simp [typedSystem]
  · intro a ha
    simp only [typedSystem, List.map_cons, List.map_nil, List.mem_cons, List.not_mem_nil, or_false] at ha
    rcases ha with rfl | rfl <;> simp [pyItem, pyIdx]

/-! ## C49 -/

theorem words_cons_space (s : List Char) (c : Char) (hc : isSpace c = true) : words (String.ofList (c :: s)) = words (String.ofList s) := by
  unfold words
  simp only [String.toList_ofList]
  rw [List.splitOnP_cons_eq_if_modifyHead, if_pos hc, List.filter_cons_of_neg (by simp)]

theorem words_cons_word (w s : List Char) (c : Char) (hc : isSpace c = true) (h0 : w ≠ []) (hw : ∀ c ∈ w, isSpace c = false) :
    words (String.ofList (w ++ c :: s)) = String.ofList w :: words (String.ofList s) := by
  unfold words
  simp only [String.toList_ofList]
  rw [List.splitOnP_append_cons_of_forall_mem hw c hc, List.filter_cons_of_pos (by simpa using h0), List.map_cons]

theorem words_indent (p : List Char) (hp : ∀ c ∈ p, isSpace c = true) (s : String) : words (String.ofList p ++ s) = words s := by
  rw [← String.ofList_toList (s := s), ← String.ofList_append]
  induction p with
  | nil => rfl
  | cons c p ih => rw [List.cons_append, words_cons_space _ _ (hp c (by simp)), ih fun x hx => hp x (by simp [hx])]

theorem uniqueTypes_pairwise (l : List Atom) : (uniqueTypes l).Pairwise (· < ·) := by
  have h1 := List.pairwise_mergeSort (le := fun a b : ℤ => decide (a ≤ b)) (fun a b c hab hbc => by
    simp only [decide_eq_true_eq] at *; omega) (fun a b => by simp only [Bool.or_eq_true, decide_eq_true_eq]; omega) (l.map Atom.type).dedup
  have h2 : (uniqueTypes l).Nodup := (List.mergeSort_perm _ _).nodup_iff.2 (List.nodup_dedup _)
  exact (List.Pairwise.and h1 h2).imp fun h => lt_of_le_of_ne (by simpa using h.1) h.2

theorem flatten_groups_perm (l : List Atom) : ∀ ts : List ℤ, ts.Nodup → (ts.map fun t => l.filter fun a => a.type = t).flatten.Perm (l.filter fun a => a.type ∈ ts)
  | [], _ => by simp
  | t :: ts, h => by
    rw [List.nodup_cons] at h
    rw [List.map_cons, List.flatten_cons]
    have ih := flatten_groups_perm l ts h.2
    refine (List.Perm.append_left _ ih).trans ?_
    have e1 : (l.filter fun a => a.type = t) = (l.filter fun a => a.type ∈ t :: ts).filter fun a => a.type = t := by
      rw [List.filter_filter]
      refine List.filter_congr fun a _ => ?_
      by_cases ha : a.type = t <;> simp [ha]
    have e2 : (l.filter fun a => a.type ∈ ts) = (l.filter fun a => a.type ∈ t :: ts).filter fun a => !decide (a.type = t) := by
      rw [List.filter_filter]
      refine List.filter_congr fun a _ => ?_
      by_cases ha : a.type = t
      · simp [ha, h.1]
      · simp [ha]
    rw [e1, e2]
    exact List.filter_append_perm _ _

theorem grouped_types (l : List Atom) : Grouped l ((uniqueTypes l).map fun t => l.filter fun a => a.type = t) where
  perm := by
    refine (flatten_groups_perm l _ ((uniqueTypes_pairwise l).imp fun h => ne_of_lt h)).trans ?_
    rw [List.filter_eq_self.2]
    intro a ha
    simpa using mem_uniqueTypes.2 ⟨a, ha, rfl⟩
  sub g hg := by
    obtain ⟨t, -, rfl⟩ := List.mem_map.1 hg
    exact List.filter_sublist
  nonempty g hg := by
    obtain ⟨t, ht, rfl⟩ := List.mem_map.1 hg
    obtain ⟨a, ha, hat⟩ := mem_uniqueTypes.1 ht
    exact List.ne_nil_of_mem (List.mem_filter.2 ⟨ha, by simpa using hat⟩)
  same g hg a ha b hb := by
    obtain ⟨t, -, rfl⟩ := List.mem_map.1 hg
    have h1 := (List.mem_filter.1 ha).2
    have h2 := (List.mem_filter.1 hb).2
    simp only [decide_eq_true_eq] at h1 h2
    rw [h1, h2]
  increasing := by
    rw [List.pairwise_map]
    refine (uniqueTypes_pairwise l).imp fun h a ha b hb => ?_
    have h1 := (List.mem_filter.1 ha).2
    have h2 := (List.mem_filter.1 hb).2
    simp only [decide_eq_true_eq] at h1 h2
    rw [h1, h2]; exact h

theorem holdsVec_written {C : Codec} {f : ℝ → String} {tol : ℝ} (hf : ∀ x, IsWord (f x) ∧ ∃ y, C.float (f x) = some y ∧ |y - x| ≤ tol) (p : List Char)
    (hp : ∀ c ∈ p, isSpace c = true) (v : V3) : HoldsVec C tol (String.ofList p ++ textLine [f v.x, f v.y, f v.z]) v := by
  obtain ⟨x, hx, hx'⟩ := (hf v.x).2
  obtain ⟨y, hy, hy'⟩ := (hf v.y).2
  obtain ⟨z, hz, hz'⟩ := (hf v.z).2
  refine ⟨x, y, z, ?_, hx', hy', hz'⟩
  rw [words_indent p hp, words_textLine]
  · simp [hx, hy, hz]
  · intro w hw
    simp only [List.mem_cons, List.not_mem_nil, or_false] at hw
    rcases hw with rfl | rfl | rfl
    · exact (hf v.x).1
    · exact (hf v.y).1
    · exact (hf v.z).1

theorem words_counts {ws : List String} (h : ∀ w ∈ ws, IsWord w) : words (String.ofList [' ', ' '] ++ String.join (ws.map fun w => w ++ "   ") ++ "\n") = ws := by
  have key : ∀ ws : List String, (∀ w ∈ ws, IsWord w) → words (String.join (ws.map fun w => w ++ "   ") ++ "\n") = ws := by
    intro ws
    induction ws with
    | nil => intro _; decide
    | cons w ws ih =>
      intro h
      have e : String.join ((w :: ws).map fun w => w ++ "   ") ++ "\n" =
          String.ofList (w.toList ++ ' ' :: (' ' :: ' ' :: (String.join (ws.map fun w => w ++ "   ") ++ "\n").toList)) := by
        apply String.toList_injective
        simp [String.toList_append]
      rw [e, words_cons_word _ _ _ isSpace_space (h w (by simp)).1 (h w (by simp)).2, words_cons_space _ _ isSpace_space, words_cons_space _ _ isSpace_space,
        String.ofList_toList, String.ofList_toList, ih fun x hx => h x (by simp [hx])]
  rw [String.append_assoc, words_indent _ (by simp [isSpace_space]), key ws h]

/-- **C49**: the POSCAR file lists every atom exactly once, grouped by type in increasing order with the group sizes on the
line of counts, in the order of the system within a group, after the cell of the system; all numbers
to the printed precision. -/
theorem C49_poscar (C : Codec) (hC : C.Lawful) (f : ℝ → String) (tol : ℝ) (hf : ∀ x, IsWord (f x) ∧ ∃ y, C.float (f x) = some y ∧ |y - x| ≤ tol)
    (s : System) (reals : List Atom) (hi : StoreInv s reals) (comments : String) :
    ∃ lines groups, s.writePoscar C f comments = .ok lines ∧ Grouped reals groups ∧
      HoldsPoscar C tol lines s.getBox (groups.map List.length) (groups.flatten.map Atom.pos) := by
  set groups := (uniqueTypes reals).map fun t => reals.filter fun a => a.type = t with hgr
  have hrows : (groups.flatMap fun g => g.map fun a => " " ++ textLine [f a.pos.x, f a.pos.y, f a.pos.z]) =
      groups.flatten.map fun a => " " ++ textLine [f a.pos.x, f a.pos.y, f a.pos.z] := by
    rw [List.flatMap_def, List.map_flatten]
  refine ⟨_, groups, by
    unfold System.writePoscar
    rw [getAtoms_inv hi]
    rfl, grouped_types reals, ?_, ?_, ?_, ?_, ?_, ?_, ?_, ?_⟩
  · rw [← hgr, hrows, List.length_append, List.length_map, List.length_map]; rfl
  · exact ⟨_, rfl, by decide⟩
  · exact ⟨_, rfl, holdsVec_written hf [' ', ' ', ' ', ' ', ' ', ' '] (by simp [isSpace_space]) _⟩
  · exact ⟨_, rfl, holdsVec_written hf [' ', ' ', ' ', ' ', ' ', ' '] (by simp [isSpace_space]) _⟩
  · exact ⟨_, rfl, holdsVec_written hf [' ', ' ', ' ', ' ', ' ', ' '] (by simp [isSpace_space]) _⟩
  · refine ⟨_, rfl, ?_⟩
    have hw := words_counts (ws := (uniqueTypes reals).map fun t => C.fmtD (countType reals t)) (by
      intro w hw
      obtain ⟨t, -, rfl⟩ := List.mem_map.1 hw
      exact hC.word_fmtD _)
    rw [List.map_map] at hw
    have : words ("  " ++ String.join ((uniqueTypes reals).map fun t => C.fmtD (countType reals t) ++ "   ") ++ "\n") = _ := hw
    rw [this, List.map_map, hgr, List.map_map, List.map_map]
    refine List.map_congr_left fun t _ => ?_
    simp only [Function.comp, hC.int_fmtD, countType, List.countP_eq_length_filter]
  · exact ⟨_, rfl, by decide⟩
  · intro k v hk
    rw [← hgr, hrows]
    rw [List.getElem?_map] at hk
    cases ha : groups.flatten[k]? with
    | none => rw [ha] at hk; simp at hk
    | some a =>
      rw [ha] at hk
      simp only [Option.map_some, Option.some.injEq] at hk
      refine ⟨" " ++ textLine [f a.pos.x, f a.pos.y, f a.pos.z], ?_, ?_⟩
      · rw [List.getElem?_append_right (by simp), List.getElem?_map]
        rw [show 7 + k - _ = k from by simp only [List.length_cons, List.length_nil]; omega, ha]
        rfl
      · rw [← hk]
        exact holdsVec_written hf [' '] (by simp [isSpace_space]) _

/-- The hypotheses of `C49_poscar` are met: types 2, 1, 2. -/
example : ∃ lines groups, (typedSystem [2, 1, 2]).writePoscar unaryCodec unaryCodec.fmtF "pyscal" = .ok lines ∧ Grouped (typedSystem [2, 1, 2]).atoms groups ∧
    HoldsPoscar unaryCodec (1 / 1000000) lines (typedSystem [2, 1, 2]).getBox (groups.map List.length) (groups.flatten.map Atom.pos) :=
  C49_poscar unaryCodec unary_lawful _ _ (fun x => ⟨unary_lawful.word_fmtF x, unary_lawful.float_fmtF x⟩) _ _ (typed_inv _) _

/-! ## C50 -/

theorem lookup_model (C : Codec) (attr : String → Atom → Option Val) (a : Atom) (k : String) : Lookup C attr a k (C.getCustomKey attr a k) := by
  unfold Codec.getCustomKey
  cases h : dictGet a.custom k with
  | some v => exact .stored v h
  | none =>
    simp only
    cases h' : attr k a with
    | some v => exact .attr v h h'
    | none =>
      simp only
      have hk : ∀ l : List Char, k.toList = l → k = String.ofList l := fun l hl => by rw [← hl, String.ofList_toList]
      split
      · rename_i hl
        exact .empty h h' (by rw [hk _ hl])
      · rename_i rest hl
        have e : k = "q" ++ String.ofList rest := by
          rw [hk _ hl]; apply String.toList_injective; simp [String.toList_append]
        cases hi : C.int (String.ofList rest) with
        | none => simp only [Codec.readInt, hi, bind, Except.bind]; exact .notNumber _ h h' (Or.inl e) hi
        | some n =>
          simp only [Codec.readInt, hi, bind, Except.bind, Atom.getQ]
          by_cases hr : n < 2 ∨ n > 12
          · rw [if_pos hr]; exact .badIndex _ n h h' (Or.inl e) hi (by omega)
          · rw [if_neg hr]; exact .q _ n h h' e hi (by omega)
      · rename_i rest hl
        have e : k = "aq" ++ String.ofList rest := by
          rw [hk _ hl]; apply String.toList_injective; simp [String.toList_append]
        cases hi : C.int (String.ofList rest) with
        | none => simp only [Codec.readInt, hi, bind, Except.bind]; exact .notNumber _ h h' (Or.inr e) hi
        | some n =>
          simp only [Codec.readInt, hi, bind, Except.bind, Atom.getQ]
          by_cases hr : n < 2 ∨ n > 12
          · rw [if_pos hr]; exact .badIndex _ n h h' (Or.inr e) hi (by omega)
          · rw [if_neg hr]; exact .aq _ n h h' e hi (by omega)
      · rename_i h0 h1 h2
        refine .other h h' ?_ ?_
        · rintro rfl; exact h0 (by decide)
        · intro w
          constructor
          · rintro rfl; exact h1 w.toList (by simp [String.toList_append])
          · rintro rfl; exact h2 w.toList (by simp [String.toList_append])

theorem lookup_eq {C : Codec} {attr : String → Atom → Option Val} {a : Atom} {k : String} {r : Except Fault Val} (h : Lookup C attr a k r) : C.getCustomKey attr a k = r := by
  have hq : ∀ w : String, ("q" ++ w).toList = 'q' :: w.toList := fun w => by simp [String.toList_append]
  have haq : ∀ w : String, ("aq" ++ w).toList = 'a' :: 'q' :: w.toList := fun w => by simp [String.toList_append]
  cases h with
  | stored v h => simp [Codec.getCustomKey, h]
  | attr v h h' => simp [Codec.getCustomKey, h, h']
  | q w l h h' hk hl hr =>
    have e : k.toList = 'q' :: w.toList := by rw [hk, hq]
    simp only [Codec.getCustomKey, h, h', e, String.ofList_toList, Codec.readInt, hl, bind, Except.bind, Atom.getQ]
    rw [if_neg (by omega)]
    rfl
  | aq w l h h' hk hl hr =>
    have e : k.toList = 'a' :: 'q' :: w.toList := by rw [hk, haq]
    simp only [Codec.getCustomKey, h, h', e, String.ofList_toList, Codec.readInt, hl, bind, Except.bind, Atom.getQ]
    rw [if_neg (by omega)]
    rfl
  | badIndex w l h h' hk hl hr =>
    rcases hk with hk | hk
    · have e : k.toList = 'q' :: w.toList := by rw [hk, hq]
      simp only [Codec.getCustomKey, h, h', e, String.ofList_toList, Codec.readInt, hl, bind, Except.bind, Atom.getQ]
      rw [if_pos (by omega)]
    · have e : k.toList = 'a' :: 'q' :: w.toList := by rw [hk, haq]
      simp only [Codec.getCustomKey, h, h', e, String.ofList_toList, Codec.readInt, hl, bind, Except.bind, Atom.getQ]
      rw [if_pos (by omega)]
  | notNumber w h h' hk hl =>
    rcases hk with hk | hk
    · have e : k.toList = 'q' :: w.toList := by rw [hk, hq]
      simp only [Codec.getCustomKey, h, h', e, String.ofList_toList, Codec.readInt, hl, bind, Except.bind]
    · have e : k.toList = 'a' :: 'q' :: w.toList := by rw [hk, haq]
      simp only [Codec.getCustomKey, h, h', e, String.ofList_toList, Codec.readInt, hl, bind, Except.bind]
  | empty h h' hk =>
    have e : k.toList = [] := by rw [hk]; decide
    simp only [Codec.getCustomKey, h, h', e]
  | other h h' h0 hk =>
    unfold Codec.getCustomKey
    rw [h]
    simp only [h']
    split
    · rename_i e
      exact absurd (String.toList_injective (e.trans (by decide : [] = ("" : String).toList))) h0
    · rename_i rest e
      exact absurd (String.toList_injective (e.trans (by rw [hq, String.toList_ofList] : _ = ("q" ++ String.ofList rest).toList))) (hk _).1
    · rename_i rest e
      exact absurd (String.toList_injective (e.trans (by rw [haq, String.toList_ofList] : _ = ("aq" ++ String.ofList rest).toList))) (hk _).2
    · rfl

/-- **C50**: `get_custom` returns the values of the keys in order, each one looked up as described by `Lookup`, and
raises what the first failing key raises. -/
theorem C50_lookup (C : Codec) (attr : String → Atom → Option Val) (a : Atom) (ks : List String) :
    (∀ k, ∃! r, Lookup C attr a k r) ∧
    (∀ vs, C.getCustom attr a ks = .ok vs ↔ List.Forall₂ (fun k v => Lookup C attr a k (.ok v)) ks vs) ∧
    ∀ e, C.getCustom attr a ks = .error e ↔ ∃ pre k post, ks = pre ++ k :: post ∧ (∀ x ∈ pre, ∃ v, Lookup C attr a x (.ok v)) ∧ Lookup C attr a k (.error e) := by
  have hiff : ∀ k r, Lookup C attr a k r ↔ C.getCustomKey attr a k = r := fun k r => ⟨lookup_eq, fun h => h ▸ lookup_model C attr a k⟩
  refine ⟨fun k => ⟨_, lookup_model C attr a k, fun r h => (lookup_eq h).symm⟩, ?_, ?_⟩
  · simp only [hiff]
    unfold Codec.getCustom
    induction ks with
    | nil =>
      intro vs
      simp only [List.mapM_nil, pure, Except.pure, Except.ok.injEq, List.forall₂_nil_left_iff]
      exact eq_comm
    | cons k ks ih =>
      intro vs
      rw [List.mapM_cons, List.forall₂_cons_left_iff]
      cases hk : C.getCustomKey attr a k with
      | error e => simp [bind, Except.bind]
      | ok v =>
        cases hs : ks.mapM fun k => C.getCustomKey attr a k with
        | error e =>
          simp only [bind, Except.bind, reduceCtorEq, false_iff, not_exists, not_and]
          intro b u _ hu
          rw [← ih u, hs] at hu
          simp at hu
        | ok us =>
          simp only [bind, Except.bind, pure, Except.pure, Except.ok.injEq]
          constructor
          · rintro rfl
            exact ⟨v, us, rfl, (ih us).1 hs, rfl⟩
          · rintro ⟨b, u, rfl, hu, rfl⟩
            rw [← ih u, hs] at hu
            rw [Except.ok.inj hu]
  · simp only [hiff]
    unfold Codec.getCustom
    induction ks with
    | nil => intro e; simp [pure, Except.pure]
    | cons k ks ih =>
      intro e
      rw [List.mapM_cons]
      cases hk : C.getCustomKey attr a k with
      | error e' =>
        simp only [bind, Except.bind, Except.error.injEq]
        constructor
        · rintro rfl
          exact ⟨[], k, ks, rfl, by simp, hk⟩
        · rintro ⟨pre, x, post, h1, h2, h3⟩
          cases pre with
          | nil =>
            obtain ⟨rfl, -⟩ := List.cons.inj h1
            rw [hk] at h3
            exact Except.error.inj h3
          | cons y pre =>
            obtain ⟨rfl, -⟩ := List.cons.inj h1
            obtain ⟨v, hv⟩ := h2 k (by simp)
            rw [hk] at hv
            simp at hv
      | ok v =>
        have hout : (do let b ← Except.ok v; let bs ← ks.mapM fun k => C.getCustomKey attr a k; pure (b :: bs) : Except Fault (List Val)) = .error e ↔
            (ks.mapM fun k => C.getCustomKey attr a k) = .error e := by
          cases ks.mapM fun k => C.getCustomKey attr a k <;> simp [bind, Except.bind, pure, Except.pure]
        rw [hout, ih e]
        constructor
        · rintro ⟨pre, x, post, rfl, h2, h3⟩
          refine ⟨k :: pre, x, post, rfl, fun y hy => ?_, h3⟩
          rcases List.mem_cons.1 hy with rfl | hy
          · exact ⟨v, hk⟩
          · exact h2 y hy
        · rintro ⟨pre, x, post, h1, h2, h3⟩
          cases pre with
          | nil =>
            obtain ⟨rfl, -⟩ := List.cons.inj h1
            rw [hk] at h3
            simp at h3
          | cons y pre =>
            obtain ⟨rfl, rfl⟩ := List.cons.inj h1
            exact ⟨pre, x, post, rfl, fun z hz => h2 z (by simp [hz]), h3⟩

/-- The key of a computed parameter is found: `get_custom(atom, ['q6'])`, with a codec reading the word as 6. -/
example (a : Atom) (C : Codec) (hC : C.int "6" = some 6) (h : dictGet a.custom "q6" = none) : C.getCustom (fun _ _ => none) a ["q6"] = .ok [.num (a.q 6)] :=
  ((C50_lookup C _ a _).2.1 _).2 (.cons (.q "6" 6 h rfl (by decide) hC (by norm_num)) .nil)

/-! ## C51 -/

/-- **C51 is false for reading**: with every format name that is not built in, reading raises TypeError, also if ASE
reads the file. -/
theorem C51_false_read (W : World) (s : System) (src : Source) (format : String) (keys : List String) (hf : format ∉ ["lammps-dump", "ase", "mdtraj", "poscar"]) :
    s.readInput W src format keys = .error .typeError := by
  simp only [List.mem_cons, List.not_mem_nil, or_false, not_or] at hf
  obtain ⟨h1, h2, h3, h4⟩ := hf
  have : W.readFile src format keys = .error .typeError := by
    unfold World.readFile
    rw [if_neg h1, if_neg h2, if_neg h3, if_neg h4]
    cases src with
    | path name =>
      cases h : W.aseRead (some format) name with
      | error e => simp only [h, bind, Except.bind]
      | ok o => simp only [h, bind, Except.bind]
    | ase o => rfl
    | mdtraj o => rfl
  unfold System.readInput
  rw [this]
  rfl

/-- **C51 is false for writing**: with every format name that is not built in, writing raises TypeError; if the
conversion and ASE succeed the file has been written all the same. -/
theorem C51_false_write (W : World) (s : System) (format : String) (keys : List String) (vals : Option (List (List String))) (t : ℤ) (species : Option (List String))
    (hf : format ∉ ["lammps-dump", "lammps-data", "poscar"]) :
    (W.writeFile s format keys vals t species).result = .error .typeError ∧
    ∀ o lines, (s.convertSnap W.known species).2 = .ok o → W.aseWrite format o = .ok lines → (W.writeFile s format keys vals t species).file = some lines := by
  simp only [List.mem_cons, List.not_mem_nil, or_false, not_or] at hf
  obtain ⟨h1, h2, h3⟩ := hf
  unfold World.writeFile
  rw [if_neg h1, if_neg h2, if_neg h3]
  constructor
  · dsimp only
    generalize W.convertWrite s format species = r
    obtain ⟨r1, r2, r3⟩ := r
    cases r3 <;> rfl
  · intro o lines ho hl
    have hr : W.convertWrite s format species = ⟨(s.convertSnap W.known species).1, some lines, .ok ()⟩ := by
      unfold World.convertWrite
      simp only [ho, hl]
    rw [hr]
    rfl

/-- **C51, in part, reading**: the built-in names that use ASE or mdtraj read what these deliver, and an error of ASE is passed on. -/
theorem C51_read_partial (W : World) (s : System) (keys : List String) :
    (∀ src format o, Delivers W o src format → s.readInput W src format keys = (s.setBox o.cell).bind fun s1 => s1.assignAtoms (readAse o).1) ∧
    (∀ name e, W.aseRead none name = .error e → s.readInput W (.path name) "ase" keys = .error e) ∧
    (∀ name e, W.aseRead (some "vasp") name = .error e → s.readInput W (.path name) "poscar" keys = .error e) ∧
    ∀ name, W.files name = none → s.readInput W (.path name) "lammps-dump" keys = .error .fileNotFound := by
  refine ⟨fun src format o hd => readInput_delivers hd s keys, fun name e h => ?_, fun name e h => ?_, fun name h => ?_⟩
  · unfold System.readInput World.readFile
    rw [if_neg (by decide), if_pos rfl]
    simp only [h]
    rfl
  · unfold System.readInput World.readFile
    rw [if_neg (by decide), if_neg (by decide), if_neg (by decide), if_pos rfl]
    simp only [h]
    rfl
  · unfold System.readInput World.readFile
    rw [if_pos rfl]
    simp only [h]
    rfl

/-- **C51, in part, writing**: the formats `lammps-data` and, with species, `poscar` write what ASE makes of the converted
system; errors of the conversion and of ASE are passed on, and then no file is written. -/
theorem C51_write_partial (W : World) (s : System) (keys : List String) (vals : Option (List (List String))) (t : ℤ) (sp : List String) (format ase : String)
    (hf : (format, ase) = ("lammps-data", "lammps-data") ∨ (format, ase) = ("poscar", "vasp")) :
    (∀ s' o lines, s.convertSnap W.known (some sp) = (s', .ok o) → W.aseWrite ase o = .ok lines →
      W.writeFile s format keys vals t (some sp) = ⟨s', some lines, .ok ()⟩) ∧
    (∀ s' o e, s.convertSnap W.known (some sp) = (s', .ok o) → W.aseWrite ase o = .error e → W.writeFile s format keys vals t (some sp) = ⟨s', none, .error e⟩) ∧
    ∀ s' e, s.convertSnap W.known (some sp) = (s', .error e) → W.writeFile s format keys vals t (some sp) = ⟨s', none, .error e⟩ := by
  have hw : W.writeFile s format keys vals t (some sp) = W.convertWrite s ase (some sp) := by
    unfold World.writeFile
    rcases hf with hf | hf
    · obtain ⟨rfl, rfl⟩ := Prod.mk.inj hf
      rw [if_neg (by decide), if_pos rfl]
    · obtain ⟨rfl, rfl⟩ := Prod.mk.inj hf
      rw [if_neg (by decide), if_neg (by decide), if_pos rfl]
  rw [hw]
  unfold World.convertWrite
  refine ⟨fun s' o lines h h' => ?_, fun s' o e h h' => ?_, fun s' e h => ?_⟩
  · simp only [h, h']
  · simp only [h, h']
  · simp only [h]

/-- A world in which ASE reads every file as one copper atom and writes one line. -/
noncomputable def cuWorld : World where
  C := unaryCodec
  f14 := unaryCodec.fmtF
  attr _ _ := none
  files _ := none
  known _ := true
  aseRead _ _ := .ok (cuCube 4)
  aseWrite _ _ := .ok ["written\n"]

/-- ASE reads and writes the format `cif`, yet `read_inputfile` and `to_file` raise TypeError, the latter after writing. -/
theorem C51_case : cuWorld.aseRead (some "cif") "a.cif" = .ok (cuCube 4) ∧ System.init.readInput cuWorld (.path "a.cif") "cif" [] = .error .typeError ∧
    (cuWorld.writeFile (typedSystem [1]) "cif" [] none 0 (some ["Cu"])).result = .error .typeError ∧
    (cuWorld.writeFile (typedSystem [1]) "cif" [] none 0 (some ["Cu"])).file = some ["written\n"] := by
  obtain ⟨s', h, -⟩ := C73_sticky_case
  refine ⟨rfl, C51_false_read _ _ _ _ _ (by decide), (C51_false_write _ _ _ _ _ _ _ (by decide)).1, ?_⟩
  exact (C51_false_write cuWorld _ _ _ _ _ _ (by decide)).2 ⟨diagBox 4 4 4, [("Cu", 0)]⟩ ["written\n"] (congrArg Prod.snd h) rfl

end Pyscal
