import Verif.Spec.Misc
import Verif.Props.Angles
import Verif.Props.Voronoi
import Verif.Props.Cutoff
import Verif.Props.Sro

/-! Properties C82, C83, C84: `compare_atomic_env`, `find_tetrahedral_voids`, `store_neighbor_info`. -/

namespace Pyscal

/-! ## C82 -/

theorem rintEven_near (x : ℝ) : |(rintEven x : ℝ) - x| ≤ 1 / 2 := by
  have h1 := Int.floor_add_fract x
  have h2 := Int.fract_nonneg x
  have h3 := Int.fract_lt_one x
  unfold rintEven
  rw [abs_le]
  split_ifs <;> push_cast <;> constructor <;> linarith

theorem npRound_rounded (p : ℤ) (x : ℝ) : Spec.IsRounded p x (npRound p x) := by
  have h10 : (0 : ℝ) < (10 : ℝ) ^ p := by positivity
  refine ⟨⟨rintEven (x * 10 ^ p), ?_⟩, ?_⟩
  · unfold npRound; field_simp
  · have := rintEven_near (x * 10 ^ p)
    have e : |npRound p x - x| * (10 : ℝ) ^ p = |(rintEven (x * 10 ^ p) : ℝ) - x * 10 ^ p| := by
      rw [← abs_of_pos h10, ← abs_mul, abs_of_pos h10]
      congr 1
      unfold npRound
      field_simp
    rw [e]; exact this

theorem uniqueReals_pairwise (l : List ℝ) : (uniqueReals l).Pairwise (· < ·) := by
  classical
  have h1 := List.pairwise_mergeSort (le := fun a b : ℝ => decide (a ≤ b)) (fun a b c h h' => by simp only [decide_eq_true_eq] at *; exact h.trans h')
      (fun a b => by simp only [Bool.or_eq_true, decide_eq_true_eq]; exact le_total a b) l.dedup
  have h2 : (l.dedup.mergeSort fun a b : ℝ => decide (a ≤ b)).Nodup := (List.mergeSort_perm _ _).nodup_iff.2 (List.nodup_dedup l)
  have h3 := (List.Pairwise.and h1 h2).imp fun {a b} h => lt_of_le_of_ne (by simpa using h.1) h.2
  unfold uniqueReals
  convert h3

theorem mem_uniqueReals {l : List ℝ} {x : ℝ} : x ∈ uniqueReals l ↔ x ∈ l := by
  unfold uniqueReals; rw [List.mem_mergeSort, List.mem_dedup]

theorem uniqueStrings_pairwise (xs : List String) : (uniqueStrings xs).Pairwise (· < ·) := by
  have h1 := List.pairwise_mergeSort (le := fun a b : String => decide (a ≤ b)) (fun a b c hab hbc => by
    simp only [decide_eq_true_eq] at *; exact le_trans hab hbc) (fun a b => by simp only [Bool.or_eq_true, decide_eq_true_eq]; exact le_total a b) xs.dedup
  have h2 : (uniqueStrings xs).Nodup := (List.mergeSort_perm _ _).nodup_iff.2 (List.nodup_dedup xs)
  exact (List.Pairwise.and h1 h2).imp fun h => lt_of_le_of_ne (by simpa using h.1) h.2

theorem mem_uniqueStrings {xs : List String} {x : String} : x ∈ uniqueStrings xs ↔ x ∈ xs := by
  unfold uniqueStrings; rw [List.mem_mergeSort, List.mem_dedup]

/-- **C82, what holds.**  Full statement: `compare_atomic_env` returns the different Voronoi volumes of the atoms of the given
type, the fingerprint for each volume and the number of atoms with it.  Proved, whatever the atoms and their cells: the
volumes are exactly those of the atoms of this type, rounded to `p` decimals, in increasing order; the numbers are those of the atoms with
each volume and add up to the number of atoms of the type; the fingerprints are those of the atoms, in increasing order, as many as
volumes.  Missing: fingerprint `i` need not belong to volume `i` (`C82_false_pairing`); an error is raised if the numbers
of volumes and fingerprints differ (`C82_false_error`). -/
theorem C82_partial (t p : ℤ) (l : List Atom) (vols : List ℝ) (fps : List String) (counts : List ℕ)
    (h : compareEnv t p l = .ok (vols, fps, counts)) :
    ∃ round : ℝ → ℝ, (∀ x, Spec.IsRounded p x (round x)) ∧
    vols.Pairwise (· < ·) ∧ (∀ v, v ∈ vols ↔ ∃ a ∈ l, a.type = t ∧ round a.volume = v) ∧
    counts.length = vols.length ∧
    (∀ (i : ℕ) (v : ℝ) (n : ℕ), vols[i]? = some v → counts[i]? = some n → n = (l.filter fun a => decide (a.type = t ∧ round a.volume = v)).length ∧ 0 < n) ∧
    counts.sum = (l.filter fun a => decide (a.type = t)).length ∧
    fps.Pairwise (· < ·) ∧ (∀ f, f ∈ fps ↔ ∃ a ∈ l, a.type = t ∧ " ".intercalate (a.vorovector.map toString) = f) ∧
    fps.length = vols.length := by
  classical
  unfold compareEnv at h
  dsimp only at h
  split_ifs at h with hlen
  simp only [not_not] at hlen
  simp only [Except.ok.injEq, Prod.mk.injEq] at h
  obtain ⟨rfl, rfl, rfl⟩ := h
  have hmem : ∀ v, v ∈ envVolumes t p l ↔ ∃ a ∈ l, a.type = t ∧ npRound p a.volume = v := by
    intro v
    unfold envVolumes ofType
    simp [and_assoc]
  have hcount : ∀ v, (envVolumes t p l).count v = (l.filter fun a => decide (a.type = t ∧ npRound p a.volume = v)).length := by
    intro v
    unfold envVolumes ofType
    rw [List.count, List.countP_map, List.countP_filter, List.countP_eq_length_filter]
    congr 1
    refine List.filter_congr fun a _ => ?_
    simp only [Function.comp, Bool.decide_and, beq_eq_decide]
    rw [Bool.and_comm]
  refine ⟨npRound p, npRound_rounded p, uniqueReals_pairwise _, fun v => by rw [mem_uniqueReals, hmem], by simp, ?_, ?_, uniqueStrings_pairwise _, ?_,
    hlen.symm⟩
  · intro i v n hv hn
    rw [List.getElem?_map, hv, Option.map_some, Option.some.injEq] at hn
    refine ⟨by rw [← hn, ← hcount], ?_⟩
    have : v ∈ envVolumes t p l := mem_uniqueReals.1 (List.mem_of_getElem? hv)
    rw [← hn]
    have := List.count_pos_iff.2 this
    convert this
  · have h1 : ((uniqueReals (envVolumes t p l)).map fun v => (envVolumes t p l).count v).sum = (envVolumes t p l).length := by
      have hperm : (uniqueReals (envVolumes t p l)).Perm (envVolumes t p l).dedup := by
        unfold uniqueReals
        refine (List.mergeSort_perm _ _).trans ?_
        congr!
      rw [(hperm.map _).sum_eq]
      exact List.sum_map_count_dedup_eq_length _
    convert h1 using 1
    unfold envVolumes ofType; simp
  · intro f
    rw [mem_uniqueStrings]
    unfold ofType fingerprint
    simp [and_assoc]

theorem npRound_int (n : ℤ) : npRound 2 n = n := by
  have e : (n : ℝ) * (10 : ℝ) ^ (2 : ℤ) = ((n * 100 : ℤ) : ℝ) := by push_cast; norm_num
  have h : rintEven ((n * 100 : ℤ) : ℝ) = n * 100 := by
    unfold rintEven
    rw [Int.fract_intCast, if_pos (by norm_num), Int.floor_intCast]
  unfold npRound
  rw [e, h]
  push_cast
  norm_num

theorem uniqueReals_of {l m : List ℝ} (hm : m.Pairwise (· < ·)) (h : ∀ x, x ∈ m ↔ x ∈ l) : uniqueReals l = m := by
  refine List.Perm.eq_of_pairwise (le := (· < ·)) (fun a b _ _ h1 h2 => absurd h1 (lt_asymm h2)) (uniqueReals_pairwise l) hm ?_
  refine (List.perm_ext_iff_of_nodup ((uniqueReals_pairwise l).imp fun h => ne_of_lt h) (hm.imp fun h => ne_of_lt h)).2 fun x => ?_
  rw [mem_uniqueReals, h]

theorem uniqueStrings_of {l m : List String} (hm : m.Pairwise (· < ·)) (h : ∀ x, x ∈ m ↔ x ∈ l) : uniqueStrings l = m := by
  refine List.Perm.eq_of_pairwise (le := (· < ·)) (fun a b _ _ h1 h2 => absurd h1 (lt_asymm h2)) (uniqueStrings_pairwise l) hm ?_
  refine (List.perm_ext_iff_of_nodup ((uniqueStrings_pairwise l).imp fun h => ne_of_lt h) (hm.imp fun h => ne_of_lt h)).2 fun x => ?_
  rw [mem_uniqueStrings, h]

theorem fingerprint_4000 (a : Atom) (h : a.vorovector = [4, 0, 0, 0]) : fingerprint a = "4 0 0 0" := by
  unfold fingerprint; rw [h]; decide +kernel

theorem fingerprint_0600 (a : Atom) (h : a.vorovector = [0, 6, 0, 0]) : fingerprint a = "0 6 0 0" := by
  unfold fingerprint; rw [h]; decide +kernel

/-- **C82 is false, pairing**: two atoms of volumes 1 and 2, the smaller one with the larger fingerprint.  The entry with the
volume of the first one carries the fingerprint of the second. -/
theorem C82_false_pairing : ∃ a b : Atom, a.type = 2 ∧ b.type = 2 ∧ a.volume = 1 ∧ a.vorovector = [4, 0, 0, 0] ∧ b.volume = 2 ∧
    b.vorovector = [0, 6, 0, 0] ∧ compareEnv 2 2 [a, b] = .ok ([1, 2], ["0 6 0 0", "4 0 0 0"], [1, 1]) := by
  refine ⟨{ pos := 0, type := 2, volume := 1, vorovector := [4, 0, 0, 0] }, { pos := 0, type := 2, volume := 2, vorovector := [0, 6, 0, 0] },
    rfl, rfl, rfl, rfl, rfl, rfl, ?_⟩
  have h1 := npRound_int 1
  have h2 := npRound_int 2
  push_cast at h1 h2
  have e : uniqueReals [1, 2] = [1, 2] := uniqueReals_of (by norm_num) (fun x => Iff.rfl)
  have hlt : "0 6 0 0" < "4 0 0 0" := by decide +kernel
  have e2 : uniqueStrings ["4 0 0 0", "0 6 0 0"] = ["0 6 0 0", "4 0 0 0"] := uniqueStrings_of (List.pairwise_cons.2 ⟨fun x hx => by rw [List.mem_singleton.1 hx]; exact hlt, by simp⟩) (fun x => by simp [or_comm])
  unfold compareEnv
  simp [envVolumes, ofType, fingerprint_4000, fingerprint_0600, h1, h2, e, e2, List.count_cons]

/-- **C82 is false, errors**: two atoms with the same fingerprint and different volumes give no result. -/
theorem C82_false_error : ∃ a b : Atom, a.type = 2 ∧ b.type = 2 ∧ a.volume = 1 ∧ b.volume = 2 ∧ a.vorovector = [0, 6, 0, 0] ∧
    b.vorovector = [0, 6, 0, 0] ∧ compareEnv 2 2 [a, b] = .error .valueError := by
  refine ⟨{ pos := 0, type := 2, volume := 1, vorovector := [0, 6, 0, 0] }, { pos := 0, type := 2, volume := 2, vorovector := [0, 6, 0, 0] },
    rfl, rfl, rfl, rfl, rfl, rfl, ?_⟩
  have h1 := npRound_int 1
  have h2 := npRound_int 2
  push_cast at h1 h2
  have e : uniqueReals [1, 2] = [1, 2] := uniqueReals_of (by norm_num) (fun x => Iff.rfl)
  have e2 : uniqueStrings ["0 6 0 0", "0 6 0 0"] = ["0 6 0 0"] := uniqueStrings_of (by simp) (fun x => by simp)
  unfold compareEnv
  simp [envVolumes, ofType, fingerprint_0600, h1, h2, e, e2]

/-- The atoms after the Voronoi analysis of a file. -/
theorem voronoi_run (T : Tessellation) (L1 L2 L3 : ℝ) (atoms : List Atom) (hg : ∀ a ∈ atoms, a.ghost = false) (s0 s s1 s2 : System)
    (h0 : System.init.setBox (Spec.diagBox L1 L2 L3) = .ok s0) (h1 : s0.assignAtoms atoms = .ok s) (h2 : s.findVoronoi T 0 1 = .ok s1)
    (h3 : s1.calculateVorovector (5 / 100) (1 / 100) = .ok s2) :
    ∃ (l : List Atom) (E : V3) (P : List V3), s2.getAtoms = .ok l ∧ l.length = atoms.length ∧
      (200 ≤ atoms.length → E = ⟨|L1|, |L2|, |L3|⟩ ∧ P.length = atoms.length) ∧
      List.Forall₂ (Spec.InContainer E) (atoms.map Atom.pos) (P.take atoms.length) ∧
      ∀ (k : ℕ) (a a' : Atom), atoms[k]? = some a → l[k]? = some a' → a'.type = a.type ∧
        ∀ c, T E P k = some c → Spec.ValidCell c → a'.volume = c.volume ∧
          a'.vorovector = [3, 4, 5, 6].map (Spec.numFaces c 1 (5 / 100) (1 / 100)) ∧
          a'.nbrs.map Nb.idx = c.faces.map VFace.nb := by
  rw [show System.init.setBox (Spec.diagBox L1 L2 L3) = .ok { System.init with box := Spec.diagBox L1 L2 L3 } from if_neg (not_skewed_diag _ _ _)] at h0
  have hs0 := (Except.ok.inj h0).symm
  obtain ⟨extra, e1, -, e3, -, -, e6, e7, -⟩ := assign_shape hg h1
  have htri : s.triclinic = false := by
    by_cases hl : atoms.length < 200
    · have := (assign_box hl h1 (by
        have : scaleBox s0.getBox (padReps atoms.length) (padReps atoms.length) (padReps atoms.length) =
            Spec.diagBox ((2 * (padReps atoms.length : ℝ) + 1) * L1) ((2 * (padReps atoms.length : ℝ) + 1) * L2) ((2 * (padReps atoms.length : ℝ) + 1) * L3) := by
          simp [scaleBox, hs0, System.getBox, Spec.diagBox, V3.smul, System.init]
        rw [this]
        exact not_skewed_diag _ _ _)).2
      rw [this, hs0]; rfl
    · rw [(e6 (by omega)).2, hs0]; rfl
  have hp := voronoiStart_ortho htri 0 1
  obtain ⟨hl1, -, -, -, hat⟩ := findVoronoi_atom h2 hp
  have hcon := isContainer_start htri hp
  set E : V3 := ⟨System.boxx { s.resetAllNeighbors with filter := 0, alpha := 1 }, System.boxy { s.resetAllNeighbors with filter := 0, alpha := 1 },
    System.boxz { s.resetAllNeighbors with filter := 0, alpha := 1 }⟩ with hE
  set P : List V3 := (System.atoms { s.resetAllNeighbors with filter := 0, alpha := 1 }).map fun a =>
    System.remapAtom { s.resetAllNeighbors with filter := 0, alpha := 1 } a.pos with hP
  obtain ⟨new, hnew, has⟩ := calculateVorovector_ok h3
  obtain ⟨m1, m2⟩ := mapM_except _ _ _ hnew
  have hreal1 : s1.realNop = atoms.length := by
    obtain ⟨p', at', hp', -, -, -, s3, hb3, rfl⟩ := findVoronoi_ok h2
    rw [hp] at hp'
    obtain rfl := Except.ok.inj hp'
    change s3.realNop = _
    rw [(setBox_frame hb3).2.2.2.2.1]
    exact e3
  have hlen1 : s1.atoms.length = (atoms ++ extra).length := by
    rw [hl1, ← e1]; simp [System.resetAllNeighbors]
  have hnl : new.length = atoms.length := by
    rw [m1, hreal1, List.length_take, hlen1, List.length_append]; omega
  have hlook : ∀ (k : ℕ) (b : Atom), new[k]? = some b → ∃ a a1, atoms[k]? = some a ∧ s1.atoms[k]? = some a1 ∧ b = { a1 with vorovector := b.vorovector } ∧
      b.type = a.type ∧ b.ghost = false ∧
      ∀ c, T E P k = some c → b.volume = c.volume ∧ b.nbrs.map Nb.idx = c.faces.map VFace.nb := by
    intro k b hb
    have hk : k < atoms.length := hnl ▸ (List.getElem?_eq_some_iff.1 hb).1
    have hk1 : k < s1.atoms.length := by rw [hlen1, List.length_append]; omega
    have e0 := List.getElem?_eq_getElem hk1
    obtain ⟨b', hb', hb''⟩ := m2 k s1.atoms[k] (by rw [List.getElem?_take, if_pos (by omega), e0])
    rw [hb] at hb''
    obtain rfl := Option.some.inj hb''
    have hf := vorovector1_frame hb'
    obtain ⟨a1, ha1, n1, n2⟩ := hat k _ e0
    have ha1' : a1 = { atoms[k] with nbrs := [], temp := [], condition := some 0 } := by
      change (s.atoms.map _)[k]? = _ at ha1
      rw [e1, List.getElem?_map, List.getElem?_append_left hk, List.getElem?_eq_getElem hk] at ha1
      exact (Option.some.inj ha1).symm
    have hcase : s1.atoms[k].type = atoms[k].type ∧ s1.atoms[k].ghost = false := by
      have hgk := hg _ (List.getElem_mem hk)
      cases hc : T E P k with
      | none => rw [n1 hc, ha1']; exact ⟨rfl, hgk⟩
      | some c => rw [n2 c hc, ha1']; exact ⟨rfl, hgk⟩
    refine ⟨atoms[k], _, List.getElem?_eq_getElem hk, e0, hf, ?_, ?_, ?_⟩
    · rw [hf]; exact hcase.1
    · rw [hf]; exact hcase.2
    · intro c hc
      rw [hf]
      change s1.atoms[k].volume = _ ∧ s1.atoms[k].nbrs.map Nb.idx = _
      rw [n2 c hc]
      refine ⟨rfl, ?_⟩
      simp only [List.map_map]
      rfl
  have hng : ∀ b ∈ new, b.ghost = false := by
    intro b hb
    obtain ⟨k, hk⟩ := List.getElem?_of_mem hb
    obtain ⟨-, -, -, -, -, -, h, -⟩ := hlook k b hk
    exact h
  obtain ⟨g1, -⟩ := C05_assign_atoms s1 s2 new hng has
  refine ⟨new, E, P, g1, hnl, ?_, ?_, ?_⟩
  rotate_left
  · have := List.forall₂_take atoms.length hcon.2
    rw [e1, List.map_append, List.take_append_of_le_length (by simp), List.take_of_length_le (by simp)] at this
    exact this
  · intro k a b ha hb
    obtain ⟨a', a1, ha', -, -, h5, -, h7⟩ := hlook k b hb
    rw [ha] at ha'
    obtain rfl := Option.some.inj ha'
    refine ⟨h5, fun c hc hv => ⟨(h7 c hc).1, ?_, (h7 c hc).2⟩⟩
    obtain ⟨ex2, hx2⟩ := assign_prefix has
    have hk : k < new.length := (List.getElem?_eq_some_iff.1 hb).1
    refine (vorovector_cell T s s1 s2 _ 1 _ _ h2 hp h3 k b ?_ ?_ c hc hv).1
    · change k < s1.realNop
      omega
    · rw [hx2, List.getElem?_append_left hk, hb]
  · intro hge
    obtain ⟨hx, hs⟩ := e6 hge
    have hbox : s.box = Spec.diagBox L1 L2 L3 := by rw [hs, hs0]; rfl
    refine ⟨?_, ?_⟩
    · rw [hcon.1, hbox]
      simp [V3.norm, V3.normSq, Spec.diagBox, Real.sqrt_mul_self_eq_abs]
    · rw [List.length_map, ← hl1, hlen1, hx, List.append_nil]

/-- **C82, the whole function**: for an orthogonal box, when `compare_atomic_env` returns, the result is that of `C82_partial` for
a list of atoms with the types of the file in its order; their volumes are those of the cells of a tessellation of a
container with the atoms moved into it, and their fingerprints the numbers of faces with three to six edges. -/
theorem C82_run (T : Tessellation) (L1 L2 L3 : ℝ) (atoms : List Atom) (hg : ∀ a ∈ atoms, a.ghost = false) (t p : ℤ)
    (r : List ℝ × List String × List ℕ) (h : compareAtomicEnv T (Spec.diagBox L1 L2 L3) atoms t p = .ok r) :
    ∃ (l : List Atom) (E : V3) (P : List V3), compareEnv t p l = .ok r ∧ l.length = atoms.length ∧
      (200 ≤ atoms.length → E = ⟨|L1|, |L2|, |L3|⟩ ∧ P.length = atoms.length) ∧
      List.Forall₂ (Spec.InContainer E) (atoms.map Atom.pos) (P.take atoms.length) ∧
      ∀ (k : ℕ) (a a' : Atom), atoms[k]? = some a → l[k]? = some a' → a'.type = a.type ∧
        ∀ c, T E P k = some c → Spec.ValidCell c → a'.volume = c.volume ∧
          a'.vorovector = [3, 4, 5, 6].map (Spec.numFaces c 1 (5 / 100) (1 / 100)) := by
  unfold compareAtomicEnv at h
  cases h0 : System.init.setBox (Spec.diagBox L1 L2 L3) with
  | error e => rw [h0] at h; cases h
  | ok s0 =>
  rw [h0] at h
  simp only [bind, Except.bind] at h
  cases h1 : s0.assignAtoms atoms with
  | error e => rw [h1] at h; cases h
  | ok s =>
  rw [h1] at h
  dsimp only at h
  cases h2 : s.findVoronoi T 0 1 with
  | error e => rw [h2] at h; cases h
  | ok s1 =>
  rw [h2] at h
  dsimp only at h
  cases h3 : s1.calculateVorovector (5 / 100) (1 / 100) with
  | error e => rw [h3] at h; cases h
  | ok s2 =>
  rw [h3] at h
  dsimp only at h
  cases h4 : s2.getAtoms with
  | error e => rw [h4] at h; cases h
  | ok l =>
  rw [h4] at h
  dsimp only at h
  obtain ⟨l', E, P, h4', hh⟩ := voronoi_run T L1 L2 L3 atoms hg s0 s s1 s2 h0 h1 h2 h3
  rw [h4] at h4'
  obtain rfl := Except.ok.inj h4'
  refine ⟨l, E, P, h, hh.1, hh.2.1, hh.2.2.1, fun k a a' ha hb => ?_⟩
  obtain ⟨x1, x2⟩ := hh.2.2.2 k a a' ha hb
  exact ⟨x1, fun c hc hv => ⟨(x2 c hc hv).1, (x2 c hc hv).2.1⟩⟩

theorem numFaces_cube (k n : ℕ) : Spec.numFaces (cubeCell k) 1 (5 / 100) (1 / 100) n = Spec.numFaces (cubeCell 0) 1 (5 / 100) (1 / 100) n := by
  simp only [Spec.numFaces, ← List.countP_eq_length_filter]
  simp only [cubeCell, List.countP_cons, List.countP_nil, Spec.weight, Spec.polygon, List.map_cons, List.map_nil]

/-- Hypotheses of C82_run met: a chain of 200 atoms with a cube around each of them, one volume and one fingerprint. -/
example : ∃ r, compareAtomicEnv (fun _ _ k => some (cubeCell ((k + 1) % 200))) (Spec.diagBox 1000 1000 1000) chainAtoms 0 2 = .ok r ∧ r.1 = [1] ∧ r.2.2 = [200] := by
  obtain ⟨s0, s, s1, s2, h0, h1, h2, h3, -⟩ := chain_vorovector
  have hg : ∀ a ∈ chainAtoms, a.ghost = false := by
    intro a ha
    obtain ⟨i, -, rfl⟩ := List.mem_map.1 ha
    rfl
  obtain ⟨l, E, P, h4, hl, -, -, hk⟩ := voronoi_run _ 1000 1000 1000 chainAtoms hg s0 s s1 s2 h0 h1 h2 h3
  rw [chainAtoms_length] at hl
  have key : ∀ a ∈ l, a.type = 0 ∧ a.volume = 1 ∧ a.vorovector = [3, 4, 5, 6].map (Spec.numFaces (cubeCell 0) 1 (5 / 100) (1 / 100)) := by
    intro a ha
    obtain ⟨k, hka⟩ := List.getElem?_of_mem ha
    have hk200 : k < 200 := hl ▸ (List.getElem?_eq_some_iff.1 hka).1
    obtain ⟨h5, h6⟩ := hk k _ a (chainAtoms_get k hk200) hka
    obtain ⟨h7, h8⟩ := h6 _ rfl (cubeCell_valid _)
    exact ⟨h5, h7, h8.1.trans (List.map_congr_left fun n _ => numFaces_cube _ _)⟩
  have hne : l ≠ [] := fun e => by rw [e] at hl; simp at hl
  have hot : ofType 0 l = l := List.filter_eq_self.2 fun a ha => by simp [(key a ha).1]
  have hv : envVolumes 0 2 l = List.replicate 200 1 := by
    unfold envVolumes
    rw [hot, List.eq_replicate_iff]
    refine ⟨by simpa using hl, fun x hx => ?_⟩
    obtain ⟨a, ha, rfl⟩ := List.mem_map.1 hx
    have := npRound_int 1
    push_cast at this
    rw [(key a ha).2.1, this]
  have hf : ∃ f, uniqueStrings (l.map fingerprint) = [f] := by
    obtain ⟨a0, ha0⟩ := List.exists_mem_of_ne_nil _ hne
    refine ⟨fingerprint a0, uniqueStrings_of (by simp) fun x => ?_⟩
    rw [List.mem_singleton, List.mem_map]
    constructor
    · rintro rfl; exact ⟨a0, ha0, rfl⟩
    · rintro ⟨a, ha, rfl⟩
      unfold fingerprint
      rw [(key a ha).2.2, (key a0 ha0).2.2]
  obtain ⟨f, hf⟩ := hf
  have hu : uniqueReals (List.replicate 200 (1 : ℝ)) = [1] := uniqueReals_of (by simp) fun x => by
    rw [List.mem_replicate, List.mem_singleton]; exact ⟨fun h => ⟨by norm_num, h⟩, fun h => h.2⟩
  refine ⟨([1], [f], [200]), ?_, rfl, rfl⟩
  unfold compareAtomicEnv
  rw [h0]
  simp only [bind, Except.bind]
  rw [h1]
  dsimp only
  rw [h2]
  dsimp only
  rw [h3]
  dsimp only
  rw [h4]
  dsimp only
  unfold compareEnv
  rw [hv, hot, hf]
  dsimp only
  rw [hu]
  rw [if_neg (by simp), List.map_singleton, List.count_replicate_self]

/-! ## C83 -/

theorem mem_uniqueNeighbors {a : Atom} {j : ℕ} : j ∈ uniqueNeighbors a ↔ ∃ x ∈ a.nbrs, x.idx = j := by
  unfold uniqueNeighbors; rw [List.mem_mergeSort, List.mem_dedup, List.mem_map]

theorem uniqueNeighbors_nodup (a : Atom) : (uniqueNeighbors a).Nodup :=
  (List.mergeSort_perm _ _).nodup_iff.2 (List.nodup_dedup _)

/-- The test fails with IndexError. -/
def VoidFails (l : List Atom) (a : Atom) : Prop := a.vorovector[1]? = some 4 ∧ (a.nbrs = [] ∨ ∃ x ∈ a.nbrs, l.length ≤ x.idx)

theorem getD_four (a : Atom) : a.vorovector.getD 1 0 = 4 ↔ a.vorovector[1]? = some 4 := by
  rw [List.getD_eq_getElem?_getD]
  cases a.vorovector[1]? <;> simp

theorem voidDists_ok {s : System} {l : List Atom} {a : Atom} (h : ∀ x ∈ a.nbrs, x.idx < l.length) :
    voidDists s l a = .ok ((uniqueNeighbors a).map fun j => s.getDistance a (l.getD j default)) := by
  refine mapM_ok_map _ _ _ fun j hj => ?_
  obtain ⟨x, hx, rfl⟩ := mem_uniqueNeighbors.1 hj
  simp [List.getElem?_eq_getElem (h x hx), List.getD_eq_getElem?_getD]

theorem voidDists_error {s : System} {l : List Atom} {a : Atom} (h : ∃ x ∈ a.nbrs, l.length ≤ x.idx) : voidDists s l a = .error .indexError := by
  obtain ⟨x, hx, hl⟩ := h
  refine mapM_all_error _ _ _ (fun j _ => ?_) ⟨x.idx, mem_uniqueNeighbors.2 ⟨x, hx, rfl⟩, ?_⟩
  · cases l[j]? with
    | none => exact .inr rfl
    | some b => exact .inl ⟨_, rfl⟩
  · rw [List.getElem?_eq_none hl]

theorem isVoid_fails {s : System} {l : List Atom} {prec : ℝ} {a : Atom} (h : VoidFails l a) : isVoid s l prec a = .error .indexError := by
  obtain ⟨h4, h⟩ := h
  unfold isVoid
  rw [if_pos ((getD_four a).2 h4)]
  rcases h with h | h
  · have : uniqueNeighbors a = [] := List.eq_nil_iff_forall_not_mem.2 fun j hj => by
      obtain ⟨x, hx, -⟩ := mem_uniqueNeighbors.1 hj
      rw [h] at hx; cases hx
    unfold voidDists
    rw [this]
    rfl
  · rw [voidDists_error h]; rfl

open Classical in
theorem isVoid_ok {s : System} {l : List Atom} {prec : ℝ} {a : Atom} (hp : 0 ≤ prec) (h : ¬ VoidFails l a) :
    isVoid s l prec a = .ok (decide (Spec.TetrahedralSite s l prec a)) := by
  unfold isVoid
  by_cases h4 : a.vorovector[1]? = some 4
  · rw [if_pos ((getD_four a).2 h4)]
    have h' : a.nbrs ≠ [] ∧ ∀ x ∈ a.nbrs, x.idx < l.length := by
      refine ⟨fun e => h ⟨h4, .inl e⟩, fun x hx => ?_⟩
      by_contra hc
      exact h ⟨h4, .inr ⟨x, hx, not_lt.1 hc⟩⟩
    rw [voidDists_ok h'.2]
    simp only [bind, Except.bind]
    set D : ℕ → ℝ := fun j => s.getDistance a (l.getD j default) with hD
    set N := uniqueNeighbors a with hN
    have hget : ∀ j ∈ N, ∃ b, l[j]? = some b ∧ D j = s.getDistance a b := by
      intro j hj
      obtain ⟨x, hx, rfl⟩ := mem_uniqueNeighbors.1 hj
      exact ⟨_, List.getElem?_eq_getElem (h'.2 x hx), by simp [hD, List.getD_eq_getElem?_getD, h'.2 x hx]⟩
    have hset : {d | ∃ x ∈ a.nbrs, ∃ b, l[x.idx]? = some b ∧ d = s.getDistance a b} = {d | d ∈ N.map D} := by
      ext d
      simp only [Set.mem_ofPred_eq, List.mem_map]
      constructor
      · rintro ⟨x, hx, b, hb, rfl⟩
        refine ⟨x.idx, mem_uniqueNeighbors.2 ⟨x, hx, rfl⟩, ?_⟩
        simp [hD, List.getD_eq_getElem?_getD, hb]
      · rintro ⟨j, hj, rfl⟩
        obtain ⟨b, hb, e⟩ := hget j hj
        obtain ⟨x, hx, rfl⟩ := mem_uniqueNeighbors.1 hj
        exact ⟨x, hx, b, hb, e⟩
    cases hm : (N.map D).min? with
    | none =>
      rw [List.min?_eq_none_iff, List.map_eq_nil_iff] at hm
      obtain ⟨x, hx⟩ := List.exists_mem_of_ne_nil _ h'.1
      have : x.idx ∈ N := mem_uniqueNeighbors.2 ⟨x, hx, rfl⟩
      rw [hm] at this; cases this
    | some m =>
      rw [List.min?_eq_some_iff] at hm
      have hleast : IsLeast {d | ∃ x ∈ a.nbrs, ∃ b, l[x.idx]? = some b ∧ d = s.getDistance a b} m := by
        rw [hset]; exact ⟨hm.1, fun d hd => hm.2 d hd⟩
      have hm0 : 0 ≤ m := by
        obtain ⟨j, -, rfl⟩ := List.mem_map.1 hm.1
        exact Real.sqrt_nonneg _
      have hcount : ((N.map D).countP fun d => decide (m * (1 - prec) ≤ d ∧ d ≤ m * (1 + prec))) =
          Set.ncard {j | (∃ x ∈ a.nbrs, x.idx = j) ∧ ∃ b, l[j]? = some b ∧ s.getDistance a b ≤ m * (1 + prec)} := by
        have e : {j | (∃ x ∈ a.nbrs, x.idx = j) ∧ ∃ b, l[j]? = some b ∧ s.getDistance a b ≤ m * (1 + prec)} =
            ((N.filter fun j => decide (D j ≤ m * (1 + prec))).toFinset : Set ℕ) := by
          ext j
          simp only [Set.mem_ofPred_eq, List.coe_toFinset, List.mem_filter, decide_eq_true_eq]
          constructor
          · rintro ⟨h1, b, hb, hle⟩
            exact ⟨mem_uniqueNeighbors.2 h1, by simpa [hD, List.getD_eq_getElem?_getD, hb] using hle⟩
          · rintro ⟨hj, hle⟩
            obtain ⟨b, hb, e⟩ := hget j hj
            exact ⟨mem_uniqueNeighbors.1 hj, b, hb, e ▸ hle⟩
        rw [e, Set.ncard_coe_finset, List.toFinset_card_of_nodup ((uniqueNeighbors_nodup a).filter _), List.countP_map, List.countP_eq_length_filter]
        congr 1
        refine List.filter_congr fun j hj => ?_
        have : m ≤ D j := hm.2 _ (List.mem_map_of_mem hj)
        have : m * (1 - prec) ≤ D j := by nlinarith
        simp [this]
      change Except.ok _ = Except.ok _
      congr 1
      rw [hcount, Bool.eq_iff_iff, beq_iff_eq, decide_eq_true_eq]
      constructor
      · intro hc; exact ⟨h4, m, hleast, hc⟩
      · rintro ⟨-, m', hm', hc⟩
        obtain rfl := hleast.unique hm'
        exact hc
  · rw [if_neg fun e => h4 ((getD_four a).1 e)]
    congr 1
    symm
    rw [decide_eq_false_iff_not]
    exact fun hh => h4 hh.1

open Classical in
theorem voidLoop_false {s : System} {l : List Atom} {prec : ℝ} (hp : 0 ≤ prec) (as : List Atom) :
    ((∀ a ∈ as, ¬ VoidFails l a) → voidLoop s l false prec as =
      .ok ((as.filter fun a => decide (Spec.TetrahedralSite s l prec a)).map fun a => (a.type, a.volume, a.pos))) ∧
    ((∃ a ∈ as, VoidFails l a) → voidLoop s l false prec as = .error .indexError) := by
  induction as with
  | nil => exact ⟨fun _ => rfl, fun ⟨a, ha, _⟩ => by cases ha⟩
  | cons a as ih =>
    unfold voidLoop
    by_cases hf : VoidFails l a
    · rw [isVoid_fails hf]
      exact ⟨fun h => absurd hf (h a List.mem_cons_self), fun _ => rfl⟩
    · rw [isVoid_ok hp hf]
      simp only [bind, Except.bind]
      by_cases ht : Spec.TetrahedralSite s l prec a
      · simp only [ht, decide_true, if_true]
        refine ⟨fun h => ?_, fun h => ?_⟩
        · rw [ih.1 fun b hb => h b (List.mem_cons_of_mem _ hb)]
          simp [ht, pure, Except.pure]
        · obtain ⟨b, hb, hbf⟩ := h
          rcases List.mem_cons.1 hb with rfl | hb
          · exact absurd hbf hf
          · rw [ih.2 ⟨b, hb, hbf⟩]; rfl
      · simp only [ht, decide_false]
        refine ⟨fun h => ?_, fun h => ?_⟩
        · rw [if_neg (by simp), ih.1 fun b hb => h b (List.mem_cons_of_mem _ hb)]
          simp [ht]
        · obtain ⟨b, hb, hbf⟩ := h
          rcases List.mem_cons.1 hb with rfl | hb
          · exact absurd hbf hf
          · rw [if_neg (by simp), ih.2 ⟨b, hb, hbf⟩]

open Classical in
/-- **C83, what holds.**  Full statement: `find_tetrahedral_voids` returns type, volume and position of exactly the atoms in a tetrahedral
position.  Proved with `direct_coordinates=False`: if every candidate (four faces with four edges) has a neighbour and only neighbours in
`sys.atoms`, then the result lists exactly the atoms with four faces of four edges and four nearest neighbours within the tolerance, in
order; otherwise IndexError is raised.  Missing: the default `direct_coordinates=True` (`C83_false_direct`), neighbours that are periodic
copies (second part). -/
theorem C83_partial (s : System) (l : List Atom) (prec : ℝ) (hi : StoreInv s l) (hp : 0 ≤ prec) :
    ((∀ a ∈ l, a.vorovector[1]? = some 4 → a.nbrs ≠ [] ∧ ∀ x ∈ a.nbrs, x.idx < l.length) →
      s.tetrahedralVoids false prec = .ok ((l.filter fun a => decide (Spec.TetrahedralSite s l prec a)).map fun a => (a.type, a.volume, a.pos))) ∧
    ((∃ a ∈ l, a.vorovector[1]? = some 4 ∧ (a.nbrs = [] ∨ ∃ x ∈ a.nbrs, l.length ≤ x.idx)) →
      s.tetrahedralVoids false prec = .error .indexError) := by
  unfold System.tetrahedralVoids
  rw [getAtoms_inv hi]
  refine ⟨fun h => (voidLoop_false hp l).1 fun a ha hf => ?_, fun h => (voidLoop_false hp l).2 h⟩
  obtain ⟨h4, hf⟩ := hf
  obtain ⟨h1, h2⟩ := h a ha h4
  rcases hf with hf | ⟨x, hx, hl⟩
  · exact h1 hf
  · exact absurd (h2 x hx) (not_lt.2 hl)

/-- **C83 is false with the default `direct_coordinates=True`**: for every orthogonal box, as soon as one atom is in a tetrahedral
position the function fails with ZeroDivisionError (IndexError if a candidate has a neighbour outside `sys.atoms`). -/
theorem C83_false_direct (s : System) (l : List Atom) (prec L1 L2 L3 : ℝ) (hi : StoreInv s l) (hp : 0 ≤ prec)
    (hb : s.getBox = Spec.diagBox L1 L2 L3) (a : Atom) (ha : a ∈ l) (hs : Spec.TetrahedralSite s l prec a)
    (hn : ∀ a ∈ l, a.vorovector[1]? = some 4 → a.nbrs ≠ [] ∧ ∀ x ∈ a.nbrs, x.idx < l.length) :
    s.tetrahedralVoids true prec = .error .zeroDivision := by
  have hall : ∀ a ∈ l, ¬ VoidFails l a := by
    rintro a ha ⟨h4, hf⟩
    obtain ⟨h1, h2⟩ := hn a ha h4
    rcases hf with hf | ⟨x, hx, hl⟩
    · exact h1 hf
    · exact absurd (h2 x hx) (not_lt.2 hl)
  have key : ∀ as : List Atom, (∀ a ∈ as, ¬ VoidFails l a) → (∃ a ∈ as, Spec.TetrahedralSite s l prec a) →
      voidLoop s l true prec as = .error .zeroDivision := by
    intro as
    induction as with
    | nil => rintro - ⟨a, ha, -⟩; cases ha
    | cons b as ih =>
      intro hf ⟨a, ha, hs⟩
      unfold voidLoop
      rw [isVoid_ok hp (hf b List.mem_cons_self)]
      simp only [bind, Except.bind]
      by_cases hb' : Spec.TetrahedralSite s l prec b
      · simp only [hb', decide_true, if_true]
        rw [hb]
        simp [directCoords, Spec.diagBox]
      · simp only [hb', decide_false]
        rw [if_neg (by simp)]
        rcases List.mem_cons.1 ha with rfl | ha
        · exact absurd hs hb'
        · exact ih (fun c hc => hf c (List.mem_cons_of_mem _ hc)) ⟨a, ha, hs⟩
  unfold System.tetrahedralVoids
  rw [getAtoms_inv hi]
  exact key l hall ⟨a, ha, hs⟩

/-- **C83 is false for other boxes**: where `direct_coordinates=True` succeeds the numbers need not be direct coordinates. -/
theorem C83_false_skew : ∃ (b : Mat3) (p f : V3), b.det ≠ 0 ∧ directCoords b p = .ok f ∧ ¬ Spec.IsDirect b p f := by
  refine ⟨⟨⟨2, 1, 0⟩, ⟨0, 2, 0⟩, ⟨0, 1, 2⟩⟩, ⟨1, 1, 1⟩, ⟨-1, 1 / 2, 1⟩, by norm_num [Mat3.det], ?_, ?_⟩
  · simp only [directCoords]
    rw [if_neg (by norm_num)]
    norm_num
  · norm_num [Spec.IsDirect]

/-- **C83, what `direct_coordinates=True` gives**: each coordinate divided by the difference of the first two entries of a row of the box, the row with the number of the coordinate;
ZeroDivisionError exactly if one of the three differences is zero. -/
theorem C83_direct (b : Mat3) (p : V3) :
    (directCoords b p = .error .zeroDivision ↔ b.r0.x = b.r0.y ∨ b.r1.x = b.r1.y ∨ b.r2.x = b.r2.y) ∧
    ∀ f, directCoords b p = .ok f → f.x * (b.r0.y - b.r0.x) = p.x ∧ f.y * (b.r1.y - b.r1.x) = p.y ∧ f.z * (b.r2.y - b.r2.x) = p.z := by
  unfold directCoords
  simp only [sub_eq_zero]
  constructor
  · split_ifs with h
    · simp only [true_iff]
      rcases h with h | h | h
      · exact .inl h.symm
      · exact .inr (.inl h.symm)
      · exact .inr (.inr h.symm)
    · simp only [reduceCtorEq, false_iff]
      push Not at h ⊢
      exact ⟨h.1.symm, h.2.1.symm, h.2.2.symm⟩
  · intro f hf
    split_ifs at hf with h
    push Not at h
    obtain rfl := Except.ok.inj hf
    exact ⟨div_mul_cancel₀ _ (sub_ne_zero.2 h.1), div_mul_cancel₀ _ (sub_ne_zero.2 h.2.1), div_mul_cancel₀ _ (sub_ne_zero.2 h.2.2)⟩

/-- An atom in the middle of a tetrahedron with a cell of four four-edged faces. -/
noncomputable def tetraVoid : System := { tetra with atoms := tetra.atoms.zipIdx.map fun p => if p.2 = 0 then { p.1 with vorovector := [0, 4, 0, 0] } else p.1 }

/-- Hypotheses of C83_partial and C83_false_direct met: the middle of a tetrahedron. -/
example : ∃ a, StoreInv tetraVoid tetraVoid.atoms ∧ a ∈ tetraVoid.atoms ∧ Spec.TetrahedralSite tetraVoid tetraVoid.atoms (1 / 10) a ∧
    tetraVoid.getBox = Spec.diagBox 10 10 10 ∧
    ∀ a ∈ tetraVoid.atoms, a.vorovector[1]? = some 4 → a.nbrs ≠ [] ∧ ∀ x ∈ a.nbrs, x.idx < tetraVoid.atoms.length := by
  have hd : ∀ d, tetraVoid.image d = _ := fun d =>
    image_diag tetraVoid 10 10 10 (by norm_num) (by norm_num) (by norm_num) rfl rfl d
  set c : Atom := { pos := ⟨5, 5, 5⟩, vorovector := [0, 4, 0, 0], nbrs := [⟨1, Real.sqrt 3, 1, ⟨1, 1, 1⟩⟩, ⟨2, Real.sqrt 3, 1, ⟨1, -1, -1⟩⟩,
      ⟨3, Real.sqrt 3, 1, ⟨-1, 1, -1⟩⟩, ⟨4, Real.sqrt 3, 1, ⟨-1, -1, 1⟩⟩] } with hc
  have hat : tetraVoid.atoms = [c, { pos := ⟨6, 6, 6⟩ }, { pos := ⟨6, 4, 4⟩ }, { pos := ⟨4, 6, 4⟩ }, { pos := ⟨4, 4, 6⟩ }] := rfl
  have hx : ∀ x ∈ c.nbrs, ∃ b, tetraVoid.atoms[x.idx]? = some b ∧ tetraVoid.getDistance c b = Real.sqrt 3 := by
    rw [hat]
    intro x hx
    simp only [hc, List.mem_cons, List.not_mem_nil, or_false] at hx
    rcases hx with rfl | rfl | rfl | rfl <;> refine ⟨_, rfl, ?_⟩ <;> unfold System.getDistance <;> rw [hd] <;>
      norm_num [V3.norm, V3.normSq, wrap, hc]
  have h3 : (0 : ℝ) < Real.sqrt 3 := Real.sqrt_pos.2 (by norm_num)
  refine ⟨c, ⟨by rw [hat]; simp [hc], ⟨[], by simp, by simp, rfl⟩, rfl, rfl⟩, by rw [hat]; exact List.mem_cons_self, ⟨rfl, Real.sqrt 3, ⟨?_, ?_⟩, ?_⟩, rfl, ?_⟩
  · obtain ⟨b, hb, e⟩ := hx _ List.mem_cons_self
    exact ⟨_, List.mem_cons_self, b, hb, e.symm⟩
  · rintro d ⟨x, hxm, b, hb, rfl⟩
    obtain ⟨b', hb', e⟩ := hx x hxm
    rw [hb] at hb'
    obtain rfl := Option.some.inj hb'
    exact e.ge
  · have : {j | (∃ x ∈ c.nbrs, x.idx = j) ∧ ∃ b, tetraVoid.atoms[j]? = some b ∧ tetraVoid.getDistance c b ≤ Real.sqrt 3 * (1 + 1 / 10)} =
        (({1, 2, 3, 4} : Finset ℕ) : Set ℕ) := by
      ext j
      have hj : (∃ x ∈ c.nbrs, x.idx = j) ↔ j ∈ ({1, 2, 3, 4} : Finset ℕ) := by
        simp only [hc, List.mem_cons, List.not_mem_nil, or_false, exists_eq_or_imp, exists_eq_left, Finset.mem_insert, Finset.mem_singleton]
        omega
      rw [Set.mem_ofPred_eq, Finset.mem_coe, ← hj]
      refine ⟨fun h => h.1, fun h => ⟨h, ?_⟩⟩
      obtain ⟨x, hxm, rfl⟩ := h
      obtain ⟨b, hb, e⟩ := hx x hxm
      exact ⟨b, hb, by rw [e]; linarith⟩
    rw [this, Set.ncard_coe_finset]
    rfl
  · rw [hat]
    intro a ha h4
    simp only [List.mem_cons, List.not_mem_nil, or_false] at ha
    rcases ha with rfl | rfl | rfl | rfl | rfl
    · exact ⟨by simp [hc], by simp [hc]⟩
    all_goals simp at h4

/-! ## C84 -/

/-- **C84**: after a cutoff search `store_neighbor_info` succeeds.  Entry `i` of `next_neighbors` and `next_neighbor_distances` of an
atom lists the neighbours of its `i`-th neighbour and their distances.  An atom occurs in every one of its own entries, with the distance to
that neighbour. -/
theorem C84_next (σ : StdSort) (s s' : System) (f : ℕ) (r : ℝ) (hr : r ≠ 0) (hn : s.realNop ≤ 2300)
    (h : s.findNeighbors σ f (.cutoff r) = .ok s') : ∃ out, s'.storeNeighborInfo = .ok out ∧ out.length = s'.atoms.length ∧
    ∀ (k : ℕ) (a : Atom) (e : List (List ℕ × List ℝ)), s'.atoms[k]? = some a → out[k]? = some e → e.length = a.nbrs.length ∧
      ∀ (i : ℕ) (x : Nb) (y : List ℕ × List ℝ), a.nbrs[i]? = some x → e[i]? = some y → ∃ b, s'.atoms[x.idx]? = some b ∧
        y.1 = b.nbrs.map Nb.idx ∧ y.2 = b.nbrs.map Nb.dist ∧ (k, x.dist) ∈ y.1.zip y.2 := by
  have hmut := C10_mutual σ s s' f r hr hn h
  obtain ⟨hsame, -, hspec⟩ := C09_cutoff_exact σ s s' f r hr hn h
  have hlen : s'.atoms.length = s.atoms.length := by simpa using congrArg List.length hsame.1
  have hr' : s'.NbrsInRange := by
    intro a ha x hx
    obtain ⟨k, hk⟩ := List.getElem?_of_mem ha
    have hlt : k < s.atoms.length := hlen ▸ (List.getElem?_eq_some_iff.1 hk).1
    obtain ⟨nb, hnb, -⟩ := (hspec k _ a (List.getElem?_eq_getElem hlt) hk).1.2.2 x hx
    rw [hlen]
    exact (List.getElem?_eq_some_iff.1 hnb).1
  refine ⟨_, if_pos hr', by simp, fun k a e hk he => ?_⟩
  rw [List.getElem?_map, hk, Option.map_some, Option.some.injEq] at he
  subst he
  refine ⟨by simp, fun i x y hx hy => ?_⟩
  rw [List.getElem?_map, hx, Option.map_some, Option.some.injEq] at hy
  subst hy
  have hlt := hr' a (List.mem_of_getElem? hk) x (List.mem_of_getElem? hx)
  have hb := List.getElem?_eq_getElem hlt
  have hm : s'.mem x.idx = s'.atoms[x.idx] := by simp [System.mem, List.getD_eq_getElem?_getD, hlt]
  refine ⟨_, hb, by rw [hm], by rw [hm], ?_⟩
  dsimp only
  rw [hm, List.zip_map']
  have := (hmut k x.idx a _ hk hb x.dist x.weight x.vec).1 (List.mem_of_getElem? hx)
  exact List.mem_map.2 ⟨_, this, rfl⟩

/-- Hypotheses of C84 met, with two atoms that are neighbours. -/
example (σ : StdSort) : ∃ s', twoAtoms.findNeighbors σ 0 (.cutoff 2) = .ok s' := by
  refine (C09_overrun σ twoAtoms 0 2 (by norm_num) (by simp [twoAtoms]) (by simp [twoAtoms])).2 ?_
  intro k hk
  rw [← cutoffList_length (List.getElem?_eq_getElem hk) (cutoffNbs_spec (List.getElem?_eq_getElem hk))]
  exact (cutoffNbs_le _ _ _ _).trans (by simp [twoAtoms])

end Pyscal
