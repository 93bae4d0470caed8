import Verif.Props.Sro
import Verif.Props.Padded

/-! # C56 (cutoffs from neighbour distances) and C60 (energy averages) -/

namespace Pyscal

/-! ### C56 -/

/-- **C56**: `set_atom_cutoff(f)` gives every atom with neighbours the cutoff `f` times the mean of its
neighbour distances and atoms without neighbours NaN, and changes nothing else; if `f` is at least the
ratio of every neighbour distance to the mean, all neighbours are within the cutoff. -/
theorem C56_cutoff (s : System) (f : ℝ) :
    { s.setAtomCutoff f with atoms := s.atoms } = s ∧ (s.setAtomCutoff f).atoms.length = s.atoms.length ∧
    ∀ (k : ℕ) (a a' : Atom), s.atoms[k]? = some a → (s.setAtomCutoff f).atoms[k]? = some a' →
      { a' with cutoff := a.cutoff } = a ∧ (a.nbrs = [] → a'.cutoff = none) ∧
      (a.nbrs ≠ [] → ∃ m, Spec.IsMean (a.nbrs.map fun x => some x.dist) m ∧ a'.cutoff = some (f * m) ∧
        ((∀ x ∈ a.nbrs, 0 < x.dist) → (∀ x ∈ a.nbrs, x.dist / m ≤ f) → ∀ x ∈ a.nbrs, x.dist ≤ f * m)) := by
  refine ⟨rfl, by simp [System.setAtomCutoff], ?_⟩
  intro k a a' hk hk'
  simp only [System.setAtomCutoff, List.getElem?_map, hk, Option.map_some, Option.some.injEq] at hk'
  subst hk'
  refine ⟨rfl, ?_, ?_⟩
  · intro h
    simp [h, fdiv]
  · intro h
    have hl : (a.nbrs.length : ℝ) ≠ 0 := by simpa using h
    refine ⟨(a.nbrs.map Nb.dist).sum / a.nbrs.length, ⟨a.nbrs.map Nb.dist, by simp, by simpa using h, by simp⟩, ?_, ?_⟩
    · simp [fdiv, hl]
    · intro hp hr x hx
      have hs : 0 < (a.nbrs.map Nb.dist).sum := by
        refine List.sum_pos _ ?_ (by simpa using h)
        intro d hd
        obtain ⟨y, hy, rfl⟩ := List.mem_map.1 hd
        exact hp y hy
      have hm : 0 < (a.nbrs.map Nb.dist).sum / a.nbrs.length := div_pos hs (lt_of_le_of_ne (by positivity) hl.symm)
      exact (div_le_iff₀ hm).1 (hr x hx)

/-- An atom with neighbours at distances 1 and 3: with factor 3/2 the cutoff is 3. -/
example : ∃ a', (System.setAtomCutoff { System.init with atoms := [{ pos := 0, nbrs := [⟨1, 1, 1, ⟨1, 0, 0⟩⟩, ⟨2, 3, 1, ⟨0, 3, 0⟩⟩] }] } (3 / 2)).atoms[0]? =
    some a' ∧ a'.cutoff = some 3 := by
  refine ⟨_, rfl, ?_⟩
  norm_num [fdiv]

/-! ### C60 -/

/-- The first part of the call: energies by atom id. -/
theorem energies_ok {lammps : ℤ → Option ℝ} {l new : List Atom}
    (h : l.mapM (System.setEnergy lammps) = .ok new) :
    new.length = l.length ∧ ∀ (k : ℕ) (a : Atom), l[k]? = some a →
      ∃ e, lammps a.id = some e ∧ new[k]? = some { a with energy := e } := by
  obtain ⟨h1, h2⟩ := mapM_except _ _ _ h
  refine ⟨h1, fun k a hk => ?_⟩
  obtain ⟨b, hb, hb'⟩ := h2 k a hk
  unfold System.setEnergy at hb
  cases he : lammps a.id with
  | none => rw [he] at hb; cases hb
  | some e =>
    rw [he] at hb
    obtain rfl := Except.ok.inj hb
    exact ⟨e, rfl, hb'⟩

theorem energies_succeed (lammps : ℤ → Option ℝ) (l : List Atom) (h : ∀ a ∈ l, lammps a.id ≠ none) :
    ∃ new, l.mapM (System.setEnergy lammps) = .ok new := by
  refine mapM_except_isOk _ l fun a ha => ?_
  unfold System.setEnergy
  cases he : lammps a.id with
  | none => exact absurd he (h a ha)
  | some e => exact ⟨_, rfl⟩

theorem avgEnergy1_ok {atoms : List Atom} {a b : Atom} (h : System.avgEnergy1 atoms a = .ok b) :
    ∃ es : List ℝ, es.length = a.nbrs.length ∧ b = { a with avgEnergy := (es.sum + a.energy) / (a.nbrs.length + 1) } ∧
      ∀ (i : ℕ) (x : Nb), a.nbrs[i]? = some x → ∃ c, atoms[x.idx]? = some c ∧ es[i]? = some c.energy := by
  unfold System.avgEnergy1 at h
  change Except.bind (a.nbrs.mapM fun x => (pyGet atoms x.idx).map Atom.energy) _ = _ at h
  cases hm : a.nbrs.mapM fun x => (pyGet atoms x.idx).map Atom.energy with
  | error e => rw [hm] at h; cases h
  | ok es =>
    rw [hm] at h
    obtain ⟨h1, h2⟩ := mapM_except _ _ _ hm
    refine ⟨es, h1, (Except.ok.inj h).symm, fun i x hx => ?_⟩
    obtain ⟨e, he, he'⟩ := h2 i x hx
    unfold pyGet at he
    cases hc : atoms[x.idx]? with
    | none => rw [hc] at he; cases he
    | some c =>
      rw [hc] at he
      obtain rfl := Except.ok.inj he
      exact ⟨c, rfl, he'⟩

theorem avgEnergy1_succeeds (atoms : List Atom) (a : Atom) (h : ∀ x ∈ a.nbrs, x.idx < atoms.length) :
    ∃ b, System.avgEnergy1 atoms a = .ok b := by
  obtain ⟨es, hes⟩ := mapM_except_isOk (fun x : Nb => (pyGet atoms x.idx).map Atom.energy) a.nbrs (by
    intro x hx
    unfold pyGet
    rw [List.getElem?_eq_getElem (h x hx)]
    exact ⟨_, rfl⟩)
  unfold System.avgEnergy1
  rw [hes]
  exact ⟨_, rfl⟩

theorem avgEnergy1_error (atoms : List Atom) (a : Atom) (h : ∃ x ∈ a.nbrs, atoms.length ≤ x.idx) :
    System.avgEnergy1 atoms a = .error .indexError := by
  unfold System.avgEnergy1
  rw [mapM_all_error (fun x : Nb => (pyGet atoms x.idx).map Atom.energy) .indexError]
  · rfl
  · intro x _
    unfold pyGet
    cases hc : atoms[x.idx]? with
    | none => exact .inr rfl
    | some c => exact .inl ⟨_, rfl⟩
  · obtain ⟨x, hx, hle⟩ := h
    refine ⟨x, hx, ?_⟩
    unfold pyGet
    rw [List.getElem?_eq_none hle]
    rfl

/-- A step of the call at a time. -/
theorem calculateEnergy_ok {σ : StdSort} {lammps : ℤ → Option ℝ} {averaged : Bool} {s s' : System} {reals : List Atom}
    (hi : StoreInv s reals) (h : s.calculateEnergy σ lammps averaged = .ok s') :
    ∃ (mid new : List Atom) (s1 : System), mid.length = reals.length ∧
      (∀ (k : ℕ) (a : Atom), reals[k]? = some a → ∃ e, lammps a.id = some e ∧ mid[k]? = some { a with energy := e }) ∧
      (s.energySearch σ averaged) = .ok s1 ∧
      mid.mapM (System.avgEnergy1 mid) = .ok new ∧ s1.assignAtoms new = .ok s' := by
  unfold System.calculateEnergy at h
  rw [getAtoms_inv hi] at h
  change Except.bind (reals.mapM (System.setEnergy lammps)) _ = _ at h
  cases hm : (reals.mapM (System.setEnergy lammps)) with
  | error e => rw [hm] at h; cases h
  | ok mid =>
    rw [hm] at h
    change Except.bind (s.energySearch σ averaged) _ = _ at h
    cases hf : (s.energySearch σ averaged) with
    | error e => rw [hf] at h; cases h
    | ok s1 =>
      rw [hf] at h
      change Except.bind (mid.mapM (System.avgEnergy1 mid)) _ = _ at h
      cases hn : mid.mapM (System.avgEnergy1 mid) with
      | error e => rw [hn] at h; cases h
      | ok new =>
        rw [hn] at h
        obtain ⟨e1, e2⟩ := energies_ok hm
        exact ⟨mid, new, s1, e1, e2, rfl, hn, h⟩

/-- The energy reported for the atom number `k`. -/
def Spec.energyOf (lammps : ℤ → Option ℝ) (s : System) (k : ℕ) : Option ℝ := (s.atoms[k]?).bind fun a => lammps a.id

/-- **C60, as far as it holds.**  Full statement: `calculate_energy(averaged=True)` assigns to each atom the
mean of its own and its neighbours' energies and leaves the neighbour lists in place.  Proved for systems
of at least 200 atoms whose neighbours have been calculated before: the call succeeds, only the two energies of
the atoms change, and the averaged energy is the mean over the atom and its neighbours, so it lies
between the smallest and the largest of them.  Missing: systems without neighbours (`C60_false`) and
systems of fewer than 200 atoms (`C60_false_padded`). -/
theorem C60_partial (σ : StdSort) (lammps : ℤ → Option ℝ) (averaged : Bool) (s : System) (reals : List Atom) (hi : StoreInv s reals)
    (hn : 200 ≤ s.natoms) (hg : s.ghostNop = 0) (hf : s.neighborsFound = true) (hr : s.NbrsInRange)
    (he : ∀ a ∈ s.atoms, lammps a.id ≠ none) :
    ∃ s', s.calculateEnergy σ lammps averaged = .ok s' ∧ { s' with atoms := s.atoms } = s ∧ s'.atoms.length = s.atoms.length ∧
    ∀ (k : ℕ) (a a' : Atom), s.atoms[k]? = some a → s'.atoms[k]? = some a' →
      { a' with energy := a.energy, avgEnergy := a.avgEnergy } = a ∧ lammps a.id = some a'.energy ∧
      Spec.IsMean (lammps a.id :: a.nbrs.map fun x => Spec.energyOf lammps s x.idx) a'.avgEnergy ∧
      (∃ b ∈ s.atoms, ∃ v, lammps b.id = some v ∧ v ≤ a'.avgEnergy) ∧
      ∃ b ∈ s.atoms, ∃ v, lammps b.id = some v ∧ a'.avgEnergy ≤ v := by
  have hnr : 200 ≤ reals.length := by rw [← hi.realNop]; exact hn
  obtain ⟨gs, ha, -, hgn⟩ := hi.ex
  have hgs : gs = [] := List.length_eq_zero_iff.1 (by omega)
  rw [hgs, List.append_nil] at ha
  obtain ⟨mid, hmid⟩ := energies_succeed lammps reals (by rw [← ha]; exact he)
  obtain ⟨e1, e2⟩ := energies_ok hmid
  have hmidn : ∀ a ∈ mid, ∃ b ∈ reals, ∃ e, a = { b with energy := e } := by
    intro a ham
    obtain ⟨k, hk, rfl⟩ := List.getElem_of_mem ham
    obtain ⟨e, -, h2⟩ := e2 k _ (List.getElem?_eq_getElem (show k < reals.length by omega))
    rw [List.getElem?_eq_getElem hk] at h2
    exact ⟨_, List.getElem_mem (by omega), e, Option.some.inj h2⟩
  obtain ⟨new, hnew⟩ := mapM_except_isOk (System.avgEnergy1 mid) mid (by
    intro a ham
    obtain ⟨b, hb, e, rfl⟩ := hmidn a ham
    refine avgEnergy1_succeeds _ _ fun x hx => ?_
    rw [e1, ← ha]
    exact hr b (by rw [ha]; exact hb) x hx)
  obtain ⟨n1, n2⟩ := mapM_except _ _ _ hnew
  have hat : ∀ (k : ℕ) (a a' : Atom), reals[k]? = some a → new[k]? = some a' →
      ∃ (e : ℝ) (es : List ℝ), lammps a.id = some e ∧ es.length = a.nbrs.length ∧
        a' = { a with energy := e, avgEnergy := (es.sum + e) / (a.nbrs.length + 1) } ∧
        ∀ (i : ℕ) (x : Nb), a.nbrs[i]? = some x → ∃ v, Spec.energyOf lammps s x.idx = some v ∧ es[i]? = some v := by
    intro k a a' hk hk'
    obtain ⟨e, he1, he2⟩ := e2 k a hk
    obtain ⟨b, hb, hb'⟩ := n2 k _ he2
    rw [hk'] at hb'
    obtain rfl := Option.some.inj hb'
    obtain ⟨es, h1, h2, h3⟩ := avgEnergy1_ok hb
    refine ⟨e, es, he1, h1, h2, fun i x hx => ?_⟩
    obtain ⟨c, hc, hc'⟩ := h3 i x hx
    have hlt : x.idx < reals.length := by
      have := (List.getElem?_eq_some_iff.1 hc).1
      omega
    obtain ⟨v, hv1, hv2⟩ := e2 x.idx _ (List.getElem?_eq_getElem hlt)
    rw [hc] at hv2
    obtain rfl := Option.some.inj hv2
    refine ⟨v, ?_, hc'⟩
    unfold Spec.energyOf
    rw [ha, List.getElem?_eq_getElem hlt]
    exact hv1
  have hnewreal : ∀ a ∈ new, a.ghost = false := by
    intro a ham
    obtain ⟨k, hk, rfl⟩ := List.getElem_of_mem ham
    obtain ⟨e, es, -, -, hx, -⟩ := hat k reals[k] _ (List.getElem?_eq_getElem (by omega)) (List.getElem?_eq_getElem hk)
    rw [hx]
    exact hi.real reals[k] (List.getElem_mem (by omega))
  have hass : s.assignAtoms new = .ok (s.setAtoms new) := by
    unfold System.assignAtoms
    rw [if_neg (by omega)]
  have hcall : s.calculateEnergy σ lammps averaged = .ok (s.setAtoms new) := by
    unfold System.calculateEnergy
    rw [getAtoms_inv hi]
    change Except.bind (reals.mapM (System.setEnergy lammps)) _ = _
    rw [hmid]
    change Except.bind (s.energySearch σ averaged) _ = _
    rw [System.energySearch, if_neg (by simp [hf])]
    change Except.bind (mid.mapM (System.avgEnergy1 mid)) _ = _
    rw [hnew]
    exact hass
  have hs' := assign_large hi hnr hg (by omega) hnewreal hass
  refine ⟨_, hcall, by rw [hs'], by rw [hs', ha]; change new.length = _; omega, ?_⟩
  intro k a a' hk hk'
  rw [hs'] at hk'
  rw [ha] at hk
  obtain ⟨e, es, h1, h2, rfl, h3⟩ := hat k a a' hk hk'
  have hmean : Spec.IsMean (lammps a.id :: a.nbrs.map fun x => Spec.energyOf lammps s x.idx)
      ((es.sum + e) / (a.nbrs.length + 1)) := by
    refine ⟨e :: es, ?_, by simp, ?_⟩
    · rw [h1, List.map_cons]
      refine congrArg _ (List.ext_getElem? fun i => ?_)
      rw [List.getElem?_map, List.getElem?_map]
      by_cases hil : i < a.nbrs.length
      · obtain ⟨v, hv1, hv2⟩ := h3 i _ (List.getElem?_eq_getElem hil)
        rw [List.getElem?_eq_getElem hil, hv2, Option.map_some, Option.map_some, hv1]
      · rw [List.getElem?_eq_none (by omega), List.getElem?_eq_none (by omega)]; rfl
    · rw [List.sum_cons, List.length_cons, h2]
      push_cast
      ring
  have hsrc : ∀ v, some v ∈ (lammps a.id :: a.nbrs.map fun x => Spec.energyOf lammps s x.idx) → ∃ b ∈ s.atoms, lammps b.id = some v := by
    intro v hv
    rcases List.mem_cons.1 hv with hv | hv
    · exact ⟨a, by rw [ha]; exact List.mem_of_getElem? hk, hv.symm⟩
    · obtain ⟨x, hx, hxe⟩ := List.mem_map.1 hv
      unfold Spec.energyOf at hxe
      cases hc : s.atoms[x.idx]? with
      | none => rw [hc] at hxe; cases hxe
      | some c =>
        rw [hc] at hxe
        exact ⟨c, List.mem_of_getElem? hc, hxe⟩
  obtain ⟨⟨v, hv, hv'⟩, w, hw, hw'⟩ := isMean_between hmean
  obtain ⟨b, hb, hbv⟩ := hsrc v hv
  obtain ⟨c, hc, hcw⟩ := hsrc w hw
  exact ⟨rfl, h1, hmean, ⟨b, hb, v, hbv, hv'⟩, c, hc, w, hcw, hw'⟩

/-- On a system without neighbours the averaged call searches for neighbours and then writes back atoms
that were copied before the search: every atom gets its own energy as average, and the neighbours just
found are lost although the system says they were found. -/
theorem C60_not_found (σ : StdSort) (lammps : ℤ → Option ℝ) (s s' : System) (reals : List Atom) (hi : StoreInv s reals)
    (hf : s.neighborsFound = false) (hnb : ∀ a ∈ reals, a.nbrs = [])
    (h : s.calculateEnergy σ lammps true = .ok s') :
    s'.neighborsFound = true ∧ ∀ (k : ℕ) (a' : Atom), k < s.natoms → s'.atoms[k]? = some a' →
      a'.nbrs = [] ∧ a'.avgEnergy = a'.energy ∧ ∃ a ∈ reals, reals[k]? = some a ∧ lammps a.id = some a'.energy := by
  obtain ⟨mid, new, s1, h1, h2, h3, h4, h5⟩ := calculateEnergy_ok hi h
  rw [System.energySearch, if_pos ⟨rfl, hf⟩] at h3
  obtain ⟨g, -, hs1, -⟩ := ok_of_find h3
  obtain ⟨n1, n2⟩ := mapM_except _ _ _ h4
  have hnew : ∀ (k : ℕ) (a' : Atom), new[k]? = some a' → a'.nbrs = [] ∧ a'.ghost = false ∧ a'.avgEnergy = a'.energy ∧
      ∃ a ∈ reals, reals[k]? = some a ∧ lammps a.id = some a'.energy := by
    intro k a' hk
    have hlt : k < reals.length := by
      have := (List.getElem?_eq_some_iff.1 hk).1
      omega
    have hk0 := List.getElem?_eq_getElem hlt
    have hmem := List.getElem_mem hlt
    obtain ⟨e, he1, he2⟩ := h2 k _ hk0
    obtain ⟨b, hb, hb'⟩ := n2 k _ he2
    rw [hk] at hb'
    obtain rfl := Option.some.inj hb'
    obtain ⟨es, k1, rfl, -⟩ := avgEnergy1_ok hb
    have hne := hnb _ hmem
    dsimp only at k1 ⊢
    rw [hne, List.length_nil, List.length_eq_zero_iff] at k1
    refine ⟨hne, hi.real _ hmem, ?_, _, hmem, hk0, he1⟩
    rw [hne, k1]
    simp
  have hreal : ∀ a ∈ new, a.ghost = false := by
    intro a ha
    obtain ⟨k, hk⟩ := List.getElem?_of_mem ha
    exact (hnew k a hk).2.1
  obtain ⟨extra, e1, -, -, -, -, -, -, e8⟩ := assign_shape hreal h5
  constructor
  · rw [e8.eq]; change s1.neighborsFound = true; rw [hs1]
  · intro k a' hk hk'
    have hk : k < reals.length := by rw [← hi.realNop]; exact hk
    rw [e1, List.getElem?_append_left (by omega)] at hk'
    obtain ⟨m1, -, m3, m4⟩ := hnew k a' hk'
    exact ⟨m1, m3, m4⟩

/-- 200 atoms on a line at unit distance, with ids 0 to 199. -/
def chainAtoms : List Atom := (List.range 200).map fun i : ℕ => { pos := ⟨(i : ℝ), 0, 0⟩, id := i }

theorem chainAtoms_length : chainAtoms.length = 200 := by simp [chainAtoms]

theorem chainAtoms_get (i : ℕ) (hi : i < 200) : chainAtoms[i]? = some { pos := ⟨(i : ℝ), 0, 0⟩, id := i } := by
  unfold chainAtoms
  rw [List.getElem?_map, List.getElem?_range hi]
  rfl

/-- The chain in a box of edge 1000, as a System set up by the API. -/
theorem chain_setup : ∃ s0 s : System, System.init.setBox (Spec.diagBox 1000 1000 1000) = .ok s0 ∧ s0.assignAtoms chainAtoms = .ok s ∧
    StoreInv s chainAtoms ∧ s.atoms = chainAtoms ∧ s.neighborsFound = false ∧ s.box = Spec.diagBox 1000 1000 1000 ∧ s.triclinic = false := by
  obtain ⟨s0, h1⟩ := setBox_ok (s := System.init) (b := Spec.diagBox 1000 1000 1000) (fun h => absurd h (not_skewed_diag _ _ _))
  have hs0 := h1
  unfold System.setBox at hs0
  rw [if_neg (not_skewed_diag _ _ _)] at hs0
  obtain rfl := Except.ok.inj hs0
  have hreal : ∀ a ∈ chainAtoms, a.ghost = false := by
    intro a ha
    obtain ⟨i, -, rfl⟩ := List.mem_map.1 ha
    rfl
  refine ⟨_, _, h1, if_neg (by rw [chainAtoms_length]; omega), ?_, rfl, rfl, rfl, rfl⟩
  obtain ⟨extra, e1, e2, e3, e4, e5, e6, -, -⟩ := assign_shape (s := { System.init with box := Spec.diagBox 1000 1000 1000, triclinic := false }) hreal
    (if_neg (by rw [chainAtoms_length]; omega))
  exact ⟨hreal, ⟨extra, e1, fun a ha => (e2 a ha).1, e5⟩, rfl, e3⟩

theorem chain_dist {s : System} (hb : s.box = Spec.diagBox 1000 1000 1000) (ht : s.triclinic = false) (i j : ℕ) (hi : i < 200) (hj : j < 200)
    (a b : Atom) (ha : a.pos = ⟨(i : ℝ), 0, 0⟩) (hbp : b.pos = ⟨(j : ℝ), 0, 0⟩) : s.getDistance a b = |(i : ℝ) - j| := by
  have h1 : (i : ℝ) < 200 := by exact_mod_cast hi
  have h2 : (j : ℝ) < 200 := by exact_mod_cast hj
  have h3 : (0 : ℝ) ≤ i := by positivity
  have h4 : (0 : ℝ) ≤ j := by positivity
  change V3.norm (s.image (a.pos - b.pos)) = _
  rw [image_diag s 1000 1000 1000 (by norm_num) (by norm_num) (by norm_num) ht hb, ha, hbp]
  have e : (⟨wrap 1000 ((i : ℝ) - j), wrap 1000 ((0 : ℝ) - 0), wrap 1000 ((0 : ℝ) - 0)⟩ : V3) = ⟨(i : ℝ) - j, 0, 0⟩ := by
    unfold wrap
    have g1 : ¬ (i : ℝ) - j > 1000 / 2 := by linarith
    have g2 : ¬ (i : ℝ) - j < -1000 / 2 := by linarith
    rw [if_neg g1, if_neg g2]
    norm_num
  change V3.norm ⟨wrap 1000 ((i : ℝ) - j), wrap 1000 ((0 : ℝ) - 0), wrap 1000 ((0 : ℝ) - 0)⟩ = _
  rw [e]
  simp [V3.norm, V3.normSq, Real.sqrt_mul_self_eq_abs]

/-- A chain: 200 atoms at (i,0,0) in a cubic box of edge 1000. -/
structure ChainLike (s : System) : Prop where
  box : s.box = Spec.diagBox 1000 1000 1000
  tri : s.triclinic = false
  len : s.atoms.length = 200
  nop : s.nop = 200
  pos : ∀ i, i < 200 → ∃ a, s.atoms[i]? = some a ∧ a.pos = ⟨(i : ℝ), 0, 0⟩

theorem sum_of_distinct (l : List ℕ) (h0 : ∀ x ∈ l, x ≠ 0) (hn : l.Nodup) : 2 * l.length ≤ l.sum + 1 := by
  have key : ∀ l : List ℕ, (∀ x ∈ l, x ≠ 0) → 2 * l.length ≤ l.sum + l.count 1 := by
    intro l
    induction l with
    | nil => simp
    | cons x xs ih =>
      intro h
      have h1 := ih fun y hy => h y (List.mem_cons_of_mem _ hy)
      have h2 := h x List.mem_cons_self
      rw [List.length_cons, List.sum_cons, List.count_cons]
      by_cases hx : x = 1
      · subst hx; simp; omega
      · have : (x == 1) = false := by simpa using hx
        rw [this]; simp; omega
  have := key l h0
  have := List.nodup_iff_count_le_one.1 hn 1
  omega

/-- The default search radius for the chain. -/
theorem chain_radius {s : System} (hch : ChainLike s) : 199 < s.guessDist 2 := by
  obtain ⟨hb, ht, hlen, hnop, hget⟩ := hch
  have hR := (searchRadius_iff s 2 (s.guessDist 2)).2 rfl
  have hv : Spec.searchVolume s = 1000 * 1000 * 1000 := by
    unfold Spec.searchVolume
    rw [ht, hb]
    simp [Spec.diagBox, norm_axis_x 1000 (by norm_num), norm_axis_y 1000 (by norm_num), norm_axis_z 1000 (by norm_num)]
  unfold Spec.SearchRadius at hR
  rw [hv, hlen] at hR
  by_contra hc
  have hc := not_lt.1 hc
  have : s.guessDist 2 ^ 3 ≤ 199 ^ 3 := (Odd.strictMono_pow (by decide)).monotone hc
  rw [hR] at this
  norm_num at this

/-- Every atom of the chain has all the others within the default search radius. -/
theorem chain_count {s : System} (hch : ChainLike s) : ∀ k < s.atoms.length, 199 ≤ Spec.countWithin s (s.guessDist 2) k := by
  obtain ⟨hb, ht, hlen, hnop, hget⟩ := hch
  have hR199 := chain_radius ⟨hb, ht, hlen, hnop, hget⟩
  have hd199 : ∀ i j : ℕ, i < 200 → j < 200 → |(i : ℝ) - j| ≤ 199 := by
    intro i j hi hj
    have h1 : (i : ℝ) ≤ 199 := by exact_mod_cast (show i ≤ 199 by omega)
    have h2 : (j : ℝ) ≤ 199 := by exact_mod_cast (show j ≤ 199 by omega)
    have h3 : (0 : ℝ) ≤ i := by positivity
    have h4 : (0 : ℝ) ≤ j := by positivity
    rw [abs_le]
    constructor <;> linarith
  intro k hk
  have : 199 = Spec.countWithin s (s.guessDist 2) k := by
    rw [hlen] at hk
    have hset : {j | j ≠ k ∧ ∃ host nb, s.atoms[k]? = some host ∧ s.atoms[j]? = some nb ∧ s.getDistance nb host ≤ s.guessDist 2} =
        (((Finset.range 200).erase k : Finset ℕ) : Set ℕ) := by
      ext j
      simp only [Set.mem_ofPred_eq, Finset.coe_erase, Set.mem_diff, Finset.mem_coe, Finset.mem_range, Set.mem_singleton_iff]
      constructor
      · rintro ⟨h1, host, nb, -, h3, -⟩
        refine ⟨?_, h1⟩
        have := (List.getElem?_eq_some_iff.1 h3).1
        omega
      · rintro ⟨h1, h2⟩
        obtain ⟨ak, gk, pk⟩ := hget k hk
        obtain ⟨aj, gj, pj⟩ := hget j h1
        refine ⟨h2, _, _, gk, gj, ?_⟩
        rw [chain_dist hb ht j k h1 hk _ _ pj pk]
        exact (hd199 j k h1 hk).trans hR199.le
    unfold Spec.countWithin
    rw [hset, Set.ncard_coe_finset, Finset.card_erase_of_mem (Finset.mem_range.2 hk)]
    simp
  exact this.le

/-- The default search on a chain: the first atom has the atoms 1 and 2 among its neighbours, and all its neighbours
lie in the same direction. -/
theorem chain_adaptive (σ : StdSort) {s : System} (hch : ChainLike s) : ∃ s1, s.findNeighbors σ 0 (.cutoff 0) = .ok s1 ∧
    s1.voronoiused = s.voronoiused ∧ s1.NbrsInRange ∧ (∀ a ∈ s1.atoms, a.condition = some 0) ∧
    ∃ a1, s1.atoms[0]? = some a1 ∧ (∃ x ∈ a1.nbrs, x.idx = 1) ∧ (∃ x ∈ a1.nbrs, x.idx = 2) ∧
    ∀ x ∈ a1.nbrs, x.idx ≠ 0 ∧ x.weight = 1 ∧ ∃ v : ℝ, 0 < v ∧ x.vec = ⟨v, 0, 0⟩ := by
  obtain ⟨hb, ht, hlen, hnop, hget⟩ := hch
  have hR := (searchRadius_iff s 2 (s.guessDist 2)).2 rfl
  have hR199 := chain_radius ⟨hb, ht, hlen, hnop, hget⟩
  have hcount : ∀ k < s.atoms.length, 6 ≤ Spec.countWithin s (s.guessDist 2) k := fun k hk => le_trans (by norm_num) (chain_count ⟨hb, ht, hlen, hnop, hget⟩ k hk)
  obtain ⟨s1, hs1⟩ := adaptive_succeeds σ s 0 2 6 1.2 (by norm_num) (by omega) hcount (by omega)
  have hs1' : s.findNeighbors σ 0 (.cutoff 0) = .ok s1 := by rw [(C13_errors σ s 0 2 _ hR 6 1.2).2.2, hs1]
  obtain ⟨-, T, hT, -, hs1e, -⟩ := find_adaptive_ok (.inl (by simp [System.candSettings, hnop])) hs1
  have hl1 : s1.atoms.length = 200 := by rw [hs1e]; simp [hlen]
  have hk1 := List.getElem?_eq_getElem (show 0 < s1.atoms.length by omega)
  obtain ⟨a0, g0, p0⟩ := hget 0 (by norm_num)
  obtain ⟨-, N, ⟨hN1, hN2, hN3, -, -⟩, hN⟩ := (C15_partial σ s s1 0).2 2 _ 6 1.2 hR (by rw [hnop]; exact exact_small) hs1 0 _ _
    g0 hk1
  have hentry : ∀ x ∈ N, x.idx ≠ 0 ∧ x.dist = x.idx := by
    intro x hx
    obtain ⟨nb, g1, g2, g3, -⟩ := hN3 x hx
    have hlt : x.idx < 200 := by
      have := (List.getElem?_eq_some_iff.1 g1).1
      omega
    obtain ⟨b, gb, pb⟩ := hget _ hlt
    rw [gb] at g1
    obtain rfl := Option.some.inj g1
    refine ⟨g2, ?_⟩
    rw [g3, chain_dist hb ht x.idx 0 hlt (by norm_num) _ _ pb p0]
    simp
  have hsum : (11 : ℝ) ≤ (N.map Nb.dist).sum := by
    have h1 := sum_of_distinct (N.map Nb.idx) (by
      intro i hi
      obtain ⟨x, hx, rfl⟩ := List.mem_map.1 hi
      exact (hentry x hx).1) hN2
    rw [List.length_map, hN1] at h1
    have h2 : N.map Nb.dist = (N.map Nb.idx).map (Nat.cast : ℕ → ℝ) := by
      rw [List.map_map]
      exact List.map_congr_left fun x hx => (hentry x hx).2
    rw [h2, ← Nat.cast_list_sum]
    exact_mod_cast (show 11 ≤ (N.map Nb.idx).sum by omega)
  have hfind : ∀ j, 0 < j → j ≤ 2 → ∃ x ∈ s1.atoms[0].nbrs, x.idx = j := by
    intro j hj hj2
    obtain ⟨b, gb, pb⟩ := hget j (by omega)
    have hd : s.getDistance b a0 = j := by
      rw [chain_dist hb ht j 0 (by omega) (by norm_num) _ _ pb p0]
      simp
    have hj3 : (j : ℝ) ≤ 2 := by exact_mod_cast hj2
    refine hN j b gb (by omega) ?_ ?_ (by simp [Spec.FilterAllows])
    · rw [hd]
      have : (11 : ℝ) / 6 ≤ (N.map Nb.dist).sum / (6 : ℕ) := by
        push_cast
        linarith
      linarith
    · rw [hd]; linarith
  obtain ⟨_, _, _, _, _, hgood, _⟩ :=
    ((C13_partial σ s s1 0 2 _ hR 6 1.2 (by rw [hnop]; exact exact_small) hs1).2.2 0 _ _ g0 hk1).1
  refine ⟨s1, hs1', by rw [hs1e], ?_, ?_, _, hk1, hfind 1 (by omega) (by omega), hfind 2 (by omega) (by omega), ?_⟩
  · intro a ha x hx
    obtain ⟨k, hk, rfl⟩ := List.getElem_of_mem ha
    obtain ⟨b, gb, -⟩ := hget k (by omega)
    obtain ⟨nb, h1, -⟩ := ((C15_partial σ s s1 0).2 2 _ 6 1.2 hR (by rw [hnop]; exact exact_small) hs1 k _ _
      gb (List.getElem?_eq_getElem hk)).1 x hx
    have := (List.getElem?_eq_some_iff.1 h1).1
    omega
  · intro a ha
    rw [hs1e] at ha
    obtain ⟨k, -, rfl⟩ := List.mem_map.1 ha
    rfl
  · intro x hx
    obtain ⟨⟨nb, g1, g2, g3, g4, g5⟩, -⟩ := hgood x hx
    have hlt : x.idx < 200 := by
      have := (List.getElem?_eq_some_iff.1 g1).1
      omega
    obtain ⟨b, gb, pb⟩ := hget _ hlt
    rw [gb] at g1
    obtain rfl := Option.some.inj g1
    have hpos : (0 : ℝ) < x.idx := by exact_mod_cast Nat.pos_of_ne_zero g2
    have hlt' : (x.idx : ℝ) < 200 := by exact_mod_cast hlt
    refine ⟨g2, g4, x.idx, hpos, ?_⟩
    rw [g5]
    change s.image (b.pos - a0.pos) = _
    rw [image_diag s 1000 1000 1000 (by norm_num) (by norm_num) (by norm_num) ht hb, pb, p0]
    change (⟨wrap 1000 ((x.idx : ℝ) - (0 : ℕ)), wrap 1000 ((0 : ℝ) - 0), wrap 1000 ((0 : ℝ) - 0)⟩ : V3) = _
    unfold wrap
    have e1 : ¬ (x.idx : ℝ) - (0 : ℕ) > 1000 / 2 := by push_cast; linarith
    have e2 : ¬ (x.idx : ℝ) - (0 : ℕ) < -1000 / 2 := by push_cast; linarith
    rw [if_neg e1, if_neg e2]
    norm_num

/-- **C60 is false for systems without neighbours**: 200 atoms on a line, energy 1 for the first and 0 for
the others.  The search finds a neighbour for the first atom, so its mean is less than 1; the call assigns 1, and the
neighbour lists are empty afterwards. -/
theorem C60_false (σ : StdSort) : ∃ (s0 s s1 s' : System) (a1 a' : Atom),
    System.init.setBox (Spec.diagBox 1000 1000 1000) = .ok s0 ∧ s0.assignAtoms chainAtoms = .ok s ∧
    s.findNeighbors σ 0 (.cutoff 0) = .ok s1 ∧ s1.atoms[0]? = some a1 ∧ a1.nbrs ≠ [] ∧ (∀ x ∈ a1.nbrs, x.idx ≠ 0) ∧
    s.calculateEnergy σ (fun i => some (if i = 0 then 1 else 0)) true = .ok s' ∧ s'.neighborsFound = true ∧
    s'.atoms[0]? = some a' ∧ a'.nbrs = [] ∧ a'.avgEnergy = 1 := by
  obtain ⟨s0, s, h0, h1, hi, hat, hnf, hb, ht⟩ := chain_setup
  have hlen : s.atoms.length = 200 := by rw [hat, chainAtoms_length]
  have hnop : s.nop = 200 := by rw [hi.nop, hlen]
  have hch : ChainLike s := ⟨hb, ht, hlen, hnop, fun i hi => ⟨_, by rw [hat]; exact chainAtoms_get i hi, rfl⟩⟩
  obtain ⟨s1, hs1', -, -, -, a1, hk1, ⟨y, hy, -⟩, -, hgood⟩ := chain_adaptive σ hch
  have hE : ∃ s', s.calculateEnergy σ (fun i => some (if i = 0 then 1 else 0)) true = .ok s' := by
    obtain ⟨mid, hmid⟩ := energies_succeed (fun i => some (if i = 0 then (1 : ℝ) else 0)) chainAtoms (by simp)
    obtain ⟨e1, e2⟩ := energies_ok hmid
    obtain ⟨new, hnew⟩ := mapM_except_isOk (System.avgEnergy1 mid) mid (by
      intro a ham
      obtain ⟨k, hk, rfl⟩ := List.getElem_of_mem ham
      have hk2 : k < 200 := by rw [e1, chainAtoms_length] at hk; exact hk
      obtain ⟨e, -, h2⟩ := e2 k _ (chainAtoms_get k hk2)
      rw [List.getElem?_eq_getElem hk] at h2
      rw [Option.some.inj h2]
      exact avgEnergy1_succeeds _ _ (by simp))
    have hnl : new.length = 200 := by rw [(mapM_except _ _ _ hnew).1, e1, chainAtoms_length]
    unfold System.calculateEnergy
    rw [getAtoms_inv hi]
    refine ⟨s1.setAtoms new, ?_⟩
    generalize chainAtoms = C at hmid
    change Except.bind (C.mapM (System.setEnergy _)) _ = _
    rw [hmid]
    change Except.bind (s.energySearch σ true) _ = _
    rw [System.energySearch, if_pos ⟨rfl, hnf⟩, hs1']
    change Except.bind (mid.mapM (System.avgEnergy1 mid)) _ = _
    rw [hnew]
    exact if_neg (by omega)
  obtain ⟨s', hs'⟩ := hE
  obtain ⟨m1, m2⟩ := C60_not_found σ _ s s' chainAtoms hi hnf (by
    intro a ha
    obtain ⟨i, -, rfl⟩ := List.mem_map.1 ha
    rfl) hs'
  have hlen' : 0 < s'.atoms.length := by
    obtain ⟨mid, new, s2, k1, -, -, k4, k5⟩ := calculateEnergy_ok hi hs'
    obtain ⟨extra, hx⟩ := assign_prefix k5
    rw [hx, List.length_append, (mapM_except _ _ _ k4).1, k1, chainAtoms_length]
    omega
  have hk' := List.getElem?_eq_getElem hlen'
  obtain ⟨q1, q2, a, -, q3, q4⟩ := m2 0 _ (by change 0 < s.realNop; rw [hi.realNop, chainAtoms_length]; norm_num) hk'
  rw [chainAtoms_get 0 (by norm_num)] at q3
  obtain rfl := Option.some.inj q3
  refine ⟨s0, s, s1, s', _, _, h0, h1, hs1', hk1, List.ne_nil_of_mem hy, ?_, hs', m1, hk', q1, ?_⟩
  · intro z hz
    exact (hgood z hz).1
  · rw [q2]
    simpa using (Option.some.inj q4).symm

/-- The hypotheses of `C60_partial` are met: the chain after a search with cutoff 3/2. -/
example (σ : StdSort) : ∃ (s : System) (reals : List Atom), StoreInv s reals ∧ 200 ≤ s.natoms ∧ s.ghostNop = 0 ∧ s.neighborsFound = true ∧
    s.NbrsInRange ∧ ∃ a ∈ s.atoms, a.nbrs ≠ [] := by
  obtain ⟨s0, s, -, -, hi, hat, -, hb, ht⟩ := chain_setup
  have hlen : s.atoms.length = 200 := by rw [hat, chainAtoms_length]
  have hrn : s.realNop = 200 := by rw [hi.realNop, chainAtoms_length]
  have hget : ∀ i, i < 200 → s.atoms[i]? = some { pos := ⟨(i : ℝ), 0, 0⟩, id := i } := fun i hi => by rw [hat]; exact chainAtoms_get i hi
  obtain ⟨s1, h3⟩ := (C09_overrun σ s 0 (3 / 2) (by norm_num) (by omega) (by omega)).2 (by
    intro k hk
    rw [← cutoffList_length (List.getElem?_eq_getElem hk) (cutoffNbs_spec (List.getElem?_eq_getElem hk))]
    exact (cutoffNbs_le _ _ _ _).trans (by omega))
  have hs1 := (findNeighbors_cutoff_ok (by norm_num) (by omega) h3).2.1
  have hrn1 : s1.realNop = 200 := by rw [hs1]; exact hrn
  have hatom : ∀ a ∈ s1.atoms, ∃ k < 200, a = cutoffAtom s (3 / 2) 0 k := by
    intro a ha
    rw [hs1] at ha
    obtain ⟨k, hk, rfl⟩ := List.mem_map.1 ha
    rw [hlen] at hk
    exact ⟨k, List.mem_range.1 hk, rfl⟩
  refine ⟨s1, _, storeInv_cutoff (by norm_num) (by omega) h3 hi, hrn1.ge, ?_, by rw [hs1], ?_, cutoffAtom s (3 / 2) 0 0, ?_, ?_⟩
  · rw [hs1]
    obtain ⟨gs, h1, -, h2⟩ := hi.ex
    have : (chainAtoms ++ gs).length = 200 := by rw [← h1, hlen]
    rw [List.length_append, chainAtoms_length] at this
    change s.ghostNop = 0
    omega
  · intro a ha x hx
    obtain ⟨k, hk, rfl⟩ := hatom a ha
    obtain ⟨nb, hnb, -⟩ := (cutoffNbs_spec (s := s) (r := 3 / 2) (f := 0) (hget k hk)).2.2 x hx
    have h1 := (List.getElem?_eq_some_iff.1 hnb).1
    have h2 : s1.atoms.length = s.atoms.length := by rw [hs1]; simp
    omega
  · rw [hs1]
    exact List.mem_map.2 ⟨0, List.mem_range.2 (by omega), rfl⟩
  · obtain ⟨x, hx, -⟩ := (cutoffNbs_spec (s := s) (r := 3 / 2) (f := 0) (hget 0 (by norm_num))).2.1 1 _ (hget 1 (by norm_num)) (by
      refine ⟨by norm_num, ?_, by simp [Spec.FilterAllows]⟩
      rw [chain_dist hb ht 1 0 (by norm_num) (by norm_num) _ _ rfl rfl]
      norm_num)
    exact List.ne_nil_of_mem hx

/-- **C60 is false for padded systems**: two atoms in a box of length 10, neighbours found with cutoff 2.  The
first atom has a ghost atom as neighbour and the call raises IndexError. -/
theorem C60_false_padded (σ : StdSort) (lammps : ℤ → Option ℝ) (hl : ∀ i, lammps i ≠ none) (averaged : Bool) : ∃ s0 s s1 : System,
    System.init.setBox (Spec.diagBox 10 10 10) = .ok s0 ∧ s0.assignAtoms edgeAtoms = .ok s ∧
    s.findNeighbors σ 0 (.cutoff 2) = .ok s1 ∧ s1.calculateEnergy σ lammps averaged = .error .indexError := by
  obtain ⟨s0, s, s1, h1, h2, h3, hi, hr, hlen, -, -, -, hs1, -, -, x, hx, hx2, -⟩ := edge_setup σ
  refine ⟨s0, s, s1, h1, h2, h3, ?_⟩
  have hi1 := storeInv_cutoff (by norm_num) (by omega) h3 hi
  have hs1a : s1.atoms = (List.range s.atoms.length).map (cutoffAtom s 2 0) := by rw [hs1]
  have hget : (s1.atoms.take s.realNop)[0]? = some (cutoffAtom s 2 0 0) := by
    rw [hr, List.getElem?_take, if_pos (by norm_num), hs1a, List.getElem?_map, List.getElem?_range (by omega)]; rfl
  have hnf : s1.neighborsFound = true := by rw [hs1]
  have hll : (s1.atoms.take s.realNop).length = 2 := by
    rw [List.length_take, hr, hs1a, List.length_map, List.length_range]; omega
  generalize s1.atoms.take s.realNop = R at hi1 hget hll
  obtain ⟨mid, hmid⟩ := energies_succeed lammps R fun a _ => hl a.id
  obtain ⟨e1, e2⟩ := energies_ok hmid
  have herr : mid.mapM (System.avgEnergy1 mid) = .error .indexError := by
    refine mapM_all_error _ _ _ (fun a _ => ?_) ?_
    · by_cases hb : ∀ x ∈ a.nbrs, x.idx < mid.length
      · exact .inl (avgEnergy1_succeeds _ _ hb)
      · push Not at hb
        exact .inr (avgEnergy1_error _ _ hb)
    · obtain ⟨e, -, h5⟩ := e2 0 _ hget
      exact ⟨_, List.mem_of_getElem? h5, avgEnergy1_error _ _ ⟨x, hx, by omega⟩⟩
  unfold System.calculateEnergy
  rw [getAtoms_inv hi1]
  change Except.bind (R.mapM (System.setEnergy lammps)) _ = _
  rw [hmid]
  change Except.bind (s1.energySearch σ averaged) _ = _
  rw [System.energySearch, if_neg (by simp [hnf])]
  change Except.bind (mid.mapM (System.avgEnergy1 mid)) _ = _
  rw [herr]
  rfl

end Pyscal
