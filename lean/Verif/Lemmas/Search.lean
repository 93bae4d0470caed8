import Verif.Lemmas.Candidates

/-! The candidate based searches of `find_neighbors`, in terms of the state before. -/

namespace Pyscal

/-- Same geometry, seen through positions by index. -/
structure Like (s g : System) : Prop where
  len : g.atoms.length = s.atoms.length
  pos : ∀ k, g.posOf k = s.posOf k
  type : ∀ k, g.typeOf k = s.typeOf k
  box : g.box = s.box
  rot : g.rot = s.rot
  rotinv : g.rotinv = s.rotinv
  tri : g.triclinic = s.triclinic

namespace Like

variable {s g : System}

theorem diffOf (h : Like s g) (i j : ℕ) : g.diffOf i j = s.diffOf i j := by
  simp only [System.diffOf, System.diffIdx, h.pos]
  exact image_frame h.box h.rot h.rotinv h.tri _

theorem distOf (h : Like s g) (i j : ℕ) : g.distOf i j = s.distOf i j := by
  have : g.distOf i j = V3.norm (g.diffOf i j) := rfl
  rw [this, h.diffOf]; rfl

theorem mkNb (h : Like s g) : g.mkNb = s.mkNb := by
  funext i j
  simp only [System.mkNb, h.diffOf, h.distOf]

theorem guessDist (h : Like s g) (p : ℝ) : g.guessDist p = s.guessDist p := by
  simp only [System.guessDist, System.boxVol, System.boxx, System.boxy, System.boxz, h.box, h.rot, h.tri, h.len]

theorem cands (h : Like s g) (hu : g.usecells = s.usecells) (hn : g.neighbordistance = s.neighbordistance) (k : ℕ) :
    Pyscal.cands g k = Pyscal.cands s k := by
  unfold Pyscal.cands
  simp only [h.distOf, h.len, hu, hn]

theorem cellsOK (h : Like s g) (hn : g.neighbordistance = s.neighbordistance) {L1 L2 L3 : ℝ}
    (hc : CellsOK s L1 L2 L3) : CellsOK g L1 L2 L3 := by
  have hx : g.nx = s.nx ∧ g.ny = s.ny ∧ g.nz = s.nz := by
    simp only [System.nx, System.ny, System.nz, System.boxx, System.boxy, System.boxz, h.box, hn, and_self]
  refine ⟨hc.pos, h.box.trans hc.box, h.tri.trans hc.ortho, hn ▸ hc.nd, ?_, ?_⟩
  · rw [hx.1, hx.2.1, hx.2.2]; exact hc.one
  · intro i hi; rw [h.pos]; exact hc.inside i (h.len ▸ hi)

theorem candRuns (h : Like s g) (hu : g.usecells = s.usecells) (hn : g.neighbordistance = s.neighbordistance)
    (hc : CandRuns s) : CandRuns g := by
  rcases hc with hc | ⟨L1, L2, L3, hc⟩
  · exact .inl (hu.trans hc)
  · exact .inr ⟨L1, L2, L3, h.cellsOK hn hc⟩

theorem candList (h : Like s g) (hu : g.usecells = s.usecells) (hn : g.neighbordistance = s.neighbordistance) (k : ℕ) :
    Pyscal.candList g k = Pyscal.candList s k := by
  have hx : g.nx = s.nx ∧ g.ny = s.ny ∧ g.nz = s.nz := by
    simp only [System.nx, System.ny, System.nz, System.boxx, System.boxy, System.boxz, h.box, hn, and_self]
  have hm : g.members = s.members := by
    have ha : g.atomCell = s.atomCell := by
      funext i
      simp only [System.atomCell, h.pos, hx.1, hx.2.1, hx.2.2, System.boxx, System.boxy, System.boxz, h.box]
    funext c
    unfold System.members
    rw [h.len, ha]
  have ht : tempHitLt g = tempHitLt s := by
    funext i j
    simp only [tempHitLt, h.distOf, hn]
  unfold Pyscal.candList
  rw [hu, h.cands hu hn, ht]
  simp only [CellsOK.visited, hm, hx.1, hx.2.1, hx.2.2]

theorem candOK (h : Like s g) (hu : g.usecells = s.usecells) (hn : g.neighbordistance = s.neighbordistance)
    (hc : CandOK s) : CandOK g := by
  rcases hc with hc | ⟨L1, L2, L3, hc, h3⟩
  · exact .inl (hu.trans hc)
  · have hx : g.nx = s.nx ∧ g.ny = s.ny ∧ g.nz = s.nz := by
      simp only [System.nx, System.ny, System.nz, System.boxx, System.boxy, System.boxz, h.box, hn, and_self]
    refine .inr ⟨L1, L2, L3, ⟨hc.pos, h.box.trans hc.box, h.tri.trans hc.ortho, hn ▸ hc.nd, ?_, ?_⟩, ?_⟩
    · rw [hx.1, hx.2.1, hx.2.2]; exact hc.one
    · intro i hi; rw [h.pos]; exact hc.inside i (h.len ▸ hi)
    · unfold ThreeCells; rw [hx.1, hx.2.1, hx.2.2]; exact h3

end Like

theorem like_start (s : System) (f : ℕ) : Like s (s.startSearch f) :=
  ⟨resetAll_length s, resetAll_posOf s, resetAll_typeOf s, rfl, rfl, rfl, rfl⟩

theorem like_ofMem {s : System} {m : Mem} (hp : ∀ k < s.atoms.length, (m k).pos = (s.mem k).pos)
    (ht : ∀ k < s.atoms.length, (m k).type = (s.mem k).type) : Like s (s.ofMem m) := by
  refine ⟨ofMem_length s m, ?_, ?_, rfl, rfl, rfl, rfl⟩
  · intro k
    by_cases hk : k < s.atoms.length
    · rw [System.posOf, ofMem_mem s m k hk]; exact hp k hk
    · simp [System.posOf, System.mem, System.ofMem, hk]
  · intro k
    by_cases hk : k < s.atoms.length
    · rw [System.typeOf, ofMem_mem s m k hk]; exact ht k hk
    · simp [System.typeOf, System.mem, System.ofMem, hk]

/-- The settings under which the candidates of a search are collected: guess radius and choice of
the cell lists. -/
noncomputable def System.candSettings (s : System) (u : Bool) (p : ℝ) : System :=
  { s with usecells := u, neighbordistance := s.guessDist p }

/-- Atom `k` after the candidates `t` were collected. -/
noncomputable def candAtom (s : System) (t : List DAtom) (k : ℕ) : Atom :=
  { s.mem k with nbrs := [], temp := t, condition := some 0 }

/-- Candidate collection from a state that differs from `s` after the reset only by flags. -/
theorem fillTemp_start_runs (s g : System) (f : ℕ) (u v : Bool) (p : ℝ)
    (hg : g = { s.startSearch f with usecells := u, voronoiused := v }) (hok : CandRuns (s.candSettings u p)) :
      ∃ g', g.fillTemp p = .ok g' ∧ Like s g' ∧ g'.filter = f ∧
        g' = { s with atoms := g'.atoms, filter := f, usecells := u, voronoiused := v,
                      neighbordistance := s.guessDist p } ∧
        ∀ k < s.atoms.length, g'.mem k = candAtom s (candList (s.candSettings u p) k) k := by
  have hl : Like s g := by
    subst hg; exact ⟨resetAll_length s, resetAll_posOf s, resetAll_typeOf s, rfl, rfl, rfl, rfl⟩
  have hgd : g.guessDist p = s.guessDist p := hl.guessDist p
  have hlc : Like (s.candSettings u p) (g.guess p) :=
    ⟨hl.len, hl.pos, hl.type, hl.box, hl.rot, hl.rotinv, hl.tri⟩
  have hu : (g.guess p).usecells = (s.candSettings u p).usecells := by subst hg; rfl
  have hn : (g.guess p).neighbordistance = (s.candSettings u p).neighbordistance := hgd
  have hfill := fillTemp_runs g p (hlc.candRuns hu hn hok)
  have hT : candList (g.guess p) = candList (s.candSettings u p) := funext fun k => hlc.candList hu hn k
  rw [hT] at hfill
  set T := candList (s.candSettings u p) with hTd
  refine ⟨_, hfill, ?_, ?_, ?_, ?_⟩
  · have h2 := like_ofMem (s := g.guess p) (m := fun k => { g.mem k with temp := (g.mem k).temp ++ T k })
      (fun _ _ => rfl) (fun _ _ => rfl)
    exact ⟨h2.len.trans hl.len, fun k => (h2.pos k).trans (hl.pos k), fun k => (h2.type k).trans (hl.type k),
      h2.box.trans hl.box, h2.rot.trans hl.rot, h2.rotinv.trans hl.rotinv, h2.tri.trans hl.tri⟩
  · subst hg; rfl
  · subst hg
    simp only [System.ofMem, System.guess, hgd]
    rfl
  · intro k hk
    rw [ofMem_mem _ _ _ (by exact hl.len.symm ▸ hk)]
    have : g.mem k = { s.mem k with nbrs := [], temp := [], condition := some 0 } := by
      subst hg; exact resetAll_mem s k hk
    rw [this]
    simp [candAtom]

theorem fillTemp_start (s g : System) (f : ℕ) (u v : Bool) (p : ℝ)
    (hg : g = { s.startSearch f with usecells := u, voronoiused := v }) (hok : CandOK (s.candSettings u p)) :
    ∃ T : ℕ → List DAtom, (∀ k < s.atoms.length, (T k).Perm (cands (s.candSettings u p) k)) ∧
      ∃ g', g.fillTemp p = .ok g' ∧ Like s g' ∧ g'.filter = f ∧
        g' = { s with atoms := g'.atoms, filter := f, usecells := u, voronoiused := v,
                      neighbordistance := s.guessDist p } ∧
        ∀ k < s.atoms.length, g'.mem k = candAtom s (T k) k :=
  ⟨candList (s.candSettings u p), fun _ hk => candList_perm hok hk, fillTemp_start_runs s g f u v p hg hok.runs⟩

theorem getAtoms_start (s g : System) (hl : g.atoms.length = s.atoms.length) (hr : g.realNop = s.realNop)
    (hle : s.realNop ≤ s.atoms.length) : ∃ l, g.getAtoms = .ok l ∧ l.length = s.realNop := by
  refine ⟨g.atoms.take g.realNop, ?_, ?_⟩
  · unfold System.getAtoms; rw [if_pos (by rw [hl, hr]; exact hle)]
  · rw [List.length_take, hl, hr]; omega

/-- Result of `find_neighbors` once the search has succeeded. -/
theorem finish_search {σ : StdSort} {s : System} {f : ℕ} {meth : Method} {g : System}
    (h : (s.startSearch f).search σ meth = .ok g) :
    s.findNeighbors σ f meth = (do
      let s' ← g.checkCapacity
      return { s' with neighborsFound := true }) := by
  unfold System.findNeighbors
  change (do
    let g ← (s.startSearch f).search σ meth
    let s' ← g.checkCapacity
    return { s' with neighborsFound := true }) = _
  rw [h]; rfl

theorem finish_ok {σ : StdSort} {s : System} {f : ℕ} {meth : Method} {g : System}
    (h : (s.startSearch f).search σ meth = .ok g) (hc : ∀ a ∈ g.atoms, a.nbrs.length ≤ 300) :
    ∃ s', s.findNeighbors σ f meth = .ok s' := by
  rw [finish_search h]
  unfold System.checkCapacity
  rw [if_neg]
  · exact ⟨_, rfl⟩
  · rintro ⟨a, ha, hgt⟩
    have := hc a ha
    omega

theorem fail_search {σ : StdSort} {s : System} {f : ℕ} {meth : Method} {e : Fault}
    (h : (s.startSearch f).search σ meth = .error e) : s.findNeighbors σ f meth = .error e := by
  unfold System.findNeighbors
  change (do
    let g ← (s.startSearch f).search σ meth
    let s' ← g.checkCapacity
    return { s' with neighborsFound := true }) = _
  rw [h]; rfl

theorem ok_of_find {σ : StdSort} {s s' : System} {f : ℕ} {meth : Method}
    (h : s.findNeighbors σ f meth = .ok s') :
    ∃ g, (s.startSearch f).search σ meth = .ok g ∧ s' = { g with neighborsFound := true } ∧
      ∀ a ∈ g.atoms, a.nbrs.length ≤ 300 := by
  rcases hg : (s.startSearch f).search σ meth with e | g
  · rw [fail_search hg] at h; cases h
  · rw [finish_search hg] at h
    rcases hc : g.checkCapacity with e | g2
    · rw [hc] at h; cases h
    · rw [hc] at h
      obtain ⟨rfl, hcap⟩ := checkCapacity_ok hc
      exact ⟨g2, rfl, (Except.ok.inj h).symm, hcap⟩

/-- The `number` search. -/
theorem searchNumber_runs (σ : StdSort) (s : System) (f : ℕ) (t : ℝ) (nmax : ℕ) (assign : Bool) (ht : 1 ≤ t)
    (hle : s.realNop ≤ s.atoms.length) (hok : CandRuns (s.candSettings (decide (s.realNop > 4000)) t)) :
      ((∃ k < s.atoms.length, (candList (s.candSettings (decide (s.realNop > 4000)) t) k).length < nmax) →
        (s.startSearch f).search σ (.number t nmax assign) = .error .runtimeError) ∧
      ((∀ k < s.atoms.length, nmax ≤ (candList (s.candSettings (decide (s.realNop > 4000)) t) k).length) →
        (s.startSearch f).search σ (.number t nmax assign) =
          .ok { s with atoms := (List.range s.atoms.length).map
                         fun k => byNumberAtom σ s nmax assign k (candAtom s (candList (s.candSettings (decide (s.realNop > 4000)) t) k) k),
                       filter := f, usecells := decide (s.realNop > 4000), voronoiused := false,
                       neighbordistance := s.guessDist t }) := by
  obtain ⟨l, hl, hll⟩ := getAtoms_start s (s.startSearch f) (resetAll_length s) rfl hle
  obtain ⟨g', hfill, hlike, hf, hg', hmem⟩ := fillTemp_start_runs s
    { s.startSearch f with usecells := decide (s.realNop > 4000), voronoiused := false } f _ false t rfl hok
  set T := candList (s.candSettings (decide (s.realNop > 4000)) t) with hTd
  have hse : (s.startSearch f).search σ (.number t nmax assign) =
      (if (System.byNumberLoop σ g' nmax assign (List.range g'.atoms.length) g'.mem).2 then
        .ok (g'.ofMem (System.byNumberLoop σ g' nmax assign (List.range g'.atoms.length) g'.mem).1)
        else .error .runtimeError) := by
    simp only [System.search, System.searchNumber, if_neg (not_lt.2 ht), hl, bind, Except.bind, hll,
      System.neighborsByNumber, hfill, pure, Except.pure]
  have hspec := byNumberLoop_spec σ g' nmax assign (List.range g'.atoms.length) List.nodup_range g'.mem
  have hiff : (System.byNumberLoop σ g' nmax assign (List.range g'.atoms.length) g'.mem).2 = true ↔
      ∀ k < s.atoms.length, nmax ≤ (T k).length := by
    rw [hspec.1]
    constructor
    · intro h k hk
      have := h k (List.mem_range.2 (hlike.len.symm ▸ hk))
      rwa [hmem k hk] at this
    · intro h k hk
      have hk : k < s.atoms.length := hlike.len ▸ List.mem_range.1 hk
      rw [hmem k hk]
      exact h k hk
  constructor
  · rintro ⟨k, hk, hlt⟩
    rw [hse, if_neg]
    rw [hiff]
    intro h
    have := h k hk
    omega
  · intro hall
    have htrue := hiff.2 hall
    rw [hse, if_pos htrue]
    congr 1
    rw [System.ofMem, hg']
    congr 1
    rw [← hg', hlike.len]
    refine List.map_congr_left fun k hk => ?_
    rw [List.mem_range] at hk
    have h2 := hspec.2 htrue k
    rw [hlike.len] at h2
    rw [h2, if_pos (List.mem_range.2 hk), hmem k hk]
    unfold byNumberAtom
    rw [hlike.mkNb]

theorem searchNumber_spec (σ : StdSort) (s : System) (f : ℕ) (t : ℝ) (nmax : ℕ) (assign : Bool) (ht : 1 ≤ t)
    (hle : s.realNop ≤ s.atoms.length) (hok : CandOK (s.candSettings (decide (s.realNop > 4000)) t)) :
    ∃ T : ℕ → List DAtom,
      (∀ k < s.atoms.length, (T k).Perm (cands (s.candSettings (decide (s.realNop > 4000)) t) k)) ∧
      ((∃ k < s.atoms.length, (T k).length < nmax) →
        (s.startSearch f).search σ (.number t nmax assign) = .error .runtimeError) ∧
      ((∀ k < s.atoms.length, nmax ≤ (T k).length) →
        (s.startSearch f).search σ (.number t nmax assign) =
          .ok { s with atoms := (List.range s.atoms.length).map
                         fun k => byNumberAtom σ s nmax assign k (candAtom s (T k) k),
                       filter := f, usecells := decide (s.realNop > 4000), voronoiused := false,
                       neighbordistance := s.guessDist t }) :=
  ⟨candList (s.candSettings (decide (s.realNop > 4000)) t), fun _ hk => candList_perm hok hk, searchNumber_runs σ s f t nmax assign ht hle hok.runs⟩

/-- The adaptive search. -/
theorem searchAdaptive_runs (σ : StdSort) (s : System) (f : ℕ) (t : ℝ) (nlimit : ℕ) (padding : ℝ) (ht : 1 ≤ t)
    (hok : CandRuns (s.candSettings (decide (s.nop > 4000)) t)) :
      ((∃ k < s.atoms.length, (candList (s.candSettings (decide (s.nop > 4000)) t) k).length < nlimit) →
        (s.startSearch f).searchAdaptive σ t nlimit padding = .error .runtimeError) ∧
      ((∀ k < s.atoms.length, nlimit ≤ (candList (s.candSettings (decide (s.nop > 4000)) t) k).length) →
        (s.startSearch f).searchAdaptive σ t nlimit padding =
          .ok { s with atoms := (List.range s.atoms.length).map
                         fun k => adaptiveAtom σ { s with filter := f } nlimit padding k (candAtom s (candList (s.candSettings (decide (s.nop > 4000)) t) k) k),
                       filter := f, usecells := decide (s.nop > 4000),
                       neighbordistance := s.guessDist t }) := by
  obtain ⟨g', hfill, hlike, hf, hg', hmem⟩ := fillTemp_start_runs s
    { s.startSearch f with usecells := decide (s.nop > 4000) } f _ s.voronoiused t rfl hok
  set T := candList (s.candSettings (decide (s.nop > 4000)) t) with hTd
  have hse : (s.startSearch f).searchAdaptive σ t nlimit padding =
      (if (System.adaptiveLoop σ g' nlimit padding (List.range g'.atoms.length) g'.mem).2 then
        .ok (g'.ofMem (System.adaptiveLoop σ g' nlimit padding (List.range g'.atoms.length) g'.mem).1)
        else .error .runtimeError) := by
    have hfill' : System.fillTemp { s.startSearch f with usecells := decide ((s.startSearch f).nop > 4000) } t =
      .ok g' := hfill
    simp only [System.searchAdaptive, if_neg (not_lt.2 ht), bind, Except.bind,
      System.neighborsAdaptive, hfill', pure, Except.pure]
  have hspec := adaptiveLoop_spec σ g' nlimit padding (List.range g'.atoms.length) List.nodup_range g'.mem
  have hiff : (System.adaptiveLoop σ g' nlimit padding (List.range g'.atoms.length) g'.mem).2 = true ↔
      ∀ k < s.atoms.length, nlimit ≤ (T k).length := by
    rw [hspec.1]
    constructor
    · intro h k hk
      have := h k (List.mem_range.2 (hlike.len.symm ▸ hk))
      rwa [hmem k hk] at this
    · intro h k hk
      have hk : k < s.atoms.length := hlike.len ▸ List.mem_range.1 hk
      rw [hmem k hk]
      exact h k hk
  constructor
  · rintro ⟨k, hk, hlt⟩
    rw [hse, if_neg]
    rw [hiff]
    intro h
    have := h k hk
    omega
  · intro hall
    have htrue := hiff.2 hall
    rw [hse, if_pos htrue]
    congr 1
    rw [System.ofMem, hg']
    congr 1
    rw [← hg', hlike.len]
    refine List.map_congr_left fun k hk => ?_
    rw [List.mem_range] at hk
    have h2 := hspec.2 htrue k
    rw [hlike.len] at h2
    rw [h2, if_pos (List.mem_range.2 hk), hmem k hk]
    have hsel : ∀ d l, adaptiveSel g' k d l = adaptiveSel { s with filter := f } k d l := by
      intro d l
      have e : ∀ k, ({ s with filter := f } : System).typeOf k = s.typeOf k := fun k => rfl
      unfold adaptiveSel
      simp only [hf, hlike.type, e]
    unfold adaptiveAtom
    simp only [hlike.mkNb, hsel]
    rfl

theorem searchAdaptive_spec (σ : StdSort) (s : System) (f : ℕ) (t : ℝ) (nlimit : ℕ) (padding : ℝ) (ht : 1 ≤ t)
    (hok : CandOK (s.candSettings (decide (s.nop > 4000)) t)) :
    ∃ T : ℕ → List DAtom,
      (∀ k < s.atoms.length, (T k).Perm (cands (s.candSettings (decide (s.nop > 4000)) t) k)) ∧
      ((∃ k < s.atoms.length, (T k).length < nlimit) →
        (s.startSearch f).searchAdaptive σ t nlimit padding = .error .runtimeError) ∧
      ((∀ k < s.atoms.length, nlimit ≤ (T k).length) →
        (s.startSearch f).searchAdaptive σ t nlimit padding =
          .ok { s with atoms := (List.range s.atoms.length).map
                         fun k => adaptiveAtom σ { s with filter := f } nlimit padding k (candAtom s (T k) k),
                       filter := f, usecells := decide (s.nop > 4000),
                       neighbordistance := s.guessDist t }) :=
  ⟨candList (s.candSettings (decide (s.nop > 4000)) t), fun _ hk => candList_perm hok hk, searchAdaptive_runs σ s f t nlimit padding ht hok.runs⟩

end Pyscal
