import Verif.Props.Relabel
import Verif.Props.Number
import Verif.Lemmas.Perfect

/-! All searches, with or without cell lists, of two systems that differ by a renumbering of the atoms. -/

namespace Pyscal

section
variable {G : V3 × ℤ → V3 × ℤ → Prop} {ρ : Equiv.Perm ℕ} {s g : System} {σ : StdSort}

/-! ### Numeric cutoffs -/

theorem cutoff_fault {s : System} {f : ℕ} {r : ℝ} (hr : r ≠ 0) (hp : Spec.PairsExact s r) (hle : s.realNop ≤ s.atoms.length) {e : Fault}
    (h : s.findNeighbors σ f (.cutoff r) = .error e) : e = .oob := by
  by_cases hn : s.natoms ≤ 2300
  · rw [findNeighbors_cutoff_eq σ s f r hr hn hle] at h
    split_ifs at h
    cases h; rfl
  have hok : Spec.CellConditions s r := hp.resolve_left hn
  rw [findNeighbors_cutoff_large σ s f r hr (not_le.1 hn) hle] at h
  obtain ⟨c, hc, -⟩ := C11_cells_eq_brute { s.startSearch f with neighbordistance := r } (hok.start f)
  rw [hc] at h
  change (do
    let s' ← c.checkCapacity
    return { s' with neighborsFound := true }) = Except.error e at h
  unfold System.checkCapacity at h
  split_ifs at h
  · cases h; rfl
  · cases h

theorem cutoff_cap {s s1 : System} {f : ℕ} {r : ℝ} (hr : r ≠ 0) (hp : Spec.PairsExact s r) (h : s.findNeighbors σ f (.cutoff r) = .ok s1) :
    ∀ i < s.atoms.length, (cutoffNbs s r f i).length ≤ 300 := by
  intro i hi
  obtain ⟨-, l1, e1⟩ := cutoff_any hr hp h
  obtain ⟨g, -, hs', hcap⟩ := ok_of_find h
  have hi1 := List.getElem?_eq_getElem (l := s1.atoms) (i := i) (by rw [l1]; exact hi)
  obtain ⟨-, na, -⟩ := e1 i _ hi1
  rw [← na.length_eq]
  refine hcap _ ?_
  have : s1.atoms = g.atoms := by rw [hs']
  rw [← this]
  exact List.getElem_mem _

/-- Searches with a numeric cutoff. -/
theorem Relab.cutoff (h : Relab G ρ s g) (f : ℕ) {r : ℝ} (hr : r ≠ 0) (hp : Spec.PairsExact s r) (hp' : Spec.PairsExact g r)
    (hle : s.realNop ≤ s.atoms.length) : RelE (RelabNb G ρ) (s.findNeighbors σ f (.cutoff r)) (g.findNeighbors σ f (.cutoff r)) := by
  have hle' : g.realNop ≤ g.atoms.length := by rw [h.realNop, h.len]; exact hle
  rcases h1 : s.findNeighbors σ f (.cutoff r) with e | s1 <;> rcases h2 : g.findNeighbors σ f (.cutoff r) with e' | g1
  · exact (cutoff_fault hr hp hle h1).trans (cutoff_fault hr hp' hle' h2).symm
  · have hc := cutoff_cap hr hp' h2
    obtain ⟨s1, e1⟩ := cutoff_isOk σ (f := f) hr hp hle fun i hi => by
      have := hc (ρ i) (h.len ▸ (h.lt i).2 hi)
      rwa [(h.cutoffNbs r f hi).length_eq, List.length_map] at this
    rw [h1] at e1; cases e1
  · have hc := cutoff_cap hr hp h1
    obtain ⟨g1, e1⟩ := cutoff_isOk σ (f := f) hr hp' hle' fun k hk => by
      obtain ⟨i, rfl⟩ := ρ.surjective k
      have hi : i < s.atoms.length := (h.lt i).1 (h.len ▸ hk)
      rw [(h.cutoffNbs r f hi).length_eq, List.length_map]
      exact hc i hi
    rw [h2] at e1; cases e1
  · obtain ⟨f1, l1, e1⟩ := cutoff_any hr hp h1
    obtain ⟨f2, l2, e2⟩ := cutoff_any hr hp' h2
    have a1 : ∀ k, k < s.atoms.length → (s1.mem k).nbrs.Perm (Pyscal.cutoffNbs s r f k) ∧ { s1.mem k with nbrs := [] } = { Pyscal.cutoffAtom s r f k with nbrs := [] } := by
      intro k hk
      have hk1 := List.getElem?_eq_getElem (l := s1.atoms) (i := k) (by rw [l1]; exact hk)
      obtain ⟨-, na, nb⟩ := e1 k _ hk1
      rw [(mem_of_getElem? hk1).2]
      exact ⟨na, nb⟩
    have a2 : ∀ k, k < g.atoms.length → (g1.mem k).nbrs.Perm (Pyscal.cutoffNbs g r f k) ∧ { g1.mem k with nbrs := [] } = { Pyscal.cutoffAtom g r f k with nbrs := [] } := by
      intro k hk
      have hk1 := List.getElem?_eq_getElem (l := g1.atoms) (i := k) (by rw [l2]; exact hk)
      obtain ⟨-, na, nb⟩ := e2 k _ hk1
      rw [(mem_of_getElem? hk1).2]
      exact ⟨na, nb⟩
    have geo1 : ∀ k, k < s.atoms.length → Pyscal.geo (s1.mem k) = Pyscal.geo (s.mem k) := by
      intro k hk
      have e := (a1 k hk).2
      have p : (s1.mem k).pos = (s.mem k).pos := by have := congrArg Atom.pos e; exact this
      have q : (s1.mem k).type = (s.mem k).type := by have := congrArg Atom.type e; exact this
      simp only [Pyscal.geo, p, q]
    have geo2 : ∀ k, k < g.atoms.length → Pyscal.geo (g1.mem k) = Pyscal.geo (g.mem k) := by
      intro k hk
      have e := (a2 k hk).2
      have p : (g1.mem k).pos = (g.mem k).pos := by have := congrArg Atom.pos e; exact this
      have q : (g1.mem k).type = (g.mem k).type := by have := congrArg Atom.type e; exact this
      simp only [Pyscal.geo, p, q]
    change RelabNb G ρ s1 g1
    have hρ : ∀ k, k < s.atoms.length → ρ k < g.atoms.length := fun k hk => h.len ▸ (h.lt k).2 hk
    refine ⟨by rw [l1, l2, h.len], fun k => by rw [l1]; exact h.lt k, fun k hk => ?_, fun k hk => ?_, fun k hk => ?_, fun k hk => ?_, ?_, ?_⟩
    · rw [l1] at hk
      rw [geo1 k hk, geo2 _ (hρ k hk)]
      exact h.geo k hk
    · rw [l1] at hk
      have e1 := congrArg Prod.snd (geo1 k hk)
      have e2 := congrArg Prod.snd (geo2 _ (hρ k hk))
      exact (e2.trans (h.type k hk)).trans e1.symm
    · rw [l1] at hk
      exact ((a2 _ (hρ k hk)).1.trans (h.cutoffNbs r f hk)).trans ((a1 k hk).1.map _).symm
    · rw [l1] at hk
      have e1 : (s1.mem k).condition = some 0 := congrArg Atom.condition (a1 k hk).2
      have e2 : (g1.mem (ρ k)).condition = some 0 := congrArg Atom.condition (a2 _ (hρ k hk)).2
      rw [e1, e2]
    · rw [f1, f2]
    · rw [f1, f2]; exact h.realNop

/-! ### Candidates -/

/-- The settings on which the choice of the radius and of cell lists depends. -/
structure SameSettings (s g : System) : Prop where
  nop : g.nop = s.nop
  vor : g.voronoiused = s.voronoiused
  dist : ∀ p, g.guessDist p = s.guessDist p

theorem Relab.cands (h : Relab G ρ s g) (u : Bool) {p : ℝ} (hd : g.guessDist p = s.guessDist p) {k : ℕ} (hk : k < s.atoms.length) :
    (cands (g.candSettings u p) (ρ k)).Perm ((cands (s.candSettings u p) k).map fun x => { x with idx := ρ x.idx }) := by
  classical
  have nd : ∀ (t : System) (j : ℕ), (Pyscal.cands (t.candSettings u p) j).Nodup := by
    intro t j
    unfold Pyscal.cands
    refine (List.nodup_range.filter _).map fun a b hab => ?_
    exact congrArg DAtom.idx hab
  have inj : Function.Injective fun x : DAtom => ({ x with idx := ρ x.idx } : DAtom) := by
    rintro ⟨d, i⟩ ⟨d', i'⟩ e
    simp only [DAtom.mk.injEq, EmbeddingLike.apply_eq_iff_eq] at e
    rw [e.1, e.2]
  rw [List.perm_ext_iff_of_nodup (nd g _) ((nd s k).map inj)]
  intro x
  have hdist : ∀ j < s.atoms.length, g.distOf (ρ k) (ρ j) = s.distOf k j := fun j hj => by
    change V3.norm (g.diffOf _ _) = V3.norm (s.diffOf _ _)
    rw [h.diffOf hk hj]
  have e : ∀ j < s.atoms.length, ∀ d, (⟨d, ρ j⟩ : DAtom) ∈ Pyscal.cands (g.candSettings u p) (ρ k) ↔ (⟨d, j⟩ : DAtom) ∈ Pyscal.cands (s.candSettings u p) k := by
    intro j hj d
    rw [cands_mem, cands_mem]
    change ρ j < g.atoms.length ∧ ρ j ≠ ρ k ∧ d = g.distOf (ρ k) (ρ j) ∧ (if u then g.distOf (ρ k) (ρ j) < g.guessDist p else g.distOf (ρ k) (ρ j) ≤ g.guessDist p) ↔
      j < s.atoms.length ∧ j ≠ k ∧ d = s.distOf k j ∧ (if u then s.distOf k j < s.guessDist p else s.distOf k j ≤ s.guessDist p)
    rw [hdist j hj, hd, h.len, h.lt, ne_eq, EmbeddingLike.apply_eq_iff_eq]
  rw [List.mem_map]
  constructor
  · intro hx
    obtain ⟨d, j'⟩ := x
    obtain ⟨j, rfl⟩ := ρ.surjective j'
    have hj : j < s.atoms.length := (h.lt j).1 (h.len ▸ (cands_mem.1 hx).1)
    exact ⟨⟨d, j⟩, (e j hj d).1 hx, rfl⟩
  · rintro ⟨⟨d, j⟩, hx, rfl⟩
    exact (e j (cands_mem.1 hx).1 d).2 hx

/-- Sorting gives the same distances. -/
theorem sort_dists {L M : List DAtom} (hp : M.Perm (L.map fun x => { x with idx := ρ x.idx })) :
    (σ.sort M).map DAtom.dist = (σ.sort L).map DAtom.dist := by
  refine List.Perm.eq_of_pairwise (le := (· ≤ ·)) (fun a b _ _ => le_antisymm) (List.pairwise_map.2 (σ.sorted M)) (List.pairwise_map.2 (σ.sorted L)) ?_
  refine ((σ.perm M).map _).trans ((hp.map _).trans ?_)
  rw [List.map_map]
  exact ((σ.perm L).map _).symm

theorem relE_finish {f : ℕ} {meth : Method} {R : System → System → Prop} {u v : System} (hs : (s.startSearch f).search σ meth = .ok u)
    (hg : (g.startSearch f).search σ meth = .ok v) (hcap : (∃ a ∈ v.atoms, a.nbrs.length > 300) ↔ ∃ a ∈ u.atoms, a.nbrs.length > 300)
    (hR : R { u with neighborsFound := true } { v with neighborsFound := true }) : RelE R (s.findNeighbors σ f meth) (g.findNeighbors σ f meth) := by
  rw [finish_search hs, finish_search hg]
  unfold System.checkCapacity
  by_cases hc : ∃ a ∈ u.atoms, a.nbrs.length > 300
  · rw [if_pos hc, if_pos (hcap.2 hc)]; exact rfl
  · rw [if_neg hc, if_neg (fun h => hc (hcap.1 h))]; exact hR

/-! ### Adaptive searches -/

theorem Relab.adaptive (h : Relab G ρ s g) (hS : SameSettings s g) (f : ℕ) (t : ℝ) (nlimit : ℕ) (padding : ℝ)
    (hx : Spec.SearchExact s (decide (s.nop > 4000)) t) (hx' : Spec.SearchExact g (decide (g.nop > 4000)) t) :
    RelE (RelabNb G ρ) (s.findNeighbors σ f (.adaptive t nlimit padding)) (g.findNeighbors σ f (.adaptive t nlimit padding)) := by
  by_cases ht : 1 ≤ t
  swap
  · have : ∀ w : System, w.findNeighbors σ f (.adaptive t nlimit padding) = .error .valueError := by
      intro w
      apply fail_search
      simp only [System.search, System.searchAdaptive, if_pos (not_le.1 ht)]
    rw [this, this]; exact rfl
  obtain ⟨T, hT, herr, hrun⟩ := searchAdaptive_spec σ s f t nlimit padding ht (candOK_of hx)
  obtain ⟨T', hT', herr', hrun'⟩ := searchAdaptive_spec σ g f t nlimit padding ht (candOK_of hx')
  rw [hS.nop] at hT'
  have hρ : ∀ k, k < s.atoms.length → ρ k < g.atoms.length := fun k hk => h.len ▸ (h.lt k).2 hk
  have hTT : ∀ k, k < s.atoms.length → (T' (ρ k)).Perm ((T k).map fun x => { x with idx := ρ x.idx }) := fun k hk =>
    ((hT' _ (hρ k hk)).trans (h.cands _ (hS.dist t) hk)).trans ((hT k hk).map _).symm
  have hlen : ∀ k, k < s.atoms.length → (T' (ρ k)).length = (T k).length := fun k hk => by rw [(hTT k hk).length_eq, List.length_map]
  by_cases hall : ∀ k < s.atoms.length, nlimit ≤ (T k).length
  swap
  · push Not at hall
    obtain ⟨k, hk, hlt⟩ := hall
    rw [fail_search (meth := .adaptive t nlimit padding) (herr ⟨k, hk, hlt⟩),
      fail_search (meth := .adaptive t nlimit padding) (herr' ⟨ρ k, hρ k hk, by rw [hlen k hk]; exact hlt⟩)]
    exact rfl
  have hall' : ∀ k < g.atoms.length, nlimit ≤ (T' k).length := by
    intro k hk
    obtain ⟨i, rfl⟩ := ρ.surjective k
    have hi : i < s.atoms.length := (h.lt i).1 (h.len ▸ hk)
    rw [hlen i hi]
    exact hall i hi
  -- the atoms
  have hatom : ∀ k, k < s.atoms.length →
      (adaptiveAtom σ { g with filter := f } nlimit padding (ρ k) (candAtom g (T' (ρ k)) (ρ k))).nbrs.Perm
        ((adaptiveAtom σ { s with filter := f } nlimit padding k (candAtom s (T k) k)).nbrs.map fun x => { x with idx := ρ x.idx }) := by
    intro k hk
    simp only [adaptiveAtom, candAtom, List.nil_append]
    have hcut : System.adaptiveCut padding nlimit (σ.sort (T' (ρ k))) = System.adaptiveCut padding nlimit (σ.sort (T k)) := by
      unfold System.adaptiveCut
      rw [List.map_take, List.map_take, sort_dists (hTT k hk)]
    rw [hcut]
    generalize System.adaptiveCut padding nlimit (σ.sort (T k)) = d
    have p1 : (σ.sort (T' (ρ k))).Perm ((σ.sort (T k)).map fun x => { x with idx := ρ x.idx }) :=
      ((σ.perm _).trans (hTT k hk)).trans ((σ.perm _).map _).symm
    have hin : ∀ x ∈ σ.sort (T k), x.idx < s.atoms.length := fun x hx =>
      (cands_mem.1 ((hT k hk).mem_iff.1 ((σ.perm _).mem_iff.1 hx))).1
    have hsel : adaptiveSel { g with filter := f } (ρ k) d ((σ.sort (T k)).map fun x => { x with idx := ρ x.idx }) =
        (adaptiveSel { s with filter := f } k d (σ.sort (T k))).map fun x => { x with idx := ρ x.idx } := by
      unfold adaptiveSel
      rw [List.filter_map]
      congr 1
      refine List.filter_congr fun x hx => ?_
      have e1 : System.typeOf { g with filter := f } (ρ k) = System.typeOf { s with filter := f } k := h.type k hk
      have e2 : System.typeOf { g with filter := f } (ρ x.idx) = System.typeOf { s with filter := f } x.idx := h.type _ (hin x hx)
      simp only [Function.comp, e1, e2]
    have p2 : (adaptiveSel { g with filter := f } (ρ k) d (σ.sort (T' (ρ k)))).Perm
        (adaptiveSel { g with filter := f } (ρ k) d ((σ.sort (T k)).map fun x => { x with idx := ρ x.idx })) := p1.filter _
    rw [hsel] at p2
    refine (p2.map _).trans ?_
    rw [List.map_map, List.map_map]
    refine List.Perm.of_eq (List.map_congr_left fun x hx => ?_)
    have hxl := hin x (List.mem_filter.1 hx).1
    have e := h.diffOf hk hxl
    change (⟨ρ x.idx, V3.norm (g.diffOf (ρ k) (ρ x.idx)), 1, g.diffOf (ρ k) (ρ x.idx)⟩ : Nb) = ⟨ρ x.idx, V3.norm (s.diffOf k x.idx), 1, s.diffOf k x.idx⟩
    rw [e]
  refine relE_finish (u := _) (v := _) (hrun hall) (hrun' hall') ?_ ?_
  · constructor
    · rintro ⟨a, ha, hgt⟩
      obtain ⟨k, hk, rfl⟩ := List.mem_map.1 ha
      obtain ⟨i, rfl⟩ := ρ.surjective k
      have hi : i < s.atoms.length := (h.lt i).1 (h.len ▸ List.mem_range.1 hk)
      refine ⟨_, List.mem_map.2 ⟨i, List.mem_range.2 hi, rfl⟩, ?_⟩
      have := (hatom i hi).length_eq
      rw [List.length_map] at this
      rw [← this]; exact hgt
    · rintro ⟨a, ha, hgt⟩
      obtain ⟨k, hk, rfl⟩ := List.mem_map.1 ha
      have hk := List.mem_range.1 hk
      refine ⟨_, List.mem_map.2 ⟨ρ k, List.mem_range.2 (hρ k hk), rfl⟩, ?_⟩
      have := (hatom k hk).length_eq
      rw [List.length_map] at this
      rw [this]; exact hgt
  · have hm : ∀ (w : System) (F : ℕ → Atom) (b c : Bool) (d : ℝ) (k : ℕ), k < w.atoms.length →
        System.mem { w with atoms := (List.range w.atoms.length).map F, filter := f, usecells := b, neighbordistance := d, neighborsFound := c } k = F k := by
      intro w F b c d k hk
      simp [System.mem, hk]
    have hl : ∀ (w : System) (F : ℕ → Atom), ((List.range w.atoms.length).map F).length = w.atoms.length := fun w F => by simp
    refine ⟨?_, ?_, ?_, ?_, ?_, ?_, hS.vor, h.realNop⟩
    · change ((List.range g.atoms.length).map _).length = ((List.range s.atoms.length).map _).length
      rw [hl, hl, h.len]
    · intro k
      change ρ k < ((List.range s.atoms.length).map _).length ↔ k < ((List.range s.atoms.length).map _).length
      rw [hl]; exact h.lt k
    · intro k hk
      change k < ((List.range s.atoms.length).map _).length at hk
      rw [hl] at hk
      rw [hm _ _ _ _ _ _ hk, hm _ _ _ _ _ _ (hρ k hk)]
      exact h.geo k hk
    · intro k hk
      change k < ((List.range s.atoms.length).map _).length at hk
      rw [hl] at hk
      unfold System.typeOf
      rw [hm _ _ _ _ _ _ hk, hm _ _ _ _ _ _ (hρ k hk)]
      exact h.type k hk
    · intro k hk
      change k < ((List.range s.atoms.length).map _).length at hk
      rw [hl] at hk
      rw [hm _ _ _ _ _ _ hk, hm _ _ _ _ _ _ (hρ k hk)]
      exact hatom k hk
    · intro k hk
      change k < ((List.range s.atoms.length).map _).length at hk
      rw [hl] at hk
      rw [hm _ _ _ _ _ _ hk, hm _ _ _ _ _ _ (hρ k hk)]
      rfl

/-! ### Searches by number -/

/-- The nearest atoms of two renumbered systems: the same distances, and the same atoms except for a choice among those at the
largest distance. -/
structure RelabNear (ρ : Equiv.Perm ℕ) (s g : System) : Prop where
  len : g.atoms.length = s.atoms.length
  real : g.realNop = s.realNop
  dist : ∀ k < s.atoms.length, (g.mem (ρ k)).nbrs.map Nb.dist = (s.mem k).nbrs.map Nb.dist
  inner : ∀ k < s.atoms.length, ∀ x ∈ (s.mem k).nbrs, (∃ y ∈ (s.mem k).nbrs, x.dist < y.dist) → { x with idx := ρ x.idx } ∈ (g.mem (ρ k)).nbrs

theorem Relab.number (h : Relab G ρ s g) (hS : SameSettings s g) (f : ℕ) (t : ℝ) (n : ℕ) (hle : s.realNop ≤ s.atoms.length)
    (hx : Spec.SearchExact s (decide (s.realNop > 4000)) t) (hx' : Spec.SearchExact g (decide (g.realNop > 4000)) t) :
    RelE (RelabNear ρ) (s.findNeighbors σ f (.number t n true)) (g.findNeighbors σ f (.number t n true)) := by
  by_cases ht : 1 ≤ t
  swap
  · have : ∀ w : System, w.findNeighbors σ f (.number t n true) = .error .valueError := by
      intro w
      apply fail_search
      simp only [System.search, System.searchNumber, if_pos (not_le.1 ht)]
    rw [this, this]; exact rfl
  have hle' : g.realNop ≤ g.atoms.length := by rw [h.realNop, h.len]; exact hle
  obtain ⟨T, hT, herr, hrun⟩ := searchNumber_spec σ s f t n true ht hle (candOK_of hx)
  obtain ⟨T', hT', herr', hrun'⟩ := searchNumber_spec σ g f t n true ht hle' (candOK_of hx')
  rw [h.realNop] at hT'
  have hρ : ∀ k, k < s.atoms.length → ρ k < g.atoms.length := fun k hk => h.len ▸ (h.lt k).2 hk
  have hTT : ∀ k, k < s.atoms.length → (T' (ρ k)).Perm ((T k).map fun x => { x with idx := ρ x.idx }) := fun k hk =>
    ((hT' _ (hρ k hk)).trans (h.cands _ (hS.dist t) hk)).trans ((hT k hk).map _).symm
  have hlen : ∀ k, k < s.atoms.length → (T' (ρ k)).length = (T k).length := fun k hk => by rw [(hTT k hk).length_eq, List.length_map]
  by_cases hall : ∀ k < s.atoms.length, n ≤ (T k).length
  swap
  · push Not at hall
    obtain ⟨k, hk, hlt⟩ := hall
    rw [fail_search (herr ⟨k, hk, hlt⟩), fail_search (herr' ⟨ρ k, hρ k hk, by rw [hlen k hk]; exact hlt⟩)]
    exact rfl
  have hall' : ∀ k < g.atoms.length, n ≤ (T' k).length := by
    intro k hk
    obtain ⟨i, rfl⟩ := ρ.surjective k
    have hi : i < s.atoms.length := (h.lt i).1 (h.len ▸ hk)
    rw [hlen i hi]
    exact hall i hi
  have hnb : ∀ (w : System) (L : List DAtom) (k : ℕ), (byNumberAtom σ w n true k (candAtom w L k)).nbrs = ((σ.sort L).take n).map fun x => w.mkNb k x.idx := by
    intro w L k
    simp [byNumberAtom, candAtom]
  have hin : ∀ k, k < s.atoms.length → ∀ x ∈ σ.sort (T k), x.idx < s.atoms.length ∧ x.dist = s.distOf k x.idx := by
    intro k hk x hx
    have := cands_mem.1 ((hT k hk).mem_iff.1 ((σ.perm _).mem_iff.1 hx))
    exact ⟨this.1, this.2.2.1⟩
  have hin' : ∀ k, k < g.atoms.length → ∀ x ∈ σ.sort (T' k), x.dist = g.distOf k x.idx := by
    intro k hk x hx
    have := cands_mem.1 ((hT' k hk).mem_iff.1 ((σ.perm _).mem_iff.1 hx))
    exact this.2.2.1
  have hd1 : ∀ k, k < s.atoms.length → (((σ.sort (T k)).take n).map fun x => s.mkNb k x.idx).map Nb.dist = ((σ.sort (T k)).map DAtom.dist).take n := by
    intro k hk
    rw [List.map_map, ← List.map_take]
    exact List.map_congr_left fun x hx => ((hin k hk x (List.mem_of_mem_take hx)).2).symm
  have hd2 : ∀ k, k < g.atoms.length → (((σ.sort (T' k)).take n).map fun x => g.mkNb k x.idx).map Nb.dist = ((σ.sort (T' k)).map DAtom.dist).take n := by
    intro k hk
    rw [List.map_map, ← List.map_take]
    exact List.map_congr_left fun x hx => (hin' k hk x (List.mem_of_mem_take hx)).symm
  refine relE_finish (u := _) (v := _) (hrun hall) (hrun' hall') ?_ ?_
  · have e : ∀ (w : System) (U : ℕ → List DAtom) (_ : ∀ k < w.atoms.length, n ≤ (U k).length),
        (∃ a ∈ (List.range w.atoms.length).map fun k => byNumberAtom σ w n true k (candAtom w (U k) k), a.nbrs.length > 300) ↔ 0 < w.atoms.length ∧ n > 300 := by
      intro w U hU
      have hl : ∀ k < w.atoms.length, (byNumberAtom σ w n true k (candAtom w (U k) k)).nbrs.length = n := by
        intro k hk
        rw [hnb, List.length_map, List.length_take, (σ.perm _).length_eq]
        exact min_eq_left (hU k hk)
      constructor
      · rintro ⟨a, ha, hgt⟩
        obtain ⟨k, hk, rfl⟩ := List.mem_map.1 ha
        have hk := List.mem_range.1 hk
        rw [hl k hk] at hgt
        exact ⟨by omega, hgt⟩
      · rintro ⟨h0, hgt⟩
        exact ⟨_, List.mem_map.2 ⟨0, List.mem_range.2 h0, rfl⟩, by rw [hl 0 h0]; exact hgt⟩
    change (∃ a ∈ (List.range g.atoms.length).map fun k => byNumberAtom σ g n true k (candAtom g (T' k) k), a.nbrs.length > 300) ↔
      ∃ a ∈ (List.range s.atoms.length).map fun k => byNumberAtom σ s n true k (candAtom s (T k) k), a.nbrs.length > 300
    rw [e g T' hall', e s T hall, h.len]
  · have hm : ∀ (w : System) (F : ℕ → Atom) (b c v : Bool) (d : ℝ) (k : ℕ), k < w.atoms.length →
        System.mem { w with atoms := (List.range w.atoms.length).map F, filter := f, usecells := b, voronoiused := v, neighbordistance := d, neighborsFound := c } k = F k := by
      intro w F b c v d k hk
      simp [System.mem, hk]
    have hl : ∀ (w : System) (F : ℕ → Atom), ((List.range w.atoms.length).map F).length = w.atoms.length := fun w F => by simp
    refine ⟨?_, h.realNop, ?_, ?_⟩
    · change ((List.range g.atoms.length).map _).length = ((List.range s.atoms.length).map _).length
      rw [hl, hl, h.len]
    · intro k hk
      change k < ((List.range s.atoms.length).map _).length at hk
      rw [hl] at hk
      rw [hm _ _ _ _ _ _ _ hk, hm _ _ _ _ _ _ _ (hρ k hk), hnb, hnb, hd1 k hk, hd2 _ (hρ k hk), sort_dists (hTT k hk)]
    · intro k hk
      change k < ((List.range s.atoms.length).map _).length at hk
      rw [hl] at hk
      rw [hm _ _ _ _ _ _ _ hk, hm _ _ _ _ _ _ _ (hρ k hk), hnb, hnb]
      rintro x hx ⟨y, hy, hxy⟩
      obtain ⟨e, he, rfl⟩ := List.mem_map.1 hx
      obtain ⟨e', he', rfl⟩ := List.mem_map.1 hy
      have he0 := List.mem_of_mem_take he
      have he0' := List.mem_of_mem_take he'
      have hlt : e.dist < e'.dist := by
        rw [(hin k hk e he0).2, (hin k hk e' he0').2]; exact hxy
      have p1 : (σ.sort (T' (ρ k))).Perm ((σ.sort (T k)).map fun x => { x with idx := ρ x.idx }) :=
        ((σ.perm _).trans (hTT k hk)).trans ((σ.perm _).map _).symm
      have hmem : ({ e with idx := ρ e.idx } : DAtom) ∈ σ.sort (T' (ρ k)) := p1.mem_iff.2 (List.mem_map.2 ⟨e, he0, rfl⟩)
      have hsort := σ.sorted (T' (ρ k))
      rw [← List.take_append_drop n (σ.sort (T' (ρ k))), List.mem_append] at hmem
      rcases hmem with hmem | hmem
      · refine List.mem_map.2 ⟨_, hmem, ?_⟩
        have e3 := h.diffOf hk (hin k hk e he0).1
        change (⟨ρ e.idx, V3.norm (g.diffOf (ρ k) (ρ e.idx)), 1, g.diffOf (ρ k) (ρ e.idx)⟩ : Nb) = ⟨ρ e.idx, V3.norm (s.diffOf k e.idx), 1, s.diffOf k e.idx⟩
        rw [e3]
      · exfalso
        rw [← List.take_append_drop n (σ.sort (T' (ρ k))), List.pairwise_append] at hsort
        have hin2 : e'.dist ∈ ((σ.sort (T' (ρ k))).take n).map DAtom.dist := by
          rw [List.map_take, sort_dists (hTT k hk), ← List.map_take]
          exact List.mem_map_of_mem he'
        obtain ⟨w, hw, ew⟩ := List.mem_map.1 hin2
        have := hsort.2.2 w hw _ hmem
        rw [ew] at this
        exact absurd hlt (not_lt.2 this)

end

end Pyscal
