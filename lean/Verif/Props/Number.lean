import Verif.Lemmas.Nearest
import Verif.Props.Cutoff

/-! C12 (method 'number') and C13 (adaptive cutoff). -/

namespace Pyscal

theorem cbrt_cube (x : ℝ) : cbrt x ^ 3 = x := by
  unfold cbrt
  have key : ∀ y : ℝ, 0 ≤ y → (y ^ (1 / 3 : ℝ)) ^ 3 = y := by
    intro y hy
    rw [← Real.rpow_natCast, ← Real.rpow_mul hy]
    norm_num
  split_ifs with h
  · exact key x h
  · have := key (-x) (by linarith)
    calc (-((-x) ^ (1 / 3 : ℝ))) ^ 3 = -(((-x) ^ (1 / 3 : ℝ)) ^ 3) := by ring
      _ = x := by rw [this]; ring

/-- The search radius of the code is the specified one. -/
theorem searchRadius_iff (s : System) (t R : ℝ) : Spec.SearchRadius s t R ↔ R = s.guessDist t := by
  have hv : s.boxVol = Spec.searchVolume s := by
    unfold System.boxVol Spec.searchVolume
    split_ifs
    · simp only [Spec.volume, Spec.cross, V3.dot]; ring
    · rfl
  have h3 : (s.guessDist t) ^ 3 = t ^ 3 * (Spec.searchVolume s / s.atoms.length) := by
    unfold System.guessDist
    rw [mul_pow, cbrt_cube, hv]
  unfold Spec.SearchRadius
  rw [← h3]
  exact ⟨fun h => (Odd.strictMono_pow (by decide)).injective h, fun h => by rw [h]⟩

/-- The candidate lists are right when the specified conditions hold. -/
theorem candOK_of {s : System} {u : Bool} {t : ℝ} (h : Spec.SearchExact s u t) : CandOK (s.candSettings u t) := by
  cases u with
  | false => exact .inl rfl
  | true =>
    obtain ⟨L1, L2, L3, h1, h2⟩ := cellsOK_of (h rfl _ ((searchRadius_iff s t _).2 rfl))
    exact .inr ⟨L1, L2, L3, ⟨h1.pos, h1.box, h1.ortho, h1.nd, h1.one, h1.inside⟩, h2⟩

/-- Without cell lists there is nothing to require. -/
theorem exact_small {s : System} {t : ℝ} : Spec.SearchExact s false t := nofun

theorem find_number_ok {σ : StdSort} {s s' : System} {f : ℕ} {t : ℝ} {nmax : ℕ} {assign : Bool}
    (hok : CandOK (s.candSettings (decide (s.realNop > 4000)) t))
    (h : s.findNeighbors σ f (.number t nmax assign) = .ok s') :
    1 ≤ t ∧ s.realNop ≤ s.atoms.length ∧
    ∃ T : ℕ → List DAtom,
      (∀ k < s.atoms.length, (T k).Perm (cands (s.candSettings (decide (s.realNop > 4000)) t) k)) ∧
      (∀ k < s.atoms.length, nmax ≤ (T k).length) ∧
      s' = { s with atoms := (List.range s.atoms.length).map
                         fun k => byNumberAtom σ s nmax assign k (candAtom s (T k) k),
                       filter := f, usecells := decide (s.realNop > 4000), voronoiused := false,
                       neighbordistance := s.guessDist t, neighborsFound := true } ∧
      ∀ a ∈ s'.atoms, a.nbrs.length ≤ 300 := by
  obtain ⟨g, hg, hs', hcap⟩ := ok_of_find h
  have ht : 1 ≤ t := by
    by_contra hc
    have : (s.startSearch f).search σ (.number t nmax assign) = .error .valueError := by
      simp only [System.search, System.searchNumber, if_pos (not_le.1 hc)]
    rw [this] at hg; cases hg
  have hle : s.realNop ≤ s.atoms.length := by
    by_contra hc
    have : (s.startSearch f).search σ (.number t nmax assign) = .error .oob := by
      simp only [System.search, System.searchNumber, if_neg (not_lt.2 ht)]
      rw [getAtoms_error (s.startSearch f) (by
        rw [show (s.startSearch f).atoms.length = _ from resetAll_length s]; exact hc)]
      rfl
    rw [this] at hg; cases hg
  obtain ⟨T, hT, herr, hsucc⟩ := searchNumber_spec σ s f t nmax assign ht hle hok
  have hall : ∀ k < s.atoms.length, nmax ≤ (T k).length := by
    by_contra hc
    push Not at hc
    rw [herr hc] at hg; cases hg
  rw [hsucc hall] at hg
  obtain rfl := Except.ok.inj hg
  refine ⟨ht, hle, T, hT, hall, hs', ?_⟩
  subst hs'
  exact hcap

theorem map_range_getElem? {α : Type} {n k : ℕ} (g : ℕ → α) {a : α}
    (h : ((List.range n).map g)[k]? = some a) : k < n ∧ a = g k := by
  rw [List.getElem?_map, Option.map_eq_some_iff] at h
  obtain ⟨j, hj, rfl⟩ := h
  rw [List.getElem?_eq_some_iff] at hj
  obtain ⟨hlt, hj⟩ := hj
  rw [List.length_range] at hlt
  rw [List.getElem_range] at hj
  subst hj
  exact ⟨hlt, rfl⟩

/-- **C12**: a successful `find_neighbors(method='number', nmax=n)` keeps the geometry and gives
every atom exactly its `n` nearest other atoms, in order of distance, each with the distance,
weight one and the vector to it.  (`SearchExact`: at most 4000 atoms, or a box and positions suited
to the cell lists, see `C12_false_cells`.) -/
theorem C12_partial (σ : StdSort) (s s' : System) (f : ℕ) (t : ℝ) (nmax : ℕ)
    (hok : Spec.SearchExact s (decide (s.realNop > 4000)) t)
    (h : s.findNeighbors σ f (.number t nmax true) = .ok s') :
    Spec.SameGeometry s s' ∧ s'.neighborsFound = true ∧
    ∀ k a a', s.atoms[k]? = some a → s'.atoms[k]? = some a' →
      Spec.NearestList s k a nmax a'.nbrs ∧ nmax ≤ 300 := by
  have hok := candOK_of hok
  obtain ⟨_, _, T, hT, hall, rfl, hcap⟩ := find_number_ok hok h
  refine ⟨sameGeometry_map rfl ⟨rfl, rfl, rfl, rfl⟩ (fun _ => rfl) (fun _ => rfl), rfl, ?_⟩
  intro k a a' hk hk'
  obtain ⟨hlt, rfl⟩ := map_range_getElem? _ hk'
  have hS := SortedCands.mk' σ (hT k hlt)
  have hlen : nmax ≤ (σ.sort (T k)).length := by rw [(σ.perm _).length_eq]; exact hall k hlt
  have hN := hS.nearest (a := a) hk hlen
  have hnb : (byNumberAtom σ s nmax true k (candAtom s (T k) k)).nbrs =
      ((σ.sort (T k)).take nmax).map fun x => s.mkNb k x.idx := by
    simp [byNumberAtom, candAtom]
  rw [hnb]
  refine ⟨hN, ?_⟩
  have := hcap _ (List.mem_of_getElem? hk')
  have hl : (((σ.sort (T k)).take nmax).map fun x => s.mkNb k x.idx).length = nmax := hN.1
  rw [hnb, hl] at this
  exact this

/-- **C12**, failures: a threshold below 1 raises ValueError; otherwise, when some atom has fewer
than `nmax` other atoms inside the search radius the call raises RuntimeError, and when every atom
has enough of them (and `nmax` fits the fixed arrays) it succeeds. -/
theorem C12_errors (σ : StdSort) (s : System) (f : ℕ) (t R : ℝ) (hR : Spec.SearchRadius s t R) (nmax : ℕ) (assign : Bool) :
    (t < 1 → s.findNeighbors σ f (.number t nmax assign) = .error .valueError) ∧
    (1 ≤ t → s.realNop ≤ s.atoms.length → s.realNop ≤ 4000 →
      ((∃ k < s.atoms.length, Spec.countWithin s R k < nmax) →
        s.findNeighbors σ f (.number t nmax assign) = .error .runtimeError) ∧
      ((∀ k < s.atoms.length, nmax ≤ Spec.countWithin s R k) → nmax ≤ 300 →
        ∃ s', s.findNeighbors σ f (.number t nmax assign) = .ok s')) := by
  obtain rfl := (searchRadius_iff s t R).1 hR
  constructor
  · intro ht
    apply fail_search
    simp only [System.search, System.searchNumber, if_pos ht]
  intro ht hle hn
  have hu : decide (s.realNop > 4000) = false := by simpa using hn
  have hok : CandOK (s.candSettings (decide (s.realNop > 4000)) t) := .inl hu
  obtain ⟨T, hT, herr, hsucc⟩ := searchNumber_spec σ s f t nmax assign ht hle hok
  have hlen : ∀ k < s.atoms.length, (T k).length = Spec.countWithin s (s.guessDist t) k := by
    intro k hk
    rw [(hT k hk).length_eq]
    exact cands_length (s := s.candSettings (decide (s.realNop > 4000)) t) hu hk
  constructor
  · rintro ⟨k, hk, hlt⟩
    exact fail_search (herr ⟨k, hk, by rw [hlen k hk]; exact hlt⟩)
  · intro hall h300
    have hg := hsucc fun k hk => by rw [hlen k hk]; exact hall k hk
    refine finish_ok hg fun a ha => ?_
    obtain ⟨k, hk, rfl⟩ := List.mem_map.1 ha
    cases assign
    · simp [byNumberAtom, candAtom]
    · simp only [byNumberAtom, candAtom, if_true, List.nil_append, List.length_map, List.length_take]
      omega

/-- The search radius of the two atom system is at least 1. -/
theorem twoAtoms_guess {t : ℝ} (ht : 1 ≤ t) : 1 ≤ twoAtoms.guessDist t := by
  have h10 : V3.norm ⟨10, 0, 0⟩ = 10 ∧ V3.norm ⟨0, 10, 0⟩ = 10 ∧ V3.norm ⟨0, 0, 10⟩ = 10 :=
    ⟨norm_axis_x _ (by norm_num), norm_axis_y _ (by norm_num), norm_axis_z _ (by norm_num)⟩
  have hv : twoAtoms.boxVol / (twoAtoms.atoms.length : ℝ) = 500 := by
    have h : twoAtoms.triclinic = false := rfl
    simp only [System.boxVol, h, System.boxx, System.boxy, System.boxz]
    simp only [twoAtoms, Spec.diagBox, h10, List.length_cons, List.length_nil]
    norm_num
  unfold System.guessDist
  rw [hv]
  have hc : 1 ≤ cbrt 500 := by
    rw [cbrt, if_pos (by norm_num)]
    exact Real.one_le_rpow (by norm_num) (by norm_num)
  nlinarith

theorem twoAtoms_within {t : ℝ} (ht : 1 ≤ t) : ∀ k < twoAtoms.atoms.length,
    1 ≤ Spec.countWithin twoAtoms (twoAtoms.guessDist t) k := by
  intro k hk
  have hl := cands_length (s := twoAtoms.candSettings false t) rfl (k := k) hk
  change _ = Spec.countWithin twoAtoms (twoAtoms.guessDist t) k at hl
  rw [← hl, Nat.one_le_iff_ne_zero, ne_eq, List.length_eq_zero_iff]
  intro h0
  have hk : k < 2 := hk
  have hg := twoAtoms_guess ht
  have hm : (⟨twoAtoms.distOf k (1 - k), 1 - k⟩ : DAtom) ∈ cands (twoAtoms.candSettings false t) k := by
    rw [cands_mem]
    refine ⟨?_, ?_, rfl, ?_⟩
    · change 1 - k < 2; omega
    · change 1 - k ≠ k; omega
    · change twoAtoms.distOf k (1 - k) ≤ twoAtoms.guessDist t
      obtain rfl | rfl : k = 0 ∨ k = 1 := by omega
      · rw [twoAtoms_dist.1]; exact hg
      · rw [twoAtoms_dist.2]; exact hg
  rw [h0] at hm
  cases hm

/-- The hypotheses of C12 are met: the two atom system, asked for one neighbour. -/
theorem twoAtoms_number (σ : StdSort) (f : ℕ) (assign : Bool) :
    Spec.SearchExact twoAtoms (decide (twoAtoms.realNop > 4000)) 2 ∧
    ∃ s', twoAtoms.findNeighbors σ f (.number 2 1 assign) = .ok s' :=
  ⟨exact_small, ((C12_errors σ twoAtoms f 2 _ ((searchRadius_iff _ _ _).2 rfl) 1 assign).2 (by norm_num) (by decide) (by decide)).2
    (twoAtoms_within (by norm_num)) (by norm_num)⟩

/-- Witness for the failure branch: two atoms cannot have two other atoms each. -/
example (σ : StdSort) : twoAtoms.findNeighbors σ 0 (.number 2 2 true) = .error .runtimeError := by
  refine ((C12_errors σ twoAtoms 0 2 _ ((searchRadius_iff _ _ _).2 rfl) 2 true).2 (by norm_num) (by decide) (by decide)).1 ⟨0, by decide, ?_⟩
  have hl := cands_length (s := twoAtoms.candSettings false 2) rfl (k := 0) (by decide)
  change _ = Spec.countWithin twoAtoms (twoAtoms.guessDist 2) 0 at hl
  rw [← hl]
  have hn := cands_nodup (twoAtoms.candSettings false 2) 0
  have hsub : ((cands (twoAtoms.candSettings false 2) 0).map DAtom.idx) ⊆ [1] := by
    intro j hj
    obtain ⟨x, hx, rfl⟩ := List.mem_map.1 hj
    obtain ⟨h1, h2, -, -⟩ := cands_mem.1 hx
    have h1 : x.idx < 2 := h1
    simp; omega
  have := (List.subperm_of_subset hn hsub).length_le
  simp at this
  omega

/-! ### C13 -/

theorem find_adaptive_ok {σ : StdSort} {s s' : System} {f : ℕ} {t : ℝ} {nlimit : ℕ} {padding : ℝ}
    (hok : CandOK (s.candSettings (decide (s.nop > 4000)) t))
    (h : s.findNeighbors σ f (.adaptive t nlimit padding) = .ok s') :
    1 ≤ t ∧
    ∃ T : ℕ → List DAtom,
      (∀ k < s.atoms.length, (T k).Perm (cands (s.candSettings (decide (s.nop > 4000)) t) k)) ∧
      (∀ k < s.atoms.length, nlimit ≤ (T k).length) ∧
      s' = { s with atoms := (List.range s.atoms.length).map
                         fun k => adaptiveAtom σ { s with filter := f } nlimit padding k (candAtom s (T k) k),
                       filter := f, usecells := decide (s.nop > 4000),
                       neighbordistance := s.guessDist t, neighborsFound := true } ∧
      ∀ a ∈ s'.atoms, a.nbrs.length ≤ 300 := by
  obtain ⟨g, hg, hs', hcap⟩ := ok_of_find h
  have ht : 1 ≤ t := by
    by_contra hc
    have : (s.startSearch f).search σ (.adaptive t nlimit padding) = .error .valueError := by
      simp only [System.search, System.searchAdaptive, if_pos (not_le.1 hc)]
    rw [this] at hg; cases hg
  obtain ⟨T, hT, herr, hsucc⟩ := searchAdaptive_spec σ s f t nlimit padding ht hok
  have hall : ∀ k < s.atoms.length, nlimit ≤ (T k).length := by
    by_contra hc
    push Not at hc
    have e : (s.startSearch f).search σ (.adaptive t nlimit padding) = _ := herr hc
    rw [e] at hg; cases hg
  have e : (s.startSearch f).search σ (.adaptive t nlimit padding) = _ := hsucc hall
  rw [e] at hg
  obtain rfl := Except.ok.inj hg
  refine ⟨ht, T, hT, hall, hs', ?_⟩
  subst hs'
  exact hcap

/-- **C13**: a successful adaptive search (also `cutoff=0`, which uses the defaults) keeps the
geometry and gives every atom a cutoff equal to `padding` times the mean distance of its `nlimit`
nearest atoms, and as neighbours exactly the atoms nearer than that which pass the filter, among the
atoms inside the search radius; when the cutoff does not exceed the search radius the list is the
full cutoff list. -/
theorem C13_partial (σ : StdSort) (s s' : System) (f : ℕ) (t R : ℝ) (hR : Spec.SearchRadius s t R) (nlimit : ℕ) (padding : ℝ)
    (hok : Spec.SearchExact s (decide (s.nop > 4000)) t)
    (h : s.findNeighbors σ f (.adaptive t nlimit padding) = .ok s') :
    Spec.SameGeometry s s' ∧ s'.neighborsFound = true ∧
    ∀ k a a', s.atoms[k]? = some a → s'.atoms[k]? = some a' →
      Spec.AdaptiveList s nlimit padding R f k a a'.nbrs a'.cutoff ∧
      (∀ c, a'.cutoff = some c → a'.nbrs ≠ [] → c ≤ R → Spec.CutoffList s c f k a a'.nbrs) := by
  have hok := candOK_of hok
  obtain rfl := (searchRadius_iff s t R).1 hR
  obtain ⟨_, T, hT, hall, rfl, hcap⟩ := find_adaptive_ok hok h
  refine ⟨sameGeometry_map rfl ⟨rfl, rfl, rfl, rfl⟩ (fun _ => rfl) (fun _ => rfl), rfl, ?_⟩
  intro k a a' hk hk'
  obtain ⟨hlt, rfl⟩ := map_range_getElem? _ hk'
  have hS := SortedCands.mk' σ (hT k hlt)
  set S := σ.sort (T k) with hSdef
  have hlen : nlimit ≤ S.length := by rw [hSdef, (σ.perm _).length_eq]; exact hall k hlt
  have hN : Spec.NearestList s k a nlimit ((S.take nlimit).map fun x => s.mkNb k x.idx) :=
    hS.nearest (a := a) hk hlen
  set dcut := System.adaptiveCut padding nlimit S with hdc
  have hnb : (adaptiveAtom σ { s with filter := f } nlimit padding k (candAtom s (T k) k)).nbrs =
      (adaptiveSel { s with filter := f } k dcut S).map fun x => s.mkNb k x.idx := by
    simp only [adaptiveAtom, candAtom, List.nil_append]; rfl
  have hcut : (adaptiveAtom σ { s with filter := f } nlimit padding k (candAtom s (T k) k)).cutoff =
      if adaptiveSel { s with filter := f } k dcut S = [] then (s.mem k).cutoff else some dcut := rfl
  rw [hnb, hcut]
  set L := adaptiveSel { s with filter := f } k dcut S with hL
  have hmemL : ∀ x, x ∈ L ↔ x ∈ S ∧ x.dist < dcut ∧ filterOK f (s.typeOf k) (s.typeOf x.idx) = true := by
    intro x
    simp only [hL, adaptiveSel, List.mem_filter, decide_eq_true_eq]
    rfl
  have hsub : L.Sublist S := List.filter_sublist
  have hnodup : ((L.map fun x => s.mkNb k x.idx).map Nb.idx).Nodup := by
    rw [List.map_map]; exact hS.nodup.sublist (hsub.map DAtom.idx)
  have hsound : ∀ x ∈ L.map fun x => s.mkNb k x.idx, Spec.GoodEntry s k a x ∧
      ∃ nb, s.atoms[x.idx]? = some nb ∧ Spec.Near s dcut f k x.idx a nb := by
    intro y hy
    obtain ⟨x, hx, rfl⟩ := List.mem_map.1 hy
    obtain ⟨hxS, hxd, hxf⟩ := (hmemL x).1 hx
    have hgood : Spec.GoodEntry s k a (s.mkNb k x.idx) := hS.good hk hxS
    refine ⟨hgood, ?_⟩
    obtain ⟨nb, h1, h2, h3, -, -⟩ := hgood
    have h1' : s.atoms[x.idx]? = some nb := h1
    refine ⟨nb, h1, h2, ?_, ?_⟩
    · rw [← h3]
      have : (s.mkNb k x.idx).dist = x.dist := hS.mkNb_dist hxS
      rw [this]; exact hxd
    · rw [System.typeOf, System.typeOf, (mem_of_getElem? hk).2, (mem_of_getElem? h1').2] at hxf
      exact (filterOK_iff _ _ _).1 hxf
  have hcomp : ∀ j nb, s.atoms[j]? = some nb → Spec.Near s dcut f k j a nb →
      s.getDistance nb a < s.guessDist t → ∃ x ∈ L.map fun x => s.mkNb k x.idx, x.idx = j := by
    intro j nb hj hnear hR
    have hd := (distOf_eq hk hj).1
    refine ⟨s.mkNb k j, List.mem_map.2 ⟨⟨s.distOf k j, j⟩, (hmemL _).2 ⟨?_, ?_, ?_⟩, rfl⟩, rfl⟩
    · rw [hS.mem]
      refine ⟨(mem_of_getElem? hj).1, hnear.1, rfl, ?_⟩
      have hR' : s.distOf k j < s.guessDist t := by rw [hd]; exact hR
      split
      · exact hR'
      · exact hR'.le
    · change s.distOf k j < dcut
      rw [hd]; exact hnear.2.1
    · rw [System.typeOf, System.typeOf, (mem_of_getElem? hk).2, (mem_of_getElem? hj).2]
      exact (filterOK_iff _ _ _).2 hnear.2.2
  refine ⟨⟨_, dcut, hN, ?_, hnodup, hsound, hcomp, ?_⟩, ?_⟩
  · rw [hdc, System.adaptiveCut, List.map_map]
    have : (S.take nlimit).map (Nb.dist ∘ fun x => s.mkNb k x.idx) = (S.take nlimit).map DAtom.dist := by
      refine List.map_congr_left fun x hx => ?_
      exact hS.mkNb_dist ((List.take_sublist _ _).subset hx)
    rw [this]; ring
  · intro hne
    rw [if_neg (by intro h0; exact hne (by rw [h0]; rfl))]
  · intro c hc hne hle
    rw [if_neg (by intro h0; exact hne (by rw [h0]; rfl))] at hc
    obtain rfl := Option.some.inj hc
    refine ⟨hnodup, ?_, ?_⟩
    · intro j nb hj hnear
      exact hcomp j nb hj hnear (hnear.2.1.trans_le hle)
    · intro x hx
      obtain ⟨⟨nb, g1, g2, g3, g4, g5⟩, nb', n1, n2⟩ := hsound x hx
      rw [g1] at n1
      obtain rfl := Option.some.inj n1
      exact ⟨nb, g1, n2, g3, g4, g5⟩

/-- **C13**, failures: thresholds below 1 raise ValueError, too few atoms in the search radius raise
RuntimeError, and a numeric cutoff 0 is the adaptive search with the default arguments. -/
theorem C13_errors (σ : StdSort) (s : System) (f : ℕ) (t R : ℝ) (hR : Spec.SearchRadius s t R) (nlimit : ℕ) (padding : ℝ) :
    (t < 1 → s.findNeighbors σ f (.adaptive t nlimit padding) = .error .valueError) ∧
    (1 ≤ t → s.nop ≤ 4000 →
      (∃ k < s.atoms.length, Spec.countWithin s R k < nlimit) →
        s.findNeighbors σ f (.adaptive t nlimit padding) = .error .runtimeError) ∧
    s.findNeighbors σ f (.cutoff 0) = s.findNeighbors σ f (.adaptive 2 6 1.2) := by
  obtain rfl := (searchRadius_iff s t R).1 hR
  refine ⟨?_, ?_, ?_⟩
  · intro ht
    apply fail_search
    simp only [System.search, System.searchAdaptive, if_pos ht]
  · rintro ht hn ⟨k, hk, hlt⟩
    have hu : decide (s.nop > 4000) = false := by simpa using hn
    obtain ⟨T, hT, herr, -⟩ := searchAdaptive_spec σ s f t nlimit padding ht (.inl hu)
    refine fail_search (herr ⟨k, hk, ?_⟩)
    rw [(hT k hk).length_eq]
    exact (cands_length (s := s.candSettings (decide (s.nop > 4000)) t) hu hk).trans_lt hlt
  · simp [System.findNeighbors, System.search]

/-- The adaptive search succeeds when every atom has enough candidates and there are at most 300. -/
theorem adaptive_succeeds (σ : StdSort) (s : System) (f : ℕ) (t : ℝ) (nlimit : ℕ) (padding : ℝ) (ht : 1 ≤ t)
    (hn : s.nop ≤ 4000) (hall : ∀ k < s.atoms.length, nlimit ≤ Spec.countWithin s (s.guessDist t) k)
    (h300 : s.atoms.length ≤ 300) : ∃ s', s.findNeighbors σ f (.adaptive t nlimit padding) = .ok s' := by
  have hu : decide (s.nop > 4000) = false := by simpa using hn
  obtain ⟨T, hT, -, hsucc⟩ := searchAdaptive_spec σ s f t nlimit padding ht (.inl hu)
  have hlen : ∀ k < s.atoms.length, (T k).length = Spec.countWithin s (s.guessDist t) k := by
    intro k hk
    rw [(hT k hk).length_eq]
    exact cands_length (s := s.candSettings (decide (s.nop > 4000)) t) hu hk
  have hg : (s.startSearch f).search σ (.adaptive t nlimit padding) = _ :=
    hsucc fun k hk => by rw [hlen k hk]; exact hall k hk
  refine finish_ok hg fun a ha => ?_
  obtain ⟨k, hk, rfl⟩ := List.mem_map.1 ha
  have hk := List.mem_range.1 hk
  have h1 : (adaptiveAtom σ { s with filter := f } nlimit padding k (candAtom s (T k) k)).nbrs.length ≤
      (T k).length := by
    simp only [adaptiveAtom, candAtom, List.nil_append, List.length_map]
    exact (List.length_filter_le _ _).trans (σ.perm _).length_eq.le
  have h2 : (T k).length ≤ s.atoms.length := by
    rw [(hT k hk).length_eq]
    unfold cands
    rw [List.length_map]
    exact (List.length_filter_le _ _).trans (by simp [System.candSettings])
  omega

/-- The hypotheses of C13 are met by the two atom system with `nlimit=1`. -/
theorem twoAtoms_adaptive (σ : StdSort) (f : ℕ) : Spec.SearchExact twoAtoms (decide (twoAtoms.nop > 4000)) 2 ∧
    ∃ s', twoAtoms.findNeighbors σ f (.adaptive 2 1 1.2) = .ok s' :=
  ⟨exact_small, adaptive_succeeds σ twoAtoms f 2 1 1.2 (by norm_num) (by decide) (twoAtoms_within (by norm_num))
    (by decide)⟩

/-! ### C15 -/

/-- **C15**, what holds: after a successful search with a numeric cutoff (at most 2300 atoms; for
more see C11_partial) or an adaptive one, every listed neighbour passes the filter, and the
filter removes nothing else: an atom in range that passes it is listed (see C09 and C13). -/
theorem C15_partial (σ : StdSort) (s s' : System) (f : ℕ) :
    (∀ r, r ≠ 0 → s.realNop ≤ 2300 → s.findNeighbors σ f (.cutoff r) = .ok s' →
      ∀ (k : ℕ) (a a' : Atom), s.atoms[k]? = some a → s'.atoms[k]? = some a' →
        (∀ x ∈ a'.nbrs, ∃ nb, s.atoms[x.idx]? = some nb ∧ Spec.FilterAllows f a nb) ∧
        ∀ (j : ℕ) (nb : Atom), s.atoms[j]? = some nb → j ≠ k → s.getDistance nb a < r → Spec.FilterAllows f a nb →
          ∃ x ∈ a'.nbrs, x.idx = j) ∧
    (∀ t R nlimit padding, Spec.SearchRadius s t R → Spec.SearchExact s (decide (s.nop > 4000)) t →
      s.findNeighbors σ f (.adaptive t nlimit padding) = .ok s' →
      ∀ (k : ℕ) (a a' : Atom), s.atoms[k]? = some a → s'.atoms[k]? = some a' →
        (∀ x ∈ a'.nbrs, ∃ nb, s.atoms[x.idx]? = some nb ∧ Spec.FilterAllows f a nb) ∧
        ∃ N, Spec.NearestList s k a nlimit N ∧
        ∀ (j : ℕ) (nb : Atom), s.atoms[j]? = some nb → j ≠ k →
          s.getDistance nb a < padding * ((N.map Nb.dist).sum / nlimit) → s.getDistance nb a < R →
          Spec.FilterAllows f a nb → ∃ x ∈ a'.nbrs, x.idx = j) := by
  constructor
  · intro r hr hn h k a a' hk hk'
    obtain ⟨⟨-, hc, hs⟩, -⟩ := (C09_cutoff_exact σ s s' f r hr hn h).2.2 k a a' hk hk'
    refine ⟨fun x hx => ?_, fun j nb hj hjk hd hf => hc j nb hj ⟨hjk, hd, hf⟩⟩
    obtain ⟨nb, h1, h2, -⟩ := hs x hx
    exact ⟨nb, h1, h2.2.2⟩
  · intro t R nlimit padding hR hok h k a a' hk hk'
    obtain ⟨⟨N, dcut, hN, rfl, -, hs, hc, -⟩, -⟩ := (C13_partial σ s s' f t R hR nlimit padding hok h).2.2 k a a' hk hk'
    refine ⟨fun x hx => ?_, N, hN, fun j nb hj hjk hd hR hf => hc j nb hj ⟨hjk, hd, hf⟩ hR⟩
    obtain ⟨-, nb, h1, h2⟩ := hs x hx
    exact ⟨nb, h1, h2.2.2⟩

/-- The negation of **C15** for `method='number'`: asking for one neighbour with `filter='type'` on
two atoms of different types gives each atom the other one. -/
theorem C15_false_number (σ : StdSort) : ∃ s', twoAtoms.findNeighbors σ 1 (.number 2 1 true) = .ok s' ∧
    ∃ a a' nb x, twoAtoms.atoms[0]? = some a ∧ s'.atoms[0]? = some a' ∧ x ∈ a'.nbrs ∧
      twoAtoms.atoms[x.idx]? = some nb ∧ ¬ Spec.FilterAllows 1 a nb := by
  obtain ⟨hok, s', hs'⟩ := twoAtoms_number σ 1 true
  refine ⟨s', hs', ?_⟩
  obtain ⟨hgeo, -, hN⟩ := C12_partial σ twoAtoms s' 1 2 1 hok hs'
  have hlen : s'.atoms.length = 2 := by
    have := congrArg List.length hgeo.1
    simpa [twoAtoms] using this
  obtain ⟨a', ha'⟩ : ∃ a', s'.atoms[0]? = some a' := ⟨s'.atoms[0], List.getElem?_eq_getElem (by omega)⟩
  obtain ⟨⟨h1, -, h3, -⟩, -⟩ := hN 0 { pos := ⟨1, 1, 1⟩ } a' rfl ha'
  obtain ⟨x, hx⟩ := List.length_eq_one_iff.1 h1
  have hxm : x ∈ a'.nbrs := by rw [hx]; exact List.mem_singleton_self x
  obtain ⟨nb, hnb, hne, -⟩ := h3 x hxm
  have hlt : x.idx < 2 := (mem_of_getElem? hnb).1
  have hx1 : x.idx = 1 := by omega
  refine ⟨_, a', nb, x, rfl, ha', hxm, hnb, ?_⟩
  rw [hx1] at hnb
  have hnb' : some ({ pos := ⟨2, 1, 1⟩, type := 2 } : Atom) = some nb := hnb
  obtain rfl := Option.some.inj hnb'
  intro hf
  have := hf.1 rfl
  norm_num at this

end Pyscal
