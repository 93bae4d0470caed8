import Verif.Lemmas.FailedSearch
import Verif.Props.History
import Verif.Props.Solids
import Verif.Props.Energy

/-! Neighbour searches that raise an exception (C87). -/

namespace Pyscal

open Spec (atomRest searchRest)

theorem SameBut.input {s g : System} (h : SameBut s g) : Spec.SameInput s g := by
  unfold SameBut at h
  have e : ∀ k : List Atom, (k.map atomRest).map (fun a => (a.pos, a.type)) = k.map (fun a => (a.pos, a.type)) := by
    intro k; rw [List.map_map]; rfl
  have h1 : g.atoms.map atomRest = s.atoms.map atomRest := congrArg (·.atoms) h
  exact ⟨by rw [← e, h1, e], congrArg (·.box) h, congrArg (·.rot) h, congrArg (·.rotinv) h, congrArg (·.triclinic) h,
    congrArg (·.nop) h, congrArg (·.realNop) h⟩

/-- **C87**, what holds: `find_neighbors` (every method but the Voronoi one, every point at which it can give up) that
raises an exception changes nothing but the neighbour data (neighbours, candidates, cutoffs, conditions) and the
settings of the search: positions, types, order parameters, structure and cluster labels, box, and all other
settings are as before.  And it can be repeated: the next search, with any arguments, has the same outcome as
without the failed call, the same exception or the same neighbour lists. -/
theorem C87_partial (σ : StdSort) (f : ℕ) (m : Method) (s : System) (e : Fault)
    (h : (System.findNeighborsS σ f m s).2 = .error e) (_he : e ≠ .oob) :
    searchRest (System.findNeighborsS σ f m s).1 = searchRest s ∧
    s.findNeighbors σ f m = .error e ∧
    ∀ (σ' : StdSort) (f' : ℕ) (m' : Method),
      (∃ e', s.findNeighbors σ' f' m' = .error e' ∧ (System.findNeighborsS σ f m s).1.findNeighbors σ' f' m' = .error e') ∨
      ∃ g g', s.findNeighbors σ' f' m' = .ok g ∧ (System.findNeighborsS σ f m s).1.findNeighbors σ' f' m' = .ok g' ∧
        g'.atoms.map Atom.nbrs = g.atoms.map Atom.nbrs := by
  have h1 := findNeighborsS_rest σ f m s e h
  refine ⟨h1, ?_, fun σ' f' m' => ?_⟩
  · rw [← outcome_findNeighbors]
    unfold outcome
    rw [h]
  · rcases C16_partial σ' s _ f' m' h1.input with ⟨e', a, b⟩ | ⟨g, g', a, b, c, -⟩
    · exact .inl ⟨e', a, b⟩
    · exact .inr ⟨g, g', a, b, c⟩

/-- Both kinds of exception occur: two atoms, asked for two neighbours each, and a threshold below one. -/
example (σ : StdSort) : (System.findNeighborsS σ 0 (.number 2 2 true) twoAtoms).2 = .error .runtimeError ∧
    (System.findNeighborsS σ 0 (.sann (1 / 2)) twoAtoms).2 = .error .valueError := by
  have key : ∀ m e, twoAtoms.findNeighbors σ 0 m = .error e → (System.findNeighborsS σ 0 m twoAtoms).2 = .error e := by
    intro m e h
    rw [← outcome_findNeighbors] at h
    unfold outcome at h
    split at h
    · cases h
    · rename_i e' he'
      rw [he', Except.error.inj h]
  refine ⟨key _ _ ?_, key _ _ ?_⟩
  · refine (((C12_errors σ twoAtoms 0 2 _ ((searchRadius_iff _ _ _).2 rfl) 2 true).2 (by norm_num) (by decide) (by decide)).1 ⟨0, by decide, ?_⟩)
    have hl := cands_length (s := twoAtoms.candSettings false 2) rfl (k := 0) (by decide)
    change _ = Spec.countWithin twoAtoms (twoAtoms.guessDist 2) 0 at hl
    rw [← hl]
    unfold cands
    rw [List.length_map]
    refine lt_of_le_of_lt (List.Sublist.length_le (l₂ := [1]) ?_) (by simp)
    have e : List.range (twoAtoms.candSettings false 2).atoms.length = [0, 1] := rfl
    rw [e, List.filter_cons]
    rw [if_neg (by simp)]
    exact List.filter_sublist
  · apply fail_search
    simp only [System.search, System.searchSann]
    rw [if_pos (by norm_num)]

/-- The arguments of a search for which core.py raises ValueError. -/
def Spec.LowThreshold : Method → Prop
  | .cutoff _ => False
  | .adaptive t _ _ => t < 1
  | .sann t => t < 1
  | .number t _ _ => t < 1

/-- What a rejected argument does, for every system: the neighbours of all atoms are gone, but the system still counts as one
whose neighbours have been found if it did before, so that `calculate_q` runs and gives NaN. -/
theorem C87_cleared (σ : StdSort) (f : ℕ) (m : Method) (hm : Spec.LowThreshold m) (s : System) :
    (System.findNeighborsS σ f m s).2 = .error .valueError ∧
    (System.findNeighborsS σ f m s).1.neighborsFound = s.neighborsFound ∧
    (∀ a ∈ (System.findNeighborsS σ f m s).1.atoms, a.nbrs = []) ∧
    (s.voronoiused = false → ∀ l : ℕ, 2 ≤ l → l ≤ 12 → ∃ g, (System.findNeighborsS σ f m s).1.calculateQ [(l : ℤ)] false = .ok g ∧
      ∀ a ∈ g.atoms, a.q l = none) := by
  have e : System.findNeighborsS σ f m s = ({ s.resetAllNeighbors with filter := f }, .error .valueError) := by
    unfold System.findNeighborsS
    cases m with
    | cutoff r => exact hm.elim
    | adaptive t n p =>
      have hm : t < 1 := hm
      simp only [System.searchS, System.searchAdaptiveS, if_pos hm]
    | sann t =>
      have hm : t < 1 := hm
      simp only [System.searchS, System.searchSannS, if_pos hm]
    | number t n as =>
      have hm : t < 1 := hm
      simp only [System.searchS, System.searchNumberS, if_pos hm]
  rw [e]
  have hnil : ∀ a ∈ ({ s.resetAllNeighbors with filter := f } : System).atoms, a.nbrs = [] := by
    intro a ha
    obtain ⟨b, -, rfl⟩ := List.mem_map.1 ha
    rfl
  refine ⟨rfl, rfl, hnil, fun hv l h2 h12 => ?_⟩
  obtain ⟨g, hg⟩ := (C24_calculate_q { s.resetAllNeighbors with filter := f } [(l : ℤ)] false false).2
    (by intro x hx; rw [List.mem_singleton] at hx; omega) (fun a ha x hx => by rw [hnil a ha] at hx; cases hx)
  refine ⟨g, hg, fun a ha => ?_⟩
  obtain ⟨k, hk, rfl⟩ := List.getElem_of_mem ha
  have hlen : g.atoms.length = ({ s.resetAllNeighbors with filter := f } : System).atoms.length := by
    obtain ⟨-, -, e⟩ := calculateQ_ok hg
    rw [e]
    simp [System.afterQ]
  have hk' : k < ({ s.resetAllNeighbors with filter := f } : System).atoms.length := hlen ▸ hk
  rw [(calculateQ_q hg (List.getElem?_eq_getElem hk') (List.getElem?_eq_getElem hk) l).1, if_pos (by simp)]
  have hq : System.qNbrs { s.resetAllNeighbors with filter := f } (({ s.resetAllNeighbors with filter := f } : System).atoms[k]) = [] := by
    unfold System.qNbrs
    rw [hnil _ (List.getElem_mem hk')]
    simp
  rw [((calcQ_value { s.resetAllNeighbors with filter := f } l _).2 (by rw [hq]; intro x hx; cases hx)).2.1 hv (by rw [hq]; rfl)]
  rfl

/-- The negation of **C87** for the neighbours: two atoms that are each other's neighbours; a search with threshold 1/2 raises
ValueError, and now nobody has neighbours although they still count as found. -/
theorem C87_false (σ : StdSort) : ∃ s s1 : System, s.findNeighbors σ 0 (.number 2 1 true) = .ok s1 ∧ s1.neighborsFound = true ∧
    (∀ a ∈ s1.atoms, a.nbrs.length = 1) ∧ s1.atoms.length = 2 ∧
    (System.findNeighborsS σ 0 (.number (1 / 2) 1 true) s1).2 = .error .valueError ∧
    (System.findNeighborsS σ 0 (.number (1 / 2) 1 true) s1).1.neighborsFound = true ∧
    ∀ a ∈ (System.findNeighborsS σ 0 (.number (1 / 2) 1 true) s1).1.atoms, a.nbrs = [] := by
  obtain ⟨h0, s1, h1⟩ := twoAtoms_number σ 0 true
  obtain ⟨hg, hf, hn⟩ := C12_partial σ twoAtoms s1 0 2 1 h0 h1
  have hlen : s1.atoms.length = 2 := (Kept.findNeighbors h1).len
  obtain ⟨c1, c2, c3, -⟩ := C87_cleared σ 0 (.number (1 / 2) 1 true) (by norm_num [Spec.LowThreshold]) s1
  refine ⟨twoAtoms, s1, h1, hf, fun a ha => ?_, hlen, c1, c2.trans hf, c3⟩
  obtain ⟨k, hk, rfl⟩ := List.getElem_of_mem ha
  have hk' : k < twoAtoms.atoms.length := by change k < 2; omega
  exact (hn k _ _ (List.getElem?_eq_getElem hk') (List.getElem?_eq_getElem hk)).1.1

/-! ### Giving up halfway -/

theorem byNumberLoop_stops (σ : StdSort) (s : System) (nns : ℕ) (pre : List ℕ) (i : ℕ) (post : List ℕ) (m : Mem)
    (hnd : (pre ++ i :: post).Nodup) (hpre : ∀ k ∈ pre, nns ≤ (m k).temp.length) (hi : (m i).temp.length < nns) :
    System.byNumberLoop σ s nns true (pre ++ i :: post) m =
      (fun k => if k ∈ pre then byNumberAtom σ s nns true k (m k) else m k, false) := by
  induction pre generalizing m with
  | nil =>
    simp only [List.nil_append, System.byNumberLoop, if_pos hi]
    simp
  | cons j pre ih =>
    rw [List.cons_append, List.nodup_cons] at hnd
    have hj := hpre j (List.mem_cons_self ..)
    have e : System.byNumberLoop σ s nns true (j :: pre ++ i :: post) m =
        System.byNumberLoop σ s nns true (pre ++ i :: post) (Function.update m j (byNumberAtom σ s nns true j (m j))) := by
      rw [List.cons_append, System.byNumberLoop, if_neg (by omega)]
      unfold byNumberAtom
      simp only [if_true]
      rw [foldl_pushNb]
    have hne : ∀ k ∈ pre ++ i :: post, k ≠ j := fun k hk h => hnd.1 (h ▸ hk)
    rw [e, ih _ hnd.2]
    · congr 1
      funext k
      by_cases hk : k ∈ pre
      · rw [if_pos hk, if_pos (List.mem_cons_of_mem _ hk), Function.update_of_ne (hne k (List.mem_append_left _ hk))]
      · rw [if_neg hk]
        by_cases hkj : k = j
        · subst hkj
          rw [Function.update_self, if_pos (List.mem_cons_self ..)]
        · rw [Function.update_of_ne hkj, if_neg (by simp [hk, hkj])]
    · intro k hk
      rw [Function.update_of_ne (hne k (List.mem_append_left _ hk))]
      exact hpre k (List.mem_cons_of_mem _ hk)
    · rw [Function.update_of_ne (hne i (List.mem_append_right _ (List.mem_cons_self ..)))]
      exact hi

/-- What a search by number leaves when it raises RuntimeError: the atoms before the first one without enough others
within the search radius have their `nmax` neighbours, that atom and all later ones have none. -/
theorem C87_mixed (σ : StdSort) (s : System) (f : ℕ) (t R : ℝ) (hR : Spec.SearchRadius s t R) (nmax : ℕ) (ht : 1 ≤ t)
    (hle : s.realNop ≤ s.atoms.length) (hn : s.realNop ≤ 4000) (k : ℕ) (hk : k < s.atoms.length)
    (hlow : Spec.countWithin s R k < nmax) (hbefore : ∀ j < k, nmax ≤ Spec.countWithin s R j) :
    (System.findNeighborsS σ f (.number t nmax true) s).2 = .error .runtimeError ∧
    (System.findNeighborsS σ f (.number t nmax true) s).1.atoms.length = s.atoms.length ∧
    ∀ j a, (System.findNeighborsS σ f (.number t nmax true) s).1.atoms[j]? = some a →
      (j < k → a.nbrs.length = nmax) ∧ (k ≤ j → a.nbrs = []) := by
  obtain rfl := (searchRadius_iff s t R).1 hR
  have hu : decide (s.realNop > 4000) = false := by simpa using hn
  have hok : CandOK (s.candSettings (decide (s.realNop > 4000)) t) := .inl hu
  obtain ⟨l, hl, hll⟩ := getAtoms_start s (s.startSearch f) (resetAll_length s) rfl hle
  obtain ⟨g', hfill, hlike, hf, hg', hmem⟩ := fillTemp_start_runs s
    { s.startSearch f with usecells := decide (s.realNop > 4000), voronoiused := false } f _ false t rfl hok.runs
  have hlen : ∀ j < s.atoms.length, (g'.mem j).temp.length = Spec.countWithin s (s.guessDist t) j := by
    intro j hj
    rw [hmem j hj]
    change (candList _ j).length = _
    rw [(candList_perm hok hj).length_eq]
    exact cands_length (s := s.candSettings (decide (s.realNop > 4000)) t) hu hj
  have hrange : List.range g'.atoms.length = List.range k ++ k :: (List.range (s.atoms.length - k - 1)).map (fun i => k + 1 + i) := by
    rw [hlike.len]
    have e : s.atoms.length = k + (1 + (s.atoms.length - k - 1)) := by omega
    conv_lhs => rw [e, List.range_add, List.range_add]
    simp only [List.map_append, List.map_map, List.range_one, List.map_cons, List.map_nil, add_zero, List.singleton_append]
    congr 2
    refine List.map_congr_left fun i _ => ?_
    simp only [Function.comp]; omega
  have hloop := byNumberLoop_stops σ g' nmax (List.range k) k ((List.range (s.atoms.length - k - 1)).map (fun i => k + 1 + i)) g'.mem
    (by rw [← hrange]; exact List.nodup_range) (fun j hj => by
      rw [List.mem_range] at hj
      rw [hlen j (by omega)]; exact hbefore j hj) (by rw [hlen k hk]; exact hlow)
  rw [← hrange] at hloop
  have hS : System.findNeighborsS σ f (.number t nmax true) s =
      (g'.ofMem fun j => if j ∈ List.range k then byNumberAtom σ g' nmax true j (g'.mem j) else g'.mem j, .error .runtimeError) := by
    have : System.searchS σ (.number t nmax true) (s.startSearch f) =
        (g'.ofMem fun j => if j ∈ List.range k then byNumberAtom σ g' nmax true j (g'.mem j) else g'.mem j, .error .runtimeError) := by
      simp only [System.searchS, System.searchNumberS, if_neg (not_lt.2 ht), hl, hll, System.neighborsByNumber, hfill, bind, Except.bind,
        pure, Except.pure, hloop, System.finishSearch]
    unfold System.findNeighborsS
    have e : ({ s.resetAllNeighbors with filter := f } : System) = s.startSearch f := rfl
    rw [e, this]
  rw [hS]
  have hofl : ∀ m : Mem, (g'.ofMem m).atoms.length = s.atoms.length := by
    intro m; simp [System.ofMem, hlike.len]
  refine ⟨rfl, hofl _, fun j a ha => ?_⟩
  have hj : j < s.atoms.length := by
    have := (List.getElem?_eq_some_iff.1 ha).1
    rwa [hofl] at this
  have ha' : a = if j ∈ List.range k then byNumberAtom σ g' nmax true j (g'.mem j) else g'.mem j := by
    have : (g'.ofMem fun j => if j ∈ List.range k then byNumberAtom σ g' nmax true j (g'.mem j) else g'.mem j).atoms[j]? =
        some (if j ∈ List.range k then byNumberAtom σ g' nmax true j (g'.mem j) else g'.mem j) := by
      simp [System.ofMem, hlike.len, hj]
    exact (Option.some.inj (this.symm.trans ha)).symm
  subst ha'
  constructor
  · intro hjk
    rw [if_pos (List.mem_range.2 hjk), hmem j hj]
    have := hbefore j hjk
    rw [← hlen j hj, hmem j hj] at this
    simp only [byNumberAtom, candAtom, if_true, List.nil_append, List.length_map, List.length_take, (σ.perm _).length_eq]
    simp only [candAtom] at this
    omega
  · intro hkj
    rw [if_neg (by rw [List.mem_range]; omega), hmem j hj]
    rfl

/-! ### A witness: a chain and one stray atom -/

/-- 199 atoms at (i,0,0) and one at (500,500,500). -/
def strayAtoms : List Atom := (List.range 200).map fun i : ℕ => { pos := if i < 199 then ⟨(i : ℝ), 0, 0⟩ else ⟨500, 500, 500⟩, id := i }

theorem strayAtoms_length : strayAtoms.length = 200 := by simp [strayAtoms]

theorem far_norm (w : ℝ) : 200 ≤ V3.norm ⟨w, -500, -500⟩ := by
  unfold V3.norm V3.normSq
  apply Real.le_sqrt_of_sq_le
  simp only
  nlinarith [mul_self_nonneg w]

/-- The state after a failed search by number is neither the old one nor a complete new one: set up through the API, the
search for one neighbour raises RuntimeError because of the last atom; all others have got their neighbour. -/
theorem C87_false_mixed (σ : StdSort) : ∃ s0 s : System, System.init.setBox (Spec.diagBox 1000 1000 1000) = .ok s0 ∧
    s0.assignAtoms strayAtoms = .ok s ∧
    (System.findNeighborsS σ 0 (.number 1 1 true) s).2 = .error .runtimeError ∧
    ∀ j a, (System.findNeighborsS σ 0 (.number 1 1 true) s).1.atoms[j]? = some a →
      (j < 199 → a.nbrs.length = 1) ∧ (199 ≤ j → a.nbrs = []) := by
  obtain ⟨s0, h1⟩ := setBox_ok (s := System.init) (b := Spec.diagBox 1000 1000 1000) (fun h => absurd h (not_skewed_diag _ _ _))
  have hs0 := h1
  unfold System.setBox at hs0
  rw [if_neg (not_skewed_diag _ _ _)] at hs0
  obtain rfl := Except.ok.inj hs0
  refine ⟨_, _, h1, if_neg (by rw [strayAtoms_length]; omega), ?_⟩
  set s := System.setAtoms { System.init with box := Spec.diagBox 1000 1000 1000, triclinic := false } strayAtoms with hs
  have hat : s.atoms = strayAtoms := rfl
  have hlen : s.atoms.length = 200 := strayAtoms_length
  have hreal : s.realNop ≤ 200 := by
    change countReal strayAtoms ≤ 200
    unfold countReal
    exact (List.length_filter_le _ _).trans_eq strayAtoms_length
  have hget : ∀ j < 200, s.atoms[j]? = some { pos := if j < 199 then ⟨(j : ℝ), 0, 0⟩ else ⟨500, 500, 500⟩, id := j } := by
    intro j hj
    rw [hat, strayAtoms, List.getElem?_map, List.getElem?_range hj]
    rfl
  -- the search radius
  have hv : s.boxVol / (s.atoms.length : ℝ) = 5000000 := by
    have h : s.triclinic = false := rfl
    have hb : s.box = Spec.diagBox 1000 1000 1000 := rfl
    simp only [System.boxVol, h, System.boxx, System.boxy, System.boxz, hb, hlen, Spec.diagBox, Bool.false_eq_true, if_false]
    rw [norm_axis_x _ (by norm_num), norm_axis_y _ (by norm_num), norm_axis_z _ (by norm_num)]
    norm_num
  have hg : s.guessDist 1 = cbrt 5000000 := by unfold System.guessDist; rw [hv, one_mul]
  have hcube : cbrt 5000000 ^ 3 = 5000000 := cbrt_cube _
  have hc1 : 1 ≤ cbrt 5000000 := by
    rw [cbrt, if_pos (by norm_num)]
    exact Real.one_le_rpow (by norm_num) (by norm_num)
  have hc2 : cbrt 5000000 < 200 := by
    by_contra hcon
    push Not at hcon
    have : (200 : ℝ) ^ 3 ≤ cbrt 5000000 ^ 3 := pow_le_pow_left₀ (by norm_num) hcon 3
    rw [hcube] at this
    norm_num at this
  -- counts
  have hcnt : ∀ k < 200, Spec.countWithin s (s.guessDist 1) k = (cands (s.candSettings false 1) k).length := by
    intro k hk
    exact (cands_length (s := s.candSettings false 1) rfl (k := k) (hlen.symm ▸ hk)).symm
  have hbefore : ∀ j < 199, 1 ≤ Spec.countWithin s (s.guessDist 1) j := by
    intro j hj
    rw [hcnt j (by omega), Nat.one_le_iff_ne_zero, ne_eq, List.length_eq_zero_iff]
    intro h0
    set i : ℕ := if j = 0 then 1 else j - 1 with hi
    have hi199 : i < 199 := by rw [hi]; split_ifs <;> omega
    have hij : i ≠ j := by rw [hi]; split_ifs <;> omega
    have hd : |(i : ℝ) - j| = 1 := by
      rw [hi]
      split_ifs with h0
      · subst h0; norm_num
      · obtain ⟨j', rfl⟩ := Nat.exists_eq_succ_of_ne_zero h0
        simp
    have hm : (⟨s.distOf j i, i⟩ : DAtom) ∈ cands (s.candSettings false 1) j := by
      rw [cands_mem]
      refine ⟨?_, hij, rfl, ?_⟩
      · change i < s.atoms.length; omega
      · change s.distOf j i ≤ s.guessDist 1
        rw [(distOf_eq (hget j (by omega)) (hget i (by omega))).1,
          chain_dist rfl rfl i j (by omega) (by omega) _ _ (by simp only [hi199, if_true]) (by simp only [hj, if_true]), hd, hg]
        exact hc1
    rw [h0] at hm
    cases hm
  have hlow : Spec.countWithin s (s.guessDist 1) 199 < 1 := by
    rw [hcnt 199 (by omega), Nat.lt_one_iff, List.length_eq_zero_iff, List.eq_nil_iff_forall_not_mem]
    rintro ⟨d, i⟩ hx
    rw [cands_mem] at hx
    obtain ⟨hi, hne, -, hd⟩ := hx
    have hi : i < 200 := by rw [← hlen]; exact hi
    have hi' : i < 199 := by
      have : i ≠ 199 := hne
      omega
    have hd : s.distOf 199 i ≤ s.guessDist 1 := hd
    rw [(distOf_eq (hget 199 (by omega)) (hget i hi)).1, hg] at hd
    have hfar : 200 ≤ s.getDistance { pos := if i < 199 then ⟨(i : ℝ), 0, 0⟩ else ⟨500, 500, 500⟩, id := (i : ℤ) }
        { pos := if 199 < 199 then ⟨((199 : ℕ) : ℝ), 0, 0⟩ else ⟨500, 500, 500⟩, id := ((199 : ℕ) : ℤ) } := by
      change 200 ≤ V3.norm (s.image (_ - _))
      rw [image_diag s 1000 1000 1000 (by norm_num) (by norm_num) (by norm_num) rfl rfl]
      simp only [hi', if_true, lt_irrefl, if_false]
      have hw : wrap 1000 ((0 : ℝ) - 500) = -500 := by unfold wrap; norm_num
      simp only [V3.sub_x, V3.sub_y, V3.sub_z]
      rw [hw]
      exact far_norm _
    linarith
  obtain ⟨r1, -, r3⟩ := C87_mixed σ s 0 1 _ ((searchRadius_iff _ _ _).2 rfl) 1 le_rfl (by rw [hlen]; exact hreal) (by omega) 199 (by omega) hlow hbefore
  exact ⟨r1, r3⟩

end Pyscal
