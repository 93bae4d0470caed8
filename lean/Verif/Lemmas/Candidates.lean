import Verif.Lemmas.Cells

/-! Candidate lists (`temp_neighbors`) and the loops that select from them. -/

namespace Pyscal

open CellsOK

open Classical in
/-- Atoms collected as candidates for atom `k`. -/
noncomputable def cands (s : System) (k : ℕ) : List DAtom :=
  ((List.range s.atoms.length).filter fun j => j ≠ k ∧
    (if s.usecells then s.distOf k j < s.neighbordistance else s.distOf k j ≤ s.neighbordistance)).map
    fun j => ⟨s.distOf k j, j⟩

/-- The candidate loops are correct: double loop, or cell lists in good conditions. -/
def CandOK (s : System) : Prop :=
  s.usecells = false ∨ ∃ L1 L2 L3, CellsOK s L1 L2 L3 ∧ ThreeCells s

/-- The state in which the candidates are collected. -/
noncomputable def System.guess (s : System) (p : ℝ) : System := { s with neighbordistance := s.guessDist p }

theorem tempHitLt_none {s : System} (i j : ℕ) (h : ¬ s.distOf i j < s.neighbordistance) :
    tempHitLt s i j = none := by
  simp [tempHitLt, h]

/-- The candidate loops run without fault: double loop, or well formed cell lists with any number of
cells. -/
def CandRuns (s : System) : Prop := s.usecells = false ∨ ∃ L1 L2 L3, CellsOK s L1 L2 L3

theorem CandOK.runs {s : System} (h : CandOK s) : CandRuns s := by
  rcases h with h | ⟨L1, L2, L3, h, _⟩
  · exact .inl h
  · exact .inr ⟨L1, L2, L3, h⟩

/-- What the candidate loops push for atom `k`. -/
noncomputable def candList (s : System) (k : ℕ) : List DAtom :=
  if s.usecells then (visited s).flatMap (contrib (tempHitLt s) k) else cands s k

theorem candList_perm {g : System} (h : CandOK g) {k : ℕ} (hk : k < g.atoms.length) :
    (candList g k).Perm (cands g k) := by
  unfold candList
  by_cases hgu : g.usecells = true
  · obtain ⟨L1, L2, L3, hok, h3⟩ : ∃ L1 L2 L3, CellsOK g L1 L2 L3 ∧ ThreeCells g := by
      rcases h with h | h
      · rw [hgu] at h; cases h
      · exact h
    rw [if_pos hgu]
    refine (hok.visited_contrib h3 (tempHitLt g) (fun i j => tempHitLt_none i j) k).trans ?_
    have hc := tempHitLt_contrib g k
    rw [pairs_flatMap_contrib _ _ _ hk _ hc.1 hc.2, flatMap_ite_single, List.filter_filter]
    refine List.Perm.of_eq ?_
    unfold cands
    congr 1
    refine List.filter_congr fun a _ => ?_
    rw [hgu, Bool.eq_iff_iff]
    simp only [Bool.and_eq_true, decide_eq_true_eq, if_true]
    exact and_comm
  · rw [if_neg hgu]

theorem fillTemp_runs (s : System) (p : ℝ) (h : CandRuns (s.guess p)) :
    s.fillTemp p = .ok ((s.guess p).ofMem fun k =>
      { s.mem k with temp := (s.mem k).temp ++ candList (s.guess p) k }) := by
  set g := s.guess p with hg
  have hgm : g.mem = s.mem := rfl
  by_cases hu : s.usecells = true
  · have hgu : g.usecells = true := hu
    obtain ⟨L1, L2, L3, hok⟩ : ∃ L1 L2 L3, CellsOK g L1 L2 L3 := by
      rcases h with h | h
      · rw [hgu] at h; cases h
      · exact h
    have e : s.fillTemp p = g.tempCells := by
      change (if g.usecells then g.tempCells else _) = _
      rw [if_pos hgu]
    rw [e, System.tempCells, hok.cellPairs_eq]
    change Except.ok (g.ofMem _) = _
    congr 2
    funext k
    rw [pairLoop_apply _ _ _ (visited_ne _), foldl_pushTemp, candList, if_pos hgu]; rfl
  · have hgu : g.usecells = false := by
      change s.usecells = false
      simpa using hu
    have e : s.fillTemp p = .ok g.tempBrute := by
      change (if g.usecells then g.tempCells else .ok g.tempBrute) = _
      rw [hgu]; rfl
    rw [e, System.tempBrute]
    congr 1
    have : ∀ m m' : Mem, (∀ k < g.atoms.length, m k = m' k) → g.ofMem m = g.ofMem m' := by
      intro m m' hm
      unfold System.ofMem
      congr 1
      exact List.map_congr_left fun k hk => hm k (List.mem_range.1 hk)
    refine this _ _ fun k hk => ?_
    have hb := tempBrute_mem g k hk
    unfold System.tempBrute at hb
    rw [ofMem_mem _ _ _ hk] at hb
    rw [hb]
    have hcc : candList g k = ((List.range g.atoms.length).filter
          fun j => j ≠ k ∧ g.distOf k j ≤ g.neighbordistance).map fun j => ⟨g.distOf k j, j⟩ := by
      rw [candList, hgu]
      unfold cands
      simp only [Bool.false_eq_true, if_false]
      congr 1
      refine List.filter_congr fun a _ => ?_
      rw [hgu]; simp
    change _ = ({ s.mem k with temp := (s.mem k).temp ++ candList g k } : Atom)
    rw [hcc]; rfl

theorem fillTemp_spec (s : System) (p : ℝ) (h : CandOK (s.guess p)) :
    ∃ T : ℕ → List DAtom, (∀ k < s.atoms.length, (T k).Perm (cands (s.guess p) k)) ∧
      s.fillTemp p = .ok ((s.guess p).ofMem fun k => { s.mem k with temp := (s.mem k).temp ++ T k }) :=
  ⟨candList (s.guess p), fun _ hk => candList_perm h hk, fillTemp_runs s p h.runs⟩

/-! ### Loops over the atoms with early exit -/

/-- Atom written by the `number` search. -/
noncomputable def byNumberAtom (σ : StdSort) (s : System) (nns : ℕ) (assign : Bool) (i : ℕ) (a : Atom) : Atom :=
  { a with temp := σ.sort a.temp,
           nbrs := if assign then a.nbrs ++ ((σ.sort a.temp).take nns).map (fun x => s.mkNb i x.idx) else a.nbrs }

theorem byNumberLoop_spec (σ : StdSort) (s : System) (nns : ℕ) (assign : Bool) (is : List ℕ) (hnd : is.Nodup)
    (m : Mem) :
    ((System.byNumberLoop σ s nns assign is m).2 = true ↔ ∀ i ∈ is, nns ≤ (m i).temp.length) ∧
    ((System.byNumberLoop σ s nns assign is m).2 = true → ∀ k,
      (System.byNumberLoop σ s nns assign is m).1 k =
        if k ∈ is then byNumberAtom σ s nns assign k (m k) else m k) := by
  induction is generalizing m with
  | nil => simp [System.byNumberLoop]
  | cons i is ih =>
    rw [List.nodup_cons] at hnd
    by_cases hlt : (m i).temp.length < nns
    · have e : System.byNumberLoop σ s nns assign (i :: is) m = (m, false) := by
        simp [System.byNumberLoop, hlt]
      rw [e]
      refine ⟨⟨fun h => (by cases h), fun h => ?_⟩, fun h => (by cases h)⟩
      have := h i (List.mem_cons_self ..)
      omega
    · have e : System.byNumberLoop σ s nns assign (i :: is) m =
          System.byNumberLoop σ s nns assign is (Function.update m i (byNumberAtom σ s nns assign i (m i))) := by
        rw [System.byNumberLoop, if_neg hlt]
        congr 2
        unfold byNumberAtom
        cases assign
        · rfl
        · simp only [if_true]
          rw [foldl_pushNb]
      obtain ⟨ih1, ih2⟩ := ih hnd.2 (Function.update m i (byNumberAtom σ s nns assign i (m i)))
      rw [e]
      have hne : ∀ k ∈ is, k ≠ i := fun k hk h => hnd.1 (h ▸ hk)
      refine ⟨?_, ?_⟩
      · rw [ih1]
        constructor
        · intro h k hk
          rcases List.mem_cons.1 hk with rfl | hk
          · omega
          · have := h k hk
            rwa [Function.update_of_ne (hne k hk)] at this
        · intro h k hk
          rw [Function.update_of_ne (hne k hk)]
          exact h k (List.mem_cons_of_mem _ hk)
      · intro h k
        rw [ih2 h k]
        by_cases hki : k = i
        · subst hki
          simp [hnd.1]
        · simp [hki]

open Classical in
/-- Candidates kept by the adaptive search. -/
noncomputable def adaptiveSel (s : System) (i : ℕ) (dcut : ℝ) (t : List DAtom) : List DAtom :=
  t.filter fun x => x.dist < dcut ∧ filterOK s.filter (s.typeOf i) (s.typeOf x.idx) = true

/-- Atom written by the adaptive search. -/
noncomputable def adaptiveAtom (σ : StdSort) (s : System) (nlimit : ℕ) (padding : ℝ) (i : ℕ) (a : Atom) : Atom :=
  let t := σ.sort a.temp
  let dcut := System.adaptiveCut padding nlimit t
  { a with temp := t, nbrs := a.nbrs ++ (adaptiveSel s i dcut t).map (fun x => s.mkNb i x.idx),
           cutoff := if adaptiveSel s i dcut t = [] then a.cutoff else some dcut }

open Classical in
theorem foldl_adaptive (s : System) (i : ℕ) (dcut : ℝ) (t : List DAtom) (a : Atom) :
    t.foldl (fun a x =>
        if x.dist < dcut then
          if filterOK s.filter (s.typeOf i) (s.typeOf x.idx) then a.pushNbCut dcut (s.mkNb i x.idx) else a
        else a) a =
      { a with nbrs := a.nbrs ++ (adaptiveSel s i dcut t).map (fun x => s.mkNb i x.idx),
               cutoff := if adaptiveSel s i dcut t = [] then a.cutoff else some dcut } := by
  induction t generalizing a with
  | nil => simp [adaptiveSel]
  | cons x t ih =>
    rw [List.foldl_cons, ih]
    by_cases h1 : x.dist < dcut
    · by_cases h2 : filterOK s.filter (s.typeOf i) (s.typeOf x.idx) = true
      · have e : adaptiveSel s i dcut (x :: t) = x :: adaptiveSel s i dcut t := by
          simp [adaptiveSel, h1, h2]
        rw [e]
        simp only [h1, h2, if_true, Atom.pushNbCut, reduceCtorEq, if_false, List.map_cons, List.append_assoc,
          List.singleton_append]
        by_cases h3 : adaptiveSel s i dcut t = [] <;> simp [h3]
      · have e : adaptiveSel s i dcut (x :: t) = adaptiveSel s i dcut t := by
          simp [adaptiveSel, h2]
        rw [e]
        simp [h2]
    · have e : adaptiveSel s i dcut (x :: t) = adaptiveSel s i dcut t := by
        simp [adaptiveSel, h1]
      rw [e]
      simp [h1]

theorem adaptiveLoop_spec (σ : StdSort) (s : System) (nlimit : ℕ) (padding : ℝ) (is : List ℕ) (hnd : is.Nodup)
    (m : Mem) :
    ((System.adaptiveLoop σ s nlimit padding is m).2 = true ↔ ∀ i ∈ is, nlimit ≤ (m i).temp.length) ∧
    ((System.adaptiveLoop σ s nlimit padding is m).2 = true → ∀ k,
      (System.adaptiveLoop σ s nlimit padding is m).1 k =
        if k ∈ is then adaptiveAtom σ s nlimit padding k (m k) else m k) := by
  induction is generalizing m with
  | nil => simp [System.adaptiveLoop]
  | cons i is ih =>
    rw [List.nodup_cons] at hnd
    by_cases hlt : (m i).temp.length < nlimit
    · have e : System.adaptiveLoop σ s nlimit padding (i :: is) m = (m, false) := by
        simp [System.adaptiveLoop, hlt]
      rw [e]
      refine ⟨⟨fun h => (by cases h), fun h => ?_⟩, fun h => (by cases h)⟩
      have := h i (List.mem_cons_self ..)
      omega
    · have e : System.adaptiveLoop σ s nlimit padding (i :: is) m =
          System.adaptiveLoop σ s nlimit padding is (Function.update m i (adaptiveAtom σ s nlimit padding i (m i))) := by
        rw [System.adaptiveLoop, if_neg hlt]
        dsimp only
        rw [foldl_adaptive]
        rfl
      obtain ⟨ih1, ih2⟩ := ih hnd.2 (Function.update m i (adaptiveAtom σ s nlimit padding i (m i)))
      rw [e]
      have hne : ∀ k ∈ is, k ≠ i := fun k hk h => hnd.1 (h ▸ hk)
      refine ⟨?_, ?_⟩
      · rw [ih1]
        constructor
        · intro h k hk
          rcases List.mem_cons.1 hk with rfl | hk
          · omega
          · have := h k hk
            rwa [Function.update_of_ne (hne k hk)] at this
        · intro h k hk
          rw [Function.update_of_ne (hne k hk)]
          exact h k (List.mem_cons_of_mem _ hk)
      · intro h k
        rw [ih2 h k]
        by_cases hki : k = i
        · subst hki
          simp [hnd.1]
        · simp [hki]

/-- Atom written by the SANN search for a selection `(m, sel, cut)`. -/
noncomputable def sannAtom (σ : StdSort) (s : System) (i : ℕ) (a : Atom) (sel : List DAtom) (cut : Option ℝ) : Atom :=
  { a with temp := σ.sort a.temp, cutoff := cut, nbrs := a.nbrs ++ sel.map (fun x => s.mkNb i x.idx) }

theorem sannLoop_spec (σ : StdSort) (s : System) (is : List ℕ) (hnd : is.Nodup) (m m' : Mem)
    (h : System.sannLoop σ s is m = .ok (m', true)) (k : ℕ) :
    (k ∉ is → m' k = m k) ∧
    (k ∈ is → 3 ≤ (m k).temp.length ∧ ∃ mm sel cut, sannSelect (σ.sort (m k).temp) (m k).cutoff = .ok (mm, sel, cut) ∧
      mm ≠ (m k).temp.length ∧ m' k = sannAtom σ s k (m k) sel cut) := by
  induction is generalizing m with
  | nil =>
    rw [System.sannLoop] at h
    have := (Prod.mk.inj (Except.ok.inj h)).1
    simp [this]
  | cons i is ih =>
    rw [List.nodup_cons] at hnd
    rw [System.sannLoop] at h
    by_cases hlt : (m i).temp.length < 3
    · rw [if_pos hlt] at h
      have := (Prod.mk.inj (Except.ok.inj h)).2
      cases this
    · rw [if_neg hlt] at h
      rcases hs : sannSelect (σ.sort (m i).temp) (m i).cutoff with e | ⟨mm, sel, cut⟩
      · simp only [hs] at h; cases h
      · simp only [hs, bind, Except.bind] at h
        rw [foldl_pushNb] at h
        by_cases hm : mm = (σ.sort (m i).temp).length
        · rw [if_pos hm] at h
          have := (Prod.mk.inj (Except.ok.inj h)).2
          cases this
        · rw [if_neg hm] at h
          have ih' := ih hnd.2 _ h
          have hne : ∀ k ∈ is, k ≠ i := fun k hk h => hnd.1 (h ▸ hk)
          refine ⟨fun hk => ?_, fun hk => ?_⟩
          · have hki : k ≠ i := fun h => hk (h ▸ List.mem_cons_self ..)
            rw [ih'.1 fun h => hk (List.mem_cons_of_mem _ h), Function.update_of_ne hki]
          · rcases List.mem_cons.1 hk with rfl | hk
            · refine ⟨by omega, mm, sel, cut, hs, ?_, ?_⟩
              · rw [← (σ.perm (m k).temp).length_eq]; exact hm
              · rw [ih'.1 hnd.1, Function.update_self]; rfl
            · have hki := hne k hk
              have := ih'.2 hk
              rwa [Function.update_of_ne hki] at this

end Pyscal
