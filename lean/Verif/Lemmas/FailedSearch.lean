import Verif.Spec.History
import Verif.Lemmas.Frame2

/-! Neighbour searches that raise: what they leave alone. -/

namespace Pyscal

open Spec (atomRest searchRest)

/-- Same system but for what a search writes. -/
def SameBut (s g : System) : Prop := searchRest g = searchRest s

theorem SameBut.trans {s t g : System} (h : SameBut s t) (h' : SameBut t g) : SameBut s g := Eq.trans h' h

theorem SameBut.ofMem (s : System) {m : Mem} (h : ∀ i < s.atoms.length, atomRest (m i) = atomRest (s.mem i)) : SameBut s (s.ofMem m) := by
  have : (s.ofMem m).atoms.map atomRest = s.atoms.map atomRest := by
    apply List.ext_getElem (by simp [System.ofMem])
    intro i h1 h2
    have hi : i < s.atoms.length := by simpa using h2
    have := h i hi
    simp only [System.mem, List.getD_eq_getElem?_getD, List.getElem?_eq_getElem hi, Option.getD_some] at this
    simpa [System.ofMem] using this
  unfold SameBut searchRest
  rw [this]
  rfl

theorem SameBut.resetAll (s : System) : SameBut s s.resetAllNeighbors := by
  unfold SameBut searchRest System.resetAllNeighbors
  simp only [List.map_map]
  congr 1

theorem update_rest {m m' : Mem} (h : ∀ k, atomRest (m k) = atomRest (m' k)) {i : ℕ} {a : Atom} (ha : atomRest a = atomRest (m i)) :
    ∀ k, atomRest (Function.update m i a k) = atomRest (m' k) := by
  intro k
  by_cases hk : k = i
  · subst hk; rw [Function.update_self, ha, h]
  · rw [Function.update_of_ne hk, h]

theorem pairLoop_rest {τ : Type} (add : Atom → τ → Atom) (hit : ℕ → ℕ → Option (τ × τ))
    (hadd : ∀ a x, atomRest (add a x) = atomRest a) (ps : List (ℕ × ℕ)) (m : Mem) (k : ℕ) :
    atomRest (pairLoop add hit ps m k) = atomRest (m k) := by
  suffices ∀ m' : Mem, (∀ k, atomRest (m' k) = atomRest (m k)) → atomRest (pairLoop add hit ps m' k) = atomRest (m k) from
    this m fun _ => rfl
  induction ps with
  | nil => exact fun m' h => h k
  | cons p ps ih =>
    intro m' h
    simp only [pairLoop, List.foldl_cons]
    rcases hh : hit p.1 p.2 with _ | ⟨x, y⟩
    · exact ih _ h
    · exact ih _ (update_rest (update_rest h (hadd _ _)) (hadd _ _))

theorem foldl_rest {α : Type} (f : Atom → α → Atom) (hf : ∀ a x, atomRest (f a x) = atomRest a) (l : List α) (a : Atom) :
    atomRest (l.foldl f a) = atomRest a := by
  induction l generalizing a with
  | nil => rfl
  | cons x l ih => rw [List.foldl_cons, ih, hf]

theorem SameBut.fillTemp {s g : System} {p : ℝ} (h : s.fillTemp p = .ok g) : SameBut s g := by
  have this : SameBut s { s with neighbordistance := s.guessDist p } := rfl
  unfold System.fillTemp at h
  dsimp only at h
  split_ifs at h
  · unfold System.tempCells at h
    cases hc : ({ s with neighbordistance := s.guessDist p } : System).cellPairs with
    | error e => rw [hc] at h; cases h
    | ok ps =>
      rw [hc] at h
      obtain rfl := Except.ok.inj h
      exact this.trans (SameBut.ofMem _ fun i _ => pairLoop_rest Atom.pushTemp _ (fun _ _ => rfl) _ _ _)
  · obtain rfl := Except.ok.inj h
    exact this.trans (SameBut.ofMem _ fun i _ => pairLoop_rest Atom.pushTemp _ (fun _ _ => rfl) _ _ _)

theorem byNumberLoop_rest (σ : StdSort) (s : System) (n : ℕ) (as : Bool) (is : List ℕ) (m m' : Mem)
    (h : ∀ k, atomRest (m k) = atomRest (m' k)) (k : ℕ) :
    atomRest ((System.byNumberLoop σ s n as is m).1 k) = atomRest (m' k) := by
  induction is generalizing m with
  | nil => exact h k
  | cons i is ih =>
    unfold System.byNumberLoop
    split_ifs
    · exact h k
    · refine ih _ (update_rest h ?_)
      rw [foldl_rest (fun a (x : DAtom) => a.pushNb (s.mkNb i x.idx)) fun _ _ => rfl]
      rfl
    · exact ih _ (update_rest h rfl)

theorem SameBut.byNumber {σ : StdSort} {s : System} {r : System × Bool} {p : ℝ} {n : ℕ} {as : Bool}
    (h : s.neighborsByNumber σ p n as = .ok r) : SameBut s r.1 := by
  unfold System.neighborsByNumber at h
  dsimp only at h
  cases hf : ({ s with voronoiused := false } : System).fillTemp p with
  | error e => rw [hf] at h; cases h
  | ok g =>
    rw [hf] at h
    obtain rfl := Except.ok.inj h
    have h1 := SameBut.fillTemp hf
    have h0 : SameBut s { s with voronoiused := false } := rfl
    exact (h0.trans h1).trans (SameBut.ofMem _ fun i _ => byNumberLoop_rest _ _ _ _ _ _ _ (fun _ => rfl) _)

theorem adaptiveLoop_rest (σ : StdSort) (s : System) (n : ℕ) (pad : ℝ) (is : List ℕ) (m m' : Mem)
    (h : ∀ k, atomRest (m k) = atomRest (m' k)) (k : ℕ) :
    atomRest ((System.adaptiveLoop σ s n pad is m).1 k) = atomRest (m' k) := by
  induction is generalizing m with
  | nil => exact h k
  | cons i is ih =>
    unfold System.adaptiveLoop
    split_ifs
    · exact h k
    · refine ih _ (update_rest h ?_)
      rw [foldl_rest]
      · rfl
      · intro a x
        split_ifs <;> rfl

theorem SameBut.adaptive {σ : StdSort} {s : System} {r : System × Bool} {p pad : ℝ} {n : ℕ}
    (h : s.neighborsAdaptive σ p n pad = .ok r) : SameBut s r.1 := by
  unfold System.neighborsAdaptive at h
  cases hf : s.fillTemp p with
  | error e => rw [hf] at h; cases h
  | ok g =>
    rw [hf] at h
    obtain rfl := Except.ok.inj h
    exact (SameBut.fillTemp hf).trans (SameBut.ofMem _ fun i _ => adaptiveLoop_rest _ _ _ _ _ _ _ (fun _ => rfl) _)

theorem sannLoop_rest (σ : StdSort) (s : System) (is : List ℕ) (m m' : Mem) (r : Mem × Bool)
    (h : ∀ k, atomRest (m k) = atomRest (m' k)) (hr : System.sannLoop σ s is m = .ok r) (k : ℕ) :
    atomRest (r.1 k) = atomRest (m' k) := by
  induction is generalizing m with
  | nil => obtain rfl := Except.ok.inj hr; exact h k
  | cons i is ih =>
    unfold System.sannLoop at hr
    split_ifs at hr
    · obtain rfl := Except.ok.inj hr
      exact h k
    · dsimp only at hr
      cases hs : sannSelect (σ.sort (m i).temp) (m i).cutoff with
      | error e => rw [hs] at hr; cases hr
      | ok v =>
        obtain ⟨mm, sel, cut⟩ := v
        rw [hs] at hr
        simp only [bind, Except.bind] at hr
        have hu := update_rest h (i := i)
          (a := sel.foldl (fun a x => a.pushNb (s.mkNb i x.idx)) { m i with temp := σ.sort (m i).temp, cutoff := cut })
          (by rw [foldl_rest (fun a (x : DAtom) => a.pushNb (s.mkNb i x.idx)) fun _ _ => rfl]; rfl)
        split_ifs at hr
        · obtain rfl := Except.ok.inj hr
          exact hu k
        · exact ih _ hu hr

theorem SameBut.sann {σ : StdSort} {s : System} {r : System × Bool} {p : ℝ}
    (h : s.neighborsSann σ p = .ok r) : SameBut s r.1 := by
  unfold System.neighborsSann at h
  cases hf : ({ s with voronoiused := false } : System).fillTemp p with
  | error e => rw [hf] at h; cases h
  | ok g =>
    rw [hf] at h
    simp only [bind, Except.bind] at h
    cases hl : System.sannLoop σ g (List.range g.atoms.length) g.mem with
    | error e => rw [hl] at h; cases h
    | ok v =>
      rw [hl] at h
      obtain rfl := Except.ok.inj h
      have h0 : SameBut s { s with voronoiused := false } := rfl
      exact (h0.trans (SameBut.fillTemp hf)).trans (SameBut.ofMem _ fun i _ => sannLoop_rest _ _ _ _ _ _ (fun _ => rfl) hl _)

theorem SameBut.sannRetry (σ : StdSort) (t : ℝ) (is : List ℕ) (s : System) : SameBut s (System.sannRetryS σ t is s).1 := by
  induction is generalizing s with
  | nil => rfl
  | cons i is ih =>
    unfold System.sannRetryS
    rcases hs : s.resetAllNeighbors.neighborsSann σ (t * i) with e | ⟨s', _ | _⟩
    · rfl
    · exact ((SameBut.resetAll s).trans (SameBut.sann hs)).trans (ih s')
    · exact (SameBut.resetAll s).trans (SameBut.sann hs)

/-- A search, whether it returns or raises, writes nothing but neighbour data and its own settings. -/
theorem SameBut.search (σ : StdSort) (m : Method) (s : System) : SameBut s (System.searchS σ m s).1 := by
  have had : ∀ t n p, SameBut s (System.searchAdaptiveS σ t n p s).1 := by
    intro t n p
    unfold System.searchAdaptiveS
    split_ifs
    · rfl
    · dsimp only
      have h0 : SameBut s { s with usecells := decide (s.nop > 4000) } := rfl
      rcases hs : ({ s with usecells := decide (s.nop > 4000) } : System).neighborsAdaptive σ t n p with e | ⟨s', _ | _⟩
      · rfl
      · exact h0.trans (SameBut.adaptive hs)
      · exact h0.trans (SameBut.adaptive hs)
  cases m with
  | cutoff r =>
    simp only [System.searchS]
    split_ifs
    · exact had _ _ _
    · unfold System.searchCutoffS
      dsimp only
      have h0 : SameBut s { s with neighbordistance := r, voronoiused := false } := rfl
      rcases ({ s with neighbordistance := r } : System).getAtoms with e | l
      · rfl
      · dsimp only
        split_ifs
        · rcases hs : ({ s with neighbordistance := r } : System).neighborsCells with e | s'
          · rfl
          · unfold System.neighborsCells at hs
            dsimp only at hs
            generalize hc : System.cellPairs _ = c at hs
            cases c with
            | error e => cases hs
            | ok ps =>
              obtain rfl := Except.ok.inj hs
              exact h0.trans (SameBut.ofMem _ fun i _ => pairLoop_rest (Atom.pushNbCut r) _ (fun _ _ => rfl) _ _ _)
        · exact h0.trans (SameBut.ofMem _ fun i _ => pairLoop_rest (Atom.pushNbCut r) _ (fun _ _ => rfl) _ _ _)
  | adaptive t n p => exact had t n p
  | sann t =>
    simp only [System.searchS, System.searchSannS]
    split_ifs
    · rfl
    · rcases s.getAtoms with e | l
      · rfl
      · dsimp only
        have h0 : SameBut s { s with usecells := decide (l.length > 4000) } := rfl
        rcases hs : ({ s with usecells := decide (l.length > 4000) } : System).neighborsSann σ t with e | ⟨s', _ | _⟩
        · rfl
        · exact (h0.trans (SameBut.sann hs)).trans (SameBut.sannRetry _ _ _ _)
        · exact h0.trans (SameBut.sann hs)
  | number t n as =>
    simp only [System.searchS, System.searchNumberS]
    split_ifs
    · rfl
    · rcases s.getAtoms with e | l
      · rfl
      · dsimp only
        have h0 : SameBut s { s with usecells := decide (l.length > 4000) } := rfl
        rcases hs : ({ s with usecells := decide (l.length > 4000) } : System).neighborsByNumber σ t n as with e | ⟨s', _ | _⟩
        · rfl
        · exact h0.trans (SameBut.byNumber hs)
        · exact h0.trans (SameBut.byNumber hs)

theorem SameBut.kept {s g : System} (h : SameBut s g) : Kept s g := by
  unfold SameBut at h
  have e : ∀ k : List Atom, (k.map atomRest).map Spec.identity = k.map Spec.identity := by
    intro k; rw [List.map_map]; rfl
  refine ⟨?_, congrArg (·.nop) h, congrArg (·.realNop) h, congrArg (·.ghostNop) h, congrArg (·.box) h, congrArg (·.triclinic) h,
    congrArg (·.rot) h, congrArg (·.rotinv) h, congrArg (·.actualBox) h, congrArg (·.ghostsCreated) h⟩
  have h1 : g.atoms.map atomRest = s.atoms.map atomRest := congrArg (·.atoms) h
  rw [← e, h1, e]

/-! ### Agreement with the model without states -/

/-- Outcome of a method with its state after a return. -/
def outcome {α : Type} (r : System × Except Fault α) : Except Fault System :=
  match r.2 with
  | .ok _ => .ok r.1
  | .error e => .error e

theorem outcome_search (σ : StdSort) (m : Method) (s : System) : outcome (System.searchS σ m s) = s.search σ m := by
  have had : ∀ t n p, outcome (System.searchAdaptiveS σ t n p s) = s.searchAdaptive σ t n p := by
    intro t n p
    unfold System.searchAdaptiveS System.searchAdaptive
    split_ifs
    · rfl
    · dsimp only
      rcases hs : ({ s with usecells := decide (s.nop > 4000) } : System).neighborsAdaptive σ t n p with e | ⟨s', _ | _⟩ <;> rfl
  have hretry : ∀ t is s, outcome (System.sannRetryS σ t is s) = System.sannRetry σ t is s := by
    intro t is
    induction is with
    | nil => intro s; rfl
    | cons i is ih =>
      intro s
      unfold System.sannRetryS System.sannRetry
      rcases hs : s.resetAllNeighbors.neighborsSann σ (t * i) with e | ⟨s', _ | _⟩
      · rfl
      · exact ih s'
      · rfl
  cases m with
  | cutoff r =>
    simp only [System.searchS, System.search]
    split_ifs
    · exact had _ _ _
    · unfold System.searchCutoffS System.searchCutoff
      dsimp only
      rcases ({ s with neighbordistance := r } : System).getAtoms with e | l
      · rfl
      · simp only [bind, Except.bind]
        split_ifs
        · rcases hs : ({ s with neighbordistance := r } : System).neighborsCells with e | s' <;> rfl
        · rfl
  | adaptive t n p => exact had t n p
  | sann t =>
    simp only [System.searchS, System.searchSannS, System.search, System.searchSann]
    split_ifs
    · rfl
    · rcases s.getAtoms with e | l
      · rfl
      · simp only [bind, Except.bind]
        rcases hs : ({ s with usecells := decide (l.length > 4000) } : System).neighborsSann σ t with e | ⟨s', _ | _⟩
        · rfl
        · exact hretry _ _ _
        · rfl
  | number t n as =>
    simp only [System.searchS, System.searchNumberS, System.search, System.searchNumber]
    split_ifs
    · rfl
    · rcases s.getAtoms with e | l
      · rfl
      · simp only [bind, Except.bind]
        rcases hs : ({ s with usecells := decide (l.length > 4000) } : System).neighborsByNumber σ t n as with e | ⟨s', _ | _⟩ <;> rfl

/-- Both models of `find_neighbors` agree on the exceptions and on the state after a return. -/
theorem outcome_findNeighbors (σ : StdSort) (f : ℕ) (m : Method) (s : System) :
    outcome (System.findNeighborsS σ f m s) = s.findNeighbors σ f m := by
  unfold System.findNeighborsS System.findNeighbors
  simp only [bind, Except.bind]
  rw [← outcome_search]
  rcases System.searchS σ m { s.resetAllNeighbors with filter := f } with ⟨s1, e | _⟩
  · rfl
  · dsimp only [outcome]
    rcases s1.checkCapacity with e | s2 <;> rfl

/-- Whatever the outcome, the system is the same but for what a search writes; `neighbors_found` is only
changed by a search that returns. -/
theorem findNeighborsS_rest (σ : StdSort) (f : ℕ) (m : Method) (s : System) (e : Fault)
    (h : (System.findNeighborsS σ f m s).2 = .error e) : SameBut s (System.findNeighborsS σ f m s).1 := by
  have h0 : SameBut s { s.resetAllNeighbors with filter := f } := (SameBut.resetAll s).trans rfl
  have h1 := h0.trans (SameBut.search σ m { s.resetAllNeighbors with filter := f })
  unfold System.findNeighborsS at h ⊢
  rcases hs : System.searchS σ m { s.resetAllNeighbors with filter := f } with ⟨s1, e' | ⟨⟩⟩
  · rw [hs] at h1; exact h1
  · rw [hs] at h h1
    dsimp only at h ⊢
    rcases hc : s1.checkCapacity with e' | s2
    · exact h1
    · rw [hc] at h; cases h

theorem Kept.failedSearch {σ : StdSort} {f : ℕ} {m : Method} {s : System} {e : Fault}
    (h : (System.findNeighborsS σ f m s).2 = .error e) : Kept s (System.findNeighborsS σ f m s).1 :=
  (findNeighborsS_rest σ f m s e h).kept

theorem Kept.failedDiamond (σ : StdSort) (s : System) (e : Fault)
    (h : (System.findDiamondNeighborsS σ s).2 = .error e) : Kept s (System.findDiamondNeighborsS σ s).1 := by
  refine (Kept.resetNeighbors s).trans ?_
  unfold System.findDiamondNeighborsS at h ⊢
  have ho := outcome_findNeighbors σ 0 (.number 2 4 false) s.resetNeighbors
  have hk := fun e' => Kept.failedSearch (σ := σ) (f := 0) (m := .number 2 4 false) (s := s.resetNeighbors) (e := e')
  rcases hs : System.findNeighborsS σ 0 (.number 2 4 false) s.resetNeighbors with ⟨s1, e' | ⟨⟩⟩
  · rw [hs] at hk; exact hk e' rfl
  · rw [hs] at h ho
    dsimp only at h ⊢
    have hk1 : Kept s.resetNeighbors s1 := Kept.findNeighbors ho.symm
    rcases hd : s1.diamondNeighbors with e' | s2
    · exact hk1
    · rw [hd] at h; cases h

end Pyscal
