import Verif.Spec.History
import Verif.Lemmas.CnaCounts
import Verif.Lemmas.Sann
import Verif.Props.Store
import Verif.Props.Sro

/-! What the analysis functions leave unchanged. -/

namespace Pyscal

open Spec (identity)

/-- Two states with the same atoms (as far as `identity` tells), counters and box. -/
structure Kept (s g : System) : Prop where
  atoms : g.atoms.map identity = s.atoms.map identity
  nop : g.nop = s.nop
  realNop : g.realNop = s.realNop
  ghostNop : g.ghostNop = s.ghostNop
  box : g.box = s.box
  tri : g.triclinic = s.triclinic
  rot : g.rot = s.rot
  rotinv : g.rotinv = s.rotinv
  actual : g.actualBox = s.actualBox
  ghosts : g.ghostsCreated = s.ghostsCreated

theorem Kept.refl (s : System) : Kept s s := ⟨rfl, rfl, rfl, rfl, rfl, rfl, rfl, rfl, rfl, rfl⟩

theorem Kept.trans {s t g : System} (h : Kept s t) (h' : Kept t g) : Kept s g :=
  ⟨h'.atoms.trans h.atoms, h'.nop.trans h.nop, h'.realNop.trans h.realNop, h'.ghostNop.trans h.ghostNop,
    h'.box.trans h.box, h'.tri.trans h.tri, h'.rot.trans h.rot, h'.rotinv.trans h.rotinv, h'.actual.trans h.actual,
    h'.ghosts.trans h.ghosts⟩

theorem Kept.len {s g : System} (h : Kept s g) : g.atoms.length = s.atoms.length := by
  have := congrArg List.length h.atoms
  simpa using this

theorem map_identity {l : List Atom} {f : Atom → Atom} (h : ∀ a, identity (f a) = identity a) :
    (l.map f).map identity = l.map identity := by
  rw [List.map_map]
  exact List.map_congr_left fun a _ => h a

theorem mapM_identity {F : Atom → Except Fault Atom} {l m : List Atom}
    (h : ∀ a b, F a = .ok b → identity b = identity a) (hm : l.mapM F = .ok m) : m.map identity = l.map identity := by
  induction l generalizing m with
  | nil => obtain rfl := Except.ok.inj hm; rfl
  | cons a l ih =>
    rw [List.mapM_cons] at hm
    cases ha : F a with
    | error e => rw [ha] at hm; cases hm
    | ok b =>
      cases hl : l.mapM F with
      | error e => rw [ha, hl] at hm; cases hm
      | ok bs =>
        rw [ha, hl] at hm
        obtain rfl := Except.ok.inj hm
        rw [List.map_cons, List.map_cons, h a b ha, ih hl]

theorem Kept.map (s : System) {f : Atom → Atom} (h : ∀ a, identity (f a) = identity a) :
    Kept s { s with atoms := s.atoms.map f } :=
  ⟨map_identity h, rfl, rfl, rfl, rfl, rfl, rfl, rfl, rfl, rfl⟩

theorem Kept.mapIdx (s : System) {f : ℕ → Atom → Atom} (h : ∀ i a, identity (f i a) = identity a) :
    Kept s { s with atoms := s.atoms.mapIdx f } := by
  refine ⟨?_, rfl, rfl, rfl, rfl, rfl, rfl, rfl, rfl, rfl⟩
  apply List.ext_getElem (by simp)
  intro i h1 h2
  simp [h]

theorem Kept.mapM {s : System} {F : Atom → Except Fault Atom} {l : List Atom} (h : ∀ a b, F a = .ok b → identity b = identity a)
    (hm : s.atoms.mapM F = .ok l) : Kept s { s with atoms := l } :=
  ⟨mapM_identity h hm, rfl, rfl, rfl, rfl, rfl, rfl, rfl, rfl, rfl⟩

theorem Kept.ofMem (s : System) {m : Mem} (h : ∀ i < s.atoms.length, identity (m i) = identity (s.mem i)) : Kept s (s.ofMem m) := by
  refine ⟨?_, rfl, rfl, rfl, rfl, rfl, rfl, rfl, rfl, rfl⟩
  apply List.ext_getElem (by simp [System.ofMem])
  intro i h1 h2
  have hi : i < s.atoms.length := by simpa using h2
  have := h i hi
  simp only [System.mem, List.getD_eq_getElem?_getD, List.getElem?_eq_getElem hi, Option.getD_some] at this
  simpa [System.ofMem] using this

/-! ### Neighbour searches -/

/-- An update of one atom that keeps its identity keeps all identities. -/
theorem update_identity {m m' : Mem} (h : ∀ k, identity (m k) = identity (m' k)) {i : ℕ} {a : Atom} (ha : identity a = identity (m i)) :
    ∀ k, identity (Function.update m i a k) = identity (m' k) := by
  intro k
  by_cases hk : k = i
  · subst hk; rw [Function.update_self, ha, h]
  · rw [Function.update_of_ne hk, h]

theorem pairLoop_identity {τ : Type} (add : Atom → τ → Atom) (hit : ℕ → ℕ → Option (τ × τ))
    (hadd : ∀ a x, identity (add a x) = identity a) (ps : List (ℕ × ℕ)) (m : Mem) (k : ℕ) :
    identity (pairLoop add hit ps m k) = identity (m k) := by
  suffices ∀ m' : Mem, (∀ k, identity (m' k) = identity (m k)) → identity (pairLoop add hit ps m' k) = identity (m k) from
    this m fun _ => rfl
  induction ps with
  | nil => exact fun m' h => h k
  | cons p ps ih =>
    intro m' h
    simp only [pairLoop, List.foldl_cons]
    rcases hh : hit p.1 p.2 with _ | ⟨x, y⟩
    · exact ih _ h
    · exact ih _ (update_identity (update_identity h (hadd _ _)) (hadd _ _))

theorem foldl_identity {α : Type} (f : Atom → α → Atom) (hf : ∀ a x, identity (f a x) = identity a) (l : List α) (a : Atom) :
    identity (l.foldl f a) = identity a := by
  induction l generalizing a with
  | nil => rfl
  | cons x l ih => rw [List.foldl_cons, ih, hf]

theorem pushTemp_identity (a : Atom) (x : DAtom) : identity (a.pushTemp x) = identity a := rfl

theorem pushNb_identity (a : Atom) (x : Nb) : identity (a.pushNb x) = identity a := rfl

theorem pushNbCut_identity (r : ℝ) (a : Atom) (x : Nb) : identity (a.pushNbCut r x) = identity a := rfl

theorem Kept.fillTemp {s g : System} {p : ℝ} (h : s.fillTemp p = .ok g) : Kept s g := by
  unfold System.fillTemp at h
  dsimp only at h
  split_ifs at h
  · unfold System.tempCells at h
    cases hc : ({ s with neighbordistance := s.guessDist p } : System).cellPairs with
    | error e => rw [hc] at h; cases h
    | ok ps =>
      rw [hc] at h
      obtain rfl := Except.ok.inj h
      have : Kept s { s with neighbordistance := s.guessDist p } := ⟨rfl, rfl, rfl, rfl, rfl, rfl, rfl, rfl, rfl, rfl⟩
      exact this.trans (Kept.ofMem _ fun i _ => pairLoop_identity _ _ pushTemp_identity _ _ _)
  · obtain rfl := Except.ok.inj h
    have : Kept s { s with neighbordistance := s.guessDist p } := ⟨rfl, rfl, rfl, rfl, rfl, rfl, rfl, rfl, rfl, rfl⟩
    exact this.trans (Kept.ofMem _ fun i _ => pairLoop_identity _ _ pushTemp_identity _ _ _)

theorem byNumberLoop_identity (σ : StdSort) (s : System) (n : ℕ) (as : Bool) (is : List ℕ) (m m' : Mem)
    (h : ∀ k, identity (m k) = identity (m' k)) (k : ℕ) :
    identity ((System.byNumberLoop σ s n as is m).1 k) = identity (m' k) := by
  induction is generalizing m with
  | nil => exact h k
  | cons i is ih =>
    unfold System.byNumberLoop
    split_ifs
    · exact h k
    · refine ih _ (update_identity h ?_)
      rw [foldl_identity _ fun a (x : DAtom) => pushNb_identity a (s.mkNb i x.idx)]
      rfl
    · exact ih _ (update_identity h rfl)

theorem Kept.byNumber {σ : StdSort} {s : System} {r : System × Bool} {p : ℝ} {n : ℕ} {as : Bool}
    (h : s.neighborsByNumber σ p n as = .ok r) : Kept s r.1 := by
  unfold System.neighborsByNumber at h
  dsimp only at h
  cases hf : ({ s with voronoiused := false } : System).fillTemp p with
  | error e => rw [hf] at h; cases h
  | ok g =>
    rw [hf] at h
    obtain rfl := Except.ok.inj h
    have h1 := Kept.fillTemp hf
    have h0 : Kept s { s with voronoiused := false } := ⟨rfl, rfl, rfl, rfl, rfl, rfl, rfl, rfl, rfl, rfl⟩
    exact (h0.trans h1).trans (Kept.ofMem _ fun i _ => byNumberLoop_identity _ _ _ _ _ _ _ (fun _ => rfl) _)

theorem adaptiveLoop_identity (σ : StdSort) (s : System) (n : ℕ) (pad : ℝ) (is : List ℕ) (m m' : Mem)
    (h : ∀ k, identity (m k) = identity (m' k)) (k : ℕ) :
    identity ((System.adaptiveLoop σ s n pad is m).1 k) = identity (m' k) := by
  induction is generalizing m with
  | nil => exact h k
  | cons i is ih =>
    unfold System.adaptiveLoop
    split_ifs
    · exact h k
    · refine ih _ (update_identity h ?_)
      rw [foldl_identity]
      · rfl
      · intro a x
        split_ifs <;> rfl

theorem Kept.adaptive {σ : StdSort} {s : System} {r : System × Bool} {p pad : ℝ} {n : ℕ}
    (h : s.neighborsAdaptive σ p n pad = .ok r) : Kept s r.1 := by
  unfold System.neighborsAdaptive at h
  cases hf : s.fillTemp p with
  | error e => rw [hf] at h; cases h
  | ok g =>
    rw [hf] at h
    obtain rfl := Except.ok.inj h
    exact (Kept.fillTemp hf).trans (Kept.ofMem _ fun i _ => adaptiveLoop_identity _ _ _ _ _ _ _ (fun _ => rfl) _)

theorem sannLoop_identity (σ : StdSort) (s : System) (is : List ℕ) (m m' : Mem) (r : Mem × Bool)
    (h : ∀ k, identity (m k) = identity (m' k)) (hr : System.sannLoop σ s is m = .ok r) (k : ℕ) :
    identity (r.1 k) = identity (m' k) := by
  induction is generalizing m with
  | nil => obtain rfl := Except.ok.inj hr; exact h k
  | cons i is ih =>
    unfold System.sannLoop at hr
    split_ifs at hr
    · obtain rfl := Except.ok.inj hr
      exact h k
    · dsimp only at hr
      cases hs : sannSelect (σ.sort (m i).temp) (m i).cutoff with
      | error e => rw [hs] at hr; cases hr
      | ok v =>
        obtain ⟨mm, sel, cut⟩ := v
        rw [hs] at hr
        simp only [bind, Except.bind] at hr
        have hu := update_identity h (i := i)
          (a := sel.foldl (fun a x => a.pushNb (s.mkNb i x.idx)) { m i with temp := σ.sort (m i).temp, cutoff := cut })
          (by rw [foldl_identity _ fun a (x : DAtom) => pushNb_identity a (s.mkNb i x.idx)]; rfl)
        split_ifs at hr
        · obtain rfl := Except.ok.inj hr
          exact hu k
        · exact ih _ hu hr

theorem Kept.sann {σ : StdSort} {s : System} {r : System × Bool} {p : ℝ}
    (h : s.neighborsSann σ p = .ok r) : Kept s r.1 := by
  unfold System.neighborsSann at h
  cases hf : ({ s with voronoiused := false } : System).fillTemp p with
  | error e => rw [hf] at h; cases h
  | ok g =>
    rw [hf] at h
    simp only [bind, Except.bind] at h
    cases hl : System.sannLoop σ g (List.range g.atoms.length) g.mem with
    | error e => rw [hl] at h; cases h
    | ok v =>
      rw [hl] at h
      obtain rfl := Except.ok.inj h
      have h0 : Kept s { s with voronoiused := false } := ⟨rfl, rfl, rfl, rfl, rfl, rfl, rfl, rfl, rfl, rfl⟩
      exact (h0.trans (Kept.fillTemp hf)).trans (Kept.ofMem _ fun i _ => sannLoop_identity _ _ _ _ _ _ (fun _ => rfl) hl _)

theorem Kept.resetAll (s : System) : Kept s s.resetAllNeighbors := Kept.map s fun _ => rfl

theorem Kept.resetMain (s : System) : Kept s s.resetMainNeighbors := Kept.map s fun _ => rfl

theorem Kept.sannRetry {σ : StdSort} {t : ℝ} {is : List ℕ} {s g : System} (h : System.sannRetry σ t is s = .ok g) : Kept s g := by
  induction is generalizing s with
  | nil => cases h
  | cons i is ih =>
    unfold System.sannRetry at h
    cases hs : s.resetAllNeighbors.neighborsSann σ (t * i) with
    | error e => rw [hs] at h; cases h
    | ok r =>
      rw [hs] at h
      have h1 := (Kept.resetAll s).trans (Kept.sann hs)
      obtain ⟨s', ok⟩ := r
      simp only [bind, Except.bind] at h
      split_ifs at h
      · obtain rfl := Except.ok.inj h; exact h1
      · exact h1.trans (ih h)

theorem Kept.search {σ : StdSort} {s g : System} {m : Method} (h : s.search σ m = .ok g) : Kept s g := by
  have had : ∀ {t : ℝ} {n : ℕ} {p : ℝ}, s.searchAdaptive σ t n p = .ok g → Kept s g := by
    intro t n p h
    unfold System.searchAdaptive at h
    split_ifs at h
    dsimp only at h
    cases hs : ({ s with usecells := decide (s.nop > 4000) } : System).neighborsAdaptive σ t n p with
    | error e => rw [hs] at h; cases h
    | ok r =>
      rw [hs] at h
      have h0 : Kept s { s with usecells := decide (s.nop > 4000) } := ⟨rfl, rfl, rfl, rfl, rfl, rfl, rfl, rfl, rfl, rfl⟩
      have h1 := h0.trans (Kept.adaptive hs)
      obtain ⟨s', ok⟩ := r
      simp only [bind, Except.bind] at h
      split_ifs at h
      obtain rfl := Except.ok.inj h
      exact h1
  cases m with
  | cutoff r =>
    simp only [System.search] at h
    split_ifs at h
    · exact had h
    · unfold System.searchCutoff at h
      dsimp only at h
      cases hl : ({ s with neighbordistance := r } : System).getAtoms with
      | error e => rw [hl] at h; cases h
      | ok l =>
        rw [hl] at h
        simp only [bind, Except.bind] at h
        split_ifs at h
        · unfold System.neighborsCells at h
          dsimp only at h
          generalize hc : System.cellPairs _ = c at h
          cases c with
          | error e => cases h
          | ok ps =>
            obtain rfl := Except.ok.inj h
            have h0 : Kept s { s with neighbordistance := r, voronoiused := false } := ⟨rfl, rfl, rfl, rfl, rfl, rfl, rfl, rfl, rfl, rfl⟩
            exact h0.trans (Kept.ofMem _ fun i _ => pairLoop_identity _ _ (pushNbCut_identity _) _ _ _)
        · obtain rfl := Except.ok.inj h
          have h0 : Kept s { s with neighbordistance := r, voronoiused := false } := ⟨rfl, rfl, rfl, rfl, rfl, rfl, rfl, rfl, rfl, rfl⟩
          exact h0.trans (Kept.ofMem _ fun i _ => pairLoop_identity _ _ (pushNbCut_identity _) _ _ _)
  | adaptive t n p => exact had h
  | sann t =>
    simp only [System.search, System.searchSann] at h
    split_ifs at h
    cases hl : s.getAtoms with
    | error e => rw [hl] at h; cases h
    | ok l =>
      rw [hl] at h
      simp only [bind, Except.bind] at h
      cases hs : ({ s with usecells := decide (l.length > 4000) } : System).neighborsSann σ t with
      | error e => rw [hs] at h; cases h
      | ok r =>
        rw [hs] at h
        have h0 : Kept s { s with usecells := decide (l.length > 4000) } := ⟨rfl, rfl, rfl, rfl, rfl, rfl, rfl, rfl, rfl, rfl⟩
        have h1 := h0.trans (Kept.sann hs)
        obtain ⟨s', ok⟩ := r
        dsimp only at h
        split_ifs at h
        · obtain rfl := Except.ok.inj h; exact h1
        · exact h1.trans (Kept.sannRetry h)
  | number t n as =>
    simp only [System.search, System.searchNumber] at h
    split_ifs at h
    cases hl : s.getAtoms with
    | error e => rw [hl] at h; cases h
    | ok l =>
      rw [hl] at h
      simp only [bind, Except.bind] at h
      cases hs : ({ s with usecells := decide (l.length > 4000) } : System).neighborsByNumber σ t n as with
      | error e => rw [hs] at h; cases h
      | ok r =>
        rw [hs] at h
        have h0 : Kept s { s with usecells := decide (l.length > 4000) } := ⟨rfl, rfl, rfl, rfl, rfl, rfl, rfl, rfl, rfl, rfl⟩
        have h1 := h0.trans (Kept.byNumber hs)
        obtain ⟨s', ok⟩ := r
        dsimp only at h
        split_ifs at h
        obtain rfl := Except.ok.inj h
        exact h1

theorem checkCapacity_eq {s g : System} (h : s.checkCapacity = .ok g) : g = s := by
  unfold System.checkCapacity at h
  split_ifs at h
  exact (Except.ok.inj h).symm

theorem Kept.findNeighbors {σ : StdSort} {s g : System} {f : ℕ} {m : Method} (h : s.findNeighbors σ f m = .ok g) : Kept s g := by
  unfold System.findNeighbors at h
  dsimp only at h
  cases hs : ({ s.resetAllNeighbors with filter := f } : System).search σ m with
  | error e => rw [hs] at h; cases h
  | ok t =>
    rw [hs] at h
    simp only [bind, Except.bind] at h
    cases hc : t.checkCapacity with
    | error e => rw [hc] at h; cases h
    | ok t' =>
      rw [hc] at h
      obtain rfl := Except.ok.inj h
      obtain rfl := checkCapacity_eq hc
      have h0 : Kept s.resetAllNeighbors { s.resetAllNeighbors with filter := f } := ⟨rfl, rfl, rfl, rfl, rfl, rfl, rfl, rfl, rfl, rfl⟩
      have h1 := ((Kept.resetAll s).trans h0).trans (Kept.search hs)
      exact h1.trans ⟨rfl, rfl, rfl, rfl, rfl, rfl, rfl, rfl, rfl, rfl⟩

end Pyscal
