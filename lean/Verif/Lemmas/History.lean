import Verif.Lemmas.Sann

/-! `find_neighbors` reads nothing but the geometry and the atom counts. -/

namespace Pyscal

/-- Memories that agree on positions, types, neighbours and candidates. -/
def MSim (m m' : Mem) : Prop :=
  ∀ k, (m' k).pos = (m k).pos ∧ (m' k).type = (m k).type ∧ (m' k).nbrs = (m k).nbrs ∧ (m' k).temp = (m k).temp

theorem MSim.update {m m' : Mem} (h : MSim m m') (i : ℕ) {a a' : Atom}
    (ha : a'.pos = a.pos ∧ a'.type = a.type ∧ a'.nbrs = a.nbrs ∧ a'.temp = a.temp) :
    MSim (Function.update m i a) (Function.update m' i a') := by
  intro k
  by_cases hk : k = i
  · subst hk; simpa using ha
  · simp only [Function.update_of_ne hk]; exact h k

/-- Systems that agree on everything the searches read. -/
structure Sim (s g : System) : Prop where
  like : Like s g
  mem : MSim s.mem g.mem
  filter : g.filter = s.filter
  nop : g.nop = s.nop
  realNop : g.realNop = s.realNop

/-- Both fail alike, or both succeed with related results. -/
def RelE {α : Type} (R : α → α → Prop) : Except Fault α → Except Fault α → Prop
  | .ok a, .ok b => R a b
  | .error e, .error e' => e = e'
  | _, _ => False

theorem RelE.bind {α β : Type} {R : α → α → Prop} {R' : β → β → Prop} {x y : Except Fault α}
    {f g : α → Except Fault β} (h : RelE R x y) (hfg : ∀ a b, R a b → RelE R' (f a) (g b)) :
    RelE R' (x >>= f) (y >>= g) := by
  rcases x with e | a <;> rcases y with e' | b
  · exact h
  · exact h.elim
  · exact h.elim
  · exact hfg a b h

theorem RelE.refl_error {α : Type} {R : α → α → Prop} (e : Fault) : RelE R (.error e) (.error e) := rfl

theorem Sim.ofMem {s g : System} (h : Sim s g) {m m' : Mem} (hm : MSim m m')
    (hp : ∀ k, (m k).pos = (s.mem k).pos ∧ (m k).type = (s.mem k).type) : Sim (s.ofMem m) (g.ofMem m') := by
  have h1 : Like s (s.ofMem m) := like_ofMem (fun k _ => (hp k).1) (fun k _ => (hp k).2)
  have h2 : Like s (g.ofMem m') := by
    refine h.like.trans (like_ofMem (fun k _ => ?_) (fun k _ => ?_))
    · rw [(hm k).1, (hp k).1, (h.mem k).1]
    · rw [(hm k).2.1, (hp k).2, (h.mem k).2.1]
  refine ⟨⟨h2.len.trans h1.len.symm, fun k => (h2.pos k).trans (h1.pos k).symm,
    fun k => (h2.type k).trans (h1.type k).symm, h2.box, h2.rot, h2.rotinv, h2.tri⟩, ?_, h.filter, h.nop, h.realNop⟩
  intro k
  by_cases hk : k < s.atoms.length
  · rw [ofMem_mem _ _ _ hk, ofMem_mem _ _ _ (h.like.len.symm ▸ hk)]
    exact hm k
  · have e1 : (s.ofMem m).mem k = default := by simp [System.mem, System.ofMem, hk]
    have e2 : (g.ofMem m').mem k = default := by
      simp [System.mem, System.ofMem, h.like.len, hk]
    rw [e1, e2]; exact ⟨rfl, rfl, rfl, rfl⟩

theorem pairLoop_sim {τ : Type} (add add' : Atom → τ → Atom) (hit : ℕ → ℕ → Option (τ × τ))
    (hadd : ∀ a a' x, a'.pos = a.pos ∧ a'.type = a.type ∧ a'.nbrs = a.nbrs ∧ a'.temp = a.temp →
      (add' a' x).pos = (add a x).pos ∧ (add' a' x).type = (add a x).type ∧ (add' a' x).nbrs = (add a x).nbrs ∧
        (add' a' x).temp = (add a x).temp)
    (ps : List (ℕ × ℕ)) (m m' : Mem) (h : MSim m m') : MSim (pairLoop add hit ps m) (pairLoop add' hit ps m') := by
  induction ps generalizing m m' with
  | nil => exact h
  | cons p ps ih =>
    simp only [pairLoop, List.foldl_cons]
    rcases hh : hit p.1 p.2 with _ | ⟨x, y⟩
    · exact ih _ _ h
    · refine ih _ _ ?_
      have h1 := h.update p.1 (hadd _ _ x (h p.1))
      exact h1.update p.2 (hadd _ _ y (h1 p.2))

theorem pairLoop_frame {τ : Type} (add : Atom → τ → Atom) (hit : ℕ → ℕ → Option (τ × τ))
    (hadd : ∀ a x, (add a x).pos = a.pos ∧ (add a x).type = a.type)
    (ps : List (ℕ × ℕ)) (m : Mem) (k : ℕ) :
    (pairLoop add hit ps m k).pos = (m k).pos ∧ (pairLoop add hit ps m k).type = (m k).type := by
  induction ps generalizing m with
  | nil => exact ⟨rfl, rfl⟩
  | cons p ps ih =>
    simp only [pairLoop, List.foldl_cons]
    rcases hh : hit p.1 p.2 with _ | ⟨x, y⟩
    · exact ih _
    · have upd : ∀ (m : Mem) i z, (Function.update m i (add (m i) z) k).pos = (m k).pos ∧
          (Function.update m i (add (m i) z) k).type = (m k).type := by
        intro m i z
        by_cases hk : k = i
        · subst hk; rw [Function.update_self]; exact hadd _ _
        · rw [Function.update_of_ne hk]; exact ⟨rfl, rfl⟩
      obtain ⟨h1, h2⟩ := ih (Function.update (Function.update m p.1 (add (m p.1) x)) p.2
        (add (Function.update m p.1 (add (m p.1) x) p.2) y))
      obtain ⟨h3, h4⟩ := upd (Function.update m p.1 (add (m p.1) x)) p.2 y
      obtain ⟨h5, h6⟩ := upd m p.1 x
      exact ⟨h1.trans (h3.trans h5), h2.trans (h4.trans h6)⟩

section

variable {s g : System} (h : Sim s g)
include h

theorem Sim.cutoffHit (hn : g.neighbordistance = s.neighbordistance) : cutoffHit g = cutoffHit s := by
  funext i j
  simp only [Pyscal.cutoffHit, h.like.distOf, h.like.diffOf, h.like.type, hn, h.filter]

theorem Sim.tempHitLe (hn : g.neighbordistance = s.neighbordistance) : tempHitLe g = tempHitLe s := by
  funext i j
  simp only [Pyscal.tempHitLe, h.like.distOf, hn]

theorem Sim.tempHitLt (hn : g.neighbordistance = s.neighbordistance) : tempHitLt g = tempHitLt s := by
  funext i j
  simp only [Pyscal.tempHitLt, h.like.distOf, hn]

theorem Sim.cellPairs (hn : g.neighbordistance = s.neighbordistance) : g.cellPairs = s.cellPairs := by
  have hx : g.nx = s.nx ∧ g.ny = s.ny ∧ g.nz = s.nz := by
    simp only [System.nx, System.ny, System.nz, System.boxx, System.boxy, System.boxz, h.like.box, hn, and_self]
  have hc : ∀ i, g.atomCell i = s.atomCell i := by
    intro i
    simp only [System.atomCell, hx, h.like.pos, System.boxx, System.boxy, System.boxz, h.like.box]
  have hm : ∀ c, g.members c = s.members c := by
    intro c; simp only [System.members, hc, h.like.len]
  simp only [System.cellPairs, hx, hc, hm, h.like.len]

theorem Sim.neighborsNormal (hn : g.neighbordistance = s.neighbordistance) :
    Sim s.neighborsNormal g.neighborsNormal := by
  unfold System.neighborsNormal
  have h0 : Sim { s with voronoiused := false } { g with voronoiused := false } :=
    ⟨⟨h.like.len, h.like.pos, h.like.type, h.like.box, h.like.rot, h.like.rotinv, h.like.tri⟩, h.mem, h.filter, h.nop,
      h.realNop⟩
  refine h0.ofMem ?_ ?_
  · rw [h0.cutoffHit hn]
    rw [show ({ g with voronoiused := false } : System).atoms.length = _ from h.like.len]
    refine pairLoop_sim _ _ _ ?_ _ _ _ h.mem
    rintro a a' x ⟨h1, h2, h3, h4⟩
    exact ⟨h1, h2, by simp [Atom.pushNbCut, h3], h4⟩
  · intro k
    refine pairLoop_frame _ _ ?_ _ _ k
    exact fun _ _ => ⟨rfl, rfl⟩

theorem Sim.neighborsCells (hn : g.neighbordistance = s.neighbordistance) :
    RelE Sim s.neighborsCells g.neighborsCells := by
  unfold System.neighborsCells
  have h0 : Sim { s with voronoiused := false } { g with voronoiused := false } :=
    ⟨⟨h.like.len, h.like.pos, h.like.type, h.like.box, h.like.rot, h.like.rotinv, h.like.tri⟩, h.mem, h.filter, h.nop,
      h.realNop⟩
  dsimp only
  rw [h0.cellPairs hn]
  rcases hc : ({ s with voronoiused := false } : System).cellPairs with e | ps
  · exact rfl
  · refine h0.ofMem ?_ ?_
    · rw [h0.cutoffHit hn]
      refine pairLoop_sim _ _ _ ?_ _ _ _ h.mem
      rintro a a' x ⟨h1, h2, h3, h4⟩
      exact ⟨h1, h2, by simp [Atom.pushNbCut, h3], h4⟩
    · intro k
      refine pairLoop_frame _ _ ?_ _ _ k
      exact fun _ _ => ⟨rfl, rfl⟩

theorem Sim.tempBrute (hn : g.neighbordistance = s.neighbordistance) : Sim s.tempBrute g.tempBrute := by
  unfold System.tempBrute
  refine h.ofMem ?_ ?_
  · rw [h.tempHitLe hn, h.like.len]
    refine pairLoop_sim _ _ _ ?_ _ _ _ h.mem
    rintro a a' x ⟨h1, h2, h3, h4⟩
    exact ⟨h1, h2, h3, by simp [Atom.pushTemp, h4]⟩
  · intro k
    refine pairLoop_frame _ _ ?_ _ _ k
    exact fun _ _ => ⟨rfl, rfl⟩

theorem Sim.tempCells (hn : g.neighbordistance = s.neighbordistance) : RelE Sim s.tempCells g.tempCells := by
  unfold System.tempCells
  rw [h.cellPairs hn]
  rcases hc : s.cellPairs with e | ps
  · exact rfl
  · refine h.ofMem ?_ ?_
    · rw [h.tempHitLt hn]
      refine pairLoop_sim _ _ _ ?_ _ _ _ h.mem
      rintro a a' x ⟨h1, h2, h3, h4⟩
      exact ⟨h1, h2, h3, by simp [Atom.pushTemp, h4]⟩
    · intro k
      refine pairLoop_frame _ _ ?_ _ _ k
      exact fun _ _ => ⟨rfl, rfl⟩

theorem Sim.fillTemp (p : ℝ) (hu : g.usecells = s.usecells) : RelE Sim (s.fillTemp p) (g.fillTemp p) := by
  have hgd : (g.guess p).neighbordistance = (s.guess p).neighbordistance := h.like.guessDist p
  have h0 : Sim (s.guess p) (g.guess p) :=
    ⟨⟨h.like.len, h.like.pos, h.like.type, h.like.box, h.like.rot, h.like.rotinv, h.like.tri⟩, h.mem, h.filter, h.nop,
      h.realNop⟩
  change RelE Sim (if s.usecells then (s.guess p).tempCells else .ok (s.guess p).tempBrute)
    (if g.usecells then (g.guess p).tempCells else .ok (g.guess p).tempBrute)
  rw [hu]
  by_cases hs : s.usecells = true
  · rw [if_pos hs, if_pos hs]; exact h0.tempCells hgd
  · rw [if_neg hs, if_neg hs]; exact h0.tempBrute hgd

end

theorem byNumberLoop_sim (σ : StdSort) {s g : System} (hl : Like s g) (nns : ℕ) (assign : Bool) (is : List ℕ)
    (m m' : Mem) (h : MSim m m') :
    MSim (System.byNumberLoop σ s nns assign is m).1 (System.byNumberLoop σ g nns assign is m').1 ∧
    (System.byNumberLoop σ g nns assign is m').2 = (System.byNumberLoop σ s nns assign is m).2 ∧
    ∀ k, ((System.byNumberLoop σ s nns assign is m).1 k).pos = (m k).pos ∧
      ((System.byNumberLoop σ s nns assign is m).1 k).type = (m k).type := by
  induction is generalizing m m' with
  | nil => exact ⟨h, rfl, fun k => ⟨rfl, rfl⟩⟩
  | cons i is ih =>
    rw [System.byNumberLoop, System.byNumberLoop, (h i).2.2.2]
    by_cases hlt : (m i).temp.length < nns
    · rw [if_pos hlt, if_pos hlt]; exact ⟨h, rfl, fun k => ⟨rfl, rfl⟩⟩
    · rw [if_neg hlt, if_neg hlt]
      dsimp only
      have key : ∀ (a a' : Atom), a'.pos = a.pos ∧ a'.type = a.type ∧ a'.nbrs = a.nbrs ∧ a'.temp = a.temp →
          MSim (Function.update m i a) (Function.update m' i a') := fun a a' ha => h.update i ha
      rw [hl.mkNb, foldl_pushNb, foldl_pushNb]
      obtain ⟨i1, i2, i3⟩ := ih _ _ (h.update i (a := if assign = true then
          { ({ m i with temp := σ.sort (m i).temp } : Atom) with
            nbrs := (m i).nbrs ++ ((σ.sort (m i).temp).take nns).map fun x => s.mkNb i x.idx }
          else { m i with temp := σ.sort (m i).temp })
        (a' := if assign = true then
          { ({ m' i with temp := σ.sort (m i).temp } : Atom) with
            nbrs := (m' i).nbrs ++ ((σ.sort (m i).temp).take nns).map fun x => s.mkNb i x.idx }
          else { m' i with temp := σ.sort (m i).temp }) (by
        obtain ⟨h1, h2, h3, h4⟩ := h i
        cases assign
        · exact ⟨h1, h2, h3, rfl⟩
        · refine ⟨h1, h2, ?_, rfl⟩
          simp [h3]))
      refine ⟨i1, i2, fun k => ?_⟩
      obtain ⟨j1, j2⟩ := i3 k
      refine ⟨j1.trans ?_, j2.trans ?_⟩
      · by_cases hk : k = i
        · subst hk; rw [Function.update_self]; cases assign <;> rfl
        · rw [Function.update_of_ne hk]
      · by_cases hk : k = i
        · subst hk; rw [Function.update_self]; cases assign <;> rfl
        · rw [Function.update_of_ne hk]

theorem adaptiveLoop_sim (σ : StdSort) {s g : System} (hl : Like s g) (hf : g.filter = s.filter) (nlimit : ℕ)
    (padding : ℝ) (is : List ℕ) (m m' : Mem) (h : MSim m m') :
    MSim (System.adaptiveLoop σ s nlimit padding is m).1 (System.adaptiveLoop σ g nlimit padding is m').1 ∧
    (System.adaptiveLoop σ g nlimit padding is m').2 = (System.adaptiveLoop σ s nlimit padding is m).2 ∧
    ∀ k, ((System.adaptiveLoop σ s nlimit padding is m).1 k).pos = (m k).pos ∧
      ((System.adaptiveLoop σ s nlimit padding is m).1 k).type = (m k).type := by
  induction is generalizing m m' with
  | nil => exact ⟨h, rfl, fun k => ⟨rfl, rfl⟩⟩
  | cons i is ih =>
    rw [System.adaptiveLoop, System.adaptiveLoop, (h i).2.2.2]
    by_cases hlt : (m i).temp.length < nlimit
    · rw [if_pos hlt, if_pos hlt]; exact ⟨h, rfl, fun k => ⟨rfl, rfl⟩⟩
    · rw [if_neg hlt, if_neg hlt]
      dsimp only
      have hsel : ∀ d l, adaptiveSel g i d l = adaptiveSel s i d l := by
        intro d l; unfold adaptiveSel; simp only [hf, hl.type]
      rw [foldl_adaptive, foldl_adaptive, hl.mkNb, hsel]
      obtain ⟨i1, i2, i3⟩ := ih _ _ (h.update i (a := { ({ m i with temp := σ.sort (m i).temp } : Atom) with
            nbrs := (m i).nbrs ++ (adaptiveSel s i (System.adaptiveCut padding nlimit (σ.sort (m i).temp))
              (σ.sort (m i).temp)).map fun x => s.mkNb i x.idx,
            cutoff := if adaptiveSel s i (System.adaptiveCut padding nlimit (σ.sort (m i).temp)) (σ.sort (m i).temp) = []
              then (m i).cutoff else some (System.adaptiveCut padding nlimit (σ.sort (m i).temp)) })
        (a' := { ({ m' i with temp := σ.sort (m i).temp } : Atom) with
            nbrs := (m' i).nbrs ++ (adaptiveSel s i (System.adaptiveCut padding nlimit (σ.sort (m i).temp))
              (σ.sort (m i).temp)).map fun x => s.mkNb i x.idx,
            cutoff := if adaptiveSel s i (System.adaptiveCut padding nlimit (σ.sort (m i).temp)) (σ.sort (m i).temp) = []
              then (m' i).cutoff else some (System.adaptiveCut padding nlimit (σ.sort (m i).temp)) }) (by
        obtain ⟨h1, h2, h3, h4⟩ := h i
        refine ⟨h1, h2, ?_, rfl⟩
        simp [h3]))
      refine ⟨i1, i2, fun k => ?_⟩
      obtain ⟨j1, j2⟩ := i3 k
      refine ⟨j1.trans ?_, j2.trans ?_⟩
      · by_cases hk : k = i
        · subst hk; rw [Function.update_self]
        · rw [Function.update_of_ne hk]
      · by_cases hk : k = i
        · subst hk; rw [Function.update_self]
        · rw [Function.update_of_ne hk]

/-- Which candidates SANN selects does not depend on the previous cutoff. -/
theorem sannGo_cut (t : List DAtom) (m : ℕ) (summ dcut : ℝ) (acc : List DAtom) (c c' : Option ℝ) :
    RelE (fun a b : ℕ × List DAtom × Option ℝ => b.1 = a.1 ∧ b.2.1 = a.2.1)
      (sannGo t m summ dcut acc c) (sannGo t m summ dcut acc c') := by
  rw [sannGo, sannGo]
  by_cases hm : m < t.length
  · rw [dif_pos hm, dif_pos hm]
    by_cases hd : dcut ≥ t[m].dist
    · rw [if_pos hd, if_pos hd]
      by_cases hm' : m + 1 < t.length
      · rw [dif_pos hm']
        dsimp only
        generalize sannGo t (m + 1) _ _ _ _ = r
        rcases r with e | a
        · exact rfl
        · exact ⟨rfl, rfl⟩
      · rw [dif_neg hm']; exact rfl
    · rw [if_neg hd, if_neg hd]; exact ⟨rfl, rfl⟩
  · rw [dif_neg hm, dif_neg hm]; exact ⟨rfl, rfl⟩

theorem sannLoop_sim (σ : StdSort) {s g : System} (hl : Like s g) (is : List ℕ) (m m' : Mem) (h : MSim m m') :
    RelE (fun a b : Mem × Bool => MSim a.1 b.1 ∧ b.2 = a.2) (System.sannLoop σ s is m) (System.sannLoop σ g is m') := by
  induction is generalizing m m' with
  | nil => exact ⟨h, rfl⟩
  | cons i is ih =>
    rw [System.sannLoop, System.sannLoop, (h i).2.2.2]
    by_cases hlt : (m i).temp.length < 3
    · rw [if_pos hlt, if_pos hlt]; exact ⟨h, rfl⟩
    · rw [if_neg hlt, if_neg hlt]
      refine RelE.bind (sannGo_cut _ 3 _ _ _ (m i).cutoff (m' i).cutoff) ?_
      rintro ⟨a1, a2, a3⟩ ⟨b1, b2, b3⟩ ⟨e1, e2⟩
      dsimp only at e1 e2 ⊢
      subst e1 e2
      rw [hl.mkNb, foldl_pushNb, foldl_pushNb]
      have hu := h.update i (a := { ({ m i with temp := σ.sort (m i).temp, cutoff := a3 } : Atom) with
            nbrs := (m i).nbrs ++ b2.map fun x => s.mkNb i x.idx })
        (a' := { ({ m' i with temp := σ.sort (m i).temp, cutoff := b3 } : Atom) with
            nbrs := (m' i).nbrs ++ b2.map fun x => s.mkNb i x.idx }) (by
        obtain ⟨h1, h2, h3, h4⟩ := h i
        refine ⟨h1, h2, ?_, rfl⟩
        simp [h3])
      by_cases hm : b1 = (σ.sort (m i).temp).length
      · rw [if_pos hm, if_pos hm]; exact ⟨hu, rfl⟩
      · rw [if_neg hm, if_neg hm]; exact ih _ _ hu

section

variable {s g : System} (h : Sim s g)
include h

theorem Sim.voro : Sim { s with voronoiused := false } { g with voronoiused := false } :=
  ⟨⟨h.like.len, h.like.pos, h.like.type, h.like.box, h.like.rot, h.like.rotinv, h.like.tri⟩, h.mem, h.filter, h.nop,
      h.realNop⟩

theorem Sim.cells (u : Bool) : Sim { s with usecells := u } { g with usecells := u } :=
  ⟨⟨h.like.len, h.like.pos, h.like.type, h.like.box, h.like.rot, h.like.rotinv, h.like.tri⟩, h.mem, h.filter, h.nop,
      h.realNop⟩

theorem Sim.dist (r : ℝ) : Sim { s with neighbordistance := r } { g with neighbordistance := r } :=
  ⟨⟨h.like.len, h.like.pos, h.like.type, h.like.box, h.like.rot, h.like.rotinv, h.like.tri⟩, h.mem, h.filter, h.nop,
      h.realNop⟩

theorem Sim.neighborsByNumber (σ : StdSort) (p : ℝ) (nns : ℕ) (assign : Bool) (hu : g.usecells = s.usecells) :
    RelE (fun a b : System × Bool => Sim a.1 b.1 ∧ b.2 = a.2) (s.neighborsByNumber σ p nns assign)
      (g.neighborsByNumber σ p nns assign) := by
  unfold System.neighborsByNumber
  refine RelE.bind (h.voro.fillTemp p hu) fun a b hab => ?_
  have := byNumberLoop_sim σ hab.like nns assign (List.range a.atoms.length) _ _ hab.mem
  rw [← hab.like.len] at this
  refine ⟨hab.ofMem ?_ ?_, ?_⟩
  · rw [hab.like.len] at this ⊢; exact this.1
  · rw [hab.like.len] at this; exact this.2.2
  · rw [hab.like.len] at this ⊢; exact this.2.1

theorem Sim.neighborsAdaptive (σ : StdSort) (p : ℝ) (nlimit : ℕ) (padding : ℝ) (hu : g.usecells = s.usecells) :
    RelE (fun a b : System × Bool => Sim a.1 b.1 ∧ b.2 = a.2) (s.neighborsAdaptive σ p nlimit padding)
      (g.neighborsAdaptive σ p nlimit padding) := by
  unfold System.neighborsAdaptive
  refine RelE.bind (h.fillTemp p hu) fun a b hab => ?_
  have := adaptiveLoop_sim σ hab.like hab.filter nlimit padding (List.range a.atoms.length) _ _ hab.mem
  refine ⟨hab.ofMem ?_ ?_, ?_⟩
  · rw [hab.like.len]; exact this.1
  · exact this.2.2
  · dsimp only; rw [hab.like.len]; exact this.2.1

omit h in
theorem fillTemp_usecells {s a : System} {p : ℝ} (h : s.fillTemp p = .ok a) : a.usecells = s.usecells := by
  have h : (if s.usecells then (s.guess p).tempCells else .ok (s.guess p).tempBrute) = .ok a := h
  by_cases hs : s.usecells = true
  · rw [if_pos hs, System.tempCells] at h
    rcases hc : (s.guess p).cellPairs with e | ps
    · rw [hc] at h; cases h
    · rw [hc] at h
      obtain rfl := Except.ok.inj h
      rfl
  · rw [if_neg hs] at h
    obtain rfl := Except.ok.inj h
    rfl

theorem Sim.neighborsSann (σ : StdSort) (p : ℝ) (hu : g.usecells = s.usecells) :
    RelE (fun a b : System × Bool => Sim a.1 b.1 ∧ b.2 = a.2 ∧ b.1.usecells = a.1.usecells) (s.neighborsSann σ p)
      (g.neighborsSann σ p) := by
  unfold System.neighborsSann
  have hf := h.voro.fillTemp p hu
  rcases ha : ({ s with voronoiused := false } : System).fillTemp p with e | a <;>
    rcases hb : ({ g with voronoiused := false } : System).fillTemp p with e' | b <;> rw [ha, hb] at hf
  · exact hf
  · exact hf.elim
  · exact hf.elim
  · have hab : Sim a b := hf
    have hua : b.usecells = a.usecells := by
      rw [fillTemp_usecells ha, fillTemp_usecells hb]; exact hu
    have hls := sannLoop_sim σ hab.like (List.range a.atoms.length) _ _ hab.mem
    simp only [bind, Except.bind]
    rw [hab.like.len]
    rcases hma : System.sannLoop σ a (List.range a.atoms.length) a.mem with e | ⟨ma, ba⟩ <;>
      rcases hmb : System.sannLoop σ b (List.range a.atoms.length) b.mem with e' | ⟨mb, bb⟩ <;> rw [hma, hmb] at hls
    · exact hls
    · exact hls.elim
    · exact hls.elim
    · exact ⟨hab.ofMem hls.1 (sannLoop_frame σ a _ _ _ _ hma), hls.2, hua⟩

theorem Sim.reset : Sim s.resetAllNeighbors g.resetAllNeighbors := by
  refine ⟨⟨?_, ?_, ?_, h.like.box, h.like.rot, h.like.rotinv, h.like.tri⟩, ?_, h.filter, h.nop, h.realNop⟩
  · rw [resetAll_length, resetAll_length]; exact h.like.len
  · intro k; rw [resetAll_posOf, resetAll_posOf]; exact h.like.pos k
  · intro k; rw [resetAll_typeOf, resetAll_typeOf]; exact h.like.type k
  · intro k
    by_cases hk : k < s.atoms.length
    · rw [resetAll_mem s k hk, resetAll_mem g k (h.like.len.symm ▸ hk)]
      exact ⟨(h.mem k).1, (h.mem k).2.1, rfl, rfl⟩
    · have e1 : s.resetAllNeighbors.mem k = default := by simp [System.mem, System.resetAllNeighbors, hk]
      have e2 : g.resetAllNeighbors.mem k = default := by
        simp [System.mem, System.resetAllNeighbors, h.like.len, hk]
      rw [e1, e2]; exact ⟨rfl, rfl, rfl, rfl⟩

theorem Sim.sannRetry (σ : StdSort) (t : ℝ) (is : List ℕ) (hu : g.usecells = s.usecells) :
    RelE Sim (s.sannRetry σ t is) (g.sannRetry σ t is) := by
  induction is generalizing s g with
  | nil => exact rfl
  | cons i is ih =>
    rw [System.sannRetry, System.sannRetry]
    refine RelE.bind (h.reset.neighborsSann σ (t * i) hu) ?_
    rintro ⟨a, ba⟩ ⟨b, bb⟩ ⟨h1, h2, h3⟩
    dsimp only at h2 ⊢
    subst h2
    cases bb
    · exact ih h1 h3
    · exact h1

theorem Sim.getAtoms_len : RelE (fun a b : List Atom => b.length = a.length) s.getAtoms g.getAtoms := by
  unfold System.getAtoms
  rw [h.realNop, h.like.len]
  by_cases hle : s.realNop ≤ s.atoms.length
  · rw [if_pos hle, if_pos hle]
    change (g.atoms.take _).length = (s.atoms.take _).length
    rw [List.length_take, List.length_take, h.like.len]
  · rw [if_neg hle, if_neg hle]; exact rfl

theorem Sim.search (σ : StdSort) (meth : Method) : RelE Sim (s.search σ meth) (g.search σ meth) := by
  have had : ∀ t n p, RelE Sim (s.searchAdaptive σ t n p) (g.searchAdaptive σ t n p) := by
    intro t n p
    unfold System.searchAdaptive
    by_cases ht : t < 1
    · rw [if_pos ht, if_pos ht]; exact rfl
    · rw [if_neg ht, if_neg ht, show decide (g.nop > 4000) = decide (s.nop > 4000) by rw [h.nop]]
      refine RelE.bind ((h.cells _).neighborsAdaptive σ t n p rfl) ?_
      rintro ⟨a, ba⟩ ⟨b, bb⟩ ⟨h1, h2⟩
      dsimp only at h2 ⊢
      subst h2
      cases bb
      · exact rfl
      · exact h1
  cases meth with
  | cutoff r =>
    simp only [System.search]
    by_cases hr : r = 0
    · rw [if_pos hr, if_pos hr]; exact had _ _ _
    · rw [if_neg hr, if_neg hr]
      unfold System.searchCutoff
      refine RelE.bind (h.dist r).getAtoms_len fun a b hab => ?_
      rw [hab]
      split
      · exact (h.dist r).neighborsCells rfl
      · exact (h.dist r).neighborsNormal rfl
  | adaptive t n p => exact had t n p
  | sann t =>
    simp only [System.search]
    unfold System.searchSann
    by_cases ht : t < 1
    · rw [if_pos ht, if_pos ht]; exact rfl
    · rw [if_neg ht, if_neg ht]
      refine RelE.bind h.getAtoms_len fun a b hab => ?_
      dsimp only
      rw [hab]
      refine RelE.bind ((h.cells _).neighborsSann σ t rfl) ?_
      rintro ⟨a, ba⟩ ⟨b, bb⟩ ⟨h1, h2, h3⟩
      dsimp only at h2 ⊢
      subst h2
      cases bb
      · exact h1.sannRetry σ t _ h3
      · exact h1
  | number t nmax assign =>
    simp only [System.search]
    unfold System.searchNumber
    by_cases ht : t < 1
    · rw [if_pos ht, if_pos ht]; exact rfl
    · rw [if_neg ht, if_neg ht]
      refine RelE.bind h.getAtoms_len fun a b hab => ?_
      dsimp only
      rw [hab]
      refine RelE.bind ((h.cells _).neighborsByNumber σ t nmax assign rfl) ?_
      rintro ⟨a, ba⟩ ⟨b, bb⟩ ⟨h1, h2⟩
      dsimp only at h2 ⊢
      subst h2
      cases bb
      · exact rfl
      · exact h1

end

theorem Sim.nbrs_mem {s g : System} (h : Sim s g) {P : List Nb → Prop} :
    (∃ a ∈ g.atoms, P a.nbrs) ↔ ∃ a ∈ s.atoms, P a.nbrs := by
  constructor
  · rintro ⟨a, ha, hp⟩
    obtain ⟨k, hk, rfl⟩ := List.getElem_of_mem ha
    have hk' : k < s.atoms.length := h.like.len ▸ hk
    refine ⟨s.atoms[k], List.getElem_mem hk', ?_⟩
    rw [← mem_eq_getElem _ _ hk', ← (h.mem k).2.2.1, mem_eq_getElem _ _ hk]; exact hp
  · rintro ⟨a, ha, hp⟩
    obtain ⟨k, hk, rfl⟩ := List.getElem_of_mem ha
    have hk' : k < g.atoms.length := h.like.len.symm ▸ hk
    refine ⟨g.atoms[k], List.getElem_mem hk', ?_⟩
    rw [← mem_eq_getElem _ _ hk', (h.mem k).2.2.1, mem_eq_getElem _ _ hk]; exact hp

/-- `find_neighbors` respects geometry. -/
theorem findNeighbors_sim (σ : StdSort) {s g : System} (hl : Like s g) (hn : g.nop = s.nop) (hr : g.realNop = s.realNop)
    (f : ℕ) (meth : Method) : RelE Sim (s.findNeighbors σ f meth) (g.findNeighbors σ f meth) := by
  have h0 : Sim (s.startSearch f) (g.startSearch f) := by
    have l1 := like_start s f
    have l2 := like_start g f
    refine ⟨⟨?_, ?_, ?_, hl.box, hl.rot, hl.rotinv, hl.tri⟩, ?_, rfl, hn, hr⟩
    · rw [l1.len, l2.len, hl.len]
    · intro k; rw [l1.pos, l2.pos, hl.pos]
    · intro k; rw [l1.type, l2.type, hl.type]
    · intro k
      by_cases hk : k < s.atoms.length
      · have e1 := resetAll_mem s k hk
        have e2 := resetAll_mem g k (hl.len.symm ▸ hk)
        change _ ∧ _ ∧ (g.resetAllNeighbors.mem k).nbrs = (s.resetAllNeighbors.mem k).nbrs ∧
          (g.resetAllNeighbors.mem k).temp = (s.resetAllNeighbors.mem k).temp
        refine ⟨(l2.pos k).trans ((hl.pos k).trans (l1.pos k).symm),
          (l2.type k).trans ((hl.type k).trans (l1.type k).symm), ?_, ?_⟩ <;> rw [e1, e2]
      · have e1 : (s.startSearch f).mem k = default := by
          simp [System.mem, System.startSearch, System.resetAllNeighbors, hk]
        have e2 : (g.startSearch f).mem k = default := by
          simp [System.mem, System.startSearch, System.resetAllNeighbors, hl.len, hk]
        rw [e1, e2]; exact ⟨rfl, rfl, rfl, rfl⟩
  unfold System.findNeighbors
  change RelE Sim (do
    let g ← (s.startSearch f).search σ meth
    let s' ← g.checkCapacity
    return { s' with neighborsFound := true }) (do
    let g ← (g.startSearch f).search σ meth
    let s' ← g.checkCapacity
    return { s' with neighborsFound := true })
  refine RelE.bind (h0.search σ meth) fun a b hab => ?_
  have hc : RelE Sim a.checkCapacity b.checkCapacity := by
    unfold System.checkCapacity
    have := hab.nbrs_mem (P := fun l => l.length > 300)
    by_cases hx : ∃ x ∈ a.atoms, x.nbrs.length > 300
    · rw [if_pos hx, if_pos (this.2 hx)]; exact rfl
    · rw [if_neg hx, if_neg (fun h => hx (this.1 h))]; exact hab
  refine RelE.bind hc fun a b hab => ?_
  exact ⟨⟨hab.like.len, hab.like.pos, hab.like.type, hab.like.box, hab.like.rot, hab.like.rotinv, hab.like.tri⟩, hab.mem,
    hab.filter, hab.nop, hab.realNop⟩

end Pyscal
