import Verif.Lemmas.Motion
import Verif.Props.LargeSystems

/-! Neighbour searches read types only to compare them with each other. -/

namespace Pyscal

/-- Atoms that agree on what a search reads and writes, except for the type. -/
structure ASimL (n : ℕ) (p : V3) (τ τ' : ℤ) (a a' : Atom) : Prop where
  pos : a.pos = p
  pos' : a'.pos = p
  type : a.type = τ
  type' : a'.type = τ'
  nbrs : a'.nbrs = a.nbrs
  temp : a'.temp = a.temp
  idx : ∀ x ∈ a.temp, x.idx < n
  cond : a'.condition = a.condition

/-- Memories that agree except for the types; `p`, `τ`, `τ'` are the (fixed) positions and types. -/
def MSimL (n : ℕ) (p : ℕ → V3) (τ τ' : ℕ → ℤ) (m m' : Mem) : Prop := ∀ k < n, ASimL n (p k) (τ k) (τ' k) (m k) (m' k)

/-- Systems that agree except for the types and other labels of the atoms. -/
structure SimL (s g : System) : Prop where
  rest : { g with atoms := s.atoms } = s
  len : g.atoms.length = s.atoms.length
  mem : MSimL s.atoms.length s.posOf s.typeOf g.typeOf s.mem g.mem
  types : ∀ i < s.atoms.length, ∀ j < s.atoms.length, g.typeOf i = g.typeOf j ↔ s.typeOf i = s.typeOf j

section

variable {n : ℕ} {p : ℕ → V3} {τ τ' : ℕ → ℤ}

theorem MSimL.update {m m' : Mem} (h : MSimL n p τ τ' m m') (i : ℕ) {a a' : Atom} (ha : i < n → ASimL n (p i) (τ i) (τ' i) a a') :
    MSimL n p τ τ' (Function.update m i a) (Function.update m' i a') := by
  intro k hk
  by_cases hki : k = i
  · subst hki; simpa using ha hk
  · simp only [Function.update_of_ne hki]; exact h k hk

theorem pairLoop_simL {ρ : Type} (add add' : Atom → ρ → Atom) (hit hit' : ℕ → ℕ → Option (ρ × ρ)) (ok : ρ → Prop)
    (hadd : ∀ p τ τ' a a' x, ok x → ASimL n p τ τ' a a' → ASimL n p τ τ' (add a x) (add' a' x))
    (ps : List (ℕ × ℕ)) (hhit : ∀ q ∈ ps, hit' q.1 q.2 = hit q.1 q.2)
    (hok : ∀ q ∈ ps, ∀ x y, hit q.1 q.2 = some (x, y) → ok x ∧ ok y)
    (m m' : Mem) (h : MSimL n p τ τ' m m') : MSimL n p τ τ' (pairLoop add hit ps m) (pairLoop add' hit' ps m') := by
  induction ps generalizing m m' with
  | nil => exact h
  | cons q ps ih =>
    simp only [pairLoop, List.foldl_cons]
    have ih := ih (fun q hq => hhit q (by simp [hq])) (fun q hq => hok q (by simp [hq]))
    have hq := hhit q (by simp)
    rw [hq]
    rcases hh : hit q.1 q.2 with _ | ⟨x, y⟩
    · exact ih _ _ h
    · obtain ⟨ox, oy⟩ := hok q (by simp) x y hh
      refine ih _ _ ?_
      have h1 := h.update q.1 (fun hk => hadd _ _ _ _ _ x ox (h q.1 hk))
      exact h1.update q.2 (fun hk => hadd _ _ _ _ _ y oy (h1 q.2 hk))

end

section

variable {s g : System}

theorem SimL.ofMem (h : SimL s g) {m m' : Mem} (hm : MSimL s.atoms.length s.posOf s.typeOf g.typeOf m m') : SimL (s.ofMem m) (g.ofMem m') := by
  have e1 : ∀ k < s.atoms.length, (s.ofMem m).posOf k = s.posOf k := fun k hk => by
    rw [System.posOf, ofMem_mem _ _ _ hk]; exact (hm k hk).pos
  have e3 : ∀ k < s.atoms.length, (s.ofMem m).typeOf k = s.typeOf k := fun k hk => by
    rw [System.typeOf, ofMem_mem _ _ _ hk]; exact (hm k hk).type
  have e4 : ∀ k < s.atoms.length, (g.ofMem m').typeOf k = g.typeOf k := fun k hk => by
    rw [System.typeOf, ofMem_mem _ _ _ (h.len.symm ▸ hk)]; exact (hm k hk).type'
  have hl : (s.ofMem m).atoms.length = s.atoms.length := ofMem_length s m
  refine ⟨?_, ?_, ?_, ?_⟩
  · exact congrArg (fun x : System => { x with atoms := (s.ofMem m).atoms }) h.rest
  · rw [ofMem_length, ofMem_length]; exact h.len
  · intro k hk
    rw [hl] at hk ⊢
    rw [e1 k hk, e3 k hk, e4 k hk, ofMem_mem _ _ _ hk, ofMem_mem _ _ _ (h.len.symm ▸ hk)]
    exact hm k hk
  · intro i hi j hj
    rw [hl] at hi hj
    rw [e3 i hi, e3 j hj, e4 i hi, e4 j hj]
    exact h.types i hi j hj

variable (h : SimL s g)
include h

theorem SimL.pos {i : ℕ} (hi : i < s.atoms.length) : g.posOf i = s.posOf i := (h.mem i hi).pos'

theorem SimL.diff {i j : ℕ} (hi : i < s.atoms.length) (hj : j < s.atoms.length) : g.diffOf i j = s.diffOf i j := by
  unfold System.diffOf
  rw [h.pos hi, h.pos hj]
  have e := congrArg (fun x : System => x.diffIdx (s.posOf i) (s.posOf j)) h.rest
  exact e

theorem SimL.dist {i j : ℕ} (hi : i < s.atoms.length) (hj : j < s.atoms.length) : g.distOf i j = s.distOf i j := by
  have e : g.distOf i j = V3.norm (g.diffOf i j) := rfl
  rw [e, h.diff hi hj]; rfl

theorem SimL.mkNb {i j : ℕ} (hi : i < s.atoms.length) (hj : j < s.atoms.length) : g.mkNb i j = s.mkNb i j := by
  unfold System.mkNb
  rw [h.diff hi hj, h.dist hi hj]

theorem SimL.filter : g.filter = s.filter := by
  have e := congrArg System.filter h.rest
  exact e
theorem SimL.nd : g.neighbordistance = s.neighbordistance := by
  have e := congrArg System.neighbordistance h.rest
  exact e
theorem SimL.usecells : g.usecells = s.usecells := by
  have e := congrArg System.usecells h.rest
  exact e
theorem SimL.nop : g.nop = s.nop := by
  have e := congrArg System.nop h.rest
  exact e
theorem SimL.realNop : g.realNop = s.realNop := by
  have e := congrArg System.realNop h.rest
  exact e
theorem SimL.vor : g.voronoiused = s.voronoiused := by
  have e := congrArg System.voronoiused h.rest
  exact e
theorem SimL.box : g.box = s.box := by
  have e := congrArg System.box h.rest
  exact e
theorem SimL.vol : g.boxVol = s.boxVol := by
  have e := congrArg System.boxVol h.rest
  exact e

theorem SimL.filterOK {i j : ℕ} (hi : i < s.atoms.length) (hj : j < s.atoms.length) :
    filterOK g.filter (g.typeOf i) (g.typeOf j) = Pyscal.filterOK s.filter (s.typeOf i) (s.typeOf j) := by
  have ht := h.types i hi j hj
  unfold Pyscal.filterOK
  rw [h.filter]
  by_cases e : s.typeOf i = s.typeOf j
  · have e' := ht.2 e
    simp [e, e']
  · have b1 : (s.typeOf i == s.typeOf j) = false := beq_eq_false_iff_ne.2 e
    have b2 : (g.typeOf i == g.typeOf j) = false := beq_eq_false_iff_ne.2 fun x => e (ht.1 x)
    simp only [bne, b1, b2]

theorem SimL.cutoffHit {i j : ℕ} (hi : i < s.atoms.length) (hj : j < s.atoms.length) : cutoffHit g i j = Pyscal.cutoffHit s i j := by
  simp only [Pyscal.cutoffHit, h.dist hi hj, h.diff hi hj, h.nd, h.filterOK hi hj]

theorem SimL.tempHitLe {i j : ℕ} (hi : i < s.atoms.length) (hj : j < s.atoms.length) : tempHitLe g i j = Pyscal.tempHitLe s i j := by
  simp only [Pyscal.tempHitLe, h.dist hi hj, h.nd]

theorem SimL.tempHitLt {i j : ℕ} (hi : i < s.atoms.length) (hj : j < s.atoms.length) : tempHitLt g i j = Pyscal.tempHitLt s i j := by
  simp only [Pyscal.tempHitLt, h.dist hi hj, h.nd]

theorem SimL.cellPairs : g.cellPairs = s.cellPairs := by
  have hx : g.nx = s.nx ∧ g.ny = s.ny ∧ g.nz = s.nz := by
    simp only [System.nx, System.ny, System.nz, System.boxx, System.boxy, System.boxz, h.box, h.nd, and_self]
  have hc : ∀ i < s.atoms.length, g.atomCell i = s.atomCell i := by
    intro i hi
    simp only [System.atomCell, hx, h.pos hi, System.boxx, System.boxy, System.boxz, h.box]
  have hm : ∀ c, g.members c = s.members c := by
    intro c
    unfold System.members
    rw [h.len]
    refine List.filter_congr fun i hi => ?_
    rw [hc i (List.mem_range.1 hi)]
  have hex : (∃ i < s.atoms.length, g.atomCell i < 0 ∨ s.nx * s.ny * s.nz ≤ g.atomCell i) ↔ ∃ i < s.atoms.length, s.atomCell i < 0 ∨ s.nx * s.ny * s.nz ≤ s.atomCell i := by
    constructor
    · rintro ⟨i, hi, hh⟩; exact ⟨i, hi, by rwa [hc i hi] at hh⟩
    · rintro ⟨i, hi, hh⟩; exact ⟨i, hi, by rwa [hc i hi]⟩
  simp only [System.cellPairs, hx, hm, h.len, hex]

theorem SimL.voro : SimL { s with voronoiused := false } { g with voronoiused := false } :=
  ⟨congrArg (fun x : System => { x with voronoiused := false }) h.rest, h.len, h.mem, h.types⟩

theorem SimL.cells (u : Bool) : SimL { s with usecells := u } { g with usecells := u } :=
  ⟨congrArg (fun x : System => { x with usecells := u }) h.rest, h.len, h.mem, h.types⟩

theorem SimL.setDist (r : ℝ) : SimL { s with neighbordistance := r } { g with neighbordistance := r } :=
  ⟨congrArg (fun x : System => { x with neighbordistance := r }) h.rest, h.len, h.mem, h.types⟩

theorem SimL.found : SimL { s with neighborsFound := true } { g with neighborsFound := true } :=
  ⟨congrArg (fun x : System => { x with neighborsFound := true }) h.rest, h.len, h.mem, h.types⟩

/-- The loops of the numeric cutoff. -/
theorem SimL.cutoffLoop (ps : List (ℕ × ℕ)) (hps : ∀ q ∈ ps, q.1 < s.atoms.length ∧ q.2 < s.atoms.length) :
    MSimL s.atoms.length s.posOf s.typeOf g.typeOf (pairLoop (Atom.pushNbCut s.neighbordistance) (Pyscal.cutoffHit s) ps s.mem)
      (pairLoop (Atom.pushNbCut g.neighbordistance) (Pyscal.cutoffHit g) ps g.mem) := by
  refine pairLoop_simL _ _ _ _ (fun _ => True) ?_ _ ?_ (fun _ _ _ _ _ => ⟨trivial, trivial⟩) _ _ h.mem
  · rintro p τ τ' a a' x - ⟨h1, h2, h3, h4, h5, h6, h7, h8⟩
    exact ⟨h1, h2, h3, h4, by simp [Atom.pushNbCut, h5], h6, h7, h8⟩
  · intro q hq
    exact h.cutoffHit (hps q hq).1 (hps q hq).2

/-- The loops that collect candidates. -/
theorem SimL.tempLoop (hit hit' : ℕ → ℕ → Option (DAtom × DAtom)) (ps : List (ℕ × ℕ)) (hps : ∀ q ∈ ps, q.1 < s.atoms.length ∧ q.2 < s.atoms.length)
    (he : ∀ q ∈ ps, hit' q.1 q.2 = hit q.1 q.2) (hi : ∀ i j x y, hit i j = some (x, y) → x.idx = j ∧ y.idx = i) :
    MSimL s.atoms.length s.posOf s.typeOf g.typeOf (pairLoop Atom.pushTemp hit ps s.mem) (pairLoop Atom.pushTemp hit' ps g.mem) := by
  refine pairLoop_simL _ _ _ _ (fun x => x.idx < s.atoms.length) ?_ _ he ?_ _ _ h.mem
  · rintro p τ τ' a a' x hx ⟨h1, h2, h3, h4, h5, h6, h7, h8⟩
    refine ⟨h1, h2, h3, h4, h5, by simp [Atom.pushTemp, h6], ?_, h8⟩
    intro y hy
    rcases List.mem_append.1 hy with hy | hy
    · exact h7 y hy
    · rw [List.mem_singleton.1 hy]; exact hx
  · intro q hq x y hxy
    obtain ⟨e1, e2⟩ := hi _ _ _ _ hxy
    rw [e1, e2]
    exact ⟨(hps q hq).2, (hps q hq).1⟩

theorem SimL.neighborsNormal : SimL s.neighborsNormal g.neighborsNormal := by
  unfold System.neighborsNormal
  refine h.voro.ofMem ?_
  rw [show ({ g with voronoiused := false } : System).atoms.length = s.atoms.length from h.len]
  exact h.voro.cutoffLoop _ fun q hq => lt_of_mem_pairs hq

theorem SimL.neighborsCells : RelE SimL s.neighborsCells g.neighborsCells := by
  unfold System.neighborsCells
  dsimp only
  rw [h.voro.cellPairs]
  rcases hc : ({ s with voronoiused := false } : System).cellPairs with e | ps
  · exact rfl
  · refine h.voro.ofMem (h.voro.cutoffLoop _ fun q hq => ?_)
    have := cellPairs_bound hc q hq
    exact ⟨this.1.trans this.2, this.2⟩

theorem SimL.tempBrute : SimL s.tempBrute g.tempBrute := by
  unfold System.tempBrute
  refine h.ofMem ?_
  rw [h.len]
  refine h.tempLoop _ _ _ (fun q hq => lt_of_mem_pairs hq) (fun q hq => h.tempHitLe (lt_of_mem_pairs hq).1 (lt_of_mem_pairs hq).2) fun i j x y hxy => ?_
  unfold Pyscal.tempHitLe at hxy
  split_ifs at hxy
  simp only [Option.some.injEq, Prod.mk.injEq] at hxy
  rw [← hxy.1, ← hxy.2]
  exact ⟨rfl, rfl⟩

theorem SimL.tempCells : RelE SimL s.tempCells g.tempCells := by
  unfold System.tempCells
  rw [h.cellPairs]
  rcases hc : s.cellPairs with e | ps
  · exact rfl
  · have hb : ∀ q ∈ ps, q.1 < s.atoms.length ∧ q.2 < s.atoms.length := fun q hq =>
      ⟨(cellPairs_bound hc q hq).1.trans (cellPairs_bound hc q hq).2, (cellPairs_bound hc q hq).2⟩
    refine h.ofMem (h.tempLoop _ _ _ hb (fun q hq => h.tempHitLt (hb q hq).1 (hb q hq).2) fun i j x y hxy => ?_)
    unfold Pyscal.tempHitLt at hxy
    split_ifs at hxy
    simp only [Option.some.injEq, Prod.mk.injEq] at hxy
    rw [← hxy.1, ← hxy.2]
    exact ⟨rfl, rfl⟩

theorem SimL.fillTemp (p : ℝ) : RelE SimL (s.fillTemp p) (g.fillTemp p) := by
  have hg : g.guessDist p = s.guessDist p := by
    unfold System.guessDist
    rw [h.vol, h.len]
  have h0 : SimL (s.guess p) (g.guess p) := by
    unfold System.guess
    rw [hg]
    exact h.setDist _
  change RelE SimL (if s.usecells then (s.guess p).tempCells else .ok (s.guess p).tempBrute) (if g.usecells then (g.guess p).tempCells else .ok (g.guess p).tempBrute)
  rw [h.usecells]
  split_ifs
  · exact h0.tempCells
  · exact h0.tempBrute

theorem SimL.map_mkNb {i : ℕ} (hi : i < s.atoms.length) (t : List DAtom) (ht : ∀ x ∈ t, x.idx < s.atoms.length) :
    (t.map fun x => g.mkNb i x.idx) = t.map fun x => s.mkNb i x.idx :=
  List.map_congr_left fun x hx => h.mkNb hi (ht x hx)

variable (σ : StdSort)

theorem byNumberLoop_simL (nns : ℕ) (assign : Bool) (is : List ℕ) (his : ∀ i ∈ is, i < s.atoms.length)
    (m m' : Mem) (hm : MSimL s.atoms.length s.posOf s.typeOf g.typeOf m m') :
    MSimL s.atoms.length s.posOf s.typeOf g.typeOf (System.byNumberLoop σ s nns assign is m).1 (System.byNumberLoop σ g nns assign is m').1 ∧
    (System.byNumberLoop σ g nns assign is m').2 = (System.byNumberLoop σ s nns assign is m).2 := by
  induction is generalizing m m' with
  | nil => exact ⟨hm, rfl⟩
  | cons i is ih =>
    have hi := his i (by simp)
    obtain ⟨h1, h2, h3, h4, h5, h6, h7, h8⟩ := hm i hi
    rw [System.byNumberLoop, System.byNumberLoop, h6]
    by_cases hlt : (m i).temp.length < nns
    · rw [if_pos hlt, if_pos hlt]; exact ⟨hm, rfl⟩
    · rw [if_neg hlt, if_neg hlt]
      dsimp only
      rw [foldl_pushNb, foldl_pushNb, h.map_mkNb hi _ (fun x hx => sort_idx _ σ _ h7 x (List.mem_of_mem_take hx))]
      refine ih (fun j hj => his j (by simp [hj])) _ _ (hm.update i fun _ => ?_)
      cases assign
      · exact ⟨h1, h2, h3, h4, h5, rfl, sort_idx _ σ _ h7, h8⟩
      · exact ⟨h1, h2, h3, h4, by simp [h5], rfl, sort_idx _ σ _ h7, h8⟩

omit σ in
theorem SimL.adaptiveSel {i : ℕ} (hi : i < s.atoms.length) (d : ℝ) (t : List DAtom) (ht : ∀ x ∈ t, x.idx < s.atoms.length) :
    adaptiveSel g i d t = Pyscal.adaptiveSel s i d t := by
  unfold Pyscal.adaptiveSel
  refine List.filter_congr fun x hx => ?_
  rw [h.filterOK hi (ht x hx)]

theorem adaptiveLoop_simL (nlimit : ℕ) (padding : ℝ) (is : List ℕ) (his : ∀ i ∈ is, i < s.atoms.length)
    (m m' : Mem) (hm : MSimL s.atoms.length s.posOf s.typeOf g.typeOf m m') :
    MSimL s.atoms.length s.posOf s.typeOf g.typeOf (System.adaptiveLoop σ s nlimit padding is m).1 (System.adaptiveLoop σ g nlimit padding is m').1 ∧
    (System.adaptiveLoop σ g nlimit padding is m').2 = (System.adaptiveLoop σ s nlimit padding is m).2 := by
  induction is generalizing m m' with
  | nil => exact ⟨hm, rfl⟩
  | cons i is ih =>
    have hi := his i (by simp)
    obtain ⟨h1, h2, h3, h4, h5, h6, h7, h8⟩ := hm i hi
    rw [System.adaptiveLoop, System.adaptiveLoop, h6]
    by_cases hlt : (m i).temp.length < nlimit
    · rw [if_pos hlt, if_pos hlt]; exact ⟨hm, rfl⟩
    · rw [if_neg hlt, if_neg hlt]
      dsimp only
      have hs := sort_idx _ σ _ h7
      rw [foldl_adaptive, foldl_adaptive, h.adaptiveSel hi _ _ hs,
        h.map_mkNb hi (Pyscal.adaptiveSel s i _ _) (fun x hx => hs x (List.mem_of_mem_filter hx))]
      refine ih (fun j hj => his j (by simp [hj])) _ _ (hm.update i fun _ => ?_)
      exact ⟨h1, h2, h3, h4, by simp [h5], rfl, hs, h8⟩

theorem sannLoop_simL (is : List ℕ) (his : ∀ i ∈ is, i < s.atoms.length)
    (m m' : Mem) (hm : MSimL s.atoms.length s.posOf s.typeOf g.typeOf m m') :
    RelE (fun a b : Mem × Bool => MSimL s.atoms.length s.posOf s.typeOf g.typeOf a.1 b.1 ∧ b.2 = a.2)
      (System.sannLoop σ s is m) (System.sannLoop σ g is m') := by
  induction is generalizing m m' with
  | nil => exact ⟨hm, rfl⟩
  | cons i is ih =>
    have hi := his i (by simp)
    obtain ⟨h1, h2, h3, h4, h5, h6, h7, h8⟩ := hm i hi
    rw [System.sannLoop, System.sannLoop, h6]
    by_cases hlt : (m i).temp.length < 3
    · rw [if_pos hlt, if_pos hlt]; exact ⟨hm, rfl⟩
    · rw [if_neg hlt, if_neg hlt]
      have hs := sort_idx _ σ _ h7
      have hgo := sannGo_move one_pos (σ.sort (m i).temp) 3 (((σ.sort (m i).temp).take 3).map DAtom.dist).sum
        ((((σ.sort (m i).temp).take 3).map DAtom.dist).sum / 1) ((σ.sort (m i).temp).take 3) (m i).cutoff (m' i).cutoff
      have e1 : ∀ t : List DAtom, t.map (moveTemp 1) = t := fun t => by
        have : moveTemp 1 = id := by funext x; simp [moveTemp]
        rw [this, List.map_id]
      rw [e1, e1, one_mul, one_mul] at hgo
      refine RelE.bind hgo ?_
      rintro ⟨a1, a2, a3⟩ ⟨b1, b2, b3⟩ ⟨f1, f2, f3⟩
      dsimp only at f1 f2 f3 ⊢
      rw [e1] at f2
      subst f1 f2
      have hsel : ∀ x ∈ b2, x.idx < s.atoms.length := fun x hx => hs x (f3 (fun y hy => List.mem_of_mem_take hy) x hx)
      rw [foldl_pushNb, foldl_pushNb, h.map_mkNb hi _ hsel]
      have hu := hm.update i (a := { ({ m i with temp := σ.sort (m i).temp, cutoff := a3 } : Atom) with
            nbrs := (m i).nbrs ++ b2.map fun x => s.mkNb i x.idx })
        (a' := { ({ m' i with temp := σ.sort (m i).temp, cutoff := b3 } : Atom) with
            nbrs := (m' i).nbrs ++ b2.map fun x => s.mkNb i x.idx }) (fun _ =>
        ⟨h1, h2, h3, h4, by simp [h5], rfl, hs, h8⟩)
      by_cases hb : b1 = (σ.sort (m i).temp).length
      · rw [if_pos hb, if_pos hb]; exact ⟨hu, rfl⟩
      · rw [if_neg hb, if_neg hb]; exact ih (fun j hj => his j (by simp [hj])) _ _ hu

theorem SimL.neighborsByNumber (p : ℝ) (nns : ℕ) (assign : Bool) :
    RelE (fun a b : System × Bool => SimL a.1 b.1 ∧ b.2 = a.2) (s.neighborsByNumber σ p nns assign) (g.neighborsByNumber σ p nns assign) := by
  unfold System.neighborsByNumber
  refine RelE.bind (h.voro.fillTemp p) fun a b hab => ?_
  have := byNumberLoop_simL hab σ nns assign (List.range a.atoms.length) (fun i hi => List.mem_range.1 hi) _ _ hab.mem
  dsimp only
  rw [hab.len]
  exact ⟨hab.ofMem this.1, this.2⟩

theorem SimL.neighborsAdaptive (p : ℝ) (nlimit : ℕ) (padding : ℝ) :
    RelE (fun a b : System × Bool => SimL a.1 b.1 ∧ b.2 = a.2) (s.neighborsAdaptive σ p nlimit padding) (g.neighborsAdaptive σ p nlimit padding) := by
  unfold System.neighborsAdaptive
  refine RelE.bind (h.fillTemp p) fun a b hab => ?_
  have := adaptiveLoop_simL hab σ nlimit padding (List.range a.atoms.length) (fun i hi => List.mem_range.1 hi) _ _ hab.mem
  dsimp only
  rw [hab.len]
  exact ⟨hab.ofMem this.1, this.2⟩

theorem SimL.neighborsSann (p : ℝ) :
    RelE (fun a b : System × Bool => SimL a.1 b.1 ∧ b.2 = a.2) (s.neighborsSann σ p) (g.neighborsSann σ p) := by
  unfold System.neighborsSann
  refine RelE.bind (h.voro.fillTemp p) fun a b hab => ?_
  have := sannLoop_simL hab σ (List.range a.atoms.length) (fun i hi => List.mem_range.1 hi) _ _ hab.mem
  rw [hab.len]
  exact RelE.bind this fun x y hxy => ⟨hab.ofMem hxy.1, hxy.2⟩

omit σ in
theorem SimL.reset : SimL s.resetAllNeighbors g.resetAllNeighbors := by
  refine ⟨?_, ?_, ?_, ?_⟩
  · exact congrArg (fun x : System => { x with atoms := s.resetAllNeighbors.atoms }) h.rest
  · rw [resetAll_length, resetAll_length]; exact h.len
  · intro k hk
    rw [resetAll_length] at hk ⊢
    rw [resetAll_posOf, resetAll_typeOf, resetAll_typeOf, resetAll_mem s k hk, resetAll_mem g k (h.len.symm ▸ hk)]
    obtain ⟨h1, h2, h3, h4, h5, h6, h7, h8⟩ := h.mem k hk
    exact ⟨h1, h2, h3, h4, rfl, rfl, by simp, rfl⟩
  · intro i hi j hj
    rw [resetAll_length] at hi hj
    simp only [resetAll_typeOf]
    exact h.types i hi j hj

theorem SimL.sannRetry (t : ℝ) (is : List ℕ) : RelE SimL (s.sannRetry σ t is) (g.sannRetry σ t is) := by
  induction is generalizing s g with
  | nil => exact rfl
  | cons i is ih =>
    rw [System.sannRetry, System.sannRetry]
    refine RelE.bind (h.reset.neighborsSann σ (t * i)) ?_
    rintro ⟨a, ba⟩ ⟨b, bb⟩ ⟨h1, h2⟩
    dsimp only at h2 ⊢
    subst h2
    cases bb
    · exact ih h1
    · exact h1

omit σ in
theorem SimL.getAtoms_len : RelE (fun a b : List Atom => b.length = a.length) s.getAtoms g.getAtoms := by
  unfold System.getAtoms
  rw [h.realNop, h.len]
  by_cases hle : s.realNop ≤ s.atoms.length
  · rw [if_pos hle, if_pos hle]
    change (g.atoms.take _).length = (s.atoms.take _).length
    rw [List.length_take, List.length_take, h.len]
  · rw [if_neg hle, if_neg hle]; exact rfl

theorem SimL.search (meth : Method) : RelE SimL (s.search σ meth) (g.search σ meth) := by
  have had : ∀ t n p, RelE SimL (s.searchAdaptive σ t n p) (g.searchAdaptive σ t n p) := by
    intro t n p
    unfold System.searchAdaptive
    by_cases ht : t < 1
    · rw [if_pos ht, if_pos ht]; exact rfl
    · have e : decide (g.nop > 4000) = decide (s.nop > 4000) := by rw [h.nop]
      rw [if_neg ht, if_neg ht, e]
      refine RelE.bind ((h.cells _).neighborsAdaptive σ t n p) ?_
      rintro ⟨a, ba⟩ ⟨b, bb⟩ ⟨h1, h2⟩
      dsimp only at h2 ⊢
      subst h2
      cases bb
      · exact rfl
      · exact h1
  cases meth with
  | cutoff r =>
    simp only [System.search]
    by_cases hr0 : r = 0
    · rw [if_pos hr0, if_pos hr0]
      exact had _ _ _
    · rw [if_neg hr0, if_neg hr0]
      unfold System.searchCutoff
      refine RelE.bind (h.setDist r).getAtoms_len fun a b hab => ?_
      rw [hab]
      split_ifs
      · exact (h.setDist r).neighborsCells
      · exact (h.setDist r).neighborsNormal
  | adaptive t n p => exact had t n p
  | sann t =>
    simp only [System.search]
    unfold System.searchSann
    by_cases ht : t < 1
    · rw [if_pos ht, if_pos ht]; exact rfl
    · rw [if_neg ht, if_neg ht]
      refine RelE.bind h.getAtoms_len fun a b hab => ?_
      dsimp only
      rw [hab]
      refine RelE.bind ((h.cells _).neighborsSann σ t) ?_
      rintro ⟨a, ba⟩ ⟨b, bb⟩ ⟨h1, h2⟩
      dsimp only at h2 ⊢
      subst h2
      cases bb
      · exact h1.sannRetry σ t _
      · exact h1
  | number t nmax assign =>
    simp only [System.search]
    unfold System.searchNumber
    by_cases ht : t < 1
    · rw [if_pos ht, if_pos ht]; exact rfl
    · rw [if_neg ht, if_neg ht]
      refine RelE.bind h.getAtoms_len fun a b hab => ?_
      dsimp only
      rw [hab]
      refine RelE.bind ((h.cells _).neighborsByNumber σ t nmax assign) ?_
      rintro ⟨a, ba⟩ ⟨b, bb⟩ ⟨h1, h2⟩
      dsimp only at h2 ⊢
      subst h2
      cases bb
      · exact rfl
      · exact h1

omit σ in
theorem SimL.nbrs_mem : (∃ a ∈ g.atoms, a.nbrs.length > 300) ↔ ∃ a ∈ s.atoms, a.nbrs.length > 300 := by
  constructor
  · rintro ⟨a, ha, hp⟩
    obtain ⟨k, hk, rfl⟩ := List.getElem_of_mem ha
    have hk' : k < s.atoms.length := h.len ▸ hk
    refine ⟨s.atoms[k], List.getElem_mem hk', ?_⟩
    have := (h.mem k hk').nbrs
    rw [mem_eq_getElem _ _ hk', mem_eq_getElem _ _ hk] at this
    rwa [this] at hp
  · rintro ⟨a, ha, hp⟩
    obtain ⟨k, hk, rfl⟩ := List.getElem_of_mem ha
    have hk' : k < g.atoms.length := h.len.symm ▸ hk
    refine ⟨g.atoms[k], List.getElem_mem hk', ?_⟩
    have := (h.mem k hk).nbrs
    rw [mem_eq_getElem _ _ hk', mem_eq_getElem _ _ hk] at this
    rwa [this]

end

/-- `find_neighbors` on two systems that agree except for labels and results of earlier analyses. -/
theorem findNeighbors_simL {s g : System} (hrest : { g with atoms := s.atoms } = s) (hlen : g.atoms.length = s.atoms.length)
    (hpos : ∀ k < s.atoms.length, g.posOf k = s.posOf k)
    (htype : ∀ i < s.atoms.length, ∀ j < s.atoms.length, g.typeOf i = g.typeOf j ↔ s.typeOf i = s.typeOf j)
    (σ : StdSort) (f : ℕ) (meth : Method) : RelE SimL (s.findNeighbors σ f meth) (g.findNeighbors σ f meth) := by
  have h0 : SimL (s.startSearch f) (g.startSearch f) := by
    have l1 := like_start s f
    have l2 := like_start g f
    refine ⟨?_, by rw [l1.len, l2.len, hlen], ?_, ?_⟩
    · exact congrArg (fun x : System => { x with atoms := (s.startSearch f).atoms, filter := f }) hrest
    · intro k hk
      rw [l1.len] at hk ⊢
      have e1 : (s.startSearch f).mem k = { s.mem k with nbrs := [], temp := [], condition := some 0 } := resetAll_mem s k hk
      have e2 : (g.startSearch f).mem k = { g.mem k with nbrs := [], temp := [], condition := some 0 } :=
        resetAll_mem g k (hlen.symm ▸ hk)
      rw [l1.pos, l1.type, l2.type, e1, e2]
      exact ⟨rfl, hpos k hk, rfl, rfl, rfl, rfl, by simp, rfl⟩
    · intro i hi j hj
      rw [l1.len] at hi hj
      simp only [l1.type, l2.type]
      exact htype i hi j hj
  unfold System.findNeighbors
  change RelE SimL (do
    let g ← (s.startSearch f).search σ meth
    let s' ← g.checkCapacity
    return { s' with neighborsFound := true }) (do
    let g ← (g.startSearch f).search σ meth
    let s' ← g.checkCapacity
    return { s' with neighborsFound := true })
  refine RelE.bind (h0.search σ meth) fun a b hab => ?_
  have hcap : RelE SimL a.checkCapacity b.checkCapacity := by
    unfold System.checkCapacity
    have := hab.nbrs_mem
    by_cases hx : ∃ x ∈ a.atoms, x.nbrs.length > 300
    · rw [if_pos hx, if_pos (this.2 hx)]; exact rfl
    · rw [if_neg hx, if_neg (fun h => hx (this.1 h))]; exact hab
  exact RelE.bind hcap fun a b hab => hab.found

end Pyscal
