import Verif.Lemmas.Relabel
import Verif.Props.Symmetry

/-! Property C109: types and ids are labels. -/

namespace Pyscal

/-- The same atoms under other labels: positions and real or ghost are kept, the type `t` becomes `θ t`; everything else (id, location, custom values, results of earlier analyses) is arbitrary. -/
def Spec.Relabelled (θ : ℤ → ℤ) : List Atom → List Atom → Prop := List.Forall₂ fun a b => b.pos = a.pos ∧ b.type = θ a.type ∧ b.ghost = a.ghost

/-- Different types of the atoms stay different. -/
def Spec.KeepsApart (θ : ℤ → ℤ) (l : List Atom) : Prop := ∀ a ∈ l, ∀ b ∈ l, θ a.type = θ b.type → a.type = b.type

/-- `sys.atoms = l`, `sys.find_neighbors(...)`, `sys.calculate_q(ls, averaged=av)`, `sys.atoms` on an existing system. -/
noncomputable def analyseOn (σ : StdSort) (s : System) (l : List Atom) (f : ℕ) (meth : Method) (ls : List ℤ) (av : Bool) : Except Fault (List Atom) := do
  let s ← s.assignAtoms l
  let s ← s.findNeighbors σ f meth
  let s ← s.calculateQ ls av
  s.getAtoms

theorem relabelled_rep {θ : ℤ → ℤ} {l l' : List Atom} (h : Spec.Relabelled θ l l') (b : Mat3) (gh : Bool) (rx ry rz : ℕ) :
    Spec.Relabelled θ (repNew b gh rx ry rz l) (repNew b gh rx ry rz l') := by
  have hf : Spec.Relabelled θ ((repCells rx ry rz).flatMap fun c => l.map (repAtom b gh c)) ((repCells rx ry rz).flatMap fun c => l'.map (repAtom b gh c)) := by
    unfold Spec.Relabelled
    generalize repCells rx ry rz = cs
    induction cs with
    | nil => exact .nil
    | cons c cs ih =>
      rw [List.flatMap_cons, List.flatMap_cons]
      refine List.rel_append ?_ ih
      rw [List.forall₂_map_left_iff, List.forall₂_map_right_iff]
      refine h.imp fun a a' haa => ⟨?_, haa.2.1, rfl⟩
      simp only [repAtom, haa.1]
  unfold Spec.Relabelled repNew at *
  rw [List.forall₂_iff_get] at hf ⊢
  obtain ⟨h1, h2⟩ := hf
  refine ⟨by rw [List.length_mapIdx, List.length_mapIdx, h1], fun i hi hi' => ?_⟩
  rw [List.length_mapIdx] at hi hi'
  have := h2 i hi hi'
  simp only [List.get_eq_getElem, List.getElem_mapIdx] at this ⊢
  exact this

theorem keepsApart_rep {θ : ℤ → ℤ} {l : List Atom} (h : Spec.KeepsApart θ l) (b : Mat3) (gh : Bool) (rx ry rz : ℕ) :
    Spec.KeepsApart θ (l ++ repNew b gh rx ry rz l) := by
  have key : ∀ x ∈ l ++ repNew b gh rx ry rz l, ∃ a ∈ l, x.type = a.type := by
    intro x hx
    rcases List.mem_append.1 hx with hx | hx
    · exact ⟨x, hx, rfl⟩
    · unfold repNew at hx
      obtain ⟨i, hi, rfl⟩ := List.getElem_of_mem hx
      rw [List.length_mapIdx] at hi
      have hm := List.getElem_mem hi
      obtain ⟨c, -, hm⟩ := List.mem_flatMap.1 hm
      obtain ⟨a, ha, e⟩ := List.mem_map.1 hm
      refine ⟨a, ha, ?_⟩
      rw [List.getElem_mapIdx]
      have e' := congrArg Atom.type e
      exact e'.symm
  intro x hx y hy hxy
  obtain ⟨a, ha, e1⟩ := key x hx
  obtain ⟨b, hb, e2⟩ := key y hy
  rw [e1, e2] at hxy ⊢
  exact h a ha b hb hxy

theorem relabelled_count {θ : ℤ → ℤ} {l l' : List Atom} (h : Spec.Relabelled θ l l') : countReal l' = countReal l ∧ countGhost l' = countGhost l ∧ l'.length = l.length := by
  unfold Spec.Relabelled at h
  induction h with
  | nil => exact ⟨rfl, rfl, rfl⟩
  | cons hab _ ih =>
    obtain ⟨i1, i2, i3⟩ := ih
    unfold countReal countGhost at *
    simp only [List.filter_cons, hab.2.2]
    refine ⟨?_, ?_, by simp [i3]⟩
    · split_ifs <;> simp [i1]
    · split_ifs <;> simp [i2]

/-- What the assignment of relabelled atoms gives. -/
structure LabelSys (θ : ℤ → ℤ) (s g : System) : Prop where
  rest : { g with atoms := s.atoms } = s
  atoms : Spec.Relabelled θ s.atoms g.atoms
  apart : Spec.KeepsApart θ s.atoms

theorem labels_set {θ : ℤ → ℤ} {l l' : List Atom} (h : Spec.Relabelled θ l l') (ha : Spec.KeepsApart θ l) (s : System) : LabelSys θ (s.setAtoms l) (s.setAtoms l') := by
  obtain ⟨h1, h2, h3⟩ := relabelled_count h
  refine ⟨?_, h, ha⟩
  unfold System.setAtoms
  rw [h1, h2, h3]

theorem labels_assign {θ : ℤ → ℤ} {l l' : List Atom} (h : Spec.Relabelled θ l l') (ha : Spec.KeepsApart θ l) (s : System) :
    RelE (LabelSys θ) (s.assignAtoms l) (s.assignAtoms l') := by
  unfold System.assignAtoms
  rw [(relabelled_count h).2.2]
  split_ifs
  · exact rfl
  · exact rfl
  · unfold System.repeatAtoms
    generalize padReps l.length = n
    simp only [if_true]
    cases hb : ({ s with actualBox := some s.getBox } : System).setBox (scaleBox s.getBox n n n) with
    | error e => exact rfl
    | ok s2 => exact labels_set (List.rel_append h (relabelled_rep h _ _ _ _ _)) (keepsApart_rep ha _ _ _ _ _) _
  · exact labels_set h ha s

theorem LabelSys.search {θ : ℤ → ℤ} {s g : System} (h : LabelSys θ s g) (σ : StdSort) (f : ℕ) (meth : Method) :
    RelE SimL (s.findNeighbors σ f meth) (g.findNeighbors σ f meth) := by
  have hl : g.atoms.length = s.atoms.length := h.atoms.length_eq.symm
  have hk : ∀ k < s.atoms.length, g.posOf k = s.posOf k ∧ g.typeOf k = θ (s.typeOf k) ∧ s.mem k ∈ s.atoms := by
    intro k hk
    have hk' : k < g.atoms.length := hl ▸ hk
    have := ((List.forall₂_iff_get.1 h.atoms).2 k hk hk')
    simp only [List.get_eq_getElem] at this
    unfold System.posOf System.typeOf
    rw [mem_eq_getElem _ _ hk, mem_eq_getElem _ _ hk']
    exact ⟨this.1, this.2.1, List.getElem_mem hk⟩
  refine findNeighbors_simL h.rest hl (fun k hk' => (hk k hk').1) (fun i hi j hj => ?_) σ f meth
  obtain ⟨-, t1, m1⟩ := hk i hi
  obtain ⟨-, t2, m2⟩ := hk j hj
  rw [t1, t2]
  exact ⟨fun e => h.apart _ m1 _ m2 e, fun e => congrArg θ e⟩

theorem SimL.sameShape {s g : System} (h : SimL s g) : Spec.SameShape (Equiv.refl ℕ) Spec.unitMat s g := by
  refine ⟨h.vor, h.len, fun _ => Iff.rfl, ?_⟩
  intro k a b ha hb
  obtain ⟨hk, rfl⟩ := List.getElem?_eq_some_iff.1 ha
  obtain ⟨hk', rfl⟩ := List.getElem?_eq_some_iff.1 hb
  have hm := h.mem k hk
  rw [Equiv.refl_apply] at hk'
  rw [mem_eq_getElem _ _ hk, mem_eq_getElem _ _ hk'] at hm
  refine ⟨hm.cond, _, .refl _, ?_⟩
  simp only [Equiv.refl_apply]
  rw [show g.atoms[k].nbrs = s.atoms[k].nbrs from hm.nbrs]
  exact List.forall₂_same.2 fun x _ => ⟨rfl, rfl, 1, one_pos, (moveVec_one _).symm⟩

theorem SimL.finish {s g : System} (h : SimL s g) (ls : List ℤ) (av : Bool) :
    RelE (List.Forall₂ fun a b : Atom => b.nbrs = a.nbrs ∧ ∀ l : ℕ, (l : ℤ) ∈ ls → b.q l = a.q l ∧ (av = true → b.aq l = a.aq l))
      (s.calculateQ ls av >>= fun s => s.getAtoms) (g.calculateQ ls av >>= fun s => s.getAtoms) := by
  obtain ⟨herr, hval⟩ := sameShape_q rotation_unit.1 h.sameShape ls av
  rcases h1 : s.calculateQ ls av with e | s' <;> rcases h2 : g.calculateQ ls av with e' | g'
  · have := (herr e).1 h1
    rw [h2] at this; exact (Except.error.inj this).symm
  · have := (herr e).1 h1
    rw [h2] at this; cases this
  · have := (herr e').2 h2
    rw [h1] at this; cases this
  · have hv := hval s' g' h1 h2
    have key : ∀ (x y : System), x.calculateQ ls av = .ok y → y.atoms.length = x.atoms.length ∧ y.realNop = x.realNop ∧
        ∀ (k : ℕ) (a a' : Atom), x.atoms[k]? = some a → y.atoms[k]? = some a' → a'.nbrs = a.nbrs := by
      intro x y hxy
      obtain ⟨-, -, e⟩ := calculateQ_ok hxy
      refine ⟨?_, ?_, ?_⟩
      · rw [e]; cases av <;> simp [System.afterQ]
      · rw [e]; cases av <;> rfl
      · intro k a a' ha ha'
        have := calculateQ_atom hxy ha ha'
        rw [this]; cases av <;> rfl
    obtain ⟨l1, r1, a1⟩ := key _ _ h1
    obtain ⟨l2, r2, a2⟩ := key _ _ h2
    change RelE _ s'.getAtoms g'.getAtoms
    unfold System.getAtoms
    rw [l1, l2, r1, r2, h.realNop, h.len]
    by_cases hle : s.realNop ≤ s.atoms.length
    · rw [if_pos hle, if_pos hle]
      change List.Forall₂ _ _ _
      rw [List.forall₂_iff_get]
      refine ⟨by rw [List.length_take, List.length_take, l1, l2, h.len], ?_⟩
      intro i hi hi'
      rw [List.length_take] at hi hi'
      have e1 : i < s'.atoms.length := by omega
      have e2 : i < g'.atoms.length := by omega
      have e3 : i < s.atoms.length := by omega
      have e4 : i < g.atoms.length := by omega
      simp only [List.get_eq_getElem, List.getElem_take]
      have ra := a1 i _ _ (List.getElem?_eq_getElem e3) (List.getElem?_eq_getElem e1)
      have rb := a2 i _ _ (List.getElem?_eq_getElem e4) (List.getElem?_eq_getElem e2)
      have hm := h.mem i e3
      rw [mem_eq_getElem _ _ e3, mem_eq_getElem _ _ e4] at hm
      refine ⟨by rw [ra, rb, hm.nbrs], ?_⟩
      exact hv i _ _ (List.getElem?_eq_getElem e1) (List.getElem?_eq_getElem e2)
    · rw [if_neg hle, if_neg hle]; exact rfl

/-- **C109.**  Types and ids are labels.  Give a system, whatever was done with it before, either a list of atoms or the same atoms with other ids, other stored results and their types renamed such
that different types stay different.  Then any neighbour search, with any filter, followed by `calculate_q` raises the same exception or succeeds in both cases, and then each atom has the same
neighbours (numbers, distances, weights, vectors) and the same requested Steinhardt parameters, also averaged.  Any number of atoms, any box, also with cell lists. -/
theorem C109_labels (σ : StdSort) (s : System) {θ : ℤ → ℤ} {l l' : List Atom} (h : Spec.Relabelled θ l l') (ha : Spec.KeepsApart θ l)
    (f : ℕ) (meth : Method) (ls : List ℤ) (av : Bool) :
    RelE (List.Forall₂ fun a b : Atom => b.nbrs = a.nbrs ∧ ∀ q : ℕ, (q : ℤ) ∈ ls → b.q q = a.q q ∧ (av = true → b.aq q = a.aq q))
      (analyseOn σ s l f meth ls av) (analyseOn σ s l' f meth ls av) := by
  unfold analyseOn
  exact RelE.bind (labels_assign h ha s) fun a b hab => RelE.bind (hab.search σ f meth) fun x y hxy => hxy.finish ls av

/-- Renaming type 1 to 7 and type 2 to 1 meets the hypotheses of `C109_labels`, for lists with any numbers of atoms of types 1 and 2 anywhere. -/
example (l : List Atom) (hl : ∀ a ∈ l, a.type = 1 ∨ a.type = 2) :
    let θ : ℤ → ℤ := fun t => if t = 1 then 7 else 1
    Spec.Relabelled θ l (l.map fun a => { a with type := θ a.type, id := a.id + 5, q := fun _ => none }) ∧ Spec.KeepsApart θ l := by
  intro θ
  constructor
  · unfold Spec.Relabelled
    rw [List.forall₂_map_right_iff]
    exact List.forall₂_same.2 fun a _ => ⟨rfl, rfl, rfl⟩
  · intro a ha b hb hab
    rcases hl a ha with h1 | h1 <;> rcases hl b hb with h2 | h2 <;> simp only [θ, h1, h2] at hab ⊢ <;> norm_num at hab

end Pyscal
