import Verif.Props.Labels
import Verif.Props.Again

/-! C114: types, ids and earlier results are labels for `find_solids`. -/

namespace Pyscal

/-- `sys.find_solids(..., cluster=False)`, `sys.atoms`. -/
noncomputable def solidsOf (bonds threshold avgthreshold q : PyNum) (cutoff : ℝ) (right : Bool) (s : System) : Except Fault (List Atom) :=
  match System.findSolids bonds threshold avgthreshold false q cutoff right s with
  | (t, .ok _) => t.getAtoms
  | (_, .error e) => .error e

/-- `sys.atoms = l`, `sys.find_neighbors(...)`, `sys.find_solids(..., cluster=False)`, `sys.atoms` on an existing system. -/
noncomputable def solidsOn (σ : StdSort) (s : System) (l : List Atom) (f : ℕ) (meth : Method) (bonds threshold avgthreshold q : PyNum) (cutoff : ℝ) (right : Bool) :
    Except Fault (List Atom) := do
  let s ← s.assignAtoms l
  let s ← s.findNeighbors σ f meth
  solidsOf bonds threshold avgthreshold q cutoff right s

/-- Specification: the same neighbours, correlations, number of solid bonds, mean and flag. -/
def Spec.SameSolid (a b : Atom) : Prop := b.nbrs = a.nbrs ∧ b.sij = a.sij ∧ b.frenkel = a.frenkel ∧ b.avq = a.avq ∧ b.issolid = a.issolid

theorem SimL.solids {s g : System} (h : SimL s g) (bonds threshold avgthreshold q : PyNum) (cutoff : ℝ) (right : Bool) :
    RelE (List.Forall₂ Spec.SameSolid) (solidsOf bonds threshold avgthreshold q cutoff right s) (solidsOf bonds threshold avgthreshold q cutoff right g) := by
  have e1 : g.voronoiused = s.voronoiused := by have := congrArg System.voronoiused h.rest; exact this
  have e2 : g.comparecriteria = s.comparecriteria := by have := congrArg System.comparecriteria h.rest; exact this
  have e3 : g.neighborsFound = s.neighborsFound := by have := congrArg System.neighborsFound h.rest; exact this
  have e4 : g.realNop = s.realNop := by have := congrArg System.realNop h.rest; exact this
  have hnc : g.atoms.map (fun a => (a.nbrs, a.condition)) = s.atoms.map fun a => (a.nbrs, a.condition) := by
    refine List.ext_getElem (by simp [h.len]) fun i h1 h2 => ?_
    rw [List.length_map] at h1 h2
    have hm := h.mem i h2
    rw [mem_eq_getElem _ _ h2, mem_eq_getElem _ _ h1] at hm
    rw [List.getElem_map, List.getElem_map, hm.nbrs, hm.cond]
  have hn : g.atoms.map Atom.nbrs = s.atoms.map Atom.nbrs := by
    have := congrArg (List.map Prod.fst) hnc
    simpa [List.map_map, Function.comp_def] using this
  have eargs : g.solidArgs bonds threshold avgthreshold q = s.solidArgs bonds threshold avgthreshold q := by
    unfold System.solidArgs
    rw [e3]
  unfold solidsOf
  cases hp : s.solidArgs bonds threshold avgthreshold q with
  | error e =>
    have f1 : System.findSolids bonds threshold avgthreshold false q cutoff right s = (s, .error e) := by unfold System.findSolids; rw [hp]
    have f2 : System.findSolids bonds threshold avgthreshold false q cutoff right g = (g, .error e) := by unfold System.findSolids; rw [eargs, hp]
    rw [f1, f2]
    exact rfl
  | ok p =>
    by_cases hs : s.NbrsInRange
    · have hs' : g.NbrsInRange := nbrsInRange_congr hn hs
      have f1 : System.findSolids bonds threshold avgthreshold false q cutoff right s = ({ s.solidParams p with atoms := s.atoms.map (solidAtom s p) }, .ok none) := by
        unfold System.findSolids; rw [hp]; dsimp only; rw [solidRun_eq s p cutoff hs]
      have f2 : System.findSolids bonds threshold avgthreshold false q cutoff right g = ({ g.solidParams p with atoms := g.atoms.map (solidAtom g p) }, .ok none) := by
        unfold System.findSolids; rw [eargs, hp]; dsimp only; rw [solidRun_eq g p cutoff hs']
      have hsame := findSolids_same f1 f2 e1 e2 hnc
      rw [f1, f2]
      dsimp only at hsame ⊢
      have ga : ∀ x : System, ({ x.solidParams p with atoms := x.atoms.map (solidAtom x p) } : System).getAtoms =
          if x.realNop ≤ x.atoms.length then .ok ((x.atoms.map (solidAtom x p)).take x.realNop) else .error .oob := by
        intro x
        unfold System.getAtoms
        simp [System.solidParams]
      rw [ga s, ga g, e4, h.len]
      by_cases hle : s.realNop ≤ s.atoms.length
      · rw [if_pos hle, if_pos hle]
        change List.Forall₂ _ _ _
        rw [List.forall₂_iff_get]
        refine ⟨by simp [h.len], fun i hi hi' => ?_⟩
        rw [List.length_take] at hi hi'
        simp only [List.get_eq_getElem, List.getElem_take]
        exact hsame i _ _ (List.getElem?_eq_getElem (by omega)) (List.getElem?_eq_getElem (by omega))
      · rw [if_neg hle, if_neg hle]; exact rfl
    · have hs' : ¬ g.NbrsInRange := fun hh => hs (nbrsInRange_congr hn.symm hh)
      have f1 : System.findSolids bonds threshold avgthreshold false q cutoff right s = (s, .error .oob) := by
        unfold System.findSolids; rw [hp]; dsimp only; rw [solidRun_oob s p false cutoff hs]
      have f2 : System.findSolids bonds threshold avgthreshold false q cutoff right g = (g, .error .oob) := by
        unfold System.findSolids; rw [eargs, hp]; dsimp only; rw [solidRun_oob g p false cutoff hs']
      rw [f1, f2]
      exact rfl

/-- **C114.**  Give a system, whatever was done with it before, either a list of atoms or the same atoms with other ids, other stored results (correlations, flags, clusters) and their types renamed such that
different types stay different.  Then any neighbour search, with any filter, followed by `find_solids(cluster=False)` raises the same exception or succeeds in both cases, and then each atom has the same
neighbours, correlations, number of solid bonds, mean correlation and solid flag. -/
theorem C114_labels (σ : StdSort) (s : System) {θ : ℤ → ℤ} {l l' : List Atom} (h : Spec.Relabelled θ l l') (ha : Spec.KeepsApart θ l)
    (f : ℕ) (meth : Method) (bonds threshold avgthreshold q : PyNum) (cutoff : ℝ) (right : Bool) :
    RelE (List.Forall₂ Spec.SameSolid) (solidsOn σ s l f meth bonds threshold avgthreshold q cutoff right)
      (solidsOn σ s l' f meth bonds threshold avgthreshold q cutoff right) := by
  unfold solidsOn
  exact RelE.bind (labels_assign h ha s) fun a b hab => RelE.bind (hab.search σ f meth) fun x y hxy => hxy.solids _ _ _ _ _ _

/-- The hypotheses hold for the atoms shown by a system after any analysis, with types 1 and 2 exchanged and the results of the
analysis erased. -/
example (l : List Atom) (hl : ∀ a ∈ l, a.type = 1 ∨ a.type = 2) :
    let θ : ℤ → ℤ := fun t => if t = 1 then 2 else 1
    Spec.Relabelled θ l (l.map fun a => { a with type := θ a.type, id := 0, issolid := false, sij := [], belongsto := -1 }) ∧ Spec.KeepsApart θ l := by
  intro θ
  refine ⟨?_, ?_⟩
  · unfold Spec.Relabelled
    rw [List.forall₂_map_right_iff, List.forall₂_same]
    exact fun a _ => ⟨rfl, rfl, rfl⟩
  · intro a ha b hb hab
    rcases hl a ha with h1 | h1 <;> rcases hl b hb with h2 | h2 <;> simp [θ, h1, h2] at hab ⊢

end Pyscal
