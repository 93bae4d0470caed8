import Verif.Lemmas.History
import Verif.Props.Sann

/-! C16: `find_neighbors` and earlier calculations. -/

namespace Pyscal

/-- The inputs of a neighbour search: positions, types, box and atom counts.  Everything else a
system holds (neighbours, candidates, cutoffs, order parameters, cluster labels, flags and settings
of earlier searches) may differ. -/
def Spec.SameInput (s g : System) : Prop :=
  g.atoms.map (fun a => (a.pos, a.type)) = s.atoms.map (fun a => (a.pos, a.type)) ∧
  g.box = s.box ∧ g.rot = s.rot ∧ g.rotinv = s.rotinv ∧ g.triclinic = s.triclinic ∧
  g.nop = s.nop ∧ g.realNop = s.realNop

theorem Spec.SameInput.like {s g : System} (h : Spec.SameInput s g) : Like s g := by
  have hl : g.atoms.length = s.atoms.length := by simpa using congrArg List.length h.1
  have hk : ∀ k, (g.mem k).pos = (s.mem k).pos ∧ (g.mem k).type = (s.mem k).type := by
    intro k
    by_cases hlt : k < s.atoms.length
    · have := congrArg (fun l => l[k]?) h.1
      simp only [List.getElem?_map, List.getElem?_eq_getElem hlt, List.getElem?_eq_getElem (hl.symm ▸ hlt : k < g.atoms.length),
        Option.map_some, Option.some.injEq, Prod.mk.injEq] at this
      rw [mem_eq_getElem _ _ hlt, mem_eq_getElem _ _ (hl.symm ▸ hlt)]
      exact this
    · have e1 : s.mem k = default := by simp [System.mem, hlt]
      have e2 : g.mem k = default := by simp [System.mem, hl, hlt]
      rw [e1, e2]; exact ⟨rfl, rfl⟩
  exact ⟨hl, fun k => (hk k).1, fun k => (hk k).2, h.2.1, h.2.2.1, h.2.2.2.1, h.2.2.2.2.1⟩

/-- **C16**, what holds: for every method and filter, two systems with the same atoms, box and
counts, whatever was computed on them before, get the same outcome from `find_neighbors`: the same
exception, or the same neighbour lists (indices, distances, weights and vectors, in the same
order).  The atom cutoffs (`C16_false_cutoff`) and `voronoiused` (see C16_false_voronoi) can differ. -/
theorem C16_partial (σ : StdSort) (s g : System) (f : ℕ) (meth : Method) (h : Spec.SameInput s g) :
    (∃ e, s.findNeighbors σ f meth = .error e ∧ g.findNeighbors σ f meth = .error e) ∨
    ∃ s' g', s.findNeighbors σ f meth = .ok s' ∧ g.findNeighbors σ f meth = .ok g' ∧
      g'.atoms.map Atom.nbrs = s'.atoms.map Atom.nbrs ∧ Spec.SameInput s' g' := by
  have hs := findNeighbors_sim σ h.like h.2.2.2.2.2.1 h.2.2.2.2.2.2 f meth
  rcases h1 : s.findNeighbors σ f meth with e | s' <;> rcases h2 : g.findNeighbors σ f meth with e' | g' <;>
    rw [h1, h2] at hs
  · exact .inl ⟨e, rfl, by rw [show e = e' from hs]⟩
  · exact hs.elim
  · exact hs.elim
  · have hs : Sim s' g' := hs
    have key : ∀ {β : Type} (F : Atom → β), (∀ k, F (g'.mem k) = F (s'.mem k)) → g'.atoms.map F = s'.atoms.map F := by
      intro β F hF
      refine List.ext_getElem (by simp [hs.like.len]) fun k hk hk' => ?_
      simp only [List.length_map] at hk hk'
      rw [List.getElem_map, List.getElem_map, ← mem_eq_getElem _ _ hk, ← mem_eq_getElem _ _ hk']
      exact hF k
    refine .inr ⟨s', g', rfl, rfl, key _ fun k => (hs.mem k).2.2.1, key _ fun k => ?_, hs.like.box, hs.like.rot,
      hs.like.rotinv, hs.like.tri, hs.nop, hs.realNop⟩
    exact Prod.ext (hs.like.pos k) (hs.like.type k)

/-- Two systems with the same inputs and different history: one has had its flags and neighbours set. -/
example : Spec.SameInput twoAtoms { twoAtoms with
    atoms := twoAtoms.atoms.map (fun a => { a with nbrs := [⟨0, 1, 1, ⟨0, 0, 0⟩⟩], cutoff := some 7 })
    neighborsFound := true, voronoiused := true } := ⟨by simp, rfl, rfl, rfl, rfl, rfl, rfl⟩

/-- The negation of **C16** for the atom cutoff: after a search with cutoff 2, a search with
cutoff 1/2 that finds no neighbours leaves the cutoff 2 on the atoms; on a fresh system the
same search leaves it unset. -/
theorem C16_false_cutoff (σ : StdSort) : ∃ s1 s2 s2' a a',
    twoAtoms.findNeighbors σ 0 (.cutoff 2) = .ok s1 ∧ Spec.SameInput twoAtoms s1 ∧
    s1.findNeighbors σ 0 (.cutoff (1 / 2)) = .ok s2 ∧
    twoAtoms.findNeighbors σ 0 (.cutoff (1 / 2)) = .ok s2' ∧
    s2.atoms[0]? = some a ∧ s2'.atoms[0]? = some a' ∧ a.nbrs = [] ∧ a'.nbrs = [] ∧
    a.cutoff = some 2 ∧ a'.cutoff = none := by
  obtain ⟨s1, h1⟩ := twoAtoms_cutoff_ok σ twoAtoms 2 (by norm_num) rfl rfl
  obtain ⟨-, e1, -⟩ := findNeighbors_cutoff_ok (by norm_num) (by decide) h1
  have hl1 : s1.atoms.length = 2 := by rw [e1, List.length_map, List.length_range]; rfl
  have hr1 : s1.realNop = 2 := by rw [e1]; rfl
  obtain ⟨s2, h2⟩ := twoAtoms_cutoff_ok σ s1 (1 / 2) (by norm_num) hl1 hr1
  obtain ⟨-, e2, -⟩ := findNeighbors_cutoff_ok (by norm_num) (by omega) h2
  obtain ⟨s2', h2'⟩ := twoAtoms_cutoff_ok σ twoAtoms (1 / 2) (by norm_num) rfl rfl
  obtain ⟨-, e2', -⟩ := findNeighbors_cutoff_ok (by norm_num) (by decide) h2'
  have hin : Spec.SameInput twoAtoms s1 := by
    subst e1
    exact ⟨(C09_cutoff_exact σ _ _ 0 2 (by norm_num) (by decide) h1).1.1, rfl, rfl, rfl, rfl, rfl, rfl⟩
  have hd1 : s1.distOf 0 1 = 1 := by rw [hin.like.distOf]; exact twoAtoms_dist.1
  have hc1 : (s1.mem 0).cutoff = some 2 := by
    rw [mem_eq_getElem _ _ (by omega)]
    have : s1.atoms[0]? = some (cutoffAtom twoAtoms 2 0 0) := by rw [e1]; rfl
    rw [List.getElem?_eq_getElem (by omega)] at this
    rw [Option.some.inj this]
    change (if cutoffNbs twoAtoms 2 0 0 = [] then _ else _) = _
    rw [if_neg (twoAtoms_nbs_ne rfl twoAtoms_dist.1)]
  refine ⟨s1, s2, s2', cutoffAtom s1 (1 / 2) 0 0, cutoffAtom twoAtoms (1 / 2) 0 0, h1, hin, h2, h2', ?_, ?_, ?_, ?_, ?_, ?_⟩
  · rw [e2]; simp [hl1]
  · rw [e2']; rfl
  · exact twoAtoms_nbs_empty hl1 hd1
  · exact twoAtoms_nbs_empty rfl twoAtoms_dist.1
  · change (if cutoffNbs s1 (1 / 2) 0 0 = [] then _ else _) = _
    rw [if_pos (twoAtoms_nbs_empty hl1 hd1)]; exact hc1
  · change (if cutoffNbs twoAtoms (1 / 2) 0 0 = [] then _ else _) = _
    rw [if_pos (twoAtoms_nbs_empty rfl twoAtoms_dist.1)]; rfl

end Pyscal
