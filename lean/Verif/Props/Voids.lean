import Verif.Props.Frame

/-! `find_tetrahedral_voids` as a whole (C83). -/

namespace Pyscal

open Spec (identity)

theorem fourNearest_congr {s t : System} (h : ∀ x y : Atom, s.getDistance x y = t.getDistance x y) (l : List Atom) (prec : ℝ) (a : Atom) :
    Spec.TetrahedralSite s l prec a ↔ Spec.TetrahedralSite t l prec a := by
  unfold Spec.TetrahedralSite Spec.FourNearest
  simp only [h]

open Classical in
/-- **C83, the whole function**: for an orthogonal box, when `find_tetrahedral_voids(direct_coordinates=False)` returns, it returns
type, volume and position of the tetrahedral sites among atoms `l` that have the ids, types and positions of the input in
its order.  Their volumes, fingerprints (with the default cutoffs) and neighbours are those of the cells of a tessellation of
a container with the atoms moved into it, and the distances are those of the system as it was assigned. -/
theorem C83_run (T : Tessellation) (L1 L2 L3 : ℝ) (atoms : List Atom) (hg : ∀ a ∈ atoms, a.ghost = false) (prec : ℝ) (hp : 0 ≤ prec)
    (r : List (ℤ × ℝ × V3)) (h : findTetrahedralVoids T (Spec.diagBox L1 L2 L3) atoms false prec = .ok r) :
    ∃ (s0 s : System) (l : List Atom) (E : V3) (P : List V3),
      System.init.setBox (Spec.diagBox L1 L2 L3) = .ok s0 ∧ s0.assignAtoms atoms = .ok s ∧
      l.map identity = atoms.map identity ∧
      (200 ≤ atoms.length → E = ⟨|L1|, |L2|, |L3|⟩ ∧ P.length = atoms.length) ∧
      List.Forall₂ (Spec.InContainer E) (atoms.map Atom.pos) (P.take atoms.length) ∧
      (∀ (k : ℕ) (a : Atom), l[k]? = some a → ∀ c, T E P k = some c → Spec.ValidCell c → a.volume = c.volume ∧
          a.vorovector = [3, 4, 5, 6].map (Spec.numFaces c 1 (5 / 100) (1 / 100)) ∧ a.nbrs.map Nb.idx = c.faces.map VFace.nb) ∧
      r = (l.filter fun a => decide (Spec.TetrahedralSite s l prec a)).map fun a => (a.type, a.volume, a.pos) := by
  unfold findTetrahedralVoids at h
  obtain ⟨s0, h0, h⟩ := bind_ok h
  obtain ⟨s, h1, h⟩ := bind_ok h
  obtain ⟨s1, h2, h⟩ := bind_ok h
  obtain ⟨s2, h3, h⟩ := bind_ok h
  obtain ⟨l, E, P, g1, g2, g3, g4, g5⟩ := voronoi_run T L1 L2 L3 atoms hg s0 s s1 s2 h0 h1 h2 h3
  obtain ⟨a1, a2⟩ := assigned_start h0 h1 hg
  have hrun : Spec.AnalysisRun s s2 := .cons (.findVoronoi _ _ _ h2) (.cons (.vorovector _ _ h3) (.nil _))
  obtain ⟨reals, hi, hid⟩ := (a2.run a1 hrun).inv
  obtain rfl : reals = l := by
    have := getAtoms_inv hi
    rw [g1] at this
    exact (Except.ok.inj this).symm
  obtain ⟨-, -, -, -, -, hd⟩ := C85_history _ _ _ _ _ h0 h1 hg hrun
  refine ⟨s0, s, reals, E, P, h0, h1, hid, g3, g4, ?_, ?_⟩
  · intro k a hk c hc hv
    have hlt : k < atoms.length := g2 ▸ (List.getElem?_eq_some_iff.1 hk).1
    exact (g5 k _ a (List.getElem?_eq_getElem hlt) hk).2 c hc hv
  · obtain ⟨p1, p2⟩ := C83_partial s2 reals prec hi hp
    by_cases hf : ∃ a ∈ reals, a.vorovector[1]? = some 4 ∧ (a.nbrs = [] ∨ ∃ x ∈ a.nbrs, reals.length ≤ x.idx)
    · rw [p2 hf] at h; cases h
    · push Not at hf
      rw [p1 (fun a ha hv => hf a ha hv)] at h
      rw [← Except.ok.inj h]
      congr 1
      apply List.filter_congr
      intro a _
      simp only [fourNearest_congr (fun x y => (hd x y).1)]

/-- The call returns for a chain of 200 atoms with a cube around each of them. -/
example : ∃ r, findTetrahedralVoids (fun _ _ k => some (cubeCell ((k + 1) % 200))) (Spec.diagBox 1000 1000 1000) chainAtoms false (1 / 10) = .ok r := by
  obtain ⟨s0, s, s1, s2, h0, h1, h2, h3, -⟩ := chain_vorovector
  have hg : ∀ a ∈ chainAtoms, a.ghost = false := by
    intro a ha
    obtain ⟨i, -, rfl⟩ := List.mem_map.1 ha
    rfl
  obtain ⟨l, E, P, g1, g2, -, -, g5⟩ := voronoi_run _ 1000 1000 1000 chainAtoms hg s0 s s1 s2 h0 h1 h2 h3
  obtain ⟨a1, a2⟩ := assigned_start h0 h1 hg
  obtain ⟨reals, hi, -⟩ := (a2.run a1 (.cons (.findVoronoi _ _ _ h2) (.cons (.vorovector _ _ h3) (.nil _)))).inv
  obtain rfl : reals = l := by
    have := getAtoms_inv hi
    rw [g1] at this
    exact (Except.ok.inj this).symm
  rw [chainAtoms_length] at g2
  apply Exists.intro
  · unfold findTetrahedralVoids
    rw [h0]
    simp only [bind, Except.bind]
    rw [h1]
    dsimp only
    rw [h2]
    dsimp only
    rw [h3]
    dsimp only
    refine (C83_partial s2 reals (1 / 10) hi (by norm_num)).1 fun a ha _ => ?_
    obtain ⟨k, hk⟩ := List.getElem?_of_mem ha
    have hk200 : k < 200 := g2 ▸ (List.getElem?_eq_some_iff.1 hk).1
    obtain ⟨-, -, h9⟩ := (g5 k _ a (chainAtoms_get k hk200) hk).2 _ rfl (cubeCell_valid _)
    have hlt : (k + 1) % 200 < reals.length := by rw [g2]; omega
    constructor
    · intro e
      rw [e] at h9
      simp [cubeCell] at h9
    · intro x hx
      have : x.idx ∈ a.nbrs.map Nb.idx := List.mem_map_of_mem hx
      rw [h9] at this
      have : x.idx = (k + 1) % 200 := by simpa [cubeCell] using this
      omega

end Pyscal
