import Verif.Props.Cells
import Verif.Lemmas.Clusters
import Verif.Props.Store

/-! What a search with a numeric cutoff leaves, with or without cell lists. -/

namespace Pyscal

/-- Specification: a search with the cutoff `r` compares all pairs of atoms, or uses cell lists in suitable conditions. -/
def Spec.PairsExact (s : System) (r : ℝ) : Prop := s.natoms ≤ 2300 ∨ Spec.CellConditions s r

/-- Every atom gets its neighbours in some order; nothing else differs from a search without cell lists. -/
theorem cutoff_any {σ : StdSort} {s s1 : System} {f : ℕ} {r : ℝ} (hr : r ≠ 0) (hp : Spec.PairsExact s r) (h : s.findNeighbors σ f (.cutoff r) = .ok s1) :
    s1 = { s with atoms := s1.atoms, filter := f, neighbordistance := r, voronoiused := false, neighborsFound := true } ∧
    s1.atoms.length = s.atoms.length ∧
    ∀ (i : ℕ) (a : Atom), s1.atoms[i]? = some a → i < s.atoms.length ∧ a.nbrs.Perm (cutoffNbs s r f i) ∧
      { a with nbrs := [] } = { cutoffAtom s r f i with nbrs := [] } := by
  by_cases hn : s.natoms ≤ 2300
  · obtain ⟨-, hs, -⟩ := findNeighbors_cutoff_ok hr hn h
    refine ⟨?_, by rw [hs]; simp, fun i a hi => ?_⟩
    · conv_lhs => rw [hs]
      rw [hs]
    · rw [hs] at hi
      obtain ⟨h1, h2⟩ := List.getElem?_eq_some_iff.1 hi
      simp only [List.length_map, List.length_range] at h1
      simp only [List.getElem_map, List.getElem_range] at h2
      rw [← h2]
      exact ⟨h1, List.Perm.refl _, rfl⟩
  have hok : Spec.CellConditions s r := hp.resolve_left hn
  have hn' : 2300 < s.realNop := not_le.1 hn
  by_cases hle : s.realNop ≤ s.atoms.length
  swap
  · rw [findNeighbors_cutoff_oob σ s f r hr hle] at h; cases h
  rw [findNeighbors_cutoff_large σ s f r hr hn' hle] at h
  obtain ⟨c, hc, hlen, hfr, hnb⟩ := C11_cells_eq_brute { s.startSearch f with neighbordistance := r } (hok.start f)
  rw [hc] at h
  change (do
    let s' ← c.checkCapacity
    return { s' with neighborsFound := true }) = Except.ok s1 at h
  rcases hcc : c.checkCapacity with e | c2
  · rw [hcc] at h; cases h
  rw [hcc] at h
  obtain ⟨rfl, hcap⟩ := checkCapacity_ok hcc
  have h' : { c2 with neighborsFound := true } = s1 := Except.ok.inj h
  have hlen' : c2.atoms.length = s.atoms.length := hlen.trans (resetAll_length s)
  have hNlen : (System.neighborsNormal { s.startSearch f with neighbordistance := r }).atoms.length =
      s.atoms.length := by rw [neighborsNormal_length]; exact resetAll_length s
  subst h'
  refine ⟨?_, hlen', fun k a' ha' => ?_⟩
  · have hfr' : ({ c2 with atoms := [] } : System) = { s with atoms := [], filter := f, neighbordistance := r, voronoiused := false } := hfr
    show ({ ({ c2 with atoms := [] } : System) with atoms := c2.atoms, neighborsFound := true } : System) = _
    rw [hfr']
  · have hk : k < s.atoms.length := by rw [← hlen']; exact (mem_of_getElem? ha').1
    have hb := List.getElem?_eq_getElem (l := (System.neighborsNormal
      { s.startSearch f with neighbordistance := r }).atoms) (i := k) (by rw [hNlen]; exact hk)
    have hbe := neighborsNormal_start s r f k hk
    rw [mem_eq_getElem _ _ (by rw [hNlen]; exact hk)] at hbe
    rw [hbe] at hb
    exact ⟨hk, hnb k a' _ ha' hb⟩

/-- A search with a numeric cutoff keeps the layout of the stored atoms. -/
theorem storeInv_any {σ : StdSort} {s s' : System} {f : ℕ} {r : ℝ} (hr : r ≠ 0) (hp : Spec.PairsExact s r) (h : s.findNeighbors σ f (.cutoff r) = .ok s')
    {reals : List Atom} (hi : StoreInv s reals) : StoreInv s' (s'.atoms.take s.realNop) ∧ (s'.atoms.take s.realNop).length = s.realNop := by
  obtain ⟨hs, hlen, hat⟩ := cutoff_any hr hp h
  obtain ⟨gs, ha, hg, hgn⟩ := hi.ex
  have hle : s.realNop ≤ s.atoms.length := by rw [ha, List.length_append, hi.realNop]; omega
  have hgh : ∀ k (hk : k < s.atoms.length), (s.atoms[k].ghost = false ↔ k < s.realNop) := by
    intro k hk
    rw [hi.realNop]
    by_cases hk2 : k < reals.length
    · have : s.atoms[k] = reals[k] := by simp only [ha]; exact List.getElem_append_left hk2
      rw [this]
      exact ⟨fun _ => hk2, fun _ => hi.real _ (List.getElem_mem hk2)⟩
    · have hk3 : k - reals.length < gs.length := by rw [ha, List.length_append] at hk; omega
      have : s.atoms[k] = gs[k - reals.length] := by simp only [ha]; exact List.getElem_append_right (by omega)
      rw [this]
      have := hg _ (List.getElem_mem hk3)
      rw [this]
      simp [hk2]
  have hgh' : ∀ (k : ℕ) (a : Atom), s'.atoms[k]? = some a → (a.ghost = false ↔ k < s.realNop) := by
    intro k a hk
    obtain ⟨hkl, -, hrest⟩ := hat k a hk
    have h5 := congrArg Atom.ghost hrest
    have h5 : a.ghost = (s.mem k).ghost := h5
    rw [h5, mem_eq_getElem s k hkl]
    exact hgh k hkl
  have e1 : s'.realNop = s.realNop := by rw [hs]
  have e2 : s'.nop = s.nop := by rw [hs]
  have e3 : s'.ghostNop = s.ghostNop := by rw [hs]
  have hl : (s'.atoms.take s.realNop).length = s.realNop := by rw [List.length_take, hlen]; omega
  refine ⟨⟨?_, ⟨s'.atoms.drop s.realNop, (List.take_append_drop _ _).symm, ?_, ?_⟩, ?_, ?_⟩, hl⟩
  · intro a hm
    obtain ⟨k, hk⟩ := List.mem_iff_getElem?.1 hm
    rw [List.getElem?_take] at hk
    by_cases hk2 : k < s.realNop
    · rw [if_pos hk2] at hk
      exact (hgh' k a hk).2 hk2
    · rw [if_neg hk2] at hk; cases hk
  · intro a hm
    obtain ⟨k, hk⟩ := List.mem_iff_getElem?.1 hm
    rw [List.getElem?_drop] at hk
    by_contra hc
    rw [Bool.not_eq_true, hgh' _ a hk] at hc
    omega
  · rw [e3, hgn, List.length_drop, hlen, ha, List.length_append, hi.realNop]; omega
  · rw [e2, hlen]; exact hi.nop
  · rw [e1, hl]

end Pyscal
