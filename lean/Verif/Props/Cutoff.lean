import Verif.Lemmas.FindNeighbors
import Verif.Props.Distance
import Mathlib.Combinatorics.SimpleGraph.DegreeSum

/-! C09, C10: neighbours with a numeric cutoff (brute force search, up to 2300 atoms). -/

namespace Pyscal

/-- A state with two atoms in an axis-aligned box of edge 10, used by the examples. -/
noncomputable def twoAtoms : System :=
  { atoms := [{ pos := ⟨1, 1, 1⟩ }, { pos := ⟨2, 1, 1⟩, type := 2 }], nop := 2, realNop := 2,
    box := Spec.diagBox 10 10 10 }

theorem twoAtoms_dist : twoAtoms.distOf 0 1 = 1 ∧ twoAtoms.distOf 1 0 = 1 := by
  have h10 : V3.norm ⟨10, 0, 0⟩ = 10 ∧ V3.norm ⟨0, 10, 0⟩ = 10 ∧ V3.norm ⟨0, 0, 10⟩ = 10 :=
    ⟨norm_axis_x _ (by norm_num), norm_axis_y _ (by norm_num), norm_axis_z _ (by norm_num)⟩
  have h : twoAtoms.distOf 0 1 = 1 := by
    have e : twoAtoms.diffOf 0 1 = ⟨1, 0, 0⟩ := by
      simp only [System.diffOf, System.diffIdx, System.image, System.posOf, System.mem, twoAtoms,
        System.boxx, System.boxy, System.boxz, Spec.diagBox, h10, wrap]
      norm_num
    have : twoAtoms.distOf 0 1 = V3.norm (twoAtoms.diffOf 0 1) := rfl
    rw [this, e]
    exact norm_axis_x _ (by norm_num)
  exact ⟨h, by rw [distOf_comm]; exact h⟩

theorem cutoffNbs_le (s : System) (r : ℝ) (f k : ℕ) : (cutoffNbs s r f k).length ≤ s.atoms.length := by
  unfold cutoffNbs
  rw [List.length_map]
  exact (List.length_filter_le _ _).trans (by simp)

/-- **C09**: a successful search with a numeric cutoff `r` on at most 2300 atoms keeps the atoms
and their geometry and gives every atom exactly the list of atoms closer than `r` that pass the
filter (distance, unit weight and vector included), with `coordination` their number, at most
300. -/
theorem C09_cutoff_exact (σ : StdSort) (s s' : System) (f : ℕ) (r : ℝ) (hr : r ≠ 0)
    (hn : s.realNop ≤ 2300) (h : s.findNeighbors σ f (.cutoff r) = .ok s') :
    Spec.SameGeometry s s' ∧ s'.neighborsFound = true ∧
    ∀ (k : ℕ) (a a' : Atom), s.atoms[k]? = some a → s'.atoms[k]? = some a' →
      Spec.CutoffList s r f k a a'.nbrs ∧ a'.nbrs.length = (Spec.nearSet s r f k).ncard ∧
        a'.nbrs.length ≤ 300 ∧ (a'.nbrs ≠ [] → a'.cutoff = some r) := by
  obtain ⟨_, rfl, hcap⟩ := findNeighbors_cutoff_ok hr hn h
  refine ⟨⟨?_, fun a b => image_frame rfl rfl rfl rfl _⟩, rfl, ?_⟩
  · refine List.ext_getElem (by simp) fun k hk hk' => ?_
    simp only [List.length_map, List.length_range] at hk
    simp [cutoffAtom, mem_eq_getElem s k hk]
  · intro k a a' hk hk'
    have hka := mem_of_getElem? hk
    simp only [List.getElem?_map, List.getElem?_range hka.1, Option.map_some, Option.some.injEq] at hk'
    subst hk'
    have hspec := cutoffNbs_spec (r := r) (f := f) hk
    refine ⟨hspec, cutoffList_length hk hspec, hcap k hka.1, fun hne => ?_⟩
    have : cutoffNbs s r f k ≠ [] := hne
    simp [cutoffAtom, this]

/-- **C09**, error branch: with consistent counters and at most 2300 atoms the search fails
exactly when some atom has more than 300 neighbours, and then by overrunning the arrays. -/
theorem C09_overrun (σ : StdSort) (s : System) (f : ℕ) (r : ℝ) (hr : r ≠ 0)
    (hn : s.realNop ≤ 2300) (hle : s.realNop ≤ s.atoms.length) :
    ((∃ k < s.atoms.length, 300 < (Spec.nearSet s r f k).ncard) →
      s.findNeighbors σ f (.cutoff r) = .error .oob) ∧
    ((∀ k < s.atoms.length, (Spec.nearSet s r f k).ncard ≤ 300) →
      ∃ s', s.findNeighbors σ f (.cutoff r) = .ok s') := by
  rw [findNeighbors_cutoff σ s f r hr hn hle]
  set N := System.neighborsNormal { s.startSearch f with neighbordistance := r } with hN
  have hlen : N.atoms.length = s.atoms.length := by
    rw [hN, neighborsNormal_length]; exact resetAll_length s
  have hnb : ∀ k (hk : k < N.atoms.length), N.atoms[k].nbrs.length = (Spec.nearSet s r f k).ncard := by
    intro k hk
    rw [hlen] at hk
    rw [← mem_eq_getElem, hN, neighborsNormal_start s r f k hk]
    exact cutoffList_length (List.getElem?_eq_getElem hk) (cutoffNbs_spec (List.getElem?_eq_getElem hk))
  constructor
  · rintro ⟨k, hk, hc⟩
    have hk' : k < N.atoms.length := by rw [hlen]; exact hk
    have : ∃ a ∈ N.atoms, a.nbrs.length > 300 :=
      ⟨N.atoms[k], List.getElem_mem hk', by rw [hnb k hk']; exact hc⟩
    have hN' : N.checkCapacity = .error .oob := by unfold System.checkCapacity; rw [if_pos this]
    rw [hN']; rfl
  · intro hall
    have : ¬ ∃ a ∈ N.atoms, a.nbrs.length > 300 := by
      rintro ⟨a, ha, hgt⟩
      obtain ⟨k, hk, rfl⟩ := List.getElem_of_mem ha
      rw [hnb k hk] at hgt
      exact absurd (hall k (hlen ▸ hk)) (by omega)
    have hN' : N.checkCapacity = .ok N := by unfold System.checkCapacity; rw [if_neg this]
    rw [hN']
    exact ⟨_, rfl⟩

/-- **C09** in geometric terms: in an axis-aligned orthogonal box, atom `j` is listed for atom
`k` iff some periodic image of `j` lies closer to `k` than the cutoff (atoms inside the box or
up to 3/2 box lengths apart). -/
theorem C09_orthogonal (σ : StdSort) (s s' : System) (r L1 L2 L3 : ℝ) (hr : r ≠ 0)
    (hn : s.realNop ≤ 2300) (hL : 0 < L1 ∧ 0 < L2 ∧ 0 < L3) (hbox : s.box = Spec.diagBox L1 L2 L3)
    (htri : s.triclinic = false)
    (h : s.findNeighbors σ 0 (.cutoff r) = .ok s') (k j : ℕ) (a a' b : Atom)
    (hk : s.atoms[k]? = some a) (hk' : s'.atoms[k]? = some a') (hj : s.atoms[j]? = some b)
    (hjk : j ≠ k)
    (hd : |b.pos.x - a.pos.x| ≤ 3 / 2 * L1 ∧ |b.pos.y - a.pos.y| ≤ 3 / 2 * L2 ∧
      |b.pos.z - a.pos.z| ≤ 3 / 2 * L3) :
    (∃ x ∈ a'.nbrs, x.idx = j) ↔
      ∃ v, Spec.IsImage (Spec.diagBox L1 L2 L3) (b.pos - a.pos) v ∧ V3.norm v < r := by
  obtain ⟨_, _, hall⟩ := C09_cutoff_exact σ s s' 0 r hr hn h
  obtain ⟨⟨-, hin, hout⟩, -⟩ := hall k a a' hk hk'
  have hmin := image_diag_shortest s L1 L2 L3 hL.1.le hL.2.1.le hL.2.2.le htri hbox (b.pos - a.pos)
    hd.1 hd.2.1 hd.2.2
  rw [hbox] at hmin
  constructor
  · rintro ⟨x, hx, rfl⟩
    obtain ⟨nb, h1, ⟨-, h2, -⟩, -⟩ := hout x hx
    rw [hj] at h1
    obtain rfl := Option.some.inj h1
    exact ⟨_, hmin.1, h2⟩
  · rintro ⟨v, hv, hvr⟩
    refine hin j b hj ⟨hjk, lt_of_le_of_lt (hmin.2 v hv) hvr, ?_, ?_⟩ <;> intro h <;> cases h

/-- The hypotheses of C09 are met: the search on `twoAtoms` with cutoff 2 succeeds. -/
example (σ : StdSort) : ∃ s', twoAtoms.findNeighbors σ 0 (.cutoff 2) = .ok s' := by
  refine (C09_overrun σ twoAtoms 0 2 (by norm_num) (by simp [twoAtoms]) (by simp [twoAtoms])).2 ?_
  intro k hk
  rw [← cutoffList_length (List.getElem?_eq_getElem hk) (cutoffNbs_spec (List.getElem?_eq_getElem hk))]
  exact (cutoffNbs_le _ _ _ _).trans (by simp [twoAtoms])

/-- ... and the list of atom 0 there is not empty. -/
example : (cutoffNbs twoAtoms 2 0 0).map Nb.idx = [1] := by
  have hl : twoAtoms.atoms.length = 2 := rfl
  unfold cutoffNbs
  rw [List.map_map, hl, show (Nb.idx ∘ twoAtoms.mkNb 0) = id from rfl, List.map_id]
  simp [List.range_succ, twoAtoms_dist.1, filterOK]

/-- **C10**: after a search with a numeric cutoff (any filter), being a neighbour is mutual,
with equal distances and opposite vectors. -/
theorem C10_mutual (σ : StdSort) (s s' : System) (f : ℕ) (r : ℝ) (hr : r ≠ 0)
    (hn : s.realNop ≤ 2300) (h : s.findNeighbors σ f (.cutoff r) = .ok s') (i j : ℕ) (a b : Atom)
    (hi : s'.atoms[i]? = some a) (hj : s'.atoms[j]? = some b) (d w : ℝ) (v : V3) :
    (⟨j, d, w, v⟩ : Nb) ∈ a.nbrs ↔ (⟨i, d, w, -v⟩ : Nb) ∈ b.nbrs := by
  obtain ⟨_, rfl, _⟩ := findNeighbors_cutoff_ok hr hn h
  have key : ∀ (i j : ℕ) (v : V3), i < s.atoms.length → j < s.atoms.length →
      (⟨j, d, w, v⟩ : Nb) ∈ cutoffNbs s r f i → (⟨i, d, w, -v⟩ : Nb) ∈ cutoffNbs s r f j := by
    intro i j v hi hj hm
    unfold cutoffNbs at hm ⊢
    rw [List.mem_map] at hm ⊢
    obtain ⟨x, hx, he⟩ := hm
    simp only [System.mkNb, Nb.mk.injEq] at he
    obtain ⟨rfl, rfl, rfl, rfl⟩ := he
    rw [List.mem_filter, decide_eq_true_eq] at hx
    refine ⟨i, ?_, ?_⟩
    · rw [List.mem_filter, decide_eq_true_eq, distOf_comm, filterOK_comm]
      exact ⟨List.mem_range.2 hi, fun h => hx.2.1 h.symm, hx.2.2⟩
    · simp only [System.mkNb, diffOf_swap s i x, distOf_comm s i x]
  have hlen : ∀ (k : ℕ) (c : Atom), ((List.range s.atoms.length).map (cutoffAtom s r f))[k]? = some c →
      k < s.atoms.length ∧ c.nbrs = cutoffNbs s r f k := by
    intro k c hc
    obtain ⟨hk, rfl⟩ := List.getElem?_eq_some_iff.1 hc
    simp only [List.length_map, List.length_range] at hk
    refine ⟨hk, ?_⟩
    simp [cutoffAtom]
  obtain ⟨hi1, hi2⟩ := hlen i a hi
  obtain ⟨hj1, hj2⟩ := hlen j b hj
  rw [hi2, hj2]
  refine ⟨key i j v hi1 hj1, fun hm => ?_⟩
  have := key j i (-v) hj1 hi1 hm
  have hv : - -v = v := by ext <;> simp
  rwa [hv] at this

/-- **C10**, handshake: the total number of list entries is even. -/
theorem C10_even (σ : StdSort) (s s' : System) (f : ℕ) (r : ℝ) (hr : r ≠ 0)
    (hn : s.realNop ≤ 2300) (h : s.findNeighbors σ f (.cutoff r) = .ok s') :
    Even (s'.atoms.map fun a => a.nbrs.length).sum := by
  classical
  obtain ⟨_, rfl, _⟩ := findNeighbors_cutoff_ok hr hn h
  let P : ℕ → ℕ → Prop := fun k j => j ≠ k ∧ (s.distOf k j < r ∧ filterOK f (s.typeOf k) (s.typeOf j) = true)
  have hP : ∀ i j, P i j → P j i := fun i j hij =>
    ⟨fun h => hij.1 h.symm, by rw [distOf_comm, filterOK_comm]; exact hij.2⟩
  let G : SimpleGraph (Fin s.atoms.length) :=
    { Adj := fun i j => P i j, symm := ⟨fun i j hij => hP _ _ hij⟩, loopless := ⟨fun i hi => hi.1 rfl⟩ }
  have hdeg : ∀ i : Fin s.atoms.length, (cutoffNbs s r f i).length = G.degree i := by
    intro i
    unfold cutoffNbs
    rw [List.length_map, ← List.countP_eq_length_filter, ← SimpleGraph.card_neighborFinset_eq_degree]
    have : (G.neighborFinset i).map Fin.valEmbedding = (Finset.range s.atoms.length).filter fun j => P i j := by
      ext j
      simp only [Finset.mem_map, SimpleGraph.mem_neighborFinset, Fin.valEmbedding_apply, Finset.mem_filter,
        Finset.mem_range]
      constructor
      · rintro ⟨x, hx, rfl⟩; exact ⟨x.2, hx⟩
      · rintro ⟨hj, hp⟩; exact ⟨⟨j, hj⟩, hp, rfl⟩
    rw [← Finset.card_map Fin.valEmbedding, this, Finset.card_filter, List.countP_eq_length_filter]
    rw [← Finset.card_filter]
    rw [← List.toFinset_card_of_nodup (List.nodup_range.filter _)]
    congr 1
    ext j
    simp [P]
  have hsum : (((List.range s.atoms.length).map (cutoffAtom s r f)).map fun a => a.nbrs.length).sum =
      ∑ i : Fin s.atoms.length, G.degree i := by
    rw [List.map_map]
    have : ((fun a : Atom => a.nbrs.length) ∘ cutoffAtom s r f) = fun k => (cutoffNbs s r f k).length := rfl
    rw [this, sum_map_range]
    rw [Finset.sum_range]
    exact Finset.sum_congr rfl fun i _ => hdeg i
  show Even (((List.range s.atoms.length).map (cutoffAtom s r f)).map fun a => a.nbrs.length).sum
  rw [hsum, SimpleGraph.sum_degrees_eq_twice_card_edges]
  exact even_two_mul _

theorem twoAtoms_cutoff_ok (σ : StdSort) (s : System) (r : ℝ) (hr : r ≠ 0) (hl : s.atoms.length = 2) (hn : s.realNop = 2) :
    ∃ s', s.findNeighbors σ 0 (.cutoff r) = .ok s' := by
  refine (C09_overrun σ s 0 r hr (by omega) (by omega)).2 ?_
  intro k hk
  rw [← cutoffList_length (List.getElem?_eq_getElem hk) (cutoffNbs_spec (List.getElem?_eq_getElem hk))]
  exact (cutoffNbs_le _ _ _ _).trans (by omega)

theorem twoAtoms_nbs_empty {s : System} (hlen : s.atoms.length = 2) (h1 : s.distOf 0 1 = 1) :
    cutoffNbs s (1 / 2) 0 0 = [] := by
  unfold cutoffNbs
  rw [List.map_eq_nil_iff, List.filter_eq_nil_iff, hlen]
  intro j hj
  have hj := List.mem_range.1 hj
  obtain rfl | rfl : j = 0 ∨ j = 1 := by omega
  · simp
  · rw [h1]; norm_num

theorem twoAtoms_nbs_ne {s : System} (hlen : s.atoms.length = 2) (h1 : s.distOf 0 1 = 1) :
    cutoffNbs s 2 0 0 ≠ [] := by
  unfold cutoffNbs
  rw [ne_eq, List.map_eq_nil_iff, List.filter_eq_nil_iff, hlen]
  intro h
  have := h 1 (List.mem_range.2 (by norm_num))
  rw [h1] at this
  norm_num [filterOK] at this

end Pyscal
