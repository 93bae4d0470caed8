import Verif.Lemmas.Cells
import Verif.Props.Cutoff

/-! C11: cell lists (used above 2300 atoms) against the double loop. -/

namespace Pyscal

open CellsOK

theorem contrib_none {s : System} (i j : ℕ) (h : ¬ s.distOf i j < s.neighbordistance) :
    cutoffHit s i j = none := by
  simp [cutoffHit, h]

/-- `{ s with voronoiused := false }` keeps the conditions. -/
theorem CellsOK.vor {s : System} {L1 L2 L3 : ℝ} (h : CellsOK s L1 L2 L3) :
    CellsOK { s with voronoiused := false } L1 L2 L3 :=
  ⟨h.pos, h.box, h.ortho, h.nd, h.one, h.inside⟩

theorem neighborsCells_eq {s : System} {L1 L2 L3 : ℝ} (h : CellsOK s L1 L2 L3) :
    s.neighborsCells = .ok (System.ofMem { s with voronoiused := false }
      (pairLoop (Atom.pushNbCut s.neighbordistance) (cutoffHit { s with voronoiused := false })
        (visited { s with voronoiused := false }) s.mem)) := by
  unfold System.neighborsCells
  simp only [h.vor.cellPairs_eq]
  rfl

/-- **C11**: in an axis-aligned orthogonal box with at least three cells along each axis and a
cutoff of at least 1e-6, and for coordinates within one box length of the box (but not in
`(-1e-6, 0)`), the cell-list search succeeds and gives every atom the same neighbours as the
double loop, up to the order of the list; everything else is identical. -/
theorem C11_cells_eq_brute (s : System) (hc : Spec.CellConditions s s.neighbordistance) :
    ∃ s', s.neighborsCells = .ok s' ∧ s'.atoms.length = s.atoms.length ∧
      { s' with atoms := [] } = { s.neighborsNormal with atoms := [] } ∧
      ∀ (k : ℕ) (a b : Atom), s'.atoms[k]? = some a → s.neighborsNormal.atoms[k]? = some b →
        a.nbrs.Perm b.nbrs ∧ { a with nbrs := [] } = { b with nbrs := [] } := by
  obtain ⟨L1, L2, L3, h, h3⟩ := cellsOK_of hc
  change CellsOK s L1 L2 L3 at h
  change ThreeCells s at h3
  refine ⟨_, neighborsCells_eq h, by simp, rfl, ?_⟩
  intro k a b ha hb
  have ha := mem_of_getElem? ha
  have hb := mem_of_getElem? hb
  have hk : k < s.atoms.length := by simpa using ha.1
  rw [ofMem_mem _ _ _ (by exact hk), pairLoop_apply _ _ _ (visited_ne _), foldl_pushNbCut] at ha
  have hb2 := hb.2
  unfold System.neighborsNormal at hb2
  rw [ofMem_mem _ _ _ (by exact hk), pairLoop_apply _ _ _ pairs_ne, foldl_pushNbCut] at hb2
  have hperm := h.vor.visited_contrib h3 (cutoffHit { s with voronoiused := false })
    (fun i j => contrib_none i j) k
  have ha2 := ha.2
  rw [← ha2, ← hb2]
  refine ⟨List.Perm.append_left _ hperm, ?_⟩
  have hnil : ∀ (c : Option ℝ) (d : ℝ),
      (if (visited { s with voronoiused := false }).flatMap (contrib (cutoffHit { s with voronoiused := false }) k) = []
        then c else some d) =
      if (pairs s.atoms.length).flatMap (contrib (cutoffHit { s with voronoiused := false }) k) = []
        then c else some d := by
    intro c d
    have : ((visited { s with voronoiused := false }).flatMap
        (contrib (cutoffHit { s with voronoiused := false }) k) = []) ↔
        (pairs s.atoms.length).flatMap (contrib (cutoffHit { s with voronoiused := false }) k) = [] :=
      ⟨fun hh => (hh ▸ hperm).nil_eq.symm ▸ rfl, fun hh => List.Perm.eq_nil (hh ▸ hperm)⟩
    simp only [this]
  simp only [hnil]
  rfl

/-- The hypotheses are met by `twoAtoms` with cutoff 3. -/
theorem twoAtoms_cells : Spec.CellConditions { twoAtoms with neighbordistance := 3 } 3 := by
  refine ⟨10, 10, 10, rfl, rfl, by norm_num, by norm_num, by norm_num, by norm_num, ?_⟩
  intro a ha
  have : a = { pos := ⟨1, 1, 1⟩ } ∨ a = { pos := ⟨2, 1, 1⟩, type := 2 } := by simpa [twoAtoms] using ha
  rcases this with rfl | rfl <;> (simp only [Spec.CellBinned]; norm_num)

theorem CellsOK.start {s : System} {L1 L2 L3 r : ℝ} (f : ℕ)
    (h : CellsOK { s with neighbordistance := r } L1 L2 L3) :
    CellsOK { s.startSearch f with neighbordistance := r } L1 L2 L3 := by
  refine ⟨h.pos, h.box, h.ortho, h.nd, h.one, ?_⟩
  intro i hi
  have hp : System.posOf { s.startSearch f with neighbordistance := r } i = s.posOf i := resetAll_posOf s i
  rw [hp]
  exact h.inside i (by rw [← resetAll_length s]; exact hi)

theorem _root_.Pyscal.Spec.CellConditions.start {s : System} {r : ℝ} (f : ℕ) (h : Spec.CellConditions s r) :
    Spec.CellConditions { s.startSearch f with neighbordistance := r } r := by
  obtain ⟨L1, L2, L3, hb, ht, hR, h1, h2, h3, hin⟩ := h
  refine ⟨L1, L2, L3, hb, ht, hR, h1, h2, h3, ?_⟩
  intro a ha
  obtain ⟨b, hb, rfl⟩ := List.mem_map.1 ha
  exact hin b hb

/-- `find_neighbors` with a numeric cutoff and more than 2300 atoms. -/
theorem findNeighbors_cutoff_large (σ : StdSort) (s : System) (f : ℕ) (r : ℝ) (hr : r ≠ 0)
    (hn : 2300 < s.realNop) (hle : s.realNop ≤ s.atoms.length) :
    s.findNeighbors σ f (.cutoff r) =
      (do
        let s' ← System.neighborsCells { s.startSearch f with neighbordistance := r }
        let s' ← s'.checkCapacity
        return { s' with neighborsFound := true }) := by
  have hg : System.getAtoms { s.startSearch f with neighbordistance := r } =
      .ok ((s.resetAllNeighbors.atoms).take s.realNop) := by
    unfold System.getAtoms
    rw [if_pos]
    · rfl
    · exact hle.trans (resetAll_length s).ge
  simp only [System.findNeighbors, System.search, if_neg hr, System.searchCutoff]
  change (do
    let s ← (do
      let l ← System.getAtoms { s.startSearch f with neighbordistance := r }
      if l.length > 2300 then System.neighborsCells { s.startSearch f with neighbordistance := r }
      else return System.neighborsNormal { s.startSearch f with neighbordistance := r })
    let s ← s.checkCapacity
    return { s with neighborsFound := true }) = _
  rw [hg]
  have : (s.resetAllNeighbors.atoms.take s.realNop).length > 2300 := by
    rw [List.length_take, resetAll_length]; omega
  simp only [bind, Except.bind, if_pos this, pure, Except.pure]

theorem CutoffList.perm {s : System} {r : ℝ} {f k : ℕ} {a : Atom} {l l' : List Nb} (hp : l'.Perm l)
    (h : Spec.CutoffList s r f k a l) : Spec.CutoffList s r f k a l' := by
  refine ⟨(hp.map Nb.idx).nodup_iff.2 h.1, ?_, ?_⟩
  · intro j nb hj hn
    obtain ⟨x, hx, he⟩ := h.2.1 j nb hj hn
    exact ⟨x, hp.mem_iff.2 hx, he⟩
  · intro x hx
    exact h.2.2 x (hp.mem_iff.1 hx)

/-- **C11** at the level of the API: with more than 2300 atoms `find_neighbors(cutoff=r)` also
gives every atom exactly its neighbours within `r`, under the conditions of
`C11_cells_eq_brute`. -/
theorem C11_partial (σ : StdSort) (s s' : System) (f : ℕ) (r : ℝ)
    (hn : 2300 < s.realNop) (hok : Spec.CellConditions s r)
    (h : s.findNeighbors σ f (.cutoff r) = .ok s') :
    Spec.SameGeometry s s' ∧ s'.neighborsFound = true ∧
    ∀ (k : ℕ) (a a' : Atom), s.atoms[k]? = some a → s'.atoms[k]? = some a' →
      Spec.CutoffList s r f k a a'.nbrs ∧ a'.nbrs.length = (Spec.nearSet s r f k).ncard ∧
        a'.nbrs.length ≤ 300 ∧ (a'.nbrs ≠ [] → a'.cutoff = some r) := by
  have hr : r ≠ 0 := by
    obtain ⟨-, -, -, -, -, h1, -⟩ := hok
    intro h0
    rw [h0] at h1
    norm_num at h1
  by_cases hle : s.realNop ≤ s.atoms.length
  swap
  · rw [findNeighbors_cutoff_oob σ s f r hr hle] at h; cases h
  rw [findNeighbors_cutoff_large σ s f r hr hn hle] at h
  obtain ⟨c, hc, hlen, hfr, hnb⟩ := C11_cells_eq_brute { s.startSearch f with neighbordistance := r } (hok.start f)
  rw [hc] at h
  change (do
    let s' ← c.checkCapacity
    return { s' with neighborsFound := true }) = Except.ok s' at h
  rcases hcc : c.checkCapacity with e | c2
  · rw [hcc] at h; cases h
  rw [hcc] at h
  obtain ⟨rfl, hcap⟩ := checkCapacity_ok hcc
  have h' : { c2 with neighborsFound := true } = s' := Except.ok.inj h
  have hlen' : c2.atoms.length = s.atoms.length := hlen.trans (resetAll_length s)
  have hNlen : (System.neighborsNormal { s.startSearch f with neighbordistance := r }).atoms.length =
      s.atoms.length := by rw [neighborsNormal_length]; exact resetAll_length s
  have hatom : ∀ (k : ℕ) (a' : Atom), c2.atoms[k]? = some a' → k < s.atoms.length ∧
      a'.nbrs.Perm (cutoffAtom s r f k).nbrs ∧ { a' with nbrs := [] } = { cutoffAtom s r f k with nbrs := [] } := by
    intro k a' ha'
    have hk : k < s.atoms.length := by rw [← hlen']; exact (mem_of_getElem? ha').1
    have hb := List.getElem?_eq_getElem (l := (System.neighborsNormal
      { s.startSearch f with neighbordistance := r }).atoms) (i := k) (by rw [hNlen]; exact hk)
    have hbe := neighborsNormal_start s r f k hk
    rw [mem_eq_getElem _ _ (by rw [hNlen]; exact hk)] at hbe
    rw [hbe] at hb
    exact ⟨hk, hnb k a' _ ha' hb⟩
  subst h'
  have hbox : c2.box = s.box ∧ c2.rot = s.rot ∧ c2.rotinv = s.rotinv ∧ c2.triclinic = s.triclinic := by
    have e1 := congrArg System.box hfr
    have e2 := congrArg System.rot hfr
    have e3 := congrArg System.rotinv hfr
    have e4 := congrArg System.triclinic hfr
    exact ⟨e1, e2, e3, e4⟩
  refine ⟨⟨?_, fun a b => image_frame hbox.1 hbox.2.1 hbox.2.2.1 hbox.2.2.2 _⟩, rfl, ?_⟩
  · refine List.ext_getElem (by simp [hlen']) fun k hk hk' => ?_
    simp only [List.length_map] at hk hk'
    obtain ⟨-, -, h2⟩ := hatom k c2.atoms[k] (List.getElem?_eq_getElem hk)
    have hp := congrArg Atom.pos h2
    have ht := congrArg Atom.type h2
    simp only [cutoffAtom, mem_eq_getElem s k hk'] at hp ht
    simp [hp, ht]
  · intro k a a' hk hk'
    obtain ⟨hkl, hperm, hrest⟩ := hatom k a' hk'
    have hspec : Spec.CutoffList s r f k a a'.nbrs := CutoffList.perm hperm (cutoffNbs_spec hk)
    refine ⟨hspec, cutoffList_length hk hspec, hcap a' (List.mem_of_getElem? hk'), fun hne => ?_⟩
    have hne' : cutoffNbs s r f k ≠ [] := by
      intro h0
      apply hne
      have : a'.nbrs.Perm (cutoffNbs s r f k) := hperm
      rw [h0] at this
      exact this.eq_nil
    have hcut := congrArg Atom.cutoff hrest
    simpa [cutoffAtom, hne'] using hcut

/-- **C11**, success: in these conditions the only way to fail is to have more than 300 neighbours, which overrun the
fixed arrays. -/
theorem C11_succeeds (σ : StdSort) (s : System) (f : ℕ) (r : ℝ)
    (hn : 2300 < s.realNop) (hle : s.realNop ≤ s.atoms.length) (hok : Spec.CellConditions s r) :
    (∃ s', s.findNeighbors σ f (.cutoff r) = .ok s') ↔
      ∀ k < s.atoms.length, (Spec.nearSet s r f k).ncard ≤ 300 := by
  have hr : r ≠ 0 := by
    obtain ⟨-, -, -, -, -, h1, -⟩ := hok
    intro h0
    rw [h0] at h1
    norm_num at h1
  constructor
  · rintro ⟨s', h⟩ k hk
    have h2 := C11_partial σ s s' f r hn hok h
    have hlen : s'.atoms.length = s.atoms.length := by
      have := congrArg List.length h2.1.1
      simpa using this
    have h3 := h2.2.2 k _ _ (List.getElem?_eq_getElem hk) (List.getElem?_eq_getElem (by omega))
    rw [← h3.2.1]
    exact h3.2.2.1
  · intro hall
    rw [findNeighbors_cutoff_large σ s f r hr hn hle]
    obtain ⟨c, hc, hlen, hfr, hnb⟩ := C11_cells_eq_brute { s.startSearch f with neighbordistance := r } (hok.start f)
    rw [hc]
    change ∃ s', (do
      let s' ← c.checkCapacity
      return { s' with neighborsFound := true }) = Except.ok s'
    have hlen' : c.atoms.length = s.atoms.length := hlen.trans (resetAll_length s)
    have hNlen : (System.neighborsNormal { s.startSearch f with neighbordistance := r }).atoms.length =
        s.atoms.length := by rw [neighborsNormal_length]; exact resetAll_length s
    unfold System.checkCapacity
    rw [if_neg]
    · exact ⟨_, rfl⟩
    · rintro ⟨a', ha', hgt⟩
      obtain ⟨k, hk, he⟩ := List.getElem_of_mem ha'
      have hk' : k < s.atoms.length := by omega
      have hb := List.getElem?_eq_getElem (l := (System.neighborsNormal
        { s.startSearch f with neighbordistance := r }).atoms) (i := k) (by rw [hNlen]; exact hk')
      have hbe := neighborsNormal_start s r f k hk'
      rw [mem_eq_getElem _ _ (by rw [hNlen]; exact hk')] at hbe
      rw [hbe] at hb
      have hp := (hnb k a' _ (by rw [← he]; exact List.getElem?_eq_getElem hk) hb).1
      have hspec : Spec.CutoffList s r f k (s.atoms[k]) a'.nbrs :=
        CutoffList.perm hp (cutoffNbs_spec (List.getElem?_eq_getElem hk'))
      have := cutoffList_length (List.getElem?_eq_getElem hk') hspec
      have := hall k hk'
      omega

/-! ### Fewer than three cells -/

/-- Atom 0 at x = 9 and atom 1 at x = 0 of a box of edge 10 along x, and `N - 2` more atoms far away
from these along y. -/
noncomputable def bigSys (N : ℕ) : System :=
  { atoms := (List.range N).map fun (i : ℕ) =>
      if i = 0 then { pos := ⟨9, 0, 0⟩ } else { pos := ⟨0, 10 * ((i : ℝ) - 1), 0⟩ },
    nop := N, realNop := N, box := Spec.diagBox 10 100000 10 }

theorem bigSys_cells (N : ℕ) (hN : N ≤ 10000) : CellsOK { bigSys N with neighbordistance := 4 } 10 100000 10 ∧
    System.nx { bigSys N with neighbordistance := 4 } = 2 ∧ System.boxx (bigSys N) = 10 ∧
    System.boxy (bigSys N) = 100000 ∧ System.boxz (bigSys N) = 10 ∧
    System.ny { bigSys N with neighbordistance := 4 } = 25000 ∧
    System.nz { bigSys N with neighbordistance := 4 } = 2 := by
  have hn : cellCount 10 4 = 2 := by
    unfold cellCount truncZ
    rw [if_pos (by norm_num), Int.floor_eq_iff]
    norm_num
  have hn' : cellCount 100000 4 = 25000 := by
    unfold cellCount truncZ
    rw [if_pos (by norm_num), Int.floor_eq_iff]
    norm_num
  have hb : System.boxx (bigSys N) = 10 ∧ System.boxy (bigSys N) = 100000 ∧ System.boxz (bigSys N) = 10 := by
    simp only [System.boxx, System.boxy, System.boxz, bigSys, Spec.diagBox]
    rw [norm_axis_x _ (by norm_num), norm_axis_y _ (by norm_num), norm_axis_z _ (by norm_num)]
    exact ⟨rfl, rfl, rfl⟩
  have h1 : System.nx { bigSys N with neighbordistance := 4 } = 2 ∧
      System.ny { bigSys N with neighbordistance := 4 } = 25000 ∧
      System.nz { bigSys N with neighbordistance := 4 } = 2 := by
    change cellCount (System.boxx (bigSys N)) 4 = 2 ∧ cellCount (System.boxy (bigSys N)) 4 = 25000 ∧
      cellCount (System.boxz (bigSys N)) 4 = 2
    rw [hb.1, hb.2.1, hb.2.2]
    exact ⟨hn, hn', hn⟩
  refine ⟨⟨by norm_num, rfl, rfl, by norm_num, ?_, ?_⟩, h1.1, hb.1, hb.2.1, hb.2.2, h1.2.1, h1.2.2⟩
  · rw [h1.1, h1.2.1, h1.2.2]; norm_num
  · intro i hi
    have hi : i < N := by simpa [bigSys] using hi
    have hi' : (i : ℝ) + 1 ≤ 10000 := by exact_mod_cast (show i + 1 ≤ 10000 by omega)
    have hp : System.posOf { bigSys N with neighbordistance := 4 } i =
        if i = 0 then ⟨9, 0, 0⟩ else ⟨0, 10 * ((i : ℝ) - 1), 0⟩ := by
      simp only [System.posOf, System.mem, bigSys]
      rw [List.getD_eq_getElem?_getD, List.getElem?_map, List.getElem?_range hi]
      by_cases h0 : i = 0 <;> simp [h0]
    rw [hp]
    by_cases h0 : i = 0
    · rw [if_pos h0]; simp only [BinRange]; norm_num
    · have : (1 : ℝ) ≤ i := by exact_mod_cast Nat.one_le_iff_ne_zero.2 h0
      rw [if_neg h0]; simp only [BinRange]
      norm_num
      refine ⟨by linarith, by linarith, Or.inl (by omega)⟩

/-- **C11 is false with fewer than three cells along an axis**: in `bigSys N` (more than 2300 atoms inside an
orthogonal box, cutoff 4, box edge 10) the search lists atom 1 at least twice among the
neighbours of atom 0, so `find_neighbors` does not return the neighbours within the cutoff. -/
theorem C11_false_two_cells (σ : StdSort) (N : ℕ) (hN1 : 2300 < N) (hN2 : N ≤ 10000) :
    ¬ ∃ s' a a', (bigSys N).findNeighbors σ 0 (.cutoff 4) = .ok s' ∧ (bigSys N).atoms[0]? = some a ∧
      s'.atoms[0]? = some a' ∧ Spec.CutoffList (bigSys N) 4 0 0 a a'.nbrs := by
  rintro ⟨s', a, a', h, ha, ha', hspec⟩
  obtain ⟨hok, hnx, hbx, hby, hbz, hny, hnz⟩ := bigSys_cells N hN2
  have hlen : (bigSys N).atoms.length = N := by simp [bigSys]
  rw [findNeighbors_cutoff_large σ (bigSys N) 0 4 (by norm_num) hN1 (by rw [hlen]; exact le_rfl)] at h
  set s1 : System := { (bigSys N).startSearch 0 with neighbordistance := 4 } with hs1
  have hok1 : CellsOK s1 10 100000 10 := hok.start 0
  rw [neighborsCells_eq hok1] at h
  set s2 : System := { s1 with voronoiused := false } with hs2
  have hok2 : CellsOK s2 10 100000 10 := hok1.vor
  set c := s2.ofMem (pairLoop (Atom.pushNbCut s1.neighbordistance) (cutoffHit s2) (visited s2) s1.mem) with hc
  change (do
    let s' ← c.checkCapacity
    return { s' with neighborsFound := true }) = Except.ok s' at h
  rcases hcc : c.checkCapacity with e | c2
  · rw [hcc] at h; cases h
  rw [hcc] at h
  obtain ⟨rfl, -⟩ := checkCapacity_ok hcc
  have h' : { c with neighborsFound := true } = s' := Except.ok.inj h
  subst h'
  have hlen2 : s2.atoms.length = N := (resetAll_length (bigSys N)).trans hlen
  have hm := (mem_of_getElem? (s := c) ha').2
  rw [hc, ofMem_mem _ _ _ (by rw [hlen2]; omega), pairLoop_apply _ _ _ (visited_ne _), foldl_pushNbCut] at hm
  -- positions
  have hp0 : s2.posOf 0 = ⟨9, 0, 0⟩ := by
    have : s2.posOf 0 = (bigSys N).posOf 0 := resetAll_posOf (bigSys N) 0
    rw [this]
    simp [System.posOf, System.mem, bigSys, List.getElem?_range (show 0 < N by omega)]
  have hp1 : s2.posOf 1 = ⟨0, 0, 0⟩ := by
    have : s2.posOf 1 = (bigSys N).posOf 1 := resetAll_posOf (bigSys N) 1
    rw [this]
    simp [System.posOf, System.mem, bigSys, List.getElem?_range (show 1 < N by omega)]
  have hbx2 : s2.boxx = 10 := hbx
  have hby2 : s2.boxy = 100000 := hby
  have hbz2 : s2.boxz = 10 := hbz
  have hnx2 : s2.nx = 2 := hnx
  have hny2 : s2.ny = 25000 := hny
  have hnz2 : s2.nz = 2 := hnz
  have hc0 : (cell3 s2 0).1 = 1 := by
    simp only [cell3, hp0, hbx2, hnx2, cellCoord, binCoord, truncZ]
    norm_num
  have hc1 : (cell3 s2 1).1 = 0 := by
    simp only [cell3, hp1, hbx2, hnx2, cellCoord, binCoord, truncZ]
    norm_num
  have hyz : (cell3 s2 1).2 = (cell3 s2 0).2 := by
    simp only [cell3, hp0, hp1]
  have hdup := hok2.two_cells_dup hnx2 (i := 0) (j := 1) (by norm_num) (by rw [hlen2]; omega) hc0 hc1 hyz
  have hd : s2.distOf 0 1 = 1 := by
    have e : s2.diffOf 0 1 = ⟨1, 0, 0⟩ := by
      simp only [System.diffOf, System.diffIdx, System.image, hok2.ortho, hp0, hp1, hbx2, hby2, hbz2, wrap]
      norm_num
    have : s2.distOf 0 1 = V3.norm (s2.diffOf 0 1) := rfl
    rw [this, e]
    exact norm_axis_x _ (by norm_num)
  have hhit : contrib (cutoffHit s2) 0 (0, 1) = [s2.mkNb 0 1] := by
    have hnd : s2.neighbordistance = 4 := rfl
    have hf : s2.filter = 0 := rfl
    simp only [contrib, cutoffHit, hd, hnd, hf]
    norm_num [filterOK, System.mkNb, hd]
  have hsub : [s2.mkNb 0 1, s2.mkNb 0 1].Sublist a'.nbrs := by
    rw [← hm]
    refine List.Sublist.trans ?_ (List.sublist_append_right _ _)
    have := sublist_flatMap hdup (contrib (cutoffHit s2) 0)
    simpa only [List.flatMap_cons, List.flatMap_nil, List.append_nil, hhit, List.singleton_append] using this
  have hnd := hspec.1.sublist (hsub.map Nb.idx)
  simp at hnd

/-- 2301 is such a number of atoms. -/
example : (2300 < 2301) ∧ (2301 ≤ 10000) := by norm_num

/-- Only the atoms 0 and 1 have neighbours within 3. -/
theorem bigSys_near (N : ℕ) (hN : N ≤ 5000) (k : ℕ) : Spec.nearSet (bigSys N) 3 0 k ⊆ {0, 1} := by
  have hat : ∀ (i : ℕ) (a : Atom), (bigSys N).atoms[i]? = some a →
      i < N ∧ a.pos.y = 10 * ((i - 1 : ℕ) : ℝ) ∧ (a.pos.x = 9 ∨ a.pos.x = 0) ∧ a.pos.z = 0 := by
    intro i a ha
    simp only [bigSys, List.getElem?_map, Option.map_eq_some_iff] at ha
    obtain ⟨j, hj, rfl⟩ := ha
    rw [List.getElem?_eq_some_iff] at hj
    obtain ⟨hlt, hj⟩ := hj
    rw [List.getElem_range] at hj
    subst hj
    rw [List.length_range] at hlt
    by_cases h0 : i = 0
    · subst h0
      simp [hlt]
    · obtain ⟨m, rfl⟩ := Nat.exists_eq_succ_of_ne_zero h0
      simp [hlt]
  have hbx : System.boxx (bigSys N) = 10 ∧ System.boxy (bigSys N) = 100000 ∧ System.boxz (bigSys N) = 10 := by
    simp only [System.boxx, System.boxy, System.boxz, bigSys, Spec.diagBox]
    rw [norm_axis_x _ (by norm_num), norm_axis_y _ (by norm_num), norm_axis_z _ (by norm_num)]
    exact ⟨rfl, rfl, rfl⟩
  rintro j ⟨host, nb, hh, hj, hne, hd, -⟩
  obtain ⟨k1, k2, k3, k4⟩ := hat k host hh
  obtain ⟨j1, j2, j3, j4⟩ := hat j nb hj
  by_contra hc
  simp only [Set.mem_insert_iff, Set.mem_singleton_iff, not_or] at hc
  have hy : (k - 1 : ℕ) ≠ j - 1 := by omega
  set u : ℝ := ((k - 1 : ℕ) : ℝ) with hu
  set v : ℝ := ((j - 1 : ℕ) : ℝ) with hv
  have hu0 : 0 ≤ u := Nat.cast_nonneg _
  have hv0 : 0 ≤ v := Nat.cast_nonneg _
  have hu1 : u ≤ 5000 := by rw [hu]; exact_mod_cast (by omega : k - 1 ≤ 5000)
  have hv1 : v ≤ 5000 := by rw [hv]; exact_mod_cast (by omega : j - 1 ≤ 5000)
  have hgap : 1 ≤ |v - u| := by
    rcases lt_or_gt_of_ne hy with h | h
    · have : u + 1 ≤ v := by rw [hu, hv]; exact_mod_cast h
      rw [abs_of_nonneg] <;> linarith
    · have : v + 1 ≤ u := by rw [hu, hv]; exact_mod_cast h
      rw [abs_of_nonpos] <;> linarith
  have e : |((bigSys N).getDistanceVector nb host).y| = 10 * |v - u| := by
    rw [← abs_of_nonneg (show (0 : ℝ) ≤ 10 by norm_num), ← abs_mul]
    have hw : ∀ d : ℝ, -50000 ≤ d → d ≤ 50000 → wrap 100000 d = d := by
      intro d h1 h2
      simp only [wrap]
      rw [if_neg (show ¬ d > 100000 / 2 by linarith), if_neg (by linarith)]
    simp only [System.getDistanceVector, System.image, show (bigSys N).triclinic = false from rfl, hbx.1, hbx.2.1,
      hbx.2.2]
    simp only [Bool.false_eq_true, if_false, V3.sub_y, k2, j2]
    rw [hw _ (by linarith) (by linarith)]
    first
      | (congr 1; ring; done)
      | (rw [abs_sub_comm]; congr 1; ring)
  have h : V3.norm ⟨0, 10 * |v - u|, 0⟩ ≤ V3.norm ((bigSys N).getDistanceVector nb host) :=
    norm_le_norm (by simp) (by rw [e, abs_of_nonneg (by positivity)]) (by simp)
  rw [norm_axis_y _ (by positivity)] at h
  have h2 : (bigSys N).getDistance nb host = V3.norm ((bigSys N).getDistanceVector nb host) := rfl
  linarith

/-- The hypotheses of `C11_partial` and `C11_succeeds` hold for the same atoms and a cutoff of 3. -/
theorem bigSys_three (N : ℕ) (hN : N ≤ 5000) : Spec.CellConditions (bigSys N) 3 ∧
    ∀ k < (bigSys N).atoms.length, (Spec.nearSet (bigSys N) 3 0 k).ncard ≤ 300 := by
  have hat : ∀ (i : ℕ) (a : Atom), (bigSys N).atoms[i]? = some a →
      i < N ∧ a.pos.y = 10 * ((i - 1 : ℕ) : ℝ) ∧ (a.pos.x = 9 ∨ a.pos.x = 0) ∧ a.pos.z = 0 := by
    intro i a ha
    simp only [bigSys, List.getElem?_map, Option.map_eq_some_iff] at ha
    obtain ⟨j, hj, rfl⟩ := ha
    rw [List.getElem?_eq_some_iff] at hj
    obtain ⟨hlt, hj⟩ := hj
    rw [List.getElem_range] at hj
    subst hj
    rw [List.length_range] at hlt
    by_cases h0 : i = 0
    · subst h0
      simp [hlt]
    · obtain ⟨m, rfl⟩ := Nat.exists_eq_succ_of_ne_zero h0
      simp [hlt]
  have hbx : System.boxx (bigSys N) = 10 ∧ System.boxy (bigSys N) = 100000 ∧ System.boxz (bigSys N) = 10 := by
    simp only [System.boxx, System.boxy, System.boxz, bigSys, Spec.diagBox]
    rw [norm_axis_x _ (by norm_num), norm_axis_y _ (by norm_num), norm_axis_z _ (by norm_num)]
    exact ⟨rfl, rfl, rfl⟩
  constructor
  · refine ⟨10, 100000, 10, rfl, rfl, by norm_num, by norm_num, by norm_num, by norm_num, ?_⟩
    intro a ha
    obtain ⟨i, hi⟩ := List.mem_iff_getElem?.1 ha
    obtain ⟨h1, h2, h3, h4⟩ := hat i a hi
    have h5 : ((i - 1 : ℕ) : ℝ) ≤ 5000 := by exact_mod_cast (by omega : i - 1 ≤ 5000)
    have h6 : (0 : ℝ) ≤ ((i - 1 : ℕ) : ℝ) := Nat.cast_nonneg _
    refine ⟨?_, ?_, ?_⟩
    · rcases h3 with h | h <;> rw [h] <;> (simp only [Spec.CellBinned]; norm_num)
    · rw [h2]
      exact ⟨by linarith, by linarith, Or.inl (by linarith)⟩
    · rw [h4]; simp only [Spec.CellBinned]; norm_num
  · intro k hk
    have hsub := bigSys_near N hN k
    refine (Set.ncard_le_ncard hsub (by simp)).trans ?_
    refine (Set.ncard_insert_le _ _).trans ?_
    simp

example (σ : StdSort) : ∃ s', (bigSys 2301).findNeighbors σ 0 (.cutoff 3) = .ok s' :=
  (C11_succeeds σ (bigSys 2301) 0 3 (by simp [bigSys]) (by simp [bigSys]) (bigSys_three 2301 (by norm_num)).1).2
    (bigSys_three 2301 (by norm_num)).2

end Pyscal
