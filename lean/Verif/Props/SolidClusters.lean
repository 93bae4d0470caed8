import Verif.Props.Solids
import Verif.Props.Clusters
import Verif.Props.Energy

/-! C88: `find_solids` with clustering. -/

namespace Pyscal

/-- Everything of an atom that `find_solids(cluster=False)` does not calculate. -/
theorem solidAtom_rest (s : System) (p : ℕ × ℝ × ℝ × ℕ × ℝ) (a : Atom) :
    (solidAtom s p a).ghost = a.ghost ∧ (solidAtom s p a).nbrs = a.nbrs ∧ (solidAtom s p a).cutoff = a.cutoff ∧ (solidAtom s p a).pos = a.pos := by
  unfold solidAtom System.solid1
  split_ifs <;> exact ⟨rfl, rfl, rfl, rfl⟩

/-- `find_solids` with clustering is `find_solids` without, followed by `cluster_atoms("solid")`. -/
theorem findSolids_cluster (bonds threshold avgthreshold q : PyNum) (cutoff : ℝ) (right : Bool) (s s' : System) (r : Option ℕ) :
    System.findSolids bonds threshold avgthreshold true q cutoff right s = (s', .ok r) ↔
      ∃ t n, System.findSolids bonds threshold avgthreshold false q cutoff right s = (t, .ok none) ∧
        t.clusterAtoms condSolid cutoff = .ok (s', n) ∧ r = some n := by
  unfold System.findSolids
  cases hp : s.solidArgs bonds threshold avgthreshold q with
  | error e => simp
  | ok p =>
    dsimp only
    by_cases hs : s.NbrsInRange
    · have h2 : s.solidRun p true cutoff =
          (({ s.solidParams p with atoms := s.atoms.map (solidAtom s p) } : System).clusterAtoms condSolid cutoff).bind fun x => .ok (x.1, some x.2) := by
        have h1 := solidRun_eq s p cutoff hs
        unfold System.solidRun at h1 ⊢
        simp only [Bool.false_eq_true, if_false, if_true] at h1 ⊢
        cases hq : ({ s with criteria := p.2.2.2.1, solidq := p.1 } : System).ccalculateQ [p.1] with
        | error e => rw [hq] at h1; cases h1
        | ok s1 =>
          rw [hq] at h1
          simp only [bind, Except.bind] at h1 ⊢
          cases hf : ({ s1 with minfrenkel := p.2.2.2.2, threshold := p.2.1, avgthreshold := p.2.2.1 } : System).frenkelNumbers with
          | error e => rw [hf] at h1; cases h1
          | ok s2 =>
            rw [hf] at h1
            simp only [pure, Except.pure, Except.ok.injEq, Prod.mk.injEq, and_true] at h1 ⊢
            rw [h1]
      rw [h2, solidRun_eq s p cutoff hs]
      cases hc : ({ s.solidParams p with atoms := s.atoms.map (solidAtom s p) } : System).clusterAtoms condSolid cutoff with
      | error e =>
        simp only [Except.bind, Prod.mk.injEq, reduceCtorEq, and_false, false_iff, not_exists, not_and]
        rintro t n ⟨rfl, -⟩ h
        rw [hc] at h
        cases h
      | ok x =>
        simp only [Except.bind, Prod.mk.injEq, Except.ok.injEq]
        constructor
        · rintro ⟨rfl, rfl⟩
          exact ⟨_, x.2, ⟨rfl, trivial⟩, hc, rfl⟩
        · rintro ⟨t, n, ⟨rfl, -⟩, h, rfl⟩
          rw [hc] at h
          obtain rfl := Except.ok.inj h
          exact ⟨rfl, rfl⟩
    · rw [solidRun_oob s _ _ cutoff hs, solidRun_oob s _ _ cutoff hs]
      simp

/-- The state after `find_solids` without clustering. -/
theorem findSolids_store {s t : System} {bonds threshold avgthreshold q : PyNum} {cutoff : ℝ} {right : Bool} {r : Option ℕ} {reals : List Atom}
    (hi : StoreInv s reals) (h : System.findSolids bonds threshold avgthreshold false q cutoff right s = (t, .ok r)) :
    ∃ p, t = { s.solidParams p with atoms := s.atoms.map (solidAtom s p) } ∧ StoreInv t (reals.map (solidAtom s p)) ∧ s.NbrsInRange := by
  obtain ⟨l, tt, at', cr, b, he, -, -, -, -, -, -, -, hs, -⟩ := findSolids_ok h
  unfold System.findSolids at h
  rw [he] at h
  dsimp only at h
  rw [solidRun_eq s _ cutoff hs] at h
  obtain ⟨rfl, -⟩ := Prod.mk.inj h
  refine ⟨_, rfl, ?_, hs⟩
  obtain ⟨gs, ha, hg, hgn⟩ := hi.ex
  refine ⟨?_, ⟨gs.map (solidAtom s (l, tt, at', cr, b)), ?_, ?_, ?_⟩, ?_, ?_⟩
  · intro a hm
    obtain ⟨a', ha', rfl⟩ := List.mem_map.1 hm
    rw [(solidAtom_rest _ _ _).1]
    exact hi.real a' ha'
  · show s.atoms.map _ = _
    rw [← List.map_append]
    exact congrArg (List.map _) ha
  · intro a hm
    obtain ⟨a', ha', rfl⟩ := List.mem_map.1 hm
    rw [(solidAtom_rest _ _ _).1]
    exact hg a' ha'
  · rw [List.length_map]
    exact hgn
  · show s.nop = (s.atoms.map _).length
    rw [List.length_map]
    exact hi.nop
  · rw [List.length_map]
    exact hi.realNop

/-- Specification: atom `i` of the list is solid. -/
def Spec.SolidAt (l : List Atom) (i : ℕ) : Prop := ∃ a, l[i]? = some a ∧ a.issolid = true

/-- Specification: solid atoms `i` and `j` were neighbours in the search with cutoff `r` of the state `s`, and not
farther apart than the cutoff `c` of the clustering if one is given. -/
def Spec.SolidLink (s : System) (l : List Atom) (r : ℝ) (f : ℕ) (c : ℝ) (i j : ℕ) : Prop :=
  Spec.SolidAt l i ∧ Spec.SolidAt l j ∧
    ∃ a b, s.atoms[i]? = some a ∧ s.atoms[j]? = some b ∧ Spec.Near s r f i j a b ∧ (c ≠ 0 → s.getDistance b a ≤ c)

/-- **C88** (partial).  Full statement: after `find_neighbors` and `find_solids(cluster=True)` the atoms flagged solid
(with their bond numbers) are those flagged by `find_solids(cluster=False)`, the atoms that are not solid have cluster id
-1, two solid atoms have the same id iff a chain of solid neighbours joins them, and the number returned is the size
of the largest cluster, whose atoms are flagged; it is 0 iff no atom is solid.  Missing: chains through periodic
copies of padded systems (`C25_false_padded`) and the flags when no atom is solid (`C26_false`). -/
theorem C88_partial (σ : StdSort) (s s1 s2 : System) (reals : List Atom) (hi : StoreInv s reals) (f : ℕ) (r : ℝ) (hr : r ≠ 0)
    (hpx : Spec.PairsExact s r) (h1 : s.findNeighbors σ f (.cutoff r) = .ok s1) (bonds threshold avgthreshold q : PyNum) (c : ℝ) (right : Bool)
    (res : Option ℕ) (h2 : System.findSolids bonds threshold avgthreshold true q c right s1 = (s2, .ok res)) :
    ∃ t n l0 l lab, System.findSolids bonds threshold avgthreshold false q c right s1 = (t, .ok none) ∧ t.getAtoms = .ok l0 ∧
      res = some n ∧ s2.getAtoms = .ok l ∧ l.length = s.natoms ∧
      List.Forall₂ (fun a b : Atom => b.pos = a.pos ∧ b.nbrs = a.nbrs ∧ b.sij = a.sij ∧ b.frenkel = a.frenkel ∧ b.avq = a.avq ∧ b.issolid = a.issolid) l0 l ∧
      l.map Atom.belongsto = (List.range s.natoms).map lab ∧
      Spec.ComponentLabels s.natoms (Spec.SolidAt l) (Spec.SolidLink s l r f c) lab ∧
      (∀ t : ℤ, t ≠ -1 → (l.filter fun a => a.belongsto = t).length ≤ n) ∧
      ((∃ a ∈ l, a.issolid = true) → 0 < n ∧ ∃ t : ℤ, t ≠ -1 ∧ (l.filter fun a => a.belongsto = t).length = n ∧
        ∀ a ∈ l, a.lcluster = true ↔ a.belongsto = t) ∧
      ((∀ a ∈ l, a.issolid = false) → n = 0) := by
  obtain ⟨t, n, ht, hc, rfl⟩ := (findSolids_cluster _ _ _ _ _ _ _ _ _).1 h2
  obtain ⟨hi1, -⟩ := storeInv_any hr hpx h1 hi
  obtain ⟨hs1, -⟩ := cutoff_any hr hpx h1
  have hrn : s1.realNop = s.realNop := by rw [hs1]
  obtain ⟨p, ht', hit, -⟩ := findSolids_store hi1 ht
  set reals1 := (s1.atoms.take s.realNop).map (solidAtom s1 p) with hreals1
  have hlen1 : reals1.length = s.natoms := by
    have := hit.realNop
    rw [ht'] at this
    rw [← this]
    exact hrn
  have hatoms : t.atoms = s1.atoms.map (solidAtom s1 p) := by rw [ht']
  obtain ⟨l, lab, k1, k2, k3⟩ := cluster_after σ s s1 t s2 reals reals1 hi f r hr hpx h1 hit hlen1 (fun i a _ ha =>
    ⟨solidAtom s1 p a, by rw [hatoms, List.getElem?_map, ha]; rfl, (solidAtom_rest _ _ _).2.1, (solidAtom_rest _ _ _).2.2.1⟩) condSolid c n hc
  obtain ⟨l', m1, m2, m3⟩ := clusterAtoms_frame hit hc
  obtain rfl : l' = l := by rw [k1] at m1; exact (Except.ok.inj m1).symm
  obtain ⟨l'', n1, -, n3, n4, n5⟩ := C26_partial t s2 reals1 hit condSolid c n hc
  obtain rfl : l'' = l' := by rw [k1] at n1; exact (Except.ok.inj n1).symm
  rename' l'' => l
  have hll : l.length = s.natoms := by omega
  have hF : List.Forall₂ (fun a b : Atom => b.pos = a.pos ∧ b.nbrs = a.nbrs ∧ b.sij = a.sij ∧ b.frenkel = a.frenkel ∧ b.avq = a.avq ∧ b.issolid = a.issolid) reals1 l := by
    refine List.forall₂_iff_get.2 ⟨m2.symm, fun i hi1 hi2 => ?_⟩
    obtain ⟨b, v, g1, -, g2, -⟩ := m3 i reals1[i] (List.getElem?_eq_getElem hi1)
    rw [List.getElem?_eq_getElem hi2] at g1
    obtain rfl := Option.some.inj g1
    simp only [List.get_eq_getElem]
    rw [g2]
    exact ⟨rfl, rfl, rfl, rfl, rfl, rfl⟩
  have hsol : ∀ i, (∃ a, reals1[i]? = some a ∧ a.issolid = true) ↔ Spec.SolidAt l i := by
    intro i
    unfold Spec.SolidAt
    by_cases hlt : i < reals1.length
    · have hlt' : i < l.length := by omega
      have := ((List.forall₂_iff_get.1 hF).2 i hlt hlt').2.2.2.2.2
      simp only [List.get_eq_getElem] at this
      rw [List.getElem?_eq_getElem hlt, List.getElem?_eq_getElem hlt']
      simp [this]
    · rw [List.getElem?_eq_none (by omega), List.getElem?_eq_none (by omega)]
  obtain ⟨gs, hgs, -⟩ := hit.ex
  have hch : Spec.Chosen t s.natoms condSolid = Spec.SolidAt l := by
    funext i
    rw [← hsol i]
    unfold Spec.Chosen condSolid
    refine propext ⟨?_, ?_⟩
    · rintro ⟨hlt, a, v, ha, hv, hv0⟩
      rw [hgs, List.getElem?_append_left (by omega)] at ha
      refine ⟨a, ha, ?_⟩
      by_contra hns
      rw [if_neg hns] at hv
      exact hv0 (Except.ok.inj hv).symm
    · rintro ⟨a, ha, hs⟩
      have hlt := (List.getElem?_eq_some_iff.1 ha).1
      exact ⟨by omega, a, 1, by rw [hgs, List.getElem?_append_left hlt]; exact ha, by rw [if_pos hs], one_ne_zero⟩
  have hlk : Spec.Linked s t s.natoms condSolid r f c = Spec.SolidLink s l r f c := by
    funext i j
    unfold Spec.Linked Spec.SolidLink
    rw [hch]
  rw [hch, hlk] at k3
  have hmem : (∃ a ∈ l, a.issolid = true) ↔ ∃ a ∈ reals1, a.issolid = true := by
    simp only [List.mem_iff_getElem?]
    constructor
    · rintro ⟨a, ⟨i, hi'⟩, ha⟩
      obtain ⟨b, hb, hb'⟩ := (hsol i).2 ⟨a, hi', ha⟩
      exact ⟨b, ⟨i, hb⟩, hb'⟩
    · rintro ⟨a, ⟨i, hi'⟩, ha⟩
      obtain ⟨b, hb, hb'⟩ := (hsol i).1 ⟨a, hi', ha⟩
      exact ⟨b, ⟨i, hb⟩, hb'⟩
  refine ⟨t, n, reals1, l, lab, ht, getAtoms_inv hit, rfl, k1, hll, hF, k2, k3, n3, fun hex => n4 ?_, fun hall => n5 ?_⟩
  · obtain ⟨a, ha, ha'⟩ := hmem.1 hex
    exact ⟨a, ha, 1, by unfold condSolid; rw [if_pos ha'], one_ne_zero⟩
  · intro a ha
    unfold condSolid
    rw [if_neg]
    intro hs
    obtain ⟨b, hb, hb'⟩ := hmem.2 ⟨a, ha, hs⟩
    rw [hall b hb] at hb'
    cases hb'

/-- **C88, success**: with arguments in the documented ranges, `find_solids` with clustering succeeds after
`sys.atoms = ...` and a cutoff search. -/
theorem C88_run (σ : StdSort) (s0 s s1 : System) (l : List Atom) (hreal : ∀ a ∈ l, a.ghost = false) (hl : 0 < l.length)
    (hdet : Spec.Skew s0.getBox → s0.getBox.det ≠ 0) (h0 : s0.assignAtoms l = .ok s) (f : ℕ) (r : ℝ)
    (hr : r ≠ 0) (hpx : Spec.PairsExact s r) (h1 : s.findNeighbors σ f (.cutoff r) = .ok s1) (bonds threshold avgthreshold q : PyNum) (c : ℝ) (right : Bool)
    (hargs : Spec.SolidArgs s1 bonds threshold avgthreshold q) :
    ∃ s2 n, System.findSolids bonds threshold avgthreshold true q c right s1 = (s2, .ok (some n)) := by
  obtain ⟨extra, e1, e2, e3, e4, e5, e6, e7, -⟩ := assign_shape hreal h0
  have hi : StoreInv s l := ⟨hreal, ⟨extra, e1, fun a ha => (e2 a ha).1, e5⟩, by rw [e4, e1], e3⟩
  obtain ⟨hi1, hlen⟩ := storeInv_any hr hpx h1 hi
  obtain ⟨hs1, hal, hat⟩ := cutoff_any hr hpx h1
  have hbox : s1.getBox = s.getBox := by rw [hs1]; rfl
  have hgn : s1.ghostNop = s.ghostNop := by rw [hs1]
  replace hlen := hlen.trans e3
  have hrange : s1.NbrsInRange := by
    intro a ha x hx
    obtain ⟨k, hk⟩ := List.mem_iff_getElem?.1 ha
    obtain ⟨hk', hperm, -⟩ := hat k a hk
    obtain ⟨nb, h3, -⟩ := (cutoffNbs_spec (r := r) (f := f) (List.getElem?_eq_getElem hk')).2.2 x (hperm.mem_iff.1 hx)
    rw [hal]; exact (List.getElem?_eq_some_iff.1 h3).1
  obtain ⟨t, ht⟩ := (C24_find_solids s1 bonds threshold avgthreshold q false c right).2 hargs hrange
  obtain ⟨p, ht', hit, -⟩ := findSolids_store hi1 ht
  have hcs : ∀ a, condSolid a = .ok 0 ∨ condSolid a = .ok 1 := by
    intro a
    unfold condSolid
    cases a.issolid
    · exact .inl rfl
    · exact .inr rfl
  have htb : t.getBox = s.getBox := by rw [ht', ← hbox]; rfl
  obtain ⟨s2, n, h2⟩ := C25_succeeds t _ hit
    (by
      refine nbrsInRange_congr (s := s1) ?_ hrange
      rw [ht']
      simp only [List.map_map]
      exact List.map_congr_left fun a _ => (solidAtom_rest s1 p a).2.1)
    condSolid c (fun a _ => (hcs a).elim (fun h => ⟨_, h⟩) fun h => ⟨_, h⟩)
    ⟨_, List.getElem?_eq_getElem (by rw [List.length_map]; omega), hcs _⟩
    (by
      rw [List.length_map, hlen, htb]
      intro h200
      obtain ⟨g1, g2, g3, g4⟩ := e7 h200
      rw [g2]
      refine ⟨g3, hdet, ?_⟩
      rw [ht']
      show (s1.atoms.map _).length = _
      rw [List.length_map, hal, e1, List.length_append, g1, repNew_length]
      have hc := repCells_length (padReps l.length) (padReps l.length) (padReps l.length)
      have : (2 * padReps l.length + 1) ^ 3 = (repCells (padReps l.length) (padReps l.length) (padReps l.length)).length + 1 := by
        rw [hc]; ring
      rw [this]; ring)
    (by
      rw [List.length_map, hlen, ht']
      intro h200
      show s1.ghostNop = 0
      rw [hgn, e5, (e6 h200).1]; rfl)
  exact ⟨s2, n, (findSolids_cluster _ _ _ _ _ _ _ _ _).2 ⟨t, n, ht, h2, rfl⟩⟩

/-- The hypotheses of `C88_partial` and `C88_run` hold for 200 atoms in a row with the default arguments. -/
example (σ : StdSort) : ∃ s0 s s1 s2 : System, ∃ reals n, System.init.setBox (Spec.diagBox 1000 1000 1000) = .ok s0 ∧
    s0.assignAtoms chainAtoms = .ok s ∧ StoreInv s reals ∧ s.natoms = 200 ∧ s.findNeighbors σ 0 (.cutoff (3 / 2)) = .ok s1 ∧
    System.findSolids (.flt (1 / 2)) (.flt (1 / 2)) (.flt (3 / 5)) true (.int 6) 0 true s1 = (s2, .ok (some n)) := by
  obtain ⟨s0, s, h1, h2, hi, ha, -⟩ := chain_setup
  have hrn : s.realNop = 200 := by rw [hi.realNop, chainAtoms_length]
  have hal : s.atoms.length = 200 := by rw [ha, chainAtoms_length]
  have hlen := chainAtoms_length
  obtain ⟨s1, h3⟩ := (C09_overrun σ s 0 (3 / 2) (by norm_num) (by omega) (by omega)).2 (by
    intro k hk
    rw [← cutoffList_length (List.getElem?_eq_getElem hk) (cutoffNbs_spec (List.getElem?_eq_getElem hk))]
    exact (cutoffNbs_le _ _ _ _).trans (by omega))
  obtain ⟨-, hs1, -⟩ := findNeighbors_cutoff_ok (show (3 / 2 : ℝ) ≠ 0 by norm_num) (by omega) h3
  obtain ⟨f1, f2, -⟩ := setBox_frame h1
  have hnsk : ¬ Spec.Skew s0.getBox := by
    have : s0.getBox = Spec.diagBox 1000 1000 1000 := by simp [System.getBox, f1, f2, System.init]
    rw [this, ← skewed_iff]; exact not_skewed_diag _ _ _
  obtain ⟨s2, n, h4⟩ := C88_run σ s0 s s1 chainAtoms hi.real (by omega) (fun h => absurd h hnsk) h2 0 (3 / 2) (by norm_num) (.inl (by unfold System.natoms; omega)) h3
    (.flt (1 / 2)) (.flt (1 / 2)) (.flt (3 / 5)) (.int 6) 0 true
    ⟨by rw [hs1], ⟨6, rfl, by norm_num⟩, ⟨_, rfl, by norm_num⟩, ⟨_, rfl, by norm_num⟩, .inr ⟨_, rfl, by norm_num⟩⟩
  exact ⟨s0, s, s1, s2, chainAtoms, n, h1, h2, hi, hrn, h3, h4⟩

end Pyscal
