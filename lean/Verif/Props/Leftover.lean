import Verif.Props.Energy
import Verif.Props.Padded
import Verif.Props.Frame

/-! What clustering leaves behind for later order parameters (C57). -/

namespace Pyscal

theorem clusterAtoms_voronoiused {s s' : System} {reals : List Atom} {cond : Atom → Except Fault ℤ} {c : ℝ} {n : ℕ}
    (hi : StoreInv s reals) (h : s.clusterAtoms cond c = .ok (s', n)) : s'.voronoiused = s.voronoiused := by
  obtain ⟨new, t1, t2, a1, a2, a3, a4, a5⟩ := clusterAtoms_ok hi h
  obtain ⟨-, -, b3, -, -⟩ := cluster_state hi a1 a4 a5
  obtain ⟨c1, c2⟩ := findClusters_inRange a2
  obtain ⟨lab, hb, -, -⟩ := findClusters_ok t1 c c1 c2
  rw [a2] at hb
  have e1 : t2.voronoiused = t1.voronoiused := by rw [Except.ok.inj hb]; rfl
  have e2 : s'.voronoiused = t2.voronoiused := by
    unfold System.largestCluster at a3
    split_ifs at a3
    have := congrArg (fun x => x.1) (Except.ok.inj a3)
    dsimp only at this
    rw [← this]
    rfl
  rw [e2, e1, b3.eq]

theorem clusterAtoms_inRange {s s' : System} {reals : List Atom} {cond : Atom → Except Fault ℤ} {c : ℝ} {n : ℕ}
    (hi : StoreInv s reals) (h : s.clusterAtoms cond c = .ok (s', n)) : s'.NbrsInRange := by
  obtain ⟨new, t1, t2, a1, a2, a3, a4, a5⟩ := clusterAtoms_ok hi h
  obtain ⟨c1, c2⟩ := findClusters_inRange a2
  obtain ⟨lab, hb, -, -⟩ := findClusters_ok t1 c c1 c2
  rw [a2] at hb
  have hlen2 : t2.atoms.length = t1.atoms.length := by
    rw [Except.ok.inj hb, ofMem_length, clusterStart_length]
  obtain ⟨-, -, d3, -, -, d6⟩ := largestCluster_ok a3
  intro a ha x hx
  obtain ⟨k, hk, rfl⟩ := List.getElem_of_mem ha
  have hk1 : k < t1.atoms.length := by omega
  have e1 : t2.atoms[k]? = some { t1.atoms[k] with cutoff := if c ≠ 0 then some c else t1.atoms[k].cutoff, belongsto := lab k } := by
    rw [Except.ok.inj hb]
    exact findClusters_atom (List.getElem?_eq_getElem hk1)
  obtain ⟨b, e2, -, -, e5⟩ := d6 k _ e1
  rw [List.getElem?_eq_getElem hk] at e2
  rw [Option.some.inj e2, e5] at hx
  rw [d3, hlen2]
  exact c1 _ (List.getElem_mem hk1) x hx

/-- **C57 for clustering**: `cluster_atoms` (and `find_solids`, which calls it by default) leaves its condition on the atoms, and
`calculate_q` skips neighbours with another condition.  So in every system, an atom none of whose neighbours shares its
condition has NaN as q value afterwards. -/
theorem C57_cluster (s s' t : System) (reals : List Atom) (hi : StoreInv s reals) (hv : s.voronoiused = false)
    (cond : Atom → Except Fault ℤ) (c : ℝ) (n : ℕ) (h : s.clusterAtoms cond c = .ok (s', n)) (l : ℕ) (ht : s'.calculateQ [(l : ℤ)] = .ok t)
    (k : ℕ) (a : Atom) (hk : reals[k]? = some a) (hall : ∀ x ∈ a.nbrs, ∃ b, reals[x.idx]? = some b ∧ cond b ≠ cond a) :
    ∃ a', t.atoms[k]? = some a' ∧ a'.q l = none := by
  obtain ⟨L, hL, hlen, hat⟩ := clusterAtoms_frame hi h
  have hget : ∀ (i : ℕ) (b : Atom), L[i]? = some b → s'.atoms[i]? = some b := by
    intro i b hib
    unfold System.getAtoms at hL
    split_ifs at hL with hle
    obtain rfl := Except.ok.inj hL
    rw [List.getElem?_take] at hib
    split_ifs at hib
    exact hib
  obtain ⟨b, v, h1, h2, h3, -⟩ := hat k a hk
  have hb := hget k b h1
  have hkt : k < t.atoms.length := by
    obtain ⟨-, -, e⟩ := calculateQ_ok ht
    rw [e]
    have := (List.getElem?_eq_some_iff.1 hb).1
    simpa [System.afterQ] using this
  refine ⟨t.atoms[k], List.getElem?_eq_getElem hkt, ?_⟩
  rw [(calculateQ_q ht hb (List.getElem?_eq_getElem hkt) l).1, if_pos (by simp)]
  have hq : s'.qNbrs b = [] := by
    unfold System.qNbrs
    rw [List.filter_eq_nil_iff]
    intro x hx
    have hx : x ∈ a.nbrs := by rw [h3] at hx; exact hx
    obtain ⟨b', e1, e2⟩ := hall x hx
    obtain ⟨d, w, g1, g2, g3, -⟩ := hat x.idx b' e1
    have hd : (s'.mem x.idx).condition = some w := by
      rw [(mem_of_getElem? (hget _ _ g1)).2, g3]
    have hbc : b.condition = some v := by rw [h3]
    rw [hd, hbc, decide_eq_true_eq]
    intro hwv
    obtain rfl := Option.some.inj hwv
    exact e2 (g2.trans h2.symm)
  have hv' : s'.voronoiused = false := (clusterAtoms_voronoiused hi h).trans hv
  rw [((calcQ_value s' l b).2 (by rw [hq]; intro x hx; cases hx)).2.1 hv' (by rw [hq]; rfl)]
  rfl

/-- Is the identifier 0? -/
def condFirst (a : Atom) : Except Fault ℤ := .ok (if a.id = 0 then 1 else 0)

/-- **C57 is false for clustering, however many atoms there are**: 200 atoms in a row with the neighbours of the default
search.  Before `cluster_atoms` the q₆ of the first atom is a number, afterwards NaN. -/
theorem C57_false_cluster (σ : StdSort) : ∃ s0 s s1 s2 t t2 : System, ∃ n x a a2,
    System.init.setBox (Spec.diagBox 1000 1000 1000) = .ok s0 ∧ s0.assignAtoms chainAtoms = .ok s ∧
    s.findNeighbors σ 0 (.cutoff 0) = .ok s1 ∧ s1.clusterAtoms condFirst 0 = .ok (s2, n) ∧
    s1.calculateQ [6] = .ok t ∧ t.atoms[0]? = some a ∧ a.q 6 = some x ∧
    s2.calculateQ [6] = .ok t2 ∧ t2.atoms[0]? = some a2 ∧ a2.q 6 = none := by
  obtain ⟨s0, s, h1, h2, hi, hat, -, hb, ht⟩ := chain_setup
  have hv : s.voronoiused = false := by
    have e := h2
    unfold System.assignAtoms at e
    rw [if_neg (by rw [chainAtoms_length]; omega)] at e
    have e0 := h1
    unfold System.setBox at e0
    rw [if_neg (not_skewed_diag _ _ _)] at e0
    obtain rfl := Except.ok.inj e0
    rw [← Except.ok.inj e]
    rfl
  have hch : ChainLike s := ⟨hb, ht, by rw [hat]; exact chainAtoms_length, by rw [hi.nop, hat]; exact chainAtoms_length,
    fun i hi => ⟨_, by rw [hat]; exact chainAtoms_get i hi, rfl⟩⟩
  obtain ⟨s1, hs1, hv1, hr, hcond, a1, hk1, ⟨y, hy, -⟩, -, hall⟩ := chain_adaptive σ hch
  have hkept := Kept.findNeighbors hs1
  have hlen1 : s1.atoms.length = 200 := hkept.len.trans hch.len
  have hid1 : ∀ i (hi : i < s1.atoms.length), s1.atoms[i].id = i ∧ s1.atoms[i].ghost = false := by
    intro i hi'
    have e := congrArg (·[i]?) hkept.atoms
    simp only [List.getElem?_map] at e
    rw [List.getElem?_eq_getElem hi', hat, chainAtoms_get i (by omega)] at e
    have e := Option.some.inj e
    exact ⟨congrArg (fun p => p.1) e, congrArg (fun p => p.2.2.2.2) e⟩
  have hrn : s1.realNop = 200 := by rw [hkept.realNop, hi.realNop]; exact chainAtoms_length
  obtain ⟨gs, hgs, -, hgn⟩ := hi.ex
  have hg0 : gs = [] := by
    rw [hat] at hgs
    exact List.append_right_eq_self.1 hgs.symm
  have hgn1 : s1.ghostNop = 0 := by rw [hkept.ghostNop, hgn, hg0]; rfl
  have hi1 : StoreInv s1 s1.atoms := by
    refine ⟨fun a ha => ?_, ⟨[], by simp, by simp, hgn1⟩, ?_, hrn.trans hlen1.symm⟩
    · obtain ⟨i, hi', rfl⟩ := List.getElem_of_mem ha
      exact (hid1 i hi').2
    · rw [hkept.nop, hch.nop, hlen1]
  have h10 : s1.atoms[0]? = some s1.atoms[0] := List.getElem?_eq_getElem (by omega)
  obtain ⟨s2, n, hs2⟩ := C25_succeeds s1 s1.atoms hi1 hr condFirst 0 (fun a _ => ⟨_, rfl⟩)
    ⟨_, h10, .inr (by unfold condFirst; rw [if_pos (by exact_mod_cast (hid1 0 (by omega)).1)])⟩ (fun h => by omega) (fun _ => hgn1)
  obtain ⟨t, htq⟩ := calculateQ_succeeds (s := s1) (ls := [6]) false false (by intro x hx; rw [List.mem_singleton] at hx; omega) hr
  have hv1' : s1.voronoiused = false := hv1.trans hv
  have hlt : t.atoms.length = 200 := by
    obtain ⟨-, -, e⟩ := calculateQ_ok htq
    rw [e]
    simpa [System.afterQ] using hlen1
  have hr2 : s2.NbrsInRange := clusterAtoms_inRange hi1 hs2
  obtain ⟨t2, ht2⟩ := calculateQ_succeeds (s := s2) (ls := [6]) false false (by intro x hx; rw [List.mem_singleton] at hx; omega) hr2
  obtain ⟨a2, ha2, hq2⟩ := C57_cluster s1 s2 t2 s1.atoms hi1 hv1' condFirst 0 n hs2 6 ht2 0 a1 hk1 (by
    intro x hx
    have hxl := hr a1 (List.mem_of_getElem? hk1) x hx
    refine ⟨_, List.getElem?_eq_getElem hxl, ?_⟩
    have e1 : a1.id = 0 := by
      rw [h10] at hk1
      rw [← Option.some.inj hk1]
      exact (hid1 0 (by omega)).1
    unfold condFirst
    rw [if_pos e1, (hid1 _ hxl).1, if_neg (by exact_mod_cast (hall x hx).1)]
    intro h
    have := Except.ok.inj h
    omega)
  have ht0 : t.atoms[0]? = some t.atoms[0] := List.getElem?_eq_getElem (by omega)
  have hqn : s1.qNbrs a1 = a1.nbrs := by
    unfold System.qNbrs
    rw [List.filter_eq_self]
    intro x hx
    rw [decide_eq_true_eq, hcond a1 (List.mem_of_getElem? hk1)]
    have hxl := hr a1 (List.mem_of_getElem? hk1) x hx
    rw [mem_eq_getElem _ _ hxl]
    exact hcond _ (List.getElem_mem _)
  have hw : ((s1.qNbrs a1).map Nb.weight).sum ≠ 0 := by
    rw [hqn]
    have : a1.nbrs.map Nb.weight = List.replicate a1.nbrs.length 1 := by
      rw [List.eq_replicate_iff]
      refine ⟨by simp, fun b hb => ?_⟩
      obtain ⟨x, hx, rfl⟩ := List.mem_map.1 hb
      exact (hall x hx).2.1
    rw [this, List.sum_replicate]
    have : a1.nbrs.length ≠ 0 := by
      rw [ne_eq, List.length_eq_zero_iff]
      intro h0
      rw [h0] at hy
      cases hy
    simpa using this
  have hz : ∀ x ∈ s1.qNbrs a1, x.vec ≠ 0 := by
    rw [hqn]
    intro x hx h0
    obtain ⟨-, -, v, hv0, hve⟩ := hall x hx
    rw [h0] at hve
    have := congrArg V3.x hve
    change (0 : ℝ) = v at this
    linarith
  have hq := (calculateQ_q htq hk1 ht0 6).1
  rw [if_pos (by simp), ((calcQ_value s1 6 a1).2 hz).2.2 hv1' hw] at hq
  exact ⟨s0, s, s1, s2, t, t2, n, _, _, a2, h1, h2, hs1, hs2, htq, ht0, hq, ht2, ha2, hq2⟩

end Pyscal
