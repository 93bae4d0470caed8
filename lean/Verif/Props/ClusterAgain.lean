import Verif.Props.Again
import Verif.Props.NestedClusters

/-! C116: clustering again. -/

namespace Pyscal

/-- What a successful `cluster_atoms` without stored copies does, step by step. -/
theorem cluster_run {x x' : System} (hx : NoCopies x) {cond : Atom → Except Fault ℤ} {c : ℝ} {n : ℕ} (h : x.clusterAtoms cond c = .ok (x', n)) :
    ∃ (new : List Atom) (b : ℕ → ℤ), new.length = x.atoms.length ∧
      (∀ (i : ℕ) (a : Atom), x.atoms[i]? = some a → ∃ v, cond a = .ok v ∧ new[i]? = some { a with condition := some v }) ∧
      dfsLoop (adjOf ((x.setAtoms new).clusterStart c).mem) (eligOf ((x.setAtoms new).clusterStart c).mem) (x.atoms.length + 1) (List.range x.atoms.length) 0
        (fun i => (((x.setAtoms new).clusterStart c).mem i).belongsto) = some b ∧
      (x.setAtoms new).realNop = x.atoms.length ∧ x'.atoms.length = x.atoms.length ∧
      ∀ (i : ℕ) (a' : Atom), x'.atoms[i]? = some a' → ∃ a, x.atoms[i]? = some a ∧
        a' = { a with condition := a'.condition, cutoff := if c ≠ 0 then some c else a.cutoff, belongsto := b i, lcluster := a'.lcluster, issurface := a'.issurface } := by
  have hi := hx.inv
  obtain ⟨new, t1, t2, a1, a2, a3, a4, a5⟩ := clusterAtoms_ok hi h
  have hnew : ∀ (i : ℕ) (b : Atom), new[i]? = some b → ∃ a v, x.atoms[i]? = some a ∧ b = { a with condition := some v } := by
    intro i b hb
    have hlt := (List.getElem?_eq_some_iff.1 hb).1
    obtain ⟨v, -, h2⟩ := a5 i x.atoms[i] (List.getElem?_eq_getElem (by omega))
    rw [hb] at h2
    exact ⟨_, v, List.getElem?_eq_getElem (by omega), Option.some.inj h2⟩
  have hreal : ∀ b ∈ new, b.ghost = false := by
    intro b hb
    obtain ⟨i, hib⟩ := List.mem_iff_getElem?.1 hb
    obtain ⟨a, v, ha, e⟩ := hnew i b hib
    rw [e]
    exact hx.real a (List.mem_of_getElem? ha)
  obtain ⟨extra, x1, -, x3, -, -, x6, -, -⟩ := assign_shape hreal a1
  obtain ⟨-, rfl⟩ := x6 (by rw [a4]; exact hx.large)
  have hl1 : (x.setAtoms new).atoms.length = x.atoms.length := a4
  obtain ⟨c1, c2⟩ := findClusters_inRange a2
  obtain ⟨lab, hb, hd, -⟩ := findClusters_ok _ c c1 c2
  rw [a2] at hb
  have hlen2 : t2.atoms.length = (x.setAtoms new).atoms.length := by rw [Except.ok.inj hb, ofMem_length, clusterStart_length]
  obtain ⟨-, -, d3, -, -, d6⟩ := largestCluster_ok a3
  rw [hl1, x3, a4] at hd
  refine ⟨new, lab, a4, a5, hd, by rw [x3, a4], by omega, ?_⟩
  intro i a' hia
  have hlt := (List.getElem?_eq_some_iff.1 hia).1
  have hk1 : i < (x.setAtoms new).atoms.length := by omega
  have g1 : t2.atoms[i]? = some { (x.setAtoms new).atoms[i] with cutoff := if c ≠ 0 then some c else (x.setAtoms new).atoms[i].cutoff, belongsto := lab i } := by
    rw [Except.ok.inj hb]
    exact findClusters_atom (List.getElem?_eq_getElem hk1)
  obtain ⟨b', g2, -, -, g5⟩ := d6 i _ g1
  rw [hia] at g2
  obtain rfl := Option.some.inj g2
  obtain ⟨a, v, ga, e⟩ := hnew i (x.setAtoms new).atoms[i] (List.getElem?_eq_getElem hk1)
  refine ⟨a, ga, ?_⟩
  rw [e] at g5
  rw [g5]

/-- Two clusterings with the same neighbours, cutoffs and conditions give the same cluster numbers. -/
theorem cluster_labels {x y x' y' : System} (hx : NoCopies x) (hy : NoCopies y) (hn : y.atoms.map Atom.nbrs = x.atoms.map Atom.nbrs)
    {cond cond' : Atom → Except Fault ℤ} {c d : ℝ} {n m : ℕ}
    (hcut : ∀ (i : ℕ) (a b : Atom), x.atoms[i]? = some a → y.atoms[i]? = some b → (if d ≠ 0 then some d else b.cutoff) = if c ≠ 0 then some c else a.cutoff)
    (hcond : ∀ (i : ℕ) (a b : Atom), x.atoms[i]? = some a → y.atoms[i]? = some b → cond' b = cond a)
    (h : x.clusterAtoms cond c = .ok (x', n)) (h' : y.clusterAtoms cond' d = .ok (y', m)) :
    y'.atoms.map Atom.belongsto = x'.atoms.map Atom.belongsto ∧ m = n := by
  obtain ⟨new, b, p1, p2, p3, p4, p5, p6⟩ := cluster_run hx h
  obtain ⟨new', b', q1, q2, q3, q4, q5, q6⟩ := cluster_run hy h'
  have hlen : y.atoms.length = x.atoms.length := by simpa using congrArg List.length hn
  have hnb : ∀ (i : ℕ) (a b : Atom), x.atoms[i]? = some a → y.atoms[i]? = some b → b.nbrs = a.nbrs := by
    intro i a b ha hb
    have e := congrArg (·[i]?) hn
    simp only [List.getElem?_map, ha, hb, Option.map_some, Option.some.injEq] at e
    exact e
  have hmem : ∀ i, (((y.setAtoms new').clusterStart d).mem i).nbrs = (((x.setAtoms new).clusterStart c).mem i).nbrs ∧
      (((y.setAtoms new').clusterStart d).mem i).ghost = (((x.setAtoms new).clusterStart c).mem i).ghost ∧
      (((y.setAtoms new').clusterStart d).mem i).condition = (((x.setAtoms new).clusterStart c).mem i).condition ∧
      (((y.setAtoms new').clusterStart d).mem i).cutoff = (((x.setAtoms new).clusterStart c).mem i).cutoff ∧
      (((y.setAtoms new').clusterStart d).mem i).belongsto = (((x.setAtoms new).clusterStart c).mem i).belongsto := by
    intro i
    by_cases hi : i < x.atoms.length
    · have hi' : i < y.atoms.length := by omega
      have ea := List.getElem?_eq_getElem hi
      have eb := List.getElem?_eq_getElem hi'
      obtain ⟨v, hv, hnv⟩ := p2 i _ ea
      obtain ⟨w, hw, hnw⟩ := q2 i _ eb
      have hvw : w = v := by
        have := hcond i _ _ ea eb
        rw [hv, hw] at this
        exact Except.ok.inj this
      rw [clusterStart_mem (x.setAtoms new) c (i := i) hnv, clusterStart_mem (y.setAtoms new') d (i := i) hnw]
      unfold startAtom
      dsimp only
      rw [p4, q4, if_pos hi, if_pos hi']
      exact ⟨hnb i _ _ ea eb, by rw [hx.real _ (List.getElem_mem hi), hy.real _ (List.getElem_mem hi')], by rw [hvw], hcut i _ _ ea eb, rfl⟩
    · have e1 : ((x.setAtoms new).clusterStart c).mem i = default := by
        unfold System.mem
        rw [List.getD_eq_getElem?_getD, List.getElem?_eq_none]
        · rfl
        · rw [clusterStart_length]
          show new.length ≤ i
          omega
      have e2 : ((y.setAtoms new').clusterStart d).mem i = default := by
        unfold System.mem
        rw [List.getD_eq_getElem?_getD, List.getElem?_eq_none]
        · rfl
        · rw [clusterStart_length]
          show new'.length ≤ i
          omega
      rw [e1, e2]
      exact ⟨rfl, rfl, rfl, rfl, rfl⟩
  have hc : ∀ i, (((y.setAtoms new').clusterStart d).mem i).cond = (((x.setAtoms new).clusterStart c).mem i).cond := by
    intro i
    unfold Atom.cond
    rw [(hmem i).2.2.1]
  have hadj : adjOf ((y.setAtoms new').clusterStart d).mem = adjOf ((x.setAtoms new).clusterStart c).mem := by
    funext i
    unfold adjOf
    rw [(hmem i).1]
    congr 1
    refine List.filter_congr fun z _ => ?_
    unfold linked
    rw [(hmem z.idx).2.1, hc, (hmem i).2.2.2.1]
  have helig : eligOf ((y.setAtoms new').clusterStart d).mem = eligOf ((x.setAtoms new).clusterStart c).mem := by
    funext i
    unfold eligOf
    rw [hc, (hmem i).2.1]
  have hst : (fun i => (((y.setAtoms new').clusterStart d).mem i).belongsto) = fun i => (((x.setAtoms new).clusterStart c).mem i).belongsto :=
    funext fun i => (hmem i).2.2.2.2
  rw [hadj, helig, hst, hlen, p3] at q3
  obtain rfl := Option.some.inj q3
  have hbel : y'.atoms.map Atom.belongsto = x'.atoms.map Atom.belongsto := by
    refine List.ext_getElem (by simp [p5, q5, hlen]) fun i h1 h2 => ?_
    rw [List.length_map] at h1 h2
    obtain ⟨a, -, e1⟩ := p6 i _ (List.getElem?_eq_getElem h2)
    obtain ⟨a', -, e2⟩ := q6 i _ (List.getElem?_eq_getElem h1)
    rw [List.getElem_map, List.getElem_map, e1, e2]
  refine ⟨hbel, ?_⟩
  obtain ⟨l, g1, -, g3, g4, g5⟩ := C26_partial x x' _ hx.inv cond c n h
  obtain ⟨l', g1', -, g3', g4', g5'⟩ := C26_partial y y' _ hy.inv cond' d m h'
  have hkx : StillNear x x' := StillNear.cluster ⟨hx, rfl, rfl, rfl, rfl⟩ h
  have hky : StillNear y y' := StillNear.cluster ⟨hy, rfl, rfl, rfl, rfl⟩ h'
  obtain rfl : x'.atoms = l := by rw [getAtoms_inv hkx.copies.inv] at g1; exact Except.ok.inj g1
  obtain rfl : y'.atoms = l' := by rw [getAtoms_inv hky.copies.inv] at g1'; exact Except.ok.inj g1'
  have hcount : ∀ t : ℤ, (y'.atoms.filter fun a => a.belongsto = t).length = (x'.atoms.filter fun a => a.belongsto = t).length := by
    intro t
    have e : ∀ L : List Atom, (L.filter fun a => a.belongsto = t).length = (L.map Atom.belongsto).countP (fun v => v = t) := by
      intro L
      rw [List.countP_map, List.countP_eq_length_filter]; rfl
    rw [e, e, hbel]
  have hzero : ∀ (z : System) (cnd : Atom → Except Fault ℤ), (∀ (i : ℕ) (a : Atom), z.atoms[i]? = some a → ∃ v, cnd a = .ok v) →
      (¬ ∃ a ∈ z.atoms, ∃ v, cnd a = .ok v ∧ v ≠ 0) → ∀ a ∈ z.atoms, cnd a = .ok 0 := by
    intro z cnd hz hno a ha
    obtain ⟨i, hia⟩ := List.mem_iff_getElem?.1 ha
    obtain ⟨v, hv⟩ := hz i a hia
    by_cases h0 : v = 0
    · rw [hv, h0]
    · exact absurd ⟨a, ha, v, hv, h0⟩ hno
  apply le_antisymm
  · by_cases hex : ∃ a ∈ y.atoms, ∃ v, cond' a = .ok v ∧ v ≠ 0
    · obtain ⟨-, t, ht, hl, -⟩ := g4' hex
      rw [← hl, hcount]
      exact g3 t ht
    · rw [g5' (hzero y cond' (fun i a ha => let ⟨v, hv, _⟩ := q2 i a ha; ⟨v, hv⟩) hex)]
      exact Nat.zero_le _
  · by_cases hex : ∃ a ∈ x.atoms, ∃ v, cond a = .ok v ∧ v ≠ 0
    · obtain ⟨-, t, ht, hl, -⟩ := g4 hex
      rw [← hl, ← hcount]
      exact g3' t ht
    · rw [g5 (hzero x cond (fun i a ha => let ⟨v, hv, _⟩ := p2 i a ha; ⟨v, hv⟩) hex)]
      exact Nat.zero_le _

/-- **C116** (partial).  Full statement: `cluster_atoms` gives the same clusters whatever was clustered or analysed before since the search.
Here: for at least 200 atoms and a clustering cutoff given in the call; the condition must have the same value on the atoms
before and after (it may not ask for the results that were changed in between).  Missing: the default cutoff, for which it is
false (`C116_leftover`, `C116_false`), and fewer than 200 atoms. -/
theorem C116_partial (s t s' t' : System) (reals : List Atom) (hi : StoreInv s reals) (hn : 200 ≤ reals.length) (hg : s.ghostNop = 0)
    (h : Spec.Explored s t) (cond : Atom → Except Fault ℤ) (c : ℝ) (hc : c ≠ 0) (n m : ℕ)
    (hcond : ∀ (i : ℕ) (a b : Atom), s.atoms[i]? = some a → t.atoms[i]? = some b → cond b = cond a)
    (h1 : s.clusterAtoms cond c = .ok (s', n)) (h2 : t.clusterAtoms cond c = .ok (t', m)) :
    t'.atoms.map Atom.belongsto = s'.atoms.map Atom.belongsto ∧ m = n := by
  obtain ⟨hs0, -⟩ := NoCopies.of_inv hi hn hg
  have hk := explored_kept hs0 h
  exact cluster_labels hs0 hk.copies hk.nbrs (fun i a b _ _ => by rw [if_pos hc, if_pos hc]) hcond h1 h2

/-- **C116 is false for the default cutoff**: in every system of at least 200 atoms, after `cluster_atoms(..., cutoff=c)` the call
`cluster_atoms(condition)` does not use the cutoff of the search but `c` again. -/
theorem C116_leftover (s t s' t' : System) (reals : List Atom) (hi : StoreInv s reals) (hn : 200 ≤ reals.length) (hg : s.ghostNop = 0)
    (cond0 cond : Atom → Except Fault ℤ) (c : ℝ) (hc : c ≠ 0) (n0 n m : ℕ) (h0 : s.clusterAtoms cond0 c = .ok (t, n0))
    (hcond : ∀ (i : ℕ) (a b : Atom), s.atoms[i]? = some a → t.atoms[i]? = some b → cond b = cond a)
    (h1 : s.clusterAtoms cond c = .ok (s', n)) (h2 : t.clusterAtoms cond 0 = .ok (t', m)) :
    t'.atoms.map Atom.belongsto = s'.atoms.map Atom.belongsto ∧ m = n := by
  obtain ⟨hs0, -⟩ := NoCopies.of_inv hi hn hg
  have hk : StillNear s t := StillNear.cluster ⟨hs0, rfl, rfl, rfl, rfl⟩ h0
  refine cluster_labels hs0 hk.copies hk.nbrs (fun i a b ha hb => ?_) hcond h1 h2
  obtain ⟨new, lab, -, -, -, -, -, p6⟩ := cluster_run hs0 h0
  obtain ⟨a0, ha0, e⟩ := p6 i b hb
  rw [if_pos hc, if_neg (by simp), e]
  dsimp only
  rw [if_pos hc]

/-- The row of atoms, with the state after the search. -/
theorem cluster_chain (σ : StdSort) : ∃ s s1 t u u' : System, ∃ n n' : ℕ, StoreInv s chainAtoms ∧ s.findNeighbors σ 0 (.cutoff (3 / 2)) = .ok s1 ∧
    s1.clusterAtoms (fun _ => .ok 1) 0 = .ok (u, n) ∧ 2 ≤ n ∧
    s1.clusterAtoms (fun _ => .ok 1) (1 / 2) = .ok (t, 1) ∧ t.clusterAtoms (fun _ => .ok 1) 0 = .ok (u', n') ∧ n' = 1 ∧ NoCopies s1 ∧
    (∃ s0, System.init.setBox (Spec.diagBox 1000 1000 1000) = .ok s0 ∧ s0.assignAtoms chainAtoms = .ok s) ∧
    ∃ a, s1.atoms[0]? = some a ∧ a.nbrs ≠ [] := by
  obtain ⟨s0, s, h1, h2, hi, ha, -, hbx, htr⟩ := chain_setup
  have hal : s.atoms.length = 200 := by rw [ha]; exact chainAtoms_length
  have hrn : s.realNop = 200 := by rw [hi.realNop, chainAtoms_length]
  have hnat : s.natoms ≤ 2300 := by unfold System.natoms; omega
  have hn200 : s.natoms = 200 := hrn
  have hlen := chainAtoms_length
  have hr : (3 / 2 : ℝ) ≠ 0 := by norm_num
  obtain ⟨s1, h3⟩ := (C09_overrun σ s 0 (3 / 2) hr (by omega) (by omega)).2 (by
    intro k hk
    rw [← cutoffList_length (List.getElem?_eq_getElem hk) (cutoffNbs_spec (List.getElem?_eq_getElem hk))]
    exact (cutoffNbs_le _ _ _ _).trans (by omega))
  have hnsk : ¬ Spec.Skew s0.getBox := by
    obtain ⟨f1, f2, -⟩ := setBox_frame h1
    have : s0.getBox = Spec.diagBox 1000 1000 1000 := by simp [System.getBox, f1, f2, System.init]
    rw [this, ← skewed_iff]; exact not_skewed_diag _ _ _
  have hg : s.ghostNop = 0 := by
    obtain ⟨gs, g1, -, g2⟩ := hi.ex
    have := congrArg List.length g1
    rw [List.length_append, hal, chainAtoms_length] at this
    omega
  obtain ⟨-, hs1, -⟩ := findNeighbors_cutoff_ok hr hnat h3
  obtain ⟨-, hl1, -⟩ := cutoff_atom hr hnat h3
  obtain ⟨hi1, hlt⟩ := storeInv_any hr (.inl hnat) h3 hi
  have hg1 : s1.ghostNop = 0 := by rw [hs1]; exact hg
  have hrun : ∀ c : ℝ, ∃ t n, s1.clusterAtoms (fun _ => .ok 1) c = .ok (t, n) := fun c =>
    C25_run σ s0 s s1 chainAtoms hi.real (by omega) (fun h => absurd h hnsk) h2 0 (3 / 2) hr (.inl hnat) h3 (fun _ => .ok 1) c (fun _ => ⟨1, rfl, .inr rfl⟩)
  obtain ⟨u, n, h4⟩ := hrun 0
  obtain ⟨t, m, h5⟩ := hrun (1 / 2)
  have hall : ∀ i < 200, Spec.Chosen s1 s.natoms (fun _ => .ok 1) i := by
    intro i hi'
    exact ⟨by omega, s1.atoms[i]'(by omega), 1, List.getElem?_eq_getElem (by omega), rfl, by norm_num⟩
  have hget : ∀ i (hi : i < 200), ∃ a, s.atoms[i]? = some a ∧ a.pos = ⟨(i : ℝ), 0, 0⟩ := fun i hi => ⟨_, by rw [ha]; exact chainAtoms_get i hi, rfl⟩
  -- one cluster contains atoms 0 and 1
  obtain ⟨l, lab, k1, k2, k3⟩ := C25_partial σ s s1 u chainAtoms hi 0 (3 / 2) hr (.inl hnat) h3 _ 0 n h4
  obtain ⟨l', k1', -, k4, -, -⟩ := C26_partial s1 u _ hi1 _ 0 n h4
  obtain rfl : l' = l := by rw [k1] at k1'; exact (Except.ok.inj k1').symm
  have h01 : lab 0 = lab 1 := by
    rw [k3.same 0 (by omega) 1 (by omega) (hall 0 (by norm_num)) (hall 1 (by norm_num))]
    refine .single ⟨hall 0 (by norm_num), hall 1 (by norm_num), ?_⟩
    obtain ⟨a, ga, pa⟩ := hget 0 (by norm_num)
    obtain ⟨b, gb, pb⟩ := hget 1 (by norm_num)
    refine ⟨a, b, ga, gb, ⟨by norm_num, ?_, ⟨by norm_num, by norm_num⟩⟩, fun h => absurd rfl h⟩
    rw [chain_dist hbx htr 1 0 (by norm_num) (by norm_num) b a pb pa]
    norm_num
  have hn2 : 2 ≤ n := by
    refine le_trans ?_ (k4 (lab 0) (fun h => (k3.outside 0 (by omega)).1 h (hall 0 (by norm_num))))
    rw [cluster_count k2, hn200, show List.range 200 = 0 :: 1 :: (List.range 198).map (· + 2) by decide +kernel]
    rw [List.countP_cons_of_pos (by simp), List.countP_cons_of_pos (by simp [h01])]
    omega
  -- with cutoff 1/2 all clusters are single atoms
  obtain ⟨q, labq, j1, j2, j3⟩ := C25_partial σ s s1 t chainAtoms hi 0 (3 / 2) hr (.inl hnat) h3 _ (1 / 2) m h5
  obtain ⟨q', j1', -, -, j4, -⟩ := C26_partial s1 t _ hi1 _ (1 / 2) m h5
  obtain rfl : q' = q := by rw [j1] at j1'; exact (Except.ok.inj j1').symm
  have hno : ∀ x y, ¬ Spec.Linked s s1 s.natoms (fun _ => .ok 1) (3 / 2) 0 (1 / 2) x y := by
    rintro x y ⟨⟨hx, -⟩, ⟨hy, -⟩, a, b, ga, gb, ⟨hne, -, -⟩, hd⟩
    obtain ⟨a', ga', pa⟩ := hget x (by omega)
    obtain ⟨b', gb', pb⟩ := hget y (by omega)
    rw [ga] at ga'; obtain rfl := Option.some.inj ga'
    rw [gb] at gb'; obtain rfl := Option.some.inj gb'
    have := hd (by norm_num)
    rw [chain_dist hbx htr y x (by omega) (by omega) b a pb pa] at this
    have h1 : (1 : ℝ) ≤ |(y : ℝ) - x| := by
      rcases Nat.lt_or_gt_of_ne hne with h | h
      · have : (y : ℝ) + 1 ≤ x := by exact_mod_cast h
        rw [le_abs]; right; linarith
      · have : (x : ℝ) + 1 ≤ y := by exact_mod_cast h
        rw [le_abs]; left; linarith
    linarith
  have hinj : ∀ i < 200, ∀ j < 200, labq i = labq j → i = j := by
    intro i hi' j hj' he
    have := (j3.same i (by omega) j (by omega) (hall i hi') (hall j hj')).1 he
    rcases Relation.ReflTransGen.cases_head this with h | ⟨z, hz, -⟩
    · exact h
    · exact absurd hz (hno _ _)
  have hm1 : m = 1 := by
    obtain ⟨hpos, c, hc, hcm, -⟩ := j4 ⟨s1.atoms[0]'(by omega), List.mem_iff_getElem?.2 ⟨0, by
      rw [List.getElem?_take, if_pos (by omega)]; exact List.getElem?_eq_getElem (by omega)⟩, 1, rfl, by norm_num⟩
    rw [cluster_count j2, hn200] at hcm
    refine le_antisymm ?_ hpos
    rw [← hcm, List.countP_eq_length_filter]
    by_contra hgt
    push Not at hgt
    have hnd : ((List.range 200).filter fun i => decide (labq i = c)).Nodup := List.nodup_range.filter _
    have g0 := List.getElem_mem (l := (List.range 200).filter fun i => decide (labq i = c)) (n := 0) (by omega)
    have g1 := List.getElem_mem (l := (List.range 200).filter fun i => decide (labq i = c)) (n := 1) (by omega)
    obtain ⟨r0, e0⟩ := List.mem_filter.1 g0
    obtain ⟨r1, e1⟩ := List.mem_filter.1 g1
    rw [List.mem_range] at r0 r1
    have := hinj _ r0 _ r1 ((of_decide_eq_true e0).trans (of_decide_eq_true e1).symm)
    have := (List.Nodup.getElem_inj_iff hnd).1 this
    omega
  -- the second call
  obtain ⟨hc1, -⟩ := NoCopies.of_inv hi1 (by omega) hg1
  have hkt : StillNear s1 t := StillNear.cluster ⟨hc1, rfl, rfl, rfl, rfl⟩ h5
  obtain ⟨u', n', h6⟩ := C25_succeeds t _ hkt.copies.inv (clusterAtoms_inRange hi1 h5) (fun _ => .ok 1) 0 (fun _ _ => ⟨1, rfl⟩)
    ⟨_, List.getElem?_eq_getElem (by have := hkt.copies.large; omega), .inr rfl⟩ (fun h => absurd hkt.copies.large (by omega)) (fun _ => hkt.copies.ghostNop)
  obtain ⟨-, hnn⟩ := C116_leftover s1 t t u' _ hi1 (by omega) hg1 _ _ (1 / 2) (by norm_num) m m n' h5 (fun _ _ _ _ _ => rfl) h5 h6
  subst hm1
  refine ⟨s, s1, t, u, u', n, n', hi, h3, h4, hn2, h5, h6, hnn, hc1, ⟨s0, h1, h2⟩, _, List.getElem?_eq_getElem (by omega), ?_⟩
  obtain ⟨a, ga, pa⟩ := hget 0 (by norm_num)
  obtain ⟨b, gb, pb⟩ := hget 1 (by norm_num)
  obtain ⟨-, -, hx⟩ := C09_cutoff_exact σ s s1 0 (3 / 2) hr hnat h3
  obtain ⟨⟨-, hx, -⟩, -⟩ := hx 0 a _ ga (List.getElem?_eq_getElem (by omega))
  obtain ⟨y, hy, -⟩ := hx 1 b gb ⟨by norm_num, by
    rw [chain_dist hbx htr 1 0 (by norm_num) (by norm_num) b a pb pa]
    norm_num, ⟨by norm_num, by norm_num⟩⟩
  exact List.ne_nil_of_mem hy

/-- **C116 is false** for the default cutoff: a row of 200 atoms at distance 1, neighbours within 3/2.  `cluster_atoms` finds one cluster with atoms 0 and 1
in it; after `cluster_atoms(..., cutoff=1/2)` the same call finds single atoms only. -/
theorem C116_false (σ : StdSort) : ∃ s s1 t u u' : System, ∃ n n' : ℕ, StoreInv s chainAtoms ∧ s.findNeighbors σ 0 (.cutoff (3 / 2)) = .ok s1 ∧
    s1.clusterAtoms (fun _ => .ok 1) 0 = .ok (u, n) ∧ 2 ≤ n ∧
    s1.clusterAtoms (fun _ => .ok 1) (1 / 2) = .ok (t, 1) ∧ t.clusterAtoms (fun _ => .ok 1) 0 = .ok (u', n') ∧ n' = 1 := by
  obtain ⟨s, s1, t, u, u', n, n', h1, h2, h3, h4, h5, h6, h7, -⟩ := cluster_chain σ
  exact ⟨s, s1, t, u, u', n, n', h1, h2, h3, h4, h5, h6, h7⟩

/-- The hypotheses of `C116_partial` hold for the row of atoms after one clustering with another cutoff. -/
example (σ : StdSort) : ∃ (s t s' t' : System) (reals : List Atom) (n m : ℕ), StoreInv s reals ∧ 200 ≤ reals.length ∧ s.ghostNop = 0 ∧ Spec.Explored s t ∧
    (∃ c, s.clusterAtoms (fun _ => .ok 1) (1 / 2) = .ok (t, c)) ∧
    s.clusterAtoms (fun _ => .ok 1) 1 = .ok (s', n) ∧ t.clusterAtoms (fun _ => .ok 1) 1 = .ok (t', m) := by
  obtain ⟨s, s1, t, u, u', n, n', -, -, -, -, h5, -, -, hc1, -⟩ := cluster_chain σ
  have hkt : StillNear s1 t := StillNear.cluster ⟨hc1, rfl, rfl, rfl, rfl⟩ h5
  have hst := clusterAtoms_inRange hc1.inv h5
  have hrun : ∀ z : System, NoCopies z → z.NbrsInRange → ∃ z' k, z.clusterAtoms (fun _ => .ok 1) 1 = .ok (z', k) := fun z hz hr =>
    C25_succeeds z _ hz.inv hr (fun _ => .ok 1) 1 (fun _ _ => ⟨1, rfl⟩)
      ⟨_, List.getElem?_eq_getElem (by have := hz.large; omega), .inr rfl⟩ (fun h => absurd hz.large (by omega)) (fun _ => hz.ghostNop)
  obtain ⟨s', k, g1⟩ := hrun s1 hc1 (nbrsInRange_congr hkt.nbrs.symm hst)
  obtain ⟨t', k', g2⟩ := hrun t hkt.copies hst
  exact ⟨s1, t, s', t', _, k, k', hc1.inv, hc1.large, hc1.ghostNop, .cluster _ _ _ .refl h5, ⟨_, h5⟩, g1, g2⟩

end Pyscal
