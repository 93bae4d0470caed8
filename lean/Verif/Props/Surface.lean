import Verif.Props.Energy

/-! C79: surface atoms. -/

namespace Pyscal

/-- The surface flags set by `largest_cluster`. -/
theorem largestCluster_surface {s s' : System} {n : ℕ} (h : s.largestCluster = .ok (s', n)) (i : ℕ) (a : Atom) (ha : s.atoms[i]? = some a)
    (hi : i < s.realNop) : ∃ b, s'.atoms[i]? = some b ∧
      (b.issurface = true ↔ a.issolid = false ∨ ∃ x ∈ a.nbrs, (s.mem x.idx).ghost = false ∧ (s.mem x.idx).issolid = false) := by
  unfold System.largestCluster at h
  split_ifs at h with hc
  dsimp only at h
  have h' := Except.ok.inj h
  rw [Prod.mk.injEq] at h'
  obtain ⟨rfl, rfl⟩ := h'
  unfold System.largestAtoms
  simp only [List.getElem?_mapIdx, ha, Option.map_some, Option.some.injEq, exists_eq_left']
  rw [if_pos hi]
  change (if a.issolid then _ else true) = true ↔ _
  cases hs : a.issolid with
  | false => simp
  | true =>
    simp only [if_true, List.any_eq_true, Bool.and_eq_true, Bool.not_eq_true', Bool.true_eq_false, false_or]
    rfl

/-- **C79, what holds.**  Full statement: after `cluster_atoms` (also as called by `find_solids`) an atom is flagged as
a surface atom iff at least one of its neighbours is not solid.  Proved: this is so for every solid atom, with
neighbours being atoms of `sys.atoms`.  Atoms that are not solid are flagged whatever their neighbours
(`C79_false`).  Missing besides: neighbours that are periodic copies in systems with fewer than 200 atoms, which are
skipped (`C79_false_padded`). -/
theorem C79_partial (s s' : System) (reals : List Atom) (hi : StoreInv s reals) (cond : Atom → Except Fault ℤ) (c : ℝ) (n : ℕ)
    (h : s.clusterAtoms cond c = .ok (s', n)) :
    ∃ l, s'.getAtoms = .ok l ∧ l.length = reals.length ∧ ∀ (i : ℕ) (a : Atom), reals[i]? = some a → ∃ b, l[i]? = some b ∧ b.issolid = a.issolid ∧
      b.nbrs = a.nbrs ∧ (a.issolid = true → (b.issurface = true ↔ ∃ x ∈ a.nbrs, ∃ d, reals[x.idx]? = some d ∧ d.issolid = false)) ∧
      (a.issolid = false → b.issurface = true) := by
  obtain ⟨l, hl, hlen, hfr⟩ := clusterAtoms_frame hi h
  obtain ⟨gs, ha, -, -⟩ := hi.ex
  obtain ⟨new, t1, t2, a1, a2, a3, a4, a5⟩ := clusterAtoms_ok hi h
  obtain ⟨b1, b2, -, b4, -⟩ := cluster_state hi a1 a4 a5
  obtain ⟨c1, c2⟩ := findClusters_inRange a2
  obtain ⟨lab, hb, -, -⟩ := findClusters_ok t1 c c1 c2
  rw [a2] at hb
  have ht2 := Except.ok.inj hb
  have hat : ∀ (i : ℕ) (a : Atom), t1.atoms[i]? = some a →
      t2.atoms[i]? = some { a with cutoff := if c ≠ 0 then some c else a.cutoff, belongsto := lab i } := by
    intro i a hia
    rw [ht2]
    exact findClusters_atom hia
  have hreal2 : t2.realNop = t1.realNop := by rw [ht2]; rfl
  have hlen2 : t2.atoms.length = t1.atoms.length := by rw [ht2, ofMem_length, clusterStart_length]
  obtain ⟨d1, d2, d3, d4, d5, d6⟩ := largestCluster_ok a3
  have hl' : l = s'.atoms.take reals.length := by
    unfold System.getAtoms at hl
    rw [if_pos (by omega), d2, hreal2, b1] at hl
    exact (Except.ok.inj hl).symm
  refine ⟨l, hl, hlen, fun i a hia => ?_⟩
  have hlt : i < reals.length := (List.getElem?_eq_some_iff.1 hia).1
  obtain ⟨v, hv, e1⟩ := b4 i a hlt (by rw [ha, List.getElem?_append_left hlt]; exact hia)
  obtain ⟨b, e2, e3⟩ := largestCluster_surface a3 i _ (hat i _ e1) (by omega)
  obtain ⟨b', v', k1, -, k2, -⟩ := hfr i a hia
  have hb' : l[i]? = some b := by rw [hl', List.getElem?_take, if_pos hlt]; exact e2
  rw [hb'] at k1
  obtain rfl := Option.some.inj k1
  refine ⟨b, hb', by rw [k2], by rw [k2], fun hs => ?_, fun hs => e3.2 (.inl hs)⟩
  rw [e3]
  simp only [hs, Bool.true_eq_false, false_or]
  refine exists_congr fun x => and_congr_right fun hx => ?_
  -- the neighbour
  have hxr : x.idx < t1.atoms.length := c1 _ (List.mem_of_getElem? e1) x hx
  have hx2 := hat x.idx _ (List.getElem?_eq_getElem hxr)
  have hm : t2.mem x.idx = { t1.atoms[x.idx] with cutoff := if c ≠ 0 then some c else (t1.atoms[x.idx]).cutoff, belongsto := lab x.idx } := by
    unfold System.mem
    rw [List.getD_eq_getElem?_getD, hx2]
    rfl
  rw [hm]
  change t1.atoms[x.idx].ghost = false ∧ t1.atoms[x.idx].issolid = false ↔ _
  rw [b2.1 x.idx _ (List.getElem?_eq_getElem hxr), b1]
  constructor
  · rintro ⟨g1, g2⟩
    refine ⟨reals[x.idx], List.getElem?_eq_getElem g1, ?_⟩
    obtain ⟨w, -, e5⟩ := b4 x.idx reals[x.idx] g1 (by rw [ha, List.getElem?_append_left g1]; exact List.getElem?_eq_getElem g1)
    rw [List.getElem?_eq_getElem hxr] at e5
    rw [Option.some.inj e5] at g2
    exact g2
  · rintro ⟨d, g1, g2⟩
    have g0 := (List.getElem?_eq_some_iff.1 g1).1
    refine ⟨g0, ?_⟩
    obtain ⟨w, -, e5⟩ := b4 x.idx d g0 (by rw [ha, List.getElem?_append_left g0]; exact g1)
    rw [List.getElem?_eq_getElem hxr] at e5
    rw [Option.some.inj e5]
    exact g2

/-- **C79 is false for atoms that are not solid** (and the hypotheses of C79_partial are met): a row of 200 atoms at
distance 1, neighbours found with cutoff 1/2 so that no atom has any.  After `cluster_atoms` the first atom has no
neighbour at all, hence none that is not solid, and is flagged as a surface atom. -/
theorem C79_false (σ : StdSort) : ∃ (s0 s s1 s2 : System) (n : ℕ) (l : List Atom) (a : Atom),
    System.init.setBox (Spec.diagBox 1000 1000 1000) = .ok s0 ∧ s0.assignAtoms chainAtoms = .ok s ∧
    s.findNeighbors σ 0 (.cutoff (1 / 2)) = .ok s1 ∧ s1.clusterAtoms (fun _ => .ok 1) 0 = .ok (s2, n) ∧
    s2.getAtoms = .ok l ∧ l[0]? = some a ∧ a.issolid = false ∧ a.nbrs = [] ∧ a.issurface = true := by
  obtain ⟨s0, s, h1, h2, hi, hat, -, hb, ht⟩ := chain_setup
  have hrn : s.realNop = 200 := by rw [hi.realNop, chainAtoms_length]
  have hlen : s.atoms.length = 200 := by rw [hat, chainAtoms_length]
  obtain ⟨s1, h3⟩ := (C09_overrun σ s 0 (1 / 2) (by norm_num) (by omega) (by omega)).2 (by
    intro k hk
    rw [← cutoffList_length (List.getElem?_eq_getElem hk) (cutoffNbs_spec (List.getElem?_eq_getElem hk))]
    exact (cutoffNbs_le _ _ _ _).trans (by omega))
  have hs1 := (findNeighbors_cutoff_ok (by norm_num) (by omega) h3).2.1
  have hnsk : ¬ Spec.Skew s0.getBox := by
    obtain ⟨f1, f2, -⟩ := setBox_frame h1
    rw [← skewed_iff]
    simp only [System.getBox, f1, f2, System.init, Option.getD_none]
    exact not_skewed_diag _ _ _
  obtain ⟨s2, n, h4⟩ := C25_run σ s0 s s1 chainAtoms hi.real (by rw [chainAtoms_length]; omega)
    (fun h => absurd h hnsk) h2 0 (1 / 2) (by norm_num) (pairsExact_assign hi.real h2 (by rw [chainAtoms_length]; omega) _) h3 (fun _ => .ok 1) 0 (fun _ => ⟨1, rfl, .inr rfl⟩)
  obtain ⟨l, h5, -, h7⟩ := C79_partial s1 s2 _ (storeInv_cutoff (by norm_num) (by omega) h3 hi) _ 0 n h4
  have hget : (s1.atoms.take s.realNop)[0]? = some (cutoffAtom s (1 / 2) 0 0) := by
    rw [hrn, List.getElem?_take, if_pos (by norm_num), hs1]
    simp only [List.getElem?_map, List.getElem?_range (show 0 < s.atoms.length by omega), Option.map_some]
  have h0 : s.atoms[0]? = some { pos := ⟨((0 : ℕ) : ℝ), 0, 0⟩, id := (0 : ℕ) } := by rw [hat]; exact chainAtoms_get 0 (by norm_num)
  have hsol : (cutoffAtom s (1 / 2) 0 0).issolid = false := by
    change (s.mem 0).issolid = false
    rw [(mem_of_getElem? h0).2]
  have hnb : (cutoffAtom s (1 / 2) 0 0).nbrs = [] := by
    rw [List.eq_nil_iff_forall_not_mem]
    intro x hx
    obtain ⟨nb, hnb, ⟨hne, hd, -⟩, -⟩ := (cutoffNbs_spec (s := s) (r := 1 / 2) (f := 0) h0).2.2 x hx
    have hxl : x.idx < 200 := by have := (List.getElem?_eq_some_iff.1 hnb).1; omega
    rw [hat, chainAtoms_get _ hxl] at hnb
    obtain rfl := Option.some.inj hnb
    rw [chain_dist hb ht x.idx 0 hxl (by norm_num) _ _ rfl rfl] at hd
    have : (1 : ℝ) ≤ x.idx := by exact_mod_cast Nat.one_le_iff_ne_zero.2 (fun h => hne h)
    have := le_abs_self ((x.idx : ℝ) - (0 : ℕ))
    push_cast at this hd
    linarith
  obtain ⟨b, k1, k2, k3, -, k5⟩ := h7 0 _ hget
  exact ⟨s0, s, s1, s2, n, l, b, h1, h2, h3, h4, h5, k1, by rw [k2, hsol], by rw [k3, hnb], k5 hsol⟩

/-- **C79 is false for padded systems**: two atoms at distance 1 through the periodic boundary, the first marked solid
by the user.  Its only neighbour is a (non-solid) periodic copy of the second atom, which is skipped, so the first atom
is not flagged as a surface atom. -/
theorem C79_false_padded (σ : StdSort) : ∃ (s0 s s1 s1' s2 : System) (n : ℕ) (l : List Atom) (a b : Atom),
    System.init.setBox (Spec.diagBox 10 10 10) = .ok s0 ∧ s0.assignAtoms edgeAtoms = .ok s ∧
    s.findNeighbors σ 0 (.cutoff 2) = .ok s1 ∧ s1.getAtom 0 = .ok a ∧ s1.setAtom { a with issolid := true } = .ok s1' ∧
    s1'.clusterAtoms (fun _ => .ok 1) 0 = .ok (s2, n) ∧ s2.getAtoms = .ok l ∧ l[0]? = some b ∧
    b.issolid = true ∧ (∃ x ∈ b.nbrs, (s1'.mem x.idx).issolid = false) ∧ b.issurface = false := by
  obtain ⟨s0, s, s1, h1, h2, h3, hi, hrn, hlen, hgb, hbox, htri, hs1, hgh, -, x, hx, hx2, hx3⟩ := edge_setup σ
  have hs1a : s1.atoms = (List.range s.atoms.length).map (cutoffAtom s 2 0) := by rw [hs1]
  have hlen1 : s1.atoms.length = 250 := by rw [hs1a, List.length_map, List.length_range, hlen]
  have hget : ∀ k, k < 250 → s1.atoms[k]? = some (cutoffAtom s 2 0 k) := by
    intro k hk
    rw [hs1a, List.getElem?_map, List.getElem?_range (by omega)]; rfl
  obtain ⟨gs, ha, hg, hgn⟩ := hi.ex
  have ha0 : s.atoms[0]? = some { pos := ⟨1 / 2, 0, 0⟩ } := by rw [ha]; rfl
  have ha1 : s.atoms[1]? = some { pos := ⟨19 / 2, 0, 0⟩ } := by rw [ha]; rfl
  have hloc : (cutoffAtom s 2 0 0).loc = 0 := by change (s.mem 0).loc = 0; rw [(mem_of_getElem? ha0).2]
  have hi1 := storeInv_cutoff (by norm_num) (by omega) h3 hi
  obtain ⟨gs1, hb1, hg1, hgn1⟩ := hi1.ex
  have hr1 : s1.realNop = 2 := by rw [hs1]; exact hrn
  have hsol0 : ∀ k, k < 2 → (s.mem k).issolid = false := by
    intro k hk
    obtain rfl | rfl : k = 0 ∨ k = 1 := by omega
    · rw [(mem_of_getElem? ha0).2]
    · rw [(mem_of_getElem? ha1).2]
  have htk : s1.atoms.take s.realNop = [cutoffAtom s 2 0 0, cutoffAtom s 2 0 1] := by
    rw [hrn]
    refine List.ext_getElem? fun k => ?_
    rw [List.getElem?_take]
    by_cases hk : k < 2
    · rw [if_pos hk, hget k (by omega)]
      obtain rfl | rfl : k = 0 ∨ k = 1 := by omega
      · rfl
      · rfl
    · rw [if_neg hk, List.getElem?_eq_none (by simp; omega)]
  rw [htk] at hi1 hb1
  -- the edited system
  have hst : s1.setAtom { cutoffAtom s 2 0 0 with issolid := true } =
      .ok { s1 with atoms := { cutoffAtom s 2 0 0 with issolid := true } :: cutoffAtom s 2 0 1 :: gs1 } := by
    unfold System.setAtom
    rw [if_pos (by change (cutoffAtom s 2 0 0).loc < _; omega)]
    change Except.ok { s1 with atoms := s1.atoms.set (cutoffAtom s 2 0 0).loc _ } = _
    rw [hloc, hb1]
    rfl
  generalize hs' : ({ s1 with atoms := { cutoffAtom s 2 0 0 with issolid := true } :: cutoffAtom s 2 0 1 :: gs1 } : System) = s1' at hst
  have hat' : s1'.atoms = { cutoffAtom s 2 0 0 with issolid := true } :: cutoffAtom s 2 0 1 :: gs1 := by rw [← hs']
  have hi' : StoreInv s1' [{ cutoffAtom s 2 0 0 with issolid := true }, cutoffAtom s 2 0 1] := by
    refine ⟨?_, ⟨gs1, hat', hg1, by rw [← hs']; exact hgn1⟩, ?_, by rw [← hs']; exact hr1⟩
    · intro a hm
      rcases List.mem_cons.1 hm with rfl | hm
      · exact hi1.real (cutoffAtom s 2 0 0) (by simp)
      · exact hi1.real a (by rw [List.mem_singleton.1 hm]; simp)
    · rw [← hs']
      change s1.nop = _
      rw [hi1.nop, hb1]
      simp
  have hmem : ∀ a ∈ s1'.atoms, ∃ k, k < 250 ∧ a.nbrs = (cutoffAtom s 2 0 k).nbrs := by
    intro a hm
    rw [hat'] at hm
    rcases List.mem_cons.1 hm with rfl | hm
    · exact ⟨0, by norm_num, rfl⟩
    · have : a ∈ s1.atoms := by rw [hb1]; exact List.mem_cons_of_mem _ hm
      rw [hs1a] at this
      obtain ⟨k, hk, rfl⟩ := List.mem_map.1 this
      exact ⟨k, by rw [hlen] at hk; exact List.mem_range.1 hk, rfl⟩
  have hlen' : s1'.atoms.length = 250 := by
    rw [hat', ← hlen1, hb1]
    simp
  have hin : s1'.NbrsInRange := by
    intro a hm y hy
    obtain ⟨k, hk, he⟩ := hmem a hm
    rw [he] at hy
    obtain ⟨nb, hnb, -⟩ := (cutoffNbs_spec (s := s) (r := 2) (f := 0) (List.getElem?_eq_getElem (show k < s.atoms.length by omega))).2.2 y hy
    have := (List.getElem?_eq_some_iff.1 hnb).1
    omega
  have hgb' : s1'.getBox = Spec.diagBox 10 10 10 := by rw [← hs', ← hgb, hs1]; rfl
  have hpr : padReps 2 = 2 := by decide +kernel
  obtain ⟨s2, n, h4⟩ := C25_succeeds s1' _ hi' hin (fun _ => .ok 1) 0 (fun _ _ => ⟨1, rfl⟩) ⟨_, rfl, .inr rfl⟩
    (fun _ => ⟨by rw [hgb']; norm_num [boxSum, Spec.diagBox], fun h => absurd h (by rw [hgb', ← skewed_iff]; exact not_skewed_diag _ _ _), by
      rw [hlen']
      change 250 = 2 * (2 * padReps 2 + 1) ^ 3
      rw [hpr]; norm_num⟩) (fun h => absurd h (by simp))
  obtain ⟨l, h5, -, h7⟩ := C79_partial s1' s2 _ hi' _ 0 n h4
  obtain ⟨b, k1, k2, k3, k4, -⟩ := h7 0 _ rfl
  refine ⟨s0, s, s1, s1', s2, n, l, cutoffAtom s 2 0 0, b, h1, h2, h3, ?_, hst, h4, h5, k1, k2, ?_, ?_⟩
  · unfold System.getAtom
    rw [hget 0 (by norm_num)]
  · refine ⟨x, by rw [k3]; exact hx, ?_⟩
    have hxs : s1'.atoms[x.idx]? = some (cutoffAtom s 2 0 x.idx) := by
      rw [hat']
      have := hget x.idx hx3
      rw [hb1] at this
      rw [← this]
      obtain ⟨m, hm⟩ : ∃ m, x.idx = m + 2 := ⟨x.idx - 2, by omega⟩
      rw [hm]
      rfl
    rw [(mem_of_getElem? hxs).2]
    change (s.mem x.idx).issolid = false
    obtain ⟨extra, e1, -, -, -, -, -, e7, -⟩ := assign_shape hi.real h2
    obtain ⟨q1, -⟩ := e7 (by simp [edgeAtoms])
    have hxl : x.idx < s.atoms.length := by omega
    have hxm : s.atoms[x.idx] ∈ extra := by
      have hq : s.atoms[x.idx]? = some (s.atoms[x.idx]) := List.getElem?_eq_getElem hxl
      generalize s.atoms[x.idx] = w at hq
      rw [e1, List.getElem?_append_right (by simpa [edgeAtoms] using hx2)] at hq
      exact List.mem_of_getElem? hq
    rw [(mem_of_getElem? (List.getElem?_eq_getElem hxl)).2]
    rw [q1] at hxm
    obtain ⟨c, -, a', -, i, hcc⟩ := mem_repNew hxm
    rw [hcc]
    rfl
  · rw [← Bool.not_eq_true, k4 rfl]
    rintro ⟨y, hy, d, hd, hds⟩
    obtain ⟨nb, hnb, ⟨hne, hdist, -⟩, -⟩ := (cutoffNbs_spec (s := s) (r := 2) (f := 0) ha0).2.2 y hy
    have hyl : y.idx < 2 := (List.getElem?_eq_some_iff.1 hd).1
    obtain hy0 | hy1 : y.idx = 0 ∨ y.idx = 1 := by omega
    · exact hne (by omega)
    · rw [hy1, ha1] at hnb
      obtain rfl := Option.some.inj hnb
      rw [System.getDistance, image_diag s 50 50 50 (by norm_num) (by norm_num) (by norm_num) htri hbox] at hdist
      have e : V3.norm ⟨9, 0, 0⟩ < 2 := by
        convert hdist using 3 <;> norm_num [wrap]
      rw [V3.norm, show V3.normSq ⟨9, 0, 0⟩ = (9 : ℝ) ^ 2 by norm_num [V3.normSq], Real.sqrt_sq (by norm_num)] at e
      norm_num at e

end Pyscal
