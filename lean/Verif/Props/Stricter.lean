import Verif.Props.SolidClusters
import Verif.Props.PerfectSolids

/-! C112: `find_solids` with stricter arguments. -/

namespace Pyscal

/-- Specification: asking for `b2` bonds is at least as strict as asking for `b1` bonds, both counts or both fractions. -/
def Spec.AtLeastBonds (b1 b2 : PyNum) : Prop :=
  (∃ m n : ℤ, b1 = .int m ∧ b2 = .int n ∧ m ≤ n) ∨ ∃ x y : ℝ, b1 = .flt x ∧ b2 = .flt y ∧ x ≤ y

/-- **C112** (partial).  Full statement: asking `find_solids` for more solid bonds, for a larger share of solid bonds or
for larger thresholds never makes a further atom solid, and never makes the largest cluster larger.  Here: for the
number or share of bonds and `avgthreshold`, with the same `threshold`, in the state reached by any history.  Missing:
`threshold`, for which it is false (`C112_false_threshold`); `comparecriteria` set by hand. -/
theorem C112_partial (s s1 s2 : System) (b1 b2 threshold avg1 avg2 : PyNum) (l : ℕ) (c1 c2 : ℝ) (right1 right2 : Bool) (r1 r2 : Option ℕ)
    (hcc : s.comparecriteria = 0) (hb : Spec.AtLeastBonds b1 b2) (hav : ∀ x y, avg1.val = some x → avg2.val = some y → x ≤ y)
    (h1 : System.findSolids b1 threshold avg1 false (.int l) c1 right1 s = (s1, .ok r1))
    (h2 : System.findSolids b2 threshold avg2 false (.int l) c2 right2 s = (s2, .ok r2)) :
    s2.atoms.length = s1.atoms.length ∧ ∀ (i : ℕ) (a b : Atom), s1.atoms[i]? = some a → s2.atoms[i]? = some b →
      a.sij = b.sij ∧ a.frenkel = b.frenkel ∧ (b.issolid = true → a.issolid = true) := by
  obtain ⟨l1, x1, at1, cr1, v1, -, hl1, -, -, hx1, hat1, -, -, -, hatoms1⟩ := findSolids_ok h1
  obtain ⟨l2, x2, at2, cr2, v2, -, hl2, -, -, hx2, hat2, -, -, -, hatoms2⟩ := findSolids_ok h2
  obtain rfl : l = l1 := by have := PyNum.int.inj hl1; omega
  obtain rfl : l = l2 := by have := PyNum.int.inj hl2; omega
  refine ⟨by rw [hatoms1, hatoms2, List.length_map, List.length_map], fun i a b hi hj => ?_⟩
  obtain ⟨k1, -, k2, k3⟩ := C22_partial s s1 b1 threshold avg1 l c1 right1 r1 hcc h1 x1 at1 hx1 hat1 i a hi
  obtain ⟨m1, -, m2, m3⟩ := C22_partial s s2 b2 threshold avg2 l c2 right2 r2 hcc h2 x2 at2 hx2 hat2 i b hj
  rw [hx1] at hx2
  obtain rfl := Option.some.inj hx2
  have hle := hav at1 at2 hat1 hat2
  rw [hatoms1, List.getElem?_map] at hi
  rw [hatoms2, List.getElem?_map] at hj
  cases hi0 : s.atoms[i]? with
  | none => rw [hi0] at hi; cases hi
  | some a0 =>
    rw [hi0] at hi hj
    have hi := (Option.some.inj hi).symm
    have hj := (Option.some.inj hj).symm
    have e1 : a.sij = b.sij := by
      rw [hi, hj, (solidAtom_fields s _ a0).2.2.1, (solidAtom_fields s _ a0).2.2.1]; rfl
    have e2 : a.nbrs = b.nbrs := by
      rw [hi, hj, (solidAtom_fields s _ a0).1, (solidAtom_fields s _ a0).1]
    have e3 : a.frenkel = b.frenkel := by rw [k1, m1, e1]
    refine ⟨e1, e3, fun hb2 => ?_⟩
    rcases hb with ⟨m, n, rfl, rfl, hmn⟩ | ⟨x, y, rfl, rfl, hxy⟩
    · rw [k2 m rfl, e1, e3]
      obtain ⟨p1, M, p2, p3⟩ := (m2 n rfl).1 hb2
      exact ⟨by omega, M, p2, hle.trans_lt p3⟩
    · rw [k3 x rfl, e1, e2, e3]
      obtain ⟨p1, M, p2, p3⟩ := (m3 y rfl).1 hb2
      exact ⟨(mul_le_mul_of_nonneg_right hxy (Nat.cast_nonneg _)).trans_lt p1, M, p2, hle.trans_lt p3⟩

/-- The atoms in a cluster, counted through the labels. -/
theorem cluster_count {l : List Atom} {n : ℕ} {lab : ℕ → ℤ} (h : l.map Atom.belongsto = (List.range n).map lab) (t : ℤ) :
    (l.filter fun a => a.belongsto = t).length = (List.range n).countP fun i => lab i = t := by
  have e1 : (l.map Atom.belongsto).countP (fun v => v = t) = (l.filter fun a => a.belongsto = t).length := by
    rw [List.countP_map, List.countP_eq_length_filter]; rfl
  rw [← e1, h, List.countP_map]; rfl

/-- **C112, clusters**: with `cluster=True` the stricter call never returns a larger number, its solid atoms are solid in
the looser call, and its clusters lie within clusters of the looser call. -/
theorem C112_clusters (σ : StdSort) (s s1 t1 t2 : System) (reals : List Atom) (hi : StoreInv s reals) (f : ℕ) (r : ℝ) (hr : r ≠ 0)
    (hpx : Spec.PairsExact s r) (h1 : s.findNeighbors σ f (.cutoff r) = .ok s1) (hcc : s1.comparecriteria = 0)
    (b1 b2 threshold avg1 avg2 : PyNum) (q : ℕ) (c : ℝ) (right1 right2 : Bool) (n1 n2 : ℕ)
    (hb : Spec.AtLeastBonds b1 b2) (hav : ∀ x y, avg1.val = some x → avg2.val = some y → x ≤ y)
    (hr1 : System.findSolids b1 threshold avg1 true (.int q) c right1 s1 = (t1, .ok (some n1)))
    (hr2 : System.findSolids b2 threshold avg2 true (.int q) c right2 s1 = (t2, .ok (some n2))) :
    ∃ l1 l2, t1.getAtoms = .ok l1 ∧ t2.getAtoms = .ok l2 ∧ l1.length = s.natoms ∧ l2.length = s.natoms ∧
      (∀ i, Spec.SolidAt l2 i → Spec.SolidAt l1 i) ∧
      (∀ (i j : ℕ) (a b a' b' : Atom), l2[i]? = some a → l2[j]? = some b → l1[i]? = some a' → l1[j]? = some b' →
        a.belongsto ≠ -1 → a.belongsto = b.belongsto → a'.belongsto ≠ -1 ∧ a'.belongsto = b'.belongsto) ∧ n2 ≤ n1 := by
  obtain ⟨u1, m1, k1, l1, lab1, ha1, hg1, hm1, hl1, hn1, hf1, hb1, hc1, hmax1, -, -⟩ :=
    C88_partial σ s s1 t1 reals hi f r hr hpx h1 b1 threshold avg1 (.int q) c right1 _ hr1
  obtain ⟨u2, m2, k2, l2, lab2, ha2, hg2, hm2, hl2, hn2, hf2, hb2, hc2, -, hsome2, hnone2⟩ :=
    C88_partial σ s s1 t2 reals hi f r hr hpx h1 b2 threshold avg2 (.int q) c right2 _ hr2
  obtain rfl := Option.some.inj hm1
  obtain rfl := Option.some.inj hm2
  obtain ⟨hi1, -⟩ := storeInv_any hr hpx h1 hi
  obtain ⟨p1, -, hst1, -⟩ := findSolids_store hi1 ha1
  obtain ⟨p2, -, hst2, -⟩ := findSolids_store hi1 ha2
  have hk : ∀ {u : System} {L k : List Atom}, StoreInv u L → u.getAtoms = .ok k → ∀ {i : ℕ} {a : Atom}, k[i]? = some a → u.atoms[i]? = some a := by
    intro u L k hu hg i a hia
    rw [getAtoms_inv hu] at hg
    obtain rfl := Except.ok.inj hg
    obtain ⟨gs, he, -⟩ := hu.ex
    rw [he, List.getElem?_append_left (List.getElem?_eq_some_iff.1 hia).1]
    exact hia
  have hsol : ∀ i, Spec.SolidAt l2 i → Spec.SolidAt l1 i := by
    rintro i ⟨b, hbi, hbs⟩
    have hlt : i < s.natoms := by rw [← hn2]; exact (List.getElem?_eq_some_iff.1 hbi).1
    have hi1 : i < l1.length := by omega
    have hk1 : i < k1.length := by rw [hf1.length_eq]; exact hi1
    have hi2 : i < l2.length := by omega
    have hk2 : i < k2.length := by rw [hf2.length_eq]; exact hi2
    have g1 := (List.forall₂_iff_get.1 hf1).2 i hk1 hi1
    have g2 := (List.forall₂_iff_get.1 hf2).2 i hk2 hi2
    simp only [List.get_eq_getElem] at g1 g2
    obtain ⟨-, hp⟩ := C112_partial s1 u1 u2 b1 b2 threshold avg1 avg2 q c c right1 right2 none none hcc hb hav ha1 ha2
    have hq := (hp i _ _ (hk hst1 hg1 (List.getElem?_eq_getElem hk1)) (hk hst2 hg2 (List.getElem?_eq_getElem hk2))).2.2
    rw [List.getElem?_eq_getElem hi2] at hbi
    obtain rfl := Option.some.inj hbi
    exact ⟨l1[i], List.getElem?_eq_getElem hi1, by rw [g1.2.2.2.2.2]; exact hq (by rw [← g2.2.2.2.2.2]; exact hbs)⟩
  have hlink : ∀ i j, Relation.ReflTransGen (Spec.SolidLink s l2 r f c) i j → Relation.ReflTransGen (Spec.SolidLink s l1 r f c) i j :=
    fun i j h => Relation.ReflTransGen.mono (fun x y ⟨hx, hy, hz⟩ => ⟨hsol x hx, hsol y hy, hz⟩) _ _ h
  have hlab : ∀ i < s.natoms, ∀ j < s.natoms, lab2 i ≠ -1 → lab2 i = lab2 j → lab1 i ≠ -1 ∧ lab1 i = lab1 j := by
    intro i hi j hj hne he
    have hmi : Spec.SolidAt l2 i := by by_contra hc; exact hne ((hc2.outside i hi).2 hc)
    have hmj : Spec.SolidAt l2 j := by by_contra hc; exact hne (he.trans ((hc2.outside j hj).2 hc))
    exact ⟨fun h => (hc1.outside i hi).1 h (hsol i hmi),
      (hc1.same i hi j hj (hsol i hmi) (hsol j hmj)).2 (hlink i j ((hc2.same i hi j hj hmi hmj).1 he))⟩
  have hget : ∀ {L : List Atom} {b : ℕ → ℤ}, L.map Atom.belongsto = (List.range s.natoms).map b → ∀ {i : ℕ} {a : Atom}, L[i]? = some a →
      i < s.natoms ∧ a.belongsto = b i := by
    intro L b hL i a hi
    have h : (L.map Atom.belongsto)[i]? = some a.belongsto := by rw [List.getElem?_map, hi]; rfl
    rw [hL] at h
    exact map_range_getElem? _ h
  refine ⟨l1, l2, hl1, hl2, hn1, hn2, hsol, ?_, ?_⟩
  · intro i j a b a' b' ha hb' ha' hb'' hne he
    obtain ⟨hi', ea⟩ := hget hb2 ha
    obtain ⟨hj', eb⟩ := hget hb2 hb'
    rw [(hget hb1 ha').2, (hget hb1 hb'').2]
    rw [ea] at hne
    rw [ea, eb] at he
    exact hlab i hi' j hj' hne he
  · by_cases hex : ∃ a ∈ l2, a.issolid = true
    · obtain ⟨hpos, t, ht, hlen, -⟩ := hsome2 hex
      rw [cluster_count hb2] at hlen
      obtain ⟨i0, hi0, hli0⟩ := List.countP_pos_iff.1 (hlen ▸ hpos)
      rw [List.mem_range] at hi0
      rw [decide_eq_true_iff] at hli0
      have h0 := hlab i0 hi0 i0 hi0 (by rw [hli0]; exact ht) rfl
      refine le_trans ?_ (hmax1 (lab1 i0) h0.1)
      rw [cluster_count hb1, ← hlen]
      refine List.countP_mono_left fun j hj hjt => ?_
      rw [List.mem_range] at hj
      rw [decide_eq_true_iff] at hjt ⊢
      exact (hlab i0 hi0 j hj (by rw [hli0]; exact ht) (hli0.trans hjt.symm)).2.symm
    · rw [hnone2 fun a ha => by
        cases h : a.issolid
        · rfl
        · exact absurd ⟨a, ha, h⟩ hex]
      exact Nat.zero_le _

/-- The hypotheses of `C112_partial` hold for two pairs of atoms, with a difference between the calls: for `q=4` the first
atom is solid when no bond is required and not solid when one is. -/
example : ∃ s1 s2 a b, Spec.AtLeastBonds (.int 0) (.int 1) ∧
    System.findSolids (.int 0) (.flt (1 / 2)) (.flt (1 / 2)) false (.int (4 : ℕ)) 0 true dimers = (s1, .ok none) ∧
    System.findSolids (.int 1) (.flt (1 / 2)) (.flt (1 / 2)) false (.int (4 : ℕ)) 0 true dimers = (s2, .ok none) ∧
    s1.atoms[0]? = some a ∧ s2.atoms[0]? = some b ∧ a.issolid = true ∧ b.issolid = false := by
  obtain ⟨s2, b, h2, hb, _, _, hb'⟩ := C22_false_minimum
  obtain ⟨s1, h1⟩ := dimers_runs (.int 0) (.flt (1 / 2)) (.flt (1 / 2)) (4 : ℕ) true
    ⟨rfl, ⟨4, rfl, by norm_num⟩, ⟨_, rfl, by norm_num⟩, ⟨_, rfl, by norm_num⟩, .inl ⟨0, rfl⟩⟩
  obtain ⟨a, ha, k1, -⟩ := dimers_sij s1 _ _ _ 4 _ _ h1
  have hl : Spec.legendre 4 (-1) = 1 := by norm_num [Spec.legendre]
  rw [hl] at k1
  obtain ⟨g1, -, g2, -⟩ := C22_partial dimers s1 _ _ _ 4 0 true none rfl h1 (1 / 2) (1 / 2) rfl rfl 0 a ha
  refine ⟨s1, s2, a, b, .inl ⟨0, 1, rfl, rfl, by norm_num⟩, h1, h2, ha, hb, ?_, hb'⟩
  rw [g2 0 rfl, g1, k1]
  exact ⟨by norm_num, 1, ⟨[1], rfl, by simp, by simp⟩, by norm_num⟩

/-- The hypotheses of `C112_clusters` hold for 200 atoms in a row, with the defaults against nine tenths of the bonds and a
mean above 4/5. -/
example (σ : StdSort) : ∃ s s1 t1 t2 : System, ∃ reals n1 n2, StoreInv s reals ∧ s.natoms = 200 ∧ Spec.PairsExact s (3 / 2) ∧
    s.findNeighbors σ 0 (.cutoff (3 / 2)) = .ok s1 ∧ s1.comparecriteria = 0 ∧ Spec.AtLeastBonds (.flt (1 / 2)) (.flt (9 / 10)) ∧
    System.findSolids (.flt (1 / 2)) (.flt (1 / 2)) (.flt (3 / 5)) true (.int (6 : ℕ)) 0 true s1 = (t1, .ok (some n1)) ∧
    System.findSolids (.flt (9 / 10)) (.flt (1 / 2)) (.flt (4 / 5)) true (.int (6 : ℕ)) 0 true s1 = (t2, .ok (some n2)) := by
  obtain ⟨s0, s, h1, h2, hi, ha, -⟩ := chain_setup
  have hrn : s.realNop = 200 := by rw [hi.realNop, chainAtoms_length]
  have hal : s.atoms.length = 200 := by rw [ha, chainAtoms_length]
  have hlen := chainAtoms_length
  obtain ⟨s1, h3⟩ := (C09_overrun σ s 0 (3 / 2) (by norm_num) (by omega) (by omega)).2 (by
    intro k hk
    rw [← cutoffList_length (List.getElem?_eq_getElem hk) (cutoffNbs_spec (List.getElem?_eq_getElem hk))]
    exact (cutoffNbs_le _ _ _ _).trans (by omega))
  obtain ⟨-, hs1, -⟩ := findNeighbors_cutoff_ok (show (3 / 2 : ℝ) ≠ 0 by norm_num) (by omega) h3
  obtain ⟨f1, f2, -⟩ := setBox_frame h1
  have hnsk : ¬ Spec.Skew s0.getBox := by
    have : s0.getBox = Spec.diagBox 1000 1000 1000 := by simp [System.getBox, f1, f2, System.init]
    rw [this, ← skewed_iff]; exact not_skewed_diag _ _ _
  have hpx : Spec.PairsExact s (3 / 2) := .inl (by unfold System.natoms; omega)
  have hcc : s.comparecriteria = 0 := by
    obtain ⟨-, -, -, -, -, -, -, -, hr⟩ := assign_shape hi.real h2
    rw [hr.eq, (setBox_rest h1).eq]
    rfl
  have hrun : ∀ b a : ℝ, 0 ≤ b → b ≤ 1 → 0 ≤ a → a ≤ 1 → ∃ t n,
      System.findSolids (.flt b) (.flt (1 / 2)) (.flt a) true (.int (6 : ℕ)) 0 true s1 = (t, .ok (some n)) := by
    intro b a hb hb' ha0 ha1
    exact C88_run σ s0 s s1 chainAtoms hi.real (by omega) (fun h => absurd h hnsk) h2 0 (3 / 2) (by norm_num) hpx h3
      (.flt b) (.flt (1 / 2)) (.flt a) (.int (6 : ℕ)) 0 true
      ⟨by rw [hs1], ⟨6, rfl, by norm_num⟩, ⟨_, rfl, by norm_num⟩, ⟨_, rfl, ha0, ha1⟩, .inr ⟨_, rfl, hb, hb'⟩⟩
  obtain ⟨t1, n1, h4⟩ := hrun (1 / 2) (3 / 5) (by norm_num) (by norm_num) (by norm_num) (by norm_num)
  obtain ⟨t2, n2, h5⟩ := hrun (9 / 10) (4 / 5) (by norm_num) (by norm_num) (by norm_num) (by norm_num)
  exact ⟨s, s1, t1, t2, chainAtoms, n1, n2, hi, hrn, hpx, h3, by rw [hs1]; exact hcc, .inr ⟨_, _, rfl, rfl, by norm_num⟩, h4, h5⟩

/-! ## A larger threshold can make atoms solid -/

/-- Three atoms: 0 has the neighbour 1, which has the neighbours 0 and 2 at a right angle. -/
noncomputable def elbow : System :=
  { twoAtoms with
    atoms := [{ pos := ⟨1, 1, 1⟩, nbrs := [⟨1, 1, 1, ⟨1, 0, 0⟩⟩] },
      { pos := ⟨2, 1, 1⟩, nbrs := [⟨0, 1, 1, ⟨-1, 0, 0⟩⟩, ⟨2, 1, 1, ⟨0, 1, 0⟩⟩] }, { pos := ⟨2, 2, 1⟩, nbrs := [⟨1, 1, 1, ⟨0, -1, 0⟩⟩] }]
    nop := 3, realNop := 3, neighborsFound := true }

theorem elbow_inRange : elbow.NbrsInRange := by
  intro a ha x hx
  simp only [elbow, List.mem_cons, List.not_mem_nil, or_false] at ha
  rcases ha with rfl | rfl | rfl <;> simp only [List.mem_cons, List.not_mem_nil, or_false] at hx <;>
    (rcases hx with rfl | rfl) <;> simp [elbow]

theorem elbow_participants {k : ℕ} {a : Atom} (h : elbow.atoms[k]? = some a) : Spec.participants elbow a = wv a.nbrs := by
  rw [participants_eq elbow_inRange (List.mem_of_getElem? h)]
  congr 1
  unfold System.qNbrs
  rw [List.filter_eq_self]
  intro x hx
  have hm := List.mem_of_getElem? h
  simp only [elbow, List.mem_cons, List.not_mem_nil, or_false] at hm
  rcases hm with rfl | rfl | rfl <;> simp only [List.mem_cons, List.not_mem_nil, or_false] at hx <;>
    (rcases hx with rfl | rfl) <;> simp [System.mem, elbow]

/-- In `elbow` the correlation of atoms 0 and 1 for `q=2` is 1/2. -/
theorem elbow_sij (s' : System) (bonds threshold avgthreshold : PyNum) (right : Bool) (r : Option ℕ)
    (h : System.findSolids bonds threshold avgthreshold false (.int (2 : ℕ)) 0 right elbow = (s', .ok r)) :
    ∃ a, s'.atoms[0]? = some a ∧ a.sij = [some (1 / 2 : ℝ)] := by
  obtain ⟨l', t1, at1, cr, b, -, hl, -, -, -, -, -, -, hs, hat⟩ := findSolids_ok h
  obtain ⟨a', ha'⟩ : ∃ a', s'.atoms[0]? = some a' := by
    rw [hat]; exact ⟨_, rfl⟩
  have h0 : elbow.atoms[0]? = some { pos := ⟨1, 1, 1⟩, nbrs := [⟨1, 1, 1, ⟨1, 0, 0⟩⟩] } := rfl
  have h1 : elbow.atoms[1]? = some { pos := ⟨2, 1, 1⟩, nbrs := [⟨0, 1, 1, ⟨-1, 0, 0⟩⟩, ⟨2, 1, 1, ⟨0, 1, 0⟩⟩] } := rfl
  have hnb : a'.nbrs = [⟨1, 1, 1, ⟨1, 0, 0⟩⟩] := by
    rw [hat, List.getElem?_map, h0] at ha'
    rw [← Option.some.inj ha', (solidAtom_fields elbow _ _).1]
  have n1 : (⟨1, 0, 0⟩ : V3) ≠ 0 := by intro h; have := congrArg V3.x h; simp at this
  have n2 : (⟨-1, 0, 0⟩ : V3) ≠ 0 := by intro h; have := congrArg V3.x h; simp at this
  have n3 : (⟨0, 1, 0⟩ : V3) ≠ 0 := by intro h; have := congrArg V3.y h; simp at this
  have e1 : wv [(⟨1, 1, 1, ⟨1, 0, 0⟩⟩ : Nb)] = [(1, ⟨1, 0, 0⟩)] := rfl
  have e2 : wv [(⟨0, 1, 1, ⟨-1, 0, 0⟩⟩ : Nb), ⟨2, 1, 1, ⟨0, 1, 0⟩⟩] = [(1, ⟨-1, 0, 0⟩), (1, ⟨0, 1, 0⟩)] := rfl
  have p0 : Spec.participants elbow { pos := ⟨1, 1, 1⟩, nbrs := [⟨1, 1, 1, ⟨1, 0, 0⟩⟩] } = [(1, ⟨1, 0, 0⟩)] := elbow_participants h0
  have p1 : Spec.participants elbow { pos := ⟨2, 1, 1⟩, nbrs := [⟨0, 1, 1, ⟨-1, 0, 0⟩⟩, ⟨2, 1, 1, ⟨0, 1, 0⟩⟩] } =
    [(1, ⟨-1, 0, 0⟩), (1, ⟨0, 1, 0⟩)] := elbow_participants h1
  have hv := C21_legendre elbow s' bonds threshold avgthreshold 2 0 right r h rfl 0 1 _ _ a' h0 h1 ha'
    (by rw [p0]; simpa using n1) (by rw [p1]; simpa using ⟨n2, n3⟩)
    (by rw [p0]; simp) (by rw [p1]; simp)
    0 ⟨1, 1, 1, ⟨1, 0, 0⟩⟩ (by rw [hnb]; rfl) rfl
  rw [p0, p1] at hv
  have u1 : V3.norm ⟨1, 0, 0⟩ = 1 := norm_unit (by norm_num [V3.normSq])
  have u2 : V3.norm ⟨-1, 0, 0⟩ = 1 := norm_unit (by norm_num [V3.normSq])
  have u3 : V3.norm ⟨0, 1, 0⟩ = 1 := norm_unit (by norm_num [V3.normSq])
  have c1 : Spec.crossSum 2 [(1, ⟨1, 0, 0⟩)] [(1, ⟨-1, 0, 0⟩), (1, ⟨0, 1, 0⟩)] = 1 / 2 := by
    simp [Spec.crossSum, Spec.cosAngle, u1, u2, u3, V3.dot, Spec.legendre]; norm_num
  have c2 : Spec.pairSum 2 [(1, ⟨1, 0, 0⟩)] = 1 := by
    simp [Spec.pairSum, Spec.crossSum, cosAngle_self n1, legendre_one]
  have c3 : Spec.pairSum 2 [(1, ⟨-1, 0, 0⟩), (1, ⟨0, 1, 0⟩)] = 1 := by
    simp [Spec.pairSum, Spec.crossSum, Spec.cosAngle, u2, u3, V3.dot, Spec.legendre]; norm_num
  rw [c1, c2, c3] at hv
  have hlen := (C21_values elbow s' bonds threshold avgthreshold 2 0 right r h 0 a' ha').1
  rw [hnb] at hlen
  obtain ⟨z, hz⟩ := List.length_eq_one_iff.1 hlen
  refine ⟨a', ha', ?_⟩
  rw [hz] at hv ⊢
  simp only [List.getElem?_cons_zero, Option.some.injEq] at hv
  rw [hv]
  simp [fdiv]

/-- **C112 is false for `threshold`**: raising it from 1/2 to 1 makes an atom solid, because a bond is counted when its
correlation differs from the threshold. -/
theorem C112_false_threshold : ∃ s1 s2 a b,
    System.findSolids (.int 0) (.flt (1 / 2)) (.flt 0) false (.int (2 : ℕ)) 0 true elbow = (s1, .ok none) ∧
    System.findSolids (.int 0) (.flt 1) (.flt 0) false (.int (2 : ℕ)) 0 true elbow = (s2, .ok none) ∧
    s1.atoms[0]? = some a ∧ s2.atoms[0]? = some b ∧ a.sij = b.sij ∧ a.issolid = false ∧ b.issolid = true := by
  have hrun : ∀ x : ℝ, 0 ≤ x → x ≤ 1 → ∃ s', System.findSolids (.int 0) (.flt x) (.flt 0) false (.int (2 : ℕ)) 0 true elbow = (s', .ok none) :=
    fun x hx hx' => (C24_find_solids elbow (.int 0) (.flt x) (.flt 0) (.int (2 : ℕ)) false 0 true).2
      ⟨rfl, ⟨2, rfl, by norm_num⟩, ⟨x, rfl, hx, hx'⟩, ⟨0, rfl, by norm_num⟩, .inl ⟨0, rfl⟩⟩ elbow_inRange
  obtain ⟨s1, h1⟩ := hrun (1 / 2) (by norm_num) (by norm_num)
  obtain ⟨s2, h2⟩ := hrun 1 (by norm_num) le_rfl
  obtain ⟨a, ha, ka⟩ := elbow_sij s1 _ _ _ _ _ h1
  obtain ⟨b, hb, kb⟩ := elbow_sij s2 _ _ _ _ _ h2
  obtain ⟨a1, -, a2, -⟩ := C22_partial elbow s1 _ _ _ 2 0 true none rfl h1 (1 / 2) 0 rfl rfl 0 a ha
  obtain ⟨b1, -, b2, -⟩ := C22_partial elbow s2 _ _ _ 2 0 true none rfl h2 1 0 rfl rfl 0 b hb
  refine ⟨s1, s2, a, b, h1, h2, ha, hb, ka.trans kb.symm, ?_, ?_⟩
  · have := a2 0 rfl
    rw [a1, ka] at this
    simpa using this
  · rw [b2 0 rfl, b1, kb]
    exact ⟨by norm_num, 1 / 2, ⟨[1 / 2], rfl, by simp, by simp⟩, by norm_num⟩

end Pyscal
