import Verif.Props.ClusterAgain
import Verif.Props.Entropy

/-! Property C117: `calculate_entropy` after other analyses. -/

namespace Pyscal

/-- The box is not touched by the calls of `Spec.Explored`. -/
theorem explored_box {s t : System} (hs : NoCopies s) (h : Spec.Explored s t) : t.getBox = s.getBox := by
  have hcl : ∀ {x x' : System} {cond : Atom → Except Fault ℤ} {c : ℝ} {n : ℕ}, NoCopies x → x.clusterAtoms cond c = .ok (x', n) → x'.getBox = x.getBox := by
    intro x x' cond c n hx h
    obtain ⟨new, t1, t2, a1, a2, a3, a4, a5⟩ := clusterAtoms_ok hx.inv h
    have hreal : ∀ b ∈ new, b.ghost = false := by
      intro b hb
      obtain ⟨i, hib⟩ := List.mem_iff_getElem?.1 hb
      have hlt := (List.getElem?_eq_some_iff.1 hib).1
      obtain ⟨v, -, h2⟩ := a5 i x.atoms[i] (List.getElem?_eq_getElem (by omega))
      rw [hib] at h2
      rw [Option.some.inj h2]
      exact hx.real x.atoms[i] (List.getElem_mem _)
    obtain ⟨extra, -, -, -, -, -, x6, -, -⟩ := assign_shape hreal a1
    obtain ⟨-, rfl⟩ := x6 (by rw [a4]; exact hx.large)
    obtain ⟨c1, c2⟩ := findClusters_inRange a2
    obtain ⟨lab, hb, -, -⟩ := findClusters_ok _ c c1 c2
    rw [a2] at hb
    unfold System.largestCluster at a3
    split_ifs at a3
    have := congrArg (fun x => x.1) (Except.ok.inj a3)
    dsimp only at this
    rw [← this, Except.ok.inj hb]
    rfl
  have hso : ∀ {x x' : System} {bonds threshold avgthreshold q : PyNum} {cutoff : ℝ} {right : Bool} {r : Option ℕ}, NoCopies x →
      System.findSolids bonds threshold avgthreshold false q cutoff right x = (x', .ok r) → x'.getBox = x.getBox := by
    intro x x' bonds threshold avgthreshold q cutoff right r hx h
    obtain ⟨p, rfl, -, -⟩ := findSolids_store hx.inv h
    rfl
  induction h with
  | refl => rfl
  | @solids t t' bonds threshold avgthreshold q cluster cutoff right r h0 h ih =>
    have hk := explored_kept hs h0
    cases cluster with
    | false => exact (hso hk.copies h).trans ih
    | true =>
      obtain ⟨u, n, hu, hc, -⟩ := (findSolids_cluster _ _ _ _ _ _ _ _ _).1 h
      exact (hcl (hk.solids hu).copies hc).trans ((hso hk.copies hu).trans ih)
  | @cluster t t' cond cutoff n h0 h ih => exact (hcl (explored_kept hs h0).copies h).trans ih
  | @disorder t t' averaged q _ h ih =>
    unfold System.calculateDisorder at h
    dsimp only at h
    split_ifs at h <;> obtain ⟨rfl, he⟩ := Prod.mk.inj h <;> first
      | (cases he; done)
      | exact ih
  | @q t t' ls averaged _ h ih =>
    obtain ⟨-, -, e⟩ := calculateQ_ok h
    rw [e, ← ih]
    split_ifs <;> rfl

theorem trapezoid_congr {a b : Atom} (h : a.nbrs = b.nbrs) (σ ρ x y d k : ℝ) : trapezoid a σ ρ x y d k = trapezoid b σ ρ x y d k := by
  have hg : ∀ r, gmr a σ ρ r = gmr b σ ρ r := fun r => by unfold gmr; rw [h]
  have hf : ∀ r, entropyIntegrand a σ ρ r = entropyIntegrand b σ ρ r := fun r => by unfold entropyIntegrand; rw [hg]
  unfold trapezoid
  simp only [hf]

/-- **C117, what holds.**  Full statement: for at least 200 atoms, calls of `find_solids`, `cluster_atoms`, `calculate_disorder` and `calculate_q` do not
change what `calculate_entropy` gives.  Proved: with `local=False` every atom gets the same entropy, whatever the averaging.  Missing: `local=True`, see
`C117_leftover` and `C117_false`. -/
theorem C117_partial (s t s' t' : System) (reals : List Atom) (hi : StoreInv s reals) (hn : 200 ≤ reals.length) (hg : s.ghostNop = 0)
    (hst : Spec.Explored s t) (rm σ rstart h : ℝ) (av : System.EntropyAverage) (r r' : Except Fault Unit)
    (h1 : System.calculateEntropy rm σ rstart h false av s = (s', r)) (h2 : System.calculateEntropy rm σ rstart h false av t = (t', r'))
    (i : ℕ) (hir : i < reals.length) (a b : Atom) (ha : s'.atoms[i]? = some a) (hb : t'.atoms[i]? = some b) : a.entropy = b.entropy := by
  obtain ⟨hc, hrl⟩ := NoCopies.of_inv hi hn hg
  have hk := explored_kept hc hst
  have hl : t.atoms.length = s.atoms.length := by simpa using congrArg List.length hk.nbrs
  have hdet : t.boxDet = s.boxDet := by unfold System.boxDet; rw [explored_box hc hst]
  have hi1 : i < s.atoms.length := by rw [hrl]; exact hir
  have hi2 : i < t.atoms.length := by omega
  have hne : fdiv (s.atoms.length : ℝ) s.boxDet ≠ some 0 := by
    unfold fdiv
    have h0 : (s.atoms.length : ℝ) ≠ 0 := by have := hc.large; positivity
    split_ifs with hz
    · simp
    · simpa using ⟨by simpa using h0, hz⟩
  obtain ⟨x, hx, ex, -⟩ := calculateEntropy_atom (getAtoms_inv hc.inv) h1 (List.getElem?_eq_getElem hi1) ha
  obtain ⟨y, hy, ey, -⟩ := calculateEntropy_atom (getAtoms_inv hk.copies.inv) h2 (List.getElem?_eq_getElem hi2) hb
  rw [if_neg (by simp), entropyLoop_const _ _ _ _ _ _ hne, List.getElem?_map, List.getElem?_eq_getElem hi1] at hx
  rw [if_neg (by simp), hdet, hl, entropyLoop_const _ _ _ _ _ _ hne, List.getElem?_map, List.getElem?_eq_getElem hi2] at hy
  obtain rfl := Option.some.inj hx
  obtain rfl := Option.some.inj hy
  rw [ex, ey]
  have hnb : s.atoms[i].nbrs = t.atoms[i].nbrs := by
    have e := congrArg (·[i]?) hk.nbrs
    simp only [List.getElem?_map, List.getElem?_eq_getElem hi1, List.getElem?_eq_getElem hi2] at e
    exact (Option.some.inj e).symm
  dsimp only
  congr 1
  funext ρ
  exact trapezoid_congr hnb _ _ _ _ _ _

/-- The two ways of averaging read neighbours and entropies only. -/
theorem avgEntropy_congr {x y : System} (hn : x.atoms.map Atom.nbrs = y.atoms.map Atom.nbrs) (he : x.atoms.map Atom.entropy = y.atoms.map Atom.entropy)
    (i : ℕ) (a b : Atom) (ha : x.atoms[i]? = some a) (hb : y.atoms[i]? = some b) :
    (x.avgEntropy1 a).avgEntropy = (y.avgEntropy1 b).avgEntropy ∧
    ∀ (ra : ℝ) (M N : ℕ), (x.avgEntropySwitch1 ra M N a).avgEntropy = (y.avgEntropySwitch1 ra M N b).avgEntropy := by
  have hm : ∀ k, (x.mem k).entropy = (y.mem k).entropy := by
    intro k
    have e := congrArg (·[k]?) he
    simp only [List.getElem?_map] at e
    unfold System.mem
    rw [List.getD_eq_getElem?_getD, List.getD_eq_getElem?_getD]
    cases hx : x.atoms[k]? <;> cases hy : y.atoms[k]? <;> rw [hx, hy] at e
    · simp at e
    · simp at e
    · exact Option.some.inj e
  have h1 : a.nbrs = b.nbrs := by
    have e := congrArg (·[i]?) hn
    simp only [List.getElem?_map, ha, hb] at e
    exact Option.some.inj e
  have h2 : a.entropy = b.entropy := by
    have e := congrArg (·[i]?) he
    simp only [List.getElem?_map, ha, hb] at e
    exact Option.some.inj e
  refine ⟨?_, fun ra M N => ?_⟩
  · unfold System.avgEntropy1
    simp only [hm, h1, h2]
  · unfold System.avgEntropySwitch1
    simp only [hm, h1, h2]

/-- **C117, averages**: with `local=False` and `averaged=True`, plain or with the switching function, every atom gets the same averaged entropy. -/
theorem C117_averages (s t s' t' : System) (reals : List Atom) (hi : StoreInv s reals) (hn : 200 ≤ reals.length) (hg : s.ghostNop = 0)
    (hst : Spec.Explored s t) (rm σ rstart h : ℝ) (av : System.EntropyAverage) (hav : av ≠ .none)
    (h1 : System.calculateEntropy rm σ rstart h false av s = (s', .ok ())) (h2 : System.calculateEntropy rm σ rstart h false av t = (t', .ok ()))
    (i : ℕ) (a b : Atom) (ha : s'.atoms[i]? = some a) (hb : t'.atoms[i]? = some b) : a.avgEntropy = b.avgEntropy := by
  obtain ⟨hc, -⟩ := NoCopies.of_inv hi hn hg
  have hk := explored_kept hc hst
  have hl : t.atoms.length = s.atoms.length := by simpa using congrArg List.length hk.nbrs
  have hdet : t.boxDet = s.boxDet := by unfold System.boxDet; rw [explored_box hc hst]
  set R := fdiv (s.atoms.length : ℝ) s.boxDet with hR
  have hne : R ≠ some 0 := by
    rw [hR]
    unfold fdiv
    have h0 : (s.atoms.length : ℝ) ≠ 0 := by have := hc.large; positivity
    split_ifs with hz
    · simp
    · simpa using ⟨by simpa using h0, hz⟩
  have e : (if (false : Bool) = true then some (0 : ℝ) else R) = R := if_neg (by simp)
  unfold System.calculateEntropy at h1 h2
  rw [getAtoms_inv hc.inv] at h1
  rw [getAtoms_inv hk.copies.inv] at h2
  dsimp only at h1 h2
  rw [hl, hdet] at h2
  rw [← hR, e, entropyLoop_const _ _ _ _ _ _ hne] at h1 h2
  have hcong : ∀ (i : ℕ) (a b : Atom), _ := avgEntropy_congr
    (x := { s with atoms := s.atoms.map fun a => { a with entropy := R.bind fun ρ => trapezoid a σ ρ rstart rm h 1 } })
    (y := { t with atoms := t.atoms.map fun a => { a with entropy := R.bind fun ρ => trapezoid a σ ρ rstart rm h 1 } })
    (by
      simp only [List.map_map]
      exact hk.nbrs.symm)
    (by
      have hf : ∀ l : List Atom, (l.map fun a => { a with entropy := R.bind fun ρ => trapezoid a σ ρ rstart rm h 1 }).map Atom.entropy =
          (l.map Atom.nbrs).map fun nb => R.bind fun ρ => trapezoid { (default : Atom) with nbrs := nb } σ ρ rstart rm h 1 := by
        intro l
        rw [List.map_map, List.map_map]
        refine List.map_congr_left fun a _ => ?_
        change R.bind _ = R.bind _
        congr 1
      dsimp only
      rw [hf, hf, hk.nbrs])
  have pick : ∀ {L : List Atom} {f : Atom → Atom} {z : Atom}, (L.map f)[i]? = some z → ∃ y, L[i]? = some y ∧ z = f y := by
    intro L f z hz
    rw [List.getElem?_map] at hz
    cases hy : L[i]? with
    | none => rw [hy] at hz; cases hz
    | some y => rw [hy] at hz; exact ⟨y, rfl, (Option.some.inj hz).symm⟩
  cases av with
  | none => exact absurd rfl hav
  | plain =>
    dsimp only at h1 h2
    split_ifs at h1 with g1
    · split_ifs at h2 with g2
      · obtain ⟨rfl, -⟩ := Prod.mk.inj h1
        obtain ⟨rfl, -⟩ := Prod.mk.inj h2
        obtain ⟨y, hy, rfl⟩ := pick ha
        obtain ⟨w, hw, rfl⟩ := pick hb
        exact (hcong i y w hy hw).1
      · cases (Prod.mk.inj h2).2
    · cases (Prod.mk.inj h1).2
  | switch ra M N =>
    cases ra with
    | none => cases (Prod.mk.inj h1).2
    | some ra =>
      dsimp only at h1 h2
      split_ifs at h1 with g1
      · split_ifs at h2 with g2
        · obtain ⟨rfl, -⟩ := Prod.mk.inj h1
          obtain ⟨rfl, -⟩ := Prod.mk.inj h2
          obtain ⟨y, hy, rfl⟩ := pick ha
          obtain ⟨w, hw, rfl⟩ := pick hb
          exact (hcong i y w hy hw).2 ra M N
        · cases (Prod.mk.inj h2).2
      · cases (Prod.mk.inj h1).2

/-- **C117, what `local=True` gives after `cluster_atoms(..., cutoff=c)`**: the density is the coordination of the first atom in a sphere of the
clustering cutoff `c`, whatever the cutoff of the neighbour search was. -/
theorem C117_leftover (s t t' : System) (reals : List Atom) (hi : StoreInv s reals) (hn : 200 ≤ reals.length) (hg : s.ghostNop = 0)
    (cond : Atom → Except Fault ℤ) (c : ℝ) (hc : 0 < c) (m : ℕ) (h0 : s.clusterAtoms cond c = .ok (t, m))
    (rm σ rstart h : ℝ) (av : System.EntropyAverage) (r : Except Fault Unit) (h1 : System.calculateEntropy rm σ rstart h true av t = (t', r))
    (hσ : σ ≠ 0) (hs : 0 < rstart) (hh : 0 < h) (hrm : rstart + h ≤ rm)
    (a0 : Atom) (ha0 : s.atoms[0]? = some a0) (hn0 : a0.nbrs ≠ []) (i : ℕ) (a b : Atom) (ha : s.atoms[i]? = some a) (hna : a.nbrs ≠ [])
    (hb : t'.atoms[i]? = some b) :
    let f : ℝ → ℝ := Spec.entropyIntegrand (a.nbrs.map Nb.dist) σ (Spec.localDensity a0.nbrs.length c)
    let n : ℕ := ⌊(rm - rstart) / h⌋₊
    b.entropy = some (-Spec.localDensity a0.nbrs.length c *
      (Spec.trapezoidRule f rstart h n - if n = 1 then 0 else h * f (rstart + (n - 1) * h))) := by
  intro f n
  obtain ⟨hcp, -⟩ := NoCopies.of_inv hi hn hg
  have hk : StillNear s t := StillNear.cluster ⟨hcp, rfl, rfl, rfl, rfl⟩ h0
  obtain ⟨new, lab, -, -, -, -, hl, hat⟩ := cluster_run hcp h0
  have hget : ∀ (j : ℕ) (x : Atom), s.atoms[j]? = some x → ∃ y, t.atoms[j]? = some y ∧ y.nbrs = x.nbrs ∧ y.cutoff = some c := by
    intro j x hx
    have hlt := (List.getElem?_eq_some_iff.1 hx).1
    obtain ⟨x', e, he⟩ := hat j _ (List.getElem?_eq_getElem (by omega : j < t.atoms.length))
    rw [hx] at e
    obtain rfl := Option.some.inj e
    exact ⟨_, List.getElem?_eq_getElem (by omega), by rw [he], by rw [he]; exact if_pos hc.ne'⟩
  obtain ⟨y0, g0, e0, c0⟩ := hget 0 a0 ha0
  obtain ⟨y, gy, ey, -⟩ := hget i a ha
  have hn1 : 1 ≤ n := by
    refine (Nat.le_floor_iff' (by norm_num)).2 ?_
    rw [le_div_iff₀ hh]
    push_cast
    linarith
  have := (C32_partial t t' _ hk.copies.inv rm σ rstart h av r h1 hσ hs hh y0 g0 c c0 hc (by rw [e0]; exact hn0) i y b gy hb (by rw [ey]; exact hna)).1 hn1
  rw [this]
  simp only [ey, e0]
  rfl

/-- The hypotheses of `C117_partial` and `C117_leftover` hold for the row of atoms, for every clustering cutoff. -/
theorem entropy_chain (σ : StdSort) : ∃ (s1 : System) (a0 : Atom), NoCopies s1 ∧ s1.atoms[0]? = some a0 ∧ a0.nbrs ≠ [] ∧
    ∀ c : ℝ, ∃ t m t' b, s1.clusterAtoms (fun _ => .ok 1) c = .ok (t, m) ∧ System.calculateEntropy 2 1 1 1 true .none t = (t', .ok ()) ∧
      t'.atoms[0]? = some b := by
  obtain ⟨s, s1, t, u, u', n, n', -, -, -, -, h5, -, -, hc1, -, a0, ha0, hn0⟩ := cluster_chain σ
  have hkt : StillNear s1 t := StillNear.cluster ⟨hc1, rfl, rfl, rfl, rfl⟩ h5
  have hr1 : s1.NbrsInRange := nbrsInRange_congr hkt.nbrs.symm (clusterAtoms_inRange hc1.inv h5)
  refine ⟨s1, a0, hc1, ha0, hn0, fun c => ?_⟩
  obtain ⟨z, k, hz⟩ := C25_succeeds s1 _ hc1.inv hr1 (fun _ => .ok 1) c (fun _ _ => ⟨1, rfl⟩)
      ⟨_, ha0, .inr rfl⟩ (fun h => absurd hc1.large (by omega)) (fun _ => hc1.ghostNop)
  have hkz : StillNear s1 z := StillNear.cluster ⟨hc1, rfl, rfl, rfl, rfl⟩ hz
  refine ⟨z, k, { z with atoms := entropyLoop 1 1 2 1 1 (some 0) z.atoms }, _, hz, ?_,
    List.getElem?_eq_getElem (by rw [entropyLoop_length]; have := hkz.copies.large; omega)⟩
  unfold System.calculateEntropy
  rw [getAtoms_inv hkz.copies.inv]
  rfl

/-- **C117 is false for `local=True`**: one state after a neighbour search, two clusterings of it with different cutoffs; `calculate_entropy(local=True)`
then gives the first atom different entropies. -/
theorem C117_false (σ : StdSort) : ∃ (s t u t' u' : System) (c c' : ℝ) (m m' : ℕ) (a b : Atom), StoreInv s s.atoms ∧ 200 ≤ s.atoms.length ∧ 0 < c ∧ 0 < c' ∧
    s.clusterAtoms (fun _ => .ok 1) c = .ok (t, m) ∧ s.clusterAtoms (fun _ => .ok 1) c' = .ok (u, m') ∧
    System.calculateEntropy 2 1 1 1 true .none t = (t', .ok ()) ∧ System.calculateEntropy 2 1 1 1 true .none u = (u', .ok ()) ∧
    t'.atoms[0]? = some a ∧ u'.atoms[0]? = some b ∧ a.entropy ≠ b.entropy := by
  obtain ⟨s, a0, hc, ha0, hn0, hrun⟩ := entropy_chain σ
  obtain ⟨t1, m1, t1', b1, p1, q1, r1⟩ := hrun 4
  obtain ⟨t2, m2, t2', b2, p2, q2, r2⟩ := hrun 2
  obtain ⟨t3, m3, t3', b3, p3, q3, r3⟩ := hrun 1
  by_contra hno
  have e12 : b1.entropy = b2.entropy := by
    by_contra hne
    exact hno ⟨s, t1, t2, t1', t2', 4, 2, m1, m2, b1, b2, hc.inv, hc.large, by norm_num, by norm_num, p1, p2, q1, q2, r1, r2, hne⟩
  have e23 : b2.entropy = b3.entropy := by
    by_contra hne
    exact hno ⟨s, t2, t3, t2', t3', 2, 1, m2, m3, b2, b3, hc.inv, hc.large, by norm_num, by norm_num, p2, p3, q2, q3, r2, r3, hne⟩
  have hfl : ⌊((2 : ℝ) - 1) / 1⌋₊ = 1 := by norm_num
  have v1 := C117_leftover s t1 t1' _ hc.inv hc.large hc.ghostNop _ 4 (by norm_num) m1 p1 2 1 1 1 .none _ q1 (by norm_num) (by norm_num) (by norm_num)
    (by norm_num) a0 ha0 hn0 0 a0 b1 ha0 hn0 r1
  have v2 := C117_leftover s t2 t2' _ hc.inv hc.large hc.ghostNop _ 2 (by norm_num) m2 p2 2 1 1 1 .none _ q2 (by norm_num) (by norm_num) (by norm_num)
    (by norm_num) a0 ha0 hn0 0 a0 b2 ha0 hn0 r2
  have v3 := C117_leftover s t3 t3' _ hc.inv hc.large hc.ghostNop _ 1 (by norm_num) m3 p3 2 1 1 1 .none _ q3 (by norm_num) (by norm_num) (by norm_num)
    (by norm_num) a0 ha0 hn0 0 a0 b3 ha0 hn0 r3
  rw [v1, v2] at e12
  rw [v2, v3] at e23
  have e12 := Option.some.inj e12
  have e23 := Option.some.inj e23
  rw [if_pos hfl, if_pos hfl, hfl] at e12 e23
  simp only [Spec.trapezoidRule, Finset.sum_range_one, sub_zero] at e12 e23
  set N := a0.nbrs.length with hN
  have hNp : (0 : ℝ) < N := by
    have : 0 < N := List.length_pos_iff.2 hn0
    exact_mod_cast this
  set ρ := Spec.localDensity N 4 with hρd
  have hρ : 0 < ρ := by rw [hρd]; unfold Spec.localDensity; positivity
  have hρ2 : Spec.localDensity N 2 = 8 * ρ := by rw [hρd]; unfold Spec.localDensity; field_simp; norm_num
  have hρ3 : Spec.localDensity N 1 = 64 * ρ := by rw [hρd]; unfold Spec.localDensity; field_simp; norm_num
  rw [hρ2] at e12 e23
  rw [hρ3] at e23
  set ds := a0.nbrs.map Nb.dist with hds
  have hdne : ds ≠ [] := by simpa [hds] using hn0
  have f1 := density_integrand ds (σ := 1) (r := 1) hρ.ne'
  have f2 := density_integrand ds (σ := 1) (r := 2) hρ.ne'
  have f3 := density_integrand ds (σ := 1) (r := 1) (by positivity : (8 * ρ) ≠ 0)
  have f4 := density_integrand ds (σ := 1) (r := 2) (by positivity : (8 * ρ) ≠ 0)
  have f5 := density_integrand ds (σ := 1) (r := 1) (by positivity : (64 * ρ) ≠ 0)
  have f6 := density_integrand ds (σ := 1) (r := 2) (by positivity : (64 * ρ) ≠ 0)
  set A := Spec.pairCorrelation ds 1 1 1 with hA
  set B := Spec.pairCorrelation ds 1 1 2 with hB
  have hA0 : 0 < A := pairCorrelation_pos hdne (by norm_num) (by norm_num) (by norm_num)
  have hB0 : 0 < B := pairCorrelation_pos hdne (by norm_num) (by norm_num) (by norm_num)
  have l8 : ∀ x : ℝ, 0 < x → Real.log (x / (8 * ρ)) = Real.log (x / ρ) - Real.log 8 := by
    intro x hx
    rw [mul_comm, ← div_div, Real.log_div (by positivity) (by norm_num)]
  have l64 : ∀ x : ℝ, 0 < x → Real.log (x / (64 * ρ)) = Real.log (x / ρ) - 2 * Real.log 8 := by
    intro x hx
    rw [mul_comm, ← div_div, Real.log_div (by positivity) (by norm_num), show (64 : ℝ) = 8 ^ 2 by norm_num, Real.log_pow]
    push_cast
    ring
  rw [l8 A hA0] at f3
  rw [l8 B hB0] at f4
  rw [l64 A hA0] at f5
  rw [l64 B hB0] at f6
  norm_num at e12 e23 f1 f2 f3 f4 f5 f6
  nlinarith

/-- The hypotheses of `C117_partial` hold for the row of atoms before and after a clustering. -/
example (σ : StdSort) : ∃ (s t s' t' : System) (a b : Atom), StoreInv s s.atoms ∧ 200 ≤ s.atoms.length ∧ s.ghostNop = 0 ∧ Spec.Explored s t ∧
    (∃ m, s.clusterAtoms (fun _ => .ok 1) (1 / 2) = .ok (t, m)) ∧
    System.calculateEntropy 2 1 1 1 false .none s = (s', .ok ()) ∧ System.calculateEntropy 2 1 1 1 false .none t = (t', .ok ()) ∧
    s'.atoms[0]? = some a ∧ t'.atoms[0]? = some b := by
  obtain ⟨s, a0, hc, -, -, hrun⟩ := entropy_chain σ
  obtain ⟨t, m, -, -, p, -⟩ := hrun (1 / 2)
  have hk : StillNear s t := StillNear.cluster ⟨hc, rfl, rfl, rfl, rfl⟩ p
  have run : ∀ x : System, NoCopies x → ∃ x' a, System.calculateEntropy 2 1 1 1 false .none x = (x', .ok ()) ∧ x'.atoms[0]? = some a := by
    intro x hx
    refine ⟨{ x with atoms := entropyLoop 1 1 2 1 1 (fdiv x.atoms.length x.boxDet) x.atoms }, _, ?_,
      List.getElem?_eq_getElem (by rw [entropyLoop_length]; have := hx.large; omega)⟩
    unfold System.calculateEntropy
    rw [getAtoms_inv hx.inv]
    rfl
  obtain ⟨s', a, e1, g1⟩ := run s hc
  obtain ⟨t', b, e2, g2⟩ := run t hk.copies
  exact ⟨s, t, s', t', a, b, hc.inv, hc.large, hc.ghostNop, .cluster _ _ _ .refl p, ⟨_, p⟩, e1, e2, g1, g2⟩

theorem entropyLoop_nbrs (σ x y h kb : ℝ) (l : List Atom) : ∀ rho : Option ℝ, (entropyLoop σ x y h kb rho l).map Atom.nbrs = l.map Atom.nbrs := by
  induction l with
  | nil => intro _; rfl
  | cons a l ih => intro rho; rw [entropyLoop, List.map_cons, List.map_cons, ih]

/-- The hypotheses of `C117_averages` hold for the row of atoms before and after a clustering. -/
example (σ : StdSort) : ∃ (s t s' t' : System) (a b : Atom), StoreInv s s.atoms ∧ 200 ≤ s.atoms.length ∧ s.ghostNop = 0 ∧ Spec.Explored s t ∧
    (∃ m, s.clusterAtoms (fun _ => .ok 1) (1 / 2) = .ok (t, m)) ∧
    System.calculateEntropy 2 1 1 1 false .plain s = (s', .ok ()) ∧ System.calculateEntropy 2 1 1 1 false .plain t = (t', .ok ()) ∧
    s'.atoms[0]? = some a ∧ t'.atoms[0]? = some b := by
  obtain ⟨s, a0, hc, -, -, hrun⟩ := entropy_chain σ
  obtain ⟨t, m, -, -, p, -⟩ := hrun (1 / 2)
  have hk : StillNear s t := StillNear.cluster ⟨hc, rfl, rfl, rfl, rfl⟩ p
  have hr := clusterAtoms_inRange hc.inv p
  have run : ∀ x : System, NoCopies x → x.NbrsInRange → ∃ x' a, System.calculateEntropy 2 1 1 1 false .plain x = (x', .ok ()) ∧ x'.atoms[0]? = some a := by
    intro x hx hxr
    unfold System.calculateEntropy
    rw [getAtoms_inv hx.inv]
    dsimp only
    rw [if_pos (nbrsInRange_congr (entropyLoop_nbrs 1 1 2 1 1 x.atoms _) hxr)]
    exact ⟨_, _, rfl, List.getElem?_eq_getElem (by rw [List.length_map, entropyLoop_length]; have := hx.large; omega)⟩
  obtain ⟨s', a, e1, g1⟩ := run s hc (nbrsInRange_congr hk.nbrs.symm hr)
  obtain ⟨t', b, e2, g2⟩ := run t hk.copies hr
  exact ⟨s, t, s', t', a, b, hc.inv, hc.large, hc.ghostNop, .cluster _ _ _ .refl p, ⟨_, p⟩, e1, e2, g1, g2⟩

end Pyscal
