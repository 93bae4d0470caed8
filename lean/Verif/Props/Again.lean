import Verif.Props.SolidClusters
import Verif.Props.Leftover
import Verif.Props.Locality

/-! C113: `find_solids` called again. -/

namespace Pyscal

/-- Equal neighbours and conditions give equal results of `find_solids`. -/
theorem findSolids_same {s g s2 g2 : System} {bonds threshold avgthreshold q : PyNum} {cutoff cutoff' : ℝ} {right right' : Bool} {o o' : Option ℕ}
    (h3 : System.findSolids bonds threshold avgthreshold false q cutoff right s = (s2, .ok o))
    (h4 : System.findSolids bonds threshold avgthreshold false q cutoff' right' g = (g2, .ok o'))
    (hv : g.voronoiused = s.voronoiused) (hc : g.comparecriteria = s.comparecriteria)
    (hnc : g.atoms.map (fun a => (a.nbrs, a.condition)) = s.atoms.map fun a => (a.nbrs, a.condition)) :
    ∀ (i : ℕ) (a b : Atom), s2.atoms[i]? = some a → g2.atoms[i]? = some b →
      b.nbrs = a.nbrs ∧ b.sij = a.sij ∧ b.frenkel = a.frenkel ∧ b.avq = a.avq ∧ b.issolid = a.issolid := by
  have hlen : g.atoms.length = s.atoms.length := by simpa using congrArg List.length hnc
  have hat : ∀ (k : ℕ) (a b : Atom), s.atoms[k]? = some a → g.atoms[k]? = some b → b.nbrs = a.nbrs ∧ b.condition = a.condition := by
    intro k a b ha hb
    have e := congrArg (·[k]?) hnc
    simp only [List.getElem?_map, ha, hb, Option.map_some, Option.some.injEq, Prod.mk.injEq] at e
    exact e
  obtain ⟨l, t, at', cr, bb, -, e1, -, -, e2, e3, e4, e5, hs, e6⟩ := findSolids_ok h3
  obtain ⟨l', t', at'', cr', bb', -, k1, -, -, k2, k3, k4, k5, hg, k6⟩ := findSolids_ok h4
  obtain rfl : l' = l := by
    rw [e1] at k1
    have := PyNum.int.inj k1
    omega
  obtain rfl : t' = t := by rw [e2] at k2; exact (Option.some.inj k2).symm
  obtain rfl : at'' = at' := by rw [e3] at k3; exact (Option.some.inj k3).symm
  obtain rfl : bb' = bb := by rw [e4] at k4; exact (Option.some.inj k4).symm
  obtain rfl : cr' = cr := by
    rcases e5 with ⟨u, n, hu⟩ | ⟨u, n, hu⟩ <;> rcases k5 with ⟨v, m, hv⟩ | ⟨v, m, hv⟩
    · rw [u, v]
    · rw [hu] at hv; cases hv
    · rw [hu] at hv; cases hv
    · rw [u, v]
  have hcr : cr' = 0 ∨ cr' = 1 := e5.imp And.left And.left
  clear e1 e2 e3 e4 e5 k1 k2 k3 k4 k5
  have hqn : ∀ (k : ℕ) (a b : Atom), s.atoms[k]? = some a → g.atoms[k]? = some b → g.qNbrs b = s.qNbrs a := by
    intro k a b ha hb
    obtain ⟨n1, n2⟩ := hat k a b ha hb
    unfold System.qNbrs
    rw [n1]
    refine List.filter_congr fun x hx => ?_
    have hx1 := hs a (List.mem_of_getElem? ha) x hx
    have hx2 : x.idx < g.atoms.length := by omega
    rw [n2, mem_eq_getElem s _ hx1, mem_eq_getElem g _ hx2, (hat x.idx _ _ (List.getElem?_eq_getElem hx1) (List.getElem?_eq_getElem hx2)).2]
  intro i a' b' hi hj
  rw [e6, List.getElem?_map, Option.map_eq_some_iff] at hi
  rw [k6, List.getElem?_map, Option.map_eq_some_iff] at hj
  obtain ⟨a, ha, rfl⟩ := hi
  obtain ⟨b, hb, rfl⟩ := hj
  have hnb := (hat i a b ha hb).1
  generalize hp : (l', t', at'', cr', bb') = p
  have hown : (qAtom g [p.1] b).qlm p.1 = (qAtom s [p.1] a).qlm p.1 := by
    rw [qAtom_own, qAtom_own, calcQlm_of_nbrs p.1 hv (hqn i a b ha hb)]
  have hmem : ∀ {t : System} {k : ℕ} (hk : k < t.atoms.length), ((t.afterQ [p.1]).mem k) = qAtom t [p.1] t.atoms[k] := by
    intro t k hk
    rw [mem_eq_getElem (t.afterQ [p.1]) k (by simpa [System.afterQ] using hk)]
    simp [System.afterQ]
  have hsc : ((qAtom g [p.1] b).nbrs.map fun x => ((g.afterQ [p.1]).solidParams p).numberFromBond (qAtom g [p.1] b) (((g.afterQ [p.1]).solidParams p).mem x.idx)) =
      (qAtom s [p.1] a).nbrs.map fun x => ((s.afterQ [p.1]).solidParams p).numberFromBond (qAtom s [p.1] a) (((s.afterQ [p.1]).solidParams p).mem x.idx) := by
    show b.nbrs.map _ = a.nbrs.map _
    rw [hnb]
    refine List.map_congr_left fun x hx => ?_
    have hx1 := hs a (List.mem_of_getElem? ha) x hx
    have hx2 := hg b (List.mem_of_getElem? hb) x (hnb ▸ hx)
    show bondNumber p.1 _ (((g.afterQ [p.1]).mem x.idx).qlm p.1) = bondNumber p.1 _ (((s.afterQ [p.1]).mem x.idx).qlm p.1)
    rw [hmem hx1, hmem hx2, qAtom_own, qAtom_own,
      calcQlm_of_nbrs p.1 hv (hqn x.idx _ _ (List.getElem?_eq_getElem hx1) (List.getElem?_eq_getElem hx2))]
    show bondNumber p.1 ((qAtom g [p.1] b).qlm p.1) _ = bondNumber p.1 ((qAtom s [p.1] a).qlm p.1) _
    rw [hown]
  have hnq : (qAtom g [p.1] b).nbrs.length = (qAtom s [p.1] a).nbrs.length := by
    show b.nbrs.length = a.nbrs.length
    rw [hnb]
  have hcc : ((g.afterQ [p.1]).solidParams p).comparecriteria = ((s.afterQ [p.1]).solidParams p).comparecriteria := hc
  have hS := fun (t : System) (c : Atom) => solidAtom_fields t p c
  have f1 : (((g.afterQ [p.1]).solidParams p).frenkel1 (qAtom g [p.1] b)).sij = (((s.afterQ [p.1]).solidParams p).frenkel1 (qAtom s [p.1] a)).sij := hsc
  have f2 : (((g.afterQ [p.1]).solidParams p).frenkel1 (qAtom g [p.1] b)).frenkel = (((s.afterQ [p.1]).solidParams p).frenkel1 (qAtom s [p.1] a)).frenkel := by
    unfold System.frenkel1
    dsimp only
    rw [hsc, hcc]
    rfl
  have f3 : (((g.afterQ [p.1]).solidParams p).frenkel1 (qAtom g [p.1] b)).avq = (((s.afterQ [p.1]).solidParams p).frenkel1 (qAtom s [p.1] a)).avq := by
    unfold System.frenkel1
    dsimp only
    rw [hsc, hnq]
  refine ⟨by rw [(hS _ _).1, (hS _ _).1, hnb], by rw [(hS _ _).2.2.1, (hS _ _).2.2.1, f1], by rw [(hS _ _).2.2.2.1, (hS _ _).2.2.2.1, f2],
    by rw [(hS _ _).2.2.2.2, (hS _ _).2.2.2.2, f3], ?_⟩
  refine solid1_congr (t := s.solidParams p) (t' := g.solidParams p) ?_ rfl rfl rfl hc hnq f2 f3
  rw [← hp]
  exact hcr

/-- Specification: `t` is reached from `s` by calls of `find_solids(cluster=False)` and `calculate_disorder`, with any
arguments, successful or not, and successful calls of `calculate_q` without a condition. -/
inductive Spec.Analysed (s : System) : System → Prop
  | refl : Spec.Analysed s s
  | solids {t t' : System} (bonds threshold avgthreshold q : PyNum) (cutoff : ℝ) (right : Bool) (r : Except Fault (Option ℕ)) :
      Spec.Analysed s t → System.findSolids bonds threshold avgthreshold false q cutoff right t = (t', r) → Spec.Analysed s t'
  | disorder {t t' : System} (averaged : Bool) (q : ℤ) (r : Except Fault Unit) :
      Spec.Analysed s t → System.calculateDisorder averaged q t = (t', r) → Spec.Analysed s t'
  | q {t t' : System} (ls : List ℤ) (averaged : Bool) : Spec.Analysed s t → t.calculateQ ls averaged = .ok t' → Spec.Analysed s t'

/-- What the analyses leave alone. -/
theorem analysed_keeps {s t : System} (h : Spec.Analysed s t) : t.voronoiused = s.voronoiused ∧ t.comparecriteria = s.comparecriteria ∧
    t.neighborsFound = s.neighborsFound ∧ t.atoms.map (fun a => (a.nbrs, a.condition)) = s.atoms.map fun a => (a.nbrs, a.condition) := by
  induction h with
  | refl => exact ⟨rfl, rfl, rfl, rfl⟩
  | @solids t t' bonds threshold avgthreshold q cutoff right r _ h ih =>
    obtain ⟨i1, i2, i3, i4⟩ := ih
    unfold System.findSolids at h
    cases hp : t.solidArgs bonds threshold avgthreshold q with
    | error e =>
      rw [hp] at h
      obtain ⟨rfl, -⟩ := Prod.mk.inj h
      exact ⟨i1, i2, i3, i4⟩
    | ok p =>
      rw [hp] at h
      dsimp only at h
      by_cases hs : t.NbrsInRange
      · rw [solidRun_eq t _ cutoff hs] at h
        obtain ⟨rfl, -⟩ := Prod.mk.inj h
        refine ⟨i1, i2, i3, ?_⟩
        rw [← i4, List.map_map]
        refine List.map_congr_left fun a _ => ?_
        show ((solidAtom t p a).nbrs, (solidAtom t p a).condition) = _
        unfold solidAtom System.solid1
        split_ifs <;> rfl
      · cases hr : t.solidRun p false cutoff with
        | error e =>
          rw [hr] at h
          obtain ⟨rfl, -⟩ := Prod.mk.inj h
          exact ⟨i1, i2, i3, i4⟩
        | ok x =>
          exfalso
          unfold System.solidRun at hr
          have : ∀ (g : System) (l : List ℕ), ¬ g.NbrsInRange → g.ccalculateQ l = .error .oob := by
            intro g l hg
            unfold System.ccalculateQ
            rw [if_neg hg]
          dsimp only at hr
          rw [this { t with solidq := p.1, criteria := p.2.2.2.1 } _ (fun hh => hs hh)] at hr
          cases hr
  | @disorder t t' averaged q r _ h ih =>
    obtain ⟨i1, i2, i3, i4⟩ := ih
    unfold System.calculateDisorder at h
    dsimp only at h
    split_ifs at h <;> obtain ⟨rfl, -⟩ := Prod.mk.inj h <;> first
      | exact ⟨i1, i2, i3, i4⟩
      | refine ⟨i1, i2, i3, ?_⟩
        rw [← i4]
        simp only [List.map_map]
        exact List.map_congr_left fun a _ => rfl
  | @q t t' ls averaged _ h ih =>
    obtain ⟨i1, i2, i3, i4⟩ := ih
    obtain ⟨-, -, e⟩ := calculateQ_ok h
    rw [e]
    split_ifs
    · refine ⟨i1, i2, i3, ?_⟩
      rw [← i4]
      simp only [System.afterQ, List.map_map]
      exact List.map_congr_left fun a _ => rfl
    · refine ⟨i1, i2, i3, ?_⟩
      rw [← i4]
      simp only [System.afterQ, List.map_map]
      exact List.map_congr_left fun a _ => rfl

/-- Success and equal results from what enters `find_solids`. -/
theorem again_of_keeps {s t s2 : System} (k1 : t.voronoiused = s.voronoiused) (k2 : t.comparecriteria = s.comparecriteria)
    (k3 : t.neighborsFound = s.neighborsFound) (k4 : t.atoms.map (fun a => (a.nbrs, a.condition)) = s.atoms.map fun a => (a.nbrs, a.condition))
    {bonds threshold avgthreshold q : PyNum} {cutoff : ℝ} {right : Bool} {r : Option ℕ}
    (h1 : System.findSolids bonds threshold avgthreshold false q cutoff right s = (s2, .ok r)) :
    ∃ t2, System.findSolids bonds threshold avgthreshold false q cutoff right t = (t2, .ok none) ∧ t2.atoms.length = s2.atoms.length ∧
      ∀ (i : ℕ) (a b : Atom), s2.atoms[i]? = some a → t2.atoms[i]? = some b →
        b.nbrs = a.nbrs ∧ b.sij = a.sij ∧ b.frenkel = a.frenkel ∧ b.avq = a.avq ∧ b.issolid = a.issolid := by
  have hargs : Spec.SolidArgs s bonds threshold avgthreshold q := by
    by_contra hc
    obtain ⟨e, he, -⟩ := (C24_find_solids s bonds threshold avgthreshold q false cutoff right).1 hc
    rw [he] at h1
    cases h1
  obtain ⟨l, th, at', cr, b, -, -, -, -, -, -, -, -, hs, e1⟩ := findSolids_ok h1
  have hst : t.NbrsInRange := by
    refine nbrsInRange_congr (s := s) ?_ hs
    have := congrArg (List.map Prod.fst) k4
    simpa [List.map_map, Function.comp_def] using this
  obtain ⟨t2, h2⟩ := (C24_find_solids t bonds threshold avgthreshold q false cutoff right).2 ⟨k3.trans hargs.1, hargs.2⟩ hst
  obtain ⟨l', th', at'', cr', b', -, -, -, -, -, -, -, -, -, e2⟩ := findSolids_ok h2
  refine ⟨t2, h2, ?_, findSolids_same h1 h2 k1 k2 k4⟩
  rw [e1, e2, List.length_map, List.length_map]
  simpa using congrArg List.length k4

/-- **C113** (partial).  Full statement: `find_solids` gives the same result whenever it is called between two neighbour
searches, whatever analyses were done before.  Here: after any number of calls of `find_solids(cluster=False)`,
`calculate_disorder` and `calculate_q` without a condition, it succeeds as at the beginning and gives every atom the same correlations, number of
solid bonds, mean and flag.  Missing: calls with clustering or a condition, for which it is false (`C113_shrinks`, `C113_false`) unless
the condition is cleared (`C113_cleared`). -/
theorem C113_partial (s t s2 : System) (h : Spec.Analysed s t) (bonds threshold avgthreshold q : PyNum) (cutoff : ℝ) (right : Bool) (r : Option ℕ)
    (h1 : System.findSolids bonds threshold avgthreshold false q cutoff right s = (s2, .ok r)) :
    ∃ t2, System.findSolids bonds threshold avgthreshold false q cutoff right t = (t2, .ok none) ∧ t2.atoms.length = s2.atoms.length ∧
      ∀ (i : ℕ) (a b : Atom), s2.atoms[i]? = some a → t2.atoms[i]? = some b →
        b.nbrs = a.nbrs ∧ b.sij = a.sij ∧ b.frenkel = a.frenkel ∧ b.avq = a.avq ∧ b.issolid = a.issolid := by
  obtain ⟨k1, k2, k3, k4⟩ := analysed_keeps h
  exact again_of_keeps k1 k2 k3 k4 h1

theorem clusterAtoms_criteria {s s' : System} {reals : List Atom} {cond : Atom → Except Fault ℤ} {c : ℝ} {n : ℕ}
    (hi : StoreInv s reals) (h : s.clusterAtoms cond c = .ok (s', n)) : s'.comparecriteria = s.comparecriteria ∧ s'.neighborsFound = s.neighborsFound := by
  obtain ⟨new, t1, t2, a1, a2, a3, a4, a5⟩ := clusterAtoms_ok hi h
  obtain ⟨-, -, b3, -, -⟩ := cluster_state hi a1 a4 a5
  obtain ⟨c1, c2⟩ := findClusters_inRange a2
  obtain ⟨lab, hb, -, -⟩ := findClusters_ok t1 c c1 c2
  rw [a2] at hb
  have e1 : t2.comparecriteria = t1.comparecriteria ∧ t2.neighborsFound = t1.neighborsFound := by rw [Except.ok.inj hb]; exact ⟨rfl, rfl⟩
  have e2 : s'.comparecriteria = t2.comparecriteria ∧ s'.neighborsFound = t2.neighborsFound := by
    unfold System.largestCluster at a3
    split_ifs at a3
    have := congrArg (fun x => x.1) (Except.ok.inj a3)
    dsimp only at this
    rw [← this]
    exact ⟨rfl, rfl⟩
  rw [e2.1, e1.1, e2.2, e1.2, b3.eq]
  exact ⟨rfl, rfl⟩

/-- **C113 is false after clustering**: in every system, if after `find_solids` with clustering an atom has a neighbour all of
whose neighbours have the other solid flag, the atom is not solid when `find_solids` is called again, whatever the
arguments are; its correlation with that neighbour is NaN. -/
theorem C113_shrinks (s t t2 : System) (reals : List Atom) (hi : StoreInv s reals) (hv : s.voronoiused = false) (hcc : s.comparecriteria = 0)
    (b1 th1 av1 q1 b2 th2 av2 : PyNum) (l : ℕ) (c1 c2 : ℝ) (right1 right2 : Bool) (r1 r2 : Option ℕ)
    (h1 : System.findSolids b1 th1 av1 true q1 c1 right1 s = (t, .ok r1))
    (h2 : System.findSolids b2 th2 av2 false (.int l) c2 right2 t = (t2, .ok r2))
    (L : List Atom) (hL : t.getAtoms = .ok L) (i j : ℕ) (a b : Atom) (ha : L[i]? = some a) (hb : L[j]? = some b)
    (x : Nb) (hx : x ∈ a.nbrs) (hxj : x.idx = j) (hall : ∀ y ∈ b.nbrs, ∃ d, L[y.idx]? = some d ∧ d.issolid ≠ b.issolid) :
    ∃ a2, t2.atoms[i]? = some a2 ∧ none ∈ a2.sij ∧ a2.issolid = false := by
  obtain ⟨u, n, hu, hc, -⟩ := (findSolids_cluster _ _ _ _ _ _ _ _ _).1 h1
  obtain ⟨p, hu', hiu, -⟩ := findSolids_store hi hu
  have hvu : u.voronoiused = false := by rw [hu']; exact hv
  have hcu : u.comparecriteria = 0 := by rw [hu']; exact hcc
  have hvt : t.voronoiused = false := (clusterAtoms_voronoiused hiu hc).trans hvu
  have hct : t.comparecriteria = 0 := (clusterAtoms_criteria hiu hc).1.trans hcu
  obtain ⟨L', hL', hlen, hat⟩ := clusterAtoms_frame hiu hc
  obtain rfl : L' = L := by rw [hL] at hL'; exact (Except.ok.inj hL').symm
  have hget : ∀ (i : ℕ) (b : Atom), L'[i]? = some b → t.atoms[i]? = some b := by
    intro i b hib
    unfold System.getAtoms at hL
    split_ifs at hL with hle
    obtain rfl := Except.ok.inj hL
    rw [List.getElem?_take] at hib
    split_ifs at hib
    exact hib
  have hcond : ∀ (k : ℕ) (d : Atom), L'[k]? = some d → d.condition = some (if d.issolid then 1 else 0) := by
    intro k d hd
    have hk : k < (reals.map (solidAtom s p)).length := by rw [← hlen]; exact (List.getElem?_eq_some_iff.1 hd).1
    obtain ⟨d', v, g1, g2, g3, -⟩ := hat k _ (List.getElem?_eq_getElem hk)
    rw [hd] at g1
    obtain rfl := Option.some.inj g1
    have e1 : d.condition = some v := by rw [g3]
    have e2 : d.issolid = (reals.map (solidAtom s p))[k].issolid := by rw [g3]
    rw [e1, e2]
    exact congrArg some (Except.ok.inj g2).symm
  obtain ⟨l', t1, at1, cr, bb, -, hl, -, -, ht1, hat1, -, hcr, hs, hat2⟩ := findSolids_ok h2
  obtain rfl : l = l' := by have := PyNum.int.inj hl; omega
  have hq : t.qNbrs b = [] := by
    unfold System.qNbrs
    rw [List.filter_eq_nil_iff]
    intro y hy
    obtain ⟨d, hd, hne⟩ := hall y hy
    rw [(mem_of_getElem? (hget _ _ hd)).2, hcond _ _ hd, hcond _ _ hb, decide_eq_true_eq]
    cases hd' : d.issolid <;> cases hb' : b.issolid <;> simp_all
  have hqlm : t.calcQlm l b = none := ((calcQ_value t l b).2 (by rw [hq]; intro x hx; cases hx)).2.1 hvt (by rw [hq]; rfl)
  have hia : t2.atoms[i]? = some (solidAtom t (l, t1, at1, cr, bb) a) := by rw [hat2, List.getElem?_map, hget _ _ ha]; rfl
  have hjb : t2.atoms[j]? = some (solidAtom t (l, t1, at1, cr, bb) b) := by rw [hat2, List.getElem?_map, hget _ _ hb]; rfl
  obtain ⟨k, hk, hkx⟩ := List.getElem_of_mem hx
  have hnb : (solidAtom t (l, t1, at1, cr, bb) a).nbrs = a.nbrs := (solidAtom_fields t _ a).1
  have hxk : (solidAtom t (l, t1, at1, cr, bb) a).nbrs[k]? = some x := by rw [hnb, List.getElem?_eq_getElem hk, hkx]
  obtain ⟨hlen2, hval⟩ := C21_values t t2 b2 th2 av2 l c2 right2 r2 h2 i _ hia
  have hks : k < (solidAtom t (l, t1, at1, cr, bb) a).sij.length := by rw [hlen2, hnb]; exact hk
  obtain ⟨b', hb', hcor, -⟩ := hval k x _ hxk (List.getElem?_eq_getElem hks)
  rw [hxj, hjb] at hb'
  obtain rfl := Option.some.inj hb'
  rw [(solidAtom_fields t (l, t1, at1, cr, bb) b).2.1, show (qAtom t [(l, t1, at1, cr, bb).1] b).qlm l = none from (qAtom_own t l b).trans hqlm] at hcor
  have hnone : none ∈ (solidAtom t (l, t1, at1, cr, bb) a).sij := by
    rcases hcor with ⟨c, d, -, hd, -⟩ | ⟨-, hz⟩
    · cases hd
    · rw [← hz]; exact List.getElem_mem hks
  refine ⟨_, hia, hnone, ?_⟩
  have hmean : ¬ ∃ m, Spec.IsMean (solidAtom t (l, t1, at1, cr, bb) a).sij m ∧ at1 < m := by
    rintro ⟨m, ⟨vs, hvs, -⟩, -⟩
    rw [hvs] at hnone
    simp at hnone
  obtain ⟨-, -, m2, m3⟩ := C22_partial t t2 b2 th2 av2 l c2 right2 r2 hct h2 t1 at1 ht1 hat1 i _ hia
  rw [← Bool.not_eq_true]
  rcases hcr with ⟨-, n, hn⟩ | ⟨-, y, hy⟩
  · rw [m2 n hn]; exact fun h => hmean h.2
  · rw [m3 y hy]; exact fun h => hmean h.2

/-! ## Clearing the condition -/

/-- No periodic copies are stored: at least 200 atoms. -/
structure NoCopies (t : System) : Prop where
  large : 200 ≤ t.atoms.length
  real : ∀ a ∈ t.atoms, a.ghost = false
  nop : t.nop = t.atoms.length
  realNop : t.realNop = t.atoms.length
  ghostNop : t.ghostNop = 0

theorem NoCopies.inv {t : System} (h : NoCopies t) : StoreInv t t.atoms :=
  ⟨h.real, ⟨[], by simp, by simp, h.ghostNop⟩, h.nop, h.realNop⟩

theorem NoCopies.of_inv {t : System} {reals : List Atom} (hi : StoreInv t reals) (hn : 200 ≤ reals.length) (hg : t.ghostNop = 0) :
    NoCopies t ∧ t.atoms = reals := by
  obtain ⟨gs, ha, -, hgn⟩ := hi.ex
  have hgs : gs = [] := List.length_eq_zero_iff.1 (by omega)
  rw [hgs, List.append_nil] at ha
  exact ⟨⟨by rw [ha]; exact hn, by rw [ha]; exact hi.real, hi.nop, by rw [hi.realNop, ha], hg⟩, ha⟩

/-- What clustering, correlations and Steinhardt parameters leave alone. -/
structure StillNear (s t : System) : Prop where
  copies : NoCopies t
  nbrs : t.atoms.map Atom.nbrs = s.atoms.map Atom.nbrs
  voro : t.voronoiused = s.voronoiused
  crit : t.comparecriteria = s.comparecriteria
  found : t.neighborsFound = s.neighborsFound

theorem StillNear.map {s t t' : System} (h : StillNear s t) (f : Atom → Atom) (hf : ∀ a, (f a).ghost = a.ghost ∧ (f a).nbrs = a.nbrs)
    (ha : t'.atoms = t.atoms.map f) (h1 : t'.nop = t.nop) (h2 : t'.realNop = t.realNop) (h3 : t'.ghostNop = t.ghostNop)
    (h4 : t'.voronoiused = t.voronoiused) (h5 : t'.comparecriteria = t.comparecriteria) (h6 : t'.neighborsFound = t.neighborsFound) : StillNear s t' := by
  have hl : t'.atoms.length = t.atoms.length := by rw [ha, List.length_map]
  refine ⟨⟨by rw [hl]; exact h.copies.large, ?_, by rw [h1, hl]; exact h.copies.nop, by rw [h2, hl]; exact h.copies.realNop, h3.trans h.copies.ghostNop⟩,
    ?_, h4.trans h.voro, h5.trans h.crit, h6.trans h.found⟩
  · rw [ha]
    intro a hm
    obtain ⟨b, hb, rfl⟩ := List.mem_map.1 hm
    rw [(hf b).1]
    exact h.copies.real b hb
  · rw [ha, ← h.nbrs, List.map_map]
    exact List.map_congr_left fun a _ => (hf a).2

theorem mem_of_getElem?' {L : List Atom} {i : ℕ} {a : Atom} (h : L[i]? = some a) : L[i]'(List.getElem?_eq_some_iff.1 h).1 = a :=
  (List.getElem?_eq_some_iff.1 h).2

theorem StillNear.q {s t t' : System} (hk : StillNear s t) {ls : List ℤ} {av : Bool} (h : t.calculateQ ls av = .ok t') : StillNear s t' := by
  obtain ⟨-, -, e⟩ := calculateQ_ok h
  have h0 : StillNear s (t.afterQ (ls.map Int.toNat)) := hk.map _ (by exact fun a => ⟨rfl, rfl⟩) rfl rfl rfl rfl rfl rfl rfl
  rw [e]
  split_ifs
  · exact h0.map _ (by exact fun a => ⟨rfl, rfl⟩) rfl rfl rfl rfl rfl rfl rfl
  · exact h0

theorem StillNear.cluster {s t t' : System} (hk : StillNear s t) {cond : Atom → Except Fault ℤ} {c : ℝ} {n : ℕ} (h : t.clusterAtoms cond c = .ok (t', n)) :
    StillNear s t' := by
  have hi := hk.copies.inv
  obtain ⟨new, t1, t2, a1, a2, a3, a4, a5⟩ := clusterAtoms_ok hi h
  have hnew : ∀ (i : ℕ) (b : Atom), new[i]? = some b → ∃ a, t.atoms[i]? = some a ∧ b.ghost = a.ghost ∧ b.nbrs = a.nbrs := by
    intro i b hb
    have hlt := (List.getElem?_eq_some_iff.1 hb).1
    obtain ⟨v, -, h2⟩ := a5 i t.atoms[i] (List.getElem?_eq_getElem (by omega))
    rw [hb] at h2
    exact ⟨_, List.getElem?_eq_getElem (by omega), by rw [Option.some.inj h2], by rw [Option.some.inj h2]⟩
  have hreal : ∀ b ∈ new, b.ghost = false := by
    intro b hb
    obtain ⟨i, hib⟩ := List.mem_iff_getElem?.1 hb
    obtain ⟨a, ha, e, -⟩ := hnew i b hib
    rw [e]
    exact hk.copies.real a (List.mem_of_getElem? ha)
  obtain ⟨extra, x1, -, x3, x4, x5, x6, -, -⟩ := assign_shape hreal a1
  obtain ⟨rfl, -⟩ := x6 (by rw [a4]; exact hk.copies.large)
  rw [List.append_nil] at x1 x4
  obtain ⟨c1, c2⟩ := findClusters_inRange a2
  obtain ⟨lab, hb, -, -⟩ := findClusters_ok t1 c c1 c2
  rw [a2] at hb
  have hlen2 : t2.atoms.length = t1.atoms.length := by rw [Except.ok.inj hb, ofMem_length, clusterStart_length]
  obtain ⟨-, d2, d3, -, -, d6⟩ := largestCluster_ok a3
  have e1 : t2.nop = t1.nop ∧ t2.ghostNop = t1.ghostNop ∧ t2.realNop = t1.realNop := by rw [Except.ok.inj hb]; exact ⟨rfl, rfl, rfl⟩
  have e2 : t'.nop = t2.nop ∧ t'.ghostNop = t2.ghostNop := by
    unfold System.largestCluster at a3
    split_ifs at a3
    have := congrArg (fun x => x.1) (Except.ok.inj a3)
    dsimp only at this
    rw [← this]
    exact ⟨rfl, rfl⟩
  have hl : t'.atoms.length = t.atoms.length := by rw [d3, hlen2, x1, a4]
  have hat : ∀ (i : ℕ) (b : Atom), t'.atoms[i]? = some b → ∃ a, t.atoms[i]? = some a ∧ b.ghost = a.ghost ∧ b.nbrs = a.nbrs := by
    intro i b hib
    have hlt := (List.getElem?_eq_some_iff.1 hib).1
    have hk1 : i < t1.atoms.length := by omega
    have g1 : t2.atoms[i]? = some { t1.atoms[i] with cutoff := if c ≠ 0 then some c else t1.atoms[i].cutoff, belongsto := lab i } := by
      rw [Except.ok.inj hb]
      exact findClusters_atom (List.getElem?_eq_getElem hk1)
    obtain ⟨b', g2, -, -, g5⟩ := d6 i _ g1
    rw [hib] at g2
    obtain rfl := Option.some.inj g2
    obtain ⟨a, ga, k1, k2⟩ := hnew i t1.atoms[i] (by rw [← x1]; exact List.getElem?_eq_getElem hk1)
    exact ⟨a, ga, by rw [g5]; exact k1, by rw [g5]; exact k2⟩
  obtain ⟨f1, f2⟩ := clusterAtoms_criteria hi h
  refine ⟨⟨by rw [hl]; exact hk.copies.large, ?_, ?_, ?_, ?_⟩, ?_, (clusterAtoms_voronoiused hi h).trans hk.voro, f1.trans hk.crit, f2.trans hk.found⟩
  · intro b hm
    obtain ⟨i, hib⟩ := List.mem_iff_getElem?.1 hm
    obtain ⟨a, ha, e, -⟩ := hat i b hib
    rw [e]
    exact hk.copies.real a (List.mem_of_getElem? ha)
  · rw [e2.1, e1.1, x4, hl, a4]
  · rw [d2, e1.2.2, x3, hl, a4]
  · rw [e2.2, e1.2.1, x5]
    rfl
  · rw [← hk.nbrs]
    refine List.ext_getElem (by simp [hl]) fun i h1 h2 => ?_
    rw [List.length_map] at h1
    obtain ⟨a, ha, -, e⟩ := hat i _ (List.getElem?_eq_getElem h1)
    rw [List.getElem_map, List.getElem_map, e, (mem_of_getElem?' ha)]

/-- Specification: reached by any number of successful calls of `find_solids` (clustering or not), `cluster_atoms` with any condition,
`calculate_disorder` and `calculate_q`. -/
inductive Spec.Explored (s : System) : System → Prop
  | refl : Spec.Explored s s
  | solids {t t' : System} (bonds threshold avgthreshold q : PyNum) (cluster : Bool) (cutoff : ℝ) (right : Bool) (r : Option ℕ) :
      Spec.Explored s t → System.findSolids bonds threshold avgthreshold cluster q cutoff right t = (t', .ok r) → Spec.Explored s t'
  | cluster {t t' : System} (cond : Atom → Except Fault ℤ) (cutoff : ℝ) (n : ℕ) :
      Spec.Explored s t → t.clusterAtoms cond cutoff = .ok (t', n) → Spec.Explored s t'
  | disorder {t t' : System} (averaged : Bool) (q : ℤ) :
      Spec.Explored s t → System.calculateDisorder averaged q t = (t', .ok ()) → Spec.Explored s t'
  | q {t t' : System} (ls : List ℤ) (averaged : Bool) : Spec.Explored s t → t.calculateQ ls averaged = .ok t' → Spec.Explored s t'

theorem StillNear.solids {s t t' : System} (hk : StillNear s t) {bonds threshold avgthreshold q : PyNum} {cutoff : ℝ} {right : Bool} {r : Option ℕ}
    (h : System.findSolids bonds threshold avgthreshold false q cutoff right t = (t', .ok r)) : StillNear s t' := by
  obtain ⟨p, rfl, -, -⟩ := findSolids_store hk.copies.inv h
  refine hk.map (solidAtom t p) (fun a => ⟨(solidAtom_rest _ _ _).1, (solidAtom_rest _ _ _).2.1⟩) rfl rfl rfl rfl rfl rfl rfl

theorem explored_kept {s t : System} (hs : NoCopies s) (h : Spec.Explored s t) : StillNear s t := by
  induction h with
  | refl => exact ⟨hs, rfl, rfl, rfl, rfl⟩
  | @solids t t' bonds threshold avgthreshold q cluster cutoff right r _ h ih =>
    cases cluster with
    | false => exact ih.solids h
    | true =>
      obtain ⟨u, n, hu, hc, -⟩ := (findSolids_cluster _ _ _ _ _ _ _ _ _).1 h
      exact (ih.solids hu).cluster hc
  | @cluster t t' cond cutoff n _ h ih => exact ih.cluster h
  | @disorder t t' averaged q _ h ih =>
    unfold System.calculateDisorder at h
    dsimp only at h
    have h0 : StillNear s { t with solidq := q.toNat, atoms := t.atoms.map { t with solidq := q.toNat }.disorder1 } :=
      ih.map { t with solidq := q.toNat }.disorder1 (fun a => ⟨rfl, rfl⟩) rfl rfl rfl rfl rfl rfl rfl
    split_ifs at h <;> obtain ⟨rfl, he⟩ := Prod.mk.inj h <;> first
      | (cases he; done)
      | exact h0
      | exact h0.map _ (by exact fun a => ⟨rfl, rfl⟩) rfl rfl rfl rfl rfl rfl rfl
  | @q t t' ls averaged _ h ih => exact ih.q h

/-- **C113 with a cleared condition.**  For at least 200 atoms: after any number of calls of `find_solids`, `cluster_atoms`, `calculate_disorder` and
`calculate_q`, one call of `calculate_q` with `clear_condition=True` succeeds and afterwards `find_solids` gives every atom what it gave directly
after the search. -/
theorem C113_cleared (s t s2 : System) (reals : List Atom) (hi : StoreInv s reals) (hn : 200 ≤ reals.length) (hg : s.ghostNop = 0)
    (hplain : ∀ a ∈ reals, a.condition = some 0) (h : Spec.Explored s t) (ls : List ℤ) (hr : ∀ l ∈ ls, 2 ≤ l ∧ l ≤ 12) (av : Bool)
    (bonds threshold avgthreshold q : PyNum) (cutoff : ℝ) (right : Bool) (r : Option ℕ)
    (h1 : System.findSolids bonds threshold avgthreshold false q cutoff right s = (s2, .ok r)) :
    ∃ u u2, t.calculateQ ls av false none true = .ok u ∧
      System.findSolids bonds threshold avgthreshold false q cutoff right u = (u2, .ok none) ∧ u2.atoms.length = s2.atoms.length ∧
      ∀ (i : ℕ) (a b : Atom), s2.atoms[i]? = some a → u2.atoms[i]? = some b →
        b.nbrs = a.nbrs ∧ b.sij = a.sij ∧ b.frenkel = a.frenkel ∧ b.avq = a.avq ∧ b.issolid = a.issolid := by
  obtain ⟨hs0, hsa⟩ := NoCopies.of_inv hi hn hg
  have hk := explored_kept hs0 h
  obtain ⟨-, -, -, -, -, -, -, -, -, -, -, -, -, hs, -⟩ := findSolids_ok h1
  have hlt : t.atoms.length = s.atoms.length := by simpa using congrArg List.length hk.nbrs
  have hcl : t.clearCondition = .ok (t.setAtoms (t.atoms.map fun a => { a with condition := some 0 })) := by
    unfold System.clearCondition
    rw [getAtoms_inv hk.copies.inv]
    show t.assignAtoms _ = _
    unfold System.assignAtoms
    rw [if_neg (by rw [List.length_map]; have := hk.copies.large; omega)]
  obtain ⟨w, hw⟩ : ∃ w, w = t.setAtoms (t.atoms.map fun a => { a with condition := some 0 }) := ⟨_, rfl⟩
  have hwn : w.atoms.map (fun a => (a.nbrs, a.condition)) = s.atoms.map fun a => (a.nbrs, a.condition) := by
    have e1 : w.atoms.map (fun a => (a.nbrs, a.condition)) = (t.atoms.map Atom.nbrs).map fun x => (x, some (0 : ℤ)) := by
      rw [hw]
      simp [System.setAtoms, List.map_map, Function.comp_def]
    have e2 : s.atoms.map (fun a => (a.nbrs, a.condition)) = (s.atoms.map Atom.nbrs).map fun x => (x, some (0 : ℤ)) := by
      rw [List.map_map]
      refine List.map_congr_left fun a ha => ?_
      rw [hsa] at ha
      simp [hplain a ha]
    rw [e1, e2, hk.nbrs]
  have hwr : w.NbrsInRange := by
    refine nbrsInRange_congr (s := s) ?_ hs
    have := congrArg (List.map Prod.fst) hwn
    simpa [List.map_map, Function.comp_def] using this
  have hq : t.calculateQ ls av false none true = w.calculateQ ls av := by
    unfold System.calculateQ
    rw [if_neg (by simpa [qRange] using hr), if_neg (by simpa [qRange] using hr)]
    change Except.bind t.clearCondition _ = _
    rw [hcl, ← hw]
    rfl
  obtain ⟨u, hu⟩ := calculateQ_succeeds (s := w) (ls := ls) av false hr hwr
  obtain ⟨k1, k2, k3, k4⟩ := analysed_keeps (s := w) (t := u) (.q ls av .refl hu)
  obtain ⟨u2, g1, g2, g3⟩ := again_of_keeps (t := u) (k1.trans (by rw [hw]; exact hk.voro)) (k2.trans (by rw [hw]; exact hk.crit))
    (k3.trans (by rw [hw]; exact hk.found)) (k4.trans hwn) h1
  exact ⟨u, u2, hq.trans hu, g1, g2, g3⟩

/-! ## A row of atoms loses its ends -/

/-- Specification: one neighbour of weight 1 to the left or to the right. -/
def Spec.OnAxis (p : ℝ × V3) : Prop := p = (1, ⟨1, 0, 0⟩) ∨ p = (1, ⟨-1, 0, 0⟩)

theorem axis_cross {L L' : List (ℝ × V3)} (h : ∀ p ∈ L, Spec.OnAxis p) (h' : ∀ p ∈ L', Spec.OnAxis p) :
    Spec.crossSum 6 L L' = (L.length : ℝ) * L'.length := by
  have u1 : V3.norm ⟨1, 0, 0⟩ = 1 := norm_unit (by norm_num [V3.normSq])
  have u2 : V3.norm ⟨-1, 0, 0⟩ = 1 := norm_unit (by norm_num [V3.normSq])
  have hl : Spec.legendre 6 (-1) = 1 := by norm_num [Spec.legendre]
  have key : ∀ p ∈ L, (L'.map fun p' => p.1 * p'.1 * Spec.legendre 6 (Spec.cosAngle p.2 p'.2)).sum = L'.length := by
    intro p hp
    have : (L'.map fun p' => p.1 * p'.1 * Spec.legendre 6 (Spec.cosAngle p.2 p'.2)) = L'.map fun _ => (1 : ℝ) := by
      refine List.map_congr_left fun p' hp' => ?_
      rcases h p hp with rfl | rfl <;> rcases h' p' hp' with rfl | rfl <;>
        simp [Spec.cosAngle, V3.dot, u1, u2, legendre_one, hl]
    rw [this]
    simp
  unfold Spec.crossSum
  rw [List.map_congr_left key]
  simp

theorem chain_diff {s : System} (hch : ChainLike s) {i j : ℕ} (hi : i < 200) (hj : j < 200) : s.diffOf i j = ⟨(j : ℝ) - i, 0, 0⟩ := by
  obtain ⟨a, ha, pa⟩ := hch.pos i hi
  obtain ⟨b, hb, pb⟩ := hch.pos j hj
  have h1 : (i : ℝ) < 200 := by exact_mod_cast hi
  have h2 : (j : ℝ) < 200 := by exact_mod_cast hj
  have h3 : (0 : ℝ) ≤ i := by positivity
  have h4 : (0 : ℝ) ≤ j := by positivity
  have e1 : s.posOf i = ⟨(i : ℝ), 0, 0⟩ := by unfold System.posOf; rw [(mem_of_getElem? ha).2, pa]
  have e2 : s.posOf j = ⟨(j : ℝ), 0, 0⟩ := by unfold System.posOf; rw [(mem_of_getElem? hb).2, pb]
  change s.image (s.posOf j - s.posOf i) = _
  rw [image_diag s 1000 1000 1000 (by norm_num) (by norm_num) (by norm_num) hch.tri hch.box, e1, e2]
  change (⟨wrap 1000 ((j : ℝ) - i), wrap 1000 ((0 : ℝ) - 0), wrap 1000 ((0 : ℝ) - 0)⟩ : V3) = _
  unfold wrap
  have g1 : ¬ (j : ℝ) - i > 1000 / 2 := by linarith
  have g2 : ¬ (j : ℝ) - i < -1000 / 2 := by linarith
  rw [if_neg g1, if_neg g2]
  norm_num

/-- Neighbours in the row for the cutoff 3/2. -/
theorem chain_nbrs {s : System} (hch : ChainLike s) {i : ℕ} (hi : i < 200) :
    cutoffNbs s (3 / 2) 0 i = ((List.range 200).filter fun j => decide (j = i + 1 ∨ i = j + 1)).map (s.mkNb i) := by
  unfold cutoffNbs
  rw [hch.len]
  congr 1
  refine List.filter_congr fun j hj => ?_
  rw [List.mem_range] at hj
  refine decide_eq_decide.2 ?_
  have hd : s.distOf i j = |(j : ℝ) - i| := by
    have : s.distOf i j = V3.norm (s.diffOf i j) := rfl
    rw [this, chain_diff hch hi hj]
    simp [V3.norm, V3.normSq, Real.sqrt_mul_self_eq_abs]
  have hf : filterOK 0 (s.typeOf i) (s.typeOf j) = true := rfl
  rw [hd]
  constructor
  · rintro ⟨h1, h2, -⟩
    rw [abs_lt] at h2
    have h3 : (j : ℝ) < i + 2 := by linarith
    have h4 : (i : ℝ) < j + 2 := by linarith
    have h3 : j < i + 2 := by exact_mod_cast h3
    have h4 : i < j + 2 := by exact_mod_cast h4
    omega
  · intro h
    refine ⟨by omega, ?_, hf⟩
    rcases h with rfl | rfl <;> push_cast <;> rw [abs_lt] <;> constructor <;> linarith

theorem chain_axis {s : System} (hch : ChainLike s) {i : ℕ} (hi : i < 200) : ∀ p ∈ wv (cutoffNbs s (3 / 2) 0 i), Spec.OnAxis p := by
  rw [chain_nbrs hch hi]
  intro p hp
  obtain ⟨x, hx, rfl⟩ := List.mem_map.1 hp
  obtain ⟨j, hj, rfl⟩ := List.mem_map.1 hx
  obtain ⟨h1, h2⟩ := List.mem_filter.1 hj
  rw [List.mem_range] at h1
  have h2 := of_decide_eq_true h2
  show Spec.OnAxis (1, s.diffOf i j)
  rw [chain_diff hch hi h1]
  rcases h2 with rfl | rfl
  · left; push_cast; norm_num
  · right; push_cast; norm_num

/-- The row of atoms, with its state before the search. -/
theorem again_chain (σ : StdSort) : ∃ s s1 t t2 : System, ∃ n L a a2, StoreInv s chainAtoms ∧ s.atoms = chainAtoms ∧ s.findNeighbors σ 0 (.cutoff (3 / 2)) = .ok s1 ∧
    System.findSolids (.int 1) (.flt (1 / 2)) (.flt (3 / 5)) true (.int (6 : ℕ)) 0 true s1 = (t, .ok (some n)) ∧
    t.getAtoms = .ok L ∧ L[1]? = some a ∧ a.issolid = true ∧
    System.findSolids (.int 1) (.flt (1 / 2)) (.flt (3 / 5)) false (.int (6 : ℕ)) 0 true t = (t2, .ok none) ∧
    t2.atoms[1]? = some a2 ∧ none ∈ a2.sij ∧ a2.issolid = false := by
  obtain ⟨s0, s, h1, h2, hi, ha, -, hbx, htr⟩ := chain_setup
  have hch : ChainLike s := ⟨hbx, htr, by rw [ha]; exact chainAtoms_length, by rw [hi.nop, ha]; exact chainAtoms_length,
    fun i hi => ⟨_, by rw [ha]; exact chainAtoms_get i hi, rfl⟩⟩
  have hrn : s.realNop = 200 := by rw [hi.realNop, chainAtoms_length]
  have hal : s.atoms.length = 200 := hch.len
  have hlen := chainAtoms_length
  obtain ⟨s1, h3⟩ := (C09_overrun σ s 0 (3 / 2) (by norm_num) (by omega) (by omega)).2 (by
    intro k hk
    rw [← cutoffList_length (List.getElem?_eq_getElem hk) (cutoffNbs_spec (List.getElem?_eq_getElem hk))]
    exact (cutoffNbs_le _ _ _ _).trans (by omega))
  have hr : (3 / 2 : ℝ) ≠ 0 := by norm_num
  have hnat : s.natoms ≤ 2300 := by unfold System.natoms; omega
  obtain ⟨-, hs1, -⟩ := findNeighbors_cutoff_ok hr (by omega) h3
  obtain ⟨hv1, hl1, hat1⟩ := cutoff_atom hr hnat h3
  obtain ⟨f1, f2, -⟩ := setBox_frame h1
  have hnsk : ¬ Spec.Skew s0.getBox := by
    have : s0.getBox = Spec.diagBox 1000 1000 1000 := by simp [System.getBox, f1, f2, System.init]
    rw [this, ← skewed_iff]; exact not_skewed_diag _ _ _
  have hpx : Spec.PairsExact s (3 / 2) := .inl hnat
  have hcc : s.comparecriteria = 0 := by
    obtain ⟨-, -, -, -, -, -, -, -, hr⟩ := assign_shape hi.real h2
    rw [hr.eq, (setBox_rest h1).eq]
    rfl
  have hcc1 : s1.comparecriteria = 0 := by rw [hs1]; exact hcc
  have hnf1 : s1.neighborsFound = true := by rw [hs1]
  obtain ⟨t, n, h4⟩ := C88_run σ s0 s s1 chainAtoms hi.real (by omega) (fun h => absurd h hnsk) h2 0 (3 / 2) hr hpx h3
    (.int 1) (.flt (1 / 2)) (.flt (3 / 5)) (.int (6 : ℕ)) 0 true
    ⟨hnf1, ⟨6, rfl, by norm_num⟩, ⟨_, rfl, by norm_num⟩, ⟨_, rfl, by norm_num⟩, .inl ⟨_, rfl⟩⟩
  obtain ⟨u, m, l0, L, lab, hu, hg0, -, hL, hLl, hF, -⟩ := C88_partial σ s s1 t chainAtoms hi 0 (3 / 2) hr hpx h3 _ _ _ _ 0 true _ h4
  obtain ⟨hi1, -⟩ := storeInv_any hr hpx h3 hi
  obtain ⟨p, hu', hiu, hs⟩ := findSolids_store hi1 hu
  -- the state after the first call without clustering
  have hlu : u.atoms.length = 200 := by rw [hu']; simp [hl1, hal]
  have hnb1 : ∀ i (hi : i < 200), ∃ b, s1.atoms[i]? = some b ∧ b.nbrs = cutoffNbs s (3 / 2) 0 i := by
    intro i hi
    have hlt : i < s1.atoms.length := by omega
    exact ⟨_, List.getElem?_eq_getElem hlt, by rw [(hat1 i _ (List.getElem?_eq_getElem hlt)).2.1]; rfl⟩
  have hpart : ∀ i (b : Atom), i < 200 → s1.atoms[i]? = some b → Spec.participants s1 b = wv (cutoffNbs s (3 / 2) 0 i) := by
    intro i b hi hb
    rw [participants_eq hs (List.mem_of_getElem? hb), cutoff_qNbrs hr hnat h3 hs hb, (hat1 i b hb).2.1]
    rfl
  have hne : ∀ i, i < 200 → 0 < (wv (cutoffNbs s (3 / 2) 0 i)).length := by
    intro i hi
    rw [chain_nbrs hch hi]
    simp only [wv, List.length_map]
    refine List.length_pos_of_mem (a := if i = 0 then 1 else i - 1) (List.mem_filter.2 ⟨?_, ?_⟩)
    · rw [List.mem_range]; split_ifs <;> omega
    · rw [decide_eq_true_eq]; split_ifs <;> omega
  have hsum : ∀ i, i < 200 → ((wv (cutoffNbs s (3 / 2) 0 i)).map Prod.fst).sum = (wv (cutoffNbs s (3 / 2) 0 i)).length := by
    intro i hi
    have : (wv (cutoffNbs s (3 / 2) 0 i)).map Prod.fst = (wv (cutoffNbs s (3 / 2) 0 i)).map fun _ => (1 : ℝ) := by
      refine List.map_congr_left fun q hq => ?_
      rcases chain_axis hch hi q hq with rfl | rfl <;> rfl
    rw [this]
    simp
  have hnz : ∀ i, i < 200 → ∀ q ∈ wv (cutoffNbs s (3 / 2) 0 i), q.2 ≠ 0 := by
    intro i hi q hq h0
    rcases chain_axis hch hi q hq with rfl | rfl <;> · have := congrArg V3.x h0; simp at this
  have hsol : ∀ i (b : Atom), i < 200 → u.atoms[i]? = some b → b.nbrs = cutoffNbs s (3 / 2) 0 i ∧ (b.issolid = true ↔ 1 < b.nbrs.length) := by
    intro i b hi' hb
    obtain ⟨b1, hb1, hn1⟩ := hnb1 i hi'
    have hbn : b.nbrs = cutoffNbs s (3 / 2) 0 i := by
      rw [hu'] at hb
      change (s1.atoms.map _)[i]? = _ at hb
      rw [List.getElem?_map, hb1] at hb
      rw [← Option.some.inj hb, (solidAtom_rest _ _ _).2.1, hn1]
    refine ⟨hbn, ?_⟩
    obtain ⟨hlen2, -⟩ := C21_values s1 u _ _ _ 6 0 true _ hu i b hb
    have hsij : b.sij = List.replicate b.nbrs.length (some 1) := by
      refine List.eq_replicate_iff.2 ⟨hlen2, fun v hv => ?_⟩
      obtain ⟨k, hk, rfl⟩ := List.getElem_of_mem hv
      have hk2 : k < b.nbrs.length := by omega
      have hj : b.nbrs[k].idx < 200 := by
        have := hs b1 (List.mem_of_getElem? hb1) b.nbrs[k] (by rw [hn1, ← hbn]; exact List.getElem_mem _)
        omega
      obtain ⟨d, hd, -⟩ := hnb1 _ hj
      have hval := C21_legendre s1 u _ _ _ 6 0 true _ hu hv1 i _ b1 d b hb1 hd hb
        (by rw [hpart i b1 hi' hb1]; exact hnz i hi') (by rw [hpart _ d hj hd]; exact hnz _ hj)
        (by rw [hpart i b1 hi' hb1, hsum i hi']; exact_mod_cast hne i hi') (by rw [hpart _ d hj hd, hsum _ hj]; exact_mod_cast hne _ hj)
        k _ (List.getElem?_eq_getElem hk2) rfl
      have p1 : (0 : ℝ) < (wv (cutoffNbs s (3 / 2) 0 i)).length := by exact_mod_cast hne i hi'
      have p2 : (0 : ℝ) < (wv (cutoffNbs s (3 / 2) 0 b.nbrs[k].idx)).length := by exact_mod_cast hne _ hj
      rw [hpart i b1 hi' hb1, hpart _ d hj hd, Spec.pairSum, Spec.pairSum, axis_cross (chain_axis hch hi') (chain_axis hch hj),
        axis_cross (chain_axis hch hi') (chain_axis hch hi'), axis_cross (chain_axis hch hj) (chain_axis hch hj),
        Real.sqrt_mul_self p1.le, Real.sqrt_mul_self p2.le, List.getElem?_eq_getElem hk] at hval
      rw [Option.some.inj hval]
      unfold fdiv
      rw [if_neg (mul_pos p1 p2).ne', div_self (mul_pos p1 p2).ne']
    obtain ⟨k1, -, k2, -⟩ := C22_partial s1 u _ _ _ 6 0 true _ hcc1 hu (1 / 2) (3 / 5) rfl rfl i b hb
    have hfr : b.frenkel = b.nbrs.length := by
      rw [k1, hsij, List.countP_replicate, if_pos]
      rw [decide_eq_true_iff]
      exact ⟨1, rfl, by norm_num⟩
    rw [k2 1 rfl, hfr]
    constructor
    · rintro ⟨h, -⟩; exact_mod_cast h
    · intro h
      refine ⟨by exact_mod_cast h, 1, ⟨List.replicate b.nbrs.length 1, by rw [hsij, List.map_replicate], ?_, ?_⟩, by norm_num⟩
      · rw [ne_eq, List.replicate_eq_nil_iff]; omega
      · have : (b.nbrs.length : ℝ) ≠ 0 := by exact_mod_cast (show b.nbrs.length ≠ 0 by omega)
        rw [List.sum_replicate, List.length_replicate, nsmul_eq_mul, mul_one, div_self this]
  have n0 : cutoffNbs s (3 / 2) 0 0 = [s.mkNb 0 1] := by
    rw [chain_nbrs hch (by norm_num), show ((List.range 200).filter fun j => decide (j = 0 + 1 ∨ 0 = j + 1)) = [1] by decide +kernel]
    rfl
  have n1 : cutoffNbs s (3 / 2) 0 1 = [s.mkNb 1 0, s.mkNb 1 2] := by
    rw [chain_nbrs hch (by norm_num), show ((List.range 200).filter fun j => decide (j = 1 + 1 ∨ 1 = j + 1)) = [0, 2] by decide +kernel]
    rfl
  have hLL : L.length = 200 := by rw [hLl]; exact hrn
  have hfl : ∀ i (hi : i < 200), ∃ b, L[i]? = some b ∧ b.nbrs = cutoffNbs s (3 / 2) 0 i ∧ (b.issolid = true ↔ 1 < b.nbrs.length) := by
    intro i hi'
    have hlt : i < L.length := by omega
    have hlt0 : i < l0.length := by rw [hF.length_eq]; exact hlt
    have g := (List.forall₂_iff_get.1 hF).2 i hlt0 hlt
    simp only [List.get_eq_getElem] at g
    have hu0 : u.atoms[i]? = some l0[i] := by
      rw [getAtoms_inv hiu] at hg0
      obtain rfl := Except.ok.inj hg0
      obtain ⟨gs, he, -⟩ := hiu.ex
      rw [he, List.getElem?_append_left hlt0]
      exact List.getElem?_eq_getElem hlt0
    obtain ⟨e1, e2⟩ := hsol i _ hi' hu0
    exact ⟨_, List.getElem?_eq_getElem hlt, by rw [g.2.1, e1], by rw [g.2.2.2.2.2, g.2.1]; exact e2⟩
  obtain ⟨b0, hb0, m0, k0⟩ := hfl 0 (by norm_num)
  obtain ⟨a1, ha1, m1, k1⟩ := hfl 1 (by norm_num)
  have hs1' : a1.issolid = true := k1.2 (by rw [m1, n1]; simp)
  have hs0' : b0.issolid = false := by
    rw [← Bool.not_eq_true, k0, m0, n0]
    simp
  obtain ⟨uu, nn, huu, hcl, -⟩ := (findSolids_cluster _ _ _ _ _ _ _ _ _).1 h4
  obtain ⟨pp, hpp, hiuu, -⟩ := findSolids_store hi1 huu
  have hnft : t.neighborsFound = true := by
    rw [(clusterAtoms_criteria hiuu hcl).2, hpp]
    exact hnf1
  obtain ⟨t2, h5⟩ := (C24_find_solids t (.int 1) (.flt (1 / 2)) (.flt (3 / 5)) (.int (6 : ℕ)) false 0 true).2
    ⟨hnft, ⟨6, rfl, by norm_num⟩, ⟨_, rfl, by norm_num⟩, ⟨_, rfl, by norm_num⟩, .inl ⟨_, rfl⟩⟩ (clusterAtoms_inRange hiuu hcl)
  obtain ⟨a2, g1, g2, g3⟩ := C113_shrinks s1 t t2 _ hi1 hv1 hcc1 _ _ _ _ _ _ _ 6 0 0 true true _ _ h4 h5 L hL 1 0 a1 b0 ha1 hb0
    (s.mkNb 1 0) (by rw [m1, n1]; simp) rfl (by
      intro y hy
      rw [m0, n0, List.mem_singleton] at hy
      subst hy
      exact ⟨a1, ha1, by rw [hs1', hs0']; simp⟩)
  exact ⟨s, s1, t, t2, n, L, a1, a2, hi, ha, h3, h4, hL, ha1, hs1', h5, g1, g2, g3⟩

/-- **C113 is false** with the default `cluster=True`: a row of 200 atoms, at least two solid bonds required.  After the first call the second
atom is solid; called again with the same arguments, `find_solids` says that it is not. -/
theorem C113_false (σ : StdSort) : ∃ s s1 t t2 : System, ∃ n L a a2, StoreInv s chainAtoms ∧ s.findNeighbors σ 0 (.cutoff (3 / 2)) = .ok s1 ∧
    System.findSolids (.int 1) (.flt (1 / 2)) (.flt (3 / 5)) true (.int (6 : ℕ)) 0 true s1 = (t, .ok (some n)) ∧
    t.getAtoms = .ok L ∧ L[1]? = some a ∧ a.issolid = true ∧
    System.findSolids (.int 1) (.flt (1 / 2)) (.flt (3 / 5)) false (.int (6 : ℕ)) 0 true t = (t2, .ok none) ∧
    t2.atoms[1]? = some a2 ∧ none ∈ a2.sij ∧ a2.issolid = false := by
  obtain ⟨s, s1, t, t2, n, L, a, a2, hi, -, h⟩ := again_chain σ
  exact ⟨s, s1, t, t2, n, L, a, a2, hi, h⟩

/-- The hypotheses of `C113_cleared` hold for the row of atoms after `find_solids` with clustering, where `find_solids` alone would give another result. -/
example (σ : StdSort) : ∃ (s t s2 : System) (reals : List Atom), StoreInv s reals ∧ 200 ≤ reals.length ∧ s.ghostNop = 0 ∧
    (∀ a ∈ reals, a.condition = some 0) ∧ Spec.Explored s t ∧
    System.findSolids (.int 1) (.flt (1 / 2)) (.flt (3 / 5)) false (.int (6 : ℕ)) 0 true s = (s2, .ok none) ∧
    (∃ a, s2.atoms[1]? = some a ∧ a.issolid = true) ∧
    ∃ t2 a2, System.findSolids (.int 1) (.flt (1 / 2)) (.flt (3 / 5)) false (.int (6 : ℕ)) 0 true t = (t2, .ok none) ∧
      t2.atoms[1]? = some a2 ∧ a2.issolid = false := by
  obtain ⟨s, s1, t, t2, n, L, a, a2, hi, ha, h3, h4, hL, hLa, hsol, h5, h6, -, h7⟩ := again_chain σ
  have hr : (3 / 2 : ℝ) ≠ 0 := by norm_num
  have hal : s.atoms.length = 200 := by rw [ha]; exact chainAtoms_length
  have hrn : s.realNop = 200 := by rw [hi.realNop, chainAtoms_length]
  have hnat : s.natoms ≤ 2300 := by unfold System.natoms; omega
  have hg : s.ghostNop = 0 := by
    obtain ⟨gs, h1, -, h2⟩ := hi.ex
    have := congrArg List.length h1
    rw [List.length_append, hal, chainAtoms_length] at this
    omega
  obtain ⟨-, hs1, -⟩ := findNeighbors_cutoff_ok hr hnat h3
  obtain ⟨-, -, hat1⟩ := cutoff_atom hr hnat h3
  obtain ⟨hi1, hl1⟩ := storeInv_any hr (.inl hnat) h3 hi
  obtain ⟨u, m, hu, hc, -⟩ := (findSolids_cluster _ _ _ _ _ _ _ _ _).1 h4
  refine ⟨s1, t, u, _, hi1, by omega, by rw [hs1]; exact hg, ?_, .solids _ _ _ _ _ _ _ _ .refl h4, hu, ?_, t2, a2, h5, h6, h7⟩
  · intro b hb
    obtain ⟨i, hib⟩ := List.mem_iff_getElem?.1 (List.mem_of_mem_take hb)
    exact (hat1 i b hib).2.2
  · obtain ⟨p, hu', hiu, -⟩ := findSolids_store hi1 hu
    obtain ⟨l, hl, hlen, hall⟩ := clusterAtoms_frame hiu hc
    rw [hL] at hl
    obtain rfl := Except.ok.inj hl
    have h1 : 1 < ((s1.atoms.take s.realNop).map (solidAtom s1 p)).length := by rw [List.length_map]; omega
    obtain ⟨b, v, g1, -, g3, -⟩ := hall 1 _ (List.getElem?_eq_getElem h1)
    rw [hLa] at g1
    obtain rfl := Option.some.inj g1
    obtain ⟨gs, he, -⟩ := hiu.ex
    refine ⟨_, by rw [he, List.getElem?_append_left h1]; exact List.getElem?_eq_getElem h1, ?_⟩
    rw [g3] at hsol
    exact hsol

/-- The hypotheses of `C113_partial` hold for two pairs of atoms, after `find_solids` with other arguments. -/
example : ∃ t s2 : System, Spec.Analysed dimers t ∧ t.solidq = 3 ∧
    System.findSolids (.int 1) (.flt (1 / 2)) (.flt (1 / 2)) false (.int (4 : ℕ)) 0 true dimers = (s2, .ok none) := by
  obtain ⟨t, h1⟩ := dimers_runs (.int 0) (.flt (1 / 2)) (.flt (1 / 2)) (3 : ℕ) true
    ⟨rfl, ⟨3, rfl, by norm_num⟩, ⟨_, rfl, by norm_num⟩, ⟨_, rfl, by norm_num⟩, .inl ⟨0, rfl⟩⟩
  obtain ⟨s2, b, h2, -⟩ := C22_false_minimum
  refine ⟨t, s2, .solids _ _ _ _ _ _ _ .refl h1, ?_, h2⟩
  have h := h1
  obtain ⟨l, tt, at', cr, b, he, hl, -, -, -, -, -, -, hs, -⟩ := findSolids_ok h1
  unfold System.findSolids at h
  rw [he] at h
  dsimp only at h
  rw [solidRun_eq dimers _ 0 hs] at h
  obtain ⟨rfl, -⟩ := Prod.mk.inj h
  show l = 3
  have := PyNum.int.inj hl
  omega

end Pyscal
