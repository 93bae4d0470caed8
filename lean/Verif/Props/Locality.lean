import Verif.Props.SolidClusters
import Verif.Props.Relabel

/-! C90: atoms beyond the cutoff have no influence. -/

namespace Pyscal

/-- Specification: two systems measure distances in the same way. -/
def Spec.SameMetric (s g : System) : Prop :=
  ∀ a b, g.getDistance a b = s.getDistance a b ∧ g.getDistanceVector a b = s.getDistanceVector a b

/-- Specification: seen from atom `i`, two systems with the same number of atoms differ (in positions or types) only in
atoms at a distance of at least `r` from it. -/
def Spec.AgreeNear (s g : System) (r : ℝ) (i : ℕ) : Prop :=
  ∃ x y, s.atoms[i]? = some x ∧ g.atoms[i]? = some y ∧ y.pos = x.pos ∧ y.type = x.type ∧
    ∀ (j : ℕ) (a b : Atom), s.atoms[j]? = some a → g.atoms[j]? = some b →
      (b.pos = a.pos ∧ b.type = a.type) ∨ (r ≤ s.getDistance a x ∧ r ≤ s.getDistance b x)

theorem getDistance_pos (s : System) {a a' b b' : Atom} (ha : a'.pos = a.pos) (hb : b'.pos = b.pos) :
    s.getDistance a' b' = s.getDistance a b ∧ s.getDistanceVector a' b' = s.getDistanceVector a b := by
  simp only [System.getDistance, System.getDistanceVector, ha, hb, and_self]

theorem cutoffNbs_local {s g : System} {r : ℝ} {f i : ℕ} (hlen : g.atoms.length = s.atoms.length) (hm : Spec.SameMetric s g) (hA : Spec.AgreeNear s g r i) :
    cutoffNbs g r f i = cutoffNbs s r f i := by
  obtain ⟨x, y, hx, hy, hp, ht, hA⟩ := hA
  have key : ∀ j, j < s.atoms.length → (g.mkNb i j = s.mkNb i j ∧ g.distOf i j = s.distOf i j ∧ g.typeOf j = s.typeOf j) ∨
      (r ≤ s.distOf i j ∧ r ≤ g.distOf i j) := by
    intro j hj
    have h1 : s.atoms[j]? = some s.atoms[j] := List.getElem?_eq_getElem hj
    have h2 : g.atoms[j]? = some g.atoms[j] := List.getElem?_eq_getElem (by omega)
    obtain ⟨d1, v1⟩ := distOf_eq hx h1
    obtain ⟨d2, v2⟩ := distOf_eq hy h2
    rcases hA j _ _ h1 h2 with ⟨q1, q2⟩ | ⟨q1, q2⟩
    · left
      have e := getDistance_pos s (a' := g.atoms[j]) (a := s.atoms[j]) (b' := y) (b := x) q1 hp
      have hd : g.distOf i j = s.distOf i j := by rw [d2, (hm _ _).1, e.1, d1]
      have hv : g.diffOf i j = s.diffOf i j := by rw [v2, (hm _ _).2, e.2, v1]
      refine ⟨?_, hd, ?_⟩
      · unfold System.mkNb
        rw [hd, hv]
      · unfold System.typeOf
        rw [(mem_of_getElem? h2).2, (mem_of_getElem? h1).2, q2]
    · right
      refine ⟨by rw [d1]; exact q1, ?_⟩
      rw [d2, (hm _ _).1, (getDistance_pos s (a' := g.atoms[j]) (a := g.atoms[j]) (b' := y) (b := x) rfl hp).1]
      exact q2
  have hti : g.typeOf i = s.typeOf i := by
    unfold System.typeOf
    rw [(mem_of_getElem? hy).2, (mem_of_getElem? hx).2, ht]
  unfold cutoffNbs
  rw [hlen]
  have hf : ((List.range s.atoms.length).filter fun j => j ≠ i ∧ (g.distOf i j < r ∧ filterOK f (g.typeOf i) (g.typeOf j) = true)) =
      (List.range s.atoms.length).filter fun j => j ≠ i ∧ (s.distOf i j < r ∧ filterOK f (s.typeOf i) (s.typeOf j) = true) := by
    refine List.filter_congr fun j hj => ?_
    rcases key j (List.mem_range.1 hj) with ⟨-, h1, h2⟩ | ⟨h1, h2⟩
    · rw [h1, h2, hti]
    · rw [decide_eq_decide]
      constructor
      · rintro ⟨-, h3, -⟩; linarith
      · rintro ⟨-, h3, -⟩; linarith
  rw [hf]
  refine List.map_congr_left fun j hj => ?_
  obtain ⟨h1, h2⟩ := List.mem_filter.1 hj
  rcases key j (List.mem_range.1 h1) with ⟨h3, -⟩ | ⟨h3, -⟩
  · exact h3
  · have := (of_decide_eq_true h2).2.1
    linarith

/-- The atom after the search: its neighbours, condition; and no Voronoi mark. -/
theorem cutoff_atom {σ : StdSort} {s s1 : System} {f : ℕ} {r : ℝ} (hr : r ≠ 0) (hn : s.natoms ≤ 2300) (h : s.findNeighbors σ f (.cutoff r) = .ok s1) :
    s1.voronoiused = false ∧ s1.atoms.length = s.atoms.length ∧
    ∀ (i : ℕ) (a : Atom), s1.atoms[i]? = some a → i < s.atoms.length ∧ a = cutoffAtom s r f i ∧ a.condition = some 0 := by
  obtain ⟨-, hs, -⟩ := findNeighbors_cutoff_ok hr hn h
  subst hs
  refine ⟨rfl, by simp, fun i a ha => ?_⟩
  simp only [List.getElem?_map] at ha
  cases hh : (List.range s.atoms.length)[i]? with
  | none => rw [hh] at ha; cases ha
  | some k =>
    obtain ⟨hlt, hk⟩ := List.getElem?_eq_some_iff.1 hh
    rw [hh] at ha
    simp only [List.getElem_range] at hk
    subst hk
    obtain rfl := Option.some.inj ha
    exact ⟨by simpa using hlt, rfl, rfl⟩

/-- With neighbours in range, all of them take part in `calculate_q` right after a search. -/
theorem cutoff_qNbrs {σ : StdSort} {s s1 : System} {f : ℕ} {r : ℝ} (hr : r ≠ 0) (hn : s.natoms ≤ 2300) (h : s.findNeighbors σ f (.cutoff r) = .ok s1)
    (hs : s1.NbrsInRange) {i : ℕ} {a : Atom} (ha : s1.atoms[i]? = some a) : s1.qNbrs a = a.nbrs := by
  obtain ⟨-, -, hat⟩ := cutoff_atom hr hn h
  unfold System.qNbrs
  refine List.filter_eq_self.2 fun x hx => ?_
  have hlt := hs a (List.mem_of_getElem? ha) x hx
  have hg := List.getElem?_eq_getElem hlt
  rw [(hat i a ha).2.2, mem_eq_getElem s1 x.idx hlt, (hat _ _ hg).2.2]
  simp

theorem calcQlm_of_nbrs {s g : System} {a b : Atom} (l : ℕ) (hv : g.voronoiused = s.voronoiused) (h : g.qNbrs b = s.qNbrs a) : g.calcQlm l b = s.calcQlm l a := by
  unfold System.calcQlm
  rw [h, hv]

theorem qAtom_own (s : System) (l : ℕ) (a : Atom) : (qAtom s [l] a).qlm l = s.calcQlm l a := by simp [qAtom]

theorem solid1_congr {t t' : System} {c c' : Atom} (hcr : t.criteria = 0 ∨ t.criteria = 1) (h1 : t'.criteria = t.criteria)
    (h2 : t'.minfrenkel = t.minfrenkel) (h3 : t'.avgthreshold = t.avgthreshold) (h4 : t'.comparecriteria = t.comparecriteria)
    (hn : c'.nbrs.length = c.nbrs.length) (hf : c'.frenkel = c.frenkel) (hq : c'.avq = c.avq) : (t'.solid1 c').issolid = (t.solid1 c).issolid := by
  unfold System.solid1
  rw [h1, h2, h3, h4, hn, hf, hq]
  rcases hcr with h | h
  · rw [if_pos h, if_pos h]
  · have h0 : t.criteria ≠ 0 := by omega
    rw [if_neg h0, if_neg h0, if_pos h, if_pos h]

section
variable {σ σ' : StdSort} {s g s1 g1 : System} {f : ℕ} {r : ℝ}

/-- What the two searches agree on. -/
theorem local_search (hr : r ≠ 0) (hn : s.natoms ≤ 2300) (hn' : g.natoms ≤ 2300) (hlen : g.atoms.length = s.atoms.length) (hm : Spec.SameMetric s g)
    (h1 : s.findNeighbors σ f (.cutoff r) = .ok s1) (h2 : g.findNeighbors σ' f (.cutoff r) = .ok g1) {i : ℕ} (hA : Spec.AgreeNear s g r i) :
    ∃ a b, s1.atoms[i]? = some a ∧ g1.atoms[i]? = some b ∧ b.nbrs = a.nbrs ∧ a.nbrs = cutoffNbs s r f i ∧ (a.nbrs ≠ [] → b.cutoff = a.cutoff) := by
  obtain ⟨-, l1, e1⟩ := cutoff_atom hr hn h1
  obtain ⟨-, l2, e2⟩ := cutoff_atom hr hn' h2
  have hlt : i < s.atoms.length := by
    obtain ⟨x, y, hx, -⟩ := hA
    exact (List.getElem?_eq_some_iff.1 hx).1
  have ha := List.getElem?_eq_getElem (show i < s1.atoms.length by omega)
  have hb := List.getElem?_eq_getElem (show i < g1.atoms.length by omega)
  obtain ⟨-, ea, -⟩ := e1 i _ ha
  obtain ⟨-, eb, -⟩ := e2 i _ hb
  have hN := cutoffNbs_local (f := f) hlen hm hA
  have na : s1.atoms[i].nbrs = cutoffNbs s r f i := by rw [ea]; rfl
  have nb : g1.atoms[i].nbrs = cutoffNbs g r f i := by rw [eb]; rfl
  refine ⟨_, _, ha, hb, by rw [na, nb, hN], na, fun hne => ?_⟩
  rw [na] at hne
  have ca : s1.atoms[i].cutoff = some r := by
    rw [ea]; exact if_neg hne
  have cb : g1.atoms[i].cutoff = some r := by
    rw [eb]; exact if_neg (by rw [hN]; exact hne)
  rw [ca, cb]

theorem local_qlm (hr : r ≠ 0) (hn : s.natoms ≤ 2300) (hn' : g.natoms ≤ 2300) (hlen : g.atoms.length = s.atoms.length) (hm : Spec.SameMetric s g)
    (h1 : s.findNeighbors σ f (.cutoff r) = .ok s1) (h2 : g.findNeighbors σ' f (.cutoff r) = .ok g1) (hs : s1.NbrsInRange) (hg : g1.NbrsInRange) {i : ℕ}
    (hA : Spec.AgreeNear s g r i) {a b : Atom} (ha : s1.atoms[i]? = some a) (hb : g1.atoms[i]? = some b) (l : ℕ) : g1.calcQlm l b = s1.calcQlm l a := by
  obtain ⟨a', b', ha', hb', hnb, -, -⟩ := local_search hr hn hn' hlen hm h1 h2 hA
  rw [ha] at ha'
  rw [hb] at hb'
  obtain rfl := Option.some.inj ha'
  obtain rfl := Option.some.inj hb'
  refine calcQlm_of_nbrs l ?_ ?_
  · rw [(cutoff_atom hr hn h1).1, (cutoff_atom hr hn' h2).1]
  · rw [cutoff_qNbrs hr hn h1 hs ha, cutoff_qNbrs hr hn' h2 hg hb, hnb]

/-- **C90, neighbours and q**: if two systems differ only in atoms at least the cutoff away from atom `i`, a cutoff search
gives `i` the same neighbours (numbers, distances, vectors), and `calculate_q` the same values and components. -/
theorem C90_q (hr : r ≠ 0) (hn : s.natoms ≤ 2300) (hn' : g.natoms ≤ 2300) (hlen : g.atoms.length = s.atoms.length) (hm : Spec.SameMetric s g)
    (h1 : s.findNeighbors σ f (.cutoff r) = .ok s1) (h2 : g.findNeighbors σ' f (.cutoff r) = .ok g1) (i : ℕ) (hA : Spec.AgreeNear s g r i)
    (ls : List ℤ) (av : Bool) (s2 g2 : System) (h3 : s1.calculateQ ls av = .ok s2) (h4 : g1.calculateQ ls av = .ok g2) :
    ∃ a b, s2.atoms[i]? = some a ∧ g2.atoms[i]? = some b ∧ b.pos = a.pos ∧ b.type = a.type ∧ b.nbrs = a.nbrs ∧
      ∀ l : ℕ, (l : ℤ) ∈ ls → b.q l = a.q l ∧ b.qlm l = a.qlm l := by
  obtain ⟨a, b, ha, hb, hnb, -, -⟩ := local_search hr hn hn' hlen hm h1 h2 hA
  obtain ⟨-, hs, e3⟩ := calculateQ_ok h3
  obtain ⟨-, hg, e4⟩ := calculateQ_ok h4
  have l3 : s2.atoms.length = s1.atoms.length := by rw [e3]; split_ifs <;> simp [System.afterQ]
  have l4 : g2.atoms.length = g1.atoms.length := by rw [e4]; split_ifs <;> simp [System.afterQ]
  obtain ⟨a2, ka⟩ : ∃ a2, s2.atoms[i]? = some a2 := ⟨_, List.getElem?_eq_getElem (by rw [l3]; exact (List.getElem?_eq_some_iff.1 ha).1)⟩
  obtain ⟨b2, kb⟩ : ∃ b2, g2.atoms[i]? = some b2 := ⟨_, List.getElem?_eq_getElem (by rw [l4]; exact (List.getElem?_eq_some_iff.1 hb).1)⟩
  have qa := calculateQ_atom h3 ha ka
  have qb := calculateQ_atom h4 hb kb
  have hpt : b.pos = a.pos ∧ b.type = a.type := by
    obtain ⟨x, y, hx, hy, hp, ht, -⟩ := hA
    rw [((cutoff_atom hr hn h1).2.2 i a ha).2.1, ((cutoff_atom hr hn' h2).2.2 i b hb).2.1]
    show (g.mem i).pos = (s.mem i).pos ∧ (g.mem i).type = (s.mem i).type
    rw [(mem_of_getElem? hx).2, (mem_of_getElem? hy).2]
    exact ⟨hp, ht⟩
  have ra : a2.pos = a.pos ∧ a2.type = a.type ∧ a2.nbrs = a.nbrs := by
    rw [qa]; split_ifs <;> exact ⟨rfl, rfl, rfl⟩
  have rb : b2.pos = b.pos ∧ b2.type = b.type ∧ b2.nbrs = b.nbrs := by
    rw [qb]; split_ifs <;> exact ⟨rfl, rfl, rfl⟩
  refine ⟨_, _, ka, kb, by rw [ra.1, rb.1, hpt.1], by rw [ra.2.1, rb.2.1, hpt.2], by rw [ra.2.2, rb.2.2, hnb], fun l hl => ?_⟩
  have hq := local_qlm hr hn hn' hlen hm h1 h2 hs hg hA ha hb l
  have va := calculateQ_q h3 ha ka l
  have vb := calculateQ_q h4 hb kb l
  rw [va.1, va.2, vb.1, vb.2, if_pos hl, if_pos hl, if_pos hl, if_pos hl, hq]
  exact ⟨rfl, rfl⟩

/-- **C90, averaged q**: if the two systems also differ only in atoms at least the cutoff away from every neighbour of
`i`, the averaged values of `i` are the same. -/
theorem C90_averaged (hr : r ≠ 0) (hn : s.natoms ≤ 2300) (hn' : g.natoms ≤ 2300) (hlen : g.atoms.length = s.atoms.length) (hm : Spec.SameMetric s g)
    (h1 : s.findNeighbors σ f (.cutoff r) = .ok s1) (h2 : g.findNeighbors σ' f (.cutoff r) = .ok g1) (i : ℕ) (hA : Spec.AgreeNear s g r i)
    (hnear : ∀ a, s1.atoms[i]? = some a → ∀ x ∈ a.nbrs, Spec.AgreeNear s g r x.idx)
    (ls : List ℤ) (s2 g2 : System) (h3 : s1.calculateQ ls true = .ok s2) (h4 : g1.calculateQ ls true = .ok g2) :
    ∃ a b, s2.atoms[i]? = some a ∧ g2.atoms[i]? = some b ∧ ∀ l : ℕ, (l : ℤ) ∈ ls → b.aq l = a.aq l := by
  obtain ⟨a, b, ha, hb, hnb, -, -⟩ := local_search hr hn hn' hlen hm h1 h2 hA
  obtain ⟨-, hs, e3⟩ := calculateQ_ok h3
  obtain ⟨-, hg, e4⟩ := calculateQ_ok h4
  have l3 : s2.atoms.length = s1.atoms.length := by rw [e3]; simp [System.afterQ]
  have l4 : g2.atoms.length = g1.atoms.length := by rw [e4]; simp [System.afterQ]
  obtain ⟨a2, ka⟩ : ∃ a2, s2.atoms[i]? = some a2 := ⟨_, List.getElem?_eq_getElem (by rw [l3]; exact (List.getElem?_eq_some_iff.1 ha).1)⟩
  obtain ⟨b2, kb⟩ : ∃ b2, g2.atoms[i]? = some b2 := ⟨_, List.getElem?_eq_getElem (by rw [l4]; exact (List.getElem?_eq_some_iff.1 hb).1)⟩
  have qa := calculateQ_atom h3 ha ka
  have qb := calculateQ_atom h4 hb kb
  rw [if_pos rfl] at qa qb
  refine ⟨_, _, ka, kb, fun l hl => ?_⟩
  have hl' := toNat_mem hl
  have hown : g1.calcQlm l b = s1.calcQlm l a := local_qlm hr hn hn' hlen hm h1 h2 hs hg hA ha hb l
  have hcond : ∀ {t : System} {c : Atom} {L : List ℕ}, t.NbrsInRange → c ∈ t.atoms → (t.afterQ L).qNbrs (qAtom t L c) = t.qNbrs c := by
    intro t c L ht hc
    unfold System.qNbrs
    refine List.filter_congr fun x hx => ?_
    have hx' := ht c hc x hx
    rw [mem_eq_getElem t x.idx hx', mem_eq_getElem (t.afterQ L) x.idx (by simpa [System.afterQ] using hx')]
    simp [System.afterQ, qAtom]
  have hmem : ∀ {t : System} {k : ℕ} {L : List ℕ} (hk : k < t.atoms.length), ((t.afterQ L).mem k) = qAtom t L t.atoms[k] := by
    intro t k L hk
    rw [mem_eq_getElem (t.afterQ L) k (by simpa [System.afterQ] using hk)]
    simp [System.afterQ]
  have hEq : (g1.afterQ (ls.map Int.toNat)).calcAqlm l (qAtom g1 (ls.map Int.toNat) b) =
      (s1.afterQ (ls.map Int.toNat)).calcAqlm l (qAtom s1 (ls.map Int.toNat) a) := by
    unfold System.calcAqlm
    rw [hcond hg (List.mem_of_getElem? hb), hcond hs (List.mem_of_getElem? ha), cutoff_qNbrs hr hn h1 hs ha, cutoff_qNbrs hr hn' h2 hg hb, hnb]
    have e1 : (qAtom g1 (ls.map Int.toNat) b).qlm l = (qAtom s1 (ls.map Int.toNat) a).qlm l := by
      simp only [qAtom, hl', if_true, hown]
    have e2 : (a.nbrs.mapM fun x => ((g1.afterQ (ls.map Int.toNat)).mem x.idx).qlm l) =
        a.nbrs.mapM fun x => ((s1.afterQ (ls.map Int.toNat)).mem x.idx).qlm l := by
      have hpt : ∀ x ∈ a.nbrs, ((g1.afterQ (ls.map Int.toNat)).mem x.idx).qlm l = ((s1.afterQ (ls.map Int.toNat)).mem x.idx).qlm l := by
        intro x hx
        have hx1 := hs a (List.mem_of_getElem? ha) x hx
        have hx2 := hg b (List.mem_of_getElem? hb) x (hnb ▸ hx)
        rw [hmem hx1, hmem hx2]
        simp only [qAtom, hl', if_true]
        exact local_qlm hr hn hn' hlen hm h1 h2 hs hg (hnear a ha x hx) (List.getElem?_eq_getElem hx1) (List.getElem?_eq_getElem hx2) l
      generalize a.nbrs = L at hpt
      induction L with
      | nil => rfl
      | cons x L ih =>
        rw [List.mapM_cons, List.mapM_cons, hpt x List.mem_cons_self, ih fun y hy => hpt y (List.mem_cons_of_mem _ hy)]
    rw [e1, e2]
  rw [qa, qb]
  simp only [aqAtom, hl', if_true, hEq]

/-- **C90, solids**: under the same hypotheses `find_solids` gives `i` the same correlations with its neighbours, the same
number of solid bonds, the same average and the same verdict. -/
theorem C90_solids (hr : r ≠ 0) (hn : s.natoms ≤ 2300) (hn' : g.natoms ≤ 2300) (hlen : g.atoms.length = s.atoms.length) (hm : Spec.SameMetric s g)
    (hc : g1.comparecriteria = s1.comparecriteria)
    (h1 : s.findNeighbors σ f (.cutoff r) = .ok s1) (h2 : g.findNeighbors σ' f (.cutoff r) = .ok g1) (i : ℕ) (hA : Spec.AgreeNear s g r i)
    (hnear : ∀ a, s1.atoms[i]? = some a → ∀ x ∈ a.nbrs, Spec.AgreeNear s g r x.idx)
    (bonds threshold avgthreshold q : PyNum) (cutoff cutoff' : ℝ) (right right' : Bool) (s2 g2 : System) (o o' : Option ℕ)
    (h3 : System.findSolids bonds threshold avgthreshold false q cutoff right s1 = (s2, .ok o))
    (h4 : System.findSolids bonds threshold avgthreshold false q cutoff' right' g1 = (g2, .ok o')) :
    ∃ a b, s2.atoms[i]? = some a ∧ g2.atoms[i]? = some b ∧ b.sij = a.sij ∧ b.frenkel = a.frenkel ∧ b.avq = a.avq ∧ b.issolid = a.issolid := by
  obtain ⟨l, t, at', cr, bb, -, e1, -, -, e2, e3, e4, e5, hs, e6⟩ := findSolids_ok h3
  obtain ⟨l', t', at'', cr', bb', -, k1, -, -, k2, k3, k4, k5, hg, k6⟩ := findSolids_ok h4
  obtain rfl : l' = l := by
    rw [e1] at k1
    have := PyNum.int.inj k1
    omega
  obtain rfl : t' = t := by rw [e2] at k2; exact (Option.some.inj k2).symm
  obtain rfl : at'' = at' := by rw [e3] at k3; exact (Option.some.inj k3).symm
  obtain rfl : bb' = bb := by rw [e4] at k4; exact (Option.some.inj k4).symm
  obtain rfl : cr' = cr := by
    rcases e5 with ⟨u, n, hu⟩ | ⟨u, n, hu⟩ <;> rcases k5 with ⟨v, m, hv⟩ | ⟨v, m, hv⟩
    · rw [u, v]
    · rw [hu] at hv; cases hv
    · rw [hu] at hv; cases hv
    · rw [u, v]
  have hcr : cr' = 0 ∨ cr' = 1 := e5.imp And.left And.left
  clear e1 e2 e3 e4 e5 k1 k2 k3 k4 k5
  obtain ⟨a, b, ha, hb, hnb, -, -⟩ := local_search hr hn hn' hlen hm h1 h2 hA
  refine ⟨_, _, by rw [e6, List.getElem?_map, ha]; rfl, by rw [k6, List.getElem?_map, hb]; rfl, ?_⟩
  generalize hp : (l', t', at'', cr', bb') = p
  have hown : (qAtom g1 [p.1] b).qlm p.1 = (qAtom s1 [p.1] a).qlm p.1 := by
    rw [qAtom_own, qAtom_own, local_qlm hr hn hn' hlen hm h1 h2 hs hg hA ha hb p.1]
  have hmem : ∀ {t : System} {k : ℕ} (hk : k < t.atoms.length), ((t.afterQ [p.1]).mem k) = qAtom t [p.1] t.atoms[k] := by
    intro t k hk
    rw [mem_eq_getElem (t.afterQ [p.1]) k (by simpa [System.afterQ] using hk)]
    simp [System.afterQ]
  have hsc : ((qAtom g1 [p.1] b).nbrs.map fun x => ((g1.afterQ [p.1]).solidParams p).numberFromBond (qAtom g1 [p.1] b) (((g1.afterQ [p.1]).solidParams p).mem x.idx)) =
      (qAtom s1 [p.1] a).nbrs.map fun x => ((s1.afterQ [p.1]).solidParams p).numberFromBond (qAtom s1 [p.1] a) (((s1.afterQ [p.1]).solidParams p).mem x.idx) := by
    show b.nbrs.map _ = a.nbrs.map _
    rw [hnb]
    refine List.map_congr_left fun x hx => ?_
    have hx1 := hs a (List.mem_of_getElem? ha) x hx
    have hx2 := hg b (List.mem_of_getElem? hb) x (hnb ▸ hx)
    show bondNumber p.1 _ (((g1.afterQ [p.1]).mem x.idx).qlm p.1) = bondNumber p.1 _ (((s1.afterQ [p.1]).mem x.idx).qlm p.1)
    rw [hmem hx1, hmem hx2, qAtom_own, qAtom_own,
      local_qlm hr hn hn' hlen hm h1 h2 hs hg (hnear a ha x hx) (List.getElem?_eq_getElem hx1) (List.getElem?_eq_getElem hx2) p.1]
    show bondNumber p.1 ((qAtom g1 [p.1] b).qlm p.1) _ = bondNumber p.1 ((qAtom s1 [p.1] a).qlm p.1) _
    rw [hown]
  have hnq : (qAtom g1 [p.1] b).nbrs.length = (qAtom s1 [p.1] a).nbrs.length := by
    show b.nbrs.length = a.nbrs.length
    rw [hnb]
  have hcc : ((g1.afterQ [p.1]).solidParams p).comparecriteria = ((s1.afterQ [p.1]).solidParams p).comparecriteria := hc
  have hS : ∀ (t : System) (c : Atom), (solidAtom t p c).sij = (((t.afterQ [p.1]).solidParams p).frenkel1 (qAtom t [p.1] c)).sij ∧
      (solidAtom t p c).frenkel = (((t.afterQ [p.1]).solidParams p).frenkel1 (qAtom t [p.1] c)).frenkel ∧
      (solidAtom t p c).avq = (((t.afterQ [p.1]).solidParams p).frenkel1 (qAtom t [p.1] c)).avq := fun t c =>
    ⟨(solidAtom_fields t p c).2.2.1, (solidAtom_fields t p c).2.2.2.1, (solidAtom_fields t p c).2.2.2.2⟩
  have f1 : (((g1.afterQ [p.1]).solidParams p).frenkel1 (qAtom g1 [p.1] b)).sij = (((s1.afterQ [p.1]).solidParams p).frenkel1 (qAtom s1 [p.1] a)).sij := hsc
  have f2 : (((g1.afterQ [p.1]).solidParams p).frenkel1 (qAtom g1 [p.1] b)).frenkel = (((s1.afterQ [p.1]).solidParams p).frenkel1 (qAtom s1 [p.1] a)).frenkel := by
    unfold System.frenkel1
    dsimp only
    rw [hsc, hcc]
    rfl
  have f3 : (((g1.afterQ [p.1]).solidParams p).frenkel1 (qAtom g1 [p.1] b)).avq = (((s1.afterQ [p.1]).solidParams p).frenkel1 (qAtom s1 [p.1] a)).avq := by
    unfold System.frenkel1
    dsimp only
    rw [hsc, hnq]
  refine ⟨by rw [(hS _ _).1, (hS _ _).1, f1], by rw [(hS _ _).2.1, (hS _ _).2.1, f2], by rw [(hS _ _).2.2, (hS _ _).2.2, f3], ?_⟩
  refine solid1_congr (t := s1.solidParams p) (t' := g1.solidParams p) ?_ rfl rfl rfl hc hnq f2 f3
  rw [← hp]
  exact hcr

end

/-! ### Through the API -/

theorem sameMetric_setAtoms (s0 : System) (l m : List Atom) : Spec.SameMetric (s0.setAtoms l) (s0.setAtoms m) := fun _ _ => ⟨rfl, rfl⟩

theorem agreeNear_refl {s : System} {r : ℝ} {i : ℕ} (hi : i < s.atoms.length) : Spec.AgreeNear s s r i := by
  refine ⟨_, _, List.getElem?_eq_getElem hi, List.getElem?_eq_getElem hi, rfl, rfl, fun j a b ha hb => .inl ?_⟩
  rw [ha] at hb
  obtain rfl := Option.some.inj hb
  exact ⟨rfl, rfl⟩

theorem setAtoms_natoms {s0 : System} {l : List Atom} (h : ∀ a ∈ l, a.ghost = false) : (s0.setAtoms l).natoms = l.length := by
  show countReal l = l.length
  unfold countReal
  rw [List.filter_eq_self.2 fun a ha => by simp [h a ha]]

/-- The steps of a calculation. -/
theorem analyse_parts {σ : StdSort} {b : Mat3} {s0 : System} {l as : List Atom} {f : ℕ} {r : ℝ} {ls : List ℤ} {av : Bool} (hb : System.init.setBox b = .ok s0)
    (hl : 200 ≤ l.length) (hreal : ∀ a ∈ l, a.ghost = false) (hl' : l.length ≤ 2300) (hr : r ≠ 0) (h : analyse σ b l f (.cutoff r) ls av = .ok as) :
    ∃ s1 s2, (s0.setAtoms l).findNeighbors σ f (.cutoff r) = .ok s1 ∧ s1.calculateQ ls av = .ok s2 ∧ ∀ i, i < l.length → as[i]? = s2.atoms[i]? := by
  have hbuild : buildSystem b l = .ok (s0.setAtoms l) := by
    unfold buildSystem
    rw [hb]
    exact if_neg (by omega)
  unfold analyse at h
  rw [hbuild] at h
  simp only [bind, Except.bind] at h
  rcases h1 : (s0.setAtoms l).findNeighbors σ f (.cutoff r) with e | s1 <;> rw [h1] at h
  · cases h
  dsimp only at h
  rcases h2 : s1.calculateQ ls av with e | s2 <;> rw [h2] at h
  · cases h
  dsimp only at h
  refine ⟨s1, s2, rfl, h2, fun i hi => ?_⟩
  have hn : s2.realNop = l.length := by
    obtain ⟨-, -, e⟩ := calculateQ_ok h2
    have e1 : s2.realNop = s1.realNop := by rw [e]; split_ifs <;> rfl
    obtain ⟨-, e2, -⟩ := findNeighbors_cutoff_ok hr (le_of_eq_of_le (setAtoms_natoms hreal) hl') h1
    rw [e1, e2]
    exact setAtoms_natoms (s0 := s0) hreal
  unfold System.getAtoms at h
  split_ifs at h
  obtain rfl := Except.ok.inj h
  rw [hn, List.getElem?_take, if_pos hi]

/-- **C90, the whole calculation**: with at least 200 atoms given to the same box, if the two lists differ only in atoms at least
the cutoff from atom `i`, then what `atoms` reports for `i` after a cutoff search and `calculate_q` is the same. -/
theorem C90_api (σ : StdSort) (b : Mat3) (s0 : System) (l m : List Atom) (hb : System.init.setBox b = .ok s0) (hl : 200 ≤ l.length) (hl' : l.length ≤ 2300)
    (hlen : m.length = l.length) (hrl : ∀ a ∈ l, a.ghost = false) (hrm : ∀ a ∈ m, a.ghost = false) (f : ℕ) (r : ℝ) (hr : r ≠ 0)
    (i : ℕ) (x y : Atom) (hx : l[i]? = some x) (hy : m[i]? = some y) (hxy : y.pos = x.pos ∧ y.type = x.type)
    (hfar : ∀ (j : ℕ) (a c : Atom), l[j]? = some a → m[j]? = some c →
      (c.pos = a.pos ∧ c.type = a.type) ∨ (r ≤ s0.getDistance a x ∧ r ≤ s0.getDistance c x))
    (ls : List ℤ) (as cs : List Atom) (h1 : analyse σ b l f (.cutoff r) ls false = .ok as) (h2 : analyse σ b m f (.cutoff r) ls false = .ok cs) :
    ∃ a c, as[i]? = some a ∧ cs[i]? = some c ∧ c.pos = a.pos ∧ c.type = a.type ∧ c.nbrs = a.nbrs ∧
      ∀ k : ℕ, (k : ℤ) ∈ ls → c.q k = a.q k ∧ c.qlm k = a.qlm k := by
  obtain ⟨s1, s2, k1, k2, k3⟩ := analyse_parts hb hl hrl hl' hr h1
  obtain ⟨g1, g2, n1, n2, n3⟩ := analyse_parts hb (by omega) hrm (by omega) hr h2
  have hil : i < l.length := (List.getElem?_eq_some_iff.1 hx).1
  have e1 : (s0.setAtoms l).natoms = l.length := setAtoms_natoms hrl
  have e2 : (s0.setAtoms m).natoms = m.length := setAtoms_natoms hrm
  obtain ⟨a, c, ha, hc, h⟩ := C90_q hr (by omega) (by omega) hlen (sameMetric_setAtoms s0 l m) k1 n1 i ⟨x, y, hx, hy, hxy.1, hxy.2, hfar⟩ ls false s2 g2 k2 n2
  exact ⟨a, c, by rw [k3 i hil]; exact ha, by rw [n3 i (by omega)]; exact hc, h⟩

/-- The calculation succeeds for 200 to 300 atoms. -/
theorem analyse_runs (σ : StdSort) {b : Mat3} {s0 : System} {l : List Atom} (f : ℕ) {r : ℝ} {ls : List ℤ} (av : Bool) (hb : System.init.setBox b = .ok s0)
    (hl : 200 ≤ l.length) (hl' : l.length ≤ 300) (hreal : ∀ a ∈ l, a.ghost = false) (hr : r ≠ 0) (hls : ∀ k ∈ ls, 2 ≤ k ∧ k ≤ 12) :
    ∃ as, analyse σ b l f (.cutoff r) ls av = .ok as := by
  have hnat : (s0.setAtoms l).realNop = l.length := setAtoms_natoms hreal
  have hal : (s0.setAtoms l).atoms.length = l.length := rfl
  obtain ⟨s1, h1⟩ := (C09_overrun σ (s0.setAtoms l) f r hr (by omega) (by omega)).2 (by
    intro k hk
    rw [← cutoffList_length (List.getElem?_eq_getElem hk) (cutoffNbs_spec (List.getElem?_eq_getElem hk))]
    exact (cutoffNbs_le _ _ _ _).trans (by omega))
  obtain ⟨-, e1, -⟩ := findNeighbors_cutoff_ok hr (by omega) h1
  have hin : s1.NbrsInRange := by
    intro a ha x hx
    rw [e1] at ha
    obtain ⟨k, -, rfl⟩ := List.mem_map.1 ha
    have hx : x ∈ cutoffNbs (s0.setAtoms l) r f k := hx
    obtain ⟨j, hj, rfl⟩ := List.mem_map.1 hx
    have hlt : ((s0.setAtoms l).mkNb k j).idx < (s0.setAtoms l).atoms.length := List.mem_range.1 (List.mem_of_mem_filter hj)
    rw [e1]
    simpa using hlt
  obtain ⟨s2, h2⟩ := calculateQ_succeeds (ls := ls) av false hls hin
  have hbuild : buildSystem b l = .ok (s0.setAtoms l) := by
    unfold buildSystem
    rw [hb]
    exact if_neg (by omega)
  unfold analyse
  rw [hbuild]
  simp only [bind, Except.bind]
  rw [h1]
  dsimp only
  rw [h2]
  dsimp only
  unfold System.getAtoms
  rw [if_pos]
  · exact ⟨_, rfl⟩
  · obtain ⟨-, -, e⟩ := calculateQ_ok h2
    have e2 : s2.realNop = s1.realNop ∧ s2.atoms.length = s1.atoms.length := by rw [e]; split_ifs <;> simp [System.afterQ]
    rw [e2.1, e2.2, e1]
    simp [hnat, hal]

/-- 200 atoms in a row; in the second list the last one has another type and has moved next to atom 100, far from atom 0. -/
example (σ : StdSort) : ∃ s0 : System, ∃ l m as cs : List Atom, System.init.setBox (Spec.diagBox 1000 1000 1000) = .ok s0 ∧ l.length = 200 ∧ m.length = 200 ∧ l ≠ m ∧
    (∀ a ∈ l, a.ghost = false) ∧ (∀ a ∈ m, a.ghost = false) ∧
    (∃ x y, l[0]? = some x ∧ m[0]? = some y ∧ y.pos = x.pos ∧ y.type = x.type ∧ ∀ (j : ℕ) (a c : Atom), l[j]? = some a → m[j]? = some c →
      (c.pos = a.pos ∧ c.type = a.type) ∨ ((3 / 2 : ℝ) ≤ s0.getDistance a x ∧ (3 / 2 : ℝ) ≤ s0.getDistance c x)) ∧
    analyse σ (Spec.diagBox 1000 1000 1000) l 0 (.cutoff (3 / 2)) [4, 6] false = .ok as ∧
    analyse σ (Spec.diagBox 1000 1000 1000) m 0 (.cutoff (3 / 2)) [4, 6] false = .ok cs := by
  obtain ⟨s0, s, h1, h2, hi, ha, -⟩ := chain_setup
  have hs0 := h1
  unfold System.setBox at hs0
  rw [if_neg (not_skewed_diag _ _ _)] at hs0
  have hsb : s0.box = Spec.diagBox 1000 1000 1000 ∧ s0.triclinic = false := by
    obtain rfl := Except.ok.inj hs0
    exact ⟨rfl, rfl⟩
  let z : Atom := { pos := ⟨((100 : ℕ) : ℝ), 0, 0⟩, id := 199, type := 2 }
  have hz : z.pos = ⟨((100 : ℕ) : ℝ), 0, 0⟩ := rfl
  have hml : (chainAtoms.set 199 z).length = 200 := by rw [List.length_set, chainAtoms_length]
  have hm199 : (chainAtoms.set 199 z)[199]? = some z := by rw [List.getElem?_set_self (by rw [chainAtoms_length]; omega)]
  have hrm : ∀ a ∈ chainAtoms.set 199 z, a.ghost = false := by
    intro a ha
    rcases List.mem_or_eq_of_mem_set ha with h | rfl
    · exact hi.real a h
    · rfl
  obtain ⟨as, e1⟩ := analyse_runs σ (l := chainAtoms) 0 (r := 3 / 2) (ls := [4, 6]) false h1 (by rw [chainAtoms_length]) (by rw [chainAtoms_length]; omega) hi.real
    (by norm_num) (by intro k hk; simp at hk; omega)
  obtain ⟨cs, e2⟩ := analyse_runs σ (l := chainAtoms.set 199 z) 0 (r := 3 / 2) (ls := [4, 6]) false h1 (by rw [hml]) (by rw [hml]; omega) hrm
    (by norm_num) (by intro k hk; simp at hk; omega)
  refine ⟨s0, chainAtoms, chainAtoms.set 199 z, as, cs, h1, chainAtoms_length, hml, ?_, hi.real, hrm, ?_, e1, e2⟩
  · intro h
    have e' := congrArg Atom.type (Option.some.inj (hm199.symm.trans (h ▸ chainAtoms_get 199 (by omega))))
    exact absurd e' (by decide)
  · have g0 := chainAtoms_get 0 (by omega)
    refine ⟨_, _, g0, ?_, rfl, rfl, ?_⟩
    · rw [List.getElem?_set_ne (by omega)]; exact g0
    intro j a c hja hjc
    by_cases hj : j = 199
    · subst hj
      rw [hm199] at hjc
      rw [chainAtoms_get 199 (by omega)] at hja
      obtain rfl := Option.some.inj hjc
      obtain rfl := Option.some.inj hja
      right
      rw [chain_dist hsb.1 hsb.2 199 0 (by omega) (by omega) _ _ rfl rfl, chain_dist hsb.1 hsb.2 100 0 (by omega) (by omega) _ _ hz rfl]
      norm_num
    · rw [List.getElem?_set_ne (by omega), hja] at hjc
      obtain rfl := Option.some.inj hjc
      exact .inl ⟨rfl, rfl⟩

/-- The additional hypotheses of `C90_averaged` and `C90_solids` hold for atom 0 of the same two lists: its neighbours are
far from the moved atom too. -/
example (σ : StdSort) : ∃ s0 s1 g1 : System, ∃ m : List Atom, (s0.setAtoms chainAtoms).findNeighbors σ 0 (.cutoff (3 / 2)) = .ok s1 ∧
    (s0.setAtoms m).findNeighbors σ 0 (.cutoff (3 / 2)) = .ok g1 ∧ m ≠ chainAtoms ∧ m.length = chainAtoms.length ∧
    Spec.SameMetric (s0.setAtoms chainAtoms) (s0.setAtoms m) ∧ g1.comparecriteria = s1.comparecriteria ∧
    Spec.AgreeNear (s0.setAtoms chainAtoms) (s0.setAtoms m) (3 / 2) 0 ∧
    ∃ a, s1.atoms[0]? = some a ∧ a.nbrs ≠ [] ∧ ∀ x ∈ a.nbrs, Spec.AgreeNear (s0.setAtoms chainAtoms) (s0.setAtoms m) (3 / 2) x.idx := by
  obtain ⟨s0, s, h1, h2, hi, ha, -⟩ := chain_setup
  have hs0 := h1
  unfold System.setBox at hs0
  rw [if_neg (not_skewed_diag _ _ _)] at hs0
  have hsb : s0.box = Spec.diagBox 1000 1000 1000 ∧ s0.triclinic = false := by
    obtain rfl := Except.ok.inj hs0
    exact ⟨rfl, rfl⟩
  let z : Atom := { pos := ⟨((100 : ℕ) : ℝ), 0, 0⟩, id := 199, type := 2 }
  have hz : z.pos = ⟨((100 : ℕ) : ℝ), 0, 0⟩ := rfl
  have hml : (chainAtoms.set 199 z).length = 200 := by rw [List.length_set, chainAtoms_length]
  have hm199 : (chainAtoms.set 199 z)[199]? = some z := by rw [List.getElem?_set_self (by rw [chainAtoms_length]; omega)]
  have hrm : ∀ a ∈ chainAtoms.set 199 z, a.ghost = false := by
    intro a ha
    rcases List.mem_or_eq_of_mem_set ha with h | rfl
    · exact hi.real a h
    · rfl
  have hclen := chainAtoms_length
  have hrun : ∀ l : List Atom, l.length = 200 → (∀ a ∈ l, a.ghost = false) → ∃ s1, (s0.setAtoms l).findNeighbors σ 0 (.cutoff (3 / 2)) = .ok s1 := by
    intro l hl hreal
    obtain ⟨as, e⟩ := analyse_runs σ (l := l) 0 (r := 3 / 2) (ls := [4, 6]) false h1 (by omega) (by omega) hreal (by norm_num) (by intro k hk; simp at hk; omega)
    obtain ⟨s1, -, h, -⟩ := analyse_parts h1 (by omega) hreal (by omega) (by norm_num) e
    exact ⟨s1, h⟩
  obtain ⟨s1, e1⟩ := hrun chainAtoms chainAtoms_length hi.real
  obtain ⟨g1, e2⟩ := hrun _ hml hrm
  have hagree : ∀ i, i < 50 → Spec.AgreeNear (s0.setAtoms chainAtoms) (s0.setAtoms (chainAtoms.set 199 z)) (3 / 2) i := by
    intro i hi50
    have gi := chainAtoms_get i (by omega)
    refine ⟨_, _, gi, ?_, rfl, rfl, ?_⟩
    · show (chainAtoms.set 199 z)[i]? = _
      rw [List.getElem?_set_ne (by omega)]; exact gi
    intro j a c hja hjc
    have hja : chainAtoms[j]? = some a := hja
    have hjc : (chainAtoms.set 199 z)[j]? = some c := hjc
    by_cases hj : j = 199
    · subst hj
      rw [hm199] at hjc
      rw [chainAtoms_get 199 (by omega)] at hja
      obtain rfl := Option.some.inj hjc
      obtain rfl := Option.some.inj hja
      right
      have hb' : (s0.setAtoms chainAtoms).box = Spec.diagBox 1000 1000 1000 := hsb.1
      have ht' : (s0.setAtoms chainAtoms).triclinic = false := hsb.2
      have hi' : (i : ℝ) < 50 := by exact_mod_cast hi50
      rw [chain_dist hb' ht' 199 i (by omega) (by omega) _ _ rfl rfl, chain_dist hb' ht' 100 i (by omega) (by omega) _ _ hz rfl]
      push_cast
      rw [abs_of_pos (by linarith), abs_of_pos (by linarith)]
      constructor <;> linarith
    · rw [List.getElem?_set_ne (by omega), hja] at hjc
      obtain rfl := Option.some.inj hjc
      exact .inl ⟨rfl, rfl⟩
  have hn1 : (s0.setAtoms chainAtoms).natoms ≤ 2300 := by rw [setAtoms_natoms hi.real]; omega
  have hn2 : (s0.setAtoms (chainAtoms.set 199 z)).natoms ≤ 2300 := by rw [setAtoms_natoms hrm]; omega
  obtain ⟨a, b, ha0, -, -, hnb, -⟩ := local_search (by norm_num) hn1 hn2 (by rw [show (s0.setAtoms (chainAtoms.set 199 z)).atoms.length = 200 from hml]; exact hclen.symm)
    (sameMetric_setAtoms s0 _ _) e1 e2 (hagree 0 (by omega))
  have hd : ∀ j, j < 200 → (s0.setAtoms chainAtoms).distOf 0 j = |(j : ℝ) - ((0 : ℕ) : ℝ)| := by
    intro j hj
    have g0 : (s0.setAtoms chainAtoms).atoms[0]? = _ := chainAtoms_get 0 (by omega)
    have gj : (s0.setAtoms chainAtoms).atoms[j]? = _ := chainAtoms_get j hj
    rw [(distOf_eq g0 gj).1]
    exact chain_dist hsb.1 hsb.2 j 0 hj (by omega) _ _ rfl rfl
  refine ⟨s0, s1, g1, _, e1, e2, ?_, by rw [hml, hclen], sameMetric_setAtoms s0 _ _, ?_, hagree 0 (by omega), a, ha0, ?_, ?_⟩
  · intro h
    have e' := congrArg Atom.type (Option.some.inj (hm199.symm.trans (h ▸ chainAtoms_get 199 (by omega))))
    exact absurd e' (by decide)
  · rw [(findNeighbors_cutoff_ok (by norm_num) hn1 e1).2.1, (findNeighbors_cutoff_ok (by norm_num) hn2 e2).2.1]
    rfl
  · rw [hnb]
    refine List.ne_nil_of_mem (a := (s0.setAtoms chainAtoms).mkNb 0 1) (List.mem_map.2 ⟨1, List.mem_filter.2 ⟨List.mem_range.2 ?_, ?_⟩, rfl⟩)
    · rw [show (s0.setAtoms chainAtoms).atoms.length = 200 from hclen]; omega
    · refine decide_eq_true ⟨by omega, ?_, rfl⟩
      rw [hd 1 (by omega)]
      norm_num
  · intro x hx
    rw [hnb] at hx
    obtain ⟨j, hj, rfl⟩ := List.mem_map.1 hx
    obtain ⟨h3, h4⟩ := List.mem_filter.1 hj
    have hj200 : j < 200 := by
      have := List.mem_range.1 h3
      rwa [show (s0.setAtoms chainAtoms).atoms.length = 200 from hclen] at this
    have h5 := (of_decide_eq_true h4).2.1
    rw [hd j hj200] at h5
    have h6 := (abs_lt.1 h5).2
    push_cast at h6
    refine hagree j ?_
    have : (j : ℝ) < 50 := by linarith
    exact_mod_cast this

end Pyscal
