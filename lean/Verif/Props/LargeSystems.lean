import Verif.Lemmas.Alike
import Verif.Props.Monotone
import Verif.Props.Misc

/-! C10, C84, C90 and C91 for systems of any size: the cell lists used above 2300 atoms are allowed, in the conditions of C11. -/

namespace Pyscal

section
variable {σ σ' : StdSort} {s g s1 g1 : System} {f : ℕ} {r : ℝ}

theorem near_alike (hr : r ≠ 0) (hn : Spec.PairsExact s r) (hn' : Spec.PairsExact g r) (hlen : g.atoms.length = s.atoms.length) (hm : Spec.SameMetric s g)
    (h1 : s.findNeighbors σ f (.cutoff r) = .ok s1) (h2 : g.findNeighbors σ' f (.cutoff r) = .ok g1) {i : ℕ} (hA : Spec.AgreeNear s g r i) :
    ∃ a c, s1.atoms[i]? = some a ∧ g1.atoms[i]? = some c ∧ c.nbrs.Perm a.nbrs ∧ c.pos = a.pos ∧ c.type = a.type := by
  obtain ⟨-, l1, e1⟩ := cutoff_any hr hn h1
  obtain ⟨-, l2, e2⟩ := cutoff_any hr hn' h2
  have hN := cutoffNbs_local (f := f) hlen hm hA
  obtain ⟨x, y, hx, hy, hp, ht, -⟩ := hA
  have hlt : i < s.atoms.length := (List.getElem?_eq_some_iff.1 hx).1
  obtain ⟨a, ha⟩ : ∃ a, s1.atoms[i]? = some a := ⟨_, List.getElem?_eq_getElem (show i < s1.atoms.length by omega)⟩
  obtain ⟨c, hc⟩ : ∃ c, g1.atoms[i]? = some c := ⟨_, List.getElem?_eq_getElem (show i < g1.atoms.length by omega)⟩
  obtain ⟨-, na, ra⟩ := e1 i a ha
  obtain ⟨-, nc, rc⟩ := e2 i c hc
  refine ⟨a, c, ha, hc, (hN ▸ nc).trans na.symm, ?_, ?_⟩
  · have k1 := congrArg Atom.pos ra
    have k2 := congrArg Atom.pos rc
    have k1' : a.pos = (s.mem i).pos := k1
    have k2' : c.pos = (g.mem i).pos := k2
    rw [k1', k2', (mem_of_getElem? hx).2, (mem_of_getElem? hy).2, hp]
  · have k1 := congrArg Atom.type ra
    have k2 := congrArg Atom.type rc
    have k1' : a.type = (s.mem i).type := k1
    have k2' : c.type = (g.mem i).type := k2
    rw [k1', k2', (mem_of_getElem? hx).2, (mem_of_getElem? hy).2, ht]

theorem near_alike1 (hr : r ≠ 0) (hn : Spec.PairsExact s r) (hn' : Spec.PairsExact g r) (hlen : g.atoms.length = s.atoms.length) (hm : Spec.SameMetric s g)
    (h1 : s.findNeighbors σ f (.cutoff r) = .ok s1) (h2 : g.findNeighbors σ' f (.cutoff r) = .ok g1) {a c : Atom} (hP : c.nbrs.Perm a.nbrs)
    (hnear : ∀ x ∈ a.nbrs, Spec.AgreeNear s g r x.idx) : Alike1 s1 g1 a c := by
  refine ⟨Nb, id, id, by simpa using hP, ?_⟩
  rintro x hx y - (rfl : y = x)
  obtain ⟨u, w, hu, hw, huw, -⟩ := near_alike hr hn hn' hlen hm h1 h2 (hnear y hx)
  exact ⟨rfl, u, w, hu, hw, huw.map _⟩

/-- **C90 for any number of atoms**: if two systems differ only in atoms at least the cutoff away from atom `i`, a cutoff search gives
`i` the same neighbours (numbers, distances, vectors) up to their order, and `calculate_q` the same values; if they also differ
only in atoms at least the cutoff away from every neighbour of `i`, the averaged values are the same. -/
theorem C90_large_q (hr : r ≠ 0) (hn : Spec.PairsExact s r) (hn' : Spec.PairsExact g r) (hlen : g.atoms.length = s.atoms.length) (hm : Spec.SameMetric s g)
    (h1 : s.findNeighbors σ f (.cutoff r) = .ok s1) (h2 : g.findNeighbors σ' f (.cutoff r) = .ok g1) (i : ℕ) (hA : Spec.AgreeNear s g r i)
    (ls : List ℤ) (av : Bool) (s2 g2 : System) (h3 : s1.calculateQ ls av = .ok s2) (h4 : g1.calculateQ ls av = .ok g2) :
    ∃ a c, s2.atoms[i]? = some a ∧ g2.atoms[i]? = some c ∧ c.pos = a.pos ∧ c.type = a.type ∧ c.nbrs.Perm a.nbrs ∧
      ∀ l : ℕ, (l : ℤ) ∈ ls → c.q l = a.q l ∧ c.qlm l = a.qlm l ∧
        (av = true → (∀ x ∈ a.nbrs, Spec.AgreeNear s g r x.idx) → c.aq l = a.aq l) := by
  obtain ⟨a, c, ha, hc, hP, hp, ht⟩ := near_alike hr hn hn' hlen hm h1 h2 hA
  obtain ⟨a2, c2, ka, kc, ra, rc, hq⟩ := alike_q (cutoff_plain hr hn h1) (cutoff_plain hr hn' h2) ha hc (hP.map _) h3 h4
  refine ⟨a2, c2, ka, kc, by rw [rc.1, ra.1, hp], by rw [rc.2.1, ra.2.1, ht], by rw [rc.2.2, ra.2.2]; exact hP, fun l hl => ?_⟩
  refine ⟨(hq l hl).1, (hq l hl).2.1, fun hav hnear => (hq l hl).2.2 hav ?_⟩
  rw [ra.2.2] at hnear
  exact near_alike1 hr hn hn' hlen hm h1 h2 hP hnear

/-- **C90 for any number of atoms, solids**: the same correlations up to their order, the same number of solid bonds, average and verdict. -/
theorem C90_large_solids (hr : r ≠ 0) (hn : Spec.PairsExact s r) (hn' : Spec.PairsExact g r) (hlen : g.atoms.length = s.atoms.length) (hm : Spec.SameMetric s g)
    (hcmp : g1.comparecriteria = s1.comparecriteria)
    (h1 : s.findNeighbors σ f (.cutoff r) = .ok s1) (h2 : g.findNeighbors σ' f (.cutoff r) = .ok g1) (i : ℕ) (hA : Spec.AgreeNear s g r i)
    (hnear : ∀ a, s1.atoms[i]? = some a → ∀ x ∈ a.nbrs, Spec.AgreeNear s g r x.idx)
    (bonds threshold avgthreshold q : PyNum) (cutoff cutoff' : ℝ) (right right' : Bool) (s2 g2 : System) (o o' : Option ℕ)
    (h3 : System.findSolids bonds threshold avgthreshold false q cutoff right s1 = (s2, .ok o))
    (h4 : System.findSolids bonds threshold avgthreshold false q cutoff' right' g1 = (g2, .ok o')) :
    ∃ a c, s2.atoms[i]? = some a ∧ g2.atoms[i]? = some c ∧ c.sij.Perm a.sij ∧ c.frenkel = a.frenkel ∧ c.avq = a.avq ∧ c.issolid = a.issolid := by
  obtain ⟨a, c, ha, hc, hP, -⟩ := near_alike hr hn hn' hlen hm h1 h2 hA
  exact alike_solids (cutoff_plain hr hn h1) (cutoff_plain hr hn' h2) hcmp ha hc (near_alike1 hr hn hn' hlen hm h1 h2 hP (hnear a ha)) h3 h4

end

/-! ### Mutual neighbours -/

theorem cellPairs_bound {s : System} {ps : List (ℕ × ℕ)} (h : s.cellPairs = .ok ps) : ∀ p ∈ ps, p.1 < p.2 ∧ p.2 < s.atoms.length := by
  unfold System.cellPairs at h
  split at h
  · cases h
  split at h
  · cases h
  obtain rfl := Except.ok.inj h
  intro p hp
  simp only [List.mem_flatMap, List.mem_map, List.mem_filter, decide_eq_true_eq] at hp
  obtain ⟨c, _, ti, _, sub, _, tj, ⟨h1, hlt⟩, rfl⟩ := hp
  exact ⟨hlt, (CellsOK.mem_members.1 h1).1⟩

theorem cutoffHit_start (s : System) (f : ℕ) (r : ℝ) (i j : ℕ) :
    cutoffHit { s.startSearch f with neighbordistance := r, voronoiused := false } i j =
      cutoffHit { s with filter := f, neighbordistance := r } i j := by
  have hd : System.distOf { s.startSearch f with neighbordistance := r, voronoiused := false } i j = s.distOf i j := resetAll_distOf s i j
  have hv : System.diffOf { s.startSearch f with neighbordistance := r, voronoiused := false } i j = s.diffOf i j := resetAll_diffOf s i j
  have ht : ∀ i, System.typeOf { s.startSearch f with neighbordistance := r, voronoiused := false } i = s.typeOf i := resetAll_typeOf s
  unfold cutoffHit
  simp only [hd, hv, ht]
  rfl

/-- Any successful search with a numeric cutoff goes over a list of pairs and adds a hit to the lists of both atoms. -/
theorem cutoff_pairs {σ : StdSort} {s s1 : System} {f : ℕ} {r : ℝ} (hr : r ≠ 0) (h : s.findNeighbors σ f (.cutoff r) = .ok s1) :
    s1.atoms.length = s.atoms.length ∧ ∃ ps : List (ℕ × ℕ), (∀ p ∈ ps, p.1 < p.2 ∧ p.2 < s.atoms.length) ∧
      ∀ (i : ℕ) (a : Atom), s1.atoms[i]? = some a → a.nbrs = ps.flatMap (contrib (cutoffHit { s with filter := f, neighbordistance := r }) i) := by
  have hfun : cutoffHit { s.startSearch f with neighbordistance := r, voronoiused := false } = cutoffHit { s with filter := f, neighbordistance := r } :=
    funext₂ (cutoffHit_start s f r)
  have key : ∀ (ps : List (ℕ × ℕ)) (c : System), (∀ p ∈ ps, p.1 < p.2 ∧ p.2 < s.atoms.length) →
      c = System.ofMem { s.startSearch f with neighbordistance := r, voronoiused := false } (pairLoop (Atom.pushNbCut r)
        (cutoffHit { s.startSearch f with neighbordistance := r, voronoiused := false }) ps s.resetAllNeighbors.mem) →
      s1.atoms = c.atoms → s1.atoms.length = s.atoms.length ∧ ∃ ps : List (ℕ × ℕ), (∀ p ∈ ps, p.1 < p.2 ∧ p.2 < s.atoms.length) ∧
      ∀ (i : ℕ) (a : Atom), s1.atoms[i]? = some a → a.nbrs = ps.flatMap (contrib (cutoffHit { s with filter := f, neighbordistance := r }) i) := by
    intro ps c hps hc hs
    have hlen : s1.atoms.length = s.atoms.length := by
      rw [hs, hc, ofMem_length]
      exact resetAll_length s
    refine ⟨hlen, ps, hps, fun i a ha => ?_⟩
    have hi : i < s.atoms.length := hlen ▸ (List.getElem?_eq_some_iff.1 ha).1
    rw [hs] at ha
    have hm := (mem_of_getElem? ha).2
    rw [hc, ofMem_mem _ _ _ (by exact (resetAll_length s).symm ▸ hi), pairLoop_apply _ _ _ (fun p hp => (hps p hp).1.ne), foldl_pushNbCut, resetAll_mem s i hi, hfun] at hm
    rw [← hm]
    simp
  by_cases hle : s.realNop ≤ s.atoms.length
  swap
  · rw [findNeighbors_cutoff_oob σ s f r hr hle] at h; cases h
  by_cases hn : s.realNop ≤ 2300
  · rw [findNeighbors_cutoff σ s f r hr hn hle] at h
    rcases hcc : (System.neighborsNormal { s.startSearch f with neighbordistance := r }).checkCapacity with e | c2
    · rw [hcc] at h; cases h
    rw [hcc] at h
    obtain ⟨rfl, -⟩ := checkCapacity_ok hcc
    obtain rfl := Except.ok.inj h
    exact key (pairs s.resetAllNeighbors.atoms.length) _ (fun p hp => by have := mem_pairs.1 hp; rwa [resetAll_length] at this) rfl rfl
  · rw [findNeighbors_cutoff_large σ s f r hr (not_le.1 hn) hle] at h
    unfold System.neighborsCells at h
    rcases hp : System.cellPairs { s.startSearch f with neighbordistance := r, voronoiused := false } with e | ps
    · simp only [hp, bind, Except.bind] at h; cases h
    simp only [hp, bind, Except.bind, pure, Except.pure] at h
    split at h
    · cases h
    rename_i c2 hcc
    obtain ⟨rfl, -⟩ := checkCapacity_ok hcc
    obtain rfl := Except.ok.inj h
    refine key ps _ (fun p hpm => ?_) rfl rfl
    have := cellPairs_bound hp p hpm
    rwa [show (System.atoms { s.startSearch f with neighbordistance := r, voronoiused := false }).length = s.atoms.length from resetAll_length s] at this

open Classical in
theorem count_flatMap' {α β : Type} (ps : List α) (f g : α → List β) (x y : β) (h : ∀ p ∈ ps, (f p).count x = (g p).count y) :
    (ps.flatMap f).count x = (ps.flatMap g).count y := by
  induction ps with
  | nil => rfl
  | cons p ps ih =>
    rw [List.flatMap_cons, List.flatMap_cons, List.count_append, List.count_append, h p List.mem_cons_self, ih fun q hq => h q (List.mem_cons_of_mem _ hq)]

theorem v3_neg_neg (v : V3) : - -v = v := by ext <;> simp

open Classical in
/-- **C10 for every system**: after any successful search with a numeric cutoff, with cell lists or without, whatever the box, atom `j` occurs in the
list of atom `i` exactly as often as `i` in the list of `j`, at the same distances and with opposite vectors. -/
theorem C10_any (σ : StdSort) (s s' : System) (f : ℕ) (r : ℝ) (hr : r ≠ 0) (h : s.findNeighbors σ f (.cutoff r) = .ok s')
    (i j : ℕ) (a b : Atom) (hi : s'.atoms[i]? = some a) (hj : s'.atoms[j]? = some b) (d w : ℝ) (v : V3) :
    a.nbrs.count ⟨j, d, w, v⟩ = b.nbrs.count ⟨i, d, w, -v⟩ := by
  obtain ⟨-, ps, hps, hnb⟩ := cutoff_pairs hr h
  rw [hnb i a hi, hnb j b hj]
  refine count_flatMap' ps _ _ _ _ fun p hp => ?_
  have hne := (hps p hp).1.ne
  unfold contrib
  rcases hh : cutoffHit { s with filter := f, neighbordistance := r } p.1 p.2 with _ | ⟨x, y⟩
  · rfl
  have hxy : ∃ d' v', x = ⟨p.2, d', 1, v'⟩ ∧ y = ⟨p.1, d', 1, -v'⟩ := by
    unfold cutoffHit at hh
    simp only at hh
    split at hh
    · split at hh
      · simp only [Option.some.injEq, Prod.mk.injEq] at hh
        exact ⟨_, _, hh.1.symm, hh.2.symm⟩
      · cases hh
    · cases hh
  obtain ⟨d', v', rfl, rfl⟩ := hxy
  have hc : ∀ (P Q : Prop) [Decidable P] [Decidable Q], ((P → Q) ∧ (Q → P)) → (if P then 1 else 0 : ℕ) = if Q then 1 else 0 := fun P Q _ _ hPQ => by
    by_cases hP : P
    · rw [if_pos hP, if_pos (hPQ.1 hP)]
    · rw [if_neg hP, if_neg fun hQ => hP (hPQ.2 hQ)]
  have hz : ∀ (P : Prop) [Decidable P], ¬ P → (if P then 1 else 0 : ℕ) = 0 := fun P _ hP => if_neg hP
  simp only
  by_cases c1 : i = p.1
  · rw [if_pos c1]
    by_cases c2 : j = p.1
    · rw [if_pos c2]
      simp only [List.count_singleton, beq_iff_eq, Nb.mk.injEq]
      rw [hz _ fun e => hne (c2.symm.trans e.1.symm), hz _ fun e => hne (c1.symm.trans e.1.symm)]
    rw [if_neg c2]
    by_cases c3 : j = p.2
    · rw [if_pos c3]
      simp only [List.count_singleton, beq_iff_eq, Nb.mk.injEq]
      exact hc _ _ ⟨fun e => ⟨c1.symm, e.2.1, e.2.2.1, by rw [e.2.2.2]⟩, fun e => ⟨c3.symm, e.2.1, e.2.2.1, by rw [← v3_neg_neg v', e.2.2.2, v3_neg_neg]⟩⟩
    · rw [if_neg c3]
      simp only [List.count_singleton, beq_iff_eq, Nb.mk.injEq, List.count_nil]
      exact hz _ fun e => c3 e.1.symm
  rw [if_neg c1]
  by_cases c2 : i = p.2
  · rw [if_pos c2]
    by_cases c3 : j = p.1
    · rw [if_pos c3]
      simp only [List.count_singleton, beq_iff_eq, Nb.mk.injEq]
      exact hc _ _ ⟨fun e => ⟨c2.symm, e.2.1, e.2.2.1, by rw [← e.2.2.2, v3_neg_neg]⟩, fun e => ⟨c3.symm, e.2.1, e.2.2.1, by rw [e.2.2.2, v3_neg_neg]⟩⟩
    rw [if_neg c3]
    by_cases c4 : j = p.2
    · rw [if_pos c4]
      simp only [List.count_singleton, beq_iff_eq, Nb.mk.injEq]
      rw [hz _ fun e => c3 e.1.symm, hz _ fun e => c1 e.1.symm]
    · rw [if_neg c4]
      simp only [List.count_singleton, beq_iff_eq, Nb.mk.injEq, List.count_nil]
      exact hz _ fun e => c3 e.1.symm
  rw [if_neg c2, List.count_nil]
  by_cases c3 : j = p.1
  · rw [if_pos c3]
    simp only [List.count_singleton, beq_iff_eq, Nb.mk.injEq]
    exact (hz _ fun e => c2 e.1.symm).symm
  rw [if_neg c3]
  by_cases c4 : j = p.2
  · rw [if_pos c4]
    simp only [List.count_singleton, beq_iff_eq, Nb.mk.injEq]
    exact (hz _ fun e => c1 e.1.symm).symm
  · rw [if_neg c4, List.count_nil]

/-- **C10 for every system**: the total number of list entries is even. -/
theorem C10_even_any (σ : StdSort) (s s' : System) (f : ℕ) (r : ℝ) (hr : r ≠ 0) (h : s.findNeighbors σ f (.cutoff r) = .ok s') :
    Even (s'.atoms.map fun a => a.nbrs.length).sum := by
  obtain ⟨hlen, ps, hps, hnb⟩ := cutoff_pairs hr h
  have e : (s'.atoms.map fun a => a.nbrs.length) = (List.range s.atoms.length).map fun k =>
      (ps.flatMap (contrib (cutoffHit { s with filter := f, neighbordistance := r }) k)).length := by
    refine List.ext_getElem (by simp [hlen]) fun k h1 h2 => ?_
    simp only [List.length_map] at h1
    simp only [List.getElem_map, List.getElem_range]
    rw [hnb k _ (List.getElem?_eq_getElem h1)]
  rw [e, sum_map_range]
  clear e hnb
  induction ps with
  | nil => simp
  | cons p ps ih =>
    simp only [List.flatMap_cons, List.length_append, Finset.sum_add_distrib]
    refine Even.add ?_ (ih fun q hq => hps q (List.mem_cons_of_mem _ hq))
    obtain ⟨h1, h2⟩ := hps p List.mem_cons_self
    unfold contrib
    rcases cutoffHit { s with filter := f, neighbordistance := r } p.1 p.2 with _ | ⟨x, y⟩
    · simp
    have : ∀ k, (if k = p.1 then [x] else if k = p.2 then [y] else []).length = (if k = p.1 then 1 else 0) + if k = p.2 then 1 else 0 := by
      intro k
      split_ifs with c1 c2 c2
      · omega
      all_goals rfl
    simp only [this, Finset.sum_add_distrib, Finset.sum_ite_eq', Finset.mem_range, if_pos h2, if_pos (h1.trans h2)]
    decide

/-- **C09, soundness for every system**: whatever the size and the box, every entry of a list is another atom of the system that is closer than the
cutoff and passes the filter, with its distance, its vector and weight 1. -/
theorem C09_sound (σ : StdSort) (s s' : System) (f : ℕ) (r : ℝ) (hr : r ≠ 0) (h : s.findNeighbors σ f (.cutoff r) = .ok s')
    (i : ℕ) (a : Atom) (hi : s'.atoms[i]? = some a) (x : Nb) (hx : x ∈ a.nbrs) :
    ∃ u w, s.atoms[i]? = some u ∧ s.atoms[x.idx]? = some w ∧ x.idx ≠ i ∧ x.vec = s.image (w.pos - u.pos) ∧ x.dist = V3.norm x.vec ∧
      x.dist < r ∧ x.weight = 1 ∧ (f = 1 → w.type = u.type) ∧ (f = 2 → w.type ≠ u.type) := by
  obtain ⟨hlen, ps, hps, hnb⟩ := cutoff_pairs hr h
  rw [hnb i a hi, List.mem_flatMap] at hx
  obtain ⟨p, hp, hx⟩ := hx
  obtain ⟨h1, h2⟩ := hps p hp
  rcases hh : cutoffHit { s with filter := f, neighbordistance := r } p.1 p.2 with _ | ⟨y, z⟩
  · simp only [contrib, hh, List.not_mem_nil] at hx
  simp only [contrib, hh] at hx
  unfold cutoffHit at hh
  simp only at hh
  split_ifs at hh with hd hf
  · simp only [Option.some.injEq, Prod.mk.injEq] at hh
    obtain ⟨rfl, rfl⟩ := hh
    have hd : s.distOf p.1 p.2 < r := hd
    have hf : filterOK f (s.typeOf p.1) (s.typeOf p.2) = true := hf
    have hg : ∀ k, k < s.atoms.length → ∃ u, s.atoms[k]? = some u ∧ s.posOf k = u.pos ∧ s.typeOf k = u.type := fun k hk =>
      ⟨_, List.getElem?_eq_getElem hk, congrArg Atom.pos (mem_eq_getElem s k hk), congrArg Atom.type (mem_eq_getElem s k hk)⟩
    obtain ⟨u, hu, pu, tu⟩ := hg p.1 (h1.trans h2)
    obtain ⟨w, hw, pw, tw⟩ := hg p.2 h2
    have hfil : (f = 1 → w.type = u.type) ∧ (f = 2 → w.type ≠ u.type) := by
      rw [tu, tw] at hf
      unfold filterOK at hf
      constructor
      · rintro rfl
        by_contra hne
        have : u.type ≠ w.type := fun e => hne e.symm
        simp [this] at hf
      · rintro rfl he
        simp [he] at hf
    have hv : s.diffOf p.1 p.2 = s.image (w.pos - u.pos) := by rw [← pu, ← pw]; rfl
    have hv' : -s.diffOf p.1 p.2 = s.image (u.pos - w.pos) := by rw [← pu, ← pw, ← diffOf_swap]; rfl
    split_ifs at hx with c1 c2
    · rw [List.mem_singleton] at hx
      subst hx
      subst c1
      exact ⟨u, w, hu, hw, h1.ne', hv, rfl, hd, rfl, hfil⟩
    · rw [List.mem_singleton] at hx
      subst hx
      subst c2
      refine ⟨w, u, hw, hu, h1.ne, hv', ?_, hd, rfl, fun e => (hfil.1 e).symm, fun e => (hfil.2 e).symm⟩
      exact (V3.norm_neg _).symm
    · cases hx

/-- **C84 for every system**. -/
theorem C84_any (σ : StdSort) (s s' : System) (f : ℕ) (r : ℝ) (hr : r ≠ 0)
    (h : s.findNeighbors σ f (.cutoff r) = .ok s') : ∃ out, s'.storeNeighborInfo = .ok out ∧ out.length = s'.atoms.length ∧
    ∀ (k : ℕ) (a : Atom) (e : List (List ℕ × List ℝ)), s'.atoms[k]? = some a → out[k]? = some e → e.length = a.nbrs.length ∧
      ∀ (i : ℕ) (x : Nb) (y : List ℕ × List ℝ), a.nbrs[i]? = some x → e[i]? = some y → ∃ b, s'.atoms[x.idx]? = some b ∧
        y.1 = b.nbrs.map Nb.idx ∧ y.2 = b.nbrs.map Nb.dist ∧ (k, x.dist) ∈ y.1.zip y.2 := by
  classical
  have hmut := C10_any σ s s' f r hr h
  have hlen : s'.atoms.length = s.atoms.length := (cutoff_pairs hr h).1
  have hr' : s'.NbrsInRange := by
    intro a ha x hx
    obtain ⟨k, hk⟩ := List.getElem?_of_mem ha
    obtain ⟨u, w, -, hw, -⟩ := C09_sound σ s s' f r hr h k a hk x hx
    rw [hlen]
    exact (List.getElem?_eq_some_iff.1 hw).1
  refine ⟨_, if_pos hr', by simp, fun k a e hk he => ?_⟩
  rw [List.getElem?_map, hk, Option.map_some, Option.some.injEq] at he
  subst he
  refine ⟨by simp, fun i x y hx hy => ?_⟩
  rw [List.getElem?_map, hx, Option.map_some, Option.some.injEq] at hy
  subst hy
  have hlt := hr' a (List.mem_of_getElem? hk) x (List.mem_of_getElem? hx)
  have hb := List.getElem?_eq_getElem hlt
  have hm : s'.mem x.idx = s'.atoms[x.idx] := by simp [System.mem, List.getD_eq_getElem?_getD, hlt]
  refine ⟨_, hb, by rw [hm], by rw [hm], ?_⟩
  dsimp only
  rw [hm, List.zip_map']
  have hc := hmut k x.idx a _ hk hb x.dist x.weight x.vec
  have h0 : 0 < a.nbrs.count ⟨x.idx, x.dist, x.weight, x.vec⟩ := List.count_pos_iff.2 (List.mem_of_getElem? hx)
  rw [hc] at h0
  exact List.mem_map.2 ⟨_, List.count_pos_iff.1 h0, rfl⟩

/-! ### Larger cutoffs -/

open Classical in
/-- **C91, cutoff, for any number of atoms**: if the search with `r'` succeeds so does the search with a smaller `r`, and it gives every
atom those of its neighbours that are closer than `r`, up to their order. -/
theorem C91_large (σ σ' : StdSort) (s s' : System) (f : ℕ) (r r' : ℝ) (hr : r ≠ 0) (hr' : r' ≠ 0) (h : r ≤ r') (hn : Spec.PairsExact s r)
    (hn' : Spec.PairsExact s r') (h1 : s.findNeighbors σ f (.cutoff r') = .ok s') :
    ∃ s'', s.findNeighbors σ' f (.cutoff r) = .ok s'' ∧ s''.atoms.length = s'.atoms.length ∧
      ∀ (k : ℕ) (a b : Atom), s'.atoms[k]? = some a → s''.atoms[k]? = some b → b.nbrs.Perm (a.nbrs.filter fun x => decide (x.dist < r)) := by
  by_cases hs : s.natoms ≤ 2300
  · obtain ⟨s'', e1, e2, e3⟩ := C91_cutoff σ σ' s s' f r r' hr hr' h hs h1
    exact ⟨s'', e1, e2, fun k a b ha hb => by rw [e3 k a b ha hb]⟩
  have hc := hn.resolve_left hs
  have hc' := hn'.resolve_left hs
  have hs : 2300 < s.realNop := not_le.1 hs
  have hle : s.realNop ≤ s.atoms.length := by
    by_contra hle
    rw [findNeighbors_cutoff_oob σ s f r' hr' hle] at h1
    cases h1
  have hcap := (C11_succeeds σ s f r' hs hle hc').1 ⟨s', h1⟩
  obtain ⟨s'', h2⟩ := (C11_succeeds σ' s f r hs hle hc).2 fun k hk => by
    have e := hcap k hk
    rw [← cutoffList_length (List.getElem?_eq_getElem hk) (cutoffNbs_spec (List.getElem?_eq_getElem hk))] at e ⊢
    rw [cutoffNbs_filter s h]
    exact (List.length_filter_le _ _).trans e
  obtain ⟨-, l1, e1⟩ := cutoff_any hr' hn' h1
  obtain ⟨-, l2, e2⟩ := cutoff_any hr hn h2
  refine ⟨s'', h2, by omega, fun k a b ha hb => ?_⟩
  refine (e2 k b hb).2.1.trans ?_
  rw [cutoffNbs_filter s h]
  exact ((e1 k a ha).2.1.filter _).symm

/-! ### The hypotheses are met -/

theorem CellConditions.mono {s : System} {r r' : ℝ} (h0 : 1e-6 ≤ r) (h : r ≤ r') (hc : Spec.CellConditions s r') : Spec.CellConditions s r := by
  obtain ⟨L1, L2, L3, hb, ht, -, h1, h2, h3, hin⟩ := hc
  exact ⟨L1, L2, L3, hb, ht, h0, by linarith, by linarith, by linarith, hin⟩

theorem bigLen (N : ℕ) : (bigSys N).atoms.length = N := by simp [bigSys]

/-- `C10_any`, `C10_even_any`, `C09_sound`, `C84_any` and `C91_large`: (M + 1) atoms, two of which are neighbours. -/
example (σ : StdSort) (M : ℕ) (h0 : 2300 ≤ M) (hM : M + 1 ≤ 5000) : 2300 < (bigSys (M + 1)).natoms ∧ Spec.PairsExact (bigSys (M + 1)) 2 ∧ Spec.PairsExact (bigSys (M + 1)) 3 ∧
    ∃ s', (bigSys (M + 1)).findNeighbors σ 0 (.cutoff 3) = .ok s' := by
  have hc := (bigSys_three (M + 1) hM).1
  refine ⟨Nat.lt_succ_of_le h0, .inr (CellConditions.mono (by norm_num) (by norm_num) hc), .inr hc, ?_⟩
  exact (C11_succeeds σ (bigSys (M + 1)) 0 3 (Nat.lt_succ_of_le h0) (by rw [bigLen]; exact le_rfl) hc).2 (bigSys_three (M + 1) hM).2

/-- The last atom of `bigSys (M + 1)` with another type. -/
noncomputable def lastAtom (M : ℕ) : Atom := { pos := ⟨0, 10 * ((M : ℝ) - 1), 0⟩, type := 2 }

noncomputable def bigSysTyped (M : ℕ) : System := { bigSys (M + 1) with atoms := (bigSys (M + 1)).atoms.set M (lastAtom M) }

theorem bigTypedLen (M : ℕ) : (bigSysTyped M).atoms.length = M + 1 := by simp [bigSysTyped, bigLen]

theorem bigSys_get {M : ℕ} (i : ℕ) (hi : i < (M + 1)) :
    (bigSys (M + 1)).atoms[i]? = some (if i = 0 then { pos := ⟨9, 0, 0⟩ } else { pos := ⟨0, 10 * ((i : ℝ) - 1), 0⟩ }) := by
  simp [bigSys, List.getElem?_range hi]

theorem bigSysTyped_get {M : ℕ} (hM : M ≠ 0) (i : ℕ) (c : Atom) (h : (bigSysTyped M).atoms[i]? = some c) : ∃ a, (bigSys (M + 1)).atoms[i]? = some a ∧ c.pos = a.pos ∧ (i ≠ M → c = a) := by
  by_cases hi : i = M
  · subst hi
    have hlt : i < (bigSys (i + 1)).atoms.length := by rw [bigLen]; omega
    have h' : ((bigSys (i + 1)).atoms.set i (lastAtom i))[i]? = some c := h
    rw [List.getElem?_set_self hlt] at h'
    obtain rfl := Option.some.inj h'
    exact ⟨_, bigSys_get _ (by omega), by rw [if_neg hM]; rfl, fun e => absurd rfl e⟩
  · have h' : ((bigSys (M + 1)).atoms.set M (lastAtom M))[i]? = some c := h
    rw [List.getElem?_set_ne (Ne.symm hi)] at h'
    exact ⟨c, h', rfl, fun _ => rfl⟩

theorem bigSysTyped_metric (M : ℕ) : Spec.SameMetric (bigSys (M + 1)) (bigSysTyped M) := fun _ _ => ⟨rfl, rfl⟩

theorem bigSysTyped_cells {M : ℕ} (hM0 : M ≠ 0) (hM : M + 1 ≤ 5000) : Spec.CellConditions (bigSysTyped M) 3 := by
  obtain ⟨L1, L2, L3, hb, ht, h0, h1, h2, h3, hin⟩ := (bigSys_three (M + 1) hM).1
  refine ⟨L1, L2, L3, hb, ht, h0, h1, h2, h3, fun c hc => ?_⟩
  obtain ⟨i, hi⟩ := List.mem_iff_getElem?.1 hc
  obtain ⟨a, ha, e, -⟩ := bigSysTyped_get hM0 i c hi
  rw [e]
  exact hin a (List.mem_of_getElem? ha)

theorem bigSysTyped_ok (σ : StdSort) {M : ℕ} (h0 : 2300 ≤ M) (hM : M + 1 ≤ 5000) : ∃ s', (bigSysTyped M).findNeighbors σ 0 (.cutoff 3) = .ok s' := by
  refine (C11_succeeds σ (bigSysTyped M) 0 3 (Nat.lt_succ_of_le h0) (by rw [bigTypedLen]; exact le_rfl) (bigSysTyped_cells (by omega) hM)).2 fun k hk => ?_
  have hk' : k < (bigSys (M + 1)).atoms.length := by rw [bigTypedLen] at hk; rwa [bigLen]
  have hsub : Spec.nearSet (bigSysTyped M) 3 0 k ⊆ Spec.nearSet (bigSys (M + 1)) 3 0 k := by
    rintro j ⟨host, nb, hh, hj, hne, hd, -⟩
    obtain ⟨a, ha, ea, -⟩ := bigSysTyped_get (by omega) k host hh
    obtain ⟨b, hb, eb, -⟩ := bigSysTyped_get (by omega) j nb hj
    refine ⟨a, b, ha, hb, hne, ?_, by simp, by simp⟩
    have : (bigSysTyped M).getDistance nb host = (bigSys (M + 1)).getDistance b a := by
      show (bigSys (M + 1)).getDistance nb host = _
      exact (getDistance_pos (bigSys (M + 1)) eb ea).1
    rw [← this]
    exact hd
  refine (Set.ncard_le_ncard hsub ?_).trans ((bigSys_three (M + 1) hM).2 k hk')
  refine (Set.finite_lt_nat (M + 1)).subset ?_
  rintro j ⟨host, nb, hh, hj, -⟩
  have := (List.getElem?_eq_some_iff.1 hj).1
  rw [bigLen] at this
  exact this

theorem bigSysTyped_agree {M : ℕ} (h0 : 2300 ≤ M) (hM : M + 1 ≤ 5000) (i : ℕ) (hi : i ≤ 1) : Spec.AgreeNear (bigSys (M + 1)) (bigSysTyped M) 3 i := by
  have gi := bigSys_get (M := M) i (by omega)
  have gy : (bigSysTyped M).atoms[i]? = (bigSys (M + 1)).atoms[i]? := by
    show ((bigSys (M + 1)).atoms.set M (lastAtom M))[i]? = _
    exact List.getElem?_set_ne (by omega)
  refine ⟨_, _, gi, gy.trans gi, rfl, rfl, fun j a b ha hb => ?_⟩
  obtain ⟨a', ha', e1, e2⟩ := bigSysTyped_get (by omega) j b hb
  rw [ha] at ha'
  obtain rfl := Option.some.inj ha'
  by_cases hj : j = M
  swap
  · rw [e2 hj]
    exact .inl ⟨rfl, rfl⟩
  rw [hj, bigSys_get _ (by omega)] at ha
  obtain rfl := Option.some.inj ha
  have hbx : System.boxx (bigSys (M + 1)) = 10 ∧ System.boxy (bigSys (M + 1)) = 100000 ∧ System.boxz (bigSys (M + 1)) = 10 := by
    simp only [System.boxx, System.boxy, System.boxz, bigSys, Spec.diagBox]
    rw [norm_axis_x _ (by norm_num), norm_axis_y _ (by norm_num), norm_axis_z _ (by norm_num)]
    exact ⟨rfl, rfl, rfl⟩
  have m1 : (2300 : ℝ) ≤ M := by exact_mod_cast h0
  have m2 : (M : ℝ) + 1 ≤ 5000 := by exact_mod_cast hM
  have key : ∀ u v : Atom, u.pos.y = (10 * ((M : ℝ) - 1)) → v.pos.y = 0 → 3 ≤ (bigSys (M + 1)).getDistance u v := by
    intro u v hu hv
    have e : |((bigSys (M + 1)).getDistanceVector u v).y| = (10 * ((M : ℝ) - 1)) := by
      simp only [System.getDistanceVector, System.image, show (bigSys (M + 1)).triclinic = false from rfl, hbx.1, hbx.2.1, hbx.2.2]
      simp only [Bool.false_eq_true, if_false, V3.sub_y, hu, hv, sub_zero]
      have hw : ∀ d : ℝ, -50000 ≤ d → d ≤ 50000 → wrap 100000 d = d := by
        intro d h1 h2
        simp only [wrap]
        rw [if_neg (show ¬ d > 100000 / 2 by linarith), if_neg (by linarith)]
      rw [hw _ (by linarith) (by linarith), abs_of_nonneg (by linarith)]
    have h : V3.norm ⟨0, (10 * ((M : ℝ) - 1)), 0⟩ ≤ V3.norm ((bigSys (M + 1)).getDistanceVector u v) :=
      norm_le_norm (by simp) (by rw [e, abs_of_nonneg (by linarith)]) (by simp)
    rw [norm_axis_y _ (by linarith)] at h
    have h2 : (bigSys (M + 1)).getDistance u v = V3.norm ((bigSys (M + 1)).getDistanceVector u v) := rfl
    linarith
  have hy : (if i = 0 then ({ pos := ⟨9, 0, 0⟩ } : Atom) else { pos := ⟨0, 10 * ((i : ℝ) - 1), 0⟩ }).pos.y = 0 := by
    rcases (by omega : i = 0 ∨ i = 1) with rfl | rfl <;> simp
  refine .inr ⟨key _ _ ?_ hy, key _ _ ?_ hy⟩
  · rw [if_neg (by omega)]
  · rw [e1, if_neg (by omega)]

/-- `C90_large_q` and `C90_large_solids`: the two systems differ in the type of the last atom; atom 0 has a neighbour, and neither sees the last atom. -/
example (σ : StdSort) (M : ℕ) (h0 : 2300 ≤ M) (hM : M + 1 ≤ 5000) : ∃ s1 g1 : System, (bigSys (M + 1)).findNeighbors σ 0 (.cutoff 3) = .ok s1 ∧ (bigSysTyped M).findNeighbors σ 0 (.cutoff 3) = .ok g1 ∧
    Spec.PairsExact (bigSys (M + 1)) 3 ∧ Spec.PairsExact (bigSysTyped M) 3 ∧ (bigSysTyped M).atoms.length = (bigSys (M + 1)).atoms.length ∧
    Spec.SameMetric (bigSys (M + 1)) (bigSysTyped M) ∧ Spec.AgreeNear (bigSys (M + 1)) (bigSysTyped M) 3 0 ∧ Spec.AgreeNear (bigSys (M + 1)) (bigSysTyped M) 3 1 := by
  obtain ⟨s1, h1⟩ := (C11_succeeds σ (bigSys (M + 1)) 0 3 (Nat.lt_succ_of_le h0) (by rw [bigLen]; exact le_rfl) (bigSys_three (M + 1) hM).1).2 (bigSys_three (M + 1) hM).2
  obtain ⟨g1, h2⟩ := bigSysTyped_ok σ h0 hM
  exact ⟨s1, g1, h1, h2, .inr (bigSys_three (M + 1) hM).1, .inr (bigSysTyped_cells (by omega) hM), List.length_set, bigSysTyped_metric M,
    bigSysTyped_agree h0 hM 0 (by norm_num), bigSysTyped_agree h0 hM 1 le_rfl⟩

end Pyscal
