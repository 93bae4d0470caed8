import Verif.Lemmas.CutoffAny
import Verif.Props.Locality

/-! What a search with a numeric cutoff leaves, with or without cell lists. -/

namespace Pyscal

/-- The state right after a search without weights: no Voronoi data, all neighbours take part in averages. -/
structure Plain (s : System) : Prop where
  vor : s.voronoiused = false
  cond : ∀ a ∈ s.atoms, a.condition = some 0
  range : s.NbrsInRange

theorem cutoff_plain {σ : StdSort} {s s1 : System} {f : ℕ} {r : ℝ} (hr : r ≠ 0) (hp : Spec.PairsExact s r) (h : s.findNeighbors σ f (.cutoff r) = .ok s1) : Plain s1 := by
  obtain ⟨e, hl, ha⟩ := cutoff_any hr hp h
  refine ⟨by rw [e], fun a hm => ?_, fun a hm x hx => ?_⟩
  · obtain ⟨i, hi⟩ := List.mem_iff_getElem?.1 hm
    have := congrArg Atom.condition (ha i a hi).2.2
    exact this
  · obtain ⟨i, hi⟩ := List.mem_iff_getElem?.1 hm
    have hx' := (ha i a hi).2.1.mem_iff.1 hx
    unfold cutoffNbs at hx'
    obtain ⟨j, hj, rfl⟩ := List.mem_map.1 hx'
    rw [hl]
    exact List.mem_range.1 (List.mem_filter.1 hj).1

theorem Plain.qNbrs {s : System} (h : Plain s) {a : Atom} (ha : a ∈ s.atoms) : s.qNbrs a = a.nbrs := by
  unfold System.qNbrs
  refine List.filter_eq_self.2 fun x hx => ?_
  have hlt := h.range a ha x hx
  rw [h.cond a ha, mem_eq_getElem s x.idx hlt, h.cond _ (List.getElem_mem hlt)]
  simp

/-! ### Order independence -/

theorem perm_of_key {α β γ δ : Type} {L : List α} {L' : List β} {f : α → γ} {f' : β → γ} (G : α → δ) (G' : β → δ) (hp : (L'.map f').Perm (L.map f))
    (h : ∀ x ∈ L, ∀ y ∈ L', f' y = f x → G' y = G x) : (L'.map G').Perm (L.map G) := by
  classical
  rcases L with _ | ⟨x0, L0⟩
  · have : L' = [] := by simpa using hp
    subst this; simp
  set L := x0 :: L0
  let H : γ → δ := fun k => if e : ∃ x ∈ L, f x = k then G e.choose else G x0
  have h1 : ∀ y ∈ L', G' y = H (f' y) := by
    intro y hy
    have : f' y ∈ L.map f := hp.subset (List.mem_map_of_mem hy)
    obtain ⟨x, hx, e⟩ := List.mem_map.1 this
    have e' : ∃ x ∈ L, f x = f' y := ⟨x, hx, e⟩
    simp only [H, dif_pos e']
    exact h _ e'.choose_spec.1 y hy e'.choose_spec.2.symm
  have h2 : ∀ x ∈ L, G x = H (f x) := by
    intro x hx
    have : f x ∈ L'.map f' := hp.symm.subset (List.mem_map_of_mem hx)
    obtain ⟨y, hy, e⟩ := List.mem_map.1 this
    rw [← h x hx y hy e, h1 y hy, e]
  have e1 : L'.map G' = (L'.map f').map H := by rw [List.map_map]; exact List.map_congr_left h1
  have e2 : L.map G = (L.map f).map H := by rw [List.map_map]; exact List.map_congr_left h2
  rw [e1, e2]
  exact hp.map H

theorem calcQlm_perm {s g : System} {a b : Atom} (l : ℕ) (hv : g.voronoiused = s.voronoiused) (h : (wv (g.qNbrs b)).Perm (wv (s.qNbrs a))) :
    g.calcQlm l b = s.calcQlm l a := by
  have h0 : (∃ x ∈ g.qNbrs b, x.vec = 0) ↔ ∃ x ∈ s.qNbrs a, x.vec = 0 := by
    have e : ∀ L : List Nb, (∃ x ∈ L, x.vec = 0) ↔ ∃ p ∈ wv L, p.2 = 0 := by intro L; simp [wv]
    rw [e, e]
    simp only [h.mem_iff]
  have hw : qWeight (g.qNbrs b) = qWeight (s.qNbrs a) := by
    have e : ∀ L : List Nb, qWeight L = ((wv L).map Prod.fst).sum := by
      intro L
      rw [qWeight_eq]
      simp only [wv, List.map_map]
      rfl
    rw [e, e]
    exact (h.map _).sum_eq
  have hq : ∀ m : ℤ, qSum l m (g.qNbrs b) = qSum l m (s.qNbrs a) := by
    intro m
    have e : ∀ L : List Nb, qSum l m L = (((wv L).map fun p => p.1 * (QLM l m p.2.theta p.2.phi).1).sum, ((wv L).map fun p => p.1 * (QLM l m p.2.theta p.2.phi).2).sum) := by
      intro L
      rw [qSum_eq]
      simp only [wv, List.map_map]
      rfl
    rw [e, e]
    exact Prod.ext (h.map _).sum_eq (h.map _).sum_eq
  unfold System.calcQlm
  dsimp only
  rw [hv, hw]
  simp only [hq]
  by_cases h1 : ∃ x ∈ s.qNbrs a, x.vec = 0
  · rw [if_pos h1, if_pos (h0.2 h1)]
  · rw [if_neg h1, if_neg fun h => h1 (h0.1 h)]

theorem vecSum_perm {V W : List (ℕ → ℝ × ℝ)} (h : V.Perm W) : vecSum V = vecSum W := by
  funext k
  exact Prod.ext (h.map _).sum_eq (h.map _).sum_eq

theorem calcAqlm_perm {s g : System} {a b : Atom} (l : ℕ) (ho : b.qlm l = a.qlm l)
    (h : ((g.qNbrs b).map fun x => (g.mem x.idx).qlm l).Perm ((s.qNbrs a).map fun x => (s.mem x.idx).qlm l)) : g.calcAqlm l b = s.calcAqlm l a := by
  unfold System.calcAqlm
  rw [ho]
  rcases a.qlm l with _ | own
  · rfl
  have hg := mapM_option (fun x : Nb => (g.mem x.idx).qlm l) own (g.qNbrs b)
  have hs := mapM_option (fun x : Nb => (s.mem x.idx).qlm l) own (s.qNbrs a)
  have e : ∀ (t : System) (L : List Nb), (∃ x ∈ L, (t.mem x.idx).qlm l = none) ↔ none ∈ L.map fun x => (t.mem x.idx).qlm l := by
    intro t L; simp
  by_cases hn : ∃ x ∈ s.qNbrs a, (s.mem x.idx).qlm l = none
  · have hn' : ∃ x ∈ g.qNbrs b, (g.mem x.idx).qlm l = none := by rw [e, h.mem_iff, ← e]; exact hn
    rw [hg.2 hn', hs.2 hn]
  · have hn' : ¬ ∃ x ∈ g.qNbrs b, (g.mem x.idx).qlm l = none := by rw [e, h.mem_iff, ← e]; exact hn
    rw [hg.1 fun x hx => Option.isSome_iff_ne_none.2 fun h => hn' ⟨x, hx, h⟩, hs.1 fun x hx => Option.isSome_iff_ne_none.2 fun h => hn ⟨x, hx, h⟩]
    have hp : ((g.qNbrs b).map fun x => ((g.mem x.idx).qlm l).getD own).Perm ((s.qNbrs a).map fun x => ((s.mem x.idx).qlm l).getD own) := by
      have := h.map fun o => o.getD own
      rwa [List.map_map, List.map_map] at this
    refine congrArg some ?_
    funext k
    dsimp only
    rw [aqSum_eq, aqSum_eq, vecSum_perm (hp.cons own), hp.length_eq]


/-! ### Atoms whose neighbours look alike -/

/-- The same weights and vectors, in some order. -/
def Alike0 (a c : Atom) : Prop := (wv c.nbrs).Perm (wv a.nbrs)

/-- The same weights and vectors, and corresponding neighbours have alike neighbours themselves. -/
def Alike1 (s g : System) (a c : Atom) : Prop :=
  ∃ (κ : Type) (f f' : Nb → κ), (c.nbrs.map f').Perm (a.nbrs.map f) ∧ ∀ x ∈ a.nbrs, ∀ y ∈ c.nbrs, f' y = f x →
    (y.weight, y.vec) = (x.weight, x.vec) ∧ ∃ u w, s.atoms[x.idx]? = some u ∧ g.atoms[y.idx]? = some w ∧ Alike0 u w

theorem Alike1.zero {s g : System} {a c : Atom} (h : Alike1 s g a c) : Alike0 a c := by
  obtain ⟨κ, f, f', hp, hk⟩ := h
  exact perm_of_key _ _ hp fun x hx y hy e => (hk x hx y hy e).1

section
variable {s1 g1 : System}

theorem alike_qlm (ps : Plain s1) (pg : Plain g1) {a c : Atom} (ha : a ∈ s1.atoms) (hc : c ∈ g1.atoms) (h : Alike0 a c) (l : ℕ) :
    g1.calcQlm l c = s1.calcQlm l a := by
  refine calcQlm_perm l (by rw [ps.vor, pg.vor]) ?_
  rw [ps.qNbrs ha, pg.qNbrs hc]
  exact h

theorem alike_q (ps : Plain s1) (pg : Plain g1) {i k : ℕ} {a c : Atom} (ha : s1.atoms[i]? = some a) (hc : g1.atoms[k]? = some c) (h : Alike0 a c)
    {ls : List ℤ} {av : Bool} {s2 g2 : System} (h3 : s1.calculateQ ls av = .ok s2) (h4 : g1.calculateQ ls av = .ok g2) :
    ∃ a2 c2, s2.atoms[i]? = some a2 ∧ g2.atoms[k]? = some c2 ∧ (a2.pos = a.pos ∧ a2.type = a.type ∧ a2.nbrs = a.nbrs) ∧
      (c2.pos = c.pos ∧ c2.type = c.type ∧ c2.nbrs = c.nbrs) ∧
      ∀ l : ℕ, (l : ℤ) ∈ ls → c2.q l = a2.q l ∧ c2.qlm l = a2.qlm l ∧ (av = true → Alike1 s1 g1 a c → c2.aq l = a2.aq l) := by
  obtain ⟨-, hs, e3⟩ := calculateQ_ok h3
  obtain ⟨-, hg, e4⟩ := calculateQ_ok h4
  have l3 : s2.atoms.length = s1.atoms.length := by rw [e3]; split_ifs <;> simp [System.afterQ]
  have l4 : g2.atoms.length = g1.atoms.length := by rw [e4]; split_ifs <;> simp [System.afterQ]
  obtain ⟨a2, ka⟩ : ∃ a2, s2.atoms[i]? = some a2 := ⟨_, List.getElem?_eq_getElem (by rw [l3]; exact (List.getElem?_eq_some_iff.1 ha).1)⟩
  obtain ⟨c2, kc⟩ : ∃ c2, g2.atoms[k]? = some c2 := ⟨_, List.getElem?_eq_getElem (by rw [l4]; exact (List.getElem?_eq_some_iff.1 hc).1)⟩
  have qa := calculateQ_atom h3 ha ka
  have qc := calculateQ_atom h4 hc kc
  refine ⟨a2, c2, ka, kc, by rw [qa]; split_ifs <;> exact ⟨rfl, rfl, rfl⟩, by rw [qc]; split_ifs <;> exact ⟨rfl, rfl, rfl⟩, fun l hl => ?_⟩
  have hl' := toNat_mem hl
  have hown : g1.calcQlm l c = s1.calcQlm l a := alike_qlm ps pg (List.mem_of_getElem? ha) (List.mem_of_getElem? hc) h l
  have va := calculateQ_q h3 ha ka l
  have vb := calculateQ_q h4 hc kc l
  rw [va.1, va.2, vb.1, vb.2, if_pos hl, if_pos hl, if_pos hl, if_pos hl, hown]
  refine ⟨rfl, rfl, ?_⟩
  rintro rfl hA
  rw [if_pos rfl] at qa qc
  have hcond : ∀ {t : System} {c : Atom} {L : List ℕ}, t.NbrsInRange → c ∈ t.atoms → (t.afterQ L).qNbrs (qAtom t L c) = t.qNbrs c := by
    intro t c L ht hc
    unfold System.qNbrs
    refine List.filter_congr fun x hx => ?_
    have hx' := ht c hc x hx
    rw [mem_eq_getElem t x.idx hx', mem_eq_getElem (t.afterQ L) x.idx (by simpa [System.afterQ] using hx')]
    simp [System.afterQ, qAtom]
  have hmem : ∀ {t : System} {k : ℕ} {L : List ℕ} {u : Atom} (_ : t.atoms[k]? = some u), ((t.afterQ L).mem k) = qAtom t L u := by
    intro t k L u hk
    have : (t.afterQ L).atoms[k]? = some (qAtom t L u) := by simp [System.afterQ, hk]
    exact (mem_of_getElem? this).2
  have hEq : (g1.afterQ (ls.map Int.toNat)).calcAqlm l (qAtom g1 (ls.map Int.toNat) c) =
      (s1.afterQ (ls.map Int.toNat)).calcAqlm l (qAtom s1 (ls.map Int.toNat) a) := by
    refine calcAqlm_perm l ?_ ?_
    · simp only [qAtom, hl', if_true, hown]
    · rw [hcond hg (List.mem_of_getElem? hc), hcond hs (List.mem_of_getElem? ha), ps.qNbrs (List.mem_of_getElem? ha), pg.qNbrs (List.mem_of_getElem? hc)]
      obtain ⟨κ, f, f', hp, hk⟩ := hA
      refine perm_of_key _ _ hp fun x hx y hy hxy => ?_
      obtain ⟨-, u, w, hu, hw, huw⟩ := hk x hx y hy hxy
      rw [hmem hu, hmem hw]
      simp only [qAtom, hl', if_true]
      exact alike_qlm ps pg (List.mem_of_getElem? hu) (List.mem_of_getElem? hw) huw l
  rw [qa, qc]
  simp only [aqAtom, hl', if_true, hEq]

theorem alike_solids (ps : Plain s1) (pg : Plain g1) (hcmp : g1.comparecriteria = s1.comparecriteria) {i k : ℕ} {a1 c1 : Atom}
    (ha : s1.atoms[i]? = some a1) (hc : g1.atoms[k]? = some c1) (hA : Alike1 s1 g1 a1 c1)
    {bonds threshold avgthreshold q : PyNum} {cutoff cutoff' : ℝ} {right right' : Bool} {s2 g2 : System} {o o' : Option ℕ}
    (h3 : System.findSolids bonds threshold avgthreshold false q cutoff right s1 = (s2, .ok o))
    (h4 : System.findSolids bonds threshold avgthreshold false q cutoff' right' g1 = (g2, .ok o')) :
    ∃ a2 c2, s2.atoms[i]? = some a2 ∧ g2.atoms[k]? = some c2 ∧ c2.sij.Perm a2.sij ∧ c2.frenkel = a2.frenkel ∧ c2.avq = a2.avq ∧
      c2.issolid = a2.issolid := by
  obtain ⟨l, t, at', cr, bb, -, e1, -, -, e2, e3, e4, e5, hs, e6⟩ := findSolids_ok h3
  obtain ⟨l', t', at'', cr', bb', -, k1, -, -, k2, k3, k4, k5, hg, k6⟩ := findSolids_ok h4
  obtain rfl : l' = l := by
    rw [e1] at k1
    have := PyNum.int.inj k1
    omega
  obtain rfl : t' = t := by rw [e2] at k2; exact (Option.some.inj k2).symm
  obtain rfl : at'' = at' := by rw [e3] at k3; exact (Option.some.inj k3).symm
  obtain rfl : bb' = bb := by rw [e4] at k4; exact (Option.some.inj k4).symm
  obtain rfl : cr' = cr := by
    rcases e5 with ⟨u, n, hu⟩ | ⟨u, n, hu⟩ <;> rcases k5 with ⟨v, m, hv⟩ | ⟨v, m, hv⟩
    · rw [u, v]
    · rw [hu] at hv; cases hv
    · rw [hu] at hv; cases hv
    · rw [u, v]
  have hcr : cr' = 0 ∨ cr' = 1 := e5.imp And.left And.left
  clear e1 e2 e3 e4 e5 k1 k2 k3 k4 k5
  refine ⟨_, _, by rw [e6, List.getElem?_map, ha]; rfl, by rw [k6, List.getElem?_map, hc]; rfl, ?_⟩
  generalize hp : (l', t', at'', cr', bb') = p
  have hown : (qAtom g1 [p.1] c1).qlm p.1 = (qAtom s1 [p.1] a1).qlm p.1 := by
    rw [qAtom_own, qAtom_own, alike_qlm ps pg (List.mem_of_getElem? ha) (List.mem_of_getElem? hc) hA.zero p.1]
  have hmem : ∀ {t : System} {k : ℕ} {u : Atom} (_ : t.atoms[k]? = some u), ((t.afterQ [p.1]).mem k) = qAtom t [p.1] u := by
    intro t k u hk
    have : (t.afterQ [p.1]).atoms[k]? = some (qAtom t [p.1] u) := by simp [System.afterQ, hk]
    exact (mem_of_getElem? this).2
  have hsc : ((qAtom g1 [p.1] c1).nbrs.map fun x => ((g1.afterQ [p.1]).solidParams p).numberFromBond (qAtom g1 [p.1] c1) (((g1.afterQ [p.1]).solidParams p).mem x.idx)).Perm
      ((qAtom s1 [p.1] a1).nbrs.map fun x => ((s1.afterQ [p.1]).solidParams p).numberFromBond (qAtom s1 [p.1] a1) (((s1.afterQ [p.1]).solidParams p).mem x.idx)) := by
    show (c1.nbrs.map _).Perm (a1.nbrs.map _)
    obtain ⟨κ, f, f', hP, hkey⟩ := hA
    refine perm_of_key _ _ hP fun x hx y hy hxy => ?_
    obtain ⟨-, u, w, hu, hw, huw⟩ := hkey x hx y hy hxy
    show bondNumber p.1 _ (((g1.afterQ [p.1]).mem y.idx).qlm p.1) = bondNumber p.1 _ (((s1.afterQ [p.1]).mem x.idx).qlm p.1)
    rw [hmem hu, hmem hw, qAtom_own, qAtom_own, alike_qlm ps pg (List.mem_of_getElem? hu) (List.mem_of_getElem? hw) huw p.1]
    show bondNumber p.1 ((qAtom g1 [p.1] c1).qlm p.1) _ = bondNumber p.1 ((qAtom s1 [p.1] a1).qlm p.1) _
    rw [hown]
  have hnq : (qAtom g1 [p.1] c1).nbrs.length = (qAtom s1 [p.1] a1).nbrs.length := by
    have := hsc.length_eq
    rwa [List.length_map, List.length_map] at this
  have hcc : ((g1.afterQ [p.1]).solidParams p).comparecriteria = ((s1.afterQ [p.1]).solidParams p).comparecriteria := hcmp
  have hS : ∀ (t : System) (c : Atom), (solidAtom t p c).sij = (((t.afterQ [p.1]).solidParams p).frenkel1 (qAtom t [p.1] c)).sij ∧
      (solidAtom t p c).frenkel = (((t.afterQ [p.1]).solidParams p).frenkel1 (qAtom t [p.1] c)).frenkel ∧
      (solidAtom t p c).avq = (((t.afterQ [p.1]).solidParams p).frenkel1 (qAtom t [p.1] c)).avq := fun t c =>
    ⟨(solidAtom_fields t p c).2.2.1, (solidAtom_fields t p c).2.2.2.1, (solidAtom_fields t p c).2.2.2.2⟩
  have f1 : (((g1.afterQ [p.1]).solidParams p).frenkel1 (qAtom g1 [p.1] c1)).sij.Perm (((s1.afterQ [p.1]).solidParams p).frenkel1 (qAtom s1 [p.1] a1)).sij := hsc
  have f2 : (((g1.afterQ [p.1]).solidParams p).frenkel1 (qAtom g1 [p.1] c1)).frenkel = (((s1.afterQ [p.1]).solidParams p).frenkel1 (qAtom s1 [p.1] a1)).frenkel := by
    unfold System.frenkel1
    dsimp only
    rw [hcc]
    exact (hsc.filter _).length_eq
  have f3 : (((g1.afterQ [p.1]).solidParams p).frenkel1 (qAtom g1 [p.1] c1)).avq = (((s1.afterQ [p.1]).solidParams p).frenkel1 (qAtom s1 [p.1] a1)).avq := by
    have hcomm : ∀ x y z : Option ℝ, nanAdd (nanAdd x y) z = nanAdd (nanAdd x z) y := by
      intro x y z
      rcases x with _ | x <;> rcases y with _ | y <;> rcases z with _ | z <;> simp [nanAdd, add_right_comm]
    unfold System.frenkel1
    dsimp only
    rw [hnq]
    congr 1
    haveI : RightCommutative nanAdd := ⟨hcomm⟩
    exact hsc.foldl_eq (some 0)
  refine ⟨by rw [(hS _ _).1, (hS _ _).1]; exact f1, by rw [(hS _ _).2.1, (hS _ _).2.1, f2], by rw [(hS _ _).2.2, (hS _ _).2.2, f3], ?_⟩
  refine solid1_congr (t := s1.solidParams p) (t' := g1.solidParams p) ?_ rfl rfl rfl hcmp hnq f2 f3
  rw [← hp]
  exact hcr

end

end Pyscal
