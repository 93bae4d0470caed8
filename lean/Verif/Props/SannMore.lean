import Verif.Lemmas.SannSame
import Verif.Props.RelabelMore

/-! C77, C78 and C92 for SANN, and C78 for the search by number. -/

namespace Pyscal

open Spec (relabelIndex volume cross diagBox ofFrac latticeVec IsImage FracBound)

/-- What `C14_partial` says about one atom, with the selection named. -/
theorem sann_pick {σ : StdSort} {s s' : System} {f : ℕ} {t : ℝ}
    (hx : ∀ i : ℕ, 1 ≤ i → i ≤ 9 → Spec.SearchExact s (decide (s.realNop > 4000)) (t * i)) (h : s.findNeighbors σ f (.sann t) = .ok s')
    {k : ℕ} {a a' : Atom} (hk : s.atoms[k]? = some a) (hk' : s'.atoms[k]? = some a') :
    ∃ S m, Spec.NearestList s k a S.length S ∧ SannPick S a'.nbrs m ∧
      (3 < m → a'.cutoff = some ((a'.nbrs.map Nb.dist).sum / ((m : ℝ) - 2))) := by
  obtain ⟨S, m, h1, h2, h3, h4, h5, h6, h7⟩ := (C14_partial σ s s' f t hx h).2 k a a' hk hk'
  exact ⟨S, m, h1, ⟨h2, h3, h4, h5, h7⟩, h6⟩

/-! ### When the search succeeds -/

theorem sannGo_ok (t : List DAtom) (m : ℕ) (summ : ℝ) (acc : List DAtom) (cut : Option ℝ) (j : ℕ) (hmj : m ≤ j) (hj : j < t.length)
    (h : (summ + (((t.drop (m + 1)).take (j - m)).map DAtom.dist).sum) / ((j - 2 : ℕ) : ℝ) < t[j].dist) :
    ∃ m' sel cut', sannGo t m summ (summ / ((m - 2 : ℕ) : ℝ)) acc cut = .ok (m', sel, cut') ∧ m' ≤ j := by
  induction hk : j - m generalizing m summ acc cut with
  | zero =>
    obtain rfl : m = j := by omega
    rw [sannGo, dif_pos hj, if_neg]
    · exact ⟨_, _, _, rfl, le_rfl⟩
    · simpa using h
  | succ n ih =>
    rw [sannGo, dif_pos (by omega)]
    split_ifs with hd h1
    · refine ih (m + 1) (summ + t[m + 1].dist) (acc ++ [t[m + 1]]) _ (by omega) ?_ (by omega)
      rw [show j - m = (j - (m + 1)) + 1 by omega, ← drop_take_succ t (m + 1) _ h1, List.map_cons, List.sum_cons, ← add_assoc] at h
      exact h
    · omega
    · exact ⟨_, _, _, rfl, by omega⟩

theorem sannSelect_ok (t : List DAtom) (cut : Option ℝ) (j : ℕ) (h3 : 3 ≤ j) (hj : j < t.length)
    (h : ((t.take 3 ++ (t.drop 4).take (j - 3)).map DAtom.dist).sum / ((j - 2 : ℕ) : ℝ) < t[j].dist) :
    ∃ m' sel cut', sannSelect t cut = .ok (m', sel, cut') ∧ m' ≤ j := by
  unfold sannSelect
  dsimp only
  have e : ((t.take 3).map DAtom.dist).sum / 1 = ((t.take 3).map DAtom.dist).sum / ((3 - 2 : ℕ) : ℝ) := by norm_num
  rw [e]
  refine sannGo_ok t 3 _ _ cut j h3 hj ?_
  rw [List.map_append, List.sum_append] at h
  exact h

/-- The SANN search succeeds at its first radius `R` if for every atom the rule stops at one of the atoms nearer than `R`, with at most
300 neighbours. -/
theorem C14_succeeds (σ : StdSort) (s : System) (f : ℕ) (t R : ℝ) (ht : 1 ≤ t) (hR : Spec.SearchRadius s t R) (hle : s.natoms ≤ s.atoms.length)
    (hx : Spec.SearchExact s (decide (s.natoms > 4000)) t)
    (h : ∀ k a, s.atoms[k]? = some a → ∃ S j, Spec.NearestList s k a S.length S ∧ (∀ x ∈ S, x.dist < R) ∧ 3 ≤ j ∧ j ≤ 300 ∧
      ∃ _ : j < S.length, ((S.take 3 ++ (S.drop 4).take (j - 3)).map Nb.dist).sum / ((j : ℝ) - 2) < S[j].dist) :
    ∃ s', s.findNeighbors σ f (.sann t) = .ok s' := by
  have hle : s.realNop ≤ s.atoms.length := hle
  have hx : Spec.SearchExact s (decide (s.realNop > 4000)) t := hx
  obtain rfl := (searchRadius_iff s t R).1 hR
  set u := decide (s.realNop > 4000) with hu
  set g0 : System := { s.startSearch f with usecells := u } with hg0
  obtain ⟨T, hT, g', hfill, hlike, -, -, hmem⟩ := fillTemp_start s
    { g0 with voronoiused := false } f u false t rfl (candOK_of hx)
  -- the selection stops
  have hsel : ∀ k, k < s.atoms.length → ∀ cut, ∃ mm sel cut', sannSelect (σ.sort (T k)) cut = .ok (mm, sel, cut') ∧ mm ≤ 300 ∧ mm < (T k).length := by
    intro k hk cut
    obtain ⟨S, j, hS, hSR, h3, h300, hj, hstop⟩ := h k _ (List.getElem?_eq_getElem hk)
    have hka := List.getElem?_eq_getElem hk
    have hC := SortedCands.mk' σ (hT k hk)
    set D := σ.sort (T k) with hD
    have hlen : S.length ≤ D.length := by
      have : (S.map Nb.idx).Subperm (D.map DAtom.idx) := by
        refine List.Nodup.subperm hS.2.1 fun n hn => ?_
        obtain ⟨x, hxS, rfl⟩ := List.mem_map.1 hn
        obtain ⟨nb, g1, g2, g3, -⟩ := hS.2.2.1 x hxS
        have hd : s.distOf k x.idx = x.dist := by rw [g3]; exact (distOf_eq hka g1).1
        refine List.mem_map.2 ⟨⟨s.distOf k x.idx, x.idx⟩, hC.mem.2 ⟨(mem_of_getElem? g1).1, g2, rfl, ?_⟩, rfl⟩
        change if u then s.distOf k x.idx < s.guessDist t else s.distOf k x.idx ≤ s.guessDist t
        rw [hd]
        split
        · exact hSR x hxS
        · exact (hSR x hxS).le
      have := this.length_le
      rwa [List.length_map, List.length_map] at this
    have hN := hC.nearest (a := s.atoms[k]) hka hlen
    obtain ⟨M, hM⟩ := ((S.map Nb.dist).toFinset).exists_le
    have hball : S.length ≤ (Pyscal.cutoffNbs s (M + 1) 0 k).length := enough_near hS hka fun x hx => by
      have := hM x.dist (by simpa using ⟨x, hx, rfl⟩)
      linarith
    have b1 := ballHead_of (r := M + 1) hS hka hball
    have b2 := ballHead_of (r := M + 1) hN hka hball
    have hd := b1.dists b2 (List.Perm.refl _) (hN.1)
    have hd2 : (D.map DAtom.dist).take S.length = S.map Nb.dist := by
      rw [← hd, List.map_map, ← List.map_take]
      exact (List.map_congr_left fun x hx => hC.mkNb_dist (List.mem_of_mem_take hx)).symm
    have hjD : j < D.length := by omega
    have e1 : D[j].dist = S[j].dist := by
      have := congrArg (fun L : List ℝ => L[j]?) hd2
      simp only [List.getElem?_take, if_pos hj, List.getElem?_map, List.getElem?_eq_getElem hj, List.getElem?_eq_getElem hjD,
        Option.map_some, Option.some.injEq] at this
      exact this
    have e2 : (D.take 3 ++ (D.drop 4).take (j - 3)).map DAtom.dist = (S.take 3 ++ (S.drop 4).take (j - 3)).map Nb.dist := by
      have q : (S.map Nb.dist).take S.length = S.map Nb.dist := List.take_of_length_le (by simp)
      have := (sannSel_congr (hd2.trans q.symm) hj).resolve_right (by omega)
      simpa using this
    have hj2 : ((j - 2 : ℕ) : ℝ) = (j : ℝ) - 2 := by rw [Nat.cast_sub (by omega)]; norm_num
    obtain ⟨m', sel, cut', h1, h2⟩ := sannSelect_ok D cut j h3 hjD (by rw [e1, e2, hj2]; exact hstop)
    exact ⟨m', sel, cut', h1, by omega, by have := (σ.perm (T k)).length_eq; rw [← hD] at this; omega⟩
  have hloop : ∃ m', System.sannLoop σ g' (List.range g'.atoms.length) g'.mem = .ok (m', true) := by
    refine sannLoop_ok σ g' _ List.nodup_range _ fun k hk => ?_
    have hk : k < s.atoms.length := hlike.len ▸ List.mem_range.1 hk
    have h3 : 3 ≤ (T k).length := by
      obtain ⟨mm, sel, cut', e, -, hlt⟩ := hsel k hk none
      have := sannGo_spec (σ.sort (T k)) 3 ((((σ.sort (T k)).take 3).map DAtom.dist).sum) ((σ.sort (T k)).take 3) none mm sel cut' (by
        have e0 : (((σ.sort (T k)).take 3).map DAtom.dist).sum / ((3 - 2 : ℕ) : ℝ) = (((σ.sort (T k)).take 3).map DAtom.dist).sum / 1 := by norm_num
        rw [e0]; exact e)
      have := this.1
      omega
    rw [hmem k hk]
    refine ⟨h3, fun cut => ?_⟩
    obtain ⟨mm, sel, cut', h1, -, h2⟩ := hsel k hk cut
    exact ⟨mm, sel, cut', h1, h2.ne⟩
  obtain ⟨m', hm'⟩ := hloop
  have hn : g0.neighborsSann σ t = .ok (g'.ofMem m', true) := by
    unfold System.neighborsSann
    simp only [hfill, bind, Except.bind, hm']
    rfl
  obtain ⟨l, hl, hll⟩ := getAtoms_start s (s.startSearch f) (resetAll_length s) rfl hle
  have hse : (s.startSearch f).search σ (.sann t) = .ok (g'.ofMem m') := by
    simp only [System.search, System.searchSann, if_neg (not_lt.2 ht)]
    simp only [hl, bind, Except.bind, hll]
    have hn' : System.neighborsSann σ { s.startSearch f with usecells := decide (s.realNop > 4000) } t = _ := hn
    rw [hn']
    rfl
  refine finish_ok hse fun a ha => ?_
  obtain ⟨k, hk, rfl⟩ := List.getElem_of_mem ha
  rw [ofMem_length] at hk
  have hks : k < s.atoms.length := hlike.len ▸ hk
  rw [← mem_eq_getElem]
  obtain ⟨-, mm, sel, cut, h1, -, h3⟩ := (sannLoop_spec σ g' _ List.nodup_range g'.mem m' hm' k).2 (List.mem_range.2 hk)
  rw [ofMem_mem _ _ _ hk, h3]
  rw [hmem k hks] at h1 ⊢
  have h1' : sannSelect (σ.sort (T k)) (candAtom s (T k) k).cutoff = .ok (mm, sel, cut) := h1
  obtain ⟨mm', sel', cut', h4, h5, h6⟩ := hsel k hks (candAtom s (T k) k).cutoff
  rw [h4] at h1'
  have he := Except.ok.inj h1'
  simp only [Prod.mk.injEq] at he
  obtain ⟨rfl, rfl, rfl⟩ := he
  have h4' : sannGo (σ.sort (T k)) 3 ((((σ.sort (T k)).take 3).map DAtom.dist).sum) ((((σ.sort (T k)).take 3).map DAtom.dist).sum / ((3 - 2 : ℕ) : ℝ))
      ((σ.sort (T k)).take 3) (candAtom s (T k) k).cutoff = .ok (mm', sel', cut') := by
    have e0 : (((σ.sort (T k)).take 3).map DAtom.dist).sum / ((3 - 2 : ℕ) : ℝ) = (((σ.sort (T k)).take 3).map DAtom.dist).sum / 1 := by norm_num
    rw [e0]; exact h4
  obtain ⟨q1, q2, -⟩ := sannGo_spec _ 3 _ _ _ _ _ _ h4'
  simp only [sannAtom, candAtom, List.nil_append, List.length_map]
  rw [q2, List.length_append, List.length_take, List.length_take]
  omega

/-! ### The same neighbours -/

/-- **C92, SANN**: two atoms, in the same or in different systems, that see the same infinite crystal get the same distances of their
SANN neighbours, the same cutoff (when the search sets one), and the same neighbours at every distance at which no atom is left out,
if the systems are faithful in a range with one more atom than neighbours. -/
theorem C92_sann (σ σ' : StdSort) (s g s1 g1 : System) (f f' : ℕ) (t t' r : ℝ) (hF : Spec.Faithful s r) (hG : Spec.Faithful g r)
    (hs : ∀ i : ℕ, 1 ≤ i → i ≤ 9 → Spec.SearchExact s (decide (s.realNop > 4000)) (t * i))
    (hg : ∀ i : ℕ, 1 ≤ i → i ≤ 9 → Spec.SearchExact g (decide (g.realNop > 4000)) (t' * i))
    (h1 : s.findNeighbors σ f (.sann t) = .ok s1) (h2 : g.findNeighbors σ' f' (.sann t') = .ok g1)
    (i k : ℕ) (a c a1 c1 : Atom) (hi : s.atoms[i]? = some a) (hk : g.atoms[k]? = some c) (hV : Spec.SameView s a g c)
    (hi1 : s1.atoms[i]? = some a1) (hk1 : g1.atoms[k]? = some c1) (hn : a1.nbrs.length + 1 ≤ (Spec.nearSet s r 0 i).ncard) :
    c1.nbrs.map Nb.dist = a1.nbrs.map Nb.dist ∧ (3 < a1.nbrs.length → c1.cutoff = a1.cutoff) ∧
    ∀ x ∈ a1.nbrs, (∀ y, Spec.GoodEntry s i a y → y.dist = x.dist → y ∈ a1.nbrs) →
      ∃ z ∈ c1.nbrs, z.vec = x.vec ∧ (g.mem z.idx).type = (s.mem x.idx).type := by
  obtain ⟨S, m, hS, hp, hc⟩ := sann_pick hs h1 hi hi1
  obtain ⟨S', m', hS', hp', hc'⟩ := sann_pick hg h2 hk hk1
  have hm := hp.length
  have hm' := hp'.length
  have dist : ∀ {u : System} {j : ℕ}, ∀ x ∈ cutoffNbs u r 0 j, V3.norm (placed u x).1 = x.dist := by
    intro u j x hx
    unfold cutoffNbs at hx
    obtain ⟨n, -, rfl⟩ := List.mem_map.1 hx
    rfl
  obtain ⟨e1, e2⟩ := sann_same (δ := fun p : V3 × ℤ => V3.norm p.1) hi hk dist dist (view_perm hF hG 0 hi hk hV) hS hS' hp hp'
    (by rw [cutoffList_length hi (cutoffNbs_spec hi), ← hm]; exact hn)
  refine ⟨e1, fun h3 => ?_, fun x hx hall => ?_⟩
  · have hl : c1.nbrs.length = a1.nbrs.length := by
      have := congrArg List.length e1
      rwa [List.length_map, List.length_map] at this
    have : m' = m := by omega
    rw [hc (by omega), hc' (by omega), e1, this]
  · obtain ⟨z, hz, e⟩ := e2 x hx hall
    exact ⟨z, hz, (Prod.mk.inj e).1, (Prod.mk.inj e).2⟩

theorem Relab.sann {G : V3 × ℤ → V3 × ℤ → Prop} {ρ : Equiv.Perm ℕ} {s g s1 g1 : System} {σ σ' : StdSort} (h : Relab G ρ s g) {f f' : ℕ} {t t' : ℝ}
    (hs : ∀ i : ℕ, 1 ≤ i → i ≤ 9 → Spec.SearchExact s (decide (s.realNop > 4000)) (t * i))
    (hg : ∀ i : ℕ, 1 ≤ i → i ≤ 9 → Spec.SearchExact g (decide (g.realNop > 4000)) (t' * i))
    (h1 : s.findNeighbors σ f (.sann t) = .ok s1) (h2 : g.findNeighbors σ' f' (.sann t') = .ok g1)
    {i : ℕ} {a a1 c1 : Atom} (hi : s.atoms[i]? = some a) (hi1 : s1.atoms[i]? = some a1) (hk1 : g1.atoms[ρ i]? = some c1) :
    c1.nbrs.map Nb.dist = a1.nbrs.map Nb.dist ∧ (3 < a1.nbrs.length → c1.cutoff = a1.cutoff) ∧
    ∀ x ∈ a1.nbrs, (∀ y, Spec.GoodEntry s i a y → y.dist = x.dist → y ∈ a1.nbrs) → { x with idx := ρ x.idx } ∈ c1.nbrs := by
  have hil := (mem_of_getElem? hi).1
  have hk := List.getElem?_eq_getElem (l := g.atoms) (i := ρ i) (h.len ▸ (h.lt i).2 hil)
  obtain ⟨S, m, hS, hp, hc⟩ := sann_pick hs h1 hi hi1
  obtain ⟨S', m', hS', hp', hc'⟩ := sann_pick hg h2 hk hk1
  have hm := hp.length
  have hm' := hp'.length
  obtain ⟨M, hM⟩ := ((S.map Nb.dist).toFinset).exists_le
  have hball : S.length ≤ (Pyscal.cutoffNbs s (M + 1) 0 i).length := enough_near hS hi fun x hx => by
    have := hM x.dist (by simpa using ⟨x, hx, rfl⟩)
    linarith
  have hP := h.cutoffNbs (M + 1) 0 hil
  rw [← List.map_id (Pyscal.cutoffNbs g (M + 1) 0 (ρ i))] at hP
  obtain ⟨e1, e2⟩ := sann_same (F := fun x : Nb => ({ x with idx := ρ x.idx } : Nb)) (F' := id) (δ := Nb.dist) hi hk (fun _ _ => rfl) (fun _ _ => rfl) hP hS hS' hp hp'
    (by have := hp.2.1; omega)
  refine ⟨e1, fun h3 => ?_, fun x hx hall => ?_⟩
  · have hl : c1.nbrs.length = a1.nbrs.length := by
      have := congrArg List.length e1
      rwa [List.length_map, List.length_map] at this
    have : m' = m := by omega
    rw [hc (by omega), hc' (by omega), e1, this]
  · obtain ⟨z, hz, e⟩ := e2 x hx hall
    rw [← show z = _ from e]; exact hz

/-- The parts of a successful `searchAtoms`. -/
theorem searchAtoms_ok {σ : StdSort} {b : Mat3} {l A : List Atom} {f : ℕ} {meth : Method} (h : searchAtoms σ b l f meth = .ok A) :
    ∃ s s1, buildSystem b l = .ok s ∧ s.findNeighbors σ f meth = .ok s1 ∧ A = s1.atoms.take s1.realNop ∧ s1.realNop ≤ s1.atoms.length := by
  unfold searchAtoms at h
  rcases h1 : buildSystem b l with e | s
  · rw [h1] at h; cases h
  rw [h1] at h
  simp only [bind, Except.bind] at h
  rcases h2 : s.findNeighbors σ f meth with e | s1
  · rw [h2] at h; cases h
  rw [h2] at h
  simp only [System.getAtoms] at h
  by_cases hle : s1.realNop ≤ s1.atoms.length
  · rw [if_pos hle] at h
    exact ⟨s, s1, rfl, h2, (Except.ok.inj h).symm, hle⟩
  · rw [if_neg hle] at h; cases h

theorem take_getElem?_some {α : Type} {l : List α} {n i : ℕ} {x : α} (h : (l.take n)[i]? = some x) : i < n ∧ l[i]? = some x := by
  rw [List.getElem?_take] at h
  split_ifs at h with hi
  exact ⟨hi, h⟩

/-- **C77** for SANN, when both searches succeed: the same distances in the same order, the same cutoff if one is set, and the same
neighbours at every distance at which no atom is left out. -/
theorem C77_sann (σ : StdSort) (b : Mat3) {l l' A B : List Atom} {π : Equiv.Perm ℕ} (h : Spec.Reordered π l l')
    (hreal : ∀ a ∈ l, a.ghost = false) (f : ℕ) (t : ℝ)
    (hx : ∀ s, buildSystem b l = .ok s → ∀ i : ℕ, 1 ≤ i → i ≤ 9 → Spec.SearchExact s (decide (s.natoms > 4000)) (t * i))
    (hA : searchAtoms σ b l f (.sann t) = .ok A) (hB : searchAtoms σ b l' f (.sann t) = .ok B) (s : System) (hs : buildSystem b l = .ok s)
    (i : ℕ) (a x y : Atom) (hi : s.atoms[i]? = some a) (hxi : A[i]? = some x) (hyi : B[π i]? = some y) :
    y.nbrs.map Nb.dist = x.nbrs.map Nb.dist ∧ (3 < x.nbrs.length → y.cutoff = x.cutoff) ∧
    ∀ nb ∈ x.nbrs, (∀ e, Spec.GoodEntry s i a e → e.dist = nb.dist → e ∈ x.nbrs) → { nb with idx := relabelIndex l.length π nb.idx } ∈ y.nbrs := by
  obtain ⟨s', s1, hs', h1, rfl, hle⟩ := searchAtoms_ok hA
  rw [hs] at hs'
  obtain rfl := Except.ok.inj hs'
  obtain ⟨g, g1, hg, h2, rfl, hle'⟩ := searchAtoms_ok hB
  obtain ⟨hi1, hxi⟩ := take_getElem?_some hxi
  obtain ⟨-, hyi⟩ := take_getElem?_some hyi
  have hlr := build_length hreal hs
  have hr2 : s1.realNop = l.length := (Kept.findNeighbors h1).realNop.trans hlr.2.1
  rw [hr2] at hi1
  have hn : 0 < l.length := by omega
  have hb := buildSystem_relabel b h hn hreal
  rw [hs, hg] at hb
  have hR : Relab Eq (padPerm l.length hn π h.2.1) s g := hb
  obtain ⟨hS, hbox, -, -, ht, -⟩ := build_settings h.1 hs hg
  have hρ := padPerm_small hn π h.2.1 hi1
  refine hR.sann (hx s hs) (fun j j1 j2 => ?_) h1 h2 hi hxi (by rw [hρ]; exact hyi)
  rw [hR.realNop]
  exact hR.searchExact hS hbox ht (hx s hs j j1 j2)

/-- The systems before and after atoms were put back into the cell differ, seen from each atom, by a renumbering of the periodic copies. -/
theorem build_wrapped_any (b : Mat3) (hb : Spec.Skew b ∨ ∃ lx ly lz, 0 < lx ∧ 0 < ly ∧ 0 < lz ∧ b = diagBox lx ly lz)
    (l l' : List Atom) (t : V3) (hw : Spec.Rewrapped b t l l') (hreal : ∀ a ∈ l, a.ghost = false)
    (hc : Spec.Compact b l) (hc' : Spec.Compact b l') (hh : Spec.NoHalfCell b l) (hn : 0 < l.length) :
    RelE (fun s g => s.realNop = l.length ∧ ∀ i0 < l.length, ∃ ρ : Equiv.Perm ℕ, ρ i0 = i0 ∧ (∀ k, ρ k % l.length = k % l.length) ∧
      Relab (fun _ _ => True) ρ s g) (buildSystem b l) (buildSystem b l') := by
  by_cases h200 : l.length < 200
  · exact build_wrapped b hb l l' t hw h200 hreal hc hc' hh hn
  · refine (build_wrapped_large b hb l l' t hw (not_lt.1 h200) hreal hc hc' hh).mono ?_
    rintro s g ⟨h1, h2⟩
    exact ⟨h1, fun i0 _ => ⟨1, rfl, fun _ => rfl, h2⟩⟩

/-- **C78** for SANN and systems of any size, when both searches succeed: the same distances in the same order, the same cutoff if one
is set, and the same neighbours, periodic copies of one atom being identified, at every distance at which no atom is left out. -/
theorem C78_sann (σ : StdSort) (b : Mat3) (hb : Spec.Skew b ∨ ∃ lx ly lz, 0 < lx ∧ 0 < ly ∧ 0 < lz ∧ b = diagBox lx ly lz)
    (l l' A B : List Atom) (t : V3) (hw : Spec.Rewrapped b t l l') (hreal : ∀ a ∈ l, a.ghost = false)
    (hc : Spec.Compact b l) (hc' : Spec.Compact b l') (hh : Spec.NoHalfCell b l) (f : ℕ) (th : ℝ)
    (hx : ∀ s, buildSystem b l = .ok s → ∀ i : ℕ, 1 ≤ i → i ≤ 9 → Spec.SearchExact s (decide (s.natoms > 4000)) (th * i))
    (hx' : ∀ s, buildSystem b l' = .ok s → ∀ i : ℕ, 1 ≤ i → i ≤ 9 → Spec.SearchExact s (decide (s.natoms > 4000)) (th * i))
    (hA : searchAtoms σ b l f (.sann th) = .ok A) (hB : searchAtoms σ b l' f (.sann th) = .ok B) (s : System) (hs : buildSystem b l = .ok s)
    (i : ℕ) (a x y : Atom) (hi : s.atoms[i]? = some a) (hxi : A[i]? = some x) (hyi : B[i]? = some y) :
    y.nbrs.map Nb.dist = x.nbrs.map Nb.dist ∧ (3 < x.nbrs.length → y.cutoff = x.cutoff) ∧
    ∀ nb ∈ x.nbrs, (∀ e, Spec.GoodEntry s i a e → e.dist = nb.dist → e ∈ x.nbrs) →
      ∃ z ∈ y.nbrs, Spec.upToCell l.length z = Spec.upToCell l.length nb := by
  obtain ⟨s', s1, hs', h1, rfl, hle⟩ := searchAtoms_ok hA
  rw [hs] at hs'
  obtain rfl := Except.ok.inj hs'
  obtain ⟨g, g1, hg, h2, rfl, hle'⟩ := searchAtoms_ok hB
  obtain ⟨hi1, hxi⟩ := take_getElem?_some hxi
  obtain ⟨-, hyi⟩ := take_getElem?_some hyi
  have hlr := build_length hreal hs
  have hr2 : s1.realNop = l.length := (Kept.findNeighbors h1).realNop.trans hlr.2.1
  rw [hr2] at hi1
  have hbuild := build_wrapped_any b hb l l' t hw hreal hc hc' hh (by omega)
  rw [hs, hg] at hbuild
  obtain ⟨ρ, r1, r2, hR⟩ := hbuild.2 i hi1
  obtain ⟨e1, e2, e3⟩ := hR.sann (hx s hs) (hx' g hg) h1 h2 hi hxi (by rw [r1]; exact hyi)
  refine ⟨e1, e2, fun nb hnb hall => ⟨_, e3 nb hnb hall, ?_⟩⟩
  simp only [Spec.upToCell, r2]

/-- **C78** for the search by number and systems of any size: the same distances in the same order, and the same neighbours, periodic
copies of one atom being identified, except for a choice among those at the largest distance. -/
theorem C78_number (σ : StdSort) (b : Mat3) (hb : Spec.Skew b ∨ ∃ lx ly lz, 0 < lx ∧ 0 < ly ∧ 0 < lz ∧ b = diagBox lx ly lz)
    (l l' : List Atom) (t : V3) (hw : Spec.Rewrapped b t l l') (hreal : ∀ a ∈ l, a.ghost = false)
    (hc : Spec.Compact b l) (hc' : Spec.Compact b l') (hh : Spec.NoHalfCell b l) (f : ℕ) (th : ℝ) (n : ℕ)
    (hx : ∀ s, buildSystem b l = .ok s → Spec.SearchExact s (decide (s.natoms > 4000)) th)
    (hx' : ∀ s, buildSystem b l' = .ok s → Spec.SearchExact s (decide (s.natoms > 4000)) th) :
    RelE (List.Forall₂ fun x y : Atom => y.nbrs.map Nb.dist = x.nbrs.map Nb.dist ∧
        ∀ nb ∈ x.nbrs, (∃ nb' ∈ x.nbrs, nb.dist < nb'.dist) → ∃ z ∈ y.nbrs, Spec.upToCell l.length z = Spec.upToCell l.length nb)
      (searchAtoms σ b l f (.number th n true)) (searchAtoms σ b l' f (.number th n true)) := by
  have hlen : l'.length = l.length := hw.length_eq.symm
  rcases Nat.eq_zero_or_pos l.length with h0 | hn
  · have e1 : l = [] := List.length_eq_zero_iff.1 h0
    have e2 : l' = [] := List.length_eq_zero_iff.1 (by rw [hlen]; exact h0)
    subst e1; subst e2
    rcases hA : searchAtoms σ b [] f (.number th n true) with e | A
    · exact rfl
    · obtain ⟨s, s1, hs, h1, rfl, -⟩ := searchAtoms_ok hA
      have hlr := build_length (l := []) (by simp) hs
      have hr2 : s1.realNop = 0 := (Kept.findNeighbors h1).realNop.trans hlr.2.1
      rw [hr2]
      exact List.Forall₂.nil
  have hbuild := build_wrapped_any b hb l l' t hw hreal hc hc' hh hn
  unfold searchAtoms
  rcases h1 : buildSystem b l with e | s <;> rcases h2 : buildSystem b l' with e' | g <;> rw [h1, h2] at hbuild
  · exact hbuild
  · exact hbuild.elim
  · exact hbuild.elim
  obtain ⟨hrn, hρ⟩ := hbuild
  obtain ⟨hS, -⟩ := build_settings hlen h1 h2
  have hle := (build_length hreal h1).2.2
  have hstep : ∀ i0 < l.length, ∃ ρ : Equiv.Perm ℕ, ρ i0 = i0 ∧ (∀ k, ρ k % l.length = k % l.length) ∧
      RelE (RelabNear ρ) (s.findNeighbors σ f (.number th n true)) (g.findNeighbors σ f (.number th n true)) := by
    intro i0 hi0
    obtain ⟨ρ, r1, r2, hR⟩ := hρ i0 hi0
    exact ⟨ρ, r1, r2, hR.number hS f th n hle (hx s h1) (hx' g h2)⟩
  simp only [bind, Except.bind]
  rcases h3 : s.findNeighbors σ f (.number th n true) with e | s1 <;> rcases h4 : g.findNeighbors σ f (.number th n true) with e' | g1 <;>
    rw [h3, h4] at hstep
  · obtain ⟨_, _, _, h⟩ := hstep 0 hn; exact h
  · obtain ⟨_, _, _, h⟩ := hstep 0 hn; exact h.elim
  · obtain ⟨_, _, _, h⟩ := hstep 0 hn; exact h.elim
  have hr2 : s1.realNop = l.length := (Kept.findNeighbors h3).realNop.trans hrn
  obtain ⟨ρ0, -, -, hN0⟩ := hstep 0 hn
  have hN0 : RelabNear _ s1 g1 := hN0
  unfold System.getAtoms
  simp only [hN0.len, hN0.real]
  by_cases hle : s1.realNop ≤ s1.atoms.length
  swap
  · rw [if_neg hle, if_neg hle]; exact rfl
  rw [if_pos hle, if_pos hle]
  change List.Forall₂ _ _ _
  rw [List.forall₂_iff_get]
  refine ⟨by rw [List.length_take, List.length_take, hN0.len], fun i hi hi' => ?_⟩
  have hi0 : i < l.length := by rw [List.length_take] at hi; omega
  obtain ⟨ρ, e1, e2, hN⟩ := hstep i hi0
  have hN : RelabNear ρ s1 g1 := hN
  have hil : i < s1.atoms.length := by omega
  have q1 : (s1.atoms.take s1.realNop).get ⟨i, hi⟩ = s1.mem i := by
    rw [mem_eq_getElem s1 i hil]; simp
  have q2 : (g1.atoms.take s1.realNop).get ⟨i, hi'⟩ = g1.mem i := by
    rw [mem_eq_getElem g1 i (by rw [hN.len]; exact hil)]; simp
  rw [q1, q2]
  have d := hN.dist i hil
  have c := hN.inner i hil
  rw [e1] at d c
  refine ⟨d, fun nb hnb hlt => ⟨_, c nb hnb hlt, ?_⟩⟩
  simp only [Spec.upToCell, e2]

/-! ### A concrete case: atoms at unit distance along a periodic line -/

theorem ringSys_faithful {N : ℕ} (hN : 200 ≤ N) : Spec.Faithful (ringSys N) (9 / 2) := by
  have hN' : (200 : ℝ) ≤ N := by exact_mod_cast hN
  obtain ⟨p1, p2, p3, p4, p5, p6⟩ := build_props (.inr ⟨N, 10, 10, by linarith, by norm_num, by norm_num, rfl⟩)
    (fun a ha => by obtain ⟨i, -, rfl⟩ := ring_mem ha; rfl) (ring_ok hN).1 (ring_ok hN).2.1 (ringSys_build hN)
  refine p1.faithful p2 p3 ?_
  have hv : volume (diagBox N 10 10) = 100 * N := by simp [volume, V3.dot, cross, diagBox]; ring
  have c1 : cross (diagBox N 10 10).r1 (diagBox N 10 10).r2 = ⟨100, 0, 0⟩ := by simp [cross, diagBox]; norm_num
  have c2 : cross (diagBox N 10 10).r2 (diagBox N 10 10).r0 = ⟨0, 10 * N, 0⟩ := by simp [cross, diagBox]
  have c3 : cross (diagBox N 10 10).r0 (diagBox N 10 10).r1 = ⟨0, 0, 10 * N⟩ := by simp [cross, diagBox]; ring
  change Spec.HalfHeights (diagBox N 10 10) (9 / 2)
  unfold Spec.HalfHeights
  rw [hv, c1, c2, c3, norm_axis_x _ (by norm_num), norm_axis_y _ (by linarith), norm_axis_z _ (by linarith), abs_of_nonneg (by linarith)]
  refine ⟨?_, ?_, ?_⟩ <;> linarith

/-- The vectors to the atoms nearer than 9/2. -/
def ringVecs : List V3 := [⟨-4, 0, 0⟩, ⟨-3, 0, 0⟩, ⟨-2, 0, 0⟩, ⟨-1, 0, 0⟩, ⟨1, 0, 0⟩, ⟨2, 0, 0⟩, ⟨3, 0, 0⟩, ⟨4, 0, 0⟩]

theorem ringSys_vecs {N i : ℕ} (hN : 200 ≤ N) (hi : i < N) : ((cutoffNbs (ringSys N) (9 / 2) 0 i).map Nb.vec).Perm ringVecs := by
  have hF := ringSys_faithful hN
  rw [List.perm_ext_iff_of_nodup (vec_nodup hF 0 (ringSys_get hi)) (by unfold ringVecs; norm_num)]
  intro v
  have key := fun t => C92_neighbours hF (f := 0) (ringSys_get hi) v t
  have hcr : ∀ t, ((⟨(i : ℝ), 0, 0⟩ : V3) + v, t) ∈ Spec.crystal (ringSys N).box (ringSys N).atoms ↔
      (∃ a b c : ℤ, (⟨(i : ℝ), 0, 0⟩ : V3) + v = ⟨a, 10 * b, 10 * c⟩) ∧ t = ({ pos := 0 } : Atom).type := by
    intro t
    show (_, _) ∈ Spec.crystal (Spec.diagBox N 10 10) (ringAtoms N) ↔ _
    rw [ring_crystal (by omega)]
  have hnorm : V3.norm v < 9 / 2 ↔ v.x * v.x + v.y * v.y + v.z * v.z < 81 / 4 := by
    unfold V3.norm
    rw [Real.sqrt_lt' (by norm_num)]
    unfold V3.normSq
    norm_num
  constructor
  · intro hv
    obtain ⟨x, hx, rfl⟩ := List.mem_map.1 hv
    obtain ⟨h0, hn, -, hm⟩ := (key ((ringSys N).typeOf x.idx)).1 ⟨x, hx, rfl, rfl⟩
    obtain ⟨⟨p, q, w, e⟩, -⟩ := (hcr _).1 hm
    rw [V3.ext_iff] at e
    obtain ⟨e1, e2, e3⟩ := e
    simp at e1 e2 e3
    rw [hnorm] at hn
    have hx1 : x.vec.x = ((p - i : ℤ) : ℝ) := by push_cast; linarith
    have a1 := mul_self_nonneg x.vec.x
    have a2 := mul_self_nonneg x.vec.y
    have a3 := mul_self_nonneg x.vec.z
    have hq : q = 0 := by
      by_contra hne
      have : (1 : ℤ) ≤ q * q := by nlinarith [mul_self_pos.2 hne]
      have : (1 : ℝ) ≤ q * q := by exact_mod_cast this
      rw [e2] at hn
      nlinarith
    have hw : w = 0 := by
      by_contra hne
      have : (1 : ℤ) ≤ w * w := by nlinarith [mul_self_pos.2 hne]
      have : (1 : ℝ) ≤ w * w := by exact_mod_cast this
      rw [e3] at hn
      nlinarith
    have hz : (p - i) * (p - i) < 21 := by
      have : x.vec.x * x.vec.x < 21 := by linarith
      rw [hx1] at this
      exact_mod_cast this
    have h4 : p - i ≤ 4 ∧ -4 ≤ p - i := ⟨by nlinarith, by nlinarith⟩
    have hne : p - (i : ℤ) ≠ 0 := by
      intro h
      refine h0 (V3.ext ?_ ?_ ?_)
      · rw [hx1, h]; simp
      · rw [e2, hq]; simp
      · rw [e3, hw]; simp
    have hvec : x.vec = ⟨((p - i : ℤ) : ℝ), 0, 0⟩ := V3.ext hx1 (by rw [e2, hq]; simp) (by rw [e3, hw]; simp)
    rw [hvec]
    generalize p - (i : ℤ) = z at h4 hne
    obtain ⟨h4, h4'⟩ := h4
    unfold ringVecs
    interval_cases z <;> simp at hne ⊢
  · intro hv
    have hint : ∃ z : ℤ, z ≠ 0 ∧ -4 ≤ z ∧ z ≤ 4 ∧ v = ⟨(z : ℝ), 0, 0⟩ := by
      simp only [ringVecs, List.mem_cons, List.not_mem_nil, or_false] at hv
      rcases hv with rfl | rfl | rfl | rfl | rfl | rfl | rfl | rfl
      · exact ⟨-4, by norm_num⟩
      · exact ⟨-3, by norm_num⟩
      · exact ⟨-2, by norm_num⟩
      · exact ⟨-1, by norm_num⟩
      · exact ⟨1, by norm_num⟩
      · exact ⟨2, by norm_num⟩
      · exact ⟨3, by norm_num⟩
      · exact ⟨4, by norm_num⟩
    obtain ⟨z, h0, h1, h2, rfl⟩ := hint
    have hn : V3.norm ⟨(z : ℝ), 0, 0⟩ < 9 / 2 := by
      rw [hnorm]
      have : z * z ≤ 16 := by nlinarith
      have : (z : ℝ) * z ≤ 16 := by exact_mod_cast this
      simp only [mul_zero, add_zero]
      linarith
    obtain ⟨x, hx, e, -⟩ := (key ({ pos := 0 } : Atom).type).2 ⟨fun h => h0 (by rw [V3.ext_iff] at h; simpa using h.1), hn, rfl,
      (hcr _).2 ⟨⟨i + z, 0, 0, by ext <;> simp⟩, rfl⟩⟩
    exact List.mem_map.2 ⟨x, hx, e⟩

/-- A sorted list of all atoms in a ball is a list of nearest atoms. -/
theorem ball_nearest {s : System} {i : ℕ} {a : Atom} {r : ℝ} (hi : s.atoms[i]? = some a) {S : List Nb} (hp : S.Perm (cutoffNbs s r 0 i))
    (hs : S.Pairwise fun x y => x.dist ≤ y.dist) : Spec.NearestList s i a S.length S := by
  refine ⟨rfl, (hp.map _).nodup_iff.2 (ball_idx_nodup s r 0 i), fun x hx => ((mem_ball hi).1 (hp.mem_iff.1 hx)).1, hs, ?_⟩
  intro j nb hj hne hnot x hx
  have hxr := ((mem_ball hi).1 (hp.mem_iff.1 hx)).2
  by_contra hlt
  rw [not_le] at hlt
  have hd := distOf_eq hi hj
  have hin : s.mkNb i j ∈ cutoffNbs s r 0 i := by
    refine (mem_ball hi).2 ⟨⟨nb, hj, hne, hd.1, rfl, hd.2⟩, ?_⟩
    exact hd.1.trans_lt (hlt.trans hxr)
  exact hnot _ (hp.mem_iff.2 hin) rfl

/-- The eight nearest atoms. -/
theorem ringSys_nearest {N i : ℕ} (hN : 200 ≤ N) (hi : i < N) : ∃ S : List Nb, Spec.NearestList (ringSys N) i { pos := ⟨(i : ℝ), 0, 0⟩ } S.length S ∧
    S.map Nb.dist = [1, 1, 2, 2, 3, 3, 4, 4] ∧ S.Perm (cutoffNbs (ringSys N) (9 / 2) 0 i) := by
  have hdist : ∀ x ∈ cutoffNbs (ringSys N) (9 / 2) 0 i, x.dist = V3.norm x.vec := by
    intro x hx
    unfold cutoffNbs at hx
    obtain ⟨j, -, rfl⟩ := List.mem_map.1 hx
    rfl
  have hd : ((cutoffNbs (ringSys N) (9 / 2) 0 i).map Nb.dist).Perm [4, 3, 2, 1, 1, 2, 3, 4] := by
    have e : (cutoffNbs (ringSys N) (9 / 2) 0 i).map Nb.dist = ((cutoffNbs (ringSys N) (9 / 2) 0 i).map Nb.vec).map V3.norm := by
      rw [List.map_map]; exact List.map_congr_left hdist
    rw [e]
    refine ((ringSys_vecs hN hi).map V3.norm).trans (List.Perm.of_eq ?_)
    have neg : ∀ z : ℝ, 0 ≤ z → V3.norm ⟨-z, 0, 0⟩ = z := by
      intro z hz
      unfold V3.norm V3.normSq
      simp only [neg_mul_neg, mul_zero, add_zero]
      exact Real.sqrt_mul_self hz
    simp only [ringVecs, List.map_cons, List.map_nil]
    rw [neg 4 (by norm_num), neg 3 (by norm_num), neg 2 (by norm_num), neg 1 (by norm_num), norm_axis_x _ (by norm_num), norm_axis_x _ (by norm_num),
      norm_axis_x _ (by norm_num), norm_axis_x _ (by norm_num)]
  set S := (cutoffNbs (ringSys N) (9 / 2) 0 i).mergeSort (fun x y => decide (x.dist ≤ y.dist)) with hS
  have hp : S.Perm (cutoffNbs (ringSys N) (9 / 2) 0 i) := List.mergeSort_perm _ _
  have hs : S.Pairwise fun x y => x.dist ≤ y.dist := by
    have := List.pairwise_mergeSort (le := fun x y : Nb => decide (x.dist ≤ y.dist)) (fun a b c h1 h2 => by simp only [decide_eq_true_eq] at *; exact h1.trans h2)
      (fun a b => by simp only [Bool.or_eq_true, decide_eq_true_eq]; exact le_total _ _) (cutoffNbs (ringSys N) (9 / 2) 0 i)
    exact this.imp fun h => of_decide_eq_true h
  refine ⟨S, ball_nearest (ringSys_get hi) hp hs, ?_, hp⟩
  refine List.Perm.eq_of_pairwise (le := (· ≤ ·)) (fun a b _ _ => le_antisymm) (List.pairwise_map.2 hs) (by norm_num) ?_
  refine ((hp.map _).trans hd).trans ?_
  rw [List.perm_iff_count]
  intro x
  simp only [List.count_cons, List.count_nil]
  ring

theorem ringSys_sann (σ : StdSort) {N : ℕ} (hN : 200 ≤ N) (hN' : N ≤ 4000) : ∃ s', (ringSys N).findNeighbors σ 0 (.sann 2) = .ok s' := by
  have hr := (ringSys_real hN).1
  have hnat : (ringSys N).natoms = N := hr
  obtain ⟨hR, hbig⟩ := ringSys_radius hN
  have h9 : 9 / 2 ≤ (ringSys N).guessDist 2 := by
    have h3 : ((ringSys N).guessDist 2) ^ 3 = 800 := by
      have := hR
      unfold Spec.SearchRadius Spec.searchVolume at this
      rw [this, ringSys_len]
      have ht : (ringSys N).triclinic = false := rfl
      have hb : (ringSys N).box = Spec.diagBox N 10 10 := rfl
      have hNr : (0 : ℝ) < N := by exact_mod_cast (by omega : 0 < N)
      rw [ht, hb]
      simp only [Spec.diagBox, Bool.false_eq_true, if_false]
      rw [norm_axis_x _ hNr.le, norm_axis_y _ (by norm_num), norm_axis_z _ (by norm_num)]
      field_simp
      norm_num
    by_contra hc
    push Not at hc
    have : ((ringSys N).guessDist 2) ^ 3 < (9 / 2) ^ 3 := (Odd.strictMono_pow (by decide : Odd 3)) hc
    rw [h3] at this
    norm_num at this
  refine C14_succeeds σ (ringSys N) 0 2 _ (by norm_num) hR (by rw [hnat, ringSys_len]) (by
    rw [hnat, show decide (N > 4000) = false by simpa using hN']; exact exact_small) fun k a hk => ?_
  have hkN : k < N := by
    have := (mem_of_getElem? hk).1
    rwa [ringSys_len] at this
  rw [ringSys_get hkN] at hk
  obtain rfl := Option.some.inj hk
  obtain ⟨S, hS, hd, hp⟩ := ringSys_nearest hN hkN
  have hl : S.length = 8 := by
    have := congrArg List.length hd
    simpa using this
  refine ⟨S, 6, hS, fun x hx => (((mem_ball (ringSys_get hkN)).1 (hp.mem_iff.1 hx)).2).trans_le h9, by norm_num, by norm_num, by omega, ?_⟩
  have e1 : (S.take 3 ++ (S.drop 4).take (6 - 3)).map Nb.dist = [1, 1, 2, 3, 3, 4] := by
    rw [List.map_append, List.map_take, List.map_take, List.map_drop, hd]; rfl
  have e2 : S[6].dist = 4 := by
    have := congrArg (fun L : List ℝ => L[6]?) hd
    simp only [List.getElem?_map, List.getElem?_eq_getElem (show 6 < S.length by omega), Option.map_some] at this
    simpa using this
  rw [e1, e2]
  norm_num

/-- The hypotheses of `C92_sann` hold for lines of 200 and of 300 atoms. -/
example (σ : StdSort) (i k : ℕ) (hi : i < 200) (hk : k < 300) : ∃ s1 g1 a1 c1,
    (ringSys 200).findNeighbors σ 0 (.sann 2) = .ok s1 ∧ (ringSys 300).findNeighbors σ 0 (.sann 2) = .ok g1 ∧
    s1.atoms[i]? = some a1 ∧ g1.atoms[k]? = some c1 ∧ a1.nbrs.length = 6 ∧ c1.nbrs.map Nb.dist = a1.nbrs.map Nb.dist := by
  obtain ⟨s1, h1⟩ := ringSys_sann σ (N := 200) le_rfl (by norm_num)
  obtain ⟨g1, h2⟩ := ringSys_sann σ (N := 300) (by norm_num) (by norm_num)
  have ex : ∀ N : ℕ, 200 ≤ N → N ≤ 300 → (ringSys N).realNop ≤ 4000 := fun N h h' => by rw [(ringSys_real h).1]; omega
  have x1 := sann_exact_small (ex 200 le_rfl (by norm_num)) 2
  have x2 := sann_exact_small (ex 300 (by norm_num) le_rfl) 2
  have get : ∀ {N : ℕ} {w : System} (_ : (ringSys N).findNeighbors σ 0 (.sann 2) = .ok w) {j : ℕ} (_ : j < N), ∃ a, w.atoms[j]? = some a := by
    intro N w hw j hj
    have hl : w.atoms.length = N := by have := congrArg List.length (Kept.findNeighbors hw).atoms; rw [List.length_map, List.length_map] at this; rw [this, ringSys_len]
    exact ⟨_, List.getElem?_eq_getElem (by rw [hl]; exact hj)⟩
  obtain ⟨a1, ha⟩ := get h1 hi
  obtain ⟨c1, hc⟩ := get h2 hk
  -- six neighbours
  obtain ⟨S, hS, hd, hp⟩ := ringSys_nearest (N := 200) le_rfl hi
  have hl : S.length = 8 := by
    have := congrArg List.length hd
    simpa using this
  obtain ⟨S', m, hS', hpick, -⟩ := sann_pick x1 h1 (ringSys_get hi) ha
  have get' : ∀ n (h : n < S.length), S[n].dist = ([1, 1, 2, 2, 3, 3, 4, 4] : List ℝ)[n]'(by simp; omega) := by
    intro n h
    have := congrArg (fun L : List ℝ => L[n]?) hd
    simp only [List.getElem?_map, List.getElem?_eq_getElem h, Option.map_some, List.getElem?_eq_getElem (show n < ([1, 1, 2, 2, 3, 3, 4, 4] : List ℝ).length by simp; omega),
      Option.some.injEq] at this
    exact this
  have sel : ∀ j, (S.take 3 ++ (S.drop 4).take (j - 3)).map Nb.dist = ([1, 1, 2] : List ℝ) ++ ([3, 3, 4, 4] : List ℝ).take (j - 3) := by
    intro j
    rw [List.map_append, List.map_take, List.map_take, List.map_drop, hd]; rfl
  have hpS : SannPick S (S.take 3 ++ (S.drop 4).take 3) 6 := by
    refine ⟨by norm_num, by omega, rfl, ?_, fun j h3 h6 => ⟨by omega, ?_⟩⟩
    · have := sel 6
      rw [show (6 - 3) = 3 from rfl] at this
      rw [this, get']
      norm_num
    · rw [sel, get']
      interval_cases j <;> norm_num
  have hball : S.length ≤ (cutoffNbs (ringSys 200) (9 / 2) 0 i).length := hp.length_eq.le
  obtain ⟨e, -⟩ := sann_same (F := id) (F' := id) (δ := Nb.dist) (r := 9 / 2) (ringSys_get hi) (ringSys_get hi) (fun _ _ => rfl) (fun _ _ => rfl) (List.Perm.refl _) hS hS' hpS hpick (by omega)
  have h6 : a1.nbrs.length = 6 := by
    have := congrArg List.length e
    simp only [List.length_map] at this
    rw [this, hpS.length]
  refine ⟨s1, g1, a1, c1, h1, h2, ha, hc, h6, ?_⟩
  refine (C92_sann σ σ _ _ s1 g1 0 0 2 2 _ (ringSys_faithful le_rfl) (ringSys_faithful (by norm_num)) x1 x2 h1 h2 i k _ _ a1 c1 (ringSys_get hi) (ringSys_get hk)
    (ringSys_view le_rfl (by norm_num)) ha hc ?_).1
  rw [← cutoffList_length (ringSys_get hi) (cutoffNbs_spec (ringSys_get hi)), h6, ← hp.length_eq, hl]
  norm_num

/-- The hypotheses of `C77_sann` hold for a line of 200 atoms and its reversal. -/
example (σ : StdSort) : ∃ (π : Equiv.Perm ℕ) (A : List Atom), Spec.Reordered π (ringAtoms 200) (ringAtoms 200).reverse ∧ π 0 = 199 ∧ (∀ a ∈ ringAtoms 200, a.ghost = false) ∧
    searchAtoms σ (diagBox (200 : ℕ) 10 10) (ringAtoms 200) 0 (.sann 2) = .ok A := by
  have hlen : (ringAtoms 200).length = 200 := by simp [ringAtoms]
  obtain ⟨s1, h1⟩ := ringSys_sann σ (N := 200) le_rfl (by norm_num)
  have hr : s1.realNop ≤ s1.atoms.length := by
    have := congrArg List.length (Kept.findNeighbors h1).atoms
    rw [List.length_map, List.length_map] at this
    rw [(Kept.findNeighbors h1).realNop, this, (ringSys_real le_rfl).1, ringSys_len]
  refine ⟨⟨fun i => if i < 200 then 199 - i else i, fun i => if i < 200 then 199 - i else i, fun i => ?_, fun i => ?_⟩, s1.atoms.take s1.realNop,
    ⟨by rw [List.length_reverse], fun i => ?_, fun i hi => ?_⟩, rfl, fun a ha => ?_, ?_⟩
  · dsimp only; split_ifs <;> omega
  · dsimp only; split_ifs <;> omega
  · rw [hlen]
    change (if i < 200 then 199 - i else i) < 200 ↔ _
    split_ifs <;> omega
  · rw [hlen] at hi
    change (ringAtoms 200).reverse[if i < 200 then 199 - i else i]? = _
    rw [if_pos hi, List.getElem?_reverse (by rw [hlen]; omega), hlen]
    congr 1
    omega
  · obtain ⟨i, -, rfl⟩ := ring_mem ha; rfl
  · unfold searchAtoms
    rw [ringSys_build le_rfl]
    simp only [bind, Except.bind, h1, System.getAtoms, if_pos hr]

/-- The line of 201 atoms moved by one, the last atom put back into the cell. -/
noncomputable def ringMoved : List Atom := (List.range 201).map fun (i : ℕ) => { pos := ⟨(((i + 1) % 201 : ℕ) : ℝ), 0, 0⟩ }

theorem ringMoved_ok : Spec.Rewrapped (diagBox (201 : ℕ) 10 10) ⟨1, 0, 0⟩ (ringAtoms 201) ringMoved ∧ Spec.Compact (diagBox (201 : ℕ) 10 10) ringMoved ∧
    Spec.NoHalfCell (diagBox (201 : ℕ) 10 10) (ringAtoms 201) := by
  have hof : ∀ f, ofFrac (diagBox (201 : ℕ) 10 10) f = ⟨201 * f.x, 10 * f.y, 10 * f.z⟩ := by
    intro f; ext <;> simp [ofFrac, diagBox] <;> ring
  refine ⟨?_, compact_of_inside fun a ha => ?_, fun a ha a' ha' f hf n => ?_⟩
  · unfold Spec.Rewrapped ringMoved ringAtoms
    rw [List.forall₂_map_left_iff, List.forall₂_map_right_iff]
    refine List.forall₂_same.2 fun i hi => ?_
    have hi := List.mem_range.1 hi
    by_cases h : i = 200
    · subst h
      refine ⟨rfl, rfl, -1, 0, 0, ?_⟩
      ext <;> simp [latticeVec, diagBox]
      norm_num
    · refine ⟨rfl, rfl, 0, 0, 0, ?_⟩
      have : (i + 1) % 201 = i + 1 := Nat.mod_eq_of_lt (by omega)
      ext <;> simp [latticeVec, diagBox, this]
  · obtain ⟨i, -, rfl⟩ := List.mem_map.1 ha
    have h1 : (i + 1) % 201 < 201 := Nat.mod_lt _ (by norm_num)
    have h2 : (((i + 1) % 201 : ℕ) : ℝ) < 201 := by exact_mod_cast h1
    have h3 : (0 : ℝ) ≤ (((i + 1) % 201 : ℕ) : ℝ) := Nat.cast_nonneg _
    refine ⟨⟨(((i + 1) % 201 : ℕ) : ℝ) / 201, 0, 0⟩, ?_, ⟨by positivity, by dsimp only; linarith⟩, by norm_num, by norm_num⟩
    rw [hof]
    ext <;> simp only [mul_zero]
    ring
  · obtain ⟨i, hi, rfl⟩ := ring_mem ha
    obtain ⟨k, hk, rfl⟩ := ring_mem ha'
    rw [hof] at hf
    have ex := congrArg V3.x hf
    have ey := congrArg V3.y hf
    have ez := congrArg V3.z hf
    simp at ex ey ez
    refine ⟨fun e => ?_, fun e => ?_, fun e => ?_⟩
    · rw [e] at ex
      have h2 : (2 * ((k : ℤ) - i) : ℝ) = ((201 * (2 * n + 1) : ℤ) : ℝ) := by push_cast; linarith
      have h3 : 2 * ((k : ℤ) - i) = 201 * (2 * n + 1) := by exact_mod_cast h2
      omega
    · rw [e] at ey
      have h2 : ((2 * n + 1 : ℤ) : ℝ) = 0 := by push_cast; linarith
      have h3 : 2 * n + 1 = 0 := by exact_mod_cast h2
      omega
    · rw [e] at ez
      have h2 : ((2 * n + 1 : ℤ) : ℝ) = 0 := by push_cast; linarith
      have h3 : 2 * n + 1 = 0 := by exact_mod_cast h2
      omega

/-- The hypotheses of `C78_sann` and `C78_number` hold for a line of 201 atoms moved by one. -/
example (σ : StdSort) : ∃ A B : List Atom, searchAtoms σ (diagBox (201 : ℕ) 10 10) (ringAtoms 201) 0 (.sann 2) = .ok A ∧
    searchAtoms σ (diagBox (201 : ℕ) 10 10) ringMoved 0 (.sann 2) = .ok B ∧
    ∀ (i : ℕ) (x y : Atom), A[i]? = some x → B[i]? = some y → y.nbrs.map Nb.dist = x.nbrs.map Nb.dist := by
  obtain ⟨hw, hc', hh⟩ := ringMoved_ok
  have hc : Spec.Compact (diagBox (201 : ℕ) 10 10) (ringAtoms 201) := (ring_ok (by norm_num)).1
  have hreal : ∀ a ∈ ringAtoms 201, a.ghost = false := fun a ha => by obtain ⟨i, -, rfl⟩ := ring_mem ha; rfl
  have hreal' : ∀ a ∈ ringMoved, a.ghost = false := fun a ha => by obtain ⟨i, -, rfl⟩ := List.mem_map.1 ha; rfl
  have hl : (ringAtoms 201).length = 201 := by simp [ringAtoms]
  have hl' : ringMoved.length = 201 := by simp [ringMoved]
  have hbox : Spec.Skew (diagBox (201 : ℕ) 10 10) ∨ ∃ lx ly lz, 0 < lx ∧ 0 < ly ∧ 0 < lz ∧ diagBox (201 : ℕ) 10 10 = diagBox lx ly lz :=
    .inr ⟨_, _, _, by norm_num, by norm_num, by norm_num, rfl⟩
  have small : ∀ {l : List Atom} (_ : ∀ a ∈ l, a.ghost = false) (_ : l.length = 201) {s : System} (_ : buildSystem (diagBox (201 : ℕ) 10 10) l = .ok s), s.realNop ≤ 4000 := by
    intro l hr hl s hs
    rw [(build_length hr hs).2.1, hl]; norm_num
  obtain ⟨s1, h1⟩ := ringSys_sann σ (N := 201) (by norm_num) (by norm_num)
  have hbuild := ringSys_build (N := 201) (by norm_num)
  have hr : s1.realNop ≤ s1.atoms.length := by
    have := congrArg List.length (Kept.findNeighbors h1).atoms
    rw [List.length_map, List.length_map] at this
    rw [(Kept.findNeighbors h1).realNop, this, (ringSys_real (by norm_num)).1, ringSys_len]
  have hA : searchAtoms σ (diagBox (201 : ℕ) 10 10) (ringAtoms 201) 0 (.sann 2) = .ok (s1.atoms.take s1.realNop) := by
    unfold searchAtoms
    rw [hbuild]
    simp only [bind, Except.bind, h1, System.getAtoms, if_pos hr]
  -- the moved atoms
  have hB : ∃ B, searchAtoms σ (diagBox (201 : ℕ) 10 10) ringMoved 0 (.sann 2) = .ok B := by
    have hrel := C78_wrapping_partial σ _ hbox _ _ _ hw (by rw [hl]; norm_num) hc hc' hh 0 (.sann 2) (fun s hs => small hreal hl hs) [] false
    have hq : ∃ A0, analyse σ (diagBox (201 : ℕ) 10 10) (ringAtoms 201) 0 (.sann 2) [] false = .ok A0 := by
      have hin : s1.NbrsInRange := by
        intro a' ha' x hx
        obtain ⟨k, hk'⟩ := List.mem_iff_getElem?.1 ha'
        have hlen := congrArg List.length (Kept.findNeighbors h1).atoms
        rw [List.length_map, List.length_map] at hlen
        have hk : k < (ringSys 201).atoms.length := by rw [← hlen]; exact (List.getElem?_eq_some_iff.1 hk').1
        obtain ⟨S, m, hS, -, -, e, -⟩ := (C14_partial σ _ _ 0 2 (sann_exact_small (by rw [(ringSys_real (by norm_num)).1]; norm_num) 2) h1).2 k _ a'
          (List.getElem?_eq_getElem hk) hk'
        have hxS : x ∈ S := by
          rw [e] at hx
          rcases List.mem_append.1 hx with h | h
          · exact List.mem_of_mem_take h
          · exact List.mem_of_mem_drop (List.mem_of_mem_take h)
        obtain ⟨b, hb, -⟩ := hS.2.2.1 x hxS
        rw [hlen]
        exact (List.getElem?_eq_some_iff.1 hb).1
      unfold analyse
      rw [hbuild]
      simp only [bind, Except.bind, h1]
      unfold System.calculateQ
      rw [if_neg (by simp [qRange])]
      simp only [bind, Except.bind, Bool.not_false, if_true, List.map_nil, ccalculateQ_eq s1 [] hin, Bool.or_self, Bool.false_eq_true, if_false, System.getAtoms]
      rw [if_pos (by simpa [System.afterQ] using hr)]
      exact ⟨_, rfl⟩
    obtain ⟨A0, hq⟩ := hq
    rw [hq] at hrel
    rcases hB : analyse σ (diagBox (201 : ℕ) 10 10) ringMoved 0 (.sann 2) [] false with e | B
    · rw [hB] at hrel; exact hrel.elim
    unfold analyse at hB
    unfold searchAtoms
    rcases h2 : buildSystem (diagBox (201 : ℕ) 10 10) ringMoved with e | g
    · rw [h2] at hB; cases hB
    rw [h2] at hB
    simp only [bind, Except.bind] at hB ⊢
    rcases h3 : g.findNeighbors σ 0 (.sann 2) with e | g1
    · rw [h3] at hB; cases hB
    dsimp only
    have hle := (build_length hreal' h2).2.2
    unfold System.getAtoms
    have := congrArg List.length (Kept.findNeighbors h3).atoms
    rw [List.length_map, List.length_map] at this
    rw [if_pos (by rw [(Kept.findNeighbors h3).realNop, this]; exact hle)]
    exact ⟨_, rfl⟩
  obtain ⟨B, hB⟩ := hB
  refine ⟨_, B, hA, hB, fun i x y hx hy => ?_⟩
  have hi : i < 201 := by
    have := (take_getElem?_some hx).1
    rwa [(Kept.findNeighbors h1).realNop, (ringSys_real (by norm_num)).1] at this
  exact (C78_sann σ _ hbox _ _ _ B _ hw hreal hc hc' hh 0 2 (fun s hs => sann_exact_small (small hreal hl hs) 2) (fun s hs => sann_exact_small (small hreal' hl' hs) 2)
    hA hB _ hbuild i _ x y (ringSys_get hi) hx hy).1

end Pyscal
