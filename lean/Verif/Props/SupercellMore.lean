import Verif.Props.Supercell
import Verif.Props.NumberCells
import Verif.Lemmas.PerfectCna

/-! C92 for the searches without a cutoff: the nearest atoms and the adaptive cutoff do not depend on the cell that was chosen to
describe a crystal. -/

namespace Pyscal

/-! ### Lists of nearest atoms -/

section
variable {s g : System} {i k n : ℕ} {a c : Atom} {N M : List Nb} {r : ℝ}

/-- The atoms in a ball are those of the list, if there are that many, and others, none of them nearer. -/
theorem ball_split (hN : Spec.NearestList s i a n N) (hi : s.atoms[i]? = some a) (hn : n ≤ (cutoffNbs s r 0 i).length) :
    ∃ rest, (cutoffNbs s r 0 i).Perm (N ++ rest) ∧ ∀ x ∈ N, ∀ y ∈ rest, x.dist ≤ y.dist := by
  classical
  have hsub := nearest_ball hN hi hn
  have nd : (cutoffNbs s r 0 i).Nodup := List.Nodup.of_map _ (ball_idx_nodup s r 0 i)
  have ndN : N.Nodup := List.Nodup.of_map _ hN.2.1
  refine ⟨(cutoffNbs s r 0 i).filter fun x => decide (x ∉ N), ?_, fun x hx y hy => ?_⟩
  · rw [List.perm_ext_iff_of_nodup nd]
    · intro x
      rw [List.mem_append, List.mem_filter, decide_eq_true_eq]
      have := hsub x
      tauto
    · refine List.Nodup.append ndN (nd.filter _) ?_
      intro x hx hx'
      exact of_decide_eq_true (List.mem_filter.1 hx').2 hx
  · obtain ⟨h1, h2⟩ := List.mem_filter.1 hy
    exact not_listed hN hi h1 (of_decide_eq_true h2) x hx

theorem take_of_split {l m D : List ℝ} (h : D.Perm (l ++ m)) (hl : l.Pairwise (· ≤ ·)) (hm : ∀ x ∈ l, ∀ y ∈ m, x ≤ y) :
    l = (D.mergeSort (fun x y => decide (x ≤ y))).take l.length := by
  have hs : ∀ w : List ℝ, (w.mergeSort (fun x y => decide (x ≤ y))).Pairwise (· ≤ ·) := by
    intro w
    have := List.pairwise_mergeSort (le := fun x y : ℝ => decide (x ≤ y)) (fun a b c h1 h2 => by simp only [decide_eq_true_eq] at *; exact h1.trans h2)
      (fun a b => by simp only [Bool.or_eq_true, decide_eq_true_eq]; exact le_total a b) w
    exact this.imp fun h => of_decide_eq_true h
  have e : D.mergeSort (fun x y => decide (x ≤ y)) = l ++ m.mergeSort (fun x y => decide (x ≤ y)) := by
    refine List.Perm.eq_of_pairwise (le := (· ≤ ·)) (fun a b _ _ => le_antisymm) (hs D) ?_ ?_
    · refine List.pairwise_append.2 ⟨hl, hs m, fun x hx y hy => hm x hx y ((List.mergeSort_perm _ _).mem_iff.1 hy)⟩
    · exact ((List.mergeSort_perm _ _).trans h).trans ((List.mergeSort_perm m _).symm.append_left l)
  rw [e, List.take_left]

/-- Lists of as many nearest atoms, of two atoms with the same view, have the same distances. -/
theorem nearest_dists (hF : Spec.Faithful s r) (hG : Spec.Faithful g r) (hi : s.atoms[i]? = some a) (hk : g.atoms[k]? = some c)
    (hV : Spec.SameView s a g c) (hN : Spec.NearestList s i a n N) (hM : Spec.NearestList g k c n M) (hn : n ≤ (cutoffNbs s r 0 i).length) :
    M.map Nb.dist = N.map Nb.dist := by
  have hP := view_perm hF hG 0 hi hk hV
  have hn' : n ≤ (cutoffNbs g r 0 k).length := by
    have := hP.length_eq
    rw [List.length_map, List.length_map] at this
    rw [this]; exact hn
  have dist : ∀ {t : System} {j : ℕ}, (cutoffNbs t r 0 j).map Nb.dist = ((cutoffNbs t r 0 j).map (placed t)).map fun p => V3.norm p.1 := by
    intro t j
    rw [List.map_map]
    unfold cutoffNbs
    rw [List.map_map, List.map_map]
    rfl
  have hD : ((cutoffNbs g r 0 k).map Nb.dist).Perm ((cutoffNbs s r 0 i).map Nb.dist) := by
    rw [dist, dist]
    exact hP.map _
  obtain ⟨rest, p1, p2⟩ := ball_split hN hi hn
  obtain ⟨rest', q1, q2⟩ := ball_split hM hk hn'
  have l1 : N.length = n := hN.1
  have l2 : M.length = n := hM.1
  have e1 := take_of_split (l := N.map Nb.dist) (m := rest.map Nb.dist) (D := (cutoffNbs s r 0 i).map Nb.dist)
    (by have := p1.map Nb.dist; rwa [List.map_append] at this) (List.pairwise_map.2 hN.2.2.2.1) (by simpa using p2)
  have e2 := take_of_split (l := M.map Nb.dist) (m := rest'.map Nb.dist) (D := (cutoffNbs s r 0 i).map Nb.dist)
    (by have := hD.symm.trans (q1.map Nb.dist); rwa [List.map_append] at this) (List.pairwise_map.2 hM.2.2.2.1) (by simpa using q2)
  rw [e1, e2, List.length_map, List.length_map, l1, l2]

/-- Atoms nearer than the last one of the list are in both lists. -/
theorem nearest_inner (hF : Spec.Faithful s r) (hG : Spec.Faithful g r) (hi : s.atoms[i]? = some a) (hk : g.atoms[k]? = some c)
    (hV : Spec.SameView s a g c) (hN : Spec.NearestList s i a n N) (hM : Spec.NearestList g k c n M) (hn : n ≤ (cutoffNbs s r 0 i).length)
    {x y : Nb} (hx : x ∈ N) (hy : y ∈ N) (hxy : x.dist < y.dist) : ∃ z ∈ M, z.vec = x.vec ∧ g.typeOf z.idx = s.typeOf x.idx := by
  have hP := view_perm hF hG 0 hi hk hV
  have hxb := nearest_ball hN hi hn x hx
  have : placed s x ∈ (cutoffNbs g r 0 k).map (placed g) := hP.mem_iff.2 (List.mem_map_of_mem hxb)
  obtain ⟨z, hz, e⟩ := List.mem_map.1 this
  simp only [placed, Prod.mk.injEq] at e
  refine ⟨z, ?_, e.1, e.2⟩
  by_contra hnot
  have h1 := not_listed hM hk hz hnot
  have hd := nearest_dists hF hG hi hk hV hN hM hn
  have : y.dist ∈ M.map Nb.dist := by rw [hd]; exact List.mem_map_of_mem hy
  obtain ⟨w, hw, ew⟩ := List.mem_map.1 this
  have h2 := h1 w hw
  have hzd : z.dist = V3.norm z.vec := by
    unfold cutoffNbs at hz
    obtain ⟨j, -, rfl⟩ := List.mem_map.1 hz
    rfl
  have hxd : x.dist = V3.norm x.vec := by
    unfold cutoffNbs at hxb
    obtain ⟨j, -, rfl⟩ := List.mem_map.1 hxb
    rfl
  rw [hzd, e.1, ← hxd, ew] at h2
  linarith

theorem enough_near (hN : Spec.NearestList s i a n N) (hi : s.atoms[i]? = some a) (hr : ∀ x ∈ N, x.dist < r) : n ≤ (cutoffNbs s r 0 i).length := by
  have : N.Subperm (cutoffNbs s r 0 i) := List.Nodup.subperm (List.Nodup.of_map _ hN.2.1) fun x hx => (mem_ball hi).2 ⟨hN.2.2.1 x hx, hr x hx⟩
  rw [← hN.1]
  exact this.length_le

theorem cutoffList_perm {f : ℕ} {l : List Nb} (hi : s.atoms[i]? = some a) (h : Spec.CutoffList s r f i a l) : l.Perm (cutoffNbs s r f i) := by
  have hc := cutoffNbs_spec (r := r) (f := f) hi
  have eq : ∀ {l l' : List Nb} (_ : Spec.CutoffList s r f i a l) (_ : Spec.CutoffList s r f i a l'), ∀ x ∈ l, x ∈ l' := by
    intro l l' h h' x hx
    obtain ⟨nb, h1, h2, h3, h4, h5⟩ := h.2.2 x hx
    obtain ⟨y, hy, e⟩ := h'.2.1 x.idx nb h1 h2
    obtain ⟨nb', k1, -, k3, k4, k5⟩ := h'.2.2 y hy
    rw [e, h1] at k1
    obtain rfl := Option.some.inj k1
    have : x = y := by
      cases x; cases y
      simp only at *
      simp [h3, h4, h5, k3, k4, k5, e]
    rwa [this]
  rw [List.perm_ext_iff_of_nodup (List.Nodup.of_map _ h.1) (List.Nodup.of_map _ hc.1)]
  exact fun x => ⟨eq h hc x, eq hc h x⟩

end

/-! ### The results -/

/-- **C92, number of neighbours**: two atoms, in the same or in different systems, that see the same infinite crystal get the same
distances of their `n` nearest neighbours, and the same neighbours except for a choice among those at the largest distance, if the
`n` atoms found for one of them are in the range where the systems are faithful. -/
theorem C92_number (σ σ' : StdSort) (s g s1 g1 : System) (f f' n : ℕ) (t t' r : ℝ) (hF : Spec.Faithful s r) (hG : Spec.Faithful g r)
    (hs : Spec.SearchExact s (decide (s.realNop > 4000)) t) (hg : Spec.SearchExact g (decide (g.realNop > 4000)) t')
    (h1 : s.findNeighbors σ f (.number t n true) = .ok s1) (h2 : g.findNeighbors σ' f' (.number t' n true) = .ok g1)
    (i k : ℕ) (a c a1 c1 : Atom) (hi : s.atoms[i]? = some a) (hk : g.atoms[k]? = some c) (hV : Spec.SameView s a g c)
    (hi1 : s1.atoms[i]? = some a1) (hk1 : g1.atoms[k]? = some c1) (hr : ∀ x ∈ a1.nbrs, x.dist < r) :
    c1.nbrs.map Nb.dist = a1.nbrs.map Nb.dist ∧
    ∀ x ∈ a1.nbrs, (∃ y ∈ a1.nbrs, x.dist < y.dist) → ∃ z ∈ c1.nbrs, z.vec = x.vec ∧ (g.mem z.idx).type = (s.mem x.idx).type := by
  have hN := ((C12_partial σ s s1 f t n hs h1).2.2 i a a1 hi hi1).1
  have hM := ((C12_partial σ' g g1 f' t' n hg h2).2.2 k c c1 hk hk1).1
  have hn := enough_near hN hi hr
  refine ⟨nearest_dists hF hG hi hk hV hN hM hn, ?_⟩
  rintro x hx ⟨y, hy, hxy⟩
  exact nearest_inner hF hG hi hk hV hN hM hn hx hy hxy

/-- **C92, adaptive cutoff**: two atoms, in the same or in different systems, that see the same infinite crystal get the same cutoff and
the same neighbours from the adaptive search, if `nlimit` atoms and the cutoff of one of them are in the range where the systems are
faithful, and the cutoff is within the search radii. -/
theorem C92_adaptive (σ σ' : StdSort) (s g s1 g1 : System) (f nlimit : ℕ) (t t' padding r R R' : ℝ) (hF : Spec.Faithful s r) (hG : Spec.Faithful g r)
    (hs : Spec.SearchExact s (decide (s.nop > 4000)) t) (hg : Spec.SearchExact g (decide (g.nop > 4000)) t')
    (hR : Spec.SearchRadius s t R) (hR' : Spec.SearchRadius g t' R')
    (h1 : s.findNeighbors σ f (.adaptive t nlimit padding) = .ok s1) (h2 : g.findNeighbors σ' f (.adaptive t' nlimit padding) = .ok g1)
    (i k : ℕ) (a c a1 c1 : Atom) (hi : s.atoms[i]? = some a) (hk : g.atoms[k]? = some c) (hV : Spec.SameView s a g c)
    (hi1 : s1.atoms[i]? = some a1) (hk1 : g1.atoms[k]? = some c1) (hn : nlimit ≤ (Spec.nearSet s r 0 i).ncard)
    (cut : ℝ) (hcut : a1.cutoff = some cut) (hne : a1.nbrs ≠ []) (hr : cut ≤ r) (hcR : cut ≤ R) (hcR' : cut ≤ R') :
    c1.cutoff = some cut ∧
    (c1.nbrs.map fun x => (x.vec, x.dist, x.weight, (g.mem x.idx).type)).Perm (a1.nbrs.map fun x => (x.vec, x.dist, x.weight, (s.mem x.idx).type)) := by
  obtain ⟨⟨N, d, hN, hd, -, -, -, hset⟩, hcl⟩ := (C13_partial σ s s1 f t R hR nlimit padding hs h1).2.2 i a a1 hi hi1
  obtain ⟨⟨M, d', hM, hd', -, -, hall', hset'⟩, hcl'⟩ := (C13_partial σ' g g1 f t' R' hR' nlimit padding hg h2).2.2 k c c1 hk hk1
  have hn' : nlimit ≤ (cutoffNbs s r 0 i).length := by
    rw [cutoffList_length hi (cutoffNbs_spec hi)]; exact hn
  have hdd := nearest_dists hF hG hi hk hV hN hM hn'
  have hdc : d = cut := by
    have := hset hne
    rw [hcut] at this
    exact (Option.some.inj this).symm
  have hd'c : d' = cut := by rw [hd', hdd, ← hd, hdc]
  have p1 := cutoffList_perm hi (hcl cut hcut hne hcR)
  have hP := view_perm (hF.anti hr) (hG.anti hr) f hi hk hV
  have hne' : c1.nbrs ≠ [] := by
    obtain ⟨x, hx⟩ := List.exists_mem_of_ne_nil _ hne
    have : placed s x ∈ (cutoffNbs g cut f k).map (placed g) := hP.mem_iff.2 (List.mem_map_of_mem (p1.mem_iff.1 hx))
    obtain ⟨z, hz, -⟩ := List.mem_map.1 this
    obtain ⟨nb, k1, k2, -⟩ := (cutoffNbs_spec (r := cut) (f := f) hk).2.2 z hz
    obtain ⟨w, hw, -⟩ := hall' z.idx nb k1 (by rw [hd'c]; exact k2) (lt_of_lt_of_le k2.2.1 hcR')
    exact List.ne_nil_of_mem hw
  have hc' : c1.cutoff = some cut := by rw [hset' hne', hd'c]
  refine ⟨hc', ?_⟩
  have p2 := cutoffList_perm hk (hcl' cut hc' hne' hcR')
  have e : ∀ {u : System} {j : ℕ}, (cutoffNbs u cut f j).map (fun x => (x.vec, x.dist, x.weight, (u.mem x.idx).type)) =
      ((cutoffNbs u cut f j).map (placed u)).map fun p => (p.1, V3.norm p.1, 1, p.2) := by
    intro u j
    unfold cutoffNbs
    rw [List.map_map, List.map_map, List.map_map]
    rfl
  refine ((p2.map _).trans ?_).trans (p1.map _).symm
  rw [e, e]
  exact hP.map _

/-! ### A concrete case -/

/-- The system of `N` atoms at unit distance along a periodic line. -/
noncomputable def ringSys (N : ℕ) : System := System.setAtoms { System.init with box := Spec.diagBox N 10 10 } (ringAtoms N)

theorem ringSys_build {N : ℕ} (hN : 200 ≤ N) : buildSystem (Spec.diagBox N 10 10) (ringAtoms N) = .ok (ringSys N) := by
  have hb : System.init.setBox (Spec.diagBox N 10 10) = .ok { System.init with box := Spec.diagBox N 10 10 } := by
    simp [System.setBox, not_skewed_diag]
  unfold buildSystem
  rw [hb]
  exact if_neg (by simp [ringAtoms]; omega)

theorem ringSys_get {N i : ℕ} (h : i < N) : (ringSys N).atoms[i]? = some { pos := ⟨(i : ℝ), 0, 0⟩ } := by
  show (ringAtoms N)[i]? = _
  unfold ringAtoms
  rw [List.getElem?_map, List.getElem?_range h]; rfl

theorem ringSys_len (N : ℕ) : (ringSys N).atoms.length = N := by
  show (ringAtoms N).length = N
  simp [ringAtoms]

theorem ringSys_real {N : ℕ} (hN : 200 ≤ N) : (ringSys N).realNop = N ∧ Spec.Faithful (ringSys N) (5 / 2) := by
  have hN' : (0 : ℝ) < N := by exact_mod_cast (by omega : 0 < N)
  obtain ⟨p1, p2, p3, p4, p5, p6⟩ := build_props (.inr ⟨N, 10, 10, hN', by norm_num, by norm_num, rfl⟩)
    (fun a ha => by obtain ⟨i, -, rfl⟩ := ring_mem ha; rfl) (ring_ok hN).1 (ring_ok hN).2.1 (ringSys_build hN)
  exact ⟨by rw [p5]; simp [ringAtoms], p1.faithful p2 p3 (ring_ok hN).2.2⟩

theorem ringSys_view {N M i k : ℕ} (hN : 200 ≤ N) (hM : 200 ≤ M) :
    Spec.SameView (ringSys N) { pos := ⟨(i : ℝ), 0, 0⟩ } (ringSys M) { pos := ⟨(k : ℝ), 0, 0⟩ } := by
  refine ⟨rfl, fun v t => ?_⟩
  show (_, t) ∈ Spec.crystal (Spec.diagBox M 10 10) (ringAtoms M) ↔ (_, t) ∈ Spec.crystal (Spec.diagBox N 10 10) (ringAtoms N)
  rw [ring_crystal (by omega), ring_crystal (by omega)]
  refine and_congr_left fun _ => ⟨?_, ?_⟩
  · rintro ⟨a, b, c, e⟩
    rw [V3.ext_iff] at e
    simp at e
    exact ⟨i - k + a, b, c, by ext <;> simp [e.2.1, e.2.2]; linarith [e.1]⟩
  · rintro ⟨a, b, c, e⟩
    rw [V3.ext_iff] at e
    simp at e
    exact ⟨k - i + a, b, c, by ext <;> simp [e.2.1, e.2.2]; linarith [e.1]⟩

/-- Four atoms are nearer than 2.05, none nearer than 1, and two at the distance 1. -/
theorem ringSys_ball {N i : ℕ} (hN : 200 ≤ N) (hi : i < N) (ρ : ℝ) (h2 : 2 < ρ) (hρ : ρ ≤ 5 / 2) :
    4 ≤ (cutoffNbs (ringSys N) ρ 0 i).length ∧ (∀ x ∈ cutoffNbs (ringSys N) ρ 0 i, 1 ≤ x.dist) ∧ ∃ x ∈ cutoffNbs (ringSys N) ρ 0 i, x.dist = 1 := by
  have hF := (ringSys_real hN).2.anti hρ
  have key := fun v => C92_neighbours hF (f := 0) (ringSys_get hi) v ({ pos := 0 } : Atom).type
  have hv : ∀ z : ℤ, z ≠ 0 → -2 ≤ z → z ≤ 2 → ∃ x ∈ cutoffNbs (ringSys N) ρ 0 i, x.vec = ⟨(z : ℝ), 0, 0⟩ := by
    intro z h0 h1 h2'
    have hn : V3.norm ⟨(z : ℝ), 0, 0⟩ < ρ := by
      refine lt_of_le_of_lt ?_ h2
      rw [← Real.sqrt_sq (show (0 : ℝ) ≤ 2 by norm_num)]
      unfold V3.norm
      refine Real.sqrt_le_sqrt ?_
      have a1 : (-2 : ℝ) ≤ z := by exact_mod_cast h1
      have a2 : (z : ℝ) ≤ 2 := by exact_mod_cast h2'
      simp only [V3.normSq]
      nlinarith
    have hm : ((⟨(i : ℝ), 0, 0⟩ : V3) + ⟨(z : ℝ), 0, 0⟩, ({ pos := 0 } : Atom).type) ∈ Spec.crystal (ringSys N).box (ringSys N).atoms := by
      show (_, _) ∈ Spec.crystal (Spec.diagBox N 10 10) (ringAtoms N)
      rw [ring_crystal (by omega)]
      exact ⟨⟨i + z, 0, 0, by ext <;> simp⟩, rfl⟩
    obtain ⟨x, hx, e, -⟩ := (key ⟨(z : ℝ), 0, 0⟩).2 ⟨fun h => h0 (by rw [V3.ext_iff] at h; simpa using h.1), hn, rfl, hm⟩
    exact ⟨x, hx, e⟩
  have hdist : ∀ x ∈ cutoffNbs (ringSys N) ρ 0 i, x.dist = V3.norm x.vec := by
    intro x hx
    unfold cutoffNbs at hx
    obtain ⟨j, -, rfl⟩ := List.mem_map.1 hx
    rfl
  refine ⟨?_, fun x hx => ?_, ?_⟩
  · have hsub : ([⟨-2, 0, 0⟩, ⟨-1, 0, 0⟩, ⟨1, 0, 0⟩, ⟨2, 0, 0⟩] : List V3).Subperm ((cutoffNbs (ringSys N) ρ 0 i).map Nb.vec) := by
      refine List.Nodup.subperm (by norm_num) ?_
      intro v hv'
      simp only [List.mem_cons, List.not_mem_nil, or_false] at hv'
      rcases hv' with rfl | rfl | rfl | rfl
      · obtain ⟨x, hx, e⟩ := hv (-2) (by norm_num) (by norm_num) (by norm_num)
        exact List.mem_map.2 ⟨x, hx, by rw [e]; norm_num⟩
      · obtain ⟨x, hx, e⟩ := hv (-1) (by norm_num) (by norm_num) (by norm_num)
        exact List.mem_map.2 ⟨x, hx, by rw [e]; norm_num⟩
      · obtain ⟨x, hx, e⟩ := hv 1 (by norm_num) (by norm_num) (by norm_num)
        exact List.mem_map.2 ⟨x, hx, by rw [e]; norm_num⟩
      · obtain ⟨x, hx, e⟩ := hv 2 (by norm_num) (by norm_num) (by norm_num)
        exact List.mem_map.2 ⟨x, hx, by rw [e]; norm_num⟩
    simpa using hsub.length_le
  · obtain ⟨h0, -, -, hm⟩ := (C92_neighbours hF (f := 0) (ringSys_get hi) x.vec ((ringSys N).typeOf x.idx)).1 ⟨x, hx, rfl, rfl⟩
    change (_, _) ∈ Spec.crystal (Spec.diagBox N 10 10) (ringAtoms N) at hm
    rw [ring_crystal (by omega)] at hm
    obtain ⟨⟨p, q, w, e⟩, -⟩ := hm
    rw [V3.ext_iff] at e
    obtain ⟨e1, e2, e3⟩ := e
    simp at e1 e2 e3
    rw [hdist x hx]
    unfold V3.norm
    rw [Real.le_sqrt' one_pos]
    have hx1 : x.vec.x = ((p - i : ℤ) : ℝ) := by push_cast; linarith
    have hne : (p - i : ℤ) ≠ 0 ∨ q ≠ 0 ∨ w ≠ 0 := by
      by_contra hc
      push Not at hc
      refine h0 (V3.ext ?_ ?_ ?_)
      · rw [hx1, hc.1]; simp
      · rw [e2, hc.2.1]; simp
      · rw [e3, hc.2.2]; simp
    have sq : ∀ z : ℤ, z ≠ 0 → (1 : ℝ) ≤ (z : ℝ) ^ 2 := by
      intro z hz
      have : (1 : ℤ) ≤ z ^ 2 := by
        have := sq_nonneg z
        have h3 : z ^ 2 ≠ 0 := pow_ne_zero 2 hz
        omega
      exact_mod_cast this
    have hn : V3.normSq x.vec = ((p - i : ℤ) : ℝ) ^ 2 + 100 * (q : ℝ) ^ 2 + 100 * (w : ℝ) ^ 2 := by
      simp only [V3.normSq, hx1, e2, e3]; ring
    rw [hn]
    have a1 := sq_nonneg ((p - i : ℤ) : ℝ)
    have a2 := sq_nonneg (q : ℝ)
    have a3 := sq_nonneg (w : ℝ)
    rcases hne with h | h | h
    · linarith [sq _ h]
    · linarith [sq _ h]
    · linarith [sq _ h]
  · obtain ⟨x, hx, e⟩ := hv 1 (by norm_num) (by norm_num) (by norm_num)
    refine ⟨x, hx, ?_⟩
    rw [hdist x hx, e, norm_axis_x _ (by norm_num)]
    norm_num

theorem count_ball {s : System} {i : ℕ} {a : Atom} (hi : s.atoms[i]? = some a) {ρ R : ℝ} (h : ρ ≤ R) :
    (cutoffNbs s ρ 0 i).length ≤ Spec.countWithin s R i := by
  have hc := cutoffNbs_spec (r := ρ) (f := 0) hi
  rw [cutoffList_length hi hc]
  refine Set.ncard_le_ncard ?_ ((Finset.range s.atoms.length).finite_toSet.subset ?_)
  · rintro j ⟨host, nb, h1, h2, h3, h4, -⟩
    exact ⟨h3, host, nb, h1, h2, h4.le.trans h⟩
  · rintro j ⟨-, host, nb, -, h2, -⟩
    simpa using (List.getElem?_eq_some_iff.1 h2).1

theorem ringSys_radius {N : ℕ} (hN : 200 ≤ N) : Spec.SearchRadius (ringSys N) 2 ((ringSys N).guessDist 2) ∧ 5 / 2 ≤ (ringSys N).guessDist 2 := by
  have hN' : (0 : ℝ) < N := by exact_mod_cast (by omega : 0 < N)
  have hR := (searchRadius_iff (ringSys N) 2 _).2 rfl
  refine ⟨hR, ?_⟩
  have h3 : ((ringSys N).guessDist 2) ^ 3 = 800 := by
    have := hR
    unfold Spec.SearchRadius Spec.searchVolume at this
    rw [this, ringSys_len]
    have ht : (ringSys N).triclinic = false := rfl
    have hb : (ringSys N).box = Spec.diagBox N 10 10 := rfl
    rw [ht, hb]
    simp only [Spec.diagBox, Bool.false_eq_true, if_false]
    rw [norm_axis_x _ hN'.le, norm_axis_y _ (by norm_num), norm_axis_z _ (by norm_num)]
    field_simp
    norm_num
  by_contra hc
  push Not at hc
  have : ((ringSys N).guessDist 2) ^ 3 < (5 / 2) ^ 3 := (Odd.strictMono_pow (by decide : Odd 3)) hc
  rw [h3] at this
  norm_num at this

theorem ringSys_count {N : ℕ} (hN : 200 ≤ N) : ∀ k < (ringSys N).atoms.length, 4 ≤ Spec.countWithin (ringSys N) ((ringSys N).guessDist 2) k := by
  intro k hk
  rw [ringSys_len] at hk
  exact (ringSys_ball hN hk (5 / 2) (by norm_num) le_rfl).1.trans (count_ball (ringSys_get hk) (ringSys_radius hN).2)

/-- The hypotheses of `C92_number` hold for lines of 200 and of 300 atoms and four neighbours. -/
example (σ : StdSort) (i k : ℕ) (hi : i < 200) (hk : k < 300) : ∃ s1 g1 a1 c1,
    (ringSys 200).findNeighbors σ 0 (.number 2 4 true) = .ok s1 ∧ (ringSys 300).findNeighbors σ 0 (.number 2 4 true) = .ok g1 ∧
    s1.atoms[i]? = some a1 ∧ g1.atoms[k]? = some c1 ∧ c1.nbrs.map Nb.dist = a1.nbrs.map Nb.dist := by
  have run : ∀ N : ℕ, 200 ≤ N → N ≤ 300 → ∃ s1, (ringSys N).findNeighbors σ 0 (.number 2 4 true) = .ok s1 := by
    intro N h1 h2
    have hr := (ringSys_real h1).1
    exact ((C12_errors σ (ringSys N) 0 2 _ (ringSys_radius h1).1 4 true).2 (by norm_num) (by rw [hr, ringSys_len]) (by omega)).2
      (ringSys_count h1) (by norm_num)
  obtain ⟨s1, h1⟩ := run 200 le_rfl (by norm_num)
  obtain ⟨g1, h2⟩ := run 300 (by norm_num) le_rfl
  have ex : ∀ N : ℕ, 200 ≤ N → N ≤ 300 → Spec.SearchExact (ringSys N) (decide ((ringSys N).realNop > 4000)) 2 := by
    intro N h1 h2 h
    have := of_decide_eq_true h
    rw [(ringSys_real h1).1] at this
    omega
  have len : ∀ {N : ℕ} {u : System} (_ : 200 ≤ N) (_ : N ≤ 300) (_ : (ringSys N).findNeighbors σ 0 (.number 2 4 true) = .ok u) (j : ℕ) (_ : j < N), ∃ b, u.atoms[j]? = some b := by
    intro N u h1 h2 h j hj
    have hl : u.atoms.length = (ringSys N).atoms.length := by
      have := congrArg List.length (C12_partial σ _ _ 0 2 4 (ex N h1 h2) h).1.1
      simpa using this
    exact ⟨_, List.getElem?_eq_getElem (by rw [hl, ringSys_len]; exact hj)⟩
  obtain ⟨a1, ha⟩ := len le_rfl (by norm_num) h1 i hi
  obtain ⟨c1, hc⟩ := len (by norm_num) le_rfl h2 k hk
  have hN := ((C12_partial σ _ s1 0 2 4 (ex 200 le_rfl (by norm_num)) h1).2.2 i _ a1 (ringSys_get hi) ha).1
  refine ⟨s1, g1, a1, c1, h1, h2, ha, hc, ?_⟩
  refine (C92_number σ σ (ringSys 200) (ringSys 300) s1 g1 0 0 4 2 2 (5 / 2) (ringSys_real le_rfl).2 (ringSys_real (by norm_num)).2
    (ex 200 le_rfl (by norm_num)) (ex 300 (by norm_num) le_rfl) h1 h2 i k _ _ a1 c1 (ringSys_get hi) (ringSys_get hk)
    (ringSys_view le_rfl (by norm_num)) ha hc fun x hx => ?_).1
  exact ((mem_ball (ringSys_get hi)).1 (nearest_ball hN (ringSys_get hi) (ringSys_ball le_rfl hi (5 / 2) (by norm_num) le_rfl).1 x hx)).2

/-- The hypotheses of `C92_adaptive` hold for lines of 200 and of 300 atoms, with the cutoff 1.2 times the mean of four distances. -/
example (σ : StdSort) (i k : ℕ) (hi : i < 200) (hk : k < 300) : ∃ s1 g1 a1 c1 cut,
    (ringSys 200).findNeighbors σ 0 (.adaptive 2 4 1.2) = .ok s1 ∧ (ringSys 300).findNeighbors σ 0 (.adaptive 2 4 1.2) = .ok g1 ∧
    s1.atoms[i]? = some a1 ∧ g1.atoms[k]? = some c1 ∧ a1.cutoff = some cut ∧ c1.cutoff = some cut ∧ c1.nbrs.length = a1.nbrs.length := by
  have nop : ∀ N : ℕ, (ringSys N).nop = N := by
    intro N
    show (ringAtoms N).length = N
    simp [ringAtoms]
  have ex : ∀ N : ℕ, 200 ≤ N → N ≤ 300 → Spec.SearchExact (ringSys N) (decide ((ringSys N).nop > 4000)) 2 := by
    intro N h1 h2 h
    have := of_decide_eq_true h
    rw [nop] at this
    omega
  have run : ∀ N : ℕ, 200 ≤ N → N ≤ 300 → ∃ s1, (ringSys N).findNeighbors σ 0 (.adaptive 2 4 1.2) = .ok s1 := by
    intro N h1 h2
    exact adaptive_succeeds σ (ringSys N) 0 2 4 1.2 (by norm_num) (by rw [nop]; omega) (ringSys_count h1) (by rw [ringSys_len]; exact h2)
  obtain ⟨s1, h1⟩ := run 200 le_rfl (by norm_num)
  obtain ⟨g1, h2⟩ := run 300 (by norm_num) le_rfl
  have len : ∀ {N : ℕ} {u : System} (_ : 200 ≤ N) (_ : N ≤ 300) (_ : (ringSys N).findNeighbors σ 0 (.adaptive 2 4 1.2) = .ok u) (j : ℕ) (_ : j < N), ∃ b, u.atoms[j]? = some b := by
    intro N u h1 h2 h j hj
    have hl : u.atoms.length = (ringSys N).atoms.length := by
      have := congrArg List.length (C13_partial σ _ _ 0 2 _ (ringSys_radius h1).1 4 1.2 (ex N h1 h2) h).1.1
      simpa using this
    exact ⟨_, List.getElem?_eq_getElem (by rw [hl, ringSys_len]; exact hj)⟩
  obtain ⟨a1, ha⟩ := len le_rfl (by norm_num) h1 i hi
  obtain ⟨c1, hc⟩ := len (by norm_num) le_rfl h2 k hk
  have hR := ringSys_radius (N := 200) le_rfl
  have hR' := ringSys_radius (N := 300) (by norm_num)
  obtain ⟨N, d, hN, hd, -, -, hall, hset⟩ := ((C13_partial σ _ s1 0 2 _ hR.1 4 1.2 (ex 200 le_rfl (by norm_num)) h1).2.2 i _ a1 (ringSys_get hi) ha).1
  obtain ⟨b1, b2, x, hx, b3⟩ := ringSys_ball (N := 200) le_rfl hi (41 / 20) (by norm_num) (by norm_num)
  have hball := nearest_ball hN (ringSys_get hi) b1
  have bounds : ∀ y ∈ N, 1 ≤ y.dist ∧ y.dist ≤ 41 / 20 := fun y hy => ⟨b2 y (hball y hy), ((mem_ball (ringSys_get hi)).1 (hball y hy)).2.le⟩
  have hl : N.length = 4 := hN.1
  have hsum : 4 ≤ (N.map Nb.dist).sum ∧ (N.map Nb.dist).sum ≤ 41 / 5 := by
    match N, hl with
    | [p, q, u, w], _ =>
      have p1 := bounds p (by simp)
      have p2 := bounds q (by simp)
      have p3 := bounds u (by simp)
      have p4 := bounds w (by simp)
      simp only [List.map_cons, List.map_nil, List.sum_cons, List.sum_nil]
      constructor <;> linarith [p1.1, p1.2, p2.1, p2.2, p3.1, p3.2, p4.1, p4.2]
  have hd1 : 1.2 ≤ d := by rw [hd]; norm_num; linarith [hsum.1]
  have hd2 : d ≤ 5 / 2 := by rw [hd]; norm_num; linarith [hsum.2]
  obtain ⟨nb, k1, k2, k3, -⟩ := (cutoffNbs_spec (r := 41 / 20) (f := 0) (ringSys_get hi)).2.2 x hx
  have hnear : Spec.Near (ringSys 200) d 0 i x.idx { pos := ⟨(i : ℝ), 0, 0⟩ } nb :=
    ⟨k2.1, by rw [← k3, b3]; linarith, k2.2.2⟩
  obtain ⟨y, hy, -⟩ := hall x.idx nb k1 hnear (by rw [← k3, b3]; linarith [hR.2])
  have hne : a1.nbrs ≠ [] := List.ne_nil_of_mem hy
  have hcut := hset hne
  obtain ⟨e1, e2⟩ := C92_adaptive σ σ (ringSys 200) (ringSys 300) s1 g1 0 4 2 2 1.2 (5 / 2) _ _ (ringSys_real le_rfl).2 (ringSys_real (by norm_num)).2
    (ex 200 le_rfl (by norm_num)) (ex 300 (by norm_num) le_rfl) hR.1 hR'.1 h1 h2 i k _ _ a1 c1 (ringSys_get hi) (ringSys_get hk)
    (ringSys_view le_rfl (by norm_num)) ha hc
    (by rw [← cutoffList_length (ringSys_get hi) (cutoffNbs_spec (ringSys_get hi))]; exact (ringSys_ball le_rfl hi (5 / 2) (by norm_num) le_rfl).1)
    d hcut hne hd2 (hd2.trans hR.2) (hd2.trans hR'.2)
  refine ⟨s1, g1, a1, c1, d, h1, h2, ha, hc, hcut, e1, ?_⟩
  simpa using e2.length_eq

end Pyscal
