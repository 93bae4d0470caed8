import Verif.Lemmas.Displaced

/-! C98: analyses of crystals whose atoms are displaced (`make_crystal` with `noise`). -/

namespace Pyscal

open Spec (diagBox ofFrac latticeVec IsImage crystal InBox)

/-! ### One atom -/

/-- Distances between neighbours that sit on a grid. -/
theorem grid_dist {a r : ℝ} (ha : 0 < a) {s : System} (hF : Spec.Faithful s r) {i : ℕ} {x : Atom} (hi : s.atoms[i]? = some x) {P : List Nb}
    (hgood : ∀ y ∈ P, Spec.GoodEntry s i x y) {L : List (ℤ × ℤ × ℤ)} (hp : (P.map Nb.vec).Perm (L.map (Spec.quarter a))) {B : ℕ} (hB : (a / 4) * Real.sqrt B < r)
    (hL : ∀ v ∈ L, ∀ w ∈ L, dsq v w ≤ B) {p q : ℕ} (hpP : p ∈ P.map Nb.idx) (hqP : q ∈ P.map Nb.idx) :
    p < s.atoms.length ∧ q < s.atoms.length ∧ ∃ v ∈ L, ∃ w ∈ L, s.distOf q p = (a / 4) * Real.sqrt (dsq v w : ℝ) := by
  obtain ⟨x', hx', rfl⟩ := List.mem_map.1 hpP
  obtain ⟨y', hy', rfl⟩ := List.mem_map.1 hqP
  obtain ⟨v, hv, ev⟩ := List.mem_map.1 (hp.subset (List.mem_map.2 ⟨x', hx', rfl⟩))
  obtain ⟨w, hw, ew⟩ := List.mem_map.1 (hp.subset (List.mem_map.2 ⟨y', hy', rfl⟩))
  have e : V3.norm (x'.vec - y'.vec) = (a / 4) * Real.sqrt (dsq v w : ℝ) := by
    rw [← ev, ← ew, quarter_sub, norm_quarter a ha]; rfl
  have hlt : V3.norm (x'.vec - y'.vec) < r := by
    refine lt_of_le_of_lt ?_ hB
    rw [e]
    refine mul_le_mul_of_nonneg_left (Real.sqrt_le_sqrt ?_) (by positivity)
    exact_mod_cast hL v hv w hw
  refine ⟨(goodEntry_eq hi (hgood _ hx')).2.1, (goodEntry_eq hi (hgood _ hy')).2.1, v, hv, w, hw, ?_⟩
  rw [← e]
  exact pair_dist hF hi (hgood _ hx') (hgood _ hy') hlt

/-- A gap in the squared distances is a gap in the distances. -/
theorem grid_gap {a : ℝ} (ha : 0 < a) {k : ℤ} {lo hi : ℕ} (h : k ≤ lo ∨ hi ≤ k) :
    (a / 4) * Real.sqrt (k : ℝ) ≤ (a / 4) * Real.sqrt lo ∨ (a / 4) * Real.sqrt hi ≤ (a / 4) * Real.sqrt (k : ℝ) := by
  have h4 : 0 ≤ a / 4 := by positivity
  rcases h with h | h
  · exact .inl (mul_le_mul_of_nonneg_left (Real.sqrt_le_sqrt (by exact_mod_cast h)) h4)
  · exact .inr (mul_le_mul_of_nonneg_left (Real.sqrt_le_sqrt (by exact_mod_cast h)) h4)

/-- The nearest atoms of a displaced atom are those of the ideal one. -/
theorem shell_same {name : String} (hcub : name ∈ Spec.cubic) {a d r : ℝ} (ha : 0 < a) {s g : System} (hF : Spec.Faithful s r)
    (hcr : crystal s.box s.atoms = Spec.idealCrystal ⟨a, a, a⟩ (Spec.basis name)) (h : Shifted s g d) {i n : ℕ} {x : Atom} (hi : g.atoms[i]? = some x) {N : List Nb}
    (hN : Spec.NearestList g i x n N) {D lo : ℕ} (hD : D ≤ 36) (hDr : (a / 4) * Real.sqrt D ≤ r) {L : List (ℤ × ℤ × ℤ)}
    (hL : ∀ b ∈ quarters name, (points name D b.1).Nodup ∧ (points name D b.1).Perm L) (hlo : ∀ v ∈ L, nsq v ≤ lo)
    (hgap : (a / 4) * Real.sqrt lo + 4 * d < (a / 4) * Real.sqrt D) (hn : L.length ≤ n) :
    ((((N.take L.length).map fun y => s.mkNb i y.idx)).map Nb.vec).Perm (L.map (Spec.quarter a)) ∧
      ∀ y ∈ (N.take L.length).map fun y => s.mkNb i y.idx, Spec.GoodEntry s i (s.mem i) y := by
  have hil : i < s.atoms.length := by rw [← h.len]; exact (List.getElem?_eq_some_iff.1 hi).1
  have hsi : s.atoms[i]? = some (s.mem i) := by rw [mem_eq_getElem _ _ hil]; exact List.getElem?_eq_getElem hil
  obtain ⟨b, hb, hp⟩ := points_perm hcub ha hD (fun b hb => (hL b hb).1) (hF.anti hDr) hcr i _ hsi
  have hp := hp.trans ((hL b hb).2.map _)
  have hlen : (cutoffNbs s ((a / 4) * Real.sqrt D) 0 i).length = L.length := by
    have := hp.length_eq
    rwa [List.length_map, List.length_map] at this
  have hs := nearest_same h hi hN (lo := (a / 4) * Real.sqrt lo) (hi' := (a / 4) * Real.sqrt D) (by
    intro y hy
    rw [goodEntry_dist ((mem_ball hsi).1 hy).1]
    obtain ⟨k, hk, ek⟩ := List.mem_map.1 (hp.subset (List.mem_map.2 ⟨y, hy, rfl⟩))
    rw [← ek, norm_quarter a ha]
    refine mul_le_mul_of_nonneg_left (Real.sqrt_le_sqrt ?_) (by positivity)
    exact_mod_cast hlo k hk) hgap hlen hn
  exact ⟨(hs.map Nb.vec).trans hp, fun y hy => ((mem_ball hsi).1 (hs.subset hy)).1⟩

theorem fcc_points : ∀ name ∈ ["fcc", "l12"], ∀ b ∈ quarters name, (points name 16 b.1).Nodup ∧ (points name 16 b.1).Perm Spec.fccShell := by decide +kernel

theorem fcc_pairs : (∀ v ∈ Spec.fccShell, nsq v = 8) ∧ ∀ v ∈ Spec.fccShell, ∀ w ∈ Spec.fccShell, dsq v w ≤ 32 ∧ (dsq v w ≤ 8 ∨ 16 ≤ dsq v w) := by decide +kernel

theorem sqrt16 : Real.sqrt ((16 : ℕ) : ℝ) = 4 := by
  rw [Real.sqrt_eq_iff_mul_self_eq_of_pos (by norm_num)]; norm_num

/-- One atom of a displaced fcc crystal. -/
theorem fcc_noisy {name : String} (hn : name ∈ ["fcc", "l12"]) {a d : ℝ} (ha : 0 < a) {s g : System} (hF : Spec.Faithful s (3 / 2 * a))
    (hcr : crystal s.box s.atoms = Spec.idealCrystal ⟨a, a, a⟩ (Spec.basis name)) (h : Shifted s g d) {i : ℕ} {x : Atom} (hi : g.atoms[i]? = some x) {N : List Nb}
    (hN : Spec.NearestList g i x 14 N) {lc : Option ℝ} (hlc : lc = none ∧ d ≤ 0.033 * a ∨ lc = some a ∧ d ≤ 0.072 * a) {c1 c2 : ℝ} (hc : Spec.CnaCutoffs lc N c1 c2)
    {sig1 sig2 : List (ℕ × ℕ × ℕ × ℕ)} (h1 : Spec.Signatures g c1 (N.take 12) sig1) {code : ℤ} (hcl : Spec.Classified sig1 sig2 code) : code = 1 := by
  have hcub : name ∈ Spec.cubic := by
    simp only [List.mem_cons, List.not_mem_nil, or_false] at hn
    rcases hn with rfl | rfl <;> decide
  have hil : i < s.atoms.length := by rw [← h.len]; exact (List.getElem?_eq_some_iff.1 hi).1
  have hsi : s.atoms[i]? = some (s.mem i) := by rw [mem_eq_getElem _ _ hil]; exact List.getElem?_eq_getElem hil
  have hd0 : 0 ≤ d := (V3.norm_nonneg _).trans (h.close i hil)
  have hd1 : d ≤ 0.072 * a := by rcases hlc with ⟨-, h⟩ | ⟨-, h⟩ <;> linarith
  have r8 : (2.8284 : ℝ) < Real.sqrt 8 := by rw [Real.lt_sqrt (by norm_num)]; norm_num
  have r8' : Real.sqrt 8 < (2.8285 : ℝ) := by rw [Real.sqrt_lt' (by norm_num)]; norm_num
  have e8 : Real.sqrt ((8 : ℕ) : ℝ) = Real.sqrt 8 := by norm_num
  obtain ⟨t1, t2⟩ := fcc_pairs
  obtain ⟨hshell, hgood⟩ := shell_same hcub ha hF hcr h hi hN (D := 16) (lo := 8) (by norm_num) (by rw [sqrt16]; linarith) (fcc_points name hn) (fun v hv => (t1 v hv).le)
    (by rw [sqrt16, e8]; nlinarith) (by decide)
  have h12 : Spec.fccShell.length = 12 := rfl
  rw [h12] at hshell hgood
  set P := (N.take 12).map fun y => s.mkNb i y.idx with hP
  have hidx : P.map Nb.idx = (N.take 12).map Nb.idx := by rw [hP, List.map_map]; rfl
  have hlen : (N.take 12).length = 12 := by rw [List.length_take, hN.1]; rfl
  have hsum : ((N.take 12).map fun y => (s.mkNb i y.idx).dist).sum = 12 * ((a / 4) * Real.sqrt 8) := by
    have e1 : (N.take 12).map (fun y => (s.mkNb i y.idx).dist) = P.map Nb.dist := by rw [hP, List.map_map]; rfl
    rw [e1]
    have := sum_const' (l := P) (f := Nb.dist) (c := (a / 4) * Real.sqrt 8) (by
      intro y hy
      rw [goodEntry_dist (hgood y hy)]
      obtain ⟨k, hk, hk'⟩ := List.mem_map.1 (hshell.subset (List.mem_map.2 ⟨y, hy, rfl⟩))
      rw [← hk', norm_quarter a ha, t1 k hk]
      norm_num)
    rw [this, hP, List.length_map, hlen]
    norm_num
  have hclose := abs_le.1 (sum_close (l := N.take 12) (f := fun y => (s.mkNb i y.idx).dist) (e := 2 * d) fun y hy => entry_dist h hi (hN.2.2.1 y (List.mem_of_mem_take hy)))
  rw [hsum, hlen] at hclose
  push_cast at hclose
  have hc1 : (a / 4) * Real.sqrt 8 + 2 * d ≤ c1 ∧ c1 + 2 * d < a := by
    rcases hlc with ⟨rfl, hd⟩ | ⟨rfl, hd⟩
    · obtain ⟨e1, -⟩ := hc
      rw [e1]
      constructor <;> nlinarith
    · obtain ⟨e1, -⟩ := hc
      rw [e1]
      constructor <;> nlinarith
  have r11 : (3.3166 : ℝ) < Real.sqrt 11 := by rw [Real.lt_sqrt (by norm_num)]; norm_num
  have r11' : Real.sqrt 11 < (3.3167 : ℝ) := by rw [Real.sqrt_lt' (by norm_num)]; norm_num
  have hB : (a / 4) * Real.sqrt ((32 : ℕ) : ℝ) < 3 / 2 * a := by
    have : Real.sqrt ((32 : ℕ) : ℝ) < 6 := by rw [Real.sqrt_lt' (by norm_num)]; norm_num
    linarith [mul_lt_mul_of_pos_left this (show 0 < a / 4 by positivity)]
  have hsig : Spec.Signatures s ((a / 4) * Real.sqrt 11) P sig1 := by
    refine signatures_transfer hidx (hN.2.1.sublist ((List.take_sublist _ _).map _)) ?_ h1
    intro p hp q hq _
    rw [← hidx] at hp hq
    obtain ⟨l1, l2, v, hv, w, hw, e⟩ := grid_dist ha hF hsi hgood hshell hB (fun v hv w hw => (t2 v hv w hw).1) hp hq
    have hgap := grid_gap ha (k := dsq v w) (lo := 8) (hi := 16) (t2 v hv w hw).2
    rw [← e, sqrt16, e8] at hgap
    exact within_same h l1 l2 hgap hc1.1 (by linarith [hc1.2]) (by nlinarith) (by nlinarith)
  refine hcl.1.2 fun y hy => ?_
  rw [fcc_sig ha hF hsi hgood hshell (c1 := (a / 4) * Real.sqrt 11) (by
    push_cast
    exact ⟨le_rfl, mul_lt_mul_of_pos_left (Real.sqrt_lt_sqrt (by norm_num) (by norm_num)) (by positivity)⟩) hsig] at hy
  exact List.eq_of_mem_replicate hy

theorem bcc_points : ∀ name ∈ ["bcc", "b2"], ∀ b ∈ quarters name, (points name 16 b.1).Nodup ∧ (points name 16 b.1).Perm Spec.bccShell := by decide +kernel

theorem bcc_pairs : (∀ v ∈ Spec.bccShell, nsq v ≤ 12) ∧ (∀ v ∈ bccPoints, nsq v ≤ 16) ∧
    (∀ v ∈ bccPoints, ∀ w ∈ bccPoints, dsq v w ≤ 64 ∧ (dsq v w ≤ 16 ∨ 32 ≤ dsq v w)) ∧
    (∀ v ∈ bccPoints, nsq v = 16 → ∀ w ∈ bccPoints, dsq v w < 16 → ∀ u ∈ bccPoints, dsq v u < 16 → w ≠ u → w ≠ v → u ≠ v → 16 ≤ dsq w u) := by decide +kernel

/-- With a cutoff below the second shell the common neighbours of the ninth neighbour in bcc have no bonds. -/
theorem bcc_bad_lattice {a d : ℝ} (ha : 0 < a) {s g : System} (hF : Spec.Faithful s (5 / 2 * a)) {i : ℕ} {x : Atom} (hi : s.atoms[i]? = some x) {N P : List Nb}
    (hgood : ∀ y ∈ P, Spec.GoodEntry s i x y) {K : List (ℤ × ℤ × ℤ)} (hK : K.Perm bccPoints) (hKv : P.map Nb.vec = K.map (Spec.quarter a))
    (n6 : ∀ v ∈ K.drop 8, nsq v = 16) (h : Shifted s g d) (hidx : P.map Nb.idx = N.map Nb.idx) (hNlen : N.length = 14) {c1 : ℝ} (hc1 : c1 + 2 * d < a)
    {sig1 : List (ℕ × ℕ × ℕ × ℕ)} (h1 : Spec.Signatures g c1 (N.take 12) sig1) : ∃ y ∈ sig1, y ≠ (4, 2, 1, 1) ∧ y ≠ (4, 2, 2, 0) ∧ y ≠ (5, 5, 2, 2) := by
  classical
  obtain ⟨-, -, t3, t4⟩ := bcc_pairs
  have h4 : 0 < a / 4 := by positivity
  have hKnd : K.Nodup := hK.nodup_iff.2 bcc_table.2.1
  have hKlen : K.length = 14 := hK.length_eq
  have hPlen : P.length = 14 := by
    have := congrArg List.length hidx
    rwa [List.length_map, List.length_map, hNlen] at this
  have hnb : ((N.take 12).map Nb.idx).length = 12 := by rw [List.length_map, List.length_take, hNlen]; rfl
  have hvec : ∀ j (hj : j < 14), (P[j]'(hPlen ▸ hj)).vec = Spec.quarter a (K[j]'(hKlen ▸ hj)) := by
    intro j hj
    have h1 : (P.map Nb.vec)[j]'(by rw [List.length_map, hPlen]; exact hj) = (K.map (Spec.quarter a))[j]'(by rw [List.length_map, hKlen]; exact hj) := by
      simp only [hKv]
    rwa [List.getElem_map, List.getElem_map] at h1
  have hget : ∀ j (hj : j < 12), ((N.take 12).map Nb.idx).getD j 0 = (P[j]'(by omega)).idx := by
    intro j hj
    rw [List.getD_eq_getElem?_getD, List.getElem?_eq_getElem (by rw [hnb]; exact hj), Option.getD_some, List.getElem_map, List.getElem_take]
    have h1 : (P.map Nb.idx)[j]'(by rw [List.length_map]; omega) = (N.map Nb.idx)[j]'(by rw [List.length_map]; omega) := by simp only [hidx]
    rw [List.getElem_map, List.getElem_map] at h1
    exact h1.symm
  have near : ∀ p (hp : p < 12) q (hq : q < 12), Spec.Within g c1 (((N.take 12).map Nb.idx).getD p 0) (((N.take 12).map Nb.idx).getD q 0) →
      dsq (K[p]'(by omega)) (K[q]'(by omega)) < 16 := by
    intro p hp q hq hw
    rw [hget p hp, hget q hq] at hw
    have gp := hgood _ (List.getElem_mem (show p < P.length by omega))
    have gq := hgood _ (List.getElem_mem (show q < P.length by omega))
    have lp := (goodEntry_eq hi gp).2.1
    have lq := (goodEntry_eq hi gq).2.1
    rw [within_iff g c1 (h.len ▸ lp) (h.len ▸ lq)] at hw
    have hb := abs_le.1 (h.dist lq lp)
    have e : V3.norm ((P[p]'(by omega)).vec - (P[q]'(by omega)).vec) = (a / 4) * Real.sqrt (dsq (K[p]'(by omega)) (K[q]'(by omega)) : ℝ) := by
      rw [hvec p (by omega), hvec q (by omega), quarter_sub, norm_quarter a ha]; rfl
    have h64 : (dsq (K[p]'(by omega)) (K[q]'(by omega)) : ℝ) ≤ 64 := by
      exact_mod_cast (t3 _ (hK.subset (List.getElem_mem _)) _ (hK.subset (List.getElem_mem _))).1
    have hs8 : Real.sqrt (dsq (K[p]'(by omega)) (K[q]'(by omega)) : ℝ) ≤ 8 := by
      rw [Real.sqrt_le_left (by norm_num)]; linarith
    have m8 := mul_le_mul_of_nonneg_left hs8 h4.le
    have hd := pair_dist hF hi gp gq (by rw [e]; linarith)
    rw [e] at hd
    rw [hd] at hb
    have hlt : (a / 4) * Real.sqrt (dsq (K[p]'(by omega)) (K[q]'(by omega)) : ℝ) < (a / 4) * 4 := by linarith
    have h5 := lt_of_mul_lt_mul_left hlt h4.le
    rw [Real.sqrt_lt' (by norm_num)] at h5
    have h6 : (dsq (K[p]'(by omega)) (K[q]'(by omega)) : ℝ) < 16 := by linarith
    exact_mod_cast h6
  have n8 : nsq (K[8]'(by omega)) = 16 := by
    refine n6 _ (List.mem_of_getElem? (i := 0) ?_)
    rw [List.getElem?_drop]
    exact List.getElem?_eq_getElem _
  have hpairs : Spec.bondPairs (Spec.Within g c1) ((N.take 12).map Nb.idx) 8 = 0 := by
    unfold Spec.bondPairs
    rw [Finset.card_eq_zero, Finset.filter_eq_empty_iff]
    rintro ⟨p, q⟩ hpq ⟨hlt, hw⟩
    obtain ⟨m1, m2⟩ := Finset.mem_product.1 hpq
    simp only [Spec.commonWith, Finset.mem_filter, Finset.mem_range, hnb] at m1 m2
    obtain ⟨p1, p2, p3⟩ := m1
    obtain ⟨q1, q2, q3⟩ := m2
    have ne : ∀ u v (hu : u < 12) (hv : v < 12), u ≠ v → K[u]'(by omega) ≠ K[v]'(by omega) := fun u v hu hv huv e => huv (hKnd.getElem_inj_iff.1 e)
    have := t4 _ (hK.subset (List.getElem_mem (show 8 < K.length by omega))) n8 _ (hK.subset (List.getElem_mem (show p < K.length by omega))) (near 8 (by omega) p p1 p3)
      _ (hK.subset (List.getElem_mem (show q < K.length by omega))) (near 8 (by omega) q q1 q3) (ne p q p1 q1 (by dsimp only at hlt; omega)) (ne p 8 p1 (by omega) p2) (ne q 8 q1 (by omega) q2)
    have h2 := near p p1 q q1 hw
    omega
  have h9 : 8 < sig1.length := by rw [h1.1, List.length_take, hNlen]; norm_num
  refine ⟨sig1[8], List.getElem_mem h9, ?_⟩
  have h0 : (sig1[8]).2.1 = 0 := by
    rcases h1.2 8 _ (List.getElem?_eq_getElem h9) with q | ⟨-, q⟩ | ⟨n, q, -⟩
    · rw [q.2.1, hpairs]
    · rw [q]
    · have := q.2.1
      dsimp only at this
      rw [this, hpairs]
  refine ⟨?_, ?_, ?_⟩ <;> intro e <;> rw [e] at h0 <;> simp at h0

/-- One atom of a displaced bcc crystal. -/
theorem bcc_noisy {name : String} (hn : name ∈ ["bcc", "b2"]) {a d : ℝ} (ha : 0 < a) {s g : System} (hF : Spec.Faithful s (5 / 2 * a))
    (hcr : crystal s.box s.atoms = Spec.idealCrystal ⟨a, a, a⟩ (Spec.basis name)) (h : Shifted s g d) {i : ℕ} {x : Atom} (hi : g.atoms[i]? = some x) {N : List Nb}
    (hN : Spec.NearestList g i x 14 N) {lc : Option ℝ} (hlc : lc = none ∨ lc = some a) (hd : d ≤ 0.022 * a) {c1 c2 : ℝ} (hc : Spec.CnaCutoffs lc N c1 c2)
    {sig1 sig2 : List (ℕ × ℕ × ℕ × ℕ)} (h1 : Spec.Signatures g c1 (N.take 12) sig1) (h2 : Spec.Signatures g c2 N sig2) {code : ℤ} (hcl : Spec.Classified sig1 sig2 code) :
    code = 3 := by
  have hcub : name ∈ Spec.cubic := by
    simp only [List.mem_cons, List.not_mem_nil, or_false] at hn
    rcases hn with rfl | rfl <;> decide
  have h4 : 0 < a / 4 := by positivity
  have hil : i < s.atoms.length := by rw [← h.len]; exact (List.getElem?_eq_some_iff.1 hi).1
  have hsi : s.atoms[i]? = some (s.mem i) := by rw [mem_eq_getElem _ _ hil]; exact List.getElem?_eq_getElem hil
  have hd0 : 0 ≤ d := (V3.norm_nonneg _).trans (h.close i hil)
  have r12 : (3.4641 : ℝ) < Real.sqrt 12 := by rw [Real.lt_sqrt (by norm_num)]; norm_num
  have r12' : Real.sqrt 12 < (3.4642 : ℝ) := by rw [Real.sqrt_lt' (by norm_num)]; norm_num
  have e12 : Real.sqrt ((12 : ℕ) : ℝ) = Real.sqrt 12 := by norm_num
  have r32 : (5.656 : ℝ) < Real.sqrt ((32 : ℕ) : ℝ) := by rw [Real.lt_sqrt (by norm_num)]; norm_num
  have r32' : Real.sqrt ((32 : ℕ) : ℝ) < 6 := by rw [Real.sqrt_lt' (by norm_num)]; norm_num
  have m32 := mul_lt_mul_of_pos_left r32 h4
  have m32' := mul_lt_mul_of_pos_left r32' h4
  have m12 := mul_lt_mul_of_pos_left r12 h4
  have m12' := mul_lt_mul_of_pos_left r12' h4
  obtain ⟨t1, t2, t3, t4⟩ := bcc_pairs
  have hNlen : N.length = 14 := hN.1
  obtain ⟨hNp, hgood⟩ := shell_same hcub ha hF hcr h hi hN (D := 32) (lo := 16) (L := bccPoints) (by norm_num) (by linarith) (bcc_table.1 name hn) t2
    (by rw [sqrt16]; linarith) (by decide)
  obtain ⟨h8, -⟩ := shell_same hcub ha hF hcr h hi hN (D := 16) (lo := 12) (by norm_num) (by rw [sqrt16]; linarith) (bcc_points name hn) t1
    (by rw [sqrt16, e12]; linarith) (by decide)
  have l14 : bccPoints.length = 14 := rfl
  have l8 : Spec.bccShell.length = 8 := rfl
  rw [l14, List.take_of_length_le hNlen.le] at hNp hgood
  rw [l8] at h8
  set P := N.map fun y => s.mkNb i y.idx with hP
  have hPt : ∀ m, P.take m = (N.take m).map fun y => s.mkNb i y.idx := fun m => by rw [hP, List.map_take]
  have hPd : P.drop 8 = (N.drop 8).map fun y => s.mkNb i y.idx := by rw [hP, List.map_drop]
  rw [← hPt] at h8
  have hidx : P.map Nb.idx = N.map Nb.idx := by rw [hP, List.map_map]; rfl
  have hidx12 : (P.take 12).map Nb.idx = (N.take 12).map Nb.idx := by rw [List.map_take, hidx, List.map_take]
  obtain ⟨⟨K, hK, hKv, hK8, n6⟩, S8, S6, S12⟩ := bcc_setup ha hgood hNp h8
  have close : ∀ l : List Nb, (∀ y ∈ l, y ∈ N) → |(l.map Nb.dist).sum - ((l.map fun y => s.mkNb i y.idx).map Nb.dist).sum| ≤ l.length * (2 * d) := by
    intro l hl
    rw [List.map_map]
    exact sum_close fun y hy => entry_dist h hi (hN.2.2.1 y (hl y hy))
  have q8 := abs_le.1 (close (N.take 8) fun y hy => List.mem_of_mem_take hy)
  have q6 := abs_le.1 (close (N.drop 8) fun y hy => List.mem_of_mem_drop hy)
  have q12 := abs_le.1 (close (N.take 12) fun y hy => List.mem_of_mem_take hy)
  rw [← hPt, S8, List.length_take, hNlen] at q8
  rw [← hPd, S6, List.length_drop, hNlen] at q6
  rw [← hPt, S12, List.length_take, hNlen] at q12
  norm_num [-List.map_take, -List.map_drop] at q8 q6 q12
  have hc2 : a + 2 * d ≤ c2 ∧ c2 + 2 * d < (a / 4) * Real.sqrt ((32 : ℕ) : ℝ) := by
    rcases hlc with rfl | rfl
    · obtain ⟨-, e1⟩ := hc
      rw [e1]
      constructor <;> linarith
    · obtain ⟨-, e1⟩ := hc
      rw [e1]
      constructor <;> linarith
  have hB : (a / 4) * Real.sqrt ((64 : ℕ) : ℝ) < 5 / 2 * a := by
    have : Real.sqrt ((64 : ℕ) : ℝ) = 8 := by rw [Real.sqrt_eq_iff_mul_self_eq_of_pos (by norm_num)]; norm_num
    rw [this]; linarith
  have gap : ∀ p ∈ P.map Nb.idx, ∀ q ∈ P.map Nb.idx, p < s.atoms.length ∧ q < s.atoms.length ∧
      (s.distOf q p ≤ a ∨ (a / 4) * Real.sqrt ((32 : ℕ) : ℝ) ≤ s.distOf q p) := by
    intro p hp q hq
    obtain ⟨l1, l2, v, hv, w, hw, e⟩ := grid_dist ha hF hsi hgood hNp hB (fun v hv w hw => (t3 v hv w hw).1) hp hq
    have hgap := grid_gap ha (k := dsq v w) (lo := 16) (hi := 32) (t3 v hv w hw).2
    rw [← e, sqrt16] at hgap
    refine ⟨l1, l2, hgap.imp (fun h => by linarith) id⟩
  have r23 : (4.79 : ℝ) < Real.sqrt 23 := by rw [Real.lt_sqrt (by norm_num)]; norm_num
  have r23' : Real.sqrt 23 < (4.8 : ℝ) := by rw [Real.sqrt_lt' (by norm_num)]; norm_num
  have m23 := mul_lt_mul_of_pos_left r23 h4
  have m23' := mul_lt_mul_of_pos_left r23' h4
  have hsig2 : Spec.Signatures s ((a / 4) * Real.sqrt 23) P sig2 := by
    refine signatures_transfer hidx hN.2.1 ?_ h2
    intro p hp q hq _
    rw [← hidx] at hp hq
    obtain ⟨l1, l2, hgap⟩ := gap p hp q hq
    exact within_same h l1 l2 hgap hc2.1 hc2.2 (by linarith) (by linarith)
  have hlen1 : sig1.length = 12 := by rw [h1.1, List.length_take, hNlen]; rfl
  have hbad : ∃ y ∈ sig1, y ≠ (4, 2, 1, 1) ∧ y ≠ (4, 2, 2, 0) ∧ y ≠ (5, 5, 2, 2) := by
    rcases hlc with rfl | rfl
    · obtain ⟨e1, -⟩ := hc
      have r19 : (4.35 : ℝ) < Real.sqrt 19 := by rw [Real.lt_sqrt (by norm_num)]; norm_num
      have r19' : Real.sqrt 19 < (4.36 : ℝ) := by rw [Real.sqrt_lt' (by norm_num)]; norm_num
      have m19 := mul_lt_mul_of_pos_left r19 h4
      have m19' := mul_lt_mul_of_pos_left r19' h4
      have hsig1 : Spec.Signatures s ((a / 4) * Real.sqrt 19) (P.take 12) sig1 := by
        refine signatures_transfer hidx12 (hN.2.1.sublist ((List.take_sublist _ _).map _)) ?_ h1
        intro p hp q hq _
        have sub : ∀ p ∈ (N.take 12).map Nb.idx, p ∈ P.map Nb.idx := by
          intro p hp
          rw [hidx]
          obtain ⟨y, hy, rfl⟩ := List.mem_map.1 hp
          exact List.mem_map.2 ⟨y, List.mem_of_mem_take hy, rfl⟩
        obtain ⟨l1, l2, hgap⟩ := gap p (sub p hp) q (sub q hq)
        exact within_same h l1 l2 hgap (by rw [e1]; linarith) (by rw [e1]; linarith) (by linarith) (by linarith)
      exact bcc_bad ha hF hsi hgood hK hKv hK8 n6 ⟨19, .inr rfl, by push_cast; exact le_rfl, by
        push_cast
        exact mul_lt_mul_of_pos_left (Real.sqrt_lt_sqrt (by norm_num) (by norm_num)) h4⟩ hsig1
    · obtain ⟨e1, -⟩ := hc
      exact bcc_bad_lattice ha hF hsi hgood hK hKv n6 h hidx hNlen (by rw [e1]; linarith) h1
  exact bcc_code ha hF hsi hgood hK hKv (c2 := (a / 4) * Real.sqrt 23) (by
    push_cast
    exact ⟨le_rfl, mul_lt_mul_of_pos_left (Real.sqrt_lt_sqrt (by norm_num) (by norm_num)) h4⟩) hlen1 hbad hsig2 hcl

/-! ### The whole calculation -/

theorem comp_le_norm (v : V3) : |v.x| ≤ v.norm ∧ |v.y| ≤ v.norm ∧ |v.z| ≤ v.norm := by
  have h : v.norm * v.norm = v.normSq := V3.norm_sq v
  have h0 := V3.norm_nonneg v
  unfold V3.normSq at h
  refine ⟨?_, ?_, ?_⟩ <;> refine abs_le_of_sq_le_sq ?_ h0 <;> nlinarith [sq_nonneg v.x, sq_nonneg v.y, sq_nonneg v.z]

/-- Atoms inside the box are still not spread too far after moving them by up to a quarter of the edges. -/
theorem spread_displaced {lx ly lz d : ℝ} {l l' : List Atom} (hin : ∀ a ∈ l, InBox lx ly lz a.pos) (hd : Spec.Displaced d l l') (dx : 4 * d ≤ lx) (dy : 4 * d ≤ ly)
    (dz : 4 * d ≤ lz) : Spec.Spread lx ly lz l' := by
  have key : ∀ a ∈ l', (-d ≤ a.pos.x ∧ a.pos.x ≤ lx + d) ∧ (-d ≤ a.pos.y ∧ a.pos.y ≤ ly + d) ∧ (-d ≤ a.pos.z ∧ a.pos.z ≤ lz + d) := by
    intro a ha
    obtain ⟨k, hk, rfl⟩ := List.getElem_of_mem ha
    have hk' : k < l.length := hd.length_eq ▸ hk
    have h2 := (List.forall₂_iff_get.1 hd |>.2 k hk' hk).2
    simp only [List.get_eq_getElem] at h2
    obtain ⟨c1, c2, c3⟩ := comp_le_norm (l'[k].pos - l[k].pos)
    obtain ⟨⟨x1, x2⟩, ⟨y1, y2⟩, z1, z2⟩ := hin _ (List.getElem_mem hk')
    have b1 := abs_le.1 (c1.trans h2)
    have b2 := abs_le.1 (c2.trans h2)
    have b3 := abs_le.1 (c3.trans h2)
    simp only [V3.sub_x, V3.sub_y, V3.sub_z] at b1 b2 b3
    refine ⟨⟨?_, ?_⟩, ⟨?_, ?_⟩, ?_, ?_⟩ <;> linarith
  intro a ha a' ha'
  obtain ⟨⟨p1, p2⟩, ⟨p3, p4⟩, p5, p6⟩ := key a ha
  obtain ⟨⟨q1, q2⟩, ⟨q3, q4⟩, q5, q6⟩ := key a' ha'
  refine ⟨abs_le.2 ⟨?_, ?_⟩, abs_le.2 ⟨?_, ?_⟩, abs_le.2 ⟨?_, ?_⟩⟩ <;> linarith

theorem spread_inBox {lx ly lz : ℝ} (hx : 0 < lx) (hy : 0 < ly) (hz : 0 < lz) {l : List Atom} (hin : ∀ a ∈ l, InBox lx ly lz a.pos) : Spec.Spread lx ly lz l := by
  intro a ha a' ha'
  obtain ⟨⟨p1, p2⟩, ⟨p3, p4⟩, p5, p6⟩ := hin a ha
  obtain ⟨⟨q1, q2⟩, ⟨q3, q4⟩, q5, q6⟩ := hin a' ha'
  refine ⟨abs_le.2 ⟨?_, ?_⟩, abs_le.2 ⟨?_, ?_⟩, abs_le.2 ⟨?_, ?_⟩⟩ <;> linarith

/-- Atoms within `ρ` are within `ρ + 2 d` afterwards. -/
theorem Shifted.ball_length {s g : System} {d : ℝ} (h : Shifted s g d) {i : ℕ} (hi : i < s.atoms.length) (f : ℕ) (ρ : ℝ) :
    (cutoffNbs s ρ f i).length ≤ (cutoffNbs g (ρ + 2 * d) f i).length := by
  unfold cutoffNbs
  rw [List.length_map, List.length_map, h.len, ← List.countP_eq_length_filter, ← List.countP_eq_length_filter]
  refine List.countP_mono_left fun j hj hj' => ?_
  rw [decide_eq_true_eq] at hj' ⊢
  have := abs_le.1 (h.dist hi (List.mem_range.1 hj))
  refine ⟨hj'.1, by linarith [hj'.2.1], ?_⟩
  rw [h.type, h.type]
  exact hj'.2.2

theorem Shifted.ball_length' {s g : System} {d : ℝ} (h : Shifted s g d) {i : ℕ} (hi : i < s.atoms.length) (f : ℕ) (ρ : ℝ) :
    (cutoffNbs g ρ f i).length ≤ (cutoffNbs s (ρ + 2 * d) f i).length := by
  unfold cutoffNbs
  rw [List.length_map, List.length_map, h.len, ← List.countP_eq_length_filter, ← List.countP_eq_length_filter]
  refine List.countP_mono_left fun j hj hj' => ?_
  rw [decide_eq_true_eq] at hj' ⊢
  have := abs_le.1 (h.dist hi (List.mem_range.1 hj))
  refine ⟨hj'.1, by linarith [hj'.2.1], ?_⟩
  rw [← h.type, ← h.type]
  exact hj'.2.2

/-- From one atom to the whole displaced crystal. -/
theorem noisy_cna (σ : StdSort) {name : String} (hn : name ∈ Spec.structures) {a ca : ℝ} (ha : 0 < a) (hca : 0 < ca) {nx ny nz : ℕ} (hx : 1 ≤ nx) (hy : 1 ≤ ny) (hz : 1 ≤ nz)
    {atoms l' : List Atom} {box : Mat3} (hm : makeCrystal name a nx ny nz ca = .ok (atoms, box)) {d : ℝ} (hd : Spec.Displaced d atoms l')
    (dx : 4 * d ≤ (Spec.cellEdges name a ca).x) (dy : 4 * d ≤ (Spec.cellEdges name a ca).y) (dz : 4 * d ≤ (Spec.cellEdges name a ca).z)
    {r ρ : ℝ} (hfit : Spec.HalfFits ((Spec.basis name).length * nx * ny * nz) (nx * (Spec.cellEdges name a ca).x) (ny * (Spec.cellEdges name a ca).y)
      (nz * (Spec.cellEdges name a ca).z) r) (hρ0 : 0 ≤ ρ + 2 * d)
    (hρ : (ρ + 2 * d) ^ 3 ≤ 27 * ((Spec.cellEdges name a ca).x * (Spec.cellEdges name a ca).y * (Spec.cellEdges name a ca).z / (Spec.basis name).length)) (lc : Option ℝ) (code : ℕ)
    (hball : ∀ s : System, Spec.Faithful s r → crystal s.box s.atoms = Spec.idealCrystal (Spec.cellEdges name a ca) (Spec.basis name) →
      ∀ i < s.atoms.length, 14 ≤ (cutoffNbs s ρ 0 i).length)
    (hatom : ∀ s g : System, Spec.Faithful s r → crystal s.box s.atoms = Spec.idealCrystal (Spec.cellEdges name a ca) (Spec.basis name) → Shifted s g d →
      ∀ (i : ℕ) (x : Atom) (N : List Nb) (c1 c2 : ℝ) (sig1 sig2 : List (ℕ × ℕ × ℕ × ℕ)) (k : ℤ), g.atoms[i]? = some x → Spec.NearestList g i x 14 N → Spec.CnaCutoffs lc N c1 c2 →
        Spec.Signatures g c1 (N.take 12) sig1 → Spec.Signatures g c2 N sig2 → Spec.Classified sig1 sig2 k → k = code) :
    ∃ g g' as, buildSystem box l' = .ok g ∧
      g.calculateCna σ lc = .ok (g', (List.range 5).map fun c => if c = code then (Spec.basis name).length * nx * ny * nz else 0) ∧
      g'.getAtoms = .ok as ∧ as.length = (Spec.basis name).length * nx * ny * nz ∧ ∀ x ∈ as, x.struct = code := by
  have he : 0 < (Spec.cellEdges name a ca).x ∧ 0 < (Spec.cellEdges name a ca).y ∧ 0 < (Spec.cellEdges name a ca).z := by
    unfold Spec.cellEdges
    split
    · exact ⟨ha, by positivity, by positivity⟩
    · exact ⟨ha, ha, ha⟩
  obtain ⟨ex0, ey0, ez0⟩ := he
  obtain ⟨atoms', lx, ly, lz, hm', ex, ey, ez, hlen, hat, hnd, hcr⟩ := C40_make_crystal name hn ha hca hx hy hz
  rw [hm] at hm'
  cases hm'
  have x1 : (1 : ℝ) ≤ nx := by exact_mod_cast hx
  have y1 : (1 : ℝ) ≤ ny := by exact_mod_cast hy
  have z1 : (1 : ℝ) ≤ nz := by exact_mod_cast hz
  have hall : ∀ c ∈ atoms, c.ghost = false ∧ InBox lx ly lz c.pos := by
    intro c hc
    obtain ⟨k, hk⟩ := List.mem_iff_getElem?.1 hc
    exact (hat k c hk).2.2
  have hB : 0 < (Spec.basis name).length := by
    have : ∀ name ∈ Spec.structures, 0 < (Spec.basis name).length := by decide
    exact this name hn
  have hne : atoms ≠ [] := by
    rintro rfl
    have : 0 < (Spec.basis name).length * nx * ny * nz := by positivity
    rw [List.length_nil] at hlen
    exact absurd hlen this.ne
  have lx0 : 0 < lx := by rw [ex]; positivity
  have ly0 : 0 < ly := by rw [ey]; positivity
  have lz0 : 0 < lz := by rw [ez]; positivity
  obtain ⟨s, hb, hF, -, -, hcr', -, -, hvol, -⟩ := inBox_stored lx0 ly0 lz0 hne
    (fun c hc => (hall c hc).1) (fun c hc => (hall c hc).2) hnd (makeCrystal_fresh hm) (r := r) (by rw [hlen, ex, ey, ez]; exact hfit)
  have hcry := hcr'.trans hcr
  have hlen' : l'.length = atoms.length := hd.length_eq.symm
  have hpt : ∀ y ∈ l', ∃ x ∈ atoms, y = { x with pos := y.pos } := by
    intro y hy
    obtain ⟨k, hk, rfl⟩ := List.getElem_of_mem hy
    refine ⟨_, List.getElem_mem (hlen' ▸ hk), ?_⟩
    have := (List.forall₂_iff_get.1 hd |>.2 k (hlen' ▸ hk) hk).1
    simpa only [List.get_eq_getElem] using this
  have hne' : l' ≠ [] := fun h => hne (List.length_eq_zero_iff.1 (by rw [← hlen', h, List.length_nil]))
  have hghost : ∀ y ∈ l', y.ghost = false := by
    intro y hy
    obtain ⟨x, hx, e⟩ := hpt y hy
    rw [e]
    exact (hall x hx).1
  obtain ⟨s1, hb1, -, sb, st, -⟩ := stored_form lx0 ly0 lz0 hne (fun c hc => (hall c hc).1)
  rw [hb] at hb1
  cases hb1
  obtain ⟨g, gb, ga, gbox, gt, gu, greal⟩ := stored_form lx0 ly0 lz0 hne' hghost
  have hsh : Shifted s g d := shifted_build lx0 ly0 lz0 hne (fun c hc => (hall c hc).1) hd (spread_inBox lx0 ly0 lz0 fun c hc => (hall c hc).2)
    (spread_displaced (fun c hc => (hall c hc).2) hd (by rw [ex]; nlinarith) (by rw [ey]; nlinarith) (by rw [ez]; nlinarith)) hb gb
  have htemp : ∀ y ∈ g.atoms, y.temp = [] := by
    intro y hy
    rw [ga] at hy
    rcases List.mem_append.1 hy with hy | hy
    · obtain ⟨x, hx, e⟩ := hpt y hy
      rw [e]
      exact makeCrystal_fresh hm x hx
    · exact repNew_temp y hy
  have hle : g.realNop ≤ g.atoms.length := by rw [greal, ga, List.length_append]; omega
  have hvolg : Spec.searchVolume g = Spec.searchVolume s := by
    unfold Spec.searchVolume
    rw [gt, st, gbox, sb, hlen', if_neg (by decide), if_neg (by decide)]
  have hR : Spec.SearchRadius g 3 (g.guessDist 3) := (searchRadius_iff _ _ _).2 rfl
  have hρR : ρ + 2 * d ≤ g.guessDist 3 := by
    have h3 : (g.guessDist 3) ^ 3 = 27 * ((Spec.cellEdges name a ca).x * (Spec.cellEdges name a ca).y * (Spec.cellEdges name a ca).z / (Spec.basis name).length) := by
      rw [hR, hvolg, hsh.len, hvol, hlen, ex, ey, ez]
      have : ((Spec.basis name).length : ℝ) ≠ 0 := by exact_mod_cast hB.ne'
      push_cast
      field_simp
      norm_num
    rw [← h3] at hρ
    exact (Odd.strictMono_pow (by decide : Odd 3)).le_iff_le.1 hρ
  obtain ⟨g', cnt, hrun, hk⟩ := cna_fresh σ g lc _ hR hle htemp (fun h => by rw [gu] at h; cases h)
    (enough_ball hρR fun i hi => (hball s hF hcry i (hsh.len ▸ hi)).trans (hsh.ball_length (hsh.len ▸ hi) 0 ρ))
  obtain ⟨q1, q2, q3, q4, q5, q6⟩ := C28_cna σ g g' lc cnt hrun
  have hstruct : ∀ x ∈ g'.atoms, x.struct = code := by
    intro y hy
    obtain ⟨i, hi⟩ := List.mem_iff_getElem?.1 hy
    have hil : i < g.atoms.length := by rw [← q2]; exact (List.getElem?_eq_some_iff.1 hi).1
    obtain ⟨a', ha', c1, c2, sig1, sig2, w1, -, w2, w3, w4, w5, -⟩ := hk i _ (List.getElem?_eq_getElem hil)
    rw [hi] at ha'
    cases ha'
    exact hatom s g hF hcry hsh i _ _ c1 c2 sig1 sig2 _ (List.getElem?_eq_getElem hil) w1 w2 w3 w4 w5
  have hN : g'.realNop = (Spec.basis name).length * nx * ny * nz := by rw [q1, greal, hlen', hlen]
  have hle' : g'.realNop ≤ g'.atoms.length := by rw [q1, q2]; exact hle
  have hcnt : cnt = (List.range 5).map fun c => if c = code then (Spec.basis name).length * nx * ny * nz else 0 := by
    refine List.ext_getElem? fun c => ?_
    by_cases hc : c < 5
    · rw [q6 c hc, List.getElem?_map, List.getElem?_range hc]
      simp only [Option.map_some, Option.some.injEq]
      split_ifs with h
      · rw [List.countP_eq_length.2 fun x hx => decide_eq_true (by rw [hstruct x (List.mem_of_mem_take hx), h]), List.length_take, min_eq_left hle', hN]
      · rw [List.countP_eq_zero.2 fun x hx => by
          rw [decide_eq_true_eq, hstruct x (List.mem_of_mem_take hx)]
          intro h'
          exact h (by exact_mod_cast h'.symm)]
    · rw [List.getElem?_eq_none (by omega), List.getElem?_eq_none (by simp; omega)]
  rw [hcnt] at hrun
  refine ⟨g, g', g'.atoms.take g'.realNop, gb, hrun, by rw [System.getAtoms, if_pos hle'], ?_, fun x hx => hstruct x (List.mem_of_mem_take hx)⟩
  rw [List.length_take, min_eq_left hle', hN]

/-- **C98, fcc**: take the atoms of a crystal made with `make_crystal`, fcc or l12, of any size for which the stored box has at least three unit cells in every direction,
and move every atom by up to `d` in any direction. `calculate_cna` still classifies every atom as fcc if `d` is at most 3.3 % of the lattice constant (adaptive cutoff) or
7.2 % (cutoff from the lattice constant). -/
theorem C98_cna_fcc (σ : StdSort) (name : String) (hn : name ∈ ["fcc", "l12"]) {a ca d : ℝ} (ha : 0 < a) (hca : 0 < ca) {nx ny nz : ℕ} (hx : 1 ≤ nx) (hy : 1 ≤ ny) (hz : 1 ≤ nz)
    (hfit : Spec.HalfFits (4 * nx * ny * nz) nx ny nz (3 / 2)) (lc : Option ℝ) (hlc : lc = none ∧ d ≤ 0.033 * a ∨ lc = some a ∧ d ≤ 0.072 * a)
    {atoms l' : List Atom} {box : Mat3} (hm : makeCrystal name a nx ny nz ca = .ok (atoms, box)) (hd : Spec.Displaced d atoms l') :
    ∃ g g' as, buildSystem box l' = .ok g ∧ g.calculateCna σ lc = .ok (g', [0, 4 * nx * ny * nz, 0, 0, 0]) ∧ g'.getAtoms = .ok as ∧ as.length = 4 * nx * ny * nz ∧
      ∀ x ∈ as, x.struct = 1 := by
  have hstr : name ∈ Spec.structures ∧ name ∈ Spec.cubic ∧ name ≠ "hcp" ∧ (Spec.basis name).length = 4 := by
    simp only [List.mem_cons, List.not_mem_nil, or_false] at hn
    rcases hn with rfl | rfl <;> decide
  obtain ⟨h1, h2, h3, h4⟩ := hstr
  have hE : Spec.cellEdges name a ca = ⟨a, a, a⟩ := by rw [Spec.cellEdges, if_neg h3]
  have s24 : Real.sqrt 24 < 5 := by rw [Real.sqrt_lt' (by norm_num)]; norm_num
  have s24' : 0 ≤ Real.sqrt 24 := Real.sqrt_nonneg _
  have hda : d ≤ 0.072 * a := by rcases hlc with ⟨-, h⟩ | ⟨-, h⟩ <;> linarith
  have hd0 : 0 ≤ d := by
    obtain ⟨atoms', lx, ly, lz, hm', -, -, -, hlen, -⟩ := C40_make_crystal name h1 ha hca hx hy hz
    rw [hm] at hm'
    cases hm'
    have hpos : 0 < atoms.length := by rw [hlen, h4]; positivity
    have := (List.forall₂_iff_get.1 hd |>.2 0 hpos (hd.length_eq ▸ hpos)).2
    exact (V3.norm_nonneg _).trans this
  have := noisy_cna σ h1 ha hca hx hy hz hm hd (by rw [hE]; dsimp only; linarith) (by rw [hE]; dsimp only; linarith) (by rw [hE]; dsimp only; linarith)
    (r := 3 / 2 * a) (ρ := (a / 4) * Real.sqrt (24 : ℕ)) (by
    rw [hE, h4]
    obtain ⟨f1, f2, f3⟩ := hfit
    refine ⟨?_, ?_, ?_⟩ <;> dsimp only <;> nlinarith) (by positivity) (by
    rw [hE, h4]
    dsimp only
    push_cast
    have : (a / 4 * Real.sqrt 24 + 2 * d) ^ 3 ≤ (3 / 2 * a) ^ 3 := pow_le_pow_left₀ (by positivity) (by nlinarith) 3
    nlinarith [pow_pos ha 3]) lc 1 (by
    intro s hF hcr
    rw [hE] at hcr
    refine points_length h2 ha (by norm_num) (fun b hb => ⟨(fcc_table name hn b hb).1, (fcc_table name hn b hb).2.1⟩) (hF.anti ?_) hcr
    push_cast; nlinarith) (by
    intro s g hF hcr hsh i x N c1 c2 sig1 sig2 k hi hN hc g1 g2 hcl
    rw [hE] at hcr
    exact fcc_noisy hn ha hF hcr hsh hi hN hlc hc g1 hcl)
  rw [h4] at this
  simpa [List.range_succ] using this

/-- **C98, bcc**: the same for bcc and b2 crystals with at least five unit cells in every direction of the stored box and displacements of up to 2.2 % of the lattice constant. -/
theorem C98_cna_bcc (σ : StdSort) (name : String) (hn : name ∈ ["bcc", "b2"]) {a ca d : ℝ} (ha : 0 < a) (hca : 0 < ca) {nx ny nz : ℕ} (hx : 1 ≤ nx) (hy : 1 ≤ ny) (hz : 1 ≤ nz)
    (hfit : Spec.HalfFits (2 * nx * ny * nz) nx ny nz (5 / 2)) (lc : Option ℝ) (hlc : lc = none ∨ lc = some a) (hda : d ≤ 0.022 * a)
    {atoms l' : List Atom} {box : Mat3} (hm : makeCrystal name a nx ny nz ca = .ok (atoms, box)) (hd : Spec.Displaced d atoms l') :
    ∃ g g' as, buildSystem box l' = .ok g ∧ g.calculateCna σ lc = .ok (g', [0, 0, 0, 2 * nx * ny * nz, 0]) ∧ g'.getAtoms = .ok as ∧ as.length = 2 * nx * ny * nz ∧
      ∀ x ∈ as, x.struct = 3 := by
  have hstr : name ∈ Spec.structures ∧ name ∈ Spec.cubic ∧ name ≠ "hcp" ∧ (Spec.basis name).length = 2 := by
    simp only [List.mem_cons, List.not_mem_nil, or_false] at hn
    rcases hn with rfl | rfl <;> decide
  obtain ⟨h1, h2, h3, h4⟩ := hstr
  have hE : Spec.cellEdges name a ca = ⟨a, a, a⟩ := by rw [Spec.cellEdges, if_neg h3]
  have s24 : Real.sqrt 32 < 6 := by rw [Real.sqrt_lt' (by norm_num)]; norm_num
  have s24' : 0 ≤ Real.sqrt 32 := Real.sqrt_nonneg _
  have hd0 : 0 ≤ d := by
    obtain ⟨atoms', lx, ly, lz, hm', -, -, -, hlen, -⟩ := C40_make_crystal name h1 ha hca hx hy hz
    rw [hm] at hm'
    cases hm'
    have hpos : 0 < atoms.length := by rw [hlen, h4]; positivity
    have := (List.forall₂_iff_get.1 hd |>.2 0 hpos (hd.length_eq ▸ hpos)).2
    exact (V3.norm_nonneg _).trans this
  have := noisy_cna σ h1 ha hca hx hy hz hm hd (by rw [hE]; dsimp only; linarith) (by rw [hE]; dsimp only; linarith) (by rw [hE]; dsimp only; linarith)
    (r := 5 / 2 * a) (ρ := (a / 4) * Real.sqrt (32 : ℕ)) (by
    rw [hE, h4]
    obtain ⟨f1, f2, f3⟩ := hfit
    refine ⟨?_, ?_, ?_⟩ <;> dsimp only <;> nlinarith) (by positivity) (by
    rw [hE, h4]
    dsimp only
    push_cast
    have : (a / 4 * Real.sqrt 32 + 2 * d) ^ 3 ≤ (1.6 * a) ^ 3 := pow_le_pow_left₀ (by positivity) (by nlinarith) 3
    nlinarith [pow_pos ha 3]) lc 3 (by
    intro s hF hcr
    rw [hE] at hcr
    refine points_length h2 ha (by norm_num) (fun b hb => ⟨(bcc_table.1 name hn b hb).1, ?_⟩) (hF.anti ?_) hcr
    · rw [(bcc_table.1 name hn b hb).2.length_eq, bcc_table.2.2.1]
    · push_cast; nlinarith) (by
    intro s g hF hcr hsh i x N c1 c2 sig1 sig2 k hi hN hc g1 g2 hcl
    rw [hE] at hcr
    exact bcc_noisy hn ha hF hcr hsh hi hN hlc hda hc g1 g2 hcl)
  rw [h4] at this
  simpa [List.range_succ] using this

/-- **C98**: with `noise`, `make_crystal` gives the atoms of the crystal without noise, in order and with the same box, identities and types, each moved by `noise` times its
random numbers; an unknown structure is refused in the same way. -/
theorem C98_noise (name : String) (a : ℝ) (nx ny nz : ℕ) (ca noise : ℝ) (gauss : ℕ → V3) :
    (∀ e, makeCrystal name a nx ny nz ca = .error e → makeCrystalNoise name a nx ny nz ca noise gauss = .error e) ∧
    ∀ atoms box, makeCrystal name a nx ny nz ca = .ok (atoms, box) → ∃ l', makeCrystalNoise name a nx ny nz ca noise gauss = .ok (l', box) ∧
      (noise ≤ 0 → l' = atoms) ∧
      (0 < noise → l'.length = atoms.length ∧ ∀ (k : ℕ) (x : Atom), atoms[k]? = some x → l'[k]? = some { x with pos := ⟨x.pos.x + noise * (gauss k).x, x.pos.y + noise * (gauss k).y, x.pos.z + noise * (gauss k).z⟩ }) ∧
      ∀ d, 0 ≤ d → (∀ k < atoms.length, noise * (gauss k).norm ≤ d) → Spec.Displaced d atoms l' := by
  unfold makeCrystal makeCrystalNoise
  cases hu : unitCell a ca name with
  | none => exact ⟨fun e h => h, fun atoms box h => by cases h⟩
  | some u =>
    refine ⟨fun e h => (by cases h), fun atoms box h => ?_⟩
    simp only [Except.ok.injEq, Prod.mk.injEq] at h
    obtain ⟨h1, h2⟩ := h
    refine ⟨_, by simp only [h2]; rfl, ?_, ?_, ?_⟩
    · intro h0
      rw [← h1]
      congr 1
      funext k x
      simp [noisyPos, not_lt.2 h0]
    · intro h0
      rw [← h1]
      refine ⟨by simp, fun k x hx => ?_⟩
      rw [List.getElem?_mapIdx] at hx ⊢
      obtain ⟨y, hy, rfl⟩ := Option.map_eq_some_iff.1 hx
      rw [hy]
      simp only [Option.map_some, noisyPos, gt_iff_lt, h0, if_true]
    · intro d hd0 hd
      rw [← h1] at hd ⊢
      refine List.forall₂_iff_get.2 ⟨by simp, fun k hk hk' => ?_⟩
      simp only [List.get_eq_getElem, List.getElem_mapIdx]
      refine ⟨trivial, ?_⟩
      unfold noisyPos
      split_ifs with h0
      · have := hd k hk
        refine le_trans (le_of_eq ?_) this
        have e : ∀ (p q : V3) (c : ℝ), 0 < c → V3.norm ((⟨p.x + c * q.x, p.y + c * q.y, p.z + c * q.z⟩ : V3) - p) = c * V3.norm q := by
          intro p q c hc
          have : V3.normSq ((⟨p.x + c * q.x, p.y + c * q.y, p.z + c * q.z⟩ : V3) - p) = c ^ 2 * V3.normSq q := by
            unfold V3.normSq; simp; ring
          unfold V3.norm
          rw [this, Real.sqrt_mul (by positivity), Real.sqrt_sq hc.le]
        exact e _ _ _ h0
      · have e : ∀ p : V3, V3.norm (p - p) = 0 := by
          intro p
          simp [V3.norm, V3.normSq]
        rw [e]
        exact hd0

/-- **C98, neighbours**: move every atom by up to `d`.  If no two stored atoms are at a distance from `r - 2 d` up to `r + 2 d`, a search with the cutoff `r` finds the same
neighbours as before. -/
theorem C98_cutoff (σ : StdSort) (f : ℕ) {r d : ℝ} (hr : r ≠ 0) {lx ly lz : ℝ} (hx : 0 < lx) (hy : 0 < ly) (hz : 0 < lz) {l l' : List Atom} (hne : l ≠ [])
    (hreal : ∀ a ∈ l, a.ghost = false) (hin : ∀ a ∈ l, InBox lx ly lz a.pos) (hd : Spec.Displaced d l l') (dx : 4 * d ≤ lx) (dy : 4 * d ≤ ly) (dz : 4 * d ≤ lz)
    {s g s1 g1 : System} (hs : buildSystem (diagBox lx ly lz) l = .ok s) (hg : buildSystem (diagBox lx ly lz) l' = .ok g)
    (hgap : ∀ (i j : ℕ) (x y : Atom), s.atoms[i]? = some x → s.atoms[j]? = some y → i ≠ j → s.getDistance x y < r - 2 * d ∨ r + 2 * d ≤ s.getDistance x y)
    (hps : Spec.PairsExact s r) (hpg : Spec.PairsExact g r) (h1 : s.findNeighbors σ f (.cutoff r) = .ok s1) (h2 : g.findNeighbors σ f (.cutoff r) = .ok g1) :
    g1.atoms.length = s1.atoms.length ∧ ∀ (i : ℕ) (x y : Atom), s1.atoms[i]? = some x → g1.atoms[i]? = some y → (y.nbrs.map Nb.idx).Perm (x.nbrs.map Nb.idx) := by
  have hsh : Shifted s g d := shifted_build hx hy hz hne hreal hd (spread_inBox hx hy hz hin) (spread_displaced hin hd dx dy dz) hs hg
  obtain ⟨-, a2, a3⟩ := cutoff_any hr hps h1
  obtain ⟨-, b2, b3⟩ := cutoff_any hr hpg h2
  refine ⟨by rw [a2, b2, hsh.len], fun i x y hx hy => ?_⟩
  obtain ⟨hi, p1, -⟩ := a3 i x hx
  obtain ⟨-, p2, -⟩ := b3 i y hy
  refine ((p2.map Nb.idx).trans (List.Perm.of_eq ?_)).trans (p1.map Nb.idx).symm
  refine hsh.ball fun j hj hne => ?_
  have hb := abs_le.1 (hsh.dist hi hj)
  have e := (distOf_eq (s := s) (List.getElem?_eq_getElem hi) (List.getElem?_eq_getElem hj)).1
  have := hgap j i _ _ (List.getElem?_eq_getElem hj) (List.getElem?_eq_getElem hi) hne
  rw [← e] at this
  constructor <;> intro h3 <;> rcases this with h | h <;> linarith

/-- In a perfect cubic crystal there are no distances between the first two shells. -/
theorem shell_gap {name : String} (hn : name ∈ Spec.cubic) {a u v : ℝ} (ha : 0 < a) {s : System} (hF : Spec.Faithful s v)
    (hcr : crystal s.box s.atoms = Spec.idealCrystal ⟨a, a, a⟩ (Spec.basis name)) (huv : u ≤ v) (hu : Spec.FirstShell name a u) (hv : Spec.FirstShell name a v) :
    ∀ (i j : ℕ) (x y : Atom), s.atoms[i]? = some x → s.atoms[j]? = some y → i ≠ j → s.getDistance x y < u ∨ v ≤ s.getDistance x y := by
  classical
  intro i j x y hi hj hij
  by_contra hcon
  obtain ⟨h1, h2⟩ := not_or.1 hcon
  obtain ⟨b, -, -, hp⟩ := near_all hn ha hcr 0 j _ hj
  have c1 := (hp _ hu (hF.anti huv)).length_eq
  have c2 := (hp _ hv hF).length_eq
  rw [List.length_map] at c1 c2
  have e := c1.trans c2.symm
  unfold cutoffNbs at e
  rw [List.length_map, List.length_map] at e
  have hd := (distOf_eq (s := s) hj hi).1
  have hsub : ((List.range s.atoms.length).filter fun k => decide (k ≠ j ∧ (s.distOf j k < u ∧ filterOK 0 (s.typeOf j) (s.typeOf k) = true))).length <
      ((List.range s.atoms.length).filter fun k => decide (k ≠ j ∧ (s.distOf j k < v ∧ filterOK 0 (s.typeOf j) (s.typeOf k) = true))).length := by
    rw [← List.toFinset_card_of_nodup (List.nodup_range.filter _), ← List.toFinset_card_of_nodup (List.nodup_range.filter _)]
    refine Finset.card_lt_card ⟨fun k hk => ?_, fun hall => ?_⟩
    · simp only [List.mem_toFinset, List.mem_filter, decide_eq_true_eq] at hk ⊢
      exact ⟨hk.1, hk.2.1, by linarith [hk.2.2.1], hk.2.2.2⟩
    · have : i ∈ ((List.range s.atoms.length).filter fun k => decide (k ≠ j ∧ (s.distOf j k < v ∧ filterOK 0 (s.typeOf j) (s.typeOf k) = true))).toFinset := by
        simp only [List.mem_toFinset, List.mem_filter, decide_eq_true_eq, List.mem_range]
        exact ⟨(List.getElem?_eq_some_iff.1 hi).1, hij, by rw [hd]; exact not_le.1 h2, rfl⟩
      have := hall this
      simp only [List.mem_toFinset, List.mem_filter, decide_eq_true_eq] at this
      exact h1 (hd ▸ this.2.2.1)
  omega

/-- Specification: no coordinate is less than 1e-6 below zero (the cell lists put such an atom into the wrong cell). -/
def Spec.Binnable (l : List Atom) : Prop := ∀ a ∈ l, (0 ≤ a.pos.x ∨ a.pos.x ≤ -1e-6) ∧ (0 ≤ a.pos.y ∨ a.pos.y ≤ -1e-6) ∧ (0 ≤ a.pos.z ∨ a.pos.z ≤ -1e-6)

/-- Displaced atoms of a periodic box: the search compares all pairs, or the cell lists are fit for them. -/
theorem displaced_exact {lx ly lz r d : ℝ} (hx : 0 < lx) (hy : 0 < ly) (hz : 0 < lz) {l l' : List Atom} (hne : l ≠ []) (hreal : ∀ a ∈ l, a.ghost = false)
    (hin : ∀ a ∈ l, InBox lx ly lz a.pos) (hd : Spec.Displaced d l l') (dx : 4 * d ≤ lx) (dy : 4 * d ≤ ly) (dz : 4 * d ≤ lz)
    (hfit : 2300 < l.length → 3 * r ≤ lx ∧ 3 * r ≤ ly ∧ 3 * r ≤ lz) (hN : l.length ≤ 2300 ∨ 1e-6 ≤ r ∧ Spec.Binnable l') {g : System}
    (hg : buildSystem (diagBox lx ly lz) l' = .ok g) : Spec.PairsExact g r := by
  have hll : l'.length = l.length := hd.length_eq.symm
  have hpos : 0 < l.length := List.length_pos_iff.2 hne
  obtain ⟨g', e1, e2, e3, e4, -, e5⟩ := stored_form hx hy hz (l := l') (List.length_pos_iff.1 (hll ▸ hpos)) (by
    intro y hy
    obtain ⟨k, hk, rfl⟩ := List.getElem_of_mem hy
    have := (List.forall₂_iff_get.1 hd |>.2 k (hll ▸ hk) hk).1
    simp only [List.get_eq_getElem] at this
    have h0 := hreal _ (List.getElem_mem (h := (hll ▸ hk : k < l.length)))
    rw [this]
    exact h0)
  rw [hg] at e1
  cases e1
  by_cases hle : l.length ≤ 2300
  · exact .inl (by show g.realNop ≤ 2300; rw [e5, hll]; exact hle)
  obtain ⟨r6, hb⟩ := hN.resolve_left hle
  obtain ⟨f1, f2, f3⟩ := hfit (not_le.1 hle)
  have hc : copies l'.length = 0 := by rw [copies, if_neg (by omega)]
  rw [hc, repNew_zero, List.append_nil] at e2
  rw [hc] at e3
  refine .inr ⟨lx, ly, lz, by rw [e3]; simp, e4, r6, f1, f2, f3, fun a ha => ?_⟩
  rw [e2] at ha
  obtain ⟨b1, b2, b3⟩ := hb a ha
  obtain ⟨k, hk, rfl⟩ := List.getElem_of_mem ha
  obtain ⟨-, h2⟩ := List.forall₂_iff_get.1 hd |>.2 k (hll ▸ hk) hk
  obtain ⟨⟨i1, i2⟩, ⟨i3, i4⟩, i5, i6⟩ := hin _ (List.getElem_mem (hll ▸ hk))
  obtain ⟨c1, c2, c3⟩ := comp_le_norm (l'[k].pos - l[k].pos)
  simp only [List.get_eq_getElem] at h2
  rw [V3.sub_x] at c1
  rw [V3.sub_y] at c2
  rw [V3.sub_z] at c3
  obtain ⟨c1, c1'⟩ := abs_le.1 c1
  obtain ⟨c2, c2'⟩ := abs_le.1 c2
  obtain ⟨c3, c3'⟩ := abs_le.1 c3
  exact ⟨⟨by linarith, by linarith, b1⟩, ⟨by linarith, by linarith, b2⟩, by linarith, by linarith, b3⟩

/-- **C98, coordination**: in a cubic crystal made with `make_crystal`, whose atoms are then moved by up to `d` (not to coordinates less than 1e-6 below zero if there are more than
2300 atoms), a cutoff that stays clear of the
first and second shells by `2 d` still gives every atom the coordination number of the structure. -/
theorem C98_coordination (σ : StdSort) (name : String) (hn : name ∈ Spec.cubic) {a ca r d : ℝ} (ha : 0 < a) (hca : 0 < ca) {nx ny nz : ℕ} (hx : 1 ≤ nx) (hy : 1 ≤ ny) (hz : 1 ≤ nz)
    (hr : Spec.FirstShell name a (r - 2 * d)) (hr' : Spec.FirstShell name a (r + 2 * d)) (hda : 4 * d ≤ a)
    {atoms l' : List Atom} (hfit : Spec.RangeFits ((Spec.basis name).length * nx * ny * nz) (nx * a) (ny * a) (nz * a) (r + 2 * d)) (hN : (Spec.basis name).length * nx * ny * nz ≤ 2300 ∨ 1e-6 ≤ r ∧ Spec.Binnable l')
    (f : ℕ) (hf : f ≤ 2) {box : Mat3} (hm : makeCrystal name a nx ny nz ca = .ok (atoms, box)) (hd : Spec.Displaced d atoms l') :
    ∃ g g1 as, buildSystem box l' = .ok g ∧ g.findNeighbors σ f (.cutoff r) = .ok g1 ∧ g1.getAtoms = .ok as ∧ as.length = (Spec.basis name).length * nx * ny * nz ∧
      ∀ x ∈ as, x.nbrs.length ∈ Spec.coordination name f x.type := by
  have hs : name ∈ Spec.structures := by
    simp only [Spec.cubic, List.mem_cons, List.not_mem_nil, or_false] at hn
    rcases hn with rfl | rfl | rfl | rfl | rfl | rfl | rfl <;> decide
  have hh : name ≠ "hcp" := by
    rintro rfl
    revert hn; decide
  have hE : Spec.cellEdges name a ca = ⟨a, a, a⟩ := by rw [Spec.cellEdges, if_neg hh]
  obtain ⟨atoms', lx, ly, lz, hm', ex, ey, ez, hlen, hat, hnd, hcr⟩ := C40_make_crystal name hs ha hca hx hy hz
  rw [hm] at hm'
  cases hm'
  rw [hE] at ex ey ez hcr
  dsimp only at ex ey ez
  have x1 : (1 : ℝ) ≤ nx := by exact_mod_cast hx
  have y1 : (1 : ℝ) ≤ ny := by exact_mod_cast hy
  have z1 : (1 : ℝ) ≤ nz := by exact_mod_cast hz
  have hall : ∀ c ∈ atoms, c.ghost = false ∧ InBox lx ly lz c.pos := by
    intro c hc
    obtain ⟨k, hk⟩ := List.mem_iff_getElem?.1 hc
    exact (hat k c hk).2.2
  have hB : 0 < (Spec.basis name).length := by
    have : ∀ name ∈ Spec.structures, 0 < (Spec.basis name).length := by decide
    exact this name hs
  have hpos : 0 < atoms.length := by rw [hlen]; positivity
  have hne : atoms ≠ [] := List.length_pos_iff.1 hpos
  have hd0 : 0 ≤ d := (V3.norm_nonneg _).trans (List.forall₂_iff_get.1 hd |>.2 0 hpos (hd.length_eq ▸ hpos)).2
  have lx0 : 0 < lx := by rw [ex]; positivity
  have ly0 : 0 < ly := by rw [ey]; positivity
  have lz0 : 0 < lz := by rw [ez]; positivity
  have hr0 : 0 < r - 2 * d := lt_of_le_of_lt (by positivity) hr.1
  obtain ⟨s, hb, hF, -, -, -, hcr', -⟩ := inBox_build lx0 ly0 lz0 hne (fun c hc => (hall c hc).1) (fun c hc => (hall c hc).2) hnd (by linarith : 0 ≤ r + 2 * d)
    (by rw [hlen, ex, ey, ez]; exact hfit)
  have hlen' : l'.length = atoms.length := hd.length_eq.symm
  have hne' : l' ≠ [] := List.length_pos_iff.1 (hlen' ▸ hpos)
  have hghost : ∀ y ∈ l', y.ghost = false := by
    intro y hy
    obtain ⟨k, hk, rfl⟩ := List.getElem_of_mem hy
    have := (List.forall₂_iff_get.1 hd |>.2 k (hlen' ▸ hk) hk).1
    simp only [List.get_eq_getElem] at this
    rw [this]
    exact (hall _ (List.getElem_mem (hlen' ▸ hk))).1
  obtain ⟨g, gb, ga, -, -, -, greal⟩ := stored_form lx0 ly0 lz0 hne' hghost
  have hsh : Shifted s g d := shifted_build lx0 ly0 lz0 hne (fun c hc => (hall c hc).1) hd (spread_inBox lx0 ly0 lz0 fun c hc => (hall c hc).2)
    (spread_displaced (fun c hc => (hall c hc).2) hd (by rw [ex]; nlinarith) (by rw [ey]; nlinarith) (by rw [ez]; nlinarith)) hb gb
  have hle : g.realNop ≤ g.atoms.length := by rw [greal, ga, List.length_append]; omega
  have hexact : Spec.PairsExact g r := displaced_exact lx0 ly0 lz0 hne (fun c hc => (hall c hc).1) (fun c hc => (hall c hc).2) hd (by rw [ex]; nlinarith) (by rw [ey]; nlinarith)
    (by rw [ez]; nlinarith) (fun h => by
      obtain ⟨-, f2, f3, f4⟩ := hfit.2.2 (by rw [← hlen]; exact h)
      rw [ex, ey, ez]
      exact ⟨by linarith, by linarith, by linarith⟩) (by rw [hlen]; exact hN) gb
  have hcount : ∀ i, i < g.atoms.length → ∃ b ∈ quarters name, g.typeOf i = b.2 ∧ (cutoffNbs g r f i).length = ((near name b.1).filter fun p => filterOK f b.2 p.2).length := by
    intro i hi
    have hil : i < s.atoms.length := hsh.len ▸ hi
    obtain ⟨b, hb, ht, hp⟩ := near_all hn ha (hcr'.trans hcr) f i _ (List.getElem?_eq_getElem hil)
    refine ⟨b, hb, ?_, ?_⟩
    · rw [hsh.type, System.typeOf, mem_eq_getElem _ _ hil, ht]
    · have c1 := (hp _ hr (hF.anti (by linarith))).length_eq
      have c2 := (hp _ hr' hF).length_eq
      rw [List.length_map, List.length_map] at c1 c2
      have b1 := hsh.ball_length hil f (r - 2 * d)
      have b2 := hsh.ball_length' hil f r
      rw [sub_add_cancel] at b1
      omega
  obtain ⟨g1, hg1⟩ := cutoff_isOk σ (f := f) (by linarith : r ≠ 0) hexact hle (by
    intro i hi
    obtain ⟨b, hb, -, e⟩ := hcount i hi
    rw [e]
    refine (List.length_filter_le _ _).trans ?_
    have : ∀ name ∈ Spec.cubic, ∀ b ∈ quarters name, (near name b.1).length ≤ 300 := by decide +kernel
    exact this name hn b hb)
  obtain ⟨e1, e2, e3⟩ := cutoff_any (by linarith : r ≠ 0) hexact hg1
  have r1 : g1.realNop = g.realNop := by rw [e1]
  have hle1 : g1.realNop ≤ g1.atoms.length := by rw [r1, e2]; exact hle
  refine ⟨g, g1, g1.atoms.take g1.realNop, gb, hg1, by rw [System.getAtoms, if_pos hle1], ?_, fun x hx => ?_⟩
  · rw [List.length_take, min_eq_left hle1, r1, greal, hlen', hlen]
  · obtain ⟨i, hi⟩ := List.mem_iff_getElem?.1 (List.mem_of_mem_take hx)
    obtain ⟨hil, hperm, hrest⟩ := e3 i x hi
    obtain ⟨b, hb, ht, hc⟩ := hcount i hil
    have h5 := congrArg Atom.type hrest
    have h5 : x.type = g.typeOf i := h5
    rw [hperm.length_eq, hc, h5, ht]
    exact (near_table name hn b hb).2.2.2.2 f (by simp; omega)

/-- The hypotheses are met: 4 x 4 x 4 fcc cells with noise, one fcc cell, one bcc cell, with every random number of length at most three. -/
example (σ : StdSort) (gauss : ℕ → V3) (hg : ∀ k, (gauss k).norm ≤ 3) : ∃ l' box g g' as, makeCrystalNoise "fcc" 4 4 4 4 1 0.04 gauss = .ok (l', box) ∧ buildSystem box l' = .ok g ∧
    g.calculateCna σ none = .ok (g', [0, 256, 0, 0, 0]) ∧ g'.getAtoms = .ok as ∧ as.length = 256 ∧ ∀ x ∈ as, x.struct = 1 := by
  obtain ⟨atoms, lx, ly, lz, hm, -⟩ := C40_make_crystal "fcc" (by decide) (a := 4) (ca := 1) (by norm_num) (by norm_num) (nx := 4) (ny := 4) (nz := 4) (by norm_num) (by norm_num) (by norm_num)
  obtain ⟨l', h1, -, -, h2⟩ := (C98_noise "fcc" 4 4 4 4 1 0.04 gauss).2 _ _ hm
  have h3 := h2 0.12 (by norm_num) fun k _ => by nlinarith [hg k]
  obtain ⟨g, g', as, r⟩ := C98_cna_fcc σ "fcc" (by decide) (a := 4) (ca := 1) (by norm_num) (by norm_num) (nx := 4) (ny := 4) (nz := 4) (by norm_num) (by norm_num) (by norm_num)
    (by refine ⟨?_, ?_, ?_⟩ <;> norm_num [Spec.stretch]) none (.inl ⟨rfl, by norm_num⟩) hm h3
  exact ⟨l', _, g, g', as, h1, r⟩
example (σ : StdSort) (gauss : ℕ → V3) (hg : ∀ k, (gauss k).norm ≤ 3) : ∃ l' box g g' as, makeCrystalNoise "bcc" 3 1 1 1 1 0.02 gauss = .ok (l', box) ∧ buildSystem box l' = .ok g ∧
    g.calculateCna σ (some 3) = .ok (g', [0, 0, 0, 2, 0]) ∧ g'.getAtoms = .ok as ∧ as.length = 2 ∧ ∀ x ∈ as, x.struct = 3 := by
  obtain ⟨atoms, lx, ly, lz, hm, -⟩ := C40_make_crystal "bcc" (by decide) (a := 3) (ca := 1) (by norm_num) (by norm_num) (nx := 1) (ny := 1) (nz := 1) (by norm_num) (by norm_num) (by norm_num)
  obtain ⟨l', h1, -, -, h2⟩ := (C98_noise "bcc" 3 1 1 1 1 0.02 gauss).2 _ _ hm
  have h3 := h2 0.06 (by norm_num) fun k _ => by nlinarith [hg k]
  obtain ⟨g, g', as, r⟩ := C98_cna_bcc σ "bcc" (by decide) (a := 3) (ca := 1) (by norm_num) (by norm_num) (nx := 1) (ny := 1) (nz := 1) (by norm_num) (by norm_num) (by norm_num)
    (by refine ⟨?_, ?_, ?_⟩ <;> norm_num [Spec.stretch]) (some 3) (.inr rfl) (by norm_num) hm h3
  exact ⟨l', _, g, g', as, h1, r⟩
example (σ : StdSort) (gauss : ℕ → V3) (hg : ∀ k, (gauss k).norm ≤ 3) : ∃ l' box g g1 as, makeCrystalNoise "diamond" 4 3 3 3 1 0.03 gauss = .ok (l', box) ∧
    buildSystem box l' = .ok g ∧ g.findNeighbors σ 0 (.cutoff 2.3) = .ok g1 ∧ g1.getAtoms = .ok as ∧ as.length = 216 ∧ ∀ x ∈ as, x.nbrs.length ∈ [4] := by
  obtain ⟨atoms, lx, ly, lz, hm, -⟩ := C40_make_crystal "diamond" (by decide) (a := 4) (ca := 1) (by norm_num) (by norm_num) (nx := 3) (ny := 3) (nz := 3) (by norm_num) (by norm_num) (by norm_num)
  obtain ⟨l', h1, -, -, h2⟩ := (C98_noise "diamond" 4 3 3 3 1 0.03 gauss).2 _ _ hm
  have h3 := h2 0.09 (by norm_num) fun k _ => by nlinarith [hg k]
  have t3 : Real.sqrt 3 < 1.74 := by rw [Real.sqrt_lt' (by norm_num)]; norm_num
  have t8 : (2.8 : ℝ) < Real.sqrt 8 := by rw [Real.lt_sqrt (by norm_num)]; norm_num
  obtain ⟨g, g1, as, r⟩ := C98_coordination σ "diamond" (by decide) (a := 4) (ca := 1) (r := 2.3) (d := 0.09) (by norm_num) (by norm_num) (nx := 3) (ny := 3) (nz := 3) (by norm_num) (by norm_num)
    (by norm_num) (by constructor <;> norm_num [Spec.limits] <;> linarith) (by constructor <;> norm_num [Spec.limits] <;> linarith) (by norm_num)
    (by simp only [Spec.RangeFits, Spec.basis, List.length_cons, List.length_nil]; refine ⟨?_, ?_, ?_⟩ <;> norm_num) (.inl (by decide)) 0 (by norm_num) hm h3
  exact ⟨l', _, g, g1, as, h1, r⟩
/-- The hypotheses of `C98_cutoff` are met by an sc crystal whose first atom is moved. -/
example (σ : StdSort) : ∃ atoms l' box s g s1 g1, makeCrystal "sc" 4 6 6 6 1 = .ok (atoms, box) ∧ l' ≠ atoms ∧ Spec.Displaced 0.1 atoms l' ∧ buildSystem box atoms = .ok s ∧ buildSystem box l' = .ok g ∧
    s.findNeighbors σ 0 (.cutoff 5) = .ok s1 ∧ g.findNeighbors σ 0 (.cutoff 5) = .ok g1 ∧
    ∀ (i : ℕ) (x y : Atom), s1.atoms[i]? = some x → g1.atoms[i]? = some y → (y.nbrs.map Nb.idx).Perm (x.nbrs.map Nb.idx) := by
  have hE : Spec.cellEdges "sc" 4 1 = ⟨4, 4, 4⟩ := by rw [Spec.cellEdges, if_neg (by decide)]
  obtain ⟨atoms, lx, ly, lz, hm, ex, ey, ez, hlen, hat, hnd, hcr⟩ := C40_make_crystal "sc" (by decide) (a := 4) (ca := 1) (by norm_num) (by norm_num) (nx := 6) (ny := 6) (nz := 6)
    (by norm_num) (by norm_num) (by norm_num)
  rw [hE] at ex ey ez hcr
  norm_num at ex ey ez
  subst ex ey ez
  obtain ⟨l', h1, -, h0, h2⟩ := (C98_noise "sc" 4 6 6 6 1 0.1 fun _ => ⟨1, 0, 0⟩).2 _ _ hm
  have n1 : V3.norm ⟨1, 0, 0⟩ = 1 := by simp [V3.norm, V3.normSq]
  have h3 := h2 0.1 (by norm_num) fun k _ => by rw [n1]; norm_num
  have hB : (Spec.basis "sc").length = 1 := by decide
  rw [hB] at hlen
  have hne : atoms ≠ [] := by rintro rfl; simp at hlen
  have hall : ∀ c ∈ atoms, c.ghost = false ∧ InBox 24 24 24 c.pos := by
    intro c hc
    obtain ⟨k, hk⟩ := List.mem_iff_getElem?.1 hc
    exact (hat k c hk).2.2
  have s16 : Real.sqrt 16 = 4 := by rw [Real.sqrt_eq_iff_mul_self_eq_of_pos (by norm_num)]; norm_num
  have s32 : (5.6 : ℝ) < Real.sqrt 32 := by rw [Real.lt_sqrt (by norm_num)]; norm_num
  have f1 : Spec.FirstShell "sc" 4 (5 - 2 * 0.1) := by constructor <;> norm_num [Spec.limits, s16] <;> linarith
  have f2 : Spec.FirstShell "sc" 4 (5 + 2 * 0.1) := by constructor <;> norm_num [Spec.limits, s16] <;> linarith
  obtain ⟨s, hb, hF, -, hreal, hle, hcr', -⟩ := inBox_build (by norm_num) (by norm_num) (by norm_num) hne (fun c hc => (hall c hc).1) (fun c hc => (hall c hc).2) hnd
    (by norm_num : (0 : ℝ) ≤ 5 + 2 * 0.1) (by rw [hlen]; refine ⟨?_, ?_, ?_⟩ <;> norm_num)
  have hfit : ∀ r : ℝ, r ≤ 6 → Spec.RangeFits ((Spec.basis "sc").length * 6 * 6 * 6) ((6 : ℕ) * 4) ((6 : ℕ) * 4) ((6 : ℕ) * 4) r := by
    intro r hr
    rw [hB]
    refine ⟨fun h => by norm_num at h, fun _ => ⟨?_, ?_, ?_⟩, fun h => by norm_num at h⟩ <;> push_cast <;> linarith
  obtain ⟨g, g1, -, hg, hg1, -⟩ := C98_coordination σ "sc" (by decide) (a := 4) (ca := 1) (r := 5) (d := 0.1) (by norm_num) (by norm_num) (nx := 6) (ny := 6) (nz := 6) (by norm_num) (by norm_num)
    (by norm_num) f1 f2 (by norm_num) (hfit _ (by norm_num)) (by rw [hB]; norm_num) 0 (by norm_num) hm h3
  obtain ⟨atoms', box', s', s1, -, k1, k2, k3, -⟩ := C95_coordination σ "sc" (by decide) (a := 4) (ca := 1) (r := 5) (by norm_num) (by norm_num) (nx := 6) (ny := 6) (nz := 6) (by norm_num) (by norm_num)
    (by norm_num) ⟨by linarith [f1.1], by linarith [f2.2]⟩ (hfit _ (by norm_num)) 0 (by norm_num)
  rw [hm] at k1
  cases k1
  rw [hb] at k2
  cases k2
  have hlen' := h3.length_eq
  have hg2 : g.realNop = l'.length := by
    obtain ⟨g', q1, -, -, -, -, q2⟩ := stored_form (by norm_num : (0 : ℝ) < 24) (by norm_num : (0 : ℝ) < 24) (by norm_num : (0 : ℝ) < 24) (l := l')
      (fun h => hne (List.length_eq_zero_iff.1 (by rw [hlen', h, List.length_nil]))) (by
        intro y hy
        obtain ⟨k, hk, rfl⟩ := List.getElem_of_mem hy
        have := (List.forall₂_iff_get.1 h3 |>.2 k (hlen' ▸ hk) hk).1
        simp only [List.get_eq_getElem] at this
        rw [this]
        exact (hall _ (List.getElem_mem (hlen' ▸ hk))).1)
    rw [hg] at q1
    cases q1
    exact q2
  have hdiff : l' ≠ atoms := by
    intro e
    obtain ⟨-, hk⟩ := h0 (by norm_num)
    obtain ⟨x, xs, rfl⟩ := List.exists_cons_of_ne_nil hne
    have := hk 0 x rfl
    rw [e] at this
    have h5 := congrArg (fun o : Option Atom => o.map fun z => z.pos.x) this
    norm_num at h5
  refine ⟨atoms, l', _, s, g, s1, g1, hm, hdiff, h3, hb, hg, k3, hg1, ?_⟩
  exact (C98_cutoff σ 0 (by norm_num) (by norm_num) (by norm_num) (by norm_num) hne (fun c hc => (hall c hc).1) (fun c hc => (hall c hc).2) h3 (by norm_num) (by norm_num) (by norm_num) hb hg
    (shell_gap (by decide) (by norm_num : (0 : ℝ) < 4) hF (hcr'.trans hcr) (by norm_num) f1 f2) (.inl (by show s.realNop ≤ 2300; rw [hreal, hlen]; norm_num))
    (.inl (by show g.realNop ≤ 2300; rw [hg2, ← hlen', hlen]; norm_num)) k3 hg1).2

end Pyscal
