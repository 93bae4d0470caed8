import Verif.Props.Continuity
import Verif.Props.PerfectSolids

/-! C100, solids: slightly distorted crystals are still solid, and one cluster. -/

namespace Pyscal

open Spec (diagBox InBox crystal)

/-- `s_ij` of two atoms whose vectors are close to each other. -/
theorem sij_low (l : ℕ) (h2 : 2 ≤ l) (h12 : l ≤ 12) {A B : List Nb} (hA : ∀ x ∈ A, x.vec ≠ 0) (hB : ∀ x ∈ B, x.vec ≠ 0) {D m : ℝ} (hm : 0 < m)
    (mA : m ≤ qValue l (sumVec l A)) (mB : m ≤ qValue l (sumVec l B)) (hD : qValue l (subVec (sumVec l A) (sumVec l B)) ≤ D) :
    ∃ y, fdiv (Spec.crossSum l (wv A) (wv B)) (Real.sqrt (Spec.pairSum l (wv A)) * Real.sqrt (Spec.pairSum l (wv B))) = some y ∧ 1 - D ^ 2 / (2 * m ^ 2) ≤ y := by
  have hP := PI_pos
  set u := qValue l (sumVec l A) with hu
  set v := qValue l (sumVec l B) with hv
  rw [← qValue_sumVec l h2 h12 A hA, ← qValue_sumVec l h2 h12 B hB, ← hu, ← hv]
  have hl0 : (0 : ℝ) < 2 * l + 1 := by positivity
  have hc : (4 * PI / (2 * (l : ℝ) + 1)) * ((2 * (l : ℝ) + 1) / (4 * PI)) = 1 := by field_simp
  have sq : ∀ f, qValue l f ^ 2 = (4 * PI / (2 * (l : ℝ) + 1)) * ip l f f := by
    intro f
    have := ip_self_nonneg l f
    rw [qValue_eq, Real.sq_sqrt (by positivity)]
  have e := sq (subVec (sumVec l A) (sumVec l B))
  rw [ip_subVec, ip_sumVec_cross l h2 h12 A B hA hB, mul_add, mul_sub, ← sq, ← sq, ← hu, ← hv] at e
  have e' : qValue l (subVec (sumVec l A) (sumVec l B)) ^ 2 = u ^ 2 - 2 * Spec.crossSum l (wv A) (wv B) + v ^ 2 := by
    rw [e]
    linear_combination (-2 * Spec.crossSum l (wv A) (wv B)) * hc
  have hD2 : qValue l (subVec (sumVec l A) (sumVec l B)) ^ 2 ≤ D ^ 2 := pow_le_pow_left₀ (qValue_nonneg l _) hD 2
  have huv : 0 < u * v := mul_pos (hm.trans_le mA) (hm.trans_le mB)
  refine ⟨Spec.crossSum l (wv A) (wv B) / (u * v), by unfold fdiv; rw [if_neg huv.ne'], ?_⟩
  have h1 : u * v - D ^ 2 / 2 ≤ Spec.crossSum l (wv A) (wv B) := by nlinarith [sq_nonneg (u - v)]
  have h2 : m ^ 2 ≤ u * v := by nlinarith
  rw [le_div_iff₀ huv]
  refine le_trans ?_ h1
  have h3 : D ^ 2 / 2 ≤ D ^ 2 / (2 * m ^ 2) * (u * v) := by
    rw [div_mul_eq_mul_div, div_le_div_iff₀ (by norm_num) (by positivity)]
    nlinarith [sq_nonneg D]
  linarith

/-- The values of the table are the norms of the shells. -/
theorem cross_q : ∀ name ∈ Spec.simple, ∀ L ∈ Spec.shells name, ∀ l ∈ [4, 6, 8, 10, 12],
    (Spec.qTable name)[l - 2]? = some (crossK l (Spec.limits name).1 L L / ((Spec.shellSize name : ℚ) ^ 2)) := by
  decide +kernel

/-- What `find_solids` finds when the neighbours are close to the shells of the structure. -/
theorem near_solid {name : String} (hn : name ∈ Spec.simple) {a : ℝ} (ha : 0 < a) {g1 t : System} (hp : Plain g1) (hcc : g1.comparecriteria = 0) {ρ δ : ℝ} (hρ : 0 < ρ)
    {l : ℕ} (hl : l ∈ [4, 6, 8, 10, 12])
    (hsh : ∀ (i : ℕ) (x : Atom), g1.atoms[i]? = some x → ∃ S G : List Nb, x.nbrs.Perm G ∧
      (∃ L ∈ Spec.shells name, (wv S).Perm (L.map fun k => ((1 : ℝ), Spec.quarter a k))) ∧
      List.Forall₂ (fun x y : Nb => x.weight = 1 ∧ y.weight = 1 ∧ ρ ≤ x.vec.norm ∧ ρ ≤ y.vec.norm ∧ V3.norm (y.vec - x.vec) ≤ δ) S G)
    {K : ℝ} (hK : K = Real.sqrt ((l : ℝ) * (l + 1) / 2) * (δ / ρ)) {v : ℚ} (hv : (Spec.qTable name)[l - 2]? = some v) (hKv : K < Real.sqrt v)
    {bonds threshold avgthreshold : PyNum} {th at' : ℝ} (ht : threshold.val = some th) (hta : avgthreshold.val = some at')
    (ht1 : th < 1 - 2 * (K / (Real.sqrt v - K)) ^ 2) (hat1 : at' < 1 - 2 * (K / (Real.sqrt v - K)) ^ 2)
    (hb : (∃ n : ℤ, bonds = .int n ∧ n < Spec.shellSize name) ∨ ∃ x, bonds = .flt x ∧ x < 1) {c : ℝ} {right : Bool}
    (h : System.findSolids bonds threshold avgthreshold false (.int l) c right g1 = (t, .ok none)) (x : Atom) (hx : x ∈ t.atoms) :
    x.sij.length = Spec.shellSize name ∧ (∀ o ∈ x.sij, ∃ y, o = some y ∧ 1 - 2 * (K / (Real.sqrt v - K)) ^ 2 ≤ y) ∧ x.frenkel = Spec.shellSize name ∧ x.issolid = true := by
  have hl2 : 2 ≤ l := by simp only [List.mem_cons, List.not_mem_nil, or_false] at hl; omega
  have hl12 : l ≤ 12 := by simp only [List.mem_cons, List.not_mem_nil, or_false] at hl; omega
  have hpos : 0 < Spec.shellSize name := by
    have hn' := hn
    simp only [Spec.simple, List.mem_cons, List.not_mem_nil, or_false] at hn'
    rcases hn' with rfl | rfl | rfl | rfl | rfl | rfl <;> decide
  have hposR : (0 : ℝ) < Spec.shellSize name := by exact_mod_cast hpos
  have hn0 : ∀ w : V3, ρ ≤ w.norm → w ≠ 0 := by
    rintro w hw rfl
    rw [V3.norm_zero] at hw
    linarith
  obtain ⟨i, hi⟩ := List.mem_iff_getElem?.1 hx
  obtain ⟨l', t1, at1, cr, b, -, -, -, -, -, -, -, -, hs, hat⟩ := findSolids_ok h
  have hlen : t.atoms.length = g1.atoms.length := by rw [hat, List.length_map]
  have hil : i < g1.atoms.length := by rw [← hlen]; exact (List.getElem?_eq_some_iff.1 hi).1
  have hgi := List.getElem?_eq_getElem hil
  have hnb : x.nbrs = g1.atoms[i].nbrs := by
    rw [hat, List.getElem?_map, hgi] at hi
    rw [← Option.some.inj hi]
    exact (solidAtom_fields g1 _ _).1
  -- the sums of every atom
  have good : ∀ (j : ℕ) (y : Atom), g1.atoms[j]? = some y → ∃ S G : List Nb, ∃ L ∈ Spec.shells name, (Spec.participants g1 y).Perm (wv G) ∧ y.nbrs.length = Spec.shellSize name ∧
      (∀ e ∈ G, e.weight = 1) ∧ G.length = Spec.shellSize name ∧
      (∀ e ∈ S, e.vec ≠ 0) ∧ (∀ e ∈ G, e.vec ≠ 0) ∧ (wv S).Perm (L.map fun k => ((1 : ℝ), Spec.quarter a k)) ∧
      qValue l (subVec (sumVec l G) (sumVec l S)) ≤ Spec.shellSize name * K ∧ qValue l (sumVec l S) = Spec.shellSize name * Real.sqrt v := by
    intro j y hy
    obtain ⟨S, G, pG, ⟨L, hL, pL⟩, hF⟩ := hsh j y hy
    obtain ⟨L1, L2, L3, L4⟩ := cross_table name hn L hL
    have hd : (0 : ℤ) < ((Spec.limits name).1 : ℤ) := by exact_mod_cast L2
    have lS : S.length = Spec.shellSize name := by
      have := pL.length_eq
      simpa [wv, L1] using this
    have lG : G.length = Spec.shellSize name := by rw [← hF.length_eq, lS]
    have hS : ∀ e ∈ S, e.vec ≠ 0 := by
      intro e he
      obtain ⟨k, hk, rfl⟩ := List.getElem_of_mem he
      exact hn0 _ (List.forall₂_iff_get.1 hF |>.2 k hk (hF.length_eq ▸ hk)).2.2.1
    have hG : ∀ e ∈ G, e.weight = 1 ∧ e.vec ≠ 0 := by
      intro e he
      obtain ⟨k, hk, rfl⟩ := List.getElem_of_mem he
      have := List.forall₂_iff_get.1 hF |>.2 k (hF.length_eq.symm ▸ hk) hk
      exact ⟨this.2.1, hn0 _ this.2.2.2.1⟩
    refine ⟨S, G, L, hL, ?_, by rw [pG.length_eq, lG], fun e he => (hG e he).1, lG, hS, fun e he => (hG e he).2, pL, ?_, ?_⟩
    · rw [participants_eq hs (List.mem_of_getElem? hy), hp.qNbrs (List.mem_of_getElem? hy)]
      exact pG.map _
    · have h3 : List.Forall₂ (fun x y : Nb => x.weight = 1 ∧ y.weight = 1 ∧ qValue l (subVec (yVec l y.vec) (yVec l x.vec)) ≤ K) S G := by
        refine List.Forall₂.imp ?_ hF
        intro x y hxy
        obtain ⟨w1, w2, w3, w4, w5⟩ := hxy
        exact ⟨w1, w2, hK ▸ qValue_yVec_sub l hl2 hl12 hρ w3 w4 w5⟩
      have := sumVec_close l h3
      rwa [lS] at this
    · rw [qValue_sumVec l hl2 hl12 S hS, pairSum_perm l pL, Spec.pairSum, crossSum_quarter ha l hd L3 L3]
      have e := cross_q name hn L hL l hl
      rw [hv] at e
      have e2 : crossK l (Spec.limits name).1 L L = (Spec.shellSize name : ℚ) ^ 2 * v := by
        rw [Option.some.inj e, mul_div_cancel₀]
        have : (Spec.shellSize name : ℚ) ≠ 0 := by exact_mod_cast hpos.ne'
        positivity
      rw [e2]
      push_cast
      rw [Real.sqrt_mul (by positivity), Real.sqrt_sq hposR.le]
  set n : ℝ := ((Spec.shellSize name : ℕ) : ℝ) with hnn
  have hz : x.nbrs.length = Spec.shellSize name := by
    obtain ⟨-, -, -, -, -, e, -⟩ := good i _ hgi
    rw [hnb]; exact e
  have hlen' := (C21_values g1 t bonds threshold avgthreshold l c right none h i x hi).1
  have hsij : ∀ o ∈ x.sij, ∃ y, o = some y ∧ 1 - 2 * (K / (Real.sqrt v - K)) ^ 2 ≤ y := by
    intro o ho
    obtain ⟨k, hk⟩ := List.mem_iff_getElem?.1 ho
    have hkl : k < x.nbrs.length := by rw [← hlen']; exact (List.getElem?_eq_some_iff.1 hk).1
    have hxk := List.getElem?_eq_getElem hkl
    have hidx : x.nbrs[k].idx < g1.atoms.length := hs _ (List.getElem_mem hil) _ (by rw [← hnb]; exact List.getElem_mem hkl)
    have hgj := List.getElem?_eq_getElem hidx
    obtain ⟨SA, A, LA, hLA, pA, -, wA, lA, nSA, nA, pLA, cA, qA⟩ := good i _ hgi
    obtain ⟨SB, B, LB, hLB, pB, -, wB, lB, nSB, nB, pLB, cB, qB⟩ := good _ _ hgj
    have n0 : ∀ {y : Atom} {G : List Nb}, (Spec.participants g1 y).Perm (wv G) → (∀ e ∈ G, e.vec ≠ 0) → (∀ e ∈ G, e.weight = 1) → G.length = Spec.shellSize name →
        (∀ p ∈ Spec.participants g1 y, p.2 ≠ 0) ∧ 0 < ((Spec.participants g1 y).map Prod.fst).sum := by
      intro y G pG nG wG lG
      refine ⟨fun p hp => ?_, ?_⟩
      · obtain ⟨e, he, rfl⟩ := List.mem_map.1 (pG.mem_iff.1 hp)
        exact nG e he
      · rw [(pG.map Prod.fst).sum_eq, wv, List.map_map]
        have : (G.map (Prod.fst ∘ fun x : Nb => (x.weight, x.vec))) = List.replicate G.length (1 : ℝ) := by
          rw [List.eq_replicate_iff]
          refine ⟨by simp, fun b hb => ?_⟩
          obtain ⟨e, he, rfl⟩ := List.mem_map.1 hb
          exact wG e he
        rw [this, lG]
        simp only [List.sum_replicate, nsmul_eq_mul, mul_one]
        exact hposR
    obtain ⟨A1, A2⟩ := n0 pA nA wA lA
    obtain ⟨B1, B2⟩ := n0 pB nB wB lB
    have key := C21_legendre g1 t bonds threshold avgthreshold l c right none h hp.vor i x.nbrs[k].idx _ _ x hgi hgj hi A1 B1 A2 B2 k _ hxk rfl
    rw [hk] at key
    rw [crossSum_perm l pA pB, pairSum_perm l pA, pairSum_perm l pB] at key
    -- the ideal sums agree
    have hzero : qValue l (subVec (sumVec l SA) (sumVec l SB)) = 0 := by
      obtain ⟨-, A2', A3, A4⟩ := cross_table name hn LA hLA
      obtain ⟨-, -, B3, -⟩ := cross_table name hn LB hLB
      have hd : (0 : ℤ) < ((Spec.limits name).1 : ℤ) := by exact_mod_cast A2'
      obtain ⟨c1, c2, -⟩ := A4 LB hLB l hl
      rw [qValue_eq, ip_subVec, ip_sumVec_cross l hl2 hl12 SA SB nSA nSB, ip_sumVec_cross l hl2 hl12 SA SA nSA nSA, ip_sumVec_cross l hl2 hl12 SB SB nSB nSB,
        crossSum_perm l pLA pLB, crossSum_perm l pLA pLA, crossSum_perm l pLB pLB, crossSum_quarter ha l hd A3 B3, crossSum_quarter ha l hd A3 A3, crossSum_quarter ha l hd B3 B3, c1, c2]
      ring_nf
      simp
    have hD : qValue l (subVec (sumVec l A) (sumVec l B)) ≤ 2 * (n * K) := by
      have e1 : subVec (sumVec l A) (sumVec l B) = fun k => ((subVec (sumVec l A) (sumVec l SA) k).1 + ((fun k => ((subVec (sumVec l SA) (sumVec l SB) k).1 + (subVec (sumVec l SB) (sumVec l B) k).1,
          (subVec (sumVec l SA) (sumVec l SB) k).2 + (subVec (sumVec l SB) (sumVec l B) k).2)) k : ℝ × ℝ).1,
          (subVec (sumVec l A) (sumVec l SA) k).2 + ((fun k => ((subVec (sumVec l SA) (sumVec l SB) k).1 + (subVec (sumVec l SB) (sumVec l B) k).1,
          (subVec (sumVec l SA) (sumVec l SB) k).2 + (subVec (sumVec l SB) (sumVec l B) k).2)) k : ℝ × ℝ).2) := by
        funext k; simp [subVec]
      have e3 : qValue l (subVec (sumVec l SB) (sumVec l B)) = qValue l (subVec (sumVec l B) (sumVec l SB)) := by
        have e : subVec (sumVec l SB) (sumVec l B) = fun k => ((-1) * (subVec (sumVec l B) (sumVec l SB) k).1, (-1) * (subVec (sumVec l B) (sumVec l SB) k).2) := by
          funext k; simp [subVec]
        rw [e, qValue_smul]
        simp
      rw [e1]
      have i1 := qValue_add_le l (subVec (sumVec l A) (sumVec l SA)) (fun k => ((subVec (sumVec l SA) (sumVec l SB) k).1 + (subVec (sumVec l SB) (sumVec l B) k).1,
          (subVec (sumVec l SA) (sumVec l SB) k).2 + (subVec (sumVec l SB) (sumVec l B) k).2))
      have i2 := qValue_add_le l (subVec (sumVec l SA) (sumVec l SB)) (subVec (sumVec l SB) (sumVec l B))
      linarith
    have low : ∀ {S G : List Nb}, qValue l (subVec (sumVec l G) (sumVec l S)) ≤ n * K → qValue l (sumVec l S) = n * Real.sqrt v → n * (Real.sqrt v - K) ≤ qValue l (sumVec l G) := by
      intro S G c q
      have := (abs_le.1 (qValue_abs_sub_le l (sumVec l G) (sumVec l S))).1
      rw [q] at this
      nlinarith
    have hmpos : 0 < n * (Real.sqrt v - K) := mul_pos hposR (by linarith)
    obtain ⟨y, hy1, hy2⟩ := sij_low l hl2 hl12 nA nB hmpos (low cA qA) (low cB qB) hD
    refine ⟨y, (Option.some.inj key).trans hy1, le_trans (le_of_eq ?_) hy2⟩
    have hne : Real.sqrt v - K ≠ 0 := by linarith
    have hn1 : n ≠ 0 := hposR.ne'
    field_simp
  obtain ⟨-, k1, k2, k3⟩ := C22_partial g1 t bonds threshold avgthreshold l c right none hcc h th at' ht hta i x hi
  have hfr : x.frenkel = Spec.shellSize name := by
    rw [k1 fun y hy => ?_]
    · rw [← hz, ← hlen', List.countP_eq_length]
      intro o ho
      obtain ⟨y, rfl, hy⟩ := hsij o ho
      exact decide_eq_true ⟨y, rfl, by linarith⟩
    · obtain ⟨y', e, hy'⟩ := hsij _ hy
      cases e
      linarith
  have hmean : ∃ m, Spec.IsMean x.sij m ∧ at' < m := by
    have hne : x.sij ≠ [] := by
      intro h0
      have := hlen'.trans hz
      rw [h0] at this
      exact hpos.ne this
    refine ⟨_, ⟨x.sij.map fun o => o.getD 0, ?_, by simpa using hne, rfl⟩, ?_⟩
    · rw [List.map_map]
      conv_lhs => rw [← List.map_id x.sij]
      refine List.map_congr_left fun o ho => ?_
      obtain ⟨y, rfl, -⟩ := hsij o ho
      rfl
    · have hle := List.card_nsmul_le_sum (x.sij.map fun o => o.getD 0) (1 - 2 * (K / (Real.sqrt v - K)) ^ 2) (by
        intro y hy
        obtain ⟨o, ho, rfl⟩ := List.mem_map.1 hy
        obtain ⟨y, rfl, h1⟩ := hsij o ho
        exact h1)
      have hlp : (0 : ℝ) < (x.sij.map fun o => o.getD 0).length := by
        rw [List.length_map]
        exact_mod_cast List.length_pos_iff.2 hne
      rw [nsmul_eq_mul] at hle
      rw [lt_div_iff₀ hlp]
      refine lt_of_lt_of_le ?_ hle
      rw [mul_comm]
      exact mul_lt_mul_of_pos_left hat1 hlp
  refine ⟨hlen'.trans hz, hsij, hfr, ?_⟩
  rcases hb with ⟨n, rfl, hb⟩ | ⟨y, rfl, hb⟩
  · exact (k2 n rfl).2 ⟨by rw [hfr]; exact_mod_cast hb, hmean⟩
  · refine (k3 y rfl).2 ⟨?_, hmean⟩
    rw [hfr, hz]
    nlinarith

/-- A slightly distorted crystal before and after the search. -/
theorem noisy_state (σ : StdSort) {name : String} (hn' : name ∈ Spec.simple) {a ca r d : ℝ} (ha : 0 < a) (hca : 0 < ca) {nx ny nz : ℕ} (hx : 1 ≤ nx) (hy : 1 ≤ ny)
    (hz : 1 ≤ nz) (hr : Spec.FirstShell name a (r - 2 * d)) (hr' : Spec.FirstShell name a (r + 2 * d)) (hda : 4 * d ≤ a)
    {atoms l' : List Atom} (hfit : Spec.RangeFits ((Spec.basis name).length * nx * ny * nz) (nx * a) (ny * a) (nz * a) (r + 2 * d)) (hN : (Spec.basis name).length * nx * ny * nz ≤ 2300 ∨ 1e-6 ≤ r ∧ Spec.Binnable l')
    {box : Mat3} (hm : makeCrystal name a nx ny nz ca = .ok (atoms, box)) (hd : Spec.Displaced d atoms l') :
    ∃ s g g1, box = diagBox (nx * a) (ny * a) (nz * a) ∧ atoms.length = (Spec.basis name).length * nx * ny * nz ∧ buildSystem box atoms = .ok s ∧ buildSystem box l' = .ok g ∧
      g.findNeighbors σ 0 (.cutoff r) = .ok g1 ∧ 0 < r ∧ Plain g1 ∧ g1.comparecriteria = 0 ∧ g1.neighborsFound = true ∧ Shifted s g d ∧ Spec.Faithful s r ∧ Spec.PairsExact g r ∧
      (∀ (i : ℕ) (x : Atom), g1.atoms[i]? = some x → ∃ S G : List Nb, x.nbrs.Perm G ∧
        (∃ L ∈ Spec.shells name, (wv S).Perm (L.map fun k => ((1 : ℝ), Spec.quarter a k))) ∧
        List.Forall₂ (fun x y : Nb => x.weight = 1 ∧ y.weight = 1 ∧ (a / 4) * Real.sqrt (Spec.limits name).1 - 2 * d ≤ x.vec.norm ∧
          (a / 4) * Real.sqrt (Spec.limits name).1 - 2 * d ≤ y.vec.norm ∧ V3.norm (y.vec - x.vec) ≤ 2 * d) S G) ∧
      (∀ x ∈ atoms, x.ghost = false ∧ InBox (nx * a) (ny * a) (nz * a) x.pos) ∧ (∀ y ∈ l', y.ghost = false) ∧ (atoms.map Atom.pos).Nodup ∧
      crystal (diagBox (nx * a) (ny * a) (nz * a)) atoms = Spec.idealCrystal ⟨a, a, a⟩ (Spec.basis name) ∧ (∀ i < atoms.length, s.atoms[i]? = atoms[i]?) ∧ atoms ≠ [] ∧
      g1.atoms.length = s.atoms.length := by
  obtain ⟨hn, h15⟩ := simple_cubic hn'
  have hs : name ∈ Spec.structures := by
    simp only [Spec.cubic, List.mem_cons, List.not_mem_nil, or_false] at hn
    rcases hn with rfl | rfl | rfl | rfl | rfl | rfl | rfl <;> decide
  have hh : name ≠ "hcp" := by
    rintro rfl
    revert hn; decide
  have hE : Spec.cellEdges name a ca = ⟨a, a, a⟩ := by rw [Spec.cellEdges, if_neg hh]
  obtain ⟨atoms', lx, ly, lz, hm', ex, ey, ez, hlen, hat, hnd, hcr⟩ := C40_make_crystal name hs ha hca hx hy hz
  rw [hm] at hm'
  cases hm'
  rw [hE] at ex ey ez hcr
  dsimp only at ex ey ez
  have x1 : (1 : ℝ) ≤ nx := by exact_mod_cast hx
  have y1 : (1 : ℝ) ≤ ny := by exact_mod_cast hy
  have z1 : (1 : ℝ) ≤ nz := by exact_mod_cast hz
  have hall : ∀ c ∈ atoms, c.ghost = false ∧ InBox lx ly lz c.pos := by
    intro c hc
    obtain ⟨k, hk⟩ := List.mem_iff_getElem?.1 hc
    exact (hat k c hk).2.2
  have hB : 0 < (Spec.basis name).length := by
    have : ∀ name ∈ Spec.structures, 0 < (Spec.basis name).length := by decide
    exact this name hs
  have hpos : 0 < atoms.length := by rw [hlen]; positivity
  have hne : atoms ≠ [] := List.length_pos_iff.1 hpos
  have hd0 : 0 ≤ d := (V3.norm_nonneg _).trans (List.forall₂_iff_get.1 hd |>.2 0 hpos (hd.length_eq ▸ hpos)).2
  have lx0 : 0 < lx := by rw [ex]; positivity
  have ly0 : 0 < ly := by rw [ey]; positivity
  have lz0 : 0 < lz := by rw [ez]; positivity
  have hr0 : 0 < r - 2 * d := lt_of_le_of_lt (by positivity) hr.1
  have hfitr : Spec.RangeFits ((Spec.basis name).length * nx * ny * nz) (nx * a) (ny * a) (nz * a) r := by
    obtain ⟨f1, f2, f3⟩ := hfit
    refine ⟨fun h => ?_, fun h => ?_, fun h => ?_⟩
    · obtain ⟨g1, g2, g3⟩ := f1 h
      exact ⟨by linarith, by linarith, by linarith⟩
    · obtain ⟨g1, g2, g3⟩ := f2 h
      exact ⟨by linarith, by linarith, by linarith⟩
    · obtain ⟨g0, g1, g2, g3⟩ := f3 h
      exact ⟨(hN.resolve_left (not_le.2 h)).1, by linarith, by linarith, by linarith⟩
  have hfr : Spec.FirstShell name a r := ⟨by linarith [hr.1], by linarith [hr'.2]⟩
  obtain ⟨s, hb, hF, hps', hsr, -, hcr', hsame⟩ := inBox_build lx0 ly0 lz0 hne (fun c hc => (hall c hc).1) (fun c hc => (hall c hc).2) hnd (by linarith : 0 ≤ r + 2 * d)
    (by rw [hlen, ex, ey, ez]; exact hfit)
  have hps : Spec.PairsExact s r := by
    obtain ⟨s', hb', -, h, -⟩ := inBox_build lx0 ly0 lz0 hne (fun c hc => (hall c hc).1) (fun c hc => (hall c hc).2) hnd (by linarith : 0 ≤ r)
      (by rw [hlen, ex, ey, ez]; exact hfitr)
    rw [hb] at hb'
    cases hb'
    exact h
  -- the displaced one
  obtain ⟨g, g1, as1, hg, h2, hg1, has1, -⟩ := C98_coordination σ name hn ha hca hx hy hz hr hr' hda hfit hN 0 (by norm_num) hm hd
  have hgr : g.realNop = atoms.length := by
    have hlen' : l'.length = atoms.length := hd.length_eq.symm
    obtain ⟨g', q1, -, -, -, -, q2⟩ := stored_form lx0 ly0 lz0 (l := l') (List.length_pos_iff.1 (hlen' ▸ hpos)) (by
      intro y hy
      obtain ⟨k, hk, rfl⟩ := List.getElem_of_mem hy
      have := (List.forall₂_iff_get.1 hd |>.2 k (hlen' ▸ hk) hk).1
      simp only [List.get_eq_getElem] at this
      rw [this]
      exact (hall _ (List.getElem_mem (hlen' ▸ hk))).1)
    rw [hg] at q1
    cases q1
    rw [q2, hlen']
  have hpg : Spec.PairsExact g r := displaced_exact lx0 ly0 lz0 hne (fun c hc => (hall c hc).1) (fun c hc => (hall c hc).2) hd (by rw [ex]; nlinarith) (by rw [ey]; nlinarith)
    (by rw [ez]; nlinarith) (fun h => by
      obtain ⟨-, f2, f3, f4⟩ := hfit.2.2 (by rw [← hlen]; exact h)
      rw [ex, ey, ez]
      exact ⟨by linarith, by linarith, by linarith⟩) (by rw [hlen]; exact hN) hg
  have hrne : r ≠ 0 := by linarith
  have hreal' : ∀ y ∈ l', y.ghost = false := by
    intro y hy
    obtain ⟨k, hk, rfl⟩ := List.getElem_of_mem hy
    have := (List.forall₂_iff_get.1 hd |>.2 k (hd.length_eq ▸ hk) hk).1
    simp only [List.get_eq_getElem] at this
    rw [this]
    exact (hall _ (List.getElem_mem (hd.length_eq ▸ hk))).1
  obtain ⟨e2, b2, b3⟩ := cutoff_any hrne hpg h2
  obtain ⟨hsh, hidx, hF2⟩ := displaced_lists 0 (r := r) (ρ := (a / 4) * Real.sqrt (Spec.limits name).1 - 2 * d) lx0 ly0 lz0 hne (fun c hc => (hall c hc).1) (fun c hc => (hall c hc).2) hd
    (by rw [ex]; nlinarith) (by rw [ey]; nlinarith) (by rw [ez]; nlinarith) (by
      obtain ⟨f1, f2, -⟩ := hfitr
      rw [← hlen] at f1 f2
      rw [ex, ey, ez]
      unfold Spec.HalfFits Spec.stretch
      split_ifs with c1 c2
      · obtain ⟨g1, g2, g3⟩ := f1 (by omega)
        exact ⟨by nlinarith, by nlinarith, by nlinarith⟩
      · obtain ⟨g1, g2, g3⟩ := f1 (by omega)
        exact ⟨by linarith, by linarith, by linarith⟩
      · obtain ⟨g1, g2, g3⟩ := f2 (by omega)
        exact ⟨by linarith, by linarith, by linarith⟩) hb hg
    (fun i j x y hi hj hij => ⟨by rw [sub_add_cancel]; exact shell_min hn h15 ha hF (hcr'.trans hcr) hr' i j x y hi hj hij,
      shell_gap hn ha hF (hcr'.trans hcr) (by linarith) hr hr' i j x y hi hj hij⟩)
  have hFr : Spec.Faithful s r := hF.anti (by linarith)
  refine ⟨s, g, g1, by rw [ex, ey, ez], hlen, hb, hg, h2, by linarith, cutoff_plain hrne hpg h2, ?_, by rw [e2], hsh, hFr, hpg, ?_, by rw [← ex, ← ey, ← ez]; exact hall, hreal', hnd,
    by rw [← ex, ← ey, ← ez]; exact hcr, hsame, hne, by rw [b2, hsh.len]⟩
  · have hc1 := build_criteria hreal' hg
    have hc2 := congrArg System.comparecriteria e2
    exact hc2.trans hc1
  · intro i x hi
    obtain ⟨c1, c2, -⟩ := b3 i x hi
    have c1' : i < s.atoms.length := by rw [← hsh.len]; exact c1
    refine ⟨cutoffNbs s r 0 i, cutoffNbs g r 0 i, c2, ?_, hF2 i c1'⟩
    obtain ⟨b, hb', ht, hp⟩ := near_all hn ha (hcr'.trans hcr) 0 i _ (List.getElem?_eq_getElem c1')
    obtain ⟨L, hL, hpL⟩ := (near_table name hn b hb').2.2.2.1 h15
    refine ⟨L, hL, ?_⟩
    have e : (near name b.1).filter (fun p => filterOK 0 b.2 p.2) = near name b.1 := List.filter_eq_self.2 fun p _ => rfl
    have p1 := (hp r hfr hFr).map fun p => ((1 : ℝ), p.1)
    rw [e, List.map_map, List.map_map] at p1
    have p2 := hpL.map fun k => ((1 : ℝ), Spec.quarter a k)
    rw [List.map_map] at p2
    refine (List.Perm.of_eq ?_).trans (p1.trans p2)
    rw [wv]
    refine List.map_congr_left fun y hy => ?_
    obtain ⟨j, -, rfl⟩ := List.mem_map.1 hy
    rfl

/-- The nearest neighbours connect the atoms of a perfect crystal, without crossing the boundary. -/
theorem crystal_path {name : String} (hn : name ∈ Spec.simple) {a : ℝ} (ha : 0 < a) {nx ny nz : ℕ} (hx : 1 ≤ nx) (hy : 1 ≤ ny) (hz : 1 ≤ nz) {atoms : List Atom}
    (hall : ∀ x ∈ atoms, x.ghost = false ∧ InBox (nx * a) (ny * a) (nz * a) x.pos) (hnd : (atoms.map Atom.pos).Nodup)
    (hcr : crystal (diagBox (nx * a) (ny * a) (nz * a)) atoms = Spec.idealCrystal ⟨a, a, a⟩ (Spec.basis name)) (Link : ℕ → ℕ → Prop)
    (hL : ∀ (i j : ℕ) (x y : Atom), atoms[i]? = some x → atoms[j]? = some y → i ≠ j → V3.norm (y.pos - x.pos) ≤ (a / 4) * Real.sqrt (Spec.limits name).1 → Link i j) :
    ∃ i0 < atoms.length, ∀ j < atoms.length, Relation.ReflTransGen Link i0 j := by
  obtain ⟨hsites, hfill⟩ := crystal_sites hn ha hall hcr
  have hlink : ∀ (i j : ℕ) (p q : ℤ × ℤ × ℤ) (x y : Atom), atoms[i]? = some x → atoms[j]? = some y → x.pos = Spec.quarter a p → y.pos = Spec.quarter a q → adj name p q →
      Link i j := by
    intro i j p q x y hxi hyj hxp hyq hadj
    set k : ℤ × ℤ × ℤ := (q.1 - p.1, q.2.1 - p.2.1, q.2.2 - p.2.2) with hk
    have hd : y.pos - x.pos = Spec.quarter a k := by
      rw [hxp, hyq, hk]
      ext
      · simp only [Spec.quarter, V3.sub_x]; push_cast; ring
      · simp only [Spec.quarter, V3.sub_y]; push_cast; ring
      · simp only [Spec.quarter, V3.sub_z]; push_cast; ring
    refine hL i j x y hxi hyj ?_ ?_
    · rintro rfl
      rw [hxi] at hyj
      obtain rfl := Option.some.inj hyj
      have e0 : V3.norm (x.pos - x.pos) = 0 := by simp [V3.norm, V3.normSq]
      rw [hd, norm_quarter a ha] at e0
      have hpos : (0 : ℝ) < (nsq k : ℝ) := by exact_mod_cast hadj.1
      have := Real.sqrt_pos.2 hpos
      have : 0 < a / 4 * Real.sqrt (nsq k : ℝ) := by positivity
      linarith
    · rw [hd, norm_quarter a ha]
      have : ((nsq k : ℤ) : ℝ) ≤ (((Spec.limits name).1 : ℕ) : ℝ) := by exact_mod_cast hadj.2
      exact mul_le_mul_of_nonneg_left (Real.sqrt_le_sqrt this) (by positivity)
  -- every atom is linked with the one at the origin
  set S : ℤ × ℤ × ℤ → Prop := fun p => ∃ (i : ℕ) (x : Atom), atoms[i]? = some x ∧ x.pos = Spec.quarter a p with hS
  have hSfill : ∀ b ∈ quarters name, ∀ n : ℤ × ℤ × ℤ, 0 ≤ n.1 → n.1 < nx → 0 ≤ n.2.1 → n.2.1 < ny → 0 ≤ n.2.2 → n.2.2 < nz → S (step 0 b.1 n) := by
    intro b hb n n1 n2 n3 n4 n5 n6
    obtain ⟨x, hx, e⟩ := hfill b hb n n1 n2 n3 n4 n5 n6
    obtain ⟨i, hi'⟩ := List.mem_iff_getElem?.1 hx
    exact ⟨i, x, hi', e⟩
  have huniq : ∀ (i j : ℕ) (x y : Atom), atoms[i]? = some x → atoms[j]? = some y → x.pos = y.pos → i = j := by
    intro i j x y hxi hyj e
    have hi' := (List.getElem?_eq_some_iff.1 hxi).1
    have e1 : (atoms.map Atom.pos)[i]? = (atoms.map Atom.pos)[j]? := by simp [hxi, hyj, e]
    exact (List.getElem?_inj (by simpa using hi') hnd).1 e1
  have hpath : ∀ p q : ℤ × ℤ × ℤ, Relation.ReflTransGen (fun p q => S p ∧ S q ∧ adj name p q) p q → ∀ (i j : ℕ) (x y : Atom), atoms[i]? = some x → atoms[j]? = some y →
      x.pos = Spec.quarter a p → y.pos = Spec.quarter a q → Relation.ReflTransGen (Link) i j := by
    intro p q hpq
    induction hpq with
    | refl =>
      intro i j x y hxi hyj e1 e2
      rw [huniq i j x y hxi hyj (e1.trans e2.symm)]
    | tail _ hq ih =>
      intro i j x y hxi hyj e1 e2
      obtain ⟨⟨k, z, hzk, e3⟩, -, hadj⟩ := hq
      exact (ih i k x z hxi hzk e1 e3).tail (hlink k j _ _ z y hzk hyj e3 e2 hadj)
  obtain ⟨b0, hb0, eb0⟩ := origin_site hn
  obtain ⟨i0, xo, hi0, eo⟩ := hSfill b0 hb0 (0, 0, 0) le_rfl (by dsimp only; omega) le_rfl (by dsimp only; omega) le_rfl (by dsimp only; omega)
  have eo' : xo.pos = Spec.quarter a (0, 0, 0) := by rw [eo, eb0]; rfl
  refine ⟨i0, (List.getElem?_eq_some_iff.1 hi0).1, fun j hj => ?_⟩
  obtain ⟨b, hb, m, m1, m2, m3, m4, m5, m6, e⟩ := hsites atoms[j] (List.getElem_mem hj)
  exact hpath _ _ (block_connected hn S hSfill hb m1 m2 m3 m4 m5 m6) i0 j xo atoms[j] hi0 (List.getElem?_eq_getElem hj) eo' e

/-- **C100, solids**: in a crystal of structure sc, bcc, fcc, diamond, b2 or l12 made with `make_crystal`, whose atoms are then moved by up to `d` (not to coordinates
less than 1e-6 below zero if there are more than 2300 atoms), let
`K = sqrt(l (l + 1) / 2) * 2 d / (b - 2 d)`, with `b` the distance of nearest neighbours, be below the value `Q` of `q_l` of the perfect structure.  Then after a search with a
cutoff that stays clear of the first and second shells by `2 d`, `find_solids` of even degree `l` gives every atom the `s_ij` of at least `1 - 2 (K / (Q - K))²`; if both
thresholds are below this number, every neighbour counts as a bond and every atom is solid. -/
theorem C100_solid (σ : StdSort) {name : String} (hn : name ∈ Spec.simple) {a ca r d : ℝ} (ha : 0 < a) (hca : 0 < ca) {nx ny nz : ℕ} (hx : 1 ≤ nx) (hy : 1 ≤ ny)
    (hz : 1 ≤ nz) (hr : Spec.FirstShell name a (r - 2 * d)) (hr' : Spec.FirstShell name a (r + 2 * d)) (hda : 4 * d ≤ a) (hdb : 2 * d < (a / 4) * Real.sqrt (Spec.limits name).1)
    {atoms l' : List Atom} (hfit : Spec.RangeFits ((Spec.basis name).length * nx * ny * nz) (nx * a) (ny * a) (nz * a) (r + 2 * d)) (hN : (Spec.basis name).length * nx * ny * nz ≤ 2300 ∨ 1e-6 ≤ r ∧ Spec.Binnable l')
    {box : Mat3} (hm : makeCrystal name a nx ny nz ca = .ok (atoms, box)) (hd : Spec.Displaced d atoms l')
    {l : ℕ} (hl : l ∈ [4, 6, 8, 10, 12]) {K : ℝ} (hK : K = Real.sqrt ((l : ℝ) * (l + 1) / 2) * (2 * d / ((a / 4) * Real.sqrt (Spec.limits name).1 - 2 * d)))
    {v : ℚ} (hv : (Spec.qTable name)[l - 2]? = some v) (hKv : K < Real.sqrt v)
    {bonds threshold avgthreshold : PyNum} {th at' : ℝ} (ht : threshold.val = some th) (hta : avgthreshold.val = some at')
    (ht0 : 0 ≤ th) (ht1 : th < 1 - 2 * (K / (Real.sqrt v - K)) ^ 2) (hat0 : 0 ≤ at') (hat1 : at' < 1 - 2 * (K / (Real.sqrt v - K)) ^ 2)
    (hb : (∃ n : ℤ, bonds = .int n ∧ n < Spec.shellSize name) ∨ ∃ x, bonds = .flt x ∧ 0 ≤ x ∧ x < 1) (c : ℝ) (right : Bool) :
    ∃ g g1 t, buildSystem box l' = .ok g ∧ g.findNeighbors σ 0 (.cutoff r) = .ok g1 ∧
      System.findSolids bonds threshold avgthreshold false (.int l) c right g1 = (t, .ok none) ∧ t.atoms.length = g.atoms.length ∧
      ∀ x ∈ t.atoms, x.sij.length = Spec.shellSize name ∧ (∀ o ∈ x.sij, ∃ y, o = some y ∧ 1 - 2 * (K / (Real.sqrt v - K)) ^ 2 ≤ y) ∧
        x.frenkel = Spec.shellSize name ∧ x.issolid = true := by
  obtain ⟨s, g, g1, -, -, h3, h4, h5, -, h6, h7, h8, h9, -, -, h10, -⟩ := noisy_state σ hn ha hca hx hy hz hr hr' hda hfit hN hm hd
  have hl' : (2 : ℤ) ≤ l ∧ (l : ℤ) ≤ 12 := by
    simp only [List.mem_cons, List.not_mem_nil, or_false] at hl
    omega
  have hsq := sq_nonneg (K / (Real.sqrt v - K))
  obtain ⟨t, ht2⟩ := (C24_find_solids g1 bonds threshold avgthreshold (.int l) false c right).2
    ⟨h8, ⟨l, rfl, hl'⟩, ⟨th, ht, ht0, by linarith⟩, ⟨at', hta, hat0, by linarith⟩, hb.imp (fun ⟨n, e, _⟩ => ⟨n, e⟩) fun ⟨x, e, x0, x1⟩ => ⟨x, e, x0, x1.le⟩⟩ h6.range
  obtain ⟨_, _, _, _, _, -, -, -, -, -, -, -, -, -, hat⟩ := findSolids_ok ht2
  refine ⟨g, g1, t, h4, h5, ht2, by rw [hat, List.length_map, (Kept.findNeighbors h5).len], fun x hx => ?_⟩
  exact near_solid hn ha h6 h7 (by linarith) hl h10 hK hv hKv ht hta ht1 hat1 (hb.imp id fun ⟨x, e, _, x1⟩ => ⟨x, e, x1⟩) ht2 x hx

/-- **C100, one cluster**: under the conditions of `C100_solid`, with `cluster=True` and no cutoff of its own (or one of at least `b + 2 d`), `find_solids` returns the number of
atoms: they all have the same cluster id and are flagged as members of the largest cluster. -/
theorem C100_cluster (σ : StdSort) {name : String} (hn : name ∈ Spec.simple) {a ca r d : ℝ} (ha : 0 < a) (hca : 0 < ca) {nx ny nz : ℕ} (hx : 1 ≤ nx) (hy : 1 ≤ ny)
    (hz : 1 ≤ nz) (hr : Spec.FirstShell name a (r - 2 * d)) (hr' : Spec.FirstShell name a (r + 2 * d)) (hda : 4 * d ≤ a) (hdb : 2 * d < (a / 4) * Real.sqrt (Spec.limits name).1)
    {atoms l' : List Atom} (hfit : Spec.RangeFits ((Spec.basis name).length * nx * ny * nz) (nx * a) (ny * a) (nz * a) (r + 2 * d)) (hN : (Spec.basis name).length * nx * ny * nz ≤ 2300 ∨ 1e-6 ≤ r ∧ Spec.Binnable l')
    {box : Mat3} (hm : makeCrystal name a nx ny nz ca = .ok (atoms, box)) (hd : Spec.Displaced d atoms l')
    {l : ℕ} (hl : l ∈ [4, 6, 8, 10, 12]) {K : ℝ} (hK : K = Real.sqrt ((l : ℝ) * (l + 1) / 2) * (2 * d / ((a / 4) * Real.sqrt (Spec.limits name).1 - 2 * d)))
    {v : ℚ} (hv : (Spec.qTable name)[l - 2]? = some v) (hKv : K < Real.sqrt v)
    {bonds threshold avgthreshold : PyNum} {th at' : ℝ} (ht : threshold.val = some th) (hta : avgthreshold.val = some at')
    (ht0 : 0 ≤ th) (ht1 : th < 1 - 2 * (K / (Real.sqrt v - K)) ^ 2) (hat0 : 0 ≤ at') (hat1 : at' < 1 - 2 * (K / (Real.sqrt v - K)) ^ 2)
    (hb : (∃ n : ℤ, bonds = .int n ∧ n < Spec.shellSize name) ∨ ∃ x, bonds = .flt x ∧ 0 ≤ x ∧ x < 1) {c : ℝ}
    (hc : c = 0 ∨ (a / 4) * Real.sqrt (Spec.limits name).1 + 2 * d ≤ c) (right : Bool) :
    ∃ g g1 g2 as, buildSystem box l' = .ok g ∧ g.findNeighbors σ 0 (.cutoff r) = .ok g1 ∧
      System.findSolids bonds threshold avgthreshold true (.int l) c right g1 = (g2, .ok (some ((Spec.basis name).length * nx * ny * nz))) ∧
      g2.getAtoms = .ok as ∧ as.length = (Spec.basis name).length * nx * ny * nz ∧
      ∃ id : ℤ, 1 ≤ id ∧ ∀ x ∈ as, x.issolid = true ∧ x.belongsto = id ∧ x.lcluster = true := by
  obtain ⟨s, g, g1, rfl, hlen, h3, h4, h5, hr0, h6, h7, h8, h9, hF, hP, h10, hall, hreal', hnd, hcr, hsame, hne, hlen1⟩ := noisy_state σ hn ha hca hx hy hz hr hr' hda hfit hN hm hd
  have x0 : (0 : ℝ) < nx := by exact_mod_cast hx
  have y0 : (0 : ℝ) < ny := by exact_mod_cast hy
  have z0 : (0 : ℝ) < nz := by exact_mod_cast hz
  have hl' : (2 : ℤ) ≤ l ∧ (l : ℤ) ≤ 12 := by
    simp only [List.mem_cons, List.not_mem_nil, or_false] at hl
    omega
  have hsq := sq_nonneg (K / (Real.sqrt v - K))
  have hargs : Spec.SolidArgs g1 bonds threshold avgthreshold (.int l) :=
    ⟨h8, ⟨l, rfl, hl'⟩, ⟨th, ht, ht0, by linarith⟩, ⟨at', hta, hat0, by linarith⟩, hb.imp (fun ⟨n, e, _⟩ => ⟨n, e⟩) fun ⟨x, e, x0, x1⟩ => ⟨x, e, x0, x1.le⟩⟩
  have hll : l'.length = atoms.length := hd.length_eq.symm
  have hbl : 0 < atoms.length := List.length_pos_iff.2 hne
  have hasg : ({ System.init with box := diagBox (nx * a) (ny * a) (nz * a) } : System).assignAtoms l' = .ok g := by
    have h4' := h4
    unfold buildSystem at h4'
    rw [setBox_diag] at h4'
    exact h4'
  obtain ⟨g2, n, hrun⟩ := C88_run σ _ g g1 l' hreal' (by rw [hll]; exact hbl) (fun _ => by
      have e : ({ System.init with box := diagBox (nx * a) (ny * a) (nz * a) } : System).getBox = diagBox (nx * a) (ny * a) (nz * a) := rfl
      rw [e]
      have : (diagBox (nx * a) (ny * a) (nz * a)).det = (nx * a) * (ny * a) * (nz * a) := by simp [Mat3.det, diagBox]; try ring
      rw [this]; positivity) hasg 0 r hr0.ne' hP h5 bonds threshold avgthreshold (.int l) c right hargs
  have hi : StoreInv g l' := by
    obtain ⟨extra, e1, e2, e3, e4, e5, -⟩ := assign_shape hreal' hasg
    exact ⟨hreal', ⟨extra, e1, fun a ha => (e2 a ha).1, e5⟩, by rw [e4, e1], e3⟩
  have hnat : g.natoms = atoms.length := by rw [← hll]; exact hi.realNop
  obtain ⟨t, n', l0, as, lab, k1, k2, k3, k4, k5, k6, k7, k8, k9, k10, -⟩ := C88_partial σ g g1 g2 l' hi 0 r hr0.ne' hP h5 bonds threshold avgthreshold (.int l) c right _ hrun
  obtain rfl := Option.some.inj k3
  have hall0 := near_solid hn ha h6 h7 (by linarith) hl h10 hK hv hKv ht hta ht1 hat1 (hb.imp id fun ⟨x, e, _, x1⟩ => ⟨x, e, x1⟩) k1
  have hl0t : ∀ x ∈ l0, x ∈ t.atoms := by
    obtain ⟨p, -, hit, -⟩ := findSolids_store (storeInv_any hr0.ne' hP h5 hi).1 k1
    rw [getAtoms_inv hit] at k2
    obtain rfl := Except.ok.inj k2
    obtain ⟨gs, e, -⟩ := hit.ex
    intro x hx
    rw [e]
    exact List.mem_append_left _ hx
  -- all atoms are solid
  have hsol : ∀ x ∈ as, x.issolid = true := by
    intro x hx
    obtain ⟨i, hi'⟩ := List.mem_iff_getElem?.1 hx
    obtain ⟨hil, e⟩ := List.getElem?_eq_some_iff.1 hi'
    have hl0 : i < l0.length := by rw [k6.length_eq]; exact hil
    have hrel := (List.forall₂_iff_get.1 k6).2 i hl0 hil
    have hm : l0[i] ∈ t.atoms := hl0t _ (List.getElem_mem hl0)
    have e2 := hrel.2.2.2.2.2
    simp only [List.get_eq_getElem] at e2
    rw [← e, e2]
    exact (hall0 _ hm).2.2.2
  have hsolid : ∀ i < atoms.length, Spec.SolidAt as i := by
    intro i hi'
    have : i < as.length := by rw [k5, hnat]; exact hi'
    exact ⟨as[i], List.getElem?_eq_getElem this, hsol _ (List.getElem_mem this)⟩
  -- nearest neighbours are linked
  obtain ⟨i0, hi0, hpath⟩ := crystal_path hn ha hx hy hz hall hnd hcr (Spec.SolidLink g as r 0 c) (by
    intro i j x y hxi hyj hij hnorm
    have hi' := (List.getElem?_eq_some_iff.1 hxi).1
    have hj' := (List.getElem?_eq_some_iff.1 hyj).1
    have hsx : s.atoms[i]? = some x := by rw [hsame i hi', hxi]
    have hsy : s.atoms[j]? = some y := by rw [hsame j hj', hyj]
    have hsi := (List.getElem?_eq_some_iff.1 hsx).1
    have hsj := (List.getElem?_eq_some_iff.1 hsy).1
    have hd0 : 0 ≤ d := (V3.norm_nonneg _).trans (h9.close i hsi)
    have himg : Spec.IsImage s.box (y.pos - x.pos) (y.pos - x.pos) := ⟨0, 0, 0, by rw [latticeVec_none]⟩
    have hw := hF.short x (List.mem_of_getElem? hsx) y (List.mem_of_getElem? hsy) _ himg (by linarith [hr.1])
    have hdist : s.getDistance y x = V3.norm (y.pos - x.pos) := by
      rw [← hw]; rfl
    have hgi : i < g.atoms.length := by rw [h9.len]; exact hsi
    have hgj : j < g.atoms.length := by rw [h9.len]; exact hsj
    have hgd : g.getDistance g.atoms[j] g.atoms[i] ≤ V3.norm (y.pos - x.pos) + 2 * d := by
      rw [← (distOf_eq (s := g) (List.getElem?_eq_getElem hgi) (List.getElem?_eq_getElem hgj)).1, ← hdist, ← (distOf_eq (s := s) hsx hsy).1]
      linarith [(abs_le.1 (h9.dist hsi hsj)).2]
    refine ⟨hsolid i hi', hsolid j hj', _, _, List.getElem?_eq_getElem hgi, List.getElem?_eq_getElem hgj, ⟨fun e => hij e.symm, by linarith [hr.1], by simp, by simp⟩, fun h0 => ?_⟩
    linarith [hc.resolve_left h0])
  have hlab : ∀ j < atoms.length, lab j = lab i0 := fun j hj =>
    ((k8.same i0 (by rw [hnat]; exact hi0) j (by rw [hnat]; exact hj) (hsolid i0 hi0) (hsolid j hj)).2 (hpath j hj)).symm
  have hbel : ∀ x ∈ as, x.belongsto = lab i0 := by
    intro x hx
    have hm : x.belongsto ∈ as.map Atom.belongsto := List.mem_map_of_mem hx
    rw [k7] at hm
    obtain ⟨j, hj, e⟩ := List.mem_map.1 hm
    rw [← e, hlab j (by rw [← hnat]; exact List.mem_range.1 hj)]
  obtain ⟨K', hK'⟩ := k8.ids
  have hid := (hK' (lab i0)).1 ⟨i0, by rw [hnat]; exact hi0, hsolid i0 hi0, rfl⟩
  have hcount : as.filter (fun x => x.belongsto = lab i0) = as := List.filter_eq_self.2 fun x hx => by simpa using hbel x hx
  have hle := k9 (lab i0) (by omega)
  rw [hcount] at hle
  obtain ⟨x1, hx1⟩ : ∃ x, x ∈ as := List.exists_mem_of_length_pos (by rw [k5, hnat]; exact hbl)
  obtain ⟨hpos, t0, ht0', hfl, hflag⟩ := k10 ⟨x1, hx1, hsol x1 hx1⟩
  have hn' : n = as.length := le_antisymm (by rw [← hfl]; exact List.length_filter_le _ _) hle
  have ht0b : ∀ x ∈ as, x.belongsto = t0 := by
    have := List.length_filter_eq_length_iff.1 (hfl.trans hn')
    intro x hx
    simpa using this x hx
  refine ⟨g, g1, g2, as, h4, h5, ?_, k4, by rw [k5, hnat, hlen], lab i0, hid.1, fun x hx => ⟨hsol x hx, hbel x hx, (hflag x hx).2 (ht0b x hx)⟩⟩
  rw [hrun, hn', k5, hnat, hlen]

/-- The hypotheses are met: 4 x 4 x 4 fcc cells with every atom moved by up to 0.05 are solid, and one cluster of 256 atoms, with the default arguments of `find_solids`
(`bonds=0.5`, `threshold=0.5`, `avgthreshold=0.6`, `q=6`, `cutoff=0`). -/
example (σ : StdSort) (gauss : ℕ → V3) (hg : ∀ k, (gauss k).norm ≤ 1) : ∃ l' box g g1 g2 as, makeCrystalNoise "fcc" 4 4 4 4 1 0.05 gauss = .ok (l', box) ∧
    buildSystem box l' = .ok g ∧ g.findNeighbors σ 0 (.cutoff 3.4) = .ok g1 ∧
    System.findSolids (.flt (1 / 2)) (.flt (1 / 2)) (.flt (3 / 5)) true (.int (6 : ℕ)) 0 false g1 = (g2, .ok (some 256)) ∧ g2.getAtoms = .ok as ∧ as.length = 256 ∧
    ∀ x ∈ as, x.issolid = true := by
  obtain ⟨atoms, lx, ly, lz, hm, -⟩ := C40_make_crystal "fcc" (by decide) (a := 4) (ca := 1) (by norm_num) (by norm_num) (nx := 4) (ny := 4) (nz := 4) (by norm_num) (by norm_num) (by norm_num)
  obtain ⟨l', h1, -, -, h2⟩ := (C98_noise "fcc" 4 4 4 4 1 0.05 gauss).2 _ _ hm
  have h3 := h2 0.05 (by norm_num) fun k _ => by nlinarith [hg k]
  have t8 : (2.8 : ℝ) < Real.sqrt 8 := by rw [Real.lt_sqrt (by norm_num)]; norm_num
  have t8' : Real.sqrt 8 < 2.9 := by rw [Real.sqrt_lt' (by norm_num)]; norm_num
  have s16 : Real.sqrt 16 = 4 := by rw [Real.sqrt_eq_iff_mul_self_eq_of_pos (by norm_num)]; norm_num
  have s21 : Real.sqrt 21 < 4.59 := by rw [Real.sqrt_lt' (by norm_num)]; norm_num
  have sv : (0.574 : ℝ) < Real.sqrt ((169 / 512 : ℚ) : ℝ) := by rw [Real.lt_sqrt (by norm_num)]; norm_num
  have hlim : (Spec.limits "fcc").1 = 8 := rfl
  set K : ℝ := Real.sqrt (((6 : ℕ) : ℝ) * ((6 : ℕ) + 1) / 2) * (2 * 0.05 / ((4 / 4) * Real.sqrt (Spec.limits "fcc").1 - 2 * 0.05)) with hK
  have hK0 : 0 ≤ K := by
    rw [hK, hlim]
    have : (0 : ℝ) ≤ 4 / 4 * Real.sqrt ((8 : ℕ) : ℝ) - 2 * 0.05 := by norm_num; linarith
    positivity
  have hK1 : K ≤ 0.17 := by
    rw [hK, hlim]
    norm_num
    rw [mul_div_assoc', div_le_iff₀ (by linarith)]
    nlinarith
  have hlow : (0.6 : ℝ) < 1 - 2 * (K / (Real.sqrt ((169 / 512 : ℚ) : ℝ) - K)) ^ 2 := by
    have h5 : K / (Real.sqrt ((169 / 512 : ℚ) : ℝ) - K) ≤ 0.44 := by
      rw [div_le_iff₀ (by linarith)]
      linarith
    have h6 : 0 ≤ K / (Real.sqrt ((169 / 512 : ℚ) : ℝ) - K) := div_nonneg hK0 (by linarith)
    nlinarith
  obtain ⟨g, g1, g2, as, e1, e2, e3, e4, e5, _, -, e6⟩ := C100_cluster σ (name := "fcc") (by decide) (a := 4) (ca := 1) (r := 3.4) (d := 0.05) (by norm_num) (by norm_num) (nx := 4) (ny := 4)
    (nz := 4) (by norm_num)
    (by norm_num) (by norm_num) (by constructor <;> norm_num [Spec.limits, s16] <;> linarith) (by constructor <;> norm_num [Spec.limits, s16] <;> linarith) (by norm_num)
    (by norm_num [Spec.limits]; linarith)
    (by simp only [Spec.RangeFits, Spec.basis, List.length_cons, List.length_nil]; refine ⟨?_, ?_, ?_⟩ <;> norm_num) (.inl (by decide)) hm h3 (l := 6) (by decide) hK
    (v := 169 / 512) (by decide +kernel) (by linarith) (bonds := .flt (1 / 2)) (threshold := .flt (1 / 2)) (avgthreshold := .flt (3 / 5)) (th := 1 / 2) (at' := 3 / 5) rfl rfl (by norm_num)
    (by norm_num at hlow ⊢; linarith) (by norm_num) (by norm_num at hlow ⊢; linarith) (.inr ⟨_, rfl, by norm_num, by norm_num⟩) (c := 0) (.inl rfl) false
  exact ⟨l', _, g, g1, g2, as, h1, e1, e2, e3, e4, e5, fun x hx => (e6 x hx).1⟩

end Pyscal
