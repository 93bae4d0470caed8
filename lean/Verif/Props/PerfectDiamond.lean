import Verif.Props.PerfectCna
import Verif.Props.Diamond

/-! C96: `identify_diamond` on perfect diamond. -/

namespace Pyscal

open Spec (diagBox ofFrac latticeVec IsImage FracBound crystal cross volume InBox)

section
variable {s : System} {r : ℝ} {i : ℕ} {x : Atom}

/-- The vector to a neighbour of a neighbour. -/
theorem vec_add (hF : Spec.Faithful s r) (hi : s.atoms[i]? = some x) {y z y' : Nb} {c : Atom} (hy : Spec.GoodEntry s i x y) (hj : s.atoms[y.idx]? = some c)
    (hz : Spec.GoodEntry s y.idx c z) (hy' : Spec.GoodEntry s i x y') (hidx : y'.idx = z.idx) (hr : V3.norm (y.vec + z.vec) < r) : y'.vec = y.vec + z.vec := by
  obtain ⟨c', hc', -, -, -, v1⟩ := hy
  rw [hj] at hc'
  cases hc'
  obtain ⟨d, hd, -, -, -, v2⟩ := hz
  obtain ⟨d', hd', -, -, -, v3⟩ := hy'
  rw [hidx, hd] at hd'
  cases hd'
  have hx := List.mem_of_getElem? hi
  have hcm := List.mem_of_getElem? hj
  have hdm := List.mem_of_getElem? hd
  obtain ⟨n1, n2, n3, e1⟩ := hF.image x hx c hcm
  obtain ⟨m1, m2, m3, e2⟩ := hF.image c hcm d hdm
  rw [v3]
  refine hF.short x hx d hdm _ ⟨n1 + m1, n2 + m2, n3 + m3, ?_⟩ hr
  rw [v1, v2, e1, e2]
  ext <;> simp [latticeVec] <;> ring

/-- The vector back. -/
theorem vec_neg (hF : Spec.Faithful s r) (hi : s.atoms[i]? = some x) {y : Nb} {c : Atom} (hy : Spec.GoodEntry s i x y) (hj : s.atoms[y.idx]? = some c)
    (hr : V3.norm y.vec < r) : Spec.GoodEntry s y.idx c (s.mkNb y.idx i) ∧ (s.mkNb y.idx i).vec = -y.vec := by
  obtain ⟨c', hc', hne, -, -, v1⟩ := hy
  rw [hj] at hc'
  cases hc'
  obtain ⟨d1, d2⟩ := distOf_eq hj hi
  have hx := List.mem_of_getElem? hi
  have hcm := List.mem_of_getElem? hj
  obtain ⟨n1, n2, n3, e1⟩ := hF.image x hx c hcm
  refine ⟨⟨x, hi, fun h => hne h.symm, d1, rfl, d2⟩, ?_⟩
  refine d2.trans (hF.short c hcm x hx _ ⟨-n1, -n2, -n3, ?_⟩ ?_)
  · rw [v1, e1]
    ext <;> simp [latticeVec] <;> ring
  · have : V3.norm (-y.vec) = V3.norm y.vec := by
      unfold V3.norm
      congr 1
      simp [V3.normSq]
    rw [this]; exact hr
end

def neg3 (k : ℤ × ℤ × ℤ) : ℤ × ℤ × ℤ := (-k.1, -k.2.1, -k.2.2)
def add3 (k m : ℤ × ℤ × ℤ) : ℤ × ℤ × ℤ := (k.1 + m.1, k.2.1 + m.2.1, k.2.2 + m.2.2)

theorem quarter_neg (a : ℝ) (k : ℤ × ℤ × ℤ) : Spec.quarter a (neg3 k) = -Spec.quarter a k := by
  ext <;> simp [Spec.quarter, neg3]

theorem quarter_add (a : ℝ) (k m : ℤ × ℤ × ℤ) : Spec.quarter a (add3 k m) = Spec.quarter a k + Spec.quarter a m := by
  ext <;> simp [Spec.quarter, add3] <;> ring

/-- The four neighbours of the two kinds of sites. -/
def fourBonds : List (ℤ × ℤ × ℤ) := [(1, 1, 1), (1, -1, -1), (-1, 1, -1), (-1, -1, 1)]

/-- The points reached in two steps. -/
def twoSteps (T : List (ℤ × ℤ × ℤ)) (u : ℤ × ℤ × ℤ) : List (ℤ × ℤ × ℤ) := ((T.map neg3).filter fun w => decide (w ≠ neg3 u)).map (add3 u)

theorem dia_table : (∀ b ∈ quarters "diamond", (points "diamond" 8 b.1).Nodup ∧ ((points "diamond" 8 b.1).Perm fourBonds ∨ (points "diamond" 8 b.1).Perm (fourBonds.map neg3))) ∧
    (∀ T ∈ [fourBonds, fourBonds.map neg3], T.Nodup ∧ T.length = 4 ∧ (∀ u ∈ T, nsq u = 3 ∧ neg3 u ∉ T) ∧ (∀ T' ∈ [fourBonds, fourBonds.map neg3], T' ≠ T → T' = T.map neg3) ∧
      (T.flatMap (twoSteps T)).Perm Spec.fccShell ∧ ∀ u ∈ T, ∀ w ∈ T.map neg3, nsq (add3 u w) ≤ 8) := by
  decide +kernel

/-- The four nearest atoms in a perfect diamond crystal. -/
theorem dia_nearest {a : ℝ} (ha : 0 < a) {s : System} (hF : Spec.Faithful s (3 / 2 * a))
    (hcr : crystal s.box s.atoms = Spec.idealCrystal ⟨a, a, a⟩ (Spec.basis "diamond")) {i : ℕ} {x : Atom} (hi : s.atoms[i]? = some x) :
    ∃ T ∈ [fourBonds, fourBonds.map neg3], ((cutoffNbs s ((a / 4) * Real.sqrt (8 : ℕ)) 0 i).map Nb.vec).Perm (T.map (Spec.quarter a)) ∧
      ∀ N, Spec.NearestList s i x 4 N → N.Perm (cutoffNbs s ((a / 4) * Real.sqrt (8 : ℕ)) 0 i) := by
  have s8 : Real.sqrt 8 < 6 := by rw [Real.sqrt_lt' (by norm_num)]; norm_num
  have hF8 : Spec.Faithful s ((a / 4) * Real.sqrt (8 : ℕ)) := hF.anti (by push_cast; nlinarith)
  obtain ⟨b, hb, hp⟩ := points_perm (by decide) ha (by norm_num) (fun b hb => (dia_table.1 b hb).1) hF8 hcr i x hi
  have hT : ∃ T ∈ [fourBonds, fourBonds.map neg3], (points "diamond" 8 b.1).Perm T := by
    rcases (dia_table.1 b hb).2 with h | h
    · exact ⟨_, by simp, h⟩
    · exact ⟨_, by simp, h⟩
  obtain ⟨T, hT, hpT⟩ := hT
  have hp' := hp.trans (hpT.map (Spec.quarter a))
  refine ⟨T, hT, hp', fun N hN => ?_⟩
  have hlen : (cutoffNbs s ((a / 4) * Real.sqrt (8 : ℕ)) 0 i).length = 4 := by
    have := hp'.length_eq
    rw [List.length_map, List.length_map, (dia_table.2 T hT).2.1] at this
    exact this
  refine (List.Nodup.subperm (List.Nodup.of_map _ hN.2.1) (nearest_ball hN hi hlen.ge)).perm_of_length_le ?_
  rw [hlen, hN.1]

/-- The twelve neighbours in two steps form an fcc shell. -/
theorem dia_shell {a : ℝ} (ha : 0 < a) {s : System} (hF : Spec.Faithful s (3 / 2 * a))
    (hcr : crystal s.box s.atoms = Spec.idealCrystal ⟨a, a, a⟩ (Spec.basis "diamond")) {N : ℕ → List Nb} (hN : ∀ k x, s.atoms[k]? = some x → Spec.NearestList s k x 4 (N k))
    {i : ℕ} {x : Atom} (hi : s.atoms[i]? = some x) {nbrs : List Nb} (hgood : ∀ y ∈ nbrs, Spec.GoodEntry s i x y)
    (hidx : nbrs.map Nb.idx = ((N i).map Nb.idx).flatMap fun j => ((N j).map Nb.idx).filter fun k => decide (k ≠ i)) :
    (nbrs.map Nb.vec).Perm (Spec.fccShell.map (Spec.quarter a)) := by
  haveI : DecidableEq V3 := Classical.decEq _
  have h4 : 0 < a / 4 := by positivity
  obtain ⟨T, hT, hball, hperm⟩ := dia_nearest ha hF hcr hi
  obtain ⟨tnd, -, t3, t4, t5, t6⟩ := dia_table.2 T hT
  have hNi : ((N i).map Nb.vec).Perm (T.map (Spec.quarter a)) := ((hperm _ (hN i x hi)).map _).trans hball
  -- the points behind the first neighbours
  have hex : ∀ y : Nb, ∃ k, y ∈ N i → y.vec = Spec.quarter a k ∧ k ∈ T := by
    intro y
    by_cases hy : y ∈ N i
    · obtain ⟨k, hk, hk'⟩ := List.mem_map.1 (hNi.subset (List.mem_map.2 ⟨y, hy, rfl⟩))
      exact ⟨k, fun _ => ⟨hk'.symm, hk⟩⟩
    · exact ⟨default, fun h => absurd h hy⟩
  choose h hh using hex
  have hmap : ((N i).map h).Perm T := by
    have e : (N i).map Nb.vec = ((N i).map h).map (Spec.quarter a) := by
      rw [List.map_map]
      exact List.map_congr_left fun y hy => (hh y hy).1
    rw [e] at hNi
    exact (List.map_perm_map_iff fun _ _ => quarter_inj ha).1 hNi
  have hgi : ∀ y ∈ N i, Spec.GoodEntry s i x y := (hN i x hi).2.2.1
  have hvec : nbrs.map Nb.vec = (nbrs.map Nb.idx).map fun j => (s.mkNb i j).vec := by
    rw [List.map_map]
    exact List.map_congr_left fun y hy => congrArg Nb.vec (goodEntry_eq hi (hgood y hy)).1
  rw [hvec, hidx, List.map_flatMap, List.flatMap_map]
  have step : ∀ y ∈ N i, ((((N y.idx).map Nb.idx).filter fun k => decide (k ≠ i)).map fun j => (s.mkNb i j).vec).Perm ((twoSteps T (h y)).map (Spec.quarter a)) := by
    intro y hy
    obtain ⟨hv, hu⟩ := hh y hy
    obtain ⟨c, hj, hne, -⟩ := id (hgi y hy)
    obtain ⟨T', hT', hball', hperm'⟩ := dia_nearest ha hF hcr hj
    have hnj := hperm' _ (hN _ c hj)
    have hNj : ((N y.idx).map Nb.vec).Perm (T'.map (Spec.quarter a)) := (hnj.map _).trans hball'
    have hgj : ∀ z ∈ N y.idx, Spec.GoodEntry s y.idx c z := (hN _ c hj).2.2.1
    have n3 : nsq (h y) = 3 := (t3 _ hu).1
    have hlt : V3.norm y.vec < (a / 4) * Real.sqrt (8 : ℕ) := by
      rw [hv, norm_lt_iff ha, n3]
      norm_num
    have s8 : Real.sqrt 8 < 6 := by rw [Real.sqrt_lt' (by norm_num)]; norm_num
    have hlt' : V3.norm y.vec < 3 / 2 * a := by
      refine hlt.trans ?_
      push_cast
      nlinarith
    obtain ⟨hback, hbv⟩ := vec_neg hF hi (hgi y hy) hj hlt'
    have hbv' : (s.mkNb y.idx i).vec = Spec.quarter a (neg3 (h y)) := by rw [hbv, hv, quarter_neg]
    have hbmem : s.mkNb y.idx i ∈ N y.idx := by
      rw [hnj.mem_iff, mem_ball hj]
      refine ⟨hback, ?_⟩
      rw [goodEntry_dist hback, hbv', norm_lt_iff ha]
      have : nsq (neg3 (h y)) = nsq (h y) := by simp [nsq, neg3]
      rw [this, n3]
      norm_num
    have hT'e : T' = T.map neg3 := by
      refine t4 T' hT' fun e => ?_
      obtain ⟨k, hk, hk'⟩ := List.mem_map.1 (hNj.subset (List.mem_map.2 ⟨_, hbmem, rfl⟩))
      rw [hbv'] at hk'
      rw [quarter_inj ha hk', e] at hk
      exact (t3 _ hu).2 hk
    obtain ⟨tnd', -⟩ := dia_table.2 T' hT'
    have hndj : ((N y.idx).map Nb.vec).Nodup := hNj.nodup_iff.2 (tnd'.map_on fun _ _ _ _ => quarter_inj ha)
    have e1 : (((N y.idx).map Nb.idx).filter fun k => decide (k ≠ i)) = ((N y.idx).filter fun z => decide (z.vec ≠ Spec.quarter a (neg3 (h y)))).map Nb.idx := by
      rw [List.filter_map]
      congr 1
      refine List.filter_congr fun z hz => ?_
      simp only [Function.comp, decide_eq_decide]
      refine not_congr ⟨fun e => ?_, fun e => ?_⟩
      · have := (goodEntry_eq hj (hgj z hz)).1
        rw [e] at this
        rw [this, hbv']
      · have := List.inj_on_of_nodup_map hndj hz hbmem (e.trans hbv'.symm)
        rw [this]; rfl
    rw [e1, List.map_map]
    have e2 : ((N y.idx).filter fun z => decide (z.vec ≠ Spec.quarter a (neg3 (h y)))).map ((fun j => (s.mkNb i j).vec) ∘ Nb.idx) =
        (((N y.idx).map Nb.vec).filter fun v => decide (v ≠ Spec.quarter a (neg3 (h y)))).map fun v => y.vec + v := by
      rw [List.filter_map, List.map_map]
      refine List.map_congr_left fun z hz => ?_
      obtain ⟨hz1, hz2⟩ := List.mem_filter.1 hz
      have hz2 := of_decide_eq_true hz2
      have hzi : z.idx ≠ i := by
        intro e
        apply hz2
        have := (goodEntry_eq hj (hgj z hz1)).1
        rw [e] at this
        rw [this, hbv']
      obtain ⟨d, hd, -⟩ := id (hgj z hz1)
      obtain ⟨d1, d2⟩ := distOf_eq hi hd
      have hg' : Spec.GoodEntry s i x (s.mkNb i z.idx) := ⟨d, hd, hzi, d1, rfl, d2⟩
      refine vec_add hF hi (hgi y hy) hj (hgj z hz1) hg' rfl ?_
      obtain ⟨w, hw, hw'⟩ := List.mem_map.1 (hNj.subset (List.mem_map.2 ⟨z, hz1, rfl⟩))
      rw [hT'e] at hw
      rw [hv, ← hw', ← quarter_add]
      have h8 : nsq (add3 (h y) w) < (9 : ℕ) := by have := t6 _ hu w hw; push_cast; omega
      refine ((norm_lt_iff ha 9 _).2 h8).trans ?_
      have s9 : Real.sqrt 9 < 6 := by rw [Real.sqrt_lt' (by norm_num)]; norm_num
      push_cast
      nlinarith
    rw [e2]
    have e3 : (twoSteps T (h y)).map (Spec.quarter a) = ((T'.map (Spec.quarter a)).filter fun v => decide (v ≠ Spec.quarter a (neg3 (h y)))).map fun v => y.vec + v := by
      unfold twoSteps
      rw [← hT'e, List.filter_map, List.map_map, List.map_map]
      have : (fun w => decide (w ≠ neg3 (h y))) = (fun v => decide (v ≠ Spec.quarter a (neg3 (h y)))) ∘ Spec.quarter a := by
        funext w
        simp only [Function.comp, decide_eq_decide]
        exact not_congr ⟨fun e => by rw [e], fun e => quarter_inj ha e⟩
      rw [this]
      refine List.map_congr_left fun w _ => ?_
      show Spec.quarter a (add3 (h y) w) = y.vec + Spec.quarter a w
      rw [quarter_add, hv]
    rw [e3]
    exact (hNj.filter _).map _
  refine (List.Perm.flatMap_left _ step).trans ?_
  have e4 : ((N i).flatMap fun y => (twoSteps T (h y)).map (Spec.quarter a)) = (((N i).map h).flatMap (twoSteps T)).map (Spec.quarter a) := by
    rw [List.map_flatMap, List.flatMap_map]
  rw [e4]
  exact ((hmap.flatMap_right _).trans t5).map _

/-- **C96, diamond**: `identify_diamond()` on a diamond crystal made with `make_crystal` labels every atom 5 (cubic diamond), and of the eleven numbers it
returns the sixth is the number of atoms and the others are zero.  Above 4000 atoms, where cell lists are used, five repetitions in every direction are needed
(and a lattice constant of at least `1e-6`). -/
theorem C96_diamond (σ : StdSort) {a ca : ℝ} (ha : 0 < a) (hca : 0 < ca) {nx ny nz : ℕ} (hx : 1 ≤ nx) (hy : 1 ≤ ny) (hz : 1 ≤ nz)
    (hfit : Spec.HalfFits (8 * nx * ny * nz) nx ny nz (3 / 2)) (hcells : 4000 < 8 * nx * ny * nz → 1e-6 ≤ a ∧ 5 ≤ nx ∧ 5 ≤ ny ∧ 5 ≤ nz) :
    ∃ atoms box s s' as, makeCrystal "diamond" a nx ny nz ca = .ok (atoms, box) ∧ buildSystem box atoms = .ok s ∧
      s.identifyDiamond σ true = .ok (s', [0, 0, 0, 0, 0, 8 * nx * ny * nz, 0, 0, 0, 0, 0]) ∧ s'.getAtoms = .ok as ∧ as.length = 8 * nx * ny * nz ∧ ∀ x ∈ as, x.struct = 5 := by
  have hE : Spec.cellEdges "diamond" a ca = ⟨a, a, a⟩ := by rw [Spec.cellEdges, if_neg (by decide)]
  have hB : (Spec.basis "diamond").length = 8 := by decide
  obtain ⟨atoms, lx, ly, lz, hm, ex, ey, ez, hlen, hat, hnd, hcr⟩ := C40_make_crystal "diamond" (by decide) ha hca hx hy hz
  rw [hE] at ex ey ez hcr
  rw [hB] at hlen
  dsimp only at ex ey ez
  have x0 : (0 : ℝ) < nx := by exact_mod_cast hx
  have y0 : (0 : ℝ) < ny := by exact_mod_cast hy
  have z0 : (0 : ℝ) < nz := by exact_mod_cast hz
  have hall : ∀ c ∈ atoms, c.ghost = false ∧ InBox lx ly lz c.pos := by
    intro c hc
    obtain ⟨k, hk⟩ := List.mem_iff_getElem?.1 hc
    exact (hat k c hk).2.2
  have hne : atoms ≠ [] := by
    rintro rfl
    have : 0 < 8 * nx * ny * nz := by positivity
    rw [List.length_nil] at hlen
    exact absurd hlen this.ne
  obtain ⟨s, hb, hF, hreal, hle, hcr', -, -, hvol, h200⟩ := inBox_stored (by rw [ex]; positivity) (by rw [ey]; positivity) (by rw [ez]; positivity) hne
    (fun c hc => (hall c hc).1) (fun c hc => (hall c hc).2) hnd (makeCrystal_fresh hm) (r := 3 / 2 * a) (by
      rw [hlen, ex, ey, ez]
      obtain ⟨f1, f2, f3⟩ := hfit
      refine ⟨?_, ?_, ?_⟩ <;> nlinarith)
  have hcry := hcr'.trans hcr
  have h3 : ∀ R, Spec.SearchRadius s 3 R → R = 3 / 2 * a := by
    intro R hR
    have h3 : R ^ 3 = (3 / 2 * a) ^ 3 := by
      rw [hR, hvol, hlen, ex, ey, ez]
      push_cast
      field_simp
      norm_num
    exact (Odd.strictMono_pow (by decide : Odd 3)).injective h3
  have hR : Spec.SearchRadius s 3 (s.guessDist 3) := (searchRadius_iff _ _ _).2 rfl
  have s8 : Real.sqrt 8 < 6 := by rw [Real.sqrt_lt' (by norm_num)]; norm_num
  have henough : Spec.EnoughWithin s (s.guessDist 3) 4 := by
    refine enough_ball (ρ := (a / 4) * Real.sqrt (8 : ℕ)) ?_ fun i hi => ?_
    · rw [h3 _ hR]
      push_cast
      nlinarith
    · obtain ⟨T, hT, hp, -⟩ := dia_nearest ha hF hcry (List.getElem?_eq_getElem hi)
      have hl := hp.length_eq
      rw [List.length_map, List.length_map, (dia_table.2 T hT).2.1] at hl
      exact hl.ge
  have hexact : Spec.SearchExact s (decide (s.realNop > 4000)) 3 := by
    intro hbig R hR
    have hN : 4000 < 8 * nx * ny * nz := by rw [← hlen, ← hreal]; exact of_decide_eq_true hbig
    obtain ⟨c0, c1, c2, c3⟩ := hcells hN
    have c1' : (5 : ℝ) ≤ nx := by exact_mod_cast c1
    have c2' : (5 : ℝ) ≤ ny := by exact_mod_cast c2
    have c3' : (5 : ℝ) ≤ nz := by exact_mod_cast c3
    obtain ⟨e1, e2, e3⟩ := h200 (by rw [hlen]; omega)
    rw [h3 R hR]
    refine ⟨lx, ly, lz, e1, e2, by linarith, by rw [ex]; nlinarith, by rw [ey]; nlinarith, by rw [ez]; nlinarith, fun c hc => ?_⟩
    rw [e3] at hc
    have p1 : 0 < lx := by rw [ex]; positivity
    have p2 : 0 < ly := by rw [ey]; positivity
    have p3 : 0 < lz := by rw [ez]; positivity
    obtain ⟨⟨a1, a2⟩, ⟨a3, a4⟩, a5, a6⟩ := (hall c hc).2
    exact ⟨⟨by linarith, by linarith, .inl a1⟩, ⟨by linarith, by linarith, .inl a3⟩, by linarith, by linarith, .inl a5⟩
  obtain ⟨s', r, hrun⟩ := diamond_succeeds σ hR hle hexact henough
  obtain ⟨N, hN, hk⟩ := C64_diamond σ s s' r hexact hrun
  obtain ⟨q1, q2, q3, -, -, q6, -⟩ := C28_diamond σ s s' true r hrun
  have hstruct : ∀ y ∈ s'.atoms, y.struct = 5 := by
    intro y hy
    obtain ⟨i, hi⟩ := List.mem_iff_getElem?.1 hy
    have hil : i < s.atoms.length := by rw [← q2]; exact (List.getElem?_eq_some_iff.1 hi).1
    obtain ⟨w1, w2, w3, -, w5, -⟩ := hk i y hi
    have hi0 := List.getElem?_eq_getElem hil
    have hgood := w1 _ hi0
    have hshell := dia_shell ha hF hcry hN hi0 hgood w2
    have h12 : y.nbrs.length = 12 := by
      have := hshell.length_eq
      rw [List.length_map, List.length_map] at this
      exact this
    have hsig := w5 h12.ge
    have htake : y.nbrs.take 12 = y.nbrs := List.take_of_length_le h12.le
    rw [htake] at hsig
    rw [w3, fcc_sig ha hF hi0 hgood hshell (fcc_mean ha hgood hshell) hsig]
    decide
  have hNn : s'.realNop = 8 * nx * ny * nz := by rw [q1, hreal, hlen]
  have hle' : s'.realNop ≤ s'.atoms.length := by rw [q1, q2]; exact hle
  have hcnt : r = (List.range 11).map fun c => if c = 5 then 8 * nx * ny * nz else 0 := by
    refine List.ext_getElem? fun c => ?_
    by_cases hc : c < 11
    · rw [q6 c hc, List.getElem?_map, List.getElem?_range hc]
      simp only [Option.map_some, Option.some.injEq]
      split_ifs with h
      · rw [List.countP_eq_length.2 fun x hx => decide_eq_true (by rw [hstruct x (List.mem_of_mem_take hx), h]; rfl), List.length_take, min_eq_left hle', hNn]
      · rw [List.countP_eq_zero.2 fun x hx => by
          rw [decide_eq_true_eq, hstruct x (List.mem_of_mem_take hx)]
          intro h'
          exact h (by exact_mod_cast h'.symm)]
    · rw [List.getElem?_eq_none (by omega), List.getElem?_eq_none (by simp; omega)]
  rw [hcnt] at hrun
  refine ⟨atoms, _, s, s', s'.atoms.take s'.realNop, hm, hb, ?_, by rw [System.getAtoms, if_pos hle'], ?_, fun x hx => hstruct x (List.mem_of_mem_take hx)⟩
  · simpa [List.range_succ] using hrun
  · rw [List.length_take, min_eq_left hle', hNn]

/-- The hypotheses are met by one unit cell (padded) and by 10 x 10 x 10 cells (8000 atoms, cell lists). -/
example (σ : StdSort) := C96_diamond σ (a := 5.43) (ca := 1) (by norm_num) (by norm_num) (nx := 1) (ny := 1) (nz := 1) le_rfl le_rfl le_rfl
  (by refine ⟨?_, ?_, ?_⟩ <;> norm_num [Spec.stretch]) (by norm_num)
example (σ : StdSort) := C96_diamond σ (a := 5.43) (ca := 1) (by norm_num) (by norm_num) (nx := 10) (ny := 10) (nz := 10) (by norm_num) (by norm_num) (by norm_num)
  (by refine ⟨?_, ?_, ?_⟩ <;> norm_num [Spec.stretch]) (by norm_num)

end Pyscal
