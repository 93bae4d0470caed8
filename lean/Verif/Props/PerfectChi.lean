import Verif.Props.PerfectCentro
import Verif.Props.Angles
import Verif.Props.PerfectSolids
import Verif.Props.Frame
import Verif.Lemmas.Rounding

/-! C102: chi parameters of perfect crystals; C31: chi parameters with rounding. -/

namespace Pyscal

open Spec (diagBox ofFrac latticeVec IsImage FracBound crystal cross volume InBox IsDouble RoundsToNearest)

open Classical in
theorem chi_entry_with (cos : V3 → V3 → Option ℝ) (a : Atom) {b : ℕ} (hb : b < 9) : (chi1With cos a).chi[b]? = some ((Spec.pairSet a.nbrs.length).filter fun p : ℕ × ℕ =>
    ∃ x, cos (Spec.nbVector a.nbrs p.1) (Spec.nbVector a.nbrs p.2) = some x ∧ Spec.ChiBin b x).card := by
  unfold chi1With
  rw [histogram_getElem? chiBins _ (show b + 1 < 10 by omega), List.countP_map, ← pairSet_eq]
  congr 1
  rw [← countP_card (pairs_nodup _)]
  refine List.countP_congr fun p _ => ?_
  simp only [Function.comp_apply, decide_eq_true_eq, nbVec_eq, chiBin_iff hb]

theorem chi_length_with (cos : V3 → V3 → Option ℝ) (a : Atom) : (chi1With cos a).chi.length = 9 := by
  unfold chi1With
  rw [histogram_length]
  rfl

/-- The counts of an atom whose neighbours are at known points. -/
theorem chi_points (cos : V3 → V3 → Option ℝ) {e : ℤ × ℤ × ℤ → V3} {a : Atom} {K L : List (ℤ × ℤ × ℤ)} (hK : K.Perm L) (hv : a.nbrs.map Nb.vec = K.map e)
    (bin : ℤ × ℤ × ℤ → ℤ × ℤ × ℤ → Option ℕ) (hsym : ∀ v w, bin v w = bin w v)
    (hL : ∀ v ∈ L, ∀ w ∈ L, v ≠ w → ∀ b < 9, (∃ x, cos (e v) (e w) = some x ∧ Spec.ChiBin b x) ↔ bin v w = some b) (hnd : L.Nodup) :
    (chi1With cos a).chi = (List.range 9).map fun b => pairCount (fun v w => bin v w == some b) L := by
  classical
  have hlen : a.nbrs.length = K.length := by
    have := congrArg List.length hv
    rwa [List.length_map, List.length_map] at this
  have hvec : ∀ j < K.length, Spec.nbVector a.nbrs j = e (K.getD j default) ∧ K.getD j default ∈ L := by
    intro j hj
    have h1 : (a.nbrs.map Nb.vec)[j]? = (K.map e)[j]? := by rw [hv]
    rw [List.getElem?_map, List.getElem?_map, List.getElem?_eq_getElem hj, List.getElem?_eq_getElem (hlen ▸ hj)] at h1
    have hg : K.getD j default = K[j] := by rw [List.getD_eq_getElem?_getD, List.getElem?_eq_getElem hj]; rfl
    rw [hg]
    unfold Spec.nbVector
    rw [List.getElem?_eq_getElem (hlen ▸ hj)]
    exact ⟨Option.some.inj h1, hK.subset (List.getElem_mem hj)⟩
  have hKnd : K.Nodup := hK.nodup_iff.2 hnd
  refine List.ext_getElem? fun b => ?_
  by_cases hb : b < 9
  · rw [chi_entry_with cos a hb, List.getElem?_map, List.getElem?_range hb, Option.map_some, ← pairCount_perm (fun v w => by rw [hsym]) hK, ← pairSet_count, hlen]
    congr 2
    refine Finset.filter_congr ?_
    rintro ⟨i, j⟩ hp
    simp only [Spec.pairSet, Finset.mem_filter, Finset.mem_product, Finset.mem_range] at hp
    obtain ⟨⟨h1, h2⟩, h3⟩ := hp
    obtain ⟨u1, u2⟩ := hvec i h1
    obtain ⟨w1, w2⟩ := hvec j h2
    dsimp only
    rw [u1, w1, hL _ u2 _ w2 _ b hb, beq_iff_eq]
    have g1 : K.getD i default = K[i] := by rw [List.getD_eq_getElem?_getD, List.getElem?_eq_getElem h1]; rfl
    have g2 : K.getD j default = K[j] := by rw [List.getD_eq_getElem?_getD, List.getElem?_eq_getElem h2]; rfl
    rw [g1, g2]
    intro e
    have := hKnd.getElem_inj_iff.1 e
    omega
  · rw [List.getElem?_eq_none (by rw [chi_length_with]; omega), List.getElem?_eq_none (by simp; omega)]

/-! ### Exact arithmetic -/

/-- Specification: the chi parameters of the nearest neighbours. -/
def Spec.chiTable : String → List ℕ
  | "sc" => [3, 0, 0, 0, 0, 12, 0, 0, 0]
  | "bcc" => [4, 0, 0, 0, 12, 0, 0, 12, 0]
  | "b2" => [4, 0, 0, 0, 12, 0, 0, 12, 0]
  | "fcc" => [6, 0, 0, 0, 24, 12, 0, 24, 0]
  | "l12" => [6, 0, 0, 0, 24, 12, 0, 24, 0]
  | "diamond" => [0, 0, 0, 0, 6, 0, 0, 0, 0]
  | _ => []

/-- The interval of a rational cosine. -/
def binQ (x : ℚ) : Option ℕ :=
  if x = -1 then some 0 else if x = -1 / 2 ∨ x = -1 / 3 then some 4 else if x = 0 then some 5 else if x = 1 / 3 ∨ x = 1 / 2 then some 7 else none

theorem binQ_iff {x : ℚ} (h : x = -1 ∨ x = -1 / 2 ∨ x = -1 / 3 ∨ x = 0 ∨ x = 1 / 3 ∨ x = 1 / 2) {b : ℕ} (hb : b < 9) : Spec.ChiBin b (x : ℝ) ↔ binQ x = some b := by
  rcases h with rfl | rfl | rfl | rfl | rfl | rfl <;> interval_cases b <;> norm_num [binQ, Spec.ChiBin]

theorem chi_shells : ∀ name ∈ Spec.simple, ∀ L ∈ Spec.shells name, L.Nodup ∧ (∃ d ∈ [3, 8, 12, 16], (∀ v ∈ L, nsq v = d) ∧
    (∀ v ∈ L, ∀ w ∈ L, v ≠ w → (dotK v w : ℚ) / d = -1 ∨ (dotK v w : ℚ) / d = -1 / 2 ∨ (dotK v w : ℚ) / d = -1 / 3 ∨ (dotK v w : ℚ) / d = 0 ∨ (dotK v w : ℚ) / d = 1 / 3 ∨
      (dotK v w : ℚ) / d = 1 / 2) ∧
    (List.range 9).map (fun b => pairCount (fun v w => binQ ((dotK v w : ℚ) / d) == some b) L) = Spec.chiTable name) := by
  decide +kernel

theorem quarter_ne {a : ℝ} (ha : 0 < a) {k : ℤ × ℤ × ℤ} (hk : 0 < nsq k) : Spec.quarter a k ≠ 0 := by
  intro h
  have h1 := norm_quarter a ha k
  rw [h] at h1
  have h2 : V3.norm (0 : V3) = 0 := by simp [V3.norm, V3.normSq]
  rw [h2] at h1
  have h3 : 0 < (a / 4) * Real.sqrt (nsq k : ℝ) := mul_pos (by positivity) (Real.sqrt_pos.2 (by exact_mod_cast hk))
  linarith

theorem perm_points {a : ℝ} (ha : 0 < a) {N : List Nb} {L : List (ℤ × ℤ × ℤ)}
    (h : (N.map fun e => (e.weight, e.dist, e.vec)).Perm (L.map fun k => (1, V3.norm (Spec.quarter a k), Spec.quarter a k))) :
    ∃ K : List (ℤ × ℤ × ℤ), K.Perm L ∧ N.map Nb.vec = K.map (Spec.quarter a) := by
  have h1 := h.map fun p => p.2.2
  rw [List.map_map, List.map_map] at h1
  exact exists_points (fun _ _ => quarter_inj ha) h1

/-- **C102, chi parameters**: build a crystal with `make_crystal` (sc, bcc, fcc, diamond, l12, b2), search with a cutoff between the nearest neighbours and the next shell, and
call `calculate_chiparams`.  Every atom gets the vector of its structure, in exact arithmetic. -/
theorem C102_chi (σ : StdSort) (name : String) (hn : name ∈ Spec.simple) {a ca r : ℝ} (ha : 0 < a) (hca : 0 < ca) {nx ny nz : ℕ} (hx : 1 ≤ nx) (hy : 1 ≤ ny) (hz : 1 ≤ nz)
    (hr : Spec.FirstShell name a r) (hfit : Spec.RangeFits ((Spec.basis name).length * nx * ny * nz) (nx * a) (ny * a) (nz * a) r) :
    ∃ atoms box s s1 s2 as, makeCrystal name a nx ny nz ca = .ok (atoms, box) ∧ buildSystem box atoms = .ok s ∧ s.findNeighbors σ 0 (.cutoff r) = .ok s1 ∧
      s1.calculateChi = .ok s2 ∧ s2.getAtoms = .ok as ∧ as.length = (Spec.basis name).length * nx * ny * nz ∧ ∀ x ∈ as, x.chi = Spec.chiTable name := by
  have hstr : ∀ name ∈ Spec.simple, name ∈ Spec.cubic ∧ name ∈ Spec.structures ∧ name ≠ "a15" ∧ 0 < (Spec.basis name).length ∧ name ≠ "hcp" := by decide
  obtain ⟨h1, h2, h3, h4, h5⟩ := hstr name hn
  obtain ⟨atoms, lx, ly, lz, hm', ex, ey, ez, hlen, hat, -⟩ := C40_make_crystal name h2 ha hca hx hy hz
  obtain ⟨atoms', box, s, s1, as, hm, hb, hs1, hg, hl, hall⟩ := C95_coordination σ name h1 ha hca hx hy hz hr hfit 0 (by norm_num)
  rw [hm] at hm'
  cases hm'
  have hE : Spec.cellEdges name a ca = ⟨a, a, a⟩ := by rw [Spec.cellEdges, if_neg h5]
  rw [hE] at ex ey ez
  have x0 : (0 : ℝ) < nx := by exact_mod_cast hx
  have y0 : (0 : ℝ) < ny := by exact_mod_cast hy
  have z0 : (0 : ℝ) < nz := by exact_mod_cast hz
  have hreal : ∀ c ∈ atoms, c.ghost = false := by
    intro c hc
    obtain ⟨k, hk⟩ := List.mem_iff_getElem?.1 hc
    exact (hat k c hk).2.2.1
  have hb0 := hb
  unfold buildSystem at hb0
  obtain ⟨s0, hs0, ha0⟩ := bind_ok hb0
  have hH := (assigned_start hs0 ha0 hreal).2.kept (Kept.findNeighbors hs1)
  obtain ⟨reals, hinv, -⟩ := hH.inv
  have hre : reals = as := by
    have := getAtoms_inv hinv
    rw [hg] at this
    exact (Except.ok.inj this).symm
  subst hre
  obtain ⟨s2, hs2⟩ := C31_succeeds s1 reals hinv (by rw [hl]; exact Nat.one_le_iff_ne_zero.2 (by positivity)) (by
    rw [hH.getBox, ex, ey, ez]
    simp only [boxSum, diagBox]
    positivity) (fun h => by
    rw [hH.getBox] at h
    exact absurd ((skewed_iff _).2 h) (not_skewed_diag _ _ _))
  have hs3 := hs2
  unfold System.calculateChi at hs3
  rw [hg] at hs3
  change s1.assignAtoms (reals.map chi1) = .ok s2 at hs3
  obtain ⟨g2, -, -⟩ := C05_assign_atoms s1 s2 _ (by
    intro x hx
    obtain ⟨y, hy, rfl⟩ := List.mem_map.1 hx
    exact hinv.real y hy) hs3
  refine ⟨atoms, _, s, s1, s2, _, hm, hb, hs1, hs2, g2, by rw [List.length_map, hl], fun x hx => ?_⟩
  obtain ⟨y, hy, rfl⟩ := List.mem_map.1 hx
  obtain ⟨L, hL, hp⟩ := (hall y hy).2 h3 rfl
  obtain ⟨K, hK, hKv⟩ := perm_points ha hp
  obtain ⟨t1, d, hd, t2, t3, t4⟩ := chi_shells name hn L hL
  rw [← t4]
  have hd0 : 0 < d := by
    simp only [List.mem_cons, List.not_mem_nil, or_false] at hd
    omega
  refine chi_points pyCos hK hKv _ (fun v w => by simp only [dotK, mul_comm]) (fun v hv w hw hne b hb => ?_) t1
  rw [pyCos_eq (quarter_ne ha (by rw [t2 v hv]; exact hd0)) (quarter_ne ha (by rw [t2 w hw]; exact hd0)), cos_quarter ha hd0 (t2 v hv) (t2 w hw)]
  rw [← binQ_iff (t3 v hv w hw hne) hb]
  constructor
  · rintro ⟨x, hx, h⟩
    cases hx
    exact h
  · exact fun h => ⟨_, rfl, h⟩

/-- The hypotheses: fcc with the lattice constant 4, 5 x 5 x 5 cells and the cutoff 3.5. -/
example (σ : StdSort) := C102_chi σ "fcc" (by decide) (a := 4) (ca := 1) (r := 3.5) (by norm_num) (by norm_num) (nx := 5) (ny := 5) (nz := 5) (by norm_num) (by norm_num) (by norm_num)
  (by
    have t8 : Real.sqrt 8 < 2.83 := by rw [Real.sqrt_lt' (by norm_num)]; norm_num
    have t16 : (3.9 : ℝ) < Real.sqrt 16 := by rw [Real.lt_sqrt (by norm_num)]; norm_num
    constructor <;> norm_num [Spec.limits] <;> linarith) (by simp only [Spec.RangeFits, Spec.basis, List.length_cons, List.length_nil]; refine ⟨?_, ?_, ?_⟩ <;> norm_num)

/-! ### Rounding -/

open Classical in
/-- **C31, with computed cosines**: whatever the computed cosines are, the counts add up to the number of pairs whose computed cosine lies between -1 and 1. -/
theorem C31_computed (cos : V3 → V3 → Option ℝ) (a : Atom) : (chi1With cos a).chi.sum = ((Spec.pairSet a.nbrs.length).filter fun p : ℕ × ℕ =>
    ∃ x, cos (Spec.nbVector a.nbrs p.1) (Spec.nbVector a.nbrs p.2) = some x ∧ -1 ≤ x ∧ x ≤ 1).card := by
  unfold chi1With
  rw [histogram_sum chiBins_increasing (by decide +kernel), List.countP_map, ← pairSet_eq, ← countP_card (pairs_nodup _)]
  refine List.countP_congr fun p _ => ?_
  have e : chiBins.getD 0 0 = -1 := by norm_num [chiBins]
  have e' : chiBins.getD (chiBins.length - 1) 0 = 1 := by norm_num [chiBins]
  simp only [Function.comp_apply, decide_eq_true_eq, nbVec_eq, e, e']

/-- The point with integer coordinates. -/
def Spec.intPoint (k : ℤ × ℤ × ℤ) : V3 := ⟨k.1, k.2.1, k.2.2⟩

theorem flDot_int {fl : ℝ → ℝ} (h : RoundsToNearest fl) {v w : ℤ × ℤ × ℤ} (hs : |v.1 * w.1| < 2 ^ 53 ∧ |v.2.1 * w.2.1| < 2 ^ 53 ∧ |v.2.2 * w.2.2| < 2 ^ 53 ∧
    |v.1 * w.1 + v.2.1 * w.2.1| < 2 ^ 53 ∧ |v.1 * w.1 + v.2.1 * w.2.1 + v.2.2 * w.2.2| < 2 ^ 53) : flDot fl (Spec.intPoint v) (Spec.intPoint w) = (dotK v w : ℝ) := by
  obtain ⟨h1, h2, h3, h4, h5⟩ := hs
  unfold flDot Spec.intPoint
  dsimp only
  have k : ∀ {m : ℤ}, |m| < 2 ^ 53 → fl (m : ℝ) = m := fun hm => fl_double h (isDouble_int hm)
  have k1 := k h1
  have k2 := k h2
  have k3 := k h3
  have k4 := k h4
  have k5 := k h5
  push_cast at k1 k2 k3 k4 k5
  rw [k1, k2, k3, k4, k5]
  unfold dotK
  push_cast
  ring

/-- The rounded square root of 12, its rounded square, and a quotient that is rounded to a number below -1. -/
theorem fl_twelve {fl : ℝ → ℝ} (h : RoundsToNearest fl) : fl (Real.sqrt 12) = 7800463371553962 * (2 : ℝ) ^ (-51 : ℤ) ∧
    fl (7800463371553962 * (2 : ℝ) ^ (-51 : ℤ) * (7800463371553962 * (2 : ℝ) ^ (-51 : ℤ))) = 6755399441055743 * (2 : ℝ) ^ (-49 : ℤ) ∧
    fl (-12 / (6755399441055743 * (2 : ℝ) ^ (-49 : ℤ))) < -1 := by
  refine ⟨?_, ?_, ?_⟩
  · have := fl_eq h (x := Real.sqrt 12) (k := 1) (M := 7800463371553962) (by norm_num) (by
      refine Real.le_sqrt_of_sq_le ?_
      norm_num) (by
      rw [abs_lt]
      constructor
      · have : Real.sqrt 12 < 7800463371553962 * (2 : ℝ) ^ (-51 : ℤ) + (2 : ℝ) ^ (-52 : ℤ) := by
          rw [Real.sqrt_lt' (by norm_num)]
          norm_num
        norm_num at this ⊢
        linarith
      · have : 7800463371553962 * (2 : ℝ) ^ (-51 : ℤ) - (2 : ℝ) ^ (-52 : ℤ) < Real.sqrt 12 := by
          refine Real.lt_sqrt_of_sq_lt ?_
          norm_num
        norm_num at this ⊢
        linarith)
    norm_num at this ⊢
    exact this
  · have := fl_eq h (x := 7800463371553962 * (2 : ℝ) ^ (-51 : ℤ) * (7800463371553962 * (2 : ℝ) ^ (-51 : ℤ))) (k := 3) (M := 6755399441055743) (by norm_num) (by norm_num) (by
      rw [abs_lt]
      constructor <;> norm_num)
    norm_num at this ⊢
    exact this
  · set x : ℝ := -12 / (6755399441055743 * (2 : ℝ) ^ (-49 : ℤ)) with hx
    have hd : IsDouble (((-4503599627370497 : ℤ) : ℝ) * (2 : ℝ) ^ (-52 : ℤ)) := isDouble_scale (by norm_num) _
    have h1 := (h x).2 _ hd
    have h2 : |((-4503599627370497 : ℤ) : ℝ) * (2 : ℝ) ^ (-52 : ℤ) - x| < -1 - x := by
      rw [abs_lt, hx]
      constructor <;> norm_num
    have h3 := le_abs_self (fl x - x)
    linarith

/-- The interval of the computed cosine of two of the fourteen neighbours in bcc with lattice constant 4: none for opposite corners. -/
def binRounded (v w : ℤ × ℤ × ℤ) : Option ℕ :=
  if dotK v w = -12 then none else if dotK v w = -16 then some 0 else if dotK v w < 0 then some 4 else if dotK v w = 0 then some 5 else some 7

theorem rounded_table : bccPoints.Nodup ∧ (∀ v ∈ bccPoints, ∀ w ∈ bccPoints, (|v.1 * w.1| < 2 ^ 53 ∧ |v.2.1 * w.2.1| < 2 ^ 53 ∧ |v.2.2 * w.2.2| < 2 ^ 53 ∧
      |v.1 * w.1 + v.2.1 * w.2.1| < 2 ^ 53 ∧ |v.1 * w.1 + v.2.1 * w.2.1 + v.2.2 * w.2.2| < 2 ^ 53) ∧
      (v ≠ w → dotK v v = 12 ∧ dotK w w = 12 ∧ (dotK v w = -12 ∨ dotK v w = -4 ∨ dotK v w = 4) ∨
        (dotK v v = 12 ∧ dotK w w = 16 ∨ dotK v v = 16 ∧ dotK w w = 12) ∧ (dotK v w = -8 ∨ dotK v w = 8) ∨ dotK v v = 16 ∧ dotK w w = 16 ∧ (dotK v w = -16 ∨ dotK v w = 0))) ∧
    (List.range 9).map (fun b => pairCount (fun v w => binRounded v w == some b) bccPoints) = [3, 0, 0, 0, 36, 12, 0, 36, 0] := by
  decide +kernel

theorem flNorm_point {fl : ℝ → ℝ} (h : RoundsToNearest fl) {v : ℤ × ℤ × ℤ} (hv : v ∈ bccPoints) :
    (dotK v v = 12 → flNorm fl (Spec.intPoint v) = 7800463371553962 * (2 : ℝ) ^ (-51 : ℤ)) ∧ (dotK v v = 16 → flNorm fl (Spec.intPoint v) = 4) := by
  have e := flDot_int h (rounded_table.2.1 v hv v hv).1
  unfold flNorm
  rw [e]
  constructor
  · intro h12
    rw [h12]
    exact_mod_cast (fl_twelve h).1
  · intro h16
    rw [h16]
    have : Real.sqrt ((16 : ℤ) : ℝ) = 4 := by rw [Real.sqrt_eq_iff_mul_self_eq_of_pos (by norm_num)]; norm_num
    rw [this]
    exact_mod_cast fl_double h (isDouble_int (m := 4) (by norm_num))

theorem chiBin_unique {x : ℝ} {c : ℕ} (hc : c < 9) (h : Spec.ChiBin c x) {b : ℕ} (hb : b < 9) : Spec.ChiBin b x ↔ c = b := by
  constructor
  · intro h'
    exact bin_unique chiBins_increasing (show c + 1 < 10 by omega) (show b + 1 < 10 by omega) ((chiBin_iff hc _).2 h) ((chiBin_iff hb _).2 h')
  · rintro rfl
    exact h

/-- The interval of each computed cosine. -/
theorem flCos_bin {fl : ℝ → ℝ} (h : RoundsToNearest fl) {v w : ℤ × ℤ × ℤ} (hv : v ∈ bccPoints) (hw : w ∈ bccPoints) (hne : v ≠ w) {b : ℕ} (hb : b < 9) :
    (∃ x, flCos fl (Spec.intPoint v) (Spec.intPoint w) = some x ∧ Spec.ChiBin b x) ↔ binRounded v w = some b := by
  obtain ⟨n1, n2⟩ := flNorm_point h hv
  obtain ⟨m1, m2⟩ := flNorm_point h hw
  obtain ⟨hs, ht⟩ := rounded_table.2.1 v hv w hw
  have hdot := flDot_int h hs
  obtain ⟨-, f2, f3⟩ := fl_twelve h
  have hq : ∀ (q : ℝ), fl (flNorm fl (Spec.intPoint v) * flNorm fl (Spec.intPoint w)) = q → q ≠ 0 →
      flCos fl (Spec.intPoint v) (Spec.intPoint w) = some (fl ((dotK v w : ℝ) / q)) := by
    intro q e hq
    unfold flCos
    rw [e, hdot, fdiv, if_neg hq]
    rfl
  have none' : ∀ x, flCos fl (Spec.intPoint v) (Spec.intPoint w) = some x → x < -1 → binRounded v w = none →
      ((∃ x, flCos fl (Spec.intPoint v) (Spec.intPoint w) = some x ∧ Spec.ChiBin b x) ↔ binRounded v w = some b) := by
    intro x e hx hn
    rw [e, hn]
    constructor
    · rintro ⟨y, hy, hbin⟩
      cases hy
      exfalso
      interval_cases b <;> simp only [Spec.ChiBin] at hbin <;> norm_num at hbin <;> linarith [hbin.1]
    · intro h
      cases h
  have some' : ∀ (c : ℕ) (x : ℝ), c < 9 → flCos fl (Spec.intPoint v) (Spec.intPoint w) = some x → Spec.ChiBin c x → binRounded v w = some c →
      ((∃ x, flCos fl (Spec.intPoint v) (Spec.intPoint w) = some x ∧ Spec.ChiBin b x) ↔ binRounded v w = some b) := by
    intro c x hc e hx hn
    rw [e, hn, Option.some.injEq, ← chiBin_unique hc hx hb]
    constructor
    · rintro ⟨y, hy, hbin⟩
      cases hy
      exact hbin
    · exact fun h => ⟨_, rfl, h⟩
  have dy : ∀ (m e : ℤ), |m| < 2 ^ 53 → IsDouble ((m : ℝ) * (2 : ℝ) ^ e) := fun m e hm => isDouble_scale hm e
  have four : ∀ x : ℝ, -(5 / 8) ≤ x → x ≤ -(1 / 4) → Spec.ChiBin 4 (fl x) := by
    intro x h1 h2
    have d1 : IsDouble (-(5 / 8) : ℝ) := by have := dy (-5) (-3) (by norm_num); norm_num at this; norm_num; exact this
    have d2 : IsDouble (-(1 / 4) : ℝ) := by have := dy (-1) (-2) (by norm_num); norm_num at this; norm_num; exact this
    have := le_fl h d1 h1
    have := fl_le h d2 h2
    simp only [Spec.ChiBin]
    constructor <;> norm_num <;> linarith
  have seven : ∀ x : ℝ, 1 / 4 ≤ x → x ≤ 5 / 8 → Spec.ChiBin 7 (fl x) := by
    intro x h1 h2
    have d1 : IsDouble (5 / 8 : ℝ) := by have := dy 5 (-3) (by norm_num); norm_num at this; exact this
    have d2 : IsDouble (1 / 4 : ℝ) := by have := dy 1 (-2) (by norm_num); norm_num at this; exact this
    have := fl_le h d1 h2
    have := le_fl h d2 h1
    simp only [Spec.ChiBin]
    constructor <;> norm_num <;> linarith
  rcases ht hne with ⟨a1, a2, a3⟩ | ⟨a1, a3⟩ | ⟨a1, a2, a3⟩
  · have e := hq (6755399441055743 * (2 : ℝ) ^ (-49 : ℤ)) (by rw [n1 a1, m1 a2]; exact f2) (by norm_num)
    rcases a3 with a3 | a3 | a3 <;> rw [a3] at e
    · exact none' _ e (by exact_mod_cast f3) (by rw [binRounded, if_pos a3])
    · refine some' 4 _ (by norm_num) e (four _ ?_ ?_) (by simp [binRounded, a3]) <;> norm_num
    · refine some' 7 _ (by norm_num) e (seven _ ?_ ?_) (by simp [binRounded, a3]) <;> norm_num
  · have e := hq (7800463371553962 * (2 : ℝ) ^ (-49 : ℤ)) (by
      have hdb := fl_double h (dy 7800463371553962 (-49) (by norm_num))
      rcases a1 with ⟨b1, b2⟩ | ⟨b1, b2⟩
      · rw [n1 b1, m2 b2]
        norm_num at hdb ⊢
        exact hdb
      · rw [n2 b1, m1 b2]
        norm_num at hdb ⊢
        exact hdb) (by norm_num)
    rcases a3 with a3 | a3 <;> rw [a3] at e
    · refine some' 4 _ (by norm_num) e (four _ ?_ ?_) (by simp [binRounded, a3]) <;> norm_num
    · refine some' 7 _ (by norm_num) e (seven _ ?_ ?_) (by simp [binRounded, a3]) <;> norm_num
  · have e := hq 16 (by
      rw [n2 a1, m2 a2]
      have hdb := fl_double h (dy 16 0 (by norm_num))
      norm_num at hdb ⊢
      exact hdb) (by norm_num)
    rcases a3 with a3 | a3 <;> rw [a3] at e
    · have hdb := fl_double h (dy (-1) 0 (by norm_num))
      norm_num at hdb e
      rw [hdb] at e
      refine some' 0 _ (by norm_num) e ?_ (by simp [binRounded, a3])
      simp only [Spec.ChiBin]
      norm_num
    · have hdb := fl_double h (dy 0 0 (by norm_num))
      norm_num at hdb e
      rw [hdb] at e
      refine some' 5 _ (by norm_num) e ?_ (by simp [binRounded, a3])
      simp only [Spec.ChiBin]
      norm_num

/-- **C31 does not hold in floating-point arithmetic**: take an atom with the fourteen neighbours of bcc with the lattice constant 4, in any order.  With rounding to nearest,
whatever is done with ties, `calculate_chiparams` gives `[3, 0, 0, 0, 36, 12, 0, 36, 0]` (the value that tests/test_chiparams.py asserts).  The four pairs of opposite
corners are not counted, as their computed cosine is below -1: the counts add up to 87, not to 14 · 13 / 2 = 91. -/
theorem C31_false_rounding {fl : ℝ → ℝ} (h : RoundsToNearest fl) (a : Atom) (hp : (a.nbrs.map Nb.vec).Perm (bccPoints.map Spec.intPoint)) :
    (chi1With (flCos fl) a).chi = [3, 0, 0, 0, 36, 12, 0, 36, 0] ∧ (chi1With (flCos fl) a).chi.sum + 4 = a.nbrs.length * (a.nbrs.length - 1) / 2 := by
  obtain ⟨K, hK, hKv⟩ := exists_points (e := Spec.intPoint) (fun u v e => by
    simp only [Spec.intPoint, V3.mk.injEq, Int.cast_inj] at e
    exact Prod.ext e.1 (Prod.ext e.2.1 e.2.2)) hp
  have hchi := chi_points (flCos fl) hK hKv binRounded (fun v w => by rw [binRounded, binRounded, show dotK v w = dotK w v by unfold dotK; ring]) (fun v hv w hw hne b hb => flCos_bin h hv hw hne hb) rounded_table.1
  rw [rounded_table.2.2] at hchi
  have hl : a.nbrs.length = 14 := by
    have := hp.length_eq
    rw [List.length_map, List.length_map] at this
    exact this
  exact ⟨hchi, by rw [hchi, hl]; rfl⟩

/-- A way of rounding and an atom as in the theorem. -/
example := C31_false_rounding flExample_rounds { (default : Atom) with nbrs := bccPoints.map fun k => ⟨0, V3.norm (Spec.intPoint k), 1, Spec.intPoint k⟩ } (by
  rw [List.map_map]; exact List.Perm.refl _)

end Pyscal
