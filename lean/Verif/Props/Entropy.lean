import Verif.Lemmas.Entropy
import Verif.Props.Angles
import Verif.Props.Solids
import Mathlib.Analysis.SpecialFunctions.Log.Deriv
import Mathlib.Analysis.Complex.ExponentialBounds

/-! Properties C32, C33 and C34: entropy parameters and neighbour averages. -/

namespace Pyscal

open Finset

/-! ### C33: the integral -/

/-- **C33, what holds.**  Full statement: the entropy is `-ρ k_B` times the trapezoid rule on the grid
`rstart, rstart+h, …` with `n = ⌊(rm-rstart)/h⌋` intervals (`k_B = 1` in the code, `ρ` the number density).
Proved: for at least two intervals it is `-ρ` times that sum *without* the contribution `h f(x_{n-1})` of
the last inner grid point; with exactly one interval the rule is right.  Missing: the omitted point,
see `C33_false`. -/
theorem C33_partial (s s' : System) (reals : List Atom) (hi : StoreInv s reals) (rm σ rstart h : ℝ) (av : System.EntropyAverage)
    (r : Except Fault Unit) (he : System.calculateEntropy rm σ rstart h false av s = (s', r)) (hV : 0 < s.getBox.det) (hσ : σ ≠ 0)
    (hs : 0 < rstart) (hh : 0 < h) (i : ℕ) (a a' : Atom) (ha : s.atoms[i]? = some a) (ha' : s'.atoms[i]? = some a') (hn : a.nbrs ≠ [])
    (hr : 0 < s.natoms) :
    let ρ : ℝ := s.natoms / s.getBox.det
    let f : ℝ → ℝ := Spec.entropyIntegrand (a.nbrs.map Nb.dist) σ ρ
    let n : ℕ := ⌊(rm - rstart) / h⌋₊
    (2 ≤ n → a'.entropy = some (-ρ * (Spec.trapezoidRule f rstart h n - h * f (rstart + (n - 1) * h)))) ∧
    (n = 1 → a'.entropy = some (-ρ * Spec.trapezoidRule f rstart h n)) := by
  rw [← boxDet_eq] at hV ⊢
  intro ρ f n
  have hlen : (reals.length : ℝ) = s.natoms := by rw [← hi.realNop]; rfl
  obtain ⟨b, hb, hbe, -⟩ := calculateEntropy_atom (getAtoms_inv hi) he ha ha'
  have hρ : 0 < ρ := div_pos (by exact_mod_cast hr) hV
  have hf : fdiv reals.length s.boxDet = some ρ := by
    unfold fdiv
    rw [if_neg hV.ne', hlen]
  rw [if_neg (by simp), hf, entropyLoop_const _ _ _ _ _ _ (by simpa using hρ.ne'), List.getElem?_map, ha] at hb
  obtain rfl := Option.some.inj hb
  rw [hbe]
  have h0 : ∀ k : ℕ, 1 ≤ k → k ≤ n → k * h ≤ rm - rstart := by
    intro k hk hkn
    have := (Nat.le_floor_iff' (by omega)).1 hkn
    rwa [le_div_iff₀ hh] at this
  constructor
  · intro h2
    have := h0 2 (by norm_num) h2
    push_cast at this
    change trapezoid a σ ρ rstart rm h 1 = _
    rw [trapezoid_eq a hn hσ hρ hs hh (by linarith), mul_one]
  · intro h1
    have := h0 1 (by norm_num) h1.ge
    push_cast at this
    change trapezoid a σ ρ rstart rm h 1 = _
    rw [trapezoid_one a hn hσ hρ hs hh h1 (by linarith), mul_one, h1]

/-- **C33, size of the error**: whenever the smeared pair correlation at the omitted grid point is not 1,
the assigned entropy is strictly larger than the trapezoid value. -/
theorem C33_above (s s' : System) (reals : List Atom) (hi : StoreInv s reals) (rm σ rstart h : ℝ) (av : System.EntropyAverage)
    (r : Except Fault Unit) (he : System.calculateEntropy rm σ rstart h false av s = (s', r)) (hV : 0 < s.getBox.det) (hσ : σ ≠ 0)
    (hs : 0 < rstart) (hh : 0 < h) (i : ℕ) (a a' : Atom) (ha : s.atoms[i]? = some a) (ha' : s'.atoms[i]? = some a') (hn : a.nbrs ≠ [])
    (hr : 0 < s.natoms) (n : ℕ) (hnn : n = ⌊(rm - rstart) / h⌋₊) (h2 : 2 ≤ n)
    (hg : Spec.pairCorrelation (a.nbrs.map Nb.dist) σ (s.natoms / s.getBox.det) (rstart + (n - 1) * h) ≠ 1) :
    ∃ v, a'.entropy = some v ∧ -((s.natoms : ℝ) / s.getBox.det) *
      Spec.trapezoidRule (Spec.entropyIntegrand (a.nbrs.map Nb.dist) σ (s.natoms / s.getBox.det)) rstart h n < v := by
  subst hnn
  refine ⟨_, (C33_partial s s' reals hi rm σ rstart h av r he hV hσ hs hh i a a' ha ha' hn hr).1 h2, ?_⟩
  have hρ : 0 < (s.natoms : ℝ) / s.getBox.det := div_pos (by exact_mod_cast hr) hV
  have hx : 0 < rstart + ((⌊(rm - rstart) / h⌋₊ : ℝ) - 1) * h := by
    have : (2 : ℝ) ≤ ⌊(rm - rstart) / h⌋₊ := by exact_mod_cast h2
    have := mul_pos (show 0 < (⌊(rm - rstart) / h⌋₊ : ℝ) - 1 by linarith) hh
    linarith
  have hf : 0 < Spec.entropyIntegrand (a.nbrs.map Nb.dist) σ (s.natoms / s.getBox.det) (rstart + ((⌊(rm - rstart) / h⌋₊ : ℝ) - 1) * h) := by
    unfold Spec.entropyIntegrand
    exact mul_pos (xlogx_pos (pairCorrelation_pos (by simpa using hn) hσ hρ hx.ne') hg) (by positivity)
  have := mul_pos hρ (mul_pos hh hf)
  linarith

theorem tetra_det : tetra.getBox.det = 1000 := by norm_num [Mat3.det, System.getBox, tetra, Spec.diagBox]

theorem tetra_corr (a : Atom) (ha : tetra.atoms[0]? = some a) (x : ℝ) (hx : x = 3) :
    Spec.pairCorrelation (a.nbrs.map Nb.dist) 100 (5 / 1000) x ≠ 1 := by
  obtain rfl := Option.some.inj ha
  subst hx
  refine ne_of_lt ?_
  have hP := PI_pos
  have hsq : (200 : ℝ) ≤ Real.sqrt (2 * PI * 100 ^ 2) := by
    refine Real.le_sqrt_of_sq_le ?_
    norm_num [PI]
  have he : Real.exp (-((3 - Real.sqrt 3) ^ 2 / (2 * 100 ^ 2))) ≤ 1 := by
    rw [Real.exp_le_one_iff]
    have : 0 ≤ (3 - Real.sqrt 3) ^ 2 / (2 * 100 ^ 2) := by positivity
    linarith
  unfold Spec.pairCorrelation
  rw [div_lt_one (by positivity)]
  simp only [List.map_cons, List.map_nil, List.sum_cons, List.sum_nil]
  have h2 : (3 : ℝ) * 200 / 10 ≤ 4 * PI * (5 / 1000) * 3 ^ 2 * Real.sqrt (2 * PI * 100 ^ 2) := by
    have : (3 : ℝ) / 10 ≤ 4 * PI * (5 / 1000) * 3 ^ 2 := by norm_num [PI]
    calc (3 : ℝ) * 200 / 10 = 3 / 10 * 200 := by ring
      _ ≤ _ := mul_le_mul this hsq (by norm_num) (by positivity)
  linarith

/-- **C33 is false of the code**: the grid point before the last is left out.  For the central atom of a
tetrahedron the assigned entropy differs from the trapezoid value. -/
theorem C33_false : ∃ (s s' : System) (rm σ rstart h : ℝ) (a a' : Atom), StoreInv s s.atoms ∧
    System.calculateEntropy rm σ rstart h false .none s = (s', .ok ()) ∧ s.atoms[0]? = some a ∧ s'.atoms[0]? = some a' ∧
    a'.entropy ≠ some (-((s.natoms : ℝ) / s.getBox.det) *
      Spec.trapezoidRule (Spec.entropyIntegrand (a.nbrs.map Nb.dist) σ (s.natoms / s.getBox.det)) rstart h ⌊(rm - rstart) / h⌋₊) := by
  have hg : tetra.getAtoms = .ok tetra.atoms := getAtoms_inv tetra_inv
  obtain ⟨s', he⟩ : ∃ s', System.calculateEntropy 4 100 1 1 false .none tetra = (s', .ok ()) := by
    unfold System.calculateEntropy
    rw [hg]
    exact ⟨_, rfl⟩
  obtain ⟨a, ha⟩ : ∃ a, tetra.atoms[0]? = some a := ⟨_, rfl⟩
  obtain ⟨a', ha'⟩ : ∃ a', s'.atoms[0]? = some a' := by
    have : s'.atoms = entropyLoop 100 1 4 1 1 (fdiv tetra.atoms.length tetra.boxDet) tetra.atoms := by
      unfold System.calculateEntropy at he
      rw [hg] at he
      exact (congrArg (fun p : System × Except Fault Unit => p.1.atoms) he).symm
    rw [this]
    exact ⟨_, rfl⟩
  have hn : a.nbrs ≠ [] := by
    rw [← Option.some.inj ha]
    simp
  have h5 : tetra.natoms = 5 := rfl
  have hfl : ⌊((4 : ℝ) - 1) / 1⌋₊ = 3 := by norm_num
  refine ⟨tetra, s', 4, 100, 1, 1, a, a', tetra_inv, he, ha, ha', ?_⟩
  obtain ⟨v, hv, hlt⟩ := C33_above tetra s' _ tetra_inv 4 100 1 1 .none _ he (by rw [tetra_det]; norm_num) (by norm_num) (by norm_num)
    (by norm_num) 0 a a' ha ha' hn (by rw [h5]; norm_num) 3 hfl.symm (by norm_num) (by
      rw [h5, tetra_det]
      exact tetra_corr a ha _ (by norm_num))
  rw [hfl, hv]
  exact fun h => hlt.ne' (Option.some.inj h)

/-- **C33, atoms without neighbours**: their entropy is NaN (`0 * log 0`). -/
theorem C33_no_neighbours (s s' : System) (reals : List Atom) (hi : StoreInv s reals) (rm σ rstart h : ℝ) (av : System.EntropyAverage)
    (loc : Bool) (r : Except Fault Unit) (he : System.calculateEntropy rm σ rstart h loc av s = (s', r)) (i : ℕ) (a a' : Atom)
    (ha : s.atoms[i]? = some a) (ha' : s'.atoms[i]? = some a') (hn : a.nbrs = []) : a'.entropy = none := by
  obtain ⟨b, hb, hbe, -⟩ := calculateEntropy_atom (getAtoms_inv hi) he ha ha'
  rw [hbe]
  have key : ∀ (l : List Atom) (R : Option ℝ) (i : ℕ) (a b : Atom), a.nbrs = [] → l[i]? = some a →
      (entropyLoop σ rstart rm h 1 R l)[i]? = some b → b.entropy = none := by
    intro l
    induction l with
    | nil => intro R i a b _ h; simp at h
    | cons c l ih =>
      intro R i a b hn ha hb
      rw [entropyLoop] at hb
      cases i with
      | zero =>
        obtain rfl : c = a := by simpa using ha
        rw [← Option.some.inj hb]
        dsimp only
        have : ∀ x : Option ℝ, (x.bind fun rho => trapezoid c σ rho rstart rm h 1) = none := by
          intro x
          cases x with
          | none => rfl
          | some x => exact trapezoid_nan c σ x rstart rm h 1 (.inl hn)
        exact this _
      | succ i => exact ih _ i a b hn (by simpa using ha) (by simpa using hb)
  exact key _ _ i a b hn ha hb

/-! ### C32: local densities -/

/-- With `local=True` all atoms use the density of the first one. -/
theorem entropyLoop_local (σ rstart rstop h kb : ℝ) (a0 : Atom) (l : List Atom) (c : ℝ) (hc : a0.cutoff = some c) (hc0 : c ≠ 0) (hn : a0.nbrs ≠ []) :
    entropyLoop σ rstart rstop h kb (some 0) (a0 :: l) = (a0 :: l).map fun a =>
      { a with entropy := trapezoid a σ (Spec.localDensity a0.nbrs.length c) rstart rstop h kb } := by
  have hd : (a0.cutoff.bind fun c => fdiv a0.nbrs.length (4.1887902047863905 * c ^ 3)) = some (Spec.localDensity a0.nbrs.length c) := by
    rw [hc]
    simp only [Option.bind_some, fdiv]
    rw [if_neg (by positivity)]
    rfl
  have h0 : Spec.localDensity a0.nbrs.length c ≠ 0 := by
    unfold Spec.localDensity
    have : (a0.nbrs.length : ℝ) ≠ 0 := by simpa using hn
    positivity
  rw [entropyLoop, if_pos rfl, hd, entropyLoop_const _ _ _ _ _ _ (by simpa using h0)]
  rfl

/-- **C32, what holds.**  Full statement: with `local=True` the entropy of each atom is computed with the
density given by its own coordination and cutoff.  Proved: it is computed with the density of the *first*
atom of the system (if that has neighbours), so the statement holds for the first atom and for all atoms
with the same coordination and cutoff as the first.  Missing: other atoms, see `C32_false`. -/
theorem C32_partial (s s' : System) (reals : List Atom) (hi : StoreInv s reals) (rm σ rstart h : ℝ) (av : System.EntropyAverage)
    (r : Except Fault Unit) (he : System.calculateEntropy rm σ rstart h true av s = (s', r)) (hσ : σ ≠ 0)
    (hs : 0 < rstart) (hh : 0 < h) (a0 : Atom) (h0 : s.atoms[0]? = some a0) (c0 : ℝ) (hc0 : a0.cutoff = some c0) (hp : 0 < c0) (hn0 : a0.nbrs ≠ [])
    (i : ℕ) (a a' : Atom) (ha : s.atoms[i]? = some a) (ha' : s'.atoms[i]? = some a') (hn : a.nbrs ≠ []) :
    let f : ℝ → ℝ → ℝ := Spec.entropyIntegrand (a.nbrs.map Nb.dist) σ
    let n : ℕ := ⌊(rm - rstart) / h⌋₊
    let value : ℝ → ℝ := fun ρ => -ρ * (Spec.trapezoidRule (f ρ) rstart h n - if n = 1 then 0 else h * f ρ (rstart + (n - 1) * h))
    (1 ≤ n → a'.entropy = some (value (Spec.localDensity a0.nbrs.length c0))) ∧
    (1 ≤ n → a.nbrs.length = a0.nbrs.length → a.cutoff = a0.cutoff →
      ∃ c, a.cutoff = some c ∧ a'.entropy = some (value (Spec.localDensity a.nbrs.length c))) := by
  intro f n value
  have main : 1 ≤ n → a'.entropy = some (value (Spec.localDensity a0.nbrs.length c0)) := by
    intro hn1
    obtain ⟨b, hb, hbe, -⟩ := calculateEntropy_atom (getAtoms_inv hi) he ha ha'
    obtain ⟨l, hl⟩ : ∃ l, s.atoms = a0 :: l := by
      cases hs : s.atoms with
      | nil => rw [hs] at h0; simp at h0
      | cons x l =>
        rw [hs] at h0
        exact ⟨l, by rw [show x = a0 by simpa using h0]⟩
    rw [if_pos rfl, hl, entropyLoop_local σ rstart rm h 1 a0 l c0 hc0 hp.ne' hn0, ← hl, List.getElem?_map, ha] at hb
    obtain rfl := Option.some.inj hb
    rw [hbe]
    change trapezoid a σ (Spec.localDensity a0.nbrs.length c0) rstart rm h 1 = _
    have hρ : 0 < Spec.localDensity a0.nbrs.length c0 := by
      unfold Spec.localDensity
      have : 0 < (a0.nbrs.length : ℝ) := by exact_mod_cast List.length_pos_iff.2 hn0
      positivity
    have hle : n * h ≤ rm - rstart := by
      have := (Nat.le_floor_iff' (by omega)).1 (le_refl n)
      rwa [le_div_iff₀ hh] at this
    have hn1' : (1 : ℝ) ≤ n := by exact_mod_cast hn1
    by_cases h1 : n = 1
    · rw [trapezoid_one a hn hσ hρ hs hh h1 (by nlinarith), mul_one]
      simp only [value, if_pos h1, sub_zero]
      rw [h1]
    · have hn2 : (2 : ℝ) ≤ n := by exact_mod_cast (show 2 ≤ n by omega)
      rw [trapezoid_eq a hn hσ hρ hs hh (by nlinarith), mul_one]
      simp only [value, if_neg h1]
      rfl
  exact ⟨main, fun hn1 hlen hcut => ⟨c0, hcut.trans hc0, by rw [hlen]; exact main hn1⟩⟩

/-- The density enters the weighted integrand as `(A ln(A/ρ) - A + ρ) r²` with `A` independent of `ρ`. -/
theorem density_integrand (ds : List ℝ) {σ ρ r : ℝ} (hρ : ρ ≠ 0) :
    ρ * Spec.entropyIntegrand ds σ ρ r = (Spec.pairCorrelation ds σ 1 r * Real.log (Spec.pairCorrelation ds σ 1 r / ρ) -
      Spec.pairCorrelation ds σ 1 r + ρ) * r ^ 2 := by
  have e : Spec.pairCorrelation ds σ ρ r = Spec.pairCorrelation ds σ 1 r / ρ := by
    unfold Spec.pairCorrelation
    rw [div_div]
    congr 1
    ring
  unfold Spec.entropyIntegrand
  rw [e]
  field_simp

/-- Two atoms, each with one neighbour at distance 1; in the second version the first atom has two. -/
noncomputable def densityPair (l : List Nb) : System where
  atoms := [{ pos := ⟨5, 5, 5⟩, nbrs := l, cutoff := some 2 }, { pos := ⟨6, 5, 5⟩, nbrs := [⟨0, 1, 1, ⟨1, 0, 0⟩⟩], cutoff := some 2 }]
  nop := 2
  realNop := 2
  box := Spec.diagBox 10 10 10

theorem densityPair_inv (l : List Nb) : StoreInv (densityPair l) (densityPair l).atoms :=
  ⟨by simp [densityPair], ⟨[], by simp, by simp, rfl⟩, rfl, rfl⟩

theorem densityPair_run (l : List Nb) : ∃ s' a', System.calculateEntropy 2 1 1 1 true .none (densityPair l) = (s', .ok ()) ∧ s'.atoms[1]? = some a' := by
  unfold System.calculateEntropy
  rw [getAtoms_inv (densityPair_inv l)]
  exact ⟨_, _, rfl, rfl⟩

/-- **C32 is false of the code**: two systems in which atom 1 has the same neighbours and the same cutoff;
the entropies assigned to it by `calculate_entropy(local=True)` differ, because the coordination of atom 0
does. -/
theorem C32_false : ∃ (s t s' t' : System) (a b a' b' : Atom), StoreInv s s.atoms ∧ StoreInv t t.atoms ∧
    System.calculateEntropy 2 1 1 1 true .none s = (s', .ok ()) ∧ System.calculateEntropy 2 1 1 1 true .none t = (t', .ok ()) ∧
    s.atoms[1]? = some a ∧ t.atoms[1]? = some b ∧ a.nbrs = b.nbrs ∧ a.cutoff = b.cutoff ∧ s.box = t.box ∧ s.natoms = t.natoms ∧
    s'.atoms[1]? = some a' ∧ t'.atoms[1]? = some b' ∧ a'.entropy ≠ b'.entropy := by
  obtain ⟨s', a', hs, ha'⟩ := densityPair_run [⟨1, 1, 1, ⟨-1, 0, 0⟩⟩]
  obtain ⟨t', b', ht, hb'⟩ := densityPair_run [⟨1, 1, 1, ⟨-1, 0, 0⟩⟩, ⟨1, 1, 1, ⟨-1, 0, 0⟩⟩]
  refine ⟨_, _, s', t', _, _, a', b', densityPair_inv _, densityPair_inv _, hs, ht, rfl, rfl, rfl, rfl, rfl, rfl, ha', hb', ?_⟩
  have hfl : ⌊((2 : ℝ) - 1) / 1⌋₊ = 1 := by norm_num
  have e1 := (C32_partial _ s' _ (densityPair_inv _) 2 1 1 1 .none _ hs (by norm_num) (by norm_num) (by norm_num) _ rfl 2 rfl (by norm_num)
    (by simp) 1 _ a' rfl ha' (by simp)).1 hfl.ge
  have e2 := (C32_partial _ t' _ (densityPair_inv _) 2 1 1 1 .none _ ht (by norm_num) (by norm_num) (by norm_num) _ rfl 2 rfl (by norm_num)
    (by simp) 1 _ b' rfl hb' (by simp)).1 hfl.ge
  rw [e1, e2]
  intro h
  have h := Option.some.inj h
  beta_reduce at h
  rw [if_pos hfl, if_pos hfl, hfl] at h
  simp only [Spec.trapezoidRule, sum_range_one, List.map_cons, List.map_nil, List.length_cons, List.length_nil, sub_zero] at h
  set ρ := Spec.localDensity (0 + 1) 2 with hρd
  have hρ2 : Spec.localDensity (0 + 1 + 1) 2 = 2 * ρ := by
    rw [hρd]; unfold Spec.localDensity; push_cast; ring
  rw [hρ2] at h
  have hρ0 : (0.029 : ℝ) < ρ := by rw [hρd]; unfold Spec.localDensity; norm_num
  have hρ1 : ρ ≠ 0 := by linarith
  have hρ3 : 2 * ρ ≠ 0 := by linarith
  have h1 := density_integrand [1] (σ := 1) (r := 1) hρ1
  have h2 := density_integrand [1] (σ := 1) (r := 2) hρ1
  have h3 := density_integrand [1] (σ := 1) (r := 1) hρ3
  have h4 := density_integrand [1] (σ := 1) (r := 2) hρ3
  set A := Spec.pairCorrelation [1] 1 1 1 with hA
  set B := Spec.pairCorrelation [1] 1 1 2 with hB
  have hA0 : 0 < A := pairCorrelation_pos (by simp) (by norm_num) (by norm_num) (by norm_num)
  have hB0 : 0 < B := pairCorrelation_pos (by simp) (by norm_num) (by norm_num) (by norm_num)
  have hl : ∀ x : ℝ, 0 < x → Real.log (x / (2 * ρ)) = Real.log (x / ρ) - Real.log 2 := by
    intro x hx
    rw [mul_comm, ← div_div, Real.log_div (by positivity) (by norm_num)]
  rw [hl A hA0] at h3
  rw [hl B hB0] at h4
  have hsq : (2 : ℝ) ≤ Real.sqrt (2 * PI * 1 ^ 2) := Real.le_sqrt_of_sq_le (by norm_num [PI])
  have hP : (3 : ℝ) < PI := by norm_num [PI]
  have bound : ∀ r : ℝ, 1 ≤ r → Spec.pairCorrelation [1] 1 1 r * r ^ 2 ≤ 1 / 24 := by
    intro r hr
    unfold Spec.pairCorrelation
    simp only [List.map_cons, List.map_nil, List.sum_cons, List.sum_nil, add_zero]
    have he : Real.exp (-((r - 1) ^ 2 / (2 * 1 ^ 2))) ≤ 1 := by
      rw [Real.exp_le_one_iff]
      have : 0 ≤ (r - 1) ^ 2 / (2 * 1 ^ 2) := by positivity
      linarith
    have hd : 24 ≤ 4 * PI * Real.sqrt (2 * PI * 1 ^ 2) := by nlinarith
    have : Real.exp (-((r - 1) ^ 2 / (2 * 1 ^ 2))) / (4 * PI * 1 * r ^ 2 * Real.sqrt (2 * PI * 1 ^ 2)) * r ^ 2 =
        Real.exp (-((r - 1) ^ 2 / (2 * 1 ^ 2))) / (4 * PI * Real.sqrt (2 * PI * 1 ^ 2)) := by
      have : r ≠ 0 := by linarith
      field_simp
    rw [this]
    exact div_le_div₀ (by norm_num) he (by norm_num) hd
  have bA := bound 1 le_rfl
  have bB := bound 2 (by norm_num)
  have hlog := Real.log_two_lt_d9
  have hlog0 := Real.log_pos (show (1 : ℝ) < 2 by norm_num)
  have hh : ρ * Spec.entropyIntegrand [1] 1 ρ 1 + ρ * Spec.entropyIntegrand [1] 1 ρ 2 =
      2 * ρ * Spec.entropyIntegrand [1] 1 (2 * ρ) 1 + 2 * ρ * Spec.entropyIntegrand [1] 1 (2 * ρ) 2 := by
    norm_num at h
    linarith
  rw [h1, h2, h3, h4] at hh
  rw [← hA] at bA
  rw [← hB] at bB
  have k : Real.log 2 * (A * 1 ^ 2 + B * 2 ^ 2) = 5 * ρ := by linarith
  have : Real.log 2 * (A * 1 ^ 2 + B * 2 ^ 2) ≤ 1 * (1 / 12) :=
    mul_le_mul (by linarith) (by linarith) (by positivity) (by norm_num)
  linarith

/-! ### C34: neighbour averages -/

theorem weighted_lt (l : List (ℝ × ℝ)) (m : ℝ) (hw : ∀ p ∈ l, 0 < p.1) (hv : ∀ p ∈ l, m < p.2) :
    m * (l.map Prod.fst).sum ≤ (l.map fun p => p.1 * p.2).sum ∧ (l ≠ [] → m * (l.map Prod.fst).sum < (l.map fun p => p.1 * p.2).sum) := by
  induction l with
  | nil => simp
  | cons p l ih =>
    have h1 := mul_lt_mul_of_pos_left (hv p List.mem_cons_self) (hw p List.mem_cons_self)
    have h2 := (ih (fun q hq => hw q (List.mem_cons_of_mem _ hq)) fun q hq => hv q (List.mem_cons_of_mem _ hq)).1
    simp only [List.map_cons, List.sum_cons]
    constructor
    · nlinarith
    · intro _; nlinarith

/-- A weighted mean with positive weights lies between the smallest and the largest of its values. -/
theorem weighted_between (l : List (ℝ × ℝ)) (hl : l ≠ []) (hw : ∀ p ∈ l, 0 < p.1) (m : ℝ)
    (hm : m * (l.map Prod.fst).sum = (l.map fun p => p.1 * p.2).sum) : (∃ p ∈ l, p.2 ≤ m) ∧ ∃ p ∈ l, m ≤ p.2 := by
  constructor
  · by_contra hc
    push Not at hc
    exact absurd hm ((weighted_lt l m hw hc).2 hl).ne
  · by_contra hc
    push Not at hc
    have := (weighted_lt (l.map fun p => (p.1, -p.2)) (-m) (by
      intro p hp
      obtain ⟨q, hq, rfl⟩ := List.mem_map.1 hp
      exact hw q hq) (by
      intro p hp
      obtain ⟨q, hq, rfl⟩ := List.mem_map.1 hp
      exact neg_lt_neg (hc q hq))).2 (by simpa using hl)
    simp only [List.map_map, Function.comp_def, mul_neg] at this
    have e1 : (l.map fun p => p.1).sum = (l.map Prod.fst).sum := rfl
    have e2 : (l.map fun p => -(p.1 * p.2)).sum = -(l.map fun p => p.1 * p.2).sum := by
      induction l with
      | nil => simp
      | cons p l ih => simp only [List.map_cons, List.sum_cons, List.sum_neg, neg_add] at *; simp [← List.sum_neg, List.map_map, Function.comp_def]
    rw [e1, e2] at this
    linarith

/-- A mean lies between the smallest and the largest of its values. -/
theorem isMean_between {xs : List (Option ℝ)} {m : ℝ} (h : Spec.IsMean xs m) :
    (∃ v, some v ∈ xs ∧ v ≤ m) ∧ ∃ v, some v ∈ xs ∧ m ≤ v := by
  obtain ⟨vs, rfl, hne, rfl⟩ := h
  have hl : (vs.length : ℝ) ≠ 0 := by simpa using hne
  obtain ⟨⟨p, hp, h1⟩, q, hq, h2⟩ := weighted_between (vs.map fun v => (1, v)) (by simpa using hne) (by
    intro p hp
    obtain ⟨v, -, rfl⟩ := List.mem_map.1 hp
    exact one_pos) (vs.sum / vs.length) (by
    simp only [List.map_map, Function.comp_def, one_mul, List.map_const', List.sum_replicate, nsmul_eq_mul, mul_one, List.map_id']
    field_simp)
  obtain ⟨v, hv, rfl⟩ := List.mem_map.1 hp
  obtain ⟨w, hw, rfl⟩ := List.mem_map.1 hq
  exact ⟨⟨v, List.mem_map.2 ⟨v, hv, rfl⟩, h1⟩, w, List.mem_map.2 ⟨w, hw, rfl⟩, h2⟩

theorem calculateEntropy_av {rm σ rstart h : ℝ} {loc : Bool} {av : System.EntropyAverage} {s s' : System}
    (he : System.calculateEntropy rm σ rstart h loc av s = (s', .ok ())) :
    ∃ s1 : System, (av = .plain → s'.atoms = s1.atoms.map s1.avgEntropy1) ∧
      ∀ ra M N, av = .switch (some ra) M N → s'.atoms = s1.atoms.map (s1.avgEntropySwitch1 ra M N) := by
  unfold System.calculateEntropy at he
  split at he
  · cases he
  · dsimp only at he
    rename_i l _
    generalize (if loc = true then some 0 else fdiv (l.length : ℝ) s.boxDet) = R at he
    refine ⟨{ s with atoms := entropyLoop σ rstart rm h 1 R s.atoms }, ?_, ?_⟩
    · rintro rfl
      dsimp only at he
      split_ifs at he
      · exact (congrArg (fun p : System × Except Fault Unit => p.1.atoms) he).symm
      · cases congrArg Prod.snd he
    · rintro ra M N rfl
      dsimp only at he
      split_ifs at he
      · exact (congrArg (fun p : System × Except Fault Unit => p.1.atoms) he).symm
      · cases congrArg Prod.snd he

/-- **C34, entropy**: `calculate_entropy(averaged=True)` assigns the mean of the entropy of the atom and
its neighbours (NaN if one of them is), which lies between the smallest and the largest of them. -/
theorem C34_entropy (s s' : System) (rm σ rstart h : ℝ) (loc : Bool) (he : System.calculateEntropy rm σ rstart h loc .plain s = (s', .ok ()))
    (i : ℕ) (a : Atom) (ha : s'.atoms[i]? = some a) (m : ℝ) :
    (a.avgEntropy = some m ↔ Spec.IsMean (a.entropy :: a.nbrs.map fun x => (s'.mem x.idx).entropy) m) ∧
    (a.avgEntropy = some m → (∃ v, some v ∈ a.entropy :: a.nbrs.map (fun x => (s'.mem x.idx).entropy) ∧ v ≤ m) ∧
      ∃ v, some v ∈ a.entropy :: a.nbrs.map (fun x => (s'.mem x.idx).entropy) ∧ m ≤ v) := by
  obtain ⟨s1, h1, -⟩ := calculateEntropy_av he
  have hs := h1 rfl
  have hm : ∀ k, (s'.mem k).entropy = (s1.mem k).entropy := by
    intro k
    unfold System.mem
    rw [hs, List.getD_eq_getElem?_getD, List.getD_eq_getElem?_getD, List.getElem?_map]
    cases s1.atoms[k]? <;> rfl
  have key : a.avgEntropy = some m ↔ Spec.IsMean (a.entropy :: a.nbrs.map fun x => (s'.mem x.idx).entropy) m := by
    rw [hs, List.getElem?_map] at ha
    cases ha0 : s1.atoms[i]? with
    | none => rw [ha0] at ha; cases ha
    | some a0 =>
      rw [ha0] at ha
      obtain rfl := Option.some.inj ha
      simp only [hm]
      rw [← isMean_iff, List.length_map]
      rfl
  exact ⟨key, fun h => isMean_between (key.1 h)⟩

/-- **C34, disorder**: the averaged disorder likewise. -/
theorem C34_disorder (s s' : System) (q : ℕ) (h : System.calculateDisorder true q s = (s', .ok ())) (i : ℕ) (a : Atom)
    (hi : s'.atoms[i]? = some a) (m : ℝ) :
    (a.avgDisorder = some m ↔ Spec.IsMean (a.disorder :: a.nbrs.map fun x => (s'.mem x.idx).disorder) m) ∧
    (a.avgDisorder = some m → (∃ v, some v ∈ a.disorder :: a.nbrs.map (fun x => (s'.mem x.idx).disorder) ∧ v ≤ m) ∧
      ∃ v, some v ∈ a.disorder :: a.nbrs.map (fun x => (s'.mem x.idx).disorder) ∧ m ≤ v) := by
  have key := (C35_partial s s' true q h i a hi).2.2 rfl m
  exact ⟨key, fun h => isMean_between (key.1 h)⟩

/-- The switching function `(1 - (d/ra)^N)/(1 - (d/ra)^M)`. -/
noncomputable def Spec.switching (ra : ℝ) (M N : ℕ) (d : ℝ) : ℝ := (1 - (d / ra) ^ N) / (1 - (d / ra) ^ M)

theorem switching_pos {ra d : ℝ} {M N : ℕ} (hra : 0 < ra) (hd : 0 < d) (hne : d ≠ ra) (hM : M ≠ 0) (hN : N ≠ 0) :
    switchingFn d ra M N = some (Spec.switching ra M N d) ∧ 0 < Spec.switching ra M N d := by
  have hx : 0 < d / ra := div_pos hd hra
  have hx1 : d / ra ≠ 1 := by rw [Ne, div_eq_one_iff_eq hra.ne']; exact hne
  have h0 : 1 - (d / ra) ^ M ≠ 0 ∧ 0 < (1 - (d / ra) ^ N) / (1 - (d / ra) ^ M) := by
    rcases lt_or_gt_of_ne hx1 with h | h
    · have h1 := pow_lt_one₀ hx.le h hM
      have h2 := pow_lt_one₀ hx.le h hN
      exact ⟨by linarith, div_pos (by linarith) (by linarith)⟩
    · have h1 := one_lt_pow₀ h hM
      have h2 := one_lt_pow₀ h hN
      exact ⟨by linarith, div_pos_of_neg_of_neg (by linarith) (by linarith)⟩
  refine ⟨?_, h0.2⟩
  unfold switchingFn fdiv
  rw [if_neg hra.ne']
  simp only [Option.bind_eq_bind, Option.bind_some]
  rw [if_neg h0.1]
  rfl

theorem zip_fst (w : Nb → ℝ) (l : List Nb) (es : List ℝ) (h : es.length = l.length) :
    ((List.zipWith (fun (x : Nb) v => (w x, v)) l es).map Prod.fst) = l.map w := by
  induction l generalizing es with
  | nil => simp
  | cons x l ih =>
    cases es with
    | nil => simp at h
    | cons v es =>
      simp only [List.zipWith_cons_cons, List.map_cons]
      rw [ih es (by simpa using h)]

/-- **C34, switching function**: `calculate_entropy(averaged=True, switching_function=True, ra=ra)` assigns
the mean of the entropies of the atom (weight 1) and its neighbours (weight given by the switching
function), which lies between the smallest and the largest of them, provided no neighbour is exactly
at the distance `ra`. -/
theorem C34_switch (s s' : System) (rm σ rstart h ra : ℝ) (M N : ℕ) (loc : Bool)
    (he : System.calculateEntropy rm σ rstart h loc (.switch (some ra) M N) s = (s', .ok ()))
    (i : ℕ) (a : Atom) (ha : s'.atoms[i]? = some a) (hra : 0 < ra) (hM : M ≠ 0) (hN : N ≠ 0)
    (hd : ∀ x ∈ a.nbrs, 0 < x.dist ∧ x.dist ≠ ra) (m : ℝ) (hm : a.avgEntropy = some m) :
    ∃ (e : ℝ) (es : List ℝ), a.entropy = some e ∧ a.nbrs.map (fun x => (s'.mem x.idx).entropy) = es.map some ∧
      m = (e + (List.zipWith (fun (x : Nb) v => Spec.switching ra M N x.dist * v) a.nbrs es).sum) /
        (1 + (a.nbrs.map fun x => Spec.switching ra M N x.dist).sum) ∧
      (∃ v ∈ e :: es, v ≤ m) ∧ ∃ v ∈ e :: es, m ≤ v := by
  obtain ⟨s1, -, h1⟩ := calculateEntropy_av he
  have hs := h1 ra M N rfl
  have hmem : ∀ k, (s'.mem k).entropy = (s1.mem k).entropy := by
    intro k
    unfold System.mem
    rw [hs, List.getD_eq_getElem?_getD, List.getD_eq_getElem?_getD, List.getElem?_map]
    cases s1.atoms[k]? <;> rfl
  rw [hs, List.getElem?_map] at ha
  cases ha0 : s1.atoms[i]? with
  | none => rw [ha0] at ha; cases ha
  | some a0 =>
    rw [ha0] at ha
    obtain rfl := Option.some.inj ha
    simp only [hmem]
    change ∀ x ∈ a0.nbrs, 0 < x.dist ∧ x.dist ≠ ra at hd
    change (do
      let frijsum ← (a0.nbrs.map fun x => switchingFn x.dist ra M N).foldl nanAdd (some 0)
      let entfrijsum ← (a0.nbrs.map fun x => do
        let e ← (s1.mem x.idx).entropy
        let f ← switchingFn x.dist ra M N
        return e * f).foldl nanAdd (some 0)
      let e ← a0.entropy
      fdiv (entfrijsum + e) (frijsum + 1)) = some m at hm
    change ∃ (e : ℝ) (es : List ℝ), a0.entropy = some e ∧ a0.nbrs.map (fun x => (s1.mem x.idx).entropy) = es.map some ∧
      m = (e + (List.zipWith (fun (x : Nb) v => Spec.switching ra M N x.dist * v) a0.nbrs es).sum) /
        (1 + (a0.nbrs.map fun x => Spec.switching ra M N x.dist).sum) ∧ _
    have e1 : (a0.nbrs.map fun x => switchingFn x.dist ra M N) = (a0.nbrs.map fun x => Spec.switching ra M N x.dist).map some := by
      rw [List.map_map]
      exact List.map_congr_left fun x hx => (switching_pos hra (hd x hx).1 (hd x hx).2 hM hN).1
    have e2 : (a0.nbrs.map fun x => (do
        let e ← (s1.mem x.idx).entropy
        let f ← switchingFn x.dist ra M N
        return e * f : Option ℝ)) = a0.nbrs.map fun x => (s1.mem x.idx).entropy.map fun e => e * Spec.switching ra M N x.dist := by
      refine List.map_congr_left fun x hx => ?_
      rw [(switching_pos hra (hd x hx).1 (hd x hx).2 hM hN).1]
      cases (s1.mem x.idx).entropy <;> rfl
    rw [e1, e2, foldl_nanAdd_some, zero_add] at hm
    simp only [Option.bind_eq_bind, Option.bind_some] at hm
    rcases foldl_nanAdd (a0.nbrs.map fun x => (s1.mem x.idx).entropy.map fun e => e * Spec.switching ra M N x.dist) 0 with ⟨vs, h2, h3⟩ | ⟨-, h3⟩
    · rw [h3, zero_add] at hm
      cases hent : a0.entropy with
      | none => rw [hent] at hm; cases hm
      | some e =>
        rw [hent] at hm
        simp only [Option.bind_some] at hm
        obtain ⟨es, hes⟩ : ∃ es : List ℝ, a0.nbrs.map (fun x => (s1.mem x.idx).entropy) = es.map some := by
          have hsome : ∀ x ∈ a0.nbrs, ∃ v, (s1.mem x.idx).entropy = some v := by
            intro x hx
            have : (s1.mem x.idx).entropy.map (fun e => e * Spec.switching ra M N x.dist) ∈ vs.map some := by
              rw [← h2]
              exact List.mem_map.2 ⟨x, hx, rfl⟩
            obtain ⟨v, -, hv⟩ := List.mem_map.1 this
            cases h : (s1.mem x.idx).entropy with
            | none => rw [h] at hv; cases hv
            | some w => exact ⟨w, rfl⟩
          refine ⟨a0.nbrs.map fun x => (s1.mem x.idx).entropy.getD 0, ?_⟩
          rw [List.map_map]
          refine List.map_congr_left fun x hx => ?_
          obtain ⟨v, hv⟩ := hsome x hx
          simp [hv]
        have hvs : vs.sum = (List.zipWith (fun (x : Nb) v => Spec.switching ra M N x.dist * v) a0.nbrs es).sum := by
          congr 1
          refine List.map_injective_iff.2 (Option.some_injective ℝ) ?_
          rw [← h2]
          clear h2 h3 hm e1 e2 hent
          generalize a0.nbrs = l at *
          induction l generalizing es with
          | nil => simp
          | cons x l ih =>
            cases es with
            | nil => simp at hes
            | cons v es =>
              simp only [List.map_cons, List.cons.injEq] at hes
              simp only [List.map_cons, List.zipWith_cons_cons]
              rw [← ih es (fun y hy => hd y (List.mem_cons_of_mem _ hy)) hes.2, hes.1]
              simp [mul_comm]
        have hlen : es.length = a0.nbrs.length := by simpa using (congrArg List.length hes).symm
        set L : List (ℝ × ℝ) := (1, e) :: List.zipWith (fun (x : Nb) v => (Spec.switching ra M N x.dist, v)) a0.nbrs es with hL
        have hL1 : (L.map Prod.fst).sum = 1 + (a0.nbrs.map fun x => Spec.switching ra M N x.dist).sum := by
          rw [hL, List.map_cons, List.sum_cons, zip_fst _ _ _ hlen]
        have hL2 : (L.map fun p => p.1 * p.2).sum = e + (List.zipWith (fun (x : Nb) v => Spec.switching ra M N x.dist * v) a0.nbrs es).sum := by
          rw [hL, List.map_cons, List.sum_cons, List.map_zipWith, one_mul]
        have hLp : ∀ p ∈ L, 0 < p.1 ∧ p.2 ∈ e :: es := by
          intro p hp
          rcases List.mem_cons.1 hp with rfl | hp
          · exact ⟨one_pos, List.mem_cons_self⟩
          · rw [← List.map_uncurry_zip_eq_zipWith] at hp
            obtain ⟨⟨x, v⟩, hq, rfl⟩ := List.mem_map.1 hp
            obtain ⟨h4, h5⟩ := List.of_mem_zip hq
            exact ⟨(switching_pos hra (hd x h4).1 (hd x h4).2 hM hN).2, List.mem_cons_of_mem _ h5⟩
        have hW : 0 < 1 + (a0.nbrs.map fun x => Spec.switching ra M N x.dist).sum := by
          have : 0 ≤ (a0.nbrs.map fun x => Spec.switching ra M N x.dist).sum := List.sum_nonneg (by
            intro w hw
            obtain ⟨x, hx, rfl⟩ := List.mem_map.1 hw
            exact (switching_pos hra (hd x hx).1 (hd x hx).2 hM hN).2.le)
          linarith
        have hm' : m = (e + (List.zipWith (fun (x : Nb) v => Spec.switching ra M N x.dist * v) a0.nbrs es).sum) /
            (1 + (a0.nbrs.map fun x => Spec.switching ra M N x.dist).sum) := by
          rw [hvs, fdiv, if_neg (by linarith), Option.some.injEq] at hm
          rw [← hm, add_comm, add_comm _ (1 : ℝ)]
        refine ⟨e, es, rfl, hes, hm', ?_⟩
        obtain ⟨⟨p, hp, h5⟩, q, hq, h6⟩ := weighted_between L (by simp [hL]) (fun p hp => (hLp p hp).1) m (by
          rw [hL1, hL2, hm', div_mul_cancel₀ _ hW.ne'])
        exact ⟨⟨p.2, (hLp p hp).2, h5⟩, q.2, (hLp q hq).2, h6⟩
    · rw [h3] at hm
      cases hm

/-- **C34, the excluded case**: a neighbour at exactly the distance `ra` makes the average NaN (`0/0`),
although the limit of the switching function there is `N/M`. -/
theorem C34_switch_nan (s s' : System) (rm σ rstart h ra : ℝ) (M N : ℕ) (loc : Bool)
    (he : System.calculateEntropy rm σ rstart h loc (.switch (some ra) M N) s = (s', .ok ()))
    (i : ℕ) (a : Atom) (ha : s'.atoms[i]? = some a) (x : Nb) (hx : x ∈ a.nbrs) (hd : x.dist = ra) : a.avgEntropy = none := by
  obtain ⟨s1, -, h1⟩ := calculateEntropy_av he
  have hs := h1 ra M N rfl
  rw [hs, List.getElem?_map] at ha
  cases ha0 : s1.atoms[i]? with
  | none => rw [ha0] at ha; cases ha
  | some a0 =>
    rw [ha0] at ha
    obtain rfl := Option.some.inj ha
    change x ∈ a0.nbrs at hx
    have hsw : switchingFn x.dist ra M N = none := by
      unfold switchingFn fdiv
      rw [hd]
      by_cases h0 : ra = 0
      · rw [if_pos h0]; rfl
      · rw [if_neg h0, div_self h0]
        simp
    have : (a0.nbrs.map fun x => switchingFn x.dist ra M N).foldl nanAdd (some 0) = none := by
      rcases foldl_nanAdd (a0.nbrs.map fun x => switchingFn x.dist ra M N) 0 with ⟨vs, h2, -⟩ | ⟨-, h3⟩
      · have hmem : (none : Option ℝ) ∈ vs.map some := by
          rw [← h2, ← hsw]
          exact List.mem_map.2 ⟨x, hx, rfl⟩
        simp at hmem
      · exact h3
    change (do
      let frijsum ← (a0.nbrs.map fun x => switchingFn x.dist ra M N).foldl nanAdd (some 0)
      let entfrijsum ← (a0.nbrs.map fun x => do
        let e ← (s1.mem x.idx).entropy
        let f ← switchingFn x.dist ra M N
        return e * f).foldl nanAdd (some 0)
      let e ← a0.entropy
      fdiv (entfrijsum + e) (frijsum + 1)) = none
    rw [this]
    rfl

theorem densityPair_plain (av : System.EntropyAverage) (hav : av = .plain ∨ av = .switch (some 3) 12 6) : ∃ s' a b e0 e1,
    System.calculateEntropy 2 1 1 1 true av (densityPair [⟨1, 1, 1, ⟨-1, 0, 0⟩⟩]) = (s', .ok ()) ∧ s'.atoms = [a, b] ∧
    a.entropy = some e0 ∧ b.entropy = some e1 ∧ b.nbrs = [⟨0, 1, 1, ⟨1, 0, 0⟩⟩] := by
  obtain ⟨s', a, b, hrun, hat, hnb⟩ : ∃ s' a b, System.calculateEntropy 2 1 1 1 true av (densityPair [⟨1, 1, 1, ⟨-1, 0, 0⟩⟩]) = (s', .ok ()) ∧
      s'.atoms = [a, b] ∧ b.nbrs = [⟨0, 1, 1, ⟨1, 0, 0⟩⟩] := by
    unfold System.calculateEntropy
    rw [getAtoms_inv (densityPair_inv _)]
    have hr : ∀ R, ({ densityPair [⟨1, 1, 1, ⟨-1, 0, 0⟩⟩] with
        atoms := entropyLoop 1 1 2 1 1 R (densityPair [⟨1, 1, 1, ⟨-1, 0, 0⟩⟩]).atoms } : System).NbrsInRange := by
      intro R a ha x hx
      dsimp only at ha ⊢
      rw [entropyLoop_length]
      obtain ⟨k, hk, rfl⟩ := List.getElem_of_mem ha
      rw [entropyLoop_length] at hk
      have hk : k < 2 := hk
      interval_cases k
      · simp only [entropyLoop, densityPair, List.getElem_cons_zero, List.mem_singleton] at hx
        subst hx
        exact Nat.lt_succ_self 1
      · simp only [entropyLoop, densityPair, List.getElem_cons_succ, List.getElem_cons_zero, List.mem_singleton] at hx
        subst hx
        exact Nat.succ_pos 1
    rcases hav with rfl | rfl
    · dsimp only
      rw [if_pos (hr _)]
      exact ⟨_, _, _, rfl, rfl, rfl⟩
    · dsimp only
      rw [if_pos (hr _)]
      exact ⟨_, _, _, rfl, rfl, rfl⟩
  have hfl : ⌊((2 : ℝ) - 1) / 1⌋₊ = 1 := by norm_num
  have e0 := (C32_partial _ s' _ (densityPair_inv _) 2 1 1 1 av _ hrun (by norm_num) (by norm_num) (by norm_num) _ rfl 2 rfl (by norm_num)
    (by simp) 0 _ a rfl (by rw [hat]; rfl) (by simp)).1 hfl.ge
  have e1 := (C32_partial _ s' _ (densityPair_inv _) 2 1 1 1 av _ hrun (by norm_num) (by norm_num) (by norm_num) _ rfl 2 rfl (by norm_num)
    (by simp) 1 _ b rfl (by rw [hat]; rfl) (by simp)).1 hfl.ge
  exact ⟨s', a, b, _, _, hrun, hat, e0, e1, hnb⟩

/-- Both atoms of a pair have an entropy and so an averaged one: the hypotheses of `C32_partial` and
`C34_entropy` can be met. -/
example : ∃ s' a m, System.calculateEntropy 2 1 1 1 true .plain (densityPair [⟨1, 1, 1, ⟨-1, 0, 0⟩⟩]) = (s', .ok ()) ∧
    s'.atoms[1]? = some a ∧ a.avgEntropy = some m := by
  obtain ⟨s', a, b, e0, e1, hrun, hat, ha, hb, hnb⟩ := densityPair_plain .plain (.inl rfl)
  have hb1 : s'.atoms[1]? = some b := by rw [hat]; rfl
  refine ⟨s', b, (e1 + e0) / 2, hrun, hb1, ((C34_entropy _ s' 2 1 1 1 true hrun 1 b hb1 _).1).2 ⟨[e1, e0], ?_, by simp, by norm_num⟩⟩
  rw [hb, hnb]
  simp [System.mem, hat, ha]

/-- The hypotheses of `C34_switch` can be met. -/
example : ∃ s' a m, System.calculateEntropy 2 1 1 1 true (.switch (some 3) 12 6) (densityPair [⟨1, 1, 1, ⟨-1, 0, 0⟩⟩]) = (s', .ok ()) ∧
    s'.atoms[1]? = some a ∧ a.avgEntropy = some m ∧ ∀ x ∈ a.nbrs, 0 < x.dist ∧ x.dist ≠ 3 := by
  obtain ⟨s', a, b, e0, e1, hrun, hat, ha, hb, hnb⟩ := densityPair_plain (.switch (some 3) 12 6) (.inr rfl)
  have hb1 : s'.atoms[1]? = some b := by rw [hat]; rfl
  obtain ⟨s1, -, h1⟩ := calculateEntropy_av hrun
  have hs := h1 3 12 6 rfl
  have hbe : ∃ m, b.avgEntropy = some m := by
    rw [hat] at hs
    obtain ⟨a1, b1, hs1⟩ : ∃ a1 b1, s1.atoms = [a1, b1] := by
      have hl := congrArg List.length hs
      rw [List.length_map] at hl
      match h : s1.atoms with
      | [a1, b1] => exact ⟨a1, b1, rfl⟩
      | [] => rw [h] at hl; simp at hl
      | [_] => rw [h] at hl; simp at hl
      | _ :: _ :: _ :: _ => rw [h] at hl; simp at hl
    have hs' := hs
    rw [hs1] at hs'
    simp only [List.map_cons, List.map_nil, List.cons.injEq, and_true] at hs'
    have ea : a1.entropy = some e0 := by rw [← ha, hs'.1]; rfl
    have eb : b1.entropy = some e1 := by rw [← hb, hs'.2]; rfl
    have en : b1.nbrs = [⟨0, 1, 1, ⟨1, 0, 0⟩⟩] := by rw [← hnb, hs'.2]; rfl
    have hsw := (switching_pos (ra := 3) (d := 1) (M := 12) (N := 6) (by norm_num) (by norm_num) (by norm_num) (by norm_num) (by norm_num))
    rw [hs'.2]
    have hm0 : s1.mem 0 = a1 := by simp [System.mem, hs1]
    have hne : Spec.switching 3 12 6 1 + 1 ≠ 0 := by linarith [hsw.2]
    refine ⟨(e0 * Spec.switching 3 12 6 1 + e1) / (Spec.switching 3 12 6 1 + 1), ?_⟩
    unfold System.avgEntropySwitch1
    dsimp only
    rw [en]
    simp only [List.map_cons, List.map_nil, List.foldl_cons, List.foldl_nil, hsw.1, hm0, ea, eb, nanAdd, Option.bind_eq_bind, Option.bind_some,
      pure, zero_add, fdiv, if_neg hne]
  obtain ⟨m, hm⟩ := hbe
  refine ⟨s', b, m, hrun, hb1, hm, ?_⟩
  rw [hnb]
  simp

end Pyscal
