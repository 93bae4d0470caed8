import Verif.Spec.Entropy
import Verif.Model.OrderParams
import Verif.Lemmas.Solids
import Mathlib.Tactic.Linarith
import Mathlib.Tactic.FieldSimp
import Mathlib.Tactic.Positivity
import Mathlib.Algebra.BigOperators.Ring.Finset

/-! Lemmas about the entropy parameter. -/

namespace Pyscal

/-- The determinant by cross and dot product (as the code computes it) is the determinant of the reported box. -/
theorem boxDet_eq (s : System) : s.boxDet = s.getBox.det := by
  unfold System.boxDet Mat3.det V3.dot
  dsimp only
  ring

open Finset

theorem pairCorrelation_pos {ds : List ℝ} {σ ρ r : ℝ} (hd : ds ≠ []) (hσ : σ ≠ 0) (hρ : 0 < ρ) (hr : r ≠ 0) :
    0 < Spec.pairCorrelation ds σ ρ r := by
  unfold Spec.pairCorrelation
  have hP := PI_pos
  refine div_pos ?_ ?_
  · refine List.sum_pos _ ?_ (by simpa using hd)
    intro x hx
    obtain ⟨d, -, rfl⟩ := List.mem_map.1 hx
    exact Real.exp_pos _
  · positivity

theorem gmr_eq (a : Atom) {σ ρ r : ℝ} (hσ : σ ≠ 0) (hρ : ρ ≠ 0) (hr : r ≠ 0) :
    gmr a σ ρ r = some (Spec.pairCorrelation (a.nbrs.map Nb.dist) σ ρ r) := by
  have hP := PI_pos
  have h1 : 4 * PI * ρ * r * r ≠ 0 := by positivity
  have h2 : Real.sqrt (2 * PI * (σ * σ)) ≠ 0 := by
    have : 0 < 2 * PI * (σ * σ) := by have := mul_self_pos.2 hσ; positivity
    positivity
  unfold gmr Spec.pairCorrelation fdiv
  dsimp only
  rw [if_neg h1, if_neg h2]
  simp only [Option.bind_eq_bind, Option.bind_some, pure, List.map_map, Function.comp_def]
  congr 1
  have e1 : (fun x : Nb => Real.exp (-1 * ((r - x.dist) * (r - x.dist)) / (2 * (σ * σ)))) =
      fun x : Nb => Real.exp (-((r - x.dist) ^ 2 / (2 * σ ^ 2))) := by
    funext x
    congr 1
    ring
  rw [e1, show σ ^ 2 = σ * σ by ring]
  field_simp

theorem entropyIntegrand_eq (a : Atom) {σ ρ r : ℝ} (hn : a.nbrs ≠ []) (hσ : σ ≠ 0) (hρ : 0 < ρ) (hr : r ≠ 0) :
    entropyIntegrand a σ ρ r = some (Spec.entropyIntegrand (a.nbrs.map Nb.dist) σ ρ r) := by
  unfold entropyIntegrand
  rw [gmr_eq a hσ hρ.ne' hr]
  simp only [Option.bind_eq_bind, Option.bind_some]
  rw [if_pos (pairCorrelation_pos (by simpa using hn) hσ hρ hr)]
  unfold Spec.entropyIntegrand
  congr 1
  ring

/-- `x ln x - x + 1` is positive unless `x = 1`. -/
theorem xlogx_pos {x : ℝ} (hx : 0 < x) (h1 : x ≠ 1) : 0 < x * Real.log x - x + 1 := by
  have := Real.log_lt_sub_one_of_pos (inv_pos.2 hx) (by simpa using h1)
  rw [Real.log_inv] at this
  have h2 : x * x⁻¹ = 1 := mul_inv_cancel₀ hx.ne'
  nlinarith

theorem foldl_nanAdd_some (vs : List ℝ) (c : ℝ) : (vs.map some).foldl nanAdd (some c) = some (c + vs.sum) := by
  induction vs generalizing c with
  | nil => simp
  | cons v vs ih =>
    rw [List.map_cons, List.foldl_cons, List.sum_cons, ← add_assoc]
    exact ih (c + v)

theorem truncInt_nonneg {x : ℝ} (hx : 0 ≤ x) : truncInt x = ⌊x⌋₊ := by
  unfold truncInt
  rw [if_pos hx]
  exact (Int.natCast_floor_eq_floor hx).symm

theorem trapezoidRule_eq (f : ℝ → ℝ) (x h : ℝ) (n : ℕ) :
    Spec.trapezoidRule f x h (n + 2) = (h / 2) * (f x + 2 * ∑ j ∈ range n, f (x + ((j + 1 : ℕ) : ℝ) * h) + f (x + ((n + 2 : ℕ) : ℝ) * h)) +
      h * f (x + ((n + 1 : ℕ) : ℝ) * h) := by
  induction n with
  | zero =>
    simp only [Spec.trapezoidRule, sum_range_succ, range_zero, sum_empty]
    push_cast
    ring_nf
  | succ n ih =>
    unfold Spec.trapezoidRule at ih ⊢
    rw [sum_range_succ, ih, sum_range_succ]
    push_cast
    ring_nf

/-- The value of `trapezoid_integration` for at least two intervals. -/
theorem trapezoid_eq (a : Atom) {σ ρ rstart rstop h kb : ℝ} (hn : a.nbrs ≠ []) (hσ : σ ≠ 0) (hρ : 0 < ρ) (hs : 0 < rstart) (hh : 0 < h)
    (hr : rstart + 2 * h ≤ rstop) :
    trapezoid a σ ρ rstart rstop h kb = some (-ρ * kb *
      (Spec.trapezoidRule (Spec.entropyIntegrand (a.nbrs.map Nb.dist) σ ρ) rstart h ⌊(rstop - rstart) / h⌋₊ -
        h * Spec.entropyIntegrand (a.nbrs.map Nb.dist) σ ρ (rstart + ((⌊(rstop - rstart) / h⌋₊ : ℝ) - 1) * h))) := by
  have hq : 2 ≤ (rstop - rstart) / h := by rw [le_div_iff₀ hh]; linarith
  obtain ⟨n, hnn⟩ : ∃ n, ⌊(rstop - rstart) / h⌋₊ = n + 2 := ⟨⌊(rstop - rstart) / h⌋₊ - 2, by
    have : 2 ≤ ⌊(rstop - rstart) / h⌋₊ := Nat.le_floor (by exact_mod_cast hq)
    omega⟩
  have hpos : ∀ j : ℕ, rstart + (j : ℝ) * h ≠ 0 := fun j => by positivity
  unfold trapezoid
  dsimp only
  rw [truncInt_nonneg (by linarith), hnn, entropyIntegrand_eq a hn hσ hρ hs.ne']
  have e1 : (((n + 2 : ℕ) : ℤ) - 2).toNat = n := by omega
  have e2 : (((n + 2 : ℕ) : ℤ) : ℝ) = ((n + 2 : ℕ) : ℝ) := by push_cast; rfl
  rw [e1, e2, entropyIntegrand_eq a hn hσ hρ (hpos (n + 2))]
  have e3 : ((List.range n).map fun (i : ℕ) => entropyIntegrand a σ ρ (rstart + ((i + 1 : ℕ) : ℝ) * h)) =
      ((List.range n).map fun (i : ℕ) => Spec.entropyIntegrand (a.nbrs.map Nb.dist) σ ρ (rstart + ((i + 1 : ℕ) : ℝ) * h)).map some := by
    rw [List.map_map]
    refine List.map_congr_left fun i _ => ?_
    exact entropyIntegrand_eq a hn hσ hρ (hpos (i + 1))
  rw [e3, foldl_nanAdd_some]
  simp only [Option.bind_eq_bind, Option.bind_some, pure]
  rw [trapezoidRule_eq, zero_add, sum_map_range]
  congr 1
  rw [show (((n + 2 : ℕ) : ℝ) - 1) = ((n + 1 : ℕ) : ℝ) by push_cast; ring]
  ring

/-- With one interval the trapezoid rule is used as it is. -/
theorem trapezoid_one (a : Atom) {σ ρ rstart rstop h kb : ℝ} (hn : a.nbrs ≠ []) (hσ : σ ≠ 0) (hρ : 0 < ρ) (hs : 0 < rstart) (hh : 0 < h)
    (hf : ⌊(rstop - rstart) / h⌋₊ = 1) (hr : rstart ≤ rstop) :
    trapezoid a σ ρ rstart rstop h kb = some (-ρ * kb *
      Spec.trapezoidRule (Spec.entropyIntegrand (a.nbrs.map Nb.dist) σ ρ) rstart h 1) := by
  unfold trapezoid
  dsimp only
  rw [truncInt_nonneg (div_nonneg (by linarith) hh.le), hf, entropyIntegrand_eq a hn hσ hρ hs.ne']
  have e1 : (((1 : ℕ) : ℤ) - 2).toNat = 0 := rfl
  have e2 : (((1 : ℕ) : ℤ) : ℝ) = 1 := by push_cast; rfl
  rw [e1, e2, entropyIntegrand_eq a hn hσ hρ (by positivity)]
  simp only [Option.bind_eq_bind, Option.bind_some, pure, List.range_zero, List.map_nil, List.foldl_nil, Spec.trapezoidRule,
    sum_range_one]
  congr 1
  push_cast
  ring_nf

/-- Without neighbours, or with a zero density, the result is NaN. -/
theorem trapezoid_nan (a : Atom) (σ ρ rstart rstop h kb : ℝ) (hn : a.nbrs = [] ∨ ρ = 0) :
    trapezoid a σ ρ rstart rstop h kb = none := by
  have : ∀ r, entropyIntegrand a σ ρ r = none := by
    intro r
    unfold entropyIntegrand gmr fdiv
    dsimp only
    rcases hn with hn | hn
    · rw [hn]
      by_cases h1 : 4 * PI * ρ * r * r = 0
      · rw [if_pos h1]; rfl
      · rw [if_neg h1]
        by_cases h2 : Real.sqrt (2 * PI * (σ * σ)) = 0
        · rw [if_pos h2]; rfl
        · rw [if_neg h2]
          simp
    · rw [hn, if_pos (by ring)]
      rfl
  unfold trapezoid
  dsimp only
  rw [this]
  rfl

theorem entropyLoop_const (σ rstart rstop h kb : ℝ) (rho : Option ℝ) (hr : rho ≠ some 0) (l : List Atom) :
    entropyLoop σ rstart rstop h kb rho l =
      l.map fun a => { a with entropy := rho.bind fun ρ => trapezoid a σ ρ rstart rstop h kb } := by
  induction l with
  | nil => rfl
  | cons a l ih =>
    rw [entropyLoop, if_neg hr, List.map_cons, ih]

theorem entropyLoop_frame (σ rstart rstop h kb : ℝ) (l : List Atom) : ∀ (rho : Option ℝ) (i : ℕ) (a : Atom), l[i]? = some a →
    ∃ e, (entropyLoop σ rstart rstop h kb rho l)[i]? = some { a with entropy := e } := by
  induction l with
  | nil => intro _ i a h; simp at h
  | cons b l ih =>
    intro rho i a h
    cases i with
    | zero =>
      obtain rfl : b = a := by simpa using h
      exact ⟨_, rfl⟩
    | succ i =>
      rw [entropyLoop]
      exact ih _ i a (by simpa using h)

theorem entropyLoop_length (σ rstart rstop h kb : ℝ) (l : List Atom) : ∀ rho : Option ℝ,
    (entropyLoop σ rstart rstop h kb rho l).length = l.length := by
  induction l with
  | nil => intro _; rfl
  | cons a l ih => intro rho; rw [entropyLoop, List.length_cons, List.length_cons, ih]

open Classical in
/-- What `calculate_entropy` does to the atoms: the entropies are those of the loop, whatever the
averaging; nothing else than `entropy` and `avg_entropy` changes. -/
theorem calculateEntropy_atom {rm σ rstart h : ℝ} {loc : Bool} {av : System.EntropyAverage} {s s' : System} {r : Except Fault Unit} {reals : List Atom}
    (hg : s.getAtoms = .ok reals) (he : System.calculateEntropy rm σ rstart h loc av s = (s', r)) {i : ℕ} {a a' : Atom}
    (ha : s.atoms[i]? = some a) (ha' : s'.atoms[i]? = some a') :
    ∃ b, (entropyLoop σ rstart rm h 1 (if loc then some 0 else fdiv reals.length s.boxDet) s.atoms)[i]? = some b ∧
      a'.entropy = b.entropy ∧ ∃ x, a' = { b with avgEntropy := x } := by
  obtain ⟨e, hb⟩ := entropyLoop_frame σ rstart rm h 1 s.atoms (if loc then some 0 else fdiv reals.length s.boxDet) i a ha
  unfold System.calculateEntropy at he
  rw [hg] at he
  dsimp only at he
  refine ⟨_, hb, ?_⟩
  generalize (if loc then some 0 else fdiv reals.length s.boxDet) = R at he hb
  have key : s'.atoms = entropyLoop σ rstart rm h 1 R s.atoms ∨
      ∃ f : Atom → Atom, (∀ a, ∃ x, f a = { a with avgEntropy := x }) ∧
        s'.atoms = (entropyLoop σ rstart rm h 1 R s.atoms).map f := by
    cases av with
    | none => exact .inl (congrArg (fun p : System × Except Fault Unit => p.1.atoms) he).symm
    | plain =>
      dsimp only at he
      split_ifs at he
      · refine .inr ⟨_, ?_, (congrArg (fun p : System × Except Fault Unit => p.1.atoms) he).symm⟩
        exact fun a => ⟨_, rfl⟩
      · exact .inl (congrArg (fun p : System × Except Fault Unit => p.1.atoms) he).symm
    | switch ra M N =>
      cases ra with
      | none => exact .inl (congrArg (fun p : System × Except Fault Unit => p.1.atoms) he).symm
      | some ra =>
        dsimp only at he
        split_ifs at he
        · refine .inr ⟨_, ?_, (congrArg (fun p : System × Except Fault Unit => p.1.atoms) he).symm⟩
          exact fun a => ⟨_, rfl⟩
        · exact .inl (congrArg (fun p : System × Except Fault Unit => p.1.atoms) he).symm
  rcases key with k | ⟨f, hf, k⟩
  · rw [k, hb] at ha'
    obtain rfl := Option.some.inj ha'
    exact ⟨rfl, _, rfl⟩
  · rw [k, List.getElem?_map, hb] at ha'
    obtain rfl := Option.some.inj ha'
    obtain ⟨x, hx⟩ := hf { a with entropy := e }
    rw [hx]
    exact ⟨rfl, _, rfl⟩

end Pyscal
