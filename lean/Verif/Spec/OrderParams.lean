import Verif.Model.System
import Mathlib.Algebra.BigOperators.Group.Finset.Basic
import Mathlib.Data.Finset.Prod
import Mathlib.Data.Finset.Card

/-! Independent specifications for the order parameters: sums of smallest values, pair counts. -/

namespace Pyscal.Spec

open Finset

/-- The unordered pairs of numbers below `n`. -/
def pairSet (n : ℕ) : Finset (ℕ × ℕ) := (range n ×ˢ range n).filter fun p => p.1 < p.2

/-- `x` is the sum of the `m` smallest of the values `f p`, `p ∈ S`. -/
def IsSumOfSmallest {ι : Type} (S : Finset ι) (f : ι → ℝ) (m : ℕ) (x : ℝ) : Prop :=
  ∃ T ⊆ S, T.card = m ∧ (∀ p ∈ T, ∀ q ∈ S, q ∉ T → f p ≤ f q) ∧ x = ∑ p ∈ T, f p

/-- The vector of the `i`-th neighbour. -/
def nbVector (l : List Nb) (i : ℕ) : V3 := match l[i]? with
  | some x => x.vec
  | none => 0

/-- The neighbours come in opposite pairs: `f` sends each to one that is not itself and has the
opposite vector. -/
def OppositePairs (l : List Nb) : Prop :=
  ∃ f : ℕ → ℕ, ∀ i < l.length, f i < l.length ∧ f i ≠ i ∧ f (f i) = i ∧
    nbVector l (f i) = -nbVector l i

/-- The nine intervals of the chi parameters (Ackland and Jones, as documented). -/
def ChiBin : ℕ → ℝ → Prop
  | 0, x => -1 ≤ x ∧ x < -0.945
  | 1, x => -0.945 ≤ x ∧ x < -0.915
  | 2, x => -0.915 ≤ x ∧ x < -0.755
  | 3, x => -0.755 ≤ x ∧ x < -0.705
  | 4, x => -0.705 ≤ x ∧ x < -0.195
  | 5, x => -0.195 ≤ x ∧ x < 0.195
  | 6, x => 0.195 ≤ x ∧ x < 0.245
  | 7, x => 0.245 ≤ x ∧ x < 0.795
  | 8, x => 0.795 ≤ x ∧ x ≤ 1
  | _, _ => False

/-- The `i`-th neighbour of an atom, taken from a list of atoms. -/
def nbAtom (atoms : List Atom) (a : Atom) (i : ℕ) : Atom := atoms.getD ((a.nbrs.map Nb.idx).getD i 0) default

/-- `t` lists `m` different numbers below `n` such that none of the other numbers has a smaller value. -/
structure FirstOf (n : ℕ) (d : ℕ → ℝ) (m : ℕ) (t : List ℕ) : Prop where
  length : t.length = m
  nodup : t.Nodup
  lt : ∀ i ∈ t, i < n
  smallest : ∀ i ∈ t, ∀ j < n, j ∉ t → d i ≤ d j

end Pyscal.Spec
