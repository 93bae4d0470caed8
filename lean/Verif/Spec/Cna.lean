import Verif.Model.System
import Mathlib.Data.Finset.Prod
import Mathlib.Data.Finset.Lattice.Fold
import Mathlib.Data.Finset.Card
import Mathlib.Order.Bounds.Defs

/-! Independent specification of common neighbour analysis. -/

namespace Pyscal.Spec

open Classical in
/-- For an atom with neighbours `nb` (atom numbers) and a relation `R` "within the cutoff":
the other neighbours (by position in the list) within the cutoff of neighbour `k`. -/
noncomputable def commonWith (R : ℕ → ℕ → Prop) (nb : List ℕ) (k : ℕ) : Finset ℕ :=
  (Finset.range nb.length).filter fun j => j ≠ k ∧ R (nb.getD k 0) (nb.getD j 0)

open Classical in
/-- The bonds of common neighbour `j` to the other common neighbours of `k`. -/
noncomputable def bondsOf (R : ℕ → ℕ → Prop) (nb : List ℕ) (k j : ℕ) : ℕ :=
  ((commonWith R nb k).filter fun m => m ≠ j ∧ R (nb.getD j 0) (nb.getD m 0)).card

open Classical in
/-- The number of bonds (unordered pairs within the cutoff) among the common neighbours of `k`. -/
noncomputable def bondPairs (R : ℕ → ℕ → Prop) (nb : List ℕ) (k : ℕ) : ℕ :=
  (((commonWith R nb k) ×ˢ (commonWith R nb k)).filter fun p => p.1 < p.2 ∧ R (nb.getD p.1 0) (nb.getD p.2 0)).card

/-- The signature of neighbour `k`: common neighbours, bonds among them, the largest and the smallest
number of bonds of a common neighbour. -/
def IsSignature (R : ℕ → ℕ → Prop) (nb : List ℕ) (k : ℕ) (x : ℕ × ℕ × ℕ × ℕ) : Prop :=
  x.1 = (commonWith R nb k).card ∧ x.2.1 = bondPairs R nb k ∧
  IsGreatest {n | ∃ j ∈ commonWith R nb k, n = bondsOf R nb k j} x.2.2.1 ∧
  IsLeast {n | ∃ j ∈ commonWith R nb k, n = bondsOf R nb k j} x.2.2.2

/-- Atoms `m` and `n` of `s` are within the distance `c`. -/
def Within (s : System) (c : ℝ) (m n : ℕ) : Prop :=
  ∃ p q, s.atoms[m]? = some p ∧ s.atoms[n]? = some q ∧ s.getDistance p q ≤ c

/-- `sig` lists, for every neighbour in `nb`, its signature for the cutoff `c`.  The code deviates from
`IsSignature` in one case, given here: when no common neighbour has fewer than eight bonds (in
particular when there is no common neighbour) the last number is 8; without common neighbours the
third one is 0. -/
def Signatures (s : System) (c : ℝ) (nb : List Nb) (sig : List (ℕ × ℕ × ℕ × ℕ)) : Prop :=
  sig.length = nb.length ∧ ∀ k x, sig[k]? = some x →
    IsSignature (Within s c) (nb.map Nb.idx) k x ∨
    (commonWith (Within s c) (nb.map Nb.idx) k = ∅ ∧ x = (0, 0, 0, 8)) ∨
    (∃ n, IsSignature (Within s c) (nb.map Nb.idx) k (x.1, x.2.1, x.2.2.1, n) ∧ 8 < n ∧ x.2.2.2 = 8)

/-- The cutoffs of the two stages, for the list `N` of the 14 nearest neighbours: multiples of the
lattice constant if one is given, otherwise of local mean distances. -/
noncomputable def CnaCutoffs (lc : Option ℝ) (N : List Nb) (c1 c2 : ℝ) : Prop :=
  match lc with
  | some a => c1 = 0.854 * a ∧ c2 = 1.207 * a
  | none => c1 = 1.207 * (((N.take 12).map Nb.dist).sum / 12) ∧
      c2 = 1.207 * ((1.1547 * ((N.take 8).map Nb.dist).sum + ((N.drop 8).map Nb.dist).sum) / 14)

/-- The structure code for the signatures of the first stage and of the second one: 1 fcc, 2 hcp, 4
ico, 3 bcc, 0 others. -/
def Classified (sig1 sig2 : List (ℕ × ℕ × ℕ × ℕ)) (code : ℤ) : Prop :=
  (code = 1 ↔ ∀ x ∈ sig1, x = (4, 2, 1, 1)) ∧
  (code = 2 ↔ sig1.count (4, 2, 1, 1) = 6 ∧ sig1.count (4, 2, 2, 0) = 6) ∧
  (code = 4 ↔ ∀ x ∈ sig1, x = (5, 5, 2, 2)) ∧
  (code = 3 ↔ code ≠ 1 ∧ code ≠ 2 ∧ code ≠ 4 ∧ sig2.count (4, 4, 2, 2) = 6 ∧ sig2.count (6, 6, 2, 2) = 8) ∧
  (code = 0 ∨ code = 1 ∨ code = 2 ∨ code = 3 ∨ code = 4)

/-- Every atom has at least `n` other atoms nearer than `R`. -/
def EnoughWithin (s : System) (R : ℝ) (n : ℕ) : Prop :=
  ∀ k a, s.atoms[k]? = some a → ∃ J : Finset ℕ, n ≤ J.card ∧
    ∀ j ∈ J, j ≠ k ∧ ∃ b, s.atoms[j]? = some b ∧ s.getDistance b a < R

/-- Atom `y` of `s` is labelled cubic (5) or hexagonal (8) diamond. -/
def IsDiamond (s : System) (y : ℕ) : Prop := ∃ b, s.atoms[y]? = some b ∧ (b.struct = 5 ∨ b.struct = 8)

/-- The first diamond atom in the list `L` of atom numbers exists and is labelled `code`. -/
def FirstDiamondIs (s : System) (L : List ℕ) (code : ℤ) : Prop :=
  ∃ l1 n l2, L = l1 ++ n :: l2 ∧ (∀ y ∈ l1, ¬ IsDiamond s y) ∧ ∃ b, s.atoms[n]? = some b ∧ b.struct = code

/-- The labels of an atom `k` and the diamond atoms around it: `first` are its four nearest atoms,
`second` the nearest ones of those. -/
def DiamondShells (s : System) (k : ℕ) (first second : List ℕ) (code : ℤ) : Prop :=
  (code = 6 ↔ ¬ IsDiamond s k ∧ FirstDiamondIs s first 5) ∧
  (code = 9 ↔ ¬ IsDiamond s k ∧ FirstDiamondIs s first 8) ∧
  (code = 7 ↔ ¬ IsDiamond s k ∧ (∀ y ∈ first, ¬ IsDiamond s y) ∧ FirstDiamondIs s second 5) ∧
  (code = 10 ↔ ¬ IsDiamond s k ∧ (∀ y ∈ first, ¬ IsDiamond s y) ∧ FirstDiamondIs s second 8)

end Pyscal.Spec
