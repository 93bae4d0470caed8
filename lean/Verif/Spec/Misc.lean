import Verif.Model.Misc

/-! Independent specifications for C82, C83 and C84. -/

namespace Pyscal.Spec

/-- `r` is `x` rounded to `p` decimals: a multiple of `10 ^ (-p)` at most half a unit away. -/
def IsRounded (p : ℤ) (x r : ℝ) : Prop := (∃ n : ℤ, r * (10 : ℝ) ^ p = n) ∧ |r - x| * (10 : ℝ) ^ p ≤ 1 / 2

open Classical in
/-- The atom `a` of `l` has exactly four neighbours at the shortest distance, within the relative tolerance `prec`.  A neighbour listed
several times counts once. -/
def FourNearest (s : System) (l : List Atom) (prec : ℝ) (a : Atom) : Prop :=
  ∃ m, IsLeast {d | ∃ x ∈ a.nbrs, ∃ b, l[x.idx]? = some b ∧ d = s.getDistance a b} m ∧
    Set.ncard {j | (∃ x ∈ a.nbrs, x.idx = j) ∧ ∃ b, l[j]? = some b ∧ s.getDistance a b ≤ m * (1 + prec)} = 4

/-- The atoms for which the analysis reports a tetrahedral position: four faces with four edges, four nearest neighbours. -/
def TetrahedralSite (s : System) (l : List Atom) (prec : ℝ) (a : Atom) : Prop :=
  a.vorovector[1]? = some 4 ∧ FourNearest s l prec a

/-- The coordinates `f` of a point with respect to the box vectors. -/
def IsDirect (b : Mat3) (p f : V3) : Prop :=
  p.x = f.x * b.r0.x + f.y * b.r1.x + f.z * b.r2.x ∧ p.y = f.x * b.r0.y + f.y * b.r1.y + f.z * b.r2.y ∧
  p.z = f.x * b.r0.z + f.y * b.r1.z + f.z * b.r2.z

end Pyscal.Spec
