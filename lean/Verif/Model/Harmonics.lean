import Verif.Model.Neighbors
import Mathlib.Analysis.SpecialFunctions.Trigonometric.Inverse
import Mathlib.Analysis.SpecialFunctions.Complex.Arg

/-!
Spherical harmonics and Steinhardt parameters: system.cpp 1304-1588, atom.cpp 198-315,
`calculate_q` and `get_qvals` (core.py 318-359, 774-825).
-/

namespace Pyscal

/-- The constant `PI` (atom.h 20): a decimal literal. -/
noncomputable def PI : ℝ := 3.141592653589793

/-- `dfactorial` (system.cpp 1304-1311). -/
noncomputable def dfactorial (l m : ℕ) : ℝ :=
  1 / (List.range (2 * m)).foldl (fun (fac : ℝ) (i : ℕ) => fac * ((l : ℝ) + m - i)) 1

/-- The loop `pmm *= -fact*somx2; fact += 2.0` run `n` times (system.cpp 1347-1354);
the result is `(pmm, fact)`. -/
noncomputable def pmmLoop (somx2 : ℝ) : ℕ → ℝ × ℝ
  | 0 => (1, 1)
  | n + 1 =>
    let p := pmmLoop somx2 n
    (p.1 * (-p.2 * somx2), p.2 + 2)

/-- The loop over `ll` (system.cpp 1364-1368) run `n` times from `ll = m + 2`; the state is
`(pmm, pmmp1)`, and `pll` is the last `pmmp1`. -/
noncomputable def pllLoop (m : ℕ) (x : ℝ) (pmm pmmp1 : ℝ) : ℕ → ℝ × ℝ
  | 0 => (pmm, pmmp1)
  | n + 1 =>
    let p := pllLoop m x pmm pmmp1 n
    let ll := m + 2 + n
    (p.2, (x * (2 * (ll : ℝ) - 1) * p.2 - ((ll : ℝ) + m - 1) * p.1) / ((ll : ℝ) - m))

/-- `PLM` (system.cpp 1340-1372), associated Legendre function for `0 ≤ m ≤ l`; other
combinations only print a message in the code and do not occur. -/
noncomputable def PLM (l m : ℕ) (x : ℝ) : ℝ :=
  let pmm := if m > 0 then (pmmLoop (Real.sqrt ((1 - x) * (1 + x))) m).1 else 1
  if l = m then pmm
  else
    let pmmp1 := x * (2 * (m : ℝ) + 1) * pmm
    if l = m + 1 then pmmp1
    else (pllLoop m x pmm pmmp1 (l - (m + 1))).2

/-- `YLM` (system.cpp 1381-1389): real and imaginary part. -/
noncomputable def YLM (l m : ℕ) (theta phi : ℝ) : ℝ × ℝ :=
  let p := PLM l m (Real.cos theta)
  let factor := ((2 * (l : ℝ) + 1) / (4 * PI)) * dfactorial l m
  (Real.sqrt factor * p * Real.cos (m * phi), Real.sqrt factor * p * Real.sin (m * phi))

/-- `QLM` (system.cpp 1392-1404).  For negative `m` both parts are multiplied by `(-1)^m`
(the imaginary part is not negated). -/
noncomputable def QLM (l : ℕ) (m : ℤ) (theta phi : ℝ) : ℝ × ℝ :=
  if m < 0 then
    let y := YLM l m.natAbs theta phi
    ((-1 : ℝ) ^ m * y.1, (-1 : ℝ) ^ m * y.2)
  else YLM l m.natAbs theta phi

/-- `theta = acos(z/r)` (system.cpp 1374-1378), for `r ≠ 0`. -/
noncomputable def V3.theta (v : V3) : ℝ := Real.arccos (v.z / v.norm)

/-- `phi = atan2(y, x)` (system.cpp 1374-1378): the argument of `x + i y`. -/
noncomputable def V3.phi (v : V3) : ℝ := Complex.arg ⟨v.x, v.y⟩

/-- The neighbours that are not skipped: `condition` equal to that of the atom
(system.cpp 1483, 1544).  An indeterminate `condition` (`none`) is compared like a value; after
a neighbour search it is always set. -/
def System.qNbrs (s : System) (a : Atom) : List Nb :=
  a.nbrs.filter fun x => (s.mem x.idx).condition = a.condition

/-- `realti`, `imgti` after the loop over neighbours (system.cpp 1479-1488). -/
noncomputable def qSum (l : ℕ) (mi : ℤ) (nbs : List Nb) : ℝ × ℝ :=
  nbs.foldl (fun acc x =>
    let y := QLM l mi x.vec.theta x.vec.phi
    (acc.1 + x.weight * y.1, acc.2 + x.weight * y.2)) (0, 0)

/-- `weightsum` (system.cpp 1478, 1487). -/
noncomputable def qWeight (nbs : List Nb) : ℝ := nbs.foldl (fun acc x => acc + x.weight) 0

open Classical in
/-- `realq[l-2]`, `imgq[l-2]` computed for atom `a` (system.cpp 1475-1498): entry `k` belongs to
`m = k - l`.  NaN (`none`) arises for all entries at once: from `acos(0/0)` for a zero neighbour
vector, or from `weightsum = 0` when the weights are normalised. -/
noncomputable def System.calcQlm (s : System) (l : ℕ) (a : Atom) : Option (ℕ → ℝ × ℝ) :=
  let nbs := s.qNbrs a
  if ∃ x ∈ nbs, x.vec = 0 then none
  else if s.voronoiused then some fun k => qSum l ((k : ℤ) - l) nbs
  else if qWeight nbs = 0 then none
  else some fun k =>
    let t := qSum l ((k : ℤ) - l) nbs
    (t.1 / qWeight nbs, t.2 / qWeight nbs)

/-- `summ = pow((4.0*PI/(2*q+1)) * summ, 0.5)` (system.cpp 1474, 1500-1505). -/
noncomputable def qValue (l : ℕ) (c : ℕ → ℝ × ℝ) : ℝ :=
  Real.sqrt ((4 * PI / (2 * l + 1)) *
    (List.range (2 * l + 1)).foldl (fun summ k => summ + ((c k).1 * (c k).1 + (c k).2 * (c k).2)) 0)

/-- Body of `calculate_q` for one atom and one `l` (system.cpp 1470-1507). -/
noncomputable def System.calcQ1 (s : System) (a : Atom) (l : ℕ) : Atom :=
  let c := s.calcQlm l a
  { a with qlm := Function.update a.qlm l c, q := Function.update a.q l (c.map (qValue l)) }

/-- Every neighbour index refers to a stored atom; otherwise `atoms[neighbors[ci]]` is out of bounds
(system.cpp 1483, 1544). -/
def System.NbrsInRange (s : System) : Prop := ∀ a ∈ s.atoms, ∀ x ∈ a.nbrs, x.idx < s.atoms.length

open Classical in
/-- `ccalculate_q` (system.cpp 1437-1511) for a list of `l`.  The loop reads `condition` and the
neighbour arrays, which it does not write, so atoms are independent. -/
noncomputable def System.ccalculateQ (s : System) (ls : List ℕ) : Except Fault System :=
  if s.NbrsInRange then .ok { s with atoms := s.atoms.map fun a => ls.foldl s.calcQ1 a }
  else .error .oob

/-- Sum over the atom and its participating neighbours of one component (system.cpp 1540-1549). -/
noncomputable def aqSum (own : ℝ × ℝ) (nb : List (ℝ × ℝ)) : ℝ × ℝ :=
  nb.foldl (fun acc y => (acc.1 + y.1, acc.2 + y.2)) own

/-- `arealq[l-2]`, `aimgq[l-2]` (system.cpp 1538-1558); NaN if one of the summed vectors is NaN. -/
noncomputable def System.calcAqlm (s : System) (l : ℕ) (a : Atom) : Option (ℕ → ℝ × ℝ) := do
  let own ← a.qlm l
  let nb ← (s.qNbrs a).mapM fun x => (s.mem x.idx).qlm l
  return fun k =>
    let t := aqSum (own k) (nb.map fun c => c k)
    (t.1 / ((nb.length + 1 : ℕ) : ℝ), t.2 / ((nb.length + 1 : ℕ) : ℝ))

/-- Body of `calculate_aq` for one atom and one `l` (system.cpp 1530-1566). -/
noncomputable def System.calcAq1 (s : System) (a : Atom) (l : ℕ) : Atom :=
  let c := s.calcAqlm l a
  { a with aqlm := Function.update a.aqlm l c, aq := Function.update a.aq l (c.map (qValue l)) }

open Classical in
/-- `ccalculate_aq` (system.cpp 1515-1568): reads `realq`, `condition`, neighbours; writes only
averaged values. -/
noncomputable def System.ccalculateAq (s : System) (ls : List ℕ) : Except Fault System :=
  if s.NbrsInRange then .ok { s with atoms := s.atoms.map fun a => ls.foldl s.calcAq1 a }
  else .error .oob

/-- `ql in range(2,13)` for all requested values (core.py 779-781). -/
def qRange (ls : List ℤ) : Prop := ∀ l ∈ ls, 2 ≤ l ∧ l ≤ 12

instance (ls : List ℤ) : Decidable (qRange ls) := inferInstanceAs (Decidable (∀ l ∈ ls, 2 ≤ l ∧ l ≤ 12))

/-- Set `condition` on the atoms of the system and write them back (core.py 783-813).
The test of the condition on the first atom turns every failure into `RuntimeError`; later
values are stored unchecked. -/
noncomputable def System.applyCondition (s : System) (cond : Atom → Except Fault ℤ) : Except Fault System := do
  let atoms ← s.getAtoms
  match atoms with
  | [] => .error .indexError
  | a0 :: _ =>
    match cond a0 with
    | .error _ => .error .runtimeError
    | .ok v =>
      if v = 0 ∨ v = 1 then do
        let new ← atoms.mapM fun a => do
          let v ← cond a
          return { a with condition := some v }
        s.assignAtoms new
      else .error .runtimeError

/-- `atom.condition = 0` for all atoms and write-back (core.py 815-819). -/
noncomputable def System.clearCondition (s : System) : Except Fault System := do
  let atoms ← s.getAtoms
  s.assignAtoms (atoms.map fun a => { a with condition := some 0 })

/-- `calculate_q(q, averaged, only_averaged, condition, clear_condition)` (core.py 717-825). -/
noncomputable def System.calculateQ (s : System) (ls : List ℤ) (averaged onlyAveraged : Bool := false)
    (cond : Option (Atom → Except Fault ℤ) := none) (clear : Bool := false) : Except Fault System :=
  if ¬ qRange ls then .error .valueError
  else do
    let s ← match cond with
      | none => .ok s
      | some c => s.applyCondition c
    let s ← if clear then s.clearCondition else .ok s
    let s ← if !onlyAveraged then s.ccalculateQ (ls.map Int.toNat) else .ok s
    if averaged || onlyAveraged then s.ccalculateAq (ls.map Int.toNat) else .ok s

/-- `cget_qvals`/`cget_aqvals` (system.cpp 1570-1588): the first `real_nop` atoms. -/
def System.gqvals (s : System) (averaged : Bool) (l : ℕ) : Except Fault (List (Option ℝ)) :=
  if s.realNop ≤ s.atoms.length then
    .ok ((s.atoms.take s.realNop).map fun a => if averaged then a.aq l else a.q l)
  else .error .oob

/-- `get_qvals(q, averaged)` for one integer (core.py 341-350). -/
def System.getQvals (s : System) (l : ℤ) (averaged : Bool) : Except Fault (List (Option ℝ)) :=
  if 2 ≤ l ∧ l ≤ 12 then s.gqvals averaged l.toNat else .error .valueError

/-- `get_qvals(q, averaged)` for a list (core.py 352-359). -/
def System.getQvalsList (s : System) (ls : List ℤ) (averaged : Bool) :
    Except Fault (List (List (Option ℝ))) :=
  if qRange ls then ls.mapM fun l => s.gqvals averaged l.toNat else .error .valueError

namespace Atom

/-- `get_q(l, averaged)` (atom.cpp 230-237). -/
def getQ (a : Atom) (l : ℤ) (averaged : Bool) : Except Fault (Option ℝ) :=
  if l < 2 ∨ l > 12 then .error .invalidArgument
  else .ok (if averaged then a.aq l.toNat else a.q l.toNat)

/-- `set_q(l, v, averaged)` (atom.cpp 239-246). -/
def setQ (a : Atom) (l : ℤ) (v : Option ℝ) (averaged : Bool) : Except Fault Atom :=
  if l < 2 ∨ l > 12 then .error .invalidArgument
  else .ok (if averaged then { a with aq := Function.update a.aq l.toNat v }
    else { a with q := Function.update a.q l.toNat v })

/-- `get_q([l1, ...], averaged)` (atom.cpp 249-270). -/
def getQList (a : Atom) (ls : List ℤ) (averaged : Bool) : Except Fault (List (Option ℝ)) :=
  ls.mapM fun l => a.getQ l averaged

/-- `set_q([l1, ...], [v1, ...], averaged)` (atom.cpp 273-293): the atom is modified in place, entry
by entry, so the atom reached before an exception is returned with the exception; a missing value
is an out-of-bounds read. -/
def setQList (averaged : Bool) : List ℤ → List (Option ℝ) → Atom → Atom × Option Fault
  | [], _, a => (a, none)
  | l :: ls, vs, a =>
    if l < 2 ∨ l > 12 then (a, some .invalidArgument)
    else match vs with
      | [] => (a, some .oob)
      | v :: vs =>
        setQList averaged ls vs (if averaged then { a with aq := Function.update a.aq l.toNat v }
          else { a with q := Function.update a.q l.toNat v })

/-- `get_qlm(l, averaged)` (atom.cpp 298-315) for `2 ≤ l ≤ 12` (not checked by the code:
out-of-bounds otherwise). -/
def getQlm (a : Atom) (l : ℤ) (averaged : Bool) : Except Fault (Option (List (ℝ × ℝ))) :=
  if l < 2 ∨ l > 12 then .error .oob
  else .ok ((if averaged then a.aqlm l.toNat else a.qlm l.toNat).map fun c =>
    (List.range (2 * l.toNat + 1)).map c)

end Atom

end Pyscal
