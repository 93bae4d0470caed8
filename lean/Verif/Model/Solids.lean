import Verif.Model.Harmonics

/-!
Solid bonds, disorder and clusters: system.cpp 1590-1887, `find_solids`, `cluster_atoms`,
`calculate_disorder` (core.py 903-950, 1022-1060, 1414-1422).
-/

namespace Pyscal

/-- A Python argument that should be a number: `int` (`bool` is an `int` in Python), `float`,
or anything else (core.py 880-950). -/
inductive PyNum where
  | int (n : ℤ)
  | flt (x : ℝ)
  | other

/-- The numerical value of an `int` or `float` (core.py 880-950). -/
def PyNum.val : PyNum → Option ℝ
  | .int n => some n
  | .flt x => some x
  | .other => none

/-- A Python method: the `System` after the call and the returned value or the exception.  Model
device for the methods of core.py. -/
abbrev Py (α : Type) := System → System × Except Fault α

/-! ### Bond correlation -/

/-- `realdotproduct + imgdotproduct` and the two sums of squares (system.cpp 1666-1674): the sum over
`mi` of one product of components, in the order of the loop. -/
noncomputable def dotLoop (l : ℕ) (c d : ℕ → ℝ × ℝ) (f : ℝ × ℝ → ℝ × ℝ → ℝ) : ℝ :=
  (List.range (2 * l + 1)).foldl (fun acc k => acc + f (c k) (d k)) 0

/-- `get_number_from_bond` (system.cpp 1658-1702, both versions) on the component vectors of two atoms;
NaN if a vector is NaN or zero. -/
noncomputable def bondNumber (l : ℕ) (a b : Option (ℕ → ℝ × ℝ)) : Option ℝ := do
  let c ← a
  let d ← b
  let sumSquareti := dotLoop l c c fun x y => x.1 * y.1 + x.2 * y.2
  let sumSquaretj := dotLoop l d d fun x y => x.1 * y.1 + x.2 * y.2
  let realdot := dotLoop l c d fun x y => x.1 * y.1
  let imgdot := dotLoop l c d fun x y => x.2 * y.2
  fdiv (realdot + imgdot) (Real.sqrt sumSquaretj * Real.sqrt sumSquareti)

/-- `get_number_from_bond(atom1, atom2)` with `solidq` of the system (system.cpp 1682-1702). -/
noncomputable def System.numberFromBond (s : System) (a b : Atom) : Option ℝ :=
  bondNumber s.solidq (a.qlm s.solidq) (b.qlm s.solidq)

open Classical in
/-- The nested `if` of system.cpp 1718-1721.  The `else` belongs to the inner `if`: with
`comparecriteria == 0` a bond counts when the value is above or below the threshold, otherwise it
never counts.  Comparisons with NaN are false. -/
noncomputable def bondCounts (comparecriteria : ℕ) (scalar : Option ℝ) (threshold : ℝ) : Bool :=
  if comparecriteria = 0 then
    match scalar with
    | none => false
    | some x => if x > threshold then true else if x < threshold then true else false
  else false

/-- Sum of doubles with NaN.  C++ semantics, no code of its own. -/
noncomputable def nanAdd (a b : Option ℝ) : Option ℝ := do
  let x ← a
  let y ← b
  return x + y

/-- Division of a double by an integer count, `0/0` being NaN; `x/0` (an infinity) is also `none`. 
C++ semantics, no code of its own. -/
noncomputable def nanDiv (a : Option ℝ) (n : ℕ) : Option ℝ := do
  let x ← a
  fdiv x n

namespace System

/-- Body of `calculate_frenkel_numbers` for one atom (system.cpp 1709-1727).  `sij`, `frenkelnumber`
and `avq6q6` are not read by the loop, so the atoms are independent. -/
noncomputable def frenkel1 (s : System) (a : Atom) : Atom :=
  let sc := a.nbrs.map fun x => s.numberFromBond a (s.mem x.idx)
  { a with
    sij := sc
    frenkel := (sc.filter fun x => bondCounts s.comparecriteria x s.threshold).length
    avq := nanDiv (sc.foldl nanAdd (some 0)) a.nbrs.length }

open Classical in
/-- `calculate_frenkel_numbers` (system.cpp 1704-1729). -/
noncomputable def frenkelNumbers (s : System) : Except Fault System :=
  if s.NbrsInRange then .ok { s with atoms := s.atoms.map s.frenkel1 } else .error .oob

/-- Comparison of a possibly NaN value.  C++ semantics, no code of its own. -/
noncomputable def _root_.Pyscal.gtNan (x : Option ℝ) (t : ℝ) : Prop := ∃ v, x = some v ∧ v > t

/-- See `gtNan`.  C++ semantics, no code of its own. -/
noncomputable def _root_.Pyscal.ltNan (x : Option ℝ) (t : ℝ) : Prop := ∃ v, x = some v ∧ v < t

open Classical in
/-- `find_solid_atoms` for one atom (system.cpp 1732-1753). -/
noncomputable def solid1 (s : System) (a : Atom) : Atom :=
  if s.criteria = 0 then
    { a with issolid := decide ((a.frenkel : ℝ) > s.minfrenkel ∧
        (if s.comparecriteria = 0 then gtNan a.avq s.avgthreshold else ltNan a.avq s.avgthreshold)) }
  else if s.criteria = 1 then
    { a with issolid := decide (gtNan (fdiv (a.frenkel : ℝ) a.nbrs.length) s.minfrenkel ∧
        (if s.comparecriteria = 0 then gtNan a.avq s.avgthreshold else ltNan a.avq s.avgthreshold)) }
  else a

/-- `find_solid_atoms` (system.cpp 1732-1753). -/
noncomputable def findSolidAtoms (s : System) : System := { s with atoms := s.atoms.map s.solid1 }

/-! ### Clusters -/

/-- `atoms[i].condition` as a truth value.  Indeterminate (`none`) values are only carried by freshly
made ghosts, which are skipped before the test (system.cpp 1796, 1822). -/
def _root_.Pyscal.Atom.cond (a : Atom) : Bool :=
  match a.condition with
  | some v => v ≠ 0
  | none => false

open Classical in
/-- The three `continue` tests of `harvest_cluster` (system.cpp 1788-1790) for one neighbour; a `cutoff`
that was never set is `none`, and the comparison is false. -/
noncomputable def _root_.Pyscal.linked (m : Mem) (ti : ℕ) (x : Nb) : Bool :=
  !(m x.idx).ghost && (m x.idx).cond && decide (∃ c, (m ti).cutoff = some c ∧ x.dist ≤ c)

/-- `atoms[i].belongsto = c` (system.cpp 1799, 1818, 1826). -/
def _root_.Pyscal.Mem.setCluster (m : Mem) (i : ℕ) (c : ℤ) : Mem :=
  Function.update m i { m i with belongsto := c }

/-- `harvest_cluster` (system.cpp 1782-1796).  The first argument bounds the depth of the recursion;
running out of it is `nonTermination` (it never does, see `findClusters_ok`; the C++ stack, which
grows by one frame per atom of a cluster, is not modelled). -/
noncomputable def _root_.Pyscal.harvest : ℕ → ℕ → ℤ → Mem → Except Fault Mem
  | 0, _, _, _ => .error .nonTermination
  | fuel + 1, ti, ci, m =>
    (m ti).nbrs.foldlM (fun m x =>
      if linked m ti x then
        if (m x.idx).belongsto = -1 then harvest fuel x.idx ci (m.setCluster x.idx ci)
        else .ok m
      else .ok m) m

/-- The main loop of `find_clusters_recursive` (system.cpp 1815-1823): `ti` from the list, `ci` is
`clusterindex`. -/
noncomputable def _root_.Pyscal.clusterLoop (fuel : ℕ) : List ℕ → ℤ → Mem → Except Fault Mem
  | [], _, m => .ok m
  | ti :: is, ci, m =>
    if !(m ti).cond then clusterLoop fuel is ci m
    else if (m ti).ghost then clusterLoop fuel is ci m
    else if (m ti).belongsto = -1 then do
      let m ← harvest fuel ti (ci + 1) (m.setCluster ti (ci + 1))
      clusterLoop fuel is (ci + 1) m
    else clusterLoop fuel is ci m

/-- First lines of `find_clusters_recursive` (system.cpp 1800-1813). -/
noncomputable def clusterStart (s : System) (cutoff : ℝ) : System :=
  { s with atoms := s.atoms.mapIdx fun (i : ℕ) a =>
      let a := if cutoff ≠ 0 then { a with cutoff := some cutoff } else a
      if i < s.realNop then { a with belongsto := -1 } else a }

open Classical in
/-- `find_clusters_recursive` (system.cpp 1798-1826). -/
noncomputable def findClusters (s : System) (cutoff : ℝ) : Except Fault System :=
  if ¬ s.NbrsInRange ∨ s.atoms.length < s.realNop then .error .oob
  else do
    let s := s.clusterStart cutoff
    let m ← clusterLoop (s.atoms.length + 1) (List.range s.realNop) 0 s.mem
    return s.ofMem m

/-- `freq` of `largest_cluster` (system.cpp 1838-1847): `freq[c-1]` counts the atoms of cluster `c`. -/
def clusterFreq (s : System) (c : ℕ) : ℕ :=
  ((s.atoms.take s.realNop).filter fun a => a.belongsto == (c : ℤ)).length

/-- The maximum search (system.cpp 1849-1857): `(max, maxclusterid)`. -/
def maxLoop (freq : ℕ → ℕ) : List ℕ → ℕ × ℤ → ℕ × ℤ
  | [], st => st
  | ti :: is, st =>
    maxLoop freq is (if freq (ti + 1) > st.1 then (freq (ti + 1), (ti : ℤ) + 1) else st)

/-- `get_largest_cluster_atoms` for one real atom (system.cpp 1863-1883). -/
def surface1 (s : System) (a : Atom) : Atom :=
  { a with
    lcluster := decide (a.belongsto = s.maxclusterid)
    issurface :=
      if a.issolid then
        a.nbrs.any fun x => !(s.mem x.idx).ghost && !(s.mem x.idx).issolid
      else true }

/-- `get_largest_cluster_atoms` (system.cpp 1863-1883). -/
def largestAtoms (s : System) : System :=
  { s with atoms := s.atoms.mapIdx fun (i : ℕ) a => if i < s.realNop then s.surface1 a else a }

open Classical in
/-- `largest_cluster` (system.cpp 1835-1862).  A cluster number outside `1..real_nop` (other than -1)
writes outside `freq`, which has `nop` entries. -/
noncomputable def largestCluster (s : System) : Except Fault (System × ℕ) :=
  if ¬ s.NbrsInRange ∨ s.atoms.length < s.realNop ∨
      ∃ a ∈ s.atoms.take s.realNop, a.belongsto ≠ -1 ∧ ¬ (1 ≤ a.belongsto ∧ a.belongsto ≤ s.realNop) then .error .oob
  else
    let r := maxLoop s.clusterFreq (List.range s.realNop) (0, s.maxclusterid)
    .ok ({ s with maxclusterid := r.2 }.largestAtoms, r.1)

/-- `cluster_atoms(condition, cutoff=...)` (core.py 1022-1060).  `cond` evaluates the condition, a
callable or an attribute name; a failure on atom 0, or a value other than 0 or 1 there, gives
`RuntimeError`.  The returned number is handed to the caller if `largest=True`. -/
noncomputable def clusterAtoms (s : System) (cond : Atom → Except Fault ℤ) (cutoff : ℝ) :
    Except Fault (System × ℕ) := do
  let a0 ← s.getAtom 0
  match cond a0 with
  | .error _ => .error .runtimeError
  | .ok v =>
    if v = 0 ∨ v = 1 then do
      let atoms ← s.getAtoms
      let new ← atoms.mapM fun a => do
        let v ← cond a
        return { a with condition := some v }
      let s ← s.assignAtoms new
      let s ← s.findClusters cutoff
      s.largestCluster
    else .error .runtimeError

/-- The condition `"solid"` (core.py 949, 1642-1688). -/
def _root_.Pyscal.condSolid (a : Atom) : Except Fault ℤ := .ok (if a.issolid then 1 else 0)

/-! ### `find_solids` -/

/-- Argument checks of `find_solids` (core.py 903-935), in order; the result is
`(q, threshold, avgthreshold, criteria, bonds)`. -/
noncomputable def solidArgs (s : System) (bonds threshold avgthreshold q : PyNum) :
    Except Fault (ℕ × ℝ × ℝ × ℕ × ℝ) :=
  if !s.neighborsFound then .error .runtimeError
  else match q with
    | .int qv =>
      if ¬ (2 ≤ qv ∧ qv ≤ 12) then .error .valueError
      else match threshold.val with
        | none => .error .typeError
        | some t =>
          if ¬ (0 ≤ t ∧ t ≤ 1) then .error .valueError
          else match avgthreshold.val with
            | none => .error .typeError
            | some at' =>
              if ¬ (0 ≤ at' ∧ at' ≤ 1) then .error .valueError
              else match bonds with
                | .int n => .ok (qv.toNat, t, at', 0, n)
                | .flt x => if 0 ≤ x ∧ x ≤ 1 then .ok (qv.toNat, t, at', 1, x) else .error .typeError
                | .other => .error .typeError
    | _ => .error .typeError

/-- The calculation of `find_solids` after the checks (core.py 937-950).  The argument `right` is not
used by the code. -/
noncomputable def solidRun (s : System) (p : ℕ × ℝ × ℝ × ℕ × ℝ) (cluster : Bool) (cutoff : ℝ) :
    Except Fault (System × Option ℕ) := do
  let s := { s with criteria := p.2.2.2.1, solidq := p.1 }
  let s ← s.ccalculateQ [p.1]
  let s := { s with minfrenkel := p.2.2.2.2, threshold := p.2.1, avgthreshold := p.2.2.1 }
  let s ← s.frenkelNumbers
  let s := s.findSolidAtoms
  if cluster then do
    let (s, n) ← s.clusterAtoms condSolid cutoff
    return (s, some n)
  else return (s, none)

/-- `find_solids(bonds, threshold, avgthreshold, cluster, q, cutoff, right)` (core.py 828-950).  A fault
inside the calculation (out of bounds) leaves the state unspecified; the start state is returned. -/
noncomputable def findSolids (bonds threshold avgthreshold : PyNum) (cluster : Bool) (q : PyNum)
    (cutoff : ℝ) (_right : Bool) : Py (Option ℕ) := fun s =>
  match s.solidArgs bonds threshold avgthreshold q with
  | .error e => (s, .error e)
  | .ok p =>
    match s.solidRun p cluster cutoff with
    | .error e => (s, .error e)
    | .ok (s', r) => (s', .ok r)

/-! ### Disorder -/

/-- `sii` (system.cpp 1600-1614). -/
noncomputable def sii (s : System) (a : Atom) : Option ℝ := s.numberFromBond a a

/-- The running sums of the neighbour loop of `calculate_disorder` (system.cpp 1620-1636):
`(sumSquareti, sumSquaretj, dot, dis)`.  The sums are not reset between neighbours, and the other atom
is `atoms[tj]` for the loop counter `tj`, not for the neighbour's index. -/
noncomputable def disorderLoop (s : System) (a : Atom) : List ℕ → ℝ × ℝ × ℝ × Option ℝ → Option (ℝ × ℝ × ℝ × Option ℝ)
  | [], st => some st
  | tj :: ts, (si, sj, dot, dis) => do
    let c ← a.qlm s.solidq
    let d ← (s.mem tj).qlm s.solidq
    let si := si + dotLoop s.solidq c c fun x y => x.1 * y.1 + x.2 * y.2
    let sj := sj + dotLoop s.solidq d d fun x y => x.1 * y.1 + x.2 * y.2
    let dot := dot + (dotLoop s.solidq c d (fun x y => x.1 * y.1) + dotLoop s.solidq c d fun x y => x.2 * y.2)
    let conn := fdiv dot (Real.sqrt sj * Real.sqrt si)
    let term : Option ℝ := do
      let x ← s.sii a
      let y ← s.sii (s.mem tj)
      let z ← conn
      return x + y - 2 * z
    s.disorderLoop a ts (si, sj, dot, nanAdd dis term)

/-- `calculate_disorder` for one atom (system.cpp 1617-1639). -/
noncomputable def disorder1 (s : System) (a : Atom) : Atom :=
  { a with disorder :=
      (s.disorderLoop a (List.range a.nbrs.length) (0, 0, 0, some 0)).bind fun r =>
        nanDiv r.2.2.2 a.nbrs.length }

/-- `find_average_disorder` for one atom (system.cpp 1641-1653). -/
noncomputable def avgDisorder1 (s : System) (a : Atom) : Atom :=
  let vv := (a.nbrs.map fun x => (s.mem x.idx).disorder).foldl nanAdd a.disorder
  { a with avgDisorder := nanDiv vv (a.nbrs.length + 1) }

open Classical in
/-- `calculate_disorder(averaged, q)` (core.py 1414-1422) for an integer `q`.  An atom with more
neighbours than there are atoms would make `atoms[tj]` run out of bounds. -/
noncomputable def calculateDisorder (averaged : Bool) (q : ℤ) : Py Unit := fun s =>
  if ¬ (2 ≤ q ∧ q ≤ 12) then (s, .error .valueError)
  else
    let s := { s with solidq := q.toNat }
    if (∃ a ∈ s.atoms, a.nbrs.length > s.atoms.length) ∨ ¬ s.NbrsInRange then (s, .error .oob)
    else
      let s := { s with atoms := s.atoms.map s.disorder1 }
      let s := if averaged then { s with atoms := s.atoms.map s.avgDisorder1 } else s
      (s, .ok ())

end System

end Pyscal
