import Verif.Model.Solids
import Mathlib.Analysis.SpecialFunctions.Log.Basic
import Mathlib.Analysis.SpecialFunctions.Exp

/-!
The remaining order parameters: centrosymmetry, entropy, set_atom_cutoff, pair distances
(system.cpp 466-481, 965-982, 2479-2597, atom.cpp 400-452) and the Python analyses
`calculate_rdf`, `calculate_angularcriteria`, `calculate_chiparams`, `calculate_centrosymmetry`,
`calculate_sro`, `calculate_pmsro`, `calculate_entropy`, `calculate_energy`
(core.py 271-315, 1114-1233, 1328-1373, 1424-1640, 1690-1765, 1840-1906).
-/

namespace Pyscal

/-- The vector of neighbour slot `i` (`n_diffx[i]`, `n_diffy[i]`, `n_diffz[i]`) (atom.h 107-109). -/
def Atom.nbVec (a : Atom) (i : ℕ) : V3 := (a.nbrs.map Nb.vec).getD i 0

/-! ### Centrosymmetry -/

/-- The list `temp` of `calculate_centrosymmetry_atom` (system.cpp 2549-2563): lengths of the sums of two
neighbour vectors, numbered in the order of the loops. -/
noncomputable def Atom.pairSums (a : Atom) : List DAtom :=
  (pairs a.nbrs.length).mapIdx fun (c : ℕ) p => ⟨V3.norm (a.nbVec p.1 + a.nbVec p.2), c⟩

/-- `calculate_centrosymmetry_atom` (system.cpp 2543-2575).  `temp[i]` for `i < nmax/2` is not checked
against the size of `temp`. -/
noncomputable def centroAtom (σ : StdSort) (nmax : ℕ) (a : Atom) : Except Fault Atom :=
  let t := σ.sort a.pairSums
  if nmax / 2 ≤ t.length then
    .ok { a with centro := ((t.take (nmax / 2)).map fun x => x.dist * x.dist).sum }
  else .error .oob

namespace System

/-- `calculate_centrosymmetry` of the C++ class (system.cpp 2577-2586).  The return value of the search
is ignored; `usecells` is what the last search left. -/
noncomputable def ccalculateCentrosymmetry (σ : StdSort) (s : System) (nmax : ℕ) : Except Fault System := do
  let (s, _) ← s.resetAllNeighbors.neighborsByNumber σ 3 nmax true
  let s ← s.checkCapacity
  let l ← s.atoms.mapM (centroAtom σ nmax)
  return { s with atoms := l }

/-- `calculate_centrosymmetry(nmax)` (core.py 1363-1373) for an integer `nmax`.  A fault inside the
calculation (out of bounds) leaves the state unspecified; the start state is returned. -/
noncomputable def calculateCentrosymmetry (σ : StdSort) (nmax : ℤ) : Py Unit := fun s =>
  if ¬ nmax > 0 then (s, .error .valueError)
  else if ¬ nmax % 2 = 0 then (s, .error .valueError)
  else match s.ccalculateCentrosymmetry σ nmax.toNat with
    | .error e => (s, .error e)
    | .ok s' => (s', .ok ())

/-! ### Pair distances and the radial distribution function -/

/-- `get_pairdistances` (system.cpp 466-481): all atoms, ghosts included. -/
noncomputable def pairDistances (s : System) : List ℝ :=
  (pairs s.atoms.length).map fun p => s.distOf p.1 p.2

end System

open Classical in
/-- `numpy.histogram(xs, edges)[0]`: bin `k` is `[e_k, e_{k+1})`, the last one is closed; values outside
and NaN are not counted. -/
noncomputable def histogram (edges : List ℝ) (xs : List (Option ℝ)) : List ℕ :=
  (List.range (edges.length - 1)).map fun (k : ℕ) =>
    xs.countP fun x => match x with
      | none => false
      | some v => decide (edges.getD k 0 ≤ v ∧
          (v < edges.getD (k + 1) 0 ∨ (k + 2 = edges.length ∧ v = edges.getD (k + 1) 0)))

/-- The edges of `numpy.histogram(xs, bins=n, range=(lo, hi))`: `linspace(lo, hi, n+1)`, after widening
an empty range by a half on both sides. -/
noncomputable def uniformEdges (n : ℕ) (lo hi : ℝ) : List ℝ :=
  let l := if lo = hi then lo - 1 / 2 else lo
  let h := if lo = hi then hi + 1 / 2 else hi
  (List.range (n + 1)).map fun (k : ℕ) => l + k * ((h - l) / n)

namespace System

/-- `np.dot(np.cross(box[0], box[1]), box[2])` (core.py 302-303, 1750-1751). -/
noncomputable def boxDet (s : System) : ℝ :=
  let b := s.getBox
  V3.dot ⟨b.r0.y * b.r1.z - b.r0.z * b.r1.y, b.r0.z * b.r1.x - b.r0.x * b.r1.z, b.r0.x * b.r1.y - b.r0.y * b.r1.x⟩ b.r2

/-- The histogram of `calculate_rdf` (core.py 293-298): edges and counts.  `max` of an empty list,
a number of bins below one and an inverted range are `ValueError`. -/
noncomputable def rdfHistogram (s : System) (bins : ℤ) (lo : ℝ) (hi : Option ℝ) : Except Fault (List ℝ × List ℕ) :=
  let d := s.pairDistances
  match hi.orElse fun _ => d.max? with
  | none => .error .valueError
  | some h =>
    if bins < 1 then .error .valueError
    else if h < lo then .error .valueError
    else
      let e := uniformEdges bins.toNat lo h
      .ok (e, histogram e (d.map some))

/-- `calculate_rdf(histobins, histomin, histomax)` (core.py 271-315): `(rdf, r)`.  `self.nop` is bound to
the number of real atoms (system_binding.cpp 34), while the distances are those of all atoms. -/
noncomputable def calculateRdf (s : System) (bins : ℤ) (lo : ℝ) (hi : Option ℝ) :
    Except Fault (List (Option ℝ) × List ℝ) := do
  let (e, hist) ← s.rdfHistogram bins lo hi
  let edgewidth := |e.getD 1 0 - e.getD 0 0|
  let r := e.dropLast
  let rho := fdiv ((s.realNop * (s.realNop - 1) / 2 : ℕ) : ℝ) s.boxDet
  let rdf := List.zipWith (fun (c : ℕ) (x : ℝ) => do
    let rho ← rho
    let y ← fdiv c ((4 / 3) * PI * ((x + edgewidth) ^ 3 - x ^ 3))
    fdiv y rho) hist r
  return (rdf, r)

end System

/-! ### Angular criterion and chi parameters -/

/-- `np.dot(v1, v2) / (|v1| |v2|)` (core.py 1159-1162, 1223-1226), NaN for a zero vector. -/
noncomputable def pyCos (u v : V3) : Option ℝ := fdiv (V3.dot u v) (V3.norm u * V3.norm v)

/-- `atoms[i]` on a Python list.  Python semantics, no code of its own. -/
def pyGet (atoms : List Atom) (i : ℕ) : Except Fault Atom := match atoms[i]? with
  | some b => .ok b
  | none => .error .indexError

/-- Loop body of `calculate_angularcriteria` (core.py 1137-1164).  `atoms` is the list `self.atoms` of
real atoms; `np.argsort` is the sorting of the distances paired with their positions. -/
noncomputable def angular1 (σ : StdSort) (s : System) (atoms : List Atom) (a : Atom) : Except Fault Atom := do
  let nb ← a.nbrs.mapM fun x => pyGet atoms x.idx
  let vecs := nb.map fun b => s.getDistanceVector a b
  let args := (σ.sort (nb.mapIdx fun (i : ℕ) b => ⟨s.getDistance a b, i⟩)).map DAtom.idx
  let top := args.take 4
  let combos := (pairs top.length).map fun p => (top.getD p.1 0, top.getD p.2 0)
  let summ := combos.foldl (fun acc c => nanAdd acc ((pyCos (vecs.getD c.1 0) (vecs.getD c.2 0)).map
    fun x => (x + 1 / 3) ^ 2)) (some 0)
  return { a with angular := summ }

/-- The bins of `calculate_chiparams` (core.py 1203). -/
noncomputable def chiBins : List ℝ := [-1.0, -0.945, -0.915, -0.755, -0.705, -0.195, 0.195, 0.245, 0.795, 1.0]

/-- Loop body of `calculate_chiparams` (core.py 1206-1231), with the way in which the cosine is computed as a parameter; for `custom['cosines']` see Model/Sharing. -/
noncomputable def chi1With (cos : V3 → V3 → Option ℝ) (a : Atom) : Atom :=
  { a with chi := histogram chiBins ((pairs a.nbrs.length).map fun p => cos (a.nbVec p.1) (a.nbVec p.2)) }

/-- The same with exact arithmetic. -/
noncomputable def chi1 (a : Atom) : Atom := chi1With pyCos a

/-- `np.dot` of two vectors (core.py 1226) with every operation rounded by `fl`; the products are added from left to right. -/
def flDot (fl : ℝ → ℝ) (u v : V3) : ℝ := fl (fl (fl (u.x * v.x) + fl (u.y * v.y)) + fl (u.z * v.z))

/-- `np.sqrt(np.sum([x**2 for x in vec]))` (core.py 1224-1225) with every operation rounded by `fl`. -/
noncomputable def flNorm (fl : ℝ → ℝ) (u : V3) : ℝ := fl (Real.sqrt (flDot fl u u))

/-- `np.dot(vec1, vec2)/(modvec1*modvec2)` (core.py 1224-1226) with every operation rounded by `fl`. -/
noncomputable def flCos (fl : ℝ → ℝ) (u v : V3) : Option ℝ := (fdiv (flDot fl u v) (fl (flNorm fl u * flNorm fl v))).map fl

namespace System

/-- `calculate_angularcriteria` (core.py 1135-1166). -/
noncomputable def calculateAngular (σ : StdSort) (s : System) : Except Fault System := do
  let atoms ← s.getAtoms
  let new ← atoms.mapM (angular1 σ s atoms)
  s.assignAtoms new

/-- `calculate_chiparams` (core.py 1203-1233). -/
noncomputable def calculateChi (s : System) : Except Fault System := do
  let atoms ← s.getAtoms
  s.assignAtoms (atoms.map chi1)

end System

/-! ### Entropy -/

/-- `gmr(r)` (atom.cpp 400-416) with the density `rho` and width `sigma`; `none` is NaN or infinite. -/
noncomputable def gmr (a : Atom) (sigma rho r : ℝ) : Option ℝ := do
  let sigma2 := sigma * sigma
  let frho := 4 * PI * rho * r * r
  let fsigma := Real.sqrt (2 * PI * sigma2)
  let f1 ← fdiv 1 frho
  let f2 ← fdiv 1 fsigma
  let g := (a.nbrs.map fun x => Real.exp (-1 * ((r - x.dist) * (r - x.dist)) / (2 * sigma2))).sum
  return f1 * f2 * g

open Classical in
/-- `entropy_integrand(r)` (atom.cpp 419-423).  `log` of a negative number is NaN and `0*log(0)` is
`0*(-inf)`, also NaN. -/
noncomputable def entropyIntegrand (a : Atom) (sigma rho r : ℝ) : Option ℝ := do
  let g ← gmr a sigma rho r
  if 0 < g then some ((g * Real.log g - g + 1) * r * r) else none

/-- Conversion of a double to `int`: the fractional part is dropped.  C++ semantics, no code of its
own. -/
noncomputable def truncInt (x : ℝ) : ℤ := if 0 ≤ x then ⌊x⌋ else ⌈x⌉

/-- `trapezoid_integration` (atom.cpp 426-452): the value assigned to `entropy`. -/
noncomputable def trapezoid (a : Atom) (sigma rho rstart rstop h kb : ℝ) : Option ℝ := do
  let nsteps := truncInt ((rstop - rstart) / h)
  let xstart ← entropyIntegrand a sigma rho rstart
  let summ ← ((List.range (nsteps - 2).toNat).map fun (i : ℕ) =>
    entropyIntegrand a sigma rho (rstart + ((i + 1 : ℕ) : ℝ) * h)).foldl nanAdd (some 0)
  let xend ← entropyIntegrand a sigma rho (rstart + (nsteps : ℝ) * h)
  return -1 * rho * kb * ((h / 2) * (xstart + 2 * summ + xend))

open Classical in
/-- The loop of `entropy` (system.cpp 2522-2539).  `rho` is a parameter that is overwritten when it is
0, so the density found for one atom is kept for the following ones.  `none` is a NaN density. -/
noncomputable def entropyLoop (sigma rstart rstop h kb : ℝ) : Option ℝ → List Atom → List Atom
  | _, [] => []
  | rho, a :: as =>
    let rho := if rho = some 0 then
        a.cutoff.bind fun c => fdiv a.nbrs.length (4.1887902047863905 * c ^ 3)
      else rho
    { a with entropy := rho.bind fun rho => trapezoid a sigma rho rstart rstop h kb } ::
      entropyLoop sigma rstart rstop h kb rho as

/-- `switching_fn` (system.cpp 2483-2488). -/
noncomputable def switchingFn (rij ra : ℝ) (M N : ℕ) : Option ℝ := do
  let x ← fdiv rij ra
  fdiv (1 - x ^ N) (1 - x ^ M)

namespace System

/-- `average_entropy` for one atom (system.cpp 2490-2499). -/
noncomputable def avgEntropy1 (s : System) (a : Atom) : Atom :=
  { a with avgEntropy := nanDiv ((a.nbrs.map fun x => (s.mem x.idx).entropy).foldl nanAdd a.entropy) (a.nbrs.length + 1) }

/-- `average_entropy_switch` for one atom (system.cpp 2501-2519). -/
noncomputable def avgEntropySwitch1 (s : System) (ra : ℝ) (M N : ℕ) (a : Atom) : Atom :=
  { a with avgEntropy := do
      let frijsum ← (a.nbrs.map fun x => switchingFn x.dist ra M N).foldl nanAdd (some 0)
      let entfrijsum ← (a.nbrs.map fun x => do
        let e ← (s.mem x.idx).entropy
        let f ← switchingFn x.dist ra M N
        return e * f).foldl nanAdd (some 0)
      let e ← a.entropy
      fdiv (entfrijsum + e) (frijsum + 1) }

/-- How `calculate_entropy` averages: not at all, plainly, or with the switching function (core.py 1690-1766). -/
inductive EntropyAverage where
  | none
  | plain
  | switch (ra : Option ℝ) (M N : ℕ)

open Classical in
/-- `calculate_entropy(rm, sigma, rstart, h, local, M, N, ra, averaged, switching_function)`
(core.py 1745-1765) with `h ≠ 0`.  `ra=None` with the switching function is a `TypeError` of the
binding, raised after the entropies have been assigned. -/
noncomputable def calculateEntropy (rm sigma rstart h : ℝ) («local» : Bool) (av : EntropyAverage) : Py Unit := fun s =>
  match s.getAtoms with
  | .error e => (s, .error e)
  | .ok l =>
    let rho : Option ℝ := if «local» then some 0 else fdiv l.length s.boxDet
    let s := { s with atoms := entropyLoop sigma rstart rm h 1 rho s.atoms }
    match av with
    | .none => (s, .ok ())
    | .plain =>
      if s.NbrsInRange then ({ s with atoms := s.atoms.map s.avgEntropy1 }, .ok ()) else (s, .error .oob)
    | .switch none _ _ => (s, .error .typeError)
    | .switch (some ra) M N =>
      if s.NbrsInRange then ({ s with atoms := s.atoms.map (s.avgEntropySwitch1 ra M N) }, .ok ())
      else (s, .error .oob)

/-! ### Cutoffs from neighbour distances -/

/-- `set_atom_cutoff(factor)` (core.py 952-973, system.cpp 965-982). -/
noncomputable def setAtomCutoff (s : System) (factor : ℝ) : System :=
  { s with atoms := s.atoms.map fun a =>
      { a with cutoff := (fdiv (a.nbrs.map Nb.dist).sum a.nbrs.length).map fun d => factor * d } }

end System

/-! ### Short range order -/

/-- The neighbour atoms `atoms[n]` and their distances (core.py 1495, 1598). -/
noncomputable def shellData (s : System) (atoms : List Atom) (a : Atom) : Except Fault (List (Atom × ℝ)) :=
  a.nbrs.mapM fun x => (pyGet atoms x.idx).map fun b => (b, s.getDistance a b)

open Classical in
/-- The two shells: not farther and farther than the mean distance (core.py 1496-1501, 1599-1604). -/
noncomputable def shellSplit (d : List (Atom × ℝ)) : List Atom × List Atom :=
  let avg := (d.map Prod.snd).sum / d.length
  ((d.filter fun x => decide (x.2 ≤ avg)).map Prod.fst, (d.filter fun x => decide (x.2 > avg)).map Prod.fst)

/-- `1 - (otr/(len(set)*motr))` (core.py 1503-1509): `n` of the `c` atoms of the shell. -/
noncomputable def sroValue (n c : ℕ) (m : ℝ) : Option ℝ := (fdiv n (c * m)).map fun x => 1 - x

/-- Number of atoms of a type (core.py 1481-1512). -/
def countType (l : List Atom) (t : ℤ) : ℕ := l.countP fun a => decide (a.type = t)

/-- `vec += np.array(atom.sro)` on a vector of length 2 (core.py 1518-1522): a list of one entry is
broadcast, other lengths than 1 and 2 raise `ValueError`. -/
noncomputable def addSro (vec : Option ℝ × Option ℝ) (l : List (Option ℝ)) : Except Fault (Option ℝ × Option ℝ) :=
  match l with
  | [x] => .ok (nanAdd vec.1 x, nanAdd vec.2 x)
  | [x, y] => .ok (nanAdd vec.1 x, nanAdd vec.2 y)
  | _ => .error .valueError

/-- The averaging at the end of `calculate_sro` and `calculate_pmsro` (core.py 1514-1524, 1630-1640). -/
noncomputable def sroAverage (atoms : List Atom) (ref : ℤ) : Except Fault (List (Option ℝ)) := do
  let l := atoms.filter fun a => decide (a.type = ref)
  let v ← l.foldlM (fun v a => addSro v a.sro) (some 0, some 0)
  return [nanDiv v.1 l.length, nanDiv v.2 l.length]

/-- Loop body of `calculate_sro` for an atom of the reference type (core.py 1490-1511). -/
noncomputable def sro1 (s : System) (atoms : List Atom) (ref : ℤ) (motr : ℝ) (shells : ℤ) (a : Atom) : Except Fault Atom := do
  let d ← shellData s atoms a
  let otr (l : List Atom) : ℕ := l.length - countType l ref
  if shells = 2 then
    let (set1, set2) := shellSplit d
    return { a with sro := [sroValue (otr set1) set1.length motr, sroValue (otr set2) set2.length motr] }
  else if shells = 1 then
    let l := d.map Prod.fst
    return { a with sro := [sroValue (otr l) l.length motr] }
  else return a

namespace System

/-- `calculate_sro(reference_type, average, shells)` (core.py 1469-1524); the result is the returned
average, if requested. -/
noncomputable def calculateSro (ref : ℤ) (average : Bool) (shells : ℤ) : Py (Option (List (Option ℝ))) := fun s =>
  if !s.neighborsFound then (s, .error .runtimeError)
  else if ¬ (ref = 1 ∨ ref = 2) then (s, .error .valueError)
  else match s.getAllAtoms with
    | .error e => (s, .error e)
    | .ok atoms =>
      let type1 := countType atoms 1
      let type2 := countType atoms 2
      if ¬ (type1 > 0 ∧ type2 > 0) then (s, .error .runtimeError)
      else
        let mref : ℝ := ((if ref = 1 then type1 else type2 : ℕ) : ℝ) / ((type1 + type2 : ℕ) : ℝ)
        match atoms.mapM (fun a => if a.type = ref then sro1 s atoms ref (1 - mref) shells a else .ok a) with
        | .error e => (s, .error e)
        | .ok new =>
          match s.assignAtoms new with
          | .error e => (s, .error e)
          | .ok s' =>
            if average then
              match sroAverage new ref with
              | .error e => (s', .error e)
              | .ok v => (s', .ok (some v))
            else (s', .ok none)

end System

/-- `np.unique(typelist)`: the sorted distinct types (core.py 1584, 2105). -/
noncomputable def uniqueTypes (l : List Atom) : List ℤ := (l.map Atom.type).dedup.mergeSort

/-- `types[1][t-1]` (core.py 1590-1591): Python indexing of the counts of the sorted types, where an index
of -1 and below counts from the end. -/
noncomputable def typeCount (l : List Atom) (t : ℤ) : Except Fault ℕ :=
  let counts := (uniqueTypes l).map fun u => countType l u
  let k := t - 1
  let k := if k < 0 then k + counts.length else k
  if 0 ≤ k then
    match counts[k.toNat]? with
    | some c => .ok c
    | none => .error .indexError
  else .error .indexError

/-- One value of `calculate_pmsro` (core.py 1610-1628): `n` atoms of the compared type among `c`. -/
noncomputable def pmsroValue (useDelta : Bool) (n c : ℕ) (m : ℝ) : Option ℝ :=
  if useDelta then (fdiv n c).bind fun x => fdiv (x - m) (1 - m)
  else sroValue n c m

/-- Loop body of `calculate_pmsro` for an atom of the reference type (core.py 1593-1628). -/
noncomputable def pmsro1 (s : System) (atoms : List Atom) (cmp : ℤ) (useDelta : Bool) (mcomp : ℝ) (shells : ℤ) (a : Atom) :
    Except Fault Atom := do
  let d ← shellData s atoms a
  if shells = 2 then
    let (set1, set2) := shellSplit d
    return { a with sro := [pmsroValue useDelta (countType set1 cmp) set1.length mcomp,
      pmsroValue useDelta (countType set2 cmp) set2.length mcomp] }
  else if shells = 1 then
    let l := d.map Prod.fst
    return { a with sro := [pmsroValue useDelta (countType l cmp) l.length mcomp] }
  else return a

namespace System

/-- `calculate_pmsro(reference_type, compare_type, average, shells, delta)` (core.py 1578-1640). -/
noncomputable def calculatePmsro (ref cmp : ℤ) (average : Bool) (shells : ℤ) (delta : Bool) :
    Py (Option (List (Option ℝ))) := fun s =>
  if !s.neighborsFound then (s, .error .runtimeError)
  else match s.getAllAtoms, s.getAtoms with
    | .error e, _ => (s, .error e)
    | .ok _, .error e => (s, .error e)
    | .ok atoms, .ok real =>
      if ref ∉ uniqueTypes real then (s, .error .valueError)
      else if cmp ∉ uniqueTypes real then (s, .error .valueError)
      else match typeCount real ref, typeCount real cmp with
        | .error e, _ => (s, .error e)
        | .ok _, .error e => (s, .error e)
        | .ok _, .ok nc =>
          let mcomp : ℝ := (nc : ℝ) / (real.length : ℝ)
          match atoms.mapM (fun a => if a.type = ref then
              pmsro1 s atoms cmp (decide (ref = cmp) && delta) mcomp shells a else .ok a) with
          | .error e => (s, .error e)
          | .ok new =>
            match s.assignAtoms new with
            | .error e => (s, .error e)
            | .ok s' =>
              if average then
                match sroAverage new ref with
                | .error e => (s', .error e)
                | .ok v => (s', .ok (some v))
              else (s', .ok none)

/-! ### Energy -/

/-- `atom.avg_energy = ...` (core.py 1902-1904) on the list of real atoms. -/
noncomputable def avgEnergy1 (atoms : List Atom) (a : Atom) : Except Fault Atom := do
  let e ← a.nbrs.mapM fun x => (pyGet atoms x.idx).map Atom.energy
  return { a with avgEnergy := (e.sum + a.energy) / (a.nbrs.length + 1) }

/-- `atom.energy = indict[str(atom.id)]` (core.py 1891-1892); `none` is a missing key. -/
def setEnergy (lammps : ℤ → Option ℝ) (a : Atom) : Except Fault Atom := match lammps a.id with
  | some e => .ok { a with energy := e }
  | none => .error .keyError

/-- The search of core.py 1897-1899, with an adaptive cutoff. -/
noncomputable def energySearch (σ : StdSort) (averaged : Bool) (s : System) : Except Fault System :=
  if averaged = true ∧ s.neighborsFound = false then s.findNeighbors σ 0 (.cutoff 0) else .ok s

/-- `calculate_energy(averaged=...)` (core.py 1883-1906).  `lammps` gives the energy reported for an atom
id; writing the file and running LAMMPS are taken to succeed.  `atoms` is a copy of the list of real
atoms, taken before the neighbours may be searched. -/
noncomputable def calculateEnergy (σ : StdSort) (lammps : ℤ → Option ℝ) (averaged : Bool) (s : System) :
    Except Fault System := do
  let atoms ← s.getAtoms
  let atoms ← atoms.mapM (setEnergy lammps)
  let s ← s.energySearch σ averaged
  let new ← atoms.mapM (avgEnergy1 atoms)
  s.assignAtoms new

end System

end Pyscal
