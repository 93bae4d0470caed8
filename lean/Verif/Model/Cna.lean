import Verif.Model.Neighbors
import Verif.Model.Solids

/-!
Common neighbour analysis and diamond structure identification
(system.cpp 2034-2477, core.py 575-621, 1237-1330).

Conventions: as in `Model/Neighbors`.  Reading `temp_neighbors[i]` beyond its size, or an atom
beyond the array, is the fault `oob`.
-/

namespace Pyscal

/-- State of the loop of `get_common_neighbors`: `cna[i][0]` and `common[i]` for each neighbour
position `i` (system.cpp 2153-2189). -/
structure CommonSt where
  num : ℕ → ℕ
  common : ℕ → List ℕ

/-- Loop of `get_common_neighbors` (system.cpp 2175-2187) over the neighbour indices `nb`;
`near m n` is `get_abs_distance(m, n) <= cutoff`. -/
def commonNeighbors (near : ℕ → ℕ → Bool) (nb : List ℕ) : CommonSt :=
  (pairs nb.length).foldl (fun st p =>
    let m := nb.getD p.1 0
    let n := nb.getD p.2 0
    if near m n then
      let num := Function.update st.num p.1 (st.num p.1 + 1)
      let common := Function.update st.common p.1 (st.common p.1 ++ [n])
      let num := Function.update num p.2 (num p.2 + 1)
      let common := Function.update common p.2 (common p.2 ++ [m])
      ⟨num, common⟩
    else st) ⟨fun _ => 0, fun _ => []⟩

/-- Inner loops of `get_common_bonds` for one neighbour (system.cpp 2208-2219): `cna[k][1]` and
`bonds[k]`, for `n` common neighbours with indices `c`. -/
def commonBonds (near : ℕ → ℕ → Bool) (c : List ℕ) (n : ℕ) : ℕ × (ℕ → ℕ) :=
  (pairs n).foldl (fun st p =>
    if near (c.getD p.1 0) (c.getD p.2 0) then
      let b := Function.update st.2 p.1 (st.2 p.1 + 1)
      let b := Function.update b p.2 (b p.2 + 1)
      (st.1 + 1, b)
    else st) (0, fun _ => 0)

/-- `maxbonds`, `minbonds` (system.cpp 2220-2225). -/
def maxMinBonds (b : ℕ → ℕ) (n : ℕ) : ℕ × ℕ :=
  (List.range n).foldl (fun st l => (max (b l) st.1, min (b l) st.2)) (0, 8)

/-- `get_common_neighbors(ti); get_common_bonds(ti)` (system.cpp 2156-2230): the signatures
`cna[k]`. -/
def cnaSignatures (near : ℕ → ℕ → Bool) (nb : List ℕ) : List (ℕ × ℕ × ℕ × ℕ) :=
  let st := commonNeighbors near nb
  (List.range nb.length).map fun k =>
    let r := commonBonds near (st.common k) (st.num k)
    let e := maxMinBonds r.2 (st.num k)
    (st.num k, r.1, e.1, e.2)

namespace System

open Classical in
/-- `get_abs_distance(m, n, ...) <= atoms[ti].cutoff`.  An indeterminate cutoff compares false; in
the callers below it is set whenever the atom has neighbours (system.cpp 2179-2180, 2212-2213). -/
noncomputable def within (s : System) (a : Atom) (m n : ℕ) : Bool :=
  decide (∃ c, a.cutoff = some c ∧ s.distOf m n ≤ c)

/-- The signatures of one atom (system.cpp 2153-2222). -/
noncomputable def signatures (s : System) (a : Atom) : List (ℕ × ℕ × ℕ × ℕ) :=
  cnaSignatures (s.within a) (a.nbrs.map Nb.idx)

end System

/-- The counters `nfcc`, `nhcp`, `nico` (system.cpp 2246-2264). -/
def counts12 (sig : List (ℕ × ℕ × ℕ × ℕ)) : ℕ × ℕ × ℕ :=
  sig.foldl (fun c x =>
    if x = (4, 2, 1, 1) then (c.1 + 1, c.2)
    else if x = (4, 2, 2, 0) then (c.1, c.2.1 + 1, c.2.2)
    else if x = (5, 5, 2, 2) then (c.1, c.2.1, c.2.2 + 1)
    else c) (0, 0, 0)

/-- The counters `nbcc1`, `nbcc2` (system.cpp 2291-2305). -/
def counts14 (sig : List (ℕ × ℕ × ℕ × ℕ)) : ℕ × ℕ :=
  sig.foldl (fun c x =>
    if x = (4, 4, 2, 2) then (c.1 + 1, c.2)
    else if x = (6, 6, 2, 2) then (c.1, c.2 + 1)
    else c) (0, 0)

/-- Structure assigned from the counters (system.cpp 2265-2273). -/
def struct12 (c : ℕ × ℕ × ℕ) : ℤ :=
  if c.1 = 12 then 1
  else if c.1 = 6 ∧ c.2.1 = 6 then 2
  else if c.2.2 = 12 then 4
  else 0

/-- Structure assigned from the counters (system.cpp 2306-2308). -/
def struct14 (c : ℕ × ℕ) : ℤ := if c.1 = 6 ∧ c.2 = 8 then 3 else 0

namespace System

/-- Body of `identify_cn12` for one atom (system.cpp 2239-2274). -/
noncomputable def cn12 (s : System) (a : Atom) : Atom :=
  if a.struct = 0 then
    let sig := s.signatures a
    { a with cna := sig, struct := struct12 (counts12 sig) }
  else a

/-- `identify_cn12` (system.cpp 2232-2277).  Each iteration writes only its own atom and reads
positions only. -/
noncomputable def identifyCn12 (s : System) : System := { s with atoms := s.atoms.map s.cn12 }

/-- Body of `identify_cn14` for one atom (system.cpp 2284-2309). -/
noncomputable def cn14 (s : System) (a : Atom) : Atom :=
  if a.struct = 0 then
    let sig := s.signatures a
    { a with cna := sig, struct := struct14 (counts14 sig) }
  else a

/-- `identify_cn14` (system.cpp 2279-2312). -/
noncomputable def identifyCn14 (s : System) : System := { s with atoms := s.atoms.map s.cn14 }

/-- The first `n` candidates of `a` exist and refer to stored atoms (the reads of `temp_neighbors`
in system.cpp 2063-2149). -/
def TempOk (s : System) (n : ℕ) (a : Atom) : Prop :=
  n ≤ a.temp.length ∧ ∀ x ∈ a.temp.take n, x.idx < s.atoms.length

/-- `process_neighbor(ti, tj)` for the first `n` candidates (system.cpp 2086-2092, 2120-2126,
2141-2147). -/
noncomputable def takeNbs (s : System) (n i : ℕ) (a : Atom) : List Nb :=
  (a.temp.take n).map fun x => s.mkNb i x.idx

open Classical in
/-- `get_cna_neighbors(style)` (system.cpp 2065-2095); `style` is 1 or 2. -/
noncomputable def cnaNeighbors (s : System) (style : ℕ) : Except Fault System :=
  let factor : ℝ := if style = 1 then 0.854 else 1.207
  let ncount : ℕ := if style = 1 then 12 else 14
  let s := s.resetMainNeighbors
  if ∀ a ∈ s.atoms, s.TempOk ncount a then
    .ok (s.ofMem fun i => { s.mem i with
      cutoff := some (factor * s.latticeConstant), nbrs := s.takeNbs ncount i (s.mem i) })
  else .error .oob

/-- The adaptive cutoff (system.cpp 2114-2119, 2133-2140). -/
noncomputable def acnaCut (style : ℕ) (t : List DAtom) : ℝ :=
  let d := t.map DAtom.dist
  if style = 1 then 1.207 * (d.take 12).sum / 12
  else 1.207 * (((d.take 8).map fun x => 1.1547 * x).sum + ((d.take 14).drop 8).sum) / 14

open Classical in
/-- `get_acna_neighbors(style)` (system.cpp 2097-2154): atoms with too few candidates get no
neighbours and keep their cutoff. -/
noncomputable def acnaNeighbors (s : System) (style : ℕ) : Except Fault System :=
  let ncount : ℕ := if style = 1 then 12 else 14
  let s := s.resetMainNeighbors
  if ∀ a ∈ s.atoms, ncount ≤ a.temp.length → s.TempOk ncount a then
    .ok (s.ofMem fun i =>
      if ncount ≤ (s.mem i).temp.length then
        { s.mem i with cutoff := some (acnaCut style (s.mem i).temp), nbrs := s.takeNbs ncount i (s.mem i) }
      else s.mem i)
  else .error .oob

/-- `analyis[atoms[ti].structure] += 1` for the first `real_nop` atoms (system.cpp 2333-2336,
2471-2474), on an array of `n` zeros. -/
noncomputable def tally (s : System) (n : ℕ) : Except Fault (List ℕ) :=
  if s.realNop ≤ s.atoms.length ∧ ∀ a ∈ s.atoms.take s.realNop, 0 ≤ a.struct ∧ a.struct < n then
    .ok ((s.atoms.take s.realNop).foldl (fun l a => l.modify a.struct.toNat (· + 1)) (List.replicate n 0))
  else .error .oob

/-- `atoms[i].structure = 0` for all atoms (system.cpp 2436-2438). -/
def resetStruct (s : System) : System := { s with atoms := s.atoms.map fun a => { a with struct := 0 } }

/-- `ccalculate_cna(method)` (system.cpp 2418-2477).  The return value of the number search is
ignored; `usecells` and the candidate lists are those left by earlier calls. -/
noncomputable def ccalculateCna (σ : StdSort) (s : System) (method : ℕ) : Except Fault (System × List ℕ) := do
  let (s, _) ← s.resetStruct.neighborsByNumber σ 3 14 false
  let s ← if method = 1 then s.cnaNeighbors 1 else s.acnaNeighbors 1
  let s := s.identifyCn12
  let s ← if method = 1 then s.cnaNeighbors 2 else s.acnaNeighbors 2
  let s := s.identifyCn14
  let r ← s.tally 5
  return (s, r)

/-- `calculate_cna(lattice_constant)` (core.py 1237-1283); the result lists the counts of others,
fcc, hcp, bcc, ico. -/
noncomputable def calculateCna (σ : StdSort) (s : System) (lc : Option ℝ) : Except Fault (System × List ℕ) :=
  match lc with
  | none => s.ccalculateCna σ 2
  | some a => ({ s with latticeConstant := a } : System).ccalculateCna σ 1

/-! ### Diamond -/

/-- Neighbours found by `get_diamond_neighbors` for atom `i` (system.cpp 2046-2062): the four nearest
candidates of each of the four nearest candidates, except `i` itself. -/
noncomputable def diamondNbs (s : System) (i : ℕ) : List Nb :=
  (((s.mem i).temp.take 4).flatMap fun x =>
    ((s.mem x.idx).temp.take 4).filter fun y => decide (i ≠ y.idx)).map fun y => s.mkNb i y.idx

open Classical in
/-- `get_diamond_neighbors` (system.cpp 2034-2063). -/
noncomputable def diamondNeighbors (s : System) : Except Fault System :=
  let s := s.resetMainNeighbors
  if ∀ a ∈ s.atoms, s.TempOk 4 a then
    .ok (s.ofMem fun i => { s.mem i with
      nn1 := ((s.mem i).temp.take 4).map DAtom.idx, nbrs := s.diamondNbs i })
  else .error .oob

/-- The cutoffs of `identify_cndia` (system.cpp 2356-2367). -/
noncomputable def diaCut (a : Atom) : Atom :=
  if a.nbrs.length > 11 then
    { a with cutoff := some (1.207 * ((a.nbrs.take 12).map Nb.dist).sum / 12) }
  else a

/-- First pass: 1 becomes 5, 2 becomes 8 (system.cpp 2374-2381). -/
def diaRename (a : Atom) : Atom :=
  if a.struct = 1 then { a with struct := 5 }
  else if a.struct = 2 then { a with struct := 8 }
  else a

/-- The loop over a list of neighbours with `break` (system.cpp 2385-2395, 2401-2411). -/
def firstDiamond (m : Mem) (ns : List ℕ) (cubic hex old : ℤ) : ℤ :=
  match ns with
  | [] => old
  | n :: ns =>
    if (m n).struct = 5 then cubic
    else if (m n).struct = 8 then hex
    else firstDiamond m ns cubic hex old

/-- Second pass (system.cpp 2383-2397), sequential: later atoms see earlier changes. -/
def diaPass1 (is : List ℕ) (m : Mem) : Mem :=
  is.foldl (fun m i =>
    if (m i).struct ≠ 5 ∧ (m i).struct ≠ 8 then
      Function.update m i { m i with struct := firstDiamond m (m i).nn1 6 9 (m i).struct }
    else m) m

/-- Third pass (system.cpp 2399-2414). -/
def diaPass2 (is : List ℕ) (m : Mem) : Mem :=
  is.foldl (fun m i =>
    if (m i).struct ≠ 5 ∧ (m i).struct ≠ 8 ∧ (m i).struct ≠ 6 ∧ (m i).struct ≠ 9 then
      Function.update m i { m i with struct := firstDiamond m ((m i).nbrs.map Nb.idx) 7 10 (m i).struct }
    else m) m

/-- `identify_cndia` (system.cpp 2342-2416). -/
noncomputable def identifyCndia (s : System) : Except Fault System := do
  let s ← s.diamondNeighbors
  let s := { s with atoms := s.atoms.map diaCut }
  let s := s.identifyCn12
  let s := { s with atoms := s.atoms.map diaRename }
  let is := List.range s.atoms.length
  return s.ofMem (diaPass2 is (diaPass1 is s.mem))

/-- `cidentify_diamond_structure` (system.cpp 2314-2340). -/
noncomputable def cidentifyDiamond (s : System) : Except Fault (System × List ℕ) := do
  let s ← s.resetStruct.identifyCndia
  let r ← s.tally 11
  return (s, r)

/-- `reset_neighbors` (core.py 603-621). -/
def resetNeighbors (s : System) : System := { s.resetAllNeighbors with neighborsFound := false }

/-- `identify_diamond(find_neighbors)` (core.py 1285-1330); the result lists the counts of the
structure codes 0 to 10. -/
noncomputable def identifyDiamond (σ : StdSort) (s : System) (find : Bool) : Except Fault (System × List ℕ) := do
  let s1 ← if find then s.resetNeighbors.findNeighbors σ 0 (.number 3 4 false) else .ok s
  s1.cidentifyDiamond

/-- `find_diamond_neighbors` (core.py 574-600), with the default threshold 2. -/
noncomputable def findDiamondNeighbors (σ : StdSort) (s : System) : Except Fault System := do
  let s ← s.resetNeighbors.findNeighbors σ 0 (.number 2 4 false)
  s.diamondNeighbors

end System

end Pyscal
