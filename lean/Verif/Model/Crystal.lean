import Verif.Model.Store

/-!
`make_crystal` (crystal_structures.py), `System.remap_atoms` (core.py 2111-2184),
`System.extract_cubic_box` (core.py 2027-2088), `System.get_concentration` (core.py 2090-2109).
-/

namespace Pyscal

/-! ### make_crystal -/

/-- The data of one branch of `make_crystal`: `[xfact, yfact, zfact]` and the atoms of the unit cell
(`unitcellx`, `unitcelly`, `unitcellz`, `atomtype`) (crystal_structures.py 40-240). -/
structure UnitCell where
  fact : V3
  sites : List (V3 × ℤ)

/-- The branches of `make_crystal` (crystal_structures.py 59-250); entries not assigned are zero. -/
noncomputable def unitCell (a ca : ℝ) : String → Option UnitCell
  | "sc" => some ⟨⟨1, 1, 1⟩, [(⟨0, 0, 0⟩, 1)]⟩
  | "bcc" => some ⟨⟨1, 1, 1⟩, [(⟨0, 0, 0⟩, 1), (⟨0.5 * a, 0.5 * a, 0.5 * a⟩, 1)]⟩
  | "fcc" => some ⟨⟨1, 1, 1⟩, [(⟨0, 0, 0⟩, 1), (⟨0.5 * a, 0, 0.5 * a⟩, 1), (⟨0, 0.5 * a, 0.5 * a⟩, 1), (⟨0.5 * a, 0.5 * a, 0⟩, 1)]⟩
  | "hcp" => some ⟨⟨1, Real.sqrt 3, ca⟩, [(⟨0, 0, 0⟩, 1), (⟨0.5 * a, 0.5 * a * Real.sqrt 3, 0⟩, 1),
      (⟨0.5 * a, a * (1.0 / 6.0) * Real.sqrt 3, 0.5 * a * ca⟩, 1), (⟨0, 2.0 * a * (1.0 / Real.sqrt 3), 0.5 * a * ca⟩, 1)]⟩
  | "diamond" => some ⟨⟨1, 1, 1⟩, [(⟨0, 0, 0⟩, 1), (⟨0.25 * a, 0.25 * a, 0.25 * a⟩, 1), (⟨0.50 * a, 0.50 * a, 0.00 * a⟩, 1),
      (⟨0.75 * a, 0.75 * a, 0.25 * a⟩, 1), (⟨0.50 * a, 0.00 * a, 0.50 * a⟩, 1), (⟨0.00 * a, 0.50 * a, 0.50 * a⟩, 1),
      (⟨0.75 * a, 0.25 * a, 0.75 * a⟩, 1), (⟨0.25 * a, 0.75 * a, 0.75 * a⟩, 1)]⟩
  | "a15" => some ⟨⟨1, 1, 1⟩, [(⟨0, 0, 0⟩, 1), (⟨0.50 * a, 0.50 * a, 0.50 * a⟩, 1), (⟨0.25 * a, 0.50 * a, 0.00 * a⟩, 1),
      (⟨0.75 * a, 0.50 * a, 0.00 * a⟩, 1), (⟨0.00 * a, 0.25 * a, 0.50 * a⟩, 1), (⟨0.00 * a, 0.75 * a, 0.50 * a⟩, 1),
      (⟨0.50 * a, 0.00 * a, 0.25 * a⟩, 1), (⟨0.50 * a, 0.00 * a, 0.75 * a⟩, 1)]⟩
  | "l12" => some ⟨⟨1, 1, 1⟩, [(⟨0, 0, 0⟩, 1), (⟨0.5 * a, 0, 0.5 * a⟩, 2), (⟨0, 0.5 * a, 0.5 * a⟩, 2), (⟨0.5 * a, 0.5 * a, 0⟩, 2)]⟩
  | "b2" => some ⟨⟨1, 1, 1⟩, [(⟨0, 0, 0⟩, 1), (⟨0.5 * a, 0.5 * a, 0.5 * a⟩, 2)]⟩
  | _ => none

/-- The cells visited by the loops (crystal_structures.py 261-264), as `(i-1, j-1, k-1)`. -/
def crystalCells (nx ny nz : ℕ) : List (ℕ × ℕ × ℕ) :=
  (List.range nx).flatMap fun i => (List.range ny).flatMap fun j => (List.range nz).map fun k => (i, j, k)

/-- One position (crystal_structures.py 266-268), `noise = 0`. -/
noncomputable def crystalPos (a : ℝ) (fact : V3) (c : ℕ × ℕ × ℕ) (p : V3) : V3 :=
  ⟨p.x + a * fact.x * (c.1 : ℝ), p.y + a * fact.y * (c.2.1 : ℝ), p.z + a * fact.z * (c.2.2 : ℝ)⟩

/-- `make_crystal(structure, lattice_constant=a, repetitions=[nx, ny, nz], ca_ratio=ca)` with `noise = 0`
(crystal_structures.py 9-281); repetition counts are natural numbers (negative ones give no atoms and a negative
box). -/
noncomputable def makeCrystal (structure_ : String) (a : ℝ) (nx ny nz : ℕ) (ca : ℝ) : Except Fault (List Atom × Mat3) :=
  match unitCell a ca structure_ with
  | none => .error .valueError
  | some u =>
    let atoms := ((crystalCells nx ny nz).flatMap fun c => u.sites.map fun p => ({ pos := crystalPos a u.fact c p.1, type := p.2 } : Atom)).mapIdx
      fun (k : ℕ) at_ => { at_ with id := (k : ℤ) + 1, loc := k }
    .ok (atoms, ⟨⟨nx * a * u.fact.x, 0, 0⟩, ⟨0, ny * a * u.fact.y, 0⟩, ⟨0, 0, nz * a * u.fact.z⟩⟩)

/-- One position with noise (crystal_structures.py 266-272): `np.random.normal(loc, scale)` is `loc + scale * g`, where `g` is the next standard normal number of the
random number generator; `g` holds the three numbers drawn for this atom. -/
noncomputable def noisyPos (noise : ℝ) (g p : V3) : V3 := if noise > 0 then ⟨p.x + noise * g.x, p.y + noise * g.y, p.z + noise * g.z⟩ else p

/-- `make_crystal(structure, lattice_constant=a, repetitions=[nx, ny, nz], noise=noise, ca_ratio=ca)` (crystal_structures.py 9-281), where `gauss k` are the three random
numbers drawn for the atom with index `k`. -/
noncomputable def makeCrystalNoise (structure_ : String) (a : ℝ) (nx ny nz : ℕ) (ca noise : ℝ) (gauss : ℕ → V3) : Except Fault (List Atom × Mat3) :=
  match unitCell a ca structure_ with
  | none => .error .valueError
  | some u =>
    let atoms := ((crystalCells nx ny nz).flatMap fun c => u.sites.map fun p => ({ pos := crystalPos a u.fact c p.1, type := p.2 } : Atom)).mapIdx
      fun (k : ℕ) at_ => { at_ with pos := noisyPos noise (gauss k) at_.pos, id := (k : ℤ) + 1, loc := k }
    .ok (atoms, ⟨⟨nx * a * u.fact.x, 0, 0⟩, ⟨0, ny * a * u.fact.y, 0⟩, ⟨0, 0, nz * a * u.fact.z⟩⟩)

/-! ### remap_atoms -/

/-- One coordinate (core.py 2137-2148). -/
noncomputable def remapCoord (b d : ℝ) : ℝ := if d < 0 then d + b else if d ≥ b then d - b else d

/-- `atom.pos` moved by one box length where needed (core.py 2135-2149). -/
noncomputable def remapPos (b : Mat3) (p : V3) : V3 := ⟨remapCoord b.r0.x p.x, remapCoord b.r1.y p.y, remapCoord b.r2.z p.z⟩

open Classical in
/-- `0 <= pos[i] < box[i][i]` (core.py 2155-2157). -/
noncomputable def insideBox (b : Mat3) (p : V3) : Bool :=
  decide (0 ≤ p.x ∧ p.x < b.r0.x) && decide (0 ≤ p.y ∧ p.y < b.r1.y) && decide (0 ≤ p.z ∧ p.z < b.r2.z)

open Classical in
/-- The list `pairs` (core.py 2162-2168): `i` once for every later atom within `dtol`. -/
noncomputable def System.imagePairs (s : System) (dtol : ℝ) (atoms : List Atom) : List ℕ :=
  (List.range atoms.length).flatMap fun i => ((List.range atoms.length).filter fun j =>
    decide (i < j) && decide (s.getDistance (atoms.getD i default) (atoms.getD j default) ≤ dtol)).map fun _ => i

/-- `newatoms` (core.py 2169-2171). -/
noncomputable def System.removeImages (s : System) (dtol : ℝ) (atoms : List Atom) : List Atom :=
  (atoms.zipIdx.filter fun p => !(s.imagePairs dtol atoms).contains p.2).map Prod.fst

/-- `remap_atoms(remove_images, assign, remove_atoms, dtol)` (core.py 2111-2184); the second component is the return value. -/
noncomputable def System.remapAtoms (s : System) (images assign remove : Bool) (dtol : ℝ) : Except Fault (System × Option (List Atom)) := do
  let box := s.getBox
  let atoms ← s.getAtoms
  let s ← s.setBox box
  let atoms := atoms.map fun a => { a with pos := remapPos box a.pos }
  let atoms := if remove then atoms.filter fun a => insideBox box a.pos else atoms
  let atoms := if images then s.removeImages dtol atoms else atoms
  if assign then return (s.setAtoms atoms, none) else return (s, some atoms)

/-! ### extract_cubic_box -/

open Classical in
/-- `abs(x - y) < 1E-5` on two coordinates and equal types (core.py 2053-2055); `f`, `g` select the coordinates. -/
noncomputable def aligned (f g : V3 → ℝ) (anchor atom : Atom) : Bool :=
  decide (|f atom.pos - f anchor.pos| < 1e-5) && decide (|g atom.pos - g anchor.pos| < 1e-5) && decide (atom.type = anchor.type)

open Classical in
/-- The loop for one axis (core.py 2050-2059), `best = (mindist, minatom)`. -/
noncomputable def System.axisAtom (s : System) (f g : V3 → ℝ) (anchor : Atom) (atoms : List Atom) : ℝ × Option Atom :=
  atoms.foldl (fun best atom =>
    if aligned f g anchor atom && decide (s.getDistance anchor atom < best.1) then (s.getDistance anchor atom, some atom) else best) (10000, none)

/-- The interval of one axis (core.py 2060-2064). -/
noncomputable def System.axisRange (s : System) (f g h : V3 → ℝ) (anchor : Atom) (atoms : List Atom) : Except Fault (ℝ × ℝ) :=
  match (s.axisAtom f g anchor atoms).2 with
  | none => .error .valueError
  | some m => .ok (min (h anchor.pos) (h m.pos), max (h anchor.pos) (h m.pos))

open Classical in
/-- `nb[i][0] <= pos[i] < nb[i][1]` (core.py 2069-2073). -/
noncomputable def inRanges (x y z : ℝ × ℝ) (p : V3) : Bool :=
  decide (x.1 ≤ p.x ∧ p.x < x.2) && decide (y.1 ≤ p.y ∧ p.y < y.2) && decide (z.1 ≤ p.z ∧ p.z < z.2)

/-- `extract_cubic_box(repeat)` (core.py 2027-2088).  The first component is the system afterwards: `repeat` scales its box. -/
noncomputable def System.extractCubicBox (s : System) (rx ry rz : ℕ) : Except Fault (System × Mat3 × List Atom) := do
  let (s, ratoms) ← s.repeat rx ry rz false true
  match ratoms with
  | [] => .error .indexError
  | anchor :: rest =>
    let x ← s.axisRange V3.y V3.z V3.x anchor rest
    let y ← s.axisRange V3.x V3.z V3.y anchor rest
    let z ← s.axisRange V3.x V3.y V3.z anchor rest
    let atoms := (anchor :: rest).filter fun a => inRanges x y z a.pos
    let atoms := atoms.map fun a => { a with pos := ⟨a.pos.x - x.1, a.pos.y - y.1, a.pos.z - z.1⟩ }
    return (s, ⟨⟨x.2 - x.1, 0, 0⟩, ⟨0, y.2 - y.1, 0⟩, ⟨0, 0, z.2 - z.1⟩⟩, atoms)

/-! ### get_concentration -/

/-- `get_concentration()` (core.py 2090-2109): `numpy.unique(..., return_counts=True)` is the sorted list of the distinct
values and the number of occurrences of each.  Keys are the types (as strings in the code). -/
def System.getConcentration (s : System) : Except Fault (List (ℤ × ℕ)) := do
  let atoms ← s.getAtoms
  let types := atoms.map Atom.type
  return (types.dedup.mergeSort (· ≤ ·)).map fun t => (t, types.count t)

end Pyscal
