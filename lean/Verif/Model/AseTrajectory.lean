import Verif.Model.Trajectory
import Verif.Model.Formats

/-! Conversion of trajectories to ASE objects (trajectory.py). -/

namespace Pyscal

/-- `Timeslice.to_ase(species)` (trajectory.py 131-151, 563-584): every block is read from the file without custom columns and converted
as by `System.to_ase`.  The systems are dropped afterwards, so what the conversion writes to their atoms does not matter. -/
noncomputable def Codec.sliceToAse (C : Codec) (known : String → Bool) (h : TrajHeap) (ts : Slices) (species : Option (List String)) :
    Except Fault (List AseAtoms) :=
  ts.pairs.mapM fun p => do
    let lines ← (h p.1).getBlock p.2
    let s ← System.init.readDump C (some lines) []
    (s.convertSnap known species).2

end Pyscal
