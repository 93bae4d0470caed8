import Verif.Model.Cna
import Verif.Model.OrderParams
import Verif.Model.Voronoi
import Verif.Model.SearchState

/-! Specification for histories of analysis calls. -/

namespace Pyscal

/-- What identifies an atom to the user: its number, type, position, place in the list, and whether it is a
ghost. -/
def Spec.identity (a : Atom) : ℤ × ℤ × V3 × ℕ × Bool := (a.id, a.type, a.pos, a.loc, a.ghost)

/-- An atom without what a neighbour search writes. -/
def Spec.atomRest (a : Atom) : Atom := { a with nbrs := [], temp := [], condition := some 0, cutoff := none }

/-- A system without what a neighbour search writes: the neighbour data of the atoms and the settings of the
search.  The flag `neighbors_found` is part of the rest. -/
def Spec.searchRest (s : System) : System :=
  { s with atoms := s.atoms.map Spec.atomRest, filter := 0, usecells := false, neighbordistance := 0, voronoiused := false }

open System in
/-- One call of an analysis function on a `System` and the state it leaves.  Calls modelled with `Except` are
included when they return; calls modelled with `Py` also when they raise, among them neighbour searches. -/
inductive Spec.AnalysisCall : System → System → Prop
  | findNeighbors {s g : System} (σ : StdSort) (f : ℕ) (m : Method) (h : s.findNeighbors σ f m = .ok g) : AnalysisCall s g
  | failedSearch (s : System) (σ : StdSort) (f : ℕ) (m : Method) (e : Fault) (h : (findNeighborsS σ f m s).2 = .error e) (he : e ≠ .oob) :
      AnalysisCall s (findNeighborsS σ f m s).1
  | failedDiamond (s : System) (σ : StdSort) (e : Fault) (h : (findDiamondNeighborsS σ s).2 = .error e) (he : e ≠ .oob) :
      AnalysisCall s (findDiamondNeighborsS σ s).1
  | findVoronoi {s g : System} (T : Tessellation) (f : ℕ) (e : ℤ) (h : s.findVoronoi T f e = .ok g) : AnalysisCall s g
  | vorovector {s g : System} (e a : ℝ) (h : s.calculateVorovector e a = .ok g) : AnalysisCall s g
  | resetNeighbors (s : System) : AnalysisCall s s.resetNeighbors
  | atomCutoff (s : System) (f : ℝ) : AnalysisCall s (s.setAtomCutoff f)
  | q {s g : System} (ls : List ℤ) (av only : Bool) (c : Option (Atom → Except Fault ℤ)) (clear : Bool)
      (h : s.calculateQ ls av only c clear = .ok g) : AnalysisCall s g
  | solids (s : System) (b t a : PyNum) (cl : Bool) (q : PyNum) (c : ℝ) (r : Bool) :
      AnalysisCall s (findSolids b t a cl q c r s).1
  | clusters {s : System} {r : System × ℕ} (c : Atom → Except Fault ℤ) (x : ℝ) (h : s.clusterAtoms c x = .ok r) : AnalysisCall s r.1
  | disorder (s : System) (av : Bool) (q : ℤ) : AnalysisCall s (calculateDisorder av q s).1
  | cna {s : System} {r : System × List ℕ} (σ : StdSort) (lc : Option ℝ) (h : s.calculateCna σ lc = .ok r) : AnalysisCall s r.1
  | diamond {s : System} {r : System × List ℕ} (σ : StdSort) (find : Bool) (h : s.identifyDiamond σ find = .ok r) :
      AnalysisCall s r.1
  | diamondNeighbors {s g : System} (σ : StdSort) (h : s.findDiamondNeighbors σ = .ok g) : AnalysisCall s g
  | centrosymmetry (s : System) (σ : StdSort) (n : ℤ) : AnalysisCall s (calculateCentrosymmetry σ n s).1
  | angular {s g : System} (σ : StdSort) (h : s.calculateAngular σ = .ok g) : AnalysisCall s g
  | chi {s g : System} (h : s.calculateChi = .ok g) : AnalysisCall s g
  | entropy (s : System) (rm sigma rstart h : ℝ) (loc : Bool) (av : EntropyAverage) :
      AnalysisCall s (calculateEntropy rm sigma rstart h loc av s).1
  | sro (s : System) (ref : ℤ) (av : Bool) (n : ℤ) : AnalysisCall s (calculateSro ref av n s).1
  | pmsro (s : System) (ref cmp : ℤ) (av : Bool) (n : ℤ) (d : Bool) : AnalysisCall s (calculatePmsro ref cmp av n d s).1
  | energy {s g : System} (σ : StdSort) (lammps : ℤ → Option ℝ) (av : Bool) (h : s.calculateEnergy σ lammps av = .ok g) :
      AnalysisCall s g

/-- A history of analysis calls. -/
inductive Spec.AnalysisRun : System → System → Prop
  | nil (s : System) : AnalysisRun s s
  | cons {s t g : System} (h : Spec.AnalysisCall s t) (r : AnalysisRun t g) : AnalysisRun s g

end Pyscal
