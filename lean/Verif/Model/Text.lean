import Verif.Model.Num

/-!
Text: lines of a file, `str.split`, `str.strip`, Python indexing, dictionaries, and the conversions
between numbers and their printed form.

A text file is the list of its lines, each with its end-of-line character.
-/

namespace Pyscal

/-- The characters at which `str.split()` splits and which `str.strip()` removes.  The Unicode spaces
above U+00A0 are left out.  Python semantics, no code of its own. -/
def isSpace (c : Char) : Bool :=
  c.toNat = 32 || (9 ≤ c.toNat && c.toNat ≤ 13) || (28 ≤ c.toNat && c.toNat ≤ 31) || c.toNat = 133 || c.toNat = 160

/-- `line.strip().split()` (formats/lammps.py 106, 111, 116, 126, 147). -/
def words (s : String) : List String :=
  ((s.toList.splitOnP isSpace).filter fun w => w ≠ []).map String.ofList

/-- `line.strip()` (formats/lammps.py 102, 345). -/
def strip (s : String) : String :=
  String.ofList ((s.toList.dropWhile isSpace).reverse.dropWhile isSpace).reverse

/-- `" ".join(ws)`.  Python semantics, no code of its own. -/
def joinWords (ws : List String) : String := String.ofList ([' '].intercalate (ws.map String.toList))

/-- `" ".join(ws) + "\n"` (the lines written in lammps.py 217-313). -/
def textLine (ws : List String) : String := joinWords ws ++ "\n"

/-- `xs[i]` for a Python list of length `n`: the position meant by `i`, if any.  Python semantics,
no code of its own. -/
def pyIdx (n : ℕ) (i : ℤ) : Option ℕ :=
  if 0 ≤ i then (if i < n then some i.toNat else none)
  else if 0 ≤ i + n then some (i + n).toNat else none

/-- `xs[i]`.  Python semantics, no code of its own. -/
def pyItem {α : Type} (xs : List α) (i : ℤ) : Option α := (pyIdx xs.length i).bind fun k => xs[k]?

/-- `d[k] = v` for a dictionary: a new key goes to the end, an old key keeps its place.  Python
semantics, no code of its own. -/
def dictSet {α : Type} (d : List (String × α)) (k : String) (v : α) : List (String × α) :=
  if d.any (fun p => p.1 = k) then d.map fun p => if p.1 = k then (k, v) else p else d ++ [(k, v)]

/-- `d.get(k)`.  Python semantics, no code of its own. -/
def dictGet {α : Type} (d : List (String × α)) (k : String) : Option α :=
  (d.find? fun p => p.1 = k).map Prod.snd

/-- Conversions between numbers and text: `int(s)`, `float(s)` (`none` is ValueError), `"%d" % n`,
`"%f" % x` and `str(x)` of a double.  `double` is the set of numbers a double can hold.  Python
semantics, no code of its own. -/
structure Codec where
  int : String → Option ℤ
  float : String → Option ℝ
  fmtD : ℤ → String
  fmtF : ℝ → String
  str : ℝ → String
  double : Set ℝ

/-- A non-empty text without white space.  No code; used to state round trips. -/
def IsWord (w : String) : Prop := w.toList ≠ [] ∧ ∀ c ∈ w.toList, isSpace c = false

/-- What is assumed of the conversions of Python: integers are read back exactly, `%f` prints six
decimals, `str` of a double is read back exactly.  Assumption, no code. -/
structure Codec.Lawful (C : Codec) : Prop where
  int_fmtD : ∀ n, C.int (C.fmtD n) = some n
  float_fmtD : ∀ n : ℤ, (n : ℝ) ∈ C.double → C.float (C.fmtD n) = some (n : ℝ)
  float_fmtF : ∀ x, ∃ y, C.float (C.fmtF x) = some y ∧ |y - x| ≤ 1 / 1000000
  float_fmtF_zero : C.float (C.fmtF 0) = some 0
  float_str : ∀ x ∈ C.double, C.float (C.str x) = some x
  word_fmtD : ∀ n, IsWord (C.fmtD n)
  word_fmtF : ∀ x, IsWord (C.fmtF x)
  word_str : ∀ x, IsWord (C.str x)

/-- `int(s)` as a statement that may raise.  Python semantics, no code of its own. -/
def Codec.readInt (C : Codec) (s : String) : Except Fault ℤ :=
  match C.int s with
  | some n => .ok n
  | none => .error .valueError

/-- `float(s)` as a statement that may raise.  Python semantics, no code of its own. -/
def Codec.readFloat (C : Codec) (s : String) : Except Fault ℝ :=
  match C.float s with
  | some x => .ok x
  | none => .error .valueError

end Pyscal
