import Verif.Spec.Dump
import Verif.Model.Trajectory

/-!
What slicing, loading and exporting mean, stated on the list of frames of the file.
-/

namespace Pyscal.Spec

open Pyscal

/-- A bound of a slice counted from the start: negative numbers count from the end. -/
def fromStart (n x : ℤ) : ℤ := if x < 0 then x + n else x

/-- `k` is one of the indices selected by `[start:stop:step]` from `n` items. -/
def Selected (n : ℤ) (start stop : Option ℤ) (step k : ℤ) : Prop :=
  0 ≤ k ∧ k < n ∧
    if 0 < step then
      (start.map (fromStart n)).getD 0 ≤ k ∧ k < (stop.map (fromStart n)).getD n ∧ step ∣ k - max ((start.map (fromStart n)).getD 0) 0
    else
      k ≤ (start.map (fromStart n)).getD (n - 1) ∧ (stop.map (fromStart n)).getD (-1) < k ∧ step ∣ min ((start.map (fromStart n)).getD (n - 1)) (n - 1) - k

/-- The blocks held in memory. -/
abbrev Memory := ℕ → ℕ → Option Block

/-- The operations of a user on trajectories, by trajectory and block. -/
inductive Op where
  | load (i k : ℕ)
  | unload (i k : ℕ)
  | edit (i k : ℕ) (f : Block → Block)
  | toFile (ts : List (ℕ × ℕ))
  | toSystem (ts : List (ℕ × ℕ)) (keys : List String)

/-- What an operation does to the memory: loading takes the content of the file, editing changes what
is loaded, unloading forgets it, exporting changes nothing. -/
noncomputable def Op.effect (content : ℕ → ℕ → Option Block) (m : Memory) : Op → Memory
  | .load i k => match content i k with
    | some b => Function.update m i (Function.update (m i) k (some b))
    | none => m
  | .unload i k => Function.update m i (Function.update (m i) k none)
  | .edit i k f => Function.update m i (Function.update (m i) k ((m i k).map f))
  | .toFile _ => m
  | .toSystem _ _ => m

/-- The blocks an operation refers to. -/
def Op.blocks : Op → List (ℕ × ℕ)
  | .load i k => [(i, k)]
  | .unload i k => [(i, k)]
  | .edit i k _ => [(i, k)]
  | .toFile ts => ts
  | .toSystem ts _ => ts

/-- The lines hold the numbers of a block of `n` atoms, with the columns in the order `cols`. -/
structure HoldsBlock (C : Codec) (b : Block) (lines : List String) (n : ℕ) (cols : List String) : Prop where
  length : lines.length = n + 9
  count : ∃ l, lines[3]? = some l ∧ C.int (strip l) = some (n : ℤ)
  box : List.Forall₂ (fun l r => (words l).map C.float = r.map some) ((lines.drop 5).take 3) b.box
  header : ∃ l, lines[8]? = some l ∧ words l = "ITEM:" :: "ATOMS" :: cols
  row : ∀ k < n, ∃ l, lines[9 + k]? = some l ∧ (words l).map C.float = cols.map fun c => (dictGet b.atoms c).bind fun v => v[k]?

/-- Same box and same columns under the same names. -/
def SameBlock (b b' : Block) : Prop := b.box = b'.box ∧ ∀ c, dictGet b.atoms c = dictGet b'.atoms c

/-- The block is rectangular: three box rows of the same width, and `n` values under each of the distinct names. -/
structure Rectangular (b : Block) (n : ℕ) : Prop where
  box : b.box.length = 3 ∧ ∃ w, 0 < w ∧ ∀ r ∈ b.box, r.length = w
  keys : (b.atoms.map Prod.fst).Nodup
  cols : ∀ q ∈ b.atoms, q.2.length = n

end Pyscal.Spec
