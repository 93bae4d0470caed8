import Verif.Spec.Sro
import Verif.Props.Entropy

/-! Properties C36, C37 and the short range order part of C24. -/

namespace Pyscal

open Finset

theorem getAllAtoms_inv {s : System} {reals : List Atom} (hi : StoreInv s reals) : s.getAllAtoms = .ok s.atoms := by
  unfold System.getAllAtoms
  rw [if_pos hi.nop.le, hi.nop, List.take_length]

/-- Whatever list is assigned, it comes first in the stored atoms. -/
theorem assign_prefix {s s' : System} {l : List Atom} (h : s.assignAtoms l = .ok s') : ∃ extra, s'.atoms = l ++ extra := by
  unfold System.assignAtoms at h
  dsimp only at h
  split_ifs at h
  · cases hr : s.repeatAtoms (padReps l.length) (padReps l.length) (padReps l.length) l true true with
    | error e => rw [hr] at h; simp [bind, Except.bind] at h
    | ok r =>
      rw [hr] at h
      simp only [bind, Except.bind, pure, Except.pure, Except.ok.injEq] at h
      obtain ⟨s1, out⟩ := r
      rw [← h]
      exact ⟨_, (repeatAtoms_ok hr).1⟩
  · obtain rfl := Except.ok.inj h
    exact ⟨[], by simp [System.setAtoms]⟩

/-- The distance `get_distance` gives between an atom and one of its neighbours. -/
noncomputable def Spec.nbDistance (s : System) (a : Atom) (x : Nb) : ℝ := s.getDistance a (s.atoms.getD x.idx default)

/-- The type of a neighbour. -/
def Spec.nbType (s : System) (x : Nb) : ℤ := (s.atoms.getD x.idx default).type

theorem shellData_ok (s : System) (a : Atom) (h : ∀ x ∈ a.nbrs, x.idx < s.atoms.length) :
    shellData s s.atoms a = .ok (a.nbrs.map fun x => (s.atoms.getD x.idx default, Spec.nbDistance s a x)) := by
  refine mapM_ok_map _ _ _ fun x hx => ?_
  unfold pyGet
  rw [List.getElem?_eq_getElem (h x hx)]
  simp [Except.map, Spec.nbDistance, List.getD_eq_getElem?_getD, List.getElem?_eq_getElem (h x hx)]

theorem shellData_range {s : System} {a : Atom} {d : List (Atom × ℝ)} (h : shellData s s.atoms a = .ok d) :
    ∀ x ∈ a.nbrs, x.idx < s.atoms.length := by
  intro x hx
  obtain ⟨k, hk, rfl⟩ := List.getElem_of_mem hx
  obtain ⟨b, hb, -⟩ := (mapM_except _ _ _ h).2 k _ (List.getElem?_eq_getElem hk)
  unfold pyGet at hb
  by_contra hc
  rw [List.getElem?_eq_none (by omega)] at hb
  cases hb

theorem shellSplit_eq (s : System) (a : Atom) :
    shellSplit (a.nbrs.map fun x => (s.atoms.getD x.idx default, Spec.nbDistance s a x)) =
      ((Spec.shell1 a.nbrs (Spec.nbDistance s a)).map fun x => s.atoms.getD x.idx default,
        (Spec.shell2 a.nbrs (Spec.nbDistance s a)).map fun x => s.atoms.getD x.idx default) := by
  unfold shellSplit Spec.shell1 Spec.shell2 Spec.meanOver
  simp only [List.map_map, List.length_map, List.filter_map, Function.comp_def, gt_iff_lt]

theorem countType_nb (s : System) (l : List Nb) (t : ℤ) :
    countType (l.map fun x => s.atoms.getD x.idx default) t = l.countP fun x => decide (Spec.nbType s x = t) := by
  unfold countType
  rw [List.countP_map]
  rfl

theorem other_nb (s : System) (l : List Nb) (t : ℤ) :
    (l.map fun x => s.atoms.getD x.idx default).length - countType (l.map fun x => s.atoms.getD x.idx default) t =
      l.countP fun x => decide (Spec.nbType s x ≠ t) := by
  rw [countType_nb, List.length_map, List.length_eq_countP_add_countP (fun x => decide (Spec.nbType s x = t)), Nat.add_sub_cancel_left]
  refine List.countP_congr fun x _ => ?_
  simp

theorem sroValue_eq {n c : ℕ} {m : ℝ} (hm : m ≠ 0) : sroValue n c m = Spec.cowley n c m := by
  unfold sroValue Spec.cowley fdiv
  by_cases hc : c = 0
  · simp [hc]
  · have : (c : ℝ) * m ≠ 0 := mul_ne_zero (by exact_mod_cast hc) hm
    simp [hc, this]

/-- The new `sro` of an atom of the reference type. -/
noncomputable def Spec.cowleyShells (s : System) (ref : ℤ) (m : ℝ) (shells : ℤ) (a : Atom) : List (Option ℝ) :=
  let value (l : List Nb) := Spec.cowley (l.countP fun x => decide (Spec.nbType s x ≠ ref)) l.length m
  if shells = 2 then [value (Spec.shell1 a.nbrs (Spec.nbDistance s a)), value (Spec.shell2 a.nbrs (Spec.nbDistance s a))]
  else if shells = 1 then [value a.nbrs]
  else a.sro

theorem sro1_eq (s : System) (ref : ℤ) {m : ℝ} (hm : m ≠ 0) (shells : ℤ) (a : Atom) (h : ∀ x ∈ a.nbrs, x.idx < s.atoms.length) :
    sro1 s s.atoms ref m shells a = .ok { a with sro := Spec.cowleyShells s ref m shells a } := by
  unfold sro1 Spec.cowleyShells
  rw [shellData_ok s a h]
  dsimp only [bind, Except.bind]
  split_ifs with h1 h2
  · rw [shellSplit_eq]
    dsimp only
    rw [other_nb, other_nb, sroValue_eq hm, sroValue_eq hm, List.length_map, List.length_map]
    rfl
  · rw [List.map_map]
    change Except.ok { a with sro := [sroValue ((a.nbrs.map fun x : Nb => s.atoms.getD x.idx default).length - countType (a.nbrs.map fun x : Nb => s.atoms.getD x.idx default) ref)
      (a.nbrs.map fun x : Nb => s.atoms.getD x.idx default).length m] } = _
    rw [other_nb, sroValue_eq hm, List.length_map]
  · rfl

/-- Number of stored atoms of a type. -/
def Spec.numType (s : System) (t : ℤ) : ℕ := s.atoms.countP fun a => decide (a.type = t)

/-- The type which is not the reference type. -/
def Spec.otherType (ref : ℤ) : ℤ := if ref = 1 then 2 else 1

theorem sro_conc (s : System) {ref : ℤ} (hr : ref = 1 ∨ ref = 2) (h1 : 0 < Spec.numType s 1) (h2 : 0 < Spec.numType s 2) :
    (1 - ((if ref = 1 then Spec.numType s 1 else Spec.numType s 2 : ℕ) : ℝ) / ((Spec.numType s 1 + Spec.numType s 2 : ℕ) : ℝ) =
      Spec.numType s (Spec.otherType ref) / (Spec.numType s 1 + Spec.numType s 2)) ∧
    0 < (Spec.numType s (Spec.otherType ref) : ℝ) / (Spec.numType s 1 + Spec.numType s 2) := by
  have h1' : (0 : ℝ) < Spec.numType s 1 := by exact_mod_cast h1
  have h2' : (0 : ℝ) < Spec.numType s 2 := by exact_mod_cast h2
  have h3 : (Spec.numType s 1 : ℝ) + Spec.numType s 2 ≠ 0 := by positivity
  rcases hr with rfl | rfl
  · simp only [Spec.otherType, if_true, Nat.cast_add]
    exact ⟨by field_simp; ring, by positivity⟩
  · have : ¬ ((2 : ℤ) = 1) := by norm_num
    simp only [Spec.otherType, this, if_false, Nat.cast_add]
    exact ⟨by field_simp; ring, by positivity⟩

/-- The atom after `calculate_sro`. -/
noncomputable def Spec.cowleyAtom (s : System) (ref : ℤ) (shells : ℤ) (a : Atom) : Atom :=
  if a.type = ref then
    { a with sro := Spec.cowleyShells s ref (Spec.numType s (Spec.otherType ref) / (Spec.numType s 1 + Spec.numType s 2)) shells a }
  else a

/-- What comes after the checks of `calculate_sro` and `calculate_pmsro`. -/
noncomputable def sroFinish (s : System) (new : Except Fault (List Atom)) (ref : ℤ) (average : Bool) :
    System × Except Fault (Option (List (Option ℝ))) :=
  match new with
  | .error e => (s, .error e)
  | .ok new =>
    match s.assignAtoms new with
    | .error e => (s, .error e)
    | .ok s' =>
      if average then
        match sroAverage new ref with
        | .error e => (s', .error e)
        | .ok v => (s', .ok (some v))
      else (s', .ok none)

theorem sroFinish_ok {s s' : System} {new : Except Fault (List Atom)} {ref : ℤ} {average : Bool} {r : Option (List (Option ℝ))}
    (h : sroFinish s new ref average = (s', .ok r)) :
    ∃ l, new = .ok l ∧ s.assignAtoms l = .ok s' ∧ (average = true → ∃ v, sroAverage l ref = .ok v ∧ r = some v) ∧ (average = false → r = none) := by
  unfold sroFinish at h
  split at h
  · cases congrArg Prod.snd h
  · rename_i new
    split at h
    · cases congrArg Prod.snd h
    · rename_i t ht
      cases average with
      | false =>
        rw [if_neg (by simp)] at h
        obtain rfl : t = s' := congrArg Prod.fst h
        exact ⟨new, rfl, ht, by simp, fun _ => (Except.ok.inj (congrArg Prod.snd h)).symm⟩
      | true =>
        rw [if_pos rfl] at h
        split at h
        · cases congrArg Prod.snd h
        · rename_i v hv
          obtain rfl : t = s' := congrArg Prod.fst h
          exact ⟨new, rfl, ht, fun _ => ⟨v, hv, (Except.ok.inj (congrArg Prod.snd h)).symm⟩, by simp⟩

/-- `calculate_sro` for accepted arguments. -/
theorem calculateSro_eq (s : System) (reals : List Atom) (hi : StoreInv s reals) (ref : ℤ) (average : Bool) (shells : ℤ) (hn : s.neighborsFound = true)
    (hr : ref = 1 ∨ ref = 2) (h1 : 0 < Spec.numType s 1) (h2 : 0 < Spec.numType s 2) :
    System.calculateSro ref average shells s = sroFinish s (s.atoms.mapM fun a => if a.type = ref then sro1 s s.atoms ref
      (Spec.numType s (Spec.otherType ref) / (Spec.numType s 1 + Spec.numType s 2)) shells a else .ok a) ref average := by
  unfold System.calculateSro
  rw [if_neg (by simp [hn]), if_neg (not_not.2 hr), getAllAtoms_inv hi]
  dsimp only
  change (if ¬ (0 < Spec.numType s 1 ∧ 0 < Spec.numType s 2) then _ else _) = _
  rw [if_neg (not_not.2 ⟨h1, h2⟩), ← (sro_conc s hr h1 h2).1]
  rfl

theorem calculateSro_guards {s s' : System} {reals : List Atom} (hi : StoreInv s reals) {ref : ℤ} {average : Bool} {shells : ℤ}
    {r : Option (List (Option ℝ))} (h : System.calculateSro ref average shells s = (s', .ok r)) :
    s.neighborsFound = true ∧ (ref = 1 ∨ ref = 2) ∧ 0 < Spec.numType s 1 ∧ 0 < Spec.numType s 2 := by
  unfold System.calculateSro at h
  by_cases h1 : (!s.neighborsFound) = true
  · rw [if_pos h1] at h; cases congrArg Prod.snd h
  rw [if_neg h1] at h
  by_cases h2 : ¬ (ref = 1 ∨ ref = 2)
  · rw [if_pos h2] at h; cases congrArg Prod.snd h
  rw [if_neg h2, getAllAtoms_inv hi] at h
  dsimp only at h
  change (if ¬ (0 < Spec.numType s 1 ∧ 0 < Spec.numType s 2) then _ else _) = _ at h
  by_cases h3 : ¬ (0 < Spec.numType s 1 ∧ 0 < Spec.numType s 2)
  · rw [if_pos h3] at h; cases congrArg Prod.snd h
  exact ⟨by simpa using h1, not_not.1 h2, not_not.1 h3⟩

theorem sro_mapM (s : System) (ref : ℤ) (shells : ℤ) (hr : ref = 1 ∨ ref = 2) (h1 : 0 < Spec.numType s 1) (h2 : 0 < Spec.numType s 2)
    (hin : ∀ a ∈ s.atoms, a.type = ref → ∀ x ∈ a.nbrs, x.idx < s.atoms.length) :
    (s.atoms.mapM fun a => if a.type = ref then sro1 s s.atoms ref
      (Spec.numType s (Spec.otherType ref) / (Spec.numType s 1 + Spec.numType s 2)) shells a else .ok a) =
      .ok (s.atoms.map (Spec.cowleyAtom s ref shells)) := by
  refine mapM_ok_map _ _ _ fun a ha => ?_
  unfold Spec.cowleyAtom
  split_ifs with hty
  · exact sro1_eq s ref (sro_conc s hr h1 h2).2.ne' shells a (hin a ha hty)
  · rfl

theorem sro_range {s : System} {ref : ℤ} {m : ℝ} {shells : ℤ} {l : List Atom}
    (h : (s.atoms.mapM fun a => if a.type = ref then sro1 s s.atoms ref m shells a else .ok a) = .ok l) :
    ∀ a ∈ s.atoms, a.type = ref → ∀ x ∈ a.nbrs, x.idx < s.atoms.length := by
  intro a ha hty
  obtain ⟨k, hk, rfl⟩ := List.getElem_of_mem ha
  obtain ⟨b, hb, -⟩ := (mapM_except _ _ _ h).2 k _ (List.getElem?_eq_getElem hk)
  rw [if_pos hty] at hb
  unfold sro1 at hb
  cases hd : shellData s s.atoms s.atoms[k] with
  | error e => rw [hd] at hb; cases hb
  | ok d => exact shellData_range hd

/-- **C36**: if `calculate_sro` succeeds, the neighbours have been calculated, the reference type is 1 or 2
and both types occur.  Atoms of other types are unchanged; the atoms of the reference type get Cowley's
value for each shell, with the number of neighbours that are not of the reference type and the
concentration of the other type; nothing else about them changes. -/
theorem C36_sro (s s' : System) (reals : List Atom) (hi : StoreInv s reals) (ref : ℤ) (average : Bool) (shells : ℤ)
    (r : Option (List (Option ℝ))) (h : System.calculateSro ref average shells s = (s', .ok r)) :
    s.neighborsFound = true ∧ (ref = 1 ∨ ref = 2) ∧ 0 < Spec.numType s 1 ∧ 0 < Spec.numType s 2 ∧
    ∀ (i : ℕ) (a : Atom), s.atoms[i]? = some a → s'.atoms[i]? = some (if a.type = ref then
      { a with sro := Spec.cowleyShells s ref (Spec.numType s (Spec.otherType ref) / (Spec.numType s 1 + Spec.numType s 2)) shells a } else a) := by
  obtain ⟨hn, hr, h1, h2⟩ := calculateSro_guards hi h
  refine ⟨hn, hr, h1, h2, fun i a ha => ?_⟩
  rw [calculateSro_eq s reals hi ref average shells hn hr h1 h2] at h
  obtain ⟨l, hl, hs, -⟩ := sroFinish_ok h
  rw [sro_mapM s ref shells hr h1 h2 (sro_range hl)] at hl
  obtain rfl := Except.ok.inj hl
  obtain ⟨extra, he⟩ := assign_prefix hs
  rw [he, List.getElem?_append_left (by rw [List.length_map]; exact (List.getElem?_eq_some_iff.1 ha).1), List.getElem?_map, ha]
  rfl

/-- **C36, range**: a value is at most 1, and it is 1 exactly if no atom of the other type is counted. -/
theorem C36_range (n c : ℕ) (m v : ℝ) (hm : 0 < m) (h : Spec.cowley n c m = some v) : v ≤ 1 ∧ (v = 1 ↔ n = 0) := by
  unfold Spec.cowley at h
  split_ifs at h with hc
  obtain rfl := Option.some.inj h
  have hc' : (0 : ℝ) < c := by exact_mod_cast Nat.pos_of_ne_zero hc
  have h0 : 0 ≤ (n : ℝ) / (c * m) := by positivity
  refine ⟨by linarith, ?_⟩
  constructor
  · intro h
    have : (n : ℝ) / (c * m) = 0 := by linarith
    rw [div_eq_zero_iff] at this
    rcases this with h | h
    · exact_mod_cast h
    · exact absurd h (by positivity)
  · rintro rfl
    simp

theorem addSro_foldlM (l : List (List (Option ℝ))) : ∀ (c : Option ℝ × Option ℝ), (∀ v ∈ l, v.length = 2) →
    l.foldlM addSro c = .ok ((l.map fun v => v.getD 0 none).foldl nanAdd c.1, (l.map fun v => v.getD 1 none).foldl nanAdd c.2) := by
  induction l with
  | nil => intro c _; rfl
  | cons v l ih =>
    intro c h
    obtain ⟨x, y, rfl⟩ := List.length_eq_two.1 (h v List.mem_cons_self)
    rw [List.foldlM_cons]
    change l.foldlM addSro (nanAdd c.1 x, nanAdd c.2 y) = _
    rw [ih _ fun w hw => h w (List.mem_cons_of_mem _ hw)]
    rfl

theorem addSro_foldlM1 (l : List (List (Option ℝ))) : ∀ (c : Option ℝ × Option ℝ), (∀ v ∈ l, v.length = 1) →
    l.foldlM addSro c = .ok ((l.map fun v => v.getD 0 none).foldl nanAdd c.1, (l.map fun v => v.getD 0 none).foldl nanAdd c.2) := by
  induction l with
  | nil => intro c _; rfl
  | cons v l ih =>
    intro c h
    obtain ⟨x, rfl⟩ := List.length_eq_one_iff.1 (h v List.mem_cons_self)
    rw [List.foldlM_cons]
    change l.foldlM addSro (nanAdd c.1 x, nanAdd c.2 x) = _
    rw [ih _ fun w hw => h w (List.mem_cons_of_mem _ hw)]
    rfl

theorem mean_zero (xs : List (Option ℝ)) (m : ℝ) : nanDiv (xs.foldl nanAdd (some 0)) xs.length = some m ↔ Spec.IsMean xs m := by
  cases xs with
  | nil =>
    simp only [List.foldl_nil, List.length_nil, nanDiv, fdiv, Nat.cast_zero, if_true]
    constructor
    · intro h; cases h
    · rintro ⟨vs, h1, h2, -⟩
      exact absurd (List.map_eq_nil_iff.1 h1.symm) h2
  | cons x xs =>
    rw [← isMean_iff, List.foldl_cons, List.length_cons]
    have : nanAdd (some 0) x = x := by cases x <;> simp [nanAdd]
    rw [this]

/-- **C36, average**: with `average=True` and one or two shells, the result has two entries, the means of the
values assigned to the stored atoms of the reference type (undefined if one of them is); for one shell
both entries are the mean of the only value. -/
theorem C36_average (s s' : System) (reals : List Atom) (hi : StoreInv s reals) (ref : ℤ) (shells : ℤ) (hs : shells = 1 ∨ shells = 2)
    (r : Option (List (Option ℝ))) (h : System.calculateSro ref true shells s = (s', .ok r)) :
    ∃ x y, r = some [x, y] ∧
      (∀ m, x = some m ↔ Spec.IsMean (((s'.atoms.take s.ntotal).filter fun a => decide (a.type = ref)).map fun a => a.sro.getD 0 none) m) ∧
      (∀ m, y = some m ↔ Spec.IsMean (((s'.atoms.take s.ntotal).filter fun a => decide (a.type = ref)).map fun a =>
        a.sro.getD (if shells = 2 then 1 else 0) none) m) := by
  obtain ⟨hn, hr, h1, h2⟩ := calculateSro_guards hi h
  rw [calculateSro_eq s reals hi ref true shells hn hr h1 h2] at h
  obtain ⟨l, hl, hs', hav, -⟩ := sroFinish_ok h
  rw [sro_mapM s ref shells hr h1 h2 (sro_range hl)] at hl
  obtain rfl := Except.ok.inj hl
  obtain ⟨extra, he⟩ := assign_prefix hs'
  have htake : s'.atoms.take s.ntotal = s.atoms.map (Spec.cowleyAtom s ref shells) := by
    have : s.ntotal = (s.atoms.map (Spec.cowleyAtom s ref shells)).length := by rw [List.length_map]; exact hi.nop
    rw [he, this, List.take_left]
  rw [htake]
  obtain ⟨v, hv, rfl⟩ := hav rfl
  set new := s.atoms.map (Spec.cowleyAtom s ref shells) with hnew
  set L := new.filter fun a => decide (a.type = ref) with hL
  have hlen : ∀ w ∈ L.map Atom.sro, w.length = if shells = 2 then 2 else 1 := by
    intro w hw
    obtain ⟨b, hb, rfl⟩ := List.mem_map.1 hw
    obtain ⟨hb1, hb2⟩ := List.mem_filter.1 hb
    obtain ⟨a, -, rfl⟩ := List.mem_map.1 hb1
    simp only [decide_eq_true_eq] at hb2
    have hty : a.type = ref := by
      unfold Spec.cowleyAtom at hb2
      split_ifs at hb2 with hc
      · exact hc
      · exact absurd hb2 hc
    unfold Spec.cowleyAtom
    rw [if_pos hty]
    unfold Spec.cowleyShells
    rcases hs with rfl | rfl <;> simp
  have hfold : L.foldlM (fun v a => addSro v a.sro) (some 0, some 0) = (L.map Atom.sro).foldlM addSro (some 0, some 0) := by
    rw [List.foldlM_map]
  unfold sroAverage at hv
  dsimp only at hv
  rw [← hL, hfold] at hv
  rcases hs with rfl | rfl
  · rw [addSro_foldlM1 _ _ (by simpa using hlen)] at hv
    obtain rfl := Except.ok.inj hv
    refine ⟨_, _, rfl, fun m => ?_, fun m => ?_⟩
    · rw [List.map_map, ← mean_zero, List.length_map]; rfl
    · rw [List.map_map, ← mean_zero, List.length_map]; rfl
  · rw [addSro_foldlM _ _ (by simpa using hlen)] at hv
    obtain rfl := Except.ok.inj hv
    refine ⟨_, _, rfl, fun m => ?_, fun m => ?_⟩
    · rw [List.map_map, ← mean_zero, List.length_map]; rfl
    · simp only [List.map_map, if_true]
      rw [← mean_zero, List.length_map]; rfl

/-- **C36 and C24, accepted arguments**: with neighbours calculated, both types present, neighbour indices
in range and one or two shells, `calculate_sro` succeeds. -/
theorem C36_succeeds (s : System) (reals : List Atom) (hi : StoreInv s reals) (ref : ℤ) (average : Bool) (shells : ℤ) (hn : s.neighborsFound = true)
    (hr : ref = 1 ∨ ref = 2) (h1 : 0 < Spec.numType s 1) (h2 : 0 < Spec.numType s 2) (hin : s.NbrsInRange) (hs : shells = 1 ∨ shells = 2)
    (hb : boxSum s.getBox ≠ 0) (hd : Spec.Skew s.getBox → s.getBox.det ≠ 0) :
    ∃ s' r, System.calculateSro ref average shells s = (s', .ok r) := by
  rw [calculateSro_eq s reals hi ref average shells hn hr h1 h2, sro_mapM s ref shells hr h1 h2 (fun a ha _ => hin a ha)]
  have hne : s.atoms ≠ [] := by
    intro h0
    simp [Spec.numType, h0] at h1
  obtain ⟨s', hs'⟩ := C05_assign_succeeds s (s.atoms.map (Spec.cowleyAtom s ref shells)) (by
    rw [List.length_map]; exact List.length_pos_iff.2 hne) hb hd
  unfold sroFinish
  dsimp only
  rw [hs']
  dsimp only
  cases average with
  | false => exact ⟨s', none, rfl⟩
  | true =>
    rw [if_pos rfl]
    have hlen : ∀ w ∈ ((s.atoms.map (Spec.cowleyAtom s ref shells)).filter fun a => decide (a.type = ref)).map Atom.sro,
        w.length = if shells = 2 then 2 else 1 := by
      intro w hw
      obtain ⟨b, hb, rfl⟩ := List.mem_map.1 hw
      obtain ⟨hb1, hb2⟩ := List.mem_filter.1 hb
      obtain ⟨a, -, rfl⟩ := List.mem_map.1 hb1
      simp only [decide_eq_true_eq] at hb2
      have hty : a.type = ref := by
        unfold Spec.cowleyAtom at hb2
        split_ifs at hb2 with hc
        · exact hc
        · exact absurd hb2 hc
      unfold Spec.cowleyAtom
      rw [if_pos hty]
      unfold Spec.cowleyShells
      rcases hs with rfl | rfl <;> simp
    have : ∃ v, sroAverage (s.atoms.map (Spec.cowleyAtom s ref shells)) ref = .ok v := by
      unfold sroAverage
      dsimp only
      have hfold : ∀ L : List Atom, L.foldlM (fun v a => addSro v a.sro) (some 0, some 0) = (L.map Atom.sro).foldlM addSro (some 0, some 0) := by
        intro L
        rw [List.foldlM_map]
      rw [hfold]
      rcases hs with rfl | rfl
      · rw [addSro_foldlM1 _ _ (by simpa using hlen)]
        exact ⟨_, rfl⟩
      · rw [addSro_foldlM _ _ (by simpa using hlen)]
        exact ⟨_, rfl⟩
    obtain ⟨v, hv⟩ := this
    rw [hv]
    exact ⟨s', some v, rfl⟩

/-- **C24, calculate_sro**: without neighbours, with a reference type other than 1 and 2, or with a type
missing, `calculate_sro` raises and the system is unchanged. -/
theorem C24_sro (s : System) (reals : List Atom) (hi : StoreInv s reals) (ref : ℤ) (average : Bool) (shells : ℤ) :
    (s.neighborsFound = false → System.calculateSro ref average shells s = (s, .error .runtimeError)) ∧
    (s.neighborsFound = true → ref ≠ 1 → ref ≠ 2 → System.calculateSro ref average shells s = (s, .error .valueError)) ∧
    (s.neighborsFound = true → (ref = 1 ∨ ref = 2) → (Spec.numType s 1 = 0 ∨ Spec.numType s 2 = 0) →
      System.calculateSro ref average shells s = (s, .error .runtimeError)) := by
  refine ⟨fun h => ?_, fun h h1 h2 => ?_, fun h hr h0 => ?_⟩
  · unfold System.calculateSro
    rw [if_pos (by simp [h])]
  · unfold System.calculateSro
    rw [if_neg (by simp [h]), if_pos (by simp [h1, h2])]
  · unfold System.calculateSro
    rw [if_neg (by simp [h]), if_neg (not_not.2 hr), getAllAtoms_inv hi]
    dsimp only
    change (if ¬ (0 < Spec.numType s 1 ∧ 0 < Spec.numType s 2) then _ else _) = _
    rw [if_pos (by omega)]

/-- **C24 for the number of shells**: a value of `shells` other than 1 and 2 is not rejected.  Without averaging the call
returns, and every atom keeps the parameters it had before; with averaging it raises ValueError if some atom of the
reference type has no parameters of an earlier call, but only after the atoms have been assigned again. -/
theorem C24_shells (s : System) (reals : List Atom) (hi : StoreInv s reals) (ref : ℤ) (shells : ℤ) (hn : s.neighborsFound = true)
    (hr : ref = 1 ∨ ref = 2) (h1 : 0 < Spec.numType s 1) (h2 : 0 < Spec.numType s 2) (hin : s.NbrsInRange) (hs : shells ≠ 1 ∧ shells ≠ 2)
    (hb : boxSum s.getBox ≠ 0) (hd : Spec.Skew s.getBox → s.getBox.det ≠ 0) :
    ∃ s', s.assignAtoms s.atoms = .ok s' ∧ (∃ extra, s'.atoms = s.atoms ++ extra) ∧
      System.calculateSro ref false shells s = (s', .ok none) ∧
      ((∃ pre a post, s.atoms.filter (fun a => decide (a.type = ref)) = pre ++ a :: post ∧ (∀ b ∈ pre, b.sro.length = 2) ∧ a.sro = []) →
        System.calculateSro ref true shells s = (s', .error .valueError)) := by
  have hne : s.atoms ≠ [] := by
    intro h0
    simp [Spec.numType, h0] at h1
  have hid : s.atoms.map (Spec.cowleyAtom s ref shells) = s.atoms := by
    conv_rhs => rw [← List.map_id s.atoms]
    refine List.map_congr_left fun a _ => ?_
    unfold Spec.cowleyAtom Spec.cowleyShells
    rw [if_neg hs.2, if_neg hs.1]
    split_ifs <;> rfl
  obtain ⟨s', hs'⟩ := C05_assign_succeeds s s.atoms (List.length_pos_iff.2 hne) hb hd
  refine ⟨s', hs', assign_prefix hs', ?_, ?_⟩
  · rw [calculateSro_eq s reals hi ref false shells hn hr h1 h2, sro_mapM s ref shells hr h1 h2 (fun a ha _ => hin a ha), hid]
    unfold sroFinish
    dsimp only
    rw [hs']
    rfl
  · rintro ⟨pre, a, post, hl, hpre, ha⟩
    rw [calculateSro_eq s reals hi ref true shells hn hr h1 h2, sro_mapM s ref shells hr h1 h2 (fun a ha _ => hin a ha), hid]
    unfold sroFinish
    dsimp only
    rw [hs']
    dsimp only
    rw [if_pos rfl]
    have hv : sroAverage s.atoms ref = .error .valueError := by
      unfold sroAverage
      dsimp only
      rw [hl, List.foldlM_append]
      have hfold : ∀ L : List Atom, L.foldlM (fun v a => addSro v a.sro) (some 0, some 0) = (L.map Atom.sro).foldlM addSro (some 0, some 0) := by
        intro L
        rw [List.foldlM_map]
      rw [hfold, addSro_foldlM _ _ (by simpa using hpre)]
      dsimp only [bind, Except.bind]
      rw [List.foldlM_cons, ha]
      rfl
    rw [hv]

/-! ### C37 -/

theorem pmsroValue_eq {b : Bool} {n c : ℕ} {m : ℝ} (hm : m ≠ 0) (h1 : b = true → m ≠ 1) :
    pmsroValue b n c m = if b then Spec.fontaine n c m else Spec.cowley n c m := by
  cases b with
  | false =>
    unfold pmsroValue
    exact sroValue_eq hm
  | true =>
    have : 1 - m ≠ 0 := by
      intro h
      exact h1 rfl (by linarith)
    unfold pmsroValue Spec.fontaine fdiv
    by_cases hc : c = 0
    · simp [hc]
    · simp [hc, this]

/-- The new `sro` of an atom of the reference type for the multicomponent parameter. -/
noncomputable def Spec.fontaineShells (s : System) (ref cmp : ℤ) (delta : Bool) (m : ℝ) (shells : ℤ) (a : Atom) : List (Option ℝ) :=
  let value (l : List Nb) :=
    if ref = cmp ∧ delta = true then Spec.fontaine (l.countP fun x => decide (Spec.nbType s x = cmp)) l.length m
    else Spec.cowley (l.countP fun x => decide (Spec.nbType s x = cmp)) l.length m
  if shells = 2 then [value (Spec.shell1 a.nbrs (Spec.nbDistance s a)), value (Spec.shell2 a.nbrs (Spec.nbDistance s a))]
  else if shells = 1 then [value a.nbrs]
  else a.sro

theorem pmsro1_eq (s : System) (ref cmp : ℤ) (delta : Bool) {m : ℝ} (hm : m ≠ 0) (h1 : ref = cmp → delta = true → m ≠ 1) (shells : ℤ) (a : Atom)
    (h : ∀ x ∈ a.nbrs, x.idx < s.atoms.length) :
    pmsro1 s s.atoms cmp (decide (ref = cmp) && delta) m shells a = .ok { a with sro := Spec.fontaineShells s ref cmp delta m shells a } := by
  have hv : ∀ n c, pmsroValue (decide (ref = cmp) && delta) n c m =
      if ref = cmp ∧ delta = true then Spec.fontaine n c m else Spec.cowley n c m := by
    intro n c
    rw [pmsroValue_eq hm (by simpa using h1)]
    simp
  unfold pmsro1 Spec.fontaineShells
  rw [shellData_ok s a h]
  dsimp only [bind, Except.bind]
  by_cases h2 : shells = 2
  · rw [if_pos h2, if_pos h2, shellSplit_eq]
    simp only [hv, countType_nb, List.length_map]
    rfl
  · rw [if_neg h2, if_neg h2]
    by_cases h3 : shells = 1
    · rw [if_pos h3, if_pos h3, List.map_map]
      change Except.ok { a with sro := [pmsroValue (decide (ref = cmp) && delta) (countType (a.nbrs.map fun x : Nb => s.atoms.getD x.idx default) cmp)
        (a.nbrs.map fun x : Nb => s.atoms.getD x.idx default).length m] } = _
      rw [hv, countType_nb, List.length_map]
    · rw [if_neg h3, if_neg h3]
      rfl

/-- The types of the atoms are the numbers 1 to `n`. -/
def Spec.TypesOneTo (l : List Atom) (n : ℕ) : Prop := ∀ t : ℤ, (∃ a ∈ l, a.type = t) ↔ 1 ≤ t ∧ t ≤ n

theorem mem_uniqueTypes {l : List Atom} {t : ℤ} : t ∈ uniqueTypes l ↔ ∃ a ∈ l, a.type = t := by
  unfold uniqueTypes
  rw [List.mem_mergeSort, List.mem_dedup, List.mem_map]

theorem uniqueTypes_oneTo {l : List Atom} {n : ℕ} (h : Spec.TypesOneTo l n) : uniqueTypes l = (List.range n).map fun k : ℕ => (k : ℤ) + 1 := by
  have hnd : (uniqueTypes l).Nodup := by
    unfold uniqueTypes
    exact (List.mergeSort_perm _ _).nodup_iff.2 (List.nodup_dedup _)
  have hnd2 : ((List.range n).map fun k : ℕ => (k : ℤ) + 1).Nodup := by
    refine List.Nodup.map ?_ List.nodup_range
    intro a b hab
    have : (a : ℤ) + 1 = b + 1 := hab
    omega
  have hperm : (uniqueTypes l).Perm ((List.range n).map fun k : ℕ => (k : ℤ) + 1) := by
    rw [List.perm_ext_iff_of_nodup hnd hnd2]
    intro t
    rw [mem_uniqueTypes, h t, List.mem_map]
    constructor
    · rintro ⟨h1, h2⟩
      exact ⟨(t - 1).toNat, List.mem_range.2 (by omega), by omega⟩
    · rintro ⟨k, hk, rfl⟩
      rw [List.mem_range] at hk
      omega
  refine hperm.eq_of_pairwise (le := (· ≤ ·)) (fun a b _ _ => le_antisymm) ?_ ?_
  · have := List.pairwise_mergeSort (le := fun a b : ℤ => decide (a ≤ b)) (fun a b c hab hbc => by
      simp only [decide_eq_true_eq] at *; omega) (fun a b => by simp only [Bool.or_eq_true, decide_eq_true_eq]; omega) (l.map Atom.type).dedup
    exact this.imp fun h => by simpa using h
  · rw [List.pairwise_map]
    exact List.pairwise_lt_range.imp fun h => by omega

theorem typeCount_oneTo {l : List Atom} {n : ℕ} (h : Spec.TypesOneTo l n) {t : ℤ} (h1 : 1 ≤ t) (h2 : t ≤ n) :
    typeCount l t = .ok (countType l t) := by
  unfold typeCount
  rw [uniqueTypes_oneTo h]
  have hk : ¬ (t - 1 < 0) := by omega
  simp only [if_neg hk]
  rw [if_pos (by omega), List.map_map, List.getElem?_map, List.getElem?_range (by omega)]
  simp only [Option.map_some, Function.comp_apply]
  congr 2
  omega

/-- Fraction of the real atoms having a type. -/
noncomputable def Spec.fraction (l : List Atom) (t : ℤ) : ℝ := (l.countP fun a => decide (a.type = t) : ℕ) / (l.length : ℝ)

/-- `calculate_pmsro` for accepted arguments. -/
theorem calculatePmsro_eq (s : System) (reals : List Atom) (hi : StoreInv s reals) (ref cmp : ℤ) (average : Bool) (shells : ℤ) (delta : Bool)
    (hn : s.neighborsFound = true) (n : ℕ) (ht : Spec.TypesOneTo reals n) (hr : 1 ≤ ref ∧ ref ≤ n) (hc : 1 ≤ cmp ∧ cmp ≤ n) :
    System.calculatePmsro ref cmp average shells delta s = sroFinish s (s.atoms.mapM fun a => if a.type = ref then
      pmsro1 s s.atoms cmp (decide (ref = cmp) && delta) (Spec.fraction reals cmp) shells a else .ok a) ref average := by
  unfold System.calculatePmsro
  rw [if_neg (by simp [hn]), getAllAtoms_inv hi, getAtoms_inv hi]
  dsimp only
  rw [if_neg (not_not.2 (mem_uniqueTypes.2 ((ht _).2 hr))), if_neg (not_not.2 (mem_uniqueTypes.2 ((ht _).2 hc))),
    typeCount_oneTo ht hr.1 hr.2, typeCount_oneTo ht hc.1 hc.2]
  rfl

theorem fraction_pos {l : List Atom} {n : ℕ} (ht : Spec.TypesOneTo l n) {t : ℤ} (hc : 1 ≤ t ∧ t ≤ n) :
    0 < Spec.fraction l t ∧ (2 ≤ n → Spec.fraction l t < 1) := by
  obtain ⟨a, ha, hat⟩ := (ht t).2 hc
  have hl : (0 : ℝ) < l.length := by exact_mod_cast List.length_pos_of_mem ha
  have h1 : 0 < l.countP fun a => decide (a.type = t) := List.countP_pos_iff.2 ⟨a, ha, by simpa using hat⟩
  unfold Spec.fraction
  refine ⟨div_pos (by exact_mod_cast h1) hl, fun hn => ?_⟩
  rw [div_lt_one hl]
  obtain ⟨b, hb, hbt⟩ : ∃ b ∈ l, b.type ≠ t := by
    by_cases h : t = 1
    · obtain ⟨b, hb, hbt⟩ := (ht 2).2 ⟨by norm_num, by exact_mod_cast hn⟩
      exact ⟨b, hb, by omega⟩
    · obtain ⟨b, hb, hbt⟩ := (ht 1).2 ⟨le_refl _, by omega⟩
      exact ⟨b, hb, by omega⟩
  have : (l.countP fun a => decide (a.type = t)) < l.length := by
    refine lt_of_le_of_ne List.countP_le_length fun h => ?_
    have := List.countP_eq_length.1 h b hb
    simp only [decide_eq_true_eq] at this
    exact hbt this
  exact_mod_cast this

/-- **C37, what holds.**  Full statement: `calculate_pmsro` uses the fraction of atoms having `compare_type`,
for every set of type numbers.  Proved: it does if the types are exactly the numbers 1 to `n` (`n ≥ 2`) and
both arguments are among them: each atom of the reference type gets the values of its shells computed with
that fraction, other atoms are unchanged.  Missing: other sets of types, see `C37_false`. -/
theorem C37_partial (s s' : System) (reals : List Atom) (hi : StoreInv s reals) (ref cmp : ℤ) (average : Bool) (shells : ℤ) (delta : Bool)
    (n : ℕ) (hn : 2 ≤ n) (ht : Spec.TypesOneTo reals n) (hr : 1 ≤ ref ∧ ref ≤ n) (hc : 1 ≤ cmp ∧ cmp ≤ n)
    (r : Option (List (Option ℝ))) (h : System.calculatePmsro ref cmp average shells delta s = (s', .ok r)) :
    s.neighborsFound = true ∧ ∀ (i : ℕ) (a : Atom), s.atoms[i]? = some a → s'.atoms[i]? = some (if a.type = ref then
      { a with sro := Spec.fontaineShells s ref cmp delta (Spec.fraction reals cmp) shells a } else a) := by
  have hnf : s.neighborsFound = true := by
    by_contra hc
    unfold System.calculatePmsro at h
    rw [if_pos (by simpa using hc)] at h
    cases congrArg Prod.snd h
  refine ⟨hnf, fun i a ha => ?_⟩
  rw [calculatePmsro_eq s reals hi ref cmp average shells delta hnf n ht hr hc] at h
  obtain ⟨l, hl, hs, -⟩ := sroFinish_ok h
  obtain ⟨extra, he⟩ := assign_prefix hs
  obtain ⟨hlen, hl⟩ := mapM_except _ _ _ hl
  obtain ⟨b, hb, hbl⟩ := hl i a ha
  rw [he, List.getElem?_append_left (by rw [hlen]; exact (List.getElem?_eq_some_iff.1 ha).1), hbl]
  obtain ⟨f1, f2⟩ := fraction_pos ht hc
  by_cases hty : a.type = ref
  · rw [if_pos hty] at hb ⊢
    have hrange : ∀ x ∈ a.nbrs, x.idx < s.atoms.length := by
      unfold pmsro1 at hb
      cases hd : shellData s s.atoms a with
      | error e => rw [hd] at hb; cases hb
      | ok d => exact shellData_range hd
    rw [pmsro1_eq s ref cmp delta f1.ne' (fun _ _ => (f2 hn).ne) shells a hrange] at hb
    rw [Except.ok.inj hb]
  · rw [if_neg hty] at hb ⊢
    rw [Except.ok.inj hb]

/-- **C24, calculate_pmsro**: without neighbours, or with a type that no atom has, `calculate_pmsro` raises and
the system is unchanged. -/
theorem C24_pmsro (s : System) (reals : List Atom) (hi : StoreInv s reals) (ref cmp : ℤ) (average : Bool) (shells : ℤ) (delta : Bool) :
    (s.neighborsFound = false → System.calculatePmsro ref cmp average shells delta s = (s, .error .runtimeError)) ∧
    (s.neighborsFound = true → ((∀ a ∈ reals, a.type ≠ ref) ∨ ∀ a ∈ reals, a.type ≠ cmp) →
      System.calculatePmsro ref cmp average shells delta s = (s, .error .valueError)) := by
  refine ⟨fun h => ?_, fun h h1 => ?_⟩
  · unfold System.calculatePmsro
    rw [if_pos (by simp [h])]
  · unfold System.calculatePmsro
    rw [if_neg (by simp [h]), getAllAtoms_inv hi, getAtoms_inv hi]
    dsimp only
    by_cases hr : ref ∈ uniqueTypes reals
    · rw [if_neg (not_not.2 hr)]
      rcases h1 with h1 | h1
      · obtain ⟨a, ha, hat⟩ := mem_uniqueTypes.1 hr
        exact absurd hat (h1 a ha)
      · rw [if_pos]
        rw [mem_uniqueTypes]
        rintro ⟨a, ha, hat⟩
        exact h1 a ha hat
    · rw [if_pos hr]

/-- Three atoms of the types 2, 2 and 3; the first one has the two others as neighbours. -/
noncomputable def alloy : System where
  atoms := [{ pos := ⟨5, 5, 5⟩, type := 2, nbrs := [⟨1, 1, 1, ⟨-1, 0, 0⟩⟩, ⟨2, 1, 1, ⟨1, 0, 0⟩⟩] }, { pos := ⟨6, 5, 5⟩, type := 2 },
    { pos := ⟨4, 5, 5⟩, type := 3 }]
  nop := 3
  realNop := 3
  box := Spec.diagBox 10 10 10
  neighborsFound := true

theorem alloy_inv : StoreInv alloy alloy.atoms :=
  ⟨by simp [alloy], ⟨[], by simp, by simp, rfl⟩, rfl, rfl⟩

theorem alloy_types : uniqueTypes alloy.atoms = [2, 3] := by
  have hnd : (uniqueTypes alloy.atoms).Nodup := by
    unfold uniqueTypes
    exact (List.mergeSort_perm _ _).nodup_iff.2 (List.nodup_dedup _)
  have hperm : (uniqueTypes alloy.atoms).Perm [2, 3] := by
    rw [List.perm_ext_iff_of_nodup hnd (by decide)]
    intro t
    rw [mem_uniqueTypes]
    simp only [alloy, List.mem_cons, List.not_mem_nil, or_false, exists_eq_or_imp, exists_eq_left]
    omega
  refine hperm.eq_of_pairwise (le := (· ≤ ·)) (fun a b _ _ => le_antisymm) ?_ (by decide)
  have := List.pairwise_mergeSort (le := fun a b : ℤ => decide (a ≤ b)) (fun a b c hab hbc => by
    simp only [decide_eq_true_eq] at *; omega) (fun a b => by simp only [Bool.or_eq_true, decide_eq_true_eq]; omega) (alloy.atoms.map Atom.type).dedup
  exact this.imp fun h => by simpa using h

/-- **C37 is false of the code**: the counts of the sorted types are indexed by the type number minus one.  In
a system with the types 2 and 3, comparing with type 3 raises `IndexError` although atoms of that type
exist, and comparing type 2 with itself uses the fraction 1/3 of type 3 instead of the fraction 2/3 of
type 2: the value assigned to the first atom is 1/4, with the right fraction it would be -1/2. -/
theorem C37_false : System.calculatePmsro 2 3 false 1 true alloy = (alloy, .error .indexError) ∧
    ∃ s' a, System.calculatePmsro 2 2 false 1 true alloy = (s', .ok none) ∧ s'.atoms[0]? = some a ∧
      a.sro = [some (1 / 4)] ∧ Spec.fraction alloy.atoms 2 = 2 / 3 ∧
      Spec.fontaineShells alloy 2 2 true (Spec.fraction alloy.atoms 2) 1 alloy.atoms[0] = [some (-1 / 2)] := by
  have ht2 : typeCount alloy.atoms 2 = .ok 1 := by
    unfold typeCount
    rw [alloy_types]
    decide +kernel
  have ht3 : typeCount alloy.atoms 3 = .error .indexError := by
    unfold typeCount
    rw [alloy_types]
    decide +kernel
  have hnb : (alloy.atoms[0]'(by decide)).nbrs = [⟨1, 1, 1, ⟨-1, 0, 0⟩⟩, ⟨2, 1, 1, ⟨1, 0, 0⟩⟩] := rfl
  have hcount : ((alloy.atoms[0]'(by decide)).nbrs.countP fun x => decide (Spec.nbType alloy x = 2)) = 1 := by
    rw [hnb]
    decide +kernel
  have hbox : boxSum alloy.getBox ≠ 0 ∧ ¬ Spec.Skew alloy.getBox := by
    have : alloy.getBox = Spec.diagBox 10 10 10 := rfl
    rw [this]
    exact ⟨by norm_num [boxSum, Spec.diagBox], fun h => not_skewed_diag _ _ _ ((skewed_iff _).2 h)⟩
  constructor
  · unfold System.calculatePmsro
    rw [if_neg (by decide), getAllAtoms_inv alloy_inv, getAtoms_inv alloy_inv]
    dsimp only
    rw [if_neg (by rw [alloy_types]; decide), if_neg (by rw [alloy_types]; decide), ht2, ht3]
  · have hm : ∀ a ∈ alloy.atoms, (if a.type = 2 then pmsro1 alloy alloy.atoms 2 (decide ((2 : ℤ) = 2) && true) (((1 : ℕ) : ℝ) / ((alloy.atoms.length : ℕ) : ℝ)) 1 a
        else .ok a) = .ok (if a.type = 2 then { a with sro := Spec.fontaineShells alloy 2 2 true (1 / 3) 1 a } else a) := by
      intro a ha
      have e : (((1 : ℕ) : ℝ) / ((alloy.atoms.length : ℕ) : ℝ)) = 1 / 3 := by norm_num [alloy]
      by_cases hty : a.type = 2
      · rw [if_pos hty, if_pos hty, e]
        refine pmsro1_eq alloy 2 2 true (by norm_num) (fun _ _ => by norm_num) 1 a ?_
        simp only [alloy, List.mem_cons, List.not_mem_nil, or_false] at ha
        rcases ha with rfl | rfl | rfl <;> simp [alloy]
      · rw [if_neg hty, if_neg hty]
    obtain ⟨s', hs'⟩ := C05_assign_succeeds alloy (alloy.atoms.map fun a : Atom =>
      if a.type = 2 then { a with sro := Spec.fontaineShells alloy 2 2 true (1 / 3) 1 a } else a) (by simp [alloy]) hbox.1 fun h => absurd h hbox.2
    refine ⟨s', { alloy.atoms[0]'(by decide) with sro := Spec.fontaineShells alloy 2 2 true (1 / 3) 1 (alloy.atoms[0]'(by decide)) }, ?_, ?_, ?_, ?_, ?_⟩
    · unfold System.calculatePmsro
      rw [if_neg (by decide), getAllAtoms_inv alloy_inv, getAtoms_inv alloy_inv]
      dsimp only
      rw [if_neg (by rw [alloy_types]; decide), if_neg (by rw [alloy_types]; decide), ht2]
      dsimp only
      rw [mapM_ok_map _ _ _ hm]
      dsimp only
      rw [hs']
      rfl
    · obtain ⟨extra, he⟩ := assign_prefix hs'
      rw [he]
      rfl
    · unfold Spec.fontaineShells
      simp only [and_self, if_true, show ¬ ((1 : ℤ) = 2) by norm_num, if_false]
      rw [hcount, hnb]
      norm_num [Spec.fontaine]
    · norm_num [Spec.fraction, alloy]
    · unfold Spec.fontaineShells
      simp only [and_self, if_true, show ¬ ((1 : ℤ) = 2) by norm_num, if_false]
      rw [hcount, hnb]
      norm_num [Spec.fontaine, Spec.fraction, alloy]

/-- The same with the types 1, 1 and 2. -/
noncomputable def alloy12 : System := { alloy with atoms := alloy.atoms.map fun a => { a with type := a.type - 1 } }

theorem alloy12_inv : StoreInv alloy12 alloy12.atoms :=
  ⟨by simp [alloy12, alloy], ⟨[], by simp, by simp, rfl⟩, rfl, rfl⟩

/-- The hypotheses of `C36_sro`, `C36_average` and `C36_succeeds` can be met; the value of the first atom is
`1 - 1/(2 · 1/3) = -1/2`. -/
example : ∃ s' r a, System.calculateSro 1 true 1 alloy12 = (s', .ok r) ∧ s'.atoms[0]? = some a ∧ a.sro = [some (-1 / 2 : ℝ)] := by
  have hbox : boxSum alloy12.getBox ≠ 0 ∧ ¬ Spec.Skew alloy12.getBox := by
    have : alloy12.getBox = Spec.diagBox 10 10 10 := rfl
    rw [this]
    exact ⟨by norm_num [boxSum, Spec.diagBox], fun h => not_skewed_diag _ _ _ ((skewed_iff _).2 h)⟩
  obtain ⟨s', r, h⟩ := C36_succeeds alloy12 _ alloy12_inv 1 true 1 rfl (.inl rfl) (by decide +kernel) (by decide +kernel) (by
    intro a ha x hx
    simp only [alloy12, alloy, List.map_cons, List.map_nil, List.mem_cons, List.not_mem_nil, or_false] at ha
    rcases ha with rfl | rfl | rfl
    · simp only [List.mem_cons, List.not_mem_nil, or_false] at hx
      rcases hx with rfl | rfl <;> simp [alloy12, alloy]
    · simp at hx
    · simp at hx) (.inl rfl) hbox.1 fun h => absurd h hbox.2
  obtain ⟨-, -, -, -, h0⟩ := C36_sro alloy12 s' _ alloy12_inv 1 true 1 r h
  refine ⟨s', r, _, h, h0 0 _ rfl, ?_⟩
  have n1 : Spec.numType alloy12 1 = 2 := by decide +kernel
  have n2 : Spec.numType alloy12 2 = 1 := by decide +kernel
  have c1 : ([⟨1, 1, 1, ⟨-1, 0, 0⟩⟩, ⟨2, 1, 1, ⟨1, 0, 0⟩⟩] : List Nb).countP (fun x => decide (Spec.nbType alloy12 x ≠ 1)) = 1 := by decide +kernel
  rw [if_pos (by norm_num), n1, n2]
  unfold Spec.cowleyShells
  simp only [show ¬ ((1 : ℤ) = 2) by norm_num, if_false, if_true]
  rw [c1]
  norm_num [Spec.cowley, Spec.otherType, n2]

/-- The negation of **C24** for the number of shells: three shells are accepted and nothing is calculated; with averaging the
exception comes after the assignment. -/
theorem C24_false_shells : ∃ s s' : System, System.calculateSro 1 false 3 s = (s', .ok none) ∧ (∀ a ∈ s.atoms, a.sro = []) ∧
    (∃ extra, s'.atoms = s.atoms ++ extra) ∧ System.calculateSro 1 true 3 s = (s', .error .valueError) := by
  have hbox : boxSum alloy12.getBox ≠ 0 ∧ ¬ Spec.Skew alloy12.getBox := by
    have : alloy12.getBox = Spec.diagBox 10 10 10 := rfl
    rw [this]
    exact ⟨by norm_num [boxSum, Spec.diagBox], fun h => not_skewed_diag _ _ _ ((skewed_iff _).2 h)⟩
  have hnil : ∀ a ∈ alloy12.atoms, a.sro = [] := by
    intro a ha
    simp only [alloy12, alloy, List.map_cons, List.map_nil, List.mem_cons, List.not_mem_nil, or_false] at ha
    rcases ha with rfl | rfl | rfl <;> rfl
  obtain ⟨s', -, h2, h3, h4⟩ := C24_shells alloy12 _ alloy12_inv 1 3 rfl (.inl rfl) (by decide +kernel) (by decide +kernel) (by
    intro a ha x hx
    simp only [alloy12, alloy, List.map_cons, List.map_nil, List.mem_cons, List.not_mem_nil, or_false] at ha
    rcases ha with rfl | rfl | rfl
    · simp only [List.mem_cons, List.not_mem_nil, or_false] at hx
      rcases hx with rfl | rfl <;> simp [alloy12, alloy]
    · simp at hx
    · simp at hx) (by decide) hbox.1 fun h => absurd h hbox.2
  refine ⟨alloy12, s', h3, hnil, h2, h4 ?_⟩
  have hl : alloy12.atoms.filter (fun a => decide (a.type = 1)) ≠ [] := by
    intro h0
    have : Spec.numType alloy12 1 = 0 := by
      unfold Spec.numType
      rw [List.countP_eq_length_filter, h0]
      rfl
    exact absurd this (by decide +kernel)
  obtain ⟨a, post, hl⟩ := List.exists_cons_of_ne_nil hl
  refine ⟨[], a, post, hl, fun b hb => (List.not_mem_nil hb).elim, hnil a ?_⟩
  have : a ∈ alloy12.atoms.filter (fun a => decide (a.type = 1)) := by rw [hl]; exact List.mem_cons_self ..
  exact (List.mem_filter.1 this).1

/-- The hypotheses of `C37_partial` can be met. -/
example : Spec.TypesOneTo alloy12.atoms 2 := by
  intro t
  simp only [alloy12, alloy, List.map_cons, List.map_nil, List.mem_cons, List.not_mem_nil, or_false, exists_eq_or_imp, exists_eq_left]
  push_cast
  omega

end Pyscal
