import Verif.Lemmas.Harmonics
import Verif.Lemmas.FindNeighbors

/-! What `calculate_q` returns. -/

namespace Pyscal

open Classical in
/-- Weights and vectors of the neighbours of `a` whose condition equals that of `a`. -/
noncomputable def Spec.participants (s : System) (a : Atom) : List (ℝ × V3) :=
  (a.nbrs.filter fun x => ∃ b, s.atoms[x.idx]? = some b ∧ b.condition = a.condition).map fun x => (x.weight, x.vec)

theorem participants_eq {s : System} (hs : s.NbrsInRange) {a : Atom} (ha : a ∈ s.atoms) :
    Spec.participants s a = wv (s.qNbrs a) := by
  unfold Spec.participants wv System.qNbrs
  congr 1
  refine List.filter_congr fun x hx => ?_
  have := hs a ha x hx
  rw [mem_eq_getElem _ _ this, List.getElem?_eq_getElem this]
  simp

theorem calcQlm_congr {s : System} {a b : Atom} (h1 : b.nbrs = a.nbrs) (h2 : b.condition = a.condition) (l : ℕ) :
    s.calcQlm l b = s.calcQlm l a := by
  unfold System.calcQlm System.qNbrs
  rw [h1, h2]

theorem foldl_calcQ1 (s : System) (ls : List ℕ) (a : Atom) :
    ls.foldl s.calcQ1 a = { a with
      qlm := fun l => if l ∈ ls then s.calcQlm l a else a.qlm l
      q := fun l => if l ∈ ls then (s.calcQlm l a).map (qValue l) else a.q l } := by
  induction ls generalizing a with
  | nil => simp
  | cons l ls ih =>
    rw [List.foldl_cons, ih]
    have hc : ∀ l', s.calcQlm l' (s.calcQ1 a l) = s.calcQlm l' a := fun l' => calcQlm_congr rfl rfl l'
    simp only [hc]
    unfold System.calcQ1
    congr 1
    · funext l'
      by_cases h : l' = l
      · subst h; simp
      · simp [h]
    · funext l'
      by_cases h : l' = l
      · subst h; simp
      · simp [h]

theorem calcAqlm_congr {s : System} {a b : Atom} (h1 : b.nbrs = a.nbrs) (h2 : b.condition = a.condition)
    (h3 : b.qlm = a.qlm) (l : ℕ) : s.calcAqlm l b = s.calcAqlm l a := by
  unfold System.calcAqlm System.qNbrs
  rw [h1, h2, h3]

theorem foldl_calcAq1 (s : System) (ls : List ℕ) (a : Atom) :
    ls.foldl s.calcAq1 a = { a with
      aqlm := fun l => if l ∈ ls then s.calcAqlm l a else a.aqlm l
      aq := fun l => if l ∈ ls then (s.calcAqlm l a).map (qValue l) else a.aq l } := by
  induction ls generalizing a with
  | nil => simp
  | cons l ls ih =>
    rw [List.foldl_cons, ih]
    have hc : ∀ l', s.calcAqlm l' (s.calcAq1 a l) = s.calcAqlm l' a := fun l' => calcAqlm_congr rfl rfl rfl l'
    simp only [hc]
    unfold System.calcAq1
    congr 1
    · funext l'
      by_cases h : l' = l
      · subst h; simp
      · simp [h]
    · funext l'
      by_cases h : l' = l
      · subst h; simp
      · simp [h]

/-- Atom `a` after the plain part of `calculate_q`. -/
noncomputable def qAtom (s : System) (ls : List ℕ) (a : Atom) : Atom :=
  { a with
    qlm := fun l => if l ∈ ls then s.calcQlm l a else a.qlm l
    q := fun l => if l ∈ ls then (s.calcQlm l a).map (qValue l) else a.q l }

/-- Atom `a` after the averaging part. -/
noncomputable def aqAtom (s : System) (ls : List ℕ) (a : Atom) : Atom :=
  { a with
    aqlm := fun l => if l ∈ ls then s.calcAqlm l a else a.aqlm l
    aq := fun l => if l ∈ ls then (s.calcAqlm l a).map (qValue l) else a.aq l }

/-- State after the plain part of `calculate_q`. -/
noncomputable def System.afterQ (s : System) (ls : List ℕ) : System := { s with atoms := s.atoms.map (qAtom s ls) }

theorem ccalculateQ_eq (s : System) (ls : List ℕ) (h : s.NbrsInRange) : s.ccalculateQ ls = .ok (s.afterQ ls) := by
  unfold System.ccalculateQ
  rw [if_pos h]
  simp only [foldl_calcQ1]
  rfl

theorem ccalculateAq_eq (s : System) (ls : List ℕ) (h : s.NbrsInRange) :
    s.ccalculateAq ls = .ok { s with atoms := s.atoms.map (aqAtom s ls) } := by
  unfold System.ccalculateAq
  rw [if_pos h]
  simp only [foldl_calcAq1]
  rfl

theorem afterQ_inRange {s : System} {ls : List ℕ} (h : s.NbrsInRange) : (s.afterQ ls).NbrsInRange := by
  intro a ha x hx
  obtain ⟨b, hb, rfl⟩ := List.mem_map.1 ha
  have := h b hb x hx
  simpa [System.afterQ] using this

open Classical in
/-- The two parts together, without condition arguments. -/
theorem calculateQ_spec (s : System) (ls : List ℤ) (av only : Bool) :
    s.calculateQ ls av only =
      if ¬ qRange ls then .error .valueError
      else if only then
        (if s.NbrsInRange then .ok { s with atoms := s.atoms.map (aqAtom s (ls.map Int.toNat)) } else .error .oob)
      else if s.NbrsInRange then
        (if av then .ok { s with atoms := (s.afterQ (ls.map Int.toNat)).atoms.map (aqAtom (s.afterQ (ls.map Int.toNat)) (ls.map Int.toNat)) }
          else .ok (s.afterQ (ls.map Int.toNat)))
      else .error .oob := by
  unfold System.calculateQ
  by_cases hr : qRange ls
  · rw [if_neg (by simpa using hr), if_neg (by simpa using hr)]
    by_cases hs : s.NbrsInRange
    · cases only with
      | false =>
        rw [if_neg (by simp), if_pos hs]
        change Except.bind (s.ccalculateQ (ls.map Int.toNat))
          (fun s => if (av || false) = true then s.ccalculateAq (ls.map Int.toNat) else .ok s) = _
        rw [ccalculateQ_eq s _ hs, Bool.or_false]
        change (if av = true then (s.afterQ (ls.map Int.toNat)).ccalculateAq (ls.map Int.toNat) else .ok (s.afterQ (ls.map Int.toNat))) = _
        cases av with
        | false => rfl
        | true => rw [if_pos rfl, if_pos rfl, ccalculateAq_eq _ _ (afterQ_inRange hs)]; rfl
      | true =>
        simp only [Bool.or_true, if_true, if_pos hs]
        change s.ccalculateAq _ = _
        rw [ccalculateAq_eq s _ hs]
    · rw [if_neg hs]
      cases only with
      | false =>
        have : s.ccalculateQ (ls.map Int.toNat) = .error .oob := by unfold System.ccalculateQ; rw [if_neg hs]
        rw [if_neg (by simp), if_neg hs]
        change Except.bind (s.ccalculateQ (ls.map Int.toNat))
          (fun s => if (av || false) = true then s.ccalculateAq (ls.map Int.toNat) else .ok s) = _
        rw [this]
        rfl
      | true =>
        have : s.ccalculateAq (ls.map Int.toNat) = .error .oob := by unfold System.ccalculateAq; rw [if_neg hs]
        simp only [if_true, Bool.or_true]
        exact this
  · rw [if_pos hr, if_pos hr]

theorem calculateQ_succeeds {s : System} {ls : List ℤ} (av only : Bool) (hr : qRange ls) (hs : s.NbrsInRange) :
    ∃ s', s.calculateQ ls av only = .ok s' := by
  rw [calculateQ_spec, if_neg (by simpa using hr)]
  split_ifs <;> exact ⟨_, rfl⟩

/-- A successful plain `calculate_q`: every atom becomes `qAtom`, up to averaged values. -/
theorem calculateQ_ok {s s' : System} {ls : List ℤ} {av : Bool} (h : s.calculateQ ls av = .ok s') :
    qRange ls ∧ s.NbrsInRange ∧
    s' = if av then { s with atoms := (s.afterQ (ls.map Int.toNat)).atoms.map (aqAtom (s.afterQ (ls.map Int.toNat)) (ls.map Int.toNat)) }
      else s.afterQ (ls.map Int.toNat) := by
  rw [calculateQ_spec] at h
  simp only [Bool.false_eq_true, if_false] at h
  split_ifs at h with h1 h3 h4
  · refine ⟨by simpa using h1, h3, ?_⟩
    rw [if_pos h4]; exact (Except.ok.inj h).symm
  · refine ⟨by simpa using h1, h3, ?_⟩
    rw [if_neg h4]; exact (Except.ok.inj h).symm

theorem toNat_mem {ls : List ℤ} {l : ℕ} (h : (l : ℤ) ∈ ls) : l ∈ ls.map Int.toNat :=
  List.mem_map.2 ⟨l, h, by simp⟩

theorem mem_toNat {ls : List ℤ} {l : ℕ} (hr : qRange ls) (h : l ∈ ls.map Int.toNat) : (l : ℤ) ∈ ls := by
  obtain ⟨z, hz, rfl⟩ := List.mem_map.1 h
  rwa [Int.toNat_of_nonneg (by linarith [(hr z hz).1])]

/-- The atoms after a plain `calculate_q`, field by field. -/
theorem calculateQ_atom {s s' : System} {ls : List ℤ} {av : Bool} (h : s.calculateQ ls av = .ok s') {k : ℕ} {a a' : Atom}
    (hk : s.atoms[k]? = some a) (hk' : s'.atoms[k]? = some a') :
    a' = if av then aqAtom (s.afterQ (ls.map Int.toNat)) (ls.map Int.toNat) (qAtom s (ls.map Int.toNat) a)
      else qAtom s (ls.map Int.toNat) a := by
  obtain ⟨_, _, rfl⟩ := calculateQ_ok h
  cases av with
  | false =>
    simp only [Bool.false_eq_true, if_false, System.afterQ, List.getElem?_map, hk, Option.map_some, Option.some.injEq] at hk' ⊢
    exact hk'.symm
  | true =>
    simp only [if_true, System.afterQ, List.getElem?_map, hk, Option.map_some, Option.some.injEq] at hk' ⊢
    exact hk'.symm

theorem calculateQ_q {s s' : System} {ls : List ℤ} {av : Bool} (h : s.calculateQ ls av = .ok s') {k : ℕ} {a a' : Atom}
    (hk : s.atoms[k]? = some a) (hk' : s'.atoms[k]? = some a') (l : ℕ) :
    a'.q l = (if (l : ℤ) ∈ ls then (s.calcQlm l a).map (qValue l) else a.q l) ∧
    a'.qlm l = (if (l : ℤ) ∈ ls then s.calcQlm l a else a.qlm l) := by
  have hr := (calculateQ_ok h).1
  have := calculateQ_atom h hk hk'
  have hm : (l ∈ ls.map Int.toNat) ↔ (l : ℤ) ∈ ls := ⟨mem_toNat hr, toNat_mem⟩
  have key : (qAtom s (ls.map Int.toNat) a).q l = (if (l : ℤ) ∈ ls then (s.calcQlm l a).map (qValue l) else a.q l) ∧
      (qAtom s (ls.map Int.toNat) a).qlm l = (if (l : ℤ) ∈ ls then s.calcQlm l a else a.qlm l) := by
    simp only [qAtom, hm, and_self]
  cases av with
  | false => rw [if_neg (by simp)] at this; rw [this]; exact key
  | true => rw [if_pos rfl] at this; rw [this]; exact key

/-- Closed form of the value computed by `calculate_q`. -/
theorem calcQ_value (s : System) (l : ℕ) (a : Atom) :
    ((∃ x ∈ s.qNbrs a, x.vec = 0) → s.calcQlm l a = none) ∧
    ((∀ x ∈ s.qNbrs a, x.vec ≠ 0) →
      (s.voronoiused = true → s.calcQlm l a = some (sumVec l (s.qNbrs a))) ∧
      (s.voronoiused = false → ((s.qNbrs a).map Nb.weight).sum = 0 → s.calcQlm l a = none) ∧
      (s.voronoiused = false → ((s.qNbrs a).map Nb.weight).sum ≠ 0 →
        s.calcQlm l a = some fun k => ((((s.qNbrs a).map Nb.weight).sum)⁻¹ * (sumVec l (s.qNbrs a) k).1,
          (((s.qNbrs a).map Nb.weight).sum)⁻¹ * (sumVec l (s.qNbrs a) k).2))) := by
  constructor
  · intro hz
    simp only [System.calcQlm]
    rw [if_pos hz]
  · intro hz
    have hz' : ¬ ∃ x ∈ s.qNbrs a, x.vec = 0 := by push Not; exact hz
    simp only [System.calcQlm]
    rw [if_neg hz', qWeight_eq]
    refine ⟨fun hv => ?_, fun hv hw => ?_, fun hv hw => ?_⟩
    · rw [if_pos hv]; rfl
    · rw [if_neg (by simp [hv]), if_pos hw]
    · rw [if_neg (by simp [hv]), if_neg hw]
      simp only [div_eq_inv_mul]
      rfl

end Pyscal
