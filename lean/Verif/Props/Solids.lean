import Verif.Lemmas.Solids
import Verif.Props.Harmonics

/-! C21-C24, C35: bond correlations, `find_solids`, rejected arguments, disorder. -/

namespace Pyscal

/-! ## Arguments (C24) -/

/-- Specification: the documented argument ranges of `find_solids`, with the search flag. -/
def Spec.SolidArgs (s : System) (bonds threshold avgthreshold q : PyNum) : Prop :=
  s.neighborsFound = true ∧ (∃ n : ℤ, q = .int n ∧ 2 ≤ n ∧ n ≤ 12) ∧ (∃ t, threshold.val = some t ∧ 0 ≤ t ∧ t ≤ 1) ∧
    (∃ t, avgthreshold.val = some t ∧ 0 ≤ t ∧ t ≤ 1) ∧ ((∃ n : ℤ, bonds = .int n) ∨ ∃ x, bonds = .flt x ∧ 0 ≤ x ∧ x ≤ 1)

theorem solidArgs_ok (s : System) (bonds threshold avgthreshold q : PyNum) :
    (Spec.SolidArgs s bonds threshold avgthreshold q → ∃ l t at' cr b, s.solidArgs bonds threshold avgthreshold q = .ok (l, t, at', cr, b) ∧
      q = .int (l : ℤ) ∧ 2 ≤ l ∧ l ≤ 12 ∧ threshold.val = some t ∧ avgthreshold.val = some at' ∧ bonds.val = some b ∧
      ((cr = 0 ∧ ∃ n : ℤ, bonds = .int n) ∨ (cr = 1 ∧ ∃ x, bonds = .flt x))) ∧
    (¬ Spec.SolidArgs s bonds threshold avgthreshold q → ∃ e, s.solidArgs bonds threshold avgthreshold q = .error e ∧
      (e = .runtimeError ∨ e = .typeError ∨ e = .valueError)) := by
  constructor
  · rintro ⟨h1, ⟨n, rfl, h2, h3⟩, ⟨t, h4, h5⟩, ⟨at', h6, h7⟩, h8⟩
    have hq : (PyNum.int n) = .int ((n.toNat : ℕ) : ℤ) := by rw [Int.toNat_of_nonneg (by omega)]
    unfold System.solidArgs
    rw [h1, h4, h6]
    simp only [Bool.not_true, Bool.false_eq_true, if_false]
    rw [if_neg (not_not.2 ⟨h2, h3⟩), if_neg (not_not.2 h5), if_neg (not_not.2 h7)]
    rcases h8 with ⟨b, rfl⟩ | ⟨x, rfl, hx⟩
    · exact ⟨_, _, _, _, _, rfl, hq, by omega, by omega, rfl, rfl, rfl, .inl ⟨rfl, b, rfl⟩⟩
    · dsimp only
      rw [if_pos hx]
      exact ⟨_, _, _, _, _, rfl, hq, by omega, by omega, rfl, rfl, rfl, .inr ⟨rfl, x, rfl⟩⟩
  · intro h
    cases hr : s.solidArgs bonds threshold avgthreshold q with
    | error e =>
      refine ⟨e, rfl, ?_⟩
      unfold System.solidArgs at hr
      split_ifs at hr <;> (try split at hr) <;> (try split_ifs at hr) <;> (try split at hr) <;> (try split_ifs at hr) <;>
        (try split at hr) <;> (try split_ifs at hr) <;> (try split at hr) <;> (try split_ifs at hr) <;>
        (first | (cases hr; simp) | cases hr)
    | ok r =>
      exfalso
      apply h
      unfold System.solidArgs at hr
      split_ifs at hr with g1
      cases q with
      | flt x => cases hr
      | other => cases hr
      | int n =>
        dsimp only at hr
        split_ifs at hr with g2
        cases ht : threshold.val with
        | none => rw [ht] at hr; cases hr
        | some t =>
          rw [ht] at hr
          dsimp only at hr
          split_ifs at hr with g3
          cases ha : avgthreshold.val with
          | none => rw [ha] at hr; cases hr
          | some at' =>
            rw [ha] at hr
            dsimp only at hr
            split_ifs at hr with g4
            refine ⟨by simpa using g1, ⟨n, rfl, g2⟩, ⟨t, ht, g3⟩, ⟨at', ha, g4⟩, ?_⟩
            cases bonds with
            | int b => exact .inl ⟨b, rfl⟩
            | flt x =>
              dsimp only at hr
              split_ifs at hr with g5
              exact .inr ⟨x, rfl, g5⟩
            | other => cases hr

/-- **C24 (find_solids)**: arguments outside the documented ranges (or a missing neighbour search) raise
`RuntimeError`, `TypeError` or `ValueError` and leave the system as it was; all others are accepted. -/
theorem C24_find_solids (s : System) (bonds threshold avgthreshold q : PyNum) (cluster : Bool) (cutoff : ℝ) (right : Bool) :
    (¬ Spec.SolidArgs s bonds threshold avgthreshold q →
      ∃ e, System.findSolids bonds threshold avgthreshold cluster q cutoff right s = (s, .error e) ∧
        (e = .runtimeError ∨ e = .typeError ∨ e = .valueError)) ∧
    (Spec.SolidArgs s bonds threshold avgthreshold q → s.NbrsInRange →
      ∃ s', System.findSolids bonds threshold avgthreshold false q cutoff right s = (s', .ok none)) := by
  obtain ⟨h1, h2⟩ := solidArgs_ok s bonds threshold avgthreshold q
  constructor
  · intro h
    obtain ⟨e, he, he'⟩ := h2 h
    refine ⟨e, ?_, he'⟩
    unfold System.findSolids
    rw [he]
  · intro h hs
    obtain ⟨l, t, at', cr, b, he, -⟩ := h1 h
    unfold System.findSolids
    rw [he]
    dsimp only
    rw [solidRun_eq s _ cutoff hs]
    exact ⟨_, rfl⟩

/-- **C24 (calculate_q, get_qvals)**: degrees outside 2..12 raise `ValueError`; all others are accepted.
(The model of `calculate_q` returns no state with an exception; the check is its first statement.) -/
theorem C24_calculate_q (s : System) (ls : List ℤ) (av only : Bool) :
    ((∃ l ∈ ls, l < 2 ∨ 12 < l) → ∀ cond clear, s.calculateQ ls av only cond clear = .error .valueError) ∧
    ((∀ l ∈ ls, 2 ≤ l ∧ l ≤ 12) → s.NbrsInRange → ∃ s', s.calculateQ ls av only = .ok s') := by
  constructor
  · rintro ⟨l, hl, h⟩ cond clear
    unfold System.calculateQ
    rw [if_pos]
    intro hr
    have := hr l hl
    omega
  · exact fun h hs => calculateQ_succeeds av only h hs

theorem C24_get_qvals (s : System) (l : ℤ) (av : Bool) :
    ((l < 2 ∨ 12 < l) → s.getQvals l av = .error .valueError) ∧
    (2 ≤ l → l ≤ 12 → s.realNop ≤ s.atoms.length → ∃ v, s.getQvals l av = .ok v ∧ v.length = s.realNop) := by
  unfold System.getQvals System.gqvals
  constructor
  · intro h
    rw [if_neg (by omega)]
  · intro h1 h2 h3
    rw [if_pos ⟨h1, h2⟩, if_pos h3]
    exact ⟨_, rfl, by simp [h3]⟩

/-- **C24 (calculate_disorder)**: a degree outside 2..12 raises `ValueError` and leaves the system as it was;
all others are accepted (when no atom has more neighbours than there are atoms). -/
theorem C24_disorder (s : System) (av : Bool) (q : ℤ) :
    ((q < 2 ∨ 12 < q) → System.calculateDisorder av q s = (s, .error .valueError)) ∧
    (2 ≤ q → q ≤ 12 → s.NbrsInRange → (∀ a ∈ s.atoms, a.nbrs.length ≤ s.atoms.length) →
      ∃ s', System.calculateDisorder av q s = (s', .ok ())) := by
  unfold System.calculateDisorder
  constructor
  · intro h
    rw [if_pos (by omega)]
  · intro h1 h2 h3 h4
    rw [if_neg (by omega)]
    dsimp only
    rw [if_neg]
    · exact ⟨_, rfl⟩
    · push Not
      exact ⟨h4, h3⟩

/-! ## Bond correlations (C21) -/

/-- What a successful `find_solids(cluster=False)` leaves. -/
theorem findSolids_ok {s s' : System} {bonds threshold avgthreshold q : PyNum} {cutoff : ℝ} {right : Bool} {r : Option ℕ}
    (h : System.findSolids bonds threshold avgthreshold false q cutoff right s = (s', .ok r)) :
    ∃ l t at' cr b, s.solidArgs bonds threshold avgthreshold q = .ok (l, t, at', cr, b) ∧ q = .int (l : ℤ) ∧ 2 ≤ l ∧ l ≤ 12 ∧
      threshold.val = some t ∧ avgthreshold.val = some at' ∧ bonds.val = some b ∧
      ((cr = 0 ∧ ∃ n : ℤ, bonds = .int n) ∨ (cr = 1 ∧ ∃ x, bonds = .flt x)) ∧ s.NbrsInRange ∧
      s'.atoms = s.atoms.map (solidAtom s (l, t, at', cr, b)) := by
  have hargs : Spec.SolidArgs s bonds threshold avgthreshold q := by
    by_contra hc
    obtain ⟨e, he, -⟩ := (C24_find_solids s bonds threshold avgthreshold q false cutoff right).1 hc
    rw [he] at h
    cases h
  obtain ⟨l, t, at', cr, b, he, h1, h2, h3, h4, h5, h6, h7⟩ := (solidArgs_ok s bonds threshold avgthreshold q).1 hargs
  refine ⟨l, t, at', cr, b, he, h1, h2, h3, h4, h5, h6, h7, ?_⟩
  unfold System.findSolids at h
  rw [he] at h
  dsimp only at h
  by_cases hs : s.NbrsInRange
  · rw [solidRun_eq s _ cutoff hs] at h
    dsimp only at h
    rw [Prod.mk.injEq] at h
    rw [← h.1]
    exact ⟨hs, rfl⟩
  · rw [solidRun_oob s _ _ cutoff hs] at h
    cases h

theorem solidAtom_fields (s : System) (p : ℕ × ℝ × ℝ × ℕ × ℝ) (a : Atom) :
    (solidAtom s p a).nbrs = a.nbrs ∧ (solidAtom s p a).qlm = (qAtom s [p.1] a).qlm ∧
    (solidAtom s p a).sij = (((s.afterQ [p.1]).solidParams p).frenkel1 (qAtom s [p.1] a)).sij ∧
    (solidAtom s p a).frenkel = (((s.afterQ [p.1]).solidParams p).frenkel1 (qAtom s [p.1] a)).frenkel ∧
    (solidAtom s p a).avq = (((s.afterQ [p.1]).solidParams p).frenkel1 (qAtom s [p.1] a)).avq := by
  unfold solidAtom System.solid1
  split_ifs <;> exact ⟨rfl, rfl, rfl, rfl, rfl⟩

/-- The `sij` values after `find_solids` are the correlations of the stored vectors. -/
theorem solidAtom_sij {s : System} {p : ℕ × ℝ × ℝ × ℕ × ℝ} (hs : s.NbrsInRange) {a : Atom} (ha : a ∈ s.atoms) :
    (solidAtom s p a).sij = (solidAtom s p a).nbrs.map fun x =>
      bondNumber p.1 ((solidAtom s p a).qlm p.1) ((({ s with atoms := s.atoms.map (solidAtom s p) } : System).mem x.idx).qlm p.1) := by
  rw [(solidAtom_fields s p a).2.2.1, (solidAtom_fields s p a).1, (solidAtom_fields s p a).2.1]
  refine List.map_congr_left fun x hx => ?_
  have hlt := hs a ha x hx
  show bondNumber p.1 _ ((s.afterQ [p.1]).mem x.idx |>.qlm p.1) = _
  congr 1
  have e1 : (s.afterQ [p.1]).mem x.idx = qAtom s [p.1] s.atoms[x.idx] := by
    simp [System.mem, System.afterQ, hlt]
  have e2 : ({ s with atoms := s.atoms.map (solidAtom s p) } : System).mem x.idx = solidAtom s p s.atoms[x.idx] := by
    simp [System.mem, hlt]
  rw [e1, e2, (solidAtom_fields s p _).2.1]

/-- **C21**: after `find_solids(q=l)`, every atom has one value per neighbour, and that value is the
correlation of the two stored `q_l` vectors: NaN iff a vector is undefined or zero, otherwise the scalar
product of the normalised vectors, which lies in [-1, 1]. -/
theorem C21_values (s s' : System) (bonds threshold avgthreshold : PyNum) (l : ℕ) (cutoff : ℝ) (right : Bool) (r : Option ℕ)
    (h : System.findSolids bonds threshold avgthreshold false (.int l) cutoff right s = (s', .ok r)) (i : ℕ) (a : Atom)
    (hi : s'.atoms[i]? = some a) :
    a.sij.length = a.nbrs.length ∧ ∀ (k : ℕ) (x : Nb) (v : Option ℝ), a.nbrs[k]? = some x → a.sij[k]? = some v →
      ∃ b, s'.atoms[x.idx]? = some b ∧ Spec.IsCorrelation l (a.qlm l) (b.qlm l) v ∧ ∀ y, v = some y → -1 ≤ y ∧ y ≤ 1 := by
  obtain ⟨l', t, at', cr, b, -, hl, -, -, -, -, -, -, hs, hat⟩ := findSolids_ok h
  obtain rfl : l = l' := by have := PyNum.int.inj hl; omega
  rw [hat, List.getElem?_map] at hi
  cases hi0 : s.atoms[i]? with
  | none => rw [hi0] at hi; cases hi
  | some a0 =>
    rw [hi0] at hi
    have hi := (Option.some.inj hi).symm
    have ha0 := List.mem_of_getElem? hi0
    have hsij := solidAtom_sij (p := (l, t, at', cr, b)) hs ha0
    rw [← hi] at hsij
    refine ⟨by rw [hsij, List.length_map], fun k x v hx hv => ?_⟩
    rw [hsij, List.getElem?_map, hx] at hv
    have hv := (Option.some.inj hv).symm
    have hnb : a.nbrs = a0.nbrs := by rw [hi]; exact (solidAtom_fields s _ a0).1
    have hlt : x.idx < s.atoms.length := hs a0 ha0 x (hnb ▸ List.mem_of_getElem? hx)
    refine ⟨solidAtom s (l, t, at', cr, b) s.atoms[x.idx], by rw [hat, List.getElem?_map, List.getElem?_eq_getElem hlt]; rfl, ?_⟩
    have e2 : ({ s with atoms := s.atoms.map (solidAtom s (l, t, at', cr, b)) } : System).mem x.idx =
        solidAtom s (l, t, at', cr, b) s.atoms[x.idx] := by
      simp [System.mem, hlt]
    dsimp only at hv
    rw [e2] at hv
    have hc : Spec.IsCorrelation l (a.qlm l) ((solidAtom s (l, t, at', cr, b) s.atoms[x.idx]).qlm l) v := by
      rw [hv]; exact bondNumber_spec _ _ _
    refine ⟨hc, fun y hy => ?_⟩
    rw [hy] at hc
    exact abs_le.1 (isCorrelation_le hc)

/-- **C21, symmetry**: `s_ij = s_ji` for atoms that list each other, and an atom listed in its own list
(through the boundary) has `s_ii = 1` unless its vector vanishes. -/
theorem C21_symmetric (s s' : System) (bonds threshold avgthreshold : PyNum) (l : ℕ) (cutoff : ℝ) (right : Bool) (r : Option ℕ)
    (h : System.findSolids bonds threshold avgthreshold false (.int l) cutoff right s = (s', .ok r)) (i j : ℕ) (a b : Atom)
    (hi : s'.atoms[i]? = some a) (hj : s'.atoms[j]? = some b) (k k' : ℕ) (x y : Nb) (v w : Option ℝ)
    (hx : a.nbrs[k]? = some x) (hxj : x.idx = j) (hy : b.nbrs[k']? = some y) (hyi : y.idx = i)
    (hv : a.sij[k]? = some v) (hw : b.sij[k']? = some w) :
    v = w ∧ (i = j → v = some 1 ∨ v = none) := by
  obtain ⟨b', h1, h2, -⟩ := (C21_values s s' bonds threshold avgthreshold l cutoff right r h i a hi).2 k x v hx hv
  obtain ⟨a', h3, h4, -⟩ := (C21_values s s' bonds threshold avgthreshold l cutoff right r h j b hj).2 k' y w hy hw
  rw [hxj, hj] at h1
  rw [hyi, hi] at h3
  obtain rfl := Option.some.inj h1
  obtain rfl := Option.some.inj h3
  refine ⟨isCorrelation_unique h2 (isCorrelation_symm h4), ?_⟩
  rintro rfl
  rw [hi] at hj
  obtain rfl := Option.some.inj hj
  cases hq : a.qlm l with
  | none =>
    rw [hq] at h2
    exact .inr (isCorrelation_unique h2 (.inr ⟨fun c d h => (by cases h), rfl⟩))
  | some c =>
    rw [hq] at h2
    by_cases h0 : Spec.inner l c c = 0
    · refine .inr (isCorrelation_unique h2 (.inr ⟨fun c' d h _ => ?_, rfl⟩))
      obtain rfl := Option.some.inj h
      exact .inl h0
    · exact .inl (isCorrelation_unique h2 (isCorrelation_self h0))

/-- **C21, value**: with positive weights and non-zero neighbour vectors, `s_ij` is
`S(i,j) / sqrt(S(i,i) S(j,j))`, where `S(i,j)` sums the Legendre polynomial of the angles between the
neighbour vectors of `i` and those of `j`. -/
theorem C21_legendre (s s' : System) (bonds threshold avgthreshold : PyNum) (l : ℕ) (cutoff : ℝ) (right : Bool) (r : Option ℕ)
    (h : System.findSolids bonds threshold avgthreshold false (.int l) cutoff right s = (s', .ok r)) (hvor : s.voronoiused = false)
    (i j : ℕ) (a b a' : Atom) (hi : s.atoms[i]? = some a) (hj : s.atoms[j]? = some b) (hi' : s'.atoms[i]? = some a')
    (hL : ∀ p ∈ Spec.participants s a, p.2 ≠ 0) (hL' : ∀ p ∈ Spec.participants s b, p.2 ≠ 0)
    (hw : 0 < ((Spec.participants s a).map Prod.fst).sum) (hw' : 0 < ((Spec.participants s b).map Prod.fst).sum)
    (k : ℕ) (x : Nb) (hx : a'.nbrs[k]? = some x) (hxj : x.idx = j) :
    a'.sij[k]? = some (fdiv (Spec.crossSum l (Spec.participants s a) (Spec.participants s b))
      (Real.sqrt (Spec.pairSum l (Spec.participants s a)) * Real.sqrt (Spec.pairSum l (Spec.participants s b)))) := by
  obtain ⟨l', t, at', cr, bb, -, hl, h2, h12, -, -, -, -, hs, hat⟩ := findSolids_ok h
  obtain rfl : l = l' := by have := PyNum.int.inj hl; omega
  rw [hat, List.getElem?_map, hi] at hi'
  have hi' := (Option.some.inj hi').symm
  have ha := List.mem_of_getElem? hi
  have hb := List.mem_of_getElem? hj
  have hsij := solidAtom_sij (p := (l, t, at', cr, bb)) hs ha
  rw [← hi'] at hsij
  rw [hsij, List.getElem?_map, hx, Option.map_some, hxj]
  have hjl := (List.getElem?_eq_some_iff.1 hj).1
  have e2 : ({ s with atoms := s.atoms.map (solidAtom s (l, t, at', cr, bb)) } : System).mem j = solidAtom s (l, t, at', cr, bb) b := by
    simp [System.mem, hj]
  rw [e2, hi', (solidAtom_fields s _ _).2.1, (solidAtom_fields s _ _).2.1]
  rw [participants_eq hs ha] at hL hw ⊢
  rw [participants_eq hs hb] at hL' hw' ⊢
  have z1 : ∀ x ∈ s.qNbrs a, x.vec ≠ 0 := by simpa [wv] using hL
  have z2 : ∀ x ∈ s.qNbrs b, x.vec ≠ 0 := by simpa [wv] using hL'
  have w1 : 0 < ((s.qNbrs a).map Nb.weight).sum := by simpa [wv, Function.comp_def] using hw
  have w2 : 0 < ((s.qNbrs b).map Nb.weight).sum := by simpa [wv, Function.comp_def] using hw'
  have q1 : ∀ c : Atom, (qAtom s [l] c).qlm l = s.calcQlm l c := fun c => by simp [qAtom]
  show some (bondNumber l ((qAtom s [l] a).qlm l) ((qAtom s [l] b).qlm l)) = _
  rw [q1, q1, ((calcQ_value s l a).2 z1).2.2 hvor w1.ne', ((calcQ_value s l b).2 z2).2.2 hvor w2.ne']
  rw [correlation_legendre l h2 h12 _ _ z1 z2 _ _ (inv_pos.2 w1) (inv_pos.2 w2)]

/-! ## Solid atoms (C22, C23) -/

open Classical in
/-- **C22, what holds** (`comparecriteria` at its default 0).  Full statement: the number of solid bonds of an
atom is the number of neighbours with `s_ij > threshold`, and the atom is solid iff that number is at
least `bonds` (or at least the fraction `bonds` of its neighbours) and the mean of `s_ij` exceeds
`avgthreshold`.  Proved: the number counted is that of neighbours whose `s_ij` differs from the
threshold (which is the right number when no `s_ij` is below the threshold), the comparison with
`bonds` is strict, and the second condition is as stated.  Missing: `C22_false_threshold`,
`C22_false_minimum`. -/
theorem C22_partial (s s' : System) (bonds threshold avgthreshold : PyNum) (l : ℕ) (cutoff : ℝ) (right : Bool) (r : Option ℕ)
    (hcc : s.comparecriteria = 0)
    (h : System.findSolids bonds threshold avgthreshold false (.int l) cutoff right s = (s', .ok r)) (t at' : ℝ)
    (ht : threshold.val = some t) (hat' : avgthreshold.val = some at') (i : ℕ) (a : Atom) (hi : s'.atoms[i]? = some a) :
    a.frenkel = a.sij.countP (fun v => decide (∃ y, v = some y ∧ y ≠ t)) ∧
    ((∀ y, some y ∈ a.sij → t ≤ y) → a.frenkel = a.sij.countP (fun v => decide (∃ y, v = some y ∧ t < y))) ∧
    (∀ n : ℤ, bonds = .int n → (a.issolid = true ↔ n < a.frenkel ∧ ∃ m, Spec.IsMean a.sij m ∧ at' < m)) ∧
    (∀ x : ℝ, bonds = .flt x → (a.issolid = true ↔ x * a.nbrs.length < a.frenkel ∧ ∃ m, Spec.IsMean a.sij m ∧ at' < m)) := by
  obtain ⟨l', t1, at1, cr, b, -, hl, -, -, ht1, hat1, hb, hcr, hs, hat⟩ := findSolids_ok h
  obtain rfl : l = l' := by have := PyNum.int.inj hl; omega
  rw [ht] at ht1
  rw [hat'] at hat1
  obtain rfl := Option.some.inj ht1
  obtain rfl := Option.some.inj hat1
  rw [hat, List.getElem?_map] at hi
  cases hi0 : s.atoms[i]? with
  | none => rw [hi0] at hi; cases hi
  | some a0 =>
    rw [hi0] at hi
    have hi := (Option.some.inj hi).symm
    set p : ℕ × ℝ × ℝ × ℕ × ℝ := (l, t, at', cr, b) with hp
    set f := ((s.afterQ [p.1]).solidParams p).frenkel1 (qAtom s [p.1] a0) with hf
    have e1 : a.sij = f.sij := by rw [hi]; exact (solidAtom_fields s p a0).2.2.1
    have e2 : a.frenkel = f.frenkel := by rw [hi]; exact (solidAtom_fields s p a0).2.2.2.1
    have e3 : a.nbrs = f.nbrs := by rw [hi]; exact (solidAtom_fields s p a0).1
    have hfr : a.frenkel = a.sij.countP (fun v => decide (∃ y, v = some y ∧ y ≠ t)) := by
      rw [e2, e1, List.countP_eq_length_filter]
      have : f.frenkel = (f.sij.filter fun x => bondCounts s.comparecriteria x t).length := rfl
      rw [this]
      congr 1
      refine List.filter_congr fun v _ => ?_
      rw [Bool.eq_iff_iff, decide_eq_true_iff]
      unfold bondCounts
      rw [if_pos hcc]
      cases v with
      | none => simp
      | some y =>
        simp only [Option.some.injEq, exists_eq_left']
        rcases lt_trichotomy y t with h | h | h
        · simp [h, h.ne, not_lt.2 h.le]
        · simp [h]
        · simp [h, h.ne']
    have havq : ∀ m, f.avq = some m ↔ Spec.IsMean f.sij m := by
      intro m
      rw [← isMean_zero_iff]
      have : f.sij.length = (qAtom s [p.1] a0).nbrs.length := by rw [hf]; simp [System.frenkel1]
      rw [this]; rfl
    have hgt : gtNan f.avq at' ↔ ∃ m, Spec.IsMean a.sij m ∧ at' < m := by
      unfold gtNan
      simp only [havq, e1, gt_iff_lt]
    refine ⟨hfr, fun hall => ?_, ?_, ?_⟩
    · rw [hfr]
      refine List.countP_congr fun v hv => ?_
      rw [decide_eq_true_iff, decide_eq_true_iff]
      constructor
      · rintro ⟨y, rfl, hy⟩; exact ⟨y, rfl, lt_of_le_of_ne (hall y hv) hy.symm⟩
      · rintro ⟨y, rfl, hy⟩; exact ⟨y, rfl, hy.ne'⟩
    · rintro n rfl
      have hcr0 : cr = 0 := by
        rcases hcr with h | ⟨-, x, h⟩
        · exact h.1
        · cases h
      have hbn : b = n := (Option.some.inj hb).symm
      have : a.issolid = decide ((f.frenkel : ℝ) > b ∧ gtNan f.avq at') := by
        rw [hi]
        unfold solidAtom System.solid1
        rw [if_pos (show (s.solidParams p).criteria = 0 from hcr0)]
        simp only [show (s.solidParams p).comparecriteria = 0 from hcc, if_true]
        rfl
      rw [this, decide_eq_true_iff, hgt, hbn, ← e2]
      refine and_congr_left fun _ => ?_
      rw [gt_iff_lt]
      exact_mod_cast Iff.rfl
    · rintro x rfl
      have hcr0 : cr = 1 := by
        rcases hcr with ⟨-, x, h⟩ | h
        · cases h
        · exact h.1
      have hbn : b = x := (Option.some.inj hb).symm
      have : a.issolid = decide (gtNan (fdiv (f.frenkel : ℝ) f.nbrs.length) b ∧ gtNan f.avq at') := by
        rw [hi]
        unfold solidAtom System.solid1
        rw [if_neg (show ¬ (s.solidParams p).criteria = 0 by show ¬ cr = 0; omega), if_pos (show (s.solidParams p).criteria = 1 from hcr0)]
        simp only [show (s.solidParams p).comparecriteria = 0 from hcc, if_true]
        rfl
      rw [this, decide_eq_true_iff, hgt, hbn, ← e2, ← e3]
      refine and_congr_left fun hm => ?_
      have hlen : a.sij.length = a.nbrs.length := by
        rw [e1, e3, hf]; simp [System.frenkel1]
      have hpos : 0 < a.nbrs.length := by
        obtain ⟨m, ⟨vs, h1, h2, -⟩, -⟩ := hm
        rw [← hlen, h1, List.length_map]
        exact List.length_pos_iff.2 h2
      have hposR : (0 : ℝ) < a.nbrs.length := by exact_mod_cast hpos
      unfold gtNan fdiv
      rw [if_neg hposR.ne']
      simp only [Option.some.injEq, exists_eq_left', gt_iff_lt]
      rw [lt_div_iff₀ hposR]

/-- Two pairs of atoms: 0 and 1 along x, 2 and 3 along y, each the only neighbour of the other. -/
noncomputable def dimers : System :=
  { twoAtoms with
    atoms := [{ pos := ⟨1, 1, 1⟩, nbrs := [⟨1, 1, 1, ⟨1, 0, 0⟩⟩] }, { pos := ⟨2, 1, 1⟩, nbrs := [⟨0, 1, 1, ⟨-1, 0, 0⟩⟩] },
      { pos := ⟨1, 5, 1⟩, nbrs := [⟨3, 1, 1, ⟨0, 1, 0⟩⟩] }, { pos := ⟨1, 6, 1⟩, nbrs := [⟨2, 1, 1, ⟨0, -1, 0⟩⟩] }]
    nop := 4, realNop := 4, neighborsFound := true }

theorem dimers_inRange : dimers.NbrsInRange := by
  intro a ha x hx
  simp only [dimers, List.mem_cons, List.not_mem_nil, or_false] at ha
  rcases ha with rfl | rfl | rfl | rfl <;> simp only [List.mem_singleton] at hx <;> subst hx <;> simp [dimers]

theorem dimers_participants {k : ℕ} {a : Atom} (h : dimers.atoms[k]? = some a) :
    Spec.participants dimers a = wv a.nbrs := by
  rw [participants_eq dimers_inRange (List.mem_of_getElem? h)]
  congr 1
  unfold System.qNbrs
  rw [List.filter_eq_self]
  intro x hx
  have hm := List.mem_of_getElem? h
  simp only [dimers, List.mem_cons, List.not_mem_nil, or_false] at hm
  rcases hm with rfl | rfl | rfl | rfl <;> simp only [List.mem_singleton] at hx <;> subst hx <;> simp [System.mem, dimers]

theorem norm_unit {v : V3} (h : v.normSq = 1) : v.norm = 1 := by rw [V3.norm, h, Real.sqrt_one]

/-- In `dimers` the correlation of atoms 0 and 1 is `P_l(-1)`. -/
theorem dimers_sij (s' : System) (bonds threshold avgthreshold : PyNum) (l : ℕ) (right : Bool) (r : Option ℕ)
    (h : System.findSolids bonds threshold avgthreshold false (.int l) 0 right dimers = (s', .ok r)) :
    ∃ a, s'.atoms[0]? = some a ∧ a.sij = [some (Spec.legendre l (-1))] ∧ a.nbrs.length = 1 := by
  obtain ⟨l', t1, at1, cr, b, -, hl, -, -, -, -, -, -, hs, hat⟩ := findSolids_ok h
  obtain ⟨a', ha'⟩ : ∃ a', s'.atoms[0]? = some a' := by
    rw [hat]; exact ⟨_, rfl⟩
  have h0 : dimers.atoms[0]? = some { pos := ⟨1, 1, 1⟩, nbrs := [⟨1, 1, 1, ⟨1, 0, 0⟩⟩] } := rfl
  have h1 : dimers.atoms[1]? = some { pos := ⟨2, 1, 1⟩, nbrs := [⟨0, 1, 1, ⟨-1, 0, 0⟩⟩] } := rfl
  have hnb : a'.nbrs = [⟨1, 1, 1, ⟨1, 0, 0⟩⟩] := by
    rw [hat, List.getElem?_map, h0] at ha'
    rw [← Option.some.inj ha', (solidAtom_fields dimers _ _).1]
  have n1 : (⟨1, 0, 0⟩ : V3) ≠ 0 := by intro h; have := congrArg V3.x h; simp at this
  have n2 : (⟨-1, 0, 0⟩ : V3) ≠ 0 := by intro h; have := congrArg V3.x h; simp at this
  have hv := C21_legendre dimers s' bonds threshold avgthreshold l 0 right r h rfl 0 1 _ _ a' h0 h1 ha'
    (by rw [dimers_participants h0]; simpa [wv] using n1) (by rw [dimers_participants h1]; simpa [wv] using n2)
    (by rw [dimers_participants h0]; simp [wv]) (by rw [dimers_participants h1]; simp [wv])
    0 ⟨1, 1, 1, ⟨1, 0, 0⟩⟩ (by rw [hnb]; rfl) rfl
  rw [dimers_participants h0, dimers_participants h1] at hv
  have u1 : V3.norm ⟨1, 0, 0⟩ = 1 := norm_unit (by norm_num [V3.normSq])
  have u2 : V3.norm ⟨-1, 0, 0⟩ = 1 := norm_unit (by norm_num [V3.normSq])
  have c1 : Spec.crossSum l [(1, ⟨1, 0, 0⟩)] [(1, ⟨-1, 0, 0⟩)] = Spec.legendre l (-1) := by
    simp [Spec.crossSum, Spec.cosAngle, u1, u2, V3.dot]
  have c2 : Spec.pairSum l [(1, ⟨1, 0, 0⟩)] = 1 := by
    simp [Spec.pairSum, Spec.crossSum, cosAngle_self n1, legendre_one]
  have c3 : Spec.pairSum l [(1, ⟨-1, 0, 0⟩)] = 1 := by
    simp [Spec.pairSum, Spec.crossSum, cosAngle_self n2, legendre_one]
  have e1 : wv [(⟨1, 1, 1, ⟨1, 0, 0⟩⟩ : Nb)] = [(1, ⟨1, 0, 0⟩)] := rfl
  have e2 : wv [(⟨0, 1, 1, ⟨-1, 0, 0⟩⟩ : Nb)] = [(1, ⟨-1, 0, 0⟩)] := rfl
  dsimp only at hv
  rw [e1, e2, c1, c2, c3] at hv
  have hlen := (C21_values dimers s' bonds threshold avgthreshold l 0 right r h 0 a' ha').1
  rw [hnb] at hlen
  obtain ⟨z, hz⟩ := List.length_eq_one_iff.1 hlen
  refine ⟨a', ha', ?_, by rw [hnb]; rfl⟩
  rw [hz] at hv ⊢
  simp only [List.getElem?_cons_zero, Option.some.injEq] at hv
  rw [hv]
  simp [fdiv]

theorem dimers_runs (bonds threshold avgthreshold : PyNum) (l : ℕ) (right : Bool)
    (h : Spec.SolidArgs dimers bonds threshold avgthreshold (.int l)) :
    ∃ s', System.findSolids bonds threshold avgthreshold false (.int l) 0 right dimers = (s', .ok none) :=
  (C24_find_solids dimers bonds threshold avgthreshold (.int l) false 0 right).2 h dimers_inRange

/-- **C22 is false (1)**: a neighbour with `s_ij = -1` counts as a solid bond for the threshold 1/2. -/
theorem C22_false_threshold : ∃ s' a, System.findSolids (.int 0) (.flt (1 / 2)) (.flt (1 / 2)) false (.int 3) 0 true dimers = (s', .ok none) ∧
    s'.atoms[0]? = some a ∧ a.sij = [some (-1 : ℝ)] ∧ a.frenkel = 1 := by
  obtain ⟨s', h⟩ := dimers_runs (.int 0) (.flt (1 / 2)) (.flt (1 / 2)) (3 : ℕ) true
    ⟨rfl, ⟨3, rfl, by norm_num⟩, ⟨_, rfl, by norm_num⟩, ⟨_, rfl, by norm_num⟩, .inl ⟨0, rfl⟩⟩
  obtain ⟨a, ha, h1, -⟩ := dimers_sij s' _ _ _ 3 _ _ h
  have hl : Spec.legendre 3 (-1) = -1 := by norm_num [Spec.legendre]
  rw [hl] at h1
  refine ⟨s', a, h, ha, h1, ?_⟩
  rw [(C22_partial dimers s' _ _ _ 3 0 true none rfl h (1 / 2) (1 / 2) rfl rfl 0 a ha).1, h1]
  norm_num

/-- **C22 is false (2)**: an atom with exactly the required number of solid bonds is not solid. -/
theorem C22_false_minimum : ∃ s' a, System.findSolids (.int 1) (.flt (1 / 2)) (.flt (1 / 2)) false (.int 4) 0 true dimers = (s', .ok none) ∧
    s'.atoms[0]? = some a ∧ a.sij = [some (1 : ℝ)] ∧ a.frenkel = 1 ∧ a.issolid = false := by
  obtain ⟨s', h⟩ := dimers_runs (.int 1) (.flt (1 / 2)) (.flt (1 / 2)) (4 : ℕ) true
    ⟨rfl, ⟨4, rfl, by norm_num⟩, ⟨_, rfl, by norm_num⟩, ⟨_, rfl, by norm_num⟩, .inl ⟨1, rfl⟩⟩
  obtain ⟨a, ha, h1, -⟩ := dimers_sij s' _ _ _ 4 _ _ h
  have hl : Spec.legendre 4 (-1) = 1 := by norm_num [Spec.legendre]
  rw [hl] at h1
  obtain ⟨k1, -, k2, -⟩ := C22_partial dimers s' _ _ _ 4 0 true none rfl h (1 / 2) (1 / 2) rfl rfl 0 a ha
  have hf : a.frenkel = 1 := by rw [k1, h1]; norm_num
  refine ⟨s', a, h, ha, h1, hf, ?_⟩
  have := k2 1 rfl
  rw [hf] at this
  simpa using this

/-- **C22, consequence**: unless some `s_ij` hits a threshold exactly, the threshold has no influence on
which atoms are solid. -/
theorem C22_threshold_ignored (s s1 s2 : System) (bonds t1 t2 avgthreshold : PyNum) (l : ℕ) (cutoff : ℝ) (right : Bool) (r1 r2 : Option ℕ)
    (hcc : s.comparecriteria = 0)
    (h1 : System.findSolids bonds t1 avgthreshold false (.int l) cutoff right s = (s1, .ok r1))
    (h2 : System.findSolids bonds t2 avgthreshold false (.int l) cutoff right s = (s2, .ok r2)) (i : ℕ) (a b : Atom)
    (hi : s1.atoms[i]? = some a) (hj : s2.atoms[i]? = some b)
    (hne1 : ∀ x, t1.val = some x → some x ∉ a.sij) (hne2 : ∀ x, t2.val = some x → some x ∉ b.sij) :
    a.sij = b.sij ∧ a.frenkel = b.frenkel ∧ a.issolid = b.issolid := by
  obtain ⟨l1, x1, at1, cr1, b1, -, hl1, -, -, hx1, hat1, hb1, hcr1, hs, hatoms1⟩ := findSolids_ok h1
  obtain ⟨l2, x2, at2, cr2, b2, -, hl2, -, -, hx2, hat2, hb2, hcr2, -, hatoms2⟩ := findSolids_ok h2
  obtain rfl : l = l1 := by have := PyNum.int.inj hl1; omega
  obtain rfl : l = l2 := by have := PyNum.int.inj hl2; omega
  rw [hat1] at hat2
  obtain rfl := Option.some.inj hat2
  obtain ⟨k1, -, k2, k3⟩ := C22_partial s s1 bonds t1 avgthreshold l cutoff right r1 hcc h1 x1 at1 hx1 hat1 i a hi
  obtain ⟨m1, -, m2, m3⟩ := C22_partial s s2 bonds t2 avgthreshold l cutoff right r2 hcc h2 x2 at1 hx2 hat1 i b hj
  rw [hatoms1, List.getElem?_map] at hi
  rw [hatoms2, List.getElem?_map] at hj
  cases hi0 : s.atoms[i]? with
  | none => rw [hi0] at hi; cases hi
  | some a0 =>
    rw [hi0] at hi hj
    have hi := (Option.some.inj hi).symm
    have hj := (Option.some.inj hj).symm
    have e1 : a.sij = b.sij := by
      rw [hi, hj, (solidAtom_fields s _ a0).2.2.1, (solidAtom_fields s _ a0).2.2.1]; rfl
    have e2 : a.nbrs = b.nbrs := by
      rw [hi, hj, (solidAtom_fields s _ a0).1, (solidAtom_fields s _ a0).1]
    have e3 : a.frenkel = b.frenkel := by
      rw [k1, m1, ← e1]
      refine List.countP_congr fun v hv => ?_
      rw [decide_eq_true_iff, decide_eq_true_iff]
      refine exists_congr fun y => and_congr_right fun hy => ?_
      subst hy
      constructor
      · rintro - rfl; exact hne2 _ hx2 (e1 ▸ hv)
      · rintro - rfl; exact hne1 _ hx1 hv
    refine ⟨e1, e3, ?_⟩
    rw [Bool.eq_iff_iff]
    rcases hcr1 with ⟨-, n, rfl⟩ | ⟨-, x, rfl⟩
    · rw [k2 n rfl, m2 n rfl, e1, e3]
    · rw [k3 x rfl, m3 x rfl, e1, e2, e3]

/-- **C23 is false**: `right=False` changes nothing, for any arguments on any system; in particular the bond
with `s_ij = 1` counts for the threshold 1/2 although it is not below. -/
theorem C23_false : (∀ bonds t at' cluster q cutoff, System.findSolids bonds t at' cluster q cutoff true = System.findSolids bonds t at' cluster q cutoff false) ∧
    ∃ s' a, System.findSolids (.int 0) (.flt (1 / 2)) (.flt (1 / 2)) false (.int 4) 0 false dimers = (s', .ok none) ∧
      s'.atoms[0]? = some a ∧ a.sij = [some (1 : ℝ)] ∧ a.frenkel = 1 ∧ a.issolid = true := by
  refine ⟨fun _ _ _ _ _ _ => rfl, ?_⟩
  obtain ⟨s', h⟩ := dimers_runs (.int 0) (.flt (1 / 2)) (.flt (1 / 2)) (4 : ℕ) false
    ⟨rfl, ⟨4, rfl, by norm_num⟩, ⟨_, rfl, by norm_num⟩, ⟨_, rfl, by norm_num⟩, .inl ⟨0, rfl⟩⟩
  obtain ⟨a, ha, h1, -⟩ := dimers_sij s' _ _ _ 4 _ _ h
  have hl : Spec.legendre 4 (-1) = 1 := by norm_num [Spec.legendre]
  rw [hl] at h1
  obtain ⟨k1, -, k2, -⟩ := C22_partial dimers s' _ _ _ 4 0 false none rfl h (1 / 2) (1 / 2) rfl rfl 0 a ha
  have hf : a.frenkel = 1 := by rw [k1, h1]; norm_num
  refine ⟨s', a, h, ha, h1, hf, ?_⟩
  rw [k2 0 rfl, hf]
  refine ⟨by norm_num, 1, ⟨[1], by rw [h1]; rfl, by simp, by simp⟩, by norm_num⟩

open Classical in
/-- **C23, setting the parameter by hand**: with `sys.comparecriteria = 1`, the only way to ask for the flipped comparison, no
bond counts, whatever the values, so no atom is solid for any `bonds` that is not negative. -/
theorem C23_manual (s s' : System) (bonds threshold avgthreshold : PyNum) (l : ℕ) (cutoff : ℝ) (right : Bool) (r : Option ℕ)
    (hcc : s.comparecriteria ≠ 0) (hb : ∀ n : ℤ, bonds = .int n → 0 ≤ n)
    (h : System.findSolids bonds threshold avgthreshold false (.int l) cutoff right s = (s', .ok r)) :
    ∀ a ∈ s'.atoms, a.frenkel = 0 ∧ a.issolid = false := by
  have hargs : Spec.SolidArgs s bonds threshold avgthreshold (.int l) := by
    by_contra hc
    obtain ⟨e, he, -⟩ := (C24_find_solids s bonds threshold avgthreshold (.int l) false cutoff right).1 hc
    rw [he] at h
    cases h
  obtain ⟨l', t, at', cr, b, -, -, -, -, -, -, hbv, hcr, -, hat⟩ := findSolids_ok h
  have hb0 : 0 ≤ b := by
    rcases hargs.2.2.2.2 with ⟨n, rfl⟩ | ⟨x, rfl, hx, -⟩
    · obtain rfl := Option.some.inj hbv
      exact_mod_cast hb n rfl
    · obtain rfl := Option.some.inj hbv
      exact hx
  intro a ha
  rw [hat] at ha
  obtain ⟨a0, -, rfl⟩ := List.mem_map.1 ha
  set p : ℕ × ℝ × ℝ × ℕ × ℝ := (l', t, at', cr, b) with hp
  set f := ((s.afterQ [p.1]).solidParams p).frenkel1 (qAtom s [p.1] a0) with hf
  have hf0 : f.frenkel = 0 := by
    have : f.frenkel = (f.sij.filter fun x => bondCounts s.comparecriteria x t).length := rfl
    rw [this, List.length_eq_zero_iff, List.filter_eq_nil_iff]
    intro x _
    unfold bondCounts
    rw [if_neg hcc]
    simp
  refine ⟨by rw [(solidAtom_fields s p a0).2.2.2.1]; exact hf0, ?_⟩
  rcases hcr with ⟨hcr, -⟩ | ⟨hcr, -⟩
  · have : (solidAtom s p a0).issolid = decide ((f.frenkel : ℝ) > b ∧ ltNan f.avq at') := by
      unfold solidAtom System.solid1
      rw [if_pos (show (s.solidParams p).criteria = 0 from hcr)]
      simp only [show ¬ (s.solidParams p).comparecriteria = 0 from hcc, if_false]
      rfl
    rw [this, decide_eq_false_iff_not, hf0]
    rintro ⟨h1, -⟩
    rw [Nat.cast_zero] at h1
    linarith
  · have : (solidAtom s p a0).issolid = decide (gtNan (fdiv (f.frenkel : ℝ) f.nbrs.length) b ∧ ltNan f.avq at') := by
      unfold solidAtom System.solid1
      rw [if_neg (show ¬ (s.solidParams p).criteria = 0 by show ¬ cr = 0; omega), if_pos (show (s.solidParams p).criteria = 1 from hcr)]
      simp only [show ¬ (s.solidParams p).comparecriteria = 0 from hcc, if_false]
      rfl
    rw [this, decide_eq_false_iff_not, hf0]
    rintro ⟨⟨v, h1, h2⟩, -⟩
    unfold fdiv at h1
    rw [Nat.cast_zero] at h1
    split_ifs at h1 with h3
    have := Option.some.inj h1
    rw [zero_div] at this
    linarith

/-- The hypotheses of `C23_manual` can be met. -/
example : ∃ s', System.findSolids (.int 0) (.flt (1 / 2)) (.flt (1 / 2)) false (.int 4) 0 false { dimers with comparecriteria := 1 } = (s', .ok none) :=
  (C24_find_solids { dimers with comparecriteria := 1 } _ _ _ _ false 0 false).2
    ⟨rfl, ⟨4, rfl, by norm_num⟩, ⟨_, rfl, by norm_num⟩, ⟨_, rfl, by norm_num⟩, .inl ⟨0, rfl⟩⟩ dimers_inRange

/-! ## Disorder (C35) -/

theorem calculateDisorder_ok {s s' : System} {av : Bool} {q : ℤ} (h : System.calculateDisorder av q s = (s', .ok ())) :
    2 ≤ q ∧ q ≤ 12 ∧ s.NbrsInRange ∧
    (av = false → s'.atoms = s.atoms.map ({ s with solidq := q.toNat } : System).disorder1) ∧
    (av = true → s'.atoms = (s.atoms.map ({ s with solidq := q.toNat } : System).disorder1).map
      ({ s with solidq := q.toNat, atoms := s.atoms.map ({ s with solidq := q.toNat } : System).disorder1 } : System).avgDisorder1) := by
  unfold System.calculateDisorder at h
  by_cases h1 : 2 ≤ q ∧ q ≤ 12
  · rw [if_neg (not_not.2 h1)] at h
    dsimp only at h
    by_cases h2 : (∃ a ∈ s.atoms, a.nbrs.length > s.atoms.length) ∨ ¬ ({ s with solidq := q.toNat } : System).NbrsInRange
    · rw [if_pos h2] at h; cases h
    · rw [if_neg h2] at h
      push Not at h2
      have h' := (Prod.mk.inj h).1
      refine ⟨h1.1, h1.2, h2.2, ?_, ?_⟩
      · rintro rfl
        rw [← h']; rfl
      · rintro rfl
        rw [← h']; rfl
  · rw [if_pos h1] at h; cases h

/-- **C35, what holds.**  Full statement: the disorder of an atom is the mean over its neighbours `k` of
`s_ii + s_kk - 2 s_ik`; it lies in [0, 4] and vanishes if all neighbours have the atom's vector.
Proved: it lies in [0, 4], it vanishes if all atoms of the system have the same (non-zero) vector, and
the averaged value is the mean of the disorder of the atom and its neighbours.  Missing: the formula
and the vanishing for equal neighbours (`C35_false`). -/
theorem C35_partial (s s' : System) (av : Bool) (q : ℕ) (h : System.calculateDisorder av q s = (s', .ok ())) (i : ℕ) (a : Atom)
    (hi : s'.atoms[i]? = some a) :
    (∀ v, a.disorder = some v → 0 ≤ v ∧ v ≤ 4) ∧
    (∀ c, (∀ b ∈ s.atoms, b.qlm q = some c) → Spec.inner q c c ≠ 0 → a.nbrs ≠ [] → a.nbrs.length ≤ s.atoms.length → a.disorder = some 0) ∧
    (av = true → ∀ m, a.avgDisorder = some m ↔ Spec.IsMean (a.disorder :: a.nbrs.map fun x => (s'.mem x.idx).disorder) m) := by
  obtain ⟨-, -, hs, h1, h2⟩ := calculateDisorder_ok h
  rw [Int.toNat_natCast] at h1 h2
  set S : System := { s with solidq := q } with hS
  have hSm : ∀ k, S.mem k = s.mem k := fun _ => rfl
  obtain ⟨a0, ha0, hd, hn, hav⟩ : ∃ a0, s.atoms[i]? = some a0 ∧ a.disorder = (S.disorder1 a0).disorder ∧ a.nbrs = a0.nbrs ∧
      (av = true → a = ({ S with atoms := s.atoms.map S.disorder1 } : System).avgDisorder1 (S.disorder1 a0)) := by
    cases av with
    | false =>
      rw [h1 rfl, List.getElem?_map] at hi
      cases hi0 : s.atoms[i]? with
      | none => rw [hi0] at hi; cases hi
      | some a0 =>
        rw [hi0] at hi
        rw [← Option.some.inj hi]
        exact ⟨a0, rfl, rfl, rfl, fun h => by cases h⟩
    | true =>
      rw [h2 rfl, List.map_map, List.getElem?_map] at hi
      cases hi0 : s.atoms[i]? with
      | none => rw [hi0] at hi; cases hi
      | some a0 =>
        rw [hi0] at hi
        rw [← Option.some.inj hi]
        exact ⟨a0, rfl, rfl, rfl, fun _ => rfl⟩
  refine ⟨fun v hv => ?_, fun c hc h0 hne hlen => ?_, fun hav' m => ?_⟩
  · rw [hd] at hv
    unfold System.disorder1 at hv
    dsimp only at hv
    cases hr : S.disorderLoop a0 (List.range a0.nbrs.length) (0, 0, 0, some 0) with
    | none => rw [hr] at hv; cases hv
    | some r =>
      rw [hr] at hv
      simp only [Option.bind_some] at hv
      cases hr2 : r.2.2.2 with
      | none => rw [hr2] at hv; cases hv
      | some d =>
        rw [hr2] at hv
        obtain ⟨k1, k2⟩ := disorderLoop_bound S a0 _ 0 0 0 0 r d le_rfl le_rfl (by norm_num) hr hr2
        rw [List.length_range] at k2
        simp only [nanDiv, Option.bind_eq_bind, Option.bind_some, fdiv] at hv
        split_ifs at hv with hz
        have hz' : (0 : ℝ) < a0.nbrs.length := lt_of_le_of_ne (by positivity) (Ne.symm hz)
        obtain rfl := Option.some.inj hv
        refine ⟨div_nonneg k1 hz'.le, ?_⟩
        rw [div_le_iff₀ hz']
        linarith
  · rw [hd]
    rw [hn] at hne hlen
    have hq : a0.qlm S.solidq = some c := hc a0 (List.mem_of_getElem? ha0)
    obtain ⟨r, hr1, hr2⟩ := disorderLoop_uniform S a0 hq h0 (List.range a0.nbrs.length) 0 (by
      intro t ht
      have ht := List.mem_range.1 ht
      have hl : t < s.atoms.length := by omega
      have : S.mem t = s.atoms[t] := by simp [System.mem, hS, hl]
      rw [this]
      exact hc _ (List.getElem_mem hl))
    simp only [Nat.cast_zero, zero_mul] at hr1
    unfold System.disorder1
    dsimp only
    rw [hr1]
    simp only [Option.bind_some, hr2, nanDiv, Option.bind_eq_bind, fdiv]
    rw [if_neg (by exact_mod_cast (List.length_pos_iff.2 hne).ne')]
    simp
  · have hm : ∀ k, (s'.mem k).disorder = (({ S with atoms := s.atoms.map S.disorder1 } : System).mem k).disorder := by
      intro k
      unfold System.mem
      rw [h2 hav']
      rw [List.getD_eq_getElem?_getD, List.getD_eq_getElem?_getD, List.map_map, List.getElem?_map]
      dsimp only
      rw [List.getElem?_map]
      cases s.atoms[k]? <;> rfl
    have hn' : (S.disorder1 a0).nbrs = a0.nbrs := rfl
    have e : a.avgDisorder = nanDiv (((a0.nbrs.map fun x => (({ S with atoms := s.atoms.map S.disorder1 } : System).mem x.idx).disorder)).foldl
        nanAdd (S.disorder1 a0).disorder) (a0.nbrs.length + 1) := by
      rw [hav hav']; rfl
    simp only [hm]
    rw [e, hd, hn, ← isMean_iff, List.length_map]

/-- **C35 is false**: in `dimers`, atoms 2 and 3 are each other's only neighbour and have the same `q_2` vector,
but the disorder of atom 2 is 3 instead of 0, because the vector of atom 0 is used. -/
theorem C35_false : ∃ s1 s' a b c, dimers.calculateQ [2] = .ok s1 ∧ System.calculateDisorder false 2 s1 = (s', .ok ()) ∧
    s'.atoms[2]? = some a ∧ s'.atoms[3]? = some b ∧ a.nbrs.map Nb.idx = [3] ∧ a.qlm 2 = some c ∧
    Spec.IsCorrelation 2 (a.qlm 2) (b.qlm 2) (some 1) ∧ a.disorder = some 3 := by
  obtain ⟨s1, h1⟩ := calculateQ_succeeds (s := dimers) (ls := [2]) false false (by simp [qRange]) dimers_inRange
  obtain ⟨-, -, e1⟩ := calculateQ_ok h1
  rw [if_neg (by simp)] at e1
  have hat1 : s1.atoms = dimers.atoms.map (qAtom dimers [2]) := by rw [e1]; rfl
  have hin1 : s1.NbrsInRange := by rw [e1]; exact afterQ_inRange dimers_inRange
  have hd0 : dimers.atoms[0]? = some { pos := ⟨1, 1, 1⟩, nbrs := [⟨1, 1, 1, ⟨1, 0, 0⟩⟩] } := rfl
  have hd2 : dimers.atoms[2]? = some { pos := ⟨1, 5, 1⟩, nbrs := [⟨3, 1, 1, ⟨0, 1, 0⟩⟩] } := rfl
  have hd3 : dimers.atoms[3]? = some { pos := ⟨1, 6, 1⟩, nbrs := [⟨2, 1, 1, ⟨0, -1, 0⟩⟩] } := rfl
  obtain ⟨s', h2⟩ := (C24_disorder s1 false 2).2 (by norm_num) (by norm_num) hin1 (by
    rw [hat1]
    intro a ha
    obtain ⟨b, hb, rfl⟩ := List.mem_map.1 ha
    have : b.nbrs.length = 1 := by
      simp only [dimers, List.mem_cons, List.not_mem_nil, or_false] at hb
      rcases hb with rfl | rfl | rfl | rfl <;> rfl
    show b.nbrs.length ≤ _
    rw [this, List.length_map]
    decide)
  obtain ⟨-, -, -, h3, -⟩ := calculateDisorder_ok h2
  have h3 := h3 rfl
  set S : System := { s1 with solidq := (2 : ℤ).toNat } with hS
  have hS2 : S.solidq = 2 := rfl
  have hq : ∀ (k : ℕ) (a : Atom) (n : Nb), dimers.atoms[k]? = some a → a.nbrs = [n] → n.vec ≠ 0 → n.weight = 1 →
      s1.atoms[k]? = some (qAtom dimers [2] a) ∧
      (qAtom dimers [2] a).qlm 2 = some (fun k => ((1 : ℝ) * (sumVec 2 [n] k).1, (1 : ℝ) * (sumVec 2 [n] k).2)) := by
    intro k a n hk hn hv hw
    refine ⟨by rw [hat1, List.getElem?_map, hk]; rfl, ?_⟩
    have hqn : dimers.qNbrs a = [n] := by
      have h5 := dimers_participants hk
      unfold System.qNbrs
      rw [hn, List.filter_eq_self]
      intro x hx
      have hm := List.mem_of_getElem? hk
      have hx' : x ∈ a.nbrs := by rw [hn]; exact hx
      simp only [dimers, List.mem_cons, List.not_mem_nil, or_false] at hm
      rcases hm with rfl | rfl | rfl | rfl <;> simp only [List.mem_singleton] at hx' <;> subst hx' <;> simp [System.mem, dimers]
    have : (qAtom dimers [2] a).qlm 2 = dimers.calcQlm 2 a := by simp [qAtom]
    rw [this, ((calcQ_value dimers 2 a).2 (by rw [hqn]; simpa using hv)).2.2 rfl (by rw [hqn]; simp [hw]), hqn]
    simp [hw]
  have nv : (⟨0, 1, 0⟩ : V3) ≠ 0 := by intro h; have := congrArg V3.y h; simp at this
  have nv' : (⟨0, -1, 0⟩ : V3) ≠ 0 := by intro h; have := congrArg V3.y h; simp at this
  have nx : (⟨1, 0, 0⟩ : V3) ≠ 0 := by intro h; have := congrArg V3.x h; simp at this
  obtain ⟨p0, q0⟩ := hq 0 _ ⟨1, 1, 1, ⟨1, 0, 0⟩⟩ hd0 rfl nx rfl
  obtain ⟨p2, q2⟩ := hq 2 _ ⟨3, 1, 1, ⟨0, 1, 0⟩⟩ hd2 rfl nv rfl
  obtain ⟨p3, q3⟩ := hq 3 _ ⟨2, 1, 1, ⟨0, -1, 0⟩⟩ hd3 rfl nv' rfl
  have hone : ∀ v : V3, v ≠ 0 → Spec.pairSum 2 [(1, v)] = 1 := by
    intro v hv
    simp [Spec.pairSum, Spec.crossSum, cosAngle_self hv, legendre_one]
  have hcorr : ∀ (n m : Nb), n.vec ≠ 0 → m.vec ≠ 0 → n.weight = 1 → m.weight = 1 →
      bondNumber 2 (some (fun k => ((1 : ℝ) * (sumVec 2 [n] k).1, (1 : ℝ) * (sumVec 2 [n] k).2)))
        (some (fun k => ((1 : ℝ) * (sumVec 2 [m] k).1, (1 : ℝ) * (sumVec 2 [m] k).2))) =
      some (Spec.legendre 2 (Spec.cosAngle n.vec m.vec)) := by
    intro n m hn hm hwn hwm
    rw [correlation_legendre 2 le_rfl (by norm_num) [n] [m] (by simpa using hn) (by simpa using hm) 1 1 one_pos one_pos]
    have e1 : wv [n] = [(1, n.vec)] := by simp [wv, hwn]
    have e2 : wv [m] = [(1, m.vec)] := by simp [wv, hwm]
    rw [e1, e2, hone _ hn, hone _ hm]
    simp [fdiv, Spec.crossSum]
  set A := qAtom dimers [2] { pos := ⟨1, 5, 1⟩, nbrs := [⟨3, 1, 1, ⟨0, 1, 0⟩⟩] } with hA
  have u1 : V3.norm ⟨1, 0, 0⟩ = 1 := norm_unit (by norm_num [V3.normSq])
  have u2 : V3.norm ⟨0, 1, 0⟩ = 1 := norm_unit (by norm_num [V3.normSq])
  have u3 : V3.norm ⟨0, -1, 0⟩ = 1 := norm_unit (by norm_num [V3.normSq])
  refine ⟨s1, s', S.disorder1 A, S.disorder1 (qAtom dimers [2] { pos := ⟨1, 6, 1⟩, nbrs := [⟨2, 1, 1, ⟨0, -1, 0⟩⟩] }), _, h1, h2,
    by rw [h3, List.getElem?_map, p2]; rfl, by rw [h3, List.getElem?_map, p3]; rfl, rfl, q2, ?_, ?_⟩
  · have : some (1 : ℝ) = bondNumber 2 (A.qlm 2) ((qAtom dimers [2] { pos := ⟨1, 6, 1⟩, nbrs := [⟨2, 1, 1, ⟨0, -1, 0⟩⟩] }).qlm 2) := by
      rw [q2, q3, hcorr _ _ nv nv' rfl rfl]
      simp [Spec.cosAngle, u2, u3, V3.dot, Spec.legendre]
      norm_num
    rw [this]
    exact bondNumber_spec _ _ _
  · have hm0 : S.mem 0 = qAtom dimers [2] { pos := ⟨1, 1, 1⟩, nbrs := [⟨1, 1, 1, ⟨1, 0, 0⟩⟩] } := (mem_of_getElem? (s := s1) p0).2
    have hs2 : S.sii A = some 1 := by
      unfold System.sii System.numberFromBond
      rw [hS2, q2, hcorr _ _ nv nv rfl rfl, cosAngle_self nv, legendre_one]
    have hs0 : S.sii (S.mem 0) = some 1 := by
      unfold System.sii System.numberFromBond
      rw [hm0, hS2, q0, hcorr _ _ nx nx rfl rfl, cosAngle_self nx, legendre_one]
    have hc := hcorr ⟨3, 1, 1, ⟨0, 1, 0⟩⟩ ⟨1, 1, 1, ⟨1, 0, 0⟩⟩ nv nx rfl rfl
    rw [bondNumber_some] at hc
    have hval : Spec.legendre 2 (Spec.cosAngle ⟨0, 1, 0⟩ ⟨1, 0, 0⟩) = -1 / 2 := by
      simp [Spec.cosAngle, V3.dot, Spec.legendre]
    dsimp only at hc
    rw [hval] at hc
    have hl : A.nbrs.length = 1 := rfl
    show (S.disorderLoop A (List.range A.nbrs.length) (0, 0, 0, some 0)).bind _ = _
    rw [hl, List.range_one, System.disorderLoop, hS2, q2, hm0, q0]
    simp only [Option.bind_eq_bind, Option.bind_some]
    rw [dotLoop_full, dotLoop_full, dotLoop_split, zero_add, zero_add, zero_add, hc, hs2, ← hm0, hs0]
    simp only [Option.bind_some, System.disorderLoop, nanAdd, nanDiv, fdiv, Option.bind_eq_bind, pure]
    norm_num

/-- The hypotheses of `C35_partial` are met by a system whose atoms all have the same vector. -/
example : ∃ s' a, System.calculateDisorder true 2 { dimers with
      atoms := dimers.atoms.map fun a => { a with qlm := fun _ => some fun _ => (1, 0) } } = (s', .ok ()) ∧
    s'.atoms[1]? = some a ∧ a.disorder = some 0 := by
  set s : System := { dimers with atoms := dimers.atoms.map fun a => { a with qlm := fun _ => some fun _ => (1, 0) } } with hs
  have hin : s.NbrsInRange := by
    intro a ha x hx
    obtain ⟨b, hb, rfl⟩ := List.mem_map.1 ha
    have := dimers_inRange b hb x hx
    simpa [hs] using this
  have hlen : ∀ a ∈ s.atoms, a.nbrs.length = 1 := by
    intro a ha
    obtain ⟨b, hb, rfl⟩ := List.mem_map.1 ha
    simp only [dimers, List.mem_cons, List.not_mem_nil, or_false] at hb
    rcases hb with rfl | rfl | rfl | rfl <;> rfl
  have h4 : s.atoms.length = 4 := rfl
  obtain ⟨s', h⟩ := (C24_disorder s true 2).2 (by norm_num) (by norm_num) hin
    (fun a ha => by rw [hlen a ha, h4]; norm_num)
  obtain ⟨-, -, -, -, h2⟩ := calculateDisorder_ok h
  obtain ⟨a, ha⟩ : ∃ a, s'.atoms[1]? = some a := ⟨_, by rw [h2 rfl]; rfl⟩
  refine ⟨s', a, h, ha, ?_⟩
  have hn : a.nbrs.length = 1 := by
    rw [h2 rfl] at ha
    rw [← Option.some.inj ha]; rfl
  refine (C35_partial s s' true 2 h 1 a ha).2.1 (fun _ => (1, 0)) ?_ ?_ ?_ ?_
  · intro b hb
    obtain ⟨c, -, rfl⟩ := List.mem_map.1 hb
    rfl
  · norm_num [Spec.inner, Finset.sum_range_succ]
  · intro h0; rw [h0] at hn; cases hn
  · rw [hn, h4]; norm_num

end Pyscal
