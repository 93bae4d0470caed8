import Verif.Model.Solids
import Verif.Spec.Solids
import Verif.Lemmas.QEquiv

/-! Lemmas on bond correlations, solid atoms and disorder. -/

namespace Pyscal

theorem inner_eq (l : ℕ) (c d : ℕ → ℝ × ℝ) : Spec.inner l c d = ip l c d := rfl

theorem dotLoop_eq (l : ℕ) (c d : ℕ → ℝ × ℝ) (f : ℝ × ℝ → ℝ × ℝ → ℝ) :
    dotLoop l c d f = ∑ k ∈ Finset.range (2 * l + 1), f (c k) (d k) := by
  unfold dotLoop
  rw [foldl_add_eq, zero_add, sum_map_range]

theorem dotLoop_full (l : ℕ) (c d : ℕ → ℝ × ℝ) : (dotLoop l c d fun x y => x.1 * y.1 + x.2 * y.2) = ip l c d := dotLoop_eq ..

theorem dotLoop_split (l : ℕ) (c d : ℕ → ℝ × ℝ) :
    (dotLoop l c d fun x y => x.1 * y.1) + (dotLoop l c d fun x y => x.2 * y.2) = ip l c d := by
  rw [dotLoop_eq, dotLoop_eq, ← Finset.sum_add_distrib]; rfl

theorem bondNumber_some (l : ℕ) (c d : ℕ → ℝ × ℝ) :
    bondNumber l (some c) (some d) = fdiv (ip l c d) (Real.sqrt (ip l d d) * Real.sqrt (ip l c c)) := by
  unfold bondNumber
  simp only [Option.bind_eq_bind, Option.bind_some]
  rw [dotLoop_full, dotLoop_full, dotLoop_split]

theorem sqrt_ip_ne {l : ℕ} {c : ℕ → ℝ × ℝ} : Real.sqrt (ip l c c) ≠ 0 ↔ ip l c c ≠ 0 := by
  rw [ne_eq, Real.sqrt_eq_zero (ip_self_nonneg l c)]

theorem bondNumber_spec (l : ℕ) (a b : Option (ℕ → ℝ × ℝ)) : Spec.IsCorrelation l a b (bondNumber l a b) := by
  unfold Spec.IsCorrelation
  cases a with
  | none => exact .inr ⟨fun c d h => (by cases h), rfl⟩
  | some c =>
    cases b with
    | none => exact .inr ⟨fun c d _ h => (by cases h), rfl⟩
    | some d =>
      rw [bondNumber_some]
      simp only [inner_eq]
      unfold fdiv
      by_cases h : Real.sqrt (ip l d d) * Real.sqrt (ip l c c) = 0
      · rw [if_pos h]
        refine .inr ⟨fun c' d' h1 h2 => ?_, rfl⟩
        obtain rfl := Option.some.inj h1
        obtain rfl := Option.some.inj h2
        rcases mul_eq_zero.1 h with h | h
        · exact .inr ((Real.sqrt_eq_zero (ip_self_nonneg l d)).1 h)
        · exact .inl ((Real.sqrt_eq_zero (ip_self_nonneg l c)).1 h)
      · rw [if_neg h]
        rw [mul_eq_zero, not_or] at h
        exact .inl ⟨c, d, rfl, rfl, sqrt_ip_ne.1 h.2, sqrt_ip_ne.1 h.1, by rw [mul_comm]⟩

/-- A correlation is unique. -/
theorem isCorrelation_unique {l : ℕ} {a b : Option (ℕ → ℝ × ℝ)} {x y : Option ℝ} (hx : Spec.IsCorrelation l a b x)
    (hy : Spec.IsCorrelation l a b y) : x = y := by
  rcases hx with ⟨c, d, rfl, rfl, h1, h2, rfl⟩ | ⟨h1, rfl⟩
  · rcases hy with ⟨c', d', h3, h4, _, _, rfl⟩ | ⟨h3, _⟩
    · obtain rfl := Option.some.inj h3
      obtain rfl := Option.some.inj h4
      rfl
    · rcases h3 c d rfl rfl with h | h
      · exact absurd h h1
      · exact absurd h h2
  · rcases hy with ⟨c', d', rfl, rfl, h4, h5, _⟩ | ⟨_, rfl⟩
    · rcases h1 c' d' rfl rfl with h | h
      · exact absurd h h4
      · exact absurd h h5
    · rfl

theorem isCorrelation_symm {l : ℕ} {a b : Option (ℕ → ℝ × ℝ)} {x : Option ℝ} (hx : Spec.IsCorrelation l a b x) :
    Spec.IsCorrelation l b a x := by
  rcases hx with ⟨c, d, rfl, rfl, h1, h2, rfl⟩ | ⟨h1, rfl⟩
  · refine .inl ⟨d, c, rfl, rfl, h2, h1, ?_⟩
    simp only [inner_eq]
    rw [mul_comm, ip_comm]
  · exact .inr ⟨fun c d h2 h3 => (h1 d c h3 h2).symm, rfl⟩

theorem isCorrelation_le {l : ℕ} {a b : Option (ℕ → ℝ × ℝ)} {x : ℝ} (hx : Spec.IsCorrelation l a b (some x)) : |x| ≤ 1 := by
  rcases hx with ⟨c, d, rfl, rfl, h1, h2, h3⟩ | ⟨_, h⟩
  · obtain rfl := Option.some.inj h3
    have hc := (ip_self_nonneg l c).lt_of_ne' h1
    have hd := (ip_self_nonneg l d).lt_of_ne' h2
    rw [← sq_le_one_iff_abs_le_one, div_pow, mul_pow]
    rw [inner_eq, inner_eq, inner_eq, Real.sq_sqrt hc.le, Real.sq_sqrt hd.le, div_le_one (mul_pos hc hd)]
    exact ip_sq_le l c d
  · cases h

theorem isCorrelation_self {l : ℕ} {c : ℕ → ℝ × ℝ} (h : Spec.inner l c c ≠ 0) : Spec.IsCorrelation l (some c) (some c) (some 1) := by
  refine .inl ⟨c, c, rfl, rfl, h, h, ?_⟩
  rw [inner_eq] at h ⊢
  rw [Real.mul_self_sqrt (ip_self_nonneg l c), div_self h]

/-- The correlation of two multiples of neighbour sums through Legendre polynomials. -/
theorem correlation_legendre (l : ℕ) (h2 : 2 ≤ l) (h12 : l ≤ 12) (L L' : List Nb) (hL : ∀ x ∈ L, x.vec ≠ 0)
    (hL' : ∀ x ∈ L', x.vec ≠ 0) (w w' : ℝ) (hw : 0 < w) (hw' : 0 < w') :
    bondNumber l (some fun k => (w * (sumVec l L k).1, w * (sumVec l L k).2))
      (some fun k => (w' * (sumVec l L' k).1, w' * (sumVec l L' k).2)) =
    fdiv (Spec.crossSum l (wv L) (wv L')) (Real.sqrt (Spec.pairSum l (wv L)) * Real.sqrt (Spec.pairSum l (wv L'))) := by
  rw [bondNumber_some, ip_smul_smul, ip_smul_smul, ip_smul_smul, ip_sumVec_cross l h2 h12 L L' hL hL', ip_sumVec l h2 h12 L hL,
    ip_sumVec l h2 h12 L' hL']
  have hK : 0 < (2 * (l : ℝ) + 1) / (4 * PI) := div_pos (by positivity) (mul_pos (by norm_num) PI_pos)
  set K := (2 * (l : ℝ) + 1) / (4 * PI)
  have e1 : Real.sqrt (w' * w' * (K * Spec.pairSum l (wv L'))) = w' * Real.sqrt K * Real.sqrt (Spec.pairSum l (wv L')) := by
    rw [Real.sqrt_mul (by positivity), Real.sqrt_mul_self hw'.le, Real.sqrt_mul hK.le]; ring
  have e2 : Real.sqrt (w * w * (K * Spec.pairSum l (wv L))) = w * Real.sqrt K * Real.sqrt (Spec.pairSum l (wv L)) := by
    rw [Real.sqrt_mul (by positivity), Real.sqrt_mul_self hw.le, Real.sqrt_mul hK.le]; ring
  rw [e1, e2]
  have hs := Real.mul_self_sqrt hK.le
  have hsp := Real.sqrt_pos.2 hK
  set q := Real.sqrt K
  unfold fdiv
  by_cases h : Real.sqrt (Spec.pairSum l (wv L)) * Real.sqrt (Spec.pairSum l (wv L')) = 0
  · rw [if_pos h, if_pos]
    rcases mul_eq_zero.1 h with h | h <;> rw [h] <;> ring
  · rw [if_neg h]
    rw [mul_eq_zero, not_or] at h
    have h1 := h.1
    have h2' := h.2
    rw [if_neg (by
      refine mul_ne_zero (mul_ne_zero (mul_ne_zero ?_ ?_) ?_) (mul_ne_zero (mul_ne_zero ?_ ?_) ?_) <;>
        first | exact hw.ne' | exact hw'.ne' | exact hsp.ne' | assumption), ← hs]
    congr 1
    field_simp

/-- The parameters set by `find_solids`. -/
noncomputable def System.solidParams (s : System) (p : ℕ × ℝ × ℝ × ℕ × ℝ) : System :=
  { s with criteria := p.2.2.2.1, solidq := p.1, minfrenkel := p.2.2.2.2, threshold := p.2.1, avgthreshold := p.2.2.1 }

/-- An atom after `find_solids` without clustering. -/
noncomputable def solidAtom (s : System) (p : ℕ × ℝ × ℝ × ℕ × ℝ) (a : Atom) : Atom :=
  (s.solidParams p).solid1 (((s.afterQ [p.1]).solidParams p).frenkel1 (qAtom s [p.1] a))

theorem nbrsInRange_congr {s t : System} (h : t.atoms.map Atom.nbrs = s.atoms.map Atom.nbrs) (hs : s.NbrsInRange) : t.NbrsInRange := by
  have hl : t.atoms.length = s.atoms.length := by simpa using congrArg List.length h
  intro a ha x hx
  have : a.nbrs ∈ t.atoms.map Atom.nbrs := List.mem_map_of_mem ha
  rw [h] at this
  obtain ⟨b, hb, hb'⟩ := List.mem_map.1 this
  rw [hl]
  exact hs b hb x (hb' ▸ hx)

theorem solidRun_eq (s : System) (p : ℕ × ℝ × ℝ × ℕ × ℝ) (c : ℝ) (hs : s.NbrsInRange) :
    s.solidRun p false c = .ok ({ s.solidParams p with atoms := s.atoms.map (solidAtom s p) }, none) := by
  unfold System.solidRun
  have h1 : ({ s with criteria := p.2.2.2.1, solidq := p.1 } : System).ccalculateQ [p.1] =
      .ok { s.afterQ [p.1] with criteria := p.2.2.2.1, solidq := p.1 } := by
    exact ccalculateQ_eq { s with criteria := p.2.2.2.1, solidq := p.1 } [p.1] hs
  dsimp only
  rw [h1]
  have h2 : ((s.afterQ [p.1]).solidParams p).NbrsInRange := afterQ_inRange hs
  have h3 : ((s.afterQ [p.1]).solidParams p).frenkelNumbers = .ok { (s.afterQ [p.1]).solidParams p with
      atoms := (s.afterQ [p.1]).atoms.map ((s.afterQ [p.1]).solidParams p).frenkel1 } := by
    unfold System.frenkelNumbers
    rw [if_pos h2]; rfl
  change Except.bind (((s.afterQ [p.1]).solidParams p).frenkelNumbers) _ = _
  rw [h3]
  simp only [Except.bind, System.findSolidAtoms, Bool.false_eq_true, if_false, pure, Except.pure]
  congr 2
  simp only [System.afterQ, List.map_map, System.solidParams]
  congr 1

theorem solidRun_oob (s : System) (p : ℕ × ℝ × ℝ × ℕ × ℝ) (b : Bool) (c : ℝ) (hs : ¬ s.NbrsInRange) :
    s.solidRun p b c = .error .oob := by
  unfold System.solidRun
  have h1 : ({ s with criteria := p.2.2.2.1, solidq := p.1 } : System).ccalculateQ [p.1] = .error .oob := by
    unfold System.ccalculateQ
    exact if_neg hs
  dsimp only
  rw [h1]; rfl

/-! ### NaN sums -/

theorem foldl_nanAdd_none (xs : List (Option ℝ)) : xs.foldl nanAdd none = none := by
  induction xs with
  | nil => rfl
  | cons x xs ih => exact ih

theorem foldl_nanAdd (xs : List (Option ℝ)) : ∀ c : ℝ,
    (∃ vs : List ℝ, xs = vs.map some ∧ xs.foldl nanAdd (some c) = some (c + vs.sum)) ∨ (none ∈ xs ∧ xs.foldl nanAdd (some c) = none) := by
  induction xs with
  | nil => intro c; exact .inl ⟨[], rfl, by simp⟩
  | cons x xs ih =>
    intro c
    cases x with
    | none => exact .inr ⟨List.mem_cons_self, foldl_nanAdd_none xs⟩
    | some v =>
      rw [List.foldl_cons]
      change _ ∨ (_ ∧ xs.foldl nanAdd (some (c + v)) = none)
      change (∃ vs : List ℝ, some v :: xs = vs.map some ∧ xs.foldl nanAdd (some (c + v)) = some (c + vs.sum)) ∨ _
      rcases ih (c + v) with ⟨vs, rfl, h⟩ | ⟨h1, h2⟩
      · exact .inl ⟨v :: vs, rfl, by rw [h, List.sum_cons, add_assoc]⟩
      · exact .inr ⟨List.mem_cons_of_mem _ h1, h2⟩

theorem isMean_iff (x : Option ℝ) (xs : List (Option ℝ)) (m : ℝ) :
    nanDiv (xs.foldl nanAdd x) (xs.length + 1) = some m ↔ Spec.IsMean (x :: xs) m := by
  cases x with
  | none =>
    rw [foldl_nanAdd_none]
    constructor
    · intro h; cases h
    · rintro ⟨vs, h, -⟩
      cases vs <;> cases h
  | some c =>
    rcases foldl_nanAdd xs c with ⟨vs, rfl, h⟩ | ⟨h1, h2⟩
    · rw [h]
      have e : nanDiv (some (c + vs.sum)) ((vs.map some).length + 1) = some ((c + vs.sum) / (vs.length + 1)) := by
        unfold nanDiv fdiv
        rw [List.length_map]
        simp only [Option.bind_eq_bind, Option.bind_some]
        rw [if_neg (by positivity)]
        push_cast; rfl
      rw [e, Option.some.injEq]
      constructor
      · intro h
        refine ⟨c :: vs, rfl, by simp, ?_⟩
        rw [List.sum_cons, List.length_cons, ← h]; push_cast; rfl
      · rintro ⟨ws, h1, -, h2⟩
        have : ws = c :: vs := by
          have : ws.map some = (c :: vs).map some := by rw [← h1]; rfl
          exact List.map_injective_iff.2 (Option.some_injective _) this
        rw [h2, this, List.sum_cons, List.length_cons]; push_cast; rfl
    · rw [h2]
      constructor
      · intro h; cases h
      · rintro ⟨ws, h3, -⟩
        have : none ∈ ws.map some := by rw [← h3]; exact List.mem_cons_of_mem _ h1
        simp at this

theorem isMean_zero_iff (xs : List (Option ℝ)) (m : ℝ) :
    nanDiv (xs.foldl nanAdd (some 0)) xs.length = some m ↔ Spec.IsMean xs m := by
  cases xs with
  | nil =>
    constructor
    · intro h
      simp [nanDiv, fdiv] at h
    · rintro ⟨ws, h, h', -⟩
      cases ws with
      | nil => exact absurd rfl h'
      | cons => cases h
  | cons x xs =>
    rw [← isMean_iff, List.foldl_cons, List.length_cons]
    have : nanAdd (some 0) x = x := by cases x <;> simp [nanAdd]
    rw [this]

/-! ### Disorder -/

theorem sii_eq (s : System) (a : Atom) {c : ℕ → ℝ × ℝ} (h : a.qlm s.solidq = some c) :
    s.sii a = if ip s.solidq c c = 0 then none else some 1 := by
  unfold System.sii System.numberFromBond
  rw [h]
  split_ifs with h0
  · rw [bondNumber_some, fdiv, if_pos (by rw [h0]; simp)]
  · exact isCorrelation_unique (bondNumber_spec _ _ _) (isCorrelation_self h0)

theorem sii_some (s : System) (a : Atom) {x : ℝ} (h : s.sii a = some x) : x = 1 := by
  cases hc : a.qlm s.solidq with
  | none => simp [System.sii, System.numberFromBond, hc, bondNumber] at h
  | some c =>
    rw [sii_eq s a hc] at h
    split_ifs at h
    exact (Option.some.inj h).symm

theorem cs_add {d a b p x y : ℝ} (ha : 0 ≤ a) (hb : 0 ≤ b) (hx : 0 ≤ x) (hy : 0 ≤ y) (h1 : d ^ 2 ≤ a * b) (h2 : p ^ 2 ≤ x * y) :
    (d + p) ^ 2 ≤ (a + x) * (b + y) := by
  have h3 : (2 * (d * p)) ^ 2 ≤ (a * y + b * x) ^ 2 := by
    have e : (d * p) ^ 2 ≤ (a * b) * (x * y) := by
      rw [mul_pow]
      exact mul_le_mul h1 h2 (sq_nonneg _) (by positivity)
    nlinarith [sq_nonneg (a * y - b * x)]
  have h4 : 2 * (d * p) ≤ a * y + b * x := abs_le_of_sq_le_sq' h3 (by positivity) |>.2
  nlinarith

theorem cs_div {d a b z : ℝ} (ha : 0 ≤ a) (hb : 0 ≤ b) (h : d ^ 2 ≤ a * b) (hz : fdiv d (Real.sqrt b * Real.sqrt a) = some z) :
    |z| ≤ 1 := by
  unfold fdiv at hz
  split_ifs at hz with h0
  obtain rfl := Option.some.inj hz
  have hp : 0 < Real.sqrt b * Real.sqrt a := lt_of_le_of_ne (by positivity) (Ne.symm h0)
  rw [abs_div, abs_of_pos hp, div_le_one hp]
  refine abs_le_of_sq_le_sq ?_ hp.le
  rw [mul_pow, Real.sq_sqrt hb, Real.sq_sqrt ha]
  linarith

/-- Every term added by the loop lies between 0 and 4. -/
theorem disorderLoop_bound (s : System) (a : Atom) : ∀ (ts : List ℕ) (si sj dot dis : ℝ) (r : ℝ × ℝ × ℝ × Option ℝ) (v : ℝ),
    0 ≤ si → 0 ≤ sj → dot ^ 2 ≤ si * sj → s.disorderLoop a ts (si, sj, dot, some dis) = some r → r.2.2.2 = some v →
    dis ≤ v ∧ v ≤ dis + 4 * ts.length := by
  intro ts
  induction ts with
  | nil =>
    intro si sj dot dis r v _ _ _ h hv
    obtain rfl := Option.some.inj h
    obtain rfl := Option.some.inj hv
    simp
  | cons t ts ih =>
    intro si sj dot dis r v h1 h2 h3 h hv
    rw [System.disorderLoop] at h
    cases hc : a.qlm s.solidq with
    | none => rw [hc] at h; cases h
    | some c =>
      cases hd : (s.mem t).qlm s.solidq with
      | none => rw [hc, hd] at h; cases h
      | some d =>
        rw [hc, hd] at h
        simp only [Option.bind_eq_bind, Option.bind_some] at h
        rw [dotLoop_full, dotLoop_full, dotLoop_split] at h
        have g1 : 0 ≤ si + ip s.solidq c c := add_nonneg h1 (ip_self_nonneg _ _)
        have g2 : 0 ≤ sj + ip s.solidq d d := add_nonneg h2 (ip_self_nonneg _ _)
        have g3 := cs_add h1 h2 (ip_self_nonneg s.solidq c) (ip_self_nonneg s.solidq d) h3 (ip_sq_le s.solidq c d)
        have aux : ∀ ts st, (∃ r', s.disorderLoop a ts st = some r' ∧ r'.2.2.2 = some v) → st.2.2.2 ≠ none := by
          intro ts
          induction ts with
          | nil =>
            rintro st ⟨r', e1, e2⟩ e3
            obtain rfl := Option.some.inj e1
            rw [e3] at e2; cases e2
          | cons t ts ih2 =>
            rintro ⟨x1, x2, x3, x4⟩ ⟨r', e1, e2⟩ e3
            rw [System.disorderLoop] at e1
            cases hd2 : (s.mem t).qlm s.solidq with
            | none => rw [hc, hd2] at e1; cases e1
            | some d2 =>
              rw [hc, hd2] at e1
              simp only [Option.bind_eq_bind, Option.bind_some] at e1
              refine ih2 _ ⟨r', e1, e2⟩ ?_
              dsimp only at e3 ⊢
              rw [e3]; rfl
        have hne := aux ts _ ⟨r, h, hv⟩
        cases hx : s.sii a with
        | none => rw [hx] at hne; exact absurd rfl hne
        | some x =>
          cases hy : s.sii (s.mem t) with
          | none => rw [hx, hy] at hne; exact absurd rfl hne
          | some y =>
            cases hz : fdiv (dot + ip s.solidq c d) (Real.sqrt (sj + ip s.solidq d d) * Real.sqrt (si + ip s.solidq c c)) with
            | none => rw [hx, hy, hz] at hne; exact absurd rfl hne
            | some z =>
              rw [hx, hy, hz] at h
              have hb := cs_div g1 g2 g3 hz
              rw [sii_some s a hx, sii_some s _ hy] at h
              obtain ⟨k1, k2⟩ := ih _ _ _ (dis + (1 + 1 - 2 * z)) r v g1 g2 g3 h hv
              rw [abs_le] at hb
              rw [List.length_cons]
              push_cast
              constructor <;> linarith [hb.1, hb.2]

/-- The loop when all vectors met are equal. -/
theorem disorderLoop_uniform (s : System) (a : Atom) {c : ℕ → ℝ × ℝ} (hc : a.qlm s.solidq = some c) (h0 : ip s.solidq c c ≠ 0) :
    ∀ (ts : List ℕ) (n : ℕ), (∀ t ∈ ts, (s.mem t).qlm s.solidq = some c) →
    ∃ r, s.disorderLoop a ts (n * ip s.solidq c c, n * ip s.solidq c c, n * ip s.solidq c c, some 0) = some r ∧ r.2.2.2 = some 0 := by
  intro ts
  induction ts with
  | nil => intro n _; exact ⟨_, rfl, rfl⟩
  | cons t ts ih =>
    intro n h
    have ht := h t List.mem_cons_self
    rw [System.disorderLoop, hc, ht]
    simp only [Option.bind_eq_bind, Option.bind_some]
    rw [dotLoop_full, dotLoop_split]
    have e : (n : ℝ) * ip s.solidq c c + ip s.solidq c c = (n + 1 : ℕ) * ip s.solidq c c := by push_cast; ring
    rw [e, sii_eq s a hc, sii_eq s _ ht, if_neg h0]
    have hp := (ip_self_nonneg s.solidq c).lt_of_ne' h0
    have hP : 0 < ((n + 1 : ℕ) : ℝ) * ip s.solidq c c := by positivity
    have ef : fdiv ((n + 1 : ℕ) * ip s.solidq c c) (Real.sqrt ((n + 1 : ℕ) * ip s.solidq c c) * Real.sqrt ((n + 1 : ℕ) * ip s.solidq c c)) = some 1 := by
      rw [Real.mul_self_sqrt hP.le, fdiv, if_neg hP.ne', div_self hP.ne']
    rw [ef]
    have hn : nanAdd (some 0) (some (1 + 1 - 2 * 1 : ℝ)) = some 0 := by
      simp [nanAdd]; norm_num
    simp only [Option.bind_some]
    change ∃ r, s.disorderLoop a ts (_, _, _, nanAdd (some 0) (some (1 + 1 - 2 * 1 : ℝ))) = some r ∧ _
    rw [hn]
    exact ih (n + 1) (fun t ht => h t (List.mem_cons_of_mem _ ht))

end Pyscal
