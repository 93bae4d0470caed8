import Verif.Lemmas.Alike
import Verif.Lemmas.Displaced

/-! Bond-orientational parameters of neighbours whose vectors differ a little: helper lemmas for C100. -/

namespace Pyscal

/-! ### Legendre polynomials near one -/

theorem legendre_abs_le {u v : V3} (hu : u ≠ 0) (hv : v ≠ 0) {n : ℕ} (hn : n ≤ 12) : |Spec.legendre n (Spec.cosAngle u v)| ≤ 1 := by
  have h1 : ∀ m : ℕ, 2 ≤ m → m ≤ 12 → |Spec.legendre m (Spec.cosAngle u v)| ≤ 1 := by
    intro m h2 h12
    have hc := ip_sq_le m (yVec m u) (yVec m v)
    rw [addition m h2 h12 hu hv, addition m h2 h12 hu hu, addition m h2 h12 hv hv, cosAngle_self hu, cosAngle_self hv, legendre_one] at hc
    have hp : 0 < (2 * (m : ℝ) + 1) / (4 * PI) := by have := PI_pos; positivity
    rw [abs_le_one_iff_mul_self_le_one]
    have hp2 : 0 < ((2 * (m : ℝ) + 1) / (4 * PI)) ^ 2 := by positivity
    by_contra hcon
    have := mul_lt_mul_of_pos_left (not_le.1 hcon) hp2
    nlinarith
  rcases n with _ | _ | n
  · simp [Spec.legendre]
  · have hc := (abs_le_one_iff_mul_self_le_one (a := Spec.cosAngle u v)).2 ?_
    · simpa [Spec.legendre] using hc
    have h2 := (abs_le.1 (h1 2 le_rfl (by norm_num))).2
    simp only [Spec.legendre] at h2
    push_cast at h2
    nlinarith
  · exact h1 _ (by omega) hn

/-- `P_n` falls by at most `(n + 1) (1 - x)` from one degree to the next. -/
theorem legendre_step {x : ℝ} (hx : x ≤ 1) {N : ℕ} (h : ∀ n ≤ N, |Spec.legendre n x| ≤ 1) : ∀ n ≤ N, Spec.legendre n x - Spec.legendre (n + 1) x ≤ (n + 1) * (1 - x) := by
  intro n
  induction n with
  | zero => intro _; simp [Spec.legendre]
  | succ n ih =>
    intro hn
    have ih := ih (by omega)
    have hb := (abs_le.1 (h (n + 1) hn)).2
    have e : Spec.legendre (n + 1 + 1) x = ((2 * (n : ℝ) + 3) * x * Spec.legendre (n + 1) x - ((n : ℝ) + 1) * Spec.legendre n x) / ((n : ℝ) + 2) := rfl
    rw [e]
    have hn2 : (0 : ℝ) < n + 2 := by positivity
    push_cast
    rw [sub_le_iff_le_add, ← sub_le_iff_le_add', le_div_iff₀ hn2]
    have hx0 : 0 ≤ 1 - x := by linarith
    have a1 : (2 * (n : ℝ) + 3) * (1 - x) * Spec.legendre (n + 1) x ≤ (2 * (n : ℝ) + 3) * (1 - x) := by
      have : 0 ≤ (2 * (n : ℝ) + 3) * (1 - x) := by positivity
      nlinarith
    have a2 : ((n : ℝ) + 1) * (Spec.legendre n x - Spec.legendre (n + 1) x) ≤ ((n : ℝ) + 1) * (((n : ℝ) + 1) * (1 - x)) := mul_le_mul_of_nonneg_left ih (by positivity)
    nlinarith

theorem legendre_low {x : ℝ} (hx : x ≤ 1) {N : ℕ} (h : ∀ n ≤ N, |Spec.legendre n x| ≤ 1) : ∀ n ≤ N, 1 - Spec.legendre n x ≤ (n : ℝ) * (n + 1) / 2 * (1 - x) := by
  intro n
  induction n with
  | zero => intro _; simp [Spec.legendre]
  | succ n ih =>
    intro hn
    have := legendre_step hx h n (by omega)
    have ih := ih (by omega)
    push_cast
    nlinarith

/-- Vectors of similar length and direction enclose a small angle. -/
theorem cosAngle_close {u v : V3} {ρ δ : ℝ} (hρ : 0 < ρ) (hu : ρ ≤ u.norm) (hv : ρ ≤ v.norm) (hd : V3.norm (v - u) ≤ δ) :
    Spec.cosAngle u v ≤ 1 ∧ 2 * (1 - Spec.cosAngle u v) ≤ (δ / ρ) ^ 2 := by
  have hu0 : 0 < u.norm := by linarith
  have hv0 : 0 < v.norm := by linarith
  have su : u.norm * u.norm = u.normSq := V3.norm_sq u
  have sv : v.norm * v.norm = v.normSq := V3.norm_sq v
  have sd : V3.norm (v - u) * V3.norm (v - u) = V3.normSq (v - u) := V3.norm_sq _
  have hd0 : 0 ≤ V3.norm (v - u) := V3.norm_nonneg _
  have e : V3.normSq (v - u) = u.normSq + v.normSq - 2 * V3.dot u v := by
    unfold V3.normSq V3.dot; simp; ring
  have huv : 0 < u.norm * v.norm := mul_pos hu0 hv0
  have e1 : 2 * (1 - Spec.cosAngle u v) * (u.norm * v.norm) = V3.normSq (v - u) - (u.norm - v.norm) ^ 2 := by
    unfold Spec.cosAngle
    rw [e]
    field_simp
    nlinarith
  have hcs : V3.dot u v ≤ u.norm * v.norm := by
    refine abs_le_of_sq_le_sq' ?_ (by positivity) |>.2
    have e : (V3.norm u * V3.norm v) ^ 2 = V3.normSq u * V3.normSq v := by rw [← su, ← sv]; ring
    rw [e]
    unfold V3.normSq V3.dot
    nlinarith [sq_nonneg (u.x * v.y - u.y * v.x), sq_nonneg (u.x * v.z - u.z * v.x), sq_nonneg (u.y * v.z - u.z * v.y)]
  refine ⟨?_, ?_⟩
  · unfold Spec.cosAngle
    rw [div_le_one huv]
    exact hcs
  · rw [div_pow, le_div_iff₀ (by positivity)]
    have hc : Spec.cosAngle u v ≤ 1 := by unfold Spec.cosAngle; rw [div_le_one huv]; exact hcs
    have h1 : ρ ^ 2 ≤ u.norm * v.norm := by nlinarith
    have h2 : 2 * (1 - Spec.cosAngle u v) * ρ ^ 2 ≤ 2 * (1 - Spec.cosAngle u v) * (u.norm * v.norm) := mul_le_mul_of_nonneg_left h1 (by linarith)
    nlinarith [sq_nonneg (u.norm - v.norm)]

/-! ### The norm of differences -/

/-- Difference of two vectors of components. -/
def subVec (f g : ℕ → ℝ × ℝ) : ℕ → ℝ × ℝ := fun k => ((f k).1 - (g k).1, (f k).2 - (g k).2)

theorem qValue_abs_sub_le (l : ℕ) (f g : ℕ → ℝ × ℝ) : |qValue l f - qValue l g| ≤ qValue l (subVec f g) := by
  have h1 : f = fun k => ((subVec f g k).1 + (g k).1, (subVec f g k).2 + (g k).2) := by funext k; simp [subVec]
  have h2 : g = fun k => ((subVec g f k).1 + (f k).1, (subVec g f k).2 + (f k).2) := by funext k; simp [subVec]
  have h3 : qValue l (subVec g f) = qValue l (subVec f g) := by
    have e : subVec g f = fun k => ((-1) * (subVec f g k).1, (-1) * (subVec f g k).2) := by funext k; simp [subVec]
    rw [e, qValue_smul]
    simp
  have a1 := qValue_add_le l (subVec f g) g
  have a2 := qValue_add_le l (subVec g f) f
  rw [← h1] at a1
  rw [← h2] at a2
  rw [abs_le]
  constructor <;> linarith

theorem ip_subVec (l : ℕ) (f g : ℕ → ℝ × ℝ) : ip l (subVec f g) (subVec f g) = ip l f f - 2 * ip l f g + ip l g g := by
  unfold ip subVec dot2
  rw [Finset.mul_sum, ← Finset.sum_sub_distrib, ← Finset.sum_add_distrib]
  refine Finset.sum_congr rfl fun k _ => ?_
  ring

/-- How much `q_lm` of a single neighbour changes with its direction. -/
theorem qValue_yVec_sub (l : ℕ) (h2 : 2 ≤ l) (h12 : l ≤ 12) {u v : V3} {ρ δ : ℝ} (hρ : 0 < ρ) (hu : ρ ≤ u.norm) (hv : ρ ≤ v.norm) (hd : V3.norm (v - u) ≤ δ) :
    qValue l (subVec (yVec l v) (yVec l u)) ≤ Real.sqrt ((l : ℝ) * (l + 1) / 2) * (δ / ρ) := by
  have hu0 : u ≠ 0 := by rintro rfl; rw [V3.norm_zero] at hu; linarith
  have hv0 : v ≠ 0 := by rintro rfl; rw [V3.norm_zero] at hv; linarith
  have hδ : 0 ≤ δ := (V3.norm_nonneg _).trans hd
  obtain ⟨c1, c2⟩ := cosAngle_close hρ hu hv hd
  have hlow := legendre_low c1 (N := 12) (fun n hn => legendre_abs_le hu0 hv0 hn) l h12
  have hP := PI_pos
  rw [qValue_eq, ip_subVec, ip_comm l (yVec l v) (yVec l u), addition l h2 h12 hu0 hv0, addition l h2 h12 hu0 hu0, addition l h2 h12 hv0 hv0, cosAngle_self hu0, cosAngle_self hv0, legendre_one]
  have hl0 : (0 : ℝ) < 2 * l + 1 := by positivity
  have e : (4 * PI / (2 * (l : ℝ) + 1)) * ((2 * (l : ℝ) + 1) / (4 * PI) * 1 - 2 * ((2 * (l : ℝ) + 1) / (4 * PI) * Spec.legendre l (Spec.cosAngle u v)) + (2 * (l : ℝ) + 1) / (4 * PI) * 1) =
      2 * (1 - Spec.legendre l (Spec.cosAngle u v)) := by
    field_simp
    ring
  rw [e, Real.sqrt_le_left (by positivity), mul_pow, Real.sq_sqrt (by positivity)]
  have hl1 : (0 : ℝ) ≤ (l : ℝ) * (l + 1) / 2 := by positivity
  nlinarith [mul_le_mul_of_nonneg_left c2 hl1]

theorem qValue_zero (l : ℕ) : qValue l (fun _ => (0, 0)) = 0 := by rw [qValue_eq, ip_zero_left]; simp

theorem sumVec_close (l : ℕ) {K : ℝ} {L L' : List Nb} (h : List.Forall₂ (fun x y : Nb => x.weight = 1 ∧ y.weight = 1 ∧ qValue l (subVec (yVec l y.vec) (yVec l x.vec)) ≤ K) L L') :
    qValue l (subVec (sumVec l L') (sumVec l L)) ≤ L.length * K := by
  induction h with
  | nil =>
    have : subVec (sumVec l []) (sumVec l []) = fun _ => (0, 0) := by funext k; simp [subVec]
    rw [this, qValue_zero]; simp
  | cons h hs ih =>
    rename_i x y L L'
    obtain ⟨w1, w2, hK⟩ := h
    have e : subVec (sumVec l (y :: L')) (sumVec l (x :: L)) =
        fun k => ((subVec (yVec l y.vec) (yVec l x.vec) k).1 + (subVec (sumVec l L') (sumVec l L) k).1, (subVec (yVec l y.vec) (yVec l x.vec) k).2 + (subVec (sumVec l L') (sumVec l L) k).2) := by
      funext k
      rw [sumVec_cons, sumVec_cons]
      simp only [subVec, w1, w2, one_mul]
      exact Prod.ext (by ring) (by ring)
    rw [e]
    refine (qValue_add_le l _ _).trans ?_
    rw [List.length_cons]
    push_cast
    linarith

/-- Specification: two values are both NaN, or both numbers that differ by at most `K`. -/
def Spec.CloseTo (K : ℝ) (o o' : Option ℝ) : Prop := (o = none ∧ o' = none) ∨ ∃ q q', o = some q ∧ o' = some q' ∧ |q' - q| ≤ K

/-- Vectors that are both NaN, or differ by at most `K` in norm. -/
def CloseVec (l : ℕ) (K : ℝ) (o o' : Option (ℕ → ℝ × ℝ)) : Prop := (o = none ∧ o' = none) ∨ ∃ c c', o = some c ∧ o' = some c' ∧ qValue l (subVec c' c) ≤ K

theorem CloseVec.closeTo {l : ℕ} {K : ℝ} {o o' : Option (ℕ → ℝ × ℝ)} (h : CloseVec l K o o') : Spec.CloseTo K (o.map (qValue l)) (o'.map (qValue l)) := by
  rcases h with ⟨rfl, rfl⟩ | ⟨c, c', rfl, rfl, h⟩
  · exact .inl ⟨rfl, rfl⟩
  · exact .inr ⟨_, _, rfl, rfl, (qValue_abs_sub_le l c' c).trans h⟩

/-- `q_lm` of an atom from a list of neighbours. -/
theorem calcQlm_close {s g : System} {a b : Atom} {l : ℕ} (h2 : 2 ≤ l) (h12 : l ≤ 12) (vs : s.voronoiused = false) (vg : g.voronoiused = false) {ρ δ : ℝ} (hρ : 0 < ρ)
    {L L' : List Nb} (hL : (s.qNbrs a).Perm L) (hL' : (g.qNbrs b).Perm L')
    (h : List.Forall₂ (fun x y : Nb => x.weight = 1 ∧ y.weight = 1 ∧ ρ ≤ x.vec.norm ∧ ρ ≤ y.vec.norm ∧ V3.norm (y.vec - x.vec) ≤ δ) L L') :
    CloseVec l (Real.sqrt ((l : ℝ) * (l + 1) / 2) * (δ / ρ)) (s.calcQlm l a) (g.calcQlm l b) := by
  have hlen := h.length_eq
  have hn0 : ∀ v : V3, ρ ≤ v.norm → v ≠ 0 := by
    rintro v hv rfl
    rw [V3.norm_zero] at hv
    linarith
  have hx : ∀ x ∈ L, x.weight = 1 ∧ x.vec ≠ 0 := by
    intro x hx
    obtain ⟨i, hi, rfl⟩ := List.getElem_of_mem hx
    have := List.forall₂_iff_get.1 h |>.2 i hi (hlen ▸ hi)
    exact ⟨this.1, hn0 _ this.2.2.1⟩
  have hy : ∀ x ∈ L', x.weight = 1 ∧ x.vec ≠ 0 := by
    intro x hx
    obtain ⟨i, hi, rfl⟩ := List.getElem_of_mem hx
    have := List.forall₂_iff_get.1 h |>.2 i (hlen ▸ hi) hi
    exact ⟨this.2.1, hn0 _ this.2.2.2.1⟩
  have hval : ∀ (t : System) (c : Atom) (M : List Nb), t.voronoiused = false → (t.qNbrs c).Perm M → (∀ x ∈ M, x.weight = 1 ∧ x.vec ≠ 0) →
      t.calcQlm l c = if (M.length : ℝ) = 0 then none else some fun k => ((sumVec l M k).1 / M.length, (sumVec l M k).2 / M.length) := by
    intro t c M tv hp hM
    have hw : qWeight (t.qNbrs c) = M.length := by
      rw [qWeight_eq, (hp.map _).sum_eq, List.map_congr_left (fun x hx => (hM x hx).1)]
      simp
    have hq : ∀ m : ℤ, qSum l m (t.qNbrs c) = qSum l m M := by
      intro m
      rw [qSum_eq, qSum_eq]
      exact Prod.ext (hp.map _).sum_eq (hp.map _).sum_eq
    unfold System.calcQlm
    dsimp only
    rw [if_neg (by rintro ⟨x, hx, h0⟩; exact (hM x (hp.mem_iff.1 hx)).2 h0), tv, hw]
    simp only [hq]
    rfl
  rw [hval s a L vs hL hx, hval g b L' vg hL' hy, ← hlen]
  by_cases h0 : (L.length : ℝ) = 0
  · rw [if_pos h0, if_pos h0]
    exact .inl ⟨rfl, rfl⟩
  rw [if_neg h0, if_neg h0]
  refine .inr ⟨_, _, rfl, rfl, ?_⟩
  have hpos : (0 : ℝ) < L.length := lt_of_le_of_ne (by positivity) (Ne.symm h0)
  have e : (subVec (fun k => ((sumVec l L' k).1 / (L.length : ℝ), (sumVec l L' k).2 / (L.length : ℝ))) fun k => ((sumVec l L k).1 / (L.length : ℝ), (sumVec l L k).2 / (L.length : ℝ))) =
      fun k => ((L.length : ℝ)⁻¹ * (subVec (sumVec l L') (sumVec l L) k).1, (L.length : ℝ)⁻¹ * (subVec (sumVec l L') (sumVec l L) k).2) := by
    funext k
    simp only [subVec]
    exact Prod.ext (by ring) (by ring)
  rw [e, qValue_smul, abs_of_pos (by positivity)]
  have hF : List.Forall₂ (fun x y : Nb => x.weight = 1 ∧ y.weight = 1 ∧ qValue l (subVec (yVec l y.vec) (yVec l x.vec)) ≤ Real.sqrt ((l : ℝ) * (l + 1) / 2) * (δ / ρ)) L L' := by
    refine List.Forall₂.imp ?_ h
    intro x y hxy
    exact ⟨hxy.1, hxy.2.1, qValue_yVec_sub l h2 h12 hρ hxy.2.2.1 hxy.2.2.2.1 hxy.2.2.2.2⟩
  have hs := sumVec_close l hF
  calc _ ≤ (L.length : ℝ)⁻¹ * (L.length * (Real.sqrt ((l : ℝ) * (l + 1) / 2) * (δ / ρ))) := mul_le_mul_of_nonneg_left hs (by positivity)
    _ = _ := by field_simp

theorem vecSum_close (l : ℕ) {K : ℝ} {V W : List (ℕ → ℝ × ℝ)} (h : List.Forall₂ (fun c c' => qValue l (subVec c' c) ≤ K) V W) :
    qValue l (subVec (vecSum W) (vecSum V)) ≤ V.length * K := by
  induction h with
  | nil =>
    have : subVec (vecSum []) (vecSum []) = fun _ => (0, 0) := by funext k; simp [subVec]
    rw [this, qValue_zero]; simp
  | cons h hs ih =>
    rename_i x y L L'
    have e : subVec (vecSum (y :: L')) (vecSum (x :: L)) =
        fun k => ((subVec y x k).1 + (subVec (vecSum L') (vecSum L) k).1, (subVec y x k).2 + (subVec (vecSum L') (vecSum L) k).2) := by
      funext k
      simp only [subVec, vecSum, List.map_cons, List.sum_cons]
      exact Prod.ext (by ring) (by ring)
    rw [e]
    refine (qValue_add_le l _ _).trans ?_
    rw [List.length_cons]
    push_cast
    linarith

/-- Averages over groups with the same members. -/
theorem calcAqlm_close {s g : System} {ls : List ℕ} {l k : ℕ} (hl : l ∈ ls) (hs : s.NbrsInRange) (hg : g.NbrsInRange) (hlen : g.atoms.length = s.atoms.length) (hk : k < s.atoms.length)
    {K : ℝ} (hp : ((g.qNbrs (g.mem k)).map Nb.idx).Perm ((s.qNbrs (s.mem k)).map Nb.idx)) (hc : ∀ i < s.atoms.length, CloseVec l K (s.calcQlm l (s.mem i)) (g.calcQlm l (g.mem i))) :
    CloseVec l K ((s.afterQ ls).calcAqlm l (qAtom s ls (s.mem k))) ((g.afterQ ls).calcAqlm l (qAtom g ls (g.mem k))) := by
  obtain ⟨i1, n1, v1⟩ := calcAqlm_afterQ s ls l hl hs k hk (fun i => s.calcQlm l (s.mem i)) (fun _ _ => rfl)
  obtain ⟨i2, n2, v2⟩ := calcAqlm_afterQ g ls l hl hg k (hlen ▸ hk) (fun i => g.calcQlm l (g.mem i)) (fun _ _ => rfl)
  set I := k :: (s.qNbrs (s.mem k)).map Nb.idx
  set J := k :: (g.qNbrs (g.mem k)).map Nb.idx
  have hIJ : J.Perm I := hp.cons k
  by_cases hn : ∃ i ∈ I, s.calcQlm l (s.mem i) = none
  · obtain ⟨i, hi, hin⟩ := hn
    refine .inl ⟨n1 ⟨i, hi, hin⟩, n2 ⟨i, hIJ.mem_iff.2 hi, ?_⟩⟩
    rcases hc i (i1 i hi) with h | ⟨c, c', h, -⟩
    · exact h.2
    · rw [hin] at h; cases h
  have hS : ∀ i ∈ I, ∃ c c', s.calcQlm l (s.mem i) = some c ∧ g.calcQlm l (g.mem i) = some c' ∧ qValue l (subVec c' c) ≤ K := by
    intro i hi
    rcases hc i (i1 i hi) with h | h
    · exact absurd ⟨i, hi, h.1⟩ hn
    · exact h
  have w1 := v1 fun i hi => by obtain ⟨c, c', h, -⟩ := hS i hi; rw [h]; rfl
  have w2 := v2 fun i hi => by obtain ⟨c, c', -, h, -⟩ := hS i (hIJ.mem_iff.1 hi); rw [h]; rfl
  rw [w1, w2, vecSum_perm (hIJ.map fun i => (g.calcQlm l (g.mem i)).getD default), hIJ.length_eq]
  refine .inr ⟨_, _, rfl, rfl, ?_⟩
  have hF : List.Forall₂ (fun c c' => qValue l (subVec c' c) ≤ K) (I.map fun i => (s.calcQlm l (s.mem i)).getD default) (I.map fun i => (g.calcQlm l (g.mem i)).getD default) := by
    rw [List.forall₂_map_left_iff, List.forall₂_map_right_iff]
    refine List.forall₂_same.2 fun i hi => ?_
    obtain ⟨c, c', h, h', hK⟩ := hS i hi
    rw [h, h']
    exact hK
  have hb := vecSum_close l hF
  have hpos : (0 : ℝ) < I.length := by simp only [I, List.length_cons]; positivity
  rw [List.length_map] at hb
  have e : ∀ V W : List (ℕ → ℝ × ℝ), (subVec (fun k => ((vecSum W k).1 / (I.length : ℝ), (vecSum W k).2 / (I.length : ℝ))) fun k => ((vecSum V k).1 / (I.length : ℝ), (vecSum V k).2 / (I.length : ℝ))) =
      fun k => ((I.length : ℝ)⁻¹ * (subVec (vecSum W) (vecSum V) k).1, (I.length : ℝ)⁻¹ * (subVec (vecSum W) (vecSum V) k).2) := by
    intro V W
    funext k
    simp only [subVec]
    exact Prod.ext (by ring) (by ring)
  rw [e, qValue_smul, abs_of_pos (by positivity)]
  calc _ ≤ (I.length : ℝ)⁻¹ * (I.length * K) := mul_le_mul_of_nonneg_left hb (by positivity)
    _ = _ := by field_simp

/-! ### Neighbour vectors of displaced atoms -/

theorem wrap_close {L c e : ℝ} {d d' : ℝ} (hc : |wrap L d| ≤ c) (he : |d' - d| ≤ e) (h : c + e < L / 2) : wrap L d' = wrap L d + (d' - d) := by
  obtain ⟨c1, c2⟩ := abs_le.1 hc
  obtain ⟨e1, e2⟩ := abs_le.1 he
  unfold wrap at c1 c2 ⊢
  dsimp only at c1 c2 ⊢
  split_ifs at c1 c2 ⊢ <;> linarith

end Pyscal
