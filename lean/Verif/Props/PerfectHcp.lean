import Verif.Props.PerfectCna

/-! C96 for hcp. -/

namespace Pyscal

open Spec (diagBox ofFrac latticeVec IsImage FracBound crystal cross volume InBox)

/-- A vector in units of `a/2`, `√3 a/6` and `c/2`. -/
noncomputable def hgrid (a ca : ℝ) (k : ℤ × ℤ × ℤ) : V3 := ⟨k.1 * (a / 2), k.2.1 * (Real.sqrt 3 * a / 6), k.2.2 * (ca * a / 2)⟩

theorem hgrid_sub (a ca : ℝ) (v w : ℤ × ℤ × ℤ) : hgrid a ca v - hgrid a ca w = hgrid a ca (v.1 - w.1, v.2.1 - w.2.1, v.2.2 - w.2.2) := by
  ext <;> simp [hgrid] <;> ring

theorem hgrid_inj {a ca : ℝ} (ha : 0 < a) (hca : 0 < ca) {k k' : ℤ × ℤ × ℤ} (h : hgrid a ca k = hgrid a ca k') : k = k' := by
  have h1 : (a / 2) ≠ 0 := by positivity
  have h2 : (Real.sqrt 3 * a / 6) ≠ 0 := by
    have : 0 < Real.sqrt 3 := Real.sqrt_pos.2 (by norm_num)
    positivity
  have h3 : (ca * a / 2) ≠ 0 := by positivity
  simp only [hgrid, V3.mk.injEq] at h
  obtain ⟨e1, e2, e3⟩ := h
  refine Prod.ext ?_ (Prod.ext ?_ ?_)
  · exact_mod_cast mul_right_cancel₀ h1 e1
  · exact_mod_cast mul_right_cancel₀ h2 e2
  · exact_mod_cast mul_right_cancel₀ h3 e3

/-- Twelve times the squared distance in the plane, and the number of layers. -/
def hsq (k : ℤ × ℤ × ℤ) : ℤ := 3 * (k.1 * k.1) + k.2.1 * k.2.1
def zsq (k : ℤ × ℤ × ℤ) : ℤ := k.2.2 * k.2.2

theorem normSq_hgrid (a ca : ℝ) (k : ℤ × ℤ × ℤ) : V3.normSq (hgrid a ca k) = a ^ 2 * ((hsq k : ℝ) / 12 + (zsq k : ℝ) * ca ^ 2 / 4) := by
  have h3 : Real.sqrt 3 * Real.sqrt 3 = 3 := Real.mul_self_sqrt (by norm_num)
  simp only [V3.normSq, hgrid, hsq, zsq]
  push_cast
  linear_combination (k.2.1 * k.2.1 * a ^ 2 / 36 : ℝ) * h3

theorem norm_hgrid_le {a ca : ℝ} (ha : 0 < a) (k : ℤ × ℤ × ℤ) {c : ℝ} (hc : 0 ≤ c) : V3.norm (hgrid a ca k) ≤ a * c ↔ (hsq k : ℝ) / 12 + (zsq k : ℝ) * ca ^ 2 / 4 ≤ c ^ 2 := by
  unfold V3.norm
  rw [Real.sqrt_le_left (by positivity), normSq_hgrid, mul_pow, mul_le_mul_iff_right₀ (by positivity)]

theorem norm_hgrid_lt {a ca : ℝ} (ha : 0 < a) (k : ℤ × ℤ × ℤ) {c : ℝ} (hc : 0 ≤ c) : V3.norm (hgrid a ca k) < a * c ↔ (hsq k : ℝ) / 12 + (zsq k : ℝ) * ca ^ 2 / 4 < c ^ 2 := by
  rw [← not_le, ← not_le, not_iff_not]
  unfold V3.norm
  have h0 : 0 ≤ V3.normSq (hgrid a ca k) := by
    unfold V3.normSq
    nlinarith [mul_self_nonneg (hgrid a ca k).x, mul_self_nonneg (hgrid a ca k).y, mul_self_nonneg (hgrid a ca k).z]
  rw [Real.le_sqrt (by positivity) h0, normSq_hgrid, mul_pow, mul_le_mul_iff_right₀ (by positivity)]

/-- The sites in these units. -/
def hsites : List (ℤ × ℤ × ℤ) := [(0, 0, 0), (1, 3, 0), (1, 1, 1), (0, 4, 1)]

def hstep (b b' n : ℤ × ℤ × ℤ) : ℤ × ℤ × ℤ := (b'.1 - b.1 + 2 * n.1, b'.2.1 - b.2.1 + 6 * n.2.1, b'.2.2 - b.2.2 + 2 * n.2.2)

theorem mem_hcp (a ca : ℝ) (p : V3) : (∃ t, (p, t) ∈ Spec.idealCrystal (Spec.cellEdges "hcp" a ca) (Spec.basis "hcp")) ↔
    ∃ b ∈ hsites, ∃ n : ℤ × ℤ × ℤ, p = hgrid a ca (hstep 0 b n) := by
  have hb : Spec.basis "hcp" = hsites.map fun b => (((b.1 : ℚ) / 2, (b.2.1 : ℚ) / 6, (b.2.2 : ℚ) / 2), 1) := by norm_num [Spec.basis, hsites]
  rw [hb, Spec.cellEdges, if_pos rfl]
  constructor
  · rintro ⟨t, _, hb, n1, n2, n3, e, -⟩
    obtain ⟨b, hb', rfl⟩ := List.mem_map.1 hb
    refine ⟨b, hb', (n1, n2, n3), ?_⟩
    dsimp only at e
    rw [e]
    simp only [hgrid, hstep, V3.mk.injEq]
    push_cast
    simp
    refine ⟨?_, ?_, ?_⟩ <;> ring
  · rintro ⟨b, hb, ⟨n1, n2, n3⟩, e⟩
    refine ⟨1, _, List.mem_map.2 ⟨b, hb, rfl⟩, n1, n2, n3, ?_, rfl⟩
    dsimp only
    rw [e]
    simp only [hgrid, hstep, V3.mk.injEq]
    push_cast
    simp
    refine ⟨?_, ?_, ?_⟩ <;> ring

/-- First and second shell. -/
def hfirst (k : ℤ × ℤ × ℤ) : Bool := decide (zsq k = 0 ∧ hsq k = 12 ∨ zsq k = 1 ∧ hsq k = 4)
def hsecond (k : ℤ × ℤ × ℤ) : Bool := decide (zsq k = 1 ∧ hsq k = 16)
def hfar (k : ℤ × ℤ × ℤ) : Bool := decide (zsq k = 0 ∧ 36 ≤ hsq k ∨ zsq k = 1 ∧ 28 ≤ hsq k ∨ 4 ≤ zsq k)

def hpoints (b : ℤ × ℤ × ℤ) : List (ℤ × ℤ × ℤ) := hsites.flatMap fun b' => (cube.map fun n => hstep b b' n).filter fun k => hfirst k || hsecond k

def hshell (b : ℤ × ℤ × ℤ) : List (ℤ × ℤ × ℤ) := (hpoints b).filter hfirst

/-- Near for the signatures. -/
def hclose (v w : ℤ × ℤ × ℤ) : Bool :=
  let k := (v.1 - w.1, v.2.1 - w.2.1, v.2.2 - w.2.2)
  decide (zsq k = 0 ∧ hsq k ≤ 12 ∨ zsq k = 1 ∧ hsq k ≤ 4)

def hsig (v : ℤ × ℤ × ℤ) (b : ℤ × ℤ × ℤ) : ℕ × ℕ × ℕ × ℕ := if ShellSig hclose (hshell b) v (4, 2, 1, 1) then (4, 2, 1, 1) else (4, 2, 2, 0)

theorem hcp_table : ∀ b ∈ hsites, (0 ≤ b.1 ∧ b.1 < 2 ∧ 0 ≤ b.2.1 ∧ b.2.1 < 6 ∧ 0 ≤ b.2.2 ∧ b.2.2 < 2) ∧
    (∀ b' ∈ hsites, ∀ n ∈ cube, hstep b b' n = (0, 0, 0) ∨ hfirst (hstep b b' n) = true ∨ hsecond (hstep b b' n) = true ∨ hfar (hstep b b' n) = true) ∧
    (hpoints b).Nodup ∧ (hpoints b).length = 18 ∧ (hshell b).length = 12 ∧ ((hshell b).filter fun k => decide (zsq k = 0)).length = 6 ∧
    (∀ v ∈ hshell b, ∀ w ∈ hshell b, v ≠ w → let k := (v.1 - w.1, v.2.1 - w.2.1, v.2.2 - w.2.2)
      (zsq k = 0 ∧ hsq k ≤ 48 ∨ zsq k = 1 ∧ hsq k ≤ 28 ∨ zsq k = 4 ∧ hsq k ≤ 16) ∧
      (hclose v w = true ∧ (zsq k = 0 ∧ hsq k = 12 ∨ zsq k = 1 ∧ hsq k = 4) ∨
        hclose v w = false ∧ (zsq k = 0 ∧ 36 ≤ hsq k ∨ zsq k = 1 ∧ 16 ≤ hsq k ∨ zsq k = 4 ∧ 0 ≤ hsq k))) ∧
    (∀ v ∈ hshell b, ShellSig hclose (hshell b) v (hsig v b)) ∧ ((hshell b).map fun v => hsig v b).count (4, 2, 1, 1) = 6 ∧
      ((hshell b).map fun v => hsig v b).count (4, 2, 2, 0) = 6 := by
  decide +kernel

/-- The radius between the second shell and the next one, in units of `a`, squared. -/
noncomputable def hcut (ca : ℝ) : ℝ := 1 / 3 + ca ^ 2 / 4 + 1.05

theorem class_lt {a ca : ℝ} (ha : 0 < a) (h1 : 1.9 ≤ ca ^ 2) (h2 : ca ^ 2 ≤ 4) {k : ℤ × ℤ × ℤ} :
    (hfirst k = true ∨ hsecond k = true → V3.norm (hgrid a ca k) < a * Real.sqrt (hcut ca)) ∧ (hfar k = true → ¬ V3.norm (hgrid a ca k) < a * Real.sqrt (hcut ca)) := by
  have hc : 0 ≤ hcut ca := by unfold hcut; positivity
  rw [norm_hgrid_lt ha k (Real.sqrt_nonneg _), Real.sq_sqrt hc]
  unfold hcut
  have hh : 0 ≤ hsq k := by unfold hsq; nlinarith [mul_self_nonneg k.1, mul_self_nonneg k.2.1]
  have hh' : (0 : ℝ) ≤ hsq k := by exact_mod_cast hh
  constructor
  · intro h
    simp only [hfirst, hsecond, decide_eq_true_eq] at h
    rcases h with (⟨z, e⟩ | ⟨z, e⟩) | ⟨z, e⟩ <;> rw [z, e] <;> push_cast <;> linarith
  · intro h
    simp only [hfar, decide_eq_true_eq] at h
    rw [not_lt]
    rcases h with ⟨z, e⟩ | ⟨z, e⟩ | z
    · have e' : (36 : ℝ) ≤ hsq k := by exact_mod_cast e
      rw [z]; push_cast; linarith
    · have e' : (28 : ℝ) ≤ hsq k := by exact_mod_cast e
      rw [z]; push_cast; linarith
    · have e' : (4 : ℝ) ≤ zsq k := by exact_mod_cast z
      nlinarith

theorem mem_hpoints {b k : ℤ × ℤ × ℤ} : k ∈ hpoints b ↔ (∃ b' ∈ hsites, ∃ n ∈ cube, k = hstep b b' n) ∧ (hfirst k = true ∨ hsecond k = true) := by
  unfold hpoints
  simp only [List.mem_flatMap, List.mem_filter, List.mem_map, Bool.or_eq_true]
  constructor
  · rintro ⟨b', hb', ⟨n, hn, rfl⟩, h⟩; exact ⟨⟨b', hb', n, hn, rfl⟩, h⟩
  · rintro ⟨⟨b', hb', n, hn, rfl⟩, h⟩; exact ⟨b', hb', ⟨n, hn, rfl⟩, h⟩

/-- What a search up to the second shell finds in a perfect hcp crystal. -/
theorem hpoints_perm {a ca : ℝ} (ha : 0 < a) (hca : 0 < ca) (h1 : 1.9 ≤ ca ^ 2) (h2 : ca ^ 2 ≤ 4) {s : System} (hF : Spec.Faithful s (a * Real.sqrt (hcut ca)))
    (hcr : crystal s.box s.atoms = Spec.idealCrystal (Spec.cellEdges "hcp" a ca) (Spec.basis "hcp")) (i : ℕ) (x : Atom)
    (hi : s.atoms[i]? = some x) : ∃ b ∈ hsites, ((cutoffNbs s (a * Real.sqrt (hcut ca)) 0 i).map Nb.vec).Perm ((hpoints b).map (hgrid a ca)) := by
  have hc : 0 ≤ hcut ca := by unfold hcut; positivity
  have hx : ∃ t, (x.pos, t) ∈ crystal s.box s.atoms := ⟨x.type, x, List.mem_of_getElem? hi, 0, 0, 0, by ext <;> simp [latticeVec], rfl⟩
  rw [hcr, mem_hcp] at hx
  obtain ⟨b, hb, n, e⟩ := hx
  refine ⟨b, hb, ?_⟩
  obtain ⟨t1, t2, t3, -⟩ := hcp_table b hb
  rw [List.perm_ext_iff_of_nodup (vec_nodup hF 0 hi) (t3.map_on fun k _ k' _ => hgrid_inj ha hca)]
  intro v
  have key := C92_neighbours hF (f := 0) hi v
  constructor
  · intro hv
    obtain ⟨y, hy, rfl⟩ := List.mem_map.1 hv
    obtain ⟨g1, g2, -, g4⟩ := (key _).1 ⟨y, hy, rfl, rfl⟩
    rw [hcr] at g4
    obtain ⟨b', hb', n', e'⟩ := (mem_hcp a ca _).1 ⟨_, g4⟩
    obtain ⟨c1, -⟩ := hcp_table b' hb'
    have ev : y.vec = hgrid a ca (hstep b b' (n'.1 - n.1, n'.2.1 - n.2.1, n'.2.2 - n.2.2)) := by
      have : y.vec = hgrid a ca (hstep 0 b' n') - hgrid a ca (hstep 0 b n) := by rw [← e', ← e]; ext <;> simp
      rw [this]
      ext <;> simp [hgrid, hstep] <;> ring
    generalize hm : ((n'.1 - n.1, n'.2.1 - n.2.1, n'.2.2 - n.2.2) : ℤ × ℤ × ℤ) = m at ev
    have hlt := g2
    rw [ev, norm_hgrid_lt ha _ (Real.sqrt_nonneg _), Real.sq_sqrt hc] at hlt
    unfold hcut at hlt
    have hh0 : 0 ≤ hsq (hstep b b' m) := by unfold hsq; nlinarith [mul_self_nonneg (hstep b b' m).1, mul_self_nonneg (hstep b b' m).2.1]
    have hz0 : 0 ≤ zsq (hstep b b' m) := mul_self_nonneg _
    have hh0' : (0 : ℝ) ≤ hsq (hstep b b' m) := by exact_mod_cast hh0
    have hz0' : (0 : ℝ) ≤ zsq (hstep b b' m) := by exact_mod_cast hz0
    have hH : hsq (hstep b b' m) < 29 := by
      have : (hsq (hstep b b' m) : ℝ) < 29 := by nlinarith
      exact_mod_cast this
    have hZ : zsq (hstep b b' m) < 6 := by
      have : (zsq (hstep b b' m) : ℝ) < 6 := by nlinarith
      exact_mod_cast this
    have hmc : m ∈ cube := by
      unfold hsq hstep at hH
      unfold zsq hstep at hZ
      dsimp only at hH hZ
      obtain ⟨b1, b2, b3, b4, b5, b6⟩ := t1
      obtain ⟨c1, c2, c3, c4, c5, c6⟩ := c1
      have k1 : ∀ p q : ℤ, 3 * (p * p) + q * q < 29 → (-4 < p ∧ p < 4) ∧ (-6 < q ∧ q < 6) := by
        intro p q h
        refine ⟨⟨?_, ?_⟩, ?_, ?_⟩ <;> nlinarith [mul_self_nonneg p, mul_self_nonneg q]
      have k2 : ∀ p : ℤ, p * p < 6 → -3 < p ∧ p < 3 := by
        intro p h
        constructor <;> nlinarith
      obtain ⟨⟨m1, m2⟩, m3, m4⟩ := k1 _ _ hH
      obtain ⟨m5, m6⟩ := k2 _ hZ
      refine mem_cube.2 ⟨⟨?_, ?_⟩, ⟨?_, ?_⟩, ?_, ?_⟩ <;> omega
    rw [ev]
    refine List.mem_map.2 ⟨_, mem_hpoints.2 ⟨⟨b', hb', m, hmc, rfl⟩, ?_⟩, rfl⟩
    rcases t2 b' hb' m hmc with h | h | h | h
    · refine absurd ?_ g1
      rw [ev, h]
      ext <;> simp [hgrid]
    · exact .inl h
    · exact .inr h
    · rw [ev] at g2
      exact absurd g2 ((class_lt ha h1 h2).2 h)
  · intro hv
    obtain ⟨k, hk, rfl⟩ := List.mem_map.1 hv
    obtain ⟨⟨b', hb', m, hm, rfl⟩, hcls⟩ := mem_hpoints.1 hk
    have h0 : hgrid a ca (hstep b b' m) ≠ 0 := by
      intro h
      have h' : hgrid a ca (hstep b b' m) = hgrid a ca (0, 0, 0) := by rw [h]; ext <;> simp [hgrid]
      rw [hgrid_inj ha hca h'] at hcls
      revert hcls
      decide
    have hm' : ∃ t, (x.pos + hgrid a ca (hstep b b' m), t) ∈ Spec.idealCrystal (Spec.cellEdges "hcp" a ca) (Spec.basis "hcp") := by
      refine (mem_hcp a ca _).2 ⟨b', hb', (n.1 + m.1, n.2.1 + m.2.1, n.2.2 + m.2.2), ?_⟩
      rw [e]
      ext <;> simp [hgrid, hstep] <;> ring
    obtain ⟨t, ht⟩ := hm'
    rw [← hcr] at ht
    obtain ⟨y, hy, hy', -⟩ := (key t).2 ⟨h0, (class_lt ha h1 h2).1 hcls, rfl, ht⟩
    exact List.mem_map.2 ⟨y, hy, hy'⟩

/-- The first twelve entries of a list of nearest atoms in a perfect hcp crystal. -/
theorem hcp_shell {a ca : ℝ} (ha : 0 < a) (hca : 0 < ca) (h1 : 1.9 ≤ ca ^ 2) (h2 : ca ^ 2 ≤ 4) {s : System} (hF' : Spec.Faithful s (a * Real.sqrt (hcut ca)))
    (hcr : crystal s.box s.atoms = Spec.idealCrystal (Spec.cellEdges "hcp" a ca) (Spec.basis "hcp")) {i : ℕ} {x : Atom} (hi : s.atoms[i]? = some x) {n : ℕ} (hn : 12 ≤ n)
    {N : List Nb} (hN : Spec.NearestList s i x n N) : ∃ b ∈ hsites, ((N.take 12).map Nb.vec).Perm ((hshell b).map (hgrid a ca)) := by
  obtain ⟨b, hb, hp⟩ := hpoints_perm ha hca h1 h2 hF' hcr i x hi
  obtain ⟨-, -, t3, -, t5, -⟩ := hcp_table b hb
  refine ⟨b, hb, ?_⟩
  set u := 1 / 3 + ca ^ 2 / 4 with hu
  have hu1 : 0.8 ≤ u := by rw [hu]; linarith
  have hu2 : u ≤ 4 / 3 := by rw [hu]; linarith
  have hsub : ∀ k ∈ hshell b, k ∈ hpoints b := fun k hk => (List.mem_filter.1 hk).1
  have hnd1 : (hshell b).Nodup := t3.filter _
  rw [← t5]
  have hd0 : (0 : ℝ) ≤ u + 0.5 := by linarith
  refine shell_take hN hi hp (d := a * Real.sqrt (u + 0.5)) ?_ ?_ t3 hnd1 hsub (by rw [t5]; exact hn)
  · refine mul_lt_mul_of_pos_left (Real.sqrt_lt_sqrt hd0 ?_) ha
    unfold hcut
    rw [hu]
    linarith
  · intro k hk
    rw [norm_hgrid_le ha k (Real.sqrt_nonneg _), Real.sq_sqrt hd0]
    obtain ⟨-, hcls⟩ := mem_hpoints.1 hk
    have hmem : k ∈ hshell b ↔ hfirst k = true := by
      unfold Pyscal.hshell
      rw [List.mem_filter]
      exact ⟨fun h => h.2, fun h => ⟨hk, h⟩⟩
    rw [hmem]
    constructor
    · intro h
      rcases hcls with h' | h'
      · exact h'
      · simp only [hsecond, decide_eq_true_eq] at h'
        rw [h'.1, h'.2] at h
        push_cast at h
        rw [hu] at h
        linarith
    · intro h
      simp only [hfirst, decide_eq_true_eq] at h
      rcases h with ⟨z, e⟩ | ⟨z, e⟩ <;> rw [z, e] <;> push_cast <;> linarith

/-- One atom of a perfect hcp crystal. -/
theorem hcp_atom {a ca r : ℝ} (ha : 0 < a) (hca : 0 < ca) (h1 : 1.9 ≤ ca ^ 2) (h2 : ca ^ 2 ≤ 4) (hr : 0 ≤ r) (hr1 : 4 < r ^ 2) (hr2 : 4 / 3 + ca ^ 2 < r ^ 2) {s : System}
    (hF : Spec.Faithful s (a * r))
    (hcr : crystal s.box s.atoms = Spec.idealCrystal (Spec.cellEdges "hcp" a ca) (Spec.basis "hcp")) {i : ℕ} {x : Atom} (hi : s.atoms[i]? = some x) {N : List Nb}
    (hN : Spec.NearestList s i x 14 N) {lc : Option ℝ} (hlc : lc = none ∨ lc = some (Real.sqrt 2 * a)) {c1 c2 : ℝ} (hc : Spec.CnaCutoffs lc N c1 c2)
    {sig1 sig2 : List (ℕ × ℕ × ℕ × ℕ)} (g1 : Spec.Signatures s c1 (N.take 12) sig1) {code : ℤ} (hcl : Spec.Classified sig1 sig2 code) : code = 2 := by
  have hc0 : 0 ≤ hcut ca := by unfold hcut; positivity
  have hF' : Spec.Faithful s (a * Real.sqrt (hcut ca)) := by
    refine hF.anti (mul_le_mul_of_nonneg_left ?_ ha.le)
    rw [Real.sqrt_le_left hr]
    unfold hcut
    nlinarith
  obtain ⟨b, hb, hsh⟩ := hcp_shell ha hca h1 h2 hF' hcr hi (by norm_num) hN
  obtain ⟨-, -, t3, t4, t5, t6, t7, t8, t9, t10⟩ := hcp_table b hb
  set u := 1 / 3 + ca ^ 2 / 4 with hu
  have hu1 : 0.8 ≤ u := by rw [hu]; linarith
  have hu2 : u ≤ 4 / 3 := by rw [hu]; linarith
  have hsub : ∀ k ∈ hshell b, k ∈ hpoints b := fun k hk => (List.mem_filter.1 hk).1
  have hnd1 : (hshell b).Nodup := t3.filter _
  have hvals : ∀ k ∈ hshell b, V3.norm (hgrid a ca k) = if zsq k = 0 then a else a * Real.sqrt u := by
    intro k hk
    have hf := (List.mem_filter.1 hk).2
    simp only [hfirst, decide_eq_true_eq] at hf
    have hz : zsq k = 0 ∨ zsq k ≠ 0 := em _
    unfold V3.norm
    rw [normSq_hgrid]
    rcases hf with ⟨z, e⟩ | ⟨z, e⟩
    · rw [z, e, if_pos rfl]
      push_cast
      rw [show a ^ 2 * ((12 : ℝ) / 12 + 0 * ca ^ 2 / 4) = a ^ 2 by ring, Real.sqrt_sq ha.le]
    · rw [z, e, if_neg (by norm_num)]
      push_cast
      rw [show a ^ 2 * ((4 : ℝ) / 12 + 1 * ca ^ 2 / 4) = a ^ 2 * u by rw [hu]; ring, Real.sqrt_mul (by positivity), Real.sqrt_sq ha.le]
  have hshell := hsh
  obtain ⟨K, hK, hKv⟩ := exists_points (fun _ _ => hgrid_inj ha hca) hshell
  have hgood : ∀ y ∈ N.take 12, Spec.GoodEntry s i x y := fun y hy => hN.2.2.1 y (List.mem_of_mem_take hy)
  have su0 : 0 ≤ Real.sqrt u := Real.sqrt_nonneg u
  have su : Real.sqrt u * Real.sqrt u = u := Real.mul_self_sqrt (by linarith)
  have hc1 : ∃ t : ℝ, c1 = a * t ∧ 0 ≤ t ∧ 1 ≤ t ^ 2 ∧ u ≤ t ^ 2 ∧ t ^ 2 < u + 1 ∧ t ^ 2 < ca ^ 2 ∧ t ^ 2 < 3 := by
    have hsu1 : Real.sqrt u ≤ 1.16 := by rw [Real.sqrt_le_left (by norm_num)]; linarith
    have hsu2 : 0.894 ≤ Real.sqrt u := by rw [Real.le_sqrt' (by norm_num)]; linarith
    rcases hlc with rfl | rfl
    · have hsum : ((N.take 12).map Nb.dist).sum = 6 * a + 6 * (a * Real.sqrt u) := by
        have e1 : (N.take 12).map Nb.dist = ((N.take 12).map Nb.vec).map V3.norm := by
          rw [List.map_map]
          exact List.map_congr_left fun y hy => goodEntry_dist (hgood y hy)
        rw [e1, (hshell.map V3.norm).sum_eq, List.map_map]
        have e2 : (Pyscal.hshell b).map (V3.norm ∘ hgrid a ca) = (Pyscal.hshell b).map fun k => if zsq k = 0 then a else a * Real.sqrt u :=
          List.map_congr_left fun k hk => hvals k hk
        rw [e2]
        have gen : ∀ l : List (ℤ × ℤ × ℤ), (l.map fun k => if zsq k = 0 then a else a * Real.sqrt u).sum =
            ((l.filter fun k => decide (zsq k = 0)).length : ℝ) * a + ((l.length : ℝ) - ((l.filter fun k => decide (zsq k = 0)).length : ℝ)) * (a * Real.sqrt u) := by
          intro l
          induction l with
          | nil => simp
          | cons k l ih =>
            rw [List.map_cons, List.sum_cons, ih, List.length_cons]
            by_cases hz : zsq k = 0
            · rw [if_pos hz, List.filter_cons_of_pos (by simpa using hz), List.length_cons]
              push_cast; ring
            · rw [if_neg hz, List.filter_cons_of_neg (by simpa using hz)]
              push_cast; ring
        rw [gen, t5, t6]
        push_cast
        ring
      obtain ⟨e1, -⟩ := hc
      refine ⟨0.6035 * (1 + Real.sqrt u), by rw [e1, hsum]; ring, by linarith, by nlinarith, by nlinarith, by nlinarith, ?_, by nlinarith⟩
      have hcu : ca ^ 2 = 4 * u - 4 / 3 := by rw [hu]; ring
      rw [hcu]
      nlinarith
    · obtain ⟨e1, -⟩ := hc
      have s2 : Real.sqrt 2 * Real.sqrt 2 = 2 := Real.mul_self_sqrt (by norm_num)
      have s20 : 0 ≤ Real.sqrt 2 := Real.sqrt_nonneg 2
      have e3 : (0.854 * Real.sqrt 2) ^ 2 = 1.458632 := by rw [mul_pow, pow_two (Real.sqrt 2), s2]; norm_num
      refine ⟨0.854 * Real.sqrt 2, by rw [e1]; ring, by positivity, ?_, ?_, ?_, ?_, ?_⟩ <;> rw [e3] <;> linarith
  obtain ⟨t, rfl, q0, q1, q2, q3, q4, q5⟩ := hc1
  have hsig := signatures_map hF hi hclose (by
    intro v w
    unfold hclose hsq zsq
    simp only [decide_eq_decide]
    have e1 : (v.1 - w.1) * (v.1 - w.1) = (w.1 - v.1) * (w.1 - v.1) := by ring
    have e2 : (v.2.1 - w.2.1) * (v.2.1 - w.2.1) = (w.2.1 - v.2.1) * (w.2.1 - v.2.1) := by ring
    have e3 : (v.2.2 - w.2.2) * (v.2.2 - w.2.2) = (w.2.2 - v.2.2) * (w.2.2 - v.2.2) := by ring
    rw [e1, e2, e3]) (hK.nodup_iff.2 hnd1) hgood hKv (by
    intro v hv w hw hvw
    obtain ⟨w1, w2⟩ := t7 v (hK.subset hv) w (hK.subset hw) hvw
    rw [hgrid_sub]
    constructor
    · rw [norm_hgrid_lt ha _ hr]
      rcases w1 with ⟨z, e⟩ | ⟨z, e⟩ | ⟨z, e⟩
      · have e' : (hsq (v.1 - w.1, v.2.1 - w.2.1, v.2.2 - w.2.2) : ℝ) ≤ 48 := by exact_mod_cast e
        rw [z]; push_cast; linarith
      · have e' : (hsq (v.1 - w.1, v.2.1 - w.2.1, v.2.2 - w.2.2) : ℝ) ≤ 28 := by exact_mod_cast e
        rw [z]; push_cast; linarith
      · have e' : (hsq (v.1 - w.1, v.2.1 - w.2.1, v.2.2 - w.2.2) : ℝ) ≤ 16 := by exact_mod_cast e
        rw [z]; push_cast; linarith
    · rw [norm_hgrid_le ha _ q0]
      rcases w2 with ⟨w2, w3⟩ | ⟨w2, w3⟩ <;> rw [w2]
      · refine iff_of_true ?_ rfl
        rcases w3 with ⟨z, e⟩ | ⟨z, e⟩ <;> rw [z, e] <;> push_cast <;> linarith
      · refine iff_of_false ?_ (by simp)
        rw [not_le]
        rcases w3 with ⟨z, e⟩ | ⟨z, e⟩ | ⟨z, e⟩
        · have e' : (36 : ℝ) ≤ (hsq (v.1 - w.1, v.2.1 - w.2.1, v.2.2 - w.2.2) : ℝ) := by exact_mod_cast e
          rw [z]; push_cast; linarith
        · have e' : (16 : ℝ) ≤ (hsq (v.1 - w.1, v.2.1 - w.2.1, v.2.2 - w.2.2) : ℝ) := by exact_mod_cast e
          rw [z]; push_cast; linarith
        · have e' : (0 : ℝ) ≤ (hsq (v.1 - w.1, v.2.1 - w.2.1, v.2.2 - w.2.2) : ℝ) := by exact_mod_cast e
          rw [z]; push_cast; linarith) g1 (fun v => hsig v b) (by
    intro v hv
    refine ⟨?_, ?_, (t8 v (hK.subset hv)).perm (shellCommon_perm hK.symm v)⟩ <;> unfold hsig <;> split_ifs <;> norm_num)
  rw [hcl.2.1, hsig, (hK.map _).count_eq, (hK.map _).count_eq]
  exact ⟨t9, t10⟩

/-- **C96, hcp**: hcp crystals with a c/a ratio between 1.38 and 2: every atom is classified as hcp, without a lattice constant or with `sqrt 2` times the in-plane one,
when twice the radius `r` fits into the stored box, `r` being larger than 2 and `sqrt (4/3 + ca^2)` in units of `a`. -/
theorem C96_hcp (σ : StdSort) {a ca r : ℝ} (ha : 0 < a) (h1 : 1.38 ≤ ca) (h2 : ca ≤ 2) {nx ny nz : ℕ} (hx : 1 ≤ nx) (hy : 1 ≤ ny) (hz : 1 ≤ nz)
    (hr1 : 2 < r) (hr2 : 4 / 3 + ca ^ 2 < r ^ 2) (hfit : Spec.HalfFits (4 * nx * ny * nz) nx (ny * Real.sqrt 3) (nz * ca) r)
    (lc : Option ℝ) (hlc : lc = none ∨ lc = some (Real.sqrt 2 * a)) :
    ∃ atoms box s s' as, makeCrystal "hcp" a nx ny nz ca = .ok (atoms, box) ∧ buildSystem box atoms = .ok s ∧
      s.calculateCna σ lc = .ok (s', [0, 0, 4 * nx * ny * nz, 0, 0]) ∧ s'.getAtoms = .ok as ∧ as.length = 4 * nx * ny * nz ∧ ∀ x ∈ as, x.struct = 2 := by
  have hca : 0 < ca := by linarith
  have hc1 : 1.9 ≤ ca ^ 2 := by nlinarith
  have hc2 : ca ^ 2 ≤ 4 := by nlinarith
  have hE : Spec.cellEdges "hcp" a ca = ⟨a, Real.sqrt 3 * a, ca * a⟩ := by rw [Spec.cellEdges, if_pos rfl]
  have h4 : (Spec.basis "hcp").length = 4 := by decide
  have s3 : 1.7 ≤ Real.sqrt 3 := by rw [Real.le_sqrt' (by norm_num)]; norm_num
  have hcut0 : 0 ≤ hcut ca := by unfold hcut; positivity
  have hcut1 : Real.sqrt (hcut ca) ≤ 1.6 := by
    rw [Real.sqrt_le_left (by norm_num)]
    unfold hcut
    linarith
  have hcut2 : 0 ≤ Real.sqrt (hcut ca) := Real.sqrt_nonneg _
  have := perfect_cna σ (by decide : "hcp" ∈ Spec.structures) ha hca hx hy hz (r := a * r) (ρ := a * Real.sqrt (hcut ca)) (by
    rw [hE, h4]
    obtain ⟨f1, f2, f3⟩ := hfit
    refine ⟨?_, ?_, ?_⟩ <;> dsimp only <;> nlinarith) (by positivity) (by
    rw [hE, h4]
    dsimp only
    push_cast
    have e1 : (a * Real.sqrt (hcut ca)) ^ 3 ≤ (a * 1.6) ^ 3 := pow_le_pow_left₀ (by positivity) (by nlinarith) 3
    have e2 : 1.7 * 1.38 ≤ Real.sqrt 3 * ca := mul_le_mul s3 h1 (by norm_num) (by positivity)
    have e3 := mul_le_mul_of_nonneg_left e2 (pow_pos ha 3).le
    nlinarith [pow_pos ha 3]) lc 2 (by norm_num) (by
    intro s hF hcr i hi
    obtain ⟨b, hb, hp⟩ := hpoints_perm ha hca hc1 hc2 (hF.anti (mul_le_mul_of_nonneg_left (by linarith) ha.le)) hcr i _ (List.getElem?_eq_getElem hi)
    have hl := hp.length_eq
    obtain ⟨-, -, -, t4, -⟩ := hcp_table b hb
    rw [List.length_map, List.length_map, t4] at hl
    rw [hl]
    norm_num) (by
    intro s hF hcr i x N c1 c2 sig1 sig2 k hi hN hc g1 g2 hcl
    exact_mod_cast hcp_atom ha hca hc1 hc2 (by linarith) (by nlinarith) hr2 hF hcr hi hN hlc hc g1 hcl)
  rw [h4] at this
  simpa [List.range_succ] using this

/-- The hypotheses are met by 5 x 4 x 3 cells with c/a = 1.6. -/
example (σ : StdSort) := C96_hcp σ (a := 3) (ca := 1.6) (r := 2.1) (by norm_num) (by norm_num) (by norm_num) (nx := 5) (ny := 4) (nz := 3) (by norm_num) (by norm_num) (by norm_num)
  (by norm_num) (by norm_num) (by
    have s3 : 1.7 ≤ Real.sqrt 3 := by rw [Real.le_sqrt' (by norm_num)]; norm_num
    have e : Spec.stretch (4 * 5 * 4 * 3) = 1 := by norm_num [Spec.stretch]
    refine ⟨?_, ?_, ?_⟩ <;> rw [e] <;> push_cast <;> linarith) none (.inl rfl)

end Pyscal
