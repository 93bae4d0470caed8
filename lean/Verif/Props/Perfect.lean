import Verif.Lemmas.Perfect

/-! C95: what the searches and the Steinhardt parameters give in perfect crystals. -/

namespace Pyscal

open Spec (diagBox ofFrac latticeVec IsImage FracBound crystal cross volume InBox)

/-! ### Specification -/

/-- A vector given in quarters of the lattice constant. -/
noncomputable def Spec.quarter (a : ℝ) (k : ℤ × ℤ × ℤ) : V3 := ⟨k.1 * (a / 4), k.2.1 * (a / 4), k.2.2 * (a / 4)⟩

/-- The structures with a cubic cell. -/
def Spec.cubic : List String := ["sc", "bcc", "fcc", "diamond", "a15", "l12", "b2"]

/-- Squared distances, in units of `(a / 4)²`: the last one of the shell of nearest neighbours, and the first one beyond. -/
def Spec.limits : String → ℕ × ℕ
  | "sc" => (16, 32)
  | "bcc" => (12, 16)
  | "b2" => (12, 16)
  | "fcc" => (8, 16)
  | "l12" => (8, 16)
  | "diamond" => (3, 8)
  | "a15" => (6, 12)
  | _ => (0, 0)

/-- The six, eight and twelve nearest neighbours in quarters of the lattice constant. -/
def Spec.scShell : List (ℤ × ℤ × ℤ) := [(4, 0, 0), (-4, 0, 0), (0, 4, 0), (0, -4, 0), (0, 0, 4), (0, 0, -4)]
def Spec.bccShell : List (ℤ × ℤ × ℤ) := [(2, 2, 2), (2, 2, -2), (2, -2, 2), (2, -2, -2), (-2, 2, 2), (-2, 2, -2), (-2, -2, 2), (-2, -2, -2)]
def Spec.fccShell : List (ℤ × ℤ × ℤ) :=
  [(2, 2, 0), (2, -2, 0), (-2, 2, 0), (-2, -2, 0), (2, 0, 2), (2, 0, -2), (-2, 0, 2), (-2, 0, -2), (0, 2, 2), (0, 2, -2), (0, -2, 2), (0, -2, -2)]

/-- The nearest neighbours in quarters of the lattice constant; diamond has atoms of two kinds. -/
def Spec.shells : String → List (List (ℤ × ℤ × ℤ))
  | "sc" => [Spec.scShell]
  | "bcc" => [Spec.bccShell]
  | "b2" => [Spec.bccShell]
  | "fcc" => [Spec.fccShell]
  | "l12" => [Spec.fccShell]
  | "diamond" => [[(1, 1, 1), (1, -1, -1), (-1, 1, -1), (-1, -1, 1)], [(-1, -1, -1), (-1, 1, 1), (1, -1, 1), (1, 1, -1)]]
  | _ => []

/-- The number of nearest neighbours of an atom of type `t` when all atoms count (`f = 0`), those of the same type (1), or of another type (2). -/
def Spec.coordination : String → ℕ → ℤ → List ℕ
  | "sc", f, _ => [if f = 2 then 0 else 6]
  | "bcc", f, _ => [if f = 2 then 0 else 8]
  | "fcc", f, _ => [if f = 2 then 0 else 12]
  | "diamond", f, _ => [if f = 2 then 0 else 4]
  | "a15", f, _ => if f = 2 then [0] else [12, 14]
  | "b2", f, _ => [if f = 1 then 0 else 8]
  | "l12", f, t => [if f = 0 then 12 else if f = 1 then (if t = 1 then 0 else 8) else (if t = 1 then 12 else 4)]
  | _, _, _ => []

/-! ### The table -/

/-- The sites in quarters. -/
def quarters : String → List ((ℤ × ℤ × ℤ) × ℤ)
  | "sc" => [((0, 0, 0), 1)]
  | "bcc" => [((0, 0, 0), 1), ((2, 2, 2), 1)]
  | "b2" => [((0, 0, 0), 1), ((2, 2, 2), 2)]
  | "fcc" => [((0, 0, 0), 1), ((2, 0, 2), 1), ((0, 2, 2), 1), ((2, 2, 0), 1)]
  | "l12" => [((0, 0, 0), 1), ((2, 0, 2), 2), ((0, 2, 2), 2), ((2, 2, 0), 2)]
  | "diamond" => [((0, 0, 0), 1), ((1, 1, 1), 1), ((2, 2, 0), 1), ((3, 3, 1), 1), ((2, 0, 2), 1), ((0, 2, 2), 1), ((3, 1, 3), 1), ((1, 3, 3), 1)]
  | "a15" => [((0, 0, 0), 1), ((2, 2, 2), 1), ((1, 2, 0), 1), ((3, 2, 0), 1), ((0, 1, 2), 1), ((0, 3, 2), 1), ((2, 0, 1), 1), ((2, 0, 3), 1)]
  | _ => []

theorem basis_quarters {name : String} (h : name ∈ Spec.cubic) :
    Spec.basis name = (quarters name).map fun b => (((b.1.1 : ℚ) / 4, (b.1.2.1 : ℚ) / 4, (b.1.2.2 : ℚ) / 4), b.2) := by
  simp only [Spec.cubic, List.mem_cons, List.not_mem_nil, or_false] at h
  rcases h with rfl | rfl | rfl | rfl | rfl | rfl | rfl <;> norm_num [Spec.basis, quarters]

def nsq (k : ℤ × ℤ × ℤ) : ℤ := k.1 * k.1 + k.2.1 * k.2.1 + k.2.2 * k.2.2

/-- The cells around a cell. -/
def cube : List (ℤ × ℤ × ℤ) :=
  let r : List ℤ := [-2, -1, 0, 1, 2]
  r.flatMap fun i => r.flatMap fun j => r.map fun k => (i, j, k)

theorem mem_cube {n : ℤ × ℤ × ℤ} : n ∈ cube ↔ (-2 ≤ n.1 ∧ n.1 ≤ 2) ∧ (-2 ≤ n.2.1 ∧ n.2.1 ≤ 2) ∧ (-2 ≤ n.2.2 ∧ n.2.2 ≤ 2) := by
  have h5 : ∀ x : ℤ, x ∈ ([-2, -1, 0, 1, 2] : List ℤ) ↔ -2 ≤ x ∧ x ≤ 2 := by
    intro x
    simp only [List.mem_cons, List.not_mem_nil, or_false]
    omega
  obtain ⟨i, j, k⟩ := n
  unfold cube
  simp only [List.mem_flatMap, List.mem_map, Prod.mk.injEq, h5]
  constructor
  · rintro ⟨_, h1, _, h2, _, h3, rfl, rfl, rfl⟩; exact ⟨h1, h2, h3⟩
  · rintro ⟨h1, h2, h3⟩; exact ⟨_, h1, _, h2, _, h3, rfl, rfl, rfl⟩

/-- From site `b` to site `b'` of the cell `n`. -/
def step (b b' n : ℤ × ℤ × ℤ) : ℤ × ℤ × ℤ := (b'.1 - b.1 + 4 * n.1, b'.2.1 - b.2.1 + 4 * n.2.1, b'.2.2 - b.2.2 + 4 * n.2.2)

/-- The sites around site `b` with squared distances below `D`. -/
def around (name : String) (D : ℕ) (b : ℤ × ℤ × ℤ) : List ((ℤ × ℤ × ℤ) × ℤ) :=
  (quarters name).flatMap fun b' => (cube.map fun n => (step b b'.1 n, b'.2)).filter fun p => 0 < nsq p.1 ∧ nsq p.1 < D

/-- The sites around site `b` closer than the second limit. -/
def near (name : String) (b : ℤ × ℤ × ℤ) : List ((ℤ × ℤ × ℤ) × ℤ) := around name (Spec.limits name).2 b

/-- The finite table: what surrounds each site of each structure. -/
theorem near_table : ∀ name ∈ Spec.cubic, ∀ b ∈ quarters name,
    (0 ≤ b.1.1 ∧ b.1.1 < 4 ∧ 0 ≤ b.1.2.1 ∧ b.1.2.1 < 4 ∧ 0 ≤ b.1.2.2 ∧ b.1.2.2 < 4) ∧ ((near name b.1).map Prod.fst).Nodup ∧
      (∀ p ∈ near name b.1, nsq p.1 ≤ (Spec.limits name).1) ∧
      (name ≠ "a15" → ∃ L ∈ Spec.shells name, ((near name b.1).map Prod.fst).Perm L) ∧
      ∀ f ∈ [0, 1, 2], ((near name b.1).filter fun p => filterOK f b.2 p.2).length ∈ Spec.coordination name f b.2 := by
  decide +kernel

/-! ### Neighbours -/

/-- Specification: `r` lies beyond the nearest neighbours and not beyond the next ones. -/
def Spec.FirstShell (name : String) (a r : ℝ) : Prop :=
  (a / 4) * Real.sqrt (Spec.limits name).1 < r ∧ r ≤ (a / 4) * Real.sqrt (Spec.limits name).2

theorem norm_quarter (a : ℝ) (ha : 0 < a) (k : ℤ × ℤ × ℤ) : V3.norm (Spec.quarter a k) = (a / 4) * Real.sqrt (nsq k : ℝ) := by
  have h : V3.normSq (Spec.quarter a k) = (a / 4) ^ 2 * (nsq k : ℝ) := by
    simp only [V3.normSq, Spec.quarter, nsq]; push_cast; ring
  unfold V3.norm
  rw [h, Real.sqrt_mul (by positivity), Real.sqrt_sq (by positivity)]

theorem quarter_inj {a : ℝ} (ha : 0 < a) {k k' : ℤ × ℤ × ℤ} (h : Spec.quarter a k = Spec.quarter a k') : k = k' := by
  have h4 : (a / 4) ≠ 0 := by positivity
  simp only [Spec.quarter, V3.mk.injEq] at h
  obtain ⟨h1, h2, h3⟩ := h
  refine Prod.ext ?_ (Prod.ext ?_ ?_)
  · exact_mod_cast mul_right_cancel₀ h4 h1
  · exact_mod_cast mul_right_cancel₀ h4 h2
  · exact_mod_cast mul_right_cancel₀ h4 h3

/-- A point of the ideal crystal, in quarters. -/
theorem mem_ideal {name : String} (h : name ∈ Spec.cubic) (a : ℝ) (p : V3) (t : ℤ) :
    (p, t) ∈ Spec.idealCrystal ⟨a, a, a⟩ (Spec.basis name) ↔ ∃ b ∈ quarters name, ∃ n : ℤ × ℤ × ℤ, p = Spec.quarter a (step 0 b.1 n) ∧ t = b.2 := by
  rw [basis_quarters h]
  constructor
  · rintro ⟨_, hb, n1, n2, n3, e, ht⟩
    obtain ⟨b, hb', rfl⟩ := List.mem_map.1 hb
    refine ⟨b, hb', (n1, n2, n3), ?_, ht⟩
    dsimp only at e
    rw [e]
    simp only [Spec.quarter, step, V3.mk.injEq]
    push_cast
    simp
    refine ⟨?_, ?_, ?_⟩ <;> ring
  · rintro ⟨b, hb, ⟨n1, n2, n3⟩, e, ht⟩
    refine ⟨_, List.mem_map.2 ⟨b, hb, rfl⟩, n1, n2, n3, ?_, ht⟩
    dsimp only
    rw [e]
    simp only [Spec.quarter, step, V3.mk.injEq]
    push_cast
    simp
    refine ⟨?_, ?_, ?_⟩ <;> ring

theorem mem_around {name : String} {D : ℕ} {b : ℤ × ℤ × ℤ} {p : (ℤ × ℤ × ℤ) × ℤ} : p ∈ around name D b ↔
    (∃ b' ∈ quarters name, ∃ n ∈ cube, p = (step b b'.1 n, b'.2)) ∧ 0 < nsq p.1 ∧ nsq p.1 < D := by
  unfold around
  simp only [List.mem_flatMap, List.mem_filter, List.mem_map, decide_eq_true_eq]
  constructor
  · rintro ⟨b', hb', ⟨n, hn, rfl⟩, h⟩; exact ⟨⟨b', hb', n, hn, rfl⟩, h⟩
  · rintro ⟨⟨b', hb', n, hn, rfl⟩, h⟩; exact ⟨b', hb', ⟨n, hn, rfl⟩, h⟩

theorem limits_le {name : String} (h : name ∈ Spec.cubic) : (Spec.limits name).2 ≤ 32 := by
  simp only [Spec.cubic, List.mem_cons, List.not_mem_nil, or_false] at h
  rcases h with rfl | rfl | rfl | rfl | rfl | rfl | rfl <;> decide

/-- What is within a distance `r` of a site. -/
theorem around_ball {name : String} (h : name ∈ Spec.cubic) {a r : ℝ} (ha : 0 < a) {D : ℕ} (hD : D ≤ 36) {b : (ℤ × ℤ × ℤ) × ℤ} (hb : b ∈ quarters name)
    (hr1 : ∀ p ∈ around name D b.1, (a / 4) * Real.sqrt (nsq p.1) < r) (hr2 : r ≤ (a / 4) * Real.sqrt D)
    (n : ℤ × ℤ × ℤ) (v : V3) (t : ℤ) :
    (v ≠ 0 ∧ V3.norm v < r ∧ (Spec.quarter a (step 0 b.1 n) + v, t) ∈ Spec.idealCrystal ⟨a, a, a⟩ (Spec.basis name)) ↔
      ∃ p ∈ around name D b.1, v = Spec.quarter a p.1 ∧ t = p.2 := by
  have h4 : 0 < a / 4 := by positivity
  obtain ⟨b1, b2, b3, b4, b5, b6⟩ := (near_table name h b hb).1
  constructor
  · rintro ⟨hv, hn, hm⟩
    obtain ⟨b', hb', n', e, ht⟩ := (mem_ideal h a _ t).1 hm
    obtain ⟨c1, c2, c3, c4, c5, c6⟩ := (near_table name h b' hb').1
    have ev : v = Spec.quarter a (step b.1 b'.1 (n'.1 - n.1, n'.2.1 - n.2.1, n'.2.2 - n.2.2)) := by
      have : v = Spec.quarter a (step 0 b'.1 n') - Spec.quarter a (step 0 b.1 n) := by rw [← e]; ext <;> simp
      rw [this]
      ext <;> simp [Spec.quarter, step] <;> ring
    generalize hm : ((n'.1 - n.1, n'.2.1 - n.2.1, n'.2.2 - n.2.2) : ℤ × ℤ × ℤ) = m at ev
    have hlt : nsq (step b.1 b'.1 m) < D := by
      rw [ev, norm_quarter a ha] at hn
      have h1 := lt_of_mul_lt_mul_left (hn.trans_le hr2) h4.le
      have h2 := (Real.sqrt_lt_sqrt_iff (by unfold nsq; push_cast; nlinarith [mul_self_nonneg ((step b.1 b'.1 m).1 : ℝ), mul_self_nonneg ((step b.1 b'.1 m).2.1 : ℝ), mul_self_nonneg ((step b.1 b'.1 m).2.2 : ℝ)])).1 h1
      exact_mod_cast h2
    have hpos : 0 < nsq (step b.1 b'.1 m) := by
      by_contra h0
      refine hv ?_
      rw [ev]
      unfold nsq at h0
      have k1 : (step b.1 b'.1 m).1 = 0 := by nlinarith [sq_nonneg (step b.1 b'.1 m).2.1, sq_nonneg (step b.1 b'.1 m).2.2, sq_nonneg (step b.1 b'.1 m).1]
      have k2 : (step b.1 b'.1 m).2.1 = 0 := by nlinarith [sq_nonneg (step b.1 b'.1 m).2.1, sq_nonneg (step b.1 b'.1 m).2.2, sq_nonneg (step b.1 b'.1 m).1]
      have k3 : (step b.1 b'.1 m).2.2 = 0 := by nlinarith [sq_nonneg (step b.1 b'.1 m).2.1, sq_nonneg (step b.1 b'.1 m).2.2, sq_nonneg (step b.1 b'.1 m).1]
      ext <;> simp [Spec.quarter, k1, k2, k3]
    refine ⟨(step b.1 b'.1 m, b'.2), mem_around.2 ⟨⟨b', hb', m, mem_cube.2 ?_, rfl⟩, hpos, hlt⟩, ev, ht⟩
    have h32 : nsq (step b.1 b'.1 m) < 36 := by omega
    unfold nsq step at h32
    have key : ∀ x y z : ℤ, x * x + y * y + z * z < 36 → -6 < x ∧ x < 6 := by
      intro x y z h; constructor <;> nlinarith [mul_self_nonneg y, mul_self_nonneg z]
    have k1 := key _ _ _ h32
    have k2 := key (b'.1.2.1 - b.1.2.1 + 4 * m.2.1) (b'.1.1 - b.1.1 + 4 * m.1) (b'.1.2.2 - b.1.2.2 + 4 * m.2.2) (by dsimp only at h32; linarith)
    have k3 := key (b'.1.2.2 - b.1.2.2 + 4 * m.2.2) (b'.1.1 - b.1.1 + 4 * m.1) (b'.1.2.1 - b.1.2.1 + 4 * m.2.1) (by dsimp only at h32; linarith)
    dsimp only at k1
    refine ⟨⟨?_, ?_⟩, ⟨?_, ?_⟩, ?_, ?_⟩ <;> omega
  · rintro ⟨p, hp, rfl, rfl⟩
    obtain ⟨⟨b', hb', m, hm, rfl⟩, hpos, hlt⟩ := mem_around.1 hp
    refine ⟨fun h0 => ?_, ?_, (mem_ideal h a _ _).2 ⟨b', hb', (n.1 + m.1, n.2.1 + m.2.1, n.2.2 + m.2.2), ?_, rfl⟩⟩
    · have : V3.norm (Spec.quarter a (step b.1 b'.1 m)) = 0 := (V3.norm_eq_zero _).2 h0
      rw [norm_quarter a ha] at this
      have hp' : (0 : ℝ) < (nsq (step b.1 b'.1 m) : ℝ) := by exact_mod_cast hpos
      have := mul_pos h4 (Real.sqrt_pos.2 hp')
      dsimp only at *
      linarith
    · rw [norm_quarter a ha]
      exact hr1 _ hp
    · ext <;> simp [Spec.quarter, step] <;> ring

/-- What is within the first shell around a site. -/
theorem near_ball {name : String} (h : name ∈ Spec.cubic) {a r : ℝ} (ha : 0 < a) (hr : Spec.FirstShell name a r) {b : (ℤ × ℤ × ℤ) × ℤ} (hb : b ∈ quarters name)
    (n : ℤ × ℤ × ℤ) (v : V3) (t : ℤ) :
    (v ≠ 0 ∧ V3.norm v < r ∧ (Spec.quarter a (step 0 b.1 n) + v, t) ∈ Spec.idealCrystal ⟨a, a, a⟩ (Spec.basis name)) ↔
      ∃ p ∈ near name b.1, v = Spec.quarter a p.1 ∧ t = p.2 := by
  refine around_ball h ha ((limits_le h).trans (by norm_num)) hb (fun p hp => ?_) hr.2 n v t
  have hle := (near_table name h b hb).2.2.1 _ hp
  refine lt_of_le_of_lt (mul_le_mul_of_nonneg_left (Real.sqrt_le_sqrt ?_) (by positivity)) hr.1
  exact_mod_cast hle

/-- The neighbours of every atom of a system that describes a perfect cubic crystal. -/
theorem near_all {name : String} (h : name ∈ Spec.cubic) {a : ℝ} (ha : 0 < a) {s : System}
    (hcr : crystal s.box s.atoms = Spec.idealCrystal ⟨a, a, a⟩ (Spec.basis name)) (f i : ℕ) (x : Atom) (hi : s.atoms[i]? = some x) :
    ∃ b ∈ quarters name, x.type = b.2 ∧ ∀ r, Spec.FirstShell name a r → Spec.Faithful s r →
      ((cutoffNbs s r f i).map (placed s)).Perm (((near name b.1).filter fun p => filterOK f b.2 p.2).map fun p => (Spec.quarter a p.1, p.2)) := by
  have hx : (x.pos, x.type) ∈ crystal s.box s.atoms := ⟨x, List.mem_of_getElem? hi, 0, 0, 0, by ext <;> simp [latticeVec], rfl⟩
  rw [hcr, mem_ideal h] at hx
  obtain ⟨b, hb, n, e, ht⟩ := hx
  refine ⟨b, hb, ht, fun r hr hF => ?_⟩
  have nd1 : ((cutoffNbs s r f i).map (placed s)).Nodup := by
    refine List.Nodup.of_map Prod.fst ?_
    rw [List.map_map]
    exact vec_nodup hF f hi
  have nd2 : (((near name b.1).filter fun p => filterOK f b.2 p.2).map fun p => (Spec.quarter a p.1, p.2)).Nodup := by
    refine List.Nodup.map_on ?_ (List.Nodup.filter _ (List.Nodup.of_map Prod.fst (near_table name h b hb).2.1))
    rintro ⟨k, t⟩ - ⟨k', t'⟩ - hh
    simp only [Prod.mk.injEq] at hh
    rw [quarter_inj ha hh.1, hh.2]
  rw [List.perm_ext_iff_of_nodup nd1 nd2]
  rintro ⟨v, t⟩
  have e1 : (v, t) ∈ (cutoffNbs s r f i).map (placed s) ↔ ∃ y ∈ cutoffNbs s r f i, y.vec = v ∧ s.typeOf y.idx = t := by
    rw [List.mem_map]; simp only [placed, Prod.mk.injEq]
  rw [e1, C92_neighbours hF hi, hcr, e, ht]
  constructor
  · rintro ⟨h1, h2, h3, h4⟩
    obtain ⟨p, hp, rfl, rfl⟩ := (near_ball h ha hr hb n v t).1 ⟨h1, h2, h4⟩
    exact List.mem_map.2 ⟨p, List.mem_filter.2 ⟨hp, h3⟩, rfl⟩
  · intro hm
    obtain ⟨p, hp, hh⟩ := List.mem_map.1 hm
    simp only [Prod.mk.injEq] at hh
    obtain ⟨rfl, rfl⟩ := hh
    obtain ⟨hp, hf⟩ := List.mem_filter.1 hp
    obtain ⟨h1, h2, h4⟩ := (near_ball h ha hr hb n _ _).2 ⟨p, hp, rfl, rfl⟩
    exact ⟨h1, h2, hf, h4⟩

theorem near_perm {name : String} (h : name ∈ Spec.cubic) {a r : ℝ} (ha : 0 < a) (hr : Spec.FirstShell name a r) {s : System} (hF : Spec.Faithful s r)
    (hcr : crystal s.box s.atoms = Spec.idealCrystal ⟨a, a, a⟩ (Spec.basis name)) (f i : ℕ) (x : Atom) (hi : s.atoms[i]? = some x) :
    ∃ b ∈ quarters name, x.type = b.2 ∧
      ((cutoffNbs s r f i).map (placed s)).Perm (((near name b.1).filter fun p => filterOK f b.2 p.2).map fun p => (Spec.quarter a p.1, p.2)) := by
  obtain ⟨b, hb, ht, hp⟩ := near_all h ha hcr f i x hi
  exact ⟨b, hb, ht, hp r hr hF⟩

/-! ### Steinhardt parameters of the shells -/

/-- `q_l²` of the nearest neighbours, `l = 2, …, 12`. -/
def Spec.qTable : String → List ℚ
  | "sc" => [0, 0, 7/12, 0, 1/8, 0, 33/64, 0, 65/384, 0, 743/1536]
  | "bcc" => [0, 0, 7/27, 0, 32/81, 0, 11/243, 0, 8320/19683, 0, 30559/177147]
  | "b2" => [0, 0, 7/27, 0, 32/81, 0, 11/243, 0, 8320/19683, 0, 30559/177147]
  | "fcc" => [0, 0, 7/192, 0, 169/512, 0, 2673/16384, 0, 65/393216, 0, 2265551/6291456]
  | "l12" => [0, 0, 7/192, 0, 169/512, 0, 2673/16384, 0, 65/393216, 0, 2265551/6291456]
  | "diamond" => [0, 5/9, 7/27, 0, 32/81, 91/243, 11/243, 1760/6561, 8320/19683, 2431/19683, 30559/177147]
  | _ => []

/-- `(P_l(x), P_{l+1}(x))` for rational `x`. -/
def legPair : ℕ → ℚ → ℚ × ℚ
  | 0, x => (1, x)
  | n + 1, x => let p := legPair n x; (p.2, ((2 * n + 3) * x * p.2 - (n + 1) * p.1) / (n + 2))

theorem legPair_cast (n : ℕ) (x : ℚ) : ((legPair n x).1 : ℝ) = Spec.legendre n x ∧ ((legPair n x).2 : ℝ) = Spec.legendre (n + 1) x := by
  induction n with
  | zero => simp [legPair, Spec.legendre]
  | succ n ih =>
    refine ⟨ih.2, ?_⟩
    rw [Spec.legendre, ← ih.1, ← ih.2]
    simp only [legPair]
    push_cast
    ring

def dotK (k k' : ℤ × ℤ × ℤ) : ℤ := k.1 * k'.1 + k.2.1 * k'.2.1 + k.2.2 * k'.2.2

/-- The double sum over a shell. -/
def sumK (l : ℕ) (d : ℤ) (L : List (ℤ × ℤ × ℤ)) : ℚ := (L.map fun k => (L.map fun k' => (legPair l ((dotK k k' : ℚ) / d)).1).sum).sum

theorem q_table : ∀ name ∈ ["sc", "bcc", "fcc", "diamond", "l12", "b2"], ∀ L ∈ Spec.shells name, L ≠ [] ∧ 0 < (Spec.limits name).1 ∧
    (∀ k ∈ L, nsq k = (Spec.limits name).1) ∧
      ∀ l ∈ List.range 11, some (sumK (l + 2) (Spec.limits name).1 L / (L.length * L.length)) = (Spec.qTable name)[l]? := by
  decide +kernel

theorem cos_quarter {a : ℝ} (ha : 0 < a) {k k' : ℤ × ℤ × ℤ} {d : ℤ} (hd : 0 < d) (hk : nsq k = d) (hk' : nsq k' = d) :
    Spec.cosAngle (Spec.quarter a k) (Spec.quarter a k') = (((dotK k k' : ℚ) / d : ℚ) : ℝ) := by
  have h4 : (a / 4) ≠ 0 := by positivity
  have hd' : (0 : ℝ) < d := by exact_mod_cast hd
  unfold Spec.cosAngle
  rw [norm_quarter a ha, norm_quarter a ha, hk, hk']
  have e1 : a / 4 * Real.sqrt (d : ℝ) * (a / 4 * Real.sqrt (d : ℝ)) = (a / 4) ^ 2 * d := by
    rw [mul_mul_mul_comm, Real.mul_self_sqrt hd'.le]; ring
  have e2 : V3.dot (Spec.quarter a k) (Spec.quarter a k') = (a / 4) ^ 2 * dotK k k' := by
    simp only [V3.dot, Spec.quarter, dotK]; push_cast; ring
  rw [e1, e2]
  push_cast
  rw [mul_div_mul_left _ _ (pow_ne_zero 2 h4)]

theorem pairSum_quarter {a : ℝ} (ha : 0 < a) (l : ℕ) {d : ℤ} (hd : 0 < d) {L : List (ℤ × ℤ × ℤ)} (hL : ∀ k ∈ L, nsq k = d) :
    Spec.pairSum l (L.map fun k => ((1 : ℝ), Spec.quarter a k)) = ((sumK l d L : ℚ) : ℝ) := by
  have cast_sum : ∀ M : List ℚ, ((M.sum : ℚ) : ℝ) = (M.map fun x : ℚ => (x : ℝ)).sum := by
    intro M
    induction M with
    | nil => simp
    | cons x M ih => simp [ih]
  unfold Spec.pairSum Spec.crossSum sumK
  rw [cast_sum, List.map_map, List.map_map]
  refine congrArg List.sum (List.map_congr_left fun k hk => ?_)
  simp only [Function.comp_apply]
  rw [cast_sum, List.map_map, List.map_map]
  refine congrArg List.sum (List.map_congr_left fun k' hk' => ?_)
  simp only [Function.comp_apply]
  rw [(legPair_cast l _).1, cos_quarter ha hd (hL k hk) (hL k' hk')]
  ring

theorem pairSum_perm (l : ℕ) {L M : List (ℝ × V3)} (h : L.Perm M) : Spec.pairSum l L = Spec.pairSum l M := by
  unfold Spec.pairSum Spec.crossSum
  have : ∀ p : ℝ × V3, (L.map fun p' => p.1 * p'.1 * Spec.legendre l (Spec.cosAngle p.2 p'.2)).sum = (M.map fun p' => p.1 * p'.1 * Spec.legendre l (Spec.cosAngle p.2 p'.2)).sum :=
    fun p => (h.map _).sum_eq
  simp only [this]
  exact (h.map _).sum_eq

/-! ### The whole calculation -/

/-- What the search leaves in a system built from the output of `make_crystal`. -/
theorem perfect_search (σ : StdSort) {name : String} (hn : name ∈ Spec.cubic) {a ca r : ℝ} (ha : 0 < a) (hca : 0 < ca) {nx ny nz : ℕ} (hx : 1 ≤ nx) (hy : 1 ≤ ny) (hz : 1 ≤ nz)
    (hr : Spec.FirstShell name a r) (hfit : Spec.RangeFits ((Spec.basis name).length * nx * ny * nz) (nx * a) (ny * a) (nz * a) r) (f : ℕ) :
    ∃ atoms box s s1, makeCrystal name a nx ny nz ca = .ok (atoms, box) ∧ atoms.length = (Spec.basis name).length * nx * ny * nz ∧
      buildSystem box atoms = .ok s ∧ s.findNeighbors σ f (.cutoff r) = .ok s1 ∧ Plain s1 ∧ s1.realNop = atoms.length ∧ s1.realNop ≤ s1.atoms.length ∧
      ∀ (i : ℕ) (x : Atom), s1.atoms[i]? = some x → ∃ b ∈ quarters name, x.type = b.2 ∧
        (x.nbrs.map fun e => (e.weight, e.dist, e.vec)).Perm
          (((near name b.1).filter fun p => filterOK f b.2 p.2).map fun p => (1, V3.norm (Spec.quarter a p.1), Spec.quarter a p.1)) := by
  have hs : name ∈ Spec.structures := by
    simp only [Spec.cubic, List.mem_cons, List.not_mem_nil, or_false] at hn
    rcases hn with rfl | rfl | rfl | rfl | rfl | rfl | rfl <;> decide
  have hh : name ≠ "hcp" := by
    rintro rfl
    revert hn; decide
  have hE : Spec.cellEdges name a ca = ⟨a, a, a⟩ := by rw [Spec.cellEdges, if_neg hh]
  obtain ⟨atoms, lx, ly, lz, hm, ex, ey, ez, hlen, hat, hnd, hcr⟩ := C40_make_crystal name hs ha hca hx hy hz
  rw [hE] at ex ey ez hcr
  dsimp only at ex ey ez
  have x0 : (0 : ℝ) < nx := by exact_mod_cast hx
  have y0 : (0 : ℝ) < ny := by exact_mod_cast hy
  have z0 : (0 : ℝ) < nz := by exact_mod_cast hz
  have hr0 : 0 < r := lt_of_le_of_lt (by positivity) hr.1
  have hall : ∀ c ∈ atoms, c.ghost = false ∧ InBox lx ly lz c.pos := by
    intro c hc
    obtain ⟨k, hk⟩ := List.mem_iff_getElem?.1 hc
    exact (hat k c hk).2.2
  have hne : atoms ≠ [] := by
    rintro rfl
    have hB : 0 < (Spec.basis name).length := by
      rw [basis_quarters hn, List.length_map]
      simp only [Spec.cubic, List.mem_cons, List.not_mem_nil, or_false] at hn
      rcases hn with rfl | rfl | rfl | rfl | rfl | rfl | rfl <;> decide
    have : 0 < (Spec.basis name).length * nx * ny * nz := by positivity
    rw [List.length_nil] at hlen
    exact absurd hlen this.ne
  obtain ⟨s, hb, hF, hP, hreal, hle, hcr', -⟩ := inBox_build (by rw [ex]; positivity) (by rw [ey]; positivity) (by rw [ez]; positivity) hne
    (fun c hc => (hall c hc).1) (fun c hc => (hall c hc).2) hnd hr0.le (by rw [hlen, ex, ey, ez]; exact hfit)
  have hnear := fun (i : ℕ) (x : Atom) (hi : s.atoms[i]? = some x) => near_perm hn ha hr hF (hcr'.trans hcr) f i x hi
  obtain ⟨s1, hs1⟩ := cutoff_isOk σ (f := f) hr0.ne' hP hle (by
    intro i hi
    obtain ⟨b, hb, -, hp⟩ := hnear i _ (List.getElem?_eq_getElem hi)
    have h1 := hp.length_eq
    rw [List.length_map, List.length_map] at h1
    rw [h1]
    refine (List.length_filter_le _ _).trans ?_
    have : ∀ name ∈ Spec.cubic, ∀ b ∈ quarters name, (near name b.1).length ≤ 300 := by decide +kernel
    exact this name hn b hb)
  obtain ⟨e1, e2, e3⟩ := cutoff_any hr0.ne' hP hs1
  refine ⟨atoms, _, s, s1, hm, hlen, hb, hs1, cutoff_plain hr0.ne' hP hs1, by rw [e1]; exact hreal, by rw [e2]; rw [e1]; exact hle, fun i x hi => ?_⟩
  obtain ⟨hil, hperm, hrest⟩ := e3 i x hi
  have hsi := List.getElem?_eq_getElem hil
  obtain ⟨b, hb, ht, hp⟩ := hnear i _ hsi
  refine ⟨b, hb, ?_, ?_⟩
  · have h5 := congrArg Atom.type hrest
    have h5 : x.type = (s.mem i).type := h5
    rw [h5, (mem_of_getElem? hsi).2, ht]
  · refine (hperm.map _).trans ?_
    have e4 : (cutoffNbs s r f i).map (fun e => (e.weight, e.dist, e.vec)) = ((cutoffNbs s r f i).map (placed s)).map fun p => ((1 : ℝ), V3.norm p.1, p.1) := by
      unfold cutoffNbs
      simp only [List.map_map]
      rfl
    rw [e4]
    have := hp.map fun p => ((1 : ℝ), V3.norm p.1, p.1)
    simp only [List.map_map] at this ⊢
    exact this

/-- **C95, coordination**: build a crystal with `make_crystal` from any of the cubic structures, with any lattice constant and any numbers of
repetitions, give it to a system and search with a cutoff between the shell of nearest neighbours and the next shell.  If the cutoff fits into the box
(`Spec.RangeFits`) everything succeeds and every atom has exactly the coordination number of the structure: 6 in sc, 8 in bcc and b2, 12 in fcc and l12,
4 in diamond, 12 or 14 in a15; and with the filters `type` and `type_r` the number of those of its own or of the other type.  Its neighbour
vectors are those of the structure, in some order, with their lengths and with weight one. -/
theorem C95_coordination (σ : StdSort) (name : String) (hn : name ∈ Spec.cubic) {a ca r : ℝ} (ha : 0 < a) (hca : 0 < ca) {nx ny nz : ℕ} (hx : 1 ≤ nx) (hy : 1 ≤ ny) (hz : 1 ≤ nz)
    (hr : Spec.FirstShell name a r) (hfit : Spec.RangeFits ((Spec.basis name).length * nx * ny * nz) (nx * a) (ny * a) (nz * a) r) (f : ℕ) (hf : f ≤ 2) :
    ∃ atoms box s s1 as, makeCrystal name a nx ny nz ca = .ok (atoms, box) ∧ buildSystem box atoms = .ok s ∧ s.findNeighbors σ f (.cutoff r) = .ok s1 ∧
      s1.getAtoms = .ok as ∧ as.length = (Spec.basis name).length * nx * ny * nz ∧
      ∀ x ∈ as, x.nbrs.length ∈ Spec.coordination name f x.type ∧
        (name ≠ "a15" → f = 0 → ∃ L ∈ Spec.shells name,
          (x.nbrs.map fun e => (e.weight, e.dist, e.vec)).Perm (L.map fun k => (1, V3.norm (Spec.quarter a k), Spec.quarter a k))) := by
  obtain ⟨atoms, box, s, s1, h1, h2, h3, h4, -, h6, h7, h8⟩ := perfect_search σ hn ha hca hx hy hz hr hfit f
  refine ⟨atoms, box, s, s1, s1.atoms.take s1.realNop, h1, h3, h4, by rw [System.getAtoms, if_pos h7], ?_, fun x hx => ?_⟩
  · rw [List.length_take, min_eq_left h7, h6, h2]
  obtain ⟨i, hi⟩ := List.mem_iff_getElem?.1 (List.mem_of_mem_take hx)
  obtain ⟨b, hb, ht, hp⟩ := h8 i x hi
  obtain ⟨-, -, -, t4, t5⟩ := near_table name hn b hb
  constructor
  · have h9 := hp.length_eq
    rw [List.length_map, List.length_map] at h9
    rw [h9, ht]
    exact t5 f (by simp; omega)
  · rintro ha15 rfl
    obtain ⟨L, hL, hpL⟩ := t4 ha15
    refine ⟨L, hL, hp.trans ?_⟩
    have e : (near name b.1).filter (fun p => filterOK 0 b.2 p.2) = near name b.1 := List.filter_eq_self.2 fun p _ => rfl
    rw [e]
    have := hpL.map fun k => ((1 : ℝ), V3.norm (Spec.quarter a k), Spec.quarter a k)
    rwa [List.map_map] at this

/-- **C95, Steinhardt parameters**: in the same situation `calculate_q` gives every atom the parameters of the structure, `q_l = √(qTable)` for `l = 2, …, 12`; for
instance `q_4² = 7/192` and `q_6² = 169/512` in fcc.  In sc, bcc, fcc, b2 and l12 the averaged parameters are the same. -/
theorem C95_q (σ : StdSort) (name : String) (hn : name ∈ Spec.cubic) (h15 : name ≠ "a15") {a ca r : ℝ} (ha : 0 < a) (hca : 0 < ca) {nx ny nz : ℕ} (hx : 1 ≤ nx) (hy : 1 ≤ ny) (hz : 1 ≤ nz)
    (hr : Spec.FirstShell name a r) (hfit : Spec.RangeFits ((Spec.basis name).length * nx * ny * nz) (nx * a) (ny * a) (nz * a) r)
    (ls : List ℤ) (hls : ∀ l ∈ ls, 2 ≤ l ∧ l ≤ 12) (av : Bool) :
    ∃ atoms box as, makeCrystal name a nx ny nz ca = .ok (atoms, box) ∧ analyse σ box atoms 0 (.cutoff r) ls av = .ok as ∧
      as.length = (Spec.basis name).length * nx * ny * nz ∧
      ∀ x ∈ as, ∀ l : ℕ, (l : ℤ) ∈ ls → ∃ v : ℚ, (Spec.qTable name)[l - 2]? = some v ∧ x.q l = some (Real.sqrt v) ∧
        (av = true → name ≠ "diamond" → x.aq l = some (Real.sqrt v)) := by
  obtain ⟨atoms, box, s, s1, h1, h2, h3, h4, h5, h6, h7, h8⟩ := perfect_search σ hn ha hca hx hy hz hr hfit 0
  obtain ⟨s2, hs2⟩ := calculateQ_succeeds (ls := ls) av false hls h5.range
  obtain ⟨hq1, hq2, hq3⟩ := calculateQ_ok hs2
  have r2 : s2.realNop = s1.realNop := by rw [hq3]; split_ifs <;> rfl
  have l2 : s2.atoms.length = s1.atoms.length := by rw [hq3]; split_ifs <;> simp [System.afterQ]
  refine ⟨atoms, box, s2.atoms.take s2.realNop, h1, ?_, ?_, fun x hx l hl => ?_⟩
  · unfold analyse
    rw [h3]
    simp only [bind, Except.bind, h4, hs2]
    rw [System.getAtoms, if_pos (by rw [r2, l2]; exact h7)]
  · rw [List.length_take, min_eq_left (by rw [r2, l2]; exact h7), r2, h6, h2]
  obtain ⟨i, hi⟩ := List.mem_iff_getElem?.1 (List.mem_of_mem_take hx)
  have hil : i < s1.atoms.length := by rw [← l2]; exact (List.getElem?_eq_some_iff.1 hi).1
  have hnames : name ∈ ["sc", "bcc", "fcc", "diamond", "l12", "b2"] := by
    simp only [Spec.cubic, List.mem_cons, List.not_mem_nil, or_false] at hn ⊢
    tauto
  have shell : ∀ (i : ℕ) (x : Atom), s1.atoms[i]? = some x → ∃ L ∈ Spec.shells name, (wv x.nbrs).Perm (L.map fun k => ((1 : ℝ), Spec.quarter a k)) := by
    intro i x hi
    obtain ⟨b, hb, ht, hp⟩ := h8 i x hi
    obtain ⟨L, hL, hpL⟩ := (near_table name hn b hb).2.2.2.1 h15
    refine ⟨L, hL, ?_⟩
    have e : (near name b.1).filter (fun p => filterOK 0 b.2 p.2) = near name b.1 := List.filter_eq_self.2 fun p _ => rfl
    rw [e] at hp
    have p1 := hp.map fun p => (p.1, p.2.2)
    have p2 := hpL.map fun k => ((1 : ℝ), Spec.quarter a k)
    rw [List.map_map, List.map_map] at p1
    rw [List.map_map] at p2
    exact p1.trans p2
  have hgi := List.getElem?_eq_getElem hil
  obtain ⟨L, hL, hp⟩ := shell i _ hgi
  obtain ⟨L0, L1, L2, L3⟩ := q_table name hnames L hL
  have hl2 : 2 ≤ l := by have := (hls _ hl).1; omega
  have hl12 : l ≤ 12 := by have := (hls _ hl).2; omega
  have hval := L3 (l - 2) (List.mem_range.2 (by omega))
  rw [Nat.sub_add_cancel hl2] at hval
  have hd : (0 : ℤ) < ((Spec.limits name).1 : ℤ) := by exact_mod_cast L1
  have hq : x.q l = some (Real.sqrt ((sumK l (Spec.limits name).1 L / (L.length * L.length) : ℚ) : ℝ)) := by
    obtain ⟨-, hv⟩ := C61_legendre s1 s2 ls av hs2 l hl i _ x hgi hi
    rw [participants_eq hq2 (List.getElem_mem hil), h5.qNbrs (List.getElem_mem hil)] at hv
    have hz : ∀ p ∈ wv s1.atoms[i].nbrs, p.2 ≠ 0 := by
      intro p hpm h0
      obtain ⟨k, hk, rfl⟩ := List.mem_map.1 (hp.mem_iff.1 hpm)
      have h9 : V3.norm (Spec.quarter a k) = 0 := (V3.norm_eq_zero _).2 h0
      rw [norm_quarter a ha, L2 k hk] at h9
      have h10 : (0 : ℝ) < (((Spec.limits name).1 : ℤ) : ℝ) := by exact_mod_cast hd
      have : 0 < a / 4 * Real.sqrt (((Spec.limits name).1 : ℤ) : ℝ) := mul_pos (by positivity) (Real.sqrt_pos.2 h10)
      linarith
    have hsum : ((wv s1.atoms[i].nbrs).map Prod.fst).sum = L.length := by
      rw [(hp.map Prod.fst).sum_eq, List.map_map]
      simp [Function.comp_def]
    have hlp : (0 : ℝ) < L.length := by exact_mod_cast List.length_pos_iff.2 L0
    have := (hv hz).2.2 h5.vor (by rw [hsum]; exact hlp.ne')
    rw [this, hsum, pairSum_perm l hp, pairSum_quarter ha l hd L2, abs_of_pos hlp]
    congr 1
    push_cast
    rw [Real.sqrt_div' _ (by positivity), Real.sqrt_mul_self hlp.le]
  refine ⟨_, hval.symm, hq, fun hav hdia => ?_⟩
  subst hav
  have one : ∃ M, Spec.shells name = [M] := by
    simp only [List.mem_cons, List.not_mem_nil, or_false] at hnames
    rcases hnames with rfl | rfl | rfl | rfl | rfl | rfl
    · exact ⟨_, rfl⟩
    · exact ⟨_, rfl⟩
    · exact ⟨_, rfl⟩
    · exact absurd rfl hdia
    · exact ⟨_, rfl⟩
    · exact ⟨_, rfl⟩
  obtain ⟨M, hM⟩ := one
  -- all vectors agree
  have hc : ∀ (j k : ℕ) (u w : Atom), s1.atoms[j]? = some u → s1.atoms[k]? = some w → s1.calcQlm l u = s1.calcQlm l w := by
    intro j k u w hu hw
    obtain ⟨A, hA, pA⟩ := shell j u hu
    obtain ⟨B, hB, pB⟩ := shell k w hw
    rw [hM, List.mem_singleton] at hA hB
    subst hA hB
    refine calcQlm_perm l rfl ?_
    rw [h5.qNbrs (List.mem_of_getElem? hu), h5.qNbrs (List.mem_of_getElem? hw)]
    exact pA.trans pB.symm
  have hqlm : ∀ (j : ℕ) (u : Atom), s2.atoms[j]? = some u → u.qlm l = x.qlm l := by
    intro j u hu
    have hjl : j < s1.atoms.length := by rw [← l2]; exact (List.getElem?_eq_some_iff.1 hu).1
    have e1 := (calculateQ_q hs2 (List.getElem?_eq_getElem hjl) hu l).2
    have e2 := (calculateQ_q hs2 hgi hi l).2
    rw [if_pos hl] at e1 e2
    rw [e1, e2]
    exact hc _ _ _ _ (List.getElem?_eq_getElem hjl) hgi
  obtain ⟨c, hcq⟩ : ∃ c, x.qlm l = some c := by
    have e2 := calculateQ_q hs2 hgi hi l
    rw [if_pos hl, if_pos hl, hq] at e2
    rcases h0 : s1.calcQlm l s1.atoms[i] with _ | c
    · rw [h0] at e2; cases e2.1
    · exact ⟨c, by rw [e2.2, h0]⟩
  have hgrp : (Spec.group s2 x).map (fun b => b.qlm l) = ((Spec.group s2 x).map fun _ => c).map some := by
    rw [List.map_map]
    refine List.map_congr_left fun b hb => ?_
    unfold Spec.group at hb
    rcases List.mem_cons.1 hb with rfl | hb
    · exact hcq
    · obtain ⟨e, -, he⟩ := List.mem_filterMap.1 (List.mem_filter.1 hb).1
      exact (hqlm _ _ he).trans hcq
  rw [((C20_average s1 s2 ls hs2 l hl i x hi).2 _ hgrp).2.2.2.2, hq]
  intro c1 h1 c2 h2
  simp only [List.mem_map] at h1 h2
  obtain ⟨_, _, rfl⟩ := h1
  obtain ⟨_, _, rfl⟩ := h2
  rfl

/-- When the cutoff fits: always below 200 atoms, and with at least five repetitions in every direction if the cutoff is not below 1e-6. -/
theorem fits_reps {name : String} (hn : name ∈ Spec.cubic) {a r : ℝ} (ha : 0 < a) {nx ny nz : ℕ} (hx : 1 ≤ nx) (hy : 1 ≤ ny) (hz : 1 ≤ nz) (hr : Spec.FirstShell name a r)
    (h : (Spec.basis name).length * nx * ny * nz < 200 ∨ 1e-6 ≤ r ∧ 5 ≤ nx ∧ 5 ≤ ny ∧ 5 ≤ nz) :
    Spec.RangeFits ((Spec.basis name).length * nx * ny * nz) (nx * a) (ny * a) (nz * a) r := by
  have hra : r ≤ 1.5 * a := by
    refine hr.2.trans ?_
    have h1 : Real.sqrt ((Spec.limits name).2 : ℝ) ≤ 6 := by
      rw [Real.sqrt_le_left (by norm_num)]
      have : ((Spec.limits name).2 : ℝ) ≤ 32 := by exact_mod_cast limits_le hn
      linarith
    nlinarith
  have key : ∀ n : ℕ, 1 ≤ n → a ≤ n * a := by
    intro n hn
    have : (1 : ℝ) ≤ n := by exact_mod_cast hn
    nlinarith
  have key5 : ∀ n : ℕ, 5 ≤ n → 5 * a ≤ n * a := by
    intro n hn
    have : (5 : ℝ) ≤ n := by exact_mod_cast hn
    nlinarith
  have k1 := key nx hx
  have k2 := key ny hy
  have k3 := key nz hz
  refine ⟨fun _ => ⟨by linarith, by linarith, by linarith⟩, fun h2 => ?_, fun h2 => ?_⟩
  · obtain ⟨-, f1, f2, f3⟩ := h.resolve_left (by omega)
    have := key5 nx f1
    have := key5 ny f2
    have := key5 nz f3
    exact ⟨by linarith, by linarith, by linarith⟩
  · obtain ⟨f0, f1, f2, f3⟩ := h.resolve_left (by omega)
    have := key5 nx f1
    have := key5 ny f2
    have := key5 nz f3
    exact ⟨f0, by linarith, by linarith, by linarith⟩

theorem fcc_shell {a r : ℝ} (h1 : 0.71 * a < r) (h2 : r ≤ a) (ha : 0 < a) : Spec.FirstShell "fcc" a r := by
  unfold Spec.FirstShell
  have e : Spec.limits "fcc" = (8, 16) := rfl
  rw [e]
  have s8 : Real.sqrt ((8 : ℕ) : ℝ) ≤ 2.84 := by
    rw [Real.sqrt_le_left (by norm_num)]; norm_num
  have s16 : Real.sqrt ((16 : ℕ) : ℝ) = 4 := by
    rw [show ((16 : ℕ) : ℝ) = 4 ^ 2 by norm_num, Real.sqrt_sq (by norm_num)]
  constructor
  · dsimp only; nlinarith
  · dsimp only; rw [s16]; linarith

/-- The hypotheses of `C95_coordination` and `C95_q`: fcc with lattice constant 4 and the cutoff 3.5, from 4 atoms to `4·n³` for every `n ≥ 5`, with the cell lists from 2916 atoms on. -/
example (n : ℕ) (hn : n = 1 ∨ 5 ≤ n) : "fcc" ∈ Spec.cubic ∧ Spec.FirstShell "fcc" 4 3.5 ∧
    Spec.RangeFits ((Spec.basis "fcc").length * n * n * n) (n * 4) (n * 4) (n * 4) 3.5 ∧ (Spec.qTable "fcc")[6 - 2]? = some (169 / 512) := by
  have hs : Spec.FirstShell "fcc" 4 3.5 := fcc_shell (by norm_num) (by norm_num) (by norm_num)
  refine ⟨by decide, hs, fits_reps (by decide) (by norm_num) (by omega) (by omega) (by omega) hs ?_, by decide +kernel⟩
  rcases hn with rfl | hn
  · left; decide
  · exact .inr ⟨by norm_num, hn, hn, hn⟩

end Pyscal
