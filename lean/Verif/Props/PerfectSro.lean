import Verif.Props.PerfectAngular
import Verif.Props.Sro

/-! C105: short range order of perfectly ordered compounds. -/

namespace Pyscal

open Spec (diagBox InBox identity crystal latticeVec)

/-! ### Neighbours in the first two shells, with types -/

/-- The surroundings of every atom of a perfect cubic crystal up to a given distance, with the types. -/
theorem around_perm {name : String} (h : name ∈ Spec.cubic) {a r : ℝ} (ha : 0 < a) {D : ℕ} (hD : D ≤ 36) (hnd : ∀ b ∈ quarters name, ((around name D b.1).map Prod.fst).Nodup)
    (hr1 : ∀ b ∈ quarters name, ∀ p ∈ around name D b.1, (a / 4) * Real.sqrt (nsq p.1) < r) (hr2 : r ≤ (a / 4) * Real.sqrt D) {s : System} (hF : Spec.Faithful s r)
    (hcr : crystal s.box s.atoms = Spec.idealCrystal ⟨a, a, a⟩ (Spec.basis name)) (i : ℕ) (x : Atom) (hi : s.atoms[i]? = some x) :
    ∃ b ∈ quarters name, x.type = b.2 ∧ ((cutoffNbs s r 0 i).map (placed s)).Perm ((around name D b.1).map fun p => (Spec.quarter a p.1, p.2)) := by
  have hx : (x.pos, x.type) ∈ crystal s.box s.atoms := ⟨x, List.mem_of_getElem? hi, 0, 0, 0, by ext <;> simp [latticeVec], rfl⟩
  rw [hcr, mem_ideal h] at hx
  obtain ⟨b, hb, n, e, ht⟩ := hx
  refine ⟨b, hb, ht, ?_⟩
  have nd1 : ((cutoffNbs s r 0 i).map (placed s)).Nodup := by
    refine List.Nodup.of_map Prod.fst ?_
    rw [List.map_map]
    exact vec_nodup hF 0 hi
  have nd2 : ((around name D b.1).map fun p => (Spec.quarter a p.1, p.2)).Nodup := by
    refine List.Nodup.map_on ?_ (List.Nodup.of_map Prod.fst (hnd b hb))
    rintro ⟨k, t⟩ - ⟨k', t'⟩ - hh
    simp only [Prod.mk.injEq] at hh
    rw [quarter_inj ha hh.1, hh.2]
  rw [List.perm_ext_iff_of_nodup nd1 nd2]
  rintro ⟨v, t⟩
  have e1 : (v, t) ∈ (cutoffNbs s r 0 i).map (placed s) ↔ ∃ y ∈ cutoffNbs s r 0 i, y.vec = v ∧ s.typeOf y.idx = t := by
    rw [List.mem_map]; simp only [placed, Prod.mk.injEq]
  have hball := around_ball h ha hD hb (hr1 b hb) hr2 n v t
  rw [e1, C92_neighbours hF hi, hcr, e]
  constructor
  · rintro ⟨h1, h2, -, h4⟩
    obtain ⟨p, hp, rfl, rfl⟩ := hball.1 ⟨h1, h2, h4⟩
    exact List.mem_map.2 ⟨p, hp, rfl⟩
  · intro hm
    obtain ⟨p, hp, hh⟩ := List.mem_map.1 hm
    simp only [Prod.mk.injEq] at hh
    obtain ⟨h1, h2, h4⟩ := hball.2 ⟨p, hp, hh.1.symm, hh.2.symm⟩
    exact ⟨h1, h2, rfl, h4⟩

/-- Specification: `r` lies beyond the second neighbours (at distance `a` in both compounds) and not beyond the third ones. -/
def Spec.SecondShell (name : String) (a r : ℝ) : Prop := a < r ∧ r ≤ (a / 4) * Real.sqrt (if name = "b2" then 32 else 24 : ℕ)

/-- The squared distance of the nearest neighbours, in quarters of the lattice constant, their number, and how many of them are of the other type. -/
def firstOf (name : String) (t : ℤ) : ℤ × ℕ × ℕ := if name = "b2" then (12, 8, 8) else (8, 12, if t = 1 then 12 else 4)

theorem compound_table : ∀ name ∈ ["b2", "l12"], ∀ b ∈ quarters name, ((around name (if name = "b2" then 32 else 24) b.1).map Prod.fst).Nodup ∧
    (∀ p ∈ around name (if name = "b2" then 32 else 24) b.1, nsq p.1 = (firstOf name b.2).1 ∨ nsq p.1 = 16) ∧
    ((around name (if name = "b2" then 32 else 24) b.1).countP fun p => decide (nsq p.1 = (firstOf name b.2).1)) = (firstOf name b.2).2.1 ∧
    ((around name (if name = "b2" then 32 else 24) b.1).countP fun p => decide (nsq p.1 = 16)) = 6 ∧
    ((around name (if name = "b2" then 32 else 24) b.1).countP fun p => decide (p.2 ≠ b.2) && decide (nsq p.1 = (firstOf name b.2).1)) = (firstOf name b.2).2.2 ∧
    ((around name (if name = "b2" then 32 else 24) b.1).countP fun p => decide (p.2 ≠ b.2) && decide (nsq p.1 = 16)) = 0 ∧
    (around name (if name = "b2" then 32 else 24) b.1).length ≤ 300 ∧ (b.2 = 1 ∨ b.2 = 2) := by
  decide +kernel

/-! ### Numbers of atoms of each type -/

theorem count_repeat {τ : Type} (L : List τ) (m : List ℤ) (t : ℤ) : (L.flatMap fun _ => m).count t = L.length * m.count t := by
  induction L with
  | nil => simp
  | cons x L ih => rw [List.flatMap_cons, List.count_append, ih, List.length_cons]; ring

theorem mapIdx_types (L : List Atom) (f : ℕ → Atom → Atom) (h : ∀ k a, (f k a).type = a.type) : (L.mapIdx f).map Atom.type = L.map Atom.type := by
  refine List.ext_getElem (by simp) fun k h1 h2 => ?_
  rw [List.getElem_map, List.getElem_map, List.getElem_mapIdx, h]

theorem repNew_types (b : Mat3) (g : Bool) (x y z : ℕ) (l : List Atom) : (repNew b g x y z l).map Atom.type = (repCells x y z).flatMap fun _ => l.map Atom.type := by
  unfold repNew
  refine (mapIdx_types _ _ (by intro k a; rfl)).trans ?_
  rw [List.map_flatMap]
  congr 1
  funext c
  rw [List.map_map]
  rfl

theorem crystal_types {name : String} (hn : name ∈ Spec.structures) {a ca : ℝ} {nx ny nz : ℕ} {atoms : List Atom} {box : Mat3} (h : makeCrystal name a nx ny nz ca = .ok (atoms, box)) (t : ℤ) :
    (atoms.map Atom.type).count t = nx * ny * nz * ((Spec.basis name).map Prod.snd).count t := by
  rw [makeCrystal_eq name hn] at h
  cases h
  refine (congrArg (List.count t) (mapIdx_types _ _ (by intro k a; rfl))).trans ?_
  unfold siteAtoms
  rw [List.map_flatMap]
  have : (fun c : ℕ × ℕ × ℕ => ((Spec.basis name).map fun b => ({ pos := sitePos (Spec.cellEdges name a ca) c b, type := b.2 } : Atom)).map Atom.type) =
      fun _ => (Spec.basis name).map Prod.snd := by
    funext c
    rw [List.map_map]
    rfl
  rw [this, count_repeat, crystalCells_length]

theorem numType_eq (s : System) (t : ℤ) : Spec.numType s t = (s.atoms.map Atom.type).count t := by
  unfold Spec.numType
  rw [List.count, List.countP_map]
  congr 1

/-! ### The two shells -/

/-- Counting in the two shells when there are only two distances. -/
theorem two_shells {τ : Type} (L : List τ) {u v : ℝ} (huv : u < v) (d : τ → ℝ) (hd : ∀ x ∈ L, d x = u ∨ d x = v)
    [DecidablePred fun x => d x = u] [DecidablePred fun x => d x = v] (h1 : 0 < L.countP fun x => decide (d x = u)) (h2 : 0 < L.countP fun x => decide (d x = v)) :
    u < (L.map d).sum / L.length ∧ (L.map d).sum / L.length < v := by
  have hs : ∀ M : List τ, (∀ x ∈ M, d x = u ∨ d x = v) → (M.map d).sum = (M.countP fun x => decide (d x = u)) * u + (M.countP fun x => decide (d x = v)) * v ∧
      M.length = (M.countP fun x => decide (d x = u)) + M.countP fun x => decide (d x = v) := by
    intro M
    induction M with
    | nil => simp
    | cons x M ih =>
      intro hM
      obtain ⟨i1, i2⟩ := ih fun y hy => hM y (List.mem_cons_of_mem _ hy)
      rw [List.map_cons, List.sum_cons, i1, List.countP_cons, List.countP_cons, List.length_cons, i2]
      rcases hM x List.mem_cons_self with hx | hx
      · have : ¬ d x = v := by rw [hx]; exact huv.ne
        simp only [hx, decide_true, if_true]
        have : decide (u = v) = false := decide_eq_false huv.ne
        simp only [this]
        constructor
        · push_cast; simp; ring
        · simp; ring
      · have : decide (v = u) = false := decide_eq_false huv.ne'
        simp only [hx, decide_true, if_true, this]
        constructor
        · push_cast; simp; ring
        · simp; ring
  obtain ⟨e1, e2⟩ := hs L hd
  have p1 : (0 : ℝ) < (L.countP fun x => decide (d x = u) : ℕ) := by exact_mod_cast h1
  have p2 : (0 : ℝ) < (L.countP fun x => decide (d x = v) : ℕ) := by exact_mod_cast h2
  rw [e1, e2]
  push_cast
  constructor
  · rw [lt_div_iff₀ (by linarith)]
    nlinarith
  · rw [div_lt_iff₀ (by linarith)]
    nlinarith

/-- The value of the first shell: -1 in B2 and -1/3 in L12. -/
noncomputable def Spec.orderedSro (name : String) : ℝ := if name = "b2" then -1 else -1 / 3

/-- The values computed for an atom whose neighbours are those of a perfect compound. -/
theorem compound_cowley {name : String} (hn : name ∈ ["b2", "l12"]) {a : ℝ} (ha : 0 < a) {b : (ℤ × ℤ × ℤ) × ℤ} (hb : b ∈ quarters name) (s : System) (x : Atom)
    (hp : (x.nbrs.map fun e => (Spec.nbDistance s x e, Spec.nbType s e)).Perm
      ((around name (if name = "b2" then 32 else 24) b.1).map fun p => ((a / 4) * Real.sqrt (nsq p.1 : ℝ), p.2))) {m : ℝ}
    (hm : m = if name = "b2" then 1 / 2 else if b.2 = 1 then 3 / 4 else 1 / 4) :
    Spec.cowleyShells s b.2 m 2 x = [some (Spec.orderedSro name), some 1] := by
  classical
  obtain ⟨-, t2, t3, t4, t5, t6, -, tb⟩ := compound_table name hn b hb
  set A := around name (if name = "b2" then 32 else 24) b.1 with hA
  have h4 : 0 < a / 4 := by positivity
  set u := (a / 4) * Real.sqrt ((firstOf name b.2).1 : ℝ) with hu
  set v := (a / 4) * Real.sqrt (16 : ℝ) with hv
  have hf0 : 0 ≤ (firstOf name b.2).1 ∧ (firstOf name b.2).1 < 16 ∧ 0 < (firstOf name b.2).2.1 := by
    unfold firstOf
    split_ifs <;> decide
  have hsq : ∀ k : ℤ, 0 ≤ k → ∀ k' : ℤ, 0 ≤ k' → ((a / 4) * Real.sqrt (k : ℝ) = (a / 4) * Real.sqrt (k' : ℝ) ↔ k = k') := by
    intro k hk k' hk'
    rw [mul_right_inj' h4.ne', Real.sqrt_inj (by exact_mod_cast hk) (by exact_mod_cast hk')]
    norm_cast
  have hn0 : ∀ p : (ℤ × ℤ × ℤ) × ℤ, 0 ≤ nsq p.1 := fun p => by
    unfold nsq
    nlinarith [mul_self_nonneg p.1.1, mul_self_nonneg p.1.2.1, mul_self_nonneg p.1.2.2]
  have huv : u < v := by
    refine (mul_lt_mul_iff_right₀ h4).2 (Real.sqrt_lt_sqrt (by exact_mod_cast hf0.1) ?_)
    exact_mod_cast hf0.2.1
  have du : ∀ p : (ℤ × ℤ × ℤ) × ℤ, (a / 4) * Real.sqrt (nsq p.1 : ℝ) = u ↔ nsq p.1 = (firstOf name b.2).1 := fun p => hsq _ (hn0 p) _ hf0.1
  have dv : ∀ p : (ℤ × ℤ × ℤ) × ℤ, (a / 4) * Real.sqrt (nsq p.1 : ℝ) = v ↔ nsq p.1 = 16 := fun p => by
    have := hsq _ (hn0 p) 16 (by norm_num)
    push_cast at this
    exact this
  obtain ⟨m1, m2⟩ := two_shells A huv (fun p => (a / 4) * Real.sqrt (nsq p.1 : ℝ)) (fun p hp => (t2 p hp).imp (du p).2 (dv p).2)
    (by simp only [du]; rw [t3]; exact hf0.2.2) (by simp only [dv]; rw [t4]; norm_num)
  have hmean : Spec.meanOver x.nbrs (Spec.nbDistance s x) = (A.map fun p => (a / 4) * Real.sqrt (nsq p.1 : ℝ)).sum / A.length := by
    have e1 := (hp.map Prod.fst).sum_eq
    have e2 := hp.length_eq
    rw [List.map_map, List.map_map] at e1
    rw [List.length_map, List.length_map] at e2
    unfold Spec.meanOver
    rw [e2]
    exact congrArg (· / (A.length : ℝ)) e1
  set μ := (A.map fun p => (a / 4) * Real.sqrt (nsq p.1 : ℝ)).sum / A.length with hμ
  have hcount : ∀ g : ℝ × ℤ → Bool, (x.nbrs.countP fun e => g (Spec.nbDistance s x e, Spec.nbType s e)) = A.countP fun p => g ((a / 4) * Real.sqrt (nsq p.1 : ℝ), p.2) := by
    intro g
    have := hp.countP_eq g
    rw [List.countP_map, List.countP_map] at this
    exact this
  have low : ∀ p ∈ A, (a / 4) * Real.sqrt (nsq p.1 : ℝ) ≤ μ ↔ nsq p.1 = (firstOf name b.2).1 := by
    intro p hp
    constructor
    · intro h
      rcases t2 p hp with e | e
      · exact e
      · rw [(dv p).2 e] at h
        linarith
    · intro h
      rw [(du p).2 h]
      exact m1.le
  have high : ∀ p ∈ A, μ < (a / 4) * Real.sqrt (nsq p.1 : ℝ) ↔ nsq p.1 = 16 := by
    intro p hp
    constructor
    · intro h
      rcases t2 p hp with e | e
      · rw [(du p).2 e] at h
        linarith
      · exact e
    · intro h
      rw [(dv p).2 h]
      exact m2
  have c1 : (Spec.shell1 x.nbrs (Spec.nbDistance s x)).length = (firstOf name b.2).2.1 := by
    unfold Spec.shell1
    rw [← List.countP_eq_length_filter, hmean, ← t3]
    refine (hcount fun q => decide (q.1 ≤ μ)).trans (List.countP_congr fun p hp => ?_)
    simp only [decide_eq_true_eq]
    exact low p hp
  have c2 : (Spec.shell2 x.nbrs (Spec.nbDistance s x)).length = 6 := by
    unfold Spec.shell2
    rw [← List.countP_eq_length_filter, hmean, ← t4]
    refine (hcount fun q => decide (μ < q.1)).trans (List.countP_congr fun p hp => ?_)
    simp only [decide_eq_true_eq]
    exact high p hp
  have n1 : ((Spec.shell1 x.nbrs (Spec.nbDistance s x)).countP fun e => decide (Spec.nbType s e ≠ b.2)) = (firstOf name b.2).2.2 := by
    unfold Spec.shell1
    rw [List.countP_filter, hmean, ← t5]
    refine (hcount fun q => decide (q.2 ≠ b.2) && decide (q.1 ≤ μ)).trans (List.countP_congr fun p hp => ?_)
    simp only [Bool.and_eq_true, decide_eq_true_eq]
    rw [low p hp]
  have n2 : ((Spec.shell2 x.nbrs (Spec.nbDistance s x)).countP fun e => decide (Spec.nbType s e ≠ b.2)) = 0 := by
    unfold Spec.shell2
    rw [List.countP_filter, hmean, ← t6]
    refine (hcount fun q => decide (q.2 ≠ b.2) && decide (μ < q.1)).trans (List.countP_congr fun p hp => ?_)
    simp only [Bool.and_eq_true, decide_eq_true_eq]
    rw [high p hp]
  unfold Spec.cowleyShells
  simp only [if_true]
  rw [c1, c2, n1, n2]
  unfold Spec.cowley Spec.orderedSro
  rw [if_neg hf0.2.2.ne', if_neg (by norm_num : ¬ (6 : ℕ) = 0), hm]
  unfold firstOf
  simp only [List.mem_cons, List.not_mem_nil, or_false] at hn
  rcases hn with rfl | rfl
  · norm_num
  · have hne : ¬ ("l12" = "b2") := by decide
    simp only [if_neg hne]
    rcases tb with e | e <;> rw [e] <;> norm_num

/-- **C105**: build a B2 or L12 crystal with `make_crystal`, search with a cutoff between the second and the third shell and call `calculate_sro` (two shells, the default) with either
type as the reference.  The average returned is `[-1, 1]` for B2 and `[-1/3, 1]` for L12, and so is the value of every atom of the reference type. -/
theorem C105_sro (σ : StdSort) (name : String) (hn : name ∈ ["b2", "l12"]) {a ca r : ℝ} (ha : 0 < a) (hca : 0 < ca) {nx ny nz : ℕ} (hx : 1 ≤ nx) (hy : 1 ≤ ny) (hz : 1 ≤ nz)
    (hr : Spec.SecondShell name a r) (hfit : Spec.RangeFits ((Spec.basis name).length * nx * ny * nz) (nx * a) (ny * a) (nz * a) r) (ref : ℤ) (href : ref = 1 ∨ ref = 2) :
    ∃ atoms box s s1 s2, makeCrystal name a nx ny nz ca = .ok (atoms, box) ∧ buildSystem box atoms = .ok s ∧ s.findNeighbors σ 0 (.cutoff r) = .ok s1 ∧
      System.calculateSro ref true 2 s1 = (s2, .ok (some [some (Spec.orderedSro name), some 1])) ∧
      s2.atoms.length = s1.atoms.length ∧ ∀ x ∈ s2.atoms, x.type = ref → x.sro = [some (Spec.orderedSro name), some 1] := by
  have hstr : ∀ name ∈ ["b2", "l12"], name ∈ Spec.cubic ∧ name ∈ Spec.structures ∧ 0 < (Spec.basis name).length ∧ name ≠ "hcp" ∧
      ((Spec.basis name).map Prod.snd).count 1 = 1 ∧ ((Spec.basis name).map Prod.snd).count 2 = (if name = "b2" then 1 else 3) := by decide +kernel
  obtain ⟨h1, h2, h3, h4, cn1, cn2⟩ := hstr name hn
  obtain ⟨atoms, lx, ly, lz, hm, ex, ey, ez, hlen, hat, hnd, hcr⟩ := C40_make_crystal name h2 ha hca hx hy hz
  have hE : Spec.cellEdges name a ca = ⟨a, a, a⟩ := by rw [Spec.cellEdges, if_neg h4]
  rw [hE] at ex ey ez hcr
  dsimp only at ex ey ez
  subst ex ey ez
  have x0 : (0 : ℝ) < nx := by exact_mod_cast hx
  have y0 : (0 : ℝ) < ny := by exact_mod_cast hy
  have z0 : (0 : ℝ) < nz := by exact_mod_cast hz
  have hr0 : 0 < r := ha.trans hr.1
  have hatom : ∀ c ∈ atoms, c.ghost = false ∧ InBox (nx * a) (ny * a) (nz * a) c.pos := by
    intro c hc
    obtain ⟨k, hk⟩ := List.mem_iff_getElem?.1 hc
    exact (hat k c hk).2.2
  have hne : atoms ≠ [] := by
    rintro rfl
    have : 0 < (Spec.basis name).length * nx * ny * nz := by positivity
    rw [List.length_nil] at hlen
    exact absurd hlen this.ne
  obtain ⟨s, hb, hF, hP, hreal, hle, hcr', -⟩ := inBox_build (lx := nx * a) (ly := ny * a) (lz := nz * a) (by positivity) (by positivity) (by positivity) hne
    (fun c hc => (hatom c hc).1) (fun c hc => (hatom c hc).2) hnd hr0.le (by rw [hlen]; exact hfit)
  have hfirst : ∀ b ∈ quarters name, (firstOf name b.2).1 ≤ 16 := by
    intro b _
    unfold firstOf
    split_ifs <;> decide
  have hr1 : ∀ b ∈ quarters name, ∀ p ∈ around name (if name = "b2" then 32 else 24) b.1, (a / 4) * Real.sqrt (nsq p.1 : ℝ) < r := by
    intro b hb p hp
    have hle : nsq p.1 ≤ 16 := by
      rcases (compound_table name hn b hb).2.1 p hp with e | e
      · rw [e]; exact hfirst b hb
      · exact e.le
    have : Real.sqrt (nsq p.1 : ℝ) ≤ 4 := by
      rw [Real.sqrt_le_left (by norm_num)]
      have : (nsq p.1 : ℝ) ≤ 16 := by exact_mod_cast hle
      linarith
    nlinarith [hr.1]
  have hnear := fun (i : ℕ) (x : Atom) (hi : s.atoms[i]? = some x) => around_perm h1 ha (by split_ifs <;> norm_num) (fun b hb => (compound_table name hn b hb).1) hr1 hr.2 hF (hcr'.trans hcr) i x hi
  obtain ⟨s1, hs1⟩ := cutoff_isOk σ (f := 0) hr0.ne' hP hle (by
    intro i hi
    obtain ⟨b, hb, -, hp⟩ := hnear i _ (List.getElem?_eq_getElem hi)
    have h1 := hp.length_eq
    rw [List.length_map, List.length_map] at h1
    rw [h1]
    exact (compound_table name hn b hb).2.2.2.2.2.2.1)
  obtain ⟨e1, e2, e3⟩ := cutoff_any hr0.ne' hP hs1
  have hK := Kept.findNeighbors hs1
  have hb0 := hb
  unfold buildSystem at hb0
  obtain ⟨s0, hs0, ha0⟩ := bind_ok hb0
  have hH := (assigned_start hs0 ha0 fun c hc => (hatom c hc).1).2.kept hK
  obtain ⟨reals, hinv, -⟩ := hH.inv
  -- the numbers of atoms of the two types
  obtain ⟨s', hb', g1, -, gtri, -⟩ := stored_form (lx := nx * a) (ly := ny * a) (lz := nz * a) (by positivity) (by positivity) (by positivity) hne fun c hc => (hatom c hc).1
  rw [hb] at hb'
  cases hb'
  have htypes : s1.atoms.map Atom.type = s.atoms.map Atom.type := by
    have := congrArg (List.map fun t : ℤ × ℤ × V3 × ℕ × Bool => t.2.1) hK.atoms
    rw [List.map_map, List.map_map] at this
    exact this
  obtain ⟨M, hM, hnum⟩ : ∃ M : ℕ, 0 < M ∧ ∀ t, Spec.numType s1 t = M * ((Spec.basis name).map Prod.snd).count t := by
    refine ⟨(1 + (repCells (copies atoms.length) (copies atoms.length) (copies atoms.length)).length) * (nx * ny * nz), by positivity, fun t => ?_⟩
    rw [numType_eq, htypes, g1, List.map_append, List.count_append, repNew_types, count_repeat, crystal_types h2 hm]
    ring
  have hn1 : 0 < Spec.numType s1 1 := by rw [hnum, cn1]; omega
  have hn2 : 0 < Spec.numType s1 2 := by rw [hnum, cn2]; split_ifs <;> omega
  have hconc : ∀ t : ℤ, t = 1 ∨ t = 2 → (Spec.numType s1 (Spec.otherType t) : ℝ) / (Spec.numType s1 1 + Spec.numType s1 2) =
      if name = "b2" then 1 / 2 else if t = 1 then 3 / 4 else 1 / 4 := by
    have hM' : (0 : ℝ) < M := by exact_mod_cast hM
    intro t ht
    rcases ht with rfl | rfl
    · simp only [Spec.otherType, if_true, hnum, cn1, cn2]
      split_ifs <;> push_cast <;> field_simp <;> norm_num
    · simp only [Spec.otherType, if_neg (by norm_num : ¬ (2 : ℤ) = 1), hnum, cn1, cn2]
      split_ifs <;> push_cast <;> field_simp <;> norm_num
  have hbox : s1.getBox = diagBox (nx * a) (ny * a) (nz * a) := hH.getBox
  obtain ⟨s2, res, hs2⟩ := C36_succeeds s1 reals hinv ref true 2 (by rw [e1]) href hn1 hn2 (cutoff_plain hr0.ne' hP hs1).range (.inr rfl) (by
    rw [hbox]
    simp only [boxSum, diagBox]
    positivity) (fun h => by
    rw [hbox] at h
    exact absurd ((skewed_iff _).2 h) (not_skewed_diag _ _ _))
  -- the value of one atom
  have hval : ∀ (i : ℕ) (x : Atom), s1.atoms[i]? = some x → x.type = ref →
      Spec.cowleyShells s1 ref (Spec.numType s1 (Spec.otherType ref) / (Spec.numType s1 1 + Spec.numType s1 2)) 2 x = [some (Spec.orderedSro name), some 1] := by
    intro i x hi hxt
    obtain ⟨hil, hperm, hrest⟩ := e3 i x hi
    have hsi := List.getElem?_eq_getElem hil
    obtain ⟨b, hb, ht, hp⟩ := hnear i _ hsi
    have hxb : x.type = b.2 := by
      have h5 : x.type = (s.mem i).type := by
        have := congrArg Atom.type hrest
        exact this
      rw [h5, (mem_of_getElem? hsi).2, ht]
    have hrb : ref = b.2 := by rw [← hxt, hxb]
    have hxp : x.pos = s.posOf i := by
      have := congrArg Atom.pos hrest
      exact this
    rw [hconc ref href, hrb]
    refine compound_cowley hn ha hb s1 x ?_ rfl
    have hpos : ∀ (j : ℕ) (hj : j < s.atoms.length), (s1.atoms.getD j default).pos = s.posOf j ∧ (s1.atoms.getD j default).type = s.typeOf j := by
      intro j hj
      have hj' : j < s1.atoms.length := by rw [e2]; exact hj
      obtain ⟨-, -, hr'⟩ := e3 j _ (List.getElem?_eq_getElem hj')
      rw [List.getD_eq_getElem?_getD, List.getElem?_eq_getElem hj', Option.getD_some]
      have p1 := congrArg Atom.pos hr'
      have p2 := congrArg Atom.type hr'
      exact ⟨p1, p2⟩
    have hdata : (x.nbrs.map fun e => (Spec.nbDistance s1 x e, Spec.nbType s1 e)).Perm (((cutoffNbs s r 0 i).map (placed s)).map fun q => (V3.norm q.1, q.2)) := by
      refine (hperm.map _).trans (List.Perm.of_eq ?_)
      rw [List.map_map]
      refine List.map_congr_left fun e he => ?_
      unfold cutoffNbs at he
      obtain ⟨j, hj, rfl⟩ := List.mem_map.1 he
      have hj := List.mem_range.1 (List.mem_of_mem_filter hj)
      obtain ⟨q1, q2⟩ := hpos j hj
      simp only [Function.comp_apply, placed, Prod.mk.injEq]
      refine ⟨?_, q2⟩
      have e4 : Spec.nbDistance s1 x (s.mkNb i j) = s1.getDistance (s1.atoms.getD j default) x :=
        (C02_symmetry s1 x _ (fun h => by
          rw [hK.tri] at h
          rw [gtri] at h
          exact absurd h (by decide))).1
      rw [e4]
      change V3.norm (s1.image ((s1.atoms.getD j default).pos - x.pos)) = V3.norm (s.image (s.posOf j - s.posOf i))
      rw [q1, hxp, image_congr hK.box hK.tri (fun _ => ⟨hK.rot, hK.rotinv⟩)]
    refine hdata.trans ?_
    refine (hp.map fun q => (V3.norm q.1, q.2)).trans (List.Perm.of_eq ?_)
    rw [List.map_map]
    refine List.map_congr_left fun p _ => ?_
    simp only [Function.comp_apply]
    rw [norm_quarter a ha]
  obtain ⟨-, -, -, -, hk⟩ := C36_sro s1 s2 reals hinv ref true 2 res hs2
  have hlen2 : s2.atoms.length = s1.atoms.length := by
    obtain ⟨w1, w2, w3, w4⟩ := calculateSro_guards hinv hs2
    have hs3 := hs2
    rw [calculateSro_eq s1 reals hinv ref true 2 w1 w2 w3 w4] at hs3
    obtain ⟨l, hl, hs', -⟩ := sroFinish_ok hs3
    rw [sro_mapM s1 ref 2 w2 w3 w4 (sro_range hl)] at hl
    obtain rfl := Except.ok.inj hl
    unfold System.assignAtoms at hs'
    have hbig := hH.big
    rw [if_neg (by rw [List.length_map]; omega)] at hs'
    obtain rfl := Except.ok.inj hs'
    change (s1.atoms.map _).length = _
    rw [List.length_map]
  have hall : ∀ x ∈ s2.atoms, x.type = ref → x.sro = [some (Spec.orderedSro name), some 1] := by
    intro x hx hxt
    obtain ⟨i, hi⟩ := List.mem_iff_getElem?.1 hx
    have hil : i < s1.atoms.length := by rw [← hlen2]; exact (List.getElem?_eq_some_iff.1 hi).1
    have := hk i _ (List.getElem?_eq_getElem hil)
    rw [hi] at this
    split_ifs at this with hc
    · rw [Option.some.inj this]
      exact hval i _ (List.getElem?_eq_getElem hil) hc
    · rw [Option.some.inj this] at hxt
      exact absurd hxt hc
  obtain ⟨v1, v2, hres, hv1, hv2⟩ := C36_average s1 s2 reals hinv ref 2 (.inr rfl) res hs2
  have hmean : ∀ (k : ℕ) (v : ℝ), ([some (Spec.orderedSro name), some 1] : List (Option ℝ)).getD k none = some v →
      Spec.IsMean (((s2.atoms.take s1.ntotal).filter fun a => decide (a.type = ref)).map fun a => a.sro.getD k none) v := by
    intro k v hv
    have hnt : s1.ntotal = s2.atoms.length := by rw [hlen2]; exact hinv.nop
    rw [hnt, List.take_length]
    set F := s2.atoms.filter fun a => decide (a.type = ref) with hFd
    have hF0 : F.length ≠ 0 := by
      have hpos : 0 < Spec.numType s1 ref := by rcases href with rfl | rfl <;> assumption
      rw [numType_eq] at hpos
      obtain ⟨x, hx, hxt⟩ := List.mem_map.1 (List.count_pos_iff.1 hpos)
      obtain ⟨i, hi⟩ := List.mem_iff_getElem?.1 hx
      have hi2 := hk i x hi
      rw [if_pos hxt] at hi2
      have hmem : _ ∈ F := List.mem_filter.2 ⟨List.mem_of_getElem? hi2, decide_eq_true hxt⟩
      exact (List.length_pos_of_mem hmem).ne'
    refine ⟨F.map fun _ => v, ?_, ?_, ?_⟩
    · rw [List.map_map]
      refine List.map_congr_left fun x hx => ?_
      obtain ⟨hx1, hx2⟩ := List.mem_filter.1 hx
      rw [hall x hx1 (of_decide_eq_true hx2), hv]
      rfl
    · intro h0
      exact hF0 (by rw [← List.length_map (f := fun _ => v) (as := F), h0]; rfl)
    · rw [List.map_const', List.sum_replicate, List.length_replicate, nsmul_eq_mul, mul_div_cancel_left₀]
      exact_mod_cast hF0
  rw [(hv1 _).2 (hmean 0 _ rfl), (hv2 _).2 (hmean 1 _ rfl)] at hres
  exact ⟨atoms, _, s, s1, s2, hm, hb, hs1, by rw [hs2, hres], hlen2, hall⟩

/-- The hypotheses: L12 in 3 x 3 x 3 cells with a cutoff of 4.5 and lattice constant 4, either type being the reference, and B2 in 7 x 7 x 7 cells. -/
example (σ : StdSort) (ref : ℤ) (h : ref = 1 ∨ ref = 2) := C105_sro σ "l12" (by decide) (a := 4) (ca := 1) (r := 4.5) (by norm_num) (by norm_num) (nx := 3) (ny := 3) (nz := 3) (by norm_num) (by norm_num) (by norm_num)
  (by
    have t : (4.5 : ℝ) < Real.sqrt 24 := by rw [Real.lt_sqrt (by norm_num)]; norm_num
    refine ⟨by norm_num, ?_⟩
    rw [if_neg (by decide)]
    push_cast
    linarith) (by simp only [Spec.RangeFits, Spec.basis, List.length_cons, List.length_nil]; refine ⟨?_, ?_, ?_⟩ <;> norm_num) ref h

example (σ : StdSort) (ref : ℤ) (h : ref = 1 ∨ ref = 2) := C105_sro σ "b2" (by decide) (a := 4) (ca := 1) (r := 5) (by norm_num) (by norm_num) (nx := 7) (ny := 7) (nz := 7) (by norm_num) (by norm_num) (by norm_num)
  (by
    have t : (5 : ℝ) < Real.sqrt 32 := by rw [Real.lt_sqrt (by norm_num)]; norm_num
    refine ⟨by norm_num, ?_⟩
    rw [if_pos rfl]
    push_cast
    linarith) (by simp only [Spec.RangeFits, Spec.basis, List.length_cons, List.length_nil]; refine ⟨?_, ?_, ?_⟩ <;> norm_num) ref h

end Pyscal
