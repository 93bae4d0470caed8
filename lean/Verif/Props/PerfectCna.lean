import Verif.Lemmas.PerfectCna

/-! C96: common neighbour analysis of perfect crystals. -/

namespace Pyscal

open Spec (diagBox ofFrac latticeVec IsImage FracBound crystal cross volume InBox)

theorem goodEntry_dist {s : System} {i : ℕ} {a : Atom} {x : Nb} (h : Spec.GoodEntry s i a x) : x.dist = V3.norm x.vec := by
  obtain ⟨c, -, -, h1, -, h3⟩ := h
  rw [h1, h3]; rfl

section
variable {s : System} {i n : ℕ} {a : Atom} {N : List Nb} {e : ℤ × ℤ × ℤ → V3} {L : List (ℤ × ℤ × ℤ)} {ρ : ℝ}

open Classical in
/-- The atoms up to a distance `d` and the points up to that distance. -/
theorem ball_filter (hi : s.atoms[i]? = some a) (hb : ((cutoffNbs s ρ 0 i).map Nb.vec).Perm (L.map e)) (d : ℝ) :
    (((cutoffNbs s ρ 0 i).filter fun x => decide (x.dist ≤ d)).map Nb.vec).Perm ((L.filter fun k => decide (V3.norm (e k) ≤ d)).map e) := by
  have e1 : ((cutoffNbs s ρ 0 i).filter fun x => decide (x.dist ≤ d)) = (cutoffNbs s ρ 0 i).filter ((fun v => decide (V3.norm v ≤ d)) ∘ Nb.vec) := by
    refine List.filter_congr fun x hx => ?_
    rw [goodEntry_dist ((mem_ball hi).1 hx).1]
    rfl
  have e2 : (L.filter fun k => decide (V3.norm (e k) ≤ d)) = L.filter ((fun v => decide (V3.norm v ≤ d)) ∘ e) := rfl
  rw [e1, e2, ← List.filter_map, ← List.filter_map]
  exact hb.filter _

/-- The first entries of a list of nearest atoms are a shell. -/
theorem shell_take (hN : Spec.NearestList s i a n N) (hi : s.atoms[i]? = some a) (hb : ((cutoffNbs s ρ 0 i).map Nb.vec).Perm (L.map e)) {d : ℝ} (hd : d < ρ)
    {L1 : List (ℤ × ℤ × ℤ)} (hL : ∀ k ∈ L, V3.norm (e k) ≤ d ↔ k ∈ L1) (hnd : L.Nodup) (hnd1 : L1.Nodup) (hsub : ∀ k ∈ L1, k ∈ L) (hn : L1.length ≤ n) :
    ((N.take L1.length).map Nb.vec).Perm (L1.map e) := by
  classical
  have h1 := ball_filter hi hb d
  have h2 : (L.filter fun k => decide (V3.norm (e k) ≤ d)).Perm L1 := by
    rw [List.perm_ext_iff_of_nodup (hnd.filter _) hnd1]
    intro k
    rw [List.mem_filter, decide_eq_true_eq]
    exact ⟨fun h => (hL k h.1).1 h.2, fun h => ⟨hsub k h, (hL k (hsub k h)).2 h⟩⟩
  have h3 := h1.trans (h2.map e)
  have h4 := h3.length_eq
  rw [List.length_map, List.length_map] at h4
  exact ((nearest_take hN hi hd h4 hn).map Nb.vec).trans h3
end

/-! ### Cubic structures -/

theorem quarter_sub (a : ℝ) (v w : ℤ × ℤ × ℤ) : Spec.quarter a v - Spec.quarter a w = Spec.quarter a (v.1 - w.1, v.2.1 - w.2.1, v.2.2 - w.2.2) := by
  ext <;> simp [Spec.quarter] <;> ring

/-- The squared distance between two sites. -/
def dsq (v w : ℤ × ℤ × ℤ) : ℤ := nsq (v.1 - w.1, v.2.1 - w.2.1, v.2.2 - w.2.2)

theorem dsq_comm (v w : ℤ × ℤ × ℤ) : dsq v w = dsq w v := by unfold dsq nsq; ring

theorem nsq_nonneg (v : ℤ × ℤ × ℤ) : 0 ≤ nsq v := by
  unfold nsq
  nlinarith [mul_self_nonneg v.1, mul_self_nonneg v.2.1, mul_self_nonneg v.2.2]

/-- Sites within `D`. -/
def closeK (D : ℕ) (v w : ℤ × ℤ × ℤ) : Bool := decide (dsq v w ≤ D)

theorem closeK_comm (D : ℕ) (v w : ℤ × ℤ × ℤ) : closeK D v w = closeK D w v := by unfold closeK; rw [dsq_comm]

theorem norm_le_iff {a : ℝ} (ha : 0 < a) {c : ℝ} {D : ℕ} (h1 : (a / 4) * Real.sqrt D ≤ c) (h2 : c < (a / 4) * Real.sqrt (D + 1)) (v : ℤ × ℤ × ℤ) :
    V3.norm (Spec.quarter a v) ≤ c ↔ nsq v ≤ D := by
  have h4 : 0 < a / 4 := by positivity
  have hn : (0 : ℝ) ≤ nsq v := by exact_mod_cast nsq_nonneg v
  rw [norm_quarter a ha]
  constructor
  · intro h
    have h3 := lt_of_mul_lt_mul_left (h.trans_lt h2) h4.le
    have h5 := (Real.sqrt_lt_sqrt_iff hn).1 h3
    have h6 : nsq v < (D : ℤ) + 1 := by exact_mod_cast h5
    omega
  · intro h
    refine le_trans (mul_le_mul_of_nonneg_left (Real.sqrt_le_sqrt ?_) h4.le) h1
    exact_mod_cast h

theorem norm_lt_iff {a : ℝ} (ha : 0 < a) (D : ℕ) (v : ℤ × ℤ × ℤ) : V3.norm (Spec.quarter a v) < (a / 4) * Real.sqrt D ↔ nsq v < D := by
  have h4 : 0 < a / 4 := by positivity
  have hn : (0 : ℝ) ≤ nsq v := by exact_mod_cast nsq_nonneg v
  rw [norm_quarter a ha, mul_lt_mul_iff_right₀ h4, Real.sqrt_lt_sqrt_iff hn]
  norm_cast

/-- The points around a site. -/
def points (name : String) (D : ℕ) (b : ℤ × ℤ × ℤ) : List (ℤ × ℤ × ℤ) := (around name D b).map Prod.fst

/-- What a search with the cutoff `(a/4)√D` finds in a perfect crystal. -/
theorem points_perm {name : String} (h : name ∈ Spec.cubic) {a : ℝ} (ha : 0 < a) {D : ℕ} (hD : D ≤ 36) (hnd : ∀ b ∈ quarters name, (points name D b.1).Nodup) {s : System}
    (hF : Spec.Faithful s ((a / 4) * Real.sqrt D)) (hcr : crystal s.box s.atoms = Spec.idealCrystal ⟨a, a, a⟩ (Spec.basis name)) (i : ℕ) (x : Atom)
    (hi : s.atoms[i]? = some x) : ∃ b ∈ quarters name, ((cutoffNbs s ((a / 4) * Real.sqrt D) 0 i).map Nb.vec).Perm ((points name D b.1).map (Spec.quarter a)) := by
  have hx : (x.pos, x.type) ∈ crystal s.box s.atoms := ⟨x, List.mem_of_getElem? hi, 0, 0, 0, by ext <;> simp [latticeVec], rfl⟩
  rw [hcr, mem_ideal h] at hx
  obtain ⟨b, hb, n, e, ht⟩ := hx
  refine ⟨b, hb, ?_⟩
  have hball := around_ball h ha hD hb (r := (a / 4) * Real.sqrt D) (fun p hp => by
    have := (norm_lt_iff ha D p.1).2 (mem_around.1 hp).2.2
    rwa [norm_quarter a ha] at this) le_rfl n
  rw [List.perm_ext_iff_of_nodup (vec_nodup hF 0 hi) ((hnd b hb).map_on fun k _ k' _ => quarter_inj ha)]
  intro v
  have key := C92_neighbours hF (f := 0) hi v
  constructor
  · intro hv
    obtain ⟨y, hy, rfl⟩ := List.mem_map.1 hv
    obtain ⟨h1, h2, -, h4⟩ := (key _).1 ⟨y, hy, rfl, rfl⟩
    rw [hcr, e] at h4
    obtain ⟨p, hp, hv', -⟩ := (hball _ _).1 ⟨h1, h2, h4⟩
    exact List.mem_map.2 ⟨p.1, List.mem_map.2 ⟨p, hp, rfl⟩, hv'.symm⟩
  · intro hv
    obtain ⟨k, hk, rfl⟩ := List.mem_map.1 hv
    obtain ⟨p, hp, rfl⟩ := List.mem_map.1 hk
    obtain ⟨h1, h2, h4⟩ := (hball _ p.2).2 ⟨p, hp, rfl, rfl⟩
    rw [← e, ← hcr] at h4
    obtain ⟨y, hy, hy', -⟩ := (key _).2 ⟨h1, h2, rfl, h4⟩
    exact List.mem_map.2 ⟨y, hy, hy'⟩

theorem sum_const' {α : Type} {l : List α} {f : α → ℝ} {c : ℝ} (h : ∀ x ∈ l, f x = c) : (l.map f).sum = l.length * c := by
  induction l with
  | nil => simp
  | cons x l ih =>
    rw [List.map_cons, List.sum_cons, h x (by simp), ih fun y hy => h y (by simp [hy]), List.length_cons]
    push_cast
    ring

/-- The tables for fcc. -/
theorem fcc_table : ∀ name ∈ ["fcc", "l12"], ∀ b ∈ quarters name, (points name 24 b.1).Nodup ∧ 14 ≤ (points name 24 b.1).length ∧
    (∀ k ∈ points name 24 b.1, nsq k ≤ 8 ↔ k ∈ Spec.fccShell) ∧ (∀ k ∈ Spec.fccShell, k ∈ points name 24 b.1) ∧
    Spec.fccShell.Nodup ∧ (∀ k ∈ Spec.fccShell, nsq k = 8) ∧ (∀ v ∈ Spec.fccShell, ∀ w ∈ Spec.fccShell, dsq v w ≤ 32) ∧
    ∀ v ∈ Spec.fccShell, ShellSig (closeK 11) Spec.fccShell v (4, 2, 1, 1) := by
  decide +kernel

theorem shellCommon_perm {α : Type} [DecidableEq α] {near : α → α → Bool} {K L : List α} (h : K.Perm L) (v : α) : (shellCommon near K v).Perm (shellCommon near L v) :=
  h.filter _

/-- The twelve distances of an fcc shell, and the adaptive cutoff. -/
theorem fcc_mean {a : ℝ} (ha : 0 < a) {s : System} {i : ℕ} {x : Atom} {N : List Nb} (hgood : ∀ y ∈ N, Spec.GoodEntry s i x y)
    (hshell : (N.map Nb.vec).Perm (Spec.fccShell.map (Spec.quarter a))) :
    (a / 4) * Real.sqrt (11 : ℕ) ≤ 1.207 * ((N.map Nb.dist).sum / 12) ∧ 1.207 * ((N.map Nb.dist).sum / 12) < (a / 4) * Real.sqrt ((11 : ℕ) + 1) := by
  have h4 : 0 < a / 4 := by positivity
  have s8 : 0 < Real.sqrt 8 := Real.sqrt_pos.2 (by norm_num)
  have s8' : Real.sqrt 8 * Real.sqrt 8 = 8 := Real.mul_self_sqrt (by norm_num)
  have t6 : ∀ k ∈ Spec.fccShell, nsq k = 8 := by decide
  have hd : (N.map Nb.dist).sum = 12 * ((a / 4) * Real.sqrt 8) := by
    have hlen : N.length = 12 := by
      have := hshell.length_eq
      rw [List.length_map, List.length_map] at this
      exact this
    have := sum_const' (l := N) (f := Nb.dist) (c := (a / 4) * Real.sqrt 8) (by
      intro y hy
      rw [goodEntry_dist (hgood y hy)]
      obtain ⟨k, hk, hk'⟩ := List.mem_map.1 (hshell.subset (List.mem_map.2 ⟨y, hy, rfl⟩))
      rw [← hk', norm_quarter a ha, t6 k hk]
      norm_num)
    rw [this, hlen]
    norm_num
  rw [hd]
  have e2 : 1.207 * (12 * ((a / 4) * Real.sqrt 8) / 12) = (a / 4) * (1.207 * Real.sqrt 8) := by ring
  rw [e2]
  push_cast
  constructor
  · refine mul_le_mul_of_nonneg_left ?_ h4.le
    rw [Real.sqrt_le_left (by positivity)]
    nlinarith
  · refine mul_lt_mul_of_pos_left ?_ h4
    rw [Real.lt_sqrt (by positivity)]
    nlinarith

/-- The signatures of an fcc shell. -/
theorem fcc_sig {a : ℝ} (ha : 0 < a) {s : System} (hF : Spec.Faithful s (3 / 2 * a)) {i : ℕ} {x : Atom} (hi : s.atoms[i]? = some x) {N : List Nb}
    (hgood : ∀ y ∈ N, Spec.GoodEntry s i x y) (hshell : (N.map Nb.vec).Perm (Spec.fccShell.map (Spec.quarter a))) {c1 : ℝ}
    (hc11 : (a / 4) * Real.sqrt (11 : ℕ) ≤ c1 ∧ c1 < (a / 4) * Real.sqrt ((11 : ℕ) + 1)) {sig : List (ℕ × ℕ × ℕ × ℕ)} (h1 : Spec.Signatures s c1 N sig) :
    sig = List.replicate 12 (4, 2, 1, 1) := by
  have h4 : 0 < a / 4 := by positivity
  obtain ⟨-, -, -, -, t5, -, t7, t8⟩ := fcc_table "fcc" (by decide) ((0, 0, 0), 1) (by decide)
  obtain ⟨K, hK, hKv⟩ := exists_points (fun _ _ => quarter_inj ha) hshell
  have hsig := signatures_map hF hi (closeK 11) (closeK_comm 11) (hK.nodup_iff.2 t5) hgood hKv (by
    intro v hv w hw _
    have hv' := hK.subset hv
    have hw' := hK.subset hw
    rw [quarter_sub]
    constructor
    · have h32 := t7 v hv' w hw'
      rw [norm_quarter a ha]
      have : Real.sqrt (nsq (v.1 - w.1, v.2.1 - w.2.1, v.2.2 - w.2.2) : ℝ) < 6 := by
        rw [Real.sqrt_lt' (by norm_num)]
        have : (nsq (v.1 - w.1, v.2.1 - w.2.1, v.2.2 - w.2.2) : ℝ) ≤ 32 := by exact_mod_cast h32
        norm_num
        linarith
      nlinarith
    · rw [norm_le_iff ha hc11.1 hc11.2]
      unfold closeK dsq
      rw [decide_eq_true_eq]) h1 (fun _ => (4, 2, 1, 1)) (by
    intro v hv
    exact ⟨by norm_num, by norm_num, (t8 v (hK.subset hv)).perm (shellCommon_perm hK.symm v)⟩)
  rw [hsig, List.map_const', hK.length_eq]
  rfl

/-- One atom of a perfect fcc crystal. -/
theorem fcc_atom {name : String} (hn : name ∈ ["fcc", "l12"]) {a : ℝ} (ha : 0 < a) {s : System} (hF : Spec.Faithful s (3 / 2 * a))
    (hcr : crystal s.box s.atoms = Spec.idealCrystal ⟨a, a, a⟩ (Spec.basis name)) {i : ℕ} {x : Atom} (hi : s.atoms[i]? = some x) {N : List Nb}
    (hN : Spec.NearestList s i x 14 N) {lc : Option ℝ} (hlc : lc = none ∨ lc = some a) {c1 c2 : ℝ} (hc : Spec.CnaCutoffs lc N c1 c2)
    {sig1 sig2 : List (ℕ × ℕ × ℕ × ℕ)} (h1 : Spec.Signatures s c1 (N.take 12) sig1) {code : ℤ} (hcl : Spec.Classified sig1 sig2 code) : code = 1 := by
  have h4 : 0 < a / 4 := by positivity
  have hcub : name ∈ Spec.cubic := by
    simp only [List.mem_cons, List.not_mem_nil, or_false] at hn
    rcases hn with rfl | rfl <;> decide
  have s24 : Real.sqrt 24 < 6 := by rw [Real.sqrt_lt' (by norm_num)]; norm_num
  have hF24 : Spec.Faithful s ((a / 4) * Real.sqrt (24 : ℕ)) := hF.anti (by push_cast; nlinarith)
  obtain ⟨b, hb, hp⟩ := points_perm hcub ha (by norm_num) (fun b hb => (fcc_table name hn b hb).1) hF24 hcr i x hi
  obtain ⟨t1, t2, t3, t4, t5, -⟩ := fcc_table name hn b hb
  have hshell : ((N.take 12).map Nb.vec).Perm (Spec.fccShell.map (Spec.quarter a)) := by
    refine shell_take hN hi hp (d := (a / 4) * Real.sqrt 8) (L1 := Spec.fccShell) ?_ ?_ t1 t5 t4 (by decide)
    · refine mul_lt_mul_of_pos_left ?_ h4
      push_cast
      exact Real.sqrt_lt_sqrt (by norm_num) (by norm_num)
    · intro k hk
      rw [← t3 k hk]
      have : (a / 4) * Real.sqrt 8 < (a / 4) * Real.sqrt ((8 : ℕ) + 1) := by
        push_cast
        exact mul_lt_mul_of_pos_left (Real.sqrt_lt_sqrt (by norm_num) (by norm_num)) h4
      have := norm_le_iff ha (c := (a / 4) * Real.sqrt 8) (D := 8) (by push_cast; exact le_rfl) this k
      rw [this]
      norm_cast
  have hgood : ∀ y ∈ N.take 12, Spec.GoodEntry s i x y := fun y hy => hN.2.2.1 y (List.mem_of_mem_take hy)
  have hc11 : (a / 4) * Real.sqrt (11 : ℕ) ≤ c1 ∧ c1 < (a / 4) * Real.sqrt ((11 : ℕ) + 1) := by
    rcases hlc with rfl | rfl
    · rw [hc.1]
      exact fcc_mean ha hgood hshell
    · obtain ⟨e1, -⟩ := hc
      rw [e1]
      have e2 : 0.854 * a = (a / 4) * 3.416 := by ring
      rw [e2]
      push_cast
      constructor
      · refine mul_le_mul_of_nonneg_left ?_ h4.le
        rw [Real.sqrt_le_left (by norm_num)]
        norm_num
      · refine mul_lt_mul_of_pos_left ?_ h4
        rw [Real.lt_sqrt (by norm_num)]
        norm_num
  refine hcl.1.2 fun y hy => ?_
  rw [fcc_sig ha hF hi hgood hshell hc11 h1] at hy
  exact List.eq_of_mem_replicate hy

/-- The tables for bcc. -/
def bccPoints : List (ℤ × ℤ × ℤ) := Spec.bccShell ++ Spec.scShell

def bccSig (v : ℤ × ℤ × ℤ) : ℕ × ℕ × ℕ × ℕ := if nsq v = 12 then (6, 6, 2, 2) else (4, 4, 2, 2)

theorem bcc_table : (∀ name ∈ ["bcc", "b2"], ∀ b ∈ quarters name, (points name 32 b.1).Nodup ∧ (points name 32 b.1).Perm bccPoints) ∧ bccPoints.Nodup ∧ bccPoints.length = 14 ∧
    (∀ k ∈ bccPoints, nsq k ≤ 12 ↔ k ∈ Spec.bccShell) ∧ Spec.bccShell.Nodup ∧ (∀ k ∈ bccPoints, nsq k = 12 ∨ nsq k = 16) ∧
    (∀ v ∈ bccPoints, ∀ w ∈ bccPoints, v ≠ w → 12 ≤ dsq v w ∧ dsq v w ≤ 64) ∧
    (∀ v ∈ bccPoints, ShellSig (closeK 23) bccPoints v (bccSig v)) ∧ (bccPoints.map bccSig).count (4, 4, 2, 2) = 6 ∧ (bccPoints.map bccSig).count (6, 6, 2, 2) = 8 ∧
    (∀ v ∈ bccPoints, nsq v = 16 → ShellSig (closeK 19) bccPoints v (4, 4, 2, 2) ∧ ∀ w ∈ bccPoints, closeK 19 v w = true → w ≠ v → w ∈ Spec.bccShell) := by
  decide +kernel

/-- The points behind a list of fourteen neighbours in bcc, and sums of their distances. -/
theorem bcc_setup {a : ℝ} (ha : 0 < a) {s : System} {i : ℕ} {x : Atom} {N : List Nb} (hgood : ∀ y ∈ N, Spec.GoodEntry s i x y)
    (hNp : (N.map Nb.vec).Perm (bccPoints.map (Spec.quarter a))) (h8 : ((N.take 8).map Nb.vec).Perm (Spec.bccShell.map (Spec.quarter a))) :
    (∃ K : List (ℤ × ℤ × ℤ), K.Perm bccPoints ∧ N.map Nb.vec = K.map (Spec.quarter a) ∧ (K.take 8).Perm Spec.bccShell ∧ ∀ v ∈ K.drop 8, nsq v = 16) ∧
    ((N.take 8).map Nb.dist).sum = 8 * ((a / 4) * Real.sqrt 12) ∧ ((N.drop 8).map Nb.dist).sum = 6 * ((a / 4) * 4) ∧
    ((N.take 12).map Nb.dist).sum = 8 * ((a / 4) * Real.sqrt 12) + 4 * ((a / 4) * 4) := by
  obtain ⟨t0, t1, t2, t3, t4, t5, t6, t7, t8, t9, t10⟩ := bcc_table
  obtain ⟨K, hK, hKv⟩ := exists_points (fun _ _ => quarter_inj ha) hNp
  have hKnd : K.Nodup := hK.nodup_iff.2 t1
  have hKlen : K.length = 14 := hK.length_eq.trans t2
  have hK8 : (K.take 8).Perm Spec.bccShell := by
    rw [List.map_take, hKv, ← List.map_take] at h8
    exact (List.map_perm_map_iff fun _ _ => quarter_inj ha).1 h8
  have n8 : ∀ v ∈ K.take 8, nsq v = 12 := by
    intro v hv
    have h := hK8.subset hv
    have hb := hK.subset (List.mem_of_mem_take hv)
    rcases t5 v hb with h' | h'
    · exact h'
    · have := (t3 v hb).2 h
      omega
  have n6 : ∀ v ∈ K.drop 8, nsq v = 16 := by
    intro v hv
    have hb := hK.subset (List.mem_of_mem_drop hv)
    rcases t5 v hb with h' | h'
    · have hin : v ∈ K.take 8 := hK8.symm.subset ((t3 v hb).1 h'.le)
      have hnd : (K.take 8 ++ K.drop 8).Nodup := by rw [List.take_append_drop]; exact hKnd
      exact absurd rfl ((List.nodup_append.1 hnd).2.2 v hin v hv)
    · exact h'
  have hdist : N.map Nb.dist = K.map fun v => V3.norm (Spec.quarter a v) := by
    have e1 : N.map Nb.dist = (N.map Nb.vec).map V3.norm := by
      rw [List.map_map]
      exact List.map_congr_left fun y hy => goodEntry_dist (hgood y hy)
    rw [e1, hKv, List.map_map]
    rfl
  have d12 : ∀ v ∈ K.take 8, V3.norm (Spec.quarter a v) = (a / 4) * Real.sqrt 12 := by
    intro v hv
    rw [norm_quarter a ha, n8 v hv]
    norm_num
  have d16 : ∀ v ∈ K.drop 8, V3.norm (Spec.quarter a v) = (a / 4) * 4 := by
    intro v hv
    rw [norm_quarter a ha, n6 v hv]
    have : Real.sqrt ((16 : ℤ) : ℝ) = 4 := by
      rw [Real.sqrt_eq_iff_mul_self_eq_of_pos (by norm_num)]; norm_num
    rw [this]
  have l8 : (K.take 8).length = 8 := by rw [List.length_take, hKlen]; rfl
  have l6 : (K.drop 8).length = 6 := by rw [List.length_drop, hKlen]
  have e12 : K.take 12 = K.take 8 ++ (K.drop 8).take 4 := by
    rw [← List.take_add]
  refine ⟨⟨K, hK, hKv, hK8, n6⟩, ?_, ?_, ?_⟩
  · rw [List.map_take, hdist, ← List.map_take, sum_const' d12, l8]; norm_num
  · rw [List.map_drop, hdist, ← List.map_drop, sum_const' d16, l6]; norm_num
  · rw [List.map_take, hdist, ← List.map_take, e12, List.map_append, List.sum_append, sum_const' d12,
      sum_const' fun v hv => d16 v (List.mem_of_mem_take hv), l8, List.length_take, l6]
    norm_num

/-- Which of the fourteen neighbours in bcc are close. -/
theorem bcc_close {a : ℝ} (ha : 0 < a) {K : List (ℤ × ℤ × ℤ)} (hK : K.Perm bccPoints) {c : ℝ} {D : ℕ} (g1 : (a / 4) * Real.sqrt D ≤ c) (g2 : c < (a / 4) * Real.sqrt (D + 1)) :
    ∀ v ∈ K, ∀ w ∈ K, v ≠ w →
      V3.norm (Spec.quarter a v - Spec.quarter a w) < 5 / 2 * a ∧ (V3.norm (Spec.quarter a v - Spec.quarter a w) ≤ c ↔ closeK D v w = true) := by
  intro v hv w hw hvw
  obtain ⟨-, -, -, -, -, -, t6, -⟩ := bcc_table
  rw [quarter_sub]
  constructor
  · have h64 := (t6 v (hK.subset hv) w (hK.subset hw) hvw).2
    rw [norm_quarter a ha]
    have : Real.sqrt (nsq (v.1 - w.1, v.2.1 - w.2.1, v.2.2 - w.2.2) : ℝ) ≤ 8 := by
      rw [Real.sqrt_le_left (by norm_num)]
      have : (nsq (v.1 - w.1, v.2.1 - w.2.1, v.2.2 - w.2.2) : ℝ) ≤ 64 := by exact_mod_cast h64
      norm_num
      linarith
    nlinarith
  · rw [norm_le_iff ha g1 g2]
    unfold closeK dsq
    rw [decide_eq_true_eq]

/-- The signature of the ninth neighbour in bcc is none of those of fcc, hcp and icosahedral surroundings. -/
theorem bcc_bad {a : ℝ} (ha : 0 < a) {s : System} (hF : Spec.Faithful s (5 / 2 * a)) {i : ℕ} {x : Atom} (hi : s.atoms[i]? = some x) {N : List Nb}
    (hgood : ∀ y ∈ N, Spec.GoodEntry s i x y) {K : List (ℤ × ℤ × ℤ)} (hK : K.Perm bccPoints) (hKv : N.map Nb.vec = K.map (Spec.quarter a))
    (hK8 : (K.take 8).Perm Spec.bccShell) (n6 : ∀ v ∈ K.drop 8, nsq v = 16) {c1 : ℝ}
    (hc1 : ∃ D : ℕ, (D = 11 ∨ D = 19) ∧ (a / 4) * Real.sqrt D ≤ c1 ∧ c1 < (a / 4) * Real.sqrt (D + 1)) {sig1 : List (ℕ × ℕ × ℕ × ℕ)}
    (h1 : Spec.Signatures s c1 (N.take 12) sig1) : ∃ y ∈ sig1, y ≠ (4, 2, 1, 1) ∧ y ≠ (4, 2, 2, 0) ∧ y ≠ (5, 5, 2, 2) := by
  obtain ⟨t0, t1, t2, t3, t4, t5, t6, t7, t8, t9, t10⟩ := bcc_table
  have hKnd : K.Nodup := hK.nodup_iff.2 t1
  have hKlen : K.length = 14 := hK.length_eq.trans t2
  have hNlen : N.length = 14 := by
    have := congrArg List.length hKv
    rwa [List.length_map, List.length_map, hKlen] at this
  have e12 : K.take 12 = K.take 8 ++ (K.drop 8).take 4 := by
    rw [← List.take_add]
  have hl1 : sig1.length = 12 := by rw [h1.1, List.length_take, hNlen]; rfl
  have hkv : (N.take 12).map Nb.vec = (K.take 12).map (Spec.quarter a) := by rw [List.map_take, hKv, ← List.map_take]
  have hK12 : (K.take 12).Nodup := hKnd.sublist (List.take_sublist _ _)
  have h9 : 8 < sig1.length := by omega
  obtain ⟨D, hD, g1, g2⟩ := hc1
  obtain ⟨v, hv, hv1, hv2⟩ := signatures_points hF hi (closeK D) (closeK_comm D) hK12 (fun y hy => hgood y (List.mem_of_mem_take hy)) hkv
    (fun v hv w hw => bcc_close ha hK g1 g2 v (List.mem_of_mem_take hv) w (List.mem_of_mem_take hw)) h1 (List.getElem?_eq_getElem h9)
  have hvK : v ∈ K.drop 8 := by
    rw [List.getElem?_take_of_lt (by norm_num)] at hv
    refine List.mem_of_getElem? (i := 0) ?_
    rw [List.getElem?_drop]
    exact hv
  refine ⟨sig1[8], List.getElem_mem h9, ?_⟩
  have hvb := hK.subset (List.mem_of_mem_drop hvK)
  rcases hD with rfl | rfl
  · have h0 : shellCommon (closeK 11) (K.take 12) v = [] := by
      refine List.filter_eq_nil_iff.2 fun w hw hh => ?_
      simp only [Bool.and_eq_true, decide_eq_true_eq, closeK] at hh
      have := (t6 v hvb w (hK.subset (List.mem_of_mem_take hw)) (Ne.symm hh.1)).1
      have h3 := hh.2
      push_cast at h3
      omega
    rw [h0] at hv1
    refine ⟨?_, ?_, ?_⟩ <;> intro h <;> rw [h] at hv1 <;> simp at hv1
  · obtain ⟨g3, g4⟩ := t10 v hvb (n6 v hvK)
    have hperm : (shellCommon (closeK 19) bccPoints v).Perm (shellCommon (closeK 19) (K.take 12) v) := by
      unfold shellCommon
      rw [List.perm_ext_iff_of_nodup (t1.filter _) (hK12.filter _)]
      intro w
      simp only [List.mem_filter, Bool.and_eq_true, decide_eq_true_eq]
      constructor
      · rintro ⟨m1, m2, m3⟩
        refine ⟨?_, m2, m3⟩
        rw [e12]
        exact List.mem_append_left _ (hK8.symm.subset (g4 w m1 m3 m2))
      · rintro ⟨m1, m2, m3⟩
        exact ⟨hK.subset (List.mem_of_mem_take m1), m2, m3⟩
    have := hv2 (4, 4, 2, 2) (by norm_num) (by norm_num) (g3.perm hperm)
    rw [this]
    decide

/-- The code of an atom with the signatures of bcc. -/
theorem bcc_code {a : ℝ} (ha : 0 < a) {s : System} (hF : Spec.Faithful s (5 / 2 * a)) {i : ℕ} {x : Atom} (hi : s.atoms[i]? = some x) {N : List Nb}
    (hgood : ∀ y ∈ N, Spec.GoodEntry s i x y) {K : List (ℤ × ℤ × ℤ)} (hK : K.Perm bccPoints) (hKv : N.map Nb.vec = K.map (Spec.quarter a)) {c2 : ℝ}
    (hc2 : (a / 4) * Real.sqrt (23 : ℕ) ≤ c2 ∧ c2 < (a / 4) * Real.sqrt ((23 : ℕ) + 1)) {sig1 sig2 : List (ℕ × ℕ × ℕ × ℕ)} (hl1 : sig1.length = 12)
    (hbad : ∃ y ∈ sig1, y ≠ (4, 2, 1, 1) ∧ y ≠ (4, 2, 2, 0) ∧ y ≠ (5, 5, 2, 2)) (h2 : Spec.Signatures s c2 N sig2) {code : ℤ} (hcl : Spec.Classified sig1 sig2 code) : code = 3 := by
  obtain ⟨t0, t1, t2, t3, t4, t5, t6, t7, t8, t9, t10⟩ := bcc_table
  have hKnd : K.Nodup := hK.nodup_iff.2 t1
  have hsig2 : sig2 = K.map bccSig := signatures_map hF hi (closeK 23) (closeK_comm 23) hKnd hgood hKv (bcc_close ha hK hc2.1 hc2.2) h2 bccSig (by
    intro v hv
    refine ⟨?_, ?_, (t7 v (hK.subset hv)).perm (shellCommon_perm hK.symm v)⟩ <;> unfold bccSig <;> split_ifs <;> norm_num)
  obtain ⟨q1, q2, q3, q4, -⟩ := hcl
  obtain ⟨y, hm9, hb1, hb2, hb3⟩ := hbad
  refine q4.2 ⟨fun h => hb1 (q1.1 h _ hm9), fun h => ?_, fun h => hb3 (q3.1 h _ hm9), ?_, ?_⟩
  · obtain ⟨m1, m2⟩ := q2.1 h
    have c1 : (sig1.erase y).count (4, 2, 1, 1) = 6 := by rw [List.count_erase_of_ne hb1.symm, m1]
    have c2 : (sig1.erase y).count (4, 2, 2, 0) = 6 := by rw [List.count_erase_of_ne hb2.symm, m2]
    have := count_add_le (a := ((4, 2, 1, 1) : ℕ × ℕ × ℕ × ℕ)) (b := (4, 2, 2, 0)) (by decide) (sig1.erase y)
    rw [c1, c2, List.length_erase_of_mem hm9, hl1] at this
    omega
  · rw [hsig2, (hK.map _).count_eq, t8]
  · rw [hsig2, (hK.map _).count_eq, t9]

/-- One atom of a perfect bcc crystal. -/
theorem bcc_atom {name : String} (hn : name ∈ ["bcc", "b2"]) {a : ℝ} (ha : 0 < a) {s : System} (hF : Spec.Faithful s (5 / 2 * a))
    (hcr : crystal s.box s.atoms = Spec.idealCrystal ⟨a, a, a⟩ (Spec.basis name)) {i : ℕ} {x : Atom} (hi : s.atoms[i]? = some x) {N : List Nb}
    (hN : Spec.NearestList s i x 14 N) {lc : Option ℝ} (hlc : lc = none ∨ lc = some a) {c1 c2 : ℝ} (hc : Spec.CnaCutoffs lc N c1 c2)
    {sig1 sig2 : List (ℕ × ℕ × ℕ × ℕ)} (h1 : Spec.Signatures s c1 (N.take 12) sig1) (h2 : Spec.Signatures s c2 N sig2) {code : ℤ} (hcl : Spec.Classified sig1 sig2 code) :
    code = 3 := by
  have h4 : 0 < a / 4 := by positivity
  have hcub : name ∈ Spec.cubic := by
    simp only [List.mem_cons, List.not_mem_nil, or_false] at hn
    rcases hn with rfl | rfl <;> decide
  obtain ⟨t0, t1, t2, t3, t4, t5, t6, t7, t8, t9, t10⟩ := bcc_table
  have s32 : Real.sqrt 32 < 6 := by rw [Real.sqrt_lt' (by norm_num)]; norm_num
  have hF32 : Spec.Faithful s ((a / 4) * Real.sqrt (32 : ℕ)) := hF.anti (by push_cast; nlinarith)
  obtain ⟨b, hb, hp⟩ := points_perm hcub ha (by norm_num) (fun b hb => (t0 name hn b hb).1) hF32 hcr i x hi
  have hp : ((cutoffNbs s ((a / 4) * Real.sqrt (32 : ℕ)) 0 i).map Nb.vec).Perm (bccPoints.map (Spec.quarter a)) := hp.trans ((t0 name hn b hb).2.map _)
  have hblen : (cutoffNbs s ((a / 4) * Real.sqrt (32 : ℕ)) 0 i).length = 14 := by
    have := hp.length_eq
    rw [List.length_map, List.length_map, t2] at this
    exact this
  have hgood : ∀ y ∈ N, Spec.GoodEntry s i x y := hN.2.2.1
  have hNp : (N.map Nb.vec).Perm (bccPoints.map (Spec.quarter a)) := by
    refine List.Perm.trans (List.Perm.map _ ?_) hp
    refine (List.Nodup.subperm (List.Nodup.of_map _ hN.2.1) (nearest_ball hN hi hblen.ge)).perm_of_length_le ?_
    rw [hblen, hN.1]
  -- the first eight are the first shell
  have h8 : ((N.take 8).map Nb.vec).Perm (Spec.bccShell.map (Spec.quarter a)) := by
    refine shell_take hN hi hp (d := (a / 4) * Real.sqrt 12) (L1 := Spec.bccShell) ?_ ?_ t1 t4 (by decide +kernel) (by decide)
    · refine mul_lt_mul_of_pos_left ?_ h4
      push_cast
      exact Real.sqrt_lt_sqrt (by norm_num) (by norm_num)
    · intro k hk
      rw [← t3 k hk]
      have : (a / 4) * Real.sqrt 12 < (a / 4) * Real.sqrt ((12 : ℕ) + 1) := by
        push_cast
        exact mul_lt_mul_of_pos_left (Real.sqrt_lt_sqrt (by norm_num) (by norm_num)) h4
      have := norm_le_iff ha (c := (a / 4) * Real.sqrt 12) (D := 12) (by push_cast; exact le_rfl) this k
      rw [this]
      norm_cast
  obtain ⟨⟨K, hK, hKv, hK8, n6⟩, S8, S6, S12⟩ := bcc_setup ha hgood hNp h8
  have r12 : (3.4641 : ℝ) < Real.sqrt 12 := by rw [Real.lt_sqrt (by norm_num)]; norm_num
  have r12' : Real.sqrt 12 < (3.4642 : ℝ) := by rw [Real.sqrt_lt' (by norm_num)]; norm_num
  have hc2 : (a / 4) * Real.sqrt (23 : ℕ) ≤ c2 ∧ c2 < (a / 4) * Real.sqrt ((23 : ℕ) + 1) := by
    have hx : ∃ t : ℝ, c2 = (a / 4) * t ∧ 4.827 < t ∧ t < 4.829 := by
      rcases hlc with rfl | rfl
      · obtain ⟨-, e1⟩ := hc
        refine ⟨1.207 * ((1.1547 * (8 * Real.sqrt 12) + 24) / 14), ?_, by linarith, by linarith⟩
        rw [e1, S8, S6]
        ring
      · obtain ⟨-, e1⟩ := hc
        exact ⟨4.828, by rw [e1]; ring, by norm_num, by norm_num⟩
    obtain ⟨t, rfl, g1, g2⟩ := hx
    push_cast
    constructor
    · refine mul_le_mul_of_nonneg_left ?_ h4.le
      rw [Real.sqrt_le_left (by linarith)]
      nlinarith
    · refine mul_lt_mul_of_pos_left ?_ h4
      rw [Real.lt_sqrt (by linarith)]
      nlinarith
  have hc1 : ∃ D : ℕ, (D = 11 ∨ D = 19) ∧ (a / 4) * Real.sqrt D ≤ c1 ∧ c1 < (a / 4) * Real.sqrt (D + 1) := by
    rcases hlc with rfl | rfl
    · obtain ⟨e1, -⟩ := hc
      have e2 : c1 = (a / 4) * (1.207 * ((8 * Real.sqrt 12 + 16) / 12)) := by rw [e1, S12]; ring
      refine ⟨19, .inr rfl, ?_⟩
      rw [e2]
      push_cast
      constructor
      · refine mul_le_mul_of_nonneg_left ?_ h4.le
        rw [Real.sqrt_le_left (by positivity)]
        nlinarith
      · refine mul_lt_mul_of_pos_left ?_ h4
        rw [Real.lt_sqrt (by positivity)]
        nlinarith
    · obtain ⟨e1, -⟩ := hc
      have e2 : c1 = (a / 4) * 3.416 := by rw [e1]; ring
      refine ⟨11, .inl rfl, ?_⟩
      rw [e2]
      push_cast
      constructor
      · refine mul_le_mul_of_nonneg_left ?_ h4.le
        rw [Real.sqrt_le_left (by norm_num)]
        norm_num
      · refine mul_lt_mul_of_pos_left ?_ h4
        rw [Real.lt_sqrt (by norm_num)]
        norm_num
  exact bcc_code ha hF hi hgood hK hKv hc2 (by rw [h1.1, List.length_take, hN.1]; rfl) (bcc_bad ha hF hi hgood hK hKv hK8 n6 hc1 h1) h2 hcl

/-! ### The whole calculation -/

/-- From one atom to the whole crystal. -/
theorem perfect_cna (σ : StdSort) {name : String} (hn : name ∈ Spec.structures) {a ca : ℝ} (ha : 0 < a) (hca : 0 < ca) {nx ny nz : ℕ} (hx : 1 ≤ nx) (hy : 1 ≤ ny) (hz : 1 ≤ nz)
    {r ρ : ℝ} (hfit : Spec.HalfFits ((Spec.basis name).length * nx * ny * nz) (nx * (Spec.cellEdges name a ca).x) (ny * (Spec.cellEdges name a ca).y)
      (nz * (Spec.cellEdges name a ca).z) r) (hρ0 : 0 ≤ ρ)
    (hρ : ρ ^ 3 ≤ 27 * ((Spec.cellEdges name a ca).x * (Spec.cellEdges name a ca).y * (Spec.cellEdges name a ca).z / (Spec.basis name).length)) (lc : Option ℝ) (code : ℕ) (hcode : code < 5)
    (hball : ∀ s : System, Spec.Faithful s r → crystal s.box s.atoms = Spec.idealCrystal (Spec.cellEdges name a ca) (Spec.basis name) →
      ∀ i < s.atoms.length, 14 ≤ (cutoffNbs s ρ 0 i).length)
    (hatom : ∀ s : System, Spec.Faithful s r → crystal s.box s.atoms = Spec.idealCrystal (Spec.cellEdges name a ca) (Spec.basis name) →
      ∀ (i : ℕ) (x : Atom) (N : List Nb) (c1 c2 : ℝ) (sig1 sig2 : List (ℕ × ℕ × ℕ × ℕ)) (k : ℤ), s.atoms[i]? = some x → Spec.NearestList s i x 14 N → Spec.CnaCutoffs lc N c1 c2 →
        Spec.Signatures s c1 (N.take 12) sig1 → Spec.Signatures s c2 N sig2 → Spec.Classified sig1 sig2 k → k = code) :
    ∃ atoms box s s' as, makeCrystal name a nx ny nz ca = .ok (atoms, box) ∧ buildSystem box atoms = .ok s ∧
      s.calculateCna σ lc = .ok (s', (List.range 5).map fun c => if c = code then (Spec.basis name).length * nx * ny * nz else 0) ∧
      s'.getAtoms = .ok as ∧ as.length = (Spec.basis name).length * nx * ny * nz ∧ ∀ x ∈ as, x.struct = code := by
  have he : 0 < (Spec.cellEdges name a ca).x ∧ 0 < (Spec.cellEdges name a ca).y ∧ 0 < (Spec.cellEdges name a ca).z := by
    unfold Spec.cellEdges
    split
    · exact ⟨ha, by positivity, by positivity⟩
    · exact ⟨ha, ha, ha⟩
  obtain ⟨ex0, ey0, ez0⟩ := he
  obtain ⟨atoms, lx, ly, lz, hm, ex, ey, ez, hlen, hat, hnd, hcr⟩ := C40_make_crystal name hn ha hca hx hy hz
  have x0 : (0 : ℝ) < nx := by exact_mod_cast hx
  have y0 : (0 : ℝ) < ny := by exact_mod_cast hy
  have z0 : (0 : ℝ) < nz := by exact_mod_cast hz
  have hall : ∀ c ∈ atoms, c.ghost = false ∧ InBox lx ly lz c.pos := by
    intro c hc
    obtain ⟨k, hk⟩ := List.mem_iff_getElem?.1 hc
    exact (hat k c hk).2.2
  have hB : 0 < (Spec.basis name).length := by
    have : ∀ name ∈ Spec.structures, 0 < (Spec.basis name).length := by decide
    exact this name hn
  have hne : atoms ≠ [] := by
    rintro rfl
    have : 0 < (Spec.basis name).length * nx * ny * nz := by positivity
    rw [List.length_nil] at hlen
    exact absurd hlen this.ne
  obtain ⟨s, hb, hF, hreal, hle, hcr', htemp, huse, hvol, -⟩ := inBox_stored (by rw [ex]; positivity) (by rw [ey]; positivity) (by rw [ez]; positivity) hne
    (fun c hc => (hall c hc).1) (fun c hc => (hall c hc).2) hnd (makeCrystal_fresh hm) (r := r) (by rw [hlen, ex, ey, ez]; exact hfit)
  have hcry := hcr'.trans hcr
  have hR : Spec.SearchRadius s 3 (s.guessDist 3) := (searchRadius_iff _ _ _).2 rfl
  have hρR : ρ ≤ s.guessDist 3 := by
    have h3 : (s.guessDist 3) ^ 3 = 27 * ((Spec.cellEdges name a ca).x * (Spec.cellEdges name a ca).y * (Spec.cellEdges name a ca).z / (Spec.basis name).length) := by
      rw [hR, hvol, hlen, ex, ey, ez]
      have : ((Spec.basis name).length : ℝ) ≠ 0 := by exact_mod_cast hB.ne'
      push_cast
      field_simp
      norm_num
    rw [← h3] at hρ
    by_contra hlt
    have := pow_lt_pow_left₀ (not_le.1 hlt) (by
      by_contra hneg
      have h4 : (s.guessDist 3) ^ 3 < 0 := by
        have := not_le.1 hneg
        nlinarith [mul_pos (neg_pos.2 this) (neg_pos.2 this)]
      rw [h3] at h4
      have : 0 < (Spec.cellEdges name a ca).x * (Spec.cellEdges name a ca).y * (Spec.cellEdges name a ca).z / (Spec.basis name).length := by
        have hB' : (0 : ℝ) < (Spec.basis name).length := by exact_mod_cast hB
        positivity
      linarith) (n := 3) (by norm_num)
    linarith
  obtain ⟨s', cnt, hrun, hk⟩ := cna_fresh σ s lc _ hR hle htemp (fun h => by rw [huse] at h; cases h) (enough_ball hρR (hball s hF hcry))
  obtain ⟨q1, q2, q3, q4, q5, q6⟩ := C28_cna σ s s' lc cnt hrun
  have hstruct : ∀ x ∈ s'.atoms, x.struct = code := by
    intro y hy
    obtain ⟨i, hi⟩ := List.mem_iff_getElem?.1 hy
    have hil : i < s.atoms.length := by rw [← q2]; exact (List.getElem?_eq_some_iff.1 hi).1
    obtain ⟨a', ha', c1, c2, sig1, sig2, w1, -, w2, w3, w4, w5, -⟩ := hk i _ (List.getElem?_eq_getElem hil)
    rw [hi] at ha'
    cases ha'
    exact hatom s hF hcry i _ _ c1 c2 sig1 sig2 _ (List.getElem?_eq_getElem hil) w1 w2 w3 w4 w5
  have hN : s'.realNop = (Spec.basis name).length * nx * ny * nz := by rw [q1, hreal, hlen]
  have hle' : s'.realNop ≤ s'.atoms.length := by rw [q1, q2]; exact hle
  have hcnt : cnt = (List.range 5).map fun c => if c = code then (Spec.basis name).length * nx * ny * nz else 0 := by
    refine List.ext_getElem? fun c => ?_
    by_cases hc : c < 5
    · rw [q6 c hc, List.getElem?_map, List.getElem?_range hc]
      simp only [Option.map_some, Option.some.injEq]
      split_ifs with h
      · rw [List.countP_eq_length.2 fun x hx => decide_eq_true (by rw [hstruct x (List.mem_of_mem_take hx), h]), List.length_take, min_eq_left hle', hN]
      · rw [List.countP_eq_zero.2 fun x hx => by
          rw [decide_eq_true_eq, hstruct x (List.mem_of_mem_take hx)]
          intro h'
          exact h (by exact_mod_cast h'.symm)]
    · rw [List.getElem?_eq_none (by omega), List.getElem?_eq_none (by simp; omega)]
  rw [hcnt] at hrun
  refine ⟨atoms, _, s, s', s'.atoms.take s'.realNop, hm, hb, hrun, by rw [System.getAtoms, if_pos hle'], ?_, fun x hx => hstruct x (List.mem_of_mem_take hx)⟩
  rw [List.length_take, min_eq_left hle', hN]

theorem points_length {name : String} (h : name ∈ Spec.cubic) {a : ℝ} (ha : 0 < a) {D m : ℕ} (hD : D ≤ 36)
    (hnd : ∀ b ∈ quarters name, (points name D b.1).Nodup ∧ m ≤ (points name D b.1).length) {s : System}
    (hF : Spec.Faithful s ((a / 4) * Real.sqrt D)) (hcr : crystal s.box s.atoms = Spec.idealCrystal ⟨a, a, a⟩ (Spec.basis name)) :
    ∀ i < s.atoms.length, m ≤ (cutoffNbs s ((a / 4) * Real.sqrt D) 0 i).length := by
  intro i hi
  obtain ⟨b, hb, hp⟩ := points_perm h ha hD (fun b hb => (hnd b hb).1) hF hcr i _ (List.getElem?_eq_getElem hi)
  have := hp.length_eq
  rw [List.length_map, List.length_map] at this
  rw [this]
  exact (hnd b hb).2

/-- **C96, fcc**: `calculate_cna` on a crystal made with `make_crystal`, fcc or l12, any lattice constant `a` and any numbers of repetitions for which the stored box has at
least three unit cells in every direction, classifies every atom as fcc; without a lattice constant (adaptive) or with the right one. -/
theorem C96_fcc (σ : StdSort) (name : String) (hn : name ∈ ["fcc", "l12"]) {a ca : ℝ} (ha : 0 < a) (hca : 0 < ca) {nx ny nz : ℕ} (hx : 1 ≤ nx) (hy : 1 ≤ ny) (hz : 1 ≤ nz)
    (hfit : Spec.HalfFits (4 * nx * ny * nz) nx ny nz (3 / 2)) (lc : Option ℝ) (hlc : lc = none ∨ lc = some a) :
    ∃ atoms box s s' as, makeCrystal name a nx ny nz ca = .ok (atoms, box) ∧ buildSystem box atoms = .ok s ∧
      s.calculateCna σ lc = .ok (s', [0, 4 * nx * ny * nz, 0, 0, 0]) ∧ s'.getAtoms = .ok as ∧ as.length = 4 * nx * ny * nz ∧ ∀ x ∈ as, x.struct = 1 := by
  have hstr : name ∈ Spec.structures ∧ name ∈ Spec.cubic ∧ name ≠ "hcp" ∧ (Spec.basis name).length = 4 := by
    simp only [List.mem_cons, List.not_mem_nil, or_false] at hn
    rcases hn with rfl | rfl <;> decide
  obtain ⟨h1, h2, h3, h4⟩ := hstr
  have hE : Spec.cellEdges name a ca = ⟨a, a, a⟩ := by rw [Spec.cellEdges, if_neg h3]
  have s24 : Real.sqrt 24 < 5 := by rw [Real.sqrt_lt' (by norm_num)]; norm_num
  have s24' : 0 ≤ Real.sqrt 24 := Real.sqrt_nonneg _
  have := perfect_cna σ h1 ha hca hx hy hz (r := 3 / 2 * a) (ρ := (a / 4) * Real.sqrt (24 : ℕ)) (by
    rw [hE, h4]
    obtain ⟨f1, f2, f3⟩ := hfit
    refine ⟨?_, ?_, ?_⟩ <;> dsimp only <;> nlinarith) (by positivity) (by
    rw [hE, h4]
    dsimp only
    push_cast
    have : (a / 4 * Real.sqrt 24) ^ 3 ≤ (a / 4 * 5) ^ 3 := pow_le_pow_left₀ (by positivity) (by nlinarith) 3
    nlinarith [pow_pos ha 3]) lc 1 (by norm_num) (by
    intro s hF hcr
    rw [hE] at hcr
    refine points_length h2 ha (by norm_num) (fun b hb => ⟨(fcc_table name hn b hb).1, (fcc_table name hn b hb).2.1⟩) (hF.anti ?_) hcr
    push_cast; nlinarith) (by
    intro s hF hcr i x N c1 c2 sig1 sig2 k hi hN hc g1 g2 hcl
    rw [hE] at hcr
    exact fcc_atom hn ha hF hcr hi hN hlc hc g1 hcl)
  rw [h4] at this
  simpa [List.range_succ] using this

/-- **C96, bcc**: the same for bcc and b2 crystals when the stored box has at least five unit cells in every direction: every atom is classified as bcc. -/
theorem C96_bcc (σ : StdSort) (name : String) (hn : name ∈ ["bcc", "b2"]) {a ca : ℝ} (ha : 0 < a) (hca : 0 < ca) {nx ny nz : ℕ} (hx : 1 ≤ nx) (hy : 1 ≤ ny) (hz : 1 ≤ nz)
    (hfit : Spec.HalfFits (2 * nx * ny * nz) nx ny nz (5 / 2)) (lc : Option ℝ) (hlc : lc = none ∨ lc = some a) :
    ∃ atoms box s s' as, makeCrystal name a nx ny nz ca = .ok (atoms, box) ∧ buildSystem box atoms = .ok s ∧
      s.calculateCna σ lc = .ok (s', [0, 0, 0, 2 * nx * ny * nz, 0]) ∧ s'.getAtoms = .ok as ∧ as.length = 2 * nx * ny * nz ∧ ∀ x ∈ as, x.struct = 3 := by
  have hstr : name ∈ Spec.structures ∧ name ∈ Spec.cubic ∧ name ≠ "hcp" ∧ (Spec.basis name).length = 2 := by
    simp only [List.mem_cons, List.not_mem_nil, or_false] at hn
    rcases hn with rfl | rfl <;> decide
  obtain ⟨h1, h2, h3, h4⟩ := hstr
  have hE : Spec.cellEdges name a ca = ⟨a, a, a⟩ := by rw [Spec.cellEdges, if_neg h3]
  have s24 : Real.sqrt 32 < 6 := by rw [Real.sqrt_lt' (by norm_num)]; norm_num
  have s24' : 0 ≤ Real.sqrt 32 := Real.sqrt_nonneg _
  have := perfect_cna σ h1 ha hca hx hy hz (r := 5 / 2 * a) (ρ := (a / 4) * Real.sqrt (32 : ℕ)) (by
    rw [hE, h4]
    obtain ⟨f1, f2, f3⟩ := hfit
    refine ⟨?_, ?_, ?_⟩ <;> dsimp only <;> nlinarith) (by positivity) (by
    rw [hE, h4]
    dsimp only
    push_cast
    have : (a / 4 * Real.sqrt 32) ^ 3 ≤ (a / 4 * 6) ^ 3 := pow_le_pow_left₀ (by positivity) (by nlinarith) 3
    nlinarith [pow_pos ha 3]) lc 3 (by norm_num) (by
    intro s hF hcr
    rw [hE] at hcr
    refine points_length h2 ha (by norm_num) (fun b hb => ⟨(bcc_table.1 name hn b hb).1, ?_⟩) (hF.anti ?_) hcr
    · rw [(bcc_table.1 name hn b hb).2.length_eq, bcc_table.2.2.1]
    · push_cast; nlinarith) (by
    intro s hF hcr i x N c1 c2 sig1 sig2 k hi hN hc g1 g2 hcl
    rw [hE] at hcr
    exact bcc_atom hn ha hF hcr hi hN hlc hc g1 g2 hcl)
  rw [h4] at this
  simpa [List.range_succ] using this

/-- Below 200 atoms every fcc or l12 crystal qualifies, from a single unit cell on. -/
theorem C96_fcc_small (σ : StdSort) (name : String) (hn : name ∈ ["fcc", "l12"]) {a ca : ℝ} (ha : 0 < a) (hca : 0 < ca) {nx ny nz : ℕ} (hx : 1 ≤ nx) (hy : 1 ≤ ny) (hz : 1 ≤ nz)
    (hN : 4 * nx * ny * nz < 200) (lc : Option ℝ) (hlc : lc = none ∨ lc = some a) :
    ∃ atoms box s s' as, makeCrystal name a nx ny nz ca = .ok (atoms, box) ∧ buildSystem box atoms = .ok s ∧
      s.calculateCna σ lc = .ok (s', [0, 4 * nx * ny * nz, 0, 0, 0]) ∧ s'.getAtoms = .ok as ∧ as.length = 4 * nx * ny * nz ∧ ∀ x ∈ as, x.struct = 1 := by
  refine C96_fcc σ name hn ha hca hx hy hz ?_ lc hlc
  have hs : 3 ≤ Spec.stretch (4 * nx * ny * nz) := by
    unfold Spec.stretch
    rw [if_pos hN]
    split_ifs <;> norm_num
  have x0 : (1 : ℝ) ≤ nx := by exact_mod_cast hx
  have y0 : (1 : ℝ) ≤ ny := by exact_mod_cast hy
  have z0 : (1 : ℝ) ≤ nz := by exact_mod_cast hz
  refine ⟨?_, ?_, ?_⟩ <;> nlinarith

/-- The hypotheses are met by one fcc cell, by 4 x 4 x 4 fcc cells, by one bcc cell and by 5 x 5 x 5 b2 cells. -/
example (σ : StdSort) := C96_fcc_small σ "fcc" (by decide) (a := 4) (ca := 1) (by norm_num) (by norm_num) (nx := 1) (ny := 1) (nz := 1) le_rfl le_rfl le_rfl (by norm_num) none (.inl rfl)
example (σ : StdSort) := C96_fcc σ "fcc" (by decide) (a := 4) (ca := 1) (by norm_num) (by norm_num) (nx := 4) (ny := 4) (nz := 4) (by norm_num) (by norm_num) (by norm_num)
  (by refine ⟨?_, ?_, ?_⟩ <;> norm_num [Spec.stretch]) (some 4) (.inr rfl)
example (σ : StdSort) := C96_bcc σ "bcc" (by decide) (a := 3) (ca := 1) (by norm_num) (by norm_num) (nx := 1) (ny := 1) (nz := 1) le_rfl le_rfl le_rfl
  (by refine ⟨?_, ?_, ?_⟩ <;> norm_num [Spec.stretch]) none (.inl rfl)
example (σ : StdSort) := C96_bcc σ "b2" (by decide) (a := 3) (ca := 1) (by norm_num) (by norm_num) (nx := 5) (ny := 5) (nz := 5) (by norm_num) (by norm_num) (by norm_num)
  (by refine ⟨?_, ?_, ?_⟩ <;> norm_num [Spec.stretch]) (some 3) (.inr rfl)

end Pyscal
