import Verif.Props.PerfectCentro
import Verif.Props.Continuity

/-! C98: centrosymmetry of crystals whose atoms are displaced. -/

namespace Pyscal

open Spec (diagBox ofFrac latticeVec IsImage crystal InBox)

theorem stretch_le_copies {N : ℕ} (hpos : 0 < N) : Spec.stretch N ≤ 2 * (copies N : ℝ) + 1 := by
  unfold copies Spec.stretch
  split_ifs with h1 h2 h2
  · have h3 := padReps_total hpos (by omega)
    have : 2 ≤ padReps N := by
      by_contra hlt
      have h4 : padReps N ≤ 1 := by omega
      interval_cases padReps N <;> omega
    have : (2 : ℝ) ≤ padReps N := by exact_mod_cast this
    linarith
  · omega
  · have h3 := padReps_total hpos (by omega)
    have : 1 ≤ padReps N := by
      by_contra hlt
      have h4 : padReps N = 0 := by omega
      rw [h4] at h3
      omega
    have : (1 : ℝ) ≤ padReps N := by exact_mod_cast this
    linarith
  · norm_num

/-- The sum of the smallest values if enough of them are small. -/
theorem smallest_le {ι : Type} {S U : Finset ι} {f : ι → ℝ} {m : ℕ} {x c : ℝ} (h : Spec.IsSumOfSmallest S f m x) (hU : U ⊆ S) (hm : m ≤ U.card) (hc : ∀ p ∈ U, f p ≤ c) :
    x ≤ m * c := by
  classical
  obtain ⟨T, hT, hcard, hmin, rfl⟩ := h
  have hle : ∀ p ∈ T, f p ≤ c := by
    intro p hp
    by_cases hsub : U ⊆ T
    · have : U = T := Finset.eq_of_subset_of_card_le hsub (by omega)
      exact hc p (this ▸ hp)
    · obtain ⟨q, hq, hqT⟩ := Finset.not_subset.1 hsub
      exact (hmin p hp q (hU hq) hqT).trans (hc q hq)
  have := Finset.sum_le_card_nsmul T f c hle
  rwa [hcard, nsmul_eq_mul] at this

/-- The neighbours of a displaced atom with inversion symmetry. -/
theorem centro_close {d : ℝ} {N P : List Nb} (hlen : P.length = N.length) (hop : Spec.OppositePairs P)
    (hcl : ∀ j (hj : j < N.length), V3.norm (N[j].vec - (P[j]'(hlen ▸ hj)).vec) ≤ 2 * d) {c : ℝ}
    (h : Spec.IsSumOfSmallest (Spec.pairSet N.length) (fun p => V3.normSq (Spec.nbVector N p.1 + Spec.nbVector N p.2)) (N.length / 2) c) :
    c ≤ (N.length / 2 : ℕ) * (4 * d) ^ 2 := by
  have hcnt := opposite_count hop
  rw [hlen] at hcnt
  refine smallest_le h (Finset.filter_subset _ _) hcnt fun p hp => ?_
  obtain ⟨hp1, hp2⟩ := Finset.mem_filter.1 hp
  have hp2 := (V3.normSq_eq_zero _).1 hp2
  obtain ⟨hp3, -⟩ := Finset.mem_filter.1 hp1
  obtain ⟨l1, l2⟩ := Finset.mem_product.1 hp3
  have l1 := Finset.mem_range.1 l1
  have l2 := Finset.mem_range.1 l2
  have eN : ∀ j (hj : j < N.length), Spec.nbVector N j = N[j].vec := fun j hj => by unfold Spec.nbVector; rw [List.getElem?_eq_getElem hj]
  have eP : ∀ j (hj : j < P.length), Spec.nbVector P j = P[j].vec := fun j hj => by unfold Spec.nbVector; rw [List.getElem?_eq_getElem hj]
  rw [eP _ (hlen ▸ l1), eP _ (hlen ▸ l2)] at hp2
  rw [eN _ l1, eN _ l2, ← V3.norm_sq]
  have e : N[p.1].vec + N[p.2].vec = (N[p.1].vec - (P[p.1]'(hlen ▸ l1)).vec) + (N[p.2].vec - (P[p.2]'(hlen ▸ l2)).vec) := by
    have : N[p.1].vec + N[p.2].vec = (N[p.1].vec - (P[p.1]'(hlen ▸ l1)).vec) + (N[p.2].vec - (P[p.2]'(hlen ▸ l2)).vec) + ((P[p.1]'(hlen ▸ l1)).vec + (P[p.2]'(hlen ▸ l2)).vec) := by
      ext <;> simp only [V3.add_x, V3.add_y, V3.add_z, V3.sub_x, V3.sub_y, V3.sub_z] <;> ring
    rw [this, hp2]
    ext <;> simp [V3.add_x, V3.add_y, V3.add_z]
  have := norm_triangle (N[p.1].vec - (P[p.1]'(hlen ▸ l1)).vec) (N[p.2].vec - (P[p.2]'(hlen ▸ l2)).vec)
  rw [← e] at this
  have h4 : V3.norm (N[p.1].vec + N[p.2].vec) ≤ 4 * d := by linarith [hcl _ l1, hcl _ l2]
  nlinarith [V3.norm_nonneg (N[p.1].vec + N[p.2].vec)]

/-- The squared distance of the next shell, in quarters of the lattice constant (at most 36). -/
def nextShell (name : String) (n : ℕ) : ℕ := if name = "sc" then (if n = 6 then 32 else 36) else if name ∈ ["bcc", "b2"] then (if n = 8 then 16 else 32) else if n = 12 then 16 else 24

/-- The points of the shells. -/
def shellPoints (name : String) (n : ℕ) : List (ℤ × ℤ × ℤ) := points name (nextShell name n) (0, 0, 0)

theorem shellPoints_table : ∀ name ∈ ["sc", "bcc", "b2", "fcc", "l12"], ∀ n ∈ Spec.wholeShells name,
    nextShell name n ≤ 36 ∧ (shellPoints name n).length = n ∧ (shellPoints name n).Nodup ∧
    (∀ k ∈ shellPoints name n, nsq k ≤ edgeOf name n ∧ neg3 k ∈ shellPoints name n ∧ k ≠ neg3 k) ∧
    ∀ b ∈ quarters name, (points name (nextShell name n) b.1).Nodup ∧ (points name (nextShell name n) b.1).Perm (shellPoints name n) := by
  decide +kernel

/-- Specification: how far atoms may move, as a fraction of the lattice constant, before the `n` nearest neighbours of an atom may change. -/
noncomputable def Spec.centroNoise (name : String) (n : ℕ) : ℝ :=
  if name = "sc" then (if n = 6 then 0.103 else 0.021) else if name ∈ ["bcc", "b2"] then (if n = 8 then 0.033 else 0.103) else if n = 12 then 0.073 else 0.056

theorem centroNoise_gap {name : String} (hn : name ∈ ["sc", "bcc", "b2", "fcc", "l12"]) {n : ℕ} (hw : n ∈ Spec.wholeShells name) :
    Real.sqrt (edgeOf name n) + 16 * Spec.centroNoise name n < Real.sqrt (nextShell name n) ∧ 0 < Spec.centroNoise name n ∧ Spec.centroNoise name n ≤ 0.103 ∧
    (1 / 4) * Real.sqrt (edgeOf name n) < 3 / 2 - 2 * Spec.centroNoise name n := by
  have key : ∀ (e m : ℕ) (t u : ℝ), 0 < t → t ≤ 0.103 → 0 < u → (e : ℝ) < u ^ 2 → (u + 16 * t) ^ 2 ≤ m → u / 4 ≤ 3 / 2 - 2 * t →
      Real.sqrt e + 16 * t < Real.sqrt m ∧ 0 < t ∧ t ≤ 0.103 ∧ (1 / 4) * Real.sqrt e < 3 / 2 - 2 * t := by
    intro e m t u t0 t1 u0 h1 h2 h3
    have a1 : Real.sqrt e < u := by rw [Real.sqrt_lt' u0]; exact h1
    have a2 : u + 16 * t ≤ Real.sqrt m := Real.le_sqrt_of_sq_le h2
    exact ⟨by linarith, t0, t1, by linarith⟩
  simp only [List.mem_cons, List.not_mem_nil, or_false] at hn
  rcases hn with rfl | rfl | rfl | rfl | rfl <;> simp only [Spec.wholeShells, List.mem_cons, List.not_mem_nil, or_false] at hw <;> rcases hw with rfl | rfl <;>
    simp only [edgeOf, shellEdge, nextShell, Spec.centroNoise, List.mem_cons, List.not_mem_nil, or_false, reduceCtorEq, String.reduceEq, Nat.reduceEqDiff, true_and, and_true, false_and, and_false, or_true, true_or, false_or, if_true, if_false]
  · exact key 16 32 0.103 4.001 (by norm_num) (by norm_num) (by norm_num) (by norm_num) (by norm_num) (by norm_num)
  · exact key 32 36 0.021 5.66 (by norm_num) (by norm_num) (by norm_num) (by norm_num) (by norm_num) (by norm_num)
  · exact key 12 16 0.033 3.465 (by norm_num) (by norm_num) (by norm_num) (by norm_num) (by norm_num) (by norm_num)
  · exact key 16 32 0.103 4.001 (by norm_num) (by norm_num) (by norm_num) (by norm_num) (by norm_num) (by norm_num)
  · exact key 12 16 0.033 3.465 (by norm_num) (by norm_num) (by norm_num) (by norm_num) (by norm_num) (by norm_num)
  · exact key 16 32 0.103 4.001 (by norm_num) (by norm_num) (by norm_num) (by norm_num) (by norm_num) (by norm_num)
  · exact key 8 16 0.073 2.83 (by norm_num) (by norm_num) (by norm_num) (by norm_num) (by norm_num) (by norm_num)
  · exact key 16 24 0.056 4.001 (by norm_num) (by norm_num) (by norm_num) (by norm_num) (by norm_num) (by norm_num)
  · exact key 8 16 0.073 2.83 (by norm_num) (by norm_num) (by norm_num) (by norm_num) (by norm_num) (by norm_num)
  · exact key 16 24 0.056 4.001 (by norm_num) (by norm_num) (by norm_num) (by norm_num) (by norm_num) (by norm_num)

/-- One atom of a displaced crystal. -/
theorem centro_noisy {name : String} (hn : name ∈ ["sc", "bcc", "b2", "fcc", "l12"]) {n : ℕ} (hw : n ∈ Spec.wholeShells name) {a d : ℝ} (ha : 0 < a)
    (hda : d ≤ Spec.centroNoise name n * a) {s g : System} (hF : Spec.Faithful s (3 / 2 * a)) (hcr : crystal s.box s.atoms = Spec.idealCrystal ⟨a, a, a⟩ (Spec.basis name))
    (h : Shifted s g d) {lx ly lz : ℝ} (hx : 0 < lx) (hy : 0 < ly) (hz : 0 < lz) (hs : s.box = diagBox lx ly lz) (rx : 2 * (3 / 2 * a) ≤ lx) (ry : 2 * (3 / 2 * a) ≤ ly)
    (rz : 2 * (3 / 2 * a) ≤ lz) {i : ℕ} {x : Atom} (hi : g.atoms[i]? = some x) {N : List Nb} (hN : Spec.NearestList g i x n N) {c : ℝ}
    (hc : Spec.IsSumOfSmallest (Spec.pairSet n) (fun p => V3.normSq (Spec.nbVector N p.1 + Spec.nbVector N p.2)) (n / 2) c) : c ≤ (n / 2 : ℕ) * (4 * d) ^ 2 := by
  have hcub : name ∈ Spec.cubic := by
    have : ∀ name ∈ ["sc", "bcc", "b2", "fcc", "l12"], name ∈ Spec.cubic := by decide
    exact this name hn
  have h4 : 0 < a / 4 := by positivity
  obtain ⟨t1, t2, t3, t4, t5⟩ := shellPoints_table name hn n hw
  obtain ⟨g1, g2, g3, g4⟩ := centroNoise_gap hn hw
  have s36 : Real.sqrt (nextShell name n) ≤ 6 := by
    rw [Real.sqrt_le_left (by norm_num)]
    have : (nextShell name n : ℝ) ≤ 36 := by exact_mod_cast t1
    linarith
  obtain ⟨hp, hgood⟩ := shell_same hcub ha hF hcr h hi hN t1 (by nlinarith) t5 (fun v hv => (t4 v hv).1) (by nlinarith [mul_lt_mul_of_pos_left g1 h4]) t2.le
  rw [t2, List.take_of_length_le hN.1.le] at hp hgood
  obtain ⟨K, hK, hKv⟩ := exists_points (fun _ _ => quarter_inj ha) hp
  have hop : Spec.OppositePairs (N.map fun y => s.mkNb i y.idx) := by
    refine opposite_points ha (hK.nodup_iff.2 t3) hKv fun k hk => ?_
    obtain ⟨-, u1, u2⟩ := t4 k (hK.subset hk)
    exact ⟨hK.symm.subset u1, u2⟩
  have hil : i < s.atoms.length := by rw [← h.len]; exact (List.getElem?_eq_some_iff.1 hi).1
  have hNl : N.length = n := hN.1
  rw [← hNl] at hc ⊢
  refine centro_close (P := N.map fun y => s.mkNb i y.idx) (by rw [List.length_map]) hop (fun j hj => ?_) hc
  obtain ⟨e, hl, -⟩ := goodEntry_eq hi (hN.2.2.1 _ (List.getElem_mem hj))
  rw [List.getElem_map]
  have e' : N[j].vec = g.diffOf i N[j].idx := congrArg Nb.vec e
  rw [e']
  refine h.vec hx hy hz hs rx ry rz hil (by rw [← h.len]; exact hl) ?_
  have hmem : s.mkNb i N[j].idx ∈ N.map fun y => s.mkNb i y.idx := List.mem_map.2 ⟨_, List.getElem_mem hj, rfl⟩
  have hd : s.distOf i N[j].idx = V3.norm (s.mkNb i N[j].idx).vec := rfl
  obtain ⟨k, hk, ek⟩ := List.mem_map.1 (hp.subset (List.mem_map.2 ⟨_, hmem, rfl⟩))
  rw [hd, ← ek, norm_quarter a ha]
  have h5 : (a / 4) * Real.sqrt (nsq k : ℝ) ≤ (a / 4) * Real.sqrt (edgeOf name n) := mul_le_mul_of_nonneg_left (Real.sqrt_le_sqrt (by exact_mod_cast (t4 k hk).1)) h4.le
  nlinarith [mul_lt_mul_of_pos_left g4 ha]

/-- **C98, centrosymmetry**: take the atoms of a crystal made with `make_crystal` in which every atom is a centre of inversion (sc, bcc, b2, fcc, l12), of any size for which the stored
box has at least three unit cells in every direction, and move every atom by up to `d` in any direction, `d` being at most the given fraction of the lattice constant.
`calculate_centrosymmetry(n)`, with a number `n` of neighbours that makes up whole shells, gives every atom a value between 0 and `n/2 (4 d)^2`. -/
theorem C98_centrosymmetry (σ : StdSort) (name : String) (hn : name ∈ ["sc", "bcc", "b2", "fcc", "l12"]) {n : ℕ} (hw : n ∈ Spec.wholeShells name) {a ca d : ℝ} (ha : 0 < a)
    (hca : 0 < ca) {nx ny nz : ℕ} (hx : 1 ≤ nx) (hy : 1 ≤ ny) (hz : 1 ≤ nz) (hfit : Spec.HalfFits ((Spec.basis name).length * nx * ny * nz) nx ny nz (3 / 2))
    (hda : d ≤ Spec.centroNoise name n * a) {atoms l' : List Atom} {box : Mat3} (hm : makeCrystal name a nx ny nz ca = .ok (atoms, box)) (hd : Spec.Displaced d atoms l') :
    ∃ g g' as, buildSystem box l' = .ok g ∧ System.calculateCentrosymmetry σ n g = (g', .ok ()) ∧ g'.getAtoms = .ok as ∧ as.length = (Spec.basis name).length * nx * ny * nz ∧
      ∀ x ∈ as, 0 ≤ x.centro ∧ x.centro ≤ (n / 2 : ℕ) * (4 * d) ^ 2 := by
  have hstr : ∀ name ∈ ["sc", "bcc", "b2", "fcc", "l12"], name ∈ Spec.structures ∧ name ≠ "hcp" ∧ 0 < (Spec.basis name).length ∧ (Spec.basis name).length ≤ 4 ∧ quarters name ≠ [] := by decide
  obtain ⟨h1, h3, h4, h5, h6⟩ := hstr name hn
  obtain ⟨b, hb⟩ := List.exists_mem_of_ne_nil _ h6
  obtain ⟨-, -, k1, k2, k3, -⟩ := whole_table name hn n hw b hb
  obtain ⟨-, n2, n3, -⟩ := centroNoise_gap hn hw
  have hE : Spec.cellEdges name a ca = ⟨a, a, a⟩ := by rw [Spec.cellEdges, if_neg h3]
  obtain ⟨atoms', lx, ly, lz, hm', ex, ey, ez, hlen, hat, hnd, hcr⟩ := C40_make_crystal name h1 ha hca hx hy hz
  rw [hm] at hm'
  cases hm'
  rw [hE] at ex ey ez hcr
  dsimp only at ex ey ez
  have hda' : d ≤ 0.103 * a := hda.trans (mul_le_mul_of_nonneg_right n3 ha.le)
  have x1 : (1 : ℝ) ≤ nx := by exact_mod_cast hx
  have y1 : (1 : ℝ) ≤ ny := by exact_mod_cast hy
  have z1 : (1 : ℝ) ≤ nz := by exact_mod_cast hz
  have hall : ∀ c ∈ atoms, c.ghost = false ∧ InBox lx ly lz c.pos := by
    intro c hc
    obtain ⟨k, hk⟩ := List.mem_iff_getElem?.1 hc
    exact (hat k c hk).2.2
  have hpos : 0 < atoms.length := by rw [hlen]; positivity
  have hne : atoms ≠ [] := List.length_pos_iff.1 hpos
  have hd0 : 0 ≤ d := (V3.norm_nonneg _).trans (List.forall₂_iff_get.1 hd |>.2 0 hpos (hd.length_eq ▸ hpos)).2
  have lx0 : 0 < lx := by rw [ex]; positivity
  have ly0 : 0 < ly := by rw [ey]; positivity
  have lz0 : 0 < lz := by rw [ez]; positivity
  have hfit' : Spec.HalfFits atoms.length lx ly lz (3 / 2 * a) := by
    rw [hlen, ex, ey, ez]
    obtain ⟨f1, f2, f3⟩ := hfit
    refine ⟨?_, ?_, ?_⟩ <;> nlinarith
  obtain ⟨s, hb, hF, -, -, hcr', -, -, hvol, -⟩ := inBox_stored lx0 ly0 lz0 hne (fun c hc => (hall c hc).1) (fun c hc => (hall c hc).2) hnd (makeCrystal_fresh hm) hfit'
  have hcry := hcr'.trans hcr
  have hlen' : l'.length = atoms.length := hd.length_eq.symm
  have hne' : l' ≠ [] := fun h => hne (List.length_eq_zero_iff.1 (by rw [← hlen', h, List.length_nil]))
  have hghost : ∀ y ∈ l', y.ghost = false := by
    intro y hy
    obtain ⟨k, hk, rfl⟩ := List.getElem_of_mem hy
    have := (List.forall₂_iff_get.1 hd |>.2 k (hlen' ▸ hk) hk).1
    simp only [List.get_eq_getElem] at this
    rw [this]
    exact (hall _ (List.getElem_mem (h := (hlen' ▸ hk : k < atoms.length)))).1
  obtain ⟨s1, hb1, -, sb, st, -⟩ := stored_form lx0 ly0 lz0 hne (fun c hc => (hall c hc).1)
  rw [hb] at hb1
  cases hb1
  obtain ⟨g, gb, ga, gbox, gt, gu, greal⟩ := stored_form lx0 ly0 lz0 hne' hghost
  have hsh : Shifted s g d := shifted_build lx0 ly0 lz0 hne (fun c hc => (hall c hc).1) hd (spread_inBox lx0 ly0 lz0 fun c hc => (hall c hc).2)
    (spread_displaced (fun c hc => (hall c hc).2) hd (by rw [ex]; nlinarith) (by rw [ey]; nlinarith) (by rw [ez]; nlinarith)) hb gb
  have hle : g.realNop ≤ g.atoms.length := by rw [greal, ga, List.length_append]; omega
  have hvolg : Spec.searchVolume g = Spec.searchVolume s := by
    unfold Spec.searchVolume
    rw [gt, st, gbox, sb, hlen', if_neg (by decide), if_neg (by decide)]
  have s36 : Real.sqrt ((36 : ℕ) : ℝ) = 6 := by rw [Real.sqrt_eq_iff_mul_self_eq_of_pos (by norm_num)]; norm_num
  have hR : Spec.SearchRadius g 3 (g.guessDist 3) := (searchRadius_iff _ _ _).2 rfl
  have hρR : (a / 4) * Real.sqrt (36 : ℕ) + 2 * d ≤ g.guessDist 3 := by
    have h3 : (g.guessDist 3) ^ 3 = 27 * (a * a * a / (Spec.basis name).length) := by
      rw [hR, hvolg, hsh.len, hvol, hlen, ex, ey, ez]
      have : ((Spec.basis name).length : ℝ) ≠ 0 := by exact_mod_cast h4.ne'
      push_cast
      field_simp
      norm_num
    refine (Odd.strictMono_pow (by decide : Odd 3)).le_iff_le.1 ?_
    show ((a / 4) * Real.sqrt (36 : ℕ) + 2 * d) ^ 3 ≤ (g.guessDist 3) ^ 3
    rw [h3, s36]
    have hB : ((Spec.basis name).length : ℝ) ≤ 4 := by exact_mod_cast h5
    have hB0 : (0 : ℝ) < (Spec.basis name).length := by exact_mod_cast h4
    have q1 : a * a * a / 4 ≤ a * a * a / (Spec.basis name).length := div_le_div_of_nonneg_left (by positivity) hB0 hB
    have q2 : (a / 4 * 6 + 2 * d) ^ 3 ≤ (1.8 * a) ^ 3 := pow_le_pow_left₀ (by positivity) (by linarith) 3
    nlinarith [pow_pos ha 3]
  obtain ⟨g', hrun, ⟨hgeo, -⟩, hrn, hk⟩ := C30_centrosymmetry σ g n _ hR k2 k1 (by omega) (fun h => by rw [gu] at h; cases h)
    (enough_ball hρR fun i hi => ((whole_atom hn hw ha hF hcry (List.getElem?_eq_getElem (hsh.len ▸ hi))).1).trans (hsh.ball_length (hsh.len ▸ hi) 0 _))
  have hl : g'.atoms.length = g.atoms.length := by
    have := congrArg List.length hgeo
    rwa [List.length_map, List.length_map] at this
  have hle' : g'.realNop ≤ g'.atoms.length := by rw [hrn, hl]; exact hle
  have hst := stretch_le_copies hpos
  have hst0 : 0 < 2 * (copies atoms.length : ℝ) + 1 := by positivity
  obtain ⟨f1, f2, f3⟩ := hfit'
  refine ⟨g, g', g'.atoms.take g'.realNop, gb, hrun, by rw [System.getAtoms, if_pos hle'], ?_, fun x hx => ?_⟩
  · rw [List.length_take, min_eq_left hle', hrn, greal, hlen', hlen]
  · obtain ⟨i, hi⟩ := List.mem_iff_getElem?.1 (List.mem_of_mem_take hx)
    have hil : i < g.atoms.length := by rw [← hl]; exact (List.getElem?_eq_some_iff.1 hi).1
    obtain ⟨a', ha', w1, w2, w3, -, -⟩ := hk i _ (List.getElem?_eq_getElem hil)
    rw [hi] at ha'
    cases ha'
    exact ⟨w3, centro_noisy hn hw ha hda hF hcry hsh (mul_pos hst0 lx0) (mul_pos hst0 ly0) (mul_pos hst0 lz0) sb (f1.trans (mul_le_mul_of_nonneg_right hst lx0.le))
      (f2.trans (mul_le_mul_of_nonneg_right hst ly0.le)) (f3.trans (mul_le_mul_of_nonneg_right hst lz0.le)) (List.getElem?_eq_getElem hil) w1 w2⟩

/-- `make_crystal('fcc', lattice_constant=4, repetitions=(4,4,4), noise=0.04)` with Gaussian numbers up to 3: the values of `calculate_centrosymmetry(12)` are at most 1.3824. -/
example (σ : StdSort) (gauss : ℕ → V3) (hg : ∀ k, (gauss k).norm ≤ 3) : ∃ l' box g g' as, makeCrystalNoise "fcc" 4 4 4 4 1 0.04 gauss = .ok (l', box) ∧ buildSystem box l' = .ok g ∧
    System.calculateCentrosymmetry σ 12 g = (g', .ok ()) ∧ g'.getAtoms = .ok as ∧ as.length = 256 ∧ ∀ x ∈ as, 0 ≤ x.centro ∧ x.centro ≤ 1.3824 := by
  obtain ⟨atoms, lx, ly, lz, hm, -⟩ := C40_make_crystal "fcc" (by decide) (a := 4) (ca := 1) (by norm_num) (by norm_num) (nx := 4) (ny := 4) (nz := 4) (by norm_num) (by norm_num) (by norm_num)
  obtain ⟨l', h1, -, -, h2⟩ := (C98_noise "fcc" 4 4 4 4 1 0.04 gauss).2 _ _ hm
  have h3 := h2 0.12 (by norm_num) fun k _ => by nlinarith [hg k]
  obtain ⟨g, g', as, r1, r2, r3, r4, r5⟩ := C98_centrosymmetry σ "fcc" (by decide) (n := 12) (by decide) (a := 4) (ca := 1) (d := 0.12) (by norm_num) (by norm_num) (nx := 4) (ny := 4) (nz := 4)
    (by norm_num) (by norm_num) (by norm_num) (by refine ⟨?_, ?_, ?_⟩ <;> norm_num [Spec.stretch, Spec.basis]) (by rw [Spec.centroNoise, if_neg (by decide), if_neg (by decide), if_pos rfl]; norm_num) hm h3
  refine ⟨l', _, g, g', as, h1, r1, r2, r3, r4, fun x hx => ⟨(r5 x hx).1, (r5 x hx).2.trans (le_of_eq ?_)⟩⟩
  norm_num

end Pyscal
