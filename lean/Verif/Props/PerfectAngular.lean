import Verif.Props.PerfectChi
import Verif.Props.LargeSystems
import Verif.Lemmas.Displaced

/-! C104: the angular criterion in perfect crystals. -/

namespace Pyscal

open Spec (diagBox InBox identity)

/-- A perfect crystal after a search with a cutoff between the first two shells. -/
theorem perfect_searched (σ : StdSort) (name : String) (hn : name ∈ Spec.simple) {a ca r : ℝ} (ha : 0 < a) (hca : 0 < ca) {nx ny nz : ℕ} (hx : 1 ≤ nx) (hy : 1 ≤ ny) (hz : 1 ≤ nz)
    (hr : Spec.FirstShell name a r) (hfit : Spec.RangeFits ((Spec.basis name).length * nx * ny * nz) (nx * a) (ny * a) (nz * a) r) :
    ∃ atoms box s s1 as, makeCrystal name a nx ny nz ca = .ok (atoms, box) ∧ buildSystem box atoms = .ok s ∧ s.findNeighbors σ 0 (.cutoff r) = .ok s1 ∧
      as.length = (Spec.basis name).length * nx * ny * nz ∧ StoreInv s1 as ∧ s1.getBox = diagBox (nx * a) (ny * a) (nz * a) ∧ s1.triclinic = false ∧
      s1.box = diagBox ((2 * copies as.length + 1) * (nx * a)) ((2 * copies as.length + 1) * (ny * a)) ((2 * copies as.length + 1) * (nz * a)) ∧
      (200 ≤ as.length → s1.atoms.length = as.length) ∧ (∀ x ∈ as, InBox (nx * a) (ny * a) (nz * a) x.pos) ∧
      ∀ x ∈ as, (∀ e ∈ x.nbrs, ∃ w, s1.atoms[e.idx]? = some w ∧ e.vec = s1.getDistanceVector w x) ∧
        ∃ L ∈ Spec.shells name, (x.nbrs.map Nb.vec).Perm (L.map (Spec.quarter a)) := by
  have hstr : ∀ name ∈ Spec.simple, name ∈ Spec.cubic ∧ name ∈ Spec.structures ∧ name ≠ "a15" ∧ 0 < (Spec.basis name).length ∧ name ≠ "hcp" := by decide
  obtain ⟨h1, h2, h3, h4, h5⟩ := hstr name hn
  obtain ⟨atoms, lx, ly, lz, hm', ex, ey, ez, hlen, hat, -⟩ := C40_make_crystal name h2 ha hca hx hy hz
  obtain ⟨atoms', box, s, s1, as, hm, hb, hs1, hg, hl, hall⟩ := C95_coordination σ name h1 ha hca hx hy hz hr hfit 0 (by norm_num)
  rw [hm] at hm'
  cases hm'
  have hE : Spec.cellEdges name a ca = ⟨a, a, a⟩ := by rw [Spec.cellEdges, if_neg h5]
  rw [hE] at ex ey ez
  dsimp only at ex ey ez
  subst ex ey ez
  have x0 : (0 : ℝ) < nx := by exact_mod_cast hx
  have y0 : (0 : ℝ) < ny := by exact_mod_cast hy
  have z0 : (0 : ℝ) < nz := by exact_mod_cast hz
  have hatom : ∀ c ∈ atoms, c.ghost = false ∧ InBox (nx * a) (ny * a) (nz * a) c.pos := by
    intro c hc
    obtain ⟨k, hk⟩ := List.mem_iff_getElem?.1 hc
    exact (hat k c hk).2.2
  have hne : atoms ≠ [] := by
    rintro rfl
    have : 0 < (Spec.basis name).length * nx * ny * nz := by positivity
    rw [List.length_nil] at hlen
    exact absurd hlen this.ne
  obtain ⟨s', hb', g1, g2, g3, -, g5⟩ := stored_form (lx := nx * a) (ly := ny * a) (lz := nz * a) (by positivity) (by positivity) (by positivity) hne fun c hc => (hatom c hc).1
  rw [hb] at hb'
  cases hb'
  have hK := Kept.findNeighbors hs1
  have hb0 := hb
  unfold buildSystem at hb0
  obtain ⟨s0, hs0, ha0⟩ := bind_ok hb0
  have hH := (assigned_start hs0 ha0 fun c hc => (hatom c hc).1).2.kept hK
  obtain ⟨reals, hinv, hid⟩ := hH.inv
  have hre : reals = as := by
    have := getAtoms_inv hinv
    rw [hg] at this
    exact (Except.ok.inj this).symm
  subst hre
  have hll : reals.length = atoms.length := by rw [hl, hlen]
  have hr0 : r ≠ 0 := by
    rintro rfl
    exact absurd hr.1 (not_lt.2 (by positivity))
  refine ⟨atoms, _, s, s1, reals, hm, hb, hs1, hl, hinv, hH.getBox, by rw [hK.tri, g3], by rw [hK.box, g2, hll], ?_, ?_, ?_⟩
  · intro h200
    rw [hK.len, g1, hll]
    have : copies atoms.length = 0 := by
      unfold copies
      rw [if_neg (by omega)]
    rw [this, repNew_zero, List.append_nil]
  · intro x hx
    have : identity x ∈ reals.map identity := List.mem_map.2 ⟨x, hx, rfl⟩
    rw [hid] at this
    obtain ⟨c, hc, e⟩ := List.mem_map.1 this
    have e : c.pos = x.pos := congrArg (fun t : ℤ × ℤ × V3 × ℕ × Bool => t.2.2.1) e
    rw [← e]
    exact (hatom c hc).2
  · intro x hx
    constructor
    · intro e he
      obtain ⟨k, hk⟩ := List.mem_iff_getElem?.1 hx
      obtain ⟨gs, hgs, -⟩ := hinv.ex
      have hk1 : s1.atoms[k]? = some x := by
        rw [hgs, List.getElem?_append_left (List.getElem?_eq_some_iff.1 hk).1]
        exact hk
      have hpos : ∀ (j : ℕ) (u : Atom), s.atoms[j]? = some u → ∃ u1, s1.atoms[j]? = some u1 ∧ u1.pos = u.pos := by
        intro j u hu
        have hj := congrArg (fun l => l[j]?) hK.atoms
        simp only [List.getElem?_map, hu, Option.map_some] at hj
        obtain ⟨u1, hu1, e1⟩ := Option.map_eq_some_iff.1 hj
        exact ⟨u1, hu1, congrArg (fun t : ℤ × ℤ × V3 × ℕ × Bool => t.2.2.1) e1⟩
      obtain ⟨u, w, hu, hw, -, hv, -⟩ := C09_sound σ s s1 0 r hr0 hs1 k x hk1 e he
      obtain ⟨u1, hu1, pu⟩ := hpos _ _ hu
      obtain ⟨w1, hw1, pw⟩ := hpos _ _ hw
      rw [hk1] at hu1
      cases hu1
      refine ⟨w1, hw1, ?_⟩
      rw [hv, System.getDistanceVector, pu, pw]
      exact (image_congr hK.box hK.tri (fun _ => ⟨hK.rot, hK.rotinv⟩) _).symm
    · obtain ⟨L, hL, hp⟩ := (hall x hx).2 h3 rfl
      refine ⟨L, hL, ?_⟩
      have := hp.map fun t => t.2.2
      rw [List.map_map, List.map_map] at this
      exact this

theorem diamond_dots : ∀ L ∈ Spec.shells "diamond", L.length = 4 ∧ L.Nodup ∧ ∀ v ∈ L, nsq v = 3 ∧ ∀ w ∈ L, v ≠ w → dotK v w = -1 := by decide +kernel

theorem shells_up : ∀ name ∈ Spec.simple, ∀ L ∈ Spec.shells name, ∃ v ∈ L, 0 < v.1 := by decide +kernel

theorem cosAngle_neg (u v : V3) : Spec.cosAngle (-u) (-v) = Spec.cosAngle u v := by
  unfold Spec.cosAngle
  rw [V3.norm_neg, V3.norm_neg]
  congr 1
  simp [V3.dot]

/-- **C104, as far as it holds**.  Full statement: in every diamond crystal made with `make_crystal` the angular criterion of every atom is 0.  Proved for crystals of at least 200
atoms; with fewer the call fails (`C104_false_small`).  In a diamond crystal of at least 200 atoms made with `make_crystal`, `calculate_angularcriteria` after a search with a cutoff between the
nearest neighbours and the next shell gives every atom the value 0, in exact arithmetic. -/
theorem C104_partial (σ : StdSort) {a ca r : ℝ} (ha : 0 < a) (hca : 0 < ca) {nx ny nz : ℕ} (hx : 1 ≤ nx) (hy : 1 ≤ ny) (hz : 1 ≤ nz)
    (hr : Spec.FirstShell "diamond" a r) (hfit : Spec.RangeFits (8 * nx * ny * nz) (nx * a) (ny * a) (nz * a) r) (hN : 200 ≤ 8 * nx * ny * nz) :
    ∃ atoms box s s1 s2 as, makeCrystal "diamond" a nx ny nz ca = .ok (atoms, box) ∧ buildSystem box atoms = .ok s ∧ s.findNeighbors σ 0 (.cutoff r) = .ok s1 ∧
      s1.calculateAngular σ = .ok s2 ∧ s2.getAtoms = .ok as ∧ as.length = 8 * nx * ny * nz ∧ ∀ x ∈ as, x.angular = some 0 := by
  have hB : (Spec.basis "diamond").length = 8 := by decide
  obtain ⟨atoms, box, s, s1, as, hm, hb, hs1, hl, hinv, hbox, ht, hbx, hlen, hin, hall⟩ := perfect_searched σ "diamond" (by decide) ha hca hx hy hz hr (by rw [hB]; exact hfit)
  rw [hB] at hl
  have hlen := hlen (by omega)
  have hat : s1.atoms = as := by
    obtain ⟨gs, hgs, -⟩ := hinv.ex
    rw [hgs, List.length_append] at hlen
    rw [hgs, List.length_eq_zero_iff.1 (by omega : gs.length = 0), List.append_nil]
  have hvec : ∀ x ∈ as, ∀ e ∈ x.nbrs, e.idx < as.length ∧ s1.getDistanceVector x (as.getD e.idx default) = -e.vec := by
    intro x hx e he
    obtain ⟨w, hw, hv⟩ := (hall x hx).1 e he
    rw [hat] at hw
    refine ⟨(List.getElem?_eq_some_iff.1 hw).1, ?_⟩
    rw [List.getD_eq_getElem?_getD, hw, Option.getD_some, hv]
    exact (C02_symmetry s1 x w (fun h => by rw [ht] at h; cases h)).2.1
  have hquart : ∀ x ∈ as, ∃ L ∈ Spec.shells "diamond", ∃ K : List (ℤ × ℤ × ℤ), K.Perm L ∧ x.nbrs.map Nb.vec = K.map (Spec.quarter a) := by
    intro x hx
    obtain ⟨L, hL, hp⟩ := (hall x hx).2
    exact ⟨L, hL, exists_points (fun _ _ => quarter_inj ha) hp⟩
  have hnz : ∀ x ∈ as, ∀ e ∈ x.nbrs, s1.getDistanceVector x (as.getD e.idx default) ≠ 0 := by
    intro x hx e he h0
    rw [(hvec x hx e he).2] at h0
    obtain ⟨L, hL, hp⟩ := (hall x hx).2
    obtain ⟨v, hv, hv'⟩ := List.mem_map.1 (hp.subset (List.mem_map.2 ⟨e, he, rfl⟩))
    refine quarter_ne ha (k := v) (by rw [((diamond_dots L hL).2.2 v hv).1]; norm_num) ?_
    rw [hv']
    have c1 : -e.vec.x = 0 := congrArg V3.x h0
    have c2 : -e.vec.y = 0 := congrArg V3.y h0
    have c3 : -e.vec.z = 0 := congrArg V3.z h0
    exact V3.ext (neg_eq_zero.1 c1) (neg_eq_zero.1 c2) (neg_eq_zero.1 c3)
  have x0 : (0 : ℝ) < nx := by exact_mod_cast hx
  have y0 : (0 : ℝ) < ny := by exact_mod_cast hy
  have z0 : (0 : ℝ) < nz := by exact_mod_cast hz
  obtain ⟨s2, hs2⟩ := (C59_errors σ s1 as hinv).2 (fun x hx e he => (hvec x hx e he).1) hnz (by omega) (by
    rw [hbox]
    simp only [boxSum, diagBox]
    positivity) (fun h => by
    rw [hbox] at h
    exact absurd ((skewed_iff _).2 h) (not_skewed_diag _ _ _))
  obtain ⟨l, hg, hll, hk⟩ := C59_partial σ s1 s2 as hinv hnz hs2
  refine ⟨atoms, box, s, s1, s2, l, hm, hb, hs1, hs2, hg, by rw [hll, hl], fun y hy => ?_⟩
  obtain ⟨k, hky⟩ := List.mem_iff_getElem?.1 hy
  have hkl : k < as.length := by rw [← hll]; exact (List.getElem?_eq_some_iff.1 hky).1
  obtain ⟨a', t, x, h1, h2, h3, -, -, -, h6⟩ := hk k as[k] (List.getElem?_eq_getElem hkl)
  rw [hky] at h1
  cases h1
  rw [h2]
  refine congrArg some (h6.2 fun p hp => ?_)
  have hmem : as[k] ∈ as := List.getElem_mem hkl
  obtain ⟨L, hL, K, hK, hKv⟩ := hquart _ hmem
  obtain ⟨d1, d2, d3⟩ := diamond_dots L hL
  have hK4 : K.length = as[k].nbrs.length := by
    have := congrArg List.length hKv
    rw [List.length_map, List.length_map] at this
    exact this.symm
  have hget : ∀ i, ∀ hi : i < as[k].nbrs.length, s1.getDistanceVector as[k] (Spec.nbAtom as as[k] i) = -Spec.quarter a (K[i]'(by omega)) := by
    intro i hi
    have e1 : Spec.nbAtom as as[k] i = as.getD (as[k].nbrs[i]).idx default := by
      unfold Spec.nbAtom
      congr 1
      rw [List.getD_eq_getElem?_getD, List.getElem?_map, List.getElem?_eq_getElem hi]
      rfl
    rw [e1, (hvec _ hmem _ (List.getElem_mem hi)).2]
    have := congrArg (fun l => l[i]?) hKv
    simp only [List.getElem?_map] at this
    rw [List.getElem?_eq_getElem hi, List.getElem?_eq_getElem (by omega)] at this
    rw [Option.some.inj this]
  have hp' : p.1 < p.2 ∧ p.2 < t.length := by
    rw [← pairSet_eq, List.mem_toFinset, mem_pairs] at hp
    exact ⟨by omega, by omega⟩
  have ht1 : t[p.1]'(by omega) < as[k].nbrs.length := h3.lt _ (List.getElem_mem _)
  have ht2 : t[p.2]'(by omega) < as[k].nbrs.length := h3.lt _ (List.getElem_mem _)
  have g1 : t.getD p.1 0 = t[p.1]'(by omega) := by rw [List.getD_eq_getElem?_getD, List.getElem?_eq_getElem (by omega)]; rfl
  have g2 : t.getD p.2 0 = t[p.2]'(by omega) := by rw [List.getD_eq_getElem?_getD, List.getElem?_eq_getElem (by omega)]; rfl
  rw [g1, g2, hget _ ht1, hget _ ht2, cosAngle_neg]
  have m1 : K[t[p.1]'(by omega)]'(by omega) ∈ L := hK.subset (List.getElem_mem _)
  have m2 : K[t[p.2]'(by omega)]'(by omega) ∈ L := hK.subset (List.getElem_mem _)
  have hne : K[t[p.1]'(by omega)]'(by omega) ≠ K[t[p.2]'(by omega)]'(by omega) := by
    intro h
    have := (List.Nodup.getElem_inj_iff (hK.nodup_iff.2 d2)).1 h
    have := (List.Nodup.getElem_inj_iff h3.nodup).1 this
    omega
  rw [cos_quarter ha (d := 3) (by norm_num) (d3 _ m1).1 (d3 _ m2).1, (d3 _ m1).2 _ m2 hne]
  norm_num

/-- The hypotheses: lattice constant 4, 3 x 3 x 3 cells and the cutoff 2. -/
example (σ : StdSort) := C104_partial σ (a := 4) (ca := 1) (r := 2) (by norm_num) (by norm_num) (nx := 3) (ny := 3) (nz := 3) (by norm_num) (by norm_num) (by norm_num)
  (by
    have t3 : Real.sqrt 3 < 1.8 := by rw [Real.sqrt_lt' (by norm_num)]; norm_num
    have t8 : (2.8 : ℝ) < Real.sqrt 8 := by rw [Real.lt_sqrt (by norm_num)]; norm_num
    constructor <;> norm_num [Spec.limits] <;> linarith) (by simp only [Spec.RangeFits]; refine ⟨?_, ?_, ?_⟩ <;> norm_num) (by norm_num)

/-- **C104 is false for small crystals**: with fewer than 200 atoms `calculate_angularcriteria` raises IndexError for every perfect crystal of the simple structures: the
atom farthest to the right has a copy as a neighbour, whose number is beyond the end of `atoms`. -/
theorem C104_false_small (σ : StdSort) (name : String) (hn : name ∈ Spec.simple) {a ca r : ℝ} (ha : 0 < a) (hca : 0 < ca) {nx ny nz : ℕ} (hx : 1 ≤ nx) (hy : 1 ≤ ny) (hz : 1 ≤ nz)
    (hr : Spec.FirstShell name a r) (hfit : Spec.RangeFits ((Spec.basis name).length * nx * ny * nz) (nx * a) (ny * a) (nz * a) r)
    (hN : (Spec.basis name).length * nx * ny * nz < 200) :
    ∃ atoms box s s1, makeCrystal name a nx ny nz ca = .ok (atoms, box) ∧ buildSystem box atoms = .ok s ∧ s.findNeighbors σ 0 (.cutoff r) = .ok s1 ∧
      s1.calculateAngular σ = .error .indexError := by
  obtain ⟨atoms, box, s, s1, as, hm, hb, hs1, hl, hinv, hbox, ht, hbx, -, hin, hall⟩ := perfect_searched σ name hn ha hca hx hy hz hr hfit
  have hpos : ∀ name ∈ Spec.simple, 0 < (Spec.basis name).length := by decide
  have hp := hpos name hn
  have x0 : (0 : ℝ) < nx := by exact_mod_cast hx
  have y0 : (0 : ℝ) < ny := by exact_mod_cast hy
  have z0 : (0 : ℝ) < nz := by exact_mod_cast hz
  refine ⟨atoms, box, s, s1, hm, hb, hs1, (C59_errors σ s1 as hinv).1 ?_⟩
  by_contra hc
  push Not at hc
  have hne : as ≠ [] := by
    rintro rfl
    have : 0 < (Spec.basis name).length * nx * ny * nz := by positivity
    rw [List.length_nil] at hl
    exact absurd hl this.ne
  obtain ⟨u, hu, hmax⟩ : ∃ u ∈ as, ∀ w ∈ as, w.pos.x ≤ u.pos.x := by
    obtain ⟨u, hu, h⟩ := Set.exists_max_image {x | x ∈ as} (fun x : Atom => x.pos.x) as.finite_toSet (List.exists_mem_of_ne_nil _ hne)
    exact ⟨u, hu, h⟩
  obtain ⟨h1, L, hL, hperm⟩ := hall u hu
  obtain ⟨v, hv, hv0⟩ := shells_up name hn L hL
  obtain ⟨e, he, hev⟩ := List.mem_map.1 (hperm.symm.subset (List.mem_map.2 ⟨v, hv, rfl⟩))
  obtain ⟨w, hw, hew⟩ := h1 e he
  have hwa : w ∈ as := by
    obtain ⟨gs, hgs, -⟩ := hinv.ex
    rw [hgs, List.getElem?_append_left (hc u hu e he)] at hw
    exact List.mem_of_getElem? hw
  have hk1 : (1 : ℝ) ≤ copies as.length := by
    have : 1 ≤ copies as.length := by
      unfold copies
      rw [if_pos (by omega)]
      by_contra h0
      have := padReps_total (n := as.length) (List.length_pos_iff.2 hne) (by omega)
      rw [show padReps as.length = 0 by omega] at this
      omega
    exact_mod_cast this
  have hwx := (hin w hwa).1
  have hux := (hin u hu).1
  have hbig : 3 * (nx * a) ≤ (2 * (copies as.length : ℝ) + 1) * (nx * a) := by
    have : 0 < nx * a := by positivity
    nlinarith
  have him := image_diag s1 _ _ _ (by positivity) (by positivity) (by positivity) ht hbx (w.pos - u.pos)
  have hx1 : (Spec.quarter a v).x = w.pos.x - u.pos.x := by
    rw [← hev, hew, System.getDistanceVector, him]
    have e0 : (w.pos - u.pos).x = w.pos.x - u.pos.x := rfl
    dsimp only
    rw [e0]
    unfold wrap
    have e1 : ¬ w.pos.x - u.pos.x > (2 * (copies as.length : ℝ) + 1) * (nx * a) / 2 := by linarith [hwx.2, hux.1, hwx.1, hux.2]
    have e2 : ¬ w.pos.x - u.pos.x < -((2 * (copies as.length : ℝ) + 1) * (nx * a)) / 2 := by linarith [hwx.2, hux.1, hwx.1, hux.2]
    simp only [if_neg e1, if_neg e2]
  have hq : 0 < (Spec.quarter a v).x := by
    have : (0 : ℝ) < v.1 := by exact_mod_cast hv0
    simp only [Spec.quarter]
    positivity
  linarith [hmax w hwa]

/-- The hypotheses: a diamond crystal of 2 x 2 x 2 cells. -/
example (σ : StdSort) := C104_false_small σ "diamond" (by decide) (a := 4) (ca := 1) (r := 2) (by norm_num) (by norm_num) (nx := 2) (ny := 2) (nz := 2) (by norm_num) (by norm_num) (by norm_num)
  (by
    have t3 : Real.sqrt 3 < 1.8 := by rw [Real.sqrt_lt' (by norm_num)]; norm_num
    have t8 : (2.8 : ℝ) < Real.sqrt 8 := by rw [Real.lt_sqrt (by norm_num)]; norm_num
    constructor <;> norm_num [Spec.limits] <;> linarith) (by simp only [Spec.RangeFits, Spec.basis, List.length_cons, List.length_nil]; refine ⟨?_, ?_, ?_⟩ <;> norm_num) (by simp [Spec.basis])

end Pyscal
