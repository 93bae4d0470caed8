import Verif.Props.Cutoff
import Verif.Lemmas.Floating

/-! Distances and neighbours computed with floating-point numbers (C103). -/

namespace Pyscal

open Spec

/-- Rounding of negative numbers as of positive ones, as IEEE 754 rounds. -/
noncomputable def flOdd (x : ℝ) : ℝ := if x < 0 then -flExample (-x) else flExample x

theorem flOdd_rounds : RoundsToNearest flOdd := by
  intro x
  unfold flOdd
  split_ifs
  · obtain ⟨h1, h2⟩ := flExample_rounds (-x)
    refine ⟨double_neg h1, fun y hy => ?_⟩
    have := h2 (-y) (double_neg hy)
    rw [show -flExample (-x) - x = -(flExample (-x) - -x) by ring, abs_neg, show y - x = -(-y - -x) by ring, abs_neg]
    exact this
  · exact flExample_rounds x

theorem flOdd_odd (x : ℝ) : flOdd (-x) = -flOdd x := by
  unfold flOdd
  rcases lt_trichotomy x 0 with h | rfl | h
  · rw [if_neg (by linarith), if_pos h, neg_neg]
  · simp [flExample]
  · rw [if_pos (by linarith), if_neg (by linarith), neg_neg]

theorem flSub_swap {fl : ℝ → ℝ} (hodd : ∀ x, fl (-x) = -fl x) (p q : V3) : flSub fl q p = -flSub fl p q := by
  ext <;> simp only [flSub, V3.neg_x, V3.neg_y, V3.neg_z, ← hodd, neg_sub]

/-- **C103, symmetry**: in floating-point arithmetic (rounding to nearest, with the same rule for positive and negative numbers) `get_distance` is symmetric and not negative,
the displacement is antisymmetric, and the distance of an atom to itself is exactly zero; in every box. -/
theorem C103_symmetry {fl : ℝ → ℝ} (h : RoundsToNearest fl) (hodd : ∀ x, fl (-x) = -fl x) (s : System) (a b : Atom)
    (_hbox : s.triclinic = true → s.box.r0 ≠ 0 ∧ s.box.r1 ≠ 0 ∧ s.box.r2 ≠ 0) :
    s.flDistance fl a b = s.flDistance fl b a ∧ s.flDistanceVector fl a b = -s.flDistanceVector fl b a ∧ 0 ≤ s.flDistance fl a b ∧ s.flDistance fl a a = 0 := by
  have hv : ∀ a b : Atom, s.flDistanceVector fl a b = -s.flDistanceVector fl b a := by
    intro a b
    unfold System.flDistanceVector
    rw [flSub_swap hodd b.pos a.pos, flImage_odd h hodd]
  refine ⟨?_, hv a b, flNorm_nonneg h _, ?_⟩
  · unfold System.flDistance
    rw [hv a b, flNorm_neg]
  · unfold System.flDistance
    have e := hv a a
    have e0 : s.flDistanceVector fl a a = 0 := by
      have hx := congrArg V3.x e
      have hy := congrArg V3.y e
      have hz := congrArg V3.z e
      simp only [V3.neg_x, V3.neg_y, V3.neg_z] at hx hy hz
      ext
      · rw [V3.zero_x]; linarith
      · rw [V3.zero_y]; linarith
      · rw [V3.zero_z]; linarith
    rw [e0]
    simp [flNorm, flDot, fl_zero h]

/-- A way of rounding as in the theorem, and a skewed box. -/
example := C103_symmetry flOdd_rounds flOdd_odd skewSys { (default : Atom) with pos := ⟨0.1, 0.2, 0.3⟩ } default (fun _ => by
  refine ⟨?_, ?_, ?_⟩ <;> rw [Ne, V3.ext_iff] <;> norm_num [skewSys, skewBox])

/-- **C103, accuracy**: in an orthogonal box (edges that are floating-point numbers), for positions that differ by at most the box length along each axis, the computed
distance differs from the length of the shortest periodic image by at most `(lx + ly + lz) / 2^51`, although the computed differences may fall on the other side of half a box. -/
theorem C103_accuracy {fl : ℝ → ℝ} (h : RoundsToNearest fl) (s0 s : System) (lx ly lz : ℝ) (dx : IsDouble lx) (dy : IsDouble ly) (dz : IsDouble lz)
    (hx : 0 < lx) (hy : 0 < ly) (hz : 0 < lz) (h0 : s0.triclinic = false) (hs : s0.setBox (diagBox lx ly lz) = .ok s) (a b : Atom)
    (hdx : |a.pos.x - b.pos.x| ≤ lx) (hdy : |a.pos.y - b.pos.y| ≤ ly) (hdz : |a.pos.z - b.pos.z| ≤ lz) (v : V3)
    (hv : IsShortestImage (diagBox lx ly lz) (a.pos - b.pos) v) : |s.flDistance fl a b - V3.norm v| ≤ (lx + ly + lz) / 2 ^ 51 := by
  have hb : s = { s0 with box := diagBox lx ly lz } := by
    simpa [System.setBox, not_skewed_diag] using hs.symm
  obtain ⟨h1, h2, -⟩ := C01_min_image s0 s lx ly lz hx hy hz h0 hs a b (by linarith) (by linarith) (by linarith)
  have e : V3.norm v = s.getDistance a b := by
    rw [h2]
    exact le_antisymm (hv.2 _ h1.1) (h1.2 _ hv.1)
  rw [e]
  refine flImage_close h dx dy dz hx.le hy.le hz.le ?_ ?_ hdx hdy hdz
  · rw [hb]; exact h0
  · rw [hb]

/-- Two atoms in a cubic box. -/
example := C103_accuracy flOdd_rounds System.init { System.init with box := diagBox 10 10 10 } 10 10 10 ⟨10, 0, by norm_num, by norm_num⟩ ⟨10, 0, by norm_num, by norm_num⟩
  ⟨10, 0, by norm_num, by norm_num⟩ (by norm_num) (by norm_num) (by norm_num) rfl (by simp [System.setBox, not_skewed_diag]) { (default : Atom) with pos := ⟨9, 0, 0⟩ } { (default : Atom) with pos := ⟨1, 0, 0⟩ }
  (by norm_num) (by norm_num) (by norm_num)

/-- The computation with rounding is the exact one when nothing is rounded, in every box. -/
theorem C103_exact (s : System) (a b : Atom) : s.flDistanceVector id a b = s.getDistanceVector a b ∧ s.flDistance id a b = s.getDistance a b := by
  have hw : ∀ b d : ℝ, flWrap id b d = wrap b d := fun _ _ => rfl
  have hn : ∀ v : V3, flNorm id v = V3.norm v := fun _ => rfl
  have hm : ∀ (m : Mat3) (v : V3), flMulVec id m v = m.mulVec v := fun _ _ => rfl
  have hi : ∀ d : V3, s.flImage id d = s.image d := by
    intro d
    unfold System.flImage System.image System.boxx System.boxy System.boxz
    simp only [hw, hn, hm, id]
  exact ⟨hi _, by unfold System.flDistance System.flDistanceVector; rw [hn, hi]; rfl⟩

/-- A skewed box. -/
example := C103_exact skewSys { (default : Atom) with pos := ⟨0.1, 0.2, 0.3⟩ } default

/-! ### The direct search -/

/-- The displacement between two stored atoms as the search computes it (system.cpp 739). -/
noncomputable def System.flDiffOf (fl : ℝ → ℝ) (s : System) (i j : ℕ) : V3 := s.flImage fl (flSub fl (s.posOf j) (s.posOf i))

/-- Its length. -/
noncomputable def System.flDistOf (fl : ℝ → ℝ) (s : System) (i j : ℕ) : ℝ := flNorm fl (s.flDiffOf fl i j)

section

variable {fl : ℝ → ℝ} (h : RoundsToNearest fl) (hodd : ∀ x, fl (-x) = -fl x)

include h hodd

theorem flDiffOf_swap (s : System) (i j : ℕ) : s.flDiffOf fl j i = -s.flDiffOf fl i j := by
  unfold System.flDiffOf
  rw [flSub_swap hodd, flImage_odd h hodd]

theorem flDistOf_comm (s : System) (i j : ℕ) : s.flDistOf fl j i = s.flDistOf fl i j := by
  unfold System.flDistOf
  rw [flDiffOf_swap h hodd, flNorm_neg]

open Classical in
theorem flHit_contrib (s : System) (k : ℕ) :
    (∀ i, i < k → contrib (flCutoffHit fl s) k (i, k) =
      if s.flDistOf fl k i < s.neighbordistance ∧ filterOK s.filter (s.typeOf k) (s.typeOf i) = true then
        [⟨i, s.flDistOf fl k i, 1, s.flDiffOf fl k i⟩] else []) ∧
    (∀ j, k < j → contrib (flCutoffHit fl s) k (k, j) =
      if s.flDistOf fl k j < s.neighbordistance ∧ filterOK s.filter (s.typeOf k) (s.typeOf j) = true then
        [⟨j, s.flDistOf fl k j, 1, s.flDiffOf fl k j⟩] else []) := by
  have e : ∀ i j, flCutoffHit fl s i j = if s.flDistOf fl i j < s.neighbordistance then if filterOK s.filter (s.typeOf i) (s.typeOf j) then
      some (⟨j, s.flDistOf fl i j, 1, s.flDiffOf fl i j⟩, ⟨i, s.flDistOf fl i j, 1, -s.flDiffOf fl i j⟩) else none else none := fun _ _ => rfl
  constructor
  · intro i hi
    simp only [contrib, e]
    rw [flDistOf_comm h hodd s i k, filterOK_comm _ (s.typeOf k)]
    by_cases h1 : s.flDistOf fl i k < s.neighbordistance
    · by_cases h2 : filterOK s.filter (s.typeOf i) (s.typeOf k) = true
      · simp only [h1, h2, and_self, if_true]
        rw [if_neg (by omega), flDiffOf_swap h hodd s i k]
      · simp [h1, h2]
    · simp [h1]
  · intro j hj
    simp only [contrib, e]
    by_cases h1 : s.flDistOf fl k j < s.neighbordistance
    · by_cases h2 : filterOK s.filter (s.typeOf k) (s.typeOf j) = true
      · simp only [h1, h2, and_self, if_true]
      · simp [h1, h2]
    · simp [h1]

open Classical in
theorem flNormal_nbrs (s : System) (k : ℕ) (hk : k < s.atoms.length) :
    ((s.flNeighborsNormal fl).mem k).nbrs = (s.mem k).nbrs ++ ((List.range s.atoms.length).filter fun j => j ≠ k ∧ (s.flDistOf fl k j < s.neighbordistance ∧
        filterOK s.filter (s.typeOf k) (s.typeOf j) = true)).map fun j => ⟨j, s.flDistOf fl k j, 1, s.flDiffOf fl k j⟩ := by
  unfold System.flNeighborsNormal
  rw [ofMem_mem _ _ _ (by exact hk), pairLoop_apply _ _ _ pairs_ne, foldl_pushNbCut]
  have hc := flHit_contrib h hodd { s with voronoiused := false } k
  rw [pairs_flatMap_contrib _ _ _ (by exact hk) _ hc.1 hc.2, flatMap_ite_single]
  rw [List.filter_filter]
  have : ∀ (l : List ℕ), (l.filter fun a => (decide (({ s with voronoiused := false } : System).flDistOf fl k a <
      ({ s with voronoiused := false } : System).neighbordistance ∧ filterOK ({ s with voronoiused := false } : System).filter
        (({ s with voronoiused := false } : System).typeOf k) (({ s with voronoiused := false } : System).typeOf a) = true) &&
        decide (a ≠ k))) = l.filter fun j => decide (j ≠ k ∧ (s.flDistOf fl k j < s.neighbordistance ∧
        filterOK s.filter (s.typeOf k) (s.typeOf j) = true)) := by
    intro l
    refine List.filter_congr fun a _ => ?_
    rw [Bool.eq_iff_iff]
    simp only [Bool.and_eq_true, decide_eq_true_eq]
    exact ⟨fun h => ⟨h.2, h.1⟩, fun h => ⟨h.2, h.1⟩⟩
  rw [this]
  rfl

open Classical in
/-- The neighbours after a search, by index. -/
theorem flStart_nbrs (s : System) (r : ℝ) (f k : ℕ) (hk : k < s.atoms.length) :
    ((System.flNeighborsNormal fl { s.startSearch f with neighbordistance := r }).mem k).nbrs = ((List.range s.atoms.length).filter fun j => j ≠ k ∧ (s.flDistOf fl k j < r ∧
        filterOK f (s.typeOf k) (s.typeOf j) = true)).map fun j => ⟨j, s.flDistOf fl k j, 1, s.flDiffOf fl k j⟩ := by
  set s1 : System := { s.startSearch f with neighbordistance := r } with hs1
  have hl : s1.atoms.length = s.atoms.length := resetAll_length s
  have hv : ∀ i j, s1.flDiffOf fl i j = s.flDiffOf fl i j := by
    intro i j
    have p : ∀ i, s1.posOf i = s.posOf i := fun i => resetAll_posOf s i
    unfold System.flDiffOf
    rw [p, p]
    rfl
  have hd : ∀ i j, s1.flDistOf fl i j = s.flDistOf fl i j := fun i j => by unfold System.flDistOf; rw [hv]
  have ht : ∀ i, s1.typeOf i = s.typeOf i := fun i => resetAll_typeOf s i
  have hm : s1.mem k = { s.mem k with nbrs := [], temp := [], condition := some 0 } := resetAll_mem s k hk
  rw [flNormal_nbrs h hodd s1 k (by rw [hl]; exact hk)]
  simp only [hl, hd, hv, ht, hm, List.nil_append]
  rfl

end

theorem flNormal_length (fl : ℝ → ℝ) (s : System) : (s.flNeighborsNormal fl).atoms.length = s.atoms.length := by
  simp [System.flNeighborsNormal]

theorem flFind_ok {fl : ℝ → ℝ} {s s' : System} {f : ℕ} {r : ℝ} (e : s.flFindNeighbors fl f r = .ok s') :
    s'.atoms = (System.flNeighborsNormal fl { s.startSearch f with neighbordistance := r }).atoms := by
  unfold System.flFindNeighbors at e
  simp only [bind, Except.bind] at e
  split at e
  · cases e
  split at e
  · cases e
  · rename_i h2
    cases e
    unfold System.checkCapacity at h2
    split_ifs at h2
    cases h2
    rfl

/-- The conditions of the theorems on searches: an orthogonal box whose edges are floating-point numbers, and atoms that differ by at most the box length along each axis (as
atoms inside the box do). -/
structure Spec.FloatBox (s : System) (lx ly lz : ℝ) : Prop where
  untilted : s.triclinic = false
  box : s.box = diagBox lx ly lz
  doubles : IsDouble lx ∧ IsDouble ly ∧ IsDouble lz
  pos : 0 < lx ∧ 0 < ly ∧ 0 < lz
  inside : ∀ a ∈ s.atoms, ∀ b ∈ s.atoms, |a.pos.x - b.pos.x| ≤ lx ∧ |a.pos.y - b.pos.y| ≤ ly ∧ |a.pos.z - b.pos.z| ≤ lz

theorem flDistOf_close {fl : ℝ → ℝ} (h : RoundsToNearest fl) {s : System} {lx ly lz : ℝ} (hs : Spec.FloatBox s lx ly lz) {i j : ℕ} (hi : i < s.atoms.length) (hj : j < s.atoms.length) :
    |s.flDistOf fl i j - s.distOf i j| ≤ (lx + ly + lz) / 2 ^ 51 := by
  have e : ∀ k (hk : k < s.atoms.length), s.posOf k = s.atoms[k].pos := fun k hk => by rw [System.posOf, mem_eq_getElem s k hk]
  obtain ⟨h1, h2, h3⟩ := hs.inside _ (List.getElem_mem (h := hj)) _ (List.getElem_mem (h := hi))
  rw [← e, ← e] at h1 h2 h3
  exact flImage_close h hs.doubles.1 hs.doubles.2.1 hs.doubles.2.2 hs.pos.1.le hs.pos.2.1.le hs.pos.2.2.le hs.untilted hs.box h1 h2 h3

/-- **C103, neighbours**: a search with a numeric cutoff and at most 2300 atoms, in floating-point arithmetic.  Every atom is listed at most once, in the order of the
indices; the lists are symmetric, with the same distance and the opposite vector; the listed distances are computed ones below the cutoff; every atom that is closer than the cutoff by more than
`(lx + ly + lz) / 2^51` is listed, and none that is further away by at least as much. -/
theorem C103_neighbors {fl : ℝ → ℝ} (h : RoundsToNearest fl) (hodd : ∀ x, fl (-x) = -fl x) {s s' : System} {lx ly lz : ℝ} (hs : Spec.FloatBox s lx ly lz) (f : ℕ) (r : ℝ)
    (e : s.flFindNeighbors fl f r = .ok s') {k : ℕ} {a a' : Atom} (ha : s.atoms[k]? = some a) (ha' : s'.atoms[k]? = some a') :
    (a'.nbrs.map Nb.idx).Pairwise (· < ·) ∧
    (∀ x ∈ a'.nbrs, x.dist < r ∧ x.weight = 1 ∧ ∃ b b', s.atoms[x.idx]? = some b ∧ s'.atoms[x.idx]? = some b' ∧ x.dist = s.flDistance fl b a ∧ x.vec = s.flDistanceVector fl b a ∧
      ⟨k, x.dist, 1, -x.vec⟩ ∈ b'.nbrs) ∧
    ∀ j b, j ≠ k → s.atoms[j]? = some b → ∀ v, IsShortestImage (diagBox lx ly lz) (b.pos - a.pos) v → FilterAllows f a b →
      (V3.norm v < r - (lx + ly + lz) / 2 ^ 51 → ∃ x ∈ a'.nbrs, x.idx = j ∧ |x.dist - V3.norm v| ≤ (lx + ly + lz) / 2 ^ 51) ∧
      (r + (lx + ly + lz) / 2 ^ 51 ≤ V3.norm v → ∀ x ∈ a'.nbrs, x.idx ≠ j) := by
  classical
  have hat := flFind_ok e
  set N := System.flNeighborsNormal fl { s.startSearch f with neighbordistance := r } with hN
  have hlen : N.atoms.length = s.atoms.length := by
    rw [hN, flNormal_length]
    exact resetAll_length s
  have hnb : ∀ i b', s'.atoms[i]? = some b' → i < s.atoms.length ∧ b'.nbrs = ((List.range s.atoms.length).filter fun j => j ≠ i ∧ (s.flDistOf fl i j < r ∧
        filterOK f (s.typeOf i) (s.typeOf j) = true)).map fun j => ⟨j, s.flDistOf fl i j, 1, s.flDiffOf fl i j⟩ := by
    intro i b' hb'
    rw [hat] at hb'
    obtain ⟨hi, rfl⟩ := mem_of_getElem? hb'
    rw [hlen] at hi
    exact ⟨hi, flStart_nbrs h hodd s r f i hi⟩
  obtain ⟨hk, hl⟩ := hnb k a' ha'
  have hpos : ∀ i b, s.atoms[i]? = some b → s.posOf i = b.pos := by
    intro i b hb
    rw [System.posOf, (mem_of_getElem? hb).2]
  have htyp : ∀ i b, s.atoms[i]? = some b → s.typeOf i = b.type := by
    intro i b hb
    rw [System.typeOf, (mem_of_getElem? hb).2]
  have hdf : ∀ i b, s.atoms[i]? = some b → s.flDiffOf fl k i = s.flDistanceVector fl b a := by
    intro i b hb
    unfold System.flDiffOf
    rw [hpos i b hb, hpos k a ha]
    rfl
  have hds : ∀ i b, s.atoms[i]? = some b → s.flDistOf fl k i = s.flDistance fl b a := by
    intro i b hb
    unfold System.flDistOf
    rw [hdf i b hb]
    rfl
  refine ⟨?_, ?_, ?_⟩
  · rw [hl, List.map_map]
    have : (Nb.idx ∘ fun j => (⟨j, s.flDistOf fl k j, 1, s.flDiffOf fl k j⟩ : Nb)) = id := rfl
    rw [this, List.map_id]
    exact List.pairwise_lt_range.filter _
  · intro x hx
    rw [hl, List.mem_map] at hx
    obtain ⟨j, hj, rfl⟩ := hx
    simp only [List.mem_filter, List.mem_range, decide_eq_true_eq] at hj
    obtain ⟨hj, hne, hr, hf⟩ := hj
    have hb : s.atoms[j]? = some s.atoms[j] := List.getElem?_eq_getElem hj
    have hb' : s'.atoms[j]? = some (s'.atoms[j]'(by rw [hat, hlen]; exact hj)) := List.getElem?_eq_getElem _
    refine ⟨hr, rfl, _, _, hb, hb', hds j _ hb, hdf j _ hb, ?_⟩
    rw [(hnb j _ hb').2, List.mem_map]
    refine ⟨k, ?_, ?_⟩
    · simp only [List.mem_filter, List.mem_range, decide_eq_true_eq]
      refine ⟨hk, fun e => hne e.symm, ?_, ?_⟩
      · rw [flDistOf_comm h hodd]; exact hr
      · rw [filterOK_comm]; exact hf
    · simp only [Nb.mk.injEq, true_and]
      exact ⟨flDistOf_comm h hodd s k j, flDiffOf_swap h hodd s k j⟩
  · intro j b hne hb v hv hfa
    have hj := (mem_of_getElem? hb).1
    have hc := flDistOf_close h hs hk hj
    have hin := hs.inside b (List.mem_of_getElem? hb) a (List.mem_of_getElem? ha)
    have hsh : IsShortestImage (diagBox lx ly lz) (b.pos - a.pos) (s.image (b.pos - a.pos)) := by
      have := image_diag_shortest s lx ly lz hs.pos.1.le hs.pos.2.1.le hs.pos.2.2.le hs.untilted hs.box (b.pos - a.pos)
        (hin.1.trans (by linarith [hs.pos.1])) (hin.2.1.trans (by linarith [hs.pos.2.1])) (hin.2.2.trans (by linarith [hs.pos.2.2]))
      rwa [hs.box] at this
    have ed : s.distOf k j = V3.norm v := by
      have e1 : s.distOf k j = V3.norm (s.image (b.pos - a.pos)) := by
        rw [System.distOf, System.distIdx, System.diffIdx, hpos j b hb, hpos k a ha]
      rw [e1]
      exact le_antisymm (hsh.2 _ hv.1) (hv.2 _ hsh.1)
    rw [ed] at hc
    obtain ⟨c1, c2⟩ := abs_le.1 hc
    constructor
    · intro hlt
      refine ⟨⟨j, s.flDistOf fl k j, 1, s.flDiffOf fl k j⟩, ?_, rfl, hc⟩
      rw [hl, List.mem_map]
      refine ⟨j, ?_, rfl⟩
      simp only [List.mem_filter, List.mem_range, decide_eq_true_eq]
      refine ⟨hj, hne, by linarith, ?_⟩
      rw [htyp k a ha, htyp j b hb]
      exact (filterOK_iff f a b).2 hfa
    · intro hge x hx ex
      rw [hl, List.mem_map] at hx
      obtain ⟨i, hi, rfl⟩ := hx
      simp only [List.mem_filter, List.mem_range, decide_eq_true_eq] at hi
      change i = j at ex
      subst ex
      linarith [hi.2.2.1]

/-- The neighbour lists of a system, by index. -/
def nbIndices (s : System) : List (List ℕ) := s.atoms.map fun a => a.nbrs.map Nb.idx

theorem capacity_indices {s t : System} (h : nbIndices s = nbIndices t) :
    Except.map nbIndices (do let s ← s.checkCapacity; return { s with neighborsFound := true }) =
    Except.map nbIndices (do let s ← t.checkCapacity; return { s with neighborsFound := true }) := by
  have key : ∀ s : System, (∃ a ∈ s.atoms, a.nbrs.length > 300) ↔ ∃ l ∈ nbIndices s, l.length > 300 := by
    intro s
    simp only [nbIndices, List.mem_map]
    constructor
    · rintro ⟨a, ha, hl⟩
      exact ⟨_, ⟨a, ha, rfl⟩, by rw [List.length_map]; exact hl⟩
    · rintro ⟨_, ⟨a, ha, rfl⟩, hl⟩
      rw [List.length_map] at hl
      exact ⟨a, ha, hl⟩
  unfold System.checkCapacity
  by_cases c : ∃ a ∈ s.atoms, a.nbrs.length > 300
  · have c' : ∃ a ∈ t.atoms, a.nbrs.length > 300 := by rw [key, ← h, ← key]; exact c
    rw [if_pos c, if_pos c']
  · have c' : ¬ ∃ a ∈ t.atoms, a.nbrs.length > 300 := by rw [key, ← h, ← key]; exact c
    rw [if_neg c, if_neg c']
    change Except.ok (nbIndices s) = Except.ok (nbIndices t)
    rw [h]

/-- **C103, exact and rounded searches agree**: if no distance lies within `(lx + ly + lz) / 2^51` of the cutoff, then the search in floating-point arithmetic finds the same
neighbours as the search in exact arithmetic (or fails with the same exception). -/
theorem C103_same {fl : ℝ → ℝ} (h : RoundsToNearest fl) (hodd : ∀ x, fl (-x) = -fl x) (σ : StdSort) {s : System} {lx ly lz : ℝ} (hs : Spec.FloatBox s lx ly lz) (f : ℕ) {r : ℝ}
    (hr : r ≠ 0) (hn : s.realNop ≤ 2300) (hsep : ∀ a ∈ s.atoms, ∀ b ∈ s.atoms, (lx + ly + lz) / 2 ^ 51 < |s.getDistance a b - r|) :
    Except.map nbIndices (s.flFindNeighbors fl f r) = Except.map nbIndices (s.findNeighbors σ f (.cutoff r)) := by
  classical
  by_cases hle : s.realNop ≤ s.atoms.length
  · rw [findNeighbors_cutoff σ s f r hr hn hle]
    have hg : System.getAtoms { s.startSearch f with neighbordistance := r } = .ok ((s.resetAllNeighbors.atoms).take s.realNop) := by
      unfold System.getAtoms
      rw [if_pos]
      · rfl
      · exact hle.trans (resetAll_length s).ge
    have e : s.flFindNeighbors fl f r = (do
        let s' ← (System.flNeighborsNormal fl { s.startSearch f with neighbordistance := r }).checkCapacity
        return { s' with neighborsFound := true }) := by
      unfold System.flFindNeighbors
      change (do
        let _ ← System.getAtoms { s.startSearch f with neighbordistance := r }
        let s ← (System.flNeighborsNormal fl { s.startSearch f with neighbordistance := r }).checkCapacity
        return { s with neighborsFound := true }) = _
      rw [hg]
      rfl
    rw [e]
    refine capacity_indices ?_
    have hlen : (System.flNeighborsNormal fl { s.startSearch f with neighbordistance := r }).atoms.length = s.atoms.length := by
      rw [flNormal_length]; exact resetAll_length s
    have hlen' : (System.neighborsNormal { s.startSearch f with neighbordistance := r }).atoms.length = s.atoms.length := by
      rw [neighborsNormal_length]; exact resetAll_length s
    unfold nbIndices
    refine List.ext_getElem (by rw [List.length_map, List.length_map, hlen, hlen']) fun k hk hk' => ?_
    rw [List.length_map, hlen] at hk
    rw [List.getElem_map, List.getElem_map, ← mem_eq_getElem, ← mem_eq_getElem, flStart_nbrs h hodd s r f k hk, neighborsNormal_start s r f k hk, List.map_map]
    change _ = ((cutoffNbs s r f k).map Nb.idx)
    unfold cutoffNbs
    rw [List.map_map]
    have e1 : (Nb.idx ∘ fun j => (⟨j, s.flDistOf fl k j, 1, s.flDiffOf fl k j⟩ : Nb)) = id := rfl
    have e2 : (Nb.idx ∘ s.mkNb k) = id := rfl
    rw [e1, e2, List.map_id, List.map_id]
    refine List.filter_congr fun j hj => ?_
    rw [List.mem_range] at hj
    have hc := abs_le.1 (flDistOf_close h hs hk hj)
    have hd : s.distOf k j = s.getDistance s.atoms[j] s.atoms[k] := by
      rw [System.distOf, System.distIdx, System.diffIdx, System.posOf, System.posOf, mem_eq_getElem s j hj, mem_eq_getElem s k hk]
      rfl
    have hd2 := hsep s.atoms[j] (List.getElem_mem hj) s.atoms[k] (List.getElem_mem hk)
    rw [← hd] at hd2
    have : s.flDistOf fl k j < r ↔ s.distOf k j < r := by
      rcases lt_abs.1 hd2 with h1 | h1
      · exact ⟨fun _ => by linarith, fun _ => by linarith⟩
      · exact ⟨fun _ => by linarith, fun _ => by linarith⟩
    rw [decide_eq_decide, this]
  · rw [findNeighbors_cutoff_oob σ s f r hr hle]
    have hg : System.getAtoms { s.startSearch f with neighbordistance := r } = .error .oob :=
      getAtoms_error _ (by rw [show (System.atoms { s.startSearch f with neighbordistance := r }).length = _ from resetAll_length s]; exact hle)
    unfold System.flFindNeighbors
    change Except.map nbIndices (do
        let _ ← System.getAtoms { s.startSearch f with neighbordistance := r }
        let s ← (System.flNeighborsNormal fl { s.startSearch f with neighbordistance := r }).checkCapacity
        return { s with neighborsFound := true }) = _
    rw [hg]
    rfl

/-- Small systems meet the limit of 300 neighbours. -/
theorem flFind_succeeds {fl : ℝ → ℝ} (h : RoundsToNearest fl) (hodd : ∀ x, fl (-x) = -fl x) {s : System} (hle : s.realNop ≤ s.atoms.length) (hn : s.atoms.length ≤ 300) (f : ℕ) (r : ℝ) :
    ∃ s', s.flFindNeighbors fl f r = .ok s' ∧ s'.atoms.length = s.atoms.length := by
  classical
  have hg : System.getAtoms { s.startSearch f with neighbordistance := r } = .ok ((s.resetAllNeighbors.atoms).take s.realNop) := by
    unfold System.getAtoms
    rw [if_pos]
    · rfl
    · exact hle.trans (resetAll_length s).ge
  have hlen : (System.flNeighborsNormal fl { s.startSearch f with neighbordistance := r }).atoms.length = s.atoms.length := by
    rw [flNormal_length]; exact resetAll_length s
  have hc : (System.flNeighborsNormal fl { s.startSearch f with neighbordistance := r }).checkCapacity = .ok (System.flNeighborsNormal fl { s.startSearch f with neighbordistance := r }) := by
    unfold System.checkCapacity
    rw [if_neg]
    rintro ⟨a, ha, hl⟩
    obtain ⟨k, hk, rfl⟩ := List.getElem_of_mem ha
    rw [← mem_eq_getElem, flStart_nbrs h hodd s r f k (by rw [← hlen]; exact hk), List.length_map] at hl
    have := (List.length_filter_le (fun j => decide (j ≠ k ∧ (s.flDistOf fl k j < r ∧ filterOK f (s.typeOf k) (s.typeOf j) = true))) (List.range s.atoms.length))
    rw [List.length_range] at this
    omega
  refine ⟨{ System.flNeighborsNormal fl { s.startSearch f with neighbordistance := r } with neighborsFound := true }, ?_, hlen⟩
  unfold System.flFindNeighbors
  change (do
    let _ ← System.getAtoms { s.startSearch f with neighbordistance := r }
    let s ← (System.flNeighborsNormal fl { s.startSearch f with neighbordistance := r }).checkCapacity
    return { s with neighborsFound := true }) = _
  rw [hg, hc]
  rfl

theorem twoAtoms_floatBox : Spec.FloatBox twoAtoms 10 10 10 where
  untilted := rfl
  box := rfl
  doubles := ⟨⟨10, 0, by norm_num, by norm_num⟩, ⟨10, 0, by norm_num, by norm_num⟩, ⟨10, 0, by norm_num, by norm_num⟩⟩
  pos := by norm_num
  inside := by
    intro a ha b hb
    simp only [twoAtoms, List.mem_cons, List.not_mem_nil, or_false] at ha hb
    rcases ha with rfl | rfl <;> rcases hb with rfl | rfl <;> norm_num

/-- Two atoms: the search succeeds in floating-point arithmetic and the first atom has the second as its neighbour. -/
example : ∃ s' a', twoAtoms.flFindNeighbors flOdd 0 1.5 = .ok s' ∧ s'.atoms[0]? = some a' ∧ ∃ x ∈ a'.nbrs, x.idx = 1 := by
  obtain ⟨s', e, hl⟩ := flFind_succeeds (s := twoAtoms) flOdd_rounds flOdd_odd (by simp [twoAtoms]) (by simp [twoAtoms]) 0 1.5
  have h0 : 0 < s'.atoms.length := by rw [hl]; simp [twoAtoms]
  obtain ⟨-, -, h⟩ := C103_neighbors flOdd_rounds flOdd_odd twoAtoms_floatBox 0 1.5 e (k := 0) rfl (List.getElem?_eq_getElem h0)
  have hb := twoAtoms_floatBox
  have hsh := image_diag_shortest twoAtoms 10 10 10 (by norm_num) (by norm_num) (by norm_num) rfl rfl (⟨2, 1, 1⟩ - ⟨1, 1, 1⟩) (by norm_num) (by norm_num) (by norm_num)
  obtain ⟨x, hx, hi, -⟩ := (h 1 _ (by norm_num) rfl _ hsh ⟨by norm_num, by norm_num⟩).1 (by
    have := twoAtoms_dist.1
    rw [System.distOf, System.distIdx, System.diffIdx] at this
    have e2 : twoAtoms.posOf 1 - twoAtoms.posOf 0 = ⟨2, 1, 1⟩ - ⟨1, 1, 1⟩ := rfl
    rw [e2] at this
    rw [this]
    norm_num)
  exact ⟨s', _, e, List.getElem?_eq_getElem h0, x, hx, hi⟩

example (σ : StdSort) := C103_same flOdd_rounds flOdd_odd σ twoAtoms_floatBox 0 (r := 1.5) (by norm_num) (by simp [twoAtoms]) (by
  have h01 := twoAtoms_dist
  intro a ha b hb
  have e : twoAtoms.getDistance a b = 0 ∨ twoAtoms.getDistance a b = 1 := by
    simp only [twoAtoms, List.mem_cons, List.not_mem_nil, or_false] at ha hb
    rcases ha with rfl | rfl <;> rcases hb with rfl | rfl
    · exact Or.inl (C02_symmetry twoAtoms _ default (fun h => by cases h)).2.2.2.2.1
    · exact Or.inr h01.2
    · exact Or.inr h01.1
    · exact Or.inl (C02_symmetry twoAtoms _ default (fun h => by cases h)).2.2.2.2.1
  rcases e with e | e <;> rw [e] <;> norm_num [abs_of_neg])

end Pyscal
