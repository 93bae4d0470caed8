import Verif.Props.Padded
import Verif.Lemmas.Entropy

/-! Property C38: pair distances and the radial distribution function. -/

namespace Pyscal

open Finset

theorem max?_real {d : List ℝ} {h : ℝ} (hd : d.max? = some h) : h ∈ d ∧ ∀ x ∈ d, x ≤ h :=
  List.max?_eq_some_iff.1 hd

theorem uniformEdges_length (n : ℕ) (lo hi : ℝ) : (uniformEdges n lo hi).length = n + 1 := by simp [uniformEdges]

theorem uniformEdges_getD {n k : ℕ} (lo hi : ℝ) (hk : k ≤ n) : (uniformEdges n lo hi).getD k 0 =
    (if lo = hi then lo - 1 / 2 else lo) + k * (((if lo = hi then hi + 1 / 2 else hi) - (if lo = hi then lo - 1 / 2 else lo)) / n) := by
  simp [uniformEdges, List.getD_eq_getElem?_getD, show k < n + 1 by omega]

theorem uniformEdges_first (n : ℕ) (lo hi : ℝ) : (uniformEdges n lo hi).getD 0 0 = if lo = hi then lo - 1 / 2 else lo := by
  rw [uniformEdges_getD lo hi (Nat.zero_le _)]; simp

theorem uniformEdges_last {n : ℕ} (hn : 1 ≤ n) (lo hi : ℝ) :
    (uniformEdges n lo hi).getD ((uniformEdges n lo hi).length - 1) 0 = if lo = hi then hi + 1 / 2 else hi := by
  rw [uniformEdges_length, Nat.add_sub_cancel, uniformEdges_getD lo hi le_rfl]
  have : (n : ℝ) ≠ 0 := by positivity
  field_simp
  ring

theorem uniformEdges_increasing {n : ℕ} (hn : 1 ≤ n) {lo hi : ℝ} (h : lo ≤ hi) : Increasing (uniformEdges n lo hi) := by
  intro k hk
  rw [uniformEdges_length] at hk
  rw [uniformEdges_getD lo hi (by omega), uniformEdges_getD lo hi (by omega)]
  set l := if lo = hi then lo - 1 / 2 else lo with hl
  set u := if lo = hi then hi + 1 / 2 else hi with hu
  have hlu : l < u := by
    rw [hl, hu]
    split_ifs with he
    · linarith
    · exact lt_of_le_of_ne h he
  have hn' : (0 : ℝ) < n := by exact_mod_cast hn
  have : 0 < (u - l) / n := div_pos (by linarith) hn'
  push_cast
  nlinarith

theorem pairDistances_length (s : System) : 2 * s.pairDistances.length = s.atoms.length * (s.atoms.length - 1) := by
  unfold System.pairDistances
  rw [List.length_map, pairs_length]

theorem pairDistances_nonneg (s : System) : ∀ x ∈ s.pairDistances, 0 ≤ x := by
  intro x hx
  obtain ⟨p, -, rfl⟩ := List.mem_map.1 hx
  exact V3.norm_nonneg _

/-- Distance of two atoms given by their numbers, as `get_distance` computes it. -/
noncomputable def Spec.numDistance (s : System) (p : ℕ × ℕ) : ℝ := s.getDistance (s.atoms.getD p.2 default) (s.atoms.getD p.1 default)

theorem distOf_num (s : System) (p : ℕ × ℕ) : s.distOf p.1 p.2 = Spec.numDistance s p := rfl

open Classical in
/-- **C38, pair distances**: `get_pairdistances` lists one distance for every unordered pair of stored
atoms: `N(N-1)/2` values in total (`N` = `ntotal`), and every value occurs as often as there are pairs
at that distance. -/
theorem C38_pairs (s : System) (reals : List Atom) (hi : StoreInv s reals) :
    2 * s.pairDistances.length = s.ntotal * (s.ntotal - 1) ∧
    ∀ d : ℝ, s.pairDistances.count d = ((Spec.pairSet s.ntotal).filter fun p : ℕ × ℕ => Spec.numDistance s p = d).card := by
  have hN : s.ntotal = s.atoms.length := hi.nop
  rw [hN]
  refine ⟨pairDistances_length s, fun d => ?_⟩
  unfold System.pairDistances
  rw [List.count, List.countP_map, ← pairSet_eq, ← countP_card (pairs_nodup _)]
  refine List.countP_congr fun p _ => ?_
  simp only [Function.comp_apply, beq_iff_eq, decide_eq_true_eq]
  rfl

open Classical in
/-- **C38, histogram**: with the default range (from 0 to the largest distance) `calculate_rdf` succeeds
for any positive number of bins and any system of at least two stored atoms.  Its bins are disjoint
intervals, every pair of stored atoms is counted in the bin containing its distance, in exactly one
bin, and the counts add up to `N(N-1)/2`. -/
theorem C38_histogram (s : System) (reals : List Atom) (hi : StoreInv s reals) (bins : ℕ) (hb : 1 ≤ bins) (hN : 2 ≤ s.ntotal) :
    ∃ (e : List ℝ) (h : List ℕ), s.rdfHistogram bins 0 none = .ok (e, h) ∧ e.length = bins + 1 ∧ h.length = bins ∧
      2 * h.sum = s.ntotal * (s.ntotal - 1) ∧
      (∀ k < bins, e.getD k 0 < e.getD (k + 1) 0) ∧
      (∀ k < bins, h[k]? = some ((Spec.pairSet s.ntotal).filter fun p : ℕ × ℕ => e.getD k 0 ≤ Spec.numDistance s p ∧
        (Spec.numDistance s p < e.getD (k + 1) 0 ∨ (k + 1 = bins ∧ Spec.numDistance s p = e.getD (k + 1) 0))).card) ∧
      ∀ p ∈ Spec.pairSet s.ntotal, ∃! k, k < bins ∧ e.getD k 0 ≤ Spec.numDistance s p ∧
        (Spec.numDistance s p < e.getD (k + 1) 0 ∨ (k + 1 = bins ∧ Spec.numDistance s p = e.getD (k + 1) 0)) := by
  have hNN : s.ntotal = s.atoms.length := hi.nop
  have hne : s.pairDistances ≠ [] := by
    intro h0
    have := pairDistances_length s
    rw [h0, ← hNN] at this
    simp only [List.length_nil, mul_zero] at this
    have : s.ntotal * (s.ntotal - 1) ≠ 0 := Nat.mul_ne_zero (by omega) (by omega)
    omega
  obtain ⟨m, hm⟩ : ∃ m, s.pairDistances.max? = some m := Option.isSome_iff_exists.1 (List.isSome_max?_iff.2 hne)
  obtain ⟨hmem, hmax⟩ := max?_real hm
  have h0m : 0 ≤ m := pairDistances_nonneg s m hmem
  set e := uniformEdges bins 0 m with he
  have hinc : Increasing e := uniformEdges_increasing hb h0m
  have hel : e.length = bins + 1 := uniformEdges_length _ _ _
  have hfirst : e.getD 0 0 ≤ 0 := by
    rw [he, uniformEdges_first]
    split_ifs <;> norm_num
  have hlast : m ≤ e.getD (e.length - 1) 0 := by
    rw [he, uniformEdges_last hb]
    split_ifs <;> linarith
  have hrange : ∀ x ∈ s.pairDistances, e.getD 0 0 ≤ x ∧ x ≤ e.getD (e.length - 1) 0 := fun x hx =>
    ⟨hfirst.trans (pairDistances_nonneg s x hx), (hmax x hx).trans hlast⟩
  have hIB : ∀ k v, InBin e k v ↔ e.getD k 0 ≤ v ∧ (v < e.getD (k + 1) 0 ∨ (k + 1 = bins ∧ v = e.getD (k + 1) 0)) := by
    intro k v
    unfold InBin
    rw [hel]
    constructor <;> rintro ⟨h1, h2 | ⟨h2, h3⟩⟩
    · exact ⟨h1, .inl h2⟩
    · exact ⟨h1, .inr ⟨by omega, h3⟩⟩
    · exact ⟨h1, .inl h2⟩
    · exact ⟨h1, .inr ⟨by omega, h3⟩⟩
  refine ⟨e, histogram e (s.pairDistances.map some), ?_, hel, by rw [histogram_length, hel]; rfl, ?_, fun k hk => hinc k (by omega), ?_, ?_⟩
  · unfold System.rdfHistogram
    dsimp only
    change (match s.pairDistances.max? with | none => _ | some h => _) = _
    rw [hm]
    dsimp only
    rw [if_neg (by omega), if_neg (by linarith), Int.toNat_natCast]
  · rw [histogram_sum hinc (by omega), List.countP_map, List.countP_eq_length.2]
    · rw [pairDistances_length, hNN]
    · intro x hx
      simp only [Function.comp_apply, decide_eq_true_eq]
      exact ⟨x, rfl, hrange x hx⟩
  · intro k hk
    rw [histogram_getElem? e _ (by omega), List.countP_map, hNN, ← pairSet_eq, ← countP_card (pairs_nodup _)]
    unfold System.pairDistances
    rw [List.countP_map]
    congr 1
    refine List.countP_congr fun p _ => ?_
    simp only [Function.comp_apply, decide_eq_true_eq]
    rw [distOf_num, ← hIB]
    constructor
    · rintro ⟨v, hv, hb⟩
      obtain rfl := Option.some.inj hv
      exact hb
    · exact fun h => ⟨_, rfl, h⟩
  · intro p hp
    rw [hNN, ← pairSet_eq, List.mem_toFinset] at hp
    have hx : Spec.numDistance s p ∈ s.pairDistances := List.mem_map.2 ⟨p, hp, rfl⟩
    obtain ⟨k, hk, hbin⟩ := bin_exists (e := e) (by omega) (hrange _ hx).1 (hrange _ hx).2
    refine ⟨k, ⟨by omega, (hIB k _).1 hbin⟩, ?_⟩
    rintro j ⟨hj, hjb⟩
    exact bin_unique hinc (by omega) hk ((hIB j _).2 hjb) hbin

theorem rdfHistogram_ok {s : System} {bins : ℤ} {lo : ℝ} {hi : Option ℝ} {e : List ℝ} {h : List ℕ}
    (hh : s.rdfHistogram bins lo hi = .ok (e, h)) : ∃ u, lo ≤ u ∧ 1 ≤ bins ∧ e = uniformEdges bins.toNat lo u ∧
      h = histogram e (s.pairDistances.map some) := by
  unfold System.rdfHistogram at hh
  dsimp only at hh
  split at hh
  · simp at hh
  · rename_i u _
    split_ifs at hh with h1 h2
    · simp only [Except.ok.injEq, Prod.mk.injEq] at hh
      obtain ⟨rfl, rfl⟩ := hh
      exact ⟨u, not_lt.1 h2, not_lt.1 h1, rfl, rfl⟩

theorem calculateRdf_eq {s : System} {bins : ℤ} {lo : ℝ} {hi : Option ℝ} {e : List ℝ} {h : List ℕ}
    (hh : s.rdfHistogram bins lo hi = .ok (e, h)) : s.calculateRdf bins lo hi = .ok (List.zipWith (fun (c : ℕ) (x : ℝ) =>
      (fdiv ((s.realNop * (s.realNop - 1) / 2 : ℕ) : ℝ) s.boxDet).bind fun rho =>
        (fdiv c ((4 / 3) * PI * ((x + |e.getD 1 0 - e.getD 0 0|) ^ 3 - x ^ 3))).bind fun y => fdiv y rho) h e.dropLast, e.dropLast) := by
  unfold System.calculateRdf
  rw [hh]
  rfl

/-- **C38, values**: whenever the histogram exists, `calculate_rdf` returns its left edges and, for each
bin, the count divided by the volume of the spherical shell between its edges and by the density of
pairs `(n(n-1)/2)/V` (`n` the number of real atoms, `V` the determinant of the reported box). -/
theorem C38_values (s : System) (bins : ℤ) (lo : ℝ) (hi : Option ℝ) (e : List ℝ) (h : List ℕ) (hh : s.rdfHistogram bins lo hi = .ok (e, h))
    (hd : s.getBox.det ≠ 0) (hn : 2 ≤ s.natoms) :
    ∃ g r, s.calculateRdf bins lo hi = .ok (g, r) ∧ (g.length : ℤ) = bins ∧ (r.length : ℤ) = bins ∧
      ∀ k : ℕ, (k : ℤ) < bins → r[k]? = e[k]? ∧
      g[k]? = some (some ((h.getD k 0 : ℝ) / (4 / 3 * PI * ((e.getD (k + 1) 0) ^ 3 - (e.getD k 0) ^ 3)) /
        ((s.natoms : ℝ) * ((s.natoms : ℝ) - 1) / 2 / s.getBox.det))) := by
  rw [← boxDet_eq] at hd ⊢
  obtain ⟨u, hlu, hb, rfl, rfl⟩ := rdfHistogram_ok hh
  obtain ⟨n, rfl⟩ : ∃ n : ℕ, bins = n := ⟨bins.toNat, by omega⟩
  rw [Int.toNat_natCast] at *
  have hn1 : 1 ≤ n := by omega
  have hinc := uniformEdges_increasing hn1 hlu
  have hlen := uniformEdges_length n lo u
  have hw : ∀ k < n, (uniformEdges n lo u).getD k 0 + |(uniformEdges n lo u).getD 1 0 - (uniformEdges n lo u).getD 0 0| =
      (uniformEdges n lo u).getD (k + 1) 0 := by
    intro k hk
    rw [abs_of_pos (sub_pos.2 (hinc 0 (by omega))), uniformEdges_getD lo u (k := 1) hn1, uniformEdges_getD lo u (k := 0) (by omega),
      uniformEdges_getD lo u (k := k) (by omega), uniformEdges_getD lo u (k := k + 1) (by omega)]
    push_cast
    ring
  have hrho : (((s.realNop * (s.realNop - 1) / 2 : ℕ) : ℝ)) = (s.natoms : ℝ) * ((s.natoms : ℝ) - 1) / 2 := by
    change ((s.natoms * (s.natoms - 1) / 2 : ℕ) : ℝ) = _
    rw [Nat.cast_div (Nat.even_mul_pred_self _).two_dvd (by norm_num), Nat.cast_mul, Nat.cast_sub (by omega)]
    norm_num
  have hpos : 0 < (s.natoms : ℝ) * ((s.natoms : ℝ) - 1) / 2 := by
    have : (2 : ℝ) ≤ s.natoms := by exact_mod_cast hn
    have := mul_pos (show (0 : ℝ) < s.natoms by linarith) (show (0 : ℝ) < (s.natoms : ℝ) - 1 by linarith)
    linarith
  refine ⟨_, _, calculateRdf_eq hh, ?_, ?_, ?_⟩
  · rw [List.length_zipWith, histogram_length, List.length_dropLast, hlen]
    simp
  · rw [List.length_dropLast, hlen]
    simp
  · intro k hk
    have hk : k < n := by omega
    have hr : (uniformEdges n lo u).dropLast[k]? = some ((uniformEdges n lo u).getD k 0) := by
      rw [List.getElem?_dropLast, if_pos (by omega), List.getElem?_eq_getElem (by omega), List.getD_eq_getElem?_getD,
        List.getElem?_eq_getElem (by omega)]
      rfl
    refine ⟨?_, ?_⟩
    · rw [List.getElem?_dropLast, if_pos (by omega)]
    · rw [List.getElem?_zipWith, hr]
      have hh : (histogram (uniformEdges n lo u) (s.pairDistances.map some))[k]? =
          some ((histogram (uniformEdges n lo u) (s.pairDistances.map some)).getD k 0) := by
        rw [List.getD_eq_getElem?_getD, List.getElem?_eq_getElem (by rw [histogram_length]; omega)]
        rfl
      rw [hh]
      dsimp only
      rw [hw k hk, hrho]
      have hshell : 4 / 3 * PI * ((uniformEdges n lo u).getD (k + 1) 0 ^ 3 - (uniformEdges n lo u).getD k 0 ^ 3) ≠ 0 := by
        have := (Odd.strictMono_pow (R := ℝ) (n := 3) (by decide)) (hinc k (by omega))
        have h3 : (0 : ℝ) < PI := by norm_num [PI]
        have := mul_pos (show (0 : ℝ) < 4 / 3 * PI by positivity) (sub_pos.2 this)
        exact this.ne'
      simp only [fdiv, hd, if_false, hshell, Option.bind_some, div_ne_zero hpos.ne' hd]

/-- **C38, errors**: fewer than two stored atoms with the default range, no bins, or a range whose end is
below its start are rejected with `ValueError`. -/
theorem C38_errors (s : System) (reals : List Atom) (hi : StoreInv s reals) :
    (∀ bins lo, s.ntotal < 2 → s.calculateRdf bins lo none = .error .valueError) ∧
    (∀ bins lo hi, bins < 1 → s.calculateRdf bins lo hi = .error .valueError) ∧
    (∀ bins lo hi, hi < lo → s.calculateRdf bins lo (some hi) = .error .valueError) := by
  have hNN : s.ntotal = s.atoms.length := hi.nop
  refine ⟨fun bins lo h => ?_, fun bins lo hi h => ?_, fun bins lo hi h => ?_⟩
  · have : s.pairDistances = [] := by
      have := pairDistances_length s
      rw [← hNN] at this
      have h0 : s.ntotal * (s.ntotal - 1) = 0 := by
        obtain h | h : s.ntotal = 0 ∨ s.ntotal = 1 := by omega
        all_goals simp [h]
      exact List.length_eq_zero_iff.1 (by omega)
    simp [System.calculateRdf, System.rdfHistogram, this, Bind.bind, Except.bind]
  · unfold System.calculateRdf System.rdfHistogram
    dsimp only
    split <;> simp [h, Bind.bind, Except.bind]
  · unfold System.calculateRdf System.rdfHistogram
    dsimp only [Option.orElse]
    split_ifs <;> simp [Bind.bind, Except.bind]

/-- **C38 fails for padded systems**: two atoms in a small box, padded to 250 by the assignment.  The system has two atoms (`natoms`), one pair, but `get_pairdistances` returns 31125 distances, and the
histogram of `calculate_rdf` counts all of them while the density it divides by is that of one pair. -/
theorem C38_false_padded (σ : StdSort) : ∃ s0 s s1 : System,
    System.init.setBox (Spec.diagBox 10 10 10) = .ok s0 ∧ s0.assignAtoms edgeAtoms = .ok s ∧
    s.findNeighbors σ 0 (.cutoff 2) = .ok s1 ∧ s1.natoms = 2 ∧ s1.pairDistances.length = 31125 := by
  obtain ⟨s0, s, s1, h1, h2, h3, -, hr, hl, -, -, -, rfl, -⟩ := edge_setup σ
  refine ⟨s0, s, _, h1, h2, h3, hr, ?_⟩
  refine Nat.eq_of_mul_eq_mul_left (show 0 < 2 by norm_num) ?_
  rw [pairDistances_length]
  simp only [List.length_map, List.length_range, hl]

/-- Example: five atoms in a box of side 10 give ten pairs, all counted. -/
example : ∃ (e : List ℝ) (h : List ℕ), tetra.rdfHistogram 7 0 none = .ok (e, h) ∧ h.sum = 10 ∧
    ∃ g r, tetra.calculateRdf 7 0 none = .ok (g, r) ∧ (g.length : ℤ) = 7 := by
  obtain ⟨e, h, h1, -, -, h2, -⟩ := C38_histogram tetra _ tetra_inv 7 (by norm_num) (by decide)
  obtain ⟨g, r, h3, h4, -⟩ := C38_values tetra 7 0 none e h h1 (by norm_num [Mat3.det, System.getBox, tetra, Spec.diagBox]) (by decide)
  exact ⟨e, h, h1, by have : tetra.ntotal = 5 := rfl
                      rw [this] at h2; omega, g, r, h3, h4⟩

end Pyscal
