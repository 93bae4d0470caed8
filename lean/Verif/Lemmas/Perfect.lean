import Verif.Props.Supercell
import Verif.Props.LargeSystems
import Verif.Props.Crystal

/-! Systems built from the output of `make_crystal`: helper lemmas for C95. -/

namespace Pyscal

open Spec (diagBox ofFrac latticeVec IsImage FracBound crystal cross volume InBox)

/-- Specification: a search up to `r` in a box `lx × ly × lz` with `N` atoms: `r` is at most half of every edge (after the padding below 200
atoms, which at least triples the edges); with more than 2300 atoms at most a third, and not below 1e-6. -/
def Spec.RangeFits (N : ℕ) (lx ly lz r : ℝ) : Prop :=
  (N < 200 → 2 * r ≤ 3 * lx ∧ 2 * r ≤ 3 * ly ∧ 2 * r ≤ 3 * lz) ∧ (200 ≤ N → 2 * r ≤ lx ∧ 2 * r ≤ ly ∧ 2 * r ≤ lz) ∧
    (2300 < N → 1e-6 ≤ r ∧ 3 * r ≤ lx ∧ 3 * r ≤ ly ∧ 3 * r ≤ lz)

theorem diag_half {lx ly lz r : ℝ} (hx : 0 < lx) (hy : 0 < ly) (hz : 0 < lz) (h1 : 2 * r ≤ lx) (h2 : 2 * r ≤ ly) (h3 : 2 * r ≤ lz) :
    Spec.HalfHeights (diagBox lx ly lz) r := by
  have hv : volume (diagBox lx ly lz) = lx * ly * lz := by simp [volume, diagBox, V3.dot, cross]; ring
  have n1 : V3.norm (cross (diagBox lx ly lz).r1 (diagBox lx ly lz).r2) = ly * lz := by
    simp only [V3.norm, cross, diagBox]
    rw [Real.sqrt_eq_iff_mul_self_eq_of_pos (by positivity)]; simp only [V3.normSq]; ring
  have n2 : V3.norm (cross (diagBox lx ly lz).r2 (diagBox lx ly lz).r0) = lz * lx := by
    simp only [V3.norm, cross, diagBox]
    rw [Real.sqrt_eq_iff_mul_self_eq_of_pos (by positivity)]; simp only [V3.normSq]; ring
  have n3 : V3.norm (cross (diagBox lx ly lz).r0 (diagBox lx ly lz).r1) = lx * ly := by
    simp only [V3.norm, cross, diagBox]
    rw [Real.sqrt_eq_iff_mul_self_eq_of_pos (by positivity)]; simp only [V3.normSq]; ring
  refine ⟨?_, ?_, ?_⟩
  · rw [n1, hv, abs_of_pos (by positivity)]; nlinarith [mul_pos hy hz]
  · rw [n2, hv, abs_of_pos (by positivity)]; nlinarith [mul_pos hz hx]
  · rw [n3, hv, abs_of_pos (by positivity)]; nlinarith [mul_pos hx hy]

/-- A list of atoms inside an orthogonal box, no two at the same place. -/
theorem inBox_props {lx ly lz : ℝ} (hx : 0 < lx) (hy : 0 < ly) (hz : 0 < lz) {l : List Atom} (hin : ∀ a ∈ l, InBox lx ly lz a.pos)
    (hnd : (l.map Atom.pos).Nodup) : Spec.Compact (diagBox lx ly lz) l ∧ Spec.NoRepeats (diagBox lx ly lz) l := by
  constructor
  · intro a ha c hc
    obtain ⟨⟨a1, a2⟩, ⟨a3, a4⟩, a5, a6⟩ := hin a ha
    obtain ⟨⟨c1, c2⟩, ⟨c3, c4⟩, c5, c6⟩ := hin c hc
    refine ⟨⟨(c.pos.x - a.pos.x) / lx, (c.pos.y - a.pos.y) / ly, (c.pos.z - a.pos.z) / lz⟩, ?_, ?_, ?_, ?_⟩
    · ext <;> simp [ofFrac, diagBox] <;> field_simp
    · rw [abs_div, abs_of_pos hx, div_le_iff₀ hx, abs_le]; constructor <;> linarith
    · rw [abs_div, abs_of_pos hy, div_le_iff₀ hy, abs_le]; constructor <;> linarith
    · rw [abs_div, abs_of_pos hz, div_le_iff₀ hz, abs_le]; constructor <;> linarith
  · intro i j a c hi hj him
    obtain ⟨⟨a1, a2⟩, ⟨a3, a4⟩, a5, a6⟩ := hin a (List.mem_of_getElem? hi)
    obtain ⟨⟨c1, c2⟩, ⟨c3, c4⟩, c5, c6⟩ := hin c (List.mem_of_getElem? hj)
    obtain ⟨n1, n2, n3, e⟩ := him
    rw [V3.ext_iff] at e
    simp [latticeVec, diagBox] at e
    obtain ⟨e1, e2, e3⟩ := e
    have key : ∀ (L u w : ℝ) (n : ℤ), 0 < L → 0 ≤ u → u < L → 0 ≤ w → w < L → 0 = w - u + n * L → w = u := by
      intro L u w n hL hu hu' hw hw' e
      have : n = 0 := by
        by_contra hne
        rcases lt_or_gt_of_ne hne with h | h
        · have : (n : ℝ) ≤ -1 := by exact_mod_cast Int.le_sub_one_of_lt h
          nlinarith
        · have : (1 : ℝ) ≤ n := by exact_mod_cast h
          nlinarith
      rw [this] at e
      simp at e
      linarith
    have hpos : c.pos = a.pos := V3.ext (key _ _ _ n1 hx a1 a2 c1 c2 (by linarith)) (key _ _ _ n2 hy a3 a4 c3 c4 (by linarith))
      (key _ _ _ n3 hz a5 a6 c5 c6 (by linarith))
    have hil := (List.getElem?_eq_some_iff.1 hi).1
    have hjl := (List.getElem?_eq_some_iff.1 hj).1
    have g1 : (l.map Atom.pos)[i]'(by simpa using hil) = a.pos := by
      rw [List.getElem_map]; congr 1; exact (List.getElem?_eq_some_iff.1 hi).2
    have g2 : (l.map Atom.pos)[j]'(by simpa using hjl) = c.pos := by
      rw [List.getElem_map]; congr 1; exact (List.getElem?_eq_some_iff.1 hj).2
    exact hnd.getElem_inj_iff.1 (g1.trans (hpos.symm.trans g2.symm))

/-- A system built from such a list. -/
theorem inBox_build {lx ly lz : ℝ} (hx : 0 < lx) (hy : 0 < ly) (hz : 0 < lz) {l : List Atom} (hne : l ≠ []) (hreal : ∀ a ∈ l, a.ghost = false)
    (hin : ∀ a ∈ l, InBox lx ly lz a.pos) (hnd : (l.map Atom.pos).Nodup) {r : ℝ} (hr : 0 ≤ r) (hfit : Spec.RangeFits l.length lx ly lz r) :
    ∃ s, buildSystem (diagBox lx ly lz) l = .ok s ∧ Spec.Faithful s r ∧ Spec.PairsExact s r ∧ s.realNop = l.length ∧ s.realNop ≤ s.atoms.length ∧
      crystal s.box s.atoms = crystal (diagBox lx ly lz) l ∧ ∀ i < l.length, s.atoms[i]? = l[i]? := by
  obtain ⟨hc, hd⟩ := inBox_props hx hy hz hin hnd
  have hlen : 0 < l.length := List.length_pos_iff.2 hne
  have hb : Spec.Skew (diagBox lx ly lz) ∨ ∃ lx' ly' lz', 0 < lx' ∧ 0 < ly' ∧ 0 < lz' ∧ diagBox lx ly lz = diagBox lx' ly' lz' :=
    .inr ⟨lx, ly, lz, hx, hy, hz, rfl⟩
  obtain ⟨f1, f2, f3⟩ := hfit
  have hok : ∃ s, buildSystem (diagBox lx ly lz) l = .ok s ∧ Spec.HalfHeights s.box r ∧ (200 ≤ l.length → s.box = diagBox lx ly lz ∧ s.triclinic = false ∧ s.atoms = l) := by
    unfold buildSystem
    rw [setBox_diag]
    simp only [bind, Except.bind]
    unfold System.assignAtoms
    by_cases h200 : l.length < 200
    · rw [if_pos h200, if_neg (by omega)]
      have hgb : ({ System.init with box := diagBox lx ly lz } : System).getBox = diagBox lx ly lz := rfl
      rw [hgb, if_neg (by simp [boxSum, diagBox]; positivity)]
      set n := padReps l.length with hn
      unfold System.repeatAtoms
      simp only [if_true, hgb]
      have hsc : scaleBox (diagBox lx ly lz) n n n = diagBox ((2 * n + 1) * lx) ((2 * n + 1) * ly) ((2 * n + 1) * lz) := by
        simp [scaleBox, diagBox, V3.ext_iff]
      rw [hsc, setBox_diag]
      refine ⟨_, rfl, ?_, fun h => absurd h (by omega)⟩
      show Spec.HalfHeights (diagBox _ _ _) r
      have hn1 : 1 ≤ n := by
        rcases Nat.eq_zero_or_pos n with h | h
        · have := padReps_total hlen h200
          rw [← hn, h] at this
          omega
        · exact h
      have hn1' : (1 : ℝ) ≤ n := by exact_mod_cast hn1
      obtain ⟨g1, g2, g3⟩ := f1 h200
      exact diag_half (by positivity) (by positivity) (by positivity) (by nlinarith) (by nlinarith) (by nlinarith)
    · rw [if_neg h200]
      obtain ⟨g1, g2, g3⟩ := f2 (not_lt.1 h200)
      exact ⟨_, rfl, diag_half hx hy hz g1 g2 g3, fun _ => ⟨rfl, rfl, rfl⟩⟩
  obtain ⟨s, hs, hh, h200⟩ := hok
  obtain ⟨p1, p2, p3, p4, p5, p6⟩ := build_props hb hreal hc hd hs
  refine ⟨s, hs, p1.faithful p2 p3 hh, ?_, p5, ?_, p4, p6⟩
  · by_cases h : s.natoms ≤ 2300
    · exact .inl h
    · have hN : 2300 < l.length := by rw [← p5]; exact not_le.1 h
      obtain ⟨e1, e2, e3⟩ := h200 (by omega)
      obtain ⟨g0, g1, g2, g3⟩ := f3 hN
      refine .inr ⟨lx, ly, lz, e1, e2, g0, g1, g2, g3, fun a ha => ?_⟩
      rw [e3] at ha
      obtain ⟨⟨a1, a2⟩, ⟨a3, a4⟩, a5, a6⟩ := hin a ha
      exact ⟨⟨by linarith, by linarith, .inl a1⟩, ⟨by linarith, by linarith, .inl a3⟩, by linarith, by linarith, .inl a5⟩
  · rw [p5]
    by_contra hlt
    have := p6 s.atoms.length (not_le.1 hlt)
    rw [List.getElem?_eq_none le_rfl, List.getElem?_eq_getElem (not_le.1 hlt)] at this
    cases this

/-- A search succeeds when no atom has more than 300 neighbours. -/
theorem cutoff_isOk (σ : StdSort) {s : System} {f : ℕ} {r : ℝ} (hr : r ≠ 0) (hp : Spec.PairsExact s r) (hle : s.realNop ≤ s.atoms.length)
    (hcap : ∀ i < s.atoms.length, (cutoffNbs s r f i).length ≤ 300) : ∃ s1, s.findNeighbors σ f (.cutoff r) = .ok s1 := by
  by_cases hn : s.natoms ≤ 2300
  · rw [findNeighbors_cutoff_eq σ s f r hr hn hle, if_neg]
    · exact ⟨_, rfl⟩
    · rintro ⟨k, hk, h⟩
      have := hcap k hk
      omega
  have hok : Spec.CellConditions s r := hp.resolve_left hn
  have hn' : 2300 < s.realNop := not_le.1 hn
  rw [findNeighbors_cutoff_large σ s f r hr hn' hle]
  obtain ⟨c, hc, hlen, hfr, hnb⟩ := C11_cells_eq_brute { s.startSearch f with neighbordistance := r } (hok.start f)
  have hNlen : (System.neighborsNormal { s.startSearch f with neighbordistance := r }).atoms.length =
      s.atoms.length := by rw [neighborsNormal_length]; exact resetAll_length s
  have hlen' : c.atoms.length = s.atoms.length := hlen.trans (resetAll_length s)
  rw [hc]
  change ∃ s1, (do
    let s' ← c.checkCapacity
    return { s' with neighborsFound := true }) = Except.ok s1
  unfold System.checkCapacity
  rw [if_neg]
  · exact ⟨_, rfl⟩
  rintro ⟨a, ha, hgt⟩
  obtain ⟨k, hk⟩ := List.mem_iff_getElem?.1 ha
  have hkl : k < s.atoms.length := by rw [← hlen']; exact (mem_of_getElem? hk).1
  have hb := List.getElem?_eq_getElem (l := (System.neighborsNormal
      { s.startSearch f with neighbordistance := r }).atoms) (i := k) (by rw [hNlen]; exact hkl)
  have hbe := neighborsNormal_start s r f k hkl
  rw [mem_eq_getElem _ _ (by rw [hNlen]; exact hkl)] at hbe
  rw [hbe] at hb
  have h1 := (hnb k a _ hk hb).1.length_eq
  have h2 := hcap k hkl
  change a.nbrs.length = (cutoffNbs s r f k).length at h1
  omega

end Pyscal
