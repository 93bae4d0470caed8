import Verif.Props.Floating
import Verif.Props.Noise
import Verif.Props.PerfectSolids

/-! Crystals stored and searched with floating-point numbers (C103). -/

namespace Pyscal

open Spec

theorem coordination_simple : ∀ name ∈ Spec.simple, ∀ t, Spec.coordination name 0 t = [Spec.shellSize name] ∧ Spec.shellSize name ≤ 300 ∧ name ∈ Spec.cubic ∧ name ∈ Spec.structures ∧ name ≠ "hcp" := by
  intro name hn t
  simp only [Spec.simple, List.mem_cons, List.not_mem_nil, or_false] at hn
  rcases hn with rfl | rfl | rfl | rfl | rfl | rfl <;> exact ⟨rfl, by decide, by decide, by decide, by decide⟩

/-- **C103, crystals**: take the atoms of `make_crystal` (sc, bcc, fcc, diamond, l12, b2; 200 to 2300 atoms), each moved by up to `d`, for example by rounding its coordinates, but still in the
box, whose edges are floating-point numbers.  With a cutoff clear of both shells by a little more than `2 d`, a search in floating-point arithmetic gives every atom the
coordination number of the structure. -/
theorem C103_crystal {fl : ℝ → ℝ} (h : RoundsToNearest fl) (hodd : ∀ x, fl (-x) = -fl x) (name : String) (hn : name ∈ Spec.simple) {a ca r d D : ℝ} (ha : 0 < a) (hca : 0 < ca)
    {nx ny nz : ℕ} (hx : 1 ≤ nx) (hy : 1 ≤ ny) (hz : 1 ≤ nz) (hN : 200 ≤ (Spec.basis name).length * nx * ny * nz) (hN' : (Spec.basis name).length * nx * ny * nz ≤ 2300)
    (dx : IsDouble (nx * a)) (dy : IsDouble (ny * a)) (dz : IsDouble (nz * a)) (hD : 2 * d + (nx * a + ny * a + nz * a) / 2 ^ 51 ≤ 2 * D)
    (hr : Spec.FirstShell name a (r - 2 * D)) (hr' : Spec.FirstShell name a (r + 2 * D)) (hda : 4 * d ≤ a) (hfit : 2 * (r + 2 * D) ≤ nx * a ∧ 2 * (r + 2 * D) ≤ ny * a ∧ 2 * (r + 2 * D) ≤ nz * a)
    {atoms l' : List Atom} {box : Mat3} (hm : makeCrystal name a nx ny nz ca = .ok (atoms, box)) (hd : Spec.Displaced d atoms l') (hin : ∀ x ∈ l', InBox (nx * a) (ny * a) (nz * a) x.pos) :
    ∃ g g1 as, buildSystem box l' = .ok g ∧ g.flFindNeighbors fl 0 r = .ok g1 ∧ g1.getAtoms = .ok as ∧ as.length = (Spec.basis name).length * nx * ny * nz ∧
      ∀ x ∈ as, x.nbrs.length = Spec.shellSize name := by
  classical
  obtain ⟨-, c300, hcub, hstr, hhcp⟩ := coordination_simple name hn 0
  have hcoord : ∀ t, Spec.coordination name 0 t = [Spec.shellSize name] := fun t => (coordination_simple name hn t).1
  have x0 : (0 : ℝ) < nx * a := by have : (0 : ℝ) < nx := by exact_mod_cast hx
                                   positivity
  have y0 : (0 : ℝ) < ny * a := by have : (0 : ℝ) < ny := by exact_mod_cast hy
                                   positivity
  have z0 : (0 : ℝ) < nz * a := by have : (0 : ℝ) < nz := by exact_mod_cast hz
                                   positivity
  set ε : ℝ := (nx * a + ny * a + nz * a) / 2 ^ 51 with hε
  have ε0 : 0 < ε := by positivity
  obtain ⟨atoms', lx, ly, lz, hm', ex, ey, ez, hlen, hat, -⟩ := C40_make_crystal name hstr ha hca hx hy hz
  rw [hm] at hm'
  cases hm'
  have hE : Spec.cellEdges name a ca = ⟨a, a, a⟩ := by rw [Spec.cellEdges, if_neg hhcp]
  rw [hE] at ex ey ez
  dsimp only at ex ey ez
  have hpos : 0 < atoms.length := by omega
  have hd0 : 0 ≤ d := (V3.norm_nonneg _).trans (List.forall₂_iff_get.1 hd |>.2 0 hpos (hd.length_eq ▸ hpos)).2
  have σ : StdSort := default
  have fits : ∀ q : ℝ, q ≤ r + 2 * D → Spec.RangeFits ((Spec.basis name).length * nx * ny * nz) (nx * a) (ny * a) (nz * a) q := by
    intro q hq
    refine ⟨fun h => by omega, fun _ => ⟨by linarith [hfit.1], by linarith [hfit.2.1], by linarith [hfit.2.2]⟩, fun h => by omega⟩
  have shell : ∀ q : ℝ, r - 2 * D ≤ q → q ≤ r + 2 * D → Spec.FirstShell name a q := fun q h1 h2 => ⟨lt_of_lt_of_le hr.1 h1, h2.trans hr'.2⟩
  obtain ⟨g, gm, asm, gb, hgm, tm, lm, am⟩ := C98_coordination σ name hcub (r := r - ε) ha hca hx hy hz (shell _ (by linarith) (by linarith)) (shell _ (by linarith) (by linarith)) hda
    (fits _ (by linarith)) (.inl hN') 0 (by norm_num) hm hd
  obtain ⟨g', gp, asp, gb', hgp, tp, lp, ap⟩ := C98_coordination σ name hcub (r := r + ε) ha hca hx hy hz (shell _ (by linarith) (by linarith)) (shell _ (by linarith) (by linarith)) hda
    (fits _ (by linarith)) (.inl hN') 0 (by norm_num) hm hd
  have : g' = g := by rw [gb] at gb'; cases gb'; rfl
  subst this
  have hlen' : l'.length = atoms.length := hd.length_eq.symm
  have hne' : l' ≠ [] := List.length_pos_iff.1 (hlen' ▸ hpos)
  have hghost : ∀ y ∈ l', y.ghost = false := by
    intro y hy
    obtain ⟨k, hk, rfl⟩ := List.getElem_of_mem hy
    have := (List.forall₂_iff_get.1 hd |>.2 k (hlen' ▸ hk) hk).1
    simp only [List.get_eq_getElem] at this
    rw [this]
    obtain ⟨-, -, h3, -⟩ := hat k _ (List.getElem?_eq_getElem (hlen' ▸ hk))
    exact h3
  obtain ⟨s, sb, sa, sbox, stri, -, sreal⟩ := stored_form (l := l') (ex ▸ x0) (ey ▸ y0) (ez ▸ z0) hne' hghost
  have : s = g' := by
    rw [gb] at sb; cases sb; rfl
  subst this
  have hcop : copies l'.length = 0 := by
    unfold copies
    rw [if_neg (by omega)]
  rw [hcop] at sa sbox
  have sa' : s.atoms = l' := by
    rw [sa, repNew_zero, List.append_nil]
  have hFB : Spec.FloatBox s (nx * a) (ny * a) (nz * a) := by
    refine ⟨stri, ?_, ⟨dx, dy, dz⟩, ⟨x0, y0, z0⟩, ?_⟩
    · rw [sbox, ← ex, ← ey, ← ez]
      norm_num
    · intro u hu v hv
      rw [sa'] at hu hv
      obtain ⟨⟨a1, a2⟩, ⟨a3, a4⟩, a5, a6⟩ := hin u hu
      obtain ⟨⟨b1, b2⟩, ⟨b3, b4⟩, b5, b6⟩ := hin v hv
      refine ⟨?_, ?_, ?_⟩ <;> rw [abs_le] <;> constructor <;> linarith
  have hr0 : 0 < r - 2 * D := lt_of_le_of_lt (by positivity) hr.1
  have hreal : s.realNop ≤ 2300 := by omega
  obtain ⟨hle, em, -⟩ := findNeighbors_cutoff_ok (by linarith) hreal hgm
  obtain ⟨-, ep, -⟩ := findNeighbors_cutoff_ok (by linarith) hreal hgp
  have hsl : s.atoms.length = l'.length := by rw [sa']
  have cnt : ∀ (q : ℝ) (gq : System) (asq : List Atom), gq.atoms = (List.range s.atoms.length).map (cutoffAtom s q 0) → gq.realNop = s.realNop → gq.getAtoms = .ok asq →
      (∀ x ∈ asq, x.nbrs.length ∈ Spec.coordination name 0 x.type) → ∀ k < s.atoms.length, (cutoffNbs s q 0 k).length = Spec.shellSize name := by
    intro q gq asq e er hg hall k hk
    have : asq = (List.range s.atoms.length).map (cutoffAtom s q 0) := by
      unfold System.getAtoms at hg
      rw [e, er] at hg
      rw [if_pos (by simpa using hle)] at hg
      cases hg
      refine List.take_of_length_le ?_
      rw [List.length_map, List.length_range]
      omega
    have h1 := hall (cutoffAtom s q 0 k) (by rw [this, List.mem_map]; exact ⟨k, List.mem_range.2 hk, rfl⟩)
    rw [hcoord, List.mem_singleton] at h1
    exact h1
  have cm := cnt _ _ _ (by rw [em]) (by rw [em]) tm am
  have cp := cnt _ _ _ (by rw [ep]) (by rw [ep]) tp ap
  have key : ∀ k < s.atoms.length, ((System.flNeighborsNormal fl { s.startSearch 0 with neighbordistance := r }).mem k).nbrs.length = Spec.shellSize name := by
    intro k hk
    rw [flStart_nbrs h hodd s r 0 k hk, List.length_map]
    have h1 := cm k hk
    have h2 := cp k hk
    unfold cutoffNbs at h1 h2
    rw [List.length_map, ← List.countP_eq_length_filter] at h1 h2
    rw [← List.countP_eq_length_filter]
    refine le_antisymm ?_ ?_
    · rw [← h2]
      refine List.countP_mono_left fun j hj => ?_
      simp only [decide_eq_true_eq, List.mem_range] at hj ⊢
      rintro ⟨q1, q2, q3⟩
      exact ⟨q1, by linarith [(abs_le.1 (flDistOf_close h hFB hk hj)).1], q3⟩
    · rw [← h1]
      refine List.countP_mono_left fun j hj => ?_
      simp only [decide_eq_true_eq, List.mem_range] at hj ⊢
      rintro ⟨q1, q2, q3⟩
      exact ⟨q1, by linarith [(abs_le.1 (flDistOf_close h hFB hk hj)).2], q3⟩
  set N := System.flNeighborsNormal fl { s.startSearch 0 with neighbordistance := r } with hNd
  have hNl : N.atoms.length = s.atoms.length := by
    rw [hNd, flNormal_length]; exact resetAll_length s
  have hNr : N.realNop = s.realNop := rfl
  have hcap : N.checkCapacity = .ok N := by
    unfold System.checkCapacity
    rw [if_neg]
    rintro ⟨x, hx, hl⟩
    obtain ⟨k, hk, rfl⟩ := List.getElem_of_mem hx
    rw [← mem_eq_getElem, key k (hNl ▸ hk)] at hl
    omega
  have hg : System.getAtoms { s.startSearch 0 with neighbordistance := r } = .ok ((s.resetAllNeighbors.atoms).take s.realNop) := by
    unfold System.getAtoms
    rw [if_pos]
    · rfl
    · exact hle.trans (resetAll_length s).ge
  refine ⟨s, { N with neighborsFound := true }, N.atoms.take N.realNop, gb, ?_, ?_, ?_, ?_⟩
  · unfold System.flFindNeighbors
    change (do
      let _ ← System.getAtoms { s.startSearch 0 with neighbordistance := r }
      let s ← N.checkCapacity
      return { s with neighborsFound := true }) = _
    rw [hg, hcap]
    rfl
  · unfold System.getAtoms
    exact if_pos (by rw [hNl]; exact hle)
  · rw [List.length_take, hNl, hNr, sreal]
    omega
  · intro x hx
    obtain ⟨k, hk, rfl⟩ := List.getElem_of_mem (List.mem_of_mem_take hx)
    rw [← mem_eq_getElem]
    exact key k (hNl ▸ hk)

/-- A simple cubic crystal with 216 atoms and lattice constant 4. -/
example : ∃ atoms box g g1 as, makeCrystal "sc" 4 6 6 6 1 = .ok (atoms, box) ∧ buildSystem box atoms = .ok g ∧ g.flFindNeighbors flOdd 0 5 = .ok g1 ∧ g1.getAtoms = .ok as ∧
    as.length = 216 ∧ ∀ x ∈ as, x.nbrs.length = 6 := by
  have hE : Spec.cellEdges "sc" 4 1 = ⟨4, 4, 4⟩ := by rw [Spec.cellEdges, if_neg (by decide)]
  obtain ⟨atoms, lx, ly, lz, hm, ex, ey, ez, hlen, hat, hnd, hcr⟩ := C40_make_crystal "sc" (by decide) (a := 4) (ca := 1) (by norm_num) (by norm_num) (nx := 6) (ny := 6) (nz := 6)
    (by norm_num) (by norm_num) (by norm_num)
  rw [hE] at ex ey ez
  have t16 : Real.sqrt 16 = 4 := by rw [show (16 : ℝ) = 4 ^ 2 by norm_num]; exact Real.sqrt_sq (by norm_num)
  have t32 : (5.6 : ℝ) < Real.sqrt 32 := by rw [Real.lt_sqrt (by norm_num)]; norm_num
  have d24 : IsDouble (((6 : ℕ) : ℝ) * 4) := ⟨24, 0, by norm_num, by norm_num⟩
  obtain ⟨g, g1, as, h1, h2, h3, h4, h5⟩ := C103_crystal flOdd_rounds flOdd_odd "sc" (by decide) (a := 4) (ca := 1) (r := 5) (d := 0) (D := 0.1) (by norm_num) (by norm_num) (nx := 6) (ny := 6)
    (nz := 6) (by norm_num) (by norm_num) (by norm_num) (by decide) (by decide) d24 d24 d24 (by norm_num) (by constructor <;> norm_num [Spec.limits, t16] <;> linarith)
    (by constructor <;> norm_num [Spec.limits, t16] <;> linarith) (by norm_num) (by norm_num) hm (l' := atoms)
    (by
      refine List.forall₂_same.2 fun x _ => ⟨rfl, ?_⟩
      simp [V3.norm, V3.normSq])
    (by
      intro x hx
      obtain ⟨k, hk⟩ := List.mem_iff_getElem?.1 hx
      have := (hat k x hk).2.2.2
      rw [ex, ey, ez] at this
      exact this)
  exact ⟨atoms, _, g, g1, as, hm, h1, h2, h3, h4, h5⟩

end Pyscal
