import Verif.Props.Perfect
import Verif.Props.SolidClusters
import Verif.Lemmas.Frame

/-! C99: perfect crystals are solid, and the atoms of a perfect crystal form one cluster. -/

namespace Pyscal

open Spec (diagBox ofFrac latticeVec IsImage FracBound crystal cross volume InBox)

/-! ### Correlations of the shells -/

/-- The structures whose nearest neighbours all have the same distance. -/
def Spec.simple : List String := ["sc", "bcc", "fcc", "diamond", "l12", "b2"]

/-- The number of nearest neighbours. -/
def Spec.shellSize : String → ℕ
  | "sc" => 6
  | "bcc" => 8
  | "b2" => 8
  | "fcc" => 12
  | "l12" => 12
  | "diamond" => 4
  | _ => 0

theorem simple_cubic {name : String} (h : name ∈ Spec.simple) : name ∈ Spec.cubic ∧ name ≠ "a15" := by
  simp only [Spec.simple, List.mem_cons, List.not_mem_nil, or_false] at h
  rcases h with rfl | rfl | rfl | rfl | rfl | rfl <;> decide

/-- The double sum over two shells. -/
def crossK (l : ℕ) (d : ℤ) (L M : List (ℤ × ℤ × ℤ)) : ℚ := (L.map fun k => (M.map fun k' => (legPair l ((dotK k k' : ℚ) / d)).1).sum).sum

/-- The finite table: the vectors of even degree of two shells of the same structure agree and are not zero. -/
theorem cross_table : ∀ name ∈ Spec.simple, ∀ L ∈ Spec.shells name, L.length = Spec.shellSize name ∧ 0 < (Spec.limits name).1 ∧
    (∀ k ∈ L, nsq k = (Spec.limits name).1) ∧ ∀ M ∈ Spec.shells name, ∀ l ∈ [4, 6, 8, 10, 12],
      crossK l (Spec.limits name).1 L M = crossK l (Spec.limits name).1 L L ∧ crossK l (Spec.limits name).1 M M = crossK l (Spec.limits name).1 L L ∧
        0 < crossK l (Spec.limits name).1 L L := by
  decide +kernel

theorem crossSum_quarter {a : ℝ} (ha : 0 < a) (l : ℕ) {d : ℤ} (hd : 0 < d) {L M : List (ℤ × ℤ × ℤ)} (hL : ∀ k ∈ L, nsq k = d) (hM : ∀ k ∈ M, nsq k = d) :
    Spec.crossSum l (L.map fun k => ((1 : ℝ), Spec.quarter a k)) (M.map fun k => ((1 : ℝ), Spec.quarter a k)) = ((crossK l d L M : ℚ) : ℝ) := by
  have cast_sum : ∀ M : List ℚ, ((M.sum : ℚ) : ℝ) = (M.map fun x : ℚ => (x : ℝ)).sum := by
    intro M
    induction M with
    | nil => simp
    | cons x M ih => simp [ih]
  unfold Spec.crossSum crossK
  rw [cast_sum, List.map_map, List.map_map]
  refine congrArg List.sum (List.map_congr_left fun k hk => ?_)
  simp only [Function.comp_apply]
  rw [cast_sum, List.map_map, List.map_map]
  refine congrArg List.sum (List.map_congr_left fun k' hk' => ?_)
  simp only [Function.comp_apply]
  rw [(legPair_cast l _).1, cos_quarter ha hd (hL k hk) (hM k' hk')]
  ring

/-! ### Solid atoms -/

/-- The neighbours of every atom of a perfect crystal, as weights and vectors. -/
theorem perfect_shell {name : String} (hn : name ∈ Spec.simple) {a : ℝ} {s1 : System}
    (h : ∀ (i : ℕ) (x : Atom), s1.atoms[i]? = some x → ∃ b ∈ quarters name, x.type = b.2 ∧
      (x.nbrs.map fun e => (e.weight, e.dist, e.vec)).Perm
        (((near name b.1).filter fun p => filterOK 0 b.2 p.2).map fun p => (1, V3.norm (Spec.quarter a p.1), Spec.quarter a p.1)))
    (i : ℕ) (x : Atom) (hi : s1.atoms[i]? = some x) : ∃ L ∈ Spec.shells name, (wv x.nbrs).Perm (L.map fun k => ((1 : ℝ), Spec.quarter a k)) := by
  obtain ⟨b, hb, ht, hp⟩ := h i x hi
  obtain ⟨L, hL, hpL⟩ := (near_table name (simple_cubic hn).1 b hb).2.2.2.1 (simple_cubic hn).2
  refine ⟨L, hL, ?_⟩
  have e : (near name b.1).filter (fun p => filterOK 0 b.2 p.2) = near name b.1 := List.filter_eq_self.2 fun p _ => rfl
  rw [e] at hp
  have p1 := hp.map fun p => (p.1, p.2.2)
  have p2 := hpL.map fun k => ((1 : ℝ), Spec.quarter a k)
  rw [List.map_map, List.map_map] at p1
  rw [List.map_map] at p2
  exact p1.trans p2

/-- What `find_solids` finds when the neighbours are the shells of the structure. -/
theorem shell_solid {name : String} (hn : name ∈ Spec.simple) {a : ℝ} (ha : 0 < a) {s1 t : System} (hp : Plain s1) (hcc : s1.comparecriteria = 0)
    (hsh : ∀ (i : ℕ) (x : Atom), s1.atoms[i]? = some x → ∃ L ∈ Spec.shells name, (wv x.nbrs).Perm (L.map fun k => ((1 : ℝ), Spec.quarter a k)))
    {l : ℕ} (hl : l ∈ [4, 6, 8, 10, 12]) {bonds threshold avgthreshold : PyNum} {th at' : ℝ} (ht : threshold.val = some th) (hta : avgthreshold.val = some at')
    (ht1 : th < 1) (hat1 : at' < 1) (hb : (∃ n : ℤ, bonds = .int n ∧ n < Spec.shellSize name) ∨ ∃ x, bonds = .flt x ∧ x < 1) {c : ℝ} {right : Bool}
    (h : System.findSolids bonds threshold avgthreshold false (.int l) c right s1 = (t, .ok none)) (x : Atom) (hx : x ∈ t.atoms) :
    x.sij = List.replicate (Spec.shellSize name) (some 1) ∧ x.frenkel = Spec.shellSize name ∧ x.issolid = true := by
  obtain ⟨i, hi⟩ := List.mem_iff_getElem?.1 hx
  obtain ⟨l', t1, at1, cr, b, -, -, -, -, -, -, -, -, hs, hat⟩ := findSolids_ok h
  have hlen : t.atoms.length = s1.atoms.length := by rw [hat, List.length_map]
  have hil : i < s1.atoms.length := by rw [← hlen]; exact (List.getElem?_eq_some_iff.1 hi).1
  have hgi := List.getElem?_eq_getElem hil
  have hnb : x.nbrs = s1.atoms[i].nbrs := by
    rw [hat, List.getElem?_map, hgi] at hi
    rw [← Option.some.inj hi]
    exact (solidAtom_fields s1 _ _).1
  obtain ⟨L, hL, pL⟩ := hsh i _ hgi
  obtain ⟨L1, L2, L3, L4⟩ := cross_table name hn L hL
  have hz : x.nbrs.length = Spec.shellSize name := by
    rw [← L1, hnb]
    have := pL.length_eq
    simpa [wv] using this
  have hd : (0 : ℤ) < ((Spec.limits name).1 : ℤ) := by exact_mod_cast L2
  have hpos : 0 < Spec.shellSize name := by
    have hn' := hn
    simp only [Spec.simple, List.mem_cons, List.not_mem_nil, or_false] at hn'
    rcases hn' with rfl | rfl | rfl | rfl | rfl | rfl <;> decide
  -- the conditions of the Legendre form
  have good : ∀ (j : ℕ) (y : Atom), s1.atoms[j]? = some y → ∃ M ∈ Spec.shells name, (Spec.participants s1 y).Perm (M.map fun k => ((1 : ℝ), Spec.quarter a k)) ∧
      (∀ p ∈ Spec.participants s1 y, p.2 ≠ 0) ∧ 0 < ((Spec.participants s1 y).map Prod.fst).sum := by
    intro j y hy
    obtain ⟨M, hM, pM⟩ := hsh j y hy
    obtain ⟨M1, -, M3, -⟩ := cross_table name hn M hM
    rw [participants_eq hs (List.mem_of_getElem? hy), hp.qNbrs (List.mem_of_getElem? hy)]
    refine ⟨M, hM, pM, ?_, ?_⟩
    · intro p hpm h0
      obtain ⟨k, hk, rfl⟩ := List.mem_map.1 (pM.mem_iff.1 hpm)
      have h9 : V3.norm (Spec.quarter a k) = 0 := (V3.norm_eq_zero _).2 h0
      rw [norm_quarter a ha, M3 k hk] at h9
      have h10 : (0 : ℝ) < (((Spec.limits name).1 : ℤ) : ℝ) := by exact_mod_cast hd
      have : 0 < a / 4 * Real.sqrt (((Spec.limits name).1 : ℤ) : ℝ) := mul_pos (by positivity) (Real.sqrt_pos.2 h10)
      linarith
    · rw [(pM.map Prod.fst).sum_eq, List.map_map]
      have : (0 : ℝ) < M.length := by rw [M1]; exact_mod_cast hpos
      simpa [Function.comp_def] using this
  have hsij : x.sij = List.replicate (Spec.shellSize name) (some 1) := by
    have hlen' := (C21_values s1 t bonds threshold avgthreshold l c right none h i x hi).1
    rw [List.eq_replicate_iff]
    refine ⟨hlen'.trans hz, fun v hv => ?_⟩
    obtain ⟨k, hk⟩ := List.mem_iff_getElem?.1 hv
    have hkl : k < x.nbrs.length := by rw [← hlen']; exact (List.getElem?_eq_some_iff.1 hk).1
    have hxk := List.getElem?_eq_getElem hkl
    have hidx : x.nbrs[k].idx < s1.atoms.length := hs _ (List.getElem_mem hil) _ (by rw [← hnb]; exact List.getElem_mem hkl)
    have hgj := List.getElem?_eq_getElem hidx
    obtain ⟨A, hA, pA, A1, A2⟩ := good i _ hgi
    obtain ⟨B, hB, pB, B1, B2⟩ := good _ _ hgj
    have := C21_legendre s1 t bonds threshold avgthreshold l c right none h hp.vor i x.nbrs[k].idx _ _ x hgi hgj hi A1 B1 A2 B2 k _ hxk rfl
    rw [hk] at this
    rw [Option.some.inj this]
    obtain ⟨-, -, A3, A4⟩ := cross_table name hn A hA
    obtain ⟨-, -, B3, -⟩ := cross_table name hn B hB
    obtain ⟨c1, c2, c3⟩ := A4 B hB l hl
    have c3' : (0 : ℝ) < ((crossK l (Spec.limits name).1 A A : ℚ) : ℝ) := by exact_mod_cast c3
    rw [crossSum_perm l pA pB, pairSum_perm l pA, pairSum_perm l pB]
    unfold Spec.pairSum
    rw [crossSum_quarter ha l hd A3 B3, crossSum_quarter ha l hd A3 A3, crossSum_quarter ha l hd B3 B3, c1, c2, Real.mul_self_sqrt c3'.le]
    unfold fdiv
    rw [if_neg c3'.ne', div_self c3'.ne']
  obtain ⟨k1, -, k2, k3⟩ := C22_partial s1 t bonds threshold avgthreshold l c right none hcc h th at' ht hta i x hi
  have hfr : x.frenkel = Spec.shellSize name := by
    rw [k1, hsij, List.countP_replicate, if_pos]
    exact decide_eq_true ⟨1, rfl, ht1.ne'⟩
  have hmean : Spec.IsMean x.sij 1 := by
    refine ⟨List.replicate (Spec.shellSize name) 1, by rw [hsij, List.map_replicate], ?_, ?_⟩
    · intro h0
      have := congrArg List.length h0
      rw [List.length_replicate] at this
      exact hpos.ne' this
    · have : (Spec.shellSize name : ℝ) ≠ 0 := by exact_mod_cast hpos.ne'
      simp [this]
  refine ⟨hsij, hfr, ?_⟩
  rcases hb with ⟨n, rfl, hb⟩ | ⟨y, rfl, hb⟩
  · exact (k2 n rfl).2 ⟨by rw [hfr]; exact_mod_cast hb, 1, hmean, hat1⟩
  · refine (k3 y rfl).2 ⟨?_, 1, hmean, hat1⟩
    rw [hfr, hz]
    have : (0 : ℝ) < Spec.shellSize name := by exact_mod_cast hpos
    nlinarith

theorem build_criteria {b : Mat3} {l : List Atom} (hreal : ∀ a ∈ l, a.ghost = false) {s : System} (h : buildSystem b l = .ok s) : s.comparecriteria = 0 := by
  unfold buildSystem at h
  rcases h0 : System.init.setBox b with e | s0
  · rw [h0] at h; cases h
  rw [h0] at h
  obtain ⟨-, -, -, -, -, -, -, -, hr⟩ := assign_shape hreal h
  rw [hr.eq, (setBox_rest h0).eq]
  rfl

/-- A perfect crystal before and after the search. -/
theorem perfect_state (σ : StdSort) {name : String} (hn : name ∈ Spec.simple) {a ca r : ℝ} (ha : 0 < a) (hca : 0 < ca) {nx ny nz : ℕ} (hx : 1 ≤ nx) (hy : 1 ≤ ny) (hz : 1 ≤ nz)
    (hr : Spec.FirstShell name a r) (hfit : Spec.RangeFits ((Spec.basis name).length * nx * ny * nz) (nx * a) (ny * a) (nz * a) r) :
    ∃ atoms s s1, makeCrystal name a nx ny nz ca = .ok (atoms, diagBox (nx * a) (ny * a) (nz * a)) ∧ atoms.length = (Spec.basis name).length * nx * ny * nz ∧
      buildSystem (diagBox (nx * a) (ny * a) (nz * a)) atoms = .ok s ∧ s.findNeighbors σ 0 (.cutoff r) = .ok s1 ∧ Plain s1 ∧ s1.comparecriteria = 0 ∧
      s1.neighborsFound = true ∧
      (∀ (i : ℕ) (x : Atom), s1.atoms[i]? = some x → ∃ L ∈ Spec.shells name, (wv x.nbrs).Perm (L.map fun k => ((1 : ℝ), Spec.quarter a k))) ∧
      Spec.Faithful s r ∧ Spec.PairsExact s r ∧ (∀ x ∈ atoms, x.ghost = false ∧ InBox (nx * a) (ny * a) (nz * a) x.pos) ∧ (atoms.map Atom.pos).Nodup ∧
      crystal (diagBox (nx * a) (ny * a) (nz * a)) atoms = Spec.idealCrystal ⟨a, a, a⟩ (Spec.basis name) ∧ (∀ i < atoms.length, s.atoms[i]? = atoms[i]?) ∧
      (∀ x ∈ s1.atoms, x.nbrs.length ≤ s1.atoms.length) ∧ s1.realNop = atoms.length ∧ atoms.length ≤ s1.atoms.length ∧ atoms ≠ [] := by
  obtain ⟨hcub, h15⟩ := simple_cubic hn
  have hs : name ∈ Spec.structures := by
    simp only [Spec.simple, List.mem_cons, List.not_mem_nil, or_false] at hn
    rcases hn with rfl | rfl | rfl | rfl | rfl | rfl <;> decide
  have hh : name ≠ "hcp" := by
    rintro rfl
    revert hn; decide
  have hE : Spec.cellEdges name a ca = ⟨a, a, a⟩ := by rw [Spec.cellEdges, if_neg hh]
  obtain ⟨atoms, lx, ly, lz, hm, ex, ey, ez, hlen, hat, hnd, hcr⟩ := C40_make_crystal name hs ha hca hx hy hz
  rw [hE] at ex ey ez hcr
  dsimp only at ex ey ez
  subst ex ey ez
  have x0 : (0 : ℝ) < nx := by exact_mod_cast hx
  have y0 : (0 : ℝ) < ny := by exact_mod_cast hy
  have z0 : (0 : ℝ) < nz := by exact_mod_cast hz
  have hr0 : 0 < r := lt_of_le_of_lt (by positivity) hr.1
  have hall : ∀ c ∈ atoms, c.ghost = false ∧ InBox (nx * a) (ny * a) (nz * a) c.pos := by
    intro c hc
    obtain ⟨k, hk⟩ := List.mem_iff_getElem?.1 hc
    exact (hat k c hk).2.2
  obtain ⟨atoms', box', s, s1, h1, h2, h3, h4, h5, h6, h7, h8⟩ := perfect_search σ hcub ha hca hx hy hz hr hfit 0
  rw [hm] at h1
  obtain ⟨rfl, rfl⟩ := Prod.mk.inj (Except.ok.inj h1)
  have hne : atoms ≠ [] := by
    rintro rfl
    rw [System.findNeighbors] at h4
    unfold buildSystem at h3
    rw [setBox_diag] at h3
    simp [bind, Except.bind, System.assignAtoms] at h3
  obtain ⟨s', hb, hF, hP, -, -, -, hsame⟩ := inBox_build (by positivity) (by positivity) (by positivity) hne
    (fun c hc => (hall c hc).1) (fun c hc => (hall c hc).2) hnd hr0.le (by rw [hlen]; exact hfit)
  rw [h3] at hb
  obtain rfl := Except.ok.inj hb
  obtain ⟨e1, el, ea⟩ := cutoff_any hr0.ne' hP h4
  refine ⟨atoms, s, s1, hm, hlen, h3, h4, h5, ?_, by rw [e1], perfect_shell hn h8, hF, hP, hall, hnd, hcr, hsame, fun x hx => ?_, h6, h6 ▸ h7, hne⟩
  · have e2 := congrArg System.comparecriteria e1
    have e3 := build_criteria (fun c hc => (hall c hc).1) h3
    exact e2.trans e3
  · obtain ⟨i, hi⟩ := List.mem_iff_getElem?.1 hx
    rw [(ea i x hi).2.1.length_eq, el, cutoffNbs, List.length_map]
    refine (List.length_filter_le _ _).trans ?_
    rw [List.length_range]

/-- **C99, solid atoms**: build a crystal with `make_crystal` (sc, bcc, fcc, diamond, l12 or b2, any lattice constant and any repetitions), search its nearest
neighbours and call `find_solids` with an even degree of at least 4, any thresholds below 1 and any required number of bonds below the coordination
number (or any required fraction below 1).  The call succeeds, every `s_ij` is 1, every bond counts, and every atom is solid. -/
theorem C99_solid (σ : StdSort) {name : String} (hn : name ∈ Spec.simple) {a ca r : ℝ} (ha : 0 < a) (hca : 0 < ca) {nx ny nz : ℕ} (hx : 1 ≤ nx) (hy : 1 ≤ ny) (hz : 1 ≤ nz)
    (hr : Spec.FirstShell name a r) (hfit : Spec.RangeFits ((Spec.basis name).length * nx * ny * nz) (nx * a) (ny * a) (nz * a) r)
    {l : ℕ} (hl : l ∈ [4, 6, 8, 10, 12]) {bonds threshold avgthreshold : PyNum} {th at' : ℝ} (ht : threshold.val = some th) (hta : avgthreshold.val = some at')
    (ht0 : 0 ≤ th) (ht1 : th < 1) (hat0 : 0 ≤ at') (hat1 : at' < 1)
    (hb : (∃ n : ℤ, bonds = .int n ∧ n < Spec.shellSize name) ∨ ∃ x, bonds = .flt x ∧ 0 ≤ x ∧ x < 1) (c : ℝ) (right : Bool) :
    ∃ atoms box s s1 t, makeCrystal name a nx ny nz ca = .ok (atoms, box) ∧ buildSystem box atoms = .ok s ∧ s.findNeighbors σ 0 (.cutoff r) = .ok s1 ∧
      System.findSolids bonds threshold avgthreshold false (.int l) c right s1 = (t, .ok none) ∧ t.atoms.length = s.atoms.length ∧
      ∀ x ∈ t.atoms, x.sij = List.replicate (Spec.shellSize name) (some 1) ∧ x.frenkel = Spec.shellSize name ∧ x.issolid = true := by
  obtain ⟨atoms, s, s1, h1, h2, h3, h4, h5, h6, h7, h8, -⟩ := perfect_state σ hn ha hca hx hy hz hr hfit
  have hl' : (2 : ℤ) ≤ l ∧ (l : ℤ) ≤ 12 := by
    simp only [List.mem_cons, List.not_mem_nil, or_false] at hl
    omega
  obtain ⟨t, h9⟩ := (C24_find_solids s1 bonds threshold avgthreshold (.int l) false c right).2
    ⟨h7, ⟨l, rfl, hl'⟩, ⟨th, ht, ht0, ht1.le⟩, ⟨at', hta, hat0, hat1.le⟩, hb.imp (fun ⟨n, e, _⟩ => ⟨n, e⟩) fun ⟨x, e, x0, x1⟩ => ⟨x, e, x0, x1.le⟩⟩ h5.range
  obtain ⟨_, _, _, _, _, -, -, -, -, -, -, -, -, -, hat⟩ := findSolids_ok h9
  refine ⟨atoms, _, s, s1, t, h1, h3, h4, h9, by rw [hat, List.length_map, (Kept.findNeighbors h4).len], fun x hx => ?_⟩
  exact shell_solid hn ha h5 h6 h8 hl ht hta ht1 hat1 (hb.imp id fun ⟨x, e, _, x1⟩ => ⟨x, e, x1⟩) h9 x hx

/-- The neighbours are kept by `calculate_q`. -/
theorem calculateQ_nbrs' {s s' : System} {ls : List ℤ} {av : Bool} (h : s.calculateQ ls av = .ok s') {k : ℕ} {a a' : Atom} (hk : s.atoms[k]? = some a) (hk' : s'.atoms[k]? = some a') :
    a'.nbrs = a.nbrs := by
  rw [calculateQ_atom h hk hk']
  split_ifs <;> rfl

/-- **C99, no disorder**: in sc, bcc, fcc, l12 and b2 crystals `calculate_q` followed by `calculate_disorder` with an even degree of at least 4 gives the disorder 0 for every atom,
and the averaged disorder 0 if it is asked for. -/
theorem C99_disorder (σ : StdSort) {name : String} (hn : name ∈ Spec.simple) (hdia : name ≠ "diamond") {a ca r : ℝ} (ha : 0 < a) (hca : 0 < ca) {nx ny nz : ℕ} (hx : 1 ≤ nx) (hy : 1 ≤ ny) (hz : 1 ≤ nz)
    (hr : Spec.FirstShell name a r) (hfit : Spec.RangeFits ((Spec.basis name).length * nx * ny * nz) (nx * a) (ny * a) (nz * a) r)
    (ls : List ℤ) (hls : ∀ l ∈ ls, 2 ≤ l ∧ l ≤ 12) (avq av : Bool) {l : ℕ} (hl : l ∈ [4, 6, 8, 10, 12]) (hlm : (l : ℤ) ∈ ls) :
    ∃ atoms box s s1 s2 t, makeCrystal name a nx ny nz ca = .ok (atoms, box) ∧ buildSystem box atoms = .ok s ∧ s.findNeighbors σ 0 (.cutoff r) = .ok s1 ∧
      s1.calculateQ ls avq = .ok s2 ∧ System.calculateDisorder av l s2 = (t, .ok ()) ∧ t.atoms.length = s.atoms.length ∧
      ∀ x ∈ t.atoms, x.disorder = some 0 ∧ (av = true → x.avgDisorder = some 0) := by
  obtain ⟨atoms, s, s1, h1, hlen, h3, h4, h5, h6, h7, h8, -, -, -, -, -, -, hcount, hreal, hle, hne⟩ := perfect_state σ hn ha hca hx hy hz hr hfit
  obtain ⟨s2, hs2⟩ := calculateQ_succeeds (ls := ls) avq false hls h5.range
  obtain ⟨hq1, hq2, hq3⟩ := calculateQ_ok hs2
  have r2 : s2.realNop = s1.realNop := by rw [hq3]; split_ifs <;> rfl
  have l2 : s2.atoms.length = s1.atoms.length := by rw [hq3]; split_ifs <;> simp [System.afterQ]
  have hl' : (2 : ℤ) ≤ l ∧ (l : ℤ) ≤ 12 := hls _ hlm
  have corr : ∀ x ∈ s2.atoms, ∃ (i : ℕ) (y : Atom), s1.atoms[i]? = some y ∧ s2.atoms[i]? = some x ∧ x.nbrs = y.nbrs := by
    intro x hx
    obtain ⟨i, hi⟩ := List.mem_iff_getElem?.1 hx
    have hil : i < s1.atoms.length := by rw [← l2]; exact (List.getElem?_eq_some_iff.1 hi).1
    exact ⟨i, _, List.getElem?_eq_getElem hil, hi, calculateQ_nbrs' hs2 (List.getElem?_eq_getElem hil) hi⟩
  obtain ⟨t, ht⟩ := (C24_disorder s2 av l).2 hl'.1 hl'.2 (by
      intro x hx e he
      obtain ⟨i, y, hy1, -, hn'⟩ := corr x hx
      rw [l2]
      exact h5.range y (List.mem_of_getElem? hy1) e (by rw [← hn']; exact he)) (by
      intro x hx
      obtain ⟨i, y, hy1, -, hn'⟩ := corr x hx
      rw [l2, hn']
      exact hcount y (List.mem_of_getElem? hy1))
  -- the value of q
  have h0len : 0 < atoms.length := List.length_pos_iff.2 hne
  have h01 : 0 < s1.atoms.length := by omega
  have hg0 := List.getElem?_eq_getElem h01
  have h02 : 0 < s2.atoms.length := by omega
  have hg02 := List.getElem?_eq_getElem h02
  obtain ⟨c, hc, hcne⟩ : ∃ c, s2.atoms[0].qlm l = some c ∧ Spec.inner l c c ≠ 0 := by
    obtain ⟨atoms', box', as, k1, k2, -, k4⟩ := C95_q σ name (simple_cubic hn).1 (simple_cubic hn).2 ha hca hx hy hz hr hfit ls hls avq
    rw [h1] at k1
    obtain ⟨rfl, rfl⟩ := Prod.mk.inj (Except.ok.inj k1)
    unfold analyse at k2
    rw [h3] at k2
    simp only [bind, Except.bind, h4, hs2] at k2
    rw [System.getAtoms, if_pos (by rw [r2, l2, hreal]; exact hle)] at k2
    obtain rfl := Except.ok.inj k2
    have hm : s2.atoms[0] ∈ s2.atoms.take s2.realNop := by
      refine List.mem_iff_getElem?.2 ⟨0, ?_⟩
      rw [List.getElem?_take_of_lt (by rw [r2, hreal]; exact h0len), hg02]
    obtain ⟨v, hv, hqv, -⟩ := k4 _ hm l hlm
    have hv0 : v ≠ 0 := by
      have tab : ∀ name ∈ Spec.simple, ∀ l ∈ [4, 6, 8, 10, 12], ∀ v ∈ (Spec.qTable name)[l - 2]?, (0 : ℚ) < v := by decide +kernel
      exact (tab name hn l hl v hv).ne'
    have hvp : (0 : ℝ) < v := by
      have tab : ∀ name ∈ Spec.simple, ∀ l ∈ [4, 6, 8, 10, 12], ∀ v ∈ (Spec.qTable name)[l - 2]?, (0 : ℚ) < v := by decide +kernel
      exact_mod_cast tab name hn l hl v hv
    obtain ⟨e1, e2⟩ := calculateQ_q hs2 hg0 hg02 l
    rw [if_pos hlm] at e1 e2
    rcases hq : s1.calcQlm l s1.atoms[0] with _ | c
    · rw [hq, hqv] at e1; cases e1
    · refine ⟨c, by rw [e2, hq], fun h0 => ?_⟩
      rw [hq, hqv, Option.map_some] at e1
      have e3 := Option.some.inj e1
      rw [qValue_eq] at e3
      have e4 : ip l c c = 0 := h0
      rw [e4, mul_zero, Real.sqrt_zero] at e3
      exact (Real.sqrt_pos.2 hvp).ne' e3
  have one : ∃ M, Spec.shells name = [M] := by
    simp only [Spec.simple, List.mem_cons, List.not_mem_nil, or_false] at hn
    rcases hn with rfl | rfl | rfl | rfl | rfl | rfl
    · exact ⟨_, rfl⟩
    · exact ⟨_, rfl⟩
    · exact ⟨_, rfl⟩
    · exact absurd rfl hdia
    · exact ⟨_, rfl⟩
    · exact ⟨_, rfl⟩
  obtain ⟨M, hM⟩ := one
  have hall : ∀ b ∈ s2.atoms, b.qlm l = some c := by
    intro b hb
    obtain ⟨i, y, hy1, hb', -⟩ := corr b hb
    have e1 := (calculateQ_q hs2 hy1 hb' l).2
    have e2 := (calculateQ_q hs2 hg0 hg02 l).2
    rw [if_pos hlm] at e1 e2
    rw [e1, ← hc, e2]
    obtain ⟨A, hA, pA⟩ := h8 i y hy1
    obtain ⟨B, hB, pB⟩ := h8 0 _ hg0
    rw [hM, List.mem_singleton] at hA hB
    subst hA hB
    refine calcQlm_perm l rfl ?_
    rw [h5.qNbrs (List.mem_of_getElem? hy1), h5.qNbrs (List.mem_of_getElem? hg0)]
    exact pA.trans pB.symm
  obtain ⟨-, -, -, d1, d2⟩ := calculateDisorder_ok ht
  have lt : t.atoms.length = s2.atoms.length := by
    cases av with
    | false => rw [d1 rfl, List.length_map]
    | true => rw [d2 rfl, List.length_map, List.length_map]
  have nt : ∀ (i : ℕ) (x y : Atom), s2.atoms[i]? = some x → t.atoms[i]? = some y → y.nbrs = x.nbrs := by
    intro i x y hx hy
    cases av with
    | false =>
      rw [d1 rfl, List.getElem?_map, hx] at hy
      rw [← Option.some.inj hy]; rfl
    | true =>
      rw [d2 rfl, List.getElem?_map, List.getElem?_map, hx] at hy
      rw [← Option.some.inj hy]; rfl
  have zero : ∀ (i : ℕ) (x : Atom), t.atoms[i]? = some x → x.disorder = some 0 := by
    intro i x hi
    have hil : i < s2.atoms.length := by rw [← lt]; exact (List.getElem?_eq_some_iff.1 hi).1
    have hg := List.getElem?_eq_getElem hil
    have hn1 := nt i _ x hg hi
    obtain ⟨j, y, hy1, hy2, hyn⟩ := corr _ (List.getElem_mem hil)
    obtain ⟨L, hL, pL⟩ := h8 j y hy1
    have hlen' : x.nbrs.length = Spec.shellSize name := by
      rw [hn1, hyn, ← (cross_table name hn L hL).1]
      simpa [wv] using pL.length_eq
    have hpos : 0 < Spec.shellSize name := by
      have : ∀ name ∈ Spec.simple, 0 < Spec.shellSize name := by decide
      exact this name hn
    refine (C35_partial s2 t av l ht i x hi).2.1 c hall hcne ?_ ?_
    · intro h0
      rw [h0, List.length_nil] at hlen'
      omega
    · rw [hn1, hyn, l2]
      exact hcount y (List.mem_of_getElem? hy1)
  refine ⟨atoms, _, s, s1, s2, t, h1, h3, h4, hs2, ht, by rw [lt, l2, (Kept.findNeighbors h4).len], fun x hx => ?_⟩
  obtain ⟨i, hi⟩ := List.mem_iff_getElem?.1 hx
  refine ⟨zero i x hi, fun hav => ?_⟩
  refine ((C35_partial s2 t av l ht i x hi).2.2 hav 0).2 ⟨List.replicate (x.nbrs.length + 1) 0, ?_, by simp, by simp⟩
  rw [List.map_replicate, List.replicate_succ, zero i x hi]
  congr 1
  rw [List.eq_replicate_iff]
  refine ⟨by simp, fun v hv => ?_⟩
  obtain ⟨e, he, rfl⟩ := List.mem_map.1 hv
  have hil : i < s2.atoms.length := by rw [← lt]; exact (List.getElem?_eq_some_iff.1 hi).1
  have hn1 := nt i _ x (List.getElem?_eq_getElem hil) hi
  obtain ⟨j, y, hy1, hy2, hyn⟩ := corr _ (List.getElem_mem hil)
  have hidx : e.idx < t.atoms.length := by
    rw [lt, l2]
    exact h5.range y (List.mem_of_getElem? hy1) e (by rw [← hyn, ← hn1]; exact he)
  have hgt := List.getElem?_eq_getElem hidx
  rw [(mem_of_getElem? hgt).2]
  exact zero _ _ hgt

/-! ### One cluster -/

/-- The sites of cell 0 and of the cell `e`. -/
def sitesOf (name : String) (e : ℤ × ℤ × ℤ) : List (ℤ × ℤ × ℤ) :=
  (quarters name).map (fun b => step 0 b.1 0) ++ (quarters name).map fun b => step 0 b.1 e

/-- Whether two points are at most as far apart as nearest neighbours. -/
def adj (name : String) (p q : ℤ × ℤ × ℤ) : Prop :=
  0 < nsq (q.1 - p.1, q.2.1 - p.2.1, q.2.2 - p.2.2) ∧ nsq (q.1 - p.1, q.2.1 - p.2.1, q.2.2 - p.2.2) ≤ (Spec.limits name).1

instance (name : String) (p q : ℤ × ℤ × ℤ) : Decidable (adj name p q) := by unfold adj; infer_instance

/-- One step of the search for connected sites. -/
def growSites (name : String) (pts S : List (ℤ × ℤ × ℤ)) : List (ℤ × ℤ × ℤ) := pts.filter fun p => S.any fun q => q = p ∨ adj name q p

/-- The finite table: the sites of one cell, and those of two adjacent cells, are connected. -/
theorem connected_table : ∀ name ∈ Spec.simple, ∀ e ∈ [((0 : ℤ), (0 : ℤ), (0 : ℤ)), (1, 0, 0), (0, 1, 0), (0, 0, 1)], ∀ p ∈ sitesOf name e,
    p ∈ (growSites name (sitesOf name e))^[8] [(0, 0, 0)] := by
  decide +kernel

theorem origin_site {name : String} (hn : name ∈ Spec.simple) : ∃ b ∈ quarters name, b.1 = (0, 0, 0) := by
  simp only [Spec.simple, List.mem_cons, List.not_mem_nil, or_false] at hn
  rcases hn with rfl | rfl | rfl | rfl | rfl | rfl <;> exact ⟨_, List.mem_cons_self .., rfl⟩

theorem grow_path {name : String} {pts : List (ℤ × ℤ × ℤ)} (h0 : (0, 0, 0) ∈ pts) (k : ℕ) :
    ∀ p ∈ (growSites name pts)^[k] [(0, 0, 0)], p ∈ pts ∧ Relation.ReflTransGen (fun p q => p ∈ pts ∧ q ∈ pts ∧ adj name p q) (0, 0, 0) p := by
  induction k with
  | zero => intro p hp; rw [Function.iterate_zero, id, List.mem_singleton] at hp; subst hp; exact ⟨h0, .refl⟩
  | succ k ih =>
    intro p hp
    rw [Function.iterate_succ_apply'] at hp
    obtain ⟨hp1, hp2⟩ := List.mem_filter.1 hp
    obtain ⟨q, hq, hqp⟩ := List.any_eq_true.1 hp2
    obtain ⟨hq1, hq2⟩ := ih q hq
    refine ⟨hp1, ?_⟩
    rcases of_decide_eq_true hqp with rfl | h
    · exact hq2
    · exact hq2.tail ⟨hq1, hp1, h⟩

/-- Translation by the cell `n`. -/
def shiftK (n p : ℤ × ℤ × ℤ) : ℤ × ℤ × ℤ := (p.1 + 4 * n.1, p.2.1 + 4 * n.2.1, p.2.2 + 4 * n.2.2)

theorem adj_shift {name : String} {p q : ℤ × ℤ × ℤ} (n : ℤ × ℤ × ℤ) (h : adj name p q) : adj name (shiftK n p) (shiftK n q) := by
  unfold adj shiftK at *
  simpa using h

/-- All the sites of a set that is closed under the cells of a block are connected with the origin. -/
theorem block_connected {name : String} (hn : name ∈ Spec.simple) {nx ny nz : ℕ} (S : ℤ × ℤ × ℤ → Prop)
    (hS : ∀ b ∈ quarters name, ∀ n : ℤ × ℤ × ℤ, 0 ≤ n.1 → n.1 < nx → 0 ≤ n.2.1 → n.2.1 < ny → 0 ≤ n.2.2 → n.2.2 < nz → S (step 0 b.1 n))
    {b : (ℤ × ℤ × ℤ) × ℤ} (hb : b ∈ quarters name) {n : ℤ × ℤ × ℤ} (h1 : 0 ≤ n.1) (h2 : n.1 < nx) (h3 : 0 ≤ n.2.1) (h4 : n.2.1 < ny) (h5 : 0 ≤ n.2.2) (h6 : n.2.2 < nz) :
    Relation.ReflTransGen (fun p q => S p ∧ S q ∧ adj name p q) (0, 0, 0) (step 0 b.1 n) := by
  -- within the cells `n` and `n + e`
  have cells : ∀ e ∈ [((0 : ℤ), (0 : ℤ), (0 : ℤ)), (1, 0, 0), (0, 1, 0), (0, 0, 1)], ∀ n : ℤ × ℤ × ℤ,
      (∀ b ∈ quarters name, S (step 0 b.1 n) ∧ S (step 0 b.1 (n.1 + e.1, n.2.1 + e.2.1, n.2.2 + e.2.2))) → ∀ b ∈ quarters name,
      Relation.ReflTransGen (fun p q => S p ∧ S q ∧ adj name p q) (shiftK n (0, 0, 0)) (step 0 b.1 n) ∧
      Relation.ReflTransGen (fun p q => S p ∧ S q ∧ adj name p q) (shiftK n (0, 0, 0)) (step 0 b.1 (n.1 + e.1, n.2.1 + e.2.1, n.2.2 + e.2.2)) := by
    intro e he n hc b hb
    have h0 : (0, 0, 0) ∈ sitesOf name e := by
      obtain ⟨b0, hb0, e0⟩ := origin_site hn
      refine List.mem_append_left _ (List.mem_map.2 ⟨b0, hb0, ?_⟩)
      rw [e0]; rfl
    have hin : ∀ p ∈ sitesOf name e, S (shiftK n p) := by
      intro p hp
      rcases List.mem_append.1 hp with h | h
      · obtain ⟨b', hb', rfl⟩ := List.mem_map.1 h
        have := (hc b' hb').1
        have e1 : shiftK n (step 0 b'.1 0) = step 0 b'.1 n := by simp [shiftK, step]
        rwa [e1]
      · obtain ⟨b', hb', rfl⟩ := List.mem_map.1 h
        have := (hc b' hb').2
        have e1 : shiftK n (step 0 b'.1 e) = step 0 b'.1 (n.1 + e.1, n.2.1 + e.2.1, n.2.2 + e.2.2) := by
          simp only [shiftK, step, Prod.mk.injEq]; refine ⟨by ring, by ring, by ring⟩
        rwa [e1]
    have lift : ∀ p ∈ sitesOf name e, Relation.ReflTransGen (fun p q => S p ∧ S q ∧ adj name p q) (shiftK n (0, 0, 0)) (shiftK n p) := by
      intro p hp
      have := (grow_path h0 8 p (connected_table name hn e he p hp)).2
      exact this.lift (p := fun p q => S p ∧ S q ∧ adj name p q) (shiftK n) (fun p q h => ⟨hin p h.1, hin q h.2.1, adj_shift n h.2.2⟩)
    constructor
    · have := lift (step 0 b.1 0) (List.mem_append_left _ (List.mem_map.2 ⟨b, hb, rfl⟩))
      have e1 : shiftK n (step 0 b.1 0) = step 0 b.1 n := by simp [shiftK, step]
      rwa [e1] at this
    · have := lift (step 0 b.1 e) (List.mem_append_right _ (List.mem_map.2 ⟨b, hb, rfl⟩))
      have e1 : shiftK n (step 0 b.1 e) = step 0 b.1 (n.1 + e.1, n.2.1 + e.2.1, n.2.2 + e.2.2) := by
        simp only [shiftK, step, Prod.mk.injEq]; refine ⟨by ring, by ring, by ring⟩
      rwa [e1] at this
  obtain ⟨b0, hb0, e0⟩ := origin_site hn
  have site0 : ∀ n : ℤ × ℤ × ℤ, step 0 b0.1 n = shiftK n (0, 0, 0) := by intro n; rw [e0]; simp [step, shiftK]
  -- along the three axes
  have ax : ∀ k : ℕ, (k : ℤ) < nx → Relation.ReflTransGen (fun p q => S p ∧ S q ∧ adj name p q) (0, 0, 0) (shiftK (k, 0, 0) (0, 0, 0)) := by
    intro k
    induction k with
    | zero => intro _; exact .refl
    | succ k ih =>
      intro hk
      push_cast at hk
      have := (cells (1, 0, 0) (by simp) (k, 0, 0) (fun b hb => ⟨hS b hb _ (by simp) (by simpa using by omega) le_rfl (by simpa using by omega) le_rfl (by simpa using by omega),
        hS b hb _ (by simpa using by omega) (by simpa using by omega) (by simp) (by simpa using by omega) (by simp) (by simpa using by omega)⟩) b0 hb0).2
      rw [site0] at this
      refine (ih (by omega)).trans ?_
      simpa using this
  have ay : ∀ i : ℕ, (i : ℤ) < nx → ∀ k : ℕ, (k : ℤ) < ny → Relation.ReflTransGen (fun p q => S p ∧ S q ∧ adj name p q) (0, 0, 0) (shiftK (i, k, 0) (0, 0, 0)) := by
    intro i hi k
    induction k with
    | zero => intro _; exact ax i hi
    | succ k ih =>
      intro hk
      push_cast at hk
      have := (cells (0, 1, 0) (by simp) (i, k, 0) (fun b hb => ⟨hS b hb _ (by simp) (by simpa using by omega) (by simp) (by simpa using by omega) le_rfl (by simpa using by omega),
        hS b hb _ (by simp) (by simpa using by omega) (by simpa using by omega) (by simpa using by omega) (by simp) (by simpa using by omega)⟩) b0 hb0).2
      rw [site0] at this
      refine (ih (by omega)).trans ?_
      simpa using this
  have az : ∀ i : ℕ, (i : ℤ) < nx → ∀ j : ℕ, (j : ℤ) < ny → ∀ k : ℕ, (k : ℤ) < nz →
      Relation.ReflTransGen (fun p q => S p ∧ S q ∧ adj name p q) (0, 0, 0) (shiftK (i, j, k) (0, 0, 0)) := by
    intro i hi j hj k
    induction k with
    | zero => intro _; exact ay i hi j hj
    | succ k ih =>
      intro hk
      push_cast at hk
      have := (cells (0, 0, 1) (by simp) (i, j, k) (fun b hb => ⟨hS b hb _ (by simp) (by simpa using by omega) (by simp) (by simpa using by omega) (by simp) (by simpa using by omega),
        hS b hb _ (by simp) (by simpa using by omega) (by simp) (by simpa using by omega) (by simpa using by omega) (by simpa using by omega)⟩) b0 hb0).2
      rw [site0] at this
      refine (ih (by omega)).trans ?_
      simpa using this
  obtain ⟨n1, n2, n3⟩ := n
  dsimp only at h1 h2 h3 h4 h5 h6
  obtain ⟨i, rfl⟩ := Int.eq_ofNat_of_zero_le h1
  obtain ⟨j, rfl⟩ := Int.eq_ofNat_of_zero_le h3
  obtain ⟨k, rfl⟩ := Int.eq_ofNat_of_zero_le h5
  refine (az i h2 j h4 k h6).trans ?_
  exact (cells (0, 0, 0) (by simp) ((i : ℤ), (j : ℤ), (k : ℤ)) (fun b hb => ⟨hS b hb _ h1 h2 h3 h4 h5 h6, by simpa using hS b hb _ h1 h2 h3 h4 h5 h6⟩) b hb).1

theorem latticeVec_none (b : Mat3) (p : V3) : p + latticeVec b 0 0 0 = p := by
  ext <;> simp [latticeVec]

/-- The atoms of the crystal are the sites of the cells of the block. -/
theorem crystal_sites {name : String} (hn : name ∈ Spec.simple) {a : ℝ} (ha : 0 < a) {nx ny nz : ℕ} {atoms : List Atom}
    (hall : ∀ x ∈ atoms, x.ghost = false ∧ InBox (nx * a) (ny * a) (nz * a) x.pos)
    (hcr : crystal (diagBox (nx * a) (ny * a) (nz * a)) atoms = Spec.idealCrystal ⟨a, a, a⟩ (Spec.basis name)) :
    (∀ x ∈ atoms, ∃ b ∈ quarters name, ∃ n : ℤ × ℤ × ℤ, 0 ≤ n.1 ∧ n.1 < nx ∧ 0 ≤ n.2.1 ∧ n.2.1 < ny ∧ 0 ≤ n.2.2 ∧ n.2.2 < nz ∧ x.pos = Spec.quarter a (step 0 b.1 n)) ∧
    ∀ b ∈ quarters name, ∀ n : ℤ × ℤ × ℤ, 0 ≤ n.1 → n.1 < nx → 0 ≤ n.2.1 → n.2.1 < ny → 0 ≤ n.2.2 → n.2.2 < nz →
      ∃ x ∈ atoms, x.pos = Spec.quarter a (step 0 b.1 n) := by
  have hq : ∀ name ∈ Spec.simple, ∀ b ∈ quarters name, (0 ≤ b.1.1 ∧ b.1.1 < 4) ∧ (0 ≤ b.1.2.1 ∧ b.1.2.1 < 4) ∧ 0 ≤ b.1.2.2 ∧ b.1.2.2 < 4 := by decide +kernel
  have coord : ∀ (b n : ℤ) (m : ℕ), 0 ≤ b → b < 4 → 0 ≤ ((b - 0 + 4 * n : ℤ) : ℝ) * (a / 4) → ((b - 0 + 4 * n : ℤ) : ℝ) * (a / 4) < m * a → 0 ≤ n ∧ n < m := by
    intro b n m b0 b4 h1 h2
    have ha4 : 0 < a / 4 := by positivity
    have h3 : (0 : ℝ) ≤ ((b - 0 + 4 * n : ℤ) : ℝ) := by
      by_contra hc
      push Not at hc
      nlinarith
    have h4 : ((b - 0 + 4 * n : ℤ) : ℝ) < ((4 * m : ℤ) : ℝ) := by
      by_contra hc
      push Not at hc
      push_cast at hc h2
      nlinarith
    have h3' : 0 ≤ b - 0 + 4 * n := by exact_mod_cast h3
    have h4' : b - 0 + 4 * n < 4 * m := by exact_mod_cast h4
    omega
  have coord' : ∀ (b n : ℤ) (m : ℕ), 0 ≤ b → b < 4 → 0 ≤ n → n < m → 0 ≤ ((b - 0 + 4 * n : ℤ) : ℝ) * (a / 4) ∧ ((b - 0 + 4 * n : ℤ) : ℝ) * (a / 4) < m * a := by
    intro b n m b0 b4 h1 h2
    have ha4 : 0 < a / 4 := by positivity
    have h3 : (0 : ℝ) ≤ ((b - 0 + 4 * n : ℤ) : ℝ) := by
      have : 0 ≤ b - 0 + 4 * n := by omega
      exact_mod_cast this
    have h4 : ((b - 0 + 4 * n : ℤ) : ℝ) < ((4 * m : ℤ) : ℝ) := by
      have : b - 0 + 4 * n < 4 * m := by omega
      exact_mod_cast this
    refine ⟨by positivity, ?_⟩
    have h5 := mul_lt_mul_of_pos_right h4 ha4
    refine h5.trans_le (le_of_eq ?_)
    push_cast; ring
  have wrap : ∀ (L x y : ℝ) (n : ℤ), 0 ≤ x → x < L → 0 ≤ y → y < L → x = y + n * L → n = 0 := by
    intro L x y n h1 h2 h3 h4 h5
    have hL : 0 < L := by linarith
    have h6 : (n : ℝ) < 1 := by
      by_contra hc
      push Not at hc
      nlinarith
    have h7 : (-1 : ℝ) < n := by
      by_contra hc
      push Not at hc
      nlinarith
    have h6' : n < 1 := by exact_mod_cast h6
    have h7' : -1 < n := by exact_mod_cast h7
    omega
  have hcub := (simple_cubic hn).1
  constructor
  · intro x hx
    have hm : (x.pos, x.type) ∈ crystal (diagBox (nx * a) (ny * a) (nz * a)) atoms :=
      ⟨x, hx, 0, 0, 0, by rw [latticeVec_none], rfl⟩
    rw [hcr, mem_ideal hcub] at hm
    obtain ⟨b, hb, n, hp, -⟩ := hm
    obtain ⟨q1, q2, q3⟩ := hq name hn b hb
    obtain ⟨⟨i1, i2⟩, ⟨i3, i4⟩, i5, i6⟩ := (hall x hx).2
    rw [hp] at i1 i2 i3 i4 i5 i6
    have c1 := coord b.1.1 n.1 nx q1.1 q1.2 i1 i2
    have c2 := coord b.1.2.1 n.2.1 ny q2.1 q2.2 i3 i4
    have c3 := coord b.1.2.2 n.2.2 nz q3.1 q3.2 i5 i6
    exact ⟨b, hb, n, c1.1, c1.2, c2.1, c2.2, c3.1, c3.2, hp⟩
  · intro b hb n n1 n2 n3 n4 n5 n6
    obtain ⟨q1, q2, q3⟩ := hq name hn b hb
    have hm : (Spec.quarter a (step 0 b.1 n), b.2) ∈ Spec.idealCrystal ⟨a, a, a⟩ (Spec.basis name) := (mem_ideal hcub a _ _).2 ⟨b, hb, n, rfl, rfl⟩
    rw [← hcr] at hm
    obtain ⟨x, hx, m1, m2, m3, hp, -⟩ := hm
    dsimp only at hp
    refine ⟨x, hx, ?_⟩
    obtain ⟨⟨i1, i2⟩, ⟨i3, i4⟩, i5, i6⟩ := (hall x hx).2
    have c1 := coord' b.1.1 n.1 nx q1.1 q1.2 n1 n2
    have c2 := coord' b.1.2.1 n.2.1 ny q2.1 q2.2 n3 n4
    have c3 := coord' b.1.2.2 n.2.2 nz q3.1 q3.2 n5 n6
    have ex := congrArg V3.x hp
    have ey := congrArg V3.y hp
    have ez := congrArg V3.z hp
    simp only [latticeVec, diagBox, V3.add_x, V3.add_y, V3.add_z, V3.smul, mul_zero, add_zero, zero_add] at ex ey ez
    obtain rfl := wrap _ _ _ m1 c1.1 c1.2 i1 i2 ex
    obtain rfl := wrap _ _ _ m2 c2.1 c2.2 i3 i4 ey
    obtain rfl := wrap _ _ _ m3 c3.1 c3.2 i5 i6 ez
    rw [latticeVec_none] at hp
    exact hp.symm

/-- **C99, one cluster**: with `cluster=True` and no cutoff of its own (or one that is at least the nearest neighbour distance) `find_solids` returns the number of atoms: all the
atoms are solid, have the same cluster id and are flagged as members of the largest cluster. -/
theorem C99_cluster (σ : StdSort) {name : String} (hn : name ∈ Spec.simple) {a ca r : ℝ} (ha : 0 < a) (hca : 0 < ca) {nx ny nz : ℕ} (hx : 1 ≤ nx) (hy : 1 ≤ ny) (hz : 1 ≤ nz)
    (hr : Spec.FirstShell name a r) (hfit : Spec.RangeFits ((Spec.basis name).length * nx * ny * nz) (nx * a) (ny * a) (nz * a) r)
    {l : ℕ} (hl : l ∈ [4, 6, 8, 10, 12]) {bonds threshold avgthreshold : PyNum} {th at' : ℝ} (ht : threshold.val = some th) (hta : avgthreshold.val = some at')
    (ht0 : 0 ≤ th) (ht1 : th < 1) (hat0 : 0 ≤ at') (hat1 : at' < 1)
    (hb : (∃ n : ℤ, bonds = .int n ∧ n < Spec.shellSize name) ∨ ∃ x, bonds = .flt x ∧ 0 ≤ x ∧ x < 1) {c : ℝ}
    (hc : c = 0 ∨ (a / 4) * Real.sqrt (Spec.limits name).1 ≤ c) (right : Bool) :
    ∃ atoms box s s1 s2 as, makeCrystal name a nx ny nz ca = .ok (atoms, box) ∧ buildSystem box atoms = .ok s ∧ s.findNeighbors σ 0 (.cutoff r) = .ok s1 ∧
      System.findSolids bonds threshold avgthreshold true (.int l) c right s1 = (s2, .ok (some ((Spec.basis name).length * nx * ny * nz))) ∧
      s2.getAtoms = .ok as ∧ as.length = (Spec.basis name).length * nx * ny * nz ∧
      ∃ id : ℤ, 1 ≤ id ∧ ∀ x ∈ as, x.issolid = true ∧ x.belongsto = id ∧ x.lcluster = true := by
  obtain ⟨atoms, s, s1, h1, hlen, h3, h4, h5, h6, h7, h8, hF, hP, hall, hnd, hcr, hsame, -⟩ := perfect_state σ hn ha hca hx hy hz hr hfit
  have x0 : (0 : ℝ) < nx := by exact_mod_cast hx
  have y0 : (0 : ℝ) < ny := by exact_mod_cast hy
  have z0 : (0 : ℝ) < nz := by exact_mod_cast hz
  have hr0 : 0 < r := lt_of_le_of_lt (by positivity) hr.1
  have hl' : (2 : ℤ) ≤ l ∧ (l : ℤ) ≤ 12 := by
    simp only [List.mem_cons, List.not_mem_nil, or_false] at hl
    omega
  have hargs : Spec.SolidArgs s1 bonds threshold avgthreshold (.int l) :=
    ⟨h7, ⟨l, rfl, hl'⟩, ⟨th, ht, ht0, ht1.le⟩, ⟨at', hta, hat0, hat1.le⟩, hb.imp (fun ⟨n, e, _⟩ => ⟨n, e⟩) fun ⟨x, e, x0, x1⟩ => ⟨x, e, x0, x1.le⟩⟩
  have hreal : ∀ x ∈ atoms, x.ghost = false := fun x hx => (hall x hx).1
  obtain ⟨hsites, hfill⟩ := crystal_sites hn ha hall hcr
  have hbl : 0 < atoms.length := by
    obtain ⟨b, hb, -⟩ := origin_site hn
    obtain ⟨x, hx, -⟩ := hfill b hb (0, 0, 0) le_rfl (by dsimp only; omega) le_rfl (by dsimp only; omega) le_rfl (by dsimp only; omega)
    exact List.length_pos_of_mem hx
  have hasg : ({ System.init with box := diagBox (nx * a) (ny * a) (nz * a) } : System).assignAtoms atoms = .ok s := by
    unfold buildSystem at h3
    rw [setBox_diag] at h3
    exact h3
  obtain ⟨s2, n, hrun⟩ := C88_run σ _ s s1 atoms hreal hbl (fun _ => by
      have e : ({ System.init with box := diagBox (nx * a) (ny * a) (nz * a) } : System).getBox = diagBox (nx * a) (ny * a) (nz * a) := rfl
      rw [e]
      have : (diagBox (nx * a) (ny * a) (nz * a)).det = (nx * a) * (ny * a) * (nz * a) := by simp [Mat3.det, diagBox]; try ring
      rw [this]; positivity) hasg 0 r hr0.ne' hP h4 bonds threshold avgthreshold (.int l) c right hargs
  have hi : StoreInv s atoms := by
    obtain ⟨extra, e1, e2, e3, e4, e5, -⟩ := assign_shape hreal hasg
    exact ⟨hreal, ⟨extra, e1, fun a ha => (e2 a ha).1, e5⟩, by rw [e4, e1], e3⟩
  have hnat : s.natoms = atoms.length := hi.realNop
  obtain ⟨t, n', l0, as, lab, g1, g2, g3, g4, g5, g6, g7, g8, g9, g10, -⟩ := C88_partial σ s s1 s2 atoms hi 0 r hr0.ne' hP h4 bonds threshold avgthreshold (.int l) c right _ hrun
  obtain rfl := Option.some.inj g3
  have hall0 := shell_solid hn ha h5 h6 h8 hl ht hta ht1 hat1 (hb.imp id fun ⟨x, e, _, x1⟩ => ⟨x, e, x1⟩) g1
  have hl0t : ∀ x ∈ l0, x ∈ t.atoms := by
    obtain ⟨p, -, hit, -⟩ := findSolids_store (storeInv_any hr0.ne' hP h4 hi).1 g1
    rw [getAtoms_inv hit] at g2
    obtain rfl := Except.ok.inj g2
    obtain ⟨gs, e, -⟩ := hit.ex
    intro x hx
    rw [e]
    exact List.mem_append_left _ hx
  -- all atoms are solid
  have hsol : ∀ x ∈ as, x.issolid = true := by
    intro x hx
    obtain ⟨i, hi'⟩ := List.mem_iff_getElem?.1 hx
    obtain ⟨hil, e⟩ := List.getElem?_eq_some_iff.1 hi'
    have hl0 : i < l0.length := by rw [g6.length_eq]; exact hil
    have hrel := (List.forall₂_iff_get.1 g6).2 i hl0 hil
    have hm : l0[i] ∈ t.atoms := hl0t _ (List.getElem_mem hl0)
    have e2 := hrel.2.2.2.2.2
    simp only [List.get_eq_getElem] at e2
    rw [← e, e2]
    exact (hall0 _ hm).2.2
  have hsolid : ∀ i < atoms.length, Spec.SolidAt as i := by
    intro i hi'
    have : i < as.length := by rw [g5, hnat]; exact hi'
    exact ⟨as[i], List.getElem?_eq_getElem this, hsol _ (List.getElem_mem this)⟩
  -- adjacent sites are linked
  have hlink : ∀ (i j : ℕ) (p q : ℤ × ℤ × ℤ) (x y : Atom), atoms[i]? = some x → atoms[j]? = some y → x.pos = Spec.quarter a p → y.pos = Spec.quarter a q → adj name p q →
      Spec.SolidLink s as r 0 c i j := by
    intro i j p q x y hxi hyj hxp hyq hadj
    have hi' := (List.getElem?_eq_some_iff.1 hxi).1
    have hj' := (List.getElem?_eq_some_iff.1 hyj).1
    have hsx : s.atoms[i]? = some x := by rw [hsame i hi', hxi]
    have hsy : s.atoms[j]? = some y := by rw [hsame j hj', hyj]
    set k : ℤ × ℤ × ℤ := (q.1 - p.1, q.2.1 - p.2.1, q.2.2 - p.2.2) with hk
    have hd : y.pos - x.pos = Spec.quarter a k := by
      rw [hxp, hyq, hk]
      ext
      · simp only [Spec.quarter, V3.sub_x]; push_cast; ring
      · simp only [Spec.quarter, V3.sub_y]; push_cast; ring
      · simp only [Spec.quarter, V3.sub_z]; push_cast; ring
    have hnorm : V3.norm (y.pos - x.pos) ≤ (a / 4) * Real.sqrt (Spec.limits name).1 := by
      rw [hd, norm_quarter a ha]
      have : ((nsq k : ℤ) : ℝ) ≤ (((Spec.limits name).1 : ℕ) : ℝ) := by exact_mod_cast hadj.2
      exact mul_le_mul_of_nonneg_left (Real.sqrt_le_sqrt this) (by positivity)
    have himg : IsImage s.box (y.pos - x.pos) (y.pos - x.pos) := ⟨0, 0, 0, by rw [latticeVec_none]⟩
    have hv := hF.short x (List.mem_of_getElem? hsx) y (List.mem_of_getElem? hsy) _ himg (hnorm.trans_lt hr.1)
    have hdist : s.getDistance y x = V3.norm (y.pos - x.pos) := by
      rw [← hv]; rfl
    refine ⟨hsolid i hi', hsolid j hj', x, y, hsx, hsy, ⟨?_, by rw [hdist]; exact hnorm.trans_lt hr.1, by simp, by simp⟩, fun h0 => ?_⟩
    · rintro rfl
      rw [hxi] at hyj
      obtain rfl := Option.some.inj hyj
      have e0 : V3.norm (x.pos - x.pos) = 0 := by simp [V3.norm, V3.normSq]
      rw [hd, norm_quarter a ha] at e0
      have hpos : (0 : ℝ) < (nsq k : ℝ) := by exact_mod_cast hadj.1
      have := Real.sqrt_pos.2 hpos
      have : 0 < a / 4 * Real.sqrt (nsq k : ℝ) := by positivity
      linarith
    · rw [hdist]
      exact hnorm.trans (hc.resolve_left h0)
  -- every atom is linked with the one at the origin
  set S : ℤ × ℤ × ℤ → Prop := fun p => ∃ (i : ℕ) (x : Atom), atoms[i]? = some x ∧ x.pos = Spec.quarter a p with hS
  have hSfill : ∀ b ∈ quarters name, ∀ n : ℤ × ℤ × ℤ, 0 ≤ n.1 → n.1 < nx → 0 ≤ n.2.1 → n.2.1 < ny → 0 ≤ n.2.2 → n.2.2 < nz → S (step 0 b.1 n) := by
    intro b hb n n1 n2 n3 n4 n5 n6
    obtain ⟨x, hx, e⟩ := hfill b hb n n1 n2 n3 n4 n5 n6
    obtain ⟨i, hi'⟩ := List.mem_iff_getElem?.1 hx
    exact ⟨i, x, hi', e⟩
  have huniq : ∀ (i j : ℕ) (x y : Atom), atoms[i]? = some x → atoms[j]? = some y → x.pos = y.pos → i = j := by
    intro i j x y hxi hyj e
    have hi' := (List.getElem?_eq_some_iff.1 hxi).1
    have e1 : (atoms.map Atom.pos)[i]? = (atoms.map Atom.pos)[j]? := by simp [hxi, hyj, e]
    exact (List.getElem?_inj (by simpa using hi') hnd).1 e1
  have hpath : ∀ p q : ℤ × ℤ × ℤ, Relation.ReflTransGen (fun p q => S p ∧ S q ∧ adj name p q) p q → ∀ (i j : ℕ) (x y : Atom), atoms[i]? = some x → atoms[j]? = some y →
      x.pos = Spec.quarter a p → y.pos = Spec.quarter a q → Relation.ReflTransGen (Spec.SolidLink s as r 0 c) i j := by
    intro p q hpq
    induction hpq with
    | refl =>
      intro i j x y hxi hyj e1 e2
      rw [huniq i j x y hxi hyj (e1.trans e2.symm)]
    | tail _ hq ih =>
      intro i j x y hxi hyj e1 e2
      obtain ⟨⟨k, z, hzk, e3⟩, -, hadj⟩ := hq
      exact (ih i k x z hxi hzk e1 e3).tail (hlink k j _ _ z y hzk hyj e3 e2 hadj)
  obtain ⟨b0, hb0, eb0⟩ := origin_site hn
  obtain ⟨i0, xo, hi0, eo⟩ := hSfill b0 hb0 (0, 0, 0) le_rfl (by dsimp only; omega) le_rfl (by dsimp only; omega) le_rfl (by dsimp only; omega)
  have eo' : xo.pos = Spec.quarter a (0, 0, 0) := by rw [eo, eb0]; rfl
  have hi0' := (List.getElem?_eq_some_iff.1 hi0).1
  have hlab : ∀ j < atoms.length, lab j = lab i0 := by
    intro j hj
    obtain ⟨b, hb, m, m1, m2, m3, m4, m5, m6, e⟩ := hsites atoms[j] (List.getElem_mem hj)
    have := hpath _ _ (block_connected hn S hSfill hb m1 m2 m3 m4 m5 m6) i0 j xo atoms[j] hi0 (List.getElem?_eq_getElem hj) eo' e
    exact ((g8.same i0 (by rw [hnat]; exact hi0') j (by rw [hnat]; exact hj) (hsolid i0 hi0') (hsolid j hj)).2 this).symm
  have hbel : ∀ x ∈ as, x.belongsto = lab i0 := by
    intro x hx
    have hm : x.belongsto ∈ as.map Atom.belongsto := List.mem_map_of_mem hx
    rw [g7] at hm
    obtain ⟨j, hj, e⟩ := List.mem_map.1 hm
    rw [← e, hlab j (by rw [← hnat]; exact List.mem_range.1 hj)]
  obtain ⟨K, hK⟩ := g8.ids
  have hid := (hK (lab i0)).1 ⟨i0, by rw [hnat]; exact hi0', hsolid i0 hi0', rfl⟩
  have hcount : as.filter (fun x => x.belongsto = lab i0) = as := List.filter_eq_self.2 fun x hx => by simpa using hbel x hx
  have hle := g9 (lab i0) (by omega)
  rw [hcount] at hle
  obtain ⟨x1, hx1⟩ : ∃ x, x ∈ as := List.exists_mem_of_length_pos (by rw [g5, hnat]; exact hbl)
  obtain ⟨hpos, t0, ht0', hfl, hflag⟩ := g10 ⟨x1, hx1, hsol x1 hx1⟩
  have hn' : n = as.length := le_antisymm (by rw [← hfl]; exact List.length_filter_le _ _) hle
  have ht0b : ∀ x ∈ as, x.belongsto = t0 := by
    have := List.length_filter_eq_length_iff.1 (hfl.trans hn')
    intro x hx
    simpa using this x hx
  refine ⟨atoms, _, s, s1, s2, as, h1, h3, h4, ?_, g4, by rw [g5, hnat, hlen], lab i0, hid.1, fun x hx => ⟨hsol x hx, hbel x hx, (hflag x hx).2 (ht0b x hx)⟩⟩
  rw [hrun, hn', g5, hnat, hlen]

/-- The hypotheses of `C99_solid` and `C99_cluster` with the default arguments of `find_solids` (`bonds=0.5`, `threshold=0.5`, `avgthreshold=0.6`, `q=6`) hold for an fcc crystal
with lattice constant 4 and cutoff 3.5, one cell or five and more repetitions. -/
example (n : ℕ) (hn : n = 1 ∨ 5 ≤ n) : "fcc" ∈ Spec.simple ∧ Spec.FirstShell "fcc" 4 3.5 ∧
    Spec.RangeFits ((Spec.basis "fcc").length * n * n * n) (n * 4) (n * 4) (n * 4) 3.5 ∧ 6 ∈ [4, 6, 8, 10, 12] ∧
    (PyNum.flt (1 / 2)).val = some (1 / 2) ∧ (PyNum.flt (3 / 5)).val = some (3 / 5) ∧ ∃ x, PyNum.flt (1 / 2) = .flt x ∧ 0 ≤ x ∧ x < 1 := by
  have hs : Spec.FirstShell "fcc" 4 3.5 := fcc_shell (by norm_num) (by norm_num) (by norm_num)
  refine ⟨by decide, hs, fits_reps (by decide) (by norm_num) (by omega) (by omega) (by omega) hs ?_, by decide, rfl, rfl, _, rfl, by norm_num, by norm_num⟩
  rcases hn with rfl | hn
  · left; decide
  · exact .inr ⟨by norm_num, hn, hn, hn⟩

end Pyscal
