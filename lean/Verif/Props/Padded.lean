import Verif.Props.Angles
import Verif.Props.Harmonics
import Verif.Model.Voronoi

/-! Padded systems: a two-atom example in which an atom has a ghost neighbour. -/

namespace Pyscal

theorem repNew_mem {b : Mat3} {g : Bool} {rx ry rz : ℕ} {l : List Atom} {c : ℤ × ℤ × ℤ} {a : Atom}
    (hc : c ∈ repCells rx ry rz) (ha : a ∈ l) : ∃ i : ℤ, (repAtom b g c a).withId i ∈ repNew b g rx ry rz l := by
  have hm : repAtom b g c a ∈ (repCells rx ry rz).flatMap fun c => l.map (repAtom b g c) :=
    List.mem_flatMap.2 ⟨c, hc, List.mem_map.2 ⟨a, ha, rfl⟩⟩
  obtain ⟨k, hk, hx⟩ := List.getElem_of_mem hm
  refine ⟨(l.length : ℤ) + 1 + k, ?_⟩
  unfold repNew
  rw [List.mem_mapIdx]
  exact ⟨k, hk, by rw [hx]⟩

/-- Cell and base atom of every atom of the padded system. -/
def edgeCells : List ((ℤ × ℤ × ℤ) × Bool) :=
  [((0, 0, 0), false), ((0, 0, 0), true)] ++ (repCells 2 2 2).flatMap fun c => [(c, false), (c, true)]

/-- Position of the atom in a cell. -/
noncomputable def edgePos (c : (ℤ × ℤ × ℤ) × Bool) : V3 :=
  ⟨(if c.2 then 19 / 2 else 1 / 2) + 10 * c.1.1, 10 * c.1.2.1, 10 * c.1.2.2⟩

theorem edge_positions : (edgeAtoms ++ repNew (Spec.diagBox 10 10 10) true 2 2 2 edgeAtoms).map Atom.pos = edgeCells.map edgePos := by
  unfold edgeCells repNew
  rw [List.map_append, List.map_append]
  refine congrArg₂ (· ++ ·) ?_ ?_
  · simp [edgeAtoms, edgePos]
  · have h1 : ∀ L : List Atom, (L.mapIdx fun (k : ℕ) a => a.withId ((edgeAtoms.length : ℤ) + 1 + k)).map Atom.pos = L.map Atom.pos := by
      intro L
      refine List.ext_getElem? fun i => ?_
      rw [List.getElem?_map, List.getElem?_mapIdx, List.getElem?_map]
      cases L[i]? <;> rfl
    rw [h1, List.map_flatMap, List.map_flatMap]
    refine congrArg List.flatten (List.map_congr_left fun c _ => ?_)
    simp only [edgeAtoms, List.map_cons, List.map_nil, repAtom, edgePos, Spec.diagBox]
    simp only [List.cons.injEq, V3.mk.injEq, and_true]
    refine ⟨?_, ?_⟩ <;> (ext <;> simp <;> ring)

theorem edgeCells_nodup : edgeCells.Nodup := by decide +kernel

theorem edgeCells_bound : ∀ c ∈ edgeCells, -2 ≤ c.1.1 ∧ c.1.1 ≤ 2 ∧ -2 ≤ c.1.2.1 ∧ c.1.2.1 ≤ 2 ∧ -2 ≤ c.1.2.2 ∧ c.1.2.2 ≤ 2 := by
  decide +kernel

theorem wrap50_zero {d : ℝ} {m : ℤ} (hd : d = m) (h1 : -50 < m) (h2 : m < 50) (h : wrap 50 d = 0) : m = 0 := by
  obtain ⟨n, hn⟩ := wrap_isImage 50 d (by norm_num)
  rw [h, hd] at hn
  have : (m : ℝ) = ((-50 * n : ℤ) : ℝ) := by push_cast; linarith
  have : m = -50 * n := by exact_mod_cast this
  omega

/-- Different atoms of the padded system have a non-zero distance vector. -/
theorem edge_vec {s : System} (hb : s.box = Spec.diagBox 50 50 50) (ht : s.triclinic = false) {c c' : (ℤ × ℤ × ℤ) × Bool}
    (hc : c ∈ edgeCells) (hc' : c' ∈ edgeCells) (h : s.image (edgePos c - edgePos c') = 0) : c = c' := by
  obtain ⟨a1, a2, a3, a4, a5, a6⟩ := edgeCells_bound c hc
  obtain ⟨b1, b2, b3, b4, b5, b6⟩ := edgeCells_bound c' hc'
  rw [image_diag s 50 50 50 (by norm_num) (by norm_num) (by norm_num) ht hb] at h
  have hx := congrArg V3.x h
  have hy := congrArg V3.y h
  have hz := congrArg V3.z h
  obtain ⟨⟨i, j, k⟩, b⟩ := c
  obtain ⟨⟨i', j', k'⟩, b'⟩ := c'
  dsimp only at *
  have ey := wrap50_zero (m := 10 * (j - j')) (by simp [edgePos]; ring) (by omega) (by omega) hy
  have ez := wrap50_zero (m := 10 * (k - k')) (by simp [edgePos]; ring) (by omega) (by omega) hz
  have ex := wrap50_zero (m := (if b then 9 else 0) - (if b' then 9 else 0) + 10 * (i - i'))
    (by cases b <;> cases b' <;> simp [edgePos] <;> ring) (by cases b <;> cases b' <;> simp <;> omega)
    (by cases b <;> cases b' <;> simp <;> omega) hx
  have hj : j = j' := by omega
  have hk : k = k' := by omega
  have hbi : b = b' ∧ i = i' := by
    cases b <;> cases b' <;> simp at ex ⊢ <;> omega
  rw [hj, hk, hbi.1, hbi.2]

/-- The two atoms of `edgeAtoms` in a box of length 10, with neighbours found for cutoff 2: the system
is padded with ghosts and the first atom has a ghost as neighbour. -/
theorem edge_setup (σ : StdSort) : ∃ s0 s s1 : System,
    System.init.setBox (Spec.diagBox 10 10 10) = .ok s0 ∧ s0.assignAtoms edgeAtoms = .ok s ∧
    s.findNeighbors σ 0 (.cutoff 2) = .ok s1 ∧ StoreInv s edgeAtoms ∧ s.realNop = 2 ∧ s.atoms.length = 250 ∧
    s.getBox = Spec.diagBox 10 10 10 ∧ s.box = Spec.diagBox 50 50 50 ∧ s.triclinic = false ∧
    s1 = { s with
      atoms := (List.range s.atoms.length).map (cutoffAtom s 2 0)
      neighborsFound := true
      filter := 0
      neighbordistance := 2
      voronoiused := false } ∧
    (∀ k, 2 ≤ k → k < 250 → (s.mem k).ghost = true) ∧
    (∀ i j, i < 250 → j < 250 → s.diffOf i j = 0 → i = j) ∧
    ∃ x ∈ (cutoffAtom s 2 0 0).nbrs, 2 ≤ x.idx ∧ x.idx < 250 := by
  obtain ⟨s0, h1⟩ := setBox_ok (s := System.init) (b := Spec.diagBox 10 10 10) (fun h => absurd h (not_skewed_diag _ _ _))
  obtain ⟨f1, f2, f3, -⟩ := setBox_frame h1
  have htri0 : s0.triclinic = false := by
    unfold System.setBox at h1
    rw [if_neg (not_skewed_diag _ _ _)] at h1
    obtain rfl := Except.ok.inj h1
    rfl
  have hb0 : s0.getBox = Spec.diagBox 10 10 10 := by simp [System.getBox, f1, f2, System.init]
  have hpr : padReps edgeAtoms.length = 2 := by decide +kernel
  have hnsk : ¬ Spec.Skew s0.getBox := by rw [hb0, ← skewed_iff]; exact not_skewed_diag _ _ _
  obtain ⟨s, h2⟩ := C05_assign_succeeds s0 edgeAtoms (by simp [edgeAtoms]) (by rw [hb0]; norm_num [boxSum, Spec.diagBox])
    (fun h => absurd h hnsk)
  have hsc : scaleBox s0.getBox 2 2 2 = Spec.diagBox 50 50 50 := by
    rw [hb0]
    simp only [scaleBox, Spec.diagBox, V3.smul]
    norm_num
  obtain ⟨g1, g2⟩ := assign_box (by simp [edgeAtoms]) h2 (by rw [hpr, hsc]; exact not_skewed_diag _ _ _)
  rw [hpr, hsc] at g1
  have hreal : ∀ a ∈ edgeAtoms, a.ghost = false := by simp [edgeAtoms]
  obtain ⟨extra, e1, e2, e3, e4, e5, -, e7, -⟩ := assign_shape hreal h2
  have hi : StoreInv s edgeAtoms := ⟨hreal, ⟨extra, e1, fun a ha => (e2 a ha).1, e5⟩, by rw [e4, e1], e3⟩
  obtain ⟨k1, k2, -⟩ := e7 (by simp [edgeAtoms])
  have hlen : s.atoms.length = 250 := by
    have hc := repCells_length 2 2 2
    rw [e1, List.length_append, k1, repNew_length, hpr]
    simp only [edgeAtoms, List.length_cons, List.length_nil]
    omega
  have hrn : s.realNop = 2 := e3
  obtain ⟨s1, h3⟩ := (C09_overrun σ s 0 2 (by norm_num) (by omega) (by omega)).2 (by
    intro k hk
    rw [← cutoffList_length (List.getElem?_eq_getElem hk) (cutoffNbs_spec (List.getElem?_eq_getElem hk))]
    exact (cutoffNbs_le _ _ _ _).trans (by omega))
  have hs1 := (findNeighbors_cutoff_ok (by norm_num) (by omega) h3).2.1
  refine ⟨s0, s, s1, h1, h2, h3, hi, hrn, hlen, by rw [k2, hb0], g1, by rw [g2, htri0], hs1, ?_, ?_, ?_⟩
  · intro k hk hk'
    have hlt : k < s.atoms.length := by omega
    have : s.mem k = s.atoms[k] := by simp [System.mem, List.getD_eq_getElem?_getD, hlt]
    rw [this]
    refine (e2 _ ?_).1
    have : s.atoms[k] = extra[k - 2]'(by
        have := congrArg List.length e1
        simp [edgeAtoms] at this
        omega) := by
      simp only [e1]
      rw [List.getElem_append_right (by simpa [edgeAtoms] using hk)]
      rfl
    rw [this]
    exact List.getElem_mem _
  · intro i j hi hj h
    have hpos : s.atoms.map Atom.pos = edgeCells.map edgePos := by rw [e1, k1, hb0, hpr, edge_positions]
    have hcl : edgeCells.length = 250 := by
      have := congrArg List.length hpos
      rw [List.length_map, List.length_map, hlen] at this
      exact this.symm
    have hp : ∀ k (hk : k < 250), s.posOf k = edgePos (edgeCells[k]'(by omega)) := by
      intro k hk
      have hq := congrArg (fun L => L[k]?) hpos
      simp only [List.getElem?_map, List.getElem?_eq_getElem (show k < s.atoms.length by omega),
        List.getElem?_eq_getElem (show k < edgeCells.length by omega), Option.map_some, Option.some.injEq] at hq
      rw [← hq]
      have : s.mem k = s.atoms[k] := by simp [System.mem, List.getD_eq_getElem?_getD, show k < s.atoms.length by omega]
      change (s.mem k).pos = _
      rw [this]
    have := edge_vec (s := s) g1 (by rw [g2, htri0]) (List.getElem_mem (show j < edgeCells.length by omega))
      (List.getElem_mem (show i < edgeCells.length by omega)) (by
        rw [← hp i hi, ← hp j hj]
        exact h)
    exact ((edgeCells_nodup.getElem_inj_iff).1 this).symm
  · have hcell : ((-1 : ℤ), (0 : ℤ), (0 : ℤ)) ∈ repCells 2 2 2 := by decide +kernel
    obtain ⟨i, hi'⟩ := repNew_mem (b := s0.getBox) (g := true) (l := edgeAtoms) (a := { pos := ⟨19 / 2, 0, 0⟩ }) hcell (by simp [edgeAtoms])
    rw [← hpr, ← k1] at hi'
    obtain ⟨j, hj, hjx⟩ := List.getElem_of_mem hi'
    have hjl : j + 2 < s.atoms.length := by
      rw [e1, List.length_append]
      simp only [edgeAtoms, List.length_cons, List.length_nil]
      omega
    have hget : s.atoms[j + 2]? = some ((repAtom s0.getBox true (-1, 0, 0) { pos := ⟨19 / 2, 0, 0⟩ }).withId i) := by
      rw [e1, List.getElem?_append_right (by simp [edgeAtoms]), ← hjx]
      simp [edgeAtoms, hj]
    have ha0 : s.atoms[0]? = some { pos := ⟨1 / 2, 0, 0⟩ } := by rw [e1]; rfl
    obtain ⟨x, hx, hxi⟩ := (cutoffNbs_spec (r := 2) (f := 0) ha0).2.1 (j + 2) _ hget (by
      refine ⟨by omega, ?_, by simp [Spec.FilterAllows]⟩
      rw [System.getDistance, image_diag s 50 50 50 (by norm_num) (by norm_num) (by norm_num) (by rw [g2, htri0]) g1]
      have : V3.norm ⟨-1, 0, 0⟩ < 2 := by
        rw [V3.norm, show V3.normSq ⟨-1, 0, 0⟩ = (1 : ℝ) ^ 2 by norm_num [V3.normSq], Real.sqrt_sq (by norm_num)]
        norm_num
      convert this using 3 <;> norm_num [wrap, repAtom, Atom.withId, hb0, Spec.diagBox])
    exact ⟨x, hx, by omega, by omega⟩

/-- **C59 is false for padded systems**: two atoms in a box of length 10, neighbours found for cutoff 2:
one neighbour is a ghost copy, and the call raises IndexError. -/
theorem C59_false_padded (σ : StdSort) : ∃ s0 s s1 : System,
    System.init.setBox (Spec.diagBox 10 10 10) = .ok s0 ∧ s0.assignAtoms edgeAtoms = .ok s ∧
    s.findNeighbors σ 0 (.cutoff 2) = .ok s1 ∧ s1.calculateAngular σ = .error .indexError := by
  obtain ⟨s0, s, s1, h1, h2, h3, hi, hr, hl, -, -, -, hs1, -, -, x, hx, hx2, -⟩ := edge_setup σ
  refine ⟨s0, s, s1, h1, h2, h3, ?_⟩
  have hi1 := storeInv_cutoff (by norm_num) (by omega) h3 hi
  have hs1a : s1.atoms = (List.range s.atoms.length).map (cutoffAtom s 2 0) := by rw [hs1]
  have hget : (s1.atoms.take s.realNop)[0]? = some (cutoffAtom s 2 0 0) := by
    rw [hr, List.getElem?_take, if_pos (by norm_num), hs1a, List.getElem?_map, List.getElem?_range (by omega)]; rfl
  refine (C59_errors σ s1 _ hi1).1 ⟨_, List.mem_of_getElem? hget, x, hx, ?_⟩
  rw [List.length_take, hr]
  omega

/-! ### C57 -/

theorem sum_weight_one {l : List Nb} (h : ∀ x ∈ l, x.weight = 1) : (l.map Nb.weight).sum = l.length := by
  induction l with
  | nil => simp
  | cons x l ih =>
    rw [List.map_cons, List.sum_cons, ih fun y hy => h y (List.mem_cons_of_mem _ hy), h x List.mem_cons_self, List.length_cons]
    push_cast
    ring

theorem calcQlm_some {s : System} {l : ℕ} {a : Atom} (hv : s.voronoiused = false) (h0 : s.qNbrs a ≠ [])
    (hx : ∀ x ∈ a.nbrs, x.vec ≠ 0 ∧ x.weight = 1) : ∃ c, s.calcQlm l a = some c := by
  have hq : ∀ x ∈ s.qNbrs a, x ∈ a.nbrs := fun x hx => List.mem_of_mem_filter hx
  have := ((calcQ_value s l a).2 fun x h => (hx x (hq x h)).1).2.2 hv (by
    rw [sum_weight_one fun x h => (hx x (hq x h)).2]
    have := List.length_pos_iff.2 h0
    positivity)
  exact ⟨_, this⟩

theorem calcQlm_empty {s : System} {l : ℕ} {a : Atom} (hv : s.voronoiused = false) (h0 : s.qNbrs a = []) : s.calcQlm l a = none :=
  ((calcQ_value s l a).2 fun x h => by rw [h0] at h; cases h).2.1 hv (by rw [h0]; simp)

theorem mapM_option_some {α β : Type} (F : α → Option β) (l : List α) (h : ∀ a ∈ l, ∃ b, F a = some b) : ∃ m, l.mapM F = some m := by
  induction l with
  | nil => exact ⟨[], rfl⟩
  | cons a l ih =>
    obtain ⟨b, hb⟩ := h a List.mem_cons_self
    obtain ⟨m, hm⟩ := ih fun c hc => h c (List.mem_cons_of_mem _ hc)
    exact ⟨b :: m, by rw [List.mapM_cons, hb, hm]; rfl⟩

theorem mapM_option_none {α β : Type} (F : α → Option β) (l : List α) (h : ∃ a ∈ l, F a = none) : l.mapM F = none := by
  induction l with
  | nil => obtain ⟨a, ha, -⟩ := h; cases ha
  | cons a l ih =>
    rw [List.mapM_cons]
    cases hf : F a with
    | none => rfl
    | some b =>
      obtain ⟨c, hc, hn⟩ := h
      rcases List.mem_cons.1 hc with rfl | hc
      · rw [hf] at hn; cases hn
      · rw [ih ⟨c, hc, hn⟩]; rfl

theorem qAtom_qlm (s : System) (a : Atom) : (qAtom s [6] a).qlm 6 = s.calcQlm 6 a := by simp [qAtom]

/-- The averaged value of the first atom, from the state before `calculate_q`. -/
theorem qvals_first {s : System} (hs : s.NbrsInRange) (hl : 0 < s.atoms.length) (hr : 0 < s.realNop) (hr' : s.realNop ≤ s.atoms.length) :
    ∃ t L, s.calculateQ [6] true = .ok t ∧ t.getQvals 6 true = .ok L ∧
      L[0]? = some (((s.afterQ [6]).calcAqlm 6 (qAtom s [6] (s.mem 0))).map (qValue 6)) := by
  obtain ⟨t, ht⟩ := calculateQ_succeeds (s := s) (ls := [6]) true false (by intro l hl; simp at hl; omega) hs
  have hf := C53_frame s t [6] true ht
  have hrt : t.realNop = s.realNop := by
    have := congrArg System.realNop hf.1
    exact this
  refine ⟨t, (t.atoms.take t.realNop).map fun a => a.aq 6, ht, ?_, ?_⟩
  · unfold System.getQvals System.gqvals
    rw [if_pos (by norm_num), if_pos (by rw [hrt, hf.2.1]; exact hr')]
    rfl
  · have hlt : 0 < t.atoms.length := by rw [hf.2.1]; exact hl
    obtain ⟨_, -, -, -, -, h1, h2⟩ := calculateQ_av ht 6 (by simp) (List.getElem?_eq_getElem hlt)
    rw [List.getElem?_map, List.getElem?_take, if_pos (by omega), List.getElem?_eq_getElem hlt, Option.map_some, h2, h1]
    rfl

/-- **C57 is false for padded systems**: two atoms in a box of length 10 with neighbours for cutoff 2.
The averaged `q_6` of the first atom is a number; if `calculate_chiparams` is called in between, it is
NaN, whatever the uninitialised `condition` values (`cs`) of the re-created ghosts are: writing the
atoms back replaces the ghosts by new ones without neighbours. -/
theorem C57_false (σ : StdSort) : ∃ s0 s s1 s2 : System,
    System.init.setBox (Spec.diagBox 10 10 10) = .ok s0 ∧ s0.assignAtoms edgeAtoms = .ok s ∧
    s.findNeighbors σ 0 (.cutoff 2) = .ok s1 ∧ s1.calculateChi = .ok s2 ∧
    (∃ t L x, s1.calculateQ [6] true = .ok t ∧ t.getQvals 6 true = .ok L ∧ L[0]? = some (some x)) ∧
    ∀ cs : ℕ → Option ℤ, ∃ t L,
      ({ s2 with atoms := s2.atoms.mapIdx fun k a => if a.ghost then { a with condition := cs k } else a } : System).calculateQ [6] true = .ok t ∧
      t.getQvals 6 true = .ok L ∧ L[0]? = some none := by
  obtain ⟨s0, s, s1, h1, h2, h3, hi, hr, hl, hbox, hb50, htri, hs1, hgh, hdiff, x, hx, hx2, hx3⟩ := edge_setup σ
  have hi1 := storeInv_cutoff (by norm_num) (by omega) h3 hi
  have hs1a : s1.atoms = (List.range s.atoms.length).map (cutoffAtom s 2 0) := by rw [hs1]
  have hmem1 : ∀ k, k < 250 → s1.mem k = cutoffAtom s 2 0 k := by
    intro k hk
    refine (mem_of_getElem? ?_).2
    rw [hs1a, List.getElem?_map, List.getElem?_range (by omega)]; rfl
  have hlen1 : s1.atoms.length = 250 := by rw [hs1a]; simp [hl]
  have hr1 : s1.realNop = 2 := by rw [hs1]; exact hr
  have hv1 : s1.voronoiused = false := by rw [hs1]
  have hbox1 : s1.getBox = Spec.diagBox 10 10 10 := by rw [hs1]; exact hbox
  have hnsk : ¬ Spec.Skew s1.getBox := by rw [hbox1, ← skewed_iff]; exact not_skewed_diag _ _ _
  set reals1 := s1.atoms.take s.realNop with hreals1
  have hrl : reals1.length = 2 := by rw [hreals1, List.length_take, hr, hlen1]; rfl
  obtain ⟨s2, h4⟩ := C31_succeeds s1 reals1 hi1 (by omega) (by rw [hbox1]; norm_num [boxSum, Spec.diagBox]) (fun h => absurd h hnsk)
  have hrange1 : s1.NbrsInRange := by
    intro a ha y hy
    rw [hs1a] at ha
    obtain ⟨k, hk, rfl⟩ := List.mem_map.1 ha
    obtain ⟨nb, hnb, -⟩ := (cutoffNbs_spec (r := 2) (f := 0) (List.getElem?_eq_getElem (List.mem_range.1 hk))).2.2 y hy
    rw [hlen1, ← hl]
    exact (List.getElem?_eq_some_iff.1 hnb).1
  have hxv : ∀ k, k < 250 → ∀ y ∈ (cutoffAtom s 2 0 k).nbrs, y.vec ≠ 0 ∧ y.weight = 1 ∧ y.idx < 250 ∧ y.idx ≠ k := by
    intro k hk y hy
    have hy : y ∈ cutoffNbs s 2 0 k := hy
    unfold cutoffNbs at hy
    obtain ⟨j, hj, rfl⟩ := List.mem_map.1 hy
    rw [List.mem_filter, List.mem_range] at hj
    have hjk : j ≠ k := by
      have := hj.2
      simp only [decide_eq_true_eq] at this
      exact this.1
    refine ⟨?_, rfl, by rw [← hl]; exact hj.1, hjk⟩
    intro h0
    exact hjk (hdiff k j hk (by omega) h0).symm
  have hsym : ∀ k, k < 250 → ∀ y ∈ (cutoffAtom s 2 0 k).nbrs, ∃ z ∈ (cutoffAtom s 2 0 y.idx).nbrs, z.idx = k := by
    intro k hk y hy
    have hyi := (hxv k hk y hy).2.2.1
    have := (C10_mutual σ s s1 0 2 (by norm_num) (by omega) h3 k y.idx (cutoffAtom s 2 0 k) (cutoffAtom s 2 0 y.idx)
      (by rw [hs1a, List.getElem?_map, List.getElem?_range (by omega)]; rfl)
      (by rw [hs1a, List.getElem?_map, List.getElem?_range (by omega)]; rfl) y.dist y.weight y.vec).1 hy
    exact ⟨_, this, rfl⟩
  have hq1 : ∀ k, k < 250 → s1.qNbrs (cutoffAtom s 2 0 k) = (cutoffAtom s 2 0 k).nbrs := by
    intro k hk
    unfold System.qNbrs
    refine List.filter_eq_self.2 fun y hy => ?_
    rw [hmem1 y.idx (hxv k hk y hy).2.2.1]
    simp [cutoffAtom]
  refine ⟨s0, s, s1, s2, h1, h2, h3, h4, ?_, ?_⟩
  · obtain ⟨t, L, k1, k2, k3⟩ := qvals_first hrange1 (by omega) (by omega) (by omega)
    obtain ⟨own, hown⟩ := calcQlm_some (s := s1) (l := 6) (a := s1.mem 0) hv1 (by
      rw [hmem1 0 (by norm_num), hq1 0 (by norm_num)]
      exact List.ne_nil_of_mem hx) (by
      intro y hy
      rw [hmem1 0 (by norm_num)] at hy
      exact ⟨(hxv 0 (by norm_num) y hy).1, (hxv 0 (by norm_num) y hy).2.1⟩)
    have hnb : ∀ y ∈ (s1.afterQ [6]).qNbrs (qAtom s1 [6] (s1.mem 0)), ∃ c, ((s1.afterQ [6]).mem y.idx).qlm 6 = some c := by
      intro y hy
      have hy : y ∈ (s1.mem 0).nbrs := List.mem_of_mem_filter hy
      rw [hmem1 0 (by norm_num)] at hy
      have hyi := (hxv 0 (by norm_num) y hy).2.2.1
      have hm : (s1.afterQ [6]).mem y.idx = qAtom s1 [6] (s1.mem y.idx) := by
        rw [mem_eq_getElem _ _ (show y.idx < s1.atoms.length by omega),
          mem_eq_getElem _ _ (show y.idx < (s1.afterQ [6]).atoms.length by simp [System.afterQ]; omega)]
        simp [System.afterQ]
      rw [hm, qAtom_qlm]
      refine calcQlm_some hv1 ?_ ?_
      · rw [hmem1 _ hyi, hq1 _ hyi]
        obtain ⟨z, hz, -⟩ := hsym 0 (by norm_num) y hy
        exact List.ne_nil_of_mem hz
      · intro z hz
        rw [hmem1 _ hyi] at hz
        exact ⟨(hxv _ hyi z hz).1, (hxv _ hyi z hz).2.1⟩
    obtain ⟨m, hm⟩ := mapM_option_some (fun y : Nb => ((s1.afterQ [6]).mem y.idx).qlm 6) _ hnb
    have hown' : (qAtom s1 [6] (s1.mem 0)).qlm 6 = some own := by
      rw [qAtom_qlm, hown]
    have hres : ∃ c, (s1.afterQ [6]).calcAqlm 6 (qAtom s1 [6] (s1.mem 0)) = some c := by
      unfold System.calcAqlm
      rw [hown', hm]
      exact ⟨_, rfl⟩
    obtain ⟨c, hc⟩ := hres
    rw [hc] at k3
    exact ⟨t, L, qValue 6 c, k1, k2, k3⟩
  · intro cs
    have hg := getAtoms_inv hi1
    have h4' : s1.assignAtoms (reals1.map chi1) = .ok s2 := by
      unfold System.calculateChi at h4
      rw [hg] at h4
      exact h4
    have hreal : ∀ a ∈ reals1.map chi1, a.ghost = false := by
      intro a ha
      obtain ⟨b, hb, rfl⟩ := List.mem_map.1 ha
      exact hi1.real b hb
    obtain ⟨extra, e1, e2, e3, -, -, -, e7, e8⟩ := assign_shape hreal h4'
    have hl2 : s2.atoms.length = 250 := by
      have hc := repCells_length 2 2 2
      have hpr : padReps 2 = 2 := by decide +kernel
      rw [e1, List.length_append, (e7 (by rw [List.length_map]; omega)).1, repNew_length, List.length_map, hrl, hpr]
      omega
    have hex : extra.length = 248 := by
      have := congrArg List.length e1
      rw [List.length_append, List.length_map, hrl, hl2] at this
      omega
    have hr2 : s2.realNop = 2 := by rw [e3, List.length_map, hrl]
    have hv2 : s2.voronoiused = false := by rw [congrArg System.voronoiused e8.eq]; exact hv1
    set s3 : System := { s2 with atoms := s2.atoms.mapIdx fun k a => if a.ghost then { a with condition := cs k } else a } with hs3
    have hv3 : s3.voronoiused = false := hv2
    have hl3 : s3.atoms.length = 250 := by simp [hs3, hl2]
    have hreals : ∀ k, k < 2 → reals1[k]? = some (cutoffAtom s 2 0 k) := by
      intro k hk
      rw [hreals1, List.getElem?_take, if_pos (by omega), hs1a, List.getElem?_map, List.getElem?_range (by omega)]; rfl
    have hm3 : ∀ k, k < 2 → s3.atoms[k]? = some (chi1 (cutoffAtom s 2 0 k)) := by
      intro k hk
      have hgf : (chi1 (cutoffAtom s 2 0 k)).ghost = false :=
        hreal _ (List.mem_map.2 ⟨_, List.mem_of_getElem? (hreals k hk), rfl⟩)
      simp only [hs3, List.getElem?_mapIdx]
      rw [e1, List.getElem?_append_left (by rw [List.length_map]; omega), List.getElem?_map, hreals k hk]
      simp only [Option.map_some, hgf, Bool.false_eq_true, if_false]
    have hm3g : ∀ k, 2 ≤ k → k < 250 → (s3.mem k).nbrs = [] := by
      intro k hk hk'
      have hke : k - 2 < extra.length := by omega
      have : s3.atoms[k]? = some (if (extra[k - 2]).ghost then { extra[k - 2] with condition := cs k } else extra[k - 2]) := by
        simp only [hs3, List.getElem?_mapIdx]
        rw [e1, List.getElem?_append_right (by rw [List.length_map]; omega), List.length_map, hrl, List.getElem?_eq_getElem hke]
        rfl
      rw [(mem_of_getElem? this).2]
      have := (e2 _ (List.getElem_mem hke)).2.2
      split_ifs <;> exact this
    have hrange3 : s3.NbrsInRange := by
      intro a ha y hy
      obtain ⟨k, hk, rfl⟩ := List.getElem_of_mem ha
      by_cases hk2 : k < 2
      · have := hm3 k hk2
        rw [List.getElem?_eq_getElem hk] at this
        rw [Option.some.inj this] at hy
        have := (hxv k (by omega) y hy).2.2.1
        omega
      · have := hm3g k (by omega) (by omega)
        rw [mem_eq_getElem _ _ hk] at this
        rw [this] at hy
        cases hy
    obtain ⟨t, L, k1, k2, k3⟩ := qvals_first hrange3 (by omega) (by change 0 < s2.realNop; omega) (by change s2.realNop ≤ _; omega)
    refine ⟨t, L, k1, k2, k3.trans ?_⟩
    have hone : ∀ y ∈ (cutoffAtom s 2 0 0).nbrs, y.idx ≠ 1 := by
      intro y hy h1y
      have hy : y ∈ cutoffNbs s 2 0 0 := hy
      unfold cutoffNbs at hy
      obtain ⟨j, hj, rfl⟩ := List.mem_map.1 hy
      obtain rfl : j = 1 := h1y
      have hj := (List.mem_filter.1 hj).2
      simp only [decide_eq_true_eq] at hj
      obtain ⟨gs, ha, -, -⟩ := hi.ex
      have hp0 : s.posOf 0 = ⟨1 / 2, 0, 0⟩ := by
        unfold System.posOf
        rw [(mem_of_getElem? (show s.atoms[0]? = some { pos := ⟨1 / 2, 0, 0⟩ } by rw [ha]; rfl)).2]
      have hp1 : s.posOf 1 = ⟨19 / 2, 0, 0⟩ := by
        unfold System.posOf
        rw [(mem_of_getElem? (show s.atoms[1]? = some { pos := ⟨19 / 2, 0, 0⟩ } by rw [ha]; rfl)).2]
      have hd := hj.2.1
      unfold System.distOf at hd
      rw [hp0, hp1] at hd
      change V3.norm (s.image _) < 2 at hd
      rw [image_diag s 50 50 50 (by norm_num) (by norm_num) (by norm_num) htri hb50] at hd
      have : V3.norm ⟨9, 0, 0⟩ < 2 := by
        convert hd using 3 <;> norm_num [wrap]
      rw [norm_axis_x 9 (by norm_num)] at this
      norm_num at this
    have hm0 : s3.mem 0 = chi1 (cutoffAtom s 2 0 0) := (mem_of_getElem? (hm3 0 (by norm_num))).2
    have hown : (qAtom s3 [6] (s3.mem 0)).qlm 6 = s3.calcQlm 6 (s3.mem 0) := by
      rw [qAtom_qlm]
    have hres : (s3.afterQ [6]).calcAqlm 6 (qAtom s3 [6] (s3.mem 0)) = none := by
      unfold System.calcAqlm
      rw [hown]
      by_cases he : s3.qNbrs (s3.mem 0) = []
      · rw [calcQlm_empty hv3 he]; rfl
      · obtain ⟨y, hy⟩ := List.exists_mem_of_ne_nil _ he
        have hyn : y ∈ (s3.mem 0).nbrs := List.mem_of_mem_filter hy
        rw [hm0] at hyn
        have hyn : y ∈ (cutoffAtom s 2 0 0).nbrs := hyn
        obtain ⟨-, -, hy1, hy2⟩ := hxv 0 (by norm_num) y hyn
        have hy3 := hone y hyn
        have hmy : (s3.afterQ [6]).mem y.idx = qAtom s3 [6] (s3.mem y.idx) := by
          rw [mem_eq_getElem _ _ (show y.idx < s3.atoms.length by omega),
            mem_eq_getElem _ _ (show y.idx < (s3.afterQ [6]).atoms.length by simp [System.afterQ]; omega)]
          simp [System.afterQ]
        have hnone : ((s3.afterQ [6]).mem y.idx).qlm 6 = none := by
          rw [hmy, qAtom_qlm]
          refine calcQlm_empty hv3 ?_
          unfold System.qNbrs
          rw [hm3g y.idx (by omega) hy1]
          rfl
        have hyq : y ∈ (s3.afterQ [6]).qNbrs (qAtom s3 [6] (s3.mem 0)) := by
          unfold System.qNbrs at hy ⊢
          rw [List.mem_filter] at hy ⊢
          refine ⟨hy.1, ?_⟩
          rw [hmy]
          exact hy.2
        rw [mapM_option_none (fun y : Nb => ((s3.afterQ [6]).mem y.idx).qlm 6) _ ⟨y, hyq, hnone⟩]
        cases s3.calcQlm 6 (s3.mem 0) <;> rfl
    rw [hres]
    rfl

/-- The state after writing back at least 200 atoms. -/
theorem assign_large {s s' : System} {reals new : List Atom} (hi : StoreInv s reals) (hn : 200 ≤ reals.length) (hg : s.ghostNop = 0)
    (hlen : new.length = reals.length) (hnew : ∀ a ∈ new, a.ghost = false) (h : s.assignAtoms new = .ok s') :
    s' = { s with atoms := new } := by
  obtain ⟨extra, e1, -, e3, e4, e5, e6, -, -⟩ := assign_shape hnew h
  obtain ⟨rfl, he⟩ := e6 (by omega)
  obtain ⟨gs, ha, -, hgn⟩ := hi.ex
  have hgs : gs = [] := List.length_eq_zero_iff.1 (by omega)
  rw [hgs, List.append_nil] at ha
  have hnop : s.nop = new.length := by rw [hi.nop, ha, hlen]
  have hrn : s.realNop = new.length := by rw [hi.realNop, hlen]
  have c1 : countReal new = s.realNop := by
    rw [he] at e3
    exact e3.trans hrn.symm
  have c2 : countGhost new = s.ghostNop := by
    rw [he] at e5
    exact e5.trans hg.symm
  rw [he]
  unfold System.setAtoms
  rw [c1, c2, ← hnop]

theorem vorovector1_frame {ec ac : ℝ} {a b : Atom} (h : vorovector1 ec ac a = .ok b) : b = { a with vorovector := b.vorovector } := by
  unfold vorovector1 at h
  cases hm : (faceSlices a.vertexNumbers 1 a.getFaceVertices).mapM fun vp => (cyclicPairs vp).mapM (edgeLength a.vertexVectors) with
  | error e => rw [hm] at h; cases h
  | ok eds =>
    rw [hm] at h
    obtain rfl := Except.ok.inj h
    rfl

/-- **C57, as far as it holds**.  Full statement: after `find_neighbors`, calling `calculate_chiparams`,
`calculate_angularcriteria`, `calculate_vorovector` or another method that writes the atoms back leaves the results of any
later order-parameter calculation unchanged.  Proved for systems of at least 200 atoms and these three methods:
nothing changes except the value assigned, and `calculate_q` with any arguments gives the same values as
without the call.  Missing: systems of fewer than 200 atoms, for which it is false (`C57_false`), and clustering, after which
it is false for all sizes (`C57_false_cluster`). -/
theorem C57_partial (σ : StdSort) (s s' : System) (reals : List Atom) (hi : StoreInv s reals) (hn : 200 ≤ s.natoms) (hg : s.ghostNop = 0)
    (h : s.calculateChi = .ok s' ∨ s.calculateAngular σ = .ok s' ∨ ∃ ec ac, s.calculateVorovector ec ac = .ok s') :
    { s' with atoms := s.atoms } = s ∧ s'.atoms.length = s.atoms.length ∧
    (∀ (k : ℕ) (a a' : Atom), s.atoms[k]? = some a → s'.atoms[k]? = some a' → { a' with chi := a.chi, angular := a.angular, vorovector := a.vorovector } = a) ∧
    ∀ (ls : List ℤ) (av : Bool) (t : System), s.calculateQ ls av = .ok t → ∃ t', s'.calculateQ ls av = .ok t' ∧
      ∀ l ∈ ls, t'.getQvals l false = t.getQvals l false ∧ (av = true → t'.getQvals l true = t.getQvals l true) := by
  have hnr : 200 ≤ reals.length := by rw [← hi.realNop]; exact hn
  obtain ⟨gs, ha, -, hgn⟩ := hi.ex
  have hgs : gs = [] := List.length_eq_zero_iff.1 (by omega)
  rw [hgs, List.append_nil] at ha
  -- both calls write back a list that differs in one field
  have key : ∃ new : List Atom, s' = { s with atoms := new } ∧ new.length = reals.length ∧
      ∀ (k : ℕ) (a a' : Atom), reals[k]? = some a → new[k]? = some a' → { a' with chi := a.chi, angular := a.angular, vorovector := a.vorovector } = a := by
    rcases h with h | h | ⟨ec, ac, h⟩
    · unfold System.calculateChi at h
      rw [getAtoms_inv hi] at h
      change s.assignAtoms (reals.map chi1) = .ok s' at h
      refine ⟨reals.map chi1, assign_large hi hnr hg (by simp) ?_ h, by simp, ?_⟩
      · intro a ha
        obtain ⟨b, hb, rfl⟩ := List.mem_map.1 ha
        exact hi.real b hb
      · intro k a a' hk hk'
        rw [List.getElem?_map, hk] at hk'
        obtain rfl := Option.some.inj hk'
        rfl
    · unfold System.calculateAngular at h
      rw [getAtoms_inv hi] at h
      change Except.bind (reals.mapM (angular1 σ s reals)) _ = _ at h
      cases hm : reals.mapM (angular1 σ s reals) with
      | error e => rw [hm] at h; cases h
      | ok new =>
        rw [hm] at h
        change s.assignAtoms new = .ok s' at h
        obtain ⟨hlen, hall⟩ := mapM_except _ reals new hm
        have hat : ∀ (k : ℕ) (a a' : Atom), reals[k]? = some a → new[k]? = some a' → ∃ x, a' = { a with angular := x } := by
          intro k a a' hk hk'
          obtain ⟨b, hb, hb'⟩ := hall k a hk
          rw [hk'] at hb'
          obtain rfl := Option.some.inj hb'
          unfold angular1 at hb
          change Except.bind (a.nbrs.mapM fun x => pyGet reals x.idx) _ = _ at hb
          cases hc : a.nbrs.mapM fun x => pyGet reals x.idx with
          | error e => rw [hc] at hb; cases hb
          | ok nb => rw [hc] at hb; exact ⟨_, (Except.ok.inj hb).symm⟩
        refine ⟨new, assign_large hi hnr hg hlen ?_ h, hlen, ?_⟩
        · intro a ha
          obtain ⟨k, hk, rfl⟩ := List.getElem_of_mem ha
          obtain ⟨x, hx⟩ := hat k reals[k] _ (List.getElem?_eq_getElem (by omega)) (List.getElem?_eq_getElem hk)
          rw [hx]
          exact hi.real reals[k] (List.getElem_mem (by omega))
        · intro k a a' hk hk'
          obtain ⟨x, rfl⟩ := hat k a a' hk hk'
          rfl
    · unfold System.calculateVorovector at h
      rw [getAtoms_inv hi] at h
      change Except.bind (reals.mapM (vorovector1 ec ac)) _ = _ at h
      obtain ⟨new, hm⟩ : ∃ new, reals.mapM (vorovector1 ec ac) = .ok new := by
        cases hm : reals.mapM (vorovector1 ec ac) with
        | error e => rw [hm] at h; cases h
        | ok new => exact ⟨new, rfl⟩
      rw [hm] at h
      change s.assignAtoms new = .ok s' at h
      obtain ⟨hlen, hall⟩ := mapM_except _ reals new hm
      have hat : ∀ (k : ℕ) (a a' : Atom), reals[k]? = some a → new[k]? = some a' → a' = { a with vorovector := a'.vorovector } := by
        intro k a a' hk hk'
        obtain ⟨b, hb, hb'⟩ := hall k a hk
        rw [hk'] at hb'
        obtain rfl := Option.some.inj hb'
        exact vorovector1_frame hb
      refine ⟨new, assign_large hi hnr hg hlen ?_ h, hlen, ?_⟩
      · intro a ha
        obtain ⟨k, hk, rfl⟩ := List.getElem_of_mem ha
        rw [hat k reals[k] _ (List.getElem?_eq_getElem (by omega)) (List.getElem?_eq_getElem hk)]
        exact hi.real reals[k] (List.getElem_mem (by omega))
      · intro k a a' hk hk'
        rw [hat k a a' hk hk']
  obtain ⟨new, hs', hlen, hfield⟩ := key
  have hla : s'.atoms.length = s.atoms.length := by rw [hs', ha]; exact hlen
  have hf : ∀ (k : ℕ) (a a' : Atom), s.atoms[k]? = some a → s'.atoms[k]? = some a' →
      { a' with chi := a.chi, angular := a.angular, vorovector := a.vorovector } = a := by
    intro k a a' hk hk'
    rw [ha] at hk
    rw [hs'] at hk'
    exact hfield k a a' hk hk'
  refine ⟨by rw [hs'], hla, hf, ?_⟩
  intro ls av t ht
  have hnb : s'.atoms.map (fun a => (a.nbrs, a.condition)) = s.atoms.map fun a => (a.nbrs, a.condition) := by
    refine List.ext_getElem? fun k => ?_
    rw [List.getElem?_map, List.getElem?_map]
    by_cases hk : k < s.atoms.length
    · rw [List.getElem?_eq_getElem hk, List.getElem?_eq_getElem (show k < s'.atoms.length by omega)]
      have e := hf k _ _ (List.getElem?_eq_getElem hk) (List.getElem?_eq_getElem (show k < s'.atoms.length by omega))
      have e1 := congrArg Atom.nbrs e
      have e2 := congrArg Atom.condition e
      dsimp only at e1 e2
      rw [Option.map_some, Option.map_some, e1, e2]
    · rw [List.getElem?_eq_none (by omega), List.getElem?_eq_none (by omega)]
  obtain ⟨hr, hs, -⟩ := calculateQ_ok ht
  have hs'r : s'.NbrsInRange := by
    intro a ham x hx
    obtain ⟨k, hk, rfl⟩ := List.getElem_of_mem ham
    have e := hf k _ _ (List.getElem?_eq_getElem (show k < s.atoms.length by omega)) (List.getElem?_eq_getElem hk)
    have e1 := congrArg Atom.nbrs e
    dsimp only at e1
    rw [e1] at hx
    rw [hla]
    exact hs _ (List.getElem_mem _) x hx
  obtain ⟨t', ht'⟩ := calculateQ_succeeds av false hr hs'r
  refine ⟨t', ht', fun l hl => ?_⟩
  have hv : s'.voronoiused = s.voronoiused := by rw [hs']
  have f := C53_frame s t ls av ht
  have f' := C53_frame s' t' ls av ht'
  have hrt : t'.realNop = t.realNop := by
    have a := congrArg System.realNop f.1
    have b := congrArg System.realNop f'.1
    dsimp only at a b
    rw [a, b, hs']
  have hlt : t'.atoms.length = t.atoms.length := by rw [f.2.1, f'.2.1, hla]
  have hl2 := hr l hl
  obtain ⟨m, rfl⟩ : ∃ m : ℕ, l = m := ⟨l.toNat, by omega⟩
  have hval : ∀ k, k < t.atoms.length → ∀ a b : Atom, t.atoms[k]? = some a → t'.atoms[k]? = some b →
      b.q m = a.q m ∧ (av = true → b.aq m = a.aq m) := by
    intro k _ a b hk hk'
    have := C53_local s s' t t' ls ls av ht ht' hv hnb m hl hl k a b hk hk'
    exact ⟨this.1, fun h => (this.2.2 h).1⟩
  have hlist : ∀ F : Atom → Option ℝ, (∀ (k : ℕ) (a b : Atom), t.atoms[k]? = some a → t'.atoms[k]? = some b → F b = F a) →
      (t'.atoms.take t'.realNop).map F = (t.atoms.take t.realNop).map F := by
    intro F hF
    refine List.ext_getElem? fun k => ?_
    rw [List.getElem?_map, List.getElem?_map, List.getElem?_take, List.getElem?_take, hrt]
    by_cases hk : k < t.realNop
    · rw [if_pos hk, if_pos hk]
      by_cases hk2 : k < t.atoms.length
      · have h1 := List.getElem?_eq_getElem hk2
        have h2 := List.getElem?_eq_getElem (show k < t'.atoms.length by omega)
        rw [h1, h2, Option.map_some, Option.map_some, hF k _ _ h1 h2]
      · rw [List.getElem?_eq_none (by omega), List.getElem?_eq_none (by omega)]
    · rw [if_neg hk, if_neg hk]
  have hgq : ∀ av' : Bool, (∀ (k : ℕ) (a b : Atom), t.atoms[k]? = some a → t'.atoms[k]? = some b →
      (if av' then b.aq m else b.q m) = if av' then a.aq m else a.q m) → t'.getQvals m av' = t.getQvals m av' := by
    intro av' hF
    have hlist := hlist (fun a => if av' then a.aq m else a.q m) hF
    unfold System.getQvals System.gqvals
    have hR : (2 : ℤ) ≤ m ∧ (m : ℤ) ≤ 12 := ⟨hl2.1, hl2.2⟩
    rw [if_pos hR, if_pos hR, Int.toNat_natCast, hlist]
    by_cases hc : t.realNop ≤ t.atoms.length
    · rw [if_pos hc, if_pos (by omega)]
    · rw [if_neg hc, if_neg (by omega)]
  refine ⟨hgq false fun k a b hk hk' => ?_, fun hav => hgq true fun k a b hk hk' => ?_⟩
  · simpa using (hval k (List.getElem?_eq_some_iff.1 hk).1 a b hk hk').1
  · simpa using (hval k (List.getElem?_eq_some_iff.1 hk).1 a b hk hk').2 hav

/-- A system of 200 atoms meets the hypotheses. -/
example : ∃ (s s' : System) (reals : List Atom), StoreInv s reals ∧ 200 ≤ s.natoms ∧ s.ghostNop = 0 ∧ s.calculateChi = .ok s' := by
  obtain ⟨l, hll, hr⟩ : ∃ l : List Atom, l.length = 200 ∧ ∀ a ∈ l, a.ghost = false :=
    ⟨List.replicate 200 { pos := 0, nbrs := [⟨1, 1, 1, ⟨1, 0, 0⟩⟩, ⟨2, 1, 1, ⟨0, 1, 0⟩⟩] }, List.length_replicate,
      fun a ha => by rw [List.eq_of_mem_replicate ha]⟩
  set s : System := { atoms := l, nop := 200, realNop := 200, ghostNop := 0 } with hs
  have hi : StoreInv s l := ⟨hr, ⟨[], by simp [hs], by simp, rfl⟩, by rw [hs]; exact hll.symm, hll.symm⟩
  have : s.calculateChi = .ok (s.setAtoms (l.map chi1)) := by
    unfold System.calculateChi
    rw [getAtoms_inv hi]
    change s.assignAtoms (l.map chi1) = _
    unfold System.assignAtoms
    rw [if_neg (by rw [List.length_map, hll]; norm_num)]
  exact ⟨s, _, l, hi, le_rfl, rfl, this⟩

end Pyscal
