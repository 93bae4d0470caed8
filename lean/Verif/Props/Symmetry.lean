import Verif.Lemmas.MotionBuild
import Verif.Props.Distance
import Verif.Props.Clusters
import Verif.Props.Number

/-! Symmetries of a whole analysis: translations, rotations, uniform scaling (C74-C76). -/

namespace Pyscal

open Spec (diagBox moveVec moveBox moveAtom moveNb unitMat Orthogonal)

/-- A complete analysis through the public interface: `sys = System()`, `sys.box = b`,
`sys.atoms = l`, `sys.find_neighbors(...)`, `sys.calculate_q(ls, averaged=av)`, `sys.atoms`. -/
noncomputable def analyse (σ : StdSort) (b : Mat3) (l : List Atom) (f : ℕ) (meth : Method) (ls : List ℤ) (av : Bool) :
    Except Fault (List Atom) := do
  let s ← buildSystem b l
  let s ← s.findNeighbors σ f meth
  let s ← s.calculateQ ls av
  s.getAtoms

theorem SimF.sameShape {M : Mat3} {c : ℝ} (hc : 0 < c) {s g : System} (h : SimF M c s g) :
    Spec.SameShape (Equiv.refl ℕ) M s g := by
  refine ⟨h.vor, h.len, fun _ => Iff.rfl, ?_⟩
  intro k a b ha hb
  obtain ⟨hk, rfl⟩ := List.getElem?_eq_some_iff.1 ha
  obtain ⟨hk', rfl⟩ := List.getElem?_eq_some_iff.1 hb
  have hm := h.mem k hk
  rw [Equiv.refl_apply] at hk'
  rw [mem_eq_getElem _ _ hk, mem_eq_getElem _ _ hk'] at hm
  refine ⟨hm.cond, _, .refl _, ?_⟩
  simp only [Equiv.refl_apply]
  rw [show g.atoms[k].nbrs = s.atoms[k].nbrs.map (moveNb M c) from hm.nbrs, List.forall₂_map_right_iff]
  exact List.forall₂_same.2 fun x _ => ⟨rfl, rfl, c, hc, rfl⟩

/-- The rest of the analysis after the neighbour search. -/
theorem SimF.finish {M : Mat3} (hM : Orthogonal M) {c : ℝ} (hc : 0 < c) {s g : System} (h : SimF M c s g) (ls : List ℤ) (av : Bool) :
    RelE (Spec.SameAnalysis M c ls av) (s.calculateQ ls av >>= fun s => s.getAtoms) (g.calculateQ ls av >>= fun s => s.getAtoms) := by
  obtain ⟨herr, hval⟩ := sameShape_q hM (h.sameShape hc) ls av
  rcases h1 : s.calculateQ ls av with e | s' <;> rcases h2 : g.calculateQ ls av with e' | g'
  · have := (herr e).1 h1
    rw [h2] at this; exact (Except.error.inj this).symm
  · have := (herr e).1 h1
    rw [h2] at this; cases this
  · have := (herr e').2 h2
    rw [h1] at this; cases this
  · have hv := hval s' g' h1 h2
    have key : ∀ (x y : System), x.calculateQ ls av = .ok y → y.atoms.length = x.atoms.length ∧ y.realNop = x.realNop ∧
        ∀ (k : ℕ) (a a' : Atom), x.atoms[k]? = some a → y.atoms[k]? = some a' → a'.type = a.type ∧ a'.nbrs = a.nbrs := by
      intro x y hxy
      obtain ⟨-, -, e⟩ := calculateQ_ok hxy
      refine ⟨?_, ?_, ?_⟩
      · rw [e]; cases av <;> simp [System.afterQ]
      · rw [e]; cases av <;> rfl
      · intro k a a' ha ha'
        have := calculateQ_atom hxy ha ha'
        rw [this]; cases av <;> exact ⟨rfl, rfl⟩
    obtain ⟨l1, r1, a1⟩ := key _ _ h1
    obtain ⟨l2, r2, a2⟩ := key _ _ h2
    change RelE _ s'.getAtoms g'.getAtoms
    unfold System.getAtoms
    rw [l1, l2, r1, r2, h.realNop, h.len]
    by_cases hle : s.realNop ≤ s.atoms.length
    · rw [if_pos hle, if_pos hle]
      change Spec.SameAnalysis _ _ _ _ _ _
      unfold Spec.SameAnalysis
      rw [List.forall₂_iff_get]
      refine ⟨by rw [List.length_take, List.length_take, l1, l2, h.len], ?_⟩
      intro i hi hi'
      rw [List.length_take] at hi hi'
      have e1 : i < s'.atoms.length := by omega
      have e2 : i < g'.atoms.length := by omega
      have e3 : i < s.atoms.length := by omega
      have e4 : i < g.atoms.length := by omega
      simp only [List.get_eq_getElem, List.getElem_take]
      have ra := a1 i _ _ (List.getElem?_eq_getElem e3) (List.getElem?_eq_getElem e1)
      have rb := a2 i _ _ (List.getElem?_eq_getElem e4) (List.getElem?_eq_getElem e2)
      have hm := h.mem i e3
      rw [mem_eq_getElem _ _ e3, mem_eq_getElem _ _ e4] at hm
      refine ⟨by rw [ra.1, rb.1, hm.type, hm.type'], by rw [ra.2, rb.2, hm.nbrs], ?_⟩
      exact hv i _ _ (List.getElem?_eq_getElem e1) (List.getElem?_eq_getElem e2)
    · rw [if_neg hle, if_neg hle]; exact rfl

/-- A whole analysis of a moved input. -/
theorem analyse_move {M : Mat3} (hM : Spec.Rotation M) {c : ℝ} (hc : 0 < c) (t : V3) {σ : StdSort} (hσ : Spec.SortScales σ c)
    (b : Mat3) (l : List Atom) (hflat : ¬ Skewed b → M = unitMat)
    (hsum : l.length < 200 → (boxSum (moveBox M c b) = 0 ↔ boxSum b = 0))
    (f : ℕ) (meth : Method) (hall : ∀ s, buildSystem b l = .ok s → Spec.AllPairs s.natoms s.ntotal meth) (ls : List ℤ) (av : Bool) :
    RelE (Spec.SameAnalysis M c ls av) (analyse σ b l f meth ls av)
      (analyse σ (moveBox M c b) (l.map (moveAtom M c t)) f (Spec.moveMethod c meth) ls av) := by
  unfold analyse
  have h0 := buildSystem_move hM.1 hc t b l hflat hsum
  rcases h1 : buildSystem b l with e | s <;> rcases h2 : buildSystem (moveBox M c b) (l.map (moveAtom M c t)) with e' | g <;>
    rw [h1, h2] at h0
  · exact h0
  · exact h0.elim
  · exact h0.elim
  · have hm : MovedSys M c t s g := h0
    change RelE _ (s.findNeighbors σ f meth >>= fun s => s.calculateQ ls av >>= fun s => s.getAtoms)
      (g.findNeighbors σ f (Spec.moveMethod c meth) >>= fun s => s.calculateQ ls av >>= fun s => s.getAtoms)
    exact RelE.bind (hm.findNeighbors hM hc hσ f meth (hall s h1)) fun a b hab => hab.finish hM.1 hc ls av

theorem rotation_unit : Spec.Rotation unitMat :=
  ⟨by intro u v; simp [unitMat, Mat3.mulVec, V3.dot], by norm_num [unitMat, Mat3.det]⟩

theorem sortScales_one (σ : StdSort) : Spec.SortScales σ 1 := by
  intro l
  simp only [one_mul]
  have : (fun x : DAtom => (⟨x.dist, x.idx⟩ : DAtom)) = id := rfl
  rw [this, List.map_id, List.map_id]

theorem boxSum_unit {c : ℝ} (hc : 0 < c) (b : Mat3) : boxSum (moveBox unitMat c b) = 0 ↔ boxSum b = 0 := by
  have : boxSum (moveBox unitMat c b) = c * boxSum b := by
    simp only [boxSum, moveBox, moveVec_unit, V3.smul_x, V3.smul_y, V3.smul_z]; ring
  rw [this]
  constructor
  · intro h; exact (mul_eq_zero.1 h).resolve_left hc.ne'
  · intro h; rw [h, mul_zero]

/-- The insertion sort satisfies `SortScales`. -/
theorem sortScales_insertion {c : ℝ} (hc : 0 < c) : Spec.SortScales StdSort.insertion c := by
  intro l
  refine (List.map_insertionSort _ _ _ _ fun a _ b _ => ?_).symm
  exact (mul_le_mul_iff_right₀ hc).symm

/-- With at most 2300 real atoms and a method other than the adaptive cutoff, all pairs are compared. -/
theorem allPairs_of {b : Mat3} {l : List Atom} (hl : l.length ≤ 2300) (hreal : ∀ a ∈ l, a.ghost = false) {meth : Method}
    (hm : match meth with | .cutoff r => r ≠ 0 | .adaptive _ _ _ => False | _ => True) :
    ∀ s, buildSystem b l = .ok s → Spec.AllPairs s.natoms s.ntotal meth := by
  intro s hs
  unfold buildSystem at hs
  obtain ⟨s0, h0, h1⟩ : ∃ s0, System.init.setBox b = .ok s0 ∧ s0.assignAtoms l = .ok s := by
    rcases h : System.init.setBox b with e | s0
    · rw [h] at hs; cases hs
    · rw [h] at hs; exact ⟨s0, rfl, hs⟩
  obtain ⟨ex, -, -, h2, -⟩ := assign_shape hreal h1
  have : s.natoms ≤ 2300 := by unfold System.natoms; omega
  cases meth with
  | cutoff r => simp only [Spec.AllPairs]; rw [if_neg hm]; exact this
  | adaptive => exact hm.elim
  | sann => exact this.trans (by norm_num)
  | number => exact this.trans (by norm_num)

/-- **C74**: translating every atom by the same vector does not change the neighbours (indices,
distances, weights, vectors), the types, or any requested Steinhardt parameter; failures are the
same too.  Orthogonal and skewed cells, every search method, every number of atoms for which all
pairs are compared. -/
theorem C74_translation (σ : StdSort) (b : Mat3) (l : List Atom) (t : V3) (f : ℕ) (meth : Method)
    (hall : ∀ s, buildSystem b l = .ok s → Spec.AllPairs s.natoms s.ntotal meth) (ls : List ℤ) (av : Bool) :
    RelE (List.Forall₂ fun a b : Atom => b.type = a.type ∧ b.nbrs = a.nbrs ∧
        ∀ l : ℕ, (l : ℤ) ∈ ls → b.q l = a.q l ∧ (av = true → b.aq l = a.aq l))
      (analyse σ b l f meth ls av)
      (analyse σ b (l.map fun a => { a with pos := a.pos + t }) f meth ls av) := by
  have h := analyse_move rotation_unit one_pos t (sortScales_one σ) b l (fun _ => rfl) (fun _ => boxSum_unit one_pos b) f meth hall ls av
  have e : moveAtom unitMat 1 t = fun a : Atom => { a with pos := a.pos + t } := by
    funext a; simp only [moveAtom, moveVec_one]
  have e2 : Spec.moveMethod 1 meth = meth := by cases meth <;> simp [Spec.moveMethod]
  rw [moveBox_one, e, e2] at h
  have e3 : moveNb unitMat 1 = id := by funext x; exact moveNb_one x
  unfold Spec.SameAnalysis at h
  simpa only [e3, List.map_id] using h

/-- **C75**: rotating a skewed cell together with its atoms rotates the neighbour vectors and leaves
the neighbours, distances, weights and Steinhardt parameters unchanged.  The condition on the sum of
the box entries is needed (`C75_false_sum`), skewness is needed (`C75_false_orthogonal`). -/
theorem C75_rotation_partial (σ : StdSort) {M : Mat3} (hM : Spec.Rotation M) (b : Mat3) (hb : Skewed b) (l : List Atom)
    (hsum : l.length < 200 → (boxSum (moveBox M 1 b) = 0 ↔ boxSum b = 0)) (t : V3)
    (f : ℕ) (meth : Method) (hall : ∀ s, buildSystem b l = .ok s → Spec.AllPairs s.natoms s.ntotal meth) (ls : List ℤ) (av : Bool) :
    RelE (Spec.SameAnalysis M 1 ls av) (analyse σ b l f meth ls av)
      (analyse σ (moveBox M 1 b) (l.map (moveAtom M 1 t)) f meth ls av) := by
  have h := analyse_move hM one_pos t (sortScales_one σ) b l (fun h => absurd hb h) hsum f meth hall ls av
  have e2 : Spec.moveMethod 1 meth = meth := by cases meth <;> simp [Spec.moveMethod]
  rwa [e2] at h

/-- **C76**: changing the unit of length (positions, box and a numeric cutoff multiplied by the same
positive factor) multiplies every distance and neighbour vector by the factor and leaves the
neighbours, weights and Steinhardt parameters unchanged. -/
theorem C76_scaling {σ : StdSort} {c : ℝ} (hc : 0 < c) (hσ : Spec.SortScales σ c) (b : Mat3) (l : List Atom)
    (f : ℕ) (meth : Method) (hall : ∀ s, buildSystem b l = .ok s → Spec.AllPairs s.natoms s.ntotal meth) (ls : List ℤ) (av : Bool) :
    RelE (Spec.SameAnalysis unitMat c ls av) (analyse σ b l f meth ls av)
      (analyse σ (moveBox unitMat c b) (l.map (moveAtom unitMat c 0)) f (Spec.moveMethod c meth) ls av) :=
  analyse_move rotation_unit hc 0 hσ b l (fun _ => rfl) (fun _ => boxSum_unit hc b) f meth hall ls av

/-! ### Why C75 is partial -/

/-- **C75 is false for orthogonal boxes**: turning a box of edges 10, 5, 10 about `z` (by the angle with
cosine 3/5) changes the distance between two turned atoms. -/
theorem C75_false_orthogonal :
    ∃ (M : Mat3) (b : Mat3) (p r : V3) (s g : System), Spec.Rotation M ∧ System.init.setBox b = .ok s ∧
      System.init.setBox (moveBox M 1 b) = .ok g ∧
      g.getDistance { pos := moveVec M 1 p } { pos := moveVec M 1 r } ≠ s.getDistance { pos := p } { pos := r } := by
  obtain ⟨g, hg, -, hne⟩ := C03_false_rotated_orthogonal
  refine ⟨⟨⟨3 / 5, -4 / 5, 0⟩, ⟨4 / 5, 3 / 5, 0⟩, ⟨0, 0, 1⟩⟩, diagBox 10 5 10, ⟨0, 5, 0⟩, 0, { System.init with box := diagBox 10 5 10 }, g,
    ⟨?_, ?_⟩, ?_, ?_, ?_⟩
  · intro u v; simp [V3.dot, Mat3.mulVec]; ring
  · norm_num [Mat3.det]
  · simp [System.setBox, not_skewed_diag]
  · rw [← hg]; congr 1
    simp only [moveBox, moveVec, diagBox, Mat3.mulVec, V3.dot, V3.smul]; norm_num
  · have e1 : moveVec ⟨⟨3 / 5, -4 / 5, 0⟩, ⟨4 / 5, 3 / 5, 0⟩, ⟨0, 0, 1⟩⟩ 1 ⟨0, 5, 0⟩ = ⟨-4, 3, 0⟩ := by
      simp only [moveVec, Mat3.mulVec, V3.dot, V3.smul]; norm_num
    have e2 : moveVec ⟨⟨3 / 5, -4 / 5, 0⟩, ⟨4 / 5, 3 / 5, 0⟩, ⟨0, 0, 1⟩⟩ 1 0 = 0 := by
      ext <;> simp [moveVec, Mat3.mulVec, V3.dot]
    rw [e1, e2]
    have : ({ System.init with box := diagBox 10 5 10 } : System).getDistance { pos := ⟨0, 5, 0⟩ } { pos := 0 } = 0 := by
      rw [System.getDistance, V3.norm_eq_zero]
      have n1 : V3.norm (⟨0, 5, 0⟩ : V3) = 5 := by
        rw [V3.norm, show V3.normSq ⟨0, 5, 0⟩ = 5 ^ 2 by norm_num [V3.normSq]]
        exact Real.sqrt_sq (by norm_num)
      have nn : ∀ v : V3, 0 ≤ v.norm := fun v => Real.sqrt_nonneg _
      have w0 : ∀ v : V3, wrap v.norm 0 = 0 := by
        intro v
        have := nn v
        have h1 : ¬ (0 : ℝ) > v.norm / 2 := by linarith
        have h2 : ¬ (0 : ℝ) < -v.norm / 2 := by linarith
        unfold wrap
        simp only [if_neg h1, if_neg h2]
      simp only [System.image, System.init, System.boxx, System.boxy, System.boxz, diagBox, V3.sub_x, V3.sub_y, V3.sub_z,
        V3.zero_x, V3.zero_y, V3.zero_z, sub_zero, Bool.false_eq_true, if_false, w0, n1]
      norm_num [wrap]
      rfl
    rw [this]; exact hne

theorem skew_example : Skewed ⟨⟨2, 0, 0⟩, ⟨1, 2, 0⟩, ⟨0, 1, 6⟩⟩ := by
  rw [skewed_iff]
  have h5 : V3.norm ⟨1, 2, 0⟩ = Real.sqrt 5 := by rw [V3.norm]; congr 1; norm_num [V3.normSq]
  have h2 : V3.norm ⟨2, 0, 0⟩ = 2 := by
    rw [V3.norm, show V3.normSq ⟨2, 0, 0⟩ = 2 ^ 2 by norm_num [V3.normSq]]; exact Real.sqrt_sq (by norm_num)
  have p3 : 0 < V3.norm ⟨0, 1, 6⟩ := Real.sqrt_pos.2 (by norm_num [V3.normSq])
  have s5 : Real.sqrt 5 ≤ 3 := Real.sqrt_le_iff.2 ⟨by norm_num, by norm_num⟩
  have p5 : 0 < Real.sqrt 5 := Real.sqrt_pos.2 (by norm_num)
  have ne : ∀ {x y z : ℝ}, (x ≠ 0 ∨ y ≠ 0) → (⟨x, y, z⟩ : V3) ≠ 0 := by
    intro x y z h h0
    have h1 := congrArg V3.x h0
    have h2 := congrArg V3.y h0
    simp only [V3.zero_x, V3.zero_y] at h1 h2
    rcases h with h | h
    · exact h h1
    · exact h h2
  refine ⟨ne (.inl (by norm_num)), ne (.inl (by norm_num)), ne (.inr (by norm_num)), ?_⟩
  simp only [V3.dot, h5, h2]
  norm_num
  have a1 : (1 : ℝ) / 3 ≤ 2 / (2 * Real.sqrt 5) := by rw [div_le_div_iff₀ (by norm_num) (by positivity)]; linarith
  have a2 : 0 < 2 / (Real.sqrt 5 * V3.norm ⟨0, 1, 6⟩) := by positivity
  rw [lt_abs]; left; linarith

/-- **C75 is false for small inputs when the turned box entries sum to zero**: assigning the atoms then
raises `ValueError`, because the sum of the entries is used as a test that a box was given. -/
theorem C75_false_sum :
    ∃ (M : Mat3) (b : Mat3) (a : Atom), Spec.Rotation M ∧ Skewed b ∧ (∃ s, buildSystem b [a] = .ok s) ∧
      buildSystem (moveBox M 1 b) [moveAtom M 1 0 a] = .error .valueError := by
  have hb := skew_example
  have hM : Spec.Rotation ⟨⟨-1, 0, 0⟩, ⟨0, -1, 0⟩, ⟨0, 0, 1⟩⟩ :=
    ⟨by intro u v; simp [V3.dot, Mat3.mulVec], by norm_num [Mat3.det]⟩
  refine ⟨⟨⟨-1, 0, 0⟩, ⟨0, -1, 0⟩, ⟨0, 0, 1⟩⟩, ⟨⟨2, 0, 0⟩, ⟨1, 2, 0⟩, ⟨0, 1, 6⟩⟩, { pos := 0 }, hM, hb, ?_, ?_⟩
  · obtain ⟨s, hs⟩ := setBox_ok (s := System.init) (b := ⟨⟨2, 0, 0⟩, ⟨1, 2, 0⟩, ⟨0, 1, 6⟩⟩) (fun _ => by norm_num [Mat3.det])
    have hf := setBox_frame hs
    have hg : s.getBox = ⟨⟨2, 0, 0⟩, ⟨1, 2, 0⟩, ⟨0, 1, 6⟩⟩ := by
      unfold System.getBox; rw [hf.2.1, hf.1]; rfl
    obtain ⟨s', out, h⟩ := repeatAtoms_isOk (s := s) (rx := padReps 1) (ry := padReps 1) (rz := padReps 1)
      (l := [{ pos := 0 }]) (g := true) (sc := true) (fun _ => by rw [hg]; norm_num [Mat3.det])
    refine ⟨s'.setAtoms out, ?_⟩
    unfold buildSystem
    rw [hs]
    simp only [bind, Except.bind]
    unfold System.assignAtoms
    rw [if_pos (by simp), if_neg (by simp), if_neg (by rw [hg]; norm_num [boxSum])]
    simp only [List.length_singleton, h]
    rfl
  · have hd : (moveBox ⟨⟨-1, 0, 0⟩, ⟨0, -1, 0⟩, ⟨0, 0, 1⟩⟩ 1 ⟨⟨2, 0, 0⟩, ⟨1, 2, 0⟩, ⟨0, 1, 6⟩⟩).det ≠ 0 := by
      rw [det_move]; norm_num [Mat3.det]
    obtain ⟨s, hs⟩ := setBox_ok (s := System.init) (fun _ => hd)
    have hf := setBox_frame hs
    unfold buildSystem
    rw [hs]
    simp only [bind, Except.bind]
    unfold System.assignAtoms
    rw [if_pos (by simp), if_neg (by simp), if_pos]
    unfold System.getBox
    rw [hf.2.1, hf.1]
    simp [boxSum, System.init, moveBox, moveVec, Mat3.mulVec, V3.dot]
    norm_num

/-- What `triclinic` and `rot` are after building a skewed system. -/
theorem build_skewed {b : Mat3} {l : List Atom} {s : System} (hb : Skewed b) (h : buildSystem b l = .ok s) :
    s.triclinic = true ∧ ∃ k : ℝ, 0 < k ∧ s.rot.det = k * b.det := by
  unfold buildSystem at h
  obtain ⟨s0, h0, h1⟩ : ∃ s0, System.init.setBox b = .ok s0 ∧ s0.assignAtoms l = .ok s := by
    rcases hh : System.init.setBox b with e | s0
    · rw [hh] at h; cases h
    · rw [hh] at h; exact ⟨s0, rfl, h⟩
  have hb0 := (setBox_frame h0).1
  have hg : s0.getBox = b := by unfold System.getBox; rw [(setBox_frame h0).2.1, hb0]; rfl
  have hset : ∀ (x y : System) (b' : Mat3), Skewed b' → x.setBox b' = .ok y → y.triclinic = true ∧ y.rot.det = b'.det := by
    intro x y b' hs hy
    unfold System.setBox at hy
    rw [if_pos hs] at hy
    dsimp only at hy
    split_ifs at hy
    cases hy
    exact ⟨rfl, Mat3.det_transpose _⟩
  unfold System.assignAtoms at h1
  split_ifs at h1 with hl
  · dsimp only at h1
    set n := padReps l.length
    unfold System.repeatAtoms at h1
    rw [hg] at h1
    simp only [if_true] at h1
    rcases hx : ({ s0 with actualBox := some b } : System).setBox (scaleBox b n n n) with e | s1
    · rw [hx] at h1; cases h1
    · rw [hx] at h1
      obtain ⟨e1, e2⟩ := hset _ _ _ ((skewed_scaleBox b n).2 hb) hx
      cases h1
      refine ⟨e1, ((2 * n + 1 : ℕ) : ℝ) ^ 3, by positivity, ?_⟩
      change s1.rot.det = _
      rw [e2]
      simp only [scaleBox, Mat3.det, V3.smul_x, V3.smul_y, V3.smul_z]; ring
  · obtain ⟨e1, e2⟩ := hset _ _ _ hb h0
    cases h1
    exact ⟨e1, 1, one_pos, by rw [one_mul]; exact e2⟩

theorem cbrt_pos {x : ℝ} (hx : 0 < x) : 0 < cbrt x := by
  have := cbrt_cube x
  by_contra h
  have h2 : cbrt x ^ 3 ≤ 0 := by
    have : 0 ≤ cbrt x ^ 2 := sq_nonneg _
    nlinarith
  linarith

theorem cbrt_neg {x : ℝ} (hx : x < 0) : cbrt x < 0 := by
  have := cbrt_cube x
  by_contra h
  have h2 : 0 ≤ cbrt x ^ 3 := pow_nonneg (not_lt.1 h) 3
  linarith

theorem build_length {b : Mat3} {l : List Atom} {s : System} (hreal : ∀ a ∈ l, a.ghost = false) (h : buildSystem b l = .ok s) :
    2 ≤ s.atoms.length ∧ s.realNop = l.length ∧ s.realNop ≤ s.atoms.length := by
  unfold buildSystem at h
  obtain ⟨s0, h0, h1⟩ : ∃ s0, System.init.setBox b = .ok s0 ∧ s0.assignAtoms l = .ok s := by
    rcases hh : System.init.setBox b with e | s0
    · rw [hh] at h; cases h
    · rw [hh] at h; exact ⟨s0, rfl, h⟩
  obtain ⟨ex, h2, -, h3, -, -, -, h4, -⟩ := assign_shape hreal h1
  refine ⟨?_, h3, by rw [h3, h2, List.length_append]; omega⟩
  by_cases hl : l.length < 200
  · obtain ⟨he, -, -, hne⟩ := h4 hl
    have h1' : 1 ≤ l.length := List.length_pos_iff.2 hne
    have := padReps_total h1' hl
    have hc := repCells_length (padReps l.length) (padReps l.length) (padReps l.length)
    rw [← hc] at this
    rw [h2, he, List.length_append, repNew_length]
    nlinarith
  · rw [h2, List.length_append]; omega

/-- **C75 is false for mirror images** in the searches that guess a distance: for every right-handed
skewed cell there is a threshold for which the nearest neighbour of every atom is found, while the same
call on any mirror image of the system raises `RuntimeError` (the guess is made from the signed
volume, which is negative for left-handed cells). -/
theorem C75_false_mirror (σ : StdSort) (b : Mat3) (hb : Skewed b) (hd : 0 < b.det) (l : List Atom)
    (hreal : ∀ a ∈ l, a.ghost = false) (hl : l.length ≤ 4000) (s : System) (hs : buildSystem b l = .ok s) :
    ∃ t : ℝ, 1 ≤ t ∧ (∃ s', s.findNeighbors σ 0 (.number t 1 true) = .ok s') ∧
      ∀ M : Mat3, Orthogonal M → M.det = -1 → ∀ g, buildSystem (moveBox M 1 b) (l.map (moveAtom M 1 0)) = .ok g →
        g.findNeighbors σ 0 (.number t 1 true) = .error .runtimeError := by
  obtain ⟨htri, k, hk, hdet⟩ := build_skewed hb hs
  obtain ⟨h2, hr, hle⟩ := build_length hreal hs
  have hn : (0 : ℝ) < s.atoms.length := by exact_mod_cast (by omega : 0 < s.atoms.length)
  have hc : 0 < cbrt (s.boxVol / s.atoms.length) := by
    apply cbrt_pos
    rw [boxVol_tri s htri, hdet]; positivity
  obtain ⟨B, hB⟩ := Finset.exists_le ((Finset.range s.atoms.length ×ˢ Finset.range s.atoms.length).image
    fun p => s.getDistance (s.mem p.1) (s.mem p.2))
  set t := max 1 (B / cbrt (s.boxVol / s.atoms.length)) with ht
  have ht1 : 1 ≤ t := le_max_left _ _
  have hBt : B ≤ s.guessDist t := by
    unfold System.guessDist
    rw [← div_le_iff₀ hc]; exact le_max_right _ _
  refine ⟨t, ht1, ?_, ?_⟩
  · refine (((C12_errors σ s 0 t _ ((searchRadius_iff s t _).2 rfl) 1 true).2 ht1 hle (by omega)).2 ?_ (by norm_num))
    intro i hi
    unfold Spec.countWithin
    refine (Set.ncard_pos ?_).2 ?_
    · refine (Set.finite_lt_nat s.atoms.length).subset ?_
      rintro j ⟨-, _, _, -, hj, -⟩
      exact (List.getElem?_eq_some_iff.1 hj).1
    · refine ⟨if i = 0 then 1 else 0, by split_ifs <;> omega, ?_⟩
      have hj : (if i = 0 then 1 else 0) < s.atoms.length := by split_ifs <;> omega
      refine ⟨_, _, List.getElem?_eq_getElem hi, List.getElem?_eq_getElem hj, ?_⟩
      rw [← mem_eq_getElem _ _ hi, ← mem_eq_getElem _ _ hj]
      refine (hB _ (Finset.mem_image.2 ⟨((if i = 0 then 1 else 0), i), ?_, rfl⟩)).trans hBt
      simp only [Finset.mem_product, Finset.mem_range]
      exact ⟨hj, hi⟩
  · intro M hM hM1 g hg
    obtain ⟨gtri, k', hk', gdet⟩ := build_skewed ((skewed_move hM one_pos b).2 hb) hg
    have greal : ∀ a ∈ l.map (moveAtom M 1 0), a.ghost = false := by
      intro a ha
      obtain ⟨a', ha', rfl⟩ := List.mem_map.1 ha
      exact hreal a' ha'
    obtain ⟨g2, gr, gle⟩ := build_length greal hg
    rw [List.length_map] at gr
    have gn : (0 : ℝ) < g.atoms.length := by exact_mod_cast (by omega : 0 < g.atoms.length)
    have gR : g.guessDist t < 0 := by
      unfold System.guessDist
      refine mul_neg_of_pos_of_neg (by linarith) (cbrt_neg ?_)
      rw [boxVol_tri g gtri, gdet, det_move, hM1]
      apply div_neg_of_neg_of_pos _ gn
      have := mul_pos hk' hd
      linarith
    refine (((C12_errors σ g 0 t _ ((searchRadius_iff g t _).2 rfl) 1 true).2 ht1 gle (by omega)).1 ⟨0, by omega, ?_⟩)
    unfold Spec.countWithin
    have : {j | j ≠ 0 ∧ ∃ host nb, g.atoms[0]? = some host ∧ g.atoms[j]? = some nb ∧ g.getDistance nb host ≤ g.guessDist t} = ∅ := by
      ext j
      simp only [Set.mem_ofPred_eq, Set.mem_empty_iff_false, iff_false]
      rintro ⟨-, a, c, -, -, h⟩
      have : 0 ≤ g.getDistance c a := Real.sqrt_nonneg _
      linarith
    rw [this]; simp

/-! ### Concrete cases -/

/-- A skewed right-handed cell. -/
example : Skewed ⟨⟨2, 0, 0⟩, ⟨1, 2, 0⟩, ⟨0, 1, 6⟩⟩ ∧ (⟨⟨2, 0, 0⟩, ⟨1, 2, 0⟩, ⟨0, 1, 6⟩⟩ : Mat3).det = 24 :=
  ⟨skew_example, by norm_num [Mat3.det]⟩

/-- The conditions of C74 and C76 hold for every list of at most 2300 real atoms and every numeric cutoff other than 0. -/
example (b : Mat3) (l : List Atom) (hl : l.length ≤ 2300) (hreal : ∀ a ∈ l, a.ghost = false) (r : ℝ) (hr : r ≠ 0) :
    ∀ s, buildSystem b l = .ok s → Spec.AllPairs s.natoms s.ntotal (.cutoff r) := allPairs_of hl hreal hr

/-- The conditions of C75 hold for the skewed cell above turned by 90 degrees about `z` (sums 12 and 6). -/
example : Spec.Rotation ⟨⟨0, -1, 0⟩, ⟨1, 0, 0⟩, ⟨0, 0, 1⟩⟩ ∧
    (boxSum (moveBox ⟨⟨0, -1, 0⟩, ⟨1, 0, 0⟩, ⟨0, 0, 1⟩⟩ 1 ⟨⟨2, 0, 0⟩, ⟨1, 2, 0⟩, ⟨0, 1, 6⟩⟩) = 0 ↔
      boxSum ⟨⟨2, 0, 0⟩, ⟨1, 2, 0⟩, ⟨0, 1, 6⟩⟩ = 0) := by
  refine ⟨⟨by intro u v; simp [V3.dot, Mat3.mulVec]; ring, by norm_num [Mat3.det]⟩, ?_⟩
  norm_num [boxSum, moveBox, moveVec, Mat3.mulVec, V3.dot, V3.smul]

/-- The insertion sort satisfies the condition of C76. -/
example : Spec.SortScales StdSort.insertion 10 := sortScales_insertion (by norm_num)

end Pyscal
