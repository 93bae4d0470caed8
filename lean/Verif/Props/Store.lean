import Verif.Lemmas.Store
import Verif.Props.Distance

/-!
# C04-C08: box history, atom store, replication
-/

namespace Pyscal
open Spec

/-! ## C04 -/

/-- Assign boxes one after the other to a new System. -/
noncomputable def setBoxes (bs : List Mat3) : Except Fault System :=
  bs.foldlM (fun s b => s.setBox b) System.init

theorem image_congr {s t : System} (hb : s.box = t.box) (ht : s.triclinic = t.triclinic)
    (hr : t.triclinic = true → s.rot = t.rot ∧ s.rotinv = t.rotinv) (d : V3) :
    s.image d = t.image d := by
  unfold System.image System.boxx System.boxy System.boxz
  rw [hb, ht]
  cases h : t.triclinic with
  | false => simp
  | true =>
    obtain ⟨h1, h2⟩ := hr h
    simp [h1, h2]

/-- **C04 is false (1)**: a System that once had a triclinic box keeps computing triclinic
distances after an orthogonal box is assigned.  Here two atoms one unit apart in a 10 x 10 x 10
box get distance 0, while a new System with that box gives 1. -/
theorem C04_false_triclinic_sticks : ∃ s t : System,
    setBoxes [skewBox, diagBox 10 10 10] = .ok s ∧ setBoxes [diagBox 10 10 10] = .ok t ∧
    s.getDistance { pos := ⟨1, 0, 0⟩ } { pos := 0 } = 0 ∧
    t.getDistance { pos := ⟨1, 0, 0⟩ } { pos := 0 } = 1 := by
  refine ⟨{ skewSys with box := diagBox 10 10 10 },
    { System.init with box := diagBox 10 10 10 }, ?_, ?_, ?_, ?_⟩
  · simp only [setBoxes, List.foldlM_cons, List.foldlM_nil, skewSys_eq, bind, Except.bind]
    simp [System.setBox, not_skewed_diag, pure, Except.pure]
  · simp [setBoxes, System.setBox, not_skewed_diag, pure, Except.pure, bind, Except.bind]
  · have hd : skewBox.transpose.det ≠ 0 := by norm_num [Mat3.det, Mat3.transpose, skewBox]
    have e : (⟨1, 0, 0⟩ : V3) - 0 = skewBox.transpose.mulVec ⟨1, 0, 0⟩ := by
      ext <;> simp [Mat3.mulVec, Mat3.transpose, V3.dot, skewBox]
    rw [System.getDistance, V3.norm_eq_zero]
    simp only [e]
    simp only [System.image, skewSys, System.init, if_true]
    rw [Mat3.inv_mulVec _ hd]
    simp only [System.boxx, System.boxy, System.boxz, diagBox, norm_axis_x 10 (by norm_num),
      norm_axis_y 10 (by norm_num), norm_axis_z 10 (by norm_num)]
    ext <;> norm_num [wrap, Mat3.mulVec, V3.dot]
  · rw [System.getDistance, image_diag _ 10 10 10 (by norm_num) (by norm_num) (by norm_num) rfl rfl]
    rw [V3.norm, show V3.normSq _ = (1 : ℝ) ^ 2 by norm_num [wrap, V3.normSq]]
    exact Real.sqrt_sq (by norm_num)

/-- **C04 is false (2)**: after assigning fewer than 200 atoms the box can no longer be changed:
reading `sys.box` after a later assignment gives the old box, and the next atom assignment
replicates with the old box and overwrites the new one. -/
theorem C04_false_getter_stale : ∃ s1 s2 s3 s4 : System,
    System.init.setBox (diagBox 10 10 10) = .ok s1 ∧ s1.assignAtoms [{ pos := 0 }] = .ok s2 ∧
    s2.setBox (diagBox 20 20 20) = .ok s3 ∧ s3.getBox = diagBox 10 10 10 ∧
    s3.assignAtoms [{ pos := 0 }] = .ok s4 ∧
    s4.box = scaleBox (diagBox 10 10 10) (padReps 1) (padReps 1) (padReps 1) := by
  obtain ⟨s1, h1⟩ := setBox_ok (s := System.init) (b := diagBox 10 10 10)
    (fun h => absurd h (not_skewed_diag _ _ _))
  have hb1 : s1.getBox = diagBox 10 10 10 := by
    obtain ⟨f1, f2, _⟩ := setBox_frame h1
    simp [System.getBox, f1, f2, System.init]
  have hsum : boxSum (diagBox 10 10 10) ≠ 0 := by norm_num [boxSum, diagBox]
  have mk : ∀ s : System, s.getBox = diagBox 10 10 10 →
      ∃ t, s.assignAtoms [{ pos := 0 }] = .ok t ∧ t.getBox = diagBox 10 10 10 ∧
        t.box = scaleBox (diagBox 10 10 10) (padReps 1) (padReps 1) (padReps 1) := by
    intro s hs
    obtain ⟨s', out, hr⟩ := repeatAtoms_isOk (s := s) (rx := padReps 1) (ry := padReps 1)
      (rz := padReps 1) (l := [{ pos := 0 }]) (g := true) (sc := true)
      (by rw [hs]; exact fun h => absurd h (not_skewed_diag _ _ _))
    obtain ⟨_, ha, hbx, _⟩ := repeatAtoms_ok hr
    refine ⟨s'.setAtoms out, ?_, ?_, ?_⟩
    · simp [System.assignAtoms, hs, hsum, hr, bind, Except.bind, pure, Except.pure]
    · simp [System.getBox, System.setAtoms, ha]
      simpa [System.getBox] using hs
    · simp [System.setAtoms, hbx, hs]
  obtain ⟨s2, h2, hb2, _⟩ := mk s1 hb1
  obtain ⟨s3, h3⟩ := setBox_ok (s := s2) (b := diagBox 20 20 20)
    (fun h => absurd h (not_skewed_diag _ _ _))
  have ha2 : s2.actualBox ≠ none := by
    intro h
    obtain ⟨s', out, hr⟩ := repeatAtoms_isOk (s := s1) (rx := padReps 1) (ry := padReps 1)
      (rz := padReps 1) (l := [{ pos := 0 }]) (g := true) (sc := true)
      (by rw [hb1]; exact fun h => absurd h (not_skewed_diag _ _ _))
    obtain ⟨_, ha, _⟩ := repeatAtoms_ok hr
    simp [System.assignAtoms, hb1, hsum, hr, bind, Except.bind, pure, Except.pure] at h2
    subst h2
    simp [System.setAtoms, ha] at h
  have hb3 : s3.getBox = diagBox 10 10 10 := by
    obtain ⟨_, f2, _⟩ := setBox_frame h3
    cases hc : s2.actualBox with
    | none => exact absurd hc ha2
    | some b =>
      rw [System.getBox, hc] at hb2
      rw [System.getBox, f2, hc]; exact hb2
  obtain ⟨s4, h4, _, h4'⟩ := mk s3 hb3
  exact ⟨s1, s2, s3, s4, h1, h2, h3, hb3, h4, h4'⟩

/-- **C04 is false (3)**: a box whose three cosines cancel is taken for an orthogonal box.
The atom sits on a lattice point of the cell, so its distance to the origin should be 0. -/
theorem C04_false_cancelling_cosines :
    let b : Mat3 := ⟨⟨3, 0, 0⟩, ⟨2, 1, 2⟩, ⟨-2, 2, 1⟩⟩
    b.det ≠ 0 ∧ V3.dot b.r0 b.r1 ≠ 0 ∧
    ∃ s, System.init.setBox b = .ok s ∧ s.triclinic = false ∧
    V3.norm (b.r1 - 0 + latticeVec b 0 (-1) 0) = 0 ∧
    s.getDistance { pos := b.r1 } { pos := 0 } ≠ 0 := by
  intro b
  have n0 : V3.norm b.r0 = 3 := by
    rw [V3.norm, show V3.normSq b.r0 = 3 ^ 2 by norm_num [V3.normSq, b]]
    exact Real.sqrt_sq (by norm_num)
  have n1 : V3.norm b.r1 = 3 := by
    rw [V3.norm, show V3.normSq b.r1 = 3 ^ 2 by norm_num [V3.normSq, b]]
    exact Real.sqrt_sq (by norm_num)
  have n2 : V3.norm b.r2 = 3 := by
    rw [V3.norm, show V3.normSq b.r2 = 3 ^ 2 by norm_num [V3.normSq, b]]
    exact Real.sqrt_sq (by norm_num)
  have hns : ¬ Skewed b := by
    rintro ⟨c, hc, h⟩
    rw [cosSum_eq (by rw [n0]; norm_num) (by rw [n1]; norm_num) (by rw [n2]; norm_num), n0, n1, n2]
      at hc
    have : c = 0 := by
      have := Option.some.inj hc
      rw [← this]; norm_num [V3.dot, b]
    rw [this] at h; norm_num at h
  refine ⟨by norm_num [Mat3.det, b], by norm_num [V3.dot, b], { System.init with box := b },
    by simp [System.setBox, hns], rfl, ?_, ?_⟩
  · norm_num [V3.norm, V3.normSq, latticeVec, b]
  · rw [System.getDistance, Ne, V3.norm_eq_zero]
    intro h
    have := congrArg V3.x h
    simp only [System.image, System.init, System.boxx, n0] at this
    norm_num [wrap, b] at this

theorem setBoxes_inv : ∀ (bs : List Mat3) (s0 s : System), s0.actualBox = none →
    bs.foldlM (fun s b => s.setBox b) s0 = .ok s →
    s.actualBox = none ∧ ((∀ b ∈ bs, ¬ Skewed b) → s.triclinic = s0.triclinic) := by
  intro bs
  induction bs with
  | nil => intro s0 s h0 h; simp [pure, Except.pure] at h; subst h; exact ⟨h0, fun _ => rfl⟩
  | cons b bs ih =>
    intro s0 s h0 h
    rw [List.foldlM_cons] at h
    cases h1 : s0.setBox b with
    | error e => rw [h1] at h; simp [bind, Except.bind] at h
    | ok s1 =>
      rw [h1] at h
      obtain ⟨_, f2, _⟩ := setBox_frame h1
      obtain ⟨i1, i2⟩ := ih s1 s (by rw [f2, h0]) h
      refine ⟨i1, fun hb => ?_⟩
      rw [i2 (fun b' hb' => hb b' (List.mem_cons_of_mem _ hb'))]
      have := hb b List.mem_cons_self
      simp [System.setBox, this] at h1
      rw [← h1]

/-- **C04, what holds.**  Full statement: after any history of box and atom assignments `sys.box`
is the last assigned box and distances depend on it only.  Proved: for every history of box
assignments on a System whose atoms have not been assigned yet, `sys.box` is the last box, and
if the last box is recognised as triclinic, or no earlier one was, all distances are those of a
new System with that box.  Missing: histories with padded atom assignments or with an
orthogonal box after a triclinic one, where it is false (the three `C04_false` theorems). -/
theorem C04_partial (bs : List Mat3) (b : Mat3) (s t : System)
    (hs : setBoxes (bs ++ [b]) = .ok s) (ht : setBoxes [b] = .ok t)
    (hc : Spec.Skew b ∨ ∀ b' ∈ bs, ¬ Spec.Skew b') :
    s.getBox = b ∧ (∀ d, s.image d = t.image d) ∧
    ∀ p q : Atom, s.getDistance p q = t.getDistance p q := by
  have key : s.getBox = b ∧ ∀ d, s.image d = t.image d := by
    simp only [← skewed_iff] at hc
    unfold setBoxes at hs ht
    rw [List.foldlM_append] at hs
    cases h1 : bs.foldlM (fun s b => s.setBox b) System.init with
    | error e => rw [h1] at hs; simp [bind, Except.bind] at hs
    | ok s1 =>
      rw [h1] at hs
      have hs' : s1.setBox b = .ok s := by
        simp only [bind, Except.bind, List.foldlM_cons, List.foldlM_nil, pure, Except.pure] at hs
        cases hq : s1.setBox b with
        | error e => rw [hq] at hs; simp at hs
        | ok x => rw [hq] at hs; simpa using hs
      have ht' : System.init.setBox b = .ok t := by
        simp only [bind, Except.bind, List.foldlM_cons, List.foldlM_nil, pure, Except.pure] at ht
        cases hq : System.init.setBox b with
        | error e => rw [hq] at ht; simp at ht
        | ok x => rw [hq] at ht; simpa using ht
      obtain ⟨i1, i2⟩ := setBoxes_inv bs System.init s1 rfl h1
      obtain ⟨f1, f2, _⟩ := setBox_frame hs'
      obtain ⟨g1, g2, _⟩ := setBox_frame ht'
      refine ⟨by rw [System.getBox, f2, i1, Option.getD_none, f1], ?_⟩
      by_cases hk : Skewed b
      · obtain ⟨k1, _⟩ := setBox_skewed hk hs'
        obtain ⟨k2, _⟩ := setBox_skewed hk ht'
        exact image_congr (by rw [f1, g1]) (by rw [k1.tri, k2.tri])
          (fun _ => ⟨by rw [k1.rot, k2.rot, f1, g1], by rw [k1.rotinv, k2.rotinv, f1, g1]⟩)
      · have hb : ∀ b' ∈ bs, ¬ Skewed b' := hc.resolve_left hk
        simp [System.setBox, hk] at hs' ht'
        have e1 : s.triclinic = false := by rw [← hs']; exact i2 hb
        have e2 : t.triclinic = false := by rw [← ht']; rfl
        exact image_congr (by rw [f1, g1]) (by rw [e1, e2]) (fun h => by rw [e2] at h; simp at h)
  exact ⟨key.1, key.2, fun p q => by rw [System.getDistance, key.2, System.getDistance]⟩

/-- Hypotheses of C04_partial: an orthogonal box replaced by another. -/
example : ∃ s t, setBoxes ([diagBox 5 5 5] ++ [diagBox 10 10 10]) = .ok s ∧
    setBoxes [diagBox 10 10 10] = .ok t ∧ ∀ b' ∈ [diagBox 5 5 5], ¬ Spec.Skew b' := by
  refine ⟨{ System.init with box := diagBox 10 10 10 }, { System.init with box := diagBox 10 10 10 },
    ?_, ?_, ?_⟩
  · simp [setBoxes, System.setBox, not_skewed_diag, pure, Except.pure, bind, Except.bind]
  · simp [setBoxes, System.setBox, not_skewed_diag, pure, Except.pure, bind, Except.bind]
  · simp [← skewed_iff, not_skewed_diag]

/-! ## C05 -/

/-- **C05.**  Assigning a list of real atoms: the atoms read back are exactly that list, `natoms`
is its length, all other atoms held are ghosts, there are at least 200 of them in total when
padding took place, and none when it did not. -/
theorem C05_assign_atoms (s s' : System) (l : List Atom) (hreal : ∀ a ∈ l, a.ghost = false)
    (h : s.assignAtoms l = .ok s') :
    s'.getAtoms = .ok l ∧ s'.natoms = l.length
    ∧ ∃ extra, s'.getAllAtoms = .ok (l ++ extra) ∧ (∀ a ∈ extra, a.ghost = true)
        ∧ (l.length < 200 → 200 ≤ (l ++ extra).length ∧ s'.ntotal = (l ++ extra).length)
        ∧ (200 ≤ l.length → extra = []) := by
  unfold System.assignAtoms at h
  by_cases hl : l.length < 200
  · rw [if_pos hl] at h
    by_cases h0 : l.length = 0
    · rw [if_pos h0] at h; simp at h
    rw [if_neg h0] at h
    by_cases hbs : boxSum s.getBox = 0
    · rw [if_pos hbs] at h; simp at h
    rw [if_neg hbs] at h
    dsimp only at h
    cases hr : s.repeatAtoms (padReps l.length) (padReps l.length) (padReps l.length) l true true with
    | error e => rw [hr] at h; simp [bind, Except.bind] at h
    | ok r =>
      obtain ⟨s1, out⟩ := r
      rw [hr] at h
      simp only [bind, Except.bind, pure, Except.pure, Except.ok.injEq] at h
      subst h
      obtain ⟨rfl, _⟩ := repeatAtoms_ok hr
      set g := repNew s.getBox true (padReps l.length) (padReps l.length) (padReps l.length) l with hg
      have hgg : ∀ a ∈ g, a.ghost = true := repNew_ghost
      have hc : countReal (l ++ g) = l.length := by
        rw [countReal_append, countReal_of_real hreal, countReal_of_ghost hgg, Nat.add_zero]
      refine ⟨?_, hc, g, ?_, hgg, fun _ => ⟨?_, rfl⟩, fun h2 => by omega⟩
      · simp [System.getAtoms, System.setAtoms, hc]
      · simp [System.getAllAtoms, System.setAtoms]
      · have hgl := repNew_length s.getBox true (padReps l.length) (padReps l.length)
          (padReps l.length) l
        rw [← hg] at hgl
        have hcl := repCells_length (padReps l.length) (padReps l.length) (padReps l.length)
        have hp := padReps_total (n := l.length) (by omega) hl
        rw [List.length_append, hgl, ← hcl] at *
        calc 200 ≤ _ := hp
          _ = _ := by ring
  · rw [if_neg hl] at h
    simp only [Except.ok.injEq] at h
    subst h
    refine ⟨?_, countReal_of_real hreal, [], ?_, by simp, fun h2 => absurd h2 hl, fun _ => rfl⟩
    · simp [System.getAtoms, System.setAtoms, countReal_of_real hreal]
    · simp [System.getAllAtoms, System.setAtoms]

/-- **C05, success**: with a box whose entries do not sum to zero (and which is invertible if it
is triclinic) every non-empty list can be assigned. -/
theorem C05_assign_succeeds (s : System) (l : List Atom) (h1 : 1 ≤ l.length)
    (hb : boxSum s.getBox ≠ 0) (hd : Spec.Skew s.getBox → s.getBox.det ≠ 0) :
    ∃ s', s.assignAtoms l = .ok s' := by
  unfold System.assignAtoms
  by_cases hl : l.length < 200
  · rw [if_pos hl, if_neg (by omega), if_neg hb]
    obtain ⟨s1, out, hr⟩ := repeatAtoms_isOk (s := s) (rx := padReps l.length)
      (ry := padReps l.length) (rz := padReps l.length) (l := l) (g := true) (sc := true) (fun h => hd ((skewed_iff _).1 h))
    dsimp only
    rw [hr]
    exact ⟨_, rfl⟩
  · rw [if_neg hl]; exact ⟨_, rfl⟩

/-- **C05, errors**: an empty list raises ZeroDivisionError; a short list on a System whose box
has not been set raises ValueError. -/
theorem C05_errors (s : System) :
    s.assignAtoms [] = .error .zeroDivision ∧
    ∀ l : List Atom, 1 ≤ l.length → l.length < 200 → boxSum s.getBox = 0 →
      s.assignAtoms l = .error .valueError := by
  refine ⟨by simp [System.assignAtoms], fun l h1 h2 h3 => ?_⟩
  unfold System.assignAtoms
  rw [if_pos h2, if_neg (by omega), if_pos h3]

/-- The hypotheses of C05 are met by one atom in a cubic box; the system then has 343 atoms. -/
example : ∃ s s', System.init.setBox (diagBox 4 4 4) = .ok s ∧
    s.assignAtoms [{ pos := 0 }] = .ok s' ∧ s'.getAtoms = .ok [{ pos := 0 }] ∧ padReps 1 = 3 := by
  obtain ⟨s, h1⟩ := setBox_ok (s := System.init) (b := diagBox 4 4 4)
    (fun h => absurd h (not_skewed_diag _ _ _))
  obtain ⟨f1, f2, _⟩ := setBox_frame h1
  have hb : s.getBox = diagBox 4 4 4 := by simp [System.getBox, f1, f2, System.init]
  obtain ⟨s', h2⟩ := C05_assign_succeeds s [{ pos := 0 }] (by simp)
    (by rw [hb]; norm_num [boxSum, diagBox]) (by rw [hb]; exact fun h => absurd ((skewed_iff _).2 h) (not_skewed_diag _ _ _))
  exact ⟨s, s', h1, h2, (C05_assign_atoms s s' _ (by simp) h2).1, by decide +kernel⟩

/-! ## C06 -/

/-- **C06.**  `repeat((rx, ry, rz), atoms=l)` with box scaling: the result is `l` followed by one
translated copy of every atom for each non-zero cell (each cell once), the count is
`n (2rx+1)(2ry+1)(2rz+1)`, new ids are consecutive from `n + 1`, and the replicated atoms with
the scaled box generate the same infinite crystal as the original atoms and box. -/
theorem C06_repeat (s s' : System) (rx ry rz : ℕ) (l out : List Atom) (ghost : Bool)
    (h : s.repeatAtoms rx ry rz l ghost true = .ok (s', out)) :
    crystal s'.box out = crystal s.getBox l
    ∧ out.length = l.length * ((2 * rx + 1) * (2 * ry + 1) * (2 * rz + 1))
    ∧ out.take l.length = l
    ∧ (out.drop l.length).map Atom.id
        = (List.range (out.length - l.length)).map (fun (k : ℕ) => (l.length : ℤ) + 1 + k)
    ∧ (∀ a ∈ out.drop l.length, a.ghost = ghost)
    ∧ ∃ cells : List (ℤ × ℤ × ℤ), cells.Nodup
        ∧ (∀ i j k : ℤ, (i, j, k) ∈ cells ↔
            (|i| ≤ rx ∧ |j| ≤ ry ∧ |k| ≤ rz) ∧ ¬(i = 0 ∧ j = 0 ∧ k = 0))
        ∧ (out.drop l.length).map (fun a => (a.pos, a.type))
            = cells.flatMap fun c => l.map fun a =>
                (a.pos + latticeVec s.getBox c.1 c.2.1 c.2.2, a.type) := by
  obtain ⟨rfl, _, hb, _⟩ := repeatAtoms_ok h
  simp only [if_true] at hb
  have hlen := repNew_length s.getBox ghost rx ry rz l
  have hcl := repCells_length rx ry rz
  have htot : (l ++ repNew s.getBox ghost rx ry rz l).length
      = l.length * ((2 * rx + 1) * (2 * ry + 1) * (2 * rz + 1)) := by
    rw [List.length_append, hlen, Nat.mul_assoc (2 * rx + 1), ← hcl]; ring
  refine ⟨by rw [hb]; exact crystal_repeat _ _ _ _ _ _, htot, by simp, ?_, ?_, ?_⟩
  · rw [List.drop_left]
    apply List.ext_getElem
    · simp
    · intro n h1 h2
      simp [repNew, Atom.withId]
  · rw [List.drop_left]
    intro a ha
    obtain ⟨c, _, a', _, i, rfl⟩ := mem_repNew ha
    rfl
  · refine ⟨repCells rx ry rz, repCells_nodup rx ry rz, ?_, ?_⟩
    · intro i j k
      rw [mem_repCells, mem_repRange, mem_repRange, mem_repRange, abs_le, abs_le, abs_le]
      simp
    · rw [List.drop_left]
      have e : (repNew s.getBox ghost rx ry rz l).map (fun a => (a.pos, a.type))
          = ((repCells rx ry rz).flatMap fun c => l.map (repAtom s.getBox ghost c)).map
              (fun a => (a.pos, a.type)) := by
        apply List.ext_getElem
        · simp [repNew]
        · intro n h1 h2
          simp [repNew, Atom.withId]
      rw [e, List.map_flatMap]
      congr 1
      funext c
      rw [List.map_map]
      apply List.map_congr_left
      intro a _
      simp only [Function.comp, repAtom, latticeVec, Prod.mk.injEq, and_true]
      ext <;> simp <;> ring

/-- Hypothesis of C06 met: 2 x 1 x 0 replication of a two-atom cell. -/
example : ∃ s s' out, System.init.setBox (diagBox 4 5 6) = .ok s ∧
    s.repeatAtoms 2 1 0 [{ pos := 0 }, { pos := ⟨1, 1, 1⟩, type := 2 }] false true = .ok (s', out) ∧
    out.length = 30 := by
  obtain ⟨s, h1⟩ := setBox_ok (s := System.init) (b := diagBox 4 5 6)
    (fun h => absurd h (not_skewed_diag _ _ _))
  obtain ⟨f1, f2, _⟩ := setBox_frame h1
  have hb : s.getBox = diagBox 4 5 6 := by simp [System.getBox, f1, f2, System.init]
  obtain ⟨s', out, h2⟩ := repeatAtoms_isOk (s := s) (rx := 2) (ry := 1) (rz := 0)
    (l := [{ pos := 0 }, { pos := ⟨1, 1, 1⟩, type := 2 }]) (g := false) (sc := true)
    (by rw [hb]; exact fun h => absurd h (not_skewed_diag _ _ _))
  exact ⟨s, s', out, h1, h2, (C06_repeat s s' 2 1 0 _ out false h2).2.1⟩

/-- **C06**, the call on the atoms of the system: `repeat(reps, ghost, scale_box)` replicates `sys.atoms`. With `scale_box` the new atoms and the stored box describe the
same crystal, without it the stored box is unchanged; in both cases the box reported by `sys.box` and the atoms of the system stay the same until the result is
assigned. -/
theorem C06_repeat_system (s s' : System) (rx ry rz : ℕ) (out : List Atom) (ghost scale : Bool) (h : s.repeat rx ry rz ghost scale = .ok (s', out)) :
    ∃ l, s.getAtoms = .ok l ∧ (scale = true → crystal s'.box out = crystal s.getBox l) ∧ (scale = false → s'.box = s.box) ∧
      s'.getBox = s.getBox ∧ s'.getAtoms = s.getAtoms ∧ out.length = l.length * ((2 * rx + 1) * (2 * ry + 1) * (2 * rz + 1)) ∧ out.take l.length = l ∧
      (∀ a ∈ out.drop l.length, a.ghost = ghost) := by
  unfold System.repeat at h
  cases hl : s.getAtoms with
  | error e => rw [hl] at h; exact absurd h (by simp [bind, Except.bind])
  | ok l =>
    rw [hl] at h
    change s.repeatAtoms rx ry rz l ghost scale = _ at h
    obtain ⟨rfl, h1, h2, h3, h4, h5, h6, -⟩ := repeatAtoms_ok h
    refine ⟨l, rfl, fun hs => ?_, fun hs => ?_, by rw [System.getBox, h1]; rfl, ?_, ?_, List.take_left, ?_⟩
    · subst hs
      exact (C06_repeat s s' rx ry rz l _ ghost h).1
    · rw [h2, hs]; rfl
    · rw [← hl, System.getAtoms, System.getAtoms, h3, h5]
    · rw [List.length_append, repNew_length, Nat.mul_assoc (2 * rx + 1), ← repCells_length rx ry rz]; ring
    · rw [List.drop_left]
      intro a ha
      obtain ⟨c, _, a', _, i, rfl⟩ := mem_repNew ha
      rfl

/-- Hypothesis met: a system of one atom repeated without scaling the box. -/
example : ∃ s s' s'' out, System.init.setBox (diagBox 4 5 6) = .ok s ∧ s.assignAtoms [{ pos := 0 }] = .ok s' ∧ s'.repeat 1 1 1 false false = .ok (s'', out) ∧ out.length = 27 := by
  obtain ⟨s, h1⟩ := setBox_ok (s := System.init) (b := diagBox 4 5 6) (fun h => absurd h (not_skewed_diag _ _ _))
  obtain ⟨f1, f2, _⟩ := setBox_frame h1
  have hb : s.getBox = diagBox 4 5 6 := by simp [System.getBox, f1, f2, System.init]
  obtain ⟨s', h2⟩ := C05_assign_succeeds s [{ pos := 0 }] (by simp)
    (by rw [hb]; norm_num [boxSum, diagBox]) (by rw [hb]; exact fun h => absurd ((skewed_iff _).2 h) (not_skewed_diag _ _ _))
  have h3 := (C05_assign_atoms s s' _ (by simp) h2).1
  have h4 : ∃ p, s'.repeat 1 1 1 false false = .ok p := by
    unfold System.repeat
    rw [h3]
    exact ⟨_, rfl⟩
  obtain ⟨⟨s'', out⟩, h4⟩ := h4
  obtain ⟨l, e1, -, -, -, -, e2, -⟩ := C06_repeat_system s' s'' 1 1 1 out false false h4
  rw [h3] at e1
  obtain rfl := Except.ok.inj e1
  exact ⟨s, s', s'', out, h1, h2, h4, e2⟩

/-! ## C07 -/

/-- Store operations of the public interface. -/
inductive StoreOp where
  | assign (l : List Atom)   -- sys.atoms = l
  | add (l : List Atom)      -- sys.add_atoms(l)

/-- One store operation. -/
noncomputable def StoreOp.run (s : System) : StoreOp → Except Fault System
  | .assign l => s.assignAtoms l
  | .add l => .ok (s.addAtoms l)

/-- Specification: the atoms a user expects to have after an operation. -/
def StoreOp.expect (cur : List Atom) : StoreOp → List Atom
  | .assign l => l
  | .add l => cur ++ l

/-- All atoms passed by the operation are real atoms. -/
def StoreOp.AllReal : StoreOp → Prop
  | .assign l => ∀ a ∈ l, a.ghost = false
  | .add l => ∀ a ∈ l, a.ghost = false

/-- The store invariant. -/
structure StoreInv (s : System) (reals : List Atom) : Prop where
  real : ∀ a ∈ reals, a.ghost = false
  ex : ∃ gs, s.atoms = reals ++ gs ∧ (∀ a ∈ gs, a.ghost = true) ∧ s.ghostNop = gs.length
  nop : s.nop = s.atoms.length
  realNop : s.realNop = reals.length

theorem storeInv_step (s s' : System) (cur : List Atom) (op : StoreOp) (hi : StoreInv s cur)
    (hop : op.AllReal) (h : op.run s = .ok s') : StoreInv s' (op.expect cur) := by
  cases op with
  | assign l =>
    have hreal : ∀ a ∈ l, a.ghost = false := hop
    obtain ⟨_, h2, extra, h3, h4, _, _⟩ := C05_assign_atoms s s' l hreal h
    have hnop : s'.nop = s'.atoms.length := by
      simp only [StoreOp.run, System.assignAtoms] at h
      split_ifs at h
      · cases hr : s.repeatAtoms (padReps l.length) (padReps l.length) (padReps l.length) l true true with
        | error e => rw [hr] at h; simp [bind, Except.bind] at h
        | ok r =>
          rw [hr] at h
          simp only [bind, Except.bind, pure, Except.pure, Except.ok.injEq] at h
          rw [← h]; rfl
      · simp only [Except.ok.injEq] at h
        rw [← h]; rfl
    have hat : s'.atoms = l ++ extra := by
      simp only [System.getAllAtoms, hnop, le_refl, if_true, List.take_length, Except.ok.injEq] at h3
      exact h3
    have hg : s'.ghostNop = countGhost s'.atoms := by
      simp only [StoreOp.run, System.assignAtoms] at h
      split_ifs at h
      · cases hr : s.repeatAtoms (padReps l.length) (padReps l.length) (padReps l.length) l true true with
        | error e => rw [hr] at h; simp [bind, Except.bind] at h
        | ok r =>
          rw [hr] at h
          simp only [bind, Except.bind, pure, Except.pure, Except.ok.injEq] at h
          rw [← h]; rfl
      · simp only [Except.ok.injEq] at h
        rw [← h]; rfl
    refine ⟨hreal, ⟨extra, hat, h4, ?_⟩, hnop, h2⟩
    rw [hg, hat, countGhost_append, countGhost_of_real hreal, countGhost_of_ghost h4, Nat.zero_add]
  | add l =>
    have hreal : ∀ a ∈ l, a.ghost = false := hop
    simp only [StoreOp.run, Except.ok.injEq] at h
    obtain ⟨gs, ha, hgs, hgn⟩ := hi.ex
    have hcg := countGhost_of_real hreal
    have hcr := countReal_of_real hreal
    have hfl : l.filter (fun a => !a.ghost) = l := List.filter_eq_self.2 (fun a h => by simp [hreal a h])
    have hfg : l.filter (fun a => a.ghost) = [] :=
      List.filter_eq_nil_iff.2 (fun a h => by simp [hreal a h])
    have hfc : cur.filter (fun a => !a.ghost) = cur :=
      List.filter_eq_self.2 (fun a h => by simp [hi.real a h])
    have hfcg : cur.filter (fun a => a.ghost) = [] :=
      List.filter_eq_nil_iff.2 (fun a h => by simp [hi.real a h])
    have hfg1 : gs.filter (fun a => !a.ghost) = [] :=
      List.filter_eq_nil_iff.2 (fun a h => by simp [hgs a h])
    have hfg2 : gs.filter (fun a => a.ghost) = gs := List.filter_eq_self.2 (fun a h => by simp [hgs a h])
    have hat : s'.atoms = (cur ++ l) ++ gs := by
      rw [← h, System.addAtoms]
      simp only
      by_cases hz : s.ghostNop = 0
      · have : gs = [] := List.length_eq_zero_iff.1 (by rw [← hgn, hz])
        rw [if_pos hz, if_pos hcg, ha, this]; simp
      · rw [if_neg hz, hi.nop, List.take_length, ha]
        simp only [List.filter_append, hfc, hfg1, hfl, hfcg, hfg2, hfg]
        simp
    refine ⟨?_, ⟨gs, hat, hgs, ?_⟩, ?_, ?_⟩
    · intro a hx
      rcases List.mem_append.1 hx with hx | hx
      · exact hi.real a hx
      · exact hreal a hx
    · rw [← h]; simp [System.addAtoms, hcg, hgn]
    · rw [hat, ← h]
      have := hi.nop
      rw [ha] at this
      simp [System.addAtoms, this]; omega
    · rw [← h]; simp [System.addAtoms, hcr, hi.realNop, StoreOp.expect]

theorem storeInv_run : ∀ (ops : List StoreOp) (s s' : System) (cur : List Atom), StoreInv s cur →
    (∀ op ∈ ops, op.AllReal) → ops.foldlM StoreOp.run s = .ok s' →
    StoreInv s' (ops.foldl StoreOp.expect cur) := by
  intro ops
  induction ops with
  | nil => intro s s' cur hi _ h; simp [pure, Except.pure] at h; subst h; exact hi
  | cons op ops ih =>
    intro s s' cur hi hr h
    rw [List.foldlM_cons] at h
    cases h1 : op.run s with
    | error e => rw [h1] at h; simp [bind, Except.bind] at h
    | ok s1 =>
      rw [h1] at h
      exact ih s1 s' _ (storeInv_step s s1 cur op hi (hr op List.mem_cons_self) h1)
        (fun o ho => hr o (List.mem_cons_of_mem _ ho)) h

/-- **C07, what holds.**  Full statement: after any sequence of `sys.atoms = l` and
`sys.add_atoms(l)` the atoms read back are the real atoms in insertion order since the last
assignment, `natoms` is their number, `ntotal` the number of atoms held, and real atoms come
first.  Proved for all histories in which the user passes real atoms only (ghosts then arise
only from padding).  Missing: histories in which the user adds ghosts, where it is false
(`C07_false`). -/
theorem C07_partial (s0 s : System) (b : Mat3) (ops : List StoreOp)
    (h0 : System.init.setBox b = .ok s0) (hr : ∀ op ∈ ops, op.AllReal)
    (h : ops.foldlM StoreOp.run s0 = .ok s) :
    let expected := ops.foldl StoreOp.expect []
    s.getAtoms = .ok expected ∧ s.natoms = expected.length
    ∧ ∃ ghosts, s.getAllAtoms = .ok (expected ++ ghosts) ∧ (∀ a ∈ ghosts, a.ghost = true)
        ∧ s.ntotal = (expected ++ ghosts).length := by
  intro expected
  obtain ⟨_, _, f3, f4, f5, f6, _⟩ := setBox_frame h0
  have i0 : StoreInv s0 [] := by
    refine ⟨by simp, ⟨[], ?_, by simp, ?_⟩, ?_, ?_⟩
    · rw [f3]; rfl
    · rw [f6]; rfl
    · rw [f4, f3]; rfl
    · rw [f5]; rfl
  have hi := storeInv_run ops s0 s [] i0 hr h
  obtain ⟨gs, ha, hgs, _⟩ := hi.ex
  refine ⟨?_, hi.realNop, gs, ?_, hgs, ?_⟩
  · simp only [System.getAtoms, hi.realNop, ha]
    simp [expected]
  · simp only [System.getAllAtoms, hi.nop, le_refl, if_true, List.take_length, ha]; rfl
  · rw [System.ntotal, hi.nop, ha]

/-- Hypotheses of C07_partial met: assign one atom, then add another. -/
example : ∃ s0 s, System.init.setBox (diagBox 4 4 4) = .ok s0 ∧
    [StoreOp.assign [{ pos := 0 }], StoreOp.add [{ pos := ⟨1, 1, 1⟩ }]].foldlM StoreOp.run s0 = .ok s ∧
    ∀ op ∈ [StoreOp.assign [{ pos := 0 }], StoreOp.add [{ pos := ⟨1, 1, 1⟩ }]], op.AllReal := by
  obtain ⟨s, h1⟩ := setBox_ok (s := System.init) (b := diagBox 4 4 4)
    (fun h => absurd h (not_skewed_diag _ _ _))
  obtain ⟨f1, f2, _⟩ := setBox_frame h1
  have hb : s.getBox = diagBox 4 4 4 := by simp [System.getBox, f1, f2, System.init]
  obtain ⟨s', h2⟩ := C05_assign_succeeds s [{ pos := 0 }] (by simp)
    (by rw [hb]; norm_num [boxSum, diagBox]) (by rw [hb]; exact fun h => absurd ((skewed_iff _).2 h) (not_skewed_diag _ _ _))
  refine ⟨s, s'.addAtoms [{ pos := ⟨1, 1, 1⟩ }], h1, ?_, ?_⟩
  · simp [StoreOp.run, h2, bind, Except.bind, pure, Except.pure]
  · simp [StoreOp.AllReal]

/-- **C07 is false** for histories that add ghost atoms to a System without ghosts: neither the
ghost nor the real atom passed along is stored, but the counters say they are, so reading the
atoms runs past the end of the array. -/
theorem C07_false : ∃ s : System,
    [StoreOp.add [{ pos := 0 }, { pos := ⟨1, 0, 0⟩, ghost := true }]].foldlM StoreOp.run System.init
      = .ok s ∧
    s.natoms = 1 ∧ s.ntotal = 2 ∧ s.atoms = [] ∧ s.getAtoms = .error .oob := by
  refine ⟨System.init.addAtoms [{ pos := 0 }, { pos := ⟨1, 0, 0⟩, ghost := true }], ?_, ?_⟩
  · simp [StoreOp.run, bind, Except.bind, pure, Except.pure]
  · simp [System.addAtoms, System.init, System.natoms, System.ntotal, countReal, countGhost,
      System.getAtoms]

/-! ## C08 -/

/-- **C08, what holds.**  Full statement: for every reader or builder, editing the atom obtained
with `get_atom(i)` and passing it to `set_atom` replaces entry `i` and nothing else.  Proved for
every System in which the location field of entry `i` is `i`.  Missing: atoms from `repeat`
(`C08_false_repeat`) and from the lammps-dump reader (`C08_false_dump`), for which the
location field is wrong. -/
theorem C08_partial (s : System) (i : ℕ) (a : Atom) (edit : Atom → Atom)
    (hedit : ∀ x, (edit x).loc = x.loc) (hget : s.getAtom i = .ok a) (hloc : a.loc = i) :
    ∃ s', s.setAtom (edit a) = .ok s' ∧ s'.getAtom i = .ok (edit a)
      ∧ (∀ j, j ≠ i → s'.getAtom j = s.getAtom j) ∧ s'.natoms = s.natoms
      ∧ s'.atoms.length = s.atoms.length := by
  unfold System.getAtom at hget
  have hi : i < s.atoms.length := by
    by_contra hc
    rw [List.getElem?_eq_none (by omega)] at hget
    simp at hget
  refine ⟨{ s with atoms := s.atoms.set i (edit a) }, ?_, ?_, ?_, rfl, by simp⟩
  · simp [System.setAtom, hedit, hloc, hi]
  · simp [System.getAtom, hi]
  · intro j hj
    simp [System.getAtom, List.getElem?_set_ne (Ne.symm hj)]

/-- Hypotheses of C08_partial met by a two-atom system. -/
example : ∃ s : System, s.getAtom 1 = .ok { pos := ⟨1, 0, 0⟩, loc := 1 } :=
  ⟨{ System.init with atoms := [{ pos := 0 }, { pos := ⟨1, 0, 0⟩, loc := 1 }] }, rfl⟩

/-- **C08 is false** for replicated systems: atoms made by `repeat` have location 0, so editing a
replica and setting it back overwrites atom 0 and leaves the replica unchanged. -/
theorem C08_false_repeat : ∃ (s s' s'' : System) (out : List Atom) (a : Atom),
    System.init.setBox (diagBox 4 4 4) = .ok s ∧
    s.repeatAtoms 1 0 0 [{ pos := 0, loc := 0, type := 1 }] false true = .ok (s', out) ∧
    (s'.setAtoms out).getAtom 2 = .ok a ∧ a.type = 1 ∧
    (s'.setAtoms out).setAtom { a with type := 7 } = .ok s'' ∧
    (∃ a0, s''.getAtom 0 = .ok a0 ∧ a0.type = 7) ∧ (∃ a2, s''.getAtom 2 = .ok a2 ∧ a2.type = 1) := by
  obtain ⟨s, h1⟩ := setBox_ok (s := System.init) (b := diagBox 4 4 4)
    (fun h => absurd h (not_skewed_diag _ _ _))
  obtain ⟨f1, f2, _⟩ := setBox_frame h1
  have hb : s.getBox = diagBox 4 4 4 := by simp [System.getBox, f1, f2, System.init]
  obtain ⟨s', out, h2⟩ := repeatAtoms_isOk (s := s) (rx := 1) (ry := 0) (rz := 0)
    (l := [{ pos := 0, loc := 0, type := 1 }]) (g := false) (sc := true)
    (by rw [hb]; exact fun h => absurd h (not_skewed_diag _ _ _))
  obtain ⟨ho, _⟩ := repeatAtoms_ok h2
  have hc : repCells 1 0 0 = [(-1, 0, 0), (1, 0, 0)] := by decide
  set A : Atom := { pos := 0, loc := 0, type := 1 }
  have ho' : out = [A, (repAtom s.getBox false (-1, 0, 0) A).withId 2,
      (repAtom s.getBox false (1, 0, 0) A).withId 3] := by
    rw [ho, repNew, hc]
    simp [List.mapIdx_cons]
  let R : Atom := (repAtom s.getBox false (1, 0, 0) A).withId 3
  let R' : Atom := { R with type := 7 }
  let t : System := s'.setAtoms out
  let t' : System := { t with atoms := t.atoms.set 0 R' }
  refine ⟨s, s', t', out, R, h1, h2, ?_, rfl, ?_, ?_, ?_⟩
  · simp [System.getAtom, System.setAtoms, ho', R]
  · have hl : R'.loc < (s'.setAtoms out).atoms.length := by
      simp [System.setAtoms, ho', R', R, Atom.withId, repAtom]
    change System.setAtom _ R' = _
    rw [System.setAtom, if_pos hl]
    rfl
  · exact ⟨R', by simp [System.getAtom, System.setAtoms, ho', t', t], rfl⟩
  · exact ⟨R, by simp [System.getAtom, System.setAtoms, ho', t', t, R], rfl⟩

end Pyscal
