import Verif.Props.Frame
import Verif.Props.Relabel

/-! Neighbour searches at different points of a history (C86). -/

namespace Pyscal

open Spec (identity ofFrac)

theorem geo_of_identity {l m : List Atom} (h : m.map identity = l.map identity) : m.map geo = l.map geo := by
  have e : ∀ k : List Atom, k.map geo = (k.map identity).map fun p : ℤ × ℤ × V3 × ℕ × Bool => (p.2.2.1, p.2.1) := by
    intro k; rw [List.map_map]; rfl
  rw [e, e, h]

theorem assigned_large {b : Mat3} {l : List Atom} {s0 s1 : System} (hb : System.init.setBox b = .ok s0)
    (ha : s0.assignAtoms l = .ok s1) (hl : 200 ≤ l.length) : s1 = s0.setAtoms l := by
  unfold System.assignAtoms at ha
  rw [if_neg (by omega)] at ha
  exact (Except.ok.inj ha).symm

/-- **C86**, what holds: with a box whose vectors are orthogonal, or fewer than 200 atoms, a search by any method but
the Voronoi one gives the same outcome directly after the assignment and after any history of analysis calls: the same
exception, or the same neighbour lists (indices, distances, weights and vectors, in the same order). -/
theorem C86_partial (b : Mat3) (l : List Atom) (s0 s1 s : System) (hb : System.init.setBox b = .ok s0)
    (ha : s0.assignAtoms l = .ok s1) (hreal : ∀ a ∈ l, a.ghost = false) (hok : ¬ Skewed b ∨ l.length < 200)
    (hrun : Spec.AnalysisRun s1 s) (σ : StdSort) (f : ℕ) (meth : Method) :
    (∃ e, s1.findNeighbors σ f meth = .error e ∧ s.findNeighbors σ f meth = .error e) ∨
    ∃ g1 g, s1.findNeighbors σ f meth = .ok g1 ∧ s.findNeighbors σ f meth = .ok g ∧
      g.atoms.map Atom.nbrs = g1.atoms.map Atom.nbrs := by
  obtain ⟨h1, h2⟩ := assigned_start hb ha hreal
  have h := h2.run h1 hrun
  have hfull : s1.triclinic = false ∨ l.length < 200 := by
    rcases hok with hs | hs
    · rcases Nat.lt_or_ge l.length 200 with hl | hl
      · exact .inr hl
      · refine .inl ?_
        cases ht : s1.triclinic with
        | false => rfl
        | true => exact absurd (h1.skew hl ht) hs
    · exact .inr hs
  have hid := h.full hfull
  obtain ⟨reals, hi, hr⟩ := h.inv
  obtain ⟨reals1, hi1, hr1⟩ := h2.inv
  have hin : Spec.SameInput s1 s := by
    refine ⟨geo_of_identity hid, h.box, h.rot, h.rotinv, h.tri, ?_, ?_⟩
    · rw [hi.nop, hi1.nop]; simpa using congrArg List.length hid
    · rw [hi.realNop, hi1.realNop]; simpa using congrArg List.length (hr.trans hr1.symm)
  rcases C16_partial σ s1 s f meth hin with ⟨e, h3, h4⟩ | ⟨g1, g, h3, h4, h5, -⟩
  · exact .inl ⟨e, h3, h4⟩
  · exact .inr ⟨g1, g, h3, h4, h5⟩

/-- The same history of four calls as beside `C85_history`, followed by a search. -/
example : ∃ s0 s1 s : System, System.init.setBox (Spec.diagBox 1000 1000 1000) = .ok s0 ∧ s0.assignAtoms chainAtoms = .ok s1 ∧
    (∀ a ∈ chainAtoms, a.ghost = false) ∧ ¬ Skewed (Spec.diagBox 1000 1000 1000) ∧ Spec.AnalysisRun s1 s := by
  obtain ⟨s0, s, s1, s2, h0, h1, h2, h3, -⟩ := chain_vorovector
  refine ⟨s0, s, _, h0, h1, ?_, not_skewed_diag _ _ _, .cons (.findVoronoi _ _ _ h2) (.cons (.vorovector _ _ h3)
    (.cons (.resetNeighbors _) (.cons (.disorder _ true 6) (.nil _))))⟩
  intro a ha
  simp only [chainAtoms, List.mem_map] at ha
  obtain ⟨i, -, rfl⟩ := ha
  rfl

/-! ### A Voronoi search in a skewed box -/

/-- What a Voronoi search leaves behind in a skewed box with 200 atoms or more: the 26 replicas, and the box without them. -/
theorem voronoi_leaves {b : Mat3} {l : List Atom} {s0 s1 s2 : System} (hb : System.init.setBox b = .ok s0)
    (ha : s0.assignAtoms l = .ok s1) (hreal : ∀ a ∈ l, a.ghost = false) (hsk : Skewed b) (hl : 200 ≤ l.length)
    {T : Tessellation} {f : ℕ} {e : ℤ} (hv : s1.findVoronoi T f e = .ok s2) :
    s2.atoms.map geo = (l ++ repNew b true 1 1 1 l).map geo ∧ s2.box = b ∧ TriOK s2 ∧ s2.realNop = l.length := by
  obtain ⟨h1, h2⟩ := assigned_start hb ha hreal
  have h := h2.voronoi h1 hv
  have hs1 := assigned_large hb ha hl
  have htri : s0.triclinic = true ∧ s0.rot = b.transpose ∧ s0.rotinv = b.transpose.inv ∧ b.det ≠ 0 ∧ s0.ghostsCreated = false := by
    unfold System.setBox at hb
    rw [if_pos hsk] at hb
    dsimp only at hb
    split_ifs at hb with hd
    obtain rfl := Except.ok.inj hb
    refine ⟨rfl, rfl, rfl, ?_, rfl⟩
    rwa [Mat3.det_transpose] at hd
  have hbox : s1.box = b := h1.large hl
  obtain ⟨t1, t2, t3, t4, t5⟩ := htri
  have u1 : s1.triclinic = true := by rw [hs1]; exact t1
  have u5 : s1.ghostsCreated = false := by rw [hs1]; exact t5
  obtain ⟨reals, hi, hid⟩ := h.inv
  refine ⟨?_, h.box.trans hbox, ⟨h.tri.trans u1, ?_, ?_, ?_⟩, ?_⟩
  · unfold System.findVoronoi at hv
    obtain ⟨t, ht, hg⟩ := bind_ok hv
    obtain ⟨u, hu, hg⟩ := bind_ok hg
    obtain ⟨w, hw, hg⟩ := bind_ok hg
    obtain rfl := Except.ok.inj hg
    have k0 : Kept s1 { s1.resetAllNeighbors with filter := f, alpha := e } :=
      (Kept.resetAll s1).trans ⟨rfl, rfl, rfl, rfl, rfl, rfl, rfl, rfl, rfl, rfl⟩
    have h0 := h2.kept k0
    have ku := Kept.neighborsVoronoi hu
    generalize hsx : ({ s1.resetAllNeighbors with filter := f, alpha := e } : System) = sx at *
    unfold System.voronoiPrepare at ht
    rw [if_pos ⟨h0.tri.trans u1, k0.ghosts.trans u5⟩] at ht
    obtain ⟨cur, hcur, ht⟩ := bind_ok ht
    obtain ⟨v, hrep, ht2⟩ := bind_ok ht
    obtain ⟨sy, al⟩ := v
    dsimp only at ht2
    obtain ⟨reals', hi', hid'⟩ := h0.inv
    rw [getAtoms_inv hi'] at hcur
    obtain rfl := Except.ok.inj hcur
    obtain ⟨a1, a2, _⟩ := repeatAtoms_ok hrep
    obtain ⟨c1, c2, c3, c4, c5, c6, _⟩ := setBox_frame ht2
    obtain ⟨d1, d2, d3, d4, d5, d6, _⟩ := setBox_frame hw
    change w.atoms.map geo = _
    rw [d3, geo_of_identity ku.atoms, c3]
    change al.map geo = _
    rw [a1, List.map_append, List.map_append, geo_of_identity hid', h0.getBox, repNew_identity hid']
  · rw [h.rot, h.box, hbox, hs1]; exact t2
  · rw [h.rotinv, h.box, hbox, hs1]; exact t3
  · rw [h.box, hbox]; exact t4
  · rw [hi.realNop]; simpa using congrArg List.length hid

/-- The cells of one layer of replicas. -/
theorem repCells_one_bound : ∀ c ∈ repCells 1 1 1, |c.1| ≤ 1 ∧ |c.2.1| ≤ 1 ∧ |c.2.2| ≤ 1 := by decide +kernel

/-- In the box without the replicas a replica is at distance zero from its atom. -/
theorem replica_image {s : System} (h : TriOK s) (c : ℤ × ℤ × ℤ) (hc : |c.1| ≤ 1 ∧ |c.2.1| ≤ 1 ∧ |c.2.2| ≤ 1) (a : Atom) (g : Bool) :
    s.image ((repAtom s.box g c a).pos - a.pos) = 0 := by
  have e : (repAtom s.box g c a).pos - a.pos = ofFrac s.box ⟨c.1, c.2.1, c.2.2⟩ := by
    ext <;> simp [repAtom, ofFrac] <;> ring
  have key : ∀ (L : ℝ) (z : ℤ), 0 < L → |z| ≤ 1 → wrap L ((z : ℝ) * L) / L = 0 := by
    intro L z hL hz
    have := wrap_frac_unique (f := (z : ℝ)) hL (by have : |(z : ℝ)| ≤ 1 := by exact_mod_cast hz
                                                   linarith) (-z) (by push_cast; simp)
    rw [this]; push_cast; ring
  obtain ⟨p1, p2, p3⟩ := h.pos
  rw [e, image_ofFrac h]
  simp only [key _ _ p1 hc.1, key _ _ p2 hc.2.1, key _ _ p3 hc.2.2]
  ext <;> simp [ofFrac]

/-- **C86 is false after a Voronoi search in a skewed box**: with 200 to 2300 atoms, whatever tessellation was used, the
next successful cutoff search without a filter gives every atom its 26 replicas as neighbours at distance zero. -/
theorem C86_false_voronoi (σ : StdSort) (b : Mat3) (l : List Atom) (s0 s1 s2 s3 : System) (hb : System.init.setBox b = .ok s0)
    (ha : s0.assignAtoms l = .ok s1) (hreal : ∀ a ∈ l, a.ghost = false) (hsk : Skewed b) (hl : 200 ≤ l.length) (hl2 : l.length ≤ 2300)
    (T : Tessellation) (f : ℕ) (e : ℤ) (hv : s1.findVoronoi T f e = .ok s2) (r : ℝ) (hr : 0 < r)
    (hs : s2.findNeighbors σ 0 (.cutoff r) = .ok s3) :
    ∀ k < l.length, ∃ a, s3.atoms[k]? = some a ∧ 26 ≤ a.nbrs.length ∧
      ∀ m, 1 ≤ m → m ≤ 26 → ∃ x ∈ a.nbrs, x.idx = l.length * m + k ∧ x.dist = 0 := by
  obtain ⟨h1, h2, h3, h4⟩ := voronoi_leaves hb ha hreal hsk hl hv
  obtain ⟨q1, -, q3⟩ := C09_cutoff_exact σ s2 s3 0 r hr.ne' (by omega) hs
  have hlen3 : s3.atoms.length = s2.atoms.length := by simpa using congrArg List.length q1.1
  have hlen2 : s2.atoms.length = 27 * l.length := by
    have := congrArg List.length h1
    simp only [List.length_map, List.length_append, repNew_length] at this
    rw [this, show (repCells 1 1 1).length = 26 from by decide +kernel]; ring
  have hget : ∀ k < l.length, ∀ m ≤ 26, ∃ c, ((0, 0, 0) :: repCells 1 1 1)[m]? = some c ∧
      (s2.atoms[l.length * m + k]?).map geo = (l[k]?).map fun a => geo (repAtom b true c a) := by
    intro k hk m hm
    have hc : m < ((0, 0, 0) :: repCells 1 1 1 : List (ℤ × ℤ × ℤ)).length := by
      rw [List.length_cons, show (repCells 1 1 1).length = 26 from by decide +kernel]; omega
    refine ⟨_, List.getElem?_eq_getElem hc, ?_⟩
    rw [← List.getElem?_map, h1, padded_geo, block_getElem? _ _ _ (by omega), Nat.mul_add_div (by omega), Nat.div_eq_of_lt hk,
      Nat.mul_add_mod, Nat.mod_eq_of_lt hk, add_zero, List.getElem?_eq_getElem hc]
    rfl
  intro k hk
  have hk2 : k < s2.atoms.length := by omega
  have hk3 : k < s3.atoms.length := by omega
  obtain ⟨⟨hnd, hall, hex⟩, -⟩ := q3 k _ _ (List.getElem?_eq_getElem hk2) (List.getElem?_eq_getElem hk3)
  have hpos : s2.atoms[k].pos = l[k].pos := by
    obtain ⟨c, hc, hg⟩ := hget k hk 0 (by omega)
    simp only [List.getElem?_cons_zero, Option.some.injEq] at hc
    subst hc
    rw [mul_zero, zero_add, List.getElem?_eq_getElem hk2, List.getElem?_eq_getElem hk] at hg
    have := congrArg Prod.fst (Option.some.inj hg)
    simp only [geo] at this
    rw [this]
    ext <;> simp [repAtom]
  have hrep : ∀ m, 1 ≤ m → m ≤ 26 → ∃ x ∈ s3.atoms[k].nbrs, x.idx = l.length * m + k ∧ x.dist = 0 := by
    intro m hm1 hm2
    obtain ⟨c, hc, hg⟩ := hget k hk m hm2
    have hj : l.length * m + k < s2.atoms.length := by
      rw [hlen2]
      have : l.length * m ≤ l.length * 26 := Nat.mul_le_mul_left _ hm2
      omega
    have hcm : c ∈ repCells 1 1 1 := by
      obtain ⟨m', rfl⟩ : ∃ m', m = m' + 1 := ⟨m - 1, by omega⟩
      rw [List.getElem?_cons_succ] at hc
      exact List.mem_of_getElem? hc
    rw [List.getElem?_eq_getElem hj, List.getElem?_eq_getElem hk] at hg
    have hp : s2.atoms[l.length * m + k].pos = (repAtom b true c l[k]).pos := congrArg Prod.fst (Option.some.inj hg)
    have hd0 : s2.getDistance s2.atoms[l.length * m + k] s2.atoms[k] = 0 := by
      rw [System.getDistance, hp, hpos, ← h2, replica_image h3 c (repCells_one_bound c hcm)]
      simp [V3.norm, V3.normSq]
    obtain ⟨x, hx, hxi⟩ := hall _ _ (List.getElem?_eq_getElem hj) ⟨by
      have : 0 < l.length * m := Nat.mul_pos (by omega) (by omega)
      omega, by rw [hd0]; exact hr, by simp [Spec.FilterAllows]⟩
    refine ⟨x, hx, hxi, ?_⟩
    obtain ⟨nb, e1, -, e3, -⟩ := hex x hx
    rw [hxi, List.getElem?_eq_getElem hj] at e1
    obtain rfl := Option.some.inj e1
    rw [e3, hd0]
  refine ⟨_, List.getElem?_eq_getElem hk3, ?_, hrep⟩
  have hsub : (List.range 26).map (fun m => l.length * (m + 1) + k) ⊆ s3.atoms[k].nbrs.map Nb.idx := by
    intro j hj
    obtain ⟨m, hm, rfl⟩ := List.mem_map.1 hj
    obtain ⟨x, hx, hxi, -⟩ := hrep (m + 1) (by omega) (by have := List.mem_range.1 hm; omega)
    exact List.mem_map.2 ⟨x, hx, hxi⟩
  have hnod : ((List.range 26).map (fun m => l.length * (m + 1) + k)).Nodup := by
    refine List.Nodup.map ?_ List.nodup_range
    intro m n hmn
    simp only [Nat.add_right_cancel_iff] at hmn
    have := Nat.eq_of_mul_eq_mul_left (by omega) hmn
    omega
  have := (hnod.subperm hsub).length_le
  simpa using this

/-- A sheared box of three vectors of length 1000. -/
noncomputable def shearBox : Mat3 := ⟨⟨1000, 0, 0⟩, ⟨0, 1000, 0⟩, ⟨0, 600, 800⟩⟩

theorem shearBox_norms : V3.norm shearBox.r0 = 1000 ∧ V3.norm shearBox.r1 = 1000 ∧ V3.norm shearBox.r2 = 1000 := by
  refine ⟨?_, ?_, ?_⟩
  all_goals
    simp only [V3.norm, V3.normSq, shearBox]
    rw [show ∀ x : ℝ, x = 1000 * 1000 → Real.sqrt x = 1000 from fun x hx => by rw [hx]; exact Real.sqrt_mul_self (by norm_num)]
    norm_num

theorem shearBox_skewed : Skewed shearBox := by
  obtain ⟨h0, h1, h2⟩ := shearBox_norms
  refine ⟨3 / 5, ?_, by norm_num⟩
  rw [cosSum_eq (by rw [h0]; norm_num) (by rw [h1]; norm_num) (by rw [h2]; norm_num), h0, h1, h2]
  norm_num [V3.dot, shearBox]

theorem abs_x_le_norm (v : V3) : |v.x| ≤ V3.norm v := by
  rw [V3.norm, V3.normSq]
  exact Real.abs_le_sqrt (by nlinarith [sq_nonneg v.y, sq_nonneg v.z])

/-- A Voronoi search whose tessellation computes no cell. -/
theorem voronoi_none_ok {p : System} (h : ∀ a ∈ p.atoms, a.nbrs = []) : ∃ q, p.neighborsVoronoi (fun _ _ _ => none) = .ok q := by
  have hc : System.voronoiCells (fun _ _ _ => none) { p with voronoiused := true } = .ok p.atoms := by
    unfold System.voronoiCells
    dsimp only
    rw [mapM_ok_map _ Prod.fst _ (fun a _ => rfl)]
    simp
  unfold System.neighborsVoronoi
  simp only [bind, Except.bind, hc]
  have hcap : System.checkCapacity { p with voronoiused := true, atoms := p.atoms } = .ok { p with voronoiused := true, atoms := p.atoms } := by
    unfold System.checkCapacity
    rw [if_neg]
    push Not
    intro a ha
    rw [h a ha]; simp
  rw [hcap]
  dsimp only
  rw [if_pos]
  · exact ⟨_, rfl⟩
  · intro a ha x hx
    rw [h a ha] at hx
    cases hx

/-- The chain in the sheared box meets the hypotheses of `C86_false_voronoi`, for a tessellation that computes no cell
and the cutoff 1/2, at which no two atoms of the chain are neighbours. -/
theorem shear_chain (σ : StdSort) : ∃ s0 s1 s2 s3 : System, System.init.setBox shearBox = .ok s0 ∧ s0.assignAtoms chainAtoms = .ok s1 ∧
    (∀ a ∈ chainAtoms, a.ghost = false) ∧ Skewed shearBox ∧ s1.findVoronoi (fun _ _ _ => none) 0 1 = .ok s2 ∧
    s2.findNeighbors σ 0 (.cutoff (1 / 2)) = .ok s3 := by
  have hdet : shearBox.det ≠ 0 := by norm_num [Mat3.det, shearBox]
  have hreal : ∀ a ∈ chainAtoms, a.ghost = false := by
    intro a ha
    obtain ⟨i, -, rfl⟩ := List.mem_map.1 ha
    rfl
  obtain ⟨s0, h0⟩ := setBox_ok (s := System.init) (b := shearBox) fun _ => hdet
  have h1 : s0.assignAtoms chainAtoms = .ok (s0.setAtoms chainAtoms) := if_neg (by rw [chainAtoms_length]; omega)
  obtain ⟨a1, a2⟩ := assigned_start h0 h1 hreal
  have hv : ∃ s2, (s0.setAtoms chainAtoms).findVoronoi (fun _ _ _ => none) 0 1 = .ok s2 := by
    set s1 := s0.setAtoms chainAtoms with hs1
    have k0 : Kept s1 { s1.resetAllNeighbors with filter := 0, alpha := 1 } :=
      (Kept.resetAll s1).trans ⟨rfl, rfl, rfl, rfl, rfl, rfl, rfl, rfl, rfl, rfl⟩
    have g0 := a2.kept k0
    have hnb : ∀ a ∈ s1.resetAllNeighbors.atoms, a.nbrs = [] := by
      intro a ha
      simp only [System.resetAllNeighbors, List.mem_map] at ha
      obtain ⟨c, -, rfl⟩ := ha
      rfl
    have hp : ∃ t, System.voronoiPrepare { s1.resetAllNeighbors with filter := 0, alpha := 1 } = .ok t ∧ ∀ a ∈ t.atoms, a.nbrs = [] := by
      generalize hsx : ({ s1.resetAllNeighbors with filter := 0, alpha := 1 } : System) = sx at *
      have hnb : ∀ a ∈ sx.atoms, a.nbrs = [] := by rw [← hsx]; exact hnb
      unfold System.voronoiPrepare
      split_ifs with hc
      · obtain ⟨reals, hi, hid⟩ := g0.inv
        obtain ⟨sy, out, hrep⟩ := repeatAtoms_isOk (s := sx) (rx := 1) (ry := 1) (rz := 1) (l := reals) (g := true) (sc := true)
          (by rw [g0.getBox]; exact fun _ => hdet)
        simp only [bind, Except.bind, getAtoms_inv hi, hrep]
        obtain ⟨w, hw⟩ := setBox_ok (s := sy.setAtoms out) (b := System.embedBox (sy.setAtoms out).box)
          (fun h => absurd h (not_skewed_diag _ _ _))
        refine ⟨w, hw, ?_⟩
        obtain ⟨-, -, c3, -⟩ := setBox_frame hw
        rw [c3]
        change ∀ a ∈ out, _
        obtain ⟨b1, -⟩ := repeatAtoms_ok hrep
        rw [b1]
        intro a ha
        rcases List.mem_append.1 ha with ha | ha
        · obtain ⟨gs, e, -⟩ := hi.ex
          exact hnb a (by rw [e]; exact List.mem_append_left _ ha)
        · obtain ⟨c, -, a', -, i, rfl⟩ := mem_repNew ha
          rfl
      · exact ⟨sx, rfl, hnb⟩
    obtain ⟨t, ht, htn⟩ := hp
    obtain ⟨q, hq⟩ := voronoi_none_ok htn
    obtain ⟨w, hw⟩ := setBox_ok (s := q) (b := ({ s1.resetAllNeighbors with filter := 0, alpha := 1 } : System).box)
      (fun _ => by rw [g0.box, a1.large (by rw [chainAtoms_length])]; exact hdet)
    unfold System.findVoronoi
    simp only [bind, Except.bind, ht, hq, hw]
    exact ⟨_, rfl⟩
  obtain ⟨s2, hv⟩ := hv
  have hl : 200 ≤ chainAtoms.length := by rw [chainAtoms_length]
  obtain ⟨v1, v2, v3, v4⟩ := voronoi_leaves h0 h1 hreal shearBox_skewed hl hv
  have hlen2 : s2.atoms.length = 5400 := by
    have := congrArg List.length v1
    simp only [List.length_map, List.length_append, repNew_length, chainAtoms_length] at this
    rw [this, show (repCells 1 1 1).length = 26 from by decide +kernel]
  have hget : ∀ k < 5400, ∃ c : ℤ × ℤ × ℤ, ∀ a, s2.atoms[k]? = some a →
      a.pos = ofFrac shearBox ⟨c.1 + (k % 200 : ℕ) / 1000, c.2.1, c.2.2⟩ := by
    intro k hk
    have hc : k / 200 < ((0, 0, 0) :: repCells 1 1 1 : List (ℤ × ℤ × ℤ)).length := by
      rw [List.length_cons, show (repCells 1 1 1).length = 26 from by decide +kernel]; omega
    refine ⟨((0, 0, 0) :: repCells 1 1 1)[k / 200], fun a ha => ?_⟩
    have := congrArg (fun L => L[k]?) v1
    rw [List.getElem?_map, ha, padded_geo, block_getElem? _ _ _ (by rw [chainAtoms_length]; omega), chainAtoms_length,
      List.getElem?_eq_getElem hc, chainAtoms_get _ (Nat.mod_lt _ (by norm_num))] at this
    have := congrArg Prod.fst (Option.some.inj this)
    simp only [geo] at this
    rw [this]
    ext <;> simp [repAtom, ofFrac, shearBox] <;> ring
  obtain ⟨s3, h3⟩ := (C09_overrun σ s2 0 (1 / 2) (by norm_num) (by rw [v4, chainAtoms_length]; norm_num)
    (by rw [v4, chainAtoms_length, hlen2]; norm_num)).2 (by
      intro k hk
      rw [hlen2] at hk
      obtain ⟨c, hc⟩ := hget k hk
      have hsub : Spec.nearSet s2 (1 / 2) 0 k ⊆ ((Finset.range 27).image fun m => 200 * m + k % 200 : Finset ℕ) := by
        rintro j ⟨host, nb, e1, e2, -, hd, -⟩
        have hj : j < 5400 := by rw [← hlen2]; exact (mem_of_getElem? e2).1
        obtain ⟨d, hd'⟩ := hget j hj
        have hdiff : nb.pos - host.pos = ofFrac s2.box ⟨(d.1 - c.1 : ℤ) + (((j % 200 : ℕ) : ℝ) - (k % 200 : ℕ)) / 1000, (d.2.1 - c.2.1 : ℤ),
            (d.2.2 - c.2.2 : ℤ)⟩ := by
          rw [hd' _ e2, hc _ e1, v2]
          ext <;> simp [ofFrac] <;> ring
        have hbx : s2.boxx = 1000 := by rw [System.boxx, v2]; exact shearBox_norms.1
        rw [System.getDistance, hdiff, image_ofFrac v3, hbx] at hd
        generalize wrap s2.boxy _ / s2.boxy = y at hd
        generalize wrap s2.boxz _ / s2.boxz = z at hd
        obtain ⟨n, hn⟩ := wrap_frac_int (L := 1000) (by norm_num) ((d.1 - c.1 : ℤ) + (((j % 200 : ℕ) : ℝ) - (k % 200 : ℕ)) / 1000)
        rw [hn, v2] at hd
        have hx := (abs_x_le_norm _).trans_lt hd
        have hxv : (ofFrac shearBox ⟨((d.1 - c.1 : ℤ) : ℝ) + (((j % 200 : ℕ) : ℝ) - (k % 200 : ℕ)) / 1000 + n, y, z⟩).x =
            ((1000 * (d.1 - c.1 + n) + ((j % 200 : ℕ) : ℤ) - ((k % 200 : ℕ) : ℤ) : ℤ) : ℝ) := by
          simp only [ofFrac, shearBox, V3.add_x, V3.smul_x, Int.cast_add, Int.cast_sub, Int.cast_mul, Int.cast_natCast, Int.cast_ofNat]
          ring
        rw [hxv, ← Int.cast_abs] at hx
        have hz : |(1000 * (d.1 - c.1 + n) + ((j % 200 : ℕ) : ℤ) - ((k % 200 : ℕ) : ℤ) : ℤ)| < 1 := by
          have : ((|(1000 * (d.1 - c.1 + n) + ((j % 200 : ℕ) : ℤ) - ((k % 200 : ℕ) : ℤ) : ℤ)| : ℤ) : ℝ) < 1 := by linarith
          exact_mod_cast this
        have hz0 := Int.abs_lt_one_iff.1 hz
        have : j % 200 = k % 200 := by omega
        rw [Finset.coe_image, Set.mem_image]
        exact ⟨j / 200, by simp; omega, by rw [← this]; exact Nat.div_add_mod j 200⟩
      have h27 : ((Finset.range 27).image fun m => 200 * m + k % 200 : Finset ℕ).card ≤ 27 := Finset.card_image_le.trans (by simp)
      calc (Spec.nearSet s2 (1 / 2) 0 k).ncard ≤ (((Finset.range 27).image fun m => 200 * m + k % 200 : Finset ℕ) : Set ℕ).ncard :=
            Set.ncard_le_ncard hsub (Finset.finite_toSet _)
        _ ≤ 300 := by rw [Set.ncard_coe_finset]; omega)
  exact ⟨s0, _, s2, s3, h0, h1, hreal, shearBox_skewed, hv, h3⟩

end Pyscal
