import Verif.Props.Symmetry

/-! Renumbering the atoms (C77). -/

namespace Pyscal

open Spec (relabelIndex)

theorem RelE.mono {α : Type} {R R' : α → α → Prop} {x y : Except Fault α} (h : RelE R x y) (hR : ∀ a b, R a b → R' a b) :
    RelE R' x y := by
  rcases x with e | a <;> rcases y with e' | b
  · exact h
  · exact h.elim
  · exact h.elim
  · exact hR a b h

/-- The renumbering of the padded system as a permutation of the natural numbers. -/
def padPerm (n : ℕ) (hn : 0 < n) (π : Equiv.Perm ℕ) (hπ : ∀ i, π i < n ↔ i < n) : Equiv.Perm ℕ where
  toFun := relabelIndex n π
  invFun := relabelIndex n π.symm
  left_inv k := by
    have h1 : π (k % n) < n := (hπ _).2 (Nat.mod_lt _ hn)
    unfold relabelIndex
    rw [Nat.mul_add_mod, Nat.mod_eq_of_lt h1, Nat.mul_add_div hn, Nat.div_eq_of_lt h1, add_zero, Equiv.symm_apply_apply]
    exact Nat.div_add_mod k n
  right_inv k := by
    have h1 : π.symm (k % n) < n := (hπ _).1 (by rw [Equiv.apply_symm_apply]; exact Nat.mod_lt _ hn)
    unfold relabelIndex
    rw [Nat.mul_add_mod, Nat.mod_eq_of_lt h1, Nat.mul_add_div hn, Nat.div_eq_of_lt h1, add_zero, Equiv.apply_symm_apply]
    exact Nat.div_add_mod k n

theorem padPerm_lt {n m : ℕ} (hn : 0 < n) (π : Equiv.Perm ℕ) (hπ : ∀ i, π i < n ↔ i < n) (k : ℕ) :
    padPerm n hn π hπ k < n * m ↔ k < n * m := by
  have h1 : π (k % n) < n := (hπ _).2 (Nat.mod_lt _ hn)
  have h2 : padPerm n hn π hπ k = n * (k / n) + π (k % n) := rfl
  have h3 : padPerm n hn π hπ k / n = k / n := by rw [h2, Nat.mul_add_div hn, Nat.div_eq_of_lt h1, add_zero]
  rw [mul_comm n m, ← Nat.div_lt_iff_lt_mul hn, ← Nat.div_lt_iff_lt_mul hn, h3]

theorem padPerm_small {n : ℕ} (hn : 0 < n) (π : Equiv.Perm ℕ) (hπ : ∀ i, π i < n ↔ i < n) {k : ℕ} (hk : k < n) :
    padPerm n hn π hπ k = π k := by
  have h2 : padPerm n hn π hπ k = n * (k / n) + π (k % n) := rfl
  rw [h2, Nat.div_eq_of_lt hk, Nat.mod_eq_of_lt hk, mul_zero, zero_add]

/-- Reading a list made of equally long blocks. -/
theorem block_getElem? {α β γ : Type} (cells : List γ) (l : List α) (h : γ → α → β) {k : ℕ} (hn : 0 < l.length) :
    (cells.flatMap fun c => l.map (h c))[k]? = (cells[k / l.length]?).bind fun c => (l[k % l.length]?).map (h c) := by
  induction cells generalizing k with
  | nil => simp
  | cons c cs ih =>
    rw [List.flatMap_cons]
    by_cases hk : k < l.length
    · rw [List.getElem?_append_left (by simpa using hk), Nat.div_eq_of_lt hk, Nat.mod_eq_of_lt hk, List.getElem?_map]
      simp
    · push Not at hk
      rw [List.getElem?_append_right (by simpa using hk), List.length_map, ih]
      obtain ⟨d, rfl⟩ := Nat.exists_eq_add_of_le hk
      rw [Nat.add_sub_cancel_left, Nat.add_mod_left, Nat.add_div_left _ hn]
      simp

/-- What the searches read of an atom. -/
def geo (a : Atom) : V3 × ℤ := (a.pos, a.type)

theorem padded_geo (b : Mat3) (gh : Bool) (rx ry rz : ℕ) (l : List Atom) :
    (l ++ repNew b gh rx ry rz l).map geo =
      ((0, 0, 0) :: repCells rx ry rz).flatMap fun c => l.map fun a => geo (repAtom b gh c a) := by
  rw [List.map_append, List.flatMap_cons]
  congr 1
  · refine List.map_congr_left fun a _ => ?_
    simp only [geo, repAtom, Prod.mk.injEq, and_true]
    ext <;> simp
  · unfold repNew
    apply List.ext_getElem?
    intro k
    rw [List.getElem?_map, List.getElem?_mapIdx, Option.map_map]
    have : (fun c => l.map fun a => geo (repAtom b gh c a)) = fun c => (l.map (repAtom b gh c)).map geo := by
      funext c; rw [List.map_map]; rfl
    rw [this, ← List.map_flatMap, List.getElem?_map]
    rfl

/-- Systems that differ by a renumbering of the atoms, as far as the searches can see: types and displacements
correspond.  `G` relates the positions and types of corresponding atoms. -/
structure Relab (G : V3 × ℤ → V3 × ℤ → Prop) (ρ : Equiv.Perm ℕ) (s g : System) : Prop where
  len : g.atoms.length = s.atoms.length
  lt : ∀ k, ρ k < s.atoms.length ↔ k < s.atoms.length
  geo : ∀ k < s.atoms.length, G (Pyscal.geo (s.mem k)) (Pyscal.geo (g.mem (ρ k)))
  type : ∀ k < s.atoms.length, g.typeOf (ρ k) = s.typeOf k
  diff : ∀ i < s.atoms.length, ∀ j < s.atoms.length, g.diffOf (ρ i) (ρ j) = s.diffOf i j
  realNop : g.realNop = s.realNop

/-- Same positions and types in the same box. -/
theorem Relab.of_geo {ρ : Equiv.Perm ℕ} {s g : System} (len : g.atoms.length = s.atoms.length)
    (lt : ∀ k, ρ k < s.atoms.length ↔ k < s.atoms.length)
    (hgeo : ∀ k < s.atoms.length, Pyscal.geo (g.mem (ρ k)) = Pyscal.geo (s.mem k))
    (box : g.box = s.box) (rot : g.rot = s.rot) (rotinv : g.rotinv = s.rotinv) (tri : g.triclinic = s.triclinic)
    (realNop : g.realNop = s.realNop) : Relab Eq ρ s g := by
  refine ⟨len, lt, fun k hk => (hgeo k hk).symm, fun k hk => congrArg Prod.snd (hgeo k hk), fun i hi j hj => ?_, realNop⟩
  have e1 := congrArg Prod.fst (hgeo i hi)
  have e2 := congrArg Prod.fst (hgeo j hj)
  simp only [Pyscal.geo] at e1 e2
  simp only [System.diffOf, System.diffIdx, System.posOf, e1, e2]
  exact image_frame box rot rotinv tri _

theorem geo_of_map {s g : System} {ρ : Equiv.Perm ℕ} (hlen : g.atoms.length = s.atoms.length)
    (hlt : ∀ k, ρ k < s.atoms.length ↔ k < s.atoms.length)
    (h : ∀ k < s.atoms.length, (g.atoms.map geo)[ρ k]? = (s.atoms.map geo)[k]?) :
    ∀ k < s.atoms.length, geo (g.mem (ρ k)) = geo (s.mem k) := by
  intro k hk
  have hk' : ρ k < g.atoms.length := hlen ▸ (hlt k).2 hk
  have := h k hk
  rw [List.getElem?_map, List.getElem?_map, List.getElem?_eq_getElem hk, List.getElem?_eq_getElem hk'] at this
  rw [mem_eq_getElem _ _ hk, mem_eq_getElem _ _ hk']
  exact Option.some.inj this

theorem buildSystem_relabel (b : Mat3) {l l' : List Atom} {π : Equiv.Perm ℕ} (h : Spec.Reordered π l l') (hn : 0 < l.length)
    (hreal : ∀ a ∈ l, a.ghost = false) :
    RelE (Relab Eq (padPerm l.length hn π h.2.1)) (buildSystem b l) (buildSystem b l') := by
  obtain ⟨hlen, hπ, hl⟩ := h
  have hreal' : ∀ a ∈ l', a.ghost = false := by
    intro a ha
    obtain ⟨k, hk, rfl⟩ := List.getElem_of_mem ha
    obtain ⟨i, rfl⟩ := π.surjective k
    have hi : i < l.length := (hπ i).1 (hlen ▸ hk)
    have := hl i hi
    rw [List.getElem?_eq_getElem hi, List.getElem?_eq_getElem hk] at this
    rw [Option.some.inj this]
    exact hreal _ (List.getElem_mem hi)
  have hr : ∀ m : List Atom, (∀ a ∈ m, a.ghost = false) → countReal m = m.length := by
    intro m hm
    unfold countReal
    rw [List.filter_eq_self.2]
    intro a ha; rw [hm a ha]; rfl
  have hg : ∀ (b : Mat3) (n : ℕ) (m : List Atom), countReal (repNew b true n n n m) = 0 := by
    intro b n m
    unfold countReal
    rw [List.filter_eq_nil_iff.2 (fun a ha => by rw [repNew_ghost a ha]; simp)]; rfl
  unfold buildSystem
  rcases h0 : System.init.setBox b with e | s0
  · exact rfl
  simp only [bind, Except.bind]
  unfold System.assignAtoms
  simp only [hlen]
  by_cases hs : l.length < 200
  · rw [if_pos hs, if_pos hs, if_neg hn.ne', if_neg hn.ne']
    by_cases hb : boxSum s0.getBox = 0
    · rw [if_pos hb, if_pos hb]; exact rfl
    · rw [if_neg hb, if_neg hb]
      set n := padReps l.length
      unfold System.repeatAtoms
      simp only [if_true]
      rcases h1 : ({ s0 with actualBox := some s0.getBox } : System).setBox (scaleBox s0.getBox n n n) with e | s1
      · exact rfl
      · change Relab Eq _ (System.setAtoms _ _) (System.setAtoms _ _)
        have hL : (l ++ repNew s0.getBox true n n n l).length = l.length * ((repCells n n n).length + 1) := by
          rw [List.length_append, repNew_length]; ring
        have hL' : (l' ++ repNew s0.getBox true n n n l').length = l.length * ((repCells n n n).length + 1) := by
          rw [List.length_append, repNew_length, hlen]; ring
        have hlt : ∀ k, padPerm l.length hn π hπ k < (l ++ repNew s0.getBox true n n n l).length ↔ k < (l ++ repNew s0.getBox true n n n l).length := by
          intro k; rw [hL]; exact padPerm_lt hn π hπ k
        refine Relab.of_geo (hL'.trans hL.symm) hlt ?_ rfl rfl rfl rfl ?_
        · refine geo_of_map (hL'.trans hL.symm) hlt ?_
          intro k hk
          change ((l' ++ repNew s0.getBox true n n n l').map geo)[_]? = ((l ++ repNew s0.getBox true n n n l).map geo)[_]?
          have h1 : π (k % l.length) < l.length := (hπ _).2 (Nat.mod_lt _ hn)
          have h2 : padPerm l.length hn π hπ k = l.length * (k / l.length) + π (k % l.length) := rfl
          rw [padded_geo, padded_geo, block_getElem? _ _ _ (hlen.symm ▸ hn), block_getElem? _ _ _ hn, h2, hlen, Nat.mul_add_mod, Nat.mod_eq_of_lt h1, Nat.mul_add_div hn, Nat.div_eq_of_lt h1, add_zero, hl _ (Nat.mod_lt _ hn)]
        · change countReal (l' ++ repNew s0.getBox true n n n l') = countReal (l ++ repNew s0.getBox true n n n l)
          rw [countReal_append, countReal_append, hg, hg, hr _ hreal, hr _ hreal', hlen]
  · rw [if_neg hs, if_neg hs]
    have hlt : ∀ k, padPerm l.length hn π hπ k < l.length ↔ k < l.length := by
      intro k
      have := padPerm_lt (m := 1) hn π hπ k
      rwa [mul_one] at this
    refine Relab.of_geo hlen hlt ?_ rfl rfl rfl rfl ?_
    · refine geo_of_map hlen hlt ?_
      intro k hk
      change (l'.map geo)[_]? = (l.map geo)[_]?
      rw [padPerm_small hn π hπ hk, List.getElem?_map, List.getElem?_map, hl k hk]
    · change countReal l' = countReal l
      rw [hr _ hreal, hr _ hreal', hlen]

section

variable {G : V3 × ℤ → V3 × ℤ → Prop} {ρ : Equiv.Perm ℕ} {s g : System}

theorem Relab.diffOf (h : Relab G ρ s g) {i j : ℕ} (hi : i < s.atoms.length) (hj : j < s.atoms.length) :
    g.diffOf (ρ i) (ρ j) = s.diffOf i j := h.diff i hi j hj

theorem Relab.typeOf (h : Relab G ρ s g) {i : ℕ} (hi : i < s.atoms.length) : g.typeOf (ρ i) = s.typeOf i := h.type i hi

theorem Relab.cutoffNbs (h : Relab G ρ s g) (r : ℝ) (f : ℕ) {k : ℕ} (hk : k < s.atoms.length) :
    (cutoffNbs g r f (ρ k)).Perm ((cutoffNbs s r f k).map fun x => { x with idx := ρ x.idx }) := by
  classical
  unfold Pyscal.cutoffNbs
  have hdist : ∀ j < s.atoms.length, g.distOf (ρ k) (ρ j) = s.distOf k j := fun j hj => by
    change V3.norm (g.diffOf _ _) = V3.norm (s.diffOf _ _)
    rw [h.diffOf hk hj]
  have hrange : (List.range g.atoms.length).Perm ((List.range s.atoms.length).map ρ) := by
    rw [List.perm_ext_iff_of_nodup List.nodup_range (List.nodup_range.map ρ.injective)]
    intro j
    rw [List.mem_range, List.mem_map, h.len]
    constructor
    · intro hj
      obtain ⟨i, rfl⟩ := ρ.surjective j
      exact ⟨i, List.mem_range.2 ((h.lt i).1 hj), rfl⟩
    · rintro ⟨i, hi, rfl⟩
      exact (h.lt i).2 (List.mem_range.1 hi)
  refine ((hrange.filter _).map _).trans ?_
  rw [List.filter_map, List.map_map, List.map_map]
  have hf : ((List.range s.atoms.length).filter ((fun j => decide (j ≠ ρ k ∧ (g.distOf (ρ k) j < r ∧
      filterOK f (g.typeOf (ρ k)) (g.typeOf j) = true))) ∘ ρ))
      = (List.range s.atoms.length).filter fun j => decide (j ≠ k ∧ (s.distOf k j < r ∧ filterOK f (s.typeOf k) (s.typeOf j) = true)) := by
    refine List.filter_congr fun j hj => ?_
    have hj := List.mem_range.1 hj
    simp only [Function.comp, hdist j hj, h.typeOf hk, h.typeOf hj, ne_eq, EmbeddingLike.apply_eq_iff_eq]
  rw [hf]
  refine List.Perm.of_eq (List.map_congr_left fun j hj => ?_)
  have hj := List.mem_range.1 (List.mem_filter.1 hj).1
  simp only [Function.comp, System.mkNb, hdist j hj, h.diffOf hk hj]

open Classical in
/-- `find_neighbors` with a numeric cutoff, including the failure. -/
theorem findNeighbors_cutoff_eq (σ : StdSort) (s : System) (f : ℕ) (r : ℝ) (hr : r ≠ 0) (hn : s.realNop ≤ 2300)
    (hle : s.realNop ≤ s.atoms.length) :
    s.findNeighbors σ f (.cutoff r) = if ∃ k < s.atoms.length, (Pyscal.cutoffNbs s r f k).length > 300 then .error .oob else
      .ok { s with atoms := (List.range s.atoms.length).map (cutoffAtom s r f), filter := f,
                   neighbordistance := r, voronoiused := false, neighborsFound := true } := by
  have key : (∃ k < s.atoms.length, (Pyscal.cutoffNbs s r f k).length > 300) → s.findNeighbors σ f (.cutoff r) = .error .oob := by
    rintro ⟨k, hk, hlen⟩
    rw [findNeighbors_cutoff σ s f r hr hn hle]
    unfold System.checkCapacity
    have hk' : k < (System.neighborsNormal { s.startSearch f with neighbordistance := r }).atoms.length := by
      rw [neighborsNormal_length]; exact (resetAll_length s).symm ▸ hk
    rw [if_pos]
    · rfl
    · refine ⟨_, List.getElem_mem hk', ?_⟩
      rw [← mem_eq_getElem _ _ hk', neighborsNormal_start s r f k hk]; exact hlen
  by_cases h : ∃ k < s.atoms.length, (Pyscal.cutoffNbs s r f k).length > 300
  · rw [if_pos h]; exact key h
  · rw [if_neg h]
    rw [findNeighbors_cutoff σ s f r hr hn hle]
    rcases hc : (System.neighborsNormal { s.startSearch f with neighbordistance := r }).checkCapacity with e | s2
    · exfalso
      unfold System.checkCapacity at hc
      split_ifs at hc with h2
      obtain ⟨a, ha, h3⟩ := h2
      obtain ⟨k, hk, rfl⟩ := List.getElem_of_mem ha
      have hk' : k < s.atoms.length := by
        rw [neighborsNormal_length] at hk; exact (resetAll_length s) ▸ hk
      rw [← mem_eq_getElem _ _ hk, neighborsNormal_start s r f k hk'] at h3
      exact h ⟨k, hk', h3⟩
    · have h1 : s.findNeighbors σ f (.cutoff r) = .ok { s2 with neighborsFound := true } := by
        rw [findNeighbors_cutoff σ s f r hr hn hle, hc]; rfl
      have h2 := (findNeighbors_cutoff_ok hr hn h1).2.1
      rw [← h2]; rfl

/-- The searches of two renumbered systems. -/
structure RelabNb (G : V3 × ℤ → V3 × ℤ → Prop) (ρ : Equiv.Perm ℕ) (s g : System) : Prop where
  len : g.atoms.length = s.atoms.length
  lt : ∀ k, ρ k < s.atoms.length ↔ k < s.atoms.length
  geo : ∀ k < s.atoms.length, G (Pyscal.geo (s.mem k)) (Pyscal.geo (g.mem (ρ k)))
  type : ∀ k < s.atoms.length, g.typeOf (ρ k) = s.typeOf k
  nbrs : ∀ k < s.atoms.length, (g.mem (ρ k)).nbrs.Perm ((s.mem k).nbrs.map fun x => { x with idx := ρ x.idx })
  cond : ∀ k < s.atoms.length, (g.mem (ρ k)).condition = (s.mem k).condition
  vor : g.voronoiused = s.voronoiused
  realNop : g.realNop = s.realNop

theorem Relab.findNeighbors (h : Relab G ρ s g) (σ : StdSort) (f : ℕ) {r : ℝ} (hr : r ≠ 0) (hn : s.realNop ≤ 2300) :
    RelE (RelabNb G ρ) (s.findNeighbors σ f (.cutoff r)) (g.findNeighbors σ f (.cutoff r)) := by
  by_cases hle : s.realNop ≤ s.atoms.length
  · have hle' : g.realNop ≤ g.atoms.length := by rw [h.realNop, h.len]; exact hle
    rw [findNeighbors_cutoff_eq σ s f r hr hn hle, findNeighbors_cutoff_eq σ g f r hr (h.realNop ▸ hn) hle']
    have hiff : (∃ k < g.atoms.length, (Pyscal.cutoffNbs g r f k).length > 300) ↔ ∃ k < s.atoms.length, (Pyscal.cutoffNbs s r f k).length > 300 := by
      constructor
      · rintro ⟨k, hk, h3⟩
        obtain ⟨i, rfl⟩ := ρ.surjective k
        have hi : i < s.atoms.length := (h.lt i).1 (h.len ▸ hk)
        rw [(h.cutoffNbs r f hi).length_eq, List.length_map] at h3
        exact ⟨i, hi, h3⟩
      · rintro ⟨k, hk, h3⟩
        refine ⟨ρ k, h.len ▸ (h.lt k).2 hk, ?_⟩
        rw [(h.cutoffNbs r f hk).length_eq, List.length_map]; exact h3
    by_cases hc : ∃ k < s.atoms.length, (Pyscal.cutoffNbs s r f k).length > 300
    · rw [if_pos hc, if_pos (hiff.2 hc)]; exact rfl
    · rw [if_neg hc, if_neg (fun hx => hc (hiff.1 hx))]
      have hm : ∀ (x : System) (k : ℕ), k < x.atoms.length →
          System.mem { x with atoms := (List.range x.atoms.length).map (cutoffAtom x r f), filter := f, neighbordistance := r, voronoiused := false, neighborsFound := true } k = cutoffAtom x r f k := by
        intro x k hk
        simp [System.mem, hk]
      have hL : ∀ (x : System), (System.atoms { x with atoms := (List.range x.atoms.length).map (cutoffAtom x r f), filter := f, neighbordistance := r, voronoiused := false, neighborsFound := true }).length = x.atoms.length := fun x => by simp
      change RelabNb G ρ _ _
      refine ⟨?_, ?_, ?_, ?_, ?_, ?_, rfl, h.realNop⟩
      · rw [hL, hL, h.len]
      · intro k; rw [hL]; exact h.lt k
      · intro k hk
        rw [hL] at hk
        rw [hm _ _ hk, hm _ _ (h.len ▸ (h.lt k).2 hk)]
        exact h.geo k hk
      · intro k hk
        rw [hL] at hk
        unfold System.typeOf
        rw [hm _ _ hk, hm _ _ (h.len ▸ (h.lt k).2 hk)]
        exact h.type k hk
      · intro k hk
        rw [hL] at hk
        rw [hm _ _ hk, hm _ _ (h.len ▸ (h.lt k).2 hk)]
        exact h.cutoffNbs r f hk
      · intro k hk
        rw [hL] at hk
        rw [hm _ _ hk, hm _ _ (h.len ▸ (h.lt k).2 hk)]
        rfl
  · rw [findNeighbors_cutoff_oob σ s f r hr hle, findNeighbors_cutoff_oob σ g f r hr (by rw [h.realNop, h.len]; exact hle)]
    exact rfl

theorem perm_map_lift {α β : Type} (F : α → β) {l : List α} {m : List β} (h : m.Perm (l.map F)) : ∃ L : List α, L.Perm l ∧ m = L.map F := by
  generalize hb : l.map F = b at h
  induction h.symm generalizing l with
  | nil =>
    rw [List.map_eq_nil_iff] at hb; subst hb
    exact ⟨[], .refl _, rfl⟩
  | cons y hp ih =>
    rcases l with _ | ⟨x, l⟩
    · simp at hb
    · simp only [List.map_cons, List.cons.injEq] at hb
      obtain ⟨L, h1, h2⟩ := ih hb.2 hp.symm
      exact ⟨x :: L, h1.cons x, by rw [List.map_cons, h2, hb.1]⟩
  | swap y z t =>
    rcases l with _ | ⟨x, _ | ⟨x', l⟩⟩
    · simp at hb
    · simp at hb
    · simp only [List.map_cons, List.cons.injEq] at hb
      refine ⟨x' :: x :: l, .swap _ _ _, ?_⟩
      simp only [List.map_cons, hb.1, hb.2.1, hb.2.2]
  | trans h1 h2 ih1 ih2 =>
    obtain ⟨L, p, e⟩ := ih1 hb h1.symm
    obtain ⟨L', p', e'⟩ := ih2 e.symm h2.symm
    exact ⟨L', p'.trans p, e'⟩

theorem RelabNb.sameShape (h : RelabNb G ρ s g) : Spec.SameShape ρ Spec.unitMat s g := by
  refine ⟨h.vor, h.len, h.lt, ?_⟩
  intro k a b ha hb
  obtain ⟨hk, rfl⟩ := mem_of_getElem? ha
  obtain ⟨hk', rfl⟩ := mem_of_getElem? hb
  obtain ⟨L, hp, e⟩ := perm_map_lift _ (h.nbrs k hk)
  refine ⟨h.cond k hk, L, hp, ?_⟩
  rw [e, List.forall₂_map_right_iff]
  refine List.forall₂_same.2 fun x _ => ⟨rfl, rfl, 1, one_pos, ?_⟩
  have := moveVec_one x.vec
  unfold Spec.moveVec at this
  exact this.symm

/-- The rest of the analysis after the search. -/
theorem RelabNb.finish (h : RelabNb G ρ s g) (ls : List ℤ) (av : Bool) :
    RelE (fun A B => B.length = A.length ∧ A.length = s.realNop ∧ ∀ (i : ℕ) (a b : Atom), A[i]? = some a → B[ρ i]? = some b →
        G (Pyscal.geo a) (Pyscal.geo b) ∧ b.type = a.type ∧ b.nbrs.Perm (a.nbrs.map fun x => { x with idx := ρ x.idx }) ∧
        ∀ l : ℕ, (l : ℤ) ∈ ls → b.q l = a.q l ∧ (av = true → b.aq l = a.aq l))
      (s.calculateQ ls av >>= fun s => s.getAtoms) (g.calculateQ ls av >>= fun s => s.getAtoms) := by
  obtain ⟨herr, hval⟩ := sameShape_q rotation_unit.1 h.sameShape ls av
  rcases h1 : s.calculateQ ls av with e | s' <;> rcases h2 : g.calculateQ ls av with e' | g'
  · have := (herr e).1 h1
    rw [h2] at this; exact (Except.error.inj this).symm
  · have := (herr e).1 h1
    rw [h2] at this; cases this
  · have := (herr e').2 h2
    rw [h1] at this; cases this
  · have hv := hval s' g' h1 h2
    have key : ∀ (x y : System), x.calculateQ ls av = .ok y → y.atoms.length = x.atoms.length ∧ y.realNop = x.realNop ∧
        ∀ (k : ℕ) (a a' : Atom), x.atoms[k]? = some a → y.atoms[k]? = some a' → a'.pos = a.pos ∧ a'.type = a.type ∧ a'.nbrs = a.nbrs := by
      intro x y hxy
      obtain ⟨-, -, e⟩ := calculateQ_ok hxy
      refine ⟨?_, ?_, ?_⟩
      · rw [e]; cases av <;> simp [System.afterQ]
      · rw [e]; cases av <;> rfl
      · intro k a a' ha ha'
        have := calculateQ_atom hxy ha ha'
        rw [this]; cases av <;> exact ⟨rfl, rfl, rfl⟩
    obtain ⟨l1, r1, a1⟩ := key _ _ h1
    obtain ⟨l2, r2, a2⟩ := key _ _ h2
    change RelE _ s'.getAtoms g'.getAtoms
    unfold System.getAtoms
    rw [l1, l2, r1, r2, h.realNop, h.len]
    by_cases hle : s.realNop ≤ s.atoms.length
    · rw [if_pos hle, if_pos hle]
      refine ⟨by rw [List.length_take, List.length_take, l1, l2, h.len], by rw [List.length_take, l1]; omega, ?_⟩
      intro i a b ha hb
      rw [List.getElem?_take] at ha hb
      split_ifs at ha with hi
      split_ifs at hb with hi'
      have e1 : i < s'.atoms.length := by omega
      have e3 : i < s.atoms.length := by omega
      have e4 : ρ i < g.atoms.length := h.len ▸ (h.lt i).2 e3
      have ra := a1 i _ _ (List.getElem?_eq_getElem e3) ha
      have rb := a2 (ρ i) _ _ (List.getElem?_eq_getElem e4) hb
      rw [← mem_eq_getElem _ _ e3] at ra
      rw [← mem_eq_getElem _ _ e4] at rb
      have hgeo := h.geo i e3
      have ga : Pyscal.geo a = Pyscal.geo (s.mem i) := by simp only [Pyscal.geo, ra.1, ra.2.1]
      have gb : Pyscal.geo b = Pyscal.geo (g.mem (ρ i)) := by simp only [Pyscal.geo, rb.1, rb.2.1]
      refine ⟨by rw [ga, gb]; exact hgeo, by rw [ra.2.1, rb.2.1]; exact h.type i e3,
        by rw [ra.2.2, rb.2.2]; exact h.nbrs i e3, hv i _ _ ha hb⟩
    · rw [if_neg hle, if_neg hle]; exact rfl

end

/-- **C77**: the order in which the atoms are given does not matter.  If atom `i` of the input becomes
atom `π i`, then in a search with a numeric cutoff it has the same position, type and Steinhardt
parameters (plain and averaged) as before, and the same neighbours up to order, with their numbers
changed accordingly (periodic copies, numbered after the atoms, keep their cell). -/
theorem C77_relabelling (σ : StdSort) (b : Mat3) {l l' : List Atom} {π : Equiv.Perm ℕ} (h : Spec.Reordered π l l')
    (hreal : ∀ a ∈ l, a.ghost = false) (hl : l.length ≤ 2300) (f : ℕ) {r : ℝ} (hr : r ≠ 0) (ls : List ℤ) (av : Bool) :
    RelE (fun A B => B.length = A.length ∧ ∀ (i : ℕ) (x y : Atom), A[i]? = some x → B[π i]? = some y →
        y.pos = x.pos ∧ y.type = x.type ∧
        y.nbrs.Perm (x.nbrs.map fun nb => { nb with idx := relabelIndex l.length π nb.idx }) ∧
        ∀ l : ℕ, (l : ℤ) ∈ ls → y.q l = x.q l ∧ (av = true → y.aq l = x.aq l))
      (analyse σ b l f (.cutoff r) ls av) (analyse σ b l' f (.cutoff r) ls av) := by
  by_cases hn : 0 < l.length
  · have hb := buildSystem_relabel b h hn hreal
    unfold analyse
    rcases h1 : buildSystem b l with e | s <;> rcases h2 : buildSystem b l' with e' | g <;> rw [h1, h2] at hb
    · exact hb
    · exact hb.elim
    · exact hb.elim
    · have hR : Relab Eq (padPerm l.length hn π h.2.1) s g := hb
      have hreal' := (build_length hreal h1).2.1
      have hfn := hR.findNeighbors σ f hr (by omega)
      simp only [bind, Except.bind]
      rcases h3 : s.findNeighbors σ f (.cutoff r) with e | s2 <;> rcases h4 : g.findNeighbors σ f (.cutoff r) with e' | g2 <;>
        rw [h3, h4] at hfn
      · exact hfn
      · exact hfn.elim
      · exact hfn.elim
      · have hN : RelabNb Eq (padPerm l.length hn π h.2.1) s2 g2 := hfn
        have hr2 : s2.realNop = l.length := by
          rw [← hreal', (findNeighbors_cutoff_ok hr (by omega) h3).2.1]
        refine (hN.finish ls av).mono ?_
        rintro A B ⟨hB, hA, hfin⟩
        refine ⟨hB, fun i x y hx hy => ?_⟩
        have hi : i < l.length := by rw [← hr2, ← hA]; exact (List.getElem?_eq_some_iff.1 hx).1
        obtain ⟨q1, q2, q3, q4⟩ := hfin i x y hx (by rw [padPerm_small hn π h.2.1 hi]; exact hy)
        exact ⟨(congrArg Prod.fst q1).symm, q2, q3, q4⟩
  · have e1 : l = [] := List.length_eq_zero_iff.1 (by omega)
    have e2 : l' = [] := List.length_eq_zero_iff.1 (by rw [h.1]; omega)
    subst e1; subst e2
    unfold analyse
    rcases h1 : buildSystem b [] with e | s
    · exact rfl
    · exfalso
      have := (build_length hreal h1)
      unfold buildSystem at h1
      rcases h2 : System.init.setBox b with e | s0
      · rw [h2] at h1; cases h1
      · rw [h2] at h1
        simp only [bind, Except.bind, System.assignAtoms] at h1
        rw [if_pos (by simp), if_pos (by simp)] at h1; cases h1

/-- Exchanging two atoms. -/
example (a b : Atom) : Spec.Reordered (Equiv.swap 0 1) [a, b] [b, a] := by
  refine ⟨rfl, ?_, ?_⟩
  · intro i
    by_cases h0 : i = 0
    · subst h0; simp
    by_cases h1 : i = 1
    · subst h1; simp
    rw [Equiv.swap_apply_of_ne_of_ne h0 h1]
  · intro i hi
    have : i = 0 ∨ i = 1 := by simp at hi; omega
    rcases this with rfl | rfl <;> simp

end Pyscal
