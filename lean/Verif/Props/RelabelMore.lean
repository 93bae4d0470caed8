import Verif.Lemmas.RelabSearch
import Verif.Props.WrapSmall
import Verif.Lemmas.Frame

/-! C77 and C78 for the other searches and for large systems. -/

namespace Pyscal

open Spec (relabelIndex diagBox ofFrac latticeVec IsImage FracBound)

/-- The search compares all pairs of atoms, or uses cell lists in suitable conditions.  (The search
by number and SANN are excluded: they choose among atoms at equal distances.) -/
def Spec.ExactSearch (s : System) : Method → Prop
  | .cutoff r => if r = 0 then Spec.SearchExact s (decide (s.ntotal > 4000)) 2 else s.natoms ≤ 2300 ∨ Spec.CellConditions s r
  | .adaptive t _ _ => Spec.SearchExact s (decide (s.ntotal > 4000)) t
  | .sann _ => False
  | .number _ _ _ => False

/-- The settings of a system depend only on the box and on the number of atoms. -/
theorem build_settings {b : Mat3} {l l' : List Atom} (hlen : l'.length = l.length) {s g : System} (h : buildSystem b l = .ok s)
    (h' : buildSystem b l' = .ok g) : SameSettings s g ∧ g.box = s.box ∧ g.rot = s.rot ∧ g.rotinv = s.rotinv ∧ g.triclinic = s.triclinic ∧
      s.nop = s.atoms.length := by
  have key : ∀ x y : System, y.nop = x.nop → y.voronoiused = x.voronoiused → y.box = x.box → y.triclinic = x.triclinic → y.rot = x.rot →
      y.rotinv = x.rotinv → y.atoms.length = x.atoms.length → x.nop = x.atoms.length →
      SameSettings x y ∧ y.box = x.box ∧ y.rot = x.rot ∧ y.rotinv = x.rotinv ∧ y.triclinic = x.triclinic ∧ x.nop = x.atoms.length := by
    intro x y e1 e2 e3 e4 e5 e6 e7 e8
    refine ⟨⟨e1, e2, fun p => ?_⟩, e3, e5, e6, e4, e8⟩
    simp only [System.guessDist, System.boxVol, System.boxx, System.boxy, System.boxz, e3, e4, e5, e7]
  unfold buildSystem at h h'
  rcases h0 : System.init.setBox b with e | s0
  · rw [h0] at h; cases h
  rw [h0] at h h'
  simp only [bind, Except.bind] at h h'
  unfold System.assignAtoms at h h'
  rw [hlen] at h'
  by_cases h200 : l.length < 200
  · rw [if_pos h200] at h h'
    split_ifs at h
    rename_i h1 h2
    rw [if_neg h1, if_neg h2] at h'
    unfold System.repeatAtoms at h h'
    simp only [if_true] at h h'
    rcases h3 : ({ s0 with actualBox := some s0.getBox } : System).setBox (scaleBox s0.getBox (padReps l.length) (padReps l.length) (padReps l.length)) with e | s1
    · rw [h3] at h; cases h
    · rw [h3] at h h'
      cases h; cases h'
      have hL : (l' ++ repNew s0.getBox true (padReps l.length) (padReps l.length) (padReps l.length) l').length =
          (l ++ repNew s0.getBox true (padReps l.length) (padReps l.length) (padReps l.length) l).length := by
        rw [List.length_append, List.length_append, repNew_length, repNew_length, hlen]
      exact key _ _ hL rfl rfl rfl rfl rfl hL rfl
  · rw [if_neg h200] at h h'
    cases h; cases h'
    exact key _ _ hlen rfl rfl rfl rfl rfl hlen rfl

section
variable {G : V3 × ℤ → V3 × ℤ → Prop} {ρ : Equiv.Perm ℕ} {s g : System} {σ : StdSort}

/-- Every exact search of two renumbered systems. -/
theorem Relab.exact (h : Relab G ρ s g) (hS : SameSettings s g) (f : ℕ) {meth : Method} (hle : s.realNop ≤ s.atoms.length)
    (hx : Spec.ExactSearch s meth) (hx' : Spec.ExactSearch g meth) :
    RelE (RelabNb G ρ) (s.findNeighbors σ f meth) (g.findNeighbors σ f meth) := by
  cases meth with
  | cutoff r =>
    simp only [Spec.ExactSearch] at hx hx'
    by_cases hr : r = 0
    · subst hr
      rw [if_pos rfl] at hx hx'
      rw [(C13_errors σ s f 2 _ ((searchRadius_iff s 2 _).2 rfl) 0 0).2.2, (C13_errors σ g f 2 _ ((searchRadius_iff g 2 _).2 rfl) 0 0).2.2]
      exact h.adaptive hS f 2 6 1.2 hx hx'
    · rw [if_neg hr] at hx hx'
      exact h.cutoff f hr hx hx' hle
  | adaptive t n p => exact h.adaptive hS f t n p hx hx'
  | sann t => exact hx.elim
  | number t n a => exact hx.elim

theorem Relab.cellConditions (h : Relab Eq ρ s g) (hbox : g.box = s.box) (ht : g.triclinic = s.triclinic) {R : ℝ} (hc : Spec.CellConditions s R) :
    Spec.CellConditions g R := by
  obtain ⟨L1, L2, L3, h1, h2, h3, h4, h5, h6, h7⟩ := hc
  refine ⟨L1, L2, L3, hbox.trans h1, ht.trans h2, h3, h4, h5, h6, fun a ha => ?_⟩
  obtain ⟨k, hk, rfl⟩ := List.getElem_of_mem ha
  obtain ⟨i, rfl⟩ := ρ.surjective k
  have hi : i < s.atoms.length := (h.lt i).1 (h.len ▸ hk)
  have e := congrArg Prod.fst (h.geo i hi)
  rw [mem_eq_getElem _ _ hi, mem_eq_getElem _ _ hk] at e
  have e : s.atoms[i].pos = g.atoms[ρ i].pos := e
  rw [← e]
  exact h7 _ (List.getElem_mem hi)

theorem Relab.searchExact (h : Relab Eq ρ s g) (hS : SameSettings s g) (hbox : g.box = s.box) (ht : g.triclinic = s.triclinic) {u : Bool} {t : ℝ}
    (hx : Spec.SearchExact s u t) : Spec.SearchExact g u t := by
  intro hu R hR
  refine h.cellConditions hbox ht (hx hu R ?_)
  rw [searchRadius_iff] at hR ⊢
  rw [hR, hS.dist]

theorem Relab.exactSearch (h : Relab Eq ρ s g) (hS : SameSettings s g) (hbox : g.box = s.box) (ht : g.triclinic = s.triclinic) {meth : Method}
    (hx : Spec.ExactSearch s meth) : Spec.ExactSearch g meth := by
  have hn : g.ntotal = s.ntotal := hS.nop
  have hm : g.natoms = s.natoms := h.realNop
  cases meth with
  | cutoff r =>
    simp only [Spec.ExactSearch, hn, hm] at hx ⊢
    split_ifs at hx ⊢
    · exact h.searchExact hS hbox ht hx
    · exact hx.imp id (h.cellConditions hbox ht)
  | adaptive t n p =>
    simp only [Spec.ExactSearch, hn] at hx ⊢
    exact h.searchExact hS hbox ht hx
  | sann t => exact hx.elim
  | number t n a => exact hx.elim

end

theorem analyse_nil (σ : StdSort) (b : Mat3) (f : ℕ) (meth : Method) (ls : List ℤ) (av : Bool) :
    ∃ e, analyse σ b [] f meth ls av = .error e := by
  unfold analyse
  rcases h1 : buildSystem b [] with e | s
  · exact ⟨e, rfl⟩
  · exfalso
    unfold buildSystem at h1
    rcases h2 : System.init.setBox b with e | s0
    · rw [h2] at h1; cases h1
    · rw [h2] at h1
      simp only [bind, Except.bind, System.assignAtoms] at h1
      rw [if_pos (by simp), if_pos (by simp)] at h1; cases h1

/-- **C77** for systems of any size: numeric cutoffs (0 included, which means the adaptive search) and
the adaptive search, where cell lists are only required to be exact for the order given first. -/
theorem C77_exact (σ : StdSort) (b : Mat3) {l l' : List Atom} {π : Equiv.Perm ℕ} (h : Spec.Reordered π l l')
    (hreal : ∀ a ∈ l, a.ghost = false) (f : ℕ) (meth : Method) (hx : ∀ s, buildSystem b l = .ok s → Spec.ExactSearch s meth) (ls : List ℤ) (av : Bool) :
    RelE (fun A B => B.length = A.length ∧ ∀ (i : ℕ) (x y : Atom), A[i]? = some x → B[π i]? = some y →
        y.pos = x.pos ∧ y.type = x.type ∧
        y.nbrs.Perm (x.nbrs.map fun nb => { nb with idx := relabelIndex l.length π nb.idx }) ∧
        ∀ l : ℕ, (l : ℤ) ∈ ls → y.q l = x.q l ∧ (av = true → y.aq l = x.aq l))
      (analyse σ b l f meth ls av) (analyse σ b l' f meth ls av) := by
  by_cases hn : 0 < l.length
  · have hb := buildSystem_relabel b h hn hreal
    unfold analyse
    rcases h1 : buildSystem b l with e | s <;> rcases h2 : buildSystem b l' with e' | g <;> rw [h1, h2] at hb
    · exact hb
    · exact hb.elim
    · exact hb.elim
    · have hR : Relab Eq (padPerm l.length hn π h.2.1) s g := hb
      obtain ⟨hS, hbox, -, -, ht, -⟩ := build_settings h.1 h1 h2
      have hlr := build_length hreal h1
      have hfn := hR.exact (σ := σ) hS f hlr.2.2 (hx s h1) (hR.exactSearch hS hbox ht (hx s h1))
      simp only [bind, Except.bind]
      rcases h3 : s.findNeighbors σ f meth with e | s2 <;> rcases h4 : g.findNeighbors σ f meth with e' | g2 <;>
        rw [h3, h4] at hfn
      · exact hfn
      · exact hfn.elim
      · exact hfn.elim
      · have hN : RelabNb Eq (padPerm l.length hn π h.2.1) s2 g2 := hfn
        have hr2 : s2.realNop = l.length := (Kept.findNeighbors h3).realNop.trans hlr.2.1
        refine (hN.finish ls av).mono ?_
        rintro A B ⟨hB, hA, hfin⟩
        refine ⟨hB, fun i x y hx hy => ?_⟩
        have hi : i < l.length := by rw [← hr2, ← hA]; exact (List.getElem?_eq_some_iff.1 hx).1
        obtain ⟨q1, q2, q3, q4⟩ := hfin i x y hx (by rw [padPerm_small hn π h.2.1 hi]; exact hy)
        exact ⟨(congrArg Prod.fst q1).symm, q2, q3, q4⟩
  · have e1 : l = [] := List.length_eq_zero_iff.1 (by omega)
    have e2 : l' = [] := List.length_eq_zero_iff.1 (by rw [h.1]; omega)
    subst e1; subst e2
    obtain ⟨e, he⟩ := analyse_nil σ b f meth ls av
    rw [he]; exact rfl

/-- Neighbours found: build the system and search. -/
noncomputable def searchAtoms (σ : StdSort) (b : Mat3) (l : List Atom) (f : ℕ) (meth : Method) : Except Fault (List Atom) :=
  buildSystem b l >>= fun s => s.findNeighbors σ f meth >>= fun s => s.getAtoms

/-- **C77** for the search by number: the same distances in the same order, and the same neighbours
except for a choice among those at the largest distance. -/
theorem C77_number (σ : StdSort) (b : Mat3) {l l' : List Atom} {π : Equiv.Perm ℕ} (h : Spec.Reordered π l l')
    (hreal : ∀ a ∈ l, a.ghost = false) (f : ℕ) (t : ℝ) (n : ℕ)
    (hx : ∀ s, buildSystem b l = .ok s → Spec.SearchExact s (decide (s.natoms > 4000)) t) :
    RelE (fun A B => B.length = A.length ∧ ∀ (i : ℕ) (x y : Atom), A[i]? = some x → B[π i]? = some y →
        y.nbrs.map Nb.dist = x.nbrs.map Nb.dist ∧
        ∀ nb ∈ x.nbrs, (∃ nb' ∈ x.nbrs, nb.dist < nb'.dist) → { nb with idx := relabelIndex l.length π nb.idx } ∈ y.nbrs)
      (searchAtoms σ b l f (.number t n true)) (searchAtoms σ b l' f (.number t n true)) := by
  unfold searchAtoms
  by_cases hn : 0 < l.length
  · have hb := buildSystem_relabel b h hn hreal
    rcases h1 : buildSystem b l with e | s <;> rcases h2 : buildSystem b l' with e' | g <;> rw [h1, h2] at hb
    · exact hb
    · exact hb.elim
    · exact hb.elim
    · have hR : Relab Eq (padPerm l.length hn π h.2.1) s g := hb
      obtain ⟨hS, hbox, -, -, ht, -⟩ := build_settings h.1 h1 h2
      have hlr := build_length hreal h1
      have hx1 : Spec.SearchExact s (decide (s.realNop > 4000)) t := hx s h1
      have hfn := hR.number (σ := σ) hS f t n hlr.2.2 hx1 (by rw [hR.realNop]; exact hR.searchExact hS hbox ht hx1)
      simp only [bind, Except.bind]
      rcases h3 : s.findNeighbors σ f (.number t n true) with e | s2 <;> rcases h4 : g.findNeighbors σ f (.number t n true) with e' | g2 <;>
        rw [h3, h4] at hfn
      · exact hfn
      · exact hfn.elim
      · exact hfn.elim
      · have hN : RelabNear (padPerm l.length hn π h.2.1) s2 g2 := hfn
        have hr2 : s2.realNop = l.length := (Kept.findNeighbors h3).realNop.trans hlr.2.1
        unfold System.getAtoms
        simp only [hN.len, hN.real]
        by_cases hle : s2.realNop ≤ s2.atoms.length
        · rw [if_pos hle, if_pos hle]
          refine ⟨by simp [hN.len], fun i x y hx hy => ?_⟩
          have hi := (List.getElem?_eq_some_iff.1 hx).1
          rw [List.length_take, min_eq_left hle] at hi
          rw [List.getElem?_take, if_pos hi] at hx
          have hy' : g2.atoms[π i]? = some y := by
            rw [List.getElem?_take] at hy
            split_ifs at hy
            exact hy
          rw [hr2] at hi
          have hρ := padPerm_small hn π h.2.1 hi
          have ex := (mem_of_getElem? hx).2
          have ey := (mem_of_getElem? hy').2
          have hil : i < s2.atoms.length := (List.getElem?_eq_some_iff.1 hx).1
          have d := hN.dist i hil
          have e := hN.inner i hil
          rw [hρ, ex, ey] at d
          rw [hρ, ex, ey] at e
          exact ⟨d, e⟩
        · rw [if_neg hle, if_neg hle]; exact rfl
  · have e1 : l = [] := List.length_eq_zero_iff.1 (by omega)
    have e2 : l' = [] := List.length_eq_zero_iff.1 (by rw [h.1]; omega)
    subst e1; subst e2
    rcases h1 : buildSystem b [] with e | s
    · exact rfl
    · exfalso
      unfold buildSystem at h1
      rcases h2 : System.init.setBox b with e | s0
      · rw [h2] at h1; cases h1
      · rw [h2] at h1
        simp only [bind, Except.bind, System.assignAtoms] at h1
        rw [if_pos (by simp), if_pos (by simp)] at h1; cases h1

/-! ### Putting atoms back into the cell -/

/-- The systems built of at least 200 atoms. -/
theorem build_wrapped_large (b : Mat3) (hb : Spec.Skew b ∨ ∃ lx ly lz, 0 < lx ∧ 0 < ly ∧ 0 < lz ∧ b = diagBox lx ly lz)
    (l l' : List Atom) (t : V3) (hw : Spec.Rewrapped b t l l') (h200 : 200 ≤ l.length) (hreal : ∀ a ∈ l, a.ghost = false)
    (hc : Spec.Compact b l) (hc' : Spec.Compact b l') (hh : Spec.NoHalfCell b l) :
    RelE (fun s g => s.realNop = l.length ∧ Relab (fun _ _ => True) 1 s g) (buildSystem b l) (buildSystem b l') := by
  have hlen : l'.length = l.length := hw.length_eq.symm
  have hreal' : ∀ a ∈ l', a.ghost = false := by
    intro a ha
    obtain ⟨k, hk, rfl⟩ := List.getElem_of_mem ha
    exact (((List.forall₂_iff_get.1 hw).2 k (hlen ▸ hk) hk).2.1).trans (hreal _ (List.getElem_mem _))
  have hcr : ∀ m : List Atom, (∀ a ∈ m, a.ghost = false) → countReal m = m.length := by
    intro m hm
    unfold countReal
    rw [List.filter_eq_self.2]
    intro a ha; rw [hm a ha]; rfl
  unfold buildSystem
  rcases h1 : System.init.setBox b with e | s0
  · exact rfl
  simp only [bind, Except.bind]
  unfold System.assignAtoms
  simp only [hlen]
  rw [if_neg (by omega), if_neg (by omega)]
  change (s0.setAtoms l).realNop = _ ∧ Relab (fun _ _ => True) 1 (s0.setAtoms l) (s0.setAtoms l')
  have hbox : s0.box = b := (setBox_frame h1).1
  have hF : FracBox (s0.setAtoms l) := by
    rcases hb with hb | ⟨lx, ly, lz, hx, hy, hz, rfl⟩
    · have hT := (setBox_skewed ((skewed_iff b).2 hb) h1).1
      exact fracBox_tri ⟨hT.tri, hT.rot, hT.rotinv, hT.det⟩
    · refine fracBox_diag (lx := lx) (ly := ly) (lz := lz) hx hy hz ?_ hbox
      have : System.init.setBox (diagBox lx ly lz) = .ok { System.init with box := diagBox lx ly lz } := by
        simp [System.setBox, not_skewed_diag]
      rw [this] at h1
      cases h1; rfl
  have hat : ∀ k (hk : k < l.length), ∃ hk' : k < l'.length, l'[k].type = l[k].type ∧ IsImage b (l[k].pos + t) l'[k].pos := by
    intro k hk
    have := (List.forall₂_iff_get.1 hw).2 k hk (hlen.symm ▸ hk)
    exact ⟨hlen.symm ▸ hk, this.1, this.2.2⟩
  have hmem : ∀ (m : List Atom) k (hk : k < m.length), (s0.setAtoms m).mem k = m[k] := fun m k hk => mem_eq_getElem (s0.setAtoms m) k hk
  refine ⟨hcr _ hreal, hlen, fun k => Iff.rfl, fun _ _ => trivial, fun k hk => ?_, fun i hi j hj => ?_, ?_⟩
  · obtain ⟨hk', e, -⟩ := hat k hk
    unfold System.typeOf
    change ((s0.setAtoms l').mem k).type = _
    rw [hmem l k hk, hmem l' k hk']; exact e
  · obtain ⟨hi', -, n1, n2, n3, ei⟩ := hat i hi
    obtain ⟨hj', -, m1, m2, m3, ej⟩ := hat j hj
    change (s0.setAtoms l').diffOf i j = _
    simp only [System.diffOf, System.diffIdx, System.posOf, hmem l i hi, hmem l' i hi', hmem l j hj, hmem l' j hj']
    refine (image_frame rfl rfl rfl rfl _).trans (hF.image_shift ?_ ?_ ?_ ?_)
    · change FracBound s0.box _ _
      rw [hbox]; exact hc _ (List.getElem_mem hi) _ (List.getElem_mem hj)
    · change FracBound s0.box _ _
      rw [hbox]; exact hc' _ (List.getElem_mem hi') _ (List.getElem_mem hj')
    · change IsImage s0.box _ _
      rw [hbox]
      refine ⟨m1 - n1, m2 - n2, m3 - n3, ?_⟩
      rw [ei, ej]
      ext <;> simp [latticeVec] <;> ring
    · change ∀ f, _ = ofFrac s0.box f → _
      rw [hbox]; exact hh _ (List.getElem_mem hi) _ (List.getElem_mem hj)
  · change countReal l' = countReal l
    rw [hcr _ hreal, hcr _ hreal', hlen]

/-- **C78** for systems of any size, numeric cutoffs (0 included) and the adaptive search, with cell
lists where they are exact: every atom has the same neighbours with the same distances, weights and
vectors, periodic copies of one atom being identified, and the same Steinhardt parameters. -/
theorem C78_exact (σ : StdSort) (b : Mat3)
    (hb : Spec.Skew b ∨ ∃ lx ly lz, 0 < lx ∧ 0 < ly ∧ 0 < lz ∧ b = diagBox lx ly lz)
    (l l' : List Atom) (t : V3) (hw : Spec.Rewrapped b t l l') (hreal : ∀ a ∈ l, a.ghost = false)
    (hc : Spec.Compact b l) (hc' : Spec.Compact b l') (hh : Spec.NoHalfCell b l)
    (f : ℕ) (meth : Method) (hx : ∀ s, buildSystem b l = .ok s → Spec.ExactSearch s meth) (hx' : ∀ s, buildSystem b l' = .ok s → Spec.ExactSearch s meth)
    (ls : List ℤ) (av : Bool) :
    RelE (List.Forall₂ fun x y : Atom => y.type = x.type ∧
        (y.nbrs.map (Spec.upToCell l.length)).Perm (x.nbrs.map (Spec.upToCell l.length)) ∧
        ∀ l : ℕ, (l : ℤ) ∈ ls → y.q l = x.q l ∧ (av = true → y.aq l = x.aq l))
      (analyse σ b l f meth ls av) (analyse σ b l' f meth ls av) := by
  have hlen : l'.length = l.length := hw.length_eq.symm
  rcases Nat.eq_zero_or_pos l.length with h0 | hn
  · have e1 : l = [] := List.length_eq_zero_iff.1 h0
    have e2 : l' = [] := List.length_eq_zero_iff.1 (by rw [hlen]; exact h0)
    subst e1; subst e2
    obtain ⟨e, he⟩ := analyse_nil σ b f meth ls av
    rw [he]; exact rfl
  have hbuild : RelE (fun s g => s.realNop = l.length ∧ ∀ i0 < l.length, ∃ ρ : Equiv.Perm ℕ, ρ i0 = i0 ∧ (∀ k, ρ k % l.length = k % l.length) ∧
      Relab (fun _ _ => True) ρ s g) (buildSystem b l) (buildSystem b l') := by
    by_cases h200 : l.length < 200
    · exact build_wrapped b hb l l' t hw h200 hreal hc hc' hh hn
    · refine (build_wrapped_large b hb l l' t hw (not_lt.1 h200) hreal hc hc' hh).mono ?_
      rintro s g ⟨h1, h2⟩
      exact ⟨h1, fun i0 _ => ⟨1, rfl, fun _ => rfl, h2⟩⟩
  unfold analyse
  rcases h1 : buildSystem b l with e | s <;> rcases h2 : buildSystem b l' with e' | g <;> rw [h1, h2] at hbuild
  · exact hbuild
  · exact hbuild.elim
  · exact hbuild.elim
  obtain ⟨hrn, hρ⟩ := hbuild
  obtain ⟨hS, -⟩ := build_settings hlen h1 h2
  have hle := (build_length hreal h1).2.2
  -- one renumbering settles whether the runs succeed, and each atom has its own to compare the results
  have hstep : ∀ i0 < l.length, ∃ ρ : Equiv.Perm ℕ, ρ i0 = i0 ∧ (∀ k, ρ k % l.length = k % l.length) ∧
      RelE (fun A B => B.length = A.length ∧ A.length = l.length ∧ ∀ (i : ℕ) (a b : Atom), A[i]? = some a → B[ρ i]? = some b →
        b.type = a.type ∧ b.nbrs.Perm (a.nbrs.map fun x => { x with idx := ρ x.idx }) ∧
        ∀ l : ℕ, (l : ℤ) ∈ ls → b.q l = a.q l ∧ (av = true → b.aq l = a.aq l))
      (s.findNeighbors σ f meth >>= fun s => s.calculateQ ls av >>= fun s => s.getAtoms)
      (g.findNeighbors σ f meth >>= fun s => s.calculateQ ls av >>= fun s => s.getAtoms) := by
    intro i0 hi0
    obtain ⟨ρ, r1, r2, hR⟩ := hρ i0 hi0
    refine ⟨ρ, r1, r2, ?_⟩
    have hfn := hR.exact (σ := σ) hS f hle (hx s h1) (hx' g h2)
    rcases h3 : s.findNeighbors σ f meth with e | s2 <;> rcases h4 : g.findNeighbors σ f meth with e' | g2 <;>
      rw [h3, h4] at hfn
    · exact hfn
    · exact hfn.elim
    · exact hfn.elim
    · have hN : RelabNb _ ρ s2 g2 := hfn
      refine (hN.finish ls av).mono ?_
      rintro A B ⟨hB, hA, hfin⟩
      refine ⟨hB, ?_, fun i x y hx hy => (hfin i x y hx hy).2⟩
      rw [hA, (Kept.findNeighbors h3).realNop, hrn]
  change RelE _ (s.findNeighbors σ f meth >>= fun s => s.calculateQ ls av >>= fun s => s.getAtoms)
      (g.findNeighbors σ f meth >>= fun s => s.calculateQ ls av >>= fun s => s.getAtoms)
  generalize (s.findNeighbors σ f meth >>= fun s => s.calculateQ ls av >>= fun s => s.getAtoms) = X at hstep ⊢
  generalize (g.findNeighbors σ f meth >>= fun s => s.calculateQ ls av >>= fun s => s.getAtoms) = Y at hstep ⊢
  rcases X with e | A <;> rcases Y with e' | B
  · obtain ⟨_, _, _, h⟩ := hstep 0 hn; exact h
  · obtain ⟨_, _, _, h⟩ := hstep 0 hn; exact h.elim
  · obtain ⟨_, _, _, h⟩ := hstep 0 hn; exact h.elim
  · change List.Forall₂ _ A B
    obtain ⟨_, _, _, hl1, hl2, -⟩ := hstep 0 hn
    rw [List.forall₂_iff_get]
    refine ⟨hl1.symm, fun i hi hi' => ?_⟩
    obtain ⟨ρ, e1, e2, -, -, hval⟩ := hstep i (hl2 ▸ hi)
    obtain ⟨t1, t2, t3⟩ := hval i (A.get ⟨i, hi⟩) (B.get ⟨i, hi'⟩) (by simp [hi]) (by rw [e1]; simp [hi'])
    refine ⟨t1, ?_, t3⟩
    refine (t2.map _).trans ?_
    rw [List.map_map]
    refine List.Perm.of_eq (List.map_congr_left fun x _ => ?_)
    simp only [Function.comp, Spec.upToCell, e2]

/-! ### A case with cell lists: three thousand atoms on a line -/

/-- Three thousand atoms on a line, starting at `x`. -/
noncomputable def lineAtoms (x : ℝ) : List Atom := (List.range 3000).map fun (k : ℕ) => { pos := ⟨(k : ℝ) / 1000 + x, 0, 0⟩ }

theorem lineAtoms_len (x : ℝ) : (lineAtoms x).length = 3000 := by simp [lineAtoms]

theorem lineAtoms_mem {x : ℝ} {a : Atom} (h : a ∈ lineAtoms x) : ∃ k : ℕ, k < 3000 ∧ a = { pos := ⟨(k : ℝ) / 1000 + x, 0, 0⟩ } := by
  obtain ⟨k, hk, rfl⟩ := List.mem_map.1 h
  exact ⟨k, List.mem_range.1 hk, rfl⟩

/-- Cell lists are used for the cutoff 1, in suitable conditions, and all pairs are compared by the adaptive search. -/
theorem lineAtoms_exact {l : List Atom} (hl : l.length = 3000) (h : ∀ a ∈ l, a.ghost = false ∧ (0 ≤ a.pos.x ∧ a.pos.x < 4) ∧ a.pos.y = 0 ∧ a.pos.z = 0)
    {s : System} (hs : buildSystem (diagBox 10 10 10) l = .ok s) :
    2300 < s.natoms ∧ Spec.ExactSearch s (.cutoff 1) ∧ Spec.ExactSearch s (.adaptive 2 6 1.2) := by
  have hb : System.init.setBox (diagBox 10 10 10) = .ok { System.init with box := diagBox 10 10 10 } := by
    simp [System.setBox, not_skewed_diag]
  unfold buildSystem at hs
  rw [hb] at hs
  simp only [bind, Except.bind, System.assignAtoms] at hs
  rw [if_neg (by omega)] at hs
  cases hs
  refine ⟨?_, ?_, ?_⟩
  · change 2300 < countReal l
    unfold countReal
    rw [List.filter_eq_self.2 (fun a ha => by rw [(h a ha).1]; rfl), hl]
    norm_num
  · simp only [Spec.ExactSearch, one_ne_zero, if_false]
    refine .inr ⟨10, 10, 10, rfl, rfl, by norm_num, by norm_num, by norm_num, by norm_num, fun a ha => ?_⟩
    obtain ⟨-, h1, h2, h3⟩ := h a ha
    rw [h2, h3]
    refine ⟨⟨by linarith [h1.1], by linarith [h1.2], .inl h1.1⟩, ⟨by norm_num, by norm_num, .inl le_rfl⟩, ⟨by norm_num, by norm_num, .inl le_rfl⟩⟩
  · intro hu
    exfalso
    have : l.length > 4000 := by simpa [System.ntotal, System.setAtoms] using hu
    omega

theorem lineAtoms_in {x : ℝ} (h0 : 0 ≤ x) (h1 : x ≤ 1) {a : Atom} (ha : a ∈ lineAtoms x) :
    a.ghost = false ∧ (0 ≤ a.pos.x ∧ a.pos.x < 4) ∧ a.pos.y = 0 ∧ a.pos.z = 0 := by
  obtain ⟨k, hk, rfl⟩ := lineAtoms_mem ha
  have hk' : (k : ℝ) < 3000 := by exact_mod_cast hk
  have hk0 : (0 : ℝ) ≤ k := Nat.cast_nonneg k
  exact ⟨rfl, ⟨by positivity, by dsimp only; linarith⟩, rfl, rfl⟩

/-- The hypotheses of `C77_exact` for the reversed list. -/
example : ∃ π : Equiv.Perm ℕ, Spec.Reordered π (lineAtoms 0) (lineAtoms 0).reverse ∧ π 0 = 2999 ∧ (∀ a ∈ lineAtoms 0, a.ghost = false) ∧
    ∀ s, buildSystem (diagBox 10 10 10) (lineAtoms 0) = .ok s → 2300 < s.natoms ∧ Spec.ExactSearch s (.cutoff 1) := by
  refine ⟨⟨fun i => if i < 3000 then 2999 - i else i, fun i => if i < 3000 then 2999 - i else i, fun i => ?_, fun i => ?_⟩, ⟨?_, ?_, ?_⟩, ?_, ?_, ?_⟩
  · dsimp only; split_ifs <;> omega
  · dsimp only; split_ifs <;> omega
  · rw [List.length_reverse]
  · intro i
    rw [lineAtoms_len]
    change (if i < 3000 then 2999 - i else i) < 3000 ↔ _
    split_ifs <;> omega
  · intro i hi
    have hi := hi
    rw [lineAtoms_len] at hi
    change (lineAtoms 0).reverse[if i < 3000 then 2999 - i else i]? = _
    rw [if_pos hi, List.getElem?_reverse (by rw [lineAtoms_len]; omega), lineAtoms_len]
    congr 1; omega
  · rfl
  · exact fun a ha => (lineAtoms_in le_rfl zero_le_one ha).1
  · intro s hs
    have := lineAtoms_exact (lineAtoms_len 0) (fun a ha => lineAtoms_in le_rfl zero_le_one ha) hs
    exact ⟨this.1, this.2.1⟩

/-- The hypotheses of `C78_exact`: the same atoms moved by one. -/
example : Spec.Rewrapped (diagBox 10 10 10) ⟨1, 0, 0⟩ (lineAtoms 0) (lineAtoms 1) ∧ Spec.Compact (diagBox 10 10 10) (lineAtoms 0) ∧
    Spec.Compact (diagBox 10 10 10) (lineAtoms 1) ∧ Spec.NoHalfCell (diagBox 10 10 10) (lineAtoms 0) ∧
    (∀ s, buildSystem (diagBox 10 10 10) (lineAtoms 0) = .ok s → Spec.ExactSearch s (.cutoff 1)) ∧
    (∀ s, buildSystem (diagBox 10 10 10) (lineAtoms 1) = .ok s → Spec.ExactSearch s (.cutoff 1)) := by
  have hof : ∀ f, ofFrac (diagBox 10 10 10) f = ⟨10 * f.x, 10 * f.y, 10 * f.z⟩ := by
    intro f; ext <;> simp [ofFrac, diagBox] <;> ring
  have hin : ∀ x : ℝ, 0 ≤ x → x ≤ 1 → Spec.Compact (diagBox 10 10 10) (lineAtoms x) := by
    intro x h0 h1
    apply compact_of_inside
    intro a ha
    obtain ⟨-, h2, h3, h4⟩ := lineAtoms_in h0 h1 ha
    refine ⟨⟨a.pos.x / 10, 0, 0⟩, ?_, ⟨by linarith [h2.1], by dsimp only; linarith [h2.2]⟩, by norm_num, by norm_num⟩
    rw [hof]
    ext
    · simp only; ring
    · simp [h3]
    · simp [h4]
  refine ⟨?_, hin 0 le_rfl zero_le_one, hin 1 zero_le_one le_rfl, ?_, fun s hs => (lineAtoms_exact (lineAtoms_len 0) (fun a ha => lineAtoms_in le_rfl zero_le_one ha) hs).2.1,
    fun s hs => (lineAtoms_exact (lineAtoms_len 1) (fun a ha => lineAtoms_in zero_le_one le_rfl ha) hs).2.1⟩
  · unfold Spec.Rewrapped lineAtoms
    rw [List.forall₂_map_left_iff, List.forall₂_map_right_iff]
    refine List.forall₂_same.2 fun k _ => ⟨rfl, rfl, 0, 0, 0, ?_⟩
    ext <;> simp [latticeVec, diagBox]
  · intro a ha a' ha' f hf n
    obtain ⟨k, hk, rfl⟩ := lineAtoms_mem ha
    obtain ⟨k', hk', rfl⟩ := lineAtoms_mem ha'
    have h1 : (k : ℝ) < 3000 := by exact_mod_cast hk
    have h2 : (k' : ℝ) < 3000 := by exact_mod_cast hk'
    have h3 : (0 : ℝ) ≤ k := Nat.cast_nonneg k
    have h4 : (0 : ℝ) ≤ k' := Nat.cast_nonneg k'
    rw [hof] at hf
    have ex := congrArg V3.x hf
    have ey := congrArg V3.y hf
    have ez := congrArg V3.z hf
    simp at ex ey ez
    have key : ∀ x : ℝ, |x| < 1 / 2 → x ≠ (n : ℝ) + 1 / 2 := by
      rintro x hx rfl
      rw [abs_lt] at hx
      have h1 : (-1 : ℝ) < n := by linarith [hx.1]
      have h2 : (n : ℝ) < 0 := by linarith [hx.2]
      have h1' : (-1 : ℤ) < n := by exact_mod_cast h1
      have h2' : n < 0 := by exact_mod_cast h2
      omega
    refine ⟨key _ ?_, key _ ?_, key _ ?_⟩
    · rw [abs_lt]; constructor <;> linarith
    · rw [ey]; norm_num
    · rw [ez]; norm_num

end Pyscal
