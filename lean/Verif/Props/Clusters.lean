import Verif.Lemmas.Clusters
import Verif.Props.Store
import Verif.Props.Cutoff
import Verif.Lemmas.CutoffAny

/-! C25, C26: clusters. -/

namespace Pyscal

/-- The steps of a successful `cluster_atoms`. -/
theorem clusterAtoms_ok {s s' : System} {reals : List Atom} {cond : Atom → Except Fault ℤ} {c : ℝ} {n : ℕ}
    (hi : StoreInv s reals) (h : s.clusterAtoms cond c = .ok (s', n)) :
    ∃ new s1 s2, s.assignAtoms new = .ok s1 ∧ s1.findClusters c = .ok s2 ∧ s2.largestCluster = .ok (s', n) ∧
      new.length = reals.length ∧
      ∀ (i : ℕ) (a : Atom), reals[i]? = some a → ∃ v, cond a = .ok v ∧ new[i]? = some { a with condition := some v } := by
  unfold System.clusterAtoms at h
  cases h0 : s.getAtom 0 with
  | error e => rw [h0] at h; cases h
  | ok a0 =>
    rw [h0] at h
    change (match cond a0 with | .error _ => _ | .ok v => _) = _ at h
    cases hc : cond a0 with
    | error e => rw [hc] at h; cases h
    | ok v =>
      rw [hc] at h
      dsimp only at h
      split_ifs at h with hv
      have hg : s.getAtoms = .ok reals := by
        obtain ⟨gs, ha, -⟩ := hi.ex
        unfold System.getAtoms
        rw [hi.realNop, ha, if_pos (by simp)]
        simp
      rw [hg] at h
      change Except.bind (reals.mapM fun a => do let v ← cond a; return { a with condition := some v }) _ = _ at h
      cases hm : reals.mapM (m := Except Fault) fun a => do let v ← cond a; return { a with condition := some v } with
      | error e => rw [hm] at h; cases h
      | ok new =>
        rw [hm] at h
        change Except.bind (s.assignAtoms new) _ = _ at h
        cases h1 : s.assignAtoms new with
        | error e => rw [h1] at h; cases h
        | ok s1 =>
          rw [h1] at h
          change Except.bind (s1.findClusters c) _ = _ at h
          cases h2 : s1.findClusters c with
          | error e => rw [h2] at h; cases h
          | ok s2 =>
            rw [h2] at h
            obtain ⟨hl, hall⟩ := mapM_except _ reals new hm
            refine ⟨new, s1, s2, h1, h2, h, hl, fun i a ha => ?_⟩
            obtain ⟨b, hb, hb'⟩ := hall i a ha
            cases hca : cond a with
            | error e => rw [hca] at hb; cases hb
            | ok v =>
              rw [hca] at hb
              obtain rfl := Except.ok.inj hb
              exact ⟨v, rfl, hb'⟩

/-- `largest_cluster` only sets the flags of the real atoms and `maxclusterid`. -/
theorem largestCluster_ok {s s' : System} {n : ℕ} (h : s.largestCluster = .ok (s', n)) :
    (∀ a ∈ s.atoms.take s.realNop, a.belongsto = -1 ∨ (1 ≤ a.belongsto ∧ a.belongsto ≤ s.realNop)) ∧
    s'.realNop = s.realNop ∧ s'.atoms.length = s.atoms.length ∧ s.realNop ≤ s.atoms.length ∧
    (System.maxLoop s.clusterFreq (List.range s.realNop) (0, s.maxclusterid)) = (n, s'.maxclusterid) ∧
    ∀ (i : ℕ) (a : Atom), s.atoms[i]? = some a → ∃ b, s'.atoms[i]? = some b ∧ b.belongsto = a.belongsto ∧
      (i < s.realNop → (b.lcluster = true ↔ a.belongsto = s'.maxclusterid)) ∧
      b = { a with lcluster := b.lcluster, issurface := b.issurface } := by
  unfold System.largestCluster at h
  split_ifs at h with hc
  push Not at hc
  obtain ⟨-, hn, hr⟩ := hc
  dsimp only at h
  have h' := Except.ok.inj h
  rw [Prod.mk.injEq] at h'
  obtain ⟨rfl, rfl⟩ := h'
  refine ⟨fun a ha => ?_, rfl, by simp [System.largestAtoms], hn, rfl, fun i a ha => ?_⟩
  · by_cases h1 : a.belongsto = -1
    · exact .inl h1
    · exact .inr (hr a ha h1)
  · unfold System.largestAtoms
    simp only [List.getElem?_mapIdx, ha, Option.map_some, Option.some.injEq, exists_eq_left']
    by_cases hi : i < s.realNop
    · rw [if_pos hi]
      refine ⟨rfl, fun _ => ?_, rfl⟩
      simp [System.surface1]
    · rw [if_neg hi]
      exact ⟨rfl, fun h => absurd h hi, rfl⟩

/-- Specification: atom number `i` is one of the `n` real atoms and satisfies the condition. -/
def Spec.Chosen (s : System) (n : ℕ) (cond : Atom → Except Fault ℤ) (i : ℕ) : Prop :=
  i < n ∧ ∃ a v, s.atoms[i]? = some a ∧ cond a = .ok v ∧ v ≠ 0

/-- Specification: two atoms satisfying the condition are neighbours for cutoff `r` and, if a separate
cutoff `c` for clustering is given, not farther apart than `c`. -/
def Spec.Linked (s s1 : System) (n : ℕ) (cond : Atom → Except Fault ℤ) (r : ℝ) (f : ℕ) (c : ℝ) (i j : ℕ) : Prop :=
  Spec.Chosen s1 n cond i ∧ Spec.Chosen s1 n cond j ∧
    ∃ a b, s.atoms[i]? = some a ∧ s.atoms[j]? = some b ∧ Spec.Near s r f i j a b ∧ (c ≠ 0 → s.getDistance b a ≤ c)

theorem storeInv_cutoff {σ : StdSort} {s s' : System} {f : ℕ} {r : ℝ} (hr : r ≠ 0) (hn : s.realNop ≤ 2300)
    (h : s.findNeighbors σ f (.cutoff r) = .ok s') {reals : List Atom} (hi : StoreInv s reals) :
    StoreInv s' (s'.atoms.take s.realNop) := by
  obtain ⟨hle, rfl, -⟩ := findNeighbors_cutoff_ok hr hn h
  obtain ⟨gs, ha, hg, hgn⟩ := hi.ex
  have hgh : ∀ k (hk : k < s.atoms.length), (s.atoms[k].ghost = false ↔ k < s.realNop) := by
    intro k hk
    rw [hi.realNop]
    by_cases hk2 : k < reals.length
    · have : s.atoms[k] = reals[k] := by simp only [ha]; exact List.getElem_append_left hk2
      rw [this]
      exact ⟨fun _ => hk2, fun _ => hi.real _ (List.getElem_mem hk2)⟩
    · have hk3 : k - reals.length < gs.length := by rw [ha, List.length_append] at hk; omega
      have : s.atoms[k] = gs[k - reals.length] := by simp only [ha]; exact List.getElem_append_right (by omega)
      rw [this]
      exact ⟨fun h => by rw [hg _ (List.getElem_mem hk3)] at h; simp at h, fun h => absurd h hk2⟩
  refine ⟨fun a ham => ?_, ⟨((List.range s.atoms.length).map (cutoffAtom s r f)).drop s.realNop, ?_, fun a ham => ?_, ?_⟩, ?_, ?_⟩
  · obtain ⟨k, hk, rfl⟩ := List.getElem_of_mem ham
    simp only [List.length_take, List.length_map, List.length_range] at hk
    simp only [List.getElem_take, List.getElem_map, List.getElem_range]
    show (s.mem k).ghost = false
    rw [mem_eq_getElem s k (by omega), hgh]
    omega
  · exact (List.take_append_drop _ _).symm
  · obtain ⟨k, hk, rfl⟩ := List.getElem_of_mem ham
    simp only [List.length_drop, List.length_map, List.length_range] at hk
    simp only [List.getElem_drop, List.getElem_map, List.getElem_range]
    show (s.mem (s.realNop + k)).ghost = true
    rw [mem_eq_getElem s _ (by omega)]
    by_contra hc
    rw [Bool.not_eq_true, hgh] at hc
    omega
  · simp only [List.length_drop, List.length_map, List.length_range]
    show s.ghostNop = _
    rw [hgn, hi.realNop, ha]; simp
  · simp only [List.length_map, List.length_range]; exact hi.nop
  · simp only [List.length_take, List.length_map, List.length_range]
    omega

/-- The state in which the clusters are searched, described by the state after the neighbour search. -/
theorem cluster_state {s s1 : System} {reals new : List Atom} {cond : Atom → Except Fault ℤ} (hi : StoreInv s reals)
    (h1 : s.assignAtoms new = .ok s1) (hlen : new.length = reals.length)
    (hnew : ∀ (i : ℕ) (a : Atom), reals[i]? = some a → ∃ v, cond a = .ok v ∧ new[i]? = some { a with condition := some v }) :
    s1.realNop = reals.length ∧ ClusterLayout s1 ∧ SameRest s s1 ∧
    (∀ (i : ℕ) (a : Atom), i < reals.length → s.atoms[i]? = some a → ∃ v, cond a = .ok v ∧ s1.atoms[i]? = some { a with condition := some v }) ∧
    ∀ i, Spec.Member s1 i ↔ Spec.Chosen s reals.length cond i := by
  obtain ⟨gs, ha, -, -⟩ := hi.ex
  have hget : ∀ i, i < reals.length → s.atoms[i]? = reals[i]? := fun i h => by rw [ha, List.getElem?_append_left h]
  have hreal : ∀ a ∈ new, a.ghost = false := by
    intro a ham
    obtain ⟨k, hk, rfl⟩ := List.getElem_of_mem ham
    obtain ⟨v, -, h2⟩ := hnew k reals[k] (List.getElem?_eq_getElem (by omega))
    rw [List.getElem?_eq_getElem hk] at h2
    rw [Option.some.inj h2]
    exact hi.real reals[k] (List.getElem_mem (by omega))
  obtain ⟨extra, e1, e2, e3, -, -, -, -, e7⟩ := assign_shape hreal h1
  have hat : ∀ (i : ℕ) (a : Atom), i < reals.length → s.atoms[i]? = some a →
      ∃ v, cond a = .ok v ∧ s1.atoms[i]? = some { a with condition := some v } := by
    intro i a h2 h3
    rw [hget i h2] at h3
    obtain ⟨v, hv, h4⟩ := hnew i a h3
    exact ⟨v, hv, by rw [e1, List.getElem?_append_left (by omega)]; exact h4⟩
  have hx : ∀ i a, s1.atoms[i]? = some a → s1.realNop ≤ i → a ∈ extra := by
    intro i a h2 h3
    rw [e1, List.getElem?_append_right (by omega)] at h2
    exact List.mem_of_getElem? h2
  have hg : ∀ i a, s1.atoms[i]? = some a → (a.ghost = false ↔ i < s1.realNop) := by
    intro i a h2
    by_cases h3 : i < s1.realNop
    · rw [e1, List.getElem?_append_left (by omega)] at h2
      exact ⟨fun _ => h3, fun _ => hreal a (List.mem_of_getElem? h2)⟩
    · have := (e2 a (hx i a h2 (by omega))).1
      exact ⟨fun h => by rw [this] at h; simp at h, fun h => absurd h h3⟩
  refine ⟨by omega, ⟨hg, fun i a h2 h3 => (e2 a (hx i a h2 h3)).2.1⟩, e7, hat, fun i => ?_⟩
  constructor
  · rintro ⟨a, v, h2, h3, h4, h5⟩
    have hlt : i < reals.length := by have := (hg i a h2).1 h3; omega
    have hil : i < s.atoms.length := by rw [ha, List.length_append]; omega
    obtain ⟨w, hw, h6⟩ := hat i s.atoms[i] hlt (List.getElem?_eq_getElem hil)
    rw [h2] at h6
    obtain rfl := Option.some.inj h6
    have : w = v := Option.some.inj h4
    exact ⟨hlt, s.atoms[i], v, List.getElem?_eq_getElem hil, this ▸ hw, h5⟩
  · rintro ⟨hlt, a, v, h2, h3, h4⟩
    obtain ⟨w, hw, h6⟩ := hat i a hlt h2
    have : w = v := by rw [h3] at hw; exact (Except.ok.inj hw).symm
    exact ⟨_, v, h6, (hg i _ h6).2 (by omega), by rw [this], h4⟩

/-- Clustering a state `t` that has the neighbour lists and cutoffs found by a cutoff search (other values of the
atoms may have been calculated in between). -/
theorem cluster_after (σ : StdSort) (s s1 t s2 : System) (reals reals1 : List Atom) (hi : StoreInv s reals) (f : ℕ) (r : ℝ) (hr : r ≠ 0)
    (hp : Spec.PairsExact s r) (h1 : s.findNeighbors σ f (.cutoff r) = .ok s1) (hi1 : StoreInv t reals1) (hlen1 : reals1.length = s.natoms)
    (hsame : ∀ (i : ℕ) (a : Atom), i < s.natoms → s1.atoms[i]? = some a → ∃ b, t.atoms[i]? = some b ∧ b.nbrs = a.nbrs ∧ b.cutoff = a.cutoff)
    (cond : Atom → Except Fault ℤ) (c : ℝ) (n : ℕ) (h2 : t.clusterAtoms cond c = .ok (s2, n)) :
    ∃ l lab, s2.getAtoms = .ok l ∧ l.map Atom.belongsto = (List.range s.natoms).map lab ∧
      Spec.ComponentLabels s.natoms (Spec.Chosen t s.natoms cond) (Spec.Linked s t s.natoms cond r f c) lab := by
  unfold System.natoms at *
  have hreal : s.realNop = reals.length := hi.realNop
  obtain ⟨-, hl1, hs1⟩ := cutoff_any hr hp h1
  have hle : s.realNop ≤ s.atoms.length := by
    obtain ⟨gs, ha, -⟩ := hi.ex
    rw [ha, List.length_append, hi.realNop]; omega
  obtain ⟨new, t1, t2, a1, a2, a3, a4, a5⟩ := clusterAtoms_ok hi1 h2
  obtain ⟨b1, b2, -, b4, b5⟩ := cluster_state hi1 a1 a4 a5
  -- atoms in the clustering state
  have hatom : ∀ i, i < s.realNop → ∃ a, t1.atoms[i]? = some a ∧ a.nbrs.Perm (cutoffNbs s r f i) ∧ a.cutoff = (cutoffAtom s r f i).cutoff := by
    intro i hlt
    have hi1' : i < s1.atoms.length := by omega
    obtain ⟨b, hb, hb1, hb2⟩ := hsame i _ hlt (List.getElem?_eq_getElem hi1')
    obtain ⟨-, hp1, hp2⟩ := hs1 i _ (List.getElem?_eq_getElem hi1')
    obtain ⟨v, -, hv⟩ := b4 i b (by omega) hb
    have hp3 := congrArg Atom.cutoff hp2
    exact ⟨_, hv, hb1 ▸ hp1, hb2.trans hp3⟩
  have hmlt : ∀ i, Spec.Member t1 i → i < s.realNop := fun i hm => by have := ((b5 i).1 hm).1; omega
  have hbond : ∀ i j, Spec.Bond t1 c i j ↔ Spec.Linked s t s.realNop cond r f c i j := by
    intro i j
    unfold Spec.Bond Spec.Linked
    rw [b5, b5, hlen1]
    refine and_congr_right fun hci => and_congr_right fun hcj => ?_
    obtain ⟨ai, hv, hvn, hvc⟩ := hatom i hci.1
    have hil : i < s.atoms.length := by have := hci.1; omega
    have hai : s.atoms[i]? = some s.atoms[i] := List.getElem?_eq_getElem hil
    have hspec := cutoffNbs_spec (r := r) (f := f) hai
    constructor
    · rintro ⟨a, x, h3, h4, rfl, h5, h6⟩
      rw [hv] at h3
      obtain rfl := Option.some.inj h3
      obtain ⟨nb, h7, h8, h9, -⟩ := hspec.2.2 x (hvn.mem_iff.1 h4)
      exact ⟨_, nb, hai, h7, h8, fun hc => h9 ▸ h5 hc⟩
    · rintro ⟨a, b, h3, h4, h5, h6⟩
      rw [hai] at h3
      obtain rfl := Option.some.inj h3
      obtain ⟨x, hx, rfl⟩ := hspec.2.1 j b h4 h5
      obtain ⟨nb, h7, h8, h9, -⟩ := hspec.2.2 x hx
      rw [h4] at h7
      obtain rfl := Option.some.inj h7
      refine ⟨_, x, hv, hvn.mem_iff.2 hx, rfl, fun hc => h9 ▸ h6 hc, fun _ => ⟨r, ?_, ?_⟩⟩
      · rw [hvc]
        show (if cutoffNbs s r f i = [] then (s.mem i).cutoff else some r) = some r
        rw [if_neg (List.ne_nil_of_mem hx)]
      · rw [h9]; exact h8.2.1.le
  have hsym : ∀ i j, Spec.Bond t1 c i j → Spec.Bond t1 c j i := by
    intro i j
    rw [hbond, hbond]
    rintro ⟨hci, hcj, a, b, h3, h4, h5, h6⟩
    have hd : s.getDistance a b = s.getDistance b a := by
      rw [← (distOf_eq h4 h3).1, ← (distOf_eq h3 h4).1, distOf_comm]
    refine ⟨hcj, hci, b, a, h4, h3, ⟨h5.1.symm, hd ▸ h5.2.1, fun hf => (h5.2.2.1 hf).symm, fun hf => (h5.2.2.2 hf).symm⟩,
      fun hc => hd ▸ h6 hc⟩
  obtain ⟨lab, c1, -, -, c4, c5⟩ := findClusters_spec t1 t2 c a2 b2 hsym
  obtain ⟨-, d2, d3, d4, -, d6⟩ := largestCluster_ok a3
  have ht2r : t2.realNop = s.realNop := by
    obtain ⟨bb, hb, -⟩ := findClusters_ok t1 c (findClusters_inRange a2).1 (findClusters_inRange a2).2
    rw [a2] at hb
    obtain rfl := Except.ok.inj hb
    show t1.realNop = _
    omega
  have hlabs : ∀ i, i < s.realNop → ∃ b, s2.atoms[i]? = some b ∧ b.belongsto = lab i := by
    intro i hlt
    obtain ⟨ai, hv, -, -⟩ := hatom i hlt
    obtain ⟨b, h3, h4, -⟩ := d6 i _ (c5 i _ hv)
    exact ⟨b, h3, h4⟩
  refine ⟨s2.atoms.take s2.realNop, lab, ?_, ?_, ?_⟩
  · unfold System.getAtoms
    rw [if_pos (by omega)]
  · rw [d2, ht2r]
    refine List.ext_getElem? fun i => ?_
    rw [List.getElem?_map, List.getElem?_map, List.getElem?_take]
    by_cases hlt : i < s.realNop
    · obtain ⟨b, h3, h4⟩ := hlabs i hlt
      rw [if_pos hlt, h3, List.getElem?_range hlt]
      simp [h4]
    · rw [if_neg hlt, List.getElem?_eq_none (by simp; omega)]; rfl
  · have hb' : Spec.Bond t1 c = Spec.Linked s t s.realNop cond r f c := by
      funext i j; exact propext (hbond i j)
    have hm' : Spec.Member t1 = Spec.Chosen t s.realNop cond := by
      funext i; rw [← hlen1]; exact propext (b5 i)
    rw [hb', hm'] at c1
    have : t1.realNop = s.realNop := by omega
    rwa [this] at c1

/-- **C25, what holds.**  Full statement: after a search with a numeric cutoff and
`cluster_atoms(condition)`, an atom has cluster id -1 iff the condition is false for it, two atoms
satisfying the condition have the same id iff they are joined by a chain of such atoms that are
neighbours, and the ids are `1..k`.  Proved with neighbours being atoms of `sys.atoms` (the chain uses
stored atoms only).  For at least 200 atoms that is every neighbour (`C25_components`).  Missing:
padded systems (fewer than 200 atoms), where chains through ghost copies are not followed
(`C25_false_padded`). -/
theorem C25_partial (σ : StdSort) (s s1 s2 : System) (reals : List Atom) (hi : StoreInv s reals) (f : ℕ) (r : ℝ) (hr : r ≠ 0)
    (hp : Spec.PairsExact s r) (h1 : s.findNeighbors σ f (.cutoff r) = .ok s1) (cond : Atom → Except Fault ℤ) (c : ℝ) (n : ℕ)
    (h2 : s1.clusterAtoms cond c = .ok (s2, n)) :
    ∃ l lab, s2.getAtoms = .ok l ∧ l.map Atom.belongsto = (List.range s.natoms).map lab ∧
      Spec.ComponentLabels s.natoms (Spec.Chosen s1 s.natoms cond) (Spec.Linked s s1 s.natoms cond r f c) lab := by
  obtain ⟨hi1, hl1⟩ := storeInv_any hr hp h1 hi
  exact cluster_after σ s s1 s1 s2 reals _ hi f r hr hp h1 hi1 hl1 (fun i a _ ha => ⟨a, ha, rfl, rfl⟩) cond c n h2

/-- **C25** for systems without ghosts (at least 200 atoms): clusters are the connected components of
the graph of neighbours satisfying the condition. -/
theorem C25_components (σ : StdSort) (s0 s s1 s2 : System) (l : List Atom) (hreal : ∀ a ∈ l, a.ghost = false)
    (h200 : 200 ≤ l.length) (h0 : s0.assignAtoms l = .ok s) (f : ℕ) (r : ℝ) (hr : r ≠ 0) (hp : Spec.PairsExact s r)
    (h1 : s.findNeighbors σ f (.cutoff r) = .ok s1) (cond : Atom → Except Fault ℤ) (c : ℝ) (n : ℕ)
    (h2 : s1.clusterAtoms cond c = .ok (s2, n)) :
    let member := fun i => ∃ a v, s1.atoms[i]? = some a ∧ cond a = .ok v ∧ v ≠ 0
    ∃ l2 lab, s2.getAtoms = .ok l2 ∧ l2.map Atom.belongsto = (List.range l.length).map lab ∧
      Spec.ComponentLabels l.length member
        (fun i j => member i ∧ member j ∧ i ≠ j ∧ ∃ a b, l[i]? = some a ∧ l[j]? = some b ∧ s.getDistance b a < r ∧
          Spec.FilterAllows f a b ∧ (c ≠ 0 → s.getDistance b a ≤ c)) lab := by
  intro member
  obtain ⟨extra, e1, e2, e3, e4, e5, e6, -⟩ := assign_shape hreal h0
  obtain ⟨rfl, -⟩ := e6 h200
  rw [List.append_nil] at e1 e4
  have hi : StoreInv s l := ⟨hreal, ⟨[], by rw [e1, List.append_nil], by simp, e5⟩, by rw [e4, e1], e3⟩
  obtain ⟨l2, lab, h3, h4, h5⟩ := C25_partial σ s s1 s2 l hi f r hr hp h1 cond c n h2
  have hnat : s.natoms = l.length := e3
  rw [hnat] at h4 h5
  have hlen1 : s1.atoms.length = l.length := by
    rw [(cutoff_any hr hp h1).2.1, e1]
  have hm : Spec.Chosen s1 l.length cond = member := by
    funext i
    refine propext ⟨fun h => h.2, fun h => ⟨?_, h⟩⟩
    obtain ⟨a, v, ha, -⟩ := h
    have := (List.getElem?_eq_some_iff.1 ha).1
    omega
  have hl : Spec.Linked s s1 l.length cond r f c = fun i j => member i ∧ member j ∧ i ≠ j ∧ ∃ a b, l[i]? = some a ∧
      l[j]? = some b ∧ s.getDistance b a < r ∧ Spec.FilterAllows f a b ∧ (c ≠ 0 → s.getDistance b a ≤ c) := by
    funext i j
    unfold Spec.Linked Spec.Near
    rw [hm, e1]
    refine propext ⟨?_, ?_⟩
    · rintro ⟨g1, g2, a, b, g3, g4, ⟨g5, g6, g7⟩, g8⟩
      exact ⟨g1, g2, g5.symm, a, b, g3, g4, g6, g7, g8⟩
    · rintro ⟨g1, g2, g5, a, b, g3, g4, g6, g7, g8⟩
      exact ⟨g1, g2, a, b, g3, g4, ⟨g5.symm, g6, g7⟩, g8⟩
  rw [hl, hm] at h5
  exact ⟨l2, lab, h3, h4, h5⟩

/-- **C25, success**: with neighbour lists in range, a condition that can be evaluated for every atom and
gives 0 or 1 for the first one, `cluster_atoms` succeeds (whatever the neighbour lists are, symmetric
or not).  For fewer than 200 atoms the system must be padded as the atoms setter would do it. -/
theorem C25_succeeds (s : System) (reals : List Atom) (hi : StoreInv s reals) (hs : s.NbrsInRange)
    (cond : Atom → Except Fault ℤ) (c : ℝ) (hcond : ∀ a ∈ reals, ∃ v, cond a = .ok v)
    (h0 : ∃ a, reals[0]? = some a ∧ (cond a = .ok 0 ∨ cond a = .ok 1))
    (hpad : reals.length < 200 → boxSum s.getBox ≠ 0 ∧ (Spec.Skew s.getBox → s.getBox.det ≠ 0) ∧
      s.atoms.length = reals.length * (2 * padReps reals.length + 1) ^ 3)
    (hghost : 200 ≤ reals.length → s.ghostNop = 0) :
    ∃ s' n, s.clusterAtoms cond c = .ok (s', n) := by
  obtain ⟨gs, ha, hg, hgn⟩ := hi.ex
  obtain ⟨a0, ha0, hv0⟩ := h0
  have hl0 : 0 < reals.length := (List.getElem?_eq_some_iff.1 ha0).1
  obtain ⟨new, hnew⟩ := mapM_except_isOk (ε := Fault) (fun a => do let v ← cond a; return { a with condition := some v }) reals
    (fun a ham => by obtain ⟨v, hv⟩ := hcond a ham; exact ⟨{ a with condition := some v }, by rw [hv]; rfl⟩)
  obtain ⟨hlen, hall⟩ := mapM_except _ reals new hnew
  have hall' : ∀ (i : ℕ) (a : Atom), reals[i]? = some a → ∃ v, cond a = .ok v ∧ new[i]? = some { a with condition := some v } := by
    intro i a hia
    obtain ⟨b, hb, hb'⟩ := hall i a hia
    cases hca : cond a with
    | error e => rw [hca] at hb; cases hb
    | ok v => rw [hca] at hb; obtain rfl := Except.ok.inj hb; exact ⟨v, rfl, hb'⟩
  have hasg : ∃ s1, s.assignAtoms new = .ok s1 := by
    by_cases h200 : reals.length < 200
    · exact C05_assign_succeeds s new (by omega) (hpad h200).1 (hpad h200).2.1
    · unfold System.assignAtoms
      rw [if_neg (by omega)]; exact ⟨_, rfl⟩
  obtain ⟨s1, hs1⟩ := hasg
  obtain ⟨b1, b2, b3, b4, b5⟩ := cluster_state hi hs1 hlen hall'
  have hreal : ∀ a ∈ new, a.ghost = false := by
    intro a ham
    obtain ⟨k, hk, rfl⟩ := List.getElem_of_mem ham
    obtain ⟨v, -, h2⟩ := hall' k reals[k] (List.getElem?_eq_getElem (by omega))
    rw [List.getElem?_eq_getElem hk] at h2
    rw [Option.some.inj h2]
    exact hi.real reals[k] (List.getElem_mem (by omega))
  obtain ⟨extra, e1, e2, e3, -, -, e6, e7, -⟩ := assign_shape hreal hs1
  have hlen1 : s1.atoms.length = s.atoms.length := by
    by_cases h200 : reals.length < 200
    · rw [e1, List.length_append, (e7 (by omega)).1, repNew_length, (hpad h200).2.2, hlen]
      have hc := repCells_length (padReps reals.length) (padReps reals.length) (padReps reals.length)
      have : (2 * padReps reals.length + 1) ^ 3 = (repCells (padReps reals.length) (padReps reals.length) (padReps reals.length)).length + 1 := by
        rw [hc]; ring
      rw [this]; ring
    · rw [e1, (e6 (by omega)).1, ha, List.length_append, List.length_append, ← hgn, hghost (by omega), hlen]; simp
  have hir : s1.NbrsInRange := by
    intro a ham x hx
    obtain ⟨k, hk, rfl⟩ := List.getElem_of_mem ham
    by_cases hkr : k < reals.length
    · have hka : s.atoms[k]? = some s.atoms[k] := List.getElem?_eq_getElem (by omega)
      obtain ⟨v, -, h2⟩ := b4 k _ hkr hka
      rw [List.getElem?_eq_getElem hk] at h2
      rw [Option.some.inj h2] at hx
      rw [hlen1]
      exact hs s.atoms[k] (List.getElem_mem _) x hx
    · have : s1.atoms[k] ∈ extra := by
        have h2 : extra[k - new.length]? = some s1.atoms[k] := by
          rw [← List.getElem?_append_right (l₁ := new) (by omega), ← e1]
          exact List.getElem?_eq_getElem hk
        exact List.mem_of_getElem? h2
      rw [(e2 _ this).2.2] at hx
      simp at hx
  have hn1 : s1.realNop ≤ s1.atoms.length := by rw [e1, e3]; simp
  obtain ⟨b, hb, -, hbr⟩ := findClusters_ok s1 c hir hn1
  set s2 := (s1.clusterStart c).ofMem (withB (s1.clusterStart c).mem b) with hs2
  have hs2l : s2.atoms.length = s1.atoms.length := by rw [hs2, ofMem_length, clusterStart_length]
  have hs2a : ∀ (i : ℕ) (a : Atom), s1.atoms[i]? = some a →
      s2.atoms[i]? = some { a with cutoff := if c ≠ 0 then some c else a.cutoff, belongsto := b i } := fun i a h => findClusters_atom h
  have hlc : ∃ s' n, s2.largestCluster = .ok (s', n) := by
    unfold System.largestCluster
    rw [if_neg]
    · exact ⟨_, _, rfl⟩
    · push Not
      refine ⟨?_, ?_, ?_⟩
      · intro a ham x hx
        obtain ⟨k, hk, rfl⟩ := List.getElem_of_mem ham
        have hk1 : k < s1.atoms.length := by omega
        have h2 := hs2a k _ (List.getElem?_eq_getElem hk1)
        rw [List.getElem?_eq_getElem hk] at h2
        rw [Option.some.inj h2] at hx
        rw [hs2l]
        exact hir s1.atoms[k] (List.getElem_mem _) x hx
      · rw [hs2l]; exact hn1
      · intro a ham hne
        obtain ⟨k, hk, rfl⟩ := List.getElem_of_mem ham
        rw [List.length_take] at hk
        have hkr : k < s1.realNop := by
          have : s2.realNop = s1.realNop := rfl
          omega
        have hk1 : k < s1.atoms.length := by omega
        have h2 := hs2a k _ (List.getElem?_eq_getElem hk1)
        rw [List.getElem?_eq_getElem (by omega)] at h2
        rw [List.getElem_take] at hne ⊢
        rw [Option.some.inj h2] at hne ⊢
        exact (hbr k hkr).1.resolve_left hne
  obtain ⟨s', n, hfin⟩ := hlc
  refine ⟨s', n, ?_⟩
  unfold System.clusterAtoms
  have hga : s.getAtom 0 = .ok a0 := by
    unfold System.getAtom
    rw [ha, List.getElem?_append_left hl0, ha0]
  have hg : s.getAtoms = .ok reals := by
    unfold System.getAtoms
    rw [hi.realNop, ha, if_pos (by simp)]
    simp
  rw [hga]
  change (match cond a0 with | .error _ => _ | .ok v => _) = _
  rcases hv0 with hv0 | hv0 <;> rw [hv0] <;> dsimp only
  all_goals
    rw [if_pos (by simp), hg]
    change Except.bind (reals.mapM fun a => do let v ← cond a; return { a with condition := some v }) _ = _
    rw [hnew]
    change Except.bind (s.assignAtoms new) _ = _
    rw [hs1]
    change Except.bind (s1.findClusters c) _ = _
    rw [hb]
    exact hfin

theorem pairsExact_assign {s0 s : System} {l : List Atom} (hreal : ∀ a ∈ l, a.ghost = false) (h0 : s0.assignAtoms l = .ok s) (hn : l.length ≤ 2300) (r : ℝ) :
    Spec.PairsExact s r := by
  obtain ⟨extra, -, -, e3, -⟩ := assign_shape hreal h0
  exact .inl (by unfold System.natoms; omega)

/-- A search with a numeric cutoff after an atom assignment leaves a system that can be clustered. -/
theorem C25_run (σ : StdSort) (s0 s s1 : System) (l : List Atom) (hreal : ∀ a ∈ l, a.ghost = false) (hl : 0 < l.length)
    (hdet : Spec.Skew s0.getBox → s0.getBox.det ≠ 0) (h0 : s0.assignAtoms l = .ok s) (f : ℕ) (r : ℝ)
    (hr : r ≠ 0) (hp : Spec.PairsExact s r) (h1 : s.findNeighbors σ f (.cutoff r) = .ok s1) (cond : Atom → Except Fault ℤ) (c : ℝ)
    (hcond : ∀ a, ∃ v, cond a = .ok v ∧ (v = 0 ∨ v = 1)) : ∃ s2 n, s1.clusterAtoms cond c = .ok (s2, n) := by
  obtain ⟨extra, e1, e2, e3, e4, e5, e6, e7, -⟩ := assign_shape hreal h0
  have hi : StoreInv s l := ⟨hreal, ⟨extra, e1, fun a ha => (e2 a ha).1, e5⟩, by rw [e4, e1], e3⟩
  obtain ⟨hi1, hlen⟩ := storeInv_any hr hp h1 hi
  obtain ⟨hs1, hal, hat⟩ := cutoff_any hr hp h1
  have hbox : s1.getBox = s.getBox := by rw [hs1]; rfl
  have hgn : s1.ghostNop = s.ghostNop := by rw [hs1]
  replace hlen := hlen.trans e3
  refine C25_succeeds s1 _ hi1 ?_ cond c (fun a _ => let ⟨v, hv, _⟩ := hcond a; ⟨v, hv⟩) ?_ ?_ ?_
  · intro a ha x hx
    obtain ⟨k, hk⟩ := List.mem_iff_getElem?.1 ha
    obtain ⟨hk', hperm, -⟩ := hat k a hk
    obtain ⟨nb, h3, -⟩ := (cutoffNbs_spec (r := r) (f := f) (List.getElem?_eq_getElem hk')).2.2 x (hperm.mem_iff.1 hx)
    rw [hal]; exact (List.getElem?_eq_some_iff.1 h3).1
  · refine ⟨(s1.atoms.take s.realNop)[0], List.getElem?_eq_getElem (by omega), ?_⟩
    obtain ⟨v, hv, h3⟩ := hcond (s1.atoms.take s.realNop)[0]
    rw [hv]
    rcases h3 with rfl | rfl
    · exact .inl rfl
    · exact .inr rfl
  · rw [hlen, hbox]
    intro h200
    obtain ⟨g1, g2, g3, g4⟩ := e7 h200
    rw [g2]
    refine ⟨g3, hdet, ?_⟩
    rw [hal, e1, List.length_append, g1, repNew_length]
    have hc := repCells_length (padReps l.length) (padReps l.length) (padReps l.length)
    have : (2 * padReps l.length + 1) ^ 3 = (repCells (padReps l.length) (padReps l.length) (padReps l.length)).length + 1 := by
      rw [hc]; ring
    rw [this]; ring
  · rw [hlen, hgn, e5]
    intro h200
    rw [(e6 h200).1]; rfl

/-- `cluster_atoms` keeps the atoms and everything about them except the cluster results, the condition and
the cutoff. -/
theorem clusterAtoms_frame {s s' : System} {reals : List Atom} {cond : Atom → Except Fault ℤ} {c : ℝ} {n : ℕ}
    (hi : StoreInv s reals) (h : s.clusterAtoms cond c = .ok (s', n)) :
    ∃ l, s'.getAtoms = .ok l ∧ l.length = reals.length ∧ ∀ (i : ℕ) (a : Atom), reals[i]? = some a → ∃ b v, l[i]? = some b ∧
      cond a = .ok v ∧
      b = { a with condition := some v, cutoff := b.cutoff, belongsto := b.belongsto, lcluster := b.lcluster, issurface := b.issurface } ∧
      (b.belongsto = -1 ↔ v = 0) ∧ (b.lcluster = true ↔ b.belongsto = s'.maxclusterid) ∧
      (b.belongsto = -1 ∨ (1 ≤ b.belongsto ∧ b.belongsto ≤ reals.length)) ∧
      System.maxLoop (fun (t : ℕ) => (l.filter fun a => a.belongsto == (t : ℤ)).length) (List.range reals.length) (0, s.maxclusterid) =
        (n, s'.maxclusterid) := by
  obtain ⟨gs, ha, -, -⟩ := hi.ex
  obtain ⟨new, t1, t2, a1, a2, a3, a4, a5⟩ := clusterAtoms_ok hi h
  obtain ⟨b1, b2, b3, b4, b5⟩ := cluster_state hi a1 a4 a5
  obtain ⟨c1, c2⟩ := findClusters_inRange a2
  obtain ⟨lab, hb, -, hbr⟩ := findClusters_ok t1 c c1 c2
  have hmax : t2.maxclusterid = s.maxclusterid := by
    rw [a2] at hb
    rw [Except.ok.inj hb]
    show t1.maxclusterid = _
    rw [b3.eq]
  have hreal2 : t2.realNop = t1.realNop := by rw [a2] at hb; rw [Except.ok.inj hb]; rfl
  have hlen2 : t2.atoms.length = t1.atoms.length := by
    rw [a2] at hb; rw [Except.ok.inj hb, ofMem_length, clusterStart_length]
  have hat : ∀ (i : ℕ) (a : Atom), t1.atoms[i]? = some a →
      t2.atoms[i]? = some { a with cutoff := if c ≠ 0 then some c else a.cutoff, belongsto := lab i } := by
    intro i a hia
    rw [a2] at hb
    rw [Except.ok.inj hb]
    exact findClusters_atom hia
  obtain ⟨d1, d2, d3, d4, d5, d6⟩ := largestCluster_ok a3
  have hfreq : t2.clusterFreq = fun (t : ℕ) => ((s'.atoms.take reals.length).filter fun a => a.belongsto == (t : ℤ)).length := by
    funext t
    unfold System.clusterFreq
    rw [hreal2, b1]
    have e : (t2.atoms.take reals.length).map Atom.belongsto = (s'.atoms.take reals.length).map Atom.belongsto := by
      refine List.ext_getElem? fun i => ?_
      simp only [List.getElem?_map, List.getElem?_take]
      by_cases hi : i < reals.length
      · rw [if_pos hi, if_pos hi]
        have : i < t2.atoms.length := by omega
        obtain ⟨b, e1, e2, -⟩ := d6 i _ (List.getElem?_eq_getElem this)
        rw [e1, List.getElem?_eq_getElem this]; simp [e2]
      · rw [if_neg hi, if_neg hi]
    have e' : ∀ l : List Atom, (l.filter fun a => a.belongsto == (t : ℤ)).length = ((l.map Atom.belongsto).filter fun z => z == (t : ℤ)).length := by
      intro l
      rw [List.filter_map, List.length_map]; rfl
    rw [e', e', e]
  refine ⟨s'.atoms.take reals.length, ?_, ?_, fun i a hia => ?_⟩
  · unfold System.getAtoms
    rw [if_pos (by omega), d2, hreal2, b1]
  · rw [List.length_take]; omega
  · have hlt : i < reals.length := (List.getElem?_eq_some_iff.1 hia).1
    obtain ⟨v, hv, e1⟩ := b4 i a hlt (by rw [ha, List.getElem?_append_left hlt]; exact hia)
    obtain ⟨b, e2, e3, e4, e5⟩ := d6 i _ (hat i _ e1)
    have hm : lab i ≠ -1 ↔ v ≠ 0 := by
      rw [(hbr i (by omega)).2, b5]
      constructor
      · rintro ⟨-, a', v', g1, g2, g3⟩
        rw [ha, List.getElem?_append_left hlt, hia] at g1
        obtain rfl := Option.some.inj g1
        rw [hv] at g2
        rwa [Except.ok.inj g2]
      · intro hv0
        exact ⟨hlt, a, v, by rw [ha, List.getElem?_append_left hlt]; exact hia, hv, hv0⟩
    refine ⟨b, v, by rw [List.getElem?_take, if_pos hlt]; exact e2, hv, ?_, ?_, ?_, ?_, ?_⟩
    · conv_lhs => rw [e5]
      rw [e5]
    · rw [e3]
      exact not_iff_not.1 hm
    · rw [e4 (by omega), e3]
    · rw [e3, ← b1]
      exact (hbr i (by omega)).1
    · rw [← hfreq, ← hmax, ← b1, ← hreal2]; exact d5

/-- Padding of an orthogonal system with fewer than 200 atoms scales the box and keeps it orthogonal. -/
theorem assign_box {s s' : System} {l : List Atom} (hl : l.length < 200) (h : s.assignAtoms l = .ok s')
    (hsk : ¬ Skewed (scaleBox s.getBox (padReps l.length) (padReps l.length) (padReps l.length))) :
    s'.box = scaleBox s.getBox (padReps l.length) (padReps l.length) (padReps l.length) ∧ s'.triclinic = s.triclinic := by
  unfold System.assignAtoms at h
  rw [if_pos hl] at h
  split_ifs at h
  dsimp only at h
  unfold System.repeatAtoms at h
  dsimp only at h
  rw [if_pos rfl] at h
  unfold System.setBox at h
  rw [if_neg hsk] at h
  obtain rfl := Except.ok.inj h
  exact ⟨rfl, rfl⟩

/-- Two atoms that are close only through the periodic boundary. -/
noncomputable def edgeAtoms : List Atom := [{ pos := ⟨1 / 2, 0, 0⟩ }, { pos := ⟨19 / 2, 0, 0⟩ }]

/-- **C25 is false for padded systems**: two atoms at distance 1 through the periodic boundary of the
user's box (10), clustering with cutoff 2: both satisfy the condition, but they get different cluster
numbers, because the system is padded to 250 atoms and neighbours that are ghosts are skipped. -/
theorem C25_false_padded (σ : StdSort) : ∃ (s0 s s1 s2 : System) (n : ℕ) (a b : Atom),
    System.init.setBox (Spec.diagBox 10 10 10) = .ok s0 ∧ s0.assignAtoms edgeAtoms = .ok s ∧
    s.findNeighbors σ 0 (.cutoff 2) = .ok s1 ∧ s1.clusterAtoms (fun _ => .ok 1) 0 = .ok (s2, n) ∧
    s2.getAtoms = .ok [a, b] ∧ a.belongsto ≠ b.belongsto ∧
    a.pos = ⟨1 / 2, 0, 0⟩ ∧ b.pos = ⟨19 / 2, 0, 0⟩ ∧
    ∃ v, Spec.IsImage (Spec.diagBox 10 10 10) (b.pos - a.pos) v ∧ V3.norm v = 1 := by
  obtain ⟨s0, h1⟩ := setBox_ok (s := System.init) (b := Spec.diagBox 10 10 10) (fun h => absurd h (not_skewed_diag _ _ _))
  obtain ⟨f1, f2, f3, -⟩ := setBox_frame h1
  have htri0 : s0.triclinic = false := by
    unfold System.setBox at h1
    rw [if_neg (not_skewed_diag _ _ _)] at h1
    obtain rfl := Except.ok.inj h1
    rfl
  have hb0 : s0.getBox = Spec.diagBox 10 10 10 := by simp [System.getBox, f1, f2, System.init]
  have hpr : padReps edgeAtoms.length = 2 := by decide +kernel
  have hnsk : ¬ Spec.Skew s0.getBox := by rw [hb0, ← skewed_iff]; exact not_skewed_diag _ _ _
  obtain ⟨s, h2⟩ := C05_assign_succeeds s0 edgeAtoms (by simp [edgeAtoms]) (by rw [hb0]; norm_num [boxSum, Spec.diagBox])
    (fun h => absurd h hnsk)
  have hsc : scaleBox s0.getBox 2 2 2 = Spec.diagBox 50 50 50 := by
    rw [hb0]
    simp only [scaleBox, Spec.diagBox, V3.smul]
    norm_num
  obtain ⟨g1, g2⟩ := assign_box (by simp [edgeAtoms]) h2 (by rw [hpr, hsc]; exact not_skewed_diag _ _ _)
  rw [hpr, hsc] at g1
  have hreal : ∀ a ∈ edgeAtoms, a.ghost = false := by simp [edgeAtoms]
  obtain ⟨extra, e1, e2, e3, e4, e5, -, e7, -⟩ := assign_shape hreal h2
  have hi : StoreInv s edgeAtoms := ⟨hreal, ⟨extra, e1, fun a ha => (e2 a ha).1, e5⟩, by rw [e4, e1], e3⟩
  have hlen : s.atoms.length = 250 := by
    obtain ⟨k1, -⟩ := e7 (by simp [edgeAtoms])
    have hc := repCells_length 2 2 2
    rw [e1, List.length_append, k1, repNew_length, hpr]
    simp only [edgeAtoms, List.length_cons, List.length_nil]
    omega
  have hrn : s.realNop = 2 := e3
  obtain ⟨s1, h3⟩ := (C09_overrun σ s 0 2 (by norm_num) (by omega) (by omega)).2 (by
    intro k hk
    rw [← cutoffList_length (List.getElem?_eq_getElem hk) (cutoffNbs_spec (List.getElem?_eq_getElem hk))]
    exact (cutoffNbs_le _ _ _ _).trans (by omega))
  obtain ⟨s2, n, h4⟩ := C25_run σ s0 s s1 edgeAtoms hreal (by simp [edgeAtoms]) (fun h => absurd h hnsk)
    h2 0 2 (by norm_num) (pairsExact_assign hreal h2 (by simp [edgeAtoms]) _) h3 (fun _ => .ok 1) 0 (fun _ => ⟨1, rfl, .inr rfl⟩)
  obtain ⟨l, lab, h5, h6, h7⟩ := C25_partial σ s s1 s2 edgeAtoms hi 0 2 (by norm_num) (.inl (by unfold System.natoms; omega)) h3 _ 0 n h4
  have hnat : s.natoms = 2 := hrn
  rw [hnat] at h6 h7
  have hi1 := storeInv_cutoff (by norm_num) (by omega) h3 hi
  have hs1 : s1.atoms = (List.range s.atoms.length).map (cutoffAtom s 2 0) := by
    rw [(findNeighbors_cutoff_ok (by norm_num) (by omega) h3).2.1]
  have ha0 : s.atoms[0]? = some { pos := ⟨1 / 2, 0, 0⟩ } := by rw [e1]; rfl
  have ha1 : s.atoms[1]? = some { pos := ⟨19 / 2, 0, 0⟩ } := by rw [e1]; rfl
  have hr0 : ∀ k, k < 2 → (s1.atoms.take s.realNop)[k]? = some (cutoffAtom s 2 0 k) := by
    intro k hk
    rw [hrn, List.getElem?_take, if_pos hk, hs1, List.getElem?_map, List.getElem?_range (by omega)]; rfl
  obtain ⟨l', h5', h8, h9⟩ := clusterAtoms_frame hi1 h4
  rw [h5] at h5'
  obtain rfl := Except.ok.inj h5'
  have hll : l.length = 2 := by rw [h8, hs1, hrn]; simp; omega
  obtain ⟨a, b, rfl⟩ := List.length_eq_two.1 hll
  have hpa : a.pos = ⟨1 / 2, 0, 0⟩ := by
    obtain ⟨a', v, k1, -, k2, -⟩ := h9 0 _ (hr0 0 (by norm_num))
    obtain rfl : a = a' := Option.some.inj k1
    rw [k2]
    show (s.mem 0).pos = _
    rw [(mem_of_getElem? ha0).2]
  have hpb : b.pos = ⟨19 / 2, 0, 0⟩ := by
    obtain ⟨a', v, k1, -, k2, -⟩ := h9 1 _ (hr0 1 (by norm_num))
    obtain rfl : b = a' := Option.some.inj k1
    rw [k2]
    show (s.mem 1).pos = _
    rw [(mem_of_getElem? ha1).2]
  refine ⟨s0, s, s1, s2, n, a, b, h1, h2, h3, h4, h5, ?_, hpa, hpb, ?_⟩
  · have hl0 : a.belongsto = lab 0 ∧ b.belongsto = lab 1 := by
      simpa [List.range_succ] using h6
    rw [hl0.1, hl0.2]
    have hch : ∀ k, k < 2 → Spec.Chosen s1 2 (fun _ => .ok 1) k := by
      intro k hk
      refine ⟨hk, s1.atoms[k]'(by rw [hs1]; simp; omega), 1, List.getElem?_eq_getElem _, rfl, by norm_num⟩
    intro heq
    rw [h7.same 0 (by norm_num) 1 (by norm_num) (hch 0 (by norm_num)) (hch 1 (by norm_num))] at heq
    rcases Relation.ReflTransGen.cases_head heq with h | ⟨j, h, -⟩
    · norm_num at h
    · obtain ⟨-, hj, x, y, k1, k2, k3, -⟩ := h
      have hj1 : j = 1 := by have := hj.1; have := k3.1; omega
      subst hj1
      rw [ha0] at k1
      rw [ha1] at k2
      obtain rfl := Option.some.inj k1
      obtain rfl := Option.some.inj k2
      have hd := k3.2.1
      rw [System.getDistance, image_diag s 50 50 50 (by norm_num) (by norm_num) (by norm_num) (by rw [g2, htri0]) g1] at hd
      have : V3.norm ⟨9, 0, 0⟩ < 2 := by
        convert hd using 3 <;> norm_num [wrap]
      rw [norm_axis_x 9 (by norm_num)] at this
      norm_num at this
  · rw [hpa, hpb]
    refine ⟨⟨-1, 0, 0⟩, ⟨-1, 0, 0, ?_⟩, ?_⟩
    · simp only [Spec.diagBox, Spec.latticeVec]
      ext <;> norm_num
    · rw [V3.norm, show V3.normSq ⟨-1, 0, 0⟩ = (1 : ℝ) ^ 2 by norm_num [V3.normSq]]
      exact Real.sqrt_sq (by norm_num)

/-! ## C26 -/

theorem maxLoop_spec (freq : ℕ → ℕ) : ∀ (ts : List ℕ) (M : ℕ) (c : ℤ),
    let r := System.maxLoop freq ts (M, c)
    M ≤ r.1 ∧ (∀ t ∈ ts, freq (t + 1) ≤ r.1) ∧
      ((r.1 = M ∧ r.2 = c) ∨ (M < r.1 ∧ ∃ t ∈ ts, r.2 = (t : ℤ) + 1 ∧ freq (t + 1) = r.1)) := by
  intro ts
  induction ts with
  | nil => intro M c; exact ⟨le_rfl, fun _ h => absurd h List.not_mem_nil, .inl ⟨rfl, rfl⟩⟩
  | cons t ts ih =>
    intro M c
    simp only [System.maxLoop]
    split_ifs with h
    · obtain ⟨h1, h2, h3⟩ := ih (freq (t + 1)) ((t : ℤ) + 1)
      refine ⟨by omega, ?_, .inr ?_⟩
      · intro u hu
        rcases List.mem_cons.1 hu with rfl | hu
        · exact h1
        · exact h2 u hu
      · rcases h3 with ⟨h3, h4⟩ | ⟨h3, u, hu, h4⟩
        · exact ⟨by omega, t, List.mem_cons_self, h4, h3.symm⟩
        · exact ⟨by omega, u, List.mem_cons_of_mem _ hu, h4⟩
    · obtain ⟨h1, h2, h3⟩ := ih M c
      refine ⟨h1, ?_, ?_⟩
      · intro u hu
        rcases List.mem_cons.1 hu with rfl | hu
        · omega
        · exact h2 u hu
      · rcases h3 with h3 | ⟨h3, u, hu, h4⟩
        · exact .inl h3
        · exact .inr ⟨h3, u, List.mem_cons_of_mem _ hu, h4⟩

/-- **C26, what holds.**  For every successful `cluster_atoms(condition)`, whatever was clustered before: the
returned number is the size of a largest cluster and 0 if no atom satisfies the condition; if some atom
does, the atoms with `largest_cluster=True` are exactly those of one largest cluster.  Missing: if no
atom satisfies the condition, atoms can be flagged nevertheless (`C26_false`). -/
theorem C26_partial (s s' : System) (reals : List Atom) (hi : StoreInv s reals) (cond : Atom → Except Fault ℤ) (c : ℝ) (n : ℕ)
    (h : s.clusterAtoms cond c = .ok (s', n)) :
    ∃ l, s'.getAtoms = .ok l ∧ l.length = reals.length ∧
      (∀ t : ℤ, t ≠ -1 → (l.filter fun a => a.belongsto = t).length ≤ n) ∧
      ((∃ a ∈ reals, ∃ v, cond a = .ok v ∧ v ≠ 0) → 0 < n ∧ ∃ t : ℤ, t ≠ -1 ∧ (l.filter fun a => a.belongsto = t).length = n ∧
        ∀ a ∈ l, a.lcluster = true ↔ a.belongsto = t) ∧
      ((∀ a ∈ reals, cond a = .ok 0) → n = 0) := by
  obtain ⟨l, h1, h2, h3⟩ := clusterAtoms_frame hi h
  have hat : ∀ (i : ℕ) (b : Atom), l[i]? = some b → ∃ a v, reals[i]? = some a ∧ cond a = .ok v ∧ (b.belongsto = -1 ↔ v = 0) ∧
      (b.lcluster = true ↔ b.belongsto = s'.maxclusterid) ∧ (b.belongsto = -1 ∨ (1 ≤ b.belongsto ∧ b.belongsto ≤ reals.length)) := by
    intro i b hb
    have hlt := (List.getElem?_eq_some_iff.1 hb).1
    obtain ⟨b', v, k1, k2, -, k3, k4, k5, -⟩ := h3 i reals[i] (List.getElem?_eq_getElem (by omega))
    rw [hb] at k1
    obtain rfl := Option.some.inj k1
    exact ⟨_, v, List.getElem?_eq_getElem (by omega), k2, k3, k4, k5⟩
  have hbel : ∀ b ∈ l, b.belongsto = -1 ∨ (1 ≤ b.belongsto ∧ b.belongsto ≤ reals.length) := by
    intro b hb
    obtain ⟨i, hi'⟩ := List.mem_iff_getElem?.1 hb
    obtain ⟨a, v, -, -, -, -, k⟩ := hat i b hi'
    exact k
  have hfl : ∀ b ∈ l, b.lcluster = true ↔ b.belongsto = s'.maxclusterid := by
    intro b hb
    obtain ⟨i, hi'⟩ := List.mem_iff_getElem?.1 hb
    obtain ⟨a, v, -, -, -, k, -⟩ := hat i b hi'
    exact k
  set freq : ℕ → ℕ := fun t => (l.filter fun a => a.belongsto == (t : ℤ)).length with hfreq
  have hmax : System.maxLoop freq (List.range reals.length) (0, s.maxclusterid) = (n, s'.maxclusterid) ∨ reals = [] := by
    cases hr : reals with
    | nil => exact .inr rfl
    | cons a as =>
      left
      obtain ⟨b, v, -, -, -, -, -, -, k⟩ := h3 0 a (by rw [hr]; rfl)
      rw [hr] at k; exact k
  have hne : reals ≠ [] := by
    rintro rfl
    unfold System.clusterAtoms at h
    obtain ⟨new, t1, t2, a1, a2, a3, a4, a5⟩ := clusterAtoms_ok hi h
    obtain rfl : new = [] := List.length_eq_zero_iff.1 a4
    rw [(C05_errors s).1] at a1
    cases a1
  replace hmax := hmax.resolve_right hne
  obtain ⟨m1, m2, m3⟩ := maxLoop_spec freq (List.range reals.length) 0 s.maxclusterid
  rw [hmax] at m1 m2 m3
  dsimp only at m1 m2 m3
  have hfeq : ∀ t : ℕ, (l.filter fun a => a.belongsto = (t : ℤ)).length = freq t := by
    intro t
    rw [hfreq]
    dsimp only
    congr 1
  have hle : ∀ t : ℤ, t ≠ -1 → (l.filter fun a => a.belongsto = t).length ≤ n := by
    intro t ht
    by_cases hex : ∃ b ∈ l, b.belongsto = t
    · obtain ⟨b, hb, rfl⟩ := hex
      obtain ⟨k1, k2⟩ := (hbel b hb).resolve_left ht
      obtain ⟨u, hu⟩ : ∃ u : ℕ, b.belongsto = ((u + 1 : ℕ) : ℤ) := ⟨(b.belongsto - 1).toNat, by omega⟩
      rw [hu, hfeq]
      exact m2 u (List.mem_range.2 (by omega))
    · rw [List.filter_eq_nil_iff.2]
      · simp
      · intro b hb
        simpa using fun h => hex ⟨b, hb, h⟩
  refine ⟨l, h1, h2, hle, ?_, ?_⟩
  · rintro ⟨a, ham, v, hv, hv0⟩
    obtain ⟨i, hi'⟩ := List.mem_iff_getElem?.1 ham
    obtain ⟨b, v', k1, k2, -, k3, -⟩ := h3 i a hi'
    rw [hv] at k2
    obtain rfl := Except.ok.inj k2
    have hpos : 0 < n := by
      refine lt_of_lt_of_le ?_ (hle b.belongsto (fun h => hv0 (k3.1 h)))
      exact List.length_pos_of_mem (List.mem_filter.2 ⟨List.mem_of_getElem? k1, by simp⟩)
    refine ⟨hpos, ?_⟩
    rcases m3 with ⟨m3, -⟩ | ⟨-, t, -, m4, m5⟩
    · omega
    · refine ⟨s'.maxclusterid, by omega, ?_, hfl⟩
      rw [m4, show ((t : ℤ) + 1) = ((t + 1 : ℕ) : ℤ) by push_cast; rfl, hfeq, m5]
  · intro hall
    rcases m3 with ⟨m3, -⟩ | ⟨m3, t, ht, m4, m5⟩
    · exact m3
    · exfalso
      rw [← m5] at m3
      obtain ⟨b, hb⟩ := List.exists_mem_of_length_pos m3
      rw [List.mem_filter] at hb
      obtain ⟨i, hi'⟩ := List.mem_iff_getElem?.1 hb.1
      obtain ⟨a, v, k1, k2, k3, -⟩ := hat i b hi'
      rw [hall a (List.mem_of_getElem? k1)] at k2
      have := k3.2 (Except.ok.inj k2).symm
      have h2 := hb.2
      rw [this] at h2
      simp at h2
      omega

/-- **C26 is false** when no atom satisfies the condition: on a new system every atom is then reported as a
member of the largest cluster (of size 0). -/
theorem C26_false (s0 s s1 : System) (l : List Atom) (σ : StdSort) (hreal : ∀ a ∈ l, a.ghost = false) (hl : 0 < l.length)
    (hn : l.length ≤ 2300) (hdet : Spec.Skew s0.getBox → s0.getBox.det ≠ 0) (h0 : s0.assignAtoms l = .ok s)
    (hnew : s0.maxclusterid = -1) (f : ℕ) (r : ℝ) (hr : r ≠ 0) (h1 : s.findNeighbors σ f (.cutoff r) = .ok s1) (c : ℝ) :
    ∃ s2 l2, s1.clusterAtoms (fun _ => .ok 0) c = .ok (s2, 0) ∧ s2.getAtoms = .ok l2 ∧ l2.length = l.length ∧
      ∀ a ∈ l2, a.lcluster = true := by
  obtain ⟨s2, n, h2⟩ := C25_run σ s0 s s1 l hreal hl hdet h0 f r hr (pairsExact_assign hreal h0 hn r) h1 (fun _ => .ok 0) c (fun _ => ⟨0, rfl, .inl rfl⟩)
  obtain ⟨extra, e1, e2, e3, e4, e5, e6, e7, e8⟩ := assign_shape hreal h0
  have hi : StoreInv s l := ⟨hreal, ⟨extra, e1, fun a ha => (e2 a ha).1, e5⟩, by rw [e4, e1], e3⟩
  have hi1 := storeInv_cutoff hr (by omega) h1 hi
  obtain ⟨hle, hs1, -⟩ := findNeighbors_cutoff_ok hr (by omega) h1
  have hlen : (s1.atoms.take s.realNop).length = l.length := by rw [hs1]; simp; omega
  have hm1 : s1.maxclusterid = -1 := by
    have hm : s1.maxclusterid = s.maxclusterid := by rw [hs1]
    rw [hm, e8.eq]; exact hnew
  obtain ⟨l2, h3, h4, h5⟩ := clusterAtoms_frame hi1 h2
  obtain ⟨l2', h3', h4', -, -, h6⟩ := C26_partial s1 s2 _ hi1 _ c n h2
  obtain rfl := h6 (fun _ _ => rfl)
  refine ⟨s2, l2, h2, h3, by omega, fun b hb => ?_⟩
  obtain ⟨i, hi'⟩ := List.mem_iff_getElem?.1 hb
  have hlt := (List.getElem?_eq_some_iff.1 hi').1
  obtain ⟨b', v, k1, k2, -, k3, k4, -, k5⟩ := h5 i _ (List.getElem?_eq_getElem (by omega))
  rw [hi'] at k1
  obtain rfl := Option.some.inj k1
  have hv : v = 0 := (Except.ok.inj k2).symm
  rw [k4, k3.2 hv]
  obtain ⟨-, -, m3⟩ := maxLoop_spec (fun (t : ℕ) => (l2.filter fun a => a.belongsto == (t : ℤ)).length) (List.range (s1.atoms.take s.realNop).length) 0 s1.maxclusterid
  rw [k5] at m3
  rcases m3 with ⟨-, m3⟩ | ⟨m3, -⟩
  · rw [← hm1]; exact m3.symm
  · simp at m3

/-- The hypotheses of C25 and C26 are met by a row of 200 atoms with unit spacing, neighbours within 3/2,
clustered with any condition giving 0 or 1. -/
example (σ : StdSort) (cond : Atom → Except Fault ℤ) (hcond : ∀ a, ∃ v, cond a = .ok v ∧ (v = 0 ∨ v = 1)) :
    ∃ s0 s s1 s2 : System, ∃ n, System.init.setBox (Spec.diagBox 1000 10 10) = .ok s0 ∧ s0.maxclusterid = -1 ∧
      s0.assignAtoms ((List.range 200).map fun (k : ℕ) => { pos := ⟨k, 0, 0⟩ }) = .ok s ∧
      s.findNeighbors σ 0 (.cutoff (3 / 2)) = .ok s1 ∧ s1.clusterAtoms cond 0 = .ok (s2, n) := by
  obtain ⟨s0, h1⟩ := setBox_ok (s := System.init) (b := Spec.diagBox 1000 10 10) (fun h => absurd h (not_skewed_diag _ _ _))
  obtain ⟨f1, f2, f3, -⟩ := setBox_frame h1
  have hm : s0.maxclusterid = -1 := by rw [(setBox_rest h1).eq]; rfl
  have hb0 : s0.getBox = Spec.diagBox 1000 10 10 := by simp [System.getBox, f1, f2, System.init]
  have hnsk : ¬ Spec.Skew s0.getBox := by rw [hb0, ← skewed_iff]; exact not_skewed_diag _ _ _
  set l : List Atom := (List.range 200).map fun (k : ℕ) => { pos := ⟨k, 0, 0⟩ } with hl
  have hlen : l.length = 200 := by rw [hl, List.length_map, List.length_range]
  have hreal : ∀ a ∈ l, a.ghost = false := by
    intro a ha
    obtain ⟨k, -, rfl⟩ := List.mem_map.1 ha
    rfl
  have h2 : s0.assignAtoms l = .ok (s0.setAtoms l) := by
    unfold System.assignAtoms; rw [if_neg (by omega)]
  have hrn : (s0.setAtoms l).realNop = 200 := by
    rw [← hlen]; exact countReal_of_real hreal
  have hal : (s0.setAtoms l).atoms.length = 200 := hlen
  obtain ⟨s1, h3⟩ := (C09_overrun σ (s0.setAtoms l) 0 (3 / 2) (by norm_num) (by omega) (by omega)).2 (by
    intro k hk
    rw [← cutoffList_length (List.getElem?_eq_getElem hk) (cutoffNbs_spec (List.getElem?_eq_getElem hk))]
    exact (cutoffNbs_le _ _ _ _).trans (by omega))
  obtain ⟨s2, n, h4⟩ := C25_run σ s0 _ s1 l hreal (by omega) (fun h => absurd h hnsk) h2 0 (3 / 2) (by norm_num) (pairsExact_assign hreal h2 (by omega) _) h3
    cond 0 hcond
  exact ⟨s0, _, s1, s2, n, h1, hm, h2, h3, h4⟩

end Pyscal
