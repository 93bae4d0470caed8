import Verif.Model.Solids
import Verif.Lemmas.Dfs
import Verif.Lemmas.Search
import Verif.Lemmas.Store
import Verif.Spec.Clusters

/-! `find_clusters_recursive` as depth first labelling of a fixed graph. -/

namespace Pyscal

/-- The memory `m` with cluster numbers `b`. -/
def withB (m : Mem) (b : ℕ → ℤ) : Mem := fun i => { m i with belongsto := b i }

/-- Targets of the links of atom `i`. -/
noncomputable def adjOf (m : Mem) (i : ℕ) : List ℕ := ((m i).nbrs.filter (linked m i)).map Nb.idx

/-- Atoms that may carry a cluster number. -/
def eligOf (m : Mem) (i : ℕ) : Bool := (m i).cond && !(m i).ghost

theorem linked_withB (m : Mem) (b : ℕ → ℤ) (i : ℕ) (x : Nb) : linked (withB m b) i x = linked m i x := rfl

theorem withB_setCluster (m : Mem) (b : ℕ → ℤ) (i : ℕ) (c : ℤ) :
    (withB m b).setCluster i c = withB m (Function.update b i c) := by
  funext k
  unfold Mem.setCluster withB
  by_cases h : k = i
  · subst h; simp
  · simp [Function.update_of_ne h]

/-- Turning the labels into memory. -/
def liftB (m : Mem) : Option (ℕ → ℤ) → Except Fault Mem
  | some b => .ok (withB m b)
  | none => .error .nonTermination

theorem harvest_eq (m : Mem) : ∀ (fuel ti : ℕ) (ci : ℤ) (b : ℕ → ℤ),
    harvest fuel ti ci (withB m b) = liftB m (dfs (adjOf m) fuel ti ci b) := by
  intro fuel
  induction fuel with
  | zero => intro ti ci b; rfl
  | succ fuel ih =>
    intro ti ci b
    rw [harvest, dfs]
    have key : ∀ (L : List Nb) (b : ℕ → ℤ),
        L.foldlM (fun m' x => if linked m' ti x then
          if (m' x.idx).belongsto = -1 then harvest fuel x.idx ci (m'.setCluster x.idx ci) else .ok m' else .ok m') (withB m b) =
        liftB m (((L.filter (linked m ti)).map Nb.idx).foldlM (fun b j =>
          if b j = -1 then dfs (adjOf m) fuel j ci (Function.update b j ci) else some b) b) := by
      intro L
      induction L with
      | nil => intro b; rfl
      | cons x L ihL =>
        intro b
        rw [List.foldlM_cons]
        by_cases hl : linked m ti x = true
        · rw [linked_withB, if_pos hl, List.filter_cons_of_pos hl, List.map_cons, List.foldlM_cons]
          have hb : (withB m b x.idx).belongsto = b x.idx := rfl
          rw [hb]
          by_cases h1 : b x.idx = -1
          · rw [if_pos h1, if_pos h1, withB_setCluster, ih]
            cases hd : dfs (adjOf m) fuel x.idx ci (Function.update b x.idx ci) with
            | none => rfl
            | some b' => exact ihL b'
          · rw [if_neg h1, if_neg h1]
            exact ihL b
        · rw [linked_withB, if_neg hl, List.filter_cons_of_neg hl]
          exact ihL b
    exact key (m ti).nbrs b

theorem clusterLoop_eq (m : Mem) (fuel : ℕ) : ∀ (is : List ℕ) (ci : ℤ) (b : ℕ → ℤ),
    clusterLoop fuel is ci (withB m b) = liftB m (dfsLoop (adjOf m) (eligOf m) fuel is ci b) := by
  intro is
  induction is with
  | nil => intro ci b; rfl
  | cons ti is ih =>
    intro ci b
    rw [clusterLoop, dfsLoop]
    have e1 : (withB m b ti).cond = (m ti).cond := rfl
    have e2 : (withB m b ti).ghost = (m ti).ghost := rfl
    have e3 : (withB m b ti).belongsto = b ti := rfl
    rw [e1, e2, e3]
    unfold eligOf
    by_cases hc : (m ti).cond = true
    · rw [hc]
      by_cases hg : (m ti).ghost = true
      · rw [hg]; simp only [Bool.not_true, Bool.false_eq_true, if_false, if_true, Bool.and_false]
        exact ih ci b
      · rw [Bool.not_eq_true] at hg
        rw [hg]
        simp only [Bool.not_true, Bool.false_eq_true, if_false, Bool.not_false, Bool.and_true, if_true]
        by_cases hb : b ti = -1
        · rw [if_pos hb, if_pos hb, withB_setCluster, harvest_eq]
          cases hd : dfs (adjOf m) fuel ti (ci + 1) (Function.update b ti (ci + 1)) with
          | none => rfl
          | some b' => exact ih (ci + 1) b'
        · rw [if_neg hb, if_neg hb]; exact ih ci b
    · rw [Bool.not_eq_true] at hc
      rw [hc]; simp only [Bool.not_false, if_true, Bool.false_and, Bool.false_eq_true, if_false]
      exact ih ci b

theorem withB_self (m : Mem) : withB m (fun i => (m i).belongsto) = m := rfl

/-- The atoms stored by a well-formed system: real ones first, ghosts after them, never numbered. -/
structure ClusterLayout (s : System) : Prop where
  real : ∀ i a, s.atoms[i]? = some a → (a.ghost = false ↔ i < s.realNop)
  ghost : ∀ i a, s.atoms[i]? = some a → s.realNop ≤ i → a.belongsto = -1

theorem clusterStart_length (s : System) (c : ℝ) : (s.clusterStart c).atoms.length = s.atoms.length := by
  simp [System.clusterStart]

/-- What the start of the clustering does to atom `i`. -/
noncomputable def startAtom (s : System) (c : ℝ) (i : ℕ) (a : Atom) : Atom :=
  { a with cutoff := if c ≠ 0 then some c else a.cutoff, belongsto := if i < s.realNop then -1 else a.belongsto }

theorem clusterStart_mem (s : System) (c : ℝ) {i : ℕ} {a : Atom} (h : s.atoms[i]? = some a) :
    (s.clusterStart c).mem i = startAtom s c i a := by
  unfold System.mem System.clusterStart startAtom
  rw [List.getD_eq_getElem?_getD]
  simp only [List.getElem?_mapIdx, h, Option.map_some, Option.getD_some]
  split_ifs <;> rfl

theorem mem_out {s : System} {i : ℕ} (h : s.atoms.length ≤ i) : s.mem i = default := by
  unfold System.mem
  rw [List.getD_eq_getElem?_getD, List.getElem?_eq_none h]; rfl

theorem cond_iff (a : Atom) : a.cond = true ↔ ∃ v, a.condition = some v ∧ v ≠ 0 := by
  unfold Atom.cond
  cases a.condition <;> simp

theorem elig_iff (s : System) (c : ℝ) (i : ℕ) : eligOf (s.clusterStart c).mem i = true ↔ Spec.Member s i := by
  unfold eligOf Spec.Member
  rcases lt_or_ge i s.atoms.length with hi | hi
  · have h := List.getElem?_eq_getElem hi
    rw [clusterStart_mem s c h, Bool.and_eq_true, cond_iff]
    constructor
    · rintro ⟨⟨v, h1, h2⟩, h3⟩
      exact ⟨_, v, h, by simpa [startAtom] using h3, h1, h2⟩
    · rintro ⟨a, v, h1, h2, h3, h4⟩
      rw [h] at h1
      obtain rfl := Option.some.inj h1
      exact ⟨⟨v, h3, h4⟩, by simpa [startAtom] using h2⟩
  · rw [mem_out (by rw [clusterStart_length]; exact hi)]
    constructor
    · intro h; simp [Atom.cond, default] at h
    · rintro ⟨a, v, h1, -⟩
      rw [List.getElem?_eq_none hi] at h1
      cases h1

theorem adj_iff (s : System) (c : ℝ) (i j : ℕ) (hi : Spec.Member s i) :
    j ∈ adjOf (s.clusterStart c).mem i ↔ Spec.Bond s c i j := by
  obtain ⟨a, v, ha, hg, hv, hv0⟩ := hi
  unfold adjOf
  rw [clusterStart_mem s c ha, List.mem_map]
  have hl : ∀ x : Nb, linked (s.clusterStart c).mem i x = true ↔ Spec.Member s x.idx ∧
      (c ≠ 0 → x.dist ≤ c) ∧ (c = 0 → ∃ r, a.cutoff = some r ∧ x.dist ≤ r) := by
    intro x
    rw [← elig_iff s c]
    unfold linked eligOf
    rw [clusterStart_mem s c ha]
    simp only [Bool.and_eq_true, startAtom]
    by_cases hc : c = 0
    · simp only [hc, ne_eq, not_true_eq_false, if_false, false_imp_iff, true_and, true_imp_iff]
      rw [decide_eq_true_iff]
      tauto
    · simp only [ne_eq, hc, not_false_eq_true, if_true, Option.some.injEq, exists_eq_left', true_imp_iff, false_imp_iff,
        and_true]
      rw [decide_eq_true_iff]
      tauto
  constructor
  · rintro ⟨x, hx, rfl⟩
    rw [List.mem_filter, hl] at hx
    exact ⟨⟨a, v, ha, hg, hv, hv0⟩, hx.2.1, a, x, ha, hx.1, rfl, hx.2.2⟩
  · rintro ⟨-, hj, a', x, ha', hx, rfl, h1⟩
    rw [ha] at ha'
    obtain rfl := Option.some.inj ha'
    exact ⟨x, List.mem_filter.2 ⟨hx, (hl x).2 ⟨hj, h1⟩⟩, rfl⟩

theorem adj_mem (s : System) (c : ℝ) (i : ℕ) :
    ∀ j ∈ adjOf (s.clusterStart c).mem i, j < s.atoms.length ∧ eligOf (s.clusterStart c).mem j = true := by
  intro j hj
  unfold adjOf at hj
  obtain ⟨x, hx, rfl⟩ := List.mem_map.1 hj
  rw [List.mem_filter] at hx
  have hE : eligOf (s.clusterStart c).mem x.idx = true := by
    have := hx.2
    unfold linked at this
    simp only [Bool.and_eq_true] at this
    unfold eligOf
    simp [this.1.1, this.1.2]
  refine ⟨?_, hE⟩
  obtain ⟨a, v, ha, -⟩ := (elig_iff s c x.idx).1 hE
  exact (List.getElem?_eq_some_iff.1 ha).1

theorem reach_elig {adj : ℕ → List ℕ} {elig : ℕ → Bool} (hadj : ∀ i, ∀ j ∈ adj i, elig j = true) {i j : ℕ}
    (hi : elig i = true) (h : Relation.ReflTransGen (fun i j => j ∈ adj i) i j) : elig j = true := by
  induction h with
  | refl => exact hi
  | tail _ hs _ => exact hadj _ _ hs

/-- The main loop without any symmetry of the neighbour lists. -/
theorem dfsLoop_isSome (adj : ℕ → List ℕ) (elig : ℕ → Bool) (n fuel : ℕ) (hadj : ∀ i, ∀ j ∈ adj i, j < n ∧ elig j = true)
    (hfuel : n < fuel) :
    ∀ (todo : List ℕ) (c : ℤ) (b : ℕ → ℤ), 0 ≤ c → ∃ b', dfsLoop adj elig fuel todo c b = some b' ∧
      (∀ j, b j ≠ -1 → b' j = b j) ∧ (∀ j ∈ todo, elig j = true → b' j ≠ -1) ∧
      ∀ j, b j = -1 → b' j ≠ -1 → elig j = true ∧ c + 1 ≤ b' j ∧ b' j ≤ c + todo.length := by
  intro todo
  induction todo with
  | nil => intro c b _; exact ⟨b, rfl, fun _ _ => rfl, fun _ h => absurd h List.not_mem_nil, fun j h1 h2 => absurd h1 h2⟩
  | cons ti todo ih =>
    intro c b hc
    rw [dfsLoop]
    have skip : (elig ti = true → b ti ≠ -1) → ∃ b', dfsLoop adj elig fuel todo c b = some b' ∧
        (∀ j, b j ≠ -1 → b' j = b j) ∧ (∀ j ∈ ti :: todo, elig j = true → b' j ≠ -1) ∧
        ∀ j, b j = -1 → b' j ≠ -1 → elig j = true ∧ c + 1 ≤ b' j ∧ b' j ≤ c + (ti :: todo).length := by
      intro hti
      obtain ⟨b', h1, h2, h3, h4⟩ := ih c b hc
      refine ⟨b', h1, h2, fun j hj he => ?_, fun j hj hj' => ?_⟩
      · rcases List.mem_cons.1 hj with rfl | hj
        · rw [h2 j (hti he)]; exact hti he
        · exact h3 j hj he
      · obtain ⟨e1, e2, e3⟩ := h4 j hj hj'
        exact ⟨e1, e2, by simp only [List.length_cons]; push_cast; omega⟩
    split_ifs with h1 h2
    · have hcard : (unlabelled n (Function.update b ti (c + 1))).card < fuel := by
        have := Finset.card_le_card (Finset.filter_subset (fun j => Function.update b ti (c + 1) j = -1) (Finset.range n))
        rw [Finset.card_range] at this
        exact lt_of_le_of_lt this hfuel
      obtain ⟨d, hd1, hd2⟩ := dfs_spec adj n (fun i j hj => (hadj i j hj).1) (c + 1) (by omega) fuel ti _ hcard
      rw [hd1]
      have hkeep : ∀ j, b j ≠ -1 → d j = b j := by
        intro j hj
        have hne : j ≠ ti := fun e => hj (e ▸ h2)
        rw [hd2.keep j (by rwa [Function.update_of_ne hne]), Function.update_of_ne hne]
      have hdti : d ti = c + 1 := by
        rw [hd2.keep ti (by rw [Function.update_self]; omega), Function.update_self]
      have hnew : ∀ j, b j = -1 → d j ≠ -1 → d j = c + 1 ∧ elig j = true := by
        intro j hj hj'
        by_cases hne : j = ti
        · subst hne; exact ⟨hdti, h1⟩
        · have := hd2.new j (by rwa [Function.update_of_ne hne]) hj'
          exact ⟨this.1, reach_elig (fun i j hj => (hadj i j hj).2) h1 this.2⟩
      obtain ⟨b', e1, e2, e3, e4⟩ := ih (c + 1) d (by omega)
      refine ⟨b', e1, fun j hj => ?_, fun j hj he => ?_, fun j hj hj' => ?_⟩
      · rw [e2 j (by rw [hkeep j hj]; exact hj), hkeep j hj]
      · rcases List.mem_cons.1 hj with rfl | hj
        · rw [e2 j (by rw [hdti]; omega), hdti]; omega
        · exact e3 j hj he
      · simp only [List.length_cons]
        push_cast
        by_cases hdj : d j = -1
        · obtain ⟨f1, f2, f3⟩ := e4 j hdj hj'
          exact ⟨f1, by omega, by omega⟩
        · obtain ⟨f1, f2⟩ := hnew j hj hdj
          rw [e2 j hdj, f1]
          exact ⟨f2, by omega, by omega⟩
    · exact skip fun _ => h2
    · exact skip fun h => absurd h h1

/-- Clustering never runs out of fuel. -/
theorem findClusters_ok (s : System) (c : ℝ) (hs : s.NbrsInRange) (hn : s.realNop ≤ s.atoms.length) :
    ∃ b, s.findClusters c = .ok ((s.clusterStart c).ofMem (withB (s.clusterStart c).mem b)) ∧
      dfsLoop (adjOf (s.clusterStart c).mem) (eligOf (s.clusterStart c).mem) (s.atoms.length + 1) (List.range s.realNop) 0
        (fun i => ((s.clusterStart c).mem i).belongsto) = some b ∧
      ∀ i < s.realNop, (b i = -1 ∨ (1 ≤ b i ∧ b i ≤ s.realNop)) ∧ (b i ≠ -1 ↔ Spec.Member s i) := by
  obtain ⟨b, hb, h1, h2, h3⟩ := dfsLoop_isSome (adjOf (s.clusterStart c).mem) (eligOf (s.clusterStart c).mem) s.atoms.length
    (s.atoms.length + 1) (adj_mem s c) (Nat.lt_succ_self _) (List.range s.realNop) 0
    (fun i => ((s.clusterStart c).mem i).belongsto) le_rfl
  refine ⟨b, ?_, hb, ?_⟩
  · unfold System.findClusters
    rw [if_neg (by push Not; exact ⟨hs, hn⟩)]
    have e := clusterLoop_eq (s.clusterStart c).mem (s.atoms.length + 1) (List.range s.realNop) 0
      (fun i => ((s.clusterStart c).mem i).belongsto)
    rw [withB_self, hb] at e
    have e2 : (s.clusterStart c).realNop = s.realNop := rfl
    dsimp only
    rw [clusterStart_length, e2, e]
    rfl
  · intro i hi
    have hb0 : ((s.clusterStart c).mem i).belongsto = -1 := by
      rw [clusterStart_mem s c (List.getElem?_eq_getElem (show i < s.atoms.length by omega))]
      simp [startAtom, hi]
    by_cases hbi : b i = -1
    · refine ⟨.inl hbi, fun h => absurd hbi h, fun hm => ?_⟩
      exact h2 i (List.mem_range.2 hi) ((elig_iff s c i).2 hm)
    · obtain ⟨e1, e2, e3⟩ := h3 i hb0 hbi
      rw [List.length_range] at e3
      exact ⟨.inr ⟨by omega, by omega⟩, fun _ => (elig_iff s c i).1 e1, fun _ => hbi⟩

theorem findClusters_inRange {s s' : System} {c : ℝ} (h : s.findClusters c = .ok s') :
    s.NbrsInRange ∧ s.realNop ≤ s.atoms.length := by
  unfold System.findClusters at h
  split_ifs at h with hc
  push Not at hc
  exact hc

/-- One atom after clustering. -/
theorem findClusters_atom {s : System} {c : ℝ} {b : ℕ → ℤ} {i : ℕ} {a : Atom} (ha : s.atoms[i]? = some a) :
    ((s.clusterStart c).ofMem (withB (s.clusterStart c).mem b)).atoms[i]? =
      some { a with cutoff := if c ≠ 0 then some c else a.cutoff, belongsto := b i } := by
  have hi := (List.getElem?_eq_some_iff.1 ha).1
  rw [List.getElem?_eq_getElem (by rw [ofMem_length, clusterStart_length]; exact hi), ofMem_getElem]
  unfold withB
  rw [clusterStart_mem s c ha]
  rfl

theorem reach_iff {s : System} {c : ℝ} {i j : ℕ} (hi : Spec.Member s i) :
    Relation.ReflTransGen (fun i j => j ∈ adjOf (s.clusterStart c).mem i) i j ↔
      Relation.ReflTransGen (Spec.Bond s c) i j := by
  constructor
  · intro h
    have : Relation.ReflTransGen (Spec.Bond s c) i j ∧ Spec.Member s j := by
      induction h with
      | refl => exact ⟨.refl, hi⟩
      | tail _ hs2 ih =>
        have := (adj_iff s c _ _ ih.2).1 hs2
        exact ⟨ih.1.tail this, this.2.1⟩
    exact this.1
  · intro h
    exact Relation.ReflTransGen.mono (fun x y hxy => (adj_iff s c x y hxy.1).2 hxy) _ _ h

/-- `find_clusters_recursive` numbers connected components. -/
theorem findClusters_spec (s s' : System) (c : ℝ) (h : s.findClusters c = .ok s') (hl : ClusterLayout s)
    (hsym : ∀ i j, Spec.Bond s c i j → Spec.Bond s c j i) :
    ∃ b : ℕ → ℤ, Spec.ComponentLabels s.realNop (Spec.Member s) (Spec.Bond s c) b ∧
      (∀ i, s.realNop ≤ i → b i = -1) ∧
      s' = { s with atoms := s'.atoms } ∧ s'.atoms.length = s.atoms.length ∧
      ∀ (i : ℕ) (a : Atom), s.atoms[i]? = some a →
        s'.atoms[i]? = some { a with cutoff := if c ≠ 0 then some c else a.cutoff, belongsto := b i } := by
  obtain ⟨hs, hn⟩ := findClusters_inRange h
  obtain ⟨b, h1, h2, -⟩ := findClusters_ok s c hs hn
  rw [h] at h1
  obtain rfl := Except.ok.inj h1
  have hb0 : (fun i => ((s.clusterStart c).mem i).belongsto) = fun _ => -1 := by
    funext i
    rcases lt_or_ge i s.atoms.length with hi | hi
    · have ha := List.getElem?_eq_getElem hi
      rw [clusterStart_mem s c ha]
      unfold startAtom
      by_cases hr : i < s.realNop
      · simp [hr]
      · simp only [hr, if_false]
        exact hl.ghost i _ ha (by omega)
    · rw [mem_out (by rw [clusterStart_length]; exact hi)]; rfl
  rw [hb0] at h2
  have hinv0 : CInv (adjOf (s.clusterStart c).mem) (eligOf (s.clusterStart c).mem) 0 (fun _ => -1) :=
    ⟨le_rfl, fun _ h => absurd rfl h, fun k h1 h2 => by omega, fun _ h => absurd rfl h, fun _ h => absurd rfl h,
      fun _ _ h => absurd rfl h⟩
  obtain ⟨b', c', h3, hI, -, hall⟩ := dfsLoop_spec (adjOf (s.clusterStart c).mem) (eligOf (s.clusterStart c).mem)
    s.atoms.length (s.atoms.length + 1) (adj_mem s c) (fun i j hi hj => by
      rw [elig_iff] at hi
      have hB := hsym i j ((adj_iff s c i j hi).1 hj)
      exact (adj_iff s c j i hB.1).2 hB) (Nat.lt_succ_self _) (List.range s.realNop) 0 _ hinv0
  rw [h2] at h3
  obtain rfl := Option.some.inj h3
  have hmem : ∀ i, b i ≠ -1 → Spec.Member s i := fun i hi => (elig_iff s c i).1 (hI.elig i hi)
  have hlt : ∀ i, Spec.Member s i → i < s.realNop := fun i ⟨a, v, ha, hg, _⟩ => (hl.real i a ha).1 hg
  have hmem' : ∀ i, Spec.Member s i → b i ≠ -1 := fun i hi =>
    hall i (List.mem_range.2 (hlt i hi)) ((elig_iff s c i).2 hi)
  refine ⟨b, ⟨fun i _ => ⟨fun h hm => hmem' i hm h, fun h => by_contra fun hc => h (hmem i hc)⟩, ?_, ?_⟩, ?_, rfl, ?_, ?_⟩
  · intro i _ j hjn hi hj
    rw [← reach_iff hi]
    refine ⟨hI.conn i j (hmem' i hi), fun hr => ?_⟩
    have : b i = b j ∧ b j ≠ -1 := by
      clear hj hjn
      induction hr with
      | refl => exact ⟨rfl, hmem' i hi⟩
      | tail _ hs2 ih =>
        have := hI.same _ ih.2 _ hs2
        exact ⟨ih.1.trans this.symm, this ▸ ih.2⟩
    exact this.1
  · refine ⟨c'.toNat, fun k => ?_⟩
    rw [Int.toNat_of_nonneg hI.pos]
    constructor
    · rintro ⟨i, -, hi, rfl⟩
      exact hI.range i (hmem' i hi)
    · rintro ⟨h1, h2⟩
      obtain ⟨j, hj⟩ := hI.used k h1 h2
      have hm := hmem j (by rw [hj]; omega)
      exact ⟨j, hlt j hm, hm, hj⟩
  · intro i hi
    by_contra hc
    exact absurd (hlt i (hmem i hc)) (by omega)
  · rw [ofMem_length, clusterStart_length]
  · intro i a ha
    exact findClusters_atom ha

end Pyscal

namespace Pyscal

theorem mapM_except {α β ε : Type} (F : α → Except ε β) : ∀ (l : List α) (m : List β), l.mapM F = .ok m →
    m.length = l.length ∧ ∀ (i : ℕ) (a : α), l[i]? = some a → ∃ b, F a = .ok b ∧ m[i]? = some b := by
  intro l
  induction l with
  | nil => intro m h; rw [List.mapM_nil] at h; obtain rfl := Except.ok.inj h; simp
  | cons x l ih =>
    intro m h
    rw [List.mapM_cons] at h
    cases hx : F x with
    | error e => rw [hx] at h; cases h
    | ok y =>
      rw [hx] at h
      cases hl : l.mapM F with
      | error e => rw [hl] at h; cases h
      | ok ys =>
        rw [hl] at h
        obtain rfl := Except.ok.inj h
        obtain ⟨h1, h2⟩ := ih ys hl
        refine ⟨by simp [h1], fun i a hi => ?_⟩
        cases i with
        | zero => simp only [List.getElem?_cons_zero, Option.some.injEq] at hi; subst hi; exact ⟨y, hx, rfl⟩
        | succ i => simpa using h2 i a (by simpa using hi)

theorem mapM_except_isOk {α β ε : Type} (F : α → Except ε β) : ∀ (l : List α), (∀ a ∈ l, ∃ b, F a = .ok b) →
    ∃ m, l.mapM F = .ok m := by
  intro l
  induction l with
  | nil => intro _; exact ⟨[], rfl⟩
  | cons x l ih =>
    intro h
    obtain ⟨y, hy⟩ := h x List.mem_cons_self
    obtain ⟨m, hm⟩ := ih fun a ha => h a (List.mem_cons_of_mem _ ha)
    rw [List.mapM_cons, hy]
    exact ⟨y :: m, by rw [show (Except.ok y >>= fun b => l.mapM F >>= fun bs => (pure (b :: bs) : Except ε _)) = (l.mapM F >>= fun bs => pure (y :: bs)) from rfl, hm]; rfl⟩

/-- The fields of a system that `sys.atoms = l` does not touch. -/
structure SameRest (s s' : System) : Prop where
  eq : s' = { s with
    atoms := s'.atoms, nop := s'.nop, realNop := s'.realNop, ghostNop := s'.ghostNop, box := s'.box,
    rot := s'.rot, rotinv := s'.rotinv, triclinic := s'.triclinic, actualBox := s'.actualBox,
    ghostsCreated := s'.ghostsCreated }

theorem setBox_rest {s s' : System} {b : Mat3} (h : s.setBox b = .ok s') : SameRest s s' := by
  unfold System.setBox at h
  dsimp only at h
  split_ifs at h <;> (obtain rfl := Except.ok.inj h; exact ⟨rfl⟩)

theorem repeatAtoms_rest {s s' : System} {rx ry rz : ℕ} {l out : List Atom} {g sc : Bool}
    (h : s.repeatAtoms rx ry rz l g sc = .ok (s', out)) : SameRest s s' := by
  unfold System.repeatAtoms at h
  dsimp only at h
  cases sc with
  | false =>
    rw [if_neg (by simp)] at h
    have := Except.ok.inj h
    rw [Prod.mk.injEq] at this
    rw [← this.1]
    cases g <;> exact ⟨rfl⟩
  | true =>
    rw [if_pos rfl] at h
    cases hb : ({ s with actualBox := some s.getBox } : System).setBox (scaleBox s.getBox rx ry rz) with
    | error e => rw [hb] at h; cases h
    | ok s2 =>
      rw [hb] at h
      have h2 := (setBox_rest hb).eq
      have := Except.ok.inj h
      rw [Prod.mk.injEq] at this
      rw [← this.1]
      rw [h2]
      cases g <;> exact ⟨rfl⟩

/-- What `sys.atoms = l` stores. -/
theorem assign_shape {s s' : System} {l : List Atom} (hreal : ∀ a ∈ l, a.ghost = false) (h : s.assignAtoms l = .ok s') :
    ∃ extra, s'.atoms = l ++ extra ∧ (∀ a ∈ extra, a.ghost = true ∧ a.belongsto = -1 ∧ a.nbrs = []) ∧
      s'.realNop = l.length ∧ s'.nop = (l ++ extra).length ∧ s'.ghostNop = extra.length ∧ (200 ≤ l.length → extra = [] ∧ s' = s.setAtoms l) ∧
      (l.length < 200 → extra = repNew s.getBox true (padReps l.length) (padReps l.length) (padReps l.length) l ∧
        s'.getBox = s.getBox ∧ boxSum s.getBox ≠ 0 ∧ l ≠ []) ∧ SameRest s s' := by
  unfold System.assignAtoms at h
  by_cases hl : l.length < 200
  · rw [if_pos hl] at h
    by_cases h0 : l.length = 0
    · rw [if_pos h0] at h; simp at h
    rw [if_neg h0] at h
    by_cases hbs : boxSum s.getBox = 0
    · rw [if_pos hbs] at h; simp at h
    rw [if_neg hbs] at h
    dsimp only at h
    cases hr : s.repeatAtoms (padReps l.length) (padReps l.length) (padReps l.length) l true true with
    | error e => rw [hr] at h; simp [bind, Except.bind] at h
    | ok r =>
      obtain ⟨s1, out⟩ := r
      rw [hr] at h
      simp only [bind, Except.bind, pure, Except.pure, Except.ok.injEq] at h
      subst h
      obtain ⟨rfl, h1, h2, h3⟩ := repeatAtoms_ok hr
      have hrest := repeatAtoms_rest hr
      set g := repNew s.getBox true (padReps l.length) (padReps l.length) (padReps l.length) l with hg
      have hgg : ∀ a ∈ g, a.ghost = true := repNew_ghost
      have hc : countReal (l ++ g) = l.length := by
        rw [countReal_append, countReal_of_real hreal, countReal_of_ghost hgg, Nat.add_zero]
      refine ⟨g, rfl, fun a ha => ⟨hgg a ha, ?_⟩, hc, rfl, ?_, fun h2 => by omega, fun _ => ⟨rfl, ?_, hbs, fun e => h0 (by rw [e]; rfl)⟩, ?_⟩
      · obtain ⟨c, -, b, -, i, rfl⟩ := mem_repNew ha
        exact ⟨rfl, rfl⟩
      · show countGhost (l ++ g) = _
        rw [countGhost_append, countGhost_of_real hreal, countGhost_of_ghost hgg, Nat.zero_add]
      · show (s1.actualBox).getD _ = _
        rw [h1]; rfl
      · have := hrest.eq
        exact ⟨by rw [this]; rfl⟩
  · rw [if_neg hl] at h
    simp only [Except.ok.injEq] at h
    subst h
    exact ⟨[], (List.append_nil l).symm, by simp, countReal_of_real hreal, by simp [System.setAtoms], countGhost_of_real hreal,
      fun _ => ⟨rfl, rfl⟩, fun h => absurd h hl, ⟨rfl⟩⟩

end Pyscal
