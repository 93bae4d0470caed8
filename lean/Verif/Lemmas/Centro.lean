import Verif.Model.OrderParams
import Verif.Spec.OrderParams
import Verif.Lemmas.Search
import Verif.Lemmas.Clusters
import Verif.Lemmas.CnaRun

/-! Lemmas for centrosymmetry: lists of exceptions, sorted lists, and the number search. -/

namespace Pyscal

theorem mapM_ok_map {α β : Type} (F : α → Except Fault β) (g : α → β) (l : List α) (h : ∀ a ∈ l, F a = .ok (g a)) :
    l.mapM F = .ok (l.map g) := by
  induction l with
  | nil => rfl
  | cons a l ih =>
    rw [List.mapM_cons, h a List.mem_cons_self, ih fun b hb => h b (List.mem_cons_of_mem _ hb)]
    rfl

theorem mapM_all_error {α β : Type} (F : α → Except Fault β) (e : Fault) (l : List α)
    (h : ∀ a ∈ l, (∃ b, F a = .ok b) ∨ F a = .error e) (hx : ∃ a ∈ l, F a = .error e) : l.mapM F = .error e := by
  induction l with
  | nil => obtain ⟨a, ha, -⟩ := hx; cases ha
  | cons a l ih =>
    rw [List.mapM_cons]
    rcases h a List.mem_cons_self with ⟨b, hb⟩ | hb
    · have hx' : ∃ a ∈ l, F a = .error e := by
        obtain ⟨c, hc, hce⟩ := hx
        rcases List.mem_cons.1 hc with rfl | hc
        · rw [hb] at hce; cases hce
        · exact ⟨c, hc, hce⟩
      rw [hb, ih (fun c hc => h c (List.mem_cons_of_mem _ hc)) hx']
      rfl
    · rw [hb]; rfl

theorem pairSet_eq (n : ℕ) : (pairs n).toFinset = Spec.pairSet n := by
  ext ⟨i, j⟩
  simp only [List.mem_toFinset, mem_pairs, Spec.pairSet, Finset.mem_filter, Finset.mem_product, Finset.mem_range]
  omega

/-- The first `m` entries of a sorted arrangement are the `m` smallest. -/
theorem smallest_of_sorted {α : Type} [DecidableEq α] {ps u : List α} {F : α → ℝ} (hu : u.Perm ps) (hnd : ps.Nodup)
    (hs : u.Pairwise fun p q => F p ≤ F q) {m : ℕ} (hm : m ≤ u.length) :
    Spec.IsSumOfSmallest ps.toFinset F m ((u.take m).map F).sum := by
  have hund : u.Nodup := hu.nodup_iff.2 hnd
  have htn : (u.take m).Nodup := hund.sublist (List.take_sublist _ _)
  refine ⟨(u.take m).toFinset, ?_, ?_, ?_, ?_⟩
  · intro p hp
    rw [List.mem_toFinset] at hp ⊢
    exact hu.mem_iff.1 (List.mem_of_mem_take hp)
  · rw [List.toFinset_card_of_nodup htn, List.length_take]; omega
  · intro p hp q hq hqn
    rw [List.mem_toFinset] at hp hq hqn
    have hqu := hu.mem_iff.2 hq
    rw [← List.take_append_drop m u] at hqu hs
    have hqd := (List.mem_append.1 hqu).resolve_left hqn
    exact (List.pairwise_append.1 hs).2.2 p hp q hqd
  · rw [List.sum_toFinset _ htn]

theorem nbVec_eq (a : Atom) (i : ℕ) : a.nbVec i = Spec.nbVector a.nbrs i := by
  unfold Atom.nbVec Spec.nbVector
  rw [List.getD_eq_getElem?_getD, List.getElem?_map]
  cases a.nbrs[i]? <;> rfl

theorem pairSums_length (a : Atom) : a.pairSums.length = (pairs a.nbrs.length).length := by
  simp [Atom.pairSums]

/-- What `calculate_centrosymmetry_atom` stores. -/
theorem centro_value (σ : StdSort) (a : Atom) {m : ℕ} (hm : m ≤ (σ.sort a.pairSums).length) :
    Spec.IsSumOfSmallest (Spec.pairSet a.nbrs.length)
      (fun p => V3.normSq (Spec.nbVector a.nbrs p.1 + Spec.nbVector a.nbrs p.2)) m
      (((σ.sort a.pairSums).take m).map fun x => x.dist * x.dist).sum := by
  set ps := pairs a.nbrs.length with hps
  set t := σ.sort a.pairSums with ht
  set F : ℕ × ℕ → ℝ := fun p => V3.normSq (Spec.nbVector a.nbrs p.1 + Spec.nbVector a.nbrs p.2) with hF
  set u := t.map fun x => ps.getD x.idx (0, 0) with hu
  have hperm : u.Perm ps := by
    refine ((σ.perm a.pairSums).map _).trans (List.Perm.of_eq ?_)
    unfold Atom.pairSums
    rw [← hps]
    refine List.ext_getElem? fun i => ?_
    rw [List.getElem?_map, List.getElem?_mapIdx]
    cases hi : ps[i]? with
    | none => rfl
    | some p => simp [List.getD_eq_getElem?_getD, hi]
  have hdist : ∀ x ∈ t, x.dist = V3.norm (a.nbVec (ps.getD x.idx (0, 0)).1 + a.nbVec (ps.getD x.idx (0, 0)).2) := by
    intro x hx
    have hx := (σ.perm _).mem_iff.1 hx
    obtain ⟨i, hi, hix⟩ := List.getElem_of_mem hx
    have hi' : i < ps.length := by simpa [Atom.pairSums] using hi
    have : x = ⟨V3.norm (a.nbVec ps[i].1 + a.nbVec ps[i].2), i⟩ := by
      rw [← hix]
      simp [Atom.pairSums, hps]
    rw [this]
    simp [List.getD_eq_getElem?_getD, hi']
  have hFd : ∀ x ∈ t, F (ps.getD x.idx (0, 0)) = x.dist * x.dist := by
    intro x hx
    rw [hdist x hx, V3.norm_sq, hF]
    simp only [nbVec_eq]
  have hsorted : u.Pairwise fun p q => F p ≤ F q := by
    rw [hu, List.pairwise_map]
    refine List.Pairwise.imp_of_mem ?_ (σ.sorted a.pairSums)
    intro x y hx hy hxy
    rw [hFd x hx, hFd y hy]
    have h0 : 0 ≤ x.dist := by rw [hdist x hx]; exact V3.norm_nonneg _
    exact mul_self_le_mul_self h0 hxy
  have := smallest_of_sorted hperm (pairs_nodup _) hsorted (m := m) (by rw [hu, List.length_map]; exact hm)
  rw [pairSet_eq] at this
  convert this using 2
  rw [hu, ← List.map_take, List.map_map]
  exact List.map_congr_left fun x hx => (hFd x (List.mem_of_mem_take hx)).symm

/-- The number search from the reset state, with the cell flag as it is. -/
theorem byNumber_reset (σ : StdSort) (s : System) (t : ℝ) (nmax : ℕ) (hok : CandOK (s.candSettings s.usecells t)) :
    ∃ T : ℕ → List DAtom,
      (∀ k < s.atoms.length, (T k).Perm (cands (s.candSettings s.usecells t) k)) ∧
      ((∃ k < s.atoms.length, (T k).length < nmax) → ∃ g b, s.resetAllNeighbors.neighborsByNumber σ t nmax true = .ok (g, b) ∧
        ∃ a ∈ g.atoms, a.nbrs = []) ∧
      ((∀ k < s.atoms.length, nmax ≤ (T k).length) →
        s.resetAllNeighbors.neighborsByNumber σ t nmax true =
          .ok ({ s with atoms := (List.range s.atoms.length).map
                         fun k => byNumberAtom σ s nmax true k (candAtom s (T k) k),
                        voronoiused := false,
                        neighbordistance := s.guessDist t }, true)) := by
  obtain ⟨T, hT, g', hfill, hlike, hf, hg', hmem⟩ := fillTemp_start s
    { s.startSearch s.filter with usecells := s.usecells, voronoiused := false } s.filter _ false t rfl hok
  refine ⟨T, hT, ?_⟩
  have hse : s.resetAllNeighbors.neighborsByNumber σ t nmax true =
      .ok (g'.ofMem (System.byNumberLoop σ g' nmax true (List.range g'.atoms.length) g'.mem).1,
        (System.byNumberLoop σ g' nmax true (List.range g'.atoms.length) g'.mem).2) := by
    unfold System.neighborsByNumber
    change Except.bind (({ s.startSearch s.filter with usecells := s.usecells, voronoiused := false } : System).fillTemp t) _ = _
    rw [hfill]; rfl
  have hspec := byNumberLoop_spec σ g' nmax true (List.range g'.atoms.length) List.nodup_range g'.mem
  have hiff : (System.byNumberLoop σ g' nmax true (List.range g'.atoms.length) g'.mem).2 = true ↔
      ∀ k < s.atoms.length, nmax ≤ (T k).length := by
    rw [hspec.1]
    constructor
    · intro h k hk
      have := h k (List.mem_range.2 (hlike.len.symm ▸ hk))
      rwa [hmem k hk] at this
    · intro h k hk
      have hk : k < s.atoms.length := hlike.len ▸ List.mem_range.1 hk
      rw [hmem k hk]
      exact h k hk
  constructor
  · rintro ⟨k, hk, hlt⟩
    refine ⟨_, _, hse, ?_⟩
    have hk' : k < g'.atoms.length := by rw [hlike.len]; exact hk
    have key : ∀ (is : List ℕ) (m : Mem), (m k).temp.length < nmax → (m k).nbrs = [] →
        ((System.byNumberLoop σ g' nmax true is m).1 k).nbrs = [] := by
      intro is
      induction is with
      | nil => intro m _ h; exact h
      | cons i is ih =>
        intro m h1 h2
        unfold System.byNumberLoop
        by_cases hi : (m i).temp.length < nmax
        · rw [if_pos hi]; exact h2
        · rw [if_neg hi]
          have hne : k ≠ i := fun h => hi (h ▸ h1)
          apply ih
          · rw [Function.update_of_ne hne]; exact h1
          · rw [Function.update_of_ne hne]; exact h2
    refine ⟨(g'.ofMem (System.byNumberLoop σ g' nmax true (List.range g'.atoms.length) g'.mem).1).mem k, ?_, ?_⟩
    · rw [mem_eq_getElem _ _ (by rw [ofMem_length]; exact hk')]
      exact List.getElem_mem _
    · rw [ofMem_mem _ _ _ hk']
      refine key _ _ ?_ ?_
      · rw [hmem k hk]; exact hlt
      · rw [hmem k hk]; rfl
  · intro hall
    have htrue := hiff.2 hall
    rw [hse, htrue]
    refine congrArg (fun x => Except.ok (x, true)) ?_
    rw [System.ofMem, hg']
    congr 1
    rw [← hg', hlike.len]
    refine List.map_congr_left fun k hk => ?_
    rw [List.mem_range] at hk
    have h2 := hspec.2 htrue k
    rw [hlike.len] at h2
    rw [h2, if_pos (List.mem_range.2 hk), hmem k hk]
    unfold byNumberAtom
    rw [hlike.mkNb]

end Pyscal
