import Verif.Lemmas.Histogram
import Verif.Props.Centro
import Verif.Props.Clusters

/-! Properties C31 (chi parameters) and C59 (angular criterion). -/

namespace Pyscal

open Finset

theorem getAtoms_inv {s : System} {reals : List Atom} (hi : StoreInv s reals) : s.getAtoms = .ok reals := by
  obtain ⟨gs, ha, -, -⟩ := hi.ex
  unfold System.getAtoms
  rw [if_pos (by rw [hi.realNop, ha]; simp), hi.realNop, ha, List.take_left]

theorem chiBins_increasing : Increasing chiBins := by
  intro k hk
  have hk : k < 9 := by change k + 1 < 10 at hk; omega
  interval_cases k <;> norm_num [chiBins]

theorem chiBin_iff {k : ℕ} (hk : k < 9) (v : ℝ) : InBin chiBins k v ↔ Spec.ChiBin k v := by
  unfold InBin
  have hl : chiBins.length = 10 := rfl
  rw [hl]
  interval_cases k <;> simp [chiBins, Spec.ChiBin] <;> norm_num
  · exact fun _ => le_iff_lt_or_eq.symm

open Classical in
theorem chi_entry (a : Atom) {b : ℕ} (hb : b < 9) : (chi1 a).chi[b]? = some ((Spec.pairSet a.nbrs.length).filter fun p : ℕ × ℕ =>
    Spec.nbVector a.nbrs p.1 ≠ 0 ∧ Spec.nbVector a.nbrs p.2 ≠ 0 ∧
    Spec.ChiBin b (Spec.cosAngle (Spec.nbVector a.nbrs p.1) (Spec.nbVector a.nbrs p.2))).card := by
  unfold chi1 chi1With
  rw [histogram_getElem? chiBins _ (show b + 1 < 10 by omega), List.countP_map, ← pairSet_eq]
  congr 1
  rw [← countP_card (pairs_nodup _)]
  refine List.countP_congr fun p _ => ?_
  simp only [Function.comp_apply, decide_eq_true_eq, nbVec_eq]
  constructor
  · rintro ⟨v, hv, hb'⟩
    by_cases h1 : Spec.nbVector a.nbrs p.1 = 0
    · rw [pyCos_none (.inl h1)] at hv; cases hv
    by_cases h2 : Spec.nbVector a.nbrs p.2 = 0
    · rw [pyCos_none (.inr h2)] at hv; cases hv
    rw [pyCos_eq h1 h2] at hv
    obtain rfl := Option.some.inj hv
    exact ⟨h1, h2, (chiBin_iff hb _).1 hb'⟩
  · rintro ⟨h1, h2, h3⟩
    exact ⟨_, pyCos_eq h1 h2, (chiBin_iff hb _).2 h3⟩

theorem nbVector_ne {l : List Nb} (h : ∀ x ∈ l, x.vec ≠ 0) {i : ℕ} (hi : i < l.length) : Spec.nbVector l i ≠ 0 := by
  unfold Spec.nbVector
  rw [List.getElem?_eq_getElem hi]
  exact h _ (List.getElem_mem hi)

theorem chi_sum (a : Atom) (h : ∀ x ∈ a.nbrs, x.vec ≠ 0) : (chi1 a).chi.sum = a.nbrs.length * (a.nbrs.length - 1) / 2 := by
  classical
  unfold chi1 chi1With
  rw [histogram_sum chiBins_increasing (by decide +kernel)]
  rw [List.countP_eq_length.2]
  · rw [List.length_map]
    have := pairs_length a.nbrs.length
    omega
  · intro x hx
    obtain ⟨p, hp, rfl⟩ := List.mem_map.1 hx
    have hp := (mem_pairs (p := p)).1 hp
    rw [nbVec_eq, nbVec_eq]
    have h1 : Spec.nbVector a.nbrs p.1 ≠ 0 := nbVector_ne h (by omega)
    have h2 : Spec.nbVector a.nbrs p.2 ≠ 0 := nbVector_ne h (by omega)
    rw [decide_eq_true_eq]
    refine ⟨_, pyCos_eq h1 h2, ?_⟩
    have e : chiBins.getD 0 0 = -1 := by norm_num [chiBins]
    have e' : chiBins.getD (chiBins.length - 1) 0 = 1 := by norm_num [chiBins]
    rw [e, e']
    exact cosAngle_mem h1 h2

open Classical in
/-- **C31**: after `calculate_chiparams` every atom of `sys.atoms` has nine counts (and is otherwise
unchanged).  Count `b` is the number of pairs of neighbours, both at a non-zero vector, whose cosine lies
in the `b`-th interval.  If no neighbour vector is zero, each pair is in exactly one interval and the
counts add up to `n(n-1)/2`. -/
theorem C31_chi (s s' : System) (reals : List Atom) (hi : StoreInv s reals) (h : s.calculateChi = .ok s') :
    ∃ l, s'.getAtoms = .ok l ∧ l.length = reals.length ∧
    ∀ (k : ℕ) (a : Atom), reals[k]? = some a → ∃ a' : Atom, l[k]? = some a' ∧ a' = { a with chi := a'.chi } ∧
      a'.chi.length = 9 ∧
      (∀ b < 9, a'.chi[b]? = some ((Spec.pairSet a.nbrs.length).filter fun p : ℕ × ℕ =>
        Spec.nbVector a.nbrs p.1 ≠ 0 ∧ Spec.nbVector a.nbrs p.2 ≠ 0 ∧
        Spec.ChiBin b (Spec.cosAngle (Spec.nbVector a.nbrs p.1) (Spec.nbVector a.nbrs p.2))).card) ∧
      ((∀ x ∈ a.nbrs, x.vec ≠ 0) →
        a'.chi.sum = a.nbrs.length * (a.nbrs.length - 1) / 2 ∧
        ∀ p ∈ Spec.pairSet a.nbrs.length, ∃! b, b < 9 ∧
          Spec.ChiBin b (Spec.cosAngle (Spec.nbVector a.nbrs p.1) (Spec.nbVector a.nbrs p.2))) := by
  have hg := getAtoms_inv hi
  unfold System.calculateChi at h
  rw [hg] at h
  change s.assignAtoms (reals.map chi1) = .ok s' at h
  have hreal : ∀ a ∈ reals.map chi1, a.ghost = false := by
    intro a ha
    obtain ⟨b, hb, rfl⟩ := List.mem_map.1 ha
    exact hi.real b hb
  obtain ⟨h1, -, -⟩ := C05_assign_atoms s s' _ hreal h
  refine ⟨_, h1, by simp, fun k a hk => ?_⟩
  refine ⟨chi1 a, by rw [List.getElem?_map, hk]; rfl, rfl, ?_, fun b hb => chi_entry a hb, fun hv => ⟨chi_sum a hv, ?_⟩⟩
  · unfold chi1 chi1With
    rw [histogram_length]
    rfl
  · intro p hp
    simp only [Spec.pairSet, mem_filter, mem_product, mem_range] at hp
    have h1 : Spec.nbVector a.nbrs p.1 ≠ 0 := nbVector_ne hv hp.1.1
    have h2 : Spec.nbVector a.nbrs p.2 ≠ 0 := nbVector_ne hv hp.1.2
    have hc := cosAngle_mem h1 h2
    have e : chiBins.getD 0 0 = -1 := by norm_num [chiBins]
    have e' : chiBins.getD (chiBins.length - 1) 0 = 1 := by norm_num [chiBins]
    obtain ⟨b, hb, hbin⟩ := bin_exists (e := chiBins) (by decide +kernel) (e.trans_le hc.1) (hc.2.trans e'.ge)
    have hb9 : b < 9 := by change b + 1 < 10 at hb; omega
    refine ⟨b, ⟨hb9, (chiBin_iff hb9 _).1 hbin⟩, ?_⟩
    rintro c ⟨hc9, hcb⟩
    exact bin_unique chiBins_increasing (show c + 1 < 10 by omega) (show b + 1 < 10 by omega) ((chiBin_iff hc9 _).2 hcb) hbin

/-- **C31, success**: `calculate_chiparams` succeeds whenever there is an atom and the box is not degenerate. -/
theorem C31_succeeds (s : System) (reals : List Atom) (hi : StoreInv s reals) (hl : 1 ≤ reals.length)
    (hb : boxSum s.getBox ≠ 0) (hd : Spec.Skew s.getBox → s.getBox.det ≠ 0) : ∃ s', s.calculateChi = .ok s' := by
  unfold System.calculateChi
  rw [getAtoms_inv hi]
  exact C05_assign_succeeds s _ (by rw [List.length_map]; exact hl) hb hd

/-! ### C59 -/

/-- The sum computed by the loop, for non-zero vectors. -/
theorem angular_fold (L : List (ℕ × ℕ)) (v : ℕ → V3) (x : ℝ) (h : ∀ c ∈ L, v c.1 ≠ 0 ∧ v c.2 ≠ 0) :
    L.foldl (fun acc c => nanAdd acc ((pyCos (v c.1) (v c.2)).map fun x => (x + 1 / 3) ^ 2)) (some x) =
      some (x + (L.map fun c => (Spec.cosAngle (v c.1) (v c.2) + 1 / 3) ^ 2).sum) := by
  induction L generalizing x with
  | nil => simp
  | cons c L ih =>
    obtain ⟨h1, h2⟩ := h c List.mem_cons_self
    rw [List.foldl_cons, pyCos_eq h1 h2]
    change List.foldl _ (some (x + (Spec.cosAngle (v c.1) (v c.2) + 1 / 3) ^ 2)) L = _
    rw [ih _ fun d hd => h d (List.mem_cons_of_mem _ hd), List.map_cons, List.sum_cons, add_assoc]

/-- The four nearest of the neighbours `nb`. -/
theorem angular_top (σ : StdSort) (d : Atom → ℝ) (nb : List Atom) :
    Spec.FirstOf nb.length (fun i => d (nb.getD i default)) (min 4 nb.length)
      (((σ.sort (nb.mapIdx fun (i : ℕ) b => ⟨d b, i⟩)).map DAtom.idx).take 4) := by
  set t := nb.mapIdx (fun (i : ℕ) b => (⟨d b, i⟩ : DAtom)) with ht
  have hidx : t.map DAtom.idx = List.range nb.length := by
    refine List.ext_getElem? fun i => ?_
    rw [List.getElem?_map, ht, List.getElem?_mapIdx]
    by_cases hi : i < nb.length
    · rw [List.getElem?_eq_getElem hi, List.getElem?_range hi]; rfl
    · rw [List.getElem?_eq_none (by omega), List.getElem?_eq_none (by simp; omega)]; rfl
  have hdist : ∀ x ∈ t, x.dist = d (nb.getD x.idx default) := by
    intro x hx
    obtain ⟨i, hi, rfl⟩ := List.getElem_of_mem hx
    have hi' : i < nb.length := by simpa [ht] using hi
    simp [ht, hi']
  have hp : ((σ.sort t).map DAtom.idx).Perm (List.range nb.length) := hidx ▸ (σ.perm t).map _
  have hnd : ((σ.sort t).map DAtom.idx).Nodup := hp.nodup_iff.2 List.nodup_range
  have hso : ((σ.sort t).map DAtom.idx).Pairwise fun i j => d (nb.getD i default) ≤ d (nb.getD j default) := by
    rw [List.pairwise_map]
    refine List.Pairwise.imp_of_mem ?_ (σ.sorted t)
    intro x y hx hy hxy
    rw [← hdist x ((σ.perm t).mem_iff.1 hx), ← hdist y ((σ.perm t).mem_iff.1 hy)]
    exact hxy
  refine ⟨?_, hnd.sublist (List.take_sublist _ _), ?_, ?_⟩
  · rw [List.length_take, hp.length_eq, List.length_range]
  · intro i hi
    exact List.mem_range.1 (hp.mem_iff.1 (List.mem_of_mem_take hi))
  · intro i hi j hj hjt
    have hjm := hp.mem_iff.2 (List.mem_range.2 hj)
    rw [← List.take_append_drop 4 ((σ.sort t).map DAtom.idx)] at hso hjm
    exact (List.pairwise_append.1 hso).2.2 i hi j ((List.mem_append.1 hjm).resolve_left hjt)

/-- The loop body on an atom whose neighbours are all in the list. -/
theorem angular1_ok (σ : StdSort) (s : System) (atoms : List Atom) (a : Atom) (h : ∀ x ∈ a.nbrs, x.idx < atoms.length)
    (hv : ∀ x ∈ a.nbrs, s.getDistanceVector a (atoms.getD x.idx default) ≠ 0) :
    ∃ t, Spec.FirstOf a.nbrs.length (fun i => s.getDistance a (Spec.nbAtom atoms a i)) (min 4 a.nbrs.length) t ∧
    angular1 σ s atoms a = .ok { a with angular := some (∑ p ∈ Spec.pairSet t.length,
      (Spec.cosAngle (s.getDistanceVector a (Spec.nbAtom atoms a (t.getD p.1 0)))
        (s.getDistanceVector a (Spec.nbAtom atoms a (t.getD p.2 0))) + 1 / 3) ^ 2) } := by
  set nb := a.nbrs.map fun x => atoms.getD x.idx default with hnb
  have hmap : (a.nbrs.mapM fun x => pyGet atoms x.idx) = .ok nb := by
    refine mapM_ok_map _ _ _ fun x hx => ?_
    unfold pyGet
    rw [List.getElem?_eq_getElem (h x hx), List.getD_eq_getElem?_getD, List.getElem?_eq_getElem (h x hx)]
    rfl
  have hlen : nb.length = a.nbrs.length := by simp [hnb]
  have hget : ∀ i, i < a.nbrs.length → nb.getD i default = Spec.nbAtom atoms a i := by
    intro i hi
    simp [hnb, Spec.nbAtom, List.getD_eq_getElem?_getD, hi]
  have hF := angular_top σ (fun b => s.getDistance a b) nb
  set t := (((σ.sort (nb.mapIdx fun (i : ℕ) b => ⟨s.getDistance a b, i⟩)).map DAtom.idx).take 4) with ht
  refine ⟨t, ⟨by rw [hF.length, hlen], hF.nodup, fun i hi => by rw [← hlen]; exact hF.lt i hi, ?_⟩, ?_⟩
  · intro i hi j hj hjt
    have := hF.smallest i hi j (by rw [hlen]; exact hj) hjt
    have hi' : i < a.nbrs.length := by rw [← hlen]; exact hF.lt i hi
    rw [hget i hi', hget j hj] at this
    exact this
  · unfold angular1
    change Except.bind (a.nbrs.mapM _) _ = _
    rw [hmap]
    change Except.ok { a with angular := List.foldl _ _ ((pairs t.length).map fun p : ℕ × ℕ => (t.getD p.1 0, t.getD p.2 0)) } = _
    congr 2
    have htl : ∀ i, i < t.length → t.getD i 0 < a.nbrs.length := by
      intro i hi
      rw [← hlen]
      refine hF.lt _ ?_
      rw [List.getD_eq_getElem?_getD, List.getElem?_eq_getElem hi]
      exact List.getElem_mem hi
    have hvec : ∀ i, i < a.nbrs.length → (nb.map fun b => s.getDistanceVector a b).getD i 0 =
        s.getDistanceVector a (Spec.nbAtom atoms a i) := by
      intro i hi
      rw [← hget i hi]
      simp [List.getD_eq_getElem?_getD, hlen, hi]
    have hne : ∀ i, i < a.nbrs.length → (nb.map fun b => s.getDistanceVector a b).getD i 0 ≠ 0 := by
      intro i hi
      rw [hvec i hi]
      have : Spec.nbAtom atoms a i = atoms.getD a.nbrs[i].idx default := by
        simp [Spec.nbAtom, List.getD_eq_getElem?_getD, hi]
      rw [this]
      exact hv _ (List.getElem_mem hi)
    rw [angular_fold _ (fun i => (nb.map fun b => s.getDistanceVector a b).getD i 0) 0]
    · rw [zero_add, List.map_map, ← pairSet_eq, List.sum_toFinset _ (pairs_nodup _)]
      congr 2
      refine List.map_congr_left fun p hp => ?_
      have hp := (mem_pairs (p := p)).1 hp
      simp only [Function.comp_apply]
      rw [hvec _ (htl _ (by omega)), hvec _ (htl _ (by omega))]
    · intro c hc
      obtain ⟨p, hp, rfl⟩ := List.mem_map.1 hc
      have hp := (mem_pairs (p := p)).1 hp
      exact ⟨hne _ (htl _ (by omega)), hne _ (htl _ (by omega))⟩

/-- A neighbour that is not among the real atoms. -/
theorem angular1_error (σ : StdSort) (s : System) (atoms : List Atom) (a : Atom) (h : ∃ x ∈ a.nbrs, atoms.length ≤ x.idx) :
    angular1 σ s atoms a = .error .indexError := by
  unfold angular1
  change Except.bind (a.nbrs.mapM fun x => pyGet atoms x.idx) _ = _
  rw [mapM_all_error (fun x : Nb => pyGet atoms x.idx) .indexError]
  · rfl
  · intro x _
    unfold pyGet
    cases atoms[x.idx]? with
    | none => exact .inr rfl
    | some b => exact .inl ⟨b, rfl⟩
  · obtain ⟨x, hx, hi⟩ := h
    refine ⟨x, hx, ?_⟩
    unfold pyGet
    rw [List.getElem?_eq_none hi]

theorem pairSet_card (n : ℕ) : 2 * (Spec.pairSet n).card = n * (n - 1) := by
  rw [← pairSet_eq, List.toFinset_card_of_nodup (pairs_nodup n), pairs_length]

/-- **C59, as far as it holds**.  Full statement: `calculate_angularcriteria` assigns the sum over the six
pairs of the four nearest neighbours of `(cos + 1/3)²`.  Proved for systems in which no atom has a
neighbour beyond the real atoms: the value is that sum (over the pairs of all neighbours if there are
fewer than four) with vectors and distances as `get_distance` gives them, it is not negative, and it is
zero exactly if all the angles have cosine -1/3; only `angular` changes.  Missing: padded systems in
which a ghost is a neighbour, where the call raises IndexError (`C59_errors`, `C59_false_padded`). -/
theorem C59_partial (σ : StdSort) (s s' : System) (reals : List Atom) (hi : StoreInv s reals)
    (hv : ∀ a ∈ reals, ∀ x ∈ a.nbrs, s.getDistanceVector a (reals.getD x.idx default) ≠ 0)
    (h : s.calculateAngular σ = .ok s') :
    ∃ l, s'.getAtoms = .ok l ∧ l.length = reals.length ∧
    ∀ (k : ℕ) (a : Atom), reals[k]? = some a → ∃ (a' : Atom) (t : List ℕ) (x : ℝ), l[k]? = some a' ∧
      a' = { a with angular := some x } ∧
      Spec.FirstOf a.nbrs.length (fun i => s.getDistance a (Spec.nbAtom reals a i)) (min 4 a.nbrs.length) t ∧
      (4 ≤ a.nbrs.length → (Spec.pairSet t.length).card = 6) ∧
      x = ∑ p ∈ Spec.pairSet t.length, (Spec.cosAngle (s.getDistanceVector a (Spec.nbAtom reals a (t.getD p.1 0)))
        (s.getDistanceVector a (Spec.nbAtom reals a (t.getD p.2 0))) + 1 / 3) ^ 2 ∧
      0 ≤ x ∧
      (x = 0 ↔ ∀ p ∈ Spec.pairSet t.length, Spec.cosAngle (s.getDistanceVector a (Spec.nbAtom reals a (t.getD p.1 0)))
        (s.getDistanceVector a (Spec.nbAtom reals a (t.getD p.2 0))) = -1 / 3) := by
  unfold System.calculateAngular at h
  rw [getAtoms_inv hi] at h
  change Except.bind (reals.mapM (angular1 σ s reals)) _ = _ at h
  cases hm : reals.mapM (angular1 σ s reals) with
  | error e => rw [hm] at h; cases h
  | ok new =>
    rw [hm] at h
    change s.assignAtoms new = .ok s' at h
    obtain ⟨hlen, hall⟩ := mapM_except _ reals new hm
    have hidx : ∀ a ∈ reals, ∀ x ∈ a.nbrs, x.idx < reals.length := by
      intro a ha x hx
      by_contra hc
      obtain ⟨k, hk, rfl⟩ := List.getElem_of_mem ha
      obtain ⟨b, hb, -⟩ := hall k _ (List.getElem?_eq_getElem hk)
      rw [angular1_error σ s reals _ ⟨x, hx, not_lt.1 hc⟩] at hb
      cases hb
    have hat : ∀ (k : ℕ) (a : Atom), reals[k]? = some a → ∃ t,
        Spec.FirstOf a.nbrs.length (fun i => s.getDistance a (Spec.nbAtom reals a i)) (min 4 a.nbrs.length) t ∧
        new[k]? = some { a with angular := some (∑ p ∈ Spec.pairSet t.length,
          (Spec.cosAngle (s.getDistanceVector a (Spec.nbAtom reals a (t.getD p.1 0)))
          (s.getDistanceVector a (Spec.nbAtom reals a (t.getD p.2 0))) + 1 / 3) ^ 2) } := by
      intro k a hk
      have ham := List.mem_of_getElem? hk
      obtain ⟨t, ht, ho⟩ := angular1_ok σ s reals a (hidx a ham) (hv a ham)
      obtain ⟨b, hb, hb'⟩ := hall k a hk
      rw [ho] at hb
      exact ⟨t, ht, by rw [hb', ← Except.ok.inj hb]⟩
    have hreal : ∀ a ∈ new, a.ghost = false := by
      intro a ha
      obtain ⟨k, hk, rfl⟩ := List.getElem_of_mem ha
      obtain ⟨t, -, ht⟩ := hat k reals[k] (List.getElem?_eq_getElem (by omega))
      rw [List.getElem?_eq_getElem hk] at ht
      rw [Option.some.inj ht]
      exact hi.real reals[k] (List.getElem_mem (by omega))
    obtain ⟨h1, -, -⟩ := C05_assign_atoms s s' _ hreal h
    refine ⟨_, h1, hlen, fun k a hk => ?_⟩
    obtain ⟨t, ht, hn⟩ := hat k a hk
    refine ⟨_, t, _, hn, rfl, ht, ?_, rfl, Finset.sum_nonneg fun _ _ => sq_nonneg _, ?_⟩
    · intro h4
      have := pairSet_card t.length
      rw [ht.length, min_eq_left h4] at this ⊢
      omega
    · rw [Finset.sum_eq_zero_iff_of_nonneg fun _ _ => sq_nonneg _]
      refine forall₂_congr fun p _ => ?_
      rw [sq_eq_zero_iff]
      constructor <;> intro h <;> linarith

/-- **C59, failures**: if some atom has a neighbour beyond the real atoms (a ghost copy), the call raises
IndexError, and otherwise it succeeds (for a box that is not degenerate). -/
theorem C59_errors (σ : StdSort) (s : System) (reals : List Atom) (hi : StoreInv s reals) :
    ((∃ a ∈ reals, ∃ x ∈ a.nbrs, reals.length ≤ x.idx) → s.calculateAngular σ = .error .indexError) ∧
    ((∀ a ∈ reals, ∀ x ∈ a.nbrs, x.idx < reals.length) →
      (∀ a ∈ reals, ∀ x ∈ a.nbrs, s.getDistanceVector a (reals.getD x.idx default) ≠ 0) →
      1 ≤ reals.length → boxSum s.getBox ≠ 0 → (Spec.Skew s.getBox → s.getBox.det ≠ 0) →
      ∃ s', s.calculateAngular σ = .ok s') := by
  constructor
  · rintro ⟨a, ha, hx⟩
    unfold System.calculateAngular
    rw [getAtoms_inv hi]
    change Except.bind (reals.mapM (angular1 σ s reals)) _ = _
    rw [mapM_all_error (angular1 σ s reals) .indexError]
    · rfl
    · intro b _
      unfold angular1
      change (∃ c, Except.bind (b.nbrs.mapM fun x => pyGet reals x.idx) _ = _) ∨
        Except.bind (b.nbrs.mapM fun x => pyGet reals x.idx) _ = _
      by_cases hb : ∃ x ∈ b.nbrs, reals.length ≤ x.idx
      · exact .inr (angular1_error σ s reals b hb)
      · left
        push Not at hb
        rw [mapM_ok_map (fun x : Nb => pyGet reals x.idx) (fun x => reals.getD x.idx default) b.nbrs]
        · exact ⟨_, rfl⟩
        · intro x hx
          unfold pyGet
          rw [List.getD_eq_getElem?_getD, List.getElem?_eq_getElem (hb x hx)]
          rfl
    · exact ⟨a, ha, angular1_error σ s reals a hx⟩
  · intro hidx hv hl hb hd
    unfold System.calculateAngular
    rw [getAtoms_inv hi]
    change ∃ s', Except.bind (reals.mapM (angular1 σ s reals)) _ = _
    obtain ⟨new, hnew⟩ := mapM_except_isOk (angular1 σ s reals) reals (fun a ha => by
      obtain ⟨t, -, ht⟩ := angular1_ok σ s reals a (hidx a ha) (hv a ha)
      exact ⟨_, ht⟩)
    rw [hnew]
    exact C05_assign_succeeds s new (by rw [(mapM_except _ _ _ hnew).1]; exact hl) hb hd

/-- An atom in the middle of a tetrahedron, in a box of length 10; only the first one has neighbours. -/
noncomputable def tetra : System where
  atoms := [{ pos := ⟨5, 5, 5⟩, nbrs := [⟨1, Real.sqrt 3, 1, ⟨1, 1, 1⟩⟩, ⟨2, Real.sqrt 3, 1, ⟨1, -1, -1⟩⟩, ⟨3, Real.sqrt 3, 1, ⟨-1, 1, -1⟩⟩,
      ⟨4, Real.sqrt 3, 1, ⟨-1, -1, 1⟩⟩] },
    { pos := ⟨6, 6, 6⟩ }, { pos := ⟨6, 4, 4⟩ }, { pos := ⟨4, 6, 4⟩ }, { pos := ⟨4, 4, 6⟩ }]
  nop := 5
  realNop := 5
  box := Spec.diagBox 10 10 10

theorem tetra_inv : StoreInv tetra tetra.atoms :=
  ⟨by simp [tetra], ⟨[], by simp, by simp, rfl⟩, rfl, rfl⟩

theorem tetra_box : boxSum tetra.getBox ≠ 0 ∧ ¬ Spec.Skew tetra.getBox := by
  have : tetra.getBox = Spec.diagBox 10 10 10 := rfl
  rw [this, ← skewed_iff]
  exact ⟨by norm_num [boxSum, Spec.diagBox], not_skewed_diag _ _ _⟩

theorem tetra_vec : ∀ a ∈ tetra.atoms, ∀ x ∈ a.nbrs, x.idx < tetra.atoms.length ∧ x.vec ≠ 0 ∧
    tetra.getDistanceVector a (tetra.atoms.getD x.idx default) = -x.vec := by
  have him : ∀ a b, tetra.getDistanceVector a b = _ := fun a b =>
    image_diag tetra 10 10 10 (by norm_num) (by norm_num) (by norm_num) rfl rfl (a.pos - b.pos)
  simp only [him]
  simp only [tetra, List.mem_cons, List.not_mem_nil, or_false, forall_eq_or_imp, forall_eq, IsEmpty.forall_iff, implies_true,
    and_true]
  refine ⟨⟨by simp, ?_, ?_⟩, ⟨by simp, ?_, ?_⟩, ⟨by simp, ?_, ?_⟩, by simp, ?_, ?_⟩
  all_goals first
    | (intro h; have := congrArg V3.x h; norm_num at this; done)
    | (ext <;> norm_num [wrap])

/-- The tetrahedron meets the hypotheses of C31 and C59. -/
example (σ : StdSort) : StoreInv tetra tetra.atoms ∧ (∃ s', tetra.calculateChi = .ok s') ∧ (∃ s', tetra.calculateAngular σ = .ok s') ∧
    (∀ a ∈ tetra.atoms, ∀ x ∈ a.nbrs, x.vec ≠ 0) ∧
    (∀ a ∈ tetra.atoms, ∀ x ∈ a.nbrs, tetra.getDistanceVector a (tetra.atoms.getD x.idx default) ≠ 0) := by
  have hv : ∀ a ∈ tetra.atoms, ∀ x ∈ a.nbrs, tetra.getDistanceVector a (tetra.atoms.getD x.idx default) ≠ 0 := by
    intro a ha x hx h
    obtain ⟨-, h1, h2⟩ := tetra_vec a ha x hx
    rw [h] at h2
    refine h1 ?_
    ext
    · have := congrArg V3.x h2; simp at this; simpa using this
    · have := congrArg V3.y h2; simp at this; simpa using this
    · have := congrArg V3.z h2; simp at this; simpa using this
  have hl : 1 ≤ tetra.atoms.length := by simp [tetra]
  exact ⟨tetra_inv, C31_succeeds tetra _ tetra_inv hl tetra_box.1 (fun h => absurd h tetra_box.2),
    (C59_errors σ tetra _ tetra_inv).2 (fun a ha x hx => (tetra_vec a ha x hx).1) hv hl tetra_box.1 (fun h => absurd h tetra_box.2),
    fun a ha x hx => (tetra_vec a ha x hx).2.1, hv⟩

end Pyscal
