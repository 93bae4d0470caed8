import Verif.Lemmas.Search

/-! Sorted candidate lists: nearest neighbours. -/

namespace Pyscal

theorem cands_mem {s : System} {k : ℕ} {x : DAtom} :
    x ∈ cands s k ↔ x.idx < s.atoms.length ∧ x.idx ≠ k ∧ x.dist = s.distOf k x.idx ∧
      (if s.usecells then s.distOf k x.idx < s.neighbordistance else s.distOf k x.idx ≤ s.neighbordistance) := by
  obtain ⟨d, j⟩ := x
  simp only [cands, List.mem_map, List.mem_filter, List.mem_range, decide_eq_true_eq, DAtom.mk.injEq]
  constructor
  · rintro ⟨j', ⟨h1, h2, h3⟩, rfl, rfl⟩; exact ⟨h1, h2, rfl, h3⟩
  · rintro ⟨h1, h2, h3, h4⟩; exact ⟨j, ⟨h1, h2, h4⟩, h3.symm, rfl⟩

theorem cands_nodup (s : System) (k : ℕ) : ((cands s k).map DAtom.idx).Nodup := by
  unfold cands
  rw [List.map_map]
  have : (DAtom.idx ∘ fun j => (⟨s.distOf k j, j⟩ : DAtom)) = id := rfl
  rw [this, List.map_id]
  exact List.nodup_range.filter _

/-- A sorted list of candidates of atom `k`. -/
structure SortedCands (s : System) (k : ℕ) (S : List DAtom) : Prop where
  perm : S.Perm (cands s k)
  sorted : S.Pairwise (fun a b => a.dist ≤ b.dist)

theorem SortedCands.mk' (σ : StdSort) {s : System} {k : ℕ} {T : List DAtom} (h : T.Perm (cands s k)) :
    SortedCands s k (σ.sort T) := ⟨(σ.perm T).trans h, σ.sorted T⟩

namespace SortedCands

variable {s : System} {k : ℕ} {S : List DAtom}

theorem nodup (h : SortedCands s k S) : (S.map DAtom.idx).Nodup :=
  (h.perm.map DAtom.idx).nodup_iff.2 (cands_nodup s k)

theorem mem (h : SortedCands s k S) {x : DAtom} : x ∈ S ↔ x.idx < s.atoms.length ∧ x.idx ≠ k ∧
    x.dist = s.distOf k x.idx ∧
      (if s.usecells then s.distOf k x.idx < s.neighbordistance else s.distOf k x.idx ≤ s.neighbordistance) := by
  rw [h.perm.mem_iff, cands_mem]

theorem mkNb_dist (h : SortedCands s k S) {x : DAtom} (hx : x ∈ S) : (s.mkNb k x.idx).dist = x.dist :=
  (h.mem.1 hx).2.2.1.symm

theorem good (h : SortedCands s k S) {a : Atom} (hk : s.atoms[k]? = some a) {x : DAtom} (hx : x ∈ S) :
    Spec.GoodEntry s k a (s.mkNb k x.idx) := by
  obtain ⟨h1, h2, -, -⟩ := h.mem.1 hx
  have hj := List.getElem?_eq_getElem h1
  have hd := distOf_eq hk hj
  exact ⟨s.atoms[x.idx], hj, h2, hd.1, rfl, hd.2⟩

/-- The first `n` sorted candidates are the `n` nearest atoms. -/
theorem nearest (h : SortedCands s k S) {a : Atom} (hk : s.atoms[k]? = some a) {n : ℕ} (hn : n ≤ S.length) :
    Spec.NearestList s k a n ((S.take n).map fun x => s.mkNb k x.idx) := by
  have hsub : (S.take n).Sublist S := List.take_sublist n S
  refine ⟨by simp [hn], ?_, ?_, ?_, ?_⟩
  · rw [List.map_map]
    exact h.nodup.sublist (hsub.map DAtom.idx)
  · intro y hy
    obtain ⟨x, hx, rfl⟩ := List.mem_map.1 hy
    exact h.good hk (hsub.subset hx)
  · rw [List.pairwise_map]
    refine (h.sorted.sublist hsub).imp_of_mem ?_
    intro x y hx hy hxy
    rw [h.mkNb_dist (hsub.subset hx), h.mkNb_dist (hsub.subset hy)]
    exact hxy
  · intro j nb hj hjk hout y hy
    obtain ⟨x, hx, rfl⟩ := List.mem_map.1 hy
    have hxS := hsub.subset hx
    obtain ⟨-, -, -, hw⟩ := h.mem.1 hxS
    have hjl := (mem_of_getElem? hj).1
    rw [h.mkNb_dist hxS]
    rw [← (distOf_eq hk hj).1]
    by_cases hmem : (⟨s.distOf k j, j⟩ : DAtom) ∈ S
    · rw [← List.take_append_drop n S] at hmem
      rcases List.mem_append.1 hmem with hm | hm
      · exact absurd rfl (hout (s.mkNb k j) (List.mem_map.2 ⟨_, hm, rfl⟩))
      · have hsort := h.sorted
        rw [← List.take_append_drop n S, List.pairwise_append] at hsort
        exact hsort.2.2 x hx _ hm
    · rw [h.mem] at hmem
      simp only [not_and] at hmem
      have hnot := hmem hjl hjk trivial
      rw [(h.mem.1 hxS).2.2.1]
      cases hu : s.usecells
      · rw [hu] at hw hnot
        simp only [Bool.false_eq_true, if_false, not_le] at hw hnot
        linarith
      · rw [hu] at hw hnot
        simp only [if_true, not_lt] at hw hnot
        linarith

end SortedCands

/-- The candidate settings do not change the geometry. -/
theorem like_cand (s : System) (u : Bool) (p : ℝ) : Like s (s.candSettings u p) :=
  ⟨rfl, fun _ => rfl, fun _ => rfl, rfl, rfl, rfl, rfl⟩

theorem goodEntry_cand {s : System} {u : Bool} {p : ℝ} {k : ℕ} {a : Atom} {x : Nb} :
    Spec.GoodEntry (s.candSettings u p) k a x ↔ Spec.GoodEntry s k a x := Iff.rfl

theorem nearestList_cand {s : System} {u : Bool} {p : ℝ} {k n : ℕ} {a : Atom} {l : List Nb} :
    Spec.NearestList (s.candSettings u p) k a n l ↔ Spec.NearestList s k a n l := Iff.rfl

theorem sameGeometry_map {s : System} {g : ℕ → Atom} {s' : System}
    (hat : s'.atoms = (List.range s.atoms.length).map g)
    (hb : s'.box = s.box ∧ s'.rot = s.rot ∧ s'.rotinv = s.rotinv ∧ s'.triclinic = s.triclinic)
    (hp : ∀ k, (g k).pos = (s.mem k).pos) (ht : ∀ k, (g k).type = (s.mem k).type) :
    Spec.SameGeometry s s' := by
  refine ⟨?_, fun a b => image_frame hb.1 hb.2.1 hb.2.2.1 hb.2.2.2 _⟩
  rw [hat]
  refine List.ext_getElem (by simp) fun k hk hk' => ?_
  simp only [List.length_map, List.length_range] at hk
  simp [hp, ht, mem_eq_getElem s k hk]

theorem cands_length {s : System} (hu : s.usecells = false) {k : ℕ} (hk : k < s.atoms.length) :
    (cands s k).length = Spec.countWithin s s.neighbordistance k := by
  have : {j | j ≠ k ∧ ∃ host nb, s.atoms[k]? = some host ∧ s.atoms[j]? = some nb ∧
      s.getDistance nb host ≤ s.neighbordistance} = (((cands s k).map DAtom.idx).toFinset : Set ℕ) := by
    ext j
    simp only [Set.mem_ofPred_eq, List.coe_toFinset, List.mem_map]
    constructor
    · rintro ⟨h1, host, nb, h2, h3, h4⟩
      refine ⟨⟨s.distOf k j, j⟩, cands_mem.2 ⟨(mem_of_getElem? h3).1, h1, rfl, ?_⟩, rfl⟩
      rw [hu, (distOf_eq h2 h3).1]
      exact h4
    · rintro ⟨x, hx, rfl⟩
      obtain ⟨h1, h2, h3, h4⟩ := cands_mem.1 hx
      rw [hu] at h4
      have ek := List.getElem?_eq_getElem hk
      have ej := List.getElem?_eq_getElem h1
      refine ⟨h2, _, _, ek, ej, ?_⟩
      rw [← (distOf_eq ek ej).1]
      exact h4
  unfold Spec.countWithin
  rw [this, Set.ncard_coe_finset, List.toFinset_card_of_nodup (cands_nodup s k), List.length_map]

end Pyscal
