import Verif.Lemmas.CnaRun
import Verif.Spec.Cna

/-! From the signatures of the code to those of the specification. -/

namespace Pyscal

section
variable {R R' : ℕ → ℕ → Prop} {nb : List ℕ}

theorem getD_mem {k : ℕ} (hk : k < nb.length) : nb.getD k 0 ∈ nb := by
  rw [getD_lt hk]; exact List.getElem_mem hk

theorem commonWith_congr (h : ∀ m ∈ nb, ∀ n ∈ nb, R m n ↔ R' m n) {k : ℕ} (hk : k < nb.length) :
    Spec.commonWith R nb k = Spec.commonWith R' nb k := by
  classical
  ext j
  simp only [Spec.commonWith, Finset.mem_filter, Finset.mem_range]
  refine and_congr_right fun hj => and_congr_right fun _ => h _ (getD_mem hk) _ (getD_mem hj)

theorem mem_commonWith_lt {k j : ℕ} (h : j ∈ Spec.commonWith R nb k) : j < nb.length := by
  classical
  simp only [Spec.commonWith, Finset.mem_filter, Finset.mem_range] at h
  exact h.1

theorem bondsOf_congr (h : ∀ m ∈ nb, ∀ n ∈ nb, R m n ↔ R' m n) {k j : ℕ} (hk : k < nb.length)
    (hj : j ∈ Spec.commonWith R' nb k) : Spec.bondsOf R nb k j = Spec.bondsOf R' nb k j := by
  classical
  unfold Spec.bondsOf
  rw [commonWith_congr h hk]
  congr 1
  ext m
  simp only [Finset.mem_filter]
  refine and_congr_right fun hm => and_congr_right fun _ =>
    h _ (getD_mem (mem_commonWith_lt hj)) _ (getD_mem (mem_commonWith_lt hm))

theorem bondPairs_congr (h : ∀ m ∈ nb, ∀ n ∈ nb, R m n ↔ R' m n) {k : ℕ} (hk : k < nb.length) :
    Spec.bondPairs R nb k = Spec.bondPairs R' nb k := by
  classical
  unfold Spec.bondPairs
  rw [commonWith_congr h hk]
  congr 1
  ext p
  simp only [Finset.mem_filter, Finset.mem_product]
  refine and_congr_right fun hm => and_congr_right fun _ =>
    h _ (getD_mem (mem_commonWith_lt hm.1)) _ (getD_mem (mem_commonWith_lt hm.2))

end

/-- The code's "within" on stored atoms. -/
theorem withinC_iff {s : System} {c : ℝ} {m n : ℕ} (hm : m < s.atoms.length) (hn : n < s.atoms.length) :
    withinC s c m n = true ↔ Spec.Within s c m n := by
  unfold withinC Spec.Within
  rw [decide_eq_true_eq]
  have h1 := List.getElem?_eq_getElem hm
  have h2 := List.getElem?_eq_getElem hn
  constructor
  · intro h
    refine ⟨_, _, h1, h2, ?_⟩
    rw [← (distOf_eq h2 h1).1, distOf_comm]; exact h
  · rintro ⟨p, q, hp, hq, h⟩
    rw [← (distOf_eq hq hp).1, distOf_comm] at h; exact h

theorem withinC_symm (s : System) (c : ℝ) (m n : ℕ) : withinC s c m n = withinC s c n m := by
  unfold withinC
  rw [distOf_comm]

/-- Signatures of stored neighbours follow the specification. -/
theorem signatures_of_code (s : System) (c : ℝ) (nb : List Nb) (hnb : ∀ x ∈ nb, x.idx < s.atoms.length) :
    Spec.Signatures s c nb (cnaSignatures (withinC s c) (nb.map Nb.idx)) := by
  obtain ⟨hl, hs⟩ := cnaSignatures_spec (withinC s c) (withinC_symm s c) (nb.map Nb.idx)
  refine ⟨by rw [hl, List.length_map], fun k x hx => ?_⟩
  have hk : k < (nb.map Nb.idx).length := by
    rw [← hl]
    exact (List.getElem?_eq_some_iff.1 hx).1
  have hR : ∀ m ∈ nb.map Nb.idx, ∀ n ∈ nb.map Nb.idx, (withinC s c m n = true ↔ Spec.Within s c m n) := by
    intro m hm n hn
    obtain ⟨x, hx, rfl⟩ := List.mem_map.1 hm
    obtain ⟨y, hy, rfl⟩ := List.mem_map.1 hn
    exact withinC_iff (hnb x hx) (hnb y hy)
  obtain ⟨h1, h2, h3, h4, h5, h6⟩ := hs k x hx
  set N := nb.map Nb.idx with hN
  rw [commonWith_congr hR hk] at h1 h3 h4 h6
  rw [bondPairs_congr hR hk] at h2
  set C := Spec.commonWith (Spec.Within s c) N k with hC
  have hb : ∀ j ∈ C, Spec.bondsOf (fun m n => withinC s c m n = true) N k j = Spec.bondsOf (Spec.Within s c) N k j :=
    fun j hj => bondsOf_congr hR hk hj
  rw [Finset.sup_congr rfl hb] at h3
  have h4 : ∀ j ∈ C, x.2.2.2 ≤ Spec.bondsOf (Spec.Within s c) N k j := fun j hj => by rw [← hb j hj]; exact h4 j hj
  have h6 : x.2.2.2 = 8 ∨ ∃ j ∈ C, x.2.2.2 = Spec.bondsOf (Spec.Within s c) N k j := by
    rcases h6 with h | ⟨j, hj, h⟩
    · exact .inl h
    · exact .inr ⟨j, hj, by rw [← hb j hj]; exact h⟩
  by_cases hne : C.Nonempty
  · obtain ⟨j, hj, hjs⟩ := Finset.exists_mem_eq_sup C hne (Spec.bondsOf (Spec.Within s c) N k)
    have hgr : IsGreatest {n | ∃ j ∈ C, n = Spec.bondsOf (Spec.Within s c) N k j} x.2.2.1 := by
      refine ⟨⟨j, hj, h3.trans hjs⟩, ?_⟩
      rintro n ⟨i, hi, rfl⟩
      rw [h3]
      exact Finset.le_sup hi
    obtain ⟨i, hi, him⟩ := Finset.exists_mem_eq_inf' hne (Spec.bondsOf (Spec.Within s c) N k)
    have hle : ∀ j ∈ C, Spec.bondsOf (Spec.Within s c) N k i ≤ Spec.bondsOf (Spec.Within s c) N k j := by
      intro j hj
      rw [← him]
      exact Finset.inf'_le _ hj
    have hleast : IsLeast {n | ∃ j ∈ C, n = Spec.bondsOf (Spec.Within s c) N k j} (Spec.bondsOf (Spec.Within s c) N k i) := by
      refine ⟨⟨i, hi, rfl⟩, ?_⟩
      rintro n ⟨j, hj, rfl⟩
      exact hle j hj
    by_cases hat : ∃ j ∈ C, x.2.2.2 = Spec.bondsOf (Spec.Within s c) N k j
    · left
      refine ⟨h1, h2, hgr, hat, ?_⟩
      rintro n ⟨j, hj, rfl⟩
      exact h4 j hj
    · right; right
      have h8 := h6.resolve_right hat
      refine ⟨Spec.bondsOf (Spec.Within s c) N k i, ⟨h1, h2, hgr, hleast⟩, ?_, h8⟩
      have := h4 i hi
      rcases Nat.lt_or_ge 8 (Spec.bondsOf (Spec.Within s c) N k i) with h | h
      · exact h
      · exact absurd ⟨i, hi, by omega⟩ hat
  · right; left
    have hemp : C = ∅ := Finset.not_nonempty_iff_eq_empty.1 hne
    refine ⟨hemp, ?_⟩
    have h6 : x.2.2.2 = 8 := by
      rcases h6 with h | ⟨j, hj, _⟩
      · exact h
      · rw [hemp] at hj; cases hj
    have hbp : Spec.bondPairs (Spec.Within s c) N k = 0 := by
      classical
      unfold Spec.bondPairs
      rw [← hC, hemp]; rfl
    rw [hemp] at h1 h3
    rw [hbp] at h2
    obtain ⟨x1, x2, x3, x4⟩ := x
    simp only [Finset.card_empty, Finset.sup_empty, bot_eq_zero'] at h1 h2 h3 h6
    rw [h1, h2, h3, h6]

/-- Enough atoms within the radius give enough candidates. -/
theorem enough_cands {s : System} {R : ℝ} {n : ℕ} (u : Bool) (p : ℝ) (hR : R = s.guessDist p) (h : Spec.EnoughWithin s R n)
    (k : ℕ) (hk : k < s.atoms.length) : n ≤ (cands (s.candSettings u p) k).length := by
  obtain ⟨J, hJ, hj⟩ := h k _ (List.getElem?_eq_getElem hk)
  have hsub : J ⊆ ((cands (s.candSettings u p) k).map DAtom.idx).toFinset := by
    intro j hjJ
    obtain ⟨h1, b, h2, h3⟩ := hj j hjJ
    rw [List.mem_toFinset, List.mem_map]
    refine ⟨⟨s.distOf k j, j⟩, cands_mem.2 ⟨(mem_of_getElem? h2).1, h1, rfl, ?_⟩, rfl⟩
    have hd : s.distOf k j < s.guessDist p := by
      rw [(distOf_eq (List.getElem?_eq_getElem hk) h2).1, ← hR]; exact h3
    change if u = true then s.distOf k j < s.guessDist p else s.distOf k j ≤ s.guessDist p
    split
    · exact hd
    · exact hd.le
  have := Finset.card_le_card hsub
  rw [List.toFinset_card_of_nodup (cands_nodup _ k), List.length_map] at this
  omega

theorem struct12_spec (c : ℕ × ℕ × ℕ) (h12 : c.1 + c.2.2 ≤ 12) :
    (struct12 c = 1 ↔ c.1 = 12) ∧ (struct12 c = 2 ↔ c.1 = 6 ∧ c.2.1 = 6) ∧ (struct12 c = 4 ↔ c.2.2 = 12) := by
  unfold struct12
  refine ⟨?_, ?_, ?_⟩ <;> split_ifs <;> simp <;> omega

theorem count_add_le {α : Type} [BEq α] [LawfulBEq α] {a b : α} (h : a ≠ b) (l : List α) : l.count a + l.count b ≤ l.length := by
  induction l with
  | nil => simp
  | cons x l ih =>
    simp only [List.count_cons, List.length_cons, beq_iff_eq]
    by_cases h1 : x = a
    · subst h1; simp [h]; omega
    · by_cases h2 : x = b
      · subst h2; simp [h1]; omega
      · simp [h1, h2]; omega

theorem count_eq_length {α : Type} [BEq α] [LawfulBEq α] {a : α} (l : List α) : l.count a = l.length ↔ ∀ x ∈ l, x = a := by
  rw [List.count_eq_length]
  exact ⟨fun h x hx => (h x hx).symm, fun h x hx => (h x hx).symm⟩

theorem classified_code (sig1 sig2 : List (ℕ × ℕ × ℕ × ℕ)) (h12 : sig1.length = 12) :
    Spec.Classified sig1 sig2 (if struct12 (counts12 sig1) = 0 then struct14 (counts14 sig2) else struct12 (counts12 sig1)) := by
  have n2 := count_add_le (show ((4, 2, 1, 1) : ℕ × ℕ × ℕ × ℕ) ≠ (5, 5, 2, 2) by decide) sig1
  rw [counts12_spec, counts14_spec]
  rw [h12] at n2
  obtain ⟨s1, s2, s3⟩ := struct12_spec (sig1.count (4, 2, 1, 1), sig1.count (4, 2, 2, 0), sig1.count (5, 5, 2, 2)) n2
  have r1 := struct12_range (sig1.count (4, 2, 1, 1), sig1.count (4, 2, 2, 0), sig1.count (5, 5, 2, 2))
  have r2 := struct14_range (sig2.count (4, 4, 2, 2), sig2.count (6, 6, 2, 2))
  dsimp only at s1 s2 s3
  rw [← h12, count_eq_length] at s1 s3
  set A := struct12 (sig1.count (4, 2, 1, 1), sig1.count (4, 2, 2, 0), sig1.count (5, 5, 2, 2)) with hA
  set B := struct14 (sig2.count (4, 4, 2, 2), sig2.count (6, 6, 2, 2)) with hB
  have hB3 : B = 3 ↔ sig2.count (4, 4, 2, 2) = 6 ∧ sig2.count (6, 6, 2, 2) = 8 := by
    rw [hB]; unfold struct14; split_ifs with h <;> dsimp only at h <;> simp [h]
  unfold Spec.Classified
  rw [← s1, ← s2, ← s3, ← hB3]
  split_ifs with h0
  · rcases r2 with r | r <;> rw [r, h0] <;> simp
  · rcases r1 with r | r | r | r
    · exact absurd r h0
    all_goals rw [r]; simp

end Pyscal
