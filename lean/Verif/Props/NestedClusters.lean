import Verif.Props.Stricter

/-! C115: a stricter clustering gives clusters within clusters. -/

namespace Pyscal

/-- **C115.**  Cluster the same atoms twice: after searches with the cutoffs `ra` and `rb ≤ ra`, with two conditions of which the second holds only
where the first does, and with separate cutoffs of which the second is not larger (0: none).  Then every cluster of the second call lies within one cluster of the
first, and the largest cluster of the second call is not larger. -/
theorem C115_nested (σ : StdSort) (s sa sb ta tb : System) (reals : List Atom) (hi : StoreInv s reals) (f : ℕ) (ra rb : ℝ) (hra : ra ≠ 0) (hrb : rb ≠ 0)
    (hpa : Spec.PairsExact s ra) (hpb : Spec.PairsExact s rb) (hle : rb ≤ ra)
    (h1 : s.findNeighbors σ f (.cutoff ra) = .ok sa) (h2 : s.findNeighbors σ f (.cutoff rb) = .ok sb)
    (ca cb : ℝ) (hcut : ca = 0 ∨ (cb ≠ 0 ∧ cb ≤ ca)) (condA condB : Atom → Except Fault ℤ)
    (hcond : ∀ (i : ℕ) (a b : Atom), sa.atoms[i]? = some a → sb.atoms[i]? = some b → ∀ v, condB b = .ok v → v ≠ 0 → ∃ w, condA a = .ok w ∧ w ≠ 0)
    (na nb : ℕ) (h3 : sa.clusterAtoms condA ca = .ok (ta, na)) (h4 : sb.clusterAtoms condB cb = .ok (tb, nb)) :
    ∃ la lb, ta.getAtoms = .ok la ∧ tb.getAtoms = .ok lb ∧ la.length = s.natoms ∧ lb.length = s.natoms ∧
      (∀ (i j : ℕ) (a b a' b' : Atom), lb[i]? = some a → lb[j]? = some b → la[i]? = some a' → la[j]? = some b' →
        a.belongsto ≠ -1 → a.belongsto = b.belongsto → a'.belongsto ≠ -1 ∧ a'.belongsto = b'.belongsto) ∧ nb ≤ na := by
  obtain ⟨la, labA, ga, ba, compA⟩ := C25_partial σ s sa ta reals hi f ra hra hpa h1 condA ca na h3
  obtain ⟨lb, labB, gb, bb, compB⟩ := C25_partial σ s sb tb reals hi f rb hrb hpb h2 condB cb nb h4
  obtain ⟨hia, hla⟩ := storeInv_any hra hpa h1 hi
  obtain ⟨hib, hlb⟩ := storeInv_any hrb hpb h2 hi
  obtain ⟨-, hlena, -⟩ := cutoff_any hra hpa h1
  obtain ⟨-, hlenb, -⟩ := cutoff_any hrb hpb h2
  obtain ⟨la', ga', -, maxA, -, -⟩ := C26_partial sa ta _ hia condA ca na h3
  obtain ⟨lb', gb', -, -, someB, noneB⟩ := C26_partial sb tb _ hib condB cb nb h4
  obtain rfl : la' = la := by rw [ga] at ga'; exact (Except.ok.inj ga').symm
  obtain rfl : lb' = lb := by rw [gb] at gb'; exact (Except.ok.inj gb').symm
  have hchosen : ∀ i, Spec.Chosen sb s.natoms condB i → Spec.Chosen sa s.natoms condA i := by
    rintro i ⟨hin, b, v, hb, hv, hne⟩
    have hlt := (List.getElem?_eq_some_iff.1 hb).1
    have hlt' : i < sa.atoms.length := by omega
    obtain ⟨w, hw, hwne⟩ := hcond i _ b (List.getElem?_eq_getElem hlt') hb v hv hne
    exact ⟨hin, _, w, List.getElem?_eq_getElem hlt', hw, hwne⟩
  have hstep : ∀ x y, Spec.Linked s sb s.natoms condB rb f cb x y → Spec.Linked s sa s.natoms condA ra f ca x y := by
    rintro x y ⟨hx, hy, a, b, ha, hb, ⟨n1, n2, n3⟩, hc⟩
    refine ⟨hchosen x hx, hchosen y hy, a, b, ha, hb, ⟨n1, lt_of_lt_of_le n2 hle, n3⟩, fun hne => ?_⟩
    rcases hcut with h | ⟨h, h'⟩
    · exact absurd h hne
    · exact (hc h).trans h'
  have hlab : ∀ i < s.natoms, ∀ j < s.natoms, labB i ≠ -1 → labB i = labB j → labA i ≠ -1 ∧ labA i = labA j := by
    intro i hi j hj hne he
    have hmi : Spec.Chosen sb s.natoms condB i := by by_contra hc; exact hne ((compB.outside i hi).2 hc)
    have hmj : Spec.Chosen sb s.natoms condB j := by by_contra hc; exact hne (he.trans ((compB.outside j hj).2 hc))
    exact ⟨fun h => (compA.outside i hi).1 h (hchosen i hmi),
      (compA.same i hi j hj (hchosen i hmi) (hchosen j hmj)).2 (Relation.ReflTransGen.mono hstep _ _ ((compB.same i hi j hj hmi hmj).1 he))⟩
  have hget : ∀ {L : List Atom} {b : ℕ → ℤ}, L.map Atom.belongsto = (List.range s.natoms).map b → ∀ {i : ℕ} {a : Atom}, L[i]? = some a →
      i < s.natoms ∧ a.belongsto = b i := by
    intro L b hL i a hi
    have h : (L.map Atom.belongsto)[i]? = some a.belongsto := by rw [List.getElem?_map, hi]; rfl
    rw [hL] at h
    exact map_range_getElem? _ h
  refine ⟨la', lb', ga, gb, by simpa using congrArg List.length ba, by simpa using congrArg List.length bb, ?_, ?_⟩
  · intro i j a b a' b' ha hb' ha' hb'' hne he
    obtain ⟨hi', ea⟩ := hget bb ha
    obtain ⟨hj', eb⟩ := hget bb hb'
    rw [(hget ba ha').2, (hget ba hb'').2]
    rw [ea] at hne
    rw [ea, eb] at he
    exact hlab i hi' j hj' hne he
  · by_cases hex : ∃ a ∈ sb.atoms.take s.realNop, ∃ v, condB a = .ok v ∧ v ≠ 0
    · obtain ⟨hpos, t, ht, hlen, -⟩ := someB hex
      rw [cluster_count bb] at hlen
      obtain ⟨i0, hi0, hli0⟩ := List.countP_pos_iff.1 (hlen ▸ hpos)
      rw [List.mem_range] at hi0
      rw [decide_eq_true_iff] at hli0
      have h0 := hlab i0 hi0 i0 hi0 (by rw [hli0]; exact ht) rfl
      refine le_trans ?_ (maxA (labA i0) h0.1)
      rw [cluster_count ba, ← hlen]
      refine List.countP_mono_left fun j hj hjt => ?_
      rw [List.mem_range] at hj
      rw [decide_eq_true_iff] at hjt ⊢
      exact (hlab i0 hi0 j hj (by rw [hli0]; exact ht) (hli0.trans hjt.symm)).2.symm
    · rw [noneB fun a ha => ?_]
      · exact Nat.zero_le _
      · obtain ⟨new, -, -, -, -, -, -, hall⟩ := clusterAtoms_ok hib h4
        obtain ⟨i, hia⟩ := List.mem_iff_getElem?.1 ha
        obtain ⟨v, hv, -⟩ := hall i a hia
        by_cases h0 : v = 0
        · rw [hv, h0]
        · exact absurd ⟨a, ha, v, hv, h0⟩ hex

/-- The hypotheses hold for a row of 200 atoms: all atoms with cutoff 2, and the atoms left of the middle with cutoff 3/2. -/
example (σ : StdSort) : ∃ (s sa sb ta tb : System) (na nb : ℕ), StoreInv s chainAtoms ∧ Spec.PairsExact s 2 ∧ Spec.PairsExact s (3 / 2) ∧
    s.findNeighbors σ 0 (.cutoff 2) = .ok sa ∧ s.findNeighbors σ 0 (.cutoff (3 / 2)) = .ok sb ∧
    sa.clusterAtoms (fun _ => .ok 1) 0 = .ok (ta, na) ∧ sb.clusterAtoms (fun a => .ok (if a.pos.x < 100 then 1 else 0)) 0 = .ok (tb, nb) := by
  obtain ⟨s0, s, h1, h2, hi, ha, -, hbx, htr⟩ := chain_setup
  have hal : s.atoms.length = 200 := by rw [ha]; exact chainAtoms_length
  have hrn : s.realNop = 200 := by rw [hi.realNop, chainAtoms_length]
  have hnat : s.natoms ≤ 2300 := by unfold System.natoms; omega
  have hlen := chainAtoms_length
  have hsearch : ∀ r : ℝ, 0 < r → ∃ s1, s.findNeighbors σ 0 (.cutoff r) = .ok s1 := by
    intro r hr
    exact (C09_overrun σ s 0 r hr.ne' (by omega) (by omega)).2 (by
      intro k hk
      rw [← cutoffList_length (List.getElem?_eq_getElem hk) (cutoffNbs_spec (List.getElem?_eq_getElem hk))]
      exact (cutoffNbs_le _ _ _ _).trans (by omega))
  have hnsk : ¬ Spec.Skew s0.getBox := by
    obtain ⟨f1, f2, -⟩ := setBox_frame h1
    have : s0.getBox = Spec.diagBox 1000 1000 1000 := by simp [System.getBox, f1, f2, System.init]
    rw [this, ← skewed_iff]; exact not_skewed_diag _ _ _
  obtain ⟨sa, h3⟩ := hsearch 2 (by norm_num)
  obtain ⟨sb, h4⟩ := hsearch (3 / 2) (by norm_num)
  obtain ⟨ta, na, h5⟩ := C25_run σ s0 s sa chainAtoms hi.real (by omega) (fun h => absurd h hnsk) h2 0 2 (by norm_num) (.inl hnat) h3
    (fun _ => .ok 1) 0 (fun _ => ⟨1, rfl, .inr rfl⟩)
  obtain ⟨tb, nb, h6⟩ := C25_run σ s0 s sb chainAtoms hi.real (by omega) (fun h => absurd h hnsk) h2 0 (3 / 2) (by norm_num) (.inl hnat) h4
    (fun a => .ok (if a.pos.x < 100 then 1 else 0)) 0 (fun a => ⟨_, rfl, by split_ifs <;> simp⟩)
  exact ⟨s, sa, sb, ta, tb, na, nb, hi, .inl hnat, .inl hnat, h3, h4, h5, h6⟩

end Pyscal
