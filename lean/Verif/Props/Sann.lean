import Verif.Lemmas.Sann
import Verif.Props.Number

/-! C14: the SANN search. -/

namespace Pyscal

/-- Up to 4000 atoms all pairs are compared, and nothing is required of the box. -/
theorem sann_exact_small {s : System} (hn : s.realNop ≤ 4000) (t : ℝ) : ∀ i : ℕ, 1 ≤ i → i ≤ 9 → Spec.SearchExact s (decide (s.realNop > 4000)) (t * i) := by
  have : decide (s.realNop > 4000) = false := by simpa using hn
  rw [this]
  exact fun _ _ _ => exact_small

/-- **C14**, what does hold after a successful search: with `S` the atoms inside some search radius
sorted by distance, the neighbours are the three nearest atoms and the atoms number `4, …, m` of
`S` (counted from 0); `m` is the first number from 3 on that satisfies the stopping rule evaluated on
that list, and the cutoff is the quotient when `m > 3` (it is not written when `m = 3`).  Above 4000
atoms the box must be suited to the cell lists for the radii that may be tried. -/
theorem C14_partial (σ : StdSort) (s s' : System) (f : ℕ) (t : ℝ)
    (hx : ∀ i : ℕ, 1 ≤ i → i ≤ 9 → Spec.SearchExact s (decide (s.realNop > 4000)) (t * i))
    (h : s.findNeighbors σ f (.sann t) = .ok s') :
    Spec.SameGeometry s s' ∧
    ∀ k a a', s.atoms[k]? = some a → s'.atoms[k]? = some a' →
      ∃ S m, Spec.NearestList s k a S.length S ∧ 3 ≤ m ∧ ∃ _ : m < S.length,
        a'.nbrs = S.take 3 ++ (S.drop 4).take (m - 3) ∧
        (a'.nbrs.map Nb.dist).sum / ((m : ℝ) - 2) < S[m].dist ∧
        (3 < m → a'.cutoff = some ((a'.nbrs.map Nb.dist).sum / ((m : ℝ) - 2))) ∧
        ∀ j, 3 ≤ j → j < m → ∃ _ : j < S.length,
          S[j].dist ≤ ((S.take 3 ++ (S.drop 4).take (j - 3)).map Nb.dist).sum / ((j : ℝ) - 2) := by
  obtain ⟨_, hlike, p, T, hT⟩ := find_sann_ok (fun i h1 h2 => candOK_of (hx i h1 h2)) h
  constructor
  · refine ⟨?_, fun a b => image_frame hlike.box hlike.rot hlike.rotinv hlike.tri _⟩
    refine List.ext_getElem (by simp [hlike.len]) fun k hk hk' => ?_
    simp only [List.length_map] at hk hk'
    have h1 := hlike.pos k
    have h2 := hlike.type k
    rw [System.posOf, System.posOf, mem_eq_getElem s k hk', mem_eq_getElem s' k hk] at h1
    rw [System.typeOf, System.typeOf, mem_eq_getElem s k hk', mem_eq_getElem s' k hk] at h2
    simp [h1, h2]
  intro k a a' hk hk'
  obtain ⟨hlt, -⟩ := mem_of_getElem? hk
  obtain ⟨hlt', hmem'⟩ := mem_of_getElem? hk'
  obtain ⟨hperm, h3, m, sel, cut0, cut, hsel, hm, hnb, hcut⟩ := hT k hlt
  have hS := SortedCands.mk' σ hperm
  rw [← (σ.perm (T k)).length_eq] at h3 hm
  obtain ⟨hm3, hseleq, hml, _, hrule, -, hgt, hfirst⟩ := sannSelect_spec _ cut0 m sel cut hS.sorted h3 hsel hm
  set D := σ.sort (T k) with hD
  have hN := hS.nearest (a := a) hk (le_refl D.length)
  rw [List.take_length] at hN
  have hm2 : ((m - 2 : ℕ) : ℝ) = (m : ℝ) - 2 := by rw [Nat.cast_sub (by omega)]; norm_num
  have hsum : (a'.nbrs.map Nb.dist).sum = (sel.map DAtom.dist).sum := by
    rw [← hmem', hnb, List.map_map]
    congr 1
    refine List.map_congr_left fun x hx => hS.mkNb_dist ?_
    rw [hseleq] at hx
    rcases List.mem_append.1 hx with hx | hx
    · exact (List.take_sublist _ _).subset hx
    · exact (List.drop_sublist _ _).subset ((List.take_sublist _ _).subset hx)
  refine ⟨D.map fun x => s.mkNb k x.idx, m, by rw [List.length_map]; exact hN, hm3,
    by rw [List.length_map]; exact hml, ?_, ?_, ?_, ?_⟩
  · rw [← hmem', hnb, hseleq]; simp
  · rw [hsum, ← hm2, List.getElem_map]
    have := hS.mkNb_dist (List.getElem_mem hml)
    exact hrule.trans_eq this.symm
  · intro h3m
    rw [hsum, ← hm2, ← hmem', hcut]
    exact (hgt h3m).1
  · intro j h3j hj
    obtain ⟨hl, hle⟩ := hfirst j h3j hj
    refine ⟨by rw [List.length_map]; exact hl, ?_⟩
    have hj2 : ((j - 2 : ℕ) : ℝ) = (j : ℝ) - 2 := by rw [Nat.cast_sub (by omega)]; norm_num
    rw [List.getElem_map, ← hj2]
    have e1 : (s.mkNb k D[j].idx).dist = D[j].dist := hS.mkNb_dist (List.getElem_mem hl)
    have e2 : (((D.map fun x => s.mkNb k x.idx).take 3 ++ ((D.map fun x => s.mkNb k x.idx).drop 4).take (j - 3)).map Nb.dist) =
        (D.take 3 ++ (D.drop 4).take (j - 3)).map DAtom.dist := by
      rw [← List.map_take, ← List.map_drop, ← List.map_take, ← List.map_append, List.map_map]
      refine List.map_congr_left fun x hx => hS.mkNb_dist ?_
      rcases List.mem_append.1 hx with hx | hx
      · exact (List.take_sublist _ _).subset hx
      · exact (List.drop_sublist _ _).subset ((List.take_sublist _ _).subset hx)
    rw [e1, e2]; exact hle

/-- The negation of **C14**: whenever a successful SANN search gives an atom more than three
neighbours, some other atom that is not listed is strictly nearer than one that is. -/
theorem C14_false (σ : StdSort) (s s' : System) (f : ℕ) (t : ℝ)
    (hx : ∀ i : ℕ, 1 ≤ i → i ≤ 9 → Spec.SearchExact s (decide (s.realNop > 4000)) (t * i))
    (h : s.findNeighbors σ f (.sann t) = .ok s') (k : ℕ) (a a' : Atom) (hk : s.atoms[k]? = some a)
    (hk' : s'.atoms[k]? = some a') (h3 : 3 < a'.nbrs.length) :
    ∃ j nb x, s.atoms[j]? = some nb ∧ j ≠ k ∧ (∀ y ∈ a'.nbrs, y.idx ≠ j) ∧ x ∈ a'.nbrs ∧
      s.getDistance nb a < x.dist := by
  obtain ⟨_, hlike, p, T, hT⟩ := find_sann_ok (fun i h1 h2 => candOK_of (hx i h1 h2)) h
  obtain ⟨hlt, -⟩ := mem_of_getElem? hk
  obtain ⟨hlt', hmem'⟩ := mem_of_getElem? hk'
  obtain ⟨hperm, hl3, m, sel, cut0, cut, hsel, hm, hnb, hcut⟩ := hT k hlt
  have hS := SortedCands.mk' σ hperm
  rw [← (σ.perm (T k)).length_eq] at hl3 hm
  obtain ⟨hm3, hseleq, hml, hl, -, -, hgt, -⟩ := sannSelect_spec _ cut0 m sel cut hS.sorted hl3 hsel hm
  set D := σ.sort (T k) with hD
  rw [hmem'] at hnb
  have hm4 : 3 < m := by
    by_contra hc
    have : m = 3 := by omega
    subst this
    rw [hnb, hseleq] at h3
    simp at h3
  have hlt3 := (hgt hm4).2
  have h3mem : D[3] ∈ D := List.getElem_mem hl
  have hmmem : D[m] ∈ D := List.getElem_mem hml
  obtain ⟨nb, g1, g2, g3, -⟩ := hS.good (a := a) hk h3mem
  have g1' : s.atoms[(D[3]).idx]? = some nb := g1
  refine ⟨(D[3]).idx, nb, s.mkNb k (D[m]).idx, g1', g2, ?_, ?_, ?_⟩
  · intro y hy
    rw [hnb] at hy
    obtain ⟨x, hx, rfl⟩ := List.mem_map.1 hy
    change x.idx ≠ _
    rw [hseleq] at hx
    have hnd := hS.nodup
    rw [List.nodup_iff_pairwise_ne, List.pairwise_map] at hnd
    have hpw := List.pairwise_iff_getElem.1 hnd
    rcases List.mem_append.1 hx with hx | hx
    · obtain ⟨i, hi, rfl⟩ := List.getElem_of_mem hx
      rw [List.length_take] at hi
      rw [List.getElem_take]
      exact hpw i 3 (by omega) hl (by omega)
    · obtain ⟨i, hi, rfl⟩ := List.getElem_of_mem hx
      rw [List.length_take, List.length_drop] at hi
      rw [List.getElem_take, List.getElem_drop]
      exact (hpw 3 (4 + i) hl (by omega) (by omega)).symm
  · rw [hnb, hseleq]
    refine List.mem_map.2 ⟨D[m], List.mem_append.2 (.inr ?_), rfl⟩
    rw [List.mem_iff_getElem]
    refine ⟨m - 4, by rw [List.length_take, List.length_drop]; omega, ?_⟩
    rw [List.getElem_take, List.getElem_drop]
    congr 1; omega
  · have e1 : (s.mkNb k (D[m]).idx).dist = (D[m]).dist := hS.mkNb_dist hmmem
    have e2 : (s.mkNb k (D[3]).idx).dist = (D[3]).dist := hS.mkNb_dist h3mem
    have g3' : (s.mkNb k (D[3]).idx).dist = s.getDistance nb a := g3
    rw [e1, ← g3', e2]; exact hlt3

/-! A system on which the search succeeds with four neighbours per atom: two groups of five
coincident atoms, of different types, at distance 1. -/

/-- Two groups of five atoms. -/
noncomputable def tenAtoms : System :=
  { atoms := List.replicate 5 { pos := ⟨1, 1, 1⟩ } ++ List.replicate 5 { pos := ⟨2, 1, 1⟩, type := 2 },
    nop := 10, realNop := 10, box := Spec.diagBox 10 10 10 }

theorem tenAtoms_length : tenAtoms.atoms.length = 10 := rfl

theorem tenAtoms_mem {k : ℕ} (hk : k < 10) :
    tenAtoms.mem k = if k < 5 then { pos := ⟨1, 1, 1⟩ } else { pos := ⟨2, 1, 1⟩, type := 2 } := by
  rw [mem_eq_getElem _ _ (by rw [tenAtoms_length]; exact hk)]
  simp only [tenAtoms]
  split
  · rename_i h
    rw [List.getElem_append_left (by simpa using h), List.getElem_replicate]
  · rename_i h
    rw [List.getElem_append_right (by simpa using h), List.getElem_replicate]

theorem tenAtoms_dist {k j : ℕ} (hk : k < 10) (hj : j < 10) :
    tenAtoms.distOf k j = if (k < 5 ↔ j < 5) then 0 else 1 := by
  have h10 : V3.norm ⟨10, 0, 0⟩ = 10 ∧ V3.norm ⟨0, 10, 0⟩ = 10 ∧ V3.norm ⟨0, 0, 10⟩ = 10 :=
    ⟨norm_axis_x _ (by norm_num), norm_axis_y _ (by norm_num), norm_axis_z _ (by norm_num)⟩
  have himg : ∀ x : ℝ, -5 ≤ x → x ≤ 5 → tenAtoms.image ⟨x, 0, 0⟩ = ⟨x, 0, 0⟩ := by
    intro x h1 h2
    have h : tenAtoms.triclinic = false := rfl
    simp only [System.image, h, System.boxx, System.boxy, System.boxz]
    simp only [tenAtoms, Spec.diagBox, h10, wrap]
    norm_num [not_lt.2 h1, not_lt.2 h2, h1, h2]
  have hd : tenAtoms.distOf k j = V3.norm (tenAtoms.image ((tenAtoms.mem j).pos - (tenAtoms.mem k).pos)) := rfl
  rw [hd, tenAtoms_mem hk, tenAtoms_mem hj]
  have n0 : ∀ x : ℝ, V3.norm ⟨x, 0, 0⟩ = |x| := by
    intro x
    rw [V3.norm, V3.normSq]
    simp only [mul_zero, add_zero]
    exact Real.sqrt_mul_self_eq_abs x
  have e : ∀ a b : ℝ, (⟨a, 1, 1⟩ : V3) - ⟨b, 1, 1⟩ = ⟨a - b, 0, 0⟩ := by
    intro a b
    change (⟨a - b, 1 - 1, 1 - 1⟩ : V3) = _
    norm_num
  by_cases h1 : k < 5 <;> by_cases h2 : j < 5 <;> simp only [h1, h2, if_true, if_false, iff_true, iff_false, not_true] <;>
    rw [e, himg _ (by norm_num) (by norm_num), n0] <;> norm_num

theorem sorted01 (S : List DAtom) (hs : S.Pairwise fun a b => a.dist ≤ b.dist)
    (h01 : ∀ x ∈ S, x.dist = 0 ∨ x.dist = 1) (z : ℕ) (o : ℕ) (hlen : S.length = z + o)
    (hz : (S.map DAtom.dist).sum = o) (i : ℕ) (hi : i < S.length) :
    S[i].dist = if i < z then 0 else 1 := by
  induction S generalizing z i with
  | nil => simp at hi
  | cons x S ih =>
    rw [List.pairwise_cons] at hs
    rw [List.length_cons] at hlen
    rw [List.map_cons, List.sum_cons] at hz
    rcases h01 x (List.mem_cons_self ..) with hx | hx
    · rw [hx, zero_add] at hz
      have hzp : z ≠ 0 := by
        rintro rfl
        have hle : (S.map DAtom.dist).sum ≤ (S.map DAtom.dist).length • (1 : ℝ) :=
          List.sum_le_card_nsmul _ _ (by
            intro y hy
            obtain ⟨w, hw, rfl⟩ := List.mem_map.1 hy
            rcases h01 w (List.mem_cons_of_mem _ hw) with h | h <;> (rw [h]; try norm_num))
        rw [List.length_map, nsmul_eq_mul, mul_one, hz] at hle
        have : o ≤ S.length := by exact_mod_cast hle
        omega
      obtain ⟨z', rfl⟩ := Nat.exists_eq_succ_of_ne_zero hzp
      cases i with
      | zero => simp [hx]
      | succ i =>
        rw [List.getElem_cons_succ]
        rw [ih hs.2 (fun y hy => h01 y (List.mem_cons_of_mem _ hy)) z' (by omega) hz i (by simpa using hi)]
        simp
    · -- every later entry is 1
      have hall : ∀ y ∈ S, y.dist = 1 := by
        intro y hy
        rcases h01 y (List.mem_cons_of_mem _ hy) with h | h
        · have := hs.1 y hy
          rw [hx, h] at this; norm_num at this
        · exact h
      have hsum : (S.map DAtom.dist).sum = S.length := by
        rw [List.map_congr_left (g := fun _ => (1 : ℝ)) hall]; simp
      rw [hx, hsum] at hz
      have hz0 : z = 0 := by
        have : 1 + S.length = o := by exact_mod_cast hz
        omega
      subst hz0
      cases i with
      | zero => simp [hx]
      | succ i =>
        rw [List.getElem_cons_succ]
        simp [hall _ (List.getElem_mem _)]

/-- The rule on such a list: four neighbours, number 3 skipped. -/
theorem sannSelect_01 (S : List DAtom) (cut : Option ℝ) (hlen : S.length = 9)
    (hd : ∀ i (hi : i < S.length), S[i].dist = if i < 4 then 0 else 1) :
    ∃ sel cut', sannSelect S cut = .ok (4, sel, cut') ∧ sel.length = 4 := by
  have hsum : ((S.take 3).map DAtom.dist).sum = 0 := by
    refine List.sum_eq_zero fun y hy => ?_
    obtain ⟨x, hx, rfl⟩ := List.mem_map.1 hy
    obtain ⟨i, hi, rfl⟩ := List.getElem_of_mem hx
    rw [List.length_take] at hi
    rw [List.getElem_take, hd i (by omega), if_pos (by omega)]
  unfold sannSelect
  dsimp only
  rw [hsum, sannGo, dif_pos (by omega), hd 3 (by omega), if_pos (by norm_num), dif_pos (by omega)]
  simp only
  rw [sannGo, dif_pos (by omega)]
  have h4 := hd (3 + 1) (by omega)
  rw [if_neg (by norm_num)] at h4
  rw [h4, if_neg (by norm_num)]
  exact ⟨_, _, rfl, by simp [hlen]⟩

theorem sannLoop_ok (σ : StdSort) (s : System) (is : List ℕ) (hnd : is.Nodup) (m : Mem)
    (h : ∀ i ∈ is, 3 ≤ (m i).temp.length ∧ ∀ cut, ∃ mm sel cut', sannSelect (σ.sort (m i).temp) cut = .ok (mm, sel, cut') ∧
      mm ≠ (m i).temp.length) : ∃ m', System.sannLoop σ s is m = .ok (m', true) := by
  induction is generalizing m with
  | nil => exact ⟨m, rfl⟩
  | cons i is ih =>
    rw [List.nodup_cons] at hnd
    obtain ⟨h3, hsel⟩ := h i (List.mem_cons_self ..)
    obtain ⟨mm, sel, cut', hs, hmm⟩ := hsel (m i).cutoff
    rw [System.sannLoop, if_neg (by omega)]
    simp only [hs, bind, Except.bind]
    rw [if_neg (by rw [(σ.perm _).length_eq]; exact hmm)]
    refine ih hnd.2 _ fun k hk => ?_
    have hki : k ≠ i := fun h => hnd.1 (h ▸ hk)
    rw [Function.update_of_ne hki]
    exact h k (List.mem_cons_of_mem _ hk)

theorem tenAtoms_guess : 1 ≤ tenAtoms.guessDist 2 := by
  have h10 : V3.norm ⟨10, 0, 0⟩ = 10 ∧ V3.norm ⟨0, 10, 0⟩ = 10 ∧ V3.norm ⟨0, 0, 10⟩ = 10 :=
    ⟨norm_axis_x _ (by norm_num), norm_axis_y _ (by norm_num), norm_axis_z _ (by norm_num)⟩
  have hv : tenAtoms.boxVol / (tenAtoms.atoms.length : ℝ) = 100 := by
    have h : tenAtoms.triclinic = false := rfl
    rw [tenAtoms_length]
    simp only [System.boxVol, h, System.boxx, System.boxy, System.boxz]
    simp only [tenAtoms, Spec.diagBox, h10]
    norm_num
  unfold System.guessDist
  rw [hv]
  have hc : 1 ≤ cbrt 100 := by
    rw [cbrt, if_pos (by norm_num)]
    exact Real.one_le_rpow (by norm_num) (by norm_num)
  nlinarith

theorem tenAtoms_cands {k : ℕ} (hk : k < 10) :
    cands (tenAtoms.candSettings false 2) k =
      ((List.range 10).filter fun j => j ≠ k).map fun j => ⟨if (k < 5 ↔ j < 5) then 0 else 1, j⟩ := by
  unfold cands
  have h1 : (List.range (tenAtoms.candSettings false 2).atoms.length) = List.range 10 := rfl
  rw [h1]
  have h2 : ∀ j, (tenAtoms.candSettings false 2).distOf k j = tenAtoms.distOf k j := fun _ => rfl
  have h3 : (tenAtoms.candSettings false 2).usecells = false := rfl
  have h4 : (tenAtoms.candSettings false 2).neighbordistance = tenAtoms.guessDist 2 := rfl
  simp only [h2, h3, h4, Bool.false_eq_true, if_false]
  have hf : (List.range 10).filter (fun j => decide (j ≠ k ∧ tenAtoms.distOf k j ≤ tenAtoms.guessDist 2)) =
      (List.range 10).filter fun j => decide (j ≠ k) := by
    refine List.filter_congr fun j hj => ?_
    have hle : tenAtoms.distOf k j ≤ tenAtoms.guessDist 2 := by
      rw [tenAtoms_dist hk (List.mem_range.1 hj)]
      have := tenAtoms_guess
      split <;> linarith
    simp [hle]
  rw [hf]
  refine List.map_congr_left fun j hj => ?_
  rw [tenAtoms_dist hk (List.mem_range.1 (List.mem_filter.1 hj).1)]

theorem tenAtoms_select (σ : StdSort) (k : ℕ) (hk : k < 10) (T : List DAtom)
    (hT : T.Perm (cands (tenAtoms.candSettings false 2) k)) :
    T.length = 9 ∧ ∀ cut, ∃ sel cut', sannSelect (σ.sort T) cut = .ok (4, sel, cut') ∧ sel.length = 4 := by
  rw [tenAtoms_cands hk] at hT
  have hlen : T.length = 9 := by
    rw [hT.length_eq, List.length_map]
    clear hT
    revert k; decide
  have hsum : (T.map DAtom.dist).sum = ((5 : ℕ) : ℝ) := by
    rw [(hT.map DAtom.dist).sum_eq, List.map_map]
    have e : (DAtom.dist ∘ fun j => (⟨if (k < 5 ↔ j < 5) then 0 else 1, j⟩ : DAtom)) =
        fun j => (((if (k < 5 ↔ j < 5) then 0 else 1 : ℕ)) : ℝ) := by
      funext j; simp only [Function.comp]; split <;> simp
    rw [e]
    have hN : (((List.range 10).filter fun j => decide (j ≠ k)).map
        fun j => (if (k < 5 ↔ j < 5) then 0 else 1 : ℕ)).sum = 5 := by
      clear hT e hlen
      revert k; decide
    have hc := congrArg (Nat.cast (R := ℝ)) hN
    rw [Nat.cast_list_sum, List.map_map] at hc
    exact hc
  refine ⟨hlen, fun cut => sannSelect_01 _ cut (by rw [(σ.perm T).length_eq, hlen]) ?_⟩
  refine sorted01 _ (σ.sorted T) ?_ 4 5 (by rw [(σ.perm T).length_eq, hlen]) ?_
  · intro x hx
    have := hT.subset ((σ.perm T).subset hx)
    obtain ⟨j, -, rfl⟩ := List.mem_map.1 this
    dsimp only
    split
    · exact .inl rfl
    · exact .inr rfl
  · rw [((σ.perm T).map DAtom.dist).sum_eq]; exact hsum

/-- The hypotheses of `C14_false` are met: the search succeeds on the ten atom system and gives
four neighbours to every atom, for every sort and filter. -/
theorem tenAtoms_sann (σ : StdSort) (f : ℕ) : tenAtoms.realNop ≤ 4000 ∧
    ∃ s', tenAtoms.findNeighbors σ f (.sann 2) = .ok s' ∧
      ∀ k < 10, ∃ a', s'.atoms[k]? = some a' ∧ a'.nbrs.length = 4 := by
  refine ⟨by decide, ?_⟩
  set g0 : System := { tenAtoms.startSearch f with usecells := false } with hg0
  have hl0 : Like tenAtoms g0 :=
    ⟨resetAll_length _, resetAll_posOf _, resetAll_typeOf _, rfl, rfl, rfl, rfl⟩
  obtain ⟨T, hT, g', hfill, hlike, -, -, hmem⟩ := fillTemp_start tenAtoms
    { g0 with voronoiused := false } f false false 2 rfl (.inl rfl)
  have hloop : ∃ m', System.sannLoop σ g' (List.range g'.atoms.length) g'.mem = .ok (m', true) := by
    refine sannLoop_ok σ g' _ List.nodup_range _ fun k hk => ?_
    have hk : k < 10 := by
      have := List.mem_range.1 hk
      rw [hlike.len] at this; exact this
    obtain ⟨h9, hs⟩ := tenAtoms_select σ k hk (T k) (hT k hk)
    rw [hmem k hk]
    refine ⟨by change 3 ≤ (T k).length; omega, fun cut => ?_⟩
    obtain ⟨sel, cut', h1, -⟩ := hs cut
    exact ⟨4, sel, cut', h1, by change 4 ≠ (T k).length; omega⟩
  obtain ⟨m', hm'⟩ := hloop
  have hn : g0.neighborsSann σ 2 = .ok (g'.ofMem m', true) := by
    unfold System.neighborsSann
    simp only [hfill, bind, Except.bind, hm']
    rfl
  have hse : (tenAtoms.startSearch f).search σ (.sann 2) = .ok (g'.ofMem m') := by
    simp only [System.search, System.searchSann, if_neg (by norm_num : ¬ (2 : ℝ) < 1)]
    have hga : (tenAtoms.startSearch f).getAtoms = .ok (tenAtoms.startSearch f).atoms := rfl
    have hlen : (tenAtoms.startSearch f).atoms.length = 10 := rfl
    simp only [hga, bind, Except.bind, hlen]
    have hn' : System.neighborsSann σ { tenAtoms.startSearch f with usecells := decide (10 > 4000) } 2 = _ := hn
    rw [hn']
    rfl
  have hnbr : ∀ k < 10, (g'.ofMem m').atoms.length = 10 ∧ ((g'.ofMem m').mem k).nbrs.length = 4 := by
    intro k hk
    refine ⟨by rw [ofMem_length, hlike.len]; rfl, ?_⟩
    have hk' : k < g'.atoms.length := by rw [hlike.len]; exact hk
    obtain ⟨-, mm, sel, cut, h1, -, h3⟩ :=
      (sannLoop_spec σ g' _ List.nodup_range g'.mem m' hm' k).2 (List.mem_range.2 hk')
    rw [ofMem_mem _ _ _ hk', h3]
    rw [hmem k hk] at h1 ⊢
    obtain ⟨sel', cut', h4, h5⟩ := (tenAtoms_select σ k hk (T k) (hT k hk)).2 (candAtom tenAtoms (T k) k).cutoff
    have h1' : sannSelect (σ.sort (T k)) (candAtom tenAtoms (T k) k).cutoff = .ok (mm, sel, cut) := h1
    rw [h4] at h1'
    have : sel' = sel := by
      have := Except.ok.inj h1'
      simp only [Prod.mk.injEq] at this
      exact this.2.1
    simp only [sannAtom, candAtom, List.nil_append, List.length_map, ← this, h5]
  have hcap : ∀ a ∈ (g'.ofMem m').atoms, a.nbrs.length ≤ 300 := by
    intro a ha
    obtain ⟨k, hk, rfl⟩ := List.getElem_of_mem ha
    have h10 := (hnbr 0 (by norm_num)).1
    have := (hnbr k (by omega)).2
    rw [mem_eq_getElem _ _ hk] at this
    omega
  obtain ⟨s', hs'⟩ := finish_ok hse hcap
  refine ⟨s', hs', fun k hk => ?_⟩
  obtain ⟨g, hg, rfl, -⟩ := ok_of_find hs'
  rw [hse] at hg
  obtain rfl := Except.ok.inj hg
  have hk2 : k < (g'.ofMem m').atoms.length := by rw [(hnbr k hk).1]; exact hk
  refine ⟨_, List.getElem?_eq_getElem hk2, ?_⟩
  rw [← mem_eq_getElem]
  exact (hnbr k hk).2

/-- The negation of **C14** on a concrete system. -/
theorem C14_false_witness (σ : StdSort) : ∃ s', tenAtoms.findNeighbors σ 0 (.sann 2) = .ok s' ∧
    ∀ k a a', tenAtoms.atoms[k]? = some a → s'.atoms[k]? = some a' →
      ¬ ∃ n, Spec.NearestList tenAtoms k a n a'.nbrs := by
  obtain ⟨hn, s', hs', h4⟩ := tenAtoms_sann σ 0
  refine ⟨s', hs', fun k a a' hk hk' => ?_⟩
  rintro ⟨n, hN⟩
  have hk10 : k < 10 := (mem_of_getElem? hk).1
  obtain ⟨a'', ha'', hl⟩ := h4 k hk10
  rw [hk'] at ha''
  obtain rfl := Option.some.inj ha''
  obtain ⟨j, nb, x, h1, h2, h3, h5, h6⟩ := C14_false σ tenAtoms s' 0 2 (sann_exact_small hn 2) hs' k a a' hk hk' (by omega)
  exact absurd (hN.2.2.2.2 j nb h1 h2 h3 x h5) (not_le.2 h6)

/-- The negation of **C15** for `cutoff='sann'`: with `filter='type'` every atom of the ten atom
system gets a neighbour of the other type. -/
theorem C15_false_sann (σ : StdSort) : ∃ s', tenAtoms.findNeighbors σ 1 (.sann 2) = .ok s' ∧
    ∀ (k : ℕ) (a a' : Atom), tenAtoms.atoms[k]? = some a → s'.atoms[k]? = some a' →
      ∃ (x : Nb) (nb : Atom), x ∈ a'.nbrs ∧ tenAtoms.atoms[x.idx]? = some nb ∧ ¬ Spec.FilterAllows 1 a nb := by
  obtain ⟨hn, s', hs', h4⟩ := tenAtoms_sann σ 1
  refine ⟨s', hs', fun k a a' hk hk' => ?_⟩
  obtain ⟨hk10, hka⟩ := mem_of_getElem? hk
  have hk10 : k < 10 := hk10
  obtain ⟨a'', ha'', hl⟩ := h4 k hk10
  rw [hk'] at ha''
  obtain rfl := Option.some.inj ha''
  obtain ⟨j, nb, x, h1, h2, h3, h5, h6⟩ := C14_false σ tenAtoms s' 1 2 (sann_exact_small hn 2) hs' k a a' hk hk' (by omega)
  obtain ⟨S, m, hS, hm3, hm, hnb, -⟩ := (C14_partial σ tenAtoms s' 1 2 (sann_exact_small hn 2) hs').2 k a a' hk hk'
  have hxS : x ∈ S := by
    rw [hnb] at h5
    rcases List.mem_append.1 h5 with hx | hx
    · exact (List.take_sublist _ _).subset hx
    · exact (List.drop_sublist _ _).subset ((List.take_sublist _ _).subset hx)
  obtain ⟨nb', g1, g2, g3, -⟩ := hS.2.2.1 x hxS
  refine ⟨x, nb', h5, g1, ?_⟩
  have hpos : 0 < x.dist := (V3.norm_nonneg _).trans_lt h6
  obtain ⟨hx10, hxa⟩ := mem_of_getElem? g1
  have hx10 : x.idx < 10 := hx10
  rw [g3, ← (distOf_eq hk g1).1, tenAtoms_dist hk10 hx10] at hpos
  have hne : ¬ (k < 5 ↔ x.idx < 5) := by
    intro h; rw [if_pos h] at hpos; exact lt_irrefl _ hpos
  intro hf
  have ht := hf.1 rfl
  rw [← hka, ← hxa, tenAtoms_mem hk10, tenAtoms_mem hx10] at ht
  by_cases c1 : k < 5 <;> by_cases c2 : x.idx < 5 <;> simp [c1, c2] at ht hne

end Pyscal
