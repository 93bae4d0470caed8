import Verif.Model.Cna
import Verif.Spec.Cna
import Verif.Lemmas.History

/-! Lemmas about common neighbour analysis. -/

namespace Pyscal

theorem getD_lt {l : List ℕ} {i : ℕ} (h : i < l.length) : l.getD i 0 = l[i] := by simp [h]

/-- Positions of the common neighbours, as a list. -/
def commonPos (near : ℕ → ℕ → Bool) (nb : List ℕ) (k : ℕ) : List ℕ :=
  (List.range nb.length).filter fun j => decide (j ≠ k) && near (nb.getD k 0) (nb.getD j 0)

/-- What the loop of `get_common_neighbors` adds. -/
def commonHit (near : ℕ → ℕ → Bool) (nb : List ℕ) (i j : ℕ) : Option (ℕ × ℕ) :=
  if near (nb.getD i 0) (nb.getD j 0) then some (nb.getD j 0, nb.getD i 0) else none

theorem commonNeighbors_fold (near : ℕ → ℕ → Bool) (nb : List ℕ) (ps : List (ℕ × ℕ)) (hps : ∀ p ∈ ps, p.1 ≠ p.2)
    (st : CommonSt) (k : ℕ) :
    let r := ps.foldl (fun (st : CommonSt) p =>
      let m := nb.getD p.1 0
      let n := nb.getD p.2 0
      if near m n then
        let num := Function.update st.num p.1 (st.num p.1 + 1)
        let common := Function.update st.common p.1 (st.common p.1 ++ [n])
        let num := Function.update num p.2 (num p.2 + 1)
        let common := Function.update common p.2 (common p.2 ++ [m])
        (⟨num, common⟩ : CommonSt)
      else st) st
    r.common k = st.common k ++ ps.flatMap (contrib (commonHit near nb) k) ∧
    r.num k = st.num k + (ps.flatMap (contrib (commonHit near nb) k)).length := by
  induction ps generalizing st with
  | nil => simp
  | cons p ps ih =>
    have hp : p.1 ≠ p.2 := hps p (List.mem_cons_self ..)
    have ih' := fun st => ih (fun q hq => hps q (List.mem_cons_of_mem _ hq)) st
    dsimp only at ih' ⊢
    rw [List.foldl_cons, (ih' _).1, (ih' _).2, List.flatMap_cons, List.length_append]
    by_cases hn : near (nb.getD p.1 0) (nb.getD p.2 0) = true
    · rw [if_pos hn]
      have hc : contrib (commonHit near nb) k p = if k = p.1 then [nb.getD p.2 0] else if k = p.2 then [nb.getD p.1 0] else [] := by
        unfold contrib commonHit
        rw [if_pos hn]
      rw [hc]
      by_cases h1 : k = p.1
      · subst h1
        simp [Function.update_of_ne hp]
        omega
      · by_cases h2 : k = p.2
        · subst h2
          simp [h1]
          omega
        · simp [h1, h2, Function.update_of_ne]
    · rw [if_neg hn]
      have hc : contrib (commonHit near nb) k p = [] := by
        unfold contrib commonHit
        rw [if_neg hn]
      rw [hc]; simp

theorem commonNeighbors_spec (near : ℕ → ℕ → Bool) (hs : ∀ m n, near m n = near n m) (nb : List ℕ) (k : ℕ) (hk : k < nb.length) :
    (commonNeighbors near nb).common k = (commonPos near nb k).map (fun j => nb.getD j 0) ∧
    (commonNeighbors near nb).num k = (commonPos near nb k).length := by
  have h := commonNeighbors_fold near nb (pairs nb.length) pairs_ne ⟨fun _ => 0, fun _ => []⟩ k
  have e : (pairs nb.length).flatMap (contrib (commonHit near nb) k) = (commonPos near nb k).map (fun j => nb.getD j 0) := by
    rw [pairs_flatMap_contrib _ _ _ hk (fun j => if near (nb.getD k 0) (nb.getD j 0) = true then [nb.getD j 0] else [])]
    · rw [flatMap_ite_single, List.filter_filter]
      unfold commonPos
      congr 1
      refine List.filter_congr fun a _ => ?_
      simp [Bool.and_comm]
    · intro i hi
      unfold contrib commonHit
      rw [hs]
      by_cases hn : near (nb.getD k 0) (nb.getD i 0) = true
      · simp only [hn, if_true]
        rw [if_neg (by omega)]
      · simp only [hn]
        rfl
    · intro j hj
      unfold contrib commonHit
      by_cases hn : near (nb.getD k 0) (nb.getD j 0) = true
      · simp only [hn, if_true]
      · simp only [hn]
        rfl
  rw [e] at h
  simp only [List.nil_append, List.length_map, Nat.zero_add] at h
  exact h

theorem commonBonds_fold (near : ℕ → ℕ → Bool) (c : List ℕ) (ps : List (ℕ × ℕ)) (hps : ∀ p ∈ ps, p.1 ≠ p.2)
    (st : ℕ × (ℕ → ℕ)) (k : ℕ) :
    let r := ps.foldl (fun (st : ℕ × (ℕ → ℕ)) p =>
      if near (c.getD p.1 0) (c.getD p.2 0) then
        let b := Function.update st.2 p.1 (st.2 p.1 + 1)
        let b := Function.update b p.2 (b p.2 + 1)
        (st.1 + 1, b)
      else st) st
    r.1 = st.1 + (ps.filter fun p => near (c.getD p.1 0) (c.getD p.2 0)).length ∧
    r.2 k = st.2 k + (ps.flatMap (contrib (commonHit near c) k)).length := by
  induction ps generalizing st with
  | nil => simp
  | cons p ps ih =>
    have hp : p.1 ≠ p.2 := hps p (List.mem_cons_self ..)
    have ih' := fun st => ih (fun q hq => hps q (List.mem_cons_of_mem _ hq)) st
    dsimp only at ih' ⊢
    rw [List.foldl_cons, (ih' _).1, (ih' _).2, List.flatMap_cons, List.length_append, List.filter_cons]
    by_cases hn : near (c.getD p.1 0) (c.getD p.2 0) = true
    · rw [if_pos hn, if_pos hn]
      have hc : contrib (commonHit near c) k p = if k = p.1 then [c.getD p.2 0] else if k = p.2 then [c.getD p.1 0] else [] := by
        unfold contrib commonHit
        rw [if_pos hn]
      rw [hc]
      refine ⟨by simp only [List.length_cons]; omega, ?_⟩
      by_cases h1 : k = p.1
      · subst h1
        simp [Function.update_of_ne hp]
        omega
      · by_cases h2 : k = p.2
        · subst h2
          simp [h1]
          omega
        · simp [h1, h2, Function.update_of_ne]
    · rw [if_neg hn, if_neg hn]
      have hc : contrib (commonHit near c) k p = [] := by
        unfold contrib commonHit
        rw [if_neg hn]
      rw [hc]; simp

theorem commonBonds_spec (near : ℕ → ℕ → Bool) (hs : ∀ m n, near m n = near n m) (c : List ℕ) :
    (commonBonds near c c.length).1 = ((pairs c.length).filter fun p => near (c.getD p.1 0) (c.getD p.2 0)).length ∧
    ∀ l < c.length, (commonBonds near c c.length).2 l = (commonPos near c l).length := by
  refine ⟨?_, fun l hl => ?_⟩
  · have h := (commonBonds_fold near c (pairs c.length) pairs_ne (0, fun _ => 0) 0).1
    simpa [commonBonds] using h
  · have h := (commonBonds_fold near c (pairs c.length) pairs_ne (0, fun _ => 0) l).2
    have h2 := commonNeighbors_fold near c (pairs c.length) pairs_ne ⟨fun _ => 0, fun _ => []⟩ l
    have h3 := (commonNeighbors_spec near hs c l hl).2
    dsimp only at h h2
    rw [← h3]
    unfold commonBonds commonNeighbors
    rw [h, h2.2]

theorem maxMinBonds_spec (b : ℕ → ℕ) (n : ℕ) :
    (maxMinBonds b n).1 = (Finset.range n).sup b ∧
    ((∀ l < n, (maxMinBonds b n).2 ≤ b l) ∧ (maxMinBonds b n).2 ≤ 8 ∧
      ((maxMinBonds b n).2 = 8 ∨ ∃ l < n, (maxMinBonds b n).2 = b l)) := by
  unfold maxMinBonds
  induction n with
  | zero => simp
  | succ n ih =>
    rw [List.range_succ, List.foldl_append]
    obtain ⟨h1, h2, h3, h4⟩ := ih
    simp only [List.foldl_cons, List.foldl_nil]
    refine ⟨?_, ?_, ?_, ?_⟩
    · rw [Finset.range_add_one, Finset.sup_insert, h1]
    · intro l hl
      rcases Nat.lt_succ_iff_lt_or_eq.1 hl with h | rfl
      · exact (min_le_right _ _).trans (h2 l h)
      · exact min_le_left _ _
    · exact (min_le_right _ _).trans h3
    · rcases min_choice (b n) (List.foldl (fun st l => (max (b l) st.1, min (b l) st.2)) (0, 8) (List.range n)).2 with h | h
      · right; exact ⟨n, Nat.lt_succ_self n, h⟩
      · rw [h]
        rcases h4 with h4 | ⟨l, hl, h4⟩
        · exact .inl h4
        · exact .inr ⟨l, hl.trans (Nat.lt_succ_self n), h4⟩

/-! ### The specification in terms of positions -/

section

variable (near : ℕ → ℕ → Bool) (nb : List ℕ) (k : ℕ)

theorem commonPos_nodup : (commonPos near nb k).Nodup := List.nodup_range.filter _

theorem commonPos_lt : (commonPos near nb k).Pairwise (· < ·) := List.pairwise_lt_range.filter _

theorem commonPos_toFinset : (commonPos near nb k).toFinset = Spec.commonWith (fun m n => near m n = true) nb k := by
  ext j
  simp [commonPos, Spec.commonWith]

theorem commonPos_length : (commonPos near nb k).length = (Spec.commonWith (fun m n => near m n = true) nb k).card := by
  rw [← commonPos_toFinset, List.toFinset_card_of_nodup (commonPos_nodup near nb k)]

/-- Bonds inside the common neighbours, in positions of the original list. -/
theorem bonds_eq (l : ℕ) (hl : l < (commonPos near nb k).length) :
    (commonPos near ((commonPos near nb k).map fun j => nb.getD j 0) l).length =
      Spec.bondsOf (fun m n => near m n = true) nb k ((commonPos near nb k).getD l 0) := by
  set P := commonPos near nb k with hP
  have hnd : P.Nodup := commonPos_nodup near nb k
  have hget : ∀ j, j < P.length → (P.map fun j => nb.getD j 0).getD j 0 = nb.getD (P.getD j 0) 0 := by
    intro j hj
    rw [getD_lt (by simpa using hj), List.getElem_map, getD_lt hj]
  have hPl : P.getD l 0 = P[l] := getD_lt hl
  unfold Spec.bondsOf
  rw [← commonPos_toFinset, ← hP]
  have hPm : P = (List.range P.length).map fun j => P.getD j 0 := by
    refine List.ext_getElem (by simp) fun i h1 h2 => ?_
    rw [List.getElem_map, List.getElem_range, getD_lt h1]
  have e : (commonPos near (P.map fun j => nb.getD j 0) l).map (fun j => P.getD j 0) =
      P.filter fun m => decide (m ≠ P.getD l 0) && near (nb.getD (P.getD l 0) 0) (nb.getD m 0) := by
    conv_rhs => rw [hPm]
    rw [List.filter_map]
    unfold commonPos
    rw [List.length_map]
    congr 1
    refine List.filter_congr fun j hj => ?_
    have hj := List.mem_range.1 hj
    rw [hget j hj, hget l hl, ← hPm]
    simp only [Function.comp]
    congr 1
    rw [decide_eq_decide]
    refine not_congr ⟨fun h => by rw [h], fun h => ?_⟩
    rw [getD_lt hj, hPl] at h
    exact (List.Nodup.getElem_inj_iff hnd).1 h
  have e2 := congrArg List.length e
  rw [List.length_map] at e2
  rw [e2, ← List.toFinset_card_of_nodup (hnd.filter _), List.toFinset_filter]
  congr 1
  ext m
  simp

theorem bondPairs_eq :
    ((pairs (commonPos near nb k).length).filter fun p =>
      near (((commonPos near nb k).map fun j => nb.getD j 0).getD p.1 0) (((commonPos near nb k).map fun j => nb.getD j 0).getD p.2 0)).length =
      Spec.bondPairs (fun m n => near m n = true) nb k := by
  set P := commonPos near nb k with hP
  have hnd : P.Nodup := commonPos_nodup near nb k
  have hlt : P.Pairwise (· < ·) := commonPos_lt near nb k
  have hget : ∀ j, j < P.length → (P.map fun j => nb.getD j 0).getD j 0 = nb.getD (P.getD j 0) 0 := by
    intro j hj
    rw [getD_lt (by simpa using hj), List.getElem_map, getD_lt hj]
  unfold Spec.bondPairs
  rw [← commonPos_toFinset, ← hP, ← List.toFinset_card_of_nodup ((pairs_nodup _).filter _)]
  refine Finset.card_bij (fun p _ => (P.getD p.1 0, P.getD p.2 0)) ?_ ?_ ?_
  · rintro ⟨a, b⟩ h
    rw [List.mem_toFinset, List.mem_filter, mem_pairs] at h
    obtain ⟨⟨hab, hb⟩, hn⟩ := h
    dsimp only at hab hb hn
    have ha : a < P.length := hab.trans hb
    rw [hget a ha, hget b hb] at hn
    simp only [Finset.mem_filter, Finset.mem_product, List.mem_toFinset]
    rw [getD_lt ha, getD_lt hb] at hn ⊢
    exact ⟨⟨List.getElem_mem _, List.getElem_mem _⟩, List.pairwise_iff_getElem.1 hlt a b ha hb hab, hn⟩
  · rintro ⟨a, b⟩ h ⟨c, d⟩ h' heq
    rw [List.mem_toFinset, List.mem_filter, mem_pairs] at h h'
    obtain ⟨⟨hab, hb⟩, -⟩ := h
    obtain ⟨⟨hcd, hd⟩, -⟩ := h'
    dsimp only at hab hb hcd hd heq
    have ha : a < P.length := hab.trans hb
    have hc : c < P.length := hcd.trans hd
    rw [getD_lt ha, getD_lt hb, getD_lt hc, getD_lt hd,
      Prod.mk.injEq] at heq
    rw [(List.Nodup.getElem_inj_iff hnd).1 heq.1, (List.Nodup.getElem_inj_iff hnd).1 heq.2]
  · rintro ⟨x, y⟩ h
    simp only [Finset.mem_filter, Finset.mem_product, List.mem_toFinset] at h
    obtain ⟨⟨hx, hy⟩, hxy, hn⟩ := h
    obtain ⟨a, ha, rfl⟩ := List.getElem_of_mem hx
    obtain ⟨b, hb, rfl⟩ := List.getElem_of_mem hy
    refine ⟨(a, b), ?_, ?_⟩
    · rw [List.mem_toFinset, List.mem_filter, mem_pairs]
      dsimp only
      rw [hget a ha, hget b hb, getD_lt ha, getD_lt hb]
      refine ⟨⟨?_, hb⟩, hn⟩
      by_contra hba
      rcases Nat.lt_or_eq_of_le (not_lt.1 hba) with h | h
      · exact absurd (List.pairwise_iff_getElem.1 hlt b a hb ha h) (by omega)
      · subst h; exact absurd hxy (lt_irrefl _)
    · dsimp only
      rw [getD_lt ha, getD_lt hb]

end

/-- The signature of one neighbour, in terms of the specification. -/
theorem cnaSignatures_spec (near : ℕ → ℕ → Bool) (hs : ∀ m n, near m n = near n m) (nb : List ℕ) :
    (cnaSignatures near nb).length = nb.length ∧ ∀ k x, (cnaSignatures near nb)[k]? = some x →
      x.1 = (Spec.commonWith (fun m n => near m n = true) nb k).card ∧
      x.2.1 = Spec.bondPairs (fun m n => near m n = true) nb k ∧
      x.2.2.1 = (Spec.commonWith (fun m n => near m n = true) nb k).sup (Spec.bondsOf (fun m n => near m n = true) nb k) ∧
      (∀ j ∈ Spec.commonWith (fun m n => near m n = true) nb k, x.2.2.2 ≤ Spec.bondsOf (fun m n => near m n = true) nb k j) ∧
      x.2.2.2 ≤ 8 ∧
      (x.2.2.2 = 8 ∨ ∃ j ∈ Spec.commonWith (fun m n => near m n = true) nb k, x.2.2.2 = Spec.bondsOf (fun m n => near m n = true) nb k j) := by
  refine ⟨by simp [cnaSignatures], fun k x hx => ?_⟩
  unfold cnaSignatures at hx
  dsimp only at hx
  rw [List.getElem?_map] at hx
  have hk : k < nb.length := by
    by_contra h
    rw [List.getElem?_eq_none (by simpa using h)] at hx
    cases hx
  rw [List.getElem?_range hk] at hx
  obtain ⟨e1, e2⟩ := commonNeighbors_spec near hs nb k hk
  have hx := (Option.some.inj hx).symm
  dsimp only at hx
  set P := commonPos near nb k with hP
  set c := P.map fun j => nb.getD j 0 with hc
  have hcl : P.length = c.length := by simp [hc]
  rw [e1, e2, hcl] at hx
  obtain ⟨b1, b2⟩ := commonBonds_spec near hs c
  obtain ⟨m1, m2, m3, m4⟩ := maxMinBonds_spec (commonBonds near c c.length).2 c.length
  have hb : ∀ l (hl : l < P.length), (commonBonds near c c.length).2 l = Spec.bondsOf (fun m n => near m n = true) nb k P[l] := by
    intro l hl
    rw [b2 l (by omega)]
    rw [← getD_lt hl]
    exact bonds_eq near nb k l hl
  have hmem : ∀ j, j ∈ Spec.commonWith (fun m n => near m n = true) nb k ↔ ∃ (l : ℕ) (hl : l < P.length), P[l] = j := by
    intro j
    rw [← commonPos_toFinset, List.mem_toFinset, List.mem_iff_getElem]
  subst hx
  refine ⟨?_, ?_, ?_, ?_, m3, ?_⟩
  · rw [← commonPos_length, ← hP]; exact hcl.symm
  · dsimp only
    rw [b1, ← hcl]; exact bondPairs_eq near nb k
  · dsimp only
    rw [m1]
    apply le_antisymm
    · refine Finset.sup_le fun l hl => ?_
      have hl : l < P.length := by rw [hcl]; exact Finset.mem_range.1 hl
      rw [hb l hl]
      exact Finset.le_sup (f := Spec.bondsOf _ nb k) ((hmem _).2 ⟨l, hl, rfl⟩)
    · refine Finset.sup_le fun j hj => ?_
      obtain ⟨l, hl, rfl⟩ := (hmem j).1 hj
      rw [← hb l hl]
      exact Finset.le_sup (f := (commonBonds near c c.length).2) (Finset.mem_range.2 (hcl ▸ hl))
  · intro j hj
    obtain ⟨l, hl, rfl⟩ := (hmem j).1 hj
    rw [← hb l hl]
    exact m2 l (hcl ▸ hl)
  · rcases m4 with h | ⟨l, hl, h⟩
    · exact .inl h
    · have hl : l < P.length := by rw [hcl]; exact hl
      refine .inr ⟨P[l], (hmem _).2 ⟨l, hl, rfl⟩, ?_⟩
      rw [← hb l hl]; exact h

/-! ### The stages of `calculate_cna` -/

theorem within_symm (s : System) (a : Atom) (m n : ℕ) : s.within a m n = s.within a n m := by
  unfold System.within
  rw [distOf_comm]

theorem Like.signatures {s g : System} (h : Like s g) (a : Atom) : g.signatures a = s.signatures a := by
  unfold System.signatures
  have : g.within a = s.within a := by
    funext m n
    unfold System.within
    rw [h.distOf]
  rw [this]

theorem signatures_congr {s : System} {a b : Atom} (h1 : b.nbrs = a.nbrs) (h2 : a.nbrs = [] ∨ b.cutoff = a.cutoff) :
    s.signatures b = s.signatures a := by
  rcases h2 with h2 | h2
  · unfold System.signatures
    rw [h1, h2]; rfl
  · unfold System.signatures
    have : s.within b = s.within a := by
      funext m n
      unfold System.within
      rw [h2]
    rw [h1, this]

theorem Like.cn12 {s g : System} (h : Like s g) : g.cn12 = s.cn12 := by
  funext a
  unfold System.cn12
  rw [h.signatures]

theorem Like.cn14 {s g : System} (h : Like s g) : g.cn14 = s.cn14 := by
  funext a
  unfold System.cn14
  rw [h.signatures]

/-- Number of candidates used in a stage. -/
def stageNum (style : ℕ) : ℕ := if style = 1 then 12 else 14

/-- Cutoff and neighbours set by a stage, if the atom is not skipped. -/
noncomputable def stageOf (s : System) (method style i : ℕ) (t : List DAtom) : Option (ℝ × List Nb) :=
  if method = 1 then
    some ((if style = 1 then 0.854 else 1.207) * s.latticeConstant, (t.take (stageNum style)).map fun x => s.mkNb i x.idx)
  else if stageNum style ≤ t.length then
    some (System.acnaCut style t, (t.take (stageNum style)).map fun x => s.mkNb i x.idx)
  else none

/-- Atom after a stage. -/
noncomputable def stageAtom (s : System) (method style i : ℕ) (a : Atom) : Atom :=
  match stageOf s method style i a.temp with
  | some (c, l) => { a with condition := some 0, cutoff := some c, nbrs := l }
  | none => { a with condition := some 0, nbrs := [] }

theorem stageAtom_frame (s : System) (method style i : ℕ) (a : Atom) :
    (stageAtom s method style i a).pos = a.pos ∧ (stageAtom s method style i a).type = a.type ∧
    (stageAtom s method style i a).temp = a.temp ∧ (stageAtom s method style i a).struct = a.struct ∧
    (stageAtom s method style i a).cna = a.cna := by
  unfold stageAtom
  split <;> exact ⟨rfl, rfl, rfl, rfl, rfl⟩

theorem resetMain_mem (s : System) (k : ℕ) (hk : k < s.atoms.length) :
    s.resetMainNeighbors.mem k = { s.mem k with nbrs := [], condition := some 0 } := by
  simp [System.mem, System.resetMainNeighbors, hk]

theorem like_resetMain (s : System) : Like s s.resetMainNeighbors := by
  have hl : s.resetMainNeighbors.atoms.length = s.atoms.length := by simp [System.resetMainNeighbors]
  have key : ∀ k, (s.resetMainNeighbors.mem k).pos = (s.mem k).pos ∧ (s.resetMainNeighbors.mem k).type = (s.mem k).type := by
    intro k
    by_cases hk : k < s.atoms.length
    · rw [resetMain_mem s k hk]; exact ⟨rfl, rfl⟩
    · have e1 : s.mem k = default := by simp [System.mem, hk]
      have e2 : s.resetMainNeighbors.mem k = default := by simp [System.mem, hl, hk]
      rw [e1, e2]; exact ⟨rfl, rfl⟩
  exact ⟨hl, fun k => (key k).1, fun k => (key k).2, rfl, rfl, rfl, rfl⟩

/-- The candidates needed by a stage are there. -/
def StageReady (s : System) (method style : ℕ) : Prop :=
  if method = 1 then ∀ a ∈ s.atoms, s.TempOk (stageNum style) a
  else ∀ a ∈ s.atoms, stageNum style ≤ a.temp.length → s.TempOk (stageNum style) a

/-- A stage of the analysis. -/
noncomputable def System.cnaStage (s : System) (method style : ℕ) : Except Fault System :=
  if method = 1 then s.cnaNeighbors style else s.acnaNeighbors style

theorem tempOk_reset (s : System) (n : ℕ) (P : Atom → Prop) (hP : ∀ a, P { a with nbrs := [], condition := some 0 } ↔ P a) :
    (∀ a ∈ s.resetMainNeighbors.atoms, P a → s.resetMainNeighbors.TempOk n a) ↔ ∀ a ∈ s.atoms, P a → s.TempOk n a := by
  have hl : s.resetMainNeighbors.atoms.length = s.atoms.length := by simp [System.resetMainNeighbors]
  unfold System.TempOk
  rw [hl]
  simp only [System.resetMainNeighbors, List.mem_map]
  constructor
  · intro h a ha hp
    exact h { a with nbrs := [], condition := some 0 } ⟨a, ha, rfl⟩ ((hP a).2 hp)
  · rintro h _ ⟨a, ha, rfl⟩ hp
    exact h a ha ((hP a).1 hp)

theorem ofMem_congr {s : System} {m m' : Mem} (h : ∀ k < s.atoms.length, m k = m' k) : s.ofMem m = s.ofMem m' := by
  unfold System.ofMem
  congr 1
  exact List.map_congr_left fun k hk => h k (List.mem_range.1 hk)

open Classical in
theorem cnaStage_eq (s : System) (method style : ℕ) :
    s.cnaStage method style = if StageReady s method style then .ok (s.ofMem fun i => stageAtom s method style i (s.mem i))
      else .error .oob := by
  have hl := like_resetMain s
  have hlen := hl.len
  have hof : ∀ m : Mem, s.resetMainNeighbors.ofMem m = s.ofMem m := by
    intro m
    unfold System.ofMem
    rw [hlen]; rfl
  unfold System.cnaStage StageReady
  by_cases hm : method = 1
  · simp only [hm, if_true]
    unfold System.cnaNeighbors
    have hiff := tempOk_reset s (stageNum style) (fun _ => True) (fun _ => Iff.rfl)
    simp only [true_imp_iff] at hiff
    dsimp only
    rw [show (if style = 1 then 12 else 14) = stageNum style from rfl]
    by_cases h : ∀ a ∈ s.atoms, s.TempOk (stageNum style) a
    · rw [if_pos (hiff.2 h), if_pos h, hof]
      congr 1
      refine ofMem_congr fun k hk => ?_
      rw [resetMain_mem s k hk]
      simp only [stageAtom, stageOf, if_true, System.takeNbs, hl.mkNb]
      rfl
    · rw [if_neg (fun h' => h (hiff.1 h')), if_neg h]
  · simp only [hm, if_false]
    unfold System.acnaNeighbors
    have hiff := tempOk_reset s (stageNum style) (fun a => stageNum style ≤ a.temp.length) (fun _ => Iff.rfl)
    dsimp only
    rw [show (if style = 1 then 12 else 14) = stageNum style from rfl]
    by_cases h : ∀ a ∈ s.atoms, stageNum style ≤ a.temp.length → s.TempOk (stageNum style) a
    · rw [if_pos (hiff.2 h), if_pos h, hof]
      congr 1
      refine ofMem_congr fun k hk => ?_
      rw [resetMain_mem s k hk]
      simp only [stageAtom, stageOf, hm, if_false, System.takeNbs, hl.mkNb]
      by_cases hc : stageNum style ≤ (s.mem k).temp.length
      · simp only [hc, if_true]
      · simp only [hc, if_false]
    · rw [if_neg (fun h' => h (hiff.1 h')), if_neg h]

theorem Like.stageAtom {s g : System} (h : Like s g) (hc : g.latticeConstant = s.latticeConstant) :
    Pyscal.stageAtom g = Pyscal.stageAtom s := by
  funext method style i a
  unfold Pyscal.stageAtom stageOf
  rw [hc, h.mkNb]

/-- Atom `i` after both stages, from the state `s` with filled candidate lists. -/
noncomputable def cnaAtom (s : System) (method i : ℕ) : Atom :=
  s.cn14 (stageAtom s method 2 i (s.cn12 (stageAtom s method 1 i (s.mem i))))

theorem cn12_frame (s : System) (a : Atom) : (s.cn12 a).pos = a.pos ∧ (s.cn12 a).type = a.type ∧ (s.cn12 a).temp = a.temp ∧
    (s.cn12 a).nbrs = a.nbrs ∧ (s.cn12 a).cutoff = a.cutoff := by
  unfold System.cn12
  split <;> exact ⟨rfl, rfl, rfl, rfl, rfl⟩

theorem cn14_frame (s : System) (a : Atom) : (s.cn14 a).pos = a.pos ∧ (s.cn14 a).type = a.type ∧ (s.cn14 a).temp = a.temp ∧
    (s.cn14 a).nbrs = a.nbrs ∧ (s.cn14 a).cutoff = a.cutoff := by
  unfold System.cn14
  split <;> exact ⟨rfl, rfl, rfl, rfl, rfl⟩

theorem like_ofMem' {s : System} {m : Mem} (h : ∀ k, (m k).pos = (s.mem k).pos ∧ (m k).type = (s.mem k).type) : Like s (s.ofMem m) :=
  like_ofMem (fun k _ => (h k).1) (fun k _ => (h k).2)

theorem ofMem_ofMem (s : System) (m m' : Mem) : (s.ofMem m).ofMem m' = s.ofMem m' := by
  unfold System.ofMem
  simp

theorem map_ofMem (s : System) (m : Mem) (f : Atom → Atom) :
    ({ s.ofMem m with atoms := (s.ofMem m).atoms.map f } : System) = s.ofMem fun i => f (m i) := by
  unfold System.ofMem
  simp [Function.comp_def]

theorem stageReady_congr {s : System} {m : Mem} (method style : ℕ) (h : ∀ k < s.atoms.length, (m k).temp = (s.mem k).temp) :
    StageReady (s.ofMem m) method style ↔ StageReady s method style := by
  have key : ∀ P : List DAtom → Prop, (∀ a ∈ (s.ofMem m).atoms, P a.temp) ↔ ∀ a ∈ s.atoms, P a.temp := by
    intro P
    unfold System.ofMem
    simp only [List.mem_map, List.mem_range]
    constructor
    · intro hh a ha
      obtain ⟨k, hk, rfl⟩ := List.getElem_of_mem ha
      have := hh (m k) ⟨k, hk, rfl⟩
      rw [h k hk, mem_eq_getElem _ _ hk] at this
      exact this
    · rintro hh _ ⟨k, hk, rfl⟩
      rw [h k hk, mem_eq_getElem _ _ hk]
      exact hh _ (List.getElem_mem hk)
  unfold StageReady System.TempOk
  rw [ofMem_length]
  split
  · exact key fun t => stageNum style ≤ t.length ∧ ∀ x ∈ t.take (stageNum style), x.idx < s.atoms.length
  · exact key fun t => stageNum style ≤ t.length → stageNum style ≤ t.length ∧ ∀ x ∈ t.take (stageNum style), x.idx < s.atoms.length

/-- `calculate_cna` after the candidates are collected. -/
noncomputable def System.cnaRest (s : System) (method : ℕ) : Except Fault (System × List ℕ) := do
  let s ← s.cnaStage method 1
  let s := s.identifyCn12
  let s ← s.cnaStage method 2
  let s := s.identifyCn14
  let r ← s.tally 5
  return (s, r)

theorem ccalculateCna_eq (σ : StdSort) (s : System) (method : ℕ) :
    s.ccalculateCna σ method = (s.resetStruct.neighborsByNumber σ 3 14 false).bind fun p => p.1.cnaRest method := by
  unfold System.ccalculateCna System.cnaRest System.cnaStage
  by_cases hm : method = 1
  · simp only [hm, if_true]; rfl
  · simp only [hm, if_false]; rfl

open Classical in
theorem cnaRest_eq (s : System) (method : ℕ) :
    s.cnaRest method = if StageReady s method 1 ∧ StageReady s method 2 then
      ((s.ofMem (cnaAtom s method)).tally 5).map fun r => (s.ofMem (cnaAtom s method), r) else .error .oob := by
  unfold System.cnaRest
  rw [cnaStage_eq]
  by_cases h1 : StageReady s method 1
  · rw [if_pos h1]
    set m1 : Mem := fun i => stageAtom s method 1 i (s.mem i) with hm1
    have l1 : Like s (s.ofMem m1) := like_ofMem' fun k =>
      ⟨(stageAtom_frame s method 1 k (s.mem k)).1, (stageAtom_frame s method 1 k (s.mem k)).2.1⟩
    change Except.bind ((s.ofMem m1).identifyCn12.cnaStage method 2) _ = _
    have e2 : (s.ofMem m1).identifyCn12 = s.ofMem fun i => s.cn12 (m1 i) := by
      unfold System.identifyCn12
      rw [l1.cn12]
      exact map_ofMem s m1 s.cn12
    rw [e2, cnaStage_eq]
    set m2 : Mem := fun i => s.cn12 (m1 i) with hm2
    have hfr : ∀ k, (m2 k).pos = (s.mem k).pos ∧ (m2 k).type = (s.mem k).type ∧ (m2 k).temp = (s.mem k).temp := by
      intro k
      have a1 := stageAtom_frame s method 1 k (s.mem k)
      have a2 := cn12_frame s (m1 k)
      exact ⟨a2.1.trans a1.1, a2.2.1.trans a1.2.1, a2.2.2.1.trans a1.2.2.1⟩
    have l2 : Like s (s.ofMem m2) := like_ofMem' fun k => ⟨(hfr k).1, (hfr k).2.1⟩
    have hr := stageReady_congr (s := s) (m := m2) method 2 (fun k _ => (hfr k).2.2)
    by_cases h2 : StageReady s method 2
    · rw [if_pos (hr.2 h2), if_pos ⟨h1, h2⟩]
      have e3 : (s.ofMem m2).ofMem (fun i => stageAtom (s.ofMem m2) method 2 i ((s.ofMem m2).mem i)) =
          s.ofMem fun i => stageAtom s method 2 i (m2 i) := by
        rw [ofMem_ofMem, l2.stageAtom rfl]
        refine ofMem_congr fun k hk => ?_
        rw [ofMem_mem s m2 k hk]
      rw [e3]
      set m3 : Mem := fun i => stageAtom s method 2 i (m2 i) with hm3
      have l3 : Like s (s.ofMem m3) := like_ofMem' fun k =>
        ⟨(stageAtom_frame s method 2 k (m2 k)).1.trans (hfr k).1, (stageAtom_frame s method 2 k (m2 k)).2.1.trans (hfr k).2.1⟩
      have e4 : (s.ofMem m3).identifyCn14 = s.ofMem (cnaAtom s method) := by
        unfold System.identifyCn14
        rw [l3.cn14]
        exact map_ofMem s m3 s.cn14
      change Except.bind ((s.ofMem m3).identifyCn14.tally 5) _ = _
      rw [e4]
      cases ((s.ofMem (cnaAtom s method)).tally 5) <;> rfl
    · rw [if_neg (fun h => h2 (hr.1 h)), if_neg (fun h => h2 h.2)]
      rfl
  · rw [if_neg h1, if_neg (fun h => h1 h.1)]
    rfl

end Pyscal
