import Verif.Lemmas.Nearest

/-! The SANN selection. -/

namespace Pyscal

theorem drop_take_succ {α : Type} (t : List α) (m n : ℕ) (h : m < t.length) :
    t[m] :: (t.drop (m + 1)).take n = (t.drop m).take (n + 1) := by
  rw [List.drop_eq_getElem_cons h, List.take_succ_cons]

/-- The loop started at `m` stops at `m'`; it selects the candidates `m+1, …, m'`. -/
theorem sannGo_spec (t : List DAtom) (m : ℕ) (summ : ℝ) (acc : List DAtom) (cut : Option ℝ)
    (m' : ℕ) (sel : List DAtom) (cut' : Option ℝ)
    (h : sannGo t m summ (summ / ((m - 2 : ℕ) : ℝ)) acc cut = .ok (m', sel, cut')) :
    m ≤ m' ∧ sel = acc ++ (t.drop (m + 1)).take (m' - m) ∧
    (∀ hm : m' < t.length,
      (summ + (((t.drop (m + 1)).take (m' - m)).map DAtom.dist).sum) / ((m' - 2 : ℕ) : ℝ) < t[m'].dist) ∧
    (m < m' → ∃ (_ : m' < t.length) (_ : m < t.length), t[m].dist ≤ summ / ((m - 2 : ℕ) : ℝ) ∧
      cut' = some ((summ + (((t.drop (m + 1)).take (m' - m)).map DAtom.dist).sum) / ((m' - 2 : ℕ) : ℝ))) ∧
    (m' = m → cut' = cut) ∧
    (∀ j, m ≤ j → j < m' → ∃ _ : j < t.length,
      t[j].dist ≤ (summ + (((t.drop (m + 1)).take (j - m)).map DAtom.dist).sum) / ((j - 2 : ℕ) : ℝ)) := by
  induction hk : t.length - m generalizing m summ acc cut with
  | zero =>
    rw [sannGo, dif_neg (by omega)] at h
    obtain ⟨rfl, rfl, rfl⟩ : m = m' ∧ acc = sel ∧ cut = cut' := by simpa using h
    exact ⟨le_refl _, by simp, fun hm => absurd hm (by omega), fun hm => absurd hm (by omega), fun _ => rfl,
      fun j h1 h2 => absurd h1 (by omega)⟩
  | succ n ih =>
    have hm : m < t.length := by omega
    rw [sannGo, dif_pos hm] at h
    by_cases hd : summ / ((m - 2 : ℕ) : ℝ) ≥ t[m].dist
    · rw [if_pos hd] at h
      by_cases hm1 : m + 1 < t.length
      · rw [dif_pos hm1] at h
        obtain ⟨h1, h2, h3, h4, h5, h6⟩ := ih (m + 1) (summ + t[m + 1].dist) (acc ++ [t[m + 1]]) _ h (by omega)
        have hd1 : m' - m = (m' - (m + 1)) + 1 := by omega
        have hl : (t.drop (m + 1)).take (m' - m) = t[m + 1] :: (t.drop (m + 1 + 1)).take (m' - (m + 1)) := by
          rw [hd1, ← drop_take_succ t (m + 1) _ hm1]
        have hsum : summ + (((t.drop (m + 1)).take (m' - m)).map DAtom.dist).sum =
            summ + t[m + 1].dist + (((t.drop (m + 1 + 1)).take (m' - (m + 1))).map DAtom.dist).sum := by
          rw [hl, List.map_cons, List.sum_cons]; ring
        refine ⟨by omega, ?_, ?_, ?_, fun h0 => by omega, ?_⟩
        · rw [h2, hl]; simp
        · intro hm'; rw [hsum]; exact h3 hm'
        · intro _
          rw [hsum]
          rcases Nat.lt_or_ge (m + 1) m' with hlt | hge
          · obtain ⟨hm', -, -, hc⟩ := h4 hlt
            exact ⟨hm', hm, hd, hc⟩
          · have he : m' = m + 1 := by omega
            refine ⟨by omega, hm, hd, ?_⟩
            rw [h5 he]
            subst he
            simp
        · intro j hj hj'
          rcases Nat.lt_or_ge m j with hlt | hge
          · obtain ⟨hl', hle⟩ := h6 j (by omega) hj'
            refine ⟨hl', hle.trans_eq ?_⟩
            rw [show j - m = (j - (m + 1)) + 1 by omega, ← drop_take_succ t (m + 1) _ hm1, List.map_cons, List.sum_cons]
            ring_nf
          · obtain rfl : j = m := by omega
            exact ⟨hm, by simpa using hd⟩
      · rw [dif_neg hm1] at h; cases h
    · rw [if_neg hd] at h
      obtain ⟨rfl, rfl, rfl⟩ : m = m' ∧ acc = sel ∧ cut = cut' := by simpa using h
      refine ⟨le_refl _, by simp, fun _ => ?_, fun hm => absurd hm (by omega), fun _ => rfl, fun j h1 h2 => absurd h1 (by omega)⟩
      simpa using not_le.1 hd

/-- What the SANN search selects from a sorted list, when it succeeds: the first three candidates
and the candidates number 4, …, m (counted from 0): number 3 is left out. -/
theorem sannSelect_spec (t : List DAtom) (cut : Option ℝ) (m : ℕ) (sel : List DAtom) (cut' : Option ℝ)
    (hs : t.Pairwise fun a b => a.dist ≤ b.dist) (h3 : 3 ≤ t.length)
    (h : sannSelect t cut = .ok (m, sel, cut')) (hm : m ≠ t.length) :
    3 ≤ m ∧ sel = t.take 3 ++ (t.drop 4).take (m - 3) ∧
    ∃ (hml : m < t.length) (_ : 3 < t.length), (sel.map DAtom.dist).sum / ((m - 2 : ℕ) : ℝ) < t[m].dist ∧
      (m = 3 → cut' = cut) ∧
      (3 < m → cut' = some ((sel.map DAtom.dist).sum / ((m - 2 : ℕ) : ℝ)) ∧ t[3].dist < t[m].dist) ∧
      (∀ j, 3 ≤ j → j < m → ∃ _ : j < t.length,
        t[j].dist ≤ ((t.take 3 ++ (t.drop 4).take (j - 3)).map DAtom.dist).sum / ((j - 2 : ℕ) : ℝ)) := by
  unfold sannSelect at h
  dsimp only at h
  have e : ((t.take 3).map DAtom.dist).sum / 1 = ((t.take 3).map DAtom.dist).sum / ((3 - 2 : ℕ) : ℝ) := by norm_num
  rw [e] at h
  obtain ⟨h1, h2, hlt, hgt, heq, hrun⟩ := sannGo_spec t 3 _ _ cut m sel cut' h
  have hml : m < t.length := by
    rcases Nat.lt_or_ge 3 m with h' | h'
    · exact (hgt h').1
    · omega
  have hsum : (sel.map DAtom.dist).sum =
      ((t.take 3).map DAtom.dist).sum + (((t.drop (3 + 1)).take (m - 3)).map DAtom.dist).sum := by
    rw [h2, List.map_append, List.sum_append]
  refine ⟨h1, h2, hml, by omega, ?_, heq, ?_, fun j h3j hj => ?_⟩
  rotate_left 2
  · obtain ⟨hl, hle⟩ := hrun j h3j hj
    refine ⟨hl, ?_⟩
    rw [List.map_append, List.sum_append]; exact hle
  · rw [hsum]; exact hlt hml
  · intro h3m
    obtain ⟨_, _, hin, hc⟩ := hgt h3m
    refine ⟨by rw [hsum]; exact hc, ?_⟩
    by_contra hle
    rw [not_lt] at hle
    -- all of the candidates 3..m have the same distance
    set d := t[3].dist with hd
    have hl := hlt hml
    have hge : ((m - 3 : ℕ) : ℝ) * d ≤ (((t.drop (3 + 1)).take (m - 3)).map DAtom.dist).sum := by
      have hlen : (((t.drop (3 + 1)).take (m - 3)).map DAtom.dist).length = m - 3 := by
        rw [List.length_map, List.length_take, List.length_drop]; omega
      have := List.card_nsmul_le_sum (((t.drop (3 + 1)).take (m - 3)).map DAtom.dist) d (by
        intro y hy
        obtain ⟨x, hx, rfl⟩ := List.mem_map.1 hy
        have hxd := (List.take_sublist _ _).subset hx
        obtain ⟨i, hi, rfl⟩ := List.getElem_of_mem hxd
        rw [List.getElem_drop]
        rw [List.length_drop] at hi
        exact List.pairwise_iff_getElem.1 hs 3 (3 + 1 + i) (by omega) (by omega) (by omega))
      rw [hlen, nsmul_eq_mul] at this
      exact this
    have hm2 : ((m - 2 : ℕ) : ℝ) = ((m - 3 : ℕ) : ℝ) + 1 := by
      rw [show m - 2 = (m - 3) + 1 by omega]; push_cast; ring
    have hpos : (0 : ℝ) < ((m - 2 : ℕ) : ℝ) := by exact_mod_cast (by omega : 0 < m - 2)
    rw [div_lt_iff₀ hpos] at hl
    rw [show ((3 - 2 : ℕ) : ℝ) = 1 by norm_num, div_one] at hin
    have hmul := mul_le_mul_of_nonneg_right hle hpos.le
    have e2 : d * ((m - 2 : ℕ) : ℝ) = ((m - 3 : ℕ) : ℝ) * d + d := by rw [hm2]; ring
    linarith

theorem sannLoop_frame (σ : StdSort) (s : System) (is : List ℕ) (m m' : Mem) (b : Bool)
    (h : System.sannLoop σ s is m = .ok (m', b)) (k : ℕ) :
    (m' k).pos = (m k).pos ∧ (m' k).type = (m k).type := by
  induction is generalizing m with
  | nil =>
    rw [System.sannLoop] at h
    have := (Prod.mk.inj (Except.ok.inj h)).1
    simp [this]
  | cons i is ih =>
    rw [System.sannLoop] at h
    by_cases hlt : (m i).temp.length < 3
    · rw [if_pos hlt] at h
      have := (Prod.mk.inj (Except.ok.inj h)).1
      simp [this]
    · rw [if_neg hlt] at h
      rcases hs : sannSelect (σ.sort (m i).temp) (m i).cutoff with e | ⟨mm, sel, cut⟩
      · simp only [hs] at h; cases h
      · simp only [hs, bind, Except.bind] at h
        rw [foldl_pushNb] at h
        set a : Atom := sannAtom σ s i (m i) sel cut with ha
        have hup : (Function.update m i a k).pos = (m k).pos ∧ (Function.update m i a k).type = (m k).type := by
          by_cases hki : k = i
          · subst hki; rw [Function.update_self]; exact ⟨rfl, rfl⟩
          · rw [Function.update_of_ne hki]; exact ⟨rfl, rfl⟩
        by_cases hm : mm = (σ.sort (m i).temp).length
        · rw [if_pos hm] at h
          have := (Prod.mk.inj (Except.ok.inj h)).1
          rw [← this]; exact hup
        · rw [if_neg hm] at h
          obtain ⟨h1, h2⟩ := ih _ h
          exact ⟨h1.trans hup.1, h2.trans hup.2⟩

theorem Like.trans {s g h : System} (h1 : Like s g) (h2 : Like g h) : Like s h :=
  ⟨h2.len.trans h1.len, fun k => (h2.pos k).trans (h1.pos k), fun k => (h2.type k).trans (h1.type k),
    h2.box.trans h1.box, h2.rot.trans h1.rot, h2.rotinv.trans h1.rotinv, h2.tri.trans h1.tri⟩

/-- Outcome of a successful SANN search relative to the state `s` before. -/
def SannOut (σ : StdSort) (u : Bool) (s s' : System) : Prop :=
  ∃ (p : ℝ) (T : ℕ → List DAtom), ∀ k < s.atoms.length, (T k).Perm (cands (s.candSettings u p) k) ∧
    3 ≤ (T k).length ∧ ∃ mm sel cut0 cut, sannSelect (σ.sort (T k)) cut0 = .ok (mm, sel, cut) ∧
      mm ≠ (T k).length ∧ (s'.mem k).nbrs = sel.map (fun x => s.mkNb k x.idx) ∧ (s'.mem k).cutoff = cut

theorem neighborsSann_out (σ : StdSort) (u : Bool) (s g g' : System) (p : ℝ) (b : Bool) (hl : Like s g) (hc : CandOK (s.candSettings u p))
    (hz : ∀ k < s.atoms.length, (g.mem k).nbrs = [] ∧ (g.mem k).temp = []) (hu : g.usecells = u)
    (h : g.neighborsSann σ p = .ok (g', b)) :
    Like s g' ∧ g'.usecells = u ∧ (b = true → SannOut σ u s g') := by
  unfold System.neighborsSann at h
  set g0 : System := { g with voronoiused := false } with hg0
  have hl0 : Like s g0 := ⟨hl.len, hl.pos, hl.type, hl.box, hl.rot, hl.rotinv, hl.tri⟩
  have hgd : g0.guessDist p = s.guessDist p := hl0.guessDist p
  have hlc : Like (s.candSettings u p) (g0.guess p) :=
    ⟨hl.len, hl.pos, hl.type, hl.box, hl.rot, hl.rotinv, hl.tri⟩
  obtain ⟨T, hT, hfill⟩ := fillTemp_spec g0 p (hlc.candOK hu hgd hc)
  set gf := (g0.guess p).ofMem fun k => { g0.mem k with temp := (g0.mem k).temp ++ T k } with hgf
  have hlf : Like s gf := by
    have h2 := like_ofMem (s := g0.guess p) (m := fun k => { g0.mem k with temp := (g0.mem k).temp ++ T k })
      (fun _ _ => rfl) (fun _ _ => rfl)
    exact ⟨h2.len.trans hl.len, fun k => (h2.pos k).trans (hl.pos k), fun k => (h2.type k).trans (hl.type k),
      h2.box.trans hl.box, h2.rot.trans hl.rot, h2.rotinv.trans hl.rotinv, h2.tri.trans hl.tri⟩
  simp only [hfill, bind, Except.bind] at h
  rcases hs : System.sannLoop σ gf (List.range gf.atoms.length) gf.mem with e | ⟨m', b'⟩
  · simp only [hs] at h; cases h
  · simp only [hs] at h
    have hinj := Prod.mk.inj (Except.ok.inj h)
    obtain ⟨rfl, rfl⟩ := hinj
    have hfr := sannLoop_frame σ gf _ gf.mem m' b' hs
    refine ⟨hlf.trans (like_ofMem (fun k _ => (hfr k).1) (fun k _ => (hfr k).2)), hu, fun hb => ?_⟩
    subst hb
    refine ⟨p, T, fun k hk => ?_⟩
    have hkg : k < gf.atoms.length := hlf.len.symm ▸ hk
    have hmk : gf.mem k = { g0.mem k with temp := T k } := by
      rw [hgf, ofMem_mem _ _ _ (show k < (g0.guess p).atoms.length from hl.len.symm ▸ hk)]
      rw [show (g0.mem k).temp = [] from (hz k hk).2]; rfl
    have hperm : (T k).Perm (cands (s.candSettings u p) k) := by
      rw [← hlc.cands hu hgd]
      exact hT k (hl.len.symm ▸ hk)
    obtain ⟨h3, mm, sel, cut, hsel, hmm, hm'⟩ :=
      (sannLoop_spec σ gf _ List.nodup_range gf.mem m' hs k).2 (List.mem_range.2 hkg)
    rw [hmk] at h3 hsel hmm
    refine ⟨hperm, h3, mm, sel, _, cut, hsel, hmm, ?_, ?_⟩
    · rw [ofMem_mem _ _ _ hkg, hm', hmk, sannAtom]
      rw [hlf.mkNb]
      change (g.mem k).nbrs ++ _ = _
      rw [(hz k hk).1]; rfl
    · rw [ofMem_mem _ _ _ hkg, hm']; rfl

theorem like_reset (s : System) : Like s s.resetAllNeighbors :=
  ⟨resetAll_length s, resetAll_posOf s, resetAll_typeOf s, rfl, rfl, rfl, rfl⟩

theorem reset_clear (s : System) : ∀ k < s.atoms.length,
    (s.resetAllNeighbors.mem k).nbrs = [] ∧ (s.resetAllNeighbors.mem k).temp = [] := by
  intro k hk
  rw [resetAll_mem s k hk]
  exact ⟨rfl, rfl⟩

theorem sannRetry_out (σ : StdSort) (u : Bool) (t : ℝ) (is : List ℕ) (s g g' : System) (hl : Like s g)
    (hc : ∀ i ∈ is, CandOK (s.candSettings u (t * (i : ℕ)))) (hu : g.usecells = u) (h : g.sannRetry σ t is = .ok g') :
    Like s g' ∧ SannOut σ u s g' := by
  induction is generalizing g with
  | nil => cases h
  | cons i is ih =>
    rw [System.sannRetry] at h
    rcases hn : g.resetAllNeighbors.neighborsSann σ (t * i) with e | ⟨g1, b⟩
    · simp only [hn] at h; cases h
    · simp only [hn, bind, Except.bind] at h
      obtain ⟨h1, h2, h3⟩ := neighborsSann_out σ u s _ g1 (t * i) b (hl.trans (like_reset g)) (hc i (by simp))
        (fun k hk => reset_clear g k (hl.len.symm ▸ hk)) hu hn
      cases b
      · exact ih g1 h1 (fun j hj => hc j (by simp [hj])) h2 h
      · obtain rfl := Except.ok.inj h
        exact ⟨h1, h3 rfl⟩

theorem find_sann_ok {σ : StdSort} {s s' : System} {f : ℕ} {t : ℝ}
    (hc : ∀ i : ℕ, 1 ≤ i → i ≤ 9 → CandOK (s.candSettings (decide (s.realNop > 4000)) (t * i)))
    (h : s.findNeighbors σ f (.sann t) = .ok s') : 1 ≤ t ∧ Like s s' ∧ SannOut σ (decide (s.realNop > 4000)) s s' := by
  obtain ⟨g, hg, rfl, -⟩ := ok_of_find h
  simp only [System.search, System.searchSann] at hg
  by_cases ht : t < 1
  · rw [if_pos ht] at hg; cases hg
  · rw [if_neg ht] at hg
    refine ⟨not_lt.1 ht, ?_⟩
    by_cases hle : s.realNop ≤ s.atoms.length
    · obtain ⟨l, hl, hll⟩ := getAtoms_start s (s.startSearch f) (resetAll_length s) rfl hle
      have hu : decide (l.length > 4000) = decide (s.realNop > 4000) := by rw [hll]
      simp only [hl, bind, Except.bind, hu] at hg
      set g0 : System := { s.startSearch f with usecells := decide (s.realNop > 4000) } with hg0
      have hl0 : Like s g0 := ⟨resetAll_length s, resetAll_posOf s, resetAll_typeOf s, rfl, rfl, rfl, rfl⟩
      rcases hns : g0.neighborsSann σ t with e | ⟨g1, b⟩
      · simp only [hns] at hg; cases hg
      · simp only [hns] at hg
        obtain ⟨h1, h2, h3⟩ := neighborsSann_out σ _ s g0 g1 t b hl0 (by have := hc 1 le_rfl (by norm_num); rwa [Nat.cast_one, mul_one] at this)
          (reset_clear s) rfl hns
        have key : Like s g ∧ SannOut σ (decide (s.realNop > 4000)) s g := by
          cases b
          · exact sannRetry_out σ _ t _ s g1 g h1 (fun i hi => hc i (by simp at hi; omega) (by simp at hi; omega)) h2 hg
          · obtain rfl := Except.ok.inj hg
            exact ⟨h1, h3 rfl⟩
        exact ⟨⟨key.1.len, key.1.pos, key.1.type, key.1.box, key.1.rot, key.1.rotinv, key.1.tri⟩, key.2⟩
    · rw [getAtoms_error (s.startSearch f) (by
        rw [show (s.startSearch f).atoms.length = _ from resetAll_length s]; exact hle)] at hg
      cases hg

end Pyscal
