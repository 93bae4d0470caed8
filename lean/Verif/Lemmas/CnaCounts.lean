import Verif.Lemmas.Cna

/-! Counts of structures, and the candidate lists of `calculate_cna`. -/

namespace Pyscal

theorem tally_fold (l : List Atom) (n : ℕ) (r : List ℕ) (hr : r.length = n) (hl : ∀ a ∈ l, 0 ≤ a.struct ∧ a.struct < (n : ℤ)) :
    let r' := l.foldl (fun l a => l.modify a.struct.toNat (· + 1)) r
    r'.length = n ∧ r'.sum = r.sum + l.length ∧
      ∀ c : ℕ, c < n → r'[c]? = (r[c]?).map (· + l.countP (fun a : Atom => decide (a.struct = (c : ℤ)))) := by
  induction l generalizing r with
  | nil => simp [hr]
  | cons a l ih =>
    dsimp only at ih ⊢
    rw [List.foldl_cons]
    obtain ⟨h0, hn⟩ := hl a (List.mem_cons_self ..)
    have ht : a.struct.toNat < r.length := by omega
    obtain ⟨i1, i2, i3⟩ := ih (r.modify a.struct.toNat (· + 1)) (by rw [List.length_modify, hr])
      (fun b hb => hl b (List.mem_cons_of_mem _ hb))
    refine ⟨i1, ?_, ?_⟩
    · rw [i2]
      have : (r.modify a.struct.toNat (· + 1)).sum = r.sum + 1 := by
        rw [List.modify_eq_take_cons_drop ht, List.sum_append, List.sum_cons]
        have h2 : r.sum = (r.take a.struct.toNat).sum + (r.drop a.struct.toNat).sum := by
          rw [← List.sum_append, List.take_append_drop]
        rw [List.drop_eq_getElem_cons ht, List.sum_cons] at h2
        omega
      rw [this, List.length_cons]; omega
    · intro c hc
      rw [i3 c hc, List.getElem?_modify, List.countP_cons]
      have hcr : r[c]? = some r[c] := List.getElem?_eq_getElem (by omega)
      rw [hcr]
      by_cases hac : a.struct = c
      · have : a.struct.toNat = c := by omega
        simp [hac, this]; omega
      · have : a.struct.toNat ≠ c := by omega
        simp [hac, this]

theorem tally_ok {s : System} {n : ℕ} {r : List ℕ} (h : s.tally n = .ok r) :
    s.realNop ≤ s.atoms.length ∧ r.length = n ∧ r.sum = s.realNop ∧
      (∀ a ∈ s.atoms.take s.realNop, 0 ≤ a.struct ∧ a.struct < n) ∧
      ∀ c : ℕ, c < n → r[c]? = some ((s.atoms.take s.realNop).countP (fun a : Atom => decide (a.struct = (c : ℤ)))) := by
  unfold System.tally at h
  split_ifs at h with h1
  obtain rfl := Except.ok.inj h
  obtain ⟨t1, t2, t3⟩ := tally_fold (s.atoms.take s.realNop) n (List.replicate n 0) (by simp) h1.2
  refine ⟨h1.1, t1, ?_, h1.2, fun c hc => ?_⟩
  · rw [t2]
    simp [h1.1]
  · rw [t3 c hc]
    simp [hc]

theorem tally_succeeds {s : System} {n : ℕ} (h1 : s.realNop ≤ s.atoms.length)
    (h2 : ∀ a ∈ s.atoms, 0 ≤ a.struct ∧ a.struct < n) : ∃ r, s.tally n = .ok r := by
  unfold System.tally
  rw [if_pos ⟨h1, fun a ha => h2 a (List.mem_of_mem_take ha)⟩]
  exact ⟨_, rfl⟩

theorem counts12_spec (sig : List (ℕ × ℕ × ℕ × ℕ)) :
    counts12 sig = (sig.count (4, 2, 1, 1), sig.count (4, 2, 2, 0), sig.count (5, 5, 2, 2)) := by
  have key : ∀ (c : ℕ × ℕ × ℕ), sig.foldl (fun c x =>
      if x = (4, 2, 1, 1) then (c.1 + 1, c.2)
      else if x = (4, 2, 2, 0) then (c.1, c.2.1 + 1, c.2.2)
      else if x = (5, 5, 2, 2) then (c.1, c.2.1, c.2.2 + 1)
      else c) c = (c.1 + sig.count (4, 2, 1, 1), c.2.1 + sig.count (4, 2, 2, 0), c.2.2 + sig.count (5, 5, 2, 2)) := by
    induction sig with
    | nil => intro c; simp
    | cons x sig ih =>
      intro c
      rw [List.foldl_cons, ih]
      simp only [List.count_cons, beq_iff_eq]
      by_cases h1 : x = (4, 2, 1, 1)
      · subst h1; simp; omega
      · by_cases h2 : x = (4, 2, 2, 0)
        · subst h2; simp; omega
        · by_cases h3 : x = (5, 5, 2, 2)
          · subst h3; simp; omega
          · simp [h1, h2, h3]
  unfold counts12
  rw [key]; simp

theorem counts14_spec (sig : List (ℕ × ℕ × ℕ × ℕ)) :
    counts14 sig = (sig.count (4, 4, 2, 2), sig.count (6, 6, 2, 2)) := by
  have key : ∀ (c : ℕ × ℕ), sig.foldl (fun c x =>
      if x = (4, 4, 2, 2) then (c.1 + 1, c.2)
      else if x = (6, 6, 2, 2) then (c.1, c.2 + 1)
      else c) c = (c.1 + sig.count (4, 4, 2, 2), c.2 + sig.count (6, 6, 2, 2)) := by
    induction sig with
    | nil => intro c; simp
    | cons x sig ih =>
      intro c
      rw [List.foldl_cons, ih]
      simp only [List.count_cons, beq_iff_eq]
      by_cases h1 : x = (4, 4, 2, 2)
      · subst h1; simp; omega
      · by_cases h2 : x = (6, 6, 2, 2)
        · subst h2; simp; omega
        · simp [h1, h2]
  unfold counts14
  rw [key]; simp

theorem struct12_range (c : ℕ × ℕ × ℕ) : struct12 c = 0 ∨ struct12 c = 1 ∨ struct12 c = 2 ∨ struct12 c = 4 := by
  unfold struct12; split_ifs <;> simp

theorem struct14_range (c : ℕ × ℕ) : struct14 c = 0 ∨ struct14 c = 3 := by
  unfold struct14; split_ifs <;> simp

/-! ### Candidates -/

theorem pairLoop_pushTemp_aux (hit : ℕ → ℕ → Option (DAtom × DAtom)) (k : ℕ) (a : Atom) (ps : List (ℕ × ℕ)) (m : Mem)
    (h : ∃ t, m k = { a with temp := t }) :
    ∃ t, pairLoop Atom.pushTemp hit ps m k = { a with temp := t } := by
  have push : ∀ (b : Atom) (x : DAtom), (∃ t, b = { a with temp := t }) → ∃ t, b.pushTemp x = { a with temp := t } := by
    rintro b x ⟨t, rfl⟩
    exact ⟨_, rfl⟩
  have upd : ∀ (m : Mem) (i : ℕ) (x : DAtom), (∃ t, m k = { a with temp := t }) →
      ∃ t, Function.update m i ((m i).pushTemp x) k = { a with temp := t } := by
    intro m i x hm
    by_cases hk : k = i
    · subst hk; rw [Function.update_self]; exact push _ _ hm
    · rw [Function.update_of_ne hk]; exact hm
  unfold pairLoop
  induction ps generalizing m with
  | nil => exact h
  | cons p ps ih =>
    rw [List.foldl_cons]
    apply ih
    rcases hit p.1 p.2 with _ | ⟨x, y⟩
    · exact h
    · exact upd _ _ _ (upd _ _ _ h)

theorem pairLoop_pushTemp (hit : ℕ → ℕ → Option (DAtom × DAtom)) (ps : List (ℕ × ℕ)) (m : Mem) (k : ℕ) :
    ∃ t, pairLoop Atom.pushTemp hit ps m k = { m k with temp := t } :=
  pairLoop_pushTemp_aux hit k (m k) ps m ⟨(m k).temp, rfl⟩

theorem fillTemp_frame {s g : System} {p : ℝ} (h : s.fillTemp p = .ok g) :
    g.atoms.length = s.atoms.length ∧ (∀ k < s.atoms.length, ∃ t, g.mem k = { s.mem k with temp := t }) ∧
    g = { s with atoms := g.atoms, neighbordistance := s.guessDist p } := by
  have h : (if s.usecells then (s.guess p).tempCells else .ok (s.guess p).tempBrute) = .ok g := h
  by_cases hs : s.usecells = true
  · rw [if_pos hs, System.tempCells] at h
    rcases hc : (s.guess p).cellPairs with e | ps
    · rw [hc] at h; cases h
    · rw [hc] at h
      obtain rfl := Except.ok.inj h
      refine ⟨ofMem_length _ _, fun k hk => ?_, rfl⟩
      rw [ofMem_mem (s.guess p) _ _ hk]
      exact pairLoop_pushTemp _ _ _ _
  · rw [if_neg hs] at h
    obtain rfl := Except.ok.inj h
    refine ⟨ofMem_length _ _, fun k hk => ?_, rfl⟩
    unfold System.tempBrute
    rw [ofMem_mem (s.guess p) _ _ hk]
    exact pairLoop_pushTemp _ _ _ _

theorem byNumberLoop_false_aux (σ : StdSort) (s : System) (nns : ℕ) (k : ℕ) (a : Atom) (is : List ℕ) (m : Mem)
    (h : ∃ t, m k = { a with temp := t }) :
    ∃ t, (System.byNumberLoop σ s nns false is m).1 k = { a with temp := t } := by
  induction is generalizing m with
  | nil => exact h
  | cons i is ih =>
    unfold System.byNumberLoop
    by_cases h1 : (m i).temp.length < nns
    · rw [if_pos h1]; exact h
    · rw [if_neg h1]
      apply ih
      by_cases hk : k = i
      · subst hk
        obtain ⟨t, ht⟩ := h
        rw [Function.update_self, ht]
        exact ⟨_, rfl⟩
      · rw [Function.update_of_ne hk]; exact h

theorem byNumberLoop_false (σ : StdSort) (s : System) (nns : ℕ) (is : List ℕ) (m : Mem) (k : ℕ) :
    ∃ t, (System.byNumberLoop σ s nns false is m).1 k = { m k with temp := t } :=
  byNumberLoop_false_aux σ s nns k (m k) is m ⟨(m k).temp, rfl⟩

/-- The number search without assignment changes only candidate lists, the Voronoi flag and the
search distance. -/
theorem byNumber_frame {σ : StdSort} {s g : System} {p : ℝ} {nns : ℕ} {b : Bool}
    (h : s.neighborsByNumber σ p nns false = .ok (g, b)) :
    g.atoms.length = s.atoms.length ∧ (∀ k < s.atoms.length, ∃ t, g.mem k = { s.mem k with temp := t }) ∧
    g = { s with atoms := g.atoms, voronoiused := false, neighbordistance := s.guessDist p } := by
  unfold System.neighborsByNumber at h
  change Except.bind (({ s with voronoiused := false } : System).fillTemp p) _ = _ at h
  cases hf : ({ s with voronoiused := false } : System).fillTemp p with
  | error e => rw [hf] at h; cases h
  | ok g1 =>
    rw [hf] at h
    have h := (Prod.mk.inj (Except.ok.inj h)).1
    obtain ⟨l1, l2, l3⟩ := fillTemp_frame hf
    rw [← h]
    refine ⟨by rw [ofMem_length, l1], fun k hk => ?_, ?_⟩
    · rw [ofMem_mem _ _ _ (by rw [l1]; exact hk)]
      obtain ⟨t, ht⟩ := byNumberLoop_false σ g1 nns (List.range g1.atoms.length) g1.mem k
      obtain ⟨t', ht'⟩ := l2 k hk
      refine ⟨t, ht.trans ?_⟩
      rw [ht']; rfl
    · rw [show g1.ofMem _ = { g1 with atoms := _ } from rfl]
      rw [l3]; rfl

theorem byNumber_like {σ : StdSort} {s g : System} {p : ℝ} {nns : ℕ} {b : Bool}
    (h : s.neighborsByNumber σ p nns false = .ok (g, b)) : Like s g := by
  obtain ⟨l1, l2, l3⟩ := byNumber_frame h
  have key : ∀ k, (g.mem k).pos = (s.mem k).pos ∧ (g.mem k).type = (s.mem k).type := by
    intro k
    by_cases hk : k < s.atoms.length
    · obtain ⟨t, ht⟩ := l2 k hk
      rw [ht]; exact ⟨rfl, rfl⟩
    · have e1 : s.mem k = default := by simp [System.mem, hk]
      have e2 : g.mem k = default := by simp [System.mem, l1, hk]
      rw [e1, e2]; exact ⟨rfl, rfl⟩
  refine ⟨l1, fun k => (key k).1, fun k => (key k).2, ?_, ?_, ?_, ?_⟩ <;> rw [l3]

theorem like_resetStruct (s : System) : Like s s.resetStruct := by
  have hl : s.resetStruct.atoms.length = s.atoms.length := by simp [System.resetStruct]
  have key : ∀ k, (s.resetStruct.mem k).pos = (s.mem k).pos ∧ (s.resetStruct.mem k).type = (s.mem k).type := by
    intro k
    by_cases hk : k < s.atoms.length
    · have : s.resetStruct.mem k = { s.mem k with struct := 0 } := by simp [System.mem, System.resetStruct, hk]
      rw [this]; exact ⟨rfl, rfl⟩
    · have e1 : s.mem k = default := by simp [System.mem, hk]
      have e2 : s.resetStruct.mem k = default := by simp [System.mem, hl, hk]
      rw [e1, e2]; exact ⟨rfl, rfl⟩
  exact ⟨hl, fun k => (key k).1, fun k => (key k).2, rfl, rfl, rfl, rfl⟩

/-- What a successful `calculate_cna` leaves, in terms of the state `g` with the candidates. -/
theorem ccalculateCna_ok {σ : StdSort} {s s' : System} {method : ℕ} {r : List ℕ}
    (h : s.ccalculateCna σ method = .ok (s', r)) :
    ∃ g b, s.resetStruct.neighborsByNumber σ 3 14 false = .ok (g, b) ∧ Like s g ∧
      g.latticeConstant = s.latticeConstant ∧ g.realNop = s.realNop ∧
      (∀ k < s.atoms.length, ∃ t, g.mem k = { s.mem k with struct := 0, temp := t }) ∧
      StageReady g method 1 ∧ StageReady g method 2 ∧ s' = g.ofMem (cnaAtom g method) ∧ s'.tally 5 = .ok r := by
  rw [ccalculateCna_eq] at h
  cases hg : s.resetStruct.neighborsByNumber σ 3 14 false with
  | error e => rw [hg] at h; cases h
  | ok p =>
    obtain ⟨g, b⟩ := p
    rw [hg] at h
    have h : g.cnaRest method = .ok (s', r) := h
    rw [cnaRest_eq] at h
    split_ifs at h with hr
    · cases ht : (g.ofMem (cnaAtom g method)).tally 5 with
      | error e => rw [ht] at h; cases h
      | ok r' =>
        rw [ht] at h
        obtain ⟨e1, e2⟩ := Prod.mk.inj (Except.ok.inj h)
        obtain ⟨l1, l2, l3⟩ := byNumber_frame hg
        have hl := (like_resetStruct s).trans (byNumber_like hg)
        refine ⟨g, b, rfl, hl, by rw [l3]; rfl, by rw [l3]; rfl, fun k hk => ?_, hr.1, hr.2, e1.symm, by rw [← e1, ← e2]; exact ht⟩
        obtain ⟨t, ht⟩ := l2 k (by simpa [System.resetStruct] using hk)
        refine ⟨t, ht.trans ?_⟩
        have : s.resetStruct.mem k = { s.mem k with struct := 0 } := by simp [System.mem, System.resetStruct, hk]
        rw [this]

end Pyscal
