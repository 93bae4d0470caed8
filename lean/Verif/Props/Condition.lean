import Verif.Props.Leftover
import Verif.Props.Locality

/-! `calculate_q` with a condition (C110). -/

namespace Pyscal

/-- Equal participating neighbours give equal results. -/
theorem calculateQ_same {s g t t' : System} {ls : List ℤ} {av : Bool} (ht : s.calculateQ ls av = .ok t) (ht' : g.calculateQ ls av = .ok t')
    (hv : g.voronoiused = s.voronoiused) (hrn : g.realNop = s.realNop) (hlen : g.atoms.length = s.atoms.length)
    (hq : ∀ (k : ℕ) (a b : Atom), s.atoms[k]? = some a → g.atoms[k]? = some b → g.qNbrs b = s.qNbrs a) :
    ∀ l ∈ ls, t'.getQvals l false = t.getQvals l false ∧ (av = true → t'.getQvals l true = t.getQvals l true) := by
  obtain ⟨hr, hs, e⟩ := calculateQ_ok ht
  obtain ⟨-, hg, e'⟩ := calculateQ_ok ht'
  have hrt : t'.realNop = t.realNop := by rw [e, e']; split_ifs <;> exact hrn
  have hlt : t.atoms.length = s.atoms.length := by rw [e]; split_ifs <;> simp [System.afterQ]
  have hlt' : t'.atoms.length = s.atoms.length := by rw [e', ← hlen]; split_ifs <;> simp [System.afterQ]
  intro l hl
  have hl2 := hr l hl
  obtain ⟨m, rfl⟩ : ∃ m : ℕ, l = m := ⟨l.toNat, by omega⟩
  have hm : m ∈ ls.map Int.toNat := List.mem_map.2 ⟨m, hl, by simp⟩
  generalize hL : ls.map Int.toNat = L at *
  have hc : ∀ i, i < s.atoms.length → g.calcQlm m (g.mem i) = s.calcQlm m (s.mem i) := by
    intro i hi
    refine calcQlm_of_nbrs m hv (hq i _ _ ?_ ?_)
    · rw [mem_eq_getElem _ _ hi]; exact List.getElem?_eq_getElem hi
    · rw [mem_eq_getElem _ _ (by omega)]; exact List.getElem?_eq_getElem (by omega)
  have hval : ∀ (k : ℕ) (a b : Atom), t.atoms[k]? = some a → t'.atoms[k]? = some b → b.q m = a.q m ∧ (av = true → b.aq m = a.aq m) := by
    intro k a b hk hk'
    have hks : k < s.atoms.length := by rw [← hlt]; exact (List.getElem?_eq_some_iff.1 hk).1
    have hkg : k < g.atoms.length := by omega
    have gs : s.atoms[k]? = some (s.mem k) := by rw [mem_eq_getElem _ _ hks]; exact List.getElem?_eq_getElem hks
    have gg : g.atoms[k]? = some (g.mem k) := by rw [mem_eq_getElem _ _ hkg]; exact List.getElem?_eq_getElem hkg
    have hn := hq k _ _ gs gg
    cases av with
    | false =>
      rw [if_neg (by simp)] at e e'
      rw [e] at hk
      rw [e'] at hk'
      simp only [System.afterQ, List.getElem?_map, gs, gg, Option.map_some, Option.some.injEq] at hk hk'
      subst hk hk'
      refine ⟨?_, by simp⟩
      simp only [qAtom, if_pos hm]
      rw [hc k hks]
    | true =>
      rw [if_pos rfl] at e e'
      rw [e] at hk
      rw [e'] at hk'
      simp only [System.afterQ, List.getElem?_map, gs, gg, Option.map_some, Option.some.injEq] at hk hk'
      subst hk hk'
      refine ⟨?_, fun _ => ?_⟩
      · simp only [aqAtom, qAtom, if_pos hm]
        rw [hc k hks]
      · change (if m ∈ L then ((g.afterQ L).calcAqlm m (qAtom g L (g.mem k))).map (qValue m) else _) =
          if m ∈ L then ((s.afterQ L).calcAqlm m (qAtom s L (s.mem k))).map (qValue m) else _
        rw [if_pos hm, if_pos hm]
        congr 1
        have n1 : (s.afterQ L).qNbrs (qAtom s L (s.mem k)) = s.qNbrs (s.mem k) := afterQ_qNbrs s L _ _ rfl rfl
        have n2 : (g.afterQ L).qNbrs (qAtom g L (g.mem k)) = s.qNbrs (s.mem k) := (afterQ_qNbrs g L _ _ rfl rfl).trans hn
        have o1 : (qAtom s L (s.mem k)).qlm m = s.calcQlm m (s.mem k) := by simp [qAtom, hm]
        have o2 : (qAtom g L (g.mem k)).qlm m = s.calcQlm m (s.mem k) := by rw [← hc k hks]; simp [qAtom, hm]
        have hx : ∀ x ∈ s.qNbrs (s.mem k), x.idx < s.atoms.length := fun x hx =>
          hs _ (List.mem_of_getElem? gs) x (List.mem_of_mem_filter hx)
        have hmap : ∀ M : List Nb, (∀ x ∈ M, x.idx < s.atoms.length) →
            (M.mapM fun x => ((g.afterQ L).mem x.idx).qlm m) = M.mapM fun x => ((s.afterQ L).mem x.idx).qlm m := by
          intro M
          induction M with
          | nil => intro _; rfl
          | cons x M ih =>
            intro hM
            have hxl := hM x (by simp)
            rw [List.mapM_cons, List.mapM_cons, ih (fun y hy => hM y (by simp [hy])), afterQ_mem_qlm s L m hm _ hxl,
              afterQ_mem_qlm g L m hm _ (by omega), hc _ hxl]
        unfold System.calcAqlm
        rw [n1, n2, o1, o2, hmap _ hx]
  have hlist : ∀ F : Atom → Option ℝ, (∀ (k : ℕ) (a b : Atom), t.atoms[k]? = some a → t'.atoms[k]? = some b → F b = F a) →
      (t'.atoms.take t'.realNop).map F = (t.atoms.take t.realNop).map F := by
    intro F hF
    refine List.ext_getElem? fun k => ?_
    rw [List.getElem?_map, List.getElem?_map, List.getElem?_take, List.getElem?_take, hrt]
    by_cases hk : k < t.realNop
    · rw [if_pos hk, if_pos hk]
      by_cases hk2 : k < t.atoms.length
      · have h1 := List.getElem?_eq_getElem hk2
        have h2 := List.getElem?_eq_getElem (show k < t'.atoms.length by omega)
        rw [h1, h2, Option.map_some, Option.map_some, hF k _ _ h1 h2]
      · rw [List.getElem?_eq_none (by omega), List.getElem?_eq_none (by omega)]
    · rw [if_neg hk, if_neg hk]
  unfold System.getQvals System.gqvals
  rw [if_pos hl2, if_pos hl2, hrt, hlt, hlt']
  rw [Int.toNat_natCast]
  have h1 := hlist (fun a => if false then a.aq m else a.q m) (fun k a b hk hk' => (hval k a b hk hk').1)
  refine ⟨by rw [hrt] at h1; rw [h1], fun hav => ?_⟩
  have h2 := hlist (fun a => if true then a.aq m else a.q m) (fun k a b hk hk' => (hval k a b hk hk').2 hav)
  rw [if_pos hl2, if_pos hl2, hrt] at *
  rw [h2]

/-! ## C110 -/

open Classical in
/-- `g` is the system `s` in which every atom has lost the neighbours for which the condition gives another value than for the atom itself, and
no atom carries a condition. -/
structure Spec.OnlySameSide (s g : System) (cond : Atom → Except Fault ℤ) : Prop where
  rest : { g with atoms := s.atoms } = s
  len : g.atoms.length = s.atoms.length
  nbrs : ∀ (k : ℕ) (a b : Atom), s.atoms[k]? = some a → g.atoms[k]? = some b →
    b.nbrs = a.nbrs.filter fun x => ∃ c, s.atoms[x.idx]? = some c ∧ cond c = cond a
  plain : ∀ a ∈ g.atoms, a.condition = some 0

/-- The state after the condition was written to the atoms. -/
theorem applyCondition_large {s : System} {reals : List Atom} (hi : StoreInv s reals) (hn : 200 ≤ reals.length) (hg : s.ghostNop = 0)
    {cond : Atom → Except Fault ℤ} (hc : ∀ a ∈ reals, ∃ v, cond a = .ok v)
    (h0 : ∃ a, reals[0]? = some a ∧ (cond a = .ok 0 ∨ cond a = .ok 1)) :
    ∃ new, s.applyCondition cond = .ok { s with atoms := new } ∧ new.length = reals.length ∧
      ∀ (k : ℕ) (a : Atom), reals[k]? = some a → ∃ v, cond a = .ok v ∧ new[k]? = some { a with condition := some v } := by
  obtain ⟨a0, ha0, hv0⟩ := h0
  obtain ⟨new, hm⟩ := mapM_except_isOk (ε := Fault) (fun a => do let v ← cond a; return { a with condition := some v }) reals
    (fun a ham => by obtain ⟨v, hv⟩ := hc a ham; exact ⟨{ a with condition := some v }, by rw [hv]; rfl⟩)
  obtain ⟨hlen, hall⟩ := mapM_except _ reals new hm
  have hall' : ∀ (k : ℕ) (a : Atom), reals[k]? = some a → ∃ v, cond a = .ok v ∧ new[k]? = some { a with condition := some v } := by
    intro k a hk
    obtain ⟨v, hv⟩ := hc a (List.mem_of_getElem? hk)
    obtain ⟨b, hb, hb'⟩ := hall k a hk
    rw [hv] at hb
    obtain rfl := Except.ok.inj hb
    exact ⟨v, hv, hb'⟩
  have hreal : ∀ a ∈ new, a.ghost = false := by
    intro a ha
    obtain ⟨k, hk, rfl⟩ := List.getElem_of_mem ha
    obtain ⟨v, -, h⟩ := hall' k reals[k] (List.getElem?_eq_getElem (by omega))
    rw [List.getElem?_eq_getElem hk] at h
    rw [Option.some.inj h]
    exact hi.real reals[k] (List.getElem_mem _)
  refine ⟨new, ?_, hlen, hall'⟩
  have hasg : s.assignAtoms new = .ok (s.setAtoms new) := if_neg (by omega)
  have hset := assign_large hi hn hg hlen hreal hasg
  unfold System.applyCondition
  rw [getAtoms_inv hi]
  obtain ⟨tl, rfl⟩ : ∃ tl, reals = a0 :: tl := by
    cases reals with
    | nil => simp at ha0
    | cons x tl => rw [List.getElem?_cons_zero] at ha0; obtain rfl := Option.some.inj ha0; exact ⟨tl, rfl⟩
  have fin : (do
      let new ← (a0 :: tl).mapM fun a => do
        let v ← cond a
        return { a with condition := some v }
      s.assignAtoms new : Except Fault System) = .ok { s with atoms := new } := by
    rw [hm]
    exact hasg.trans (congrArg _ hset)
  change (match cond a0 with
    | .error _ => .error .runtimeError
    | .ok v => if v = 0 ∨ v = 1 then _ else .error .runtimeError : Except Fault System) = _
  rcases hv0 with h | h <;> rw [h]
  · exact (if_pos (.inl rfl)).trans fin
  · exact (if_pos (.inr rfl)).trans fin

theorem calculateQ_cond {s s1 : System} {ls : List ℤ} {av : Bool} {cond : Atom → Except Fault ℤ} (hr : qRange ls) (h : s.applyCondition cond = .ok s1) (clear : Bool) :
    s.calculateQ ls av false (some cond) clear = s1.calculateQ ls av false none clear := by
  unfold System.calculateQ
  rw [if_neg (by simpa using hr), if_neg (by simpa using hr)]
  change Except.bind (s.applyCondition cond) _ = _
  rw [h]
  rfl

/-- **C110.**  For at least 200 atoms and a condition that gives a value on every atom, 0 or 1 on the first, `calculate_q(ls, condition=...)` succeeds, and the values
are those that `calculate_q(ls)` gives if every atom keeps only the neighbours on its own side of the condition; averaged values too. -/
theorem C110_partial (s : System) (reals : List Atom) (hi : StoreInv s reals) (hn : 200 ≤ reals.length) (hg : s.ghostNop = 0) (hs : s.NbrsInRange)
    (cond : Atom → Except Fault ℤ) (hc : ∀ a ∈ reals, ∃ v, cond a = .ok v) (h0 : ∃ a, reals[0]? = some a ∧ (cond a = .ok 0 ∨ cond a = .ok 1))
    (ls : List ℤ) (hr : ∀ l ∈ ls, 2 ≤ l ∧ l ≤ 12) (av : Bool) :
    ∃ t, s.calculateQ ls av false (some cond) = .ok t ∧ ∀ g, Spec.OnlySameSide s g cond → ∃ t', g.calculateQ ls av = .ok t' ∧
      ∀ l ∈ ls, t.getQvals l false = t'.getQvals l false ∧ (av = true → t.getQvals l true = t'.getQvals l true) := by
  obtain ⟨gs, ha, -, hgn⟩ := hi.ex
  have hgs : gs = [] := List.length_eq_zero_iff.1 (by omega)
  rw [hgs, List.append_nil] at ha
  obtain ⟨new, h1, hlen, hall⟩ := applyCondition_large hi hn hg hc h0
  have hnew : ∀ (k : ℕ) (b : Atom), new[k]? = some b → ∃ a v, reals[k]? = some a ∧ cond a = .ok v ∧ b = { a with condition := some v } := by
    intro k b hk
    have hlt := (List.getElem?_eq_some_iff.1 hk).1
    obtain ⟨v, h2, h3⟩ := hall k reals[k] (List.getElem?_eq_getElem (by omega))
    rw [hk] at h3
    exact ⟨_, v, List.getElem?_eq_getElem (by omega), h2, Option.some.inj h3⟩
  have hs1 : ({ s with atoms := new } : System).NbrsInRange := by
    intro b hb x hx
    obtain ⟨k, hk⟩ := List.mem_iff_getElem?.1 hb
    obtain ⟨a, v, e1, -, rfl⟩ := hnew k b hk
    have := hs a (by rw [ha]; exact List.mem_of_getElem? e1) x hx
    rw [ha] at this
    change x.idx < new.length
    omega
  obtain ⟨t, ht⟩ := calculateQ_succeeds (ls := ls) av false hr hs1
  refine ⟨t, (calculateQ_cond hr h1 false).trans ht, fun g hG => ?_⟩
  have hgr : g.NbrsInRange := by
    intro b hb x hx
    obtain ⟨k, hk⟩ := List.mem_iff_getElem?.1 hb
    have hlt := (List.getElem?_eq_some_iff.1 hk).1
    have hks : k < s.atoms.length := by rw [← hG.len]; exact hlt
    rw [hG.nbrs k _ b (List.getElem?_eq_getElem hks) hk] at hx
    rw [hG.len]
    exact hs _ (List.getElem_mem hks) x (List.mem_of_mem_filter hx)
  obtain ⟨t', ht'⟩ := calculateQ_succeeds (ls := ls) av false hr hgr
  refine ⟨t', ht', calculateQ_same ht' ht ?_ ?_ ?_ ?_⟩
  · have e := congrArg System.voronoiused hG.rest
    exact e.symm
  · have e := congrArg System.realNop hG.rest
    exact e.symm
  · rw [hG.len, ha]; exact hlen
  · intro k b c hb hc'
    change new[k]? = some c at hc'
    obtain ⟨a, v, e1, e2, rfl⟩ := hnew k c hc'
    have e3 : s.atoms[k]? = some a := by rw [ha]; exact e1
    have hbn := hG.nbrs k a b e3 hb
    have hbc := hG.plain b (List.mem_of_getElem? hb)
    have hx : ∀ x ∈ a.nbrs, x.idx < s.atoms.length := hs a (List.mem_of_getElem? e3)
    have q1 : g.qNbrs b = b.nbrs := by
      unfold System.qNbrs
      rw [List.filter_eq_self]
      intro x hxb
      have hxa : x.idx < g.atoms.length := by
        rw [hbn] at hxb
        rw [hG.len]
        exact hx x (List.mem_of_mem_filter hxb)
      rw [decide_eq_true_eq, hbc, mem_eq_getElem _ _ hxa]
      exact hG.plain _ (List.getElem_mem hxa)
    rw [q1, hbn]
    unfold System.qNbrs
    refine List.filter_congr fun x hxa => ?_
    have hxl := hx x hxa
    obtain ⟨w, f1, f2⟩ := hall x.idx s.atoms[x.idx] (by rw [← ha]; exact List.getElem?_eq_getElem hxl)
    have f3 : (({ s with atoms := new } : System).mem x.idx).condition = some w := by
      rw [(mem_of_getElem? (s := { s with atoms := new }) f2).2]
    rw [f3]
    rw [decide_eq_decide]
    constructor
    · intro h
      obtain rfl := Option.some.inj h
      exact ⟨_, List.getElem?_eq_getElem hxl, f1.trans e2.symm⟩
    · rintro ⟨d, d1, d2⟩
      rw [List.getElem?_eq_getElem hxl] at d1
      obtain rfl := Option.some.inj d1
      rw [f1, e2] at d2
      exact congrArg some (Except.ok.inj d2)

/-- **C110, refusals.**  If the condition fails on the first atom or gives a value there other than 0 and 1, the call raises RuntimeError. -/
theorem C110_refused (s : System) (reals : List Atom) (hi : StoreInv s reals) (cond : Atom → Except Fault ℤ) (a : Atom) (ha : reals[0]? = some a)
    (hbad : ∀ v, cond a = .ok v → v ≠ 0 ∧ v ≠ 1) (ls : List ℤ) (hr : ∀ l ∈ ls, 2 ≤ l ∧ l ≤ 12) (av only clear : Bool) :
    s.calculateQ ls av only (some cond) clear = .error .runtimeError := by
  obtain ⟨tl, rfl⟩ : ∃ tl, reals = a :: tl := by
    cases reals with
    | nil => simp at ha
    | cons x tl => rw [List.getElem?_cons_zero] at ha; obtain rfl := Option.some.inj ha; exact ⟨tl, rfl⟩
  have e : s.applyCondition cond = .error .runtimeError := by
    unfold System.applyCondition
    rw [getAtoms_inv hi]
    change (match cond a with
      | .error _ => .error .runtimeError
      | .ok v => if v = 0 ∨ v = 1 then _ else .error .runtimeError : Except Fault System) = _
    cases h : cond a with
    | error _ => rfl
    | ok v => exact if_neg (by obtain ⟨h1, h2⟩ := hbad v h; rintro (h | h) <;> contradiction)
  unfold System.calculateQ
  rw [if_neg (by simpa [qRange] using hr)]
  change Except.bind (s.applyCondition cond) _ = _
  rw [e]
  rfl

/-- **C110, `clear_condition=True`** erases the condition of the same call before anything is calculated: on atoms that carry no condition the values are those of
`calculate_q(ls)`, whatever the condition. -/
theorem C110_cleared (s : System) (reals : List Atom) (hi : StoreInv s reals) (hn : 200 ≤ reals.length) (hg : s.ghostNop = 0) (hs : s.NbrsInRange)
    (hplain : ∀ a ∈ reals, a.condition = some 0)
    (cond : Atom → Except Fault ℤ) (hc : ∀ a ∈ reals, ∃ v, cond a = .ok v) (h0 : ∃ a, reals[0]? = some a ∧ (cond a = .ok 0 ∨ cond a = .ok 1))
    (ls : List ℤ) (hr : ∀ l ∈ ls, 2 ≤ l ∧ l ≤ 12) (av : Bool) :
    s.calculateQ ls av false (some cond) true = s.calculateQ ls av := by
  obtain ⟨gs, ha, -, hgn⟩ := hi.ex
  have hgs : gs = [] := List.length_eq_zero_iff.1 (by omega)
  rw [hgs, List.append_nil] at ha
  obtain ⟨new, h1, hlen, hall⟩ := applyCondition_large hi hn hg hc h0
  rw [calculateQ_cond hr h1 true]
  have hback : new.map (fun a => { a with condition := some 0 }) = reals := by
    refine List.ext_getElem? fun k => ?_
    rw [List.getElem?_map]
    by_cases hk : k < reals.length
    · obtain ⟨v, -, e⟩ := hall k reals[k] (List.getElem?_eq_getElem hk)
      rw [e, Option.map_some, List.getElem?_eq_getElem hk]
      have := hplain reals[k] (List.getElem_mem hk)
      rw [← this]
    · rw [List.getElem?_eq_none (by omega), List.getElem?_eq_none (by omega)]
      rfl
  have hasg : s.assignAtoms reals = .ok (s.setAtoms reals) := if_neg (by omega)
  have hset := assign_large hi hn hg rfl hi.real hasg
  have hclear : ({ s with atoms := new } : System).clearCondition = .ok s := by
    unfold System.clearCondition System.getAtoms
    rw [if_pos (by change s.realNop ≤ new.length; rw [hi.realNop]; omega)]
    have htake : new.take s.realNop = new := List.take_of_length_le (by rw [hi.realNop]; omega)
    change ({ s with atoms := new } : System).assignAtoms ((new.take s.realNop).map fun a => { a with condition := some 0 }) = .ok s
    rw [htake, hback]
    refine (if_neg (by omega)).trans ?_
    have e : ({ s with atoms := new } : System).setAtoms reals = s.setAtoms reals := rfl
    rw [e, hset, ← ha]
  unfold System.calculateQ
  rw [if_neg (by simpa [qRange] using hr), if_neg (by simpa [qRange] using hr)]
  change Except.bind (({ s with atoms := new } : System).clearCondition) _ = _
  rw [hclear]
  rfl

/-- The chain of 200 atoms after the default search meets the hypotheses of C110, with the condition "is it the first atom". -/
theorem chain_searched (σ : StdSort) : ∃ s1 : System, StoreInv s1 s1.atoms ∧ 200 ≤ s1.atoms.length ∧ s1.ghostNop = 0 ∧ s1.NbrsInRange ∧
    (∀ a ∈ s1.atoms, ∃ v, condFirst a = .ok v) ∧ (∃ a, s1.atoms[0]? = some a ∧ (condFirst a = .ok 0 ∨ condFirst a = .ok 1)) ∧
    (∀ a ∈ s1.atoms, a.condition = some 0) ∧ ∃ a, s1.atoms[0]? = some a ∧ a.nbrs ≠ [] ∧ ∀ x ∈ a.nbrs, ∃ b, s1.atoms[x.idx]? = some b ∧ condFirst b ≠ condFirst a := by
  obtain ⟨s0, s, h1, h2, hi, hat, -, hb, ht⟩ := chain_setup
  have hch : ChainLike s := ⟨hb, ht, by rw [hat]; exact chainAtoms_length, by rw [hi.nop, hat]; exact chainAtoms_length,
    fun i hi => ⟨_, by rw [hat]; exact chainAtoms_get i hi, rfl⟩⟩
  obtain ⟨s1, hs1, hv1, hr, hcond, a1, hk1, ⟨y, hy, -⟩, -, hall⟩ := chain_adaptive σ hch
  have hkept := Kept.findNeighbors hs1
  have hlen1 : s1.atoms.length = 200 := hkept.len.trans hch.len
  have hid1 : ∀ i (hi : i < s1.atoms.length), s1.atoms[i].id = i ∧ s1.atoms[i].ghost = false := by
    intro i hi'
    have e := congrArg (·[i]?) hkept.atoms
    simp only [List.getElem?_map] at e
    rw [List.getElem?_eq_getElem hi', hat, chainAtoms_get i (by omega)] at e
    have e := Option.some.inj e
    exact ⟨congrArg (fun p => p.1) e, congrArg (fun p => p.2.2.2.2) e⟩
  have hrn : s1.realNop = 200 := by rw [hkept.realNop, hi.realNop]; exact chainAtoms_length
  obtain ⟨gs, hgs, -, hgn⟩ := hi.ex
  have hg0 : gs = [] := by
    rw [hat] at hgs
    exact List.append_right_eq_self.1 hgs.symm
  have hgn1 : s1.ghostNop = 0 := by rw [hkept.ghostNop, hgn, hg0]; rfl
  have hi1 : StoreInv s1 s1.atoms := by
    refine ⟨fun a ha => ?_, ⟨[], by simp, by simp, hgn1⟩, ?_, hrn.trans hlen1.symm⟩
    · obtain ⟨i, hi', rfl⟩ := List.getElem_of_mem ha
      exact (hid1 i hi').2
    · rw [hkept.nop, hch.nop, hlen1]
  have h10 : s1.atoms[0]? = some s1.atoms[0] := List.getElem?_eq_getElem (by omega)
  refine ⟨s1, hi1, by omega, hgn1, hr, fun a _ => ⟨_, rfl⟩,
    ⟨_, h10, .inr (by unfold condFirst; rw [if_pos (by exact_mod_cast (hid1 0 (by omega)).1)])⟩, ?_, ?_⟩
  · exact hcond
  · refine ⟨a1, hk1, List.ne_nil_of_mem hy, fun x hx => ?_⟩
    have hxl := hr a1 (List.mem_of_getElem? hk1) x hx
    refine ⟨_, List.getElem?_eq_getElem hxl, ?_⟩
    have e1 : a1.id = 0 := by
      rw [h10] at hk1
      rw [← Option.some.inj hk1]
      exact (hid1 0 (by omega)).1
    unfold condFirst
    rw [if_pos e1, (hid1 _ hxl).1, if_neg (by exact_mod_cast (hall x hx).1)]
    intro h
    have := Except.ok.inj h
    omega

open Classical in
/-- A system as in C110 exists for it: the same atoms without the neighbours on the other side. -/
example (σ : StdSort) : ∃ s g t : System, s.calculateQ [4, 6] true false (some condFirst) = .ok t ∧ Spec.OnlySameSide s g condFirst ∧
    (∃ t', g.calculateQ [4, 6] true = .ok t' ∧ t.getQvals 6 true = t'.getQvals 6 true) ∧ (∃ a, g.atoms[0]? = some a ∧ a.nbrs = []) ∧
    s.calculateQ [4, 6] true false (some condFirst) true = s.calculateQ [4, 6] true := by
  obtain ⟨s, hi, hn, hg, hs, hc, h0, hp, a1, hk1, -, hall⟩ := chain_searched σ
  have hr : ∀ l ∈ ([4, 6] : List ℤ), 2 ≤ l ∧ l ≤ 12 := by simp
  obtain ⟨t, ht, hall2⟩ := C110_partial s s.atoms hi hn hg hs condFirst hc h0 [4, 6] hr true
  let g : System := { s with atoms := s.atoms.map fun a =>
    { a with nbrs := a.nbrs.filter fun x => ∃ c, s.atoms[x.idx]? = some c ∧ condFirst c = condFirst a } }
  have hG : Spec.OnlySameSide s g condFirst := by
    refine ⟨rfl, List.length_map _, fun k a b ha hb => ?_, fun a ha => ?_⟩
    · change (s.atoms.map _)[k]? = some b at hb
      rw [List.getElem?_map, ha] at hb
      rw [← Option.some.inj hb]
      exact List.filter_congr fun x _ => decide_eq_decide.2 Iff.rfl
    · obtain ⟨b, hb, rfl⟩ := List.mem_map.1 ha
      exact hp b hb
  obtain ⟨t', ht', hv⟩ := hall2 g hG
  refine ⟨s, g, t, ht, hG, ⟨t', ht', (hv 6 (by simp)).2 rfl⟩, ?_, C110_cleared s s.atoms hi hn hg hs hp condFirst hc h0 [4, 6] hr true⟩
  refine ⟨_, by change (s.atoms.map _)[0]? = _; rw [List.getElem?_map, hk1]; rfl, ?_⟩
  change a1.nbrs.filter _ = []
  rw [List.filter_eq_nil_iff]
  intro x hx
  obtain ⟨b, hb, hne⟩ := hall x hx
  rw [decide_eq_true_eq]
  rintro ⟨c, hc1, hc2⟩
  rw [hb] at hc1
  obtain rfl := Option.some.inj hc1
  exact hne hc2

/-- The refusal applies to a condition that gives 2. -/
example (σ : StdSort) : ∃ s : System, s.calculateQ [6] false false (some fun _ => .ok 2) = .error .runtimeError := by
  obtain ⟨s, hi, -, -, -, -, -, -, a1, hk1, -⟩ := chain_searched σ
  exact ⟨s, C110_refused s s.atoms hi _ a1 hk1 (fun v hv => by obtain rfl := Except.ok.inj hv; decide) [6] (by simp) false false false⟩

/-! ### Fewer than 200 atoms -/

/-- An atom whose neighbours all have lost their own neighbours has no averaged value. -/
theorem aq_none_of_lost {s t : System} {ls : List ℤ} (hv : s.voronoiused = false) (ht : s.calculateQ ls true = .ok t) {l : ℕ} (hl : (l : ℤ) ∈ ls) {k : ℕ}
    {a : Atom} (hk : s.atoms[k]? = some a) (hall : ∀ x ∈ a.nbrs, (s.mem x.idx).nbrs = []) : ∃ a', t.atoms[k]? = some a' ∧ a'.aq l = none := by
  obtain ⟨hr, hs, e⟩ := calculateQ_ok ht
  have hkl := (List.getElem?_eq_some_iff.1 hk).1
  have hkt : k < t.atoms.length := by rw [e]; simpa [System.afterQ] using hkl
  refine ⟨_, List.getElem?_eq_getElem hkt, ?_⟩
  obtain ⟨_, -, -, -, -, h1, h2⟩ := calculateQ_av ht l hl (List.getElem?_eq_getElem hkt)
  rw [h2, h1, (mem_of_getElem? hk).2]
  have hL : l ∈ ls.map Int.toNat := List.mem_map.2 ⟨l, hl, by simp⟩
  generalize ls.map Int.toNat = L at hL
  have hown : (qAtom s L a).qlm l = s.calcQlm l a := by simp [qAtom, hL]
  have hres : (s.afterQ L).calcAqlm l (qAtom s L a) = none := by
    unfold System.calcAqlm
    rw [hown, afterQ_qNbrs s L a (qAtom s L a) rfl rfl]
    by_cases he : s.qNbrs a = []
    · rw [calcQlm_empty hv he]; rfl
    · obtain ⟨y, hy⟩ := List.exists_mem_of_ne_nil _ he
      have hyn : y ∈ a.nbrs := List.mem_of_mem_filter hy
      have hnone : ((s.afterQ L).mem y.idx).qlm l = none := by
        rw [afterQ_mem_qlm s L l hL _ (hs a (List.mem_of_getElem? hk) y hyn)]
        refine calcQlm_empty hv ?_
        unfold System.qNbrs
        rw [hall y hyn]
        rfl
      rw [mapM_option_none (fun y : Nb => ((s.afterQ L).mem y.idx).qlm l) _ ⟨y, hy, hnone⟩]
      cases s.calcQlm l a <;> rfl
  rw [hres]
  rfl

/-- **C110 is false for padded systems** (fewer than 200 atoms): with any condition, even one that is the same for all atoms, an atom whose neighbours are all periodic
copies gets NaN as averaged value.  Writing the condition makes new copies, without neighbours.  The second part is the same for
any values (`cs`) that happen to be in the uninitialised `condition` of the new copies. -/
theorem C110_false_small (s : System) (reals : List Atom) (hi : StoreInv s reals) (hv : s.voronoiused = false)
    (cond : Atom → Except Fault ℤ) (ls : List ℤ) (l : ℕ) (hl : (l : ℤ) ∈ ls) (k : ℕ) (a : Atom) (hk : reals[k]? = some a)
    (hall : ∀ x ∈ a.nbrs, reals.length ≤ x.idx) :
    (∀ t, s.calculateQ ls true false (some cond) = .ok t → ∃ a', t.atoms[k]? = some a' ∧ a'.aq l = none) ∧
    ∀ (s1 t : System) (cs : ℕ → Option ℤ), s.applyCondition cond = .ok s1 →
      ({ s1 with atoms := s1.atoms.mapIdx fun k a => if a.ghost then { a with condition := cs k } else a } : System).calculateQ ls true = .ok t →
      ∃ a', t.atoms[k]? = some a' ∧ a'.aq l = none := by
  have key : ∀ s1, s.applyCondition cond = .ok s1 → ∃ (new extra : List Atom) (v : ℤ), s1.atoms = new ++ extra ∧ new.length = reals.length ∧
      (∀ b ∈ extra, b.ghost = true ∧ b.nbrs = []) ∧ new[k]? = some { a with condition := some v } ∧ s1.voronoiused = false := by
    intro s1 h
    unfold System.applyCondition at h
    rw [getAtoms_inv hi] at h
    obtain ⟨a0, tl, e0⟩ : ∃ a0 tl, reals = a0 :: tl := by
      cases reals with
      | nil => simp at hk
      | cons x tl => exact ⟨x, tl, rfl⟩
    have h : (match cond a0 with
      | .error _ => .error .runtimeError
      | .ok v => if v = 0 ∨ v = 1 then (do
          let new ← reals.mapM fun a => do
            let v ← cond a
            return { a with condition := some v }
          s.assignAtoms new) else .error .runtimeError : Except Fault System) = .ok s1 := by
      subst e0
      exact h
    cases h0 : cond a0 with
    | error _ => rw [h0] at h; cases h
    | ok v0 =>
      rw [h0] at h
      dsimp only at h
      split_ifs at h
      cases hm : reals.mapM fun a => (do let v ← cond a; return { a with condition := some v } : Except Fault Atom) with
      | error _ => rw [hm] at h; cases h
      | ok new =>
        rw [hm] at h
        have h : s.assignAtoms new = .ok s1 := h
        obtain ⟨hlen, hat⟩ := mapM_except _ reals new hm
        have hat' : ∀ (i : ℕ) (b : Atom), reals[i]? = some b → ∃ v, new[i]? = some { b with condition := some v } := by
          intro i b hb
          obtain ⟨c, h1, h2⟩ := hat i b hb
          cases hb' : cond b with
          | error _ => rw [hb'] at h1; cases h1
          | ok v =>
            rw [hb'] at h1
            obtain rfl := Except.ok.inj h1
            exact ⟨v, h2⟩
        have hreal : ∀ b ∈ new, b.ghost = false := by
          intro b hb
          obtain ⟨i, hi', rfl⟩ := List.getElem_of_mem hb
          obtain ⟨v, e⟩ := hat' i reals[i] (List.getElem?_eq_getElem (by omega))
          rw [List.getElem?_eq_getElem hi'] at e
          rw [Option.some.inj e]
          exact hi.real reals[i] (List.getElem_mem _)
        obtain ⟨extra, e1, e2, -, -, -, -, -, e8⟩ := assign_shape hreal h
        obtain ⟨v, hkv⟩ := hat' k a hk
        exact ⟨new, extra, v, e1, hlen, fun b hb => ⟨(e2 b hb).1, (e2 b hb).2.2⟩, hkv, (congrArg System.voronoiused e8.eq).trans hv⟩
  have step : ∀ (s1 s2 t : System), s.applyCondition cond = .ok s1 → s2.voronoiused = s1.voronoiused →
      s2.atoms.map Atom.nbrs = s1.atoms.map Atom.nbrs → s2.calculateQ ls true = .ok t → ∃ a', t.atoms[k]? = some a' ∧ a'.aq l = none := by
    intro s1 s2 t h1 hv2 hn ht
    obtain ⟨new, extra, v, e1, e2, e3, e4, e5⟩ := key s1 h1
    obtain ⟨-, hs, -⟩ := calculateQ_ok ht
    have hnb : ∀ i : ℕ, s2.atoms[i]?.map Atom.nbrs = s1.atoms[i]?.map Atom.nbrs := by
      intro i
      rw [← List.getElem?_map, ← List.getElem?_map, hn]
    have hk1 : s1.atoms[k]? = some { a with condition := some v } := by
      rw [e1, List.getElem?_append_left (List.getElem?_eq_some_iff.1 e4).1, e4]
    have hk2 := hnb k
    rw [hk1, Option.map_some] at hk2
    obtain ⟨b, hb, hbn⟩ := Option.map_eq_some_iff.1 hk2
    refine aq_none_of_lost (hv2.trans e5) ht hl hb fun x hx => ?_
    have hxl := hs b (List.mem_of_getElem? hb) x hx
    rw [hbn] at hx
    have hge := hall x hx
    have e := hnb x.idx
    rw [List.getElem?_eq_getElem hxl, Option.map_some] at e
    obtain ⟨d, hd, hdn⟩ := Option.map_eq_some_iff.1 e.symm
    rw [mem_eq_getElem _ _ hxl, ← hdn]
    rw [e1, List.getElem?_append_right (by omega)] at hd
    exact (e3 d (List.mem_of_getElem? hd)).2
  constructor
  · intro t ht
    have hr : qRange ls := by
      by_contra h
      unfold System.calculateQ at ht
      rw [if_pos h] at ht
      cases ht
    cases h1 : s.applyCondition cond with
    | error e =>
      unfold System.calculateQ at ht
      rw [if_neg (by simpa using hr)] at ht
      change Except.bind (s.applyCondition cond) _ = _ at ht
      rw [h1] at ht
      cases ht
    | ok s1 =>
      rw [calculateQ_cond hr h1 false] at ht
      exact step s1 s1 t h1 rfl rfl ht
  · intro s1 t cs h1 ht
    refine step s1 _ t h1 ?_ ?_ ht
    · rfl
    refine List.ext_getElem? fun i => ?_
    simp only [List.getElem?_map, List.getElem?_mapIdx]
    cases s1.atoms[i]? with
    | none => rfl
    | some b => simp only [Option.map_some]; split_ifs <;> rfl

/-- Two atoms near opposite faces of a box of length 10, with the neighbours for cutoff 2: the condition that holds for all atoms makes the averaged q₆ of the first
atom NaN. -/
example (σ : StdSort) : ∃ s0 s s1 : System, System.init.setBox (Spec.diagBox 10 10 10) = .ok s0 ∧ s0.assignAtoms edgeAtoms = .ok s ∧
    s.findNeighbors σ 0 (.cutoff 2) = .ok s1 ∧ (∃ a, s1.atoms[0]? = some a ∧ a.nbrs ≠ []) ∧
    ∀ t, s1.calculateQ [6] true false (some fun _ => .ok 1) = .ok t → ∃ a, t.atoms[0]? = some a ∧ a.aq 6 = none := by
  obtain ⟨s0, s, s1, h1, h2, h3, hi, hr, hl, hbox, hb50, htri, hs1, hgh, hdiff, x, hx, hx2, hx3⟩ := edge_setup σ
  have hi1 := storeInv_cutoff (by norm_num) (by omega) h3 hi
  have hs1a : s1.atoms = (List.range s.atoms.length).map (cutoffAtom s 2 0) := by rw [hs1]
  have h0 : s1.atoms[0]? = some (cutoffAtom s 2 0 0) := by rw [hs1a, List.getElem?_map, List.getElem?_range (by omega)]; rfl
  refine ⟨s0, s, s1, h1, h2, h3, ⟨_, h0, List.ne_nil_of_mem hx⟩, ?_⟩
  have hlen : (s1.atoms.take s.realNop).length = 2 := by rw [hs1a]; simp [hl, hr]
  refine (C110_false_small s1 _ hi1 (by rw [hs1]) _ [6] 6 (by simp) 0 (cutoffAtom s 2 0 0) ?_ fun y hy => ?_).1
  · rw [List.getElem?_take, if_pos (by omega), h0]
  rw [hlen]
  have hy : y ∈ cutoffNbs s 2 0 0 := hy
  unfold cutoffNbs at hy
  obtain ⟨j, hj, rfl⟩ := List.mem_map.1 hy
  have hj := (List.mem_filter.1 hj).2
  simp only [decide_eq_true_eq] at hj
  change 2 ≤ j
  have hj0 : j ≠ 0 := hj.1
  have hj1 : j ≠ 1 := by
    rintro rfl
    obtain ⟨gs, ha, -, -⟩ := hi.ex
    have hp0 : s.posOf 0 = ⟨1 / 2, 0, 0⟩ := by
      unfold System.posOf
      rw [(mem_of_getElem? (show s.atoms[0]? = some { pos := ⟨1 / 2, 0, 0⟩ } by rw [ha]; rfl)).2]
    have hp1 : s.posOf 1 = ⟨19 / 2, 0, 0⟩ := by
      unfold System.posOf
      rw [(mem_of_getElem? (show s.atoms[1]? = some { pos := ⟨19 / 2, 0, 0⟩ } by rw [ha]; rfl)).2]
    have hd := hj.2.1
    unfold System.distOf at hd
    rw [hp0, hp1] at hd
    change V3.norm (s.image _) < 2 at hd
    rw [image_diag s 50 50 50 (by norm_num) (by norm_num) (by norm_num) htri hb50] at hd
    have : V3.norm ⟨9, 0, 0⟩ < 2 := by
      convert hd using 3 <;> norm_num [wrap]
    rw [norm_axis_x 9 (by norm_num)] at this
    norm_num at this
  omega

end Pyscal
