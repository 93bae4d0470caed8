import Verif.Props.Cna
import Verif.Lemmas.Diamond

/-! C28 (diamond part) and C64. -/

namespace Pyscal

open System

theorem mem_default (s : System) (k : ℕ) (hk : ¬ k < s.atoms.length) : s.mem k = default := by
  simp [System.mem, hk]

theorem cidentify_ok {s s' : System} {r : List ℕ} (h : s.cidentifyDiamond = .ok (s', r)) :
    (∀ a ∈ s.resetStruct.atoms, s.resetStruct.TempOk 4 a) ∧
    s' = s.resetStruct.ofMem (diaPass2 (List.range s.atoms.length) (diaPass1 (List.range s.atoms.length)
      (s.resetStruct.ofMem (diaPre s.resetStruct)).mem)) ∧ s'.tally 11 = .ok r := by
  unfold System.cidentifyDiamond at h
  change Except.bind s.resetStruct.identifyCndia _ = _ at h
  rw [identifyCndia_eq] at h
  have hl : s.resetStruct.atoms.length = s.atoms.length := (like_resetStruct s).len
  by_cases hr : ∀ a ∈ s.resetStruct.atoms, s.resetStruct.TempOk 4 a
  · rw [if_pos hr, hl] at h
    change Except.bind (System.tally _ 11) _ = _ at h
    set g := s.resetStruct.ofMem (diaPass2 (List.range s.atoms.length) (diaPass1 (List.range s.atoms.length)
      (s.resetStruct.ofMem (diaPre s.resetStruct)).mem)) with hg
    rcases ht : g.tally 11 with e | r'
    · rw [ht] at h; cases h
    · rw [ht] at h
      obtain ⟨rfl, rfl⟩ := Prod.mk.inj (Except.ok.inj h)
      exact ⟨hr, rfl, ht⟩
  · rw [if_neg hr] at h; cases h

theorem resetStruct_mem (s : System) (k : ℕ) : (s.resetStruct.mem k).struct = 0 := by
  by_cases hk : k < s.atoms.length
  · simp [System.mem, System.resetStruct, hk]
  · simp [System.mem, System.resetStruct, hk]; rfl

theorem diaCut_frame (a : Atom) : (diaCut a).struct = a.struct ∧ (diaCut a).nbrs = a.nbrs ∧ (diaCut a).nn1 = a.nn1 := by
  unfold diaCut; split <;> exact ⟨rfl, rfl, rfl⟩

theorem diaRename_frame (a : Atom) : (diaRename a).nbrs = a.nbrs ∧ (diaRename a).nn1 = a.nn1 ∧ (diaRename a).cna = a.cna := by
  unfold diaRename; split_ifs <;> exact ⟨rfl, rfl, rfl⟩

/-- The atom before the passes: neighbours, signatures, and the code from the signatures. -/
theorem diaPre_spec (s : System) (k : ℕ) (h0 : (s.mem k).struct = 0) :
    (diaPre s k).nbrs = s.diamondNbs k ∧ (diaPre s k).nn1 = ((s.mem k).temp.take 4).map DAtom.idx ∧
    ((diaPre s k).struct = 0 ∨ (diaPre s k).struct = 4 ∨ (diaPre s k).struct = 5 ∨ (diaPre s k).struct = 8) ∧
    ((diaPre s k).struct = 5 ↔ (diaPre s k).cna.count (4, 2, 1, 1) = 12) ∧
    ((diaPre s k).struct = 8 ↔ (diaPre s k).cna.count (4, 2, 1, 1) = 6 ∧ (diaPre s k).cna.count (4, 2, 2, 0) = 6) ∧
    (12 ≤ (s.diamondNbs k).length → (diaPre s k).cna =
      cnaSignatures (withinC s (1.207 * (((s.diamondNbs k).take 12).map Nb.dist).sum / 12)) ((s.diamondNbs k).map Nb.idx)) := by
  set a0 : Atom := { s.mem k with
    nbrs := s.diamondNbs k, condition := some 0, nn1 := ((s.mem k).temp.take 4).map DAtom.idx } with ha0
  have hpre : diaPre s k = diaRename (s.cn12 (diaCut a0)) := rfl
  obtain ⟨c1, c2, c3⟩ := diaCut_frame a0
  have h12 : s.cn12 (diaCut a0) = { diaCut a0 with
      cna := s.signatures (diaCut a0), struct := struct12 (counts12 (s.signatures (diaCut a0))) } := by
    unfold System.cn12
    rw [if_pos (c1.trans h0)]
  obtain ⟨r1, r2, r3⟩ := diaRename_frame (s.cn12 (diaCut a0))
  rw [hpre, r1, r2, r3]
  have hcna : (s.cn12 (diaCut a0)).cna = s.signatures (diaCut a0) := by rw [h12]
  have hst : (s.cn12 (diaCut a0)).struct = struct12 (counts12 (s.signatures (diaCut a0))) := by rw [h12]
  rw [hcna]
  set sig := s.signatures (diaCut a0) with hsig
  have hren : (diaRename (s.cn12 (diaCut a0))).struct =
      if struct12 (counts12 sig) = 1 then 5 else if struct12 (counts12 sig) = 2 then 8 else struct12 (counts12 sig) := by
    unfold diaRename
    rw [hst]
    split_ifs
    · rfl
    · rfl
    · exact hst
  rw [hren]
  refine ⟨by rw [h12]; exact c2, by rw [h12]; exact c3, ?_, ?_, ?_, ?_⟩
  · rcases struct12_range (counts12 sig) with h | h | h | h <;> rw [h] <;> decide
  · rw [counts12_spec]
    unfold struct12
    dsimp only
    split_ifs <;> simp_all
  · rw [counts12_spec]
    unfold struct12
    dsimp only
    split_ifs <;> simp_all
  · intro hlen
    have hcut : (diaCut a0).cutoff = some (1.207 * (((s.diamondNbs k).take 12).map Nb.dist).sum / 12) := by
      unfold diaCut
      rw [if_pos (show a0.nbrs.length > 11 from hlen)]
    have hnb : (diaCut a0).nbrs = s.diamondNbs k := c2
    rw [hsig]
    unfold System.signatures
    rw [hnb]
    congr 1
    funext m n
    unfold System.within withinC
    rw [hcut]
    simp

/-- **C28** for `identify_diamond`, from any state, with or without the neighbour search: the eleven
counts returned are the numbers of (real) atoms carrying the codes 0 to 10 and add up to the number
of atoms; the codes are 0 and 4 to 10, so fcc, hcp and bcc are never reported. -/
theorem C28_diamond (σ : StdSort) (s s' : System) (find : Bool) (r : List ℕ) (h : s.identifyDiamond σ find = .ok (s', r)) :
    s'.realNop = s.realNop ∧ s'.atoms.length = s.atoms.length ∧ r.length = 11 ∧ r.sum = s.realNop ∧
    (∀ a ∈ s'.atoms, a.struct = 0 ∨ 4 ≤ a.struct ∧ a.struct ≤ 10) ∧
    (∀ c : ℕ, c < 11 → r[c]? = some ((s'.atoms.take s'.realNop).countP fun a : Atom => decide (a.struct = (c : ℤ)))) ∧
    r[1]? = some 0 ∧ r[2]? = some 0 ∧ r[3]? = some 0 := by
  have h1 : ∃ s1 : System, s1.cidentifyDiamond = .ok (s', r) ∧ s1.realNop = s.realNop ∧ s1.atoms.length = s.atoms.length := by
    unfold System.identifyDiamond at h
    cases find with
    | false => exact ⟨s, h, rfl, rfl⟩
    | true =>
      change Except.bind (s.resetNeighbors.findNeighbors σ 0 (.number 3 4 false)) _ = _ at h
      rcases hf : s.resetNeighbors.findNeighbors σ 0 (.number 3 4 false) with e | s1
      · rw [hf] at h; cases h
      · rw [hf] at h
        refine ⟨s1, h, ?_⟩
        obtain ⟨g, hg, rfl, -⟩ := ok_of_find hf
        change (s.resetNeighbors.startSearch 0).searchNumber σ 3 4 false = _ at hg
        unfold System.searchNumber at hg
        rw [if_neg (by norm_num)] at hg
        change Except.bind (s.resetNeighbors.startSearch 0).getAtoms _ = _ at hg
        rcases ha : (s.resetNeighbors.startSearch 0).getAtoms with e | l
        · rw [ha] at hg; cases hg
        · rw [ha] at hg
          change Except.bind (System.neighborsByNumber σ { s.resetNeighbors.startSearch 0 with usecells := decide (l.length > 4000) } 3 4 false) _ = _ at hg
          rcases hb : System.neighborsByNumber σ { s.resetNeighbors.startSearch 0 with usecells := decide (l.length > 4000) } 3 4 false with e | ⟨g', b⟩
          · rw [hb] at hg; cases hg
          · rw [hb] at hg
            obtain ⟨b1, -, b3⟩ := byNumber_frame hb
            have hg : (if b then Except.ok g' else Except.error Fault.runtimeError) = Except.ok g := hg
            split_ifs at hg
            obtain rfl := Except.ok.inj hg
            refine ⟨by rw [b3]; rfl, b1.trans ?_⟩
            simp [System.startSearch, System.resetNeighbors, System.resetAllNeighbors]
  obtain ⟨s1, h, hr1, hl1⟩ := h1
  obtain ⟨-, hs', ht⟩ := cidentify_ok h
  obtain ⟨-, t2, t3, t4, t5⟩ := tally_ok ht
  have hr : s'.realNop = s.realNop := by rw [hs']; exact hr1
  have hl : s'.atoms.length = s.atoms.length := by
    rw [hs', ofMem_length, (like_resetStruct s1).len, hl1]
  have hcode : ∀ a ∈ s'.atoms, a.struct = 0 ∨ 4 ≤ a.struct ∧ a.struct ≤ 10 := by
    intro a ha
    rw [hs'] at ha
    obtain ⟨k, -, rfl⟩ := List.mem_map.1 ha
    refine (passes_spec _ List.nodup_range _ fun j => ?_).2.2.1 k
    by_cases hj : j < s1.resetStruct.atoms.length
    · rw [ofMem_mem _ _ _ hj]
      exact (diaPre_spec _ j (resetStruct_mem s1 j)).2.2.1
    · left
      have : (s1.resetStruct.ofMem (diaPre s1.resetStruct)).mem j = default := mem_default _ _ (by rw [ofMem_length]; omega)
      rw [this]; rfl
  have hzero : ∀ c : ℕ, c = 1 ∨ c = 2 ∨ c = 3 → r[c]? = some 0 := by
    intro c hc
    rw [t5 c (by omega), Option.some.injEq, List.countP_eq_zero]
    intro a ha
    have := hcode a (List.mem_of_mem_take ha)
    simp only [decide_eq_true_eq]
    omega
  exact ⟨hr, hl, t2, by rw [t3, hr], hcode, t5, hzero 1 (by simp), hzero 2 (by simp), hzero 3 (by simp)⟩

theorem isDiamond_iff (s : System) (y : ℕ) :
    Spec.IsDiamond s y ↔ ((s.mem y).struct = 5 ∨ (s.mem y).struct = 8) := by
  unfold Spec.IsDiamond
  by_cases hy : y < s.atoms.length
  · rw [List.getElem?_eq_getElem hy, mem_eq_getElem _ _ hy]
    simp
  · have : s.mem y = default := mem_default _ _ (by omega)
    rw [this, List.getElem?_eq_none (by omega)]
    constructor
    · rintro ⟨b, h, -⟩; cases h
    · rintro (h | h)
      · exact absurd h (by decide : ¬ (0 : ℤ) = 5)
      · exact absurd h (by decide : ¬ (0 : ℤ) = 8)

theorem firstDiamondIs_iff (s : System) (L : List ℕ) (c : ℤ) (hc : c ≠ 0) :
    Spec.FirstDiamondIs s L c ↔ FirstDia s.mem L c := by
  unfold Spec.FirstDiamondIs FirstDia
  simp only [isDiamond_iff]
  have : ∀ n, (∃ b, s.atoms[n]? = some b ∧ b.struct = c) ↔ (s.mem n).struct = c := by
    intro n
    by_cases hn : n < s.atoms.length
    · rw [List.getElem?_eq_getElem hn, mem_eq_getElem _ _ hn]
      simp
    · have : s.mem n = default := mem_default _ _ (by omega)
      rw [this, List.getElem?_eq_none (by omega)]
      constructor
      · rintro ⟨b, h, -⟩; cases h
      · intro h; exact absurd h.symm hc
  simp only [this]

/-- **C64**: `identify_diamond()` lists as neighbours of an atom the four nearest atoms of each of its
four nearest atoms, itself excepted, with their distances and vectors.  An atom is cubic (5) or hexagonal (8) diamond when the
signatures of these, for a cutoff of 1.207 times the mean of the first twelve distances, are those
of fcc or hcp.  Of the other atoms, those with a diamond atom among the four nearest are labelled 6 or
9, after the nearest such atom; those without, but with a diamond atom among the neighbours listed,
7 or 10, after the first one listed. -/
theorem C64_diamond (σ : StdSort) (s s' : System) (r : List ℕ) (hok : Spec.SearchExact s (decide (s.realNop > 4000)) 3)
    (h : s.identifyDiamond σ true = .ok (s', r)) :
    ∃ N : ℕ → List Nb, (∀ k a, s.atoms[k]? = some a → Spec.NearestList s k a 4 (N k)) ∧
    ∀ (k : ℕ) (a' : Atom), s'.atoms[k]? = some a' →
      (∀ a, s.atoms[k]? = some a → ∀ y ∈ a'.nbrs, Spec.GoodEntry s k a y) ∧
      a'.nbrs.map Nb.idx = ((N k).map Nb.idx).flatMap (fun j => ((N j).map Nb.idx).filter fun i => decide (i ≠ k)) ∧
      (a'.struct = 5 ↔ a'.cna.count (4, 2, 1, 1) = 12) ∧
      (a'.struct = 8 ↔ a'.cna.count (4, 2, 1, 1) = 6 ∧ a'.cna.count (4, 2, 2, 0) = 6) ∧
      (12 ≤ a'.nbrs.length → Spec.Signatures s (1.207 * (((a'.nbrs.take 12).map Nb.dist).sum / 12)) a'.nbrs a'.cna) ∧
      Spec.DiamondShells s' k ((N k).map Nb.idx) (a'.nbrs.map Nb.idx) a'.struct := by
  unfold System.identifyDiamond at h
  change Except.bind (s.resetNeighbors.findNeighbors σ 0 (.number 3 4 false)) _ = _ at h
  rcases hf : s.resetNeighbors.findNeighbors σ 0 (.number 3 4 false) with e | s1
  · rw [hf] at h; cases h
  rw [hf] at h
  have h : s1.cidentifyDiamond = .ok (s', r) := h
  set s0 := s.resetNeighbors with hs0
  have hl0 : Like s s0 := ⟨resetAll_length s, resetAll_posOf s, resetAll_typeOf s, rfl, rfl, rfl, rfl⟩
  have hlc : Like (s.candSettings (decide (s.realNop > 4000)) 3) (s0.candSettings (decide (s0.realNop > 4000)) 3) :=
    ⟨hl0.len, hl0.pos, hl0.type, hl0.box, hl0.rot, hl0.rotinv, hl0.tri⟩
  obtain ⟨_, _, T, hT, hall, hs1, -⟩ := find_number_ok (hlc.candOK rfl (hl0.guessDist 3) (candOK_of hok)) hf
  rw [hl0.len] at hT hall
  have hT' : ∀ k < s.atoms.length, (T k).Perm (cands (s.candSettings (decide (s.realNop > 4000)) 3) k) := fun k hk =>
    (hT k hk).trans (List.Perm.of_eq (hlc.cands rfl (hl0.guessDist 3) k))
  have hlen1 : s1.atoms.length = s.atoms.length := by rw [hs1]; simp [hl0.len]
  have hmem1 : ∀ k < s.atoms.length, s1.mem k = byNumberAtom σ s0 4 false k (candAtom s0 (T k) k) := by
    intro k hk
    rw [mem_eq_getElem _ _ (by omega)]
    simp only [hs1, List.getElem_map, List.getElem_range]
  have hl1 : Like s s1 := by
    have hp : ∀ k, s1.posOf k = s0.posOf k ∧ s1.typeOf k = s0.typeOf k := by
      intro k
      by_cases hk : k < s.atoms.length
      · unfold System.posOf System.typeOf
        rw [hmem1 k hk]; exact ⟨rfl, rfl⟩
      · have e1 : s1.mem k = default := mem_default _ _ (by omega)
        have e0 : s0.mem k = default := mem_default _ _ (by rw [hl0.len]; omega)
        unfold System.posOf System.typeOf
        rw [e1, e0]; exact ⟨rfl, rfl⟩
    exact ⟨hlen1, fun k => (hp k).1.trans (hl0.pos k), fun k => (hp k).2.trans (hl0.type k), by rw [hs1]; rfl,
      by rw [hs1]; rfl, by rw [hs1]; rfl, by rw [hs1]; rfl⟩
  have hl2 : Like s s1.resetStruct := hl1.trans (like_resetStruct s1)
  have htemp : ∀ k < s.atoms.length, (s1.resetStruct.mem k).temp = σ.sort (T k) := by
    intro k hk
    have : (s1.resetStruct.mem k).temp = (s1.mem k).temp := by
      have hk1 : k < s1.atoms.length := by omega
      simp [System.mem, System.resetStruct, hk1]
    rw [this, hmem1 k hk]; rfl
  have hS : ∀ k < s.atoms.length, SortedCands (s.candSettings (decide (s.realNop > 4000)) 3) k (σ.sort (T k)) :=
    fun k hk => SortedCands.mk' σ (hT' k hk)
  have h4 : ∀ k < s.atoms.length, 4 ≤ (σ.sort (T k)).length := fun k hk => by
    rw [(σ.perm _).length_eq]; exact hall k hk
  have hlen2 : s1.resetStruct.atoms.length = s.atoms.length := hl2.len
  obtain ⟨-, hs', ht⟩ := cidentify_ok h
  set s2 := s1.resetStruct with hs2
  set m4 := (s2.ofMem (diaPre s2)).mem with hm4
  have hm4in : ∀ k < s.atoms.length, m4 k = diaPre s2 k := fun k hk => ofMem_mem _ _ _ (by omega)
  have hm4out : ∀ k, ¬ k < s.atoms.length → m4 k = default := by
    intro k hk
    exact mem_default _ _ (by rw [ofMem_length]; omega)
  have hm4r : ∀ k, (m4 k).struct = 0 ∨ (m4 k).struct = 4 ∨ (m4 k).struct = 5 ∨ (m4 k).struct = 8 := by
    intro k
    by_cases hk : k < s.atoms.length
    · rw [hm4in k hk]; exact (diaPre_spec s2 k (resetStruct_mem s1 k)).2.2.1
    · rw [hm4out k hk]; exact .inl rfl
  rw [hlen1] at hs'
  obtain ⟨p1, p2, -, p4⟩ := passes_spec (List.range s.atoms.length) List.nodup_range m4 hm4r
  set mf := diaPass2 (List.range s.atoms.length) (diaPass1 (List.range s.atoms.length) m4) with hmf
  have hlen' : s'.atoms.length = s.atoms.length := by rw [hs', ofMem_length, hlen2]
  have hs'm : s'.mem = mf := by
    funext k
    by_cases hk : k < s.atoms.length
    · rw [hs']; exact ofMem_mem s2 mf k (by omega)
    · have e1 : s'.mem k = default := mem_default _ _ (by omega)
      have e2 : mf k = m4 k := by
        have q1 := diaPass2_spec (List.range s.atoms.length) List.nodup_range (diaPass1 (List.range s.atoms.length) m4) k
        have q2 := diaPass1_spec (List.range s.atoms.length) List.nodup_range m4 k
        rw [hmf, q1, if_neg (fun h => hk (List.mem_range.1 h.1)), q2, if_neg (fun h => hk (List.mem_range.1 h.1))]
      rw [e1, e2, hm4out k hk]
  refine ⟨fun k => ((σ.sort (T k)).take 4).map fun x => s.mkNb k x.idx, fun k a hka => ?_, ?_⟩
  · obtain ⟨hk, -⟩ := mem_of_getElem? hka
    exact (hS k hk).nearest (a := a) hka (h4 k hk)
  intro k a' hka'
  obtain ⟨hk', hmk'⟩ := mem_of_getElem? hka'
  have hk : k < s.atoms.length := by omega
  rw [hs'm] at hmk'
  have hidx : ∀ j, ((((σ.sort (T j)).take 4).map fun x => s.mkNb j x.idx).map Nb.idx) = ((σ.sort (T j)).take 4).map DAtom.idx := by
    intro j
    rw [List.map_map]; rfl
  simp only [hidx]
  obtain ⟨d1, d2, -, d4, d5, d6⟩ := diaPre_spec s2 k (resetStruct_mem s1 k)
  have hfr := p2 k
  rw [hm4in k hk] at hfr
  have en : a'.nbrs = s2.diamondNbs k := by rw [← hmk', hfr]; exact d1
  have ec : a'.cna = (diaPre s2 k).cna := by rw [← hmk', hfr]
  have hst : (a'.struct = 5 ↔ (diaPre s2 k).struct = 5) ∧ (a'.struct = 8 ↔ (diaPre s2 k).struct = 8) := by
    rw [← hmk', ← hm4in k hk]; exact p1 k
  have hrng : ∀ x ∈ s2.diamondNbs k, x.idx < s.atoms.length := by
    intro x hx
    obtain ⟨y, hy, rfl⟩ := List.mem_map.1 hx
    obtain ⟨z, hz, hy⟩ := List.mem_flatMap.1 hy
    rw [htemp k hk] at hz
    have hz' := ((hS k hk).mem.1 (List.mem_of_mem_take hz)).1
    have hy := List.mem_of_mem_take (List.mem_filter.1 hy).1
    rw [htemp z.idx hz'] at hy
    exact ((hS z.idx hz').mem.1 hy).1
  refine ⟨?_, ?_, ?_, ?_, ?_, ?_⟩
  · intro a ha y hy
    rw [en] at hy
    have hyl := hrng y hy
    obtain ⟨z, hz, rfl⟩ := List.mem_map.1 hy
    obtain ⟨w, -, hz⟩ := List.mem_flatMap.1 hz
    have hne := of_decide_eq_true (List.mem_filter.1 hz).2
    rw [hl2.mkNb]
    have hb := List.getElem?_eq_getElem (show z.idx < s.atoms.length from hyl)
    obtain ⟨d1, d2⟩ := distOf_eq ha hb
    exact ⟨_, hb, fun h => hne h.symm, d1, rfl, d2⟩
  · rw [en]
    unfold System.diamondNbs
    rw [htemp k hk, List.map_map, List.map_flatMap, List.flatMap_map]
    refine List.flatMap_congr fun x hx => ?_
    have hx' := ((hS k hk).mem.1 (List.mem_of_mem_take hx)).1
    rw [htemp x.idx hx', List.filter_map]
    congr 1
    refine List.filter_congr fun y _ => ?_
    simp only [Function.comp, ne_eq, decide_not, eq_comm]
  · rw [hst.1, d4, ec]
  · rw [hst.2, d5, ec]
  · intro hlen
    rw [en] at hlen ⊢
    rw [ec, d6 hlen]
    have hw : ∀ c, withinC s2 c = withinC s c := by
      intro c; funext m n; unfold withinC; rw [hl2.distOf]
    rw [hw, mul_div_assoc]
    exact signatures_of_code s _ _ hrng
  · obtain ⟨q1, q2, q3, q4⟩ := p4 k (List.mem_range.2 hk)
    have hD : ∀ y, ((m4 y).struct = 5 ∨ (m4 y).struct = 8) ↔ Spec.IsDiamond s' y := by
      intro y
      rw [isDiamond_iff, hs'm, (p1 y).1, (p1 y).2]
    have hF : ∀ L, (FirstDia m4 L 5 ↔ Spec.FirstDiamondIs s' L 5) ∧ (FirstDia m4 L 8 ↔ Spec.FirstDiamondIs s' L 8) := by
      intro L
      rw [firstDiamondIs_iff s' L 5 (by decide), firstDiamondIs_iff s' L 8 (by decide), hs'm]
      exact ⟨(firstDia_congr p1 L).1.symm, (firstDia_congr p1 L).2.symm⟩
    have e1 : (m4 k).nn1 = ((σ.sort (T k)).take 4).map DAtom.idx := by rw [hm4in k hk, d2, htemp k hk]
    have e2 : (m4 k).nbrs = a'.nbrs := by rw [hm4in k hk, d1, en]
    rw [e1] at q1 q2 q3 q4
    rw [e2] at q3 q4
    simp only [hD, (hF _).1, (hF _).2] at q1 q2 q3 q4
    rw [hmk'] at q1 q2 q3 q4
    exact ⟨q1, q2, q3, q4⟩

theorem cnaSys_wf : cnaSys.atoms.length = 15 ∧ cnaSys.realNop = 15 ∧ cnaSys.usecells = false ∧
    (∀ a ∈ cnaSys.atoms, a.temp = []) ∧ ∃ R, Spec.SearchRadius cnaSys 3 R ∧ Spec.EnoughWithin cnaSys R 14 := by
  have hlen : cnaSys.atoms.length = 15 := intSystem_length (L := 4000)
  refine ⟨hlen, rfl, rfl, ?_, cnaSys.guessDist 3, (searchRadius_iff _ _ _).2 rfl, ?_⟩
  · intro a ha
    obtain ⟨p, -, rfl⟩ := List.mem_map.1 ha
    rfl
  · intro k a hk
    obtain ⟨hk', -⟩ := mem_of_getElem? hk
    rw [hlen] at hk'
    refine ⟨(Finset.range 15).erase k, by rw [Finset.card_erase_of_mem (Finset.mem_range.2 hk')]; simp, fun j hj => ?_⟩
    obtain ⟨h1, h2⟩ := Finset.mem_erase.1 hj
    rw [Finset.mem_range, ← hlen] at h2
    refine ⟨h1, _, List.getElem?_eq_getElem h2, ?_⟩
    rw [← (distOf_eq hk (List.getElem?_eq_getElem h2)).1]
    have hd : cnaSys.distOf k j = Real.sqrt (intSq cnaPs k j : ℤ) := intSystem_dist cnaSys_ok k j
    rw [hd]
    have hg : (3 : ℝ) * (300 : ℤ) ≤ cnaSys.guessDist 3 := intSystem_guess cnaSys_ok 3 (by norm_num) (by decide) 300 (by decide)
    refine lt_of_lt_of_le ?_ hg
    rw [Real.sqrt_lt' (by norm_num)]
    have hle : intSq cnaPs k j ≤ 809999 := by
      have : ∀ i < 15, ∀ j < 15, intSq cnaPs i j ≤ 809999 := by decide +kernel
      exact this k hk' j (by omega)
    have : (intSq cnaPs k j : ℝ) ≤ 809999 := by exact_mod_cast hle
    refine lt_of_le_of_lt this (by norm_num)

/-- The hypotheses of `C27_partial` and `C63_structure` hold for the cluster. -/
example : ∃ R, Spec.SearchRadius cnaSys 3 R ∧ cnaSys.realNop ≤ cnaSys.atoms.length ∧ (∀ a ∈ cnaSys.atoms, a.temp = []) ∧
    Spec.SearchExact cnaSys cnaSys.usecells 3 ∧ Spec.EnoughWithin cnaSys R 14 := by
  obtain ⟨h1, h2, h3, h4, R, h5, h6⟩ := cnaSys_wf
  exact ⟨R, h5, by rw [h1, h2], h4, exact_small, h6⟩

/-- The hypothesis of `C28_cna` holds for the cluster. -/
example (σ : StdSort) : ∃ s' r, cnaSys.calculateCna σ (some 200) = .ok (s', r) := by
  obtain ⟨s', r, h, -⟩ := cnaSys_first σ (some 200)
  exact ⟨s', r, h⟩

/-- The hypotheses of `C29_partial` hold for the cluster and itself after an analysis that has been reset;
here for a system with other candidate lists. -/
example : Spec.SameInput cnaSys { cnaSys with
      atoms := cnaSys.atoms.map (fun a => { a with temp := [⟨1, 2⟩], struct := 7 })
      neighborsFound := true } := ⟨by simp, rfl, rfl, rfl, rfl, rfl, rfl⟩

theorem tally_bind {s : System} {r : List ℕ} (hr : s.tally 11 = .ok r) :
    ((Except.ok s : Except Fault System).bind fun s => do
      let r ← s.tally 11
      pure (s, r)) = .ok (s, r) := by
  change Except.bind (s.tally 11) _ = _
  rw [hr]
  rfl

/-- `identify_diamond()` succeeds when every atom has four others within the search radius. -/
theorem diamond_succeeds (σ : StdSort) {s : System} {R : ℝ} (hR : Spec.SearchRadius s 3 R) (hle : s.realNop ≤ s.atoms.length)
    (hok : Spec.SearchExact s (decide (s.realNop > 4000)) 3) (henough : Spec.EnoughWithin s R 4) : ∃ s' r, s.identifyDiamond σ true = .ok (s', r) := by
  set s0 := s.resetNeighbors with hs0
  have hl0 : Like s s0 := ⟨resetAll_length _, resetAll_posOf _, resetAll_typeOf _, rfl, rfl, rfl, rfl⟩
  have hlen : s0.atoms.length = s.atoms.length := hl0.len
  have hlc : Like (s.candSettings (decide (s.realNop > 4000)) 3) (s0.candSettings (decide (s0.realNop > 4000)) 3) :=
    ⟨hl0.len, hl0.pos, hl0.type, hl0.box, hl0.rot, hl0.rotinv, hl0.tri⟩
  obtain ⟨T, hT, -, hrun⟩ := searchNumber_spec σ s0 0 3 4 false (by norm_num) (by rw [hlen]; exact hle) (hlc.candOK rfl (hl0.guessDist 3) (candOK_of hok))
  have h4 : ∀ k < s.atoms.length, 4 ≤ (T k).length := fun k hk => by
    rw [(hT k (by omega)).length_eq, hlc.cands rfl (hl0.guessDist 3) k]
    exact enough_cands _ _ ((searchRadius_iff _ _ _).1 hR) henough k hk
  have hrun := hrun fun k hk => h4 k (by omega)
  obtain ⟨s1, h1⟩ := finish_ok hrun fun a ha => by
    obtain ⟨k, -, rfl⟩ := List.mem_map.1 ha
    simp [byNumberAtom, candAtom]
  obtain ⟨g, hg, rfl, -⟩ := ok_of_find h1
  rw [hrun] at hg
  obtain rfl := Except.ok.inj hg
  unfold System.identifyDiamond
  change ∃ s' r, Except.bind (s0.findNeighbors σ 0 (.number 3 4 false)) _ = _
  rw [h1]
  set s1 : System := _
  change ∃ s' r, s1.cidentifyDiamond = .ok (s', r)
  have hlen1 : s1.atoms.length = s.atoms.length := by simp [s1, hlen]
  have hok : ∀ a ∈ s1.resetStruct.atoms, s1.resetStruct.TempOk 4 a := by
    intro a ha
    obtain ⟨b, hb, rfl⟩ := List.mem_map.1 ha
    obtain ⟨k, hk, rfl⟩ := List.mem_map.1 hb
    rw [List.mem_range, hlen] at hk
    have e : ({ byNumberAtom σ s0 4 false k (candAtom s0 (T k) k) with struct := 0 } : Atom).temp = σ.sort (T k) := rfl
    refine ⟨by rw [e, (σ.perm _).length_eq]; exact h4 k hk, fun x hx => ?_⟩
    rw [e] at hx
    have := (hT k (by omega)).mem_iff.1 ((σ.perm _).mem_iff.1 (List.mem_of_mem_take hx))
    rw [(like_resetStruct s1).len, hlen1, ← hlen]
    exact (cands_mem.1 this).1
  unfold System.cidentifyDiamond
  change ∃ s' r, Except.bind s1.resetStruct.identifyCndia _ = _
  rw [identifyCndia_eq, if_pos hok]
  set m4 := (s1.resetStruct.ofMem (diaPre s1.resetStruct)).mem with hm4
  have hm4r : ∀ k, (m4 k).struct = 0 ∨ (m4 k).struct = 4 ∨ (m4 k).struct = 5 ∨ (m4 k).struct = 8 := by
    intro k
    by_cases hk : k < s1.resetStruct.atoms.length
    · rw [hm4, ofMem_mem _ _ _ hk]; exact (diaPre_spec _ k (resetStruct_mem s1 k)).2.2.1
    · rw [hm4, mem_default _ _ (by rw [ofMem_length]; exact hk)]; exact .inl rfl
  obtain ⟨-, -, p3, -⟩ := passes_spec (List.range s1.resetStruct.atoms.length) List.nodup_range m4 hm4r
  set s2 := s1.resetStruct.ofMem (diaPass2 (List.range s1.resetStruct.atoms.length)
      (diaPass1 (List.range s1.resetStruct.atoms.length) m4)) with hs2
  obtain ⟨r, hr⟩ := tally_succeeds (s := s2) (n := 11)
    (by rw [ofMem_length, (like_resetStruct s1).len, hlen1]; exact hle) (fun a ha => by
      obtain ⟨k, -, rfl⟩ := List.mem_map.1 ha
      have := p3 k
      push_cast
      omega)
  refine ⟨s2, r, ?_⟩
  exact tally_bind hr

/-- The hypothesis of `C28_diamond` and `C64_diamond` holds for the cluster. -/
example (σ : StdSort) : Spec.SearchExact cnaSys (decide (cnaSys.realNop > 4000)) 3 ∧
    ∃ s' r, cnaSys.identifyDiamond σ true = .ok (s', r) := by
  obtain ⟨h1, h2, h3, h4, R, h5, h6⟩ := cnaSys_wf
  refine ⟨exact_small, diamond_succeeds σ h5 (by rw [h1, h2]) exact_small fun k a hk => ?_⟩
  obtain ⟨J, hJ, h⟩ := h6 k a hk
  exact ⟨J, by omega, h⟩

/-- The negation of **C27**: on the cluster with the (large) lattice constant 1000 all 14 neighbours
are within the cutoff of each other.  The signature reported for the first neighbour is
(13, 78, 12, 8): each of its 13 common neighbours has 12 bonds, but the smallest number of bonds is
given as 8. -/
theorem C27_false (σ : StdSort) : ∃ s' r a c2 x, cnaSys.calculateCna σ (some 1000) = .ok (s', r) ∧ s'.atoms[0]? = some a ∧
    a.cutoff = some c2 ∧ a.struct = 0 ∧ a.cna[0]? = some x ∧ x = (13, 78, 12, 8) ∧
    (Spec.commonWith (Spec.Within cnaSys c2) (a.nbrs.map Nb.idx) 0).card = 13 ∧
    ∀ j ∈ Spec.commonWith (Spec.Within cnaSys c2) (a.nbrs.map Nb.idx) 0,
      Spec.bondsOf (Spec.Within cnaSys c2) (a.nbrs.map Nb.idx) 0 j = 12 := by
  classical
  obtain ⟨s', r, h1, l1, -, -, -, m1⟩ := cnaSys_first σ (some 1000)
  have hlen0 : cnaSys.atoms.length = 15 := intSystem_length (L := 4000)
  have hlen1 : s'.atoms.length = 15 := by rw [l1.len, hlen0]
  have hidx : ∀ l : List ℕ, (l.map cnaDA).map DAtom.idx = l := fun l => by rw [List.map_map]; exact List.map_id l
  obtain ⟨e1, e2, -, e4, e5⟩ := cnaAtomOf_spec (cnaStart cnaSys (some 1000)) (cnaMethod (some 1000)) 0 (cnaOne.map cnaDA) (by decide)
  rw [← m1, mem_eq_getElem _ _ (show 0 < s'.atoms.length by omega)] at e1 e2 e4 e5
  have hsig1 : stageSig (cnaStart cnaSys (some 1000)) (cnaMethod (some 1000)) 1 (cnaOne.map cnaDA) =
      cnaSignatures (fun i j => decide (intSq cnaPs i j ≤ 729316)) (cnaOne.take 12) := by
    unfold stageSig
    have hc : stageCut (cnaStart cnaSys (some 1000)) (cnaMethod (some 1000)) 1 (cnaOne.map cnaDA) = 854 := by
      have : stageCut (cnaStart cnaSys (some 1000)) (cnaMethod (some 1000)) 1 (cnaOne.map cnaDA) = 0.854 * 1000 := rfl
      rw [this]; norm_num
    rw [hc, cnaSys_within (cnaStart_like _ _) 854 (by norm_num) 729316 (by norm_num) (by norm_num)]
    rw [← List.map_take, hidx]; rfl
  have hc2 : stageCut (cnaStart cnaSys (some 1000)) (cnaMethod (some 1000)) 2 (cnaOne.map cnaDA) = 1207 := by
    have : stageCut (cnaStart cnaSys (some 1000)) (cnaMethod (some 1000)) 2 (cnaOne.map cnaDA) = 1.207 * 1000 := rfl
    rw [this]; norm_num
  have hsig2 : stageSig (cnaStart cnaSys (some 1000)) (cnaMethod (some 1000)) 2 (cnaOne.map cnaDA) =
      cnaSignatures (fun i j => decide (intSq cnaPs i j ≤ 1456849)) cnaOne := by
    unfold stageSig
    rw [hc2, cnaSys_within (cnaStart_like _ _) 1207 (by norm_num) 1456849 (by norm_num) (by norm_num)]
    rw [← List.map_take, hidx]; rfl
  rw [hsig1, hsig2] at e4 e5
  have hz : struct12 (counts12 (cnaSignatures (fun i j => decide (intSq cnaPs i j ≤ 729316)) (cnaOne.take 12))) = 0 := by
    decide +kernel
  rw [if_pos hz] at e4 e5
  rw [hc2] at e2
  have hnb : (s'.atoms[0].nbrs.map Nb.idx) = cnaOne := by
    rw [e1, ← List.map_take, List.map_map, List.map_map]
    exact List.map_id cnaOne
  have hW : ∀ m ∈ cnaOne, ∀ n ∈ cnaOne, Spec.Within cnaSys 1207 m n ↔ True := by
    intro m hm n hn
    have hr : ∀ m ∈ cnaOne, m < 15 := by decide
    have hm := hr m hm
    have hn := hr n hn
    rw [← withinC_iff (by omega) (by omega), cnaSys_within (s := cnaSys) ⟨rfl, fun _ => rfl, fun _ => rfl, rfl, rfl, rfl, rfl⟩ 1207 (by norm_num) 1456849 (by norm_num) (by norm_num)]
    have := cnaSys_near m hm n hn
    simp only [decide_eq_true_eq, iff_true]
    omega
  have hcw : Spec.commonWith (Spec.Within cnaSys 1207) cnaOne 0 = (Finset.range 14).erase 0 := by
    rw [commonWith_congr hW (by decide)]
    ext j
    simp [Spec.commonWith, cnaOne, and_comm]
  refine ⟨s', r, s'.atoms[0], 1207, (13, 78, 12, 8), h1, List.getElem?_eq_getElem _, e2, ?_, ?_, rfl, ?_, ?_⟩
  · rw [e4]; decide +kernel
  · rw [e5]; decide +kernel
  · rw [hnb, hcw]; rfl
  · intro j hj
    rw [hnb] at hj ⊢
    have hj' : j ∈ Spec.commonWith (fun _ _ => True) cnaOne 0 := by rw [← commonWith_congr hW (by decide)]; exact hj
    rw [bondsOf_congr hW (by decide) hj']
    have hcw' : Spec.commonWith (fun _ _ => True) cnaOne 0 = (Finset.range 14).erase 0 := by
      rw [← commonWith_congr hW (by decide)]; exact hcw
    unfold Spec.bondsOf
    rw [hcw'] at hj' ⊢
    refine (congrArg Finset.card (?_ : _ = ((Finset.range 14).erase 0).erase j)).trans ?_
    · ext m
      simp only [Finset.mem_filter, Finset.mem_erase, and_true]
      tauto
    · rw [Finset.card_erase_of_mem hj']
      rfl

theorem byNumberLoop_temp (σ : StdSort) (s : System) (nns : ℕ) (is : List ℕ) (m : Mem) (k : ℕ) :
    ((System.byNumberLoop σ s nns false is m).1 k).temp.length = (m k).temp.length := by
  induction is generalizing m with
  | nil => rfl
  | cons i is ih =>
    unfold System.byNumberLoop
    by_cases h1 : (m i).temp.length < nns
    · rw [if_pos h1]
    · rw [if_neg h1]
      dsimp only
      rw [ih]
      by_cases hk : k = i
      · subst hk
        rw [Function.update_self]
        exact (σ.perm _).length_eq
      · rw [Function.update_of_ne hk]

theorem cands_length_le (s : System) (u : Bool) (p : ℝ) {k : ℕ} (hk : k < s.atoms.length) :
    (cands (s.candSettings u p) k).length ≤ Spec.countWithin s (s.guessDist p) k := by
  have h : (cands (s.candSettings false p) k).length = Spec.countWithin s (s.guessDist p) k :=
    cands_length (s := s.candSettings false p) rfl hk
  rw [← h]
  unfold cands
  rw [List.length_map, List.length_map]
  refine (List.monotone_filter_right _ fun j hj => ?_).length_le
  simp only [decide_eq_true_eq] at hj ⊢
  refine ⟨hj.1, ?_⟩
  have hj := hj.2
  cases u
  · exact hj
  · exact le_of_lt hj

/-- Where `calculate_cna` fails: if a lattice constant is given and some atom has fewer than 14 atoms
within the search radius, the candidate list is read beyond its end. -/
theorem C28_cna_overrun (σ : StdSort) (s : System) (L R : ℝ) (hR : Spec.SearchRadius s 3 R)
    (hfresh : ∀ a ∈ s.atoms, a.temp = []) (hok : Spec.SearchExact s s.usecells 3)
    (k : ℕ) (hk : k < s.atoms.length) (hfew : Spec.countWithin s R k < 14) :
    s.calculateCna σ (some L) = .error .oob := by
  rw [calculateCna_eq, ccalculateCna_eq]
  obtain ⟨f1, f2, f3, f4, -⟩ := cnaStart_frame s (some L)
  set s1 := (cnaStart s (some L)).resetStruct with hs1
  have l1 : Like s s1 := f4.trans (like_resetStruct _)
  have hlc : Like (s.candSettings s.usecells 3) ((({ s1 with voronoiused := false } : System)).guess 3) :=
    ⟨l1.len, l1.pos, l1.type, l1.box, l1.rot, l1.rotinv, l1.tri⟩
  have hgd : ((({ s1 with voronoiused := false } : System)).guess 3).neighbordistance =
    (s.candSettings s.usecells 3).neighbordistance := l1.guessDist 3
  obtain ⟨T, hT, hf⟩ := fillTemp_spec { s1 with voronoiused := false } 3 (hlc.candOK rfl hgd (candOK_of hok))
  set g1 := ((({ s1 with voronoiused := false } : System)).guess 3).ofMem fun k => { s1.mem k with temp := (s1.mem k).temp ++ T k } with hg1
  have hrun : s1.neighborsByNumber σ 3 14 false = .ok (g1.ofMem (System.byNumberLoop σ g1 14 false (List.range g1.atoms.length) g1.mem).1,
      (System.byNumberLoop σ g1 14 false (List.range g1.atoms.length) g1.mem).2) := by
    unfold System.neighborsByNumber
    change Except.bind (({ s1 with voronoiused := false } : System).fillTemp 3) _ = _
    rw [hf]; rfl
  rw [hrun]
  set g2 := g1.ofMem (System.byNumberLoop σ g1 14 false (List.range g1.atoms.length) g1.mem).1 with hg2
  change g2.cnaRest 1 = _
  have hlen1 : s1.atoms.length = s.atoms.length := l1.len
  have hleng1 : g1.atoms.length = s.atoms.length := (ofMem_length _ _).trans hlen1
  have hleng2 : g2.atoms.length = s.atoms.length := (ofMem_length _ _).trans hleng1
  have htemp : (g2.mem k).temp.length < 14 := by
    have e1 : g2.mem k = (System.byNumberLoop σ g1 14 false (List.range g1.atoms.length) g1.mem).1 k :=
      ofMem_mem _ _ _ (by omega)
    rw [e1, byNumberLoop_temp]
    have e2 : g1.mem k = { s1.mem k with temp := (s1.mem k).temp ++ T k } :=
      ofMem_mem ((({ s1 with voronoiused := false } : System)).guess 3) _ k (by rw [← hlen1] at hk; exact hk)
    have e3 : (s1.mem k).temp = [] := by
      have hk1 : k < (cnaStart s (some L)).atoms.length := by rw [f1]; exact hk
      have : (s1.mem k).temp = (s.mem k).temp := by
        have h' : (s1.mem k).temp = ((cnaStart s (some L)).mem k).temp := by
          simp [hs1, System.mem, System.resetStruct, hk1]
        rw [h']; rfl
      rw [this, mem_eq_getElem _ _ hk]
      exact hfresh _ (List.getElem_mem hk)
    rw [e2, e3, List.nil_append]
    have hTl := (hT k (by rw [← hlen1] at hk; exact hk)).length_eq
    rw [hTl, hlc.cands rfl hgd k]
    refine lt_of_le_of_lt ?_ hfew
    rw [(searchRadius_iff _ _ _).1 hR]
    exact cands_length_le s s.usecells 3 hk
  rw [cnaRest_eq, if_neg]
  rintro ⟨-, h2⟩
  have h2 : ∀ a ∈ g2.atoms, g2.TempOk 14 a := h2
  have := (h2 (g2.mem k) (by rw [mem_eq_getElem _ _ (by omega)]; exact List.getElem_mem _)).1
  omega

/-- Two atoms are too few. -/
example (σ : StdSort) : twoAtoms.calculateCna σ (some 4) = .error .oob := by
  refine C28_cna_overrun σ twoAtoms 4 _ ((searchRadius_iff _ _ _).2 rfl) ?_ (exact_small) 0 (by decide) ?_
  · intro a ha
    simp [twoAtoms] at ha
    rcases ha with rfl | rfl <;> rfl
  · have h := cands_length (s := twoAtoms.candSettings false 3) rfl (k := 0) (by decide : 0 < 2)
    have h' : (cands (twoAtoms.candSettings false 3) 0).length = Spec.countWithin twoAtoms (twoAtoms.guessDist 3) 0 := h
    rw [← h']
    refine lt_of_le_of_lt (?_ : _ ≤ 2) (by norm_num)
    unfold cands
    rw [List.length_map]
    exact (List.length_filter_le _ _).trans (by simp [System.candSettings, twoAtoms])

end Pyscal
