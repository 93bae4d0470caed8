import Verif.Lemmas.CnaCounts
import Verif.Lemmas.Nearest

/-! Runs of `calculate_cna` that find enough candidates. -/

namespace Pyscal

/-- The number search without assignment, from any state. -/
theorem byNumber_run (σ : StdSort) (s : System) (p : ℝ) (nns : ℕ) (hok : CandOK (s.candSettings s.usecells p)) :
    ∃ T : ℕ → List DAtom, (∀ k < s.atoms.length, (T k).Perm (cands (s.candSettings s.usecells p) k)) ∧
      ((∀ k < s.atoms.length, nns ≤ ((s.mem k).temp ++ T k).length) →
        ∃ g, s.neighborsByNumber σ p nns false = .ok (g, true) ∧
          ∀ k < s.atoms.length, g.mem k = { s.mem k with temp := σ.sort ((s.mem k).temp ++ T k) }) := by
  set s1 : System := { s with voronoiused := false } with hs1
  have hl : Like (s.candSettings s.usecells p) (s1.guess p) := ⟨rfl, fun _ => rfl, fun _ => rfl, rfl, rfl, rfl, rfl⟩
  have hok1 : CandOK (s1.guess p) := hl.candOK rfl rfl hok
  obtain ⟨T, hT, hf⟩ := fillTemp_spec s1 p hok1
  refine ⟨T, fun k hk => (hT k hk).trans (List.Perm.of_eq (hl.cands rfl rfl k)), fun hall => ?_⟩
  set g1 : System := (s1.guess p).ofMem fun k => { s1.mem k with temp := (s1.mem k).temp ++ T k } with hg1
  have hlen : g1.atoms.length = s.atoms.length := ofMem_length _ _
  have hmem : ∀ k < s.atoms.length, g1.mem k = { s.mem k with temp := (s.mem k).temp ++ T k } :=
    fun k hk => ofMem_mem (s1.guess p) _ k hk
  obtain ⟨b1, b2⟩ := byNumberLoop_spec σ g1 nns false (List.range g1.atoms.length) List.nodup_range g1.mem
  have htrue : (System.byNumberLoop σ g1 nns false (List.range g1.atoms.length) g1.mem).2 = true := by
    rw [b1]
    intro i hi
    rw [List.mem_range, hlen] at hi
    rw [hmem i hi]
    exact hall i hi
  refine ⟨g1.ofMem (System.byNumberLoop σ g1 nns false (List.range g1.atoms.length) g1.mem).1, ?_, ?_⟩
  · unfold System.neighborsByNumber
    change Except.bind (s1.fillTemp p) _ = _
    rw [hf]
    change Except.ok (g1.ofMem _, (System.byNumberLoop σ g1 nns false (List.range g1.atoms.length) g1.mem).2) = _
    rw [htrue]
  · intro k hk
    rw [ofMem_mem g1 _ k (by rw [hlen]; exact hk), b2 htrue k, if_pos (List.mem_range.2 (by rw [hlen]; exact hk)), hmem k hk]
    rfl

/-- Atom `k` after `calculate_cna`, with sorted candidates `t`. -/
noncomputable def cnaAtomOf (s : System) (method k : ℕ) (t : List DAtom) : Atom :=
  s.cn14 (stageAtom s method 2 k (s.cn12 (stageAtom s method 1 k { s.mem k with struct := 0, temp := t })))

theorem cn14_range (s : System) (a : Atom) (h : 0 ≤ a.struct ∧ a.struct < 5) :
    0 ≤ (s.cn14 a).struct ∧ (s.cn14 a).struct < 5 := by
  unfold System.cn14
  split_ifs with h0
  · dsimp only
    rcases struct14_range (counts14 (s.signatures a)) with h2 | h2 <;> rw [h2] <;> decide
  · exact h

theorem cn12_range (s : System) (a : Atom) (h : 0 ≤ a.struct ∧ a.struct < 5) :
    0 ≤ (s.cn12 a).struct ∧ (s.cn12 a).struct < 5 := by
  unfold System.cn12
  split_ifs with h0
  · dsimp only
    rcases struct12_range (counts12 (s.signatures a)) with h2 | h2 | h2 | h2 <;> rw [h2] <;> decide
  · exact h

theorem cnaAtomOf_range (s : System) (method k : ℕ) (t : List DAtom) :
    0 ≤ (cnaAtomOf s method k t).struct ∧ (cnaAtomOf s method k t).struct < 5 := by
  unfold cnaAtomOf
  apply cn14_range
  rw [(stageAtom_frame ..).2.2.2.1]
  apply cn12_range
  rw [(stageAtom_frame ..).2.2.2.1]
  exact (by decide : (0 : ℤ) ≤ 0 ∧ (0 : ℤ) < 5)

theorem cnaAtom_eq {s g : System} (h : Like s g) (hc : g.latticeConstant = s.latticeConstant) (method k : ℕ) (t : List DAtom)
    (hm : g.mem k = { s.mem k with struct := 0, temp := t }) : cnaAtom g method k = cnaAtomOf s method k t := by
  unfold cnaAtom cnaAtomOf
  rw [h.cn14, h.cn12, h.stageAtom hc, hm]

theorem cna_run (σ : StdSort) (s : System) (method : ℕ) (hok : CandOK (s.candSettings s.usecells 3))
    (hreal : s.realNop ≤ s.atoms.length) :
    ∃ T : ℕ → List DAtom, (∀ k < s.atoms.length, (T k).Perm (cands (s.candSettings s.usecells 3) k)) ∧
      ((∀ k < s.atoms.length, 14 ≤ ((s.mem k).temp ++ T k).length) →
        (∀ k < s.atoms.length, ∀ x ∈ (s.mem k).temp, x.idx < s.atoms.length) →
        ∃ s' r, s.ccalculateCna σ method = .ok (s', r) ∧ Like s s' ∧ s'.realNop = s.realNop ∧ s'.usecells = s.usecells ∧
          s'.latticeConstant = s.latticeConstant ∧
          ∀ k < s.atoms.length, s'.mem k = cnaAtomOf s method k (σ.sort ((s.mem k).temp ++ T k))) := by
  set s0 := s.resetStruct with hs0
  have hl0 : Like s s0 := like_resetStruct s
  have hlen0 : s0.atoms.length = s.atoms.length := hl0.len
  have hm0 : ∀ k < s.atoms.length, s0.mem k = { s.mem k with struct := 0 } := fun k hk => by
    simp [hs0, System.mem, System.resetStruct, hk]
  have hlc : Like (s.candSettings s.usecells 3) (s0.candSettings s0.usecells 3) :=
    ⟨hl0.len, hl0.pos, hl0.type, hl0.box, hl0.rot, hl0.rotinv, hl0.tri⟩
  have hgd : (s0.candSettings s0.usecells 3).neighbordistance = (s.candSettings s.usecells 3).neighbordistance := hl0.guessDist 3
  obtain ⟨T, hT, hrun⟩ := byNumber_run σ s0 3 14 (hlc.candOK rfl hgd hok)
  have hT' : ∀ k < s.atoms.length, (T k).Perm (cands (s.candSettings s.usecells 3) k) := fun k hk =>
    (hT k (by rw [hlen0]; exact hk)).trans (List.Perm.of_eq (hlc.cands rfl hgd k))
  refine ⟨T, hT', fun hall hidx => ?_⟩
  obtain ⟨g, hg, hgm⟩ := hrun fun k hk => by
    rw [hlen0] at hk
    rw [hm0 k hk]; exact hall k hk
  obtain ⟨fl, -, fr⟩ := byNumber_frame hg
  have hlg : Like s g := hl0.trans (byNumber_like hg)
  have hgm' : ∀ k < s.atoms.length, g.mem k = { s.mem k with struct := 0, temp := σ.sort ((s.mem k).temp ++ T k) } := by
    intro k hk
    rw [hgm k (by rw [hlen0]; exact hk), hm0 k hk]
  have hcl : g.latticeConstant = s.latticeConstant := by rw [fr]; rfl
  have htemp : ∀ style, StageReady g method style := by
    intro style
    have key : ∀ a ∈ g.atoms, g.TempOk (stageNum style) a := by
      intro a ha
      obtain ⟨k, hk, rfl⟩ := List.getElem_of_mem ha
      have hk' : k < s.atoms.length := hlg.len ▸ hk
      rw [← mem_eq_getElem g k hk, hgm' k hk']
      refine ⟨?_, fun x hx => ?_⟩
      · dsimp only
        rw [(σ.perm _).length_eq]
        have := hall k hk'
        unfold stageNum; split <;> omega
      · have hx := List.mem_of_mem_take hx
        rw [hlg.len]
        rcases List.mem_append.1 ((σ.perm _).mem_iff.1 hx) with h | h
        · exact hidx k hk' x h
        · exact (cands_mem.1 ((hT' k hk').mem_iff.1 h)).1
    unfold StageReady
    split
    · exact key
    · exact fun a ha _ => key a ha
  set s' := g.ofMem (cnaAtom g method) with hs'
  have hs'm : ∀ k < s.atoms.length, s'.mem k = cnaAtomOf s method k (σ.sort ((s.mem k).temp ++ T k)) := by
    intro k hk
    rw [hs', ofMem_mem g _ k (by rw [hlg.len]; exact hk)]
    exact cnaAtom_eq hlg hcl method k _ (hgm' k hk)
  have hs'l : s'.atoms.length = s.atoms.length := (ofMem_length _ _).trans hlg.len
  have hs'r : s'.realNop = s.realNop := by
    have : s'.realNop = g.realNop := rfl
    rw [this, fr]; rfl
  obtain ⟨r, hr⟩ := tally_succeeds (s := s') (n := 5) (by rw [hs'r, hs'l]; exact hreal) (by
    intro a ha
    obtain ⟨k, hk, rfl⟩ := List.getElem_of_mem ha
    rw [← mem_eq_getElem s' k hk, hs'm k (hs'l ▸ hk)]
    exact cnaAtomOf_range s method k _)
  refine ⟨s', r, ?_, ?_, hs'r, ?_, hcl, hs'm⟩
  · rw [ccalculateCna_eq, hg]
    change g.cnaRest method = _
    rw [cnaRest_eq, if_pos ⟨htemp 1, htemp 2⟩, hr]; rfl
  · refine hlg.trans (like_ofMem' fun k => ?_)
    unfold cnaAtom
    obtain ⟨a1, a2, -⟩ := cn14_frame g (stageAtom g method 2 k (g.cn12 (stageAtom g method 1 k (g.mem k))))
    obtain ⟨b1, b2, -⟩ := stageAtom_frame g method 2 k (g.cn12 (stageAtom g method 1 k (g.mem k)))
    obtain ⟨c1, c2, -⟩ := cn12_frame g (stageAtom g method 1 k (g.mem k))
    obtain ⟨d1, d2, -⟩ := stageAtom_frame g method 1 k (g.mem k)
    exact ⟨by rw [a1, b1, c1, d1], by rw [a2, b2, c2, d2]⟩
  · have : s'.usecells = g.usecells := rfl
    rw [this, fr]; rfl

/-- Cutoff of a stage. -/
noncomputable def stageCut (s : System) (method style : ℕ) (t : List DAtom) : ℝ :=
  if method = 1 then (if style = 1 then 0.854 else 1.207) * s.latticeConstant else System.acnaCut style t

open Classical in
/-- The relation "within `c`" of the code. -/
noncomputable def withinC (s : System) (c : ℝ) (m n : ℕ) : Bool := decide (s.distOf m n ≤ c)

/-- Signatures found by a stage. -/
noncomputable def stageSig (s : System) (method style : ℕ) (t : List DAtom) : List (ℕ × ℕ × ℕ × ℕ) :=
  cnaSignatures (withinC s (stageCut s method style t)) ((t.take (stageNum style)).map DAtom.idx)

theorem signatures_stage (s : System) (method style k : ℕ) (a : Atom) (ht : 14 ≤ a.temp.length) (b : Atom)
    (hn : b.nbrs = (stageAtom s method style k a).nbrs) (hc : b.cutoff = (stageAtom s method style k a).cutoff) :
    b.nbrs = (a.temp.take (stageNum style)).map (fun x => s.mkNb k x.idx) ∧
    b.cutoff = some (stageCut s method style a.temp) ∧
    s.signatures b = stageSig s method style a.temp := by
  have hst : stageOf s method style k a.temp =
      some (stageCut s method style a.temp, (a.temp.take (stageNum style)).map fun x => s.mkNb k x.idx) := by
    unfold stageOf stageCut
    by_cases hm : method = 1
    · simp only [hm, if_true]
    · have : stageNum style ≤ a.temp.length := by unfold stageNum; split <;> omega
      simp only [hm, if_false, this, if_true]
  have e : stageAtom s method style k a = { a with
      condition := some 0, cutoff := some (stageCut s method style a.temp),
      nbrs := (a.temp.take (stageNum style)).map fun x => s.mkNb k x.idx } := by
    unfold stageAtom; rw [hst]
  rw [e] at hn hc
  refine ⟨hn, hc, ?_⟩
  unfold System.signatures stageSig
  rw [hn, List.map_map]
  have hw : s.within b = withinC s (stageCut s method style a.temp) := by
    funext m n
    unfold System.within withinC
    rw [hc]
    simp
  rw [hw]
  rfl

/-- What an atom carries after `calculate_cna`. -/
theorem cnaAtomOf_spec (s : System) (method k : ℕ) (t : List DAtom) (ht : 14 ≤ t.length) :
    (cnaAtomOf s method k t).nbrs = (t.take 14).map (fun x => s.mkNb k x.idx) ∧
    (cnaAtomOf s method k t).cutoff = some (stageCut s method 2 t) ∧
    (cnaAtomOf s method k t).temp = t ∧
    (cnaAtomOf s method k t).struct = (if struct12 (counts12 (stageSig s method 1 t)) = 0 then
      struct14 (counts14 (stageSig s method 2 t)) else struct12 (counts12 (stageSig s method 1 t))) ∧
    (cnaAtomOf s method k t).cna = (if struct12 (counts12 (stageSig s method 1 t)) = 0 then
      stageSig s method 2 t else stageSig s method 1 t) := by
  unfold cnaAtomOf
  set a0 : Atom := { s.mem k with struct := 0, temp := t } with ha0
  set a1 := stageAtom s method 1 k a0 with ha1
  obtain ⟨-, -, f3, f4, -⟩ := stageAtom_frame s method 1 k a0
  obtain ⟨-, -, s1⟩ := signatures_stage s method 1 k a0 ht a1 rfl rfl
  have f4 : a1.struct = 0 := f4
  have f3 : a1.temp = t := f3
  have e1 : s.cn12 a1 = { a1 with cna := stageSig s method 1 t, struct := struct12 (counts12 (stageSig s method 1 t)) } := by
    unfold System.cn12
    rw [if_pos f4]
    dsimp only
    rw [s1]
  rw [e1]
  set a2 : Atom := { a1 with cna := stageSig s method 1 t, struct := struct12 (counts12 (stageSig s method 1 t)) } with ha2
  set a3 := stageAtom s method 2 k a2 with ha3
  obtain ⟨-, -, g3, g4, g5⟩ := stageAtom_frame s method 2 k a2
  have h2t : a2.temp = t := f3
  obtain ⟨n1, n2, s2⟩ := signatures_stage s method 2 k a2 (by rw [h2t]; exact ht) a3 rfl rfl
  rw [h2t] at n1 n2 s2
  have g4 : a3.struct = struct12 (counts12 (stageSig s method 1 t)) := g4
  have g5 : a3.cna = stageSig s method 1 t := g5
  have g3 : a3.temp = t := g3.trans h2t
  obtain ⟨-, -, c3, c4, c5⟩ := cn14_frame s a3
  refine ⟨c4.trans n1, c5.trans n2, c3.trans g3, ?_, ?_⟩
  · unfold System.cn14
    rw [g4, s2]
    split_ifs
    · rfl
    · exact g4
  · unfold System.cn14
    rw [g4, s2]
    split_ifs
    · rfl
    · exact g5

end Pyscal
