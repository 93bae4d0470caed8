import Verif.Lemmas.CnaSpec
import Verif.Lemmas.CnaCounts
import Verif.Lemmas.Nearest

/-! The passes of the diamond identification. -/

namespace Pyscal

open System

/-- Both memories have the same atoms labelled 5 and the same labelled 8. -/
def SameDia (m m' : Mem) : Prop :=
  ∀ k, ((m' k).struct = 5 ↔ (m k).struct = 5) ∧ ((m' k).struct = 8 ↔ (m k).struct = 8)

theorem firstDiamond_congr {m m' : Mem} (h : SameDia m m') (ns : List ℕ) (c x old : ℤ) :
    firstDiamond m' ns c x old = firstDiamond m ns c x old := by
  induction ns with
  | nil => rfl
  | cons n ns ih =>
    unfold firstDiamond
    simp only [(h n).1, (h n).2, ih]

theorem firstDiamond_range (m : Mem) (ns : List ℕ) (c x old : ℤ) :
    firstDiamond m ns c x old = c ∨ firstDiamond m ns c x old = x ∨ firstDiamond m ns c x old = old := by
  induction ns with
  | nil => exact .inr (.inr rfl)
  | cons n ns ih =>
    unfold firstDiamond
    split_ifs
    · exact .inl rfl
    · exact .inr (.inl rfl)
    · exact ih

/-- The first atom labelled 5 or 8 in the list, if any, decides. -/
theorem firstDiamond_spec (m : Mem) (ns : List ℕ) (c x old : ℤ) :
    (∃ l1 n l2, ns = l1 ++ n :: l2 ∧ (∀ y ∈ l1, (m y).struct ≠ 5 ∧ (m y).struct ≠ 8) ∧
      ((m n).struct = 5 ∧ firstDiamond m ns c x old = c ∨ (m n).struct = 8 ∧ firstDiamond m ns c x old = x)) ∨
    ((∀ y ∈ ns, (m y).struct ≠ 5 ∧ (m y).struct ≠ 8) ∧ firstDiamond m ns c x old = old) := by
  induction ns with
  | nil => exact .inr ⟨fun y hy => (by cases hy), rfl⟩
  | cons n ns ih =>
    by_cases h5 : (m n).struct = 5
    · refine .inl ⟨[], n, ns, rfl, fun y hy => (by cases hy), .inl ⟨h5, ?_⟩⟩
      unfold firstDiamond; rw [if_pos h5]
    · by_cases h8 : (m n).struct = 8
      · refine .inl ⟨[], n, ns, rfl, fun y hy => (by cases hy), .inr ⟨h8, ?_⟩⟩
        unfold firstDiamond; rw [if_neg h5, if_pos h8]
      · have e : firstDiamond m (n :: ns) c x old = firstDiamond m ns c x old := by
          rw [firstDiamond, if_neg h5, if_neg h8]
        rw [e]
        rcases ih with ⟨l1, n', l2, e1, e2, e3⟩ | ⟨e1, e2⟩
        · refine .inl ⟨n :: l1, n', l2, by rw [e1]; rfl, fun y hy => ?_, e3⟩
          rcases List.mem_cons.1 hy with rfl | hy
          · exact ⟨h5, h8⟩
          · exact e2 y hy
        · refine .inr ⟨fun y hy => ?_, e2⟩
          rcases List.mem_cons.1 hy with rfl | hy
          · exact ⟨h5, h8⟩
          · exact e1 y hy

open Classical in
/-- A pass over the atoms that labels those satisfying `C` from the list `g`. -/
theorem pass_spec (C : Atom → Prop) (g : Atom → List ℕ) (c x : ℤ) (hc : c ≠ 5 ∧ c ≠ 8) (hx : x ≠ 5 ∧ x ≠ 8)
    (hC : ∀ a, C a → a.struct ≠ 5 ∧ a.struct ≠ 8) (is : List ℕ) (hnd : is.Nodup) (m : Mem) (k : ℕ) :
    (is.foldl (fun m i => if C (m i) then
      Function.update m i { m i with struct := firstDiamond m (g (m i)) c x (m i).struct } else m) m) k =
    if k ∈ is ∧ C (m k) then { m k with struct := firstDiamond m (g (m k)) c x (m k).struct } else m k := by
  induction is generalizing m with
  | nil => simp
  | cons i is ih =>
    obtain ⟨hi, hnd⟩ := List.nodup_cons.1 hnd
    rw [List.foldl_cons, ih hnd]
    by_cases hCi : C (m i)
    · simp only [if_pos hCi]
      set m1 : Mem := Function.update m i { m i with struct := firstDiamond m (g (m i)) c x (m i).struct } with hm1
      have hsd : SameDia m m1 := by
        intro j
        by_cases hj : j = i
        · subst hj
          rw [hm1, Function.update_self]
          dsimp only
          have h0 := hC _ hCi
          rcases firstDiamond_range m (g (m j)) c x (m j).struct with h | h | h <;> rw [h]
          · simp [hc, h0]
          · simp [hx, h0]
          · simp
        · rw [hm1, Function.update_of_ne hj]; exact ⟨Iff.rfl, Iff.rfl⟩
      by_cases hk : k = i
      · subst hk
        rw [if_neg (fun h => hi h.1), if_pos ⟨List.mem_cons_self .., hCi⟩, hm1, Function.update_self]
      · have hmk : m1 k = m k := by rw [hm1, Function.update_of_ne hk]
        rw [hmk]
        simp only [List.mem_cons, hk, false_or, firstDiamond_congr hsd]
    · simp only [if_neg hCi]
      by_cases hk : k = i
      · subst hk
        rw [if_neg (fun h => hi h.1), if_neg (fun h => hCi h.2)]
      · simp only [List.mem_cons, hk, false_or]

open Classical in
theorem diaPass1_spec (is : List ℕ) (hnd : is.Nodup) (m : Mem) (k : ℕ) :
    diaPass1 is m k = if k ∈ is ∧ (m k).struct ≠ 5 ∧ (m k).struct ≠ 8 then
      { m k with struct := firstDiamond m (m k).nn1 6 9 (m k).struct } else m k := by
  have h := pass_spec (fun a => a.struct ≠ 5 ∧ a.struct ≠ 8) Atom.nn1 6 9 (by decide) (by decide) (fun a h => h) is hnd m k
  unfold diaPass1
  convert h

open Classical in
theorem diaPass2_spec (is : List ℕ) (hnd : is.Nodup) (m : Mem) (k : ℕ) :
    diaPass2 is m k = if k ∈ is ∧ (m k).struct ≠ 5 ∧ (m k).struct ≠ 8 ∧ (m k).struct ≠ 6 ∧ (m k).struct ≠ 9 then
      { m k with struct := firstDiamond m ((m k).nbrs.map Nb.idx) 7 10 (m k).struct } else m k := by
  have h := pass_spec (fun a => a.struct ≠ 5 ∧ a.struct ≠ 8 ∧ a.struct ≠ 6 ∧ a.struct ≠ 9) (fun a => a.nbrs.map Nb.idx) 7 10
    (by decide) (by decide) (fun a h => ⟨h.1, h.2.1⟩) is hnd m k
  unfold diaPass2
  convert h

/-- Atom `k` before the passes over the neighbours. -/
noncomputable def diaPre (s : System) (k : ℕ) : Atom :=
  diaRename (s.cn12 (diaCut { s.mem k with
    nbrs := s.diamondNbs k, condition := some 0, nn1 := ((s.mem k).temp.take 4).map DAtom.idx }))

theorem diamondNbs_reset (s : System) (h : ∀ a ∈ s.atoms, s.TempOk 4 a) (k : ℕ) (hk : k < s.atoms.length) :
    s.resetMainNeighbors.diamondNbs k = s.diamondNbs k := by
  have hl := like_resetMain s
  unfold System.diamondNbs
  rw [hl.mkNb, resetMain_mem s k hk]
  congr 1
  refine List.flatMap_congr fun x hx => ?_
  have hok := h _ (by rw [mem_eq_getElem s k hk]; exact List.getElem_mem hk : s.mem k ∈ s.atoms)
  rw [resetMain_mem s x.idx (hok.2 x hx)]

open Classical in
theorem identifyCndia_eq (s : System) :
    s.identifyCndia = if ∀ a ∈ s.atoms, s.TempOk 4 a then
      .ok (s.ofMem (diaPass2 (List.range s.atoms.length) (diaPass1 (List.range s.atoms.length) (s.ofMem (diaPre s)).mem)))
    else .error .oob := by
  have hl := like_resetMain s
  have hlen := hl.len
  have hof : ∀ m : Mem, s.resetMainNeighbors.ofMem m = s.ofMem m := by
    intro m
    unfold System.ofMem
    rw [hlen]; rfl
  unfold System.identifyCndia System.diamondNeighbors
  have hiff := tempOk_reset s 4 (fun _ => True) (fun _ => Iff.rfl)
  simp only [true_imp_iff] at hiff
  dsimp only
  by_cases h : ∀ a ∈ s.atoms, s.TempOk 4 a
  · rw [if_pos (hiff.2 h), if_pos h, hof]
    set m1 : Mem := fun k => { s.mem k with
      nbrs := s.diamondNbs k, condition := some 0, nn1 := ((s.mem k).temp.take 4).map DAtom.idx } with hm1
    have e1 : s.ofMem (fun i => { s.resetMainNeighbors.mem i with
        nn1 := ((s.resetMainNeighbors.mem i).temp.take 4).map DAtom.idx, nbrs := s.resetMainNeighbors.diamondNbs i }) = s.ofMem m1 := by
      refine ofMem_congr fun k hk => ?_
      rw [resetMain_mem s k hk, diamondNbs_reset s h k hk]
    rw [e1]
    have e2 : ({ s.ofMem m1 with atoms := (s.ofMem m1).atoms.map diaCut } : System) = s.ofMem fun k => diaCut (m1 k) :=
      map_ofMem s m1 diaCut
    have hcut : ∀ a : Atom, (diaCut a).pos = a.pos ∧ (diaCut a).type = a.type := by
      intro a; unfold diaCut; split <;> exact ⟨rfl, rfl⟩
    have l2 : Like s (s.ofMem fun k => diaCut (m1 k)) := like_ofMem' fun k => hcut (m1 k)
    have e3 : (s.ofMem fun k => diaCut (m1 k)).identifyCn12 = s.ofMem fun k => s.cn12 (diaCut (m1 k)) := by
      unfold System.identifyCn12
      rw [l2.cn12]
      exact map_ofMem s _ s.cn12
    have e4 : ({ (s.ofMem fun k => s.cn12 (diaCut (m1 k))) with
        atoms := (s.ofMem fun k => s.cn12 (diaCut (m1 k))).atoms.map diaRename } : System) = s.ofMem (diaPre s) :=
      map_ofMem s _ diaRename
    have key : ∀ X Y Z : System, X = (s.ofMem fun k => diaCut (m1 k)) → Y = X.identifyCn12 →
        Z = { Y with atoms := Y.atoms.map diaRename } →
        Z.ofMem (diaPass2 (List.range Z.atoms.length) (diaPass1 (List.range Z.atoms.length) Z.mem)) =
          s.ofMem (diaPass2 (List.range s.atoms.length) (diaPass1 (List.range s.atoms.length) (s.ofMem (diaPre s)).mem)) := by
      intro X Y Z hX hY hZ
      have hZ : Z = s.ofMem (diaPre s) := by rw [hZ, hY, hX, e3, e4]
      rw [hZ, ofMem_ofMem, ofMem_length]
    exact congrArg Except.ok (key _ _ _ e2 rfl rfl)
  · rw [if_neg (fun h' => h (hiff.1 h')), if_neg h]
    rfl

/-- The first atom labelled 5 or 8 in the list exists and is labelled `c`. -/
def FirstDia (m : Mem) (L : List ℕ) (c : ℤ) : Prop :=
  ∃ l1 n l2, L = l1 ++ n :: l2 ∧ (∀ y ∈ l1, ¬ ((m y).struct = 5 ∨ (m y).struct = 8)) ∧ (m n).struct = c

theorem firstDia_cons {m : Mem} {n : ℕ} {ns : List ℕ} {c : ℤ} :
    FirstDia m (n :: ns) c ↔ (m n).struct = c ∨ (¬ ((m n).struct = 5 ∨ (m n).struct = 8) ∧ FirstDia m ns c) := by
  constructor
  · rintro ⟨l1, x, l2, e, h1, h2⟩
    cases l1 with
    | nil =>
      obtain ⟨rfl, rfl⟩ := List.cons.inj e
      exact .inl h2
    | cons y l1 =>
      obtain ⟨rfl, rfl⟩ := List.cons.inj e
      exact .inr ⟨h1 _ (List.mem_cons_self ..), l1, x, l2, rfl, fun z hz => h1 z (List.mem_cons_of_mem _ hz), h2⟩
  · rintro (h | ⟨h, l1, x, l2, rfl, h1, h2⟩)
    · exact ⟨[], n, ns, rfl, fun y hy => (by cases hy), h⟩
    · refine ⟨n :: l1, x, l2, rfl, fun y hy => ?_, h2⟩
      rcases List.mem_cons.1 hy with rfl | hy
      · exact h
      · exact h1 y hy

theorem firstDiamond_iff (m : Mem) (ns : List ℕ) (c x old : ℤ) (hcx : c ≠ x) (hc : c ≠ old) (hx : x ≠ old) :
    (firstDiamond m ns c x old = c ↔ FirstDia m ns 5) ∧ (firstDiamond m ns c x old = x ↔ FirstDia m ns 8) ∧
    (firstDiamond m ns c x old = old ↔ ∀ y ∈ ns, ¬ ((m y).struct = 5 ∨ (m y).struct = 8)) := by
  induction ns with
  | nil =>
    have h : ∀ d, ¬ FirstDia m [] d := by
      rintro d ⟨l1, n, l2, e, -⟩
      cases l1 <;> cases e
    simp [firstDiamond, h, hc.symm, hx.symm]
  | cons n ns ih =>
    rw [firstDia_cons, firstDia_cons]
    unfold firstDiamond
    by_cases h5 : (m n).struct = 5
    · simp [h5, hcx, hc]
    · by_cases h8 : (m n).struct = 8
      · simp [h8, hcx.symm, hx]
      · simp only [h5, h8, if_false, ih, false_or, not_false_eq_true, true_and, List.forall_mem_cons]

theorem firstDia_congr {m m' : Mem} (h : SameDia m m') (ns : List ℕ) :
    (FirstDia m' ns 5 ↔ FirstDia m ns 5) ∧ (FirstDia m' ns 8 ↔ FirstDia m ns 8) := by
  unfold FirstDia
  simp only [fun k => (h k).1, fun k => (h k).2]
  exact ⟨trivial, trivial⟩

theorem sameDia_pass {m : Mem} {C : ℕ → Prop} {f : ℕ → ℤ} {m' : Mem}
    (hC : ∀ k, C k → (m k).struct ≠ 5 ∧ (m k).struct ≠ 8) (hf : ∀ k, C k → f k ≠ 5 ∧ f k ≠ 8)
    (h1 : ∀ k, C k → (m' k).struct = f k) (h2 : ∀ k, ¬ C k → m' k = m k) : SameDia m m' := by
  intro k
  by_cases hk : C k
  · rw [h1 k hk]
    have a := hC k hk
    have b := hf k hk
    simp [a, b]
  · rw [h2 k hk]; exact ⟨Iff.rfl, Iff.rfl⟩

/-- Both passes. -/
theorem passes_spec (is : List ℕ) (hnd : is.Nodup) (m : Mem)
    (hm : ∀ k, (m k).struct = 0 ∨ (m k).struct = 4 ∨ (m k).struct = 5 ∨ (m k).struct = 8) :
    SameDia m (diaPass2 is (diaPass1 is m)) ∧
    (∀ k, diaPass2 is (diaPass1 is m) k = { m k with struct := (diaPass2 is (diaPass1 is m) k).struct }) ∧
    (∀ k, (diaPass2 is (diaPass1 is m) k).struct = 0 ∨
      4 ≤ (diaPass2 is (diaPass1 is m) k).struct ∧ (diaPass2 is (diaPass1 is m) k).struct ≤ 10) ∧
    ∀ k ∈ is, 
      ((diaPass2 is (diaPass1 is m) k).struct = 6 ↔ ¬ ((m k).struct = 5 ∨ (m k).struct = 8) ∧ FirstDia m (m k).nn1 5) ∧
      ((diaPass2 is (diaPass1 is m) k).struct = 9 ↔ ¬ ((m k).struct = 5 ∨ (m k).struct = 8) ∧ FirstDia m (m k).nn1 8) ∧
      ((diaPass2 is (diaPass1 is m) k).struct = 7 ↔ ¬ ((m k).struct = 5 ∨ (m k).struct = 8) ∧
        (∀ y ∈ (m k).nn1, ¬ ((m y).struct = 5 ∨ (m y).struct = 8)) ∧ FirstDia m ((m k).nbrs.map Nb.idx) 5) ∧
      ((diaPass2 is (diaPass1 is m) k).struct = 10 ↔ ¬ ((m k).struct = 5 ∨ (m k).struct = 8) ∧
        (∀ y ∈ (m k).nn1, ¬ ((m y).struct = 5 ∨ (m y).struct = 8)) ∧ FirstDia m ((m k).nbrs.map Nb.idx) 8) := by
  classical
  set m1 := diaPass1 is m with hm1
  set m2 := diaPass2 is m1 with hm2
  have p1 := diaPass1_spec is hnd m
  rw [← hm1] at p1
  have p2 := diaPass2_spec is hnd m1
  rw [← hm2] at p2
  have hold : ∀ k, (m k).struct ≠ 5 ∧ (m k).struct ≠ 8 → (m k).struct = 0 ∨ (m k).struct = 4 := by
    intro k hk
    rcases hm k with h | h | h | h
    · exact .inl h
    · exact .inr h
    · exact absurd h hk.1
    · exact absurd h hk.2
  have hf1 : ∀ k, (m k).struct ≠ 5 ∧ (m k).struct ≠ 8 →
      let v := firstDiamond m (m k).nn1 6 9 (m k).struct
      v = 6 ∨ v = 9 ∨ v = 0 ∨ v = 4 := by
    intro k hk
    rcases firstDiamond_range m (m k).nn1 6 9 (m k).struct with h | h | h
    · exact .inl h
    · exact .inr (.inl h)
    · (try dsimp only); rw [h]; exact .inr (.inr (hold k hk))
  have s1 : SameDia m m1 := sameDia_pass (C := fun k => k ∈ is ∧ (m k).struct ≠ 5 ∧ (m k).struct ≠ 8)
    (f := fun k => firstDiamond m (m k).nn1 6 9 (m k).struct) (fun k hk => hk.2)
    (fun k hk => by rcases hf1 k hk.2 with h | h | h | h <;> (try dsimp only) <;> rw [h] <;> decide)
    (fun k hk => by rw [p1, if_pos hk]) (fun k hk => by rw [p1, if_neg hk])
  have h1range : ∀ k, (m1 k).struct = 0 ∨ (m1 k).struct = 4 ∨ (m1 k).struct = 5 ∨ (m1 k).struct = 8 ∨
      (m1 k).struct = 6 ∨ (m1 k).struct = 9 := by
    intro k
    rw [p1]
    split_ifs with hk
    · rcases hf1 k hk.2 with h | h | h | h <;> (try dsimp only) <;> rw [h] <;> decide
    · rcases hm k with h | h | h | h <;> rw [h] <;> decide
  have hf2 : ∀ k, ((m1 k).struct ≠ 5 ∧ (m1 k).struct ≠ 8 ∧ (m1 k).struct ≠ 6 ∧ (m1 k).struct ≠ 9) →
      let v := firstDiamond m1 ((m1 k).nbrs.map Nb.idx) 7 10 (m1 k).struct
      ((m1 k).struct = 0 ∨ (m1 k).struct = 4) ∧ (v = 7 ∨ v = 10 ∨ v = 0 ∨ v = 4) := by
    intro k hk
    have h0 : (m1 k).struct = 0 ∨ (m1 k).struct = 4 := by
      have := h1range k
      omega
    refine ⟨h0, ?_⟩
    rcases firstDiamond_range m1 ((m1 k).nbrs.map Nb.idx) 7 10 (m1 k).struct with h | h | h
    · exact .inl h
    · exact .inr (.inl h)
    · (try dsimp only); rw [h]; exact .inr (.inr h0)
  have s2 : SameDia m1 m2 := sameDia_pass
    (C := fun k => k ∈ is ∧ (m1 k).struct ≠ 5 ∧ (m1 k).struct ≠ 8 ∧ (m1 k).struct ≠ 6 ∧ (m1 k).struct ≠ 9)
    (f := fun k => firstDiamond m1 ((m1 k).nbrs.map Nb.idx) 7 10 (m1 k).struct) (fun k hk => ⟨hk.2.1, hk.2.2.1⟩)
    (fun k hk => by rcases (hf2 k hk.2).2 with h | h | h | h <;> (try dsimp only) <;> rw [h] <;> decide)
    (fun k hk => by rw [p2, if_pos hk]) (fun k hk => by rw [p2, if_neg hk])
  have hsd : SameDia m m2 := fun k => ⟨(s2 k).1.trans (s1 k).1, (s2 k).2.trans (s1 k).2⟩
  have hfr1 : ∀ k, m1 k = { m k with struct := (m1 k).struct } := by
    intro k
    rw [p1]
    split_ifs
    · rfl
    · rfl
  refine ⟨hsd, ?_, ?_, ?_⟩
  · intro k
    have h2 : m2 k = { m1 k with struct := (m2 k).struct } := by
      rw [p2]
      split_ifs
      · rfl
      · rfl
    rw [h2, hfr1 k]
  · intro k
    rw [p2]
    split_ifs with hk
    · rcases (hf2 k hk.2).2 with h | h | h | h <;> (try dsimp only) <;> rw [h] <;> decide
    · rcases h1range k with h | h | h | h | h | h <;> rw [h] <;> decide
  · intro k hk
    by_cases hD : (m k).struct = 5 ∨ (m k).struct = 8
    · have e : (m2 k).struct = (m k).struct := by
        rcases hD with h | h
        · rw [h]; exact (hsd k).1.2 h
        · rw [h]; exact (hsd k).2.2 h
      rw [e]
      rcases hD with h | h <;> simp [h]
    · have hD' : (m k).struct ≠ 5 ∧ (m k).struct ≠ 8 := by
        push Not at hD; exact hD
      have ho := hold k hD'
      obtain ⟨a1, a2, a3⟩ := firstDiamond_iff m (m k).nn1 6 9 (m k).struct (by decide)
        (by rcases ho with h | h <;> rw [h] <;> decide) (by rcases ho with h | h <;> rw [h] <;> decide)
      have e1 : (m1 k).struct = firstDiamond m (m k).nn1 6 9 (m k).struct := by rw [p1, if_pos ⟨hk, hD'⟩]
      by_cases hn : ∀ y ∈ (m k).nn1, ¬ ((m y).struct = 5 ∨ (m y).struct = 8)
      · have e1' := e1.trans (a3.2 hn)
        have n5 : ¬ FirstDia m (m k).nn1 5 := fun h => by
          have := a1.2 h
          rw [a3.2 hn] at this
          rcases ho with h | h <;> rw [h] at this <;> revert this <;> decide
        have n8 : ¬ FirstDia m (m k).nn1 8 := fun h => by
          have := a2.2 h
          rw [a3.2 hn] at this
          rcases ho with h | h <;> rw [h] at this <;> revert this <;> decide
        have hC : k ∈ is ∧ (m1 k).struct ≠ 5 ∧ (m1 k).struct ≠ 8 ∧ (m1 k).struct ≠ 6 ∧ (m1 k).struct ≠ 9 := by
          rw [e1']
          refine ⟨hk, ?_⟩
          rcases ho with h | h <;> rw [h] <;> decide
        have e2 : (m2 k).struct = firstDiamond m1 ((m1 k).nbrs.map Nb.idx) 7 10 (m1 k).struct := by rw [p2, if_pos hC]
        have hnb : (m1 k).nbrs = (m k).nbrs := by rw [hfr1 k]
        rw [e1', firstDiamond_congr s1, hnb] at e2
        obtain ⟨b1, b2, b3⟩ := firstDiamond_iff m ((m k).nbrs.map Nb.idx) 7 10 (m k).struct (by decide)
          (by rcases ho with h | h <;> rw [h] <;> decide) (by rcases ho with h | h <;> rw [h] <;> decide)
        have hr := firstDiamond_range m ((m k).nbrs.map Nb.idx) 7 10 (m k).struct
        rw [← e2] at b1 b2 hr
        refine ⟨?_, ?_, ?_, ?_⟩
        · refine ⟨fun h => ?_, fun h => absurd h.2 n5⟩
          omega
        · refine ⟨fun h => ?_, fun h => absurd h.2 n8⟩
          omega
        · rw [b1]; exact ⟨fun h => ⟨hD, hn, h⟩, fun h => h.2.2⟩
        · rw [b2]; exact ⟨fun h => ⟨hD, hn, h⟩, fun h => h.2.2⟩
      · have hne : firstDiamond m (m k).nn1 6 9 (m k).struct ≠ (m k).struct := fun h => hn (a3.1 h)
        have h69 : (m1 k).struct = 6 ∨ (m1 k).struct = 9 := by
          rw [e1]
          rcases firstDiamond_range m (m k).nn1 6 9 (m k).struct with h | h | h
          · exact .inl h
          · exact .inr h
          · exact absurd h hne
        have e2 : m2 k = m1 k := by
          rw [p2, if_neg]
          rintro ⟨-, -, -, h6, h9⟩
          rcases h69 with h | h
          · exact h6 h
          · exact h9 h
        rw [e2]
        refine ⟨?_, ?_, ?_, ?_⟩
        · rw [e1, a1]; exact ⟨fun h => ⟨hD, h⟩, fun h => h.2⟩
        · rw [e1, a2]; exact ⟨fun h => ⟨hD, h⟩, fun h => h.2⟩
        · refine ⟨fun h => ?_, fun h => absurd h.2.1 hn⟩
          omega
        · refine ⟨fun h => ?_, fun h => absurd h.2.1 hn⟩
          omega

end Pyscal
