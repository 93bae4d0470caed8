import Verif.Lemmas.Frame
import Verif.Props.Misc

/-! What the order parameters, structure identification and Voronoi search leave unchanged. -/

namespace Pyscal

open Spec (identity)

/-! ### Order parameters -/

theorem Kept.ccalculateQ {s g : System} {ls : List ℕ} (h : s.ccalculateQ ls = .ok g) : Kept s g := by
  unfold System.ccalculateQ at h
  split_ifs at h
  obtain rfl := Except.ok.inj h
  exact Kept.map s fun a => foldl_identity s.calcQ1 (fun _ _ => rfl) _ _

theorem Kept.ccalculateAq {s g : System} {ls : List ℕ} (h : s.ccalculateAq ls = .ok g) : Kept s g := by
  unfold System.ccalculateAq at h
  split_ifs at h
  obtain rfl := Except.ok.inj h
  exact Kept.map s fun a => foldl_identity s.calcAq1 (fun _ _ => rfl) _ _

theorem Kept.frenkel {s g : System} (h : s.frenkelNumbers = .ok g) : Kept s g := by
  unfold System.frenkelNumbers at h
  split_ifs at h
  obtain rfl := Except.ok.inj h
  exact Kept.map s fun _ => rfl

theorem Kept.solidAtoms (s : System) : Kept s s.findSolidAtoms :=
  Kept.map s fun a => by unfold System.solid1; split_ifs <;> rfl

theorem setCluster_identity {m m' : Mem} (h : ∀ k, identity (m k) = identity (m' k)) (i : ℕ) (c : ℤ) :
    ∀ k, identity (m.setCluster i c k) = identity (m' k) := update_identity h rfl

theorem harvest_identity (fuel ti : ℕ) (ci : ℤ) (m m' r : Mem) (h : ∀ k, identity (m k) = identity (m' k))
    (hr : harvest fuel ti ci m = .ok r) : ∀ k, identity (r k) = identity (m' k) := by
  induction fuel generalizing ti m r with
  | zero => cases hr
  | succ fuel ih =>
    unfold harvest at hr
    generalize (m ti).nbrs = l at hr
    induction l generalizing m with
    | nil => obtain rfl := Except.ok.inj hr; exact h
    | cons x l il =>
      rw [List.foldlM_cons] at hr
      split_ifs at hr
      · cases hh : harvest fuel x.idx ci (m.setCluster x.idx ci) with
        | error e => rw [hh] at hr; cases hr
        | ok v =>
          rw [hh] at hr
          exact il v (ih _ _ _ (setCluster_identity h _ _) hh) hr
      · exact il m h hr
      · exact il m h hr

theorem clusterLoop_identity (fuel : ℕ) (is : List ℕ) (ci : ℤ) (m m' r : Mem) (h : ∀ k, identity (m k) = identity (m' k))
    (hr : clusterLoop fuel is ci m = .ok r) : ∀ k, identity (r k) = identity (m' k) := by
  induction is generalizing ci m with
  | nil => obtain rfl := Except.ok.inj hr; exact h
  | cons ti is ih =>
    unfold clusterLoop at hr
    split_ifs at hr
    · exact ih _ _ h hr
    · exact ih _ _ h hr
    · cases hh : harvest fuel ti (ci + 1) (m.setCluster ti (ci + 1)) with
      | error e => rw [hh] at hr; cases hr
      | ok v =>
        rw [hh] at hr
        exact ih _ v (harvest_identity _ _ _ _ _ _ (setCluster_identity h _ _) hh) hr
    · exact ih _ _ h hr

theorem Kept.clusterStart (s : System) (c : ℝ) : Kept s (s.clusterStart c) :=
  Kept.mapIdx s fun i a => by dsimp only; split_ifs <;> rfl

theorem Kept.findClusters {s g : System} {c : ℝ} (h : s.findClusters c = .ok g) : Kept s g := by
  unfold System.findClusters at h
  split_ifs at h
  dsimp only at h
  cases hl : clusterLoop ((s.clusterStart c).atoms.length + 1) (List.range (s.clusterStart c).realNop) 0 (s.clusterStart c).mem with
  | error e => rw [hl] at h; cases h
  | ok m =>
    rw [hl] at h
    obtain rfl := Except.ok.inj h
    exact (Kept.clusterStart s c).trans (Kept.ofMem _ fun i _ => clusterLoop_identity _ _ _ _ _ _ (fun _ => rfl) hl i)

theorem Kept.largest {s : System} {r : System × ℕ} (h : s.largestCluster = .ok r) : Kept s r.1 := by
  unfold System.largestCluster at h
  split_ifs at h
  obtain rfl := Except.ok.inj h
  have h0 : ∀ c : ℤ, Kept s { s with maxclusterid := c } := fun c => ⟨rfl, rfl, rfl, rfl, rfl, rfl, rfl, rfl, rfl, rfl⟩
  exact (h0 _).trans (Kept.mapIdx _ fun i a => by split_ifs <;> rfl)

theorem entropyLoop_identity (sg r0 r1 h kb : ℝ) (l : List Atom) (rho : Option ℝ) :
    (entropyLoop sg r0 r1 h kb rho l).map identity = l.map identity := by
  induction l generalizing rho with
  | nil => rfl
  | cons a l ih =>
    unfold entropyLoop
    rw [List.map_cons, List.map_cons, ih]
    rfl

theorem Kept.entropy (s : System) (rm sg r0 h : ℝ) (loc : Bool) (av : System.EntropyAverage) :
    Kept s (System.calculateEntropy rm sg r0 h loc av s).1 := by
  unfold System.calculateEntropy
  cases s.getAtoms with
  | error e => exact Kept.refl s
  | ok l =>
    dsimp only
    generalize (if loc = true then some 0 else fdiv _ _) = rho
    have h0 : Kept s { s with atoms := entropyLoop sg r0 rm h 1 rho s.atoms } :=
      ⟨entropyLoop_identity _ _ _ _ _ _ _, rfl, rfl, rfl, rfl, rfl, rfl, rfl, rfl, rfl⟩
    rcases av with _ | _ | ⟨_ | ra, M, N⟩
    · exact h0
    · dsimp only
      split_ifs
      · exact h0.trans (Kept.map _ fun _ => rfl)
      · exact h0
    · exact h0
    · dsimp only
      split_ifs
      · exact h0.trans (Kept.map _ fun _ => rfl)
      · exact h0

theorem Kept.disorder (s : System) (av : Bool) (q : ℤ) : Kept s (System.calculateDisorder av q s).1 := by
  unfold System.calculateDisorder
  have h0 : Kept s { s with solidq := q.toNat } := ⟨rfl, rfl, rfl, rfl, rfl, rfl, rfl, rfl, rfl, rfl⟩
  by_cases hq : ¬ (2 ≤ q ∧ q ≤ 12)
  · rw [if_pos hq]
    exact Kept.refl s
  · rw [if_neg hq]
    dsimp only
    split_ifs
    · exact h0
    · exact (h0.trans (Kept.map _ (f := System.disorder1 _) fun _ => rfl)).trans (Kept.map _ (f := System.avgDisorder1 _) fun _ => rfl)
    · exact h0.trans (Kept.map _ (f := System.disorder1 _) fun _ => rfl)

theorem Kept.centro {σ : StdSort} {s g : System} {n : ℕ} (h : s.ccalculateCentrosymmetry σ n = .ok g) : Kept s g := by
  unfold System.ccalculateCentrosymmetry at h
  cases hn : s.resetAllNeighbors.neighborsByNumber σ 3 n true with
  | error e => rw [hn] at h; cases h
  | ok r =>
    obtain ⟨t, b⟩ := r
    rw [hn] at h
    simp only [bind, Except.bind] at h
    cases hc : t.checkCapacity with
    | error e => rw [hc] at h; cases h
    | ok t' =>
      obtain rfl := checkCapacity_eq hc
      rw [hc] at h
      dsimp only at h
      cases hm : t'.atoms.mapM (centroAtom σ n) with
      | error e => rw [hm] at h; cases h
      | ok l =>
        rw [hm] at h
        obtain rfl := Except.ok.inj h
        refine ((Kept.resetAll s).trans (Kept.byNumber hn)).trans (Kept.mapM (F := centroAtom σ n) ?_ hm)
        intro a b hab
        unfold centroAtom at hab
        dsimp only at hab
        split_ifs at hab
        obtain rfl := Except.ok.inj hab
        rfl

/-! ### Structure identification -/

theorem Kept.cnaNeighbors {s g : System} {k : ℕ} (h : s.cnaNeighbors k = .ok g) : Kept s g := by
  unfold System.cnaNeighbors at h
  dsimp only at h
  generalize (if k = 1 then 12 else 14 : ℕ) = n at h
  generalize (if k = 1 then 0.854 else 1.207 : ℝ) = f at h
  split_ifs at h
  obtain rfl := Except.ok.inj h
  exact (Kept.resetMain s).trans (Kept.ofMem _ fun i _ => rfl)

theorem Kept.acnaNeighbors {s g : System} {k : ℕ} (h : s.acnaNeighbors k = .ok g) : Kept s g := by
  unfold System.acnaNeighbors at h
  dsimp only at h
  generalize (if k = 1 then 12 else 14 : ℕ) = n at h
  split_ifs at h
  obtain rfl := Except.ok.inj h
  refine (Kept.resetMain s).trans (Kept.ofMem _ fun i _ => ?_)
  split_ifs <;> rfl

theorem Kept.cn12 (s : System) : Kept s s.identifyCn12 := Kept.map s fun a => by unfold System.cn12; split_ifs <;> rfl

theorem Kept.cn14 (s : System) : Kept s s.identifyCn14 := Kept.map s fun a => by unfold System.cn14; split_ifs <;> rfl

theorem Kept.ccna {σ : StdSort} {s : System} {k : ℕ} {r : System × List ℕ} (h : s.ccalculateCna σ k = .ok r) : Kept s r.1 := by
  unfold System.ccalculateCna at h
  cases hn : s.resetStruct.neighborsByNumber σ 3 14 false with
  | error e => rw [hn] at h; cases h
  | ok v =>
    obtain ⟨t, b⟩ := v
    rw [hn] at h
    simp only [bind, Except.bind] at h
    have h0 : Kept s t := (Kept.map s (f := fun a => { a with struct := 0 }) fun _ => rfl).trans (Kept.byNumber hn)
    have key : ∀ (F : System → ℕ → Except Fault System), (∀ t u j, F t j = .ok u → Kept t u) →
        (F t 1 >>= fun u => F u.identifyCn12 2 >>= fun v => v.identifyCn14.tally 5 >>= fun c => pure (v.identifyCn14, c)) = .ok r →
        Kept s r.1 := by
      intro F hF h
      simp only [bind, Except.bind] at h
      cases h1 : F t 1 with
      | error e => rw [h1] at h; cases h
      | ok u =>
        rw [h1] at h
        dsimp only at h
        cases h2 : F u.identifyCn12 2 with
        | error e => rw [h2] at h; cases h
        | ok v =>
          rw [h2] at h
          dsimp only at h
          cases h3 : v.identifyCn14.tally 5 with
          | error e => rw [h3] at h; cases h
          | ok c =>
            rw [h3] at h
            obtain rfl := Except.ok.inj h
            exact (((h0.trans (hF _ _ _ h1)).trans (Kept.cn12 u)).trans (hF _ _ _ h2)).trans (Kept.cn14 v)
    by_cases hk : k = 1
    · rw [if_pos hk] at h
      simp only [if_pos hk] at h
      exact key System.cnaNeighbors (fun _ _ _ => Kept.cnaNeighbors) h
    · rw [if_neg hk] at h
      simp only [if_neg hk] at h
      exact key System.acnaNeighbors (fun _ _ _ => Kept.acnaNeighbors) h

theorem Kept.cna {σ : StdSort} {s : System} {lc : Option ℝ} {r : System × List ℕ} (h : s.calculateCna σ lc = .ok r) : Kept s r.1 := by
  cases lc with
  | none => exact Kept.ccna h
  | some a =>
    have h0 : Kept s { s with latticeConstant := a } := ⟨rfl, rfl, rfl, rfl, rfl, rfl, rfl, rfl, rfl, rfl⟩
    exact h0.trans (Kept.ccna h)

theorem Kept.diamondNeighbors {s g : System} (h : s.diamondNeighbors = .ok g) : Kept s g := by
  unfold System.diamondNeighbors at h
  dsimp only at h
  split_ifs at h
  obtain rfl := Except.ok.inj h
  exact (Kept.resetMain s).trans (Kept.ofMem _ fun i _ => rfl)

theorem diaPass1_identity (is : List ℕ) (m m' : Mem) (h : ∀ k, identity (m k) = identity (m' k)) :
    ∀ k, identity (System.diaPass1 is m k) = identity (m' k) := by
  induction is generalizing m with
  | nil => exact h
  | cons i is ih =>
    unfold System.diaPass1
    rw [List.foldl_cons]
    refine ih _ ?_
    split_ifs
    · exact update_identity h rfl
    · exact h

theorem diaPass2_identity (is : List ℕ) (m m' : Mem) (h : ∀ k, identity (m k) = identity (m' k)) :
    ∀ k, identity (System.diaPass2 is m k) = identity (m' k) := by
  induction is generalizing m with
  | nil => exact h
  | cons i is ih =>
    unfold System.diaPass2
    rw [List.foldl_cons]
    refine ih _ ?_
    split_ifs
    · exact update_identity h rfl
    · exact h

theorem Kept.cdiamond {s : System} {r : System × List ℕ} (h : s.cidentifyDiamond = .ok r) : Kept s r.1 := by
  unfold System.cidentifyDiamond at h
  cases hi : s.resetStruct.identifyCndia with
  | error e => rw [hi] at h; cases h
  | ok t =>
    rw [hi] at h
    simp only [bind, Except.bind] at h
    cases h3 : t.tally 11 with
    | error e => rw [h3] at h; cases h
    | ok c =>
      rw [h3] at h
      obtain rfl := Except.ok.inj h
      unfold System.identifyCndia at hi
      cases hd : s.resetStruct.diamondNeighbors with
      | error e => rw [hd] at hi; cases hi
      | ok u =>
        rw [hd] at hi
        obtain rfl := Except.ok.inj hi
        have h0 : Kept s u := (Kept.map s (f := fun a => { a with struct := 0 }) fun _ => rfl).trans (Kept.diamondNeighbors hd)
        have h1 := h0.trans (Kept.map u (f := System.diaCut) fun a => by unfold System.diaCut; split_ifs <;> rfl)
        have h2 := h1.trans (Kept.cn12 _)
        have h3 := h2.trans (Kept.map _ (f := System.diaRename) fun a => by unfold System.diaRename; split_ifs <;> rfl)
        exact h3.trans (Kept.ofMem _ fun i _ => diaPass2_identity _ _ _ (diaPass1_identity _ _ _ fun _ => rfl) i)

theorem Kept.resetNeighbors (s : System) : Kept s s.resetNeighbors :=
  (Kept.resetAll s).trans ⟨rfl, rfl, rfl, rfl, rfl, rfl, rfl, rfl, rfl, rfl⟩

theorem Kept.diamond {σ : StdSort} {s : System} {b : Bool} {r : System × List ℕ} (h : s.identifyDiamond σ b = .ok r) : Kept s r.1 := by
  unfold System.identifyDiamond at h
  cases b with
  | false => exact Kept.cdiamond h
  | true =>
    rw [if_pos rfl] at h
    cases hf : s.resetNeighbors.findNeighbors σ 0 (.number 3 4 false) with
    | error e => rw [hf] at h; cases h
    | ok t =>
      rw [hf] at h
      exact ((Kept.resetNeighbors s).trans (Kept.findNeighbors hf)).trans (Kept.cdiamond h)

theorem Kept.findDiamond {σ : StdSort} {s g : System} (h : s.findDiamondNeighbors σ = .ok g) : Kept s g := by
  unfold System.findDiamondNeighbors at h
  cases hf : s.resetNeighbors.findNeighbors σ 0 (.number 2 4 false) with
  | error e => rw [hf] at h; cases h
  | ok t =>
    rw [hf] at h
    exact ((Kept.resetNeighbors s).trans (Kept.findNeighbors hf)).trans (Kept.diamondNeighbors h)

theorem zipIdx_mapM_identity {F : Atom × ℕ → Except Fault Atom} {l m : List Atom} (n : ℕ)
    (h : ∀ p b, F p = .ok b → identity b = identity p.1) (hm : (l.zipIdx n).mapM F = .ok m) : m.map identity = l.map identity := by
  induction l generalizing m n with
  | nil => obtain rfl := Except.ok.inj hm; rfl
  | cons a l ih =>
    rw [List.zipIdx_cons, List.mapM_cons] at hm
    cases ha : F (a, n) with
    | error e => rw [ha] at hm; cases hm
    | ok b =>
      cases hl : (l.zipIdx (n + 1)).mapM F with
      | error e => rw [ha, hl] at hm; cases hm
      | ok bs =>
        rw [ha, hl] at hm
        obtain rfl := Except.ok.inj hm
        rw [List.map_cons, List.map_cons, h _ b ha, ih _ hl]

theorem Kept.neighborsVoronoi {T : Tessellation} {s g : System} (h : s.neighborsVoronoi T = .ok g) : Kept s g := by
  unfold System.neighborsVoronoi at h
  dsimp only at h
  have h0 : Kept s { s with voronoiused := true } := ⟨rfl, rfl, rfl, rfl, rfl, rfl, rfl, rfl, rfl, rfl⟩
  cases hv : System.voronoiCells T { s with voronoiused := true } with
  | error e => rw [hv] at h; cases h
  | ok l =>
    rw [hv] at h
    simp only [bind, Except.bind] at h
    have h1 : Kept { s with voronoiused := true } { s with voronoiused := true, atoms := l } := by
      refine ⟨?_, rfl, rfl, rfl, rfl, rfl, rfl, rfl, rfl, rfl⟩
      unfold System.voronoiCells at hv
      refine zipIdx_mapM_identity 0 ?_ hv
      intro p b hb
      dsimp only at hb
      split at hb
      · obtain rfl := Except.ok.inj hb; rfl
      · unfold System.voronoiAtom at hb
        split at hb
        · cases hb
        · split_ifs at hb
          obtain rfl := Except.ok.inj hb; rfl
    generalize hc : System.checkCapacity _ = c at h
    cases c with
    | error e => cases h
    | ok t =>
      have ht := checkCapacity_eq hc
      dsimp only at h
      split_ifs at h
      obtain rfl := Except.ok.inj h
      subst ht
      exact (h0.trans h1).trans (Kept.map _ fun _ => rfl)

end Pyscal
