import Verif.Lemmas.History
import Verif.Spec.Symmetry
import Mathlib.Data.List.Forall2

/-! Neighbour searches commute with motions of the whole system. -/

namespace Pyscal

/-- What becomes of a candidate. -/
def moveTemp (c : ℝ) (x : DAtom) : DAtom := ⟨c * x.dist, x.idx⟩

/-- Atoms related by a motion. -/
structure ASimF (M : Mat3) (c : ℝ) (n : ℕ) (p p' : V3) (τ : ℤ) (a a' : Atom) : Prop where
  pos : a.pos = p
  pos' : a'.pos = p'
  type : a.type = τ
  type' : a'.type = τ
  nbrs : a'.nbrs = a.nbrs.map (Spec.moveNb M c)
  temp : a'.temp = a.temp.map (moveTemp c)
  idx : ∀ x ∈ a.temp, x.idx < n
  cond : a'.condition = a.condition

/-- Memories related by a motion; `p`, `p'`, `τ` are the (fixed) positions and types. -/
def MSimF (M : Mat3) (c : ℝ) (n : ℕ) (p p' : ℕ → V3) (τ : ℕ → ℤ) (m m' : Mem) : Prop :=
  ∀ k < n, ASimF M c n (p k) (p' k) (τ k) (m k) (m' k)

/-- Systems related by a motion. -/
structure SimF (M : Mat3) (c : ℝ) (s g : System) : Prop where
  len : g.atoms.length = s.atoms.length
  mem : MSimF M c s.atoms.length s.posOf g.posOf s.typeOf s.mem g.mem
  diff : ∀ i < s.atoms.length, ∀ j < s.atoms.length, g.diffOf i j = Spec.moveVec M c (s.diffOf i j)
  vol : g.boxVol = c ^ 3 * s.boxVol
  filter : g.filter = s.filter
  nop : g.nop = s.nop
  realNop : g.realNop = s.realNop
  vor : g.voronoiused = s.voronoiused

section

variable {M : Mat3} {c : ℝ} {n : ℕ} {p p' : ℕ → V3} {τ : ℕ → ℤ}

theorem MSimF.update {m m' : Mem} (h : MSimF M c n p p' τ m m') (i : ℕ) {a a' : Atom}
    (ha : i < n → ASimF M c n (p i) (p' i) (τ i) a a') :
    MSimF M c n p p' τ (Function.update m i a) (Function.update m' i a') := by
  intro k hk
  by_cases hki : k = i
  · subst hki; simpa using ha hk
  · simp only [Function.update_of_ne hki]; exact h k hk

theorem pairLoop_simF {ρ : Type} (add add' : Atom → ρ → Atom) (hit hit' : ℕ → ℕ → Option (ρ × ρ)) (φ : ρ → ρ)
    (ok : ρ → Prop)
    (hadd : ∀ p p' τ a a' x, ok x → ASimF M c n p p' τ a a' → ASimF M c n p p' τ (add a x) (add' a' (φ x)))
    (ps : List (ℕ × ℕ))
    (hhit : ∀ q ∈ ps, hit' q.1 q.2 = (hit q.1 q.2).map fun xy => (φ xy.1, φ xy.2))
    (hok : ∀ q ∈ ps, ∀ x y, hit q.1 q.2 = some (x, y) → ok x ∧ ok y)
    (m m' : Mem) (h : MSimF M c n p p' τ m m') :
    MSimF M c n p p' τ (pairLoop add hit ps m) (pairLoop add' hit' ps m') := by
  induction ps generalizing m m' with
  | nil => exact h
  | cons q ps ih =>
    simp only [pairLoop, List.foldl_cons]
    have ih := ih (fun q hq => hhit q (by simp [hq])) (fun q hq => hok q (by simp [hq]))
    have hq := hhit q (by simp)
    rcases hh : hit q.1 q.2 with _ | ⟨x, y⟩
    · rw [hh] at hq
      rw [hq]
      exact ih _ _ h
    · rw [hh] at hq
      rw [hq]
      obtain ⟨ox, oy⟩ := hok q (by simp) x y hh
      refine ih _ _ ?_
      have h1 := h.update q.1 (fun hk => hadd _ _ _ _ _ x ox (h q.1 hk))
      exact h1.update q.2 (fun hk => hadd _ _ _ _ _ y oy (h1 q.2 hk))

end

theorem moveVec_neg (M : Mat3) (c : ℝ) (v : V3) : Spec.moveVec M c (-v) = -Spec.moveVec M c v := by
  ext <;> simp [Spec.moveVec, Mat3.mulVec, V3.dot] <;> ring

theorem moveVec_norm {M : Mat3} (hM : Spec.Orthogonal M) {c : ℝ} (hc : 0 < c) (v : V3) :
    (Spec.moveVec M c v).norm = c * v.norm := by
  have h1 : V3.normSq (Spec.moveVec M c v) = c ^ 2 * V3.normSq v := by
    have := hM v v
    simp only [V3.dot] at this
    simp only [Spec.moveVec, V3.normSq, V3.smul_x, V3.smul_y, V3.smul_z]
    linear_combination c ^ 2 * this
  rw [V3.norm, h1, Real.sqrt_mul (by positivity), Real.sqrt_sq hc.le]; rfl

theorem lt_of_mem_pairs {n : ℕ} {q : ℕ × ℕ} (h : q ∈ pairs n) : q.1 < n ∧ q.2 < n := by
  have := mem_pairs.1 h
  exact ⟨this.1.trans this.2, this.2⟩

theorem cbrt_mul_cube {c : ℝ} (hc : 0 < c) (x : ℝ) : cbrt (c ^ 3 * x) = c * cbrt x := by
  have h3 : (c ^ 3) ^ (1 / 3 : ℝ) = c := by
    rw [← Real.rpow_natCast, ← Real.rpow_mul hc.le]; norm_num
  unfold cbrt
  have hp : 0 < c ^ 3 := by positivity
  by_cases hx : 0 ≤ x
  · rw [if_pos (mul_nonneg hp.le hx), if_pos hx, Real.mul_rpow hp.le hx, h3]
  · rw [if_neg hx, if_neg (by push Not at hx ⊢; exact mul_neg_of_pos_of_neg hp hx)]
    rw [show -(c ^ 3 * x) = c ^ 3 * (-x) by ring, Real.mul_rpow hp.le (by linarith), h3]; ring

theorem sannGo_end {t : List DAtom} {m : ℕ} (hm : ¬ m < t.length) (summ dcut : ℝ) (acc : List DAtom) (x : Option ℝ) :
    sannGo t m summ dcut acc x = .ok (m, acc, x) := by rw [sannGo, dif_neg hm]

theorem sannGo_stop {t : List DAtom} {m : ℕ} (hm : m < t.length) (summ : ℝ) {dcut : ℝ} (hd : ¬ dcut ≥ t[m].dist)
    (acc : List DAtom) (x : Option ℝ) : sannGo t m summ dcut acc x = .ok (m, acc, x) := by
  rw [sannGo, dif_pos hm, if_neg hd]

theorem sannGo_oob {t : List DAtom} {m : ℕ} (hm : m < t.length) (summ : ℝ) {dcut : ℝ} (hd : dcut ≥ t[m].dist)
    (hm' : ¬ m + 1 < t.length) (acc : List DAtom) (x : Option ℝ) : sannGo t m summ dcut acc x = .error .oob := by
  rw [sannGo, dif_pos hm, if_pos hd, dif_neg hm']

theorem sannGo_next {t : List DAtom} {m : ℕ} (hm : m < t.length) (summ : ℝ) {dcut : ℝ} (hd : dcut ≥ t[m].dist)
    (hm' : m + 1 < t.length) (acc : List DAtom) (x : Option ℝ) : sannGo t m summ dcut acc x =
      sannGo t (m + 1) (summ + t[m + 1].dist) ((summ + t[m + 1].dist) / ((m + 1 - 2 : ℕ) : ℝ)) (acc ++ [t[m + 1]])
        (some ((summ + t[m + 1].dist) / ((m + 1 - 2 : ℕ) : ℝ))) := by
  rw [sannGo, dif_pos hm, if_pos hd, dif_pos hm']

section

variable {M : Mat3} {c : ℝ} {s g : System}

theorem SimF.ofMem (h : SimF M c s g) {m m' : Mem}
    (hm : MSimF M c s.atoms.length s.posOf g.posOf s.typeOf m m') : SimF M c (s.ofMem m) (g.ofMem m') := by
  have e1 : ∀ k < s.atoms.length, (s.ofMem m).posOf k = s.posOf k := fun k hk => by
    rw [System.posOf, ofMem_mem _ _ _ hk]; exact (hm k hk).pos
  have e2 : ∀ k < s.atoms.length, (g.ofMem m').posOf k = g.posOf k := fun k hk => by
    rw [System.posOf, ofMem_mem _ _ _ (h.len.symm ▸ hk)]; exact (hm k hk).pos'
  have e3 : ∀ k < s.atoms.length, (s.ofMem m).typeOf k = s.typeOf k := fun k hk => by
    rw [System.typeOf, ofMem_mem _ _ _ hk]; exact (hm k hk).type
  have hl : (s.ofMem m).atoms.length = s.atoms.length := ofMem_length s m
  refine ⟨?_, ?_, ?_, ?_, h.filter, h.nop, h.realNop, h.vor⟩
  · rw [ofMem_length, ofMem_length]; exact h.len
  · intro k hk
    rw [hl] at hk ⊢
    rw [e1 k hk, e2 k hk, e3 k hk, ofMem_mem _ _ _ hk, ofMem_mem _ _ _ (h.len.symm ▸ hk)]
    exact hm k hk
  · intro i hi j hj
    rw [hl] at hi hj
    have := h.diff i hi j hj
    simp only [System.diffOf, System.diffIdx, e1 i hi, e1 j hj, e2 i hi, e2 j hj] at this ⊢
    exact this
  · have a1 : (s.ofMem m).boxVol = s.boxVol := rfl
    have a2 : (g.ofMem m').boxVol = g.boxVol := rfl
    rw [a1, a2, h.vol]

variable (hM : Spec.Orthogonal M) (hc : 0 < c) (h : SimF M c s g)
include hM hc h

theorem SimF.dist {i j : ℕ} (hi : i < s.atoms.length) (hj : j < s.atoms.length) : g.distOf i j = c * s.distOf i j := by
  have : g.distOf i j = V3.norm (g.diffOf i j) := rfl
  rw [this, h.diff i hi j hj, moveVec_norm hM hc]; rfl

theorem SimF.mkNb {i j : ℕ} (hi : i < s.atoms.length) (hj : j < s.atoms.length) :
    g.mkNb i j = Spec.moveNb M c (s.mkNb i j) := by
  unfold System.mkNb Spec.moveNb
  rw [h.diff i hi j hj, h.dist hM hc hi hj]

omit hM hc in
theorem SimF.type {i : ℕ} (hi : i < s.atoms.length) : g.typeOf i = s.typeOf i := (h.mem i hi).type'

theorem SimF.cutoffHit (hn : g.neighbordistance = c * s.neighbordistance) {i j : ℕ} (hi : i < s.atoms.length)
    (hj : j < s.atoms.length) :
    cutoffHit g i j = (cutoffHit s i j).map fun xy => (Spec.moveNb M c xy.1, Spec.moveNb M c xy.2) := by
  simp only [Pyscal.cutoffHit, h.dist hM hc hi hj, h.diff i hi j hj, h.type hi, h.type hj, hn, h.filter, mul_lt_mul_iff_right₀ hc]
  split_ifs
  · simp [Spec.moveNb, moveVec_neg]
  · rfl
  · rfl

theorem SimF.tempHitLe (hn : g.neighbordistance = c * s.neighbordistance) {i j : ℕ} (hi : i < s.atoms.length)
    (hj : j < s.atoms.length) :
    tempHitLe g i j = (tempHitLe s i j).map fun xy => (moveTemp c xy.1, moveTemp c xy.2) := by
  simp only [Pyscal.tempHitLe, h.dist hM hc hi hj, hn, mul_le_mul_iff_right₀ hc]
  split_ifs <;> rfl

theorem SimF.neighborsNormal (hn : g.neighbordistance = c * s.neighbordistance) :
    SimF M c s.neighborsNormal g.neighborsNormal := by
  unfold System.neighborsNormal
  have h0 : SimF M c { s with voronoiused := false } { g with voronoiused := false } :=
    ⟨h.len, h.mem, h.diff, h.vol, h.filter, h.nop, h.realNop, rfl⟩
  refine h0.ofMem ?_
  rw [show ({ g with voronoiused := false } : System).atoms.length = s.atoms.length from h.len]
  refine pairLoop_simF _ _ _ _ (Spec.moveNb M c) (fun _ => True) ?_ _ ?_ (fun _ _ _ _ _ => ⟨trivial, trivial⟩) _ _ h.mem
  · rintro p p' τ a a' x - ⟨h1, h2, h3, h4, h5, h6, h7, h8⟩
    exact ⟨h1, h2, h3, h4, by simp [Atom.pushNbCut, h5], h6, h7, h8⟩
  · intro q hq
    obtain ⟨hi, hj⟩ := lt_of_mem_pairs hq
    exact h0.cutoffHit hM hc hn hi hj

theorem SimF.tempBrute (hn : g.neighbordistance = c * s.neighbordistance) :
    SimF M c s.tempBrute g.tempBrute := by
  unfold System.tempBrute
  refine h.ofMem ?_
  rw [h.len]
  refine pairLoop_simF _ _ _ _ (moveTemp c) (fun x => x.idx < s.atoms.length) ?_ _ ?_ ?_ _ _ h.mem
  · rintro p p' τ a a' x hx ⟨h1, h2, h3, h4, h5, h6, h7, h8⟩
    refine ⟨h1, h2, h3, h4, h5, by simp [Atom.pushTemp, h6], ?_, h8⟩
    intro y hy
    rcases List.mem_append.1 hy with hy | hy
    · exact h7 y hy
    · rw [List.mem_singleton.1 hy]; exact hx
  · intro q hq
    obtain ⟨hi, hj⟩ := lt_of_mem_pairs hq
    exact h.tempHitLe hM hc hn hi hj
  · intro q hq x y hxy
    obtain ⟨hi, hj⟩ := lt_of_mem_pairs hq
    unfold Pyscal.tempHitLe at hxy
    split_ifs at hxy
    simp only [Option.some.injEq, Prod.mk.injEq] at hxy
    rw [← hxy.1, ← hxy.2]
    exact ⟨hj, hi⟩

omit hM in
theorem SimF.guessDist (p : ℝ) : g.guessDist p = c * s.guessDist p := by
  unfold System.guessDist
  rw [h.vol, h.len, mul_div_assoc, cbrt_mul_cube hc]; ring

theorem SimF.fillTemp (p : ℝ) (hu : s.usecells = false) (hu' : g.usecells = false) :
    RelE (SimF M c) (s.fillTemp p) (g.fillTemp p) := by
  have hgd : (g.guess p).neighbordistance = c * (s.guess p).neighbordistance := h.guessDist hc p
  have h0 : SimF M c (s.guess p) (g.guess p) := ⟨h.len, h.mem, h.diff, h.vol, h.filter, h.nop, h.realNop, h.vor⟩
  change RelE (SimF M c) (if s.usecells then (s.guess p).tempCells else .ok (s.guess p).tempBrute)
    (if g.usecells then (g.guess p).tempCells else .ok (g.guess p).tempBrute)
  rw [hu, hu']
  exact h0.tempBrute hM hc hgd

variable {σ : StdSort} (hσ : Spec.SortScales σ c)
include hσ

omit hM hc h in
theorem sort_move (l : List DAtom) : σ.sort (l.map (moveTemp c)) = (σ.sort l).map (moveTemp c) := hσ l

omit hM hc h hσ in
theorem sort_idx (n : ℕ) (σ : StdSort) (l : List DAtom) (hl : ∀ x ∈ l, x.idx < n) : ∀ x ∈ σ.sort l, x.idx < n :=
  fun x hx => hl x ((σ.perm l).mem_iff.1 hx)

omit hσ in
theorem SimF.map_mkNb {i : ℕ} (hi : i < s.atoms.length) (t : List DAtom) (ht : ∀ x ∈ t, x.idx < s.atoms.length) :
    (t.map (moveTemp c)).map (fun x => g.mkNb i x.idx) = (t.map fun x => s.mkNb i x.idx).map (Spec.moveNb M c) := by
  rw [List.map_map, List.map_map]
  exact List.map_congr_left fun x hx => h.mkNb hM hc hi (ht x hx)

theorem byNumberLoop_simF (nns : ℕ) (assign : Bool) (is : List ℕ) (his : ∀ i ∈ is, i < s.atoms.length)
    (m m' : Mem) (hm : MSimF M c s.atoms.length s.posOf g.posOf s.typeOf m m') :
    MSimF M c s.atoms.length s.posOf g.posOf s.typeOf (System.byNumberLoop σ s nns assign is m).1
      (System.byNumberLoop σ g nns assign is m').1 ∧
    (System.byNumberLoop σ g nns assign is m').2 = (System.byNumberLoop σ s nns assign is m).2 := by
  induction is generalizing m m' with
  | nil => exact ⟨hm, rfl⟩
  | cons i is ih =>
    have hi := his i (by simp)
    obtain ⟨h1, h2, h3, h4, h5, h6, h7, h8⟩ := hm i hi
    rw [System.byNumberLoop, System.byNumberLoop, h6, List.length_map]
    by_cases hlt : (m i).temp.length < nns
    · rw [if_pos hlt, if_pos hlt]; exact ⟨hm, rfl⟩
    · rw [if_neg hlt, if_neg hlt]
      dsimp only
      rw [foldl_pushNb, foldl_pushNb, sort_move hσ, ← List.map_take,
        h.map_mkNb hM hc hi _ (fun x hx => sort_idx _ σ _ h7 x (List.mem_of_mem_take hx))]
      refine ih (fun j hj => his j (by simp [hj])) _ _ (hm.update i fun _ => ?_)
      cases assign
      · exact ⟨h1, h2, h3, h4, h5, rfl, sort_idx _ σ _ h7, h8⟩
      · exact ⟨h1, h2, h3, h4, by simp [h5], rfl, sort_idx _ σ _ h7, h8⟩

omit hM hc h hσ in
theorem adaptiveCut_move (padding : ℝ) (nlimit : ℕ) (t : List DAtom) :
    System.adaptiveCut padding nlimit (t.map (moveTemp c)) = c * System.adaptiveCut padding nlimit t := by
  have : ∀ l : List DAtom, ((l.map (moveTemp c)).map DAtom.dist).sum = c * (l.map DAtom.dist).sum := by
    intro l
    induction l with
    | nil => simp
    | cons x l ih => simp only [List.map_cons, List.sum_cons, ih, moveTemp]; ring
  unfold System.adaptiveCut
  rw [← List.map_take, this]; ring

omit hM hσ in
theorem SimF.adaptiveSel {i : ℕ} (hi : i < s.atoms.length) (d : ℝ) (t : List DAtom)
    (ht : ∀ x ∈ t, x.idx < s.atoms.length) :
    adaptiveSel g i (c * d) (t.map (moveTemp c)) = (adaptiveSel s i d t).map (moveTemp c) := by
  unfold Pyscal.adaptiveSel
  rw [List.filter_map]
  congr 1
  refine List.filter_congr fun x hx => ?_
  simp only [Function.comp, moveTemp, h.filter, h.type hi, h.type (ht x hx), mul_lt_mul_iff_right₀ hc]

theorem adaptiveLoop_simF (nlimit : ℕ) (padding : ℝ) (is : List ℕ) (his : ∀ i ∈ is, i < s.atoms.length)
    (m m' : Mem) (hm : MSimF M c s.atoms.length s.posOf g.posOf s.typeOf m m') :
    MSimF M c s.atoms.length s.posOf g.posOf s.typeOf (System.adaptiveLoop σ s nlimit padding is m).1
      (System.adaptiveLoop σ g nlimit padding is m').1 ∧
    (System.adaptiveLoop σ g nlimit padding is m').2 = (System.adaptiveLoop σ s nlimit padding is m).2 := by
  induction is generalizing m m' with
  | nil => exact ⟨hm, rfl⟩
  | cons i is ih =>
    have hi := his i (by simp)
    obtain ⟨h1, h2, h3, h4, h5, h6, h7, h8⟩ := hm i hi
    rw [System.adaptiveLoop, System.adaptiveLoop, h6, List.length_map]
    by_cases hlt : (m i).temp.length < nlimit
    · rw [if_pos hlt, if_pos hlt]; exact ⟨hm, rfl⟩
    · rw [if_neg hlt, if_neg hlt]
      dsimp only
      have hs := sort_idx _ σ _ h7
      rw [foldl_adaptive, foldl_adaptive, sort_move hσ, adaptiveCut_move, h.adaptiveSel hc hi _ _ hs,
        h.map_mkNb hM hc hi (Pyscal.adaptiveSel s i _ _) (fun x hx => hs x (List.mem_of_mem_filter hx))]
      refine ih (fun j hj => his j (by simp [hj])) _ _ (hm.update i fun _ => ?_)
      exact ⟨h1, h2, h3, h4, by simp [h5], rfl, hs, h8⟩

omit hM h hσ in
theorem sannGo_move (t : List DAtom) (m : ℕ) (summ dcut : ℝ) (acc : List DAtom) (x x' : Option ℝ) :
    RelE (fun a b : ℕ × List DAtom × Option ℝ => b.1 = a.1 ∧ b.2.1 = a.2.1.map (moveTemp c) ∧
        ((∀ y ∈ acc, y ∈ t) → ∀ y ∈ a.2.1, y ∈ t))
      (sannGo t m summ dcut acc x) (sannGo (t.map (moveTemp c)) m (c * summ) (c * dcut) (acc.map (moveTemp c)) x') := by
  generalize hk : t.length - m = k
  have hl : (t.map (moveTemp c)).length = t.length := List.length_map _
  induction k generalizing m summ dcut acc x x' with
  | zero =>
    have hm : ¬ m < t.length := by omega
    rw [sannGo_end hm, sannGo_end (by rw [hl]; exact hm)]
    exact ⟨rfl, rfl, fun h => h⟩
  | succ k ih =>
    have hm : m < t.length := by omega
    have hg : ∀ (j : ℕ) (hj : j < (t.map (moveTemp c)).length), (t.map (moveTemp c))[j].dist = c * (t[j]'(by simpa using hj)).dist :=
      fun j hj => by rw [List.getElem_map]; rfl
    by_cases hd : dcut ≥ t[m].dist
    · have hd' : c * dcut ≥ ((t.map (moveTemp c))[m]'(by rw [hl]; exact hm)).dist := by
        rw [hg]; exact mul_le_mul_of_nonneg_left hd hc.le
      by_cases hm' : m + 1 < t.length
      · rw [sannGo_next hm _ hd hm', sannGo_next (by rw [hl]; exact hm) _ hd' (by rw [hl]; exact hm')]
        have := ih (m + 1) (summ + t[m + 1].dist) ((summ + t[m + 1].dist) / ((m + 1 - 2 : ℕ) : ℝ)) (acc ++ [t[m + 1]])
          (some ((summ + t[m + 1].dist) / ((m + 1 - 2 : ℕ) : ℝ)))
          (some ((c * summ + c * t[m + 1].dist) / ((m + 1 - 2 : ℕ) : ℝ))) (by omega)
        rw [hg, List.getElem_map]
        rw [List.map_append, ← mul_div_assoc, mul_add] at this
        revert this
        simp only [List.map_cons, List.map_nil]
        generalize sannGo t (m + 1) _ _ _ _ = r
        generalize sannGo (t.map (moveTemp c)) (m + 1) _ _ _ _ = r'
        rcases r with e | ⟨a1, a2, a3⟩ <;> rcases r' with e' | ⟨b1, b2, b3⟩ <;> intro this
        · exact this
        · exact this
        · exact this
        · refine ⟨this.1, this.2.1, fun ha => this.2.2 ?_⟩
          intro y hy
          rcases List.mem_append.1 hy with hy | hy
          · exact ha y hy
          · rw [List.mem_singleton.1 hy]; exact List.getElem_mem _
      · rw [sannGo_oob hm _ hd hm', sannGo_oob (by rw [hl]; exact hm) _ hd' (by rw [hl]; exact hm')]; exact rfl
    · rw [sannGo_stop hm _ hd, sannGo_stop (by rw [hl]; exact hm) _ (by
        rw [hg]; intro hx; exact hd (le_of_mul_le_mul_left hx hc))]
      exact ⟨rfl, rfl, fun h => h⟩

theorem sannLoop_simF (is : List ℕ) (his : ∀ i ∈ is, i < s.atoms.length)
    (m m' : Mem) (hm : MSimF M c s.atoms.length s.posOf g.posOf s.typeOf m m') :
    RelE (fun a b : Mem × Bool => MSimF M c s.atoms.length s.posOf g.posOf s.typeOf a.1 b.1 ∧ b.2 = a.2)
      (System.sannLoop σ s is m) (System.sannLoop σ g is m') := by
  induction is generalizing m m' with
  | nil => exact ⟨hm, rfl⟩
  | cons i is ih =>
    have hi := his i (by simp)
    obtain ⟨h1, h2, h3, h4, h5, h6, h7, h8⟩ := hm i hi
    rw [System.sannLoop, System.sannLoop, h6, List.length_map]
    by_cases hlt : (m i).temp.length < 3
    · rw [if_pos hlt, if_pos hlt]; exact ⟨hm, rfl⟩
    · rw [if_neg hlt, if_neg hlt, sort_move hσ]
      have hs := sort_idx _ σ _ h7
      have hsum : (((σ.sort (m i).temp).map (moveTemp c)).take 3 |>.map DAtom.dist).sum
          = c * (((σ.sort (m i).temp).take 3).map DAtom.dist).sum := by
        rw [← List.map_take]
        generalize (σ.sort (m i).temp).take 3 = l
        induction l with
        | nil => simp
        | cons x l ih => simp only [List.map_cons, List.sum_cons, ih, moveTemp]; ring
      have hgo := sannGo_move hc (σ.sort (m i).temp) 3 (((σ.sort (m i).temp).take 3).map DAtom.dist).sum
        ((((σ.sort (m i).temp).take 3).map DAtom.dist).sum / 1) ((σ.sort (m i).temp).take 3) (m i).cutoff (m' i).cutoff
      rw [← mul_div_assoc, ← hsum, List.map_take (f := moveTemp c)] at hgo
      refine RelE.bind hgo ?_
      rintro ⟨a1, a2, a3⟩ ⟨b1, b2, b3⟩ ⟨e1, e2, e3⟩
      dsimp only at e1 e2 e3 ⊢
      subst e1 e2
      have hsel : ∀ x ∈ a2, x.idx < s.atoms.length := fun x hx => hs x (e3 (fun y hy => List.mem_of_mem_take hy) x hx)
      rw [foldl_pushNb, foldl_pushNb, h.map_mkNb hM hc hi _ hsel, List.length_map]
      have hu := hm.update i (a := { ({ m i with temp := σ.sort (m i).temp, cutoff := a3 } : Atom) with
            nbrs := (m i).nbrs ++ a2.map fun x => s.mkNb i x.idx })
        (a' := { ({ m' i with temp := (σ.sort (m i).temp).map (moveTemp c), cutoff := b3 } : Atom) with
            nbrs := (m' i).nbrs ++ (a2.map fun x => s.mkNb i x.idx).map (Spec.moveNb M c) }) (fun _ =>
        ⟨h1, h2, h3, h4, by simp [h5], rfl, hs, h8⟩)
      by_cases hb : b1 = (σ.sort (m i).temp).length
      · rw [if_pos hb, if_pos hb]; exact ⟨hu, rfl⟩
      · rw [if_neg hb, if_neg hb]; exact ih (fun j hj => his j (by simp [hj])) _ _ hu

end

section

variable {M : Mat3} {c : ℝ} {s g : System}

theorem SimF.voro (h : SimF M c s g) : SimF M c { s with voronoiused := false } { g with voronoiused := false } :=
  ⟨h.len, h.mem, h.diff, h.vol, h.filter, h.nop, h.realNop, rfl⟩

theorem SimF.cells (h : SimF M c s g) (u : Bool) : SimF M c { s with usecells := u } { g with usecells := u } :=
  ⟨h.len, h.mem, h.diff, h.vol, h.filter, h.nop, h.realNop, h.vor⟩

theorem SimF.setDist (h : SimF M c s g) (r r' : ℝ) :
    SimF M c { s with neighbordistance := r } { g with neighbordistance := r' } :=
  ⟨h.len, h.mem, h.diff, h.vol, h.filter, h.nop, h.realNop, h.vor⟩

variable (hM : Spec.Orthogonal M) (hc : 0 < c) {σ : StdSort} (hσ : Spec.SortScales σ c)
include hM hc hσ

theorem SimF.neighborsByNumber (h : SimF M c s g) (p : ℝ) (nns : ℕ) (assign : Bool) (hu : s.usecells = false)
    (hu' : g.usecells = false) :
    RelE (fun a b : System × Bool => SimF M c a.1 b.1 ∧ b.2 = a.2) (s.neighborsByNumber σ p nns assign)
      (g.neighborsByNumber σ p nns assign) := by
  unfold System.neighborsByNumber
  refine RelE.bind (h.voro.fillTemp hM hc p hu hu') fun a b hab => ?_
  have := byNumberLoop_simF hM hc hab hσ nns assign (List.range a.atoms.length) (fun i hi => List.mem_range.1 hi) _ _ hab.mem
  dsimp only
  rw [hab.len]
  exact ⟨hab.ofMem this.1, this.2⟩

theorem SimF.neighborsAdaptive (h : SimF M c s g) (p : ℝ) (nlimit : ℕ) (padding : ℝ) (hu : s.usecells = false)
    (hu' : g.usecells = false) :
    RelE (fun a b : System × Bool => SimF M c a.1 b.1 ∧ b.2 = a.2) (s.neighborsAdaptive σ p nlimit padding)
      (g.neighborsAdaptive σ p nlimit padding) := by
  unfold System.neighborsAdaptive
  refine RelE.bind (h.fillTemp hM hc p hu hu') fun a b hab => ?_
  have := adaptiveLoop_simF hM hc hab hσ nlimit padding (List.range a.atoms.length) (fun i hi => List.mem_range.1 hi) _ _ hab.mem
  dsimp only
  rw [hab.len]
  exact ⟨hab.ofMem this.1, this.2⟩

theorem SimF.neighborsSann (h : SimF M c s g) (p : ℝ) (hu : s.usecells = false) (hu' : g.usecells = false) :
    RelE (fun a b : System × Bool => SimF M c a.1 b.1 ∧ b.2 = a.2 ∧ a.1.usecells = false ∧ b.1.usecells = false)
      (s.neighborsSann σ p) (g.neighborsSann σ p) := by
  unfold System.neighborsSann
  have hf := h.voro.fillTemp hM hc p hu hu'
  rcases ha : ({ s with voronoiused := false } : System).fillTemp p with e | a <;>
    rcases hb : ({ g with voronoiused := false } : System).fillTemp p with e' | b <;> rw [ha, hb] at hf
  · exact hf
  · exact hf.elim
  · exact hf.elim
  · have hab : SimF M c a b := hf
    have hua : a.usecells = false := by rw [fillTemp_usecells ha]; exact hu
    have hub : b.usecells = false := by rw [fillTemp_usecells hb]; exact hu'
    have hls := sannLoop_simF hM hc hab hσ (List.range a.atoms.length) (fun i hi => List.mem_range.1 hi) _ _ hab.mem
    simp only [bind, Except.bind]
    rw [hab.len]
    rcases hma : System.sannLoop σ a (List.range a.atoms.length) a.mem with e | ⟨ma, ba⟩ <;>
      rcases hmb : System.sannLoop σ b (List.range a.atoms.length) b.mem with e' | ⟨mb, bb⟩ <;> rw [hma, hmb] at hls
    · exact hls
    · exact hls.elim
    · exact hls.elim
    · exact ⟨hab.ofMem hls.1, hls.2, hua, hub⟩

omit hM hc hσ in
theorem SimF.reset (h : SimF M c s g) : SimF M c s.resetAllNeighbors g.resetAllNeighbors := by
  refine ⟨?_, ?_, ?_, h.vol, h.filter, h.nop, h.realNop, h.vor⟩
  · rw [resetAll_length, resetAll_length]; exact h.len
  · intro k hk
    rw [resetAll_length] at hk ⊢
    rw [resetAll_posOf, resetAll_posOf, resetAll_typeOf, resetAll_mem s k hk, resetAll_mem g k (h.len.symm ▸ hk)]
    obtain ⟨h1, h2, h3, h4, h5, h6, h7, h8⟩ := h.mem k hk
    exact ⟨h1, h2, h3, h4, rfl, rfl, by simp, rfl⟩
  · intro i hi j hj
    rw [resetAll_length] at hi hj
    rw [resetAll_diffOf, resetAll_diffOf]; exact h.diff i hi j hj

theorem SimF.sannRetry (h : SimF M c s g) (t : ℝ) (is : List ℕ) (hu : s.usecells = false) (hu' : g.usecells = false) :
    RelE (SimF M c) (s.sannRetry σ t is) (g.sannRetry σ t is) := by
  induction is generalizing s g with
  | nil => exact rfl
  | cons i is ih =>
    rw [System.sannRetry, System.sannRetry]
    refine RelE.bind (h.reset.neighborsSann hM hc hσ (t * i) hu hu') ?_
    rintro ⟨a, ba⟩ ⟨b, bb⟩ ⟨h1, h2, h3, h4⟩
    dsimp only at h2 ⊢
    subst h2
    cases bb
    · exact ih h1 h3 h4
    · exact h1

omit hM hc hσ in
theorem SimF.getAtoms_len (h : SimF M c s g) :
    RelE (fun a b : List Atom => b.length = a.length ∧ a.length = s.realNop) s.getAtoms g.getAtoms := by
  unfold System.getAtoms
  rw [h.realNop, h.len]
  by_cases hle : s.realNop ≤ s.atoms.length
  · rw [if_pos hle, if_pos hle]
    change (g.atoms.take _).length = (s.atoms.take _).length ∧ (s.atoms.take _).length = _
    rw [List.length_take, List.length_take, h.len]
    exact ⟨rfl, by omega⟩
  · rw [if_neg hle, if_neg hle]; exact rfl

theorem SimF.search (h : SimF M c s g) (meth : Method) (hall : Spec.AllPairs s.realNop s.nop meth) :
    RelE (SimF M c) (s.search σ meth) (g.search σ (Spec.moveMethod c meth)) := by
  have had : ∀ t n p, s.nop ≤ 4000 → RelE (SimF M c) (s.searchAdaptive σ t n p) (g.searchAdaptive σ t n p) := by
    intro t n p hn
    unfold System.searchAdaptive
    by_cases ht : t < 1
    · rw [if_pos ht, if_pos ht]; exact rfl
    · rw [if_neg ht, if_neg ht, show decide (g.nop > 4000) = false by rw [h.nop]; simpa using hn,
        show decide (s.nop > 4000) = false by simpa using hn]
      refine RelE.bind ((h.cells false).neighborsAdaptive hM hc hσ t n p rfl rfl) ?_
      rintro ⟨a, ba⟩ ⟨b, bb⟩ ⟨h1, h2⟩
      dsimp only at h2 ⊢
      subst h2
      cases bb
      · exact rfl
      · exact h1
  cases meth with
  | cutoff r =>
    simp only [System.search, Spec.moveMethod]
    by_cases hr0 : r = 0
    · rw [if_pos hr0, if_pos (by rw [hr0, mul_zero])]
      exact had _ _ _ (by simpa [Spec.AllPairs, hr0] using hall)
    · rw [if_neg hr0, if_neg (mul_ne_zero hc.ne' hr0)]
      unfold System.searchCutoff
      refine RelE.bind (h.setDist r (c * r)).getAtoms_len fun a b hab => ?_
      have h1 : ¬ a.length > 2300 := by
        rw [hab.2]; exact not_lt.2 (by simpa [Spec.AllPairs, hr0] using hall)
      rw [if_neg h1, if_neg (by rw [hab.1]; exact h1)]
      exact (h.setDist r (c * r)).neighborsNormal hM hc rfl
  | adaptive t n p => exact had t n p hall
  | sann t =>
    simp only [System.search, Spec.moveMethod]
    unfold System.searchSann
    by_cases ht : t < 1
    · rw [if_pos ht, if_pos ht]; exact rfl
    · rw [if_neg ht, if_neg ht]
      refine RelE.bind h.getAtoms_len fun a b hab => ?_
      dsimp only
      have h1 : decide (a.length > 4000) = false := by
        rw [hab.2]; exact decide_eq_false (not_lt.2 hall)
      rw [hab.1, h1]
      refine RelE.bind ((h.cells false).neighborsSann hM hc hσ t rfl rfl) ?_
      rintro ⟨a, ba⟩ ⟨b, bb⟩ ⟨h1, h2, h3, h4⟩
      dsimp only at h2 ⊢
      subst h2
      cases bb
      · exact h1.sannRetry hM hc hσ t _ h3 h4
      · exact h1
  | number t nmax assign =>
    simp only [System.search, Spec.moveMethod]
    unfold System.searchNumber
    by_cases ht : t < 1
    · rw [if_pos ht, if_pos ht]; exact rfl
    · rw [if_neg ht, if_neg ht]
      refine RelE.bind h.getAtoms_len fun a b hab => ?_
      dsimp only
      have h1 : decide (a.length > 4000) = false := by
        rw [hab.2]; exact decide_eq_false (not_lt.2 hall)
      rw [hab.1, h1]
      refine RelE.bind ((h.cells false).neighborsByNumber hM hc hσ t nmax assign rfl rfl) ?_
      rintro ⟨a, ba⟩ ⟨b, bb⟩ ⟨h1, h2⟩
      dsimp only at h2 ⊢
      subst h2
      cases bb
      · exact rfl
      · exact h1

omit hM hc hσ in
theorem SimF.nbrs_mem (h : SimF M c s g) :
    (∃ a ∈ g.atoms, a.nbrs.length > 300) ↔ ∃ a ∈ s.atoms, a.nbrs.length > 300 := by
  constructor
  · rintro ⟨a, ha, hp⟩
    obtain ⟨k, hk, rfl⟩ := List.getElem_of_mem ha
    have hk' : k < s.atoms.length := h.len ▸ hk
    refine ⟨s.atoms[k], List.getElem_mem hk', ?_⟩
    have := (h.mem k hk').nbrs
    rw [mem_eq_getElem _ _ hk', mem_eq_getElem _ _ hk] at this
    rw [this, List.length_map] at hp; exact hp
  · rintro ⟨a, ha, hp⟩
    obtain ⟨k, hk, rfl⟩ := List.getElem_of_mem ha
    have hk' : k < g.atoms.length := h.len.symm ▸ hk
    refine ⟨g.atoms[k], List.getElem_mem hk', ?_⟩
    have := (h.mem k hk).nbrs
    rw [mem_eq_getElem _ _ hk', mem_eq_getElem _ _ hk] at this
    rw [this, List.length_map]; exact hp

/-- `find_neighbors` commutes with motions.  The two systems need not agree on old neighbours or
candidates. -/
theorem findNeighbors_simF (hlen : g.atoms.length = s.atoms.length)
    (htype : ∀ k < s.atoms.length, g.typeOf k = s.typeOf k)
    (hdiff : ∀ i < s.atoms.length, ∀ j < s.atoms.length, g.diffOf i j = Spec.moveVec M c (s.diffOf i j))
    (hvol : g.boxVol = c ^ 3 * s.boxVol) (hnop : g.nop = s.nop) (hreal : g.realNop = s.realNop)
    (hvor : g.voronoiused = s.voronoiused)
    (f : ℕ) (meth : Method) (hall : Spec.AllPairs s.realNop s.nop meth) :
    RelE (SimF M c) (s.findNeighbors σ f meth) (g.findNeighbors σ f (Spec.moveMethod c meth)) := by
  have h0 : SimF M c (s.startSearch f) (g.startSearch f) := by
    have l1 := like_start s f
    have l2 := like_start g f
    refine ⟨by rw [l1.len, l2.len, hlen], ?_, ?_, hvol, rfl, hnop, hreal, hvor⟩
    · intro k hk
      rw [l1.len] at hk ⊢
      have e1 : (s.startSearch f).mem k = { s.mem k with nbrs := [], temp := [], condition := some 0 } := resetAll_mem s k hk
      have e2 : (g.startSearch f).mem k = { g.mem k with nbrs := [], temp := [], condition := some 0 } :=
        resetAll_mem g k (hlen.symm ▸ hk)
      rw [l1.pos, l2.pos, l1.type, e1, e2]
      exact ⟨rfl, rfl, rfl, htype k hk, rfl, rfl, by simp, rfl⟩
    · intro i hi j hj
      rw [l1.len] at hi hj
      rw [l1.diffOf, l2.diffOf]; exact hdiff i hi j hj
  unfold System.findNeighbors
  change RelE (SimF M c) (do
    let g ← (s.startSearch f).search σ meth
    let s' ← g.checkCapacity
    return { s' with neighborsFound := true }) (do
    let g ← (g.startSearch f).search σ (Spec.moveMethod c meth)
    let s' ← g.checkCapacity
    return { s' with neighborsFound := true })
  refine RelE.bind (h0.search hM hc hσ meth hall) fun a b hab => ?_
  have hcap : RelE (SimF M c) a.checkCapacity b.checkCapacity := by
    unfold System.checkCapacity
    have := hab.nbrs_mem
    by_cases hx : ∃ x ∈ a.atoms, x.nbrs.length > 300
    · rw [if_pos hx, if_pos (this.2 hx)]; exact rfl
    · rw [if_neg hx, if_neg (fun h => hx (this.1 h))]; exact hab
  refine RelE.bind hcap fun a b hab => ?_
  exact ⟨hab.len, hab.mem, hab.diff, hab.vol, hab.filter, hab.nop, hab.realNop, hab.vor⟩

end

end Pyscal
