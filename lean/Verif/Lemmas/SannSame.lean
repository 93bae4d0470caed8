import Verif.Props.SupercellMore
import Verif.Props.Sann

/-! Two atoms with the same surroundings: the lists of nearest atoms and the SANN selections have the same distances, and the same
atoms at every distance that is listed completely. -/

namespace Pyscal

/-! ### Lists with the same distances -/

section
variable {β : Type} {F F' : Nb → β} {δ : β → ℝ} {A B N M : List Nb}

/-- `N` is the beginning of the list of the atoms in a ball `A` sorted by distance. -/
def BallHead (A N : List Nb) : Prop := ∃ rest, A.Perm (N ++ rest) ∧ N.Pairwise (fun x y => x.dist ≤ y.dist) ∧ ∀ x ∈ N, ∀ y ∈ rest, x.dist ≤ y.dist

theorem ballHead_of {s : System} {i n : ℕ} {a : Atom} {r : ℝ} (hN : Spec.NearestList s i a n N) (hi : s.atoms[i]? = some a)
    (hn : n ≤ (cutoffNbs s r 0 i).length) : BallHead (cutoffNbs s r 0 i) N := by
  obtain ⟨rest, h1, h2⟩ := ball_split hN hi hn
  exact ⟨rest, h1, hN.2.2.2.1, h2⟩

theorem BallHead.dists (hN : BallHead A N) (hM : BallHead B M) (hD : (B.map Nb.dist).Perm (A.map Nb.dist)) (hl : M.length = N.length) :
    M.map Nb.dist = N.map Nb.dist := by
  obtain ⟨rest, p1, p2, p3⟩ := hN
  obtain ⟨rest', q1, q2, q3⟩ := hM
  have e1 := take_of_split (l := N.map Nb.dist) (m := rest.map Nb.dist) (D := A.map Nb.dist)
    (by have := p1.map Nb.dist; rwa [List.map_append] at this) (List.pairwise_map.2 p2) (by simpa using p3)
  have e2 := take_of_split (l := M.map Nb.dist) (m := rest'.map Nb.dist) (D := A.map Nb.dist)
    (by have := hD.symm.trans (q1.map Nb.dist); rwa [List.map_append] at this) (List.pairwise_map.2 q2) (by simpa using q3)
  rw [e1, e2, List.length_map, List.length_map, hl]

/-- Atoms at a distance that is listed completely are in both lists. -/
theorem shell_match (hF : ∀ x ∈ A, δ (F x) = x.dist) (hF' : ∀ x ∈ B, δ (F' x) = x.dist) (hP : (B.map F').Perm (A.map F))
    (hN : N.Subperm A) (hM : M.Subperm B) (hnd : A.Nodup) (hd : (M.map Nb.dist).Perm (N.map Nb.dist))
    {x : Nb} (hx : x ∈ N) (hall : ∀ y ∈ A, y.dist = x.dist → y ∈ N) : ∃ z ∈ M, F' z = F x := by
  classical
  have hD : (B.map Nb.dist).Perm (A.map Nb.dist) := by
    have e1 : B.map Nb.dist = (B.map F').map δ := by rw [List.map_map]; exact List.map_congr_left fun y hy => (hF' y hy).symm
    have e2 : A.map Nb.dist = (A.map F).map δ := by rw [List.map_map]; exact List.map_congr_left fun y hy => (hF y hy).symm
    rw [e1, e2]; exact hP.map δ
  have hxA : x ∈ A := hN.subset hx
  obtain ⟨z, hz, e⟩ := List.mem_map.1 (hP.mem_iff.2 (List.mem_map_of_mem (f := F) hxA))
  have hzd : z.dist = x.dist := by rw [← hF' z hz, e, hF x hxA]
  -- the numbers of atoms at this distance
  have cnt : ∀ L : List Nb, (L.filter fun y => y.dist = x.dist).length = (L.map Nb.dist).count x.dist := by
    intro L
    rw [List.count_eq_length_filter, List.filter_map, List.length_map]
    congr 1
  have c1 : (A.filter fun y => y.dist = x.dist).length ≤ (N.filter fun y => y.dist = x.dist).length := by
    refine List.Subperm.length_le (List.Nodup.subperm (hnd.filter _) fun y hy => ?_)
    obtain ⟨hy1, hy2⟩ := List.mem_filter.1 hy
    exact List.mem_filter.2 ⟨hall y hy1 (by simpa using hy2), hy2⟩
  have c2 : (B.filter fun y => y.dist = x.dist).length ≤ (M.filter fun y => y.dist = x.dist).length := by
    rw [cnt, cnt, hd.count_eq, hD.count_eq, ← cnt, ← cnt]; exact c1
  have sub : (M.filter fun y => y.dist = x.dist).Subperm (B.filter fun y => y.dist = x.dist) := hM.filter _
  have pm := sub.perm_of_length_le c2
  have : z ∈ M.filter fun y => y.dist = x.dist := pm.mem_iff.2 (List.mem_filter.2 ⟨hz, by simpa using hzd⟩)
  exact ⟨z, (List.mem_filter.1 this).1, e⟩

end

/-! ### SANN -/

/-- The SANN selection from a list of nearest atoms: the atoms number 0, 1, 2, 4, …, m, the first `m` at which the rule stops. -/
def SannPick (S l : List Nb) (m : ℕ) : Prop :=
  3 ≤ m ∧ ∃ _ : m < S.length, l = S.take 3 ++ (S.drop 4).take (m - 3) ∧ (l.map Nb.dist).sum / ((m : ℝ) - 2) < S[m].dist ∧
    ∀ j, 3 ≤ j → j < m → ∃ _ : j < S.length, S[j].dist ≤ ((S.take 3 ++ (S.drop 4).take (j - 3)).map Nb.dist).sum / ((j : ℝ) - 2)

theorem SannPick.length {S l : List Nb} {m : ℕ} (h : SannPick S l m) : l.length = m := by
  obtain ⟨h1, h2, rfl, -⟩ := h
  rw [List.length_append, List.length_take, List.length_take, List.length_drop]
  omega

theorem sannSel_congr {D D' : List ℝ} {n j : ℕ} (h : D'.take n = D.take n) (hj : j < n) :
    D'.take 3 ++ (D'.drop 4).take (j - 3) = D.take 3 ++ (D.drop 4).take (j - 3) ∨ j < 3 := by
  by_cases h3 : j < 3
  · exact .inr h3
  refine .inl ?_
  have e : ∀ E : List ℝ, E.take 3 ++ (E.drop 4).take (j - 3) = (E.take n).take 3 ++ ((E.take n).drop 4).take (j - 3) := by
    intro E
    rw [List.take_take, min_eq_left (by omega), List.drop_take, List.take_take, min_eq_left (by omega)]
  rw [e D', e D, h]

/-- If the lists agree up to the atom at which one selection stops, both selections have the same distances. -/
theorem SannPick.same {S S' l l' : List Nb} {m m' : ℕ} (h : SannPick S l m) (h' : SannPick S' l' m')
    (hpre : ∀ n ≤ m + 1, n ≤ S.length → n ≤ S'.length → (S'.map Nb.dist).take n = (S.map Nb.dist).take n) :
    m' = m ∧ l'.map Nb.dist = l.map Nb.dist := by
  obtain ⟨h1, h2, rfl, h3, h4⟩ := h
  obtain ⟨h1', h2', rfl, h3', h4'⟩ := h'
  have sel : ∀ (E : List Nb) (j : ℕ), (E.take 3 ++ (E.drop 4).take (j - 3)).map Nb.dist = (E.map Nb.dist).take 3 ++ ((E.map Nb.dist).drop 4).take (j - 3) := by
    intro E j; simp
  have get : ∀ (n : ℕ) (hn : n ≤ m) (i1 : n < S.length) (i2 : n < S'.length), S'[n].dist = S[n].dist ∧
      (3 ≤ n → (S'.take 3 ++ (S'.drop 4).take (n - 3)).map Nb.dist = (S.take 3 ++ (S.drop 4).take (n - 3)).map Nb.dist) := by
    intro n hn i1 i2
    have e := hpre (n + 1) (by omega) (by omega) (by omega)
    constructor
    · have := congrArg (fun L : List ℝ => L[n]?) e
      simp only [List.getElem?_take, if_pos (Nat.lt_succ_self n), List.getElem?_map, List.getElem?_eq_getElem i1, List.getElem?_eq_getElem i2,
        Option.map_some, Option.some.injEq] at this
      exact this
    · intro h3n
      rw [sel, sel]
      exact (sannSel_congr e (Nat.lt_succ_self n)).resolve_right (by omega)
  have hm : m' = m := by
    rcases Nat.lt_trichotomy m' m with hlt | heq | hgt
    · obtain ⟨i1, hle⟩ := h4 m' h1' hlt
      obtain ⟨e1, e2⟩ := get m' hlt.le i1 h2'
      rw [e2 h1', e1] at h3'
      exact absurd hle (not_le.2 h3')
    · exact heq
    · obtain ⟨i1, hle⟩ := h4' m h1 hgt
      obtain ⟨e1, e2⟩ := get m le_rfl h2 i1
      rw [e2 h1, e1] at hle
      exact absurd hle (not_le.2 h3)
  subst hm
  exact ⟨rfl, (get m' le_rfl h2 h2').2 h1⟩

/-- The beginning of a list of nearest atoms. -/
theorem nearest_head {s : System} {i n k : ℕ} {a : Atom} {N : List Nb} (hi : s.atoms[i]? = some a) (h : Spec.NearestList s i a n N) (hk : k ≤ n) :
    Spec.NearestList s i a k (N.take k) := by
  obtain ⟨h1, h2, h3, h4, h5⟩ := h
  refine ⟨by rw [List.length_take]; omega, ?_, fun x hx => h3 x (List.mem_of_mem_take hx), h4.sublist (List.take_sublist _ _), ?_⟩
  · rw [List.map_take]; exact h2.sublist (List.take_sublist _ _)
  · intro j nb hj hne hnot x hx
    by_cases hin : ∀ y ∈ N, y.idx ≠ j
    · exact h5 j nb hj hne hin x (List.mem_of_mem_take hx)
    · push Not at hin
      obtain ⟨y, hy, rfl⟩ := hin
      obtain ⟨c, hc, -, hd, -⟩ := h3 y hy
      rw [hj] at hc
      obtain rfl := Option.some.inj hc
      rw [← hd]
      have hsplit := List.take_append_drop k N
      rw [← hsplit, List.pairwise_append] at h4
      rw [← hsplit, List.mem_append] at hy
      rcases hy with hy | hy
      · exact absurd rfl (hnot y hy)
      · exact h4.2.2 x hx y hy

section
variable {β : Type} {F F' : Nb → β} {δ : β → ℝ} {s g : System} {i k m m' : ℕ} {a c : Atom} {S S' l l' : List Nb} {r : ℝ}

/-- The selections of two atoms with the same surroundings within `r`, if that ball contains all the atoms that decide about one of them. -/
theorem sann_same (hi : s.atoms[i]? = some a) (hk : g.atoms[k]? = some c) (hF : ∀ x ∈ cutoffNbs s r 0 i, δ (F x) = x.dist)
    (hF' : ∀ x ∈ cutoffNbs g r 0 k, δ (F' x) = x.dist) (hP : ((cutoffNbs g r 0 k).map F').Perm ((cutoffNbs s r 0 i).map F))
    (hS : Spec.NearestList s i a S.length S) (hS' : Spec.NearestList g k c S'.length S') (h : SannPick S l m) (h' : SannPick S' l' m')
    (hn : m + 1 ≤ (cutoffNbs s r 0 i).length) :
    l'.map Nb.dist = l.map Nb.dist ∧
    ∀ x ∈ l, (∀ y, Spec.GoodEntry s i a y → y.dist = x.dist → y ∈ l) → ∃ z ∈ l', F' z = F x := by
  have hlen : (cutoffNbs g r 0 k).length = (cutoffNbs s r 0 i).length := by
    have := hP.length_eq
    rwa [List.length_map, List.length_map] at this
  have hD : ((cutoffNbs g r 0 k).map Nb.dist).Perm ((cutoffNbs s r 0 i).map Nb.dist) := by
    have e1 : (cutoffNbs g r 0 k).map Nb.dist = ((cutoffNbs g r 0 k).map F').map δ := by rw [List.map_map]; exact List.map_congr_left fun y hy => (hF' y hy).symm
    have e2 : (cutoffNbs s r 0 i).map Nb.dist = ((cutoffNbs s r 0 i).map F).map δ := by rw [List.map_map]; exact List.map_congr_left fun y hy => (hF y hy).symm
    rw [e1, e2]; exact hP.map δ
  have hpre : ∀ n ≤ m + 1, n ≤ S.length → n ≤ S'.length → (S'.map Nb.dist).take n = (S.map Nb.dist).take n := by
    intro n hnm h1 h2
    rw [← List.map_take, ← List.map_take]
    have b1 := ballHead_of (r := r) (nearest_head hi hS h1) hi (by omega)
    have b2 := ballHead_of (r := r) (nearest_head hk hS' h2) hk (by omega)
    exact b1.dists b2 hD (by rw [List.length_take, List.length_take]; omega)
  obtain ⟨rfl, hd⟩ := h.same h' hpre
  refine ⟨hd, fun x hx hall => ?_⟩
  have sub : ∀ {t : System} {j : ℕ} {b : Atom} {E e : List Nb} (_ : t.atoms[j]? = some b) (_ : Spec.NearestList t j b E.length E) (_ : SannPick E e m')
      (_ : m' + 1 ≤ (cutoffNbs t r 0 j).length), e.Subperm (cutoffNbs t r 0 j) := by
    intro t j b E e hj hE he hball
    obtain ⟨g1, g2, rfl, -⟩ := he
    have hN := nearest_head (k := m' + 1) hj hE (by omega)
    have hsub := nearest_ball hN hj hball
    have hsl : (E.take 3 ++ (E.drop 4).take (m' - 3)).Sublist (E.take (m' + 1)) := by
      have e1 : E.take (m' + 1) = E.take 3 ++ (E.drop 3).take (m' - 2) := by
        rw [← List.take_add]; congr 1; omega
      rw [e1]
      refine List.Sublist.append (List.Sublist.refl _) ?_
      rw [show m' - 2 = (m' - 3) + 1 by omega, List.drop_eq_getElem_cons (show 3 < E.length by omega), List.take_succ_cons]
      exact List.sublist_cons_self _ _
    refine hsl.subperm.trans (List.Nodup.subperm (List.Nodup.of_map _ hN.2.1) hsub)
  refine shell_match hF hF' hP (sub hi hS h hn) (sub hk hS' h' (hlen ▸ hn)) (List.Nodup.of_map _ (ball_idx_nodup s r 0 i)) (List.Perm.of_eq hd) hx
    fun y hy hyd => hall y ((mem_ball hi).1 hy).1 hyd

end

end Pyscal
