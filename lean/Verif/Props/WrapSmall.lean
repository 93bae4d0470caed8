import Verif.Props.Wrapping

/-! Putting atoms back into the cell (C78), for inputs that are padded with periodic copies. -/

namespace Pyscal

open Spec (diagBox ofFrac latticeVec IsImage FracBound)

/-! ### Renumbering of blocks -/

section

variable {γ : Type} [DecidableEq γ]

/-- Copy number `k` of atom `k % n` moves to another block, by a map that may depend on the atom. -/
def blockFun (n : ℕ) (L : List γ) (τ : ℕ → γ → γ) (k : ℕ) : ℕ :=
  match L[k / n]? with
  | some c => n * L.idxOf (τ (k % n) c) + k % n
  | none => k

theorem blockFun_some {n : ℕ} (hn : 0 < n) {L : List γ} {τ : ℕ → γ → γ} (hτ : ∀ i, ∀ c ∈ L, τ i c ∈ L) {k : ℕ} {c : γ} (hc : L[k / n]? = some c) :
    blockFun n L τ k % n = k % n ∧ L[blockFun n L τ k / n]? = some (τ (k % n) c) ∧ blockFun n L τ k / n = L.idxOf (τ (k % n) c) := by
  have e : blockFun n L τ k = n * L.idxOf (τ (k % n) c) + k % n := by unfold blockFun; rw [hc]
  have hm := hτ (k % n) c (List.mem_of_getElem? hc)
  have hlt := Nat.mod_lt k hn
  have hd : blockFun n L τ k / n = L.idxOf (τ (k % n) c) := by
    rw [e, Nat.mul_add_div hn, Nat.div_eq_of_lt hlt, add_zero]
  refine ⟨by rw [e, Nat.mul_add_mod, Nat.mod_eq_of_lt hlt], ?_, hd⟩
  rw [hd, List.getElem?_eq_getElem (List.idxOf_lt_length_of_mem hm), List.getElem_idxOf]

theorem blockFun_none {n : ℕ} {L : List γ} {τ : ℕ → γ → γ} {k : ℕ} (hc : L[k / n]? = none) : blockFun n L τ k = k := by
  unfold blockFun; rw [hc]

theorem blockFun_inv {n : ℕ} (hn : 0 < n) {L : List γ} (hL : L.Nodup) {τ τ' : ℕ → γ → γ} (hτ : ∀ i, ∀ c ∈ L, τ i c ∈ L)
    (hτ' : ∀ i, ∀ c ∈ L, τ' i (τ i c) = c) (k : ℕ) : blockFun n L τ' (blockFun n L τ k) = k := by
  rcases hc : L[k / n]? with _ | c
  · rw [blockFun_none hc, blockFun_none hc]
  · obtain ⟨h1, h2, -⟩ := blockFun_some hn hτ hc
    have e : blockFun n L τ' (blockFun n L τ k) = n * L.idxOf (τ' (blockFun n L τ k % n) (τ (k % n) c)) + blockFun n L τ k % n := by
      rw [blockFun, h2]
    rw [e, h1, hτ' _ _ (List.mem_of_getElem? hc)]
    obtain ⟨hk, rfl⟩ := List.getElem?_eq_some_iff.1 hc
    rw [hL.idxOf_getElem]
    exact Nat.div_add_mod k n

/-- The renumbering as a permutation. -/
def blockPerm {n : ℕ} (hn : 0 < n) {L : List γ} (hL : L.Nodup) (τ τ' : ℕ → γ → γ) (h1 : ∀ i, ∀ c ∈ L, τ i c ∈ L)
    (h2 : ∀ i, ∀ c ∈ L, τ' i c ∈ L) (h3 : ∀ i, ∀ c ∈ L, τ' i (τ i c) = c) (h4 : ∀ i, ∀ c ∈ L, τ i (τ' i c) = c) : Equiv.Perm ℕ where
  toFun := blockFun n L τ
  invFun := blockFun n L τ'
  left_inv := blockFun_inv hn hL h1 h3
  right_inv := blockFun_inv hn hL h2 h4

theorem blockFun_lt {n : ℕ} (hn : 0 < n) {L : List γ} {τ : ℕ → γ → γ} (hτ : ∀ i, ∀ c ∈ L, τ i c ∈ L) (k : ℕ) :
    blockFun n L τ k < n * L.length ↔ k < n * L.length := by
  have key : ∀ j, j < n * L.length ↔ L[j / n]? ≠ none := by
    intro j
    rw [ne_eq, List.getElem?_eq_none_iff, not_le, Nat.div_lt_iff_lt_mul hn, mul_comm]
  rw [key, key]
  rcases hc : L[k / n]? with _ | c
  · rw [blockFun_none hc, hc]
  · rw [(blockFun_some hn hτ hc).2.1]; simp

end

/-! ### Cells of the padded system -/

/-- The representative of `x` modulo `2m+1` between `-m` and `m`. -/
def cmod (m : ℕ) (x : ℤ) : ℤ := (x + m) % (2 * m + 1) - m

theorem cmod_range (m : ℕ) (x : ℤ) : -(m : ℤ) ≤ cmod m x ∧ cmod m x ≤ m := by
  unfold cmod
  have h1 := Int.emod_nonneg (x + m) (b := 2 * m + 1) (by omega)
  have h2 := Int.emod_lt_of_pos (x + m) (b := 2 * m + 1) (by omega)
  constructor <;> omega

theorem cmod_eq (m : ℕ) (x : ℤ) : ∃ z : ℤ, cmod m x = x + (2 * m + 1) * z := by
  refine ⟨-((x + m) / (2 * m + 1)), ?_⟩
  unfold cmod
  have := Int.emod_add_mul_ediv (x + m) (2 * m + 1)
  linarith

theorem cmod_unique (m : ℕ) {x y z : ℤ} (h : x = y + (2 * m + 1) * z) (hy : -(m : ℤ) ≤ y ∧ y ≤ m) : cmod m x = y := by
  unfold cmod
  rw [h, show y + (2 * (m : ℤ) + 1) * z + m = (y + m) + (2 * m + 1) * z by ring, Int.add_mul_emod_self_left,
    Int.emod_eq_of_lt (by omega) (by omega)]
  ring

/-- Move a cell by `v`, within the padded system. -/
def shiftCell (m : ℕ) (v c : ℤ × ℤ × ℤ) : ℤ × ℤ × ℤ := (cmod m (c.1 + v.1), cmod m (c.2.1 + v.2.1), cmod m (c.2.2 + v.2.2))

/-- All cells of the padded system, in the order in which their atoms are stored. -/
def padCells (m : ℕ) : List (ℤ × ℤ × ℤ) := (0, 0, 0) :: repCells m m m

theorem mem_padCells {m : ℕ} {c : ℤ × ℤ × ℤ} : c ∈ padCells m ↔ (-(m : ℤ) ≤ c.1 ∧ c.1 ≤ m) ∧ (-(m : ℤ) ≤ c.2.1 ∧ c.2.1 ≤ m) ∧
    (-(m : ℤ) ≤ c.2.2 ∧ c.2.2 ≤ m) := by
  unfold padCells
  rw [List.mem_cons, mem_repCells]
  simp only [mem_repRange]
  by_cases h : c = (0, 0, 0)
  · subst h; simp
  · simp [h]

theorem padCells_nodup (m : ℕ) : (padCells m).Nodup := by
  unfold padCells
  rw [List.nodup_cons]
  exact ⟨fun h => (mem_repCells.1 h).2 rfl, repCells_nodup m m m⟩

theorem shiftCell_mem (m : ℕ) (v c : ℤ × ℤ × ℤ) : shiftCell m v c ∈ padCells m :=
  mem_padCells.2 ⟨cmod_range _ _, cmod_range _ _, cmod_range _ _⟩

theorem shiftCell_inv (m : ℕ) (v v' : ℤ × ℤ × ℤ) (h1 : v'.1 = -v.1) (h2 : v'.2.1 = -v.2.1) (h3 : v'.2.2 = -v.2.2) {c : ℤ × ℤ × ℤ}
    (hc : c ∈ padCells m) : shiftCell m v' (shiftCell m v c) = c := by
  obtain ⟨c1, c2, c3⟩ := mem_padCells.1 hc
  obtain ⟨z1, e1⟩ := cmod_eq m (c.1 + v.1)
  obtain ⟨z2, e2⟩ := cmod_eq m (c.2.1 + v.2.1)
  obtain ⟨z3, e3⟩ := cmod_eq m (c.2.2 + v.2.2)
  unfold shiftCell
  refine Prod.ext ?_ (Prod.ext ?_ ?_)
  · exact cmod_unique m (z := z1) (by dsimp only; rw [e1, h1]; ring) c1
  · exact cmod_unique m (z := z2) (by dsimp only; rw [e2, h2]; ring) c2
  · exact cmod_unique m (z := z3) (by dsimp only; rw [e3, h3]; ring) c3

/-- Position and type of the stored atom number `k`. -/
theorem padded_mem {s : System} {b : Mat3} {m : ℕ} {l : List Atom} (hs : s.atoms = l ++ repNew b true m m m l) (hn : 0 < l.length) {k : ℕ}
    (hk : k < s.atoms.length) : ∃ c ∈ padCells m, (padCells m)[k / l.length]? = some c ∧
      geo (s.mem k) = geo (repAtom b true c (l[k % l.length]'(Nat.mod_lt _ hn))) := by
  have h1 : (s.atoms.map geo)[k]? = some (geo (s.mem k)) := by
    rw [List.getElem?_map, List.getElem?_eq_getElem hk, mem_eq_getElem _ _ hk]; rfl
  rw [hs, padded_geo, block_getElem? _ _ _ hn] at h1
  change ((padCells m)[k / l.length]?).bind _ = _ at h1
  rcases hc : (padCells m)[k / l.length]? with _ | c
  · rw [hc] at h1; cases h1
  · rw [hc, List.getElem?_eq_getElem (Nat.mod_lt _ hn)] at h1
    exact ⟨c, List.mem_of_getElem? hc, rfl, (Option.some.inj h1).symm⟩

/-- A fraction of the scaled box. -/
theorem ofFrac_scale (b : Mat3) (m : ℕ) (f : V3) :
    ofFrac (scaleBox b m m m) ⟨f.x / (2 * m + 1), f.y / (2 * m + 1), f.z / (2 * m + 1)⟩ = ofFrac b f := by
  have : (2 * (m : ℝ) + 1) ≠ 0 := by positivity
  ext <;> simp [ofFrac, scaleBox] <;> field_simp

/-- Fractions in the padded box are odd multiples smaller, so none is a half if none was before. -/
theorem half_scaled {m : ℕ} {x : ℝ} {c : ℤ} (h : ∀ n : ℤ, x ≠ n + 1 / 2) (n : ℤ) : (x + c) / (2 * m + 1) ≠ n + 1 / 2 := by
  intro e
  have hw : (2 * (m : ℝ) + 1) ≠ 0 := by positivity
  rw [div_eq_iff hw] at e
  refine h (n * (2 * m + 1) + m - c) ?_
  push_cast
  linarith

theorem bound_scaled {m : ℕ} {x : ℝ} {c c' : ℤ} (h : |x| ≤ 3 / 2) (hc : -(m : ℤ) ≤ c ∧ c ≤ m) (hc' : -(m : ℤ) ≤ c' ∧ c' ≤ m) :
    |(x + ((c' - c : ℤ) : ℝ)) / (2 * m + 1)| ≤ 3 / 2 := by
  have hw : (0 : ℝ) < 2 * m + 1 := by positivity
  have h1 : ((c' - c : ℤ) : ℝ) ≤ 2 * m := by exact_mod_cast (by omega : c' - c ≤ 2 * m)
  have h2 : -(2 * (m : ℝ)) ≤ ((c' - c : ℤ) : ℝ) := by exact_mod_cast (by omega : -(2 * (m : ℤ)) ≤ c' - c)
  have h3 : (0 : ℝ) ≤ m := Nat.cast_nonneg m
  rw [abs_le] at h
  rw [abs_div, abs_of_pos hw, div_le_iff₀ hw, abs_le]
  constructor <;> linarith [h.1, h.2]

/-- The renumbering between a padded system and the padded system of the same atoms in other cells, which keeps atom `i0`. -/
theorem relab_wrapped {s g : System} {b : Mat3} {m : ℕ} {l l' : List Atom} {t : V3} (hs : s.atoms = l ++ repNew b true m m m l)
    (hg : g.atoms = l' ++ repNew b true m m m l') (hbox : s.box = scaleBox b m m m) (hbox' : g.box = s.box)
    (hrot : g.rot = s.rot) (hrotinv : g.rotinv = s.rotinv) (htri : g.triclinic = s.triclinic) (hF : FracBox s)
    (hreal : g.realNop = s.realNop) (hn : 0 < l.length)
    (hw : Spec.Rewrapped b t l l') (hc : Spec.Compact b l) (hc' : Spec.Compact b l') (hh : Spec.NoHalfCell b l)
    (i0 : ℕ) (hi0 : i0 < l.length) :
    ∃ ρ : Equiv.Perm ℕ, ρ i0 = i0 ∧ (∀ k, ρ k % l.length = k % l.length) ∧ Relab (fun _ _ => True) ρ s g := by
  have hlen : l'.length = l.length := hw.length_eq.symm
  have hB : ∀ v, ∃ f, v = ofFrac b f := by
    intro v
    obtain ⟨f, hf⟩ := hF.2.2.2.1 v
    refine ⟨⟨(2 * m + 1) * f.x, (2 * m + 1) * f.y, (2 * m + 1) * f.z⟩, ?_⟩
    have : (2 * (m : ℝ) + 1) ≠ 0 := by positivity
    rw [hf, hbox, ← ofFrac_scale b m]
    congr 1
    ext <;> simp only <;> field_simp
  have hat : ∀ k (hk : k < l.length), ∃ v : ℤ × ℤ × ℤ, ∃ hk' : k < l'.length, l'[k].type = l[k].type ∧
      l'[k].pos = l[k].pos + t + latticeVec b v.1 v.2.1 v.2.2 := by
    intro k hk
    obtain ⟨h1, -, n1, n2, n3, h2⟩ := (List.forall₂_iff_get.1 hw).2 k hk (hlen.symm ▸ hk)
    exact ⟨(n1, n2, n3), hlen.symm ▸ hk, h1, h2⟩
  choose! v hv using hat
  -- how far the copies of atom `i` move
  set u : ℕ → ℤ × ℤ × ℤ := fun i => ((v i0).1 - (v i).1, (v i0).2.1 - (v i).2.1, (v i0).2.2 - (v i).2.2) with hu
  set u' : ℕ → ℤ × ℤ × ℤ := fun i => ((v i).1 - (v i0).1, (v i).2.1 - (v i0).2.1, (v i).2.2 - (v i0).2.2) with hu'
  set ρ : Equiv.Perm ℕ := blockPerm hn (padCells_nodup m) (fun i c => shiftCell m (u i) c) (fun i c => shiftCell m (u' i) c)
    (fun i c _ => shiftCell_mem m _ _) (fun i c _ => shiftCell_mem m _ _)
    (fun i c hc => shiftCell_inv m _ _ (by simp only [hu, hu']; ring) (by simp only [hu, hu']; ring) (by simp only [hu, hu']; ring) hc)
    (fun i c hc => shiftCell_inv m _ _ (by simp only [hu, hu']; ring) (by simp only [hu, hu']; ring) (by simp only [hu, hu']; ring) hc) with hρ
  have hρe : ∀ k, ρ k = blockFun l.length (padCells m) (fun i c => shiftCell m (u i) c) k := fun _ => rfl
  have hL : s.atoms.length = l.length * (padCells m).length := by
    rw [hs, List.length_append, repNew_length]
    simp only [padCells, List.length_cons]; ring
  have hL' : g.atoms.length = s.atoms.length := by
    rw [hs, hg, List.length_append, repNew_length, List.length_append, repNew_length, hlen]
  have hlt : ∀ k, ρ k < s.atoms.length ↔ k < s.atoms.length := by
    intro k; rw [hL, hρe]; exact blockFun_lt hn (fun i c _ => shiftCell_mem m _ _) k
  have hmod : ∀ k, ρ k % l.length = k % l.length := by
    intro k
    rw [hρe]
    rcases hcc : (padCells m)[k / l.length]? with _ | c
    · rw [blockFun_none hcc]
    · exact (blockFun_some hn (fun i c _ => shiftCell_mem m _ _) hcc).1
  -- corresponding atoms
  have hpair : ∀ k < s.atoms.length, ∃ c ∈ padCells m, ∃ c' ∈ padCells m, ∃ z : ℤ × ℤ × ℤ,
      s.posOf k = (l[k % l.length]'(Nat.mod_lt _ hn)).pos + latticeVec b c.1 c.2.1 c.2.2 ∧
      g.posOf (ρ k) = (l'[k % l.length]'(hlen.symm ▸ Nat.mod_lt _ hn)).pos + latticeVec b c'.1 c'.2.1 c'.2.2 ∧
      g.posOf (ρ k) = s.posOf k + t + latticeVec b (v i0).1 (v i0).2.1 (v i0).2.2 + latticeVec s.box z.1 z.2.1 z.2.2 ∧
      g.typeOf (ρ k) = s.typeOf k := by
    intro k hk
    obtain ⟨c, hcm, hce, hcg⟩ := padded_mem hs hn hk
    have hk' : ρ k < g.atoms.length := hL' ▸ (hlt k).2 hk
    obtain ⟨c', hcm', hce', hcg'⟩ := padded_mem hg (hlen.symm ▸ hn) hk'
    have hbf := blockFun_some hn (fun i c _ => shiftCell_mem m (u i) c) hce
    have hcc' : c' = shiftCell m (u (k % l.length)) c := by
      rw [hlen, hρe, hbf.2.1] at hce'
      exact (Option.some.inj hce').symm
    have hmk : l'[ρ k % l'.length]'(Nat.mod_lt _ (hlen.symm ▸ hn)) = l'[k % l.length]'(hlen.symm ▸ Nat.mod_lt _ hn) := by
      congr 1
      rw [hlen]; exact hmod k
    rw [hmk] at hcg'
    have e1 : s.posOf k = (l[k % l.length]'(Nat.mod_lt _ hn)).pos + latticeVec b c.1 c.2.1 c.2.2 := by
      refine (congrArg Prod.fst hcg).trans ?_
      simp only [geo, repAtom, latticeVec]
      ext <;> simp <;> ring
    have e2 : g.posOf (ρ k) = (l'[k % l.length]'(hlen.symm ▸ Nat.mod_lt _ hn)).pos + latticeVec b c'.1 c'.2.1 c'.2.2 := by
      refine (congrArg Prod.fst hcg').trans ?_
      simp only [geo, repAtom, latticeVec]
      ext <;> simp <;> ring
    obtain ⟨z1, f1⟩ := cmod_eq m (c.1 + (u (k % l.length)).1)
    obtain ⟨z2, f2⟩ := cmod_eq m (c.2.1 + (u (k % l.length)).2.1)
    obtain ⟨z3, f3⟩ := cmod_eq m (c.2.2 + (u (k % l.length)).2.2)
    obtain ⟨_, ht1, ht2⟩ := hv (k % l.length) (Nat.mod_lt _ hn)
    refine ⟨c, hcm, c', hcm', (z1, z2, z3), e1, e2, ?_, ?_⟩
    · rw [e2, e1, ht2, hcc', hbox]
      simp only [shiftCell, f1, f2, f3]
      simp only [hu, latticeVec, scaleBox]
      ext <;> simp <;> ring
    · have a1 : s.typeOf k = (l[k % l.length]'(Nat.mod_lt _ hn)).type := congrArg Prod.snd hcg
      have a2 : g.typeOf (ρ k) = (l'[k % l.length]'(hlen.symm ▸ Nat.mod_lt _ hn)).type := congrArg Prod.snd hcg'
      rw [a1, a2, ht1]
  refine ⟨ρ, ?_, hmod, hL', hlt, fun _ _ => trivial, fun k hk => ?_, fun i hi j hj => ?_, hreal⟩
  · -- atom `i0` stays
    have h0 : (padCells m)[i0 / l.length]? = some (0, 0, 0) := by rw [Nat.div_eq_of_lt hi0]; rfl
    have hz : shiftCell m (u (i0 % l.length)) (0, 0, 0) = (0, 0, 0) := by
      rw [Nat.mod_eq_of_lt hi0]
      unfold shiftCell
      have e : ∀ x : ℤ, cmod m (0 + (x - x)) = 0 := fun x => cmod_unique m (z := 0) (by ring) (by omega)
      simp only [hu, e]
    rw [hρe, blockFun, h0]
    dsimp only
    rw [hz, Nat.mod_eq_of_lt hi0]
    simp [padCells, List.idxOf_cons]
  · obtain ⟨_, _, _, _, _, _, _, _, h⟩ := hpair k hk
    exact h
  · obtain ⟨c, hcm, d, hdm, z, e1, e2, e3, -⟩ := hpair i hi
    obtain ⟨c', hcm', d', hdm', z', e1', e2', e3', -⟩ := hpair j hj
    have hFb : ∀ (k : List Atom), Spec.Compact b k → ∀ (a a' : Atom), a ∈ k → a' ∈ k → ∀ (c c' : ℤ × ℤ × ℤ), c ∈ padCells m → c' ∈ padCells m →
        FracBound s.box (a'.pos + latticeVec b c'.1 c'.2.1 c'.2.2 - (a.pos + latticeVec b c.1 c.2.1 c.2.2)) (3 / 2) := by
      intro k hk a a' ha ha' c c' hcm hcm'
      obtain ⟨f, hf, f1, f2, f3⟩ := hk a ha a' ha'
      obtain ⟨q1, q2, q3⟩ := mem_padCells.1 hcm
      obtain ⟨r1, r2, r3⟩ := mem_padCells.1 hcm'
      refine ⟨⟨(f.x + ((c'.1 - c.1 : ℤ) : ℝ)) / (2 * m + 1), (f.y + ((c'.2.1 - c.2.1 : ℤ) : ℝ)) / (2 * m + 1), (f.z + ((c'.2.2 - c.2.2 : ℤ) : ℝ)) / (2 * m + 1)⟩, ?_,
        bound_scaled f1 q1 r1, bound_scaled f2 q2 r2, bound_scaled f3 q3 r3⟩
      rw [hbox, ofFrac_scale b m ⟨f.x + ((c'.1 - c.1 : ℤ) : ℝ), f.y + ((c'.2.1 - c.2.1 : ℤ) : ℝ), f.z + ((c'.2.2 - c.2.2 : ℤ) : ℝ)⟩]
      have : a'.pos = a.pos + ofFrac b f := by rw [← hf]; ext <;> simp
      rw [this]
      simp only [ofFrac, latticeVec]
      ext <;> simp <;> ring
    change g.image (g.posOf (ρ j) - g.posOf (ρ i)) = s.image (s.posOf j - s.posOf i)
    refine (image_frame hbox' hrot hrotinv htri _).trans (hF.image_shift ?_ ?_ ?_ ?_)
    · rw [e1, e1']
      exact hFb l hc _ _ (List.getElem_mem _) (List.getElem_mem _) c c' hcm hcm'
    · rw [e2, e2']
      exact hFb l' hc' _ _ (List.getElem_mem _) (List.getElem_mem _) d d' hdm hdm'
    · refine ⟨z'.1 - z.1, z'.2.1 - z.2.1, z'.2.2 - z.2.2, ?_⟩
      rw [e3, e3']
      simp only [latticeVec]
      ext <;> simp <;> ring
    · intro f hf n
      rw [e1, e1'] at hf
      obtain ⟨f0, hf0⟩ := hB ((l[j % l.length]'(Nat.mod_lt _ hn)).pos - (l[i % l.length]'(Nat.mod_lt _ hn)).pos)
      have hno := hh _ (List.getElem_mem (Nat.mod_lt i hn)) _ (List.getElem_mem (Nat.mod_lt j hn)) f0 hf0
      have hfe : f = ⟨(f0.x + ((c'.1 - c.1 : ℤ) : ℝ)) / (2 * m + 1), (f0.y + ((c'.2.1 - c.2.1 : ℤ) : ℝ)) / (2 * m + 1), (f0.z + ((c'.2.2 - c.2.2 : ℤ) : ℝ)) / (2 * m + 1)⟩ := by
        refine hF.2.2.2.2.1 _ _ (hf.symm.trans ?_)
        rw [hbox, ofFrac_scale b m ⟨f0.x + ((c'.1 - c.1 : ℤ) : ℝ), f0.y + ((c'.2.1 - c.2.1 : ℤ) : ℝ), f0.z + ((c'.2.2 - c.2.2 : ℤ) : ℝ)⟩]
        have : (l[j % l.length]'(Nat.mod_lt _ hn)).pos = (l[i % l.length]'(Nat.mod_lt _ hn)).pos + ofFrac b f0 := by rw [← hf0]; ext <;> simp
        rw [this]
        simp only [ofFrac, latticeVec]
        ext <;> simp <;> ring
      rw [hfe]
      exact ⟨half_scaled (fun n => (hno n).1) n, half_scaled (fun n => (hno n).2.1) n, half_scaled (fun n => (hno n).2.2) n⟩

/-- A neighbour, up to the cell in which its copy lies: periodic copies of one atom are identified. -/
def Spec.upToCell (n : ℕ) (x : Nb) : Nb := { x with idx := x.idx % n }

theorem fracBox_scaled {b : Mat3} (hb : Spec.Skew b ∨ ∃ lx ly lz, 0 < lx ∧ 0 < ly ∧ 0 < lz ∧ b = diagBox lx ly lz) {m : ℕ} {s s0 s1 : System}
    (h0 : System.init.setBox b = .ok s0) (h1 : ({ s0 with actualBox := some b } : System).setBox (scaleBox b m m m) = .ok s1)
    (hs : s.box = s1.box ∧ s.rot = s1.rot ∧ s.rotinv = s1.rotinv ∧ s.triclinic = s1.triclinic) : FracBox s := by
  rcases hb with hb | ⟨lx, ly, lz, hx, hy, hz, rfl⟩
  · have hk : Skewed (scaleBox b m m m) := (skewed_scaleBox b m).2 ((skewed_iff b).2 hb)
    have hT := (setBox_skewed hk h1).1
    exact fracBox_tri ⟨by rw [hs.2.2.2]; exact hT.tri, by rw [hs.2.1, hs.1]; exact hT.rot, by rw [hs.2.2.1, hs.1]; exact hT.rotinv, by rw [hs.1]; exact hT.det⟩
  · have e0 : System.init.setBox (diagBox lx ly lz) = .ok { System.init with box := diagBox lx ly lz } := by
      simp [System.setBox, not_skewed_diag]
    rw [e0] at h0
    cases h0
    have e : scaleBox (diagBox lx ly lz) m m m = diagBox ((2 * m + 1) * lx) ((2 * m + 1) * ly) ((2 * m + 1) * lz) := by
      simp only [scaleBox, diagBox]
      ext <;> simp
    have hw : (0 : ℝ) < 2 * m + 1 := by positivity
    have hbox := (setBox_frame h1).1
    rw [e] at h1 hbox
    refine fracBox_diag (mul_pos hw hx) (mul_pos hw hy) (mul_pos hw hz) ?_ (hs.1.trans hbox)
    simp [System.setBox, not_skewed_diag] at h1
    rw [hs.2.2.2, ← h1]; rfl

/-- The systems built of two such lists of fewer than 200 atoms: for every atom there is a renumbering that keeps it. -/
theorem build_wrapped (b : Mat3) (hb : Spec.Skew b ∨ ∃ lx ly lz, 0 < lx ∧ 0 < ly ∧ 0 < lz ∧ b = diagBox lx ly lz)
    (l l' : List Atom) (t : V3) (hw : Spec.Rewrapped b t l l') (h200 : l.length < 200) (hreal : ∀ a ∈ l, a.ghost = false)
    (hc : Spec.Compact b l) (hc' : Spec.Compact b l') (hh : Spec.NoHalfCell b l) (hn : 0 < l.length) :
    RelE (fun s g => s.realNop = l.length ∧ ∀ i0 < l.length, ∃ ρ : Equiv.Perm ℕ, ρ i0 = i0 ∧ (∀ k, ρ k % l.length = k % l.length) ∧
      Relab (fun _ _ => True) ρ s g) (buildSystem b l) (buildSystem b l') := by
  have hlen : l'.length = l.length := hw.length_eq.symm
  have hreal' : ∀ a ∈ l', a.ghost = false := by
    intro a ha
    obtain ⟨k, hk, rfl⟩ := List.getElem_of_mem ha
    exact (((List.forall₂_iff_get.1 hw).2 k (hlen ▸ hk) hk).2.1).trans (hreal _ (List.getElem_mem _))
  have hcr : ∀ m : List Atom, (∀ a ∈ m, a.ghost = false) → countReal m = m.length := by
    intro m hm
    unfold countReal
    rw [List.filter_eq_self.2]
    intro a ha; rw [hm a ha]; rfl
  have hcg : ∀ (b : Mat3) (n : ℕ) (m : List Atom), countReal (repNew b true n n n m) = 0 := by
    intro b n m
    unfold countReal
    rw [List.filter_eq_nil_iff.2 (fun a ha => by rw [repNew_ghost a ha]; simp)]; rfl
  unfold buildSystem
  rcases h0 : System.init.setBox b with e | s0
  · exact rfl
  simp only [bind, Except.bind]
  unfold System.assignAtoms
  simp only [hlen]
  rw [if_pos h200, if_pos h200, if_neg hn.ne', if_neg hn.ne']
  by_cases hbs : boxSum s0.getBox = 0
  · rw [if_pos hbs, if_pos hbs]; exact rfl
  rw [if_neg hbs, if_neg hbs]
  have hgb : s0.getBox = b := by
    have h2 := setBox_frame h0
    unfold System.getBox
    rw [h2.2.1, h2.1]; rfl
  set n := padReps l.length
  unfold System.repeatAtoms
  simp only [if_true, hgb]
  rcases h1 : ({ s0 with actualBox := some b } : System).setBox (scaleBox b n n n) with e | s1
  · exact rfl
  · change (System.setAtoms { s1 with ghostsCreated := true } (l ++ repNew b true n n n l)).realNop = _ ∧ ∀ i0 < l.length, ∃ ρ : Equiv.Perm ℕ,
      ρ i0 = i0 ∧ (∀ k, ρ k % l.length = k % l.length) ∧ Relab (fun _ _ => True) ρ
        (System.setAtoms { s1 with ghostsCreated := true } (l ++ repNew b true n n n l)) (System.setAtoms { s1 with ghostsCreated := true } (l' ++ repNew b true n n n l'))
    have hF : FracBox (System.setAtoms { s1 with ghostsCreated := true } (l ++ repNew b true n n n l)) := fracBox_scaled hb h0 h1 ⟨rfl, rfl, rfl, rfl⟩
    refine ⟨?_, fun i0 hi0 => relab_wrapped (s := System.setAtoms { s1 with ghostsCreated := true } (l ++ repNew b true n n n l)) (g := System.setAtoms { s1 with ghostsCreated := true } (l' ++ repNew b true n n n l')) rfl rfl
      (setBox_frame h1).1 rfl rfl rfl rfl hF ?_ hn hw hc hc' hh i0 hi0⟩
    · change countReal (l ++ repNew b true n n n l) = _
      rw [countReal_append, hcg, hcr _ hreal, add_zero]
    · change countReal (l' ++ repNew b true n n n l') = countReal (l ++ repNew b true n n n l)
      rw [countReal_append, countReal_append, hcg, hcg, hcr _ hreal, hcr _ hreal', hlen]

/-- **C78 for fewer than 200 atoms** (the system is padded with periodic copies).  Translating all atoms
and putting every atom back into the cell changes nothing that a search with a numeric cutoff reports,
except which periodic copy of a neighbour is meant: every atom has the same neighbours with the same
distances, weights and vectors, and the same Steinhardt parameters, plain and averaged. -/
theorem C78_small (σ : StdSort) (b : Mat3)
    (hb : Spec.Skew b ∨ ∃ lx ly lz, 0 < lx ∧ 0 < ly ∧ 0 < lz ∧ b = diagBox lx ly lz)
    (l l' : List Atom) (t : V3) (hw : Spec.Rewrapped b t l l') (h200 : l.length < 200) (hreal : ∀ a ∈ l, a.ghost = false)
    (hc : Spec.Compact b l) (hc' : Spec.Compact b l') (hh : Spec.NoHalfCell b l)
    (f : ℕ) {r : ℝ} (hr : r ≠ 0) (ls : List ℤ) (av : Bool) :
    RelE (List.Forall₂ fun x y : Atom => y.type = x.type ∧
        (y.nbrs.map (Spec.upToCell l.length)).Perm (x.nbrs.map (Spec.upToCell l.length)) ∧
        ∀ l : ℕ, (l : ℤ) ∈ ls → y.q l = x.q l ∧ (av = true → y.aq l = x.aq l))
      (analyse σ b l f (.cutoff r) ls av) (analyse σ b l' f (.cutoff r) ls av) := by
  have hlen : l'.length = l.length := hw.length_eq.symm
  rcases Nat.eq_zero_or_pos l.length with h0 | hn
  · have e1 : l = [] := List.length_eq_zero_iff.1 h0
    have e2 : l' = [] := List.length_eq_zero_iff.1 (by rw [hlen]; exact h0)
    subst e1; subst e2
    rcases analyse σ b [] f (.cutoff r) ls av with e | A
    · exact rfl
    · exact List.forall₂_same.2 fun _ _ => ⟨rfl, List.Perm.refl _, fun _ _ => ⟨rfl, fun _ => rfl⟩⟩
  have hbuild := build_wrapped b hb l l' t hw h200 hreal hc hc' hh hn
  unfold analyse
  rcases h1 : buildSystem b l with e | s <;> rcases h2 : buildSystem b l' with e' | g <;> rw [h1, h2] at hbuild
  · exact hbuild
  · exact hbuild.elim
  · exact hbuild.elim
  obtain ⟨hrn, hρ⟩ := hbuild
  -- one renumbering settles whether the runs succeed, and each atom has its own to compare the results
  have hstep : ∀ i0 < l.length, ∃ ρ : Equiv.Perm ℕ, ρ i0 = i0 ∧ (∀ k, ρ k % l.length = k % l.length) ∧
      RelE (fun A B => B.length = A.length ∧ A.length = l.length ∧ ∀ (i : ℕ) (a b : Atom), A[i]? = some a → B[ρ i]? = some b →
        b.type = a.type ∧ b.nbrs.Perm (a.nbrs.map fun x => { x with idx := ρ x.idx }) ∧
        ∀ l : ℕ, (l : ℤ) ∈ ls → b.q l = a.q l ∧ (av = true → b.aq l = a.aq l))
      (s.findNeighbors σ f (.cutoff r) >>= fun s => s.calculateQ ls av >>= fun s => s.getAtoms)
      (g.findNeighbors σ f (.cutoff r) >>= fun s => s.calculateQ ls av >>= fun s => s.getAtoms) := by
    intro i0 hi0
    obtain ⟨ρ, r1, r2, hR⟩ := hρ i0 hi0
    refine ⟨ρ, r1, r2, ?_⟩
    have hfn := hR.findNeighbors σ f hr (by omega)
    rcases h3 : s.findNeighbors σ f (.cutoff r) with e | s2 <;> rcases h4 : g.findNeighbors σ f (.cutoff r) with e' | g2 <;>
      rw [h3, h4] at hfn
    · exact hfn
    · exact hfn.elim
    · exact hfn.elim
    · have hN : RelabNb _ ρ s2 g2 := hfn
      refine (hN.finish ls av).mono ?_
      rintro A B ⟨hB, hA, hfin⟩
      refine ⟨hB, ?_, fun i x y hx hy => (hfin i x y hx hy).2⟩
      rw [hA, (findNeighbors_cutoff_ok hr (by omega) h3).2.1, hrn]
  change RelE _ (s.findNeighbors σ f (.cutoff r) >>= fun s => s.calculateQ ls av >>= fun s => s.getAtoms)
      (g.findNeighbors σ f (.cutoff r) >>= fun s => s.calculateQ ls av >>= fun s => s.getAtoms)
  generalize (s.findNeighbors σ f (.cutoff r) >>= fun s => s.calculateQ ls av >>= fun s => s.getAtoms) = X at hstep ⊢
  generalize (g.findNeighbors σ f (.cutoff r) >>= fun s => s.calculateQ ls av >>= fun s => s.getAtoms) = Y at hstep ⊢
  rcases X with e | A <;> rcases Y with e' | B
  · obtain ⟨_, _, _, h⟩ := hstep 0 hn; exact h
  · obtain ⟨_, _, _, h⟩ := hstep 0 hn; exact h.elim
  · obtain ⟨_, _, _, h⟩ := hstep 0 hn; exact h.elim
  · change List.Forall₂ _ A B
    obtain ⟨_, _, _, hl1, hl2, -⟩ := hstep 0 hn
    rw [List.forall₂_iff_get]
    refine ⟨hl1.symm, fun i hi hi' => ?_⟩
    obtain ⟨ρ, e1, e2, -, -, hval⟩ := hstep i (hl2 ▸ hi)
    obtain ⟨t1, t2, t3⟩ := hval i (A.get ⟨i, hi⟩) (B.get ⟨i, hi'⟩) (by simp [hi]) (by rw [e1]; simp [hi'])
    refine ⟨t1, ?_, t3⟩
    refine (t2.map _).trans ?_
    rw [List.map_map]
    refine List.Perm.of_eq (List.map_congr_left fun x _ => ?_)
    simp only [Function.comp, Spec.upToCell, e2]

/-- Two atoms of a unit box, translated by 8/10: the second leaves the cell and is put back, so the two
change sides. -/
example : let l : List Atom := [{ pos := ⟨0, 0, 0⟩ }, { pos := ⟨3 / 10, 0, 0⟩ }]
    let l' : List Atom := [{ pos := ⟨8 / 10, 0, 0⟩ }, { pos := ⟨1 / 10, 0, 0⟩ }]
    Spec.Rewrapped (diagBox 1 1 1) ⟨8 / 10, 0, 0⟩ l l' ∧ (∀ a ∈ l, a.ghost = false) ∧ Spec.Compact (diagBox 1 1 1) l ∧
      Spec.Compact (diagBox 1 1 1) l' ∧ Spec.NoHalfCell (diagBox 1 1 1) l := by
  intro l l'
  have hof : ∀ f, ofFrac (diagBox 1 1 1) f = f := by
    intro f; ext <;> simp [ofFrac, diagBox]
  refine ⟨?_, ?_, ?_, ?_, ?_⟩
  · refine List.Forall₂.cons ⟨rfl, rfl, 0, 0, 0, ?_⟩ (List.Forall₂.cons ⟨rfl, rfl, -1, 0, 0, ?_⟩ List.Forall₂.nil)
    · ext <;> simp [latticeVec, diagBox]
    · ext <;> simp [latticeVec, diagBox]
      norm_num
  · intro a ha
    simp only [l, List.mem_cons, List.not_mem_nil, or_false] at ha
    rcases ha with rfl | rfl <;> rfl
  · apply compact_of_inside
    intro a ha
    simp only [l, List.mem_cons, List.not_mem_nil, or_false] at ha
    rcases ha with rfl | rfl
    · exact ⟨⟨0, 0, 0⟩, (hof _).symm, by norm_num, by norm_num, by norm_num⟩
    · exact ⟨⟨3 / 10, 0, 0⟩, (hof _).symm, by norm_num, by norm_num, by norm_num⟩
  · apply compact_of_inside
    intro a ha
    simp only [l', List.mem_cons, List.not_mem_nil, or_false] at ha
    rcases ha with rfl | rfl
    · exact ⟨⟨8 / 10, 0, 0⟩, (hof _).symm, by norm_num, by norm_num, by norm_num⟩
    · exact ⟨⟨1 / 10, 0, 0⟩, (hof _).symm, by norm_num, by norm_num, by norm_num⟩
  · intro a ha a' ha' f hf n
    rw [hof] at hf
    subst hf
    have key : ∀ x : ℝ, |x| < 1 / 2 → x ≠ (n : ℝ) + 1 / 2 := by
      rintro x hx rfl
      rw [abs_lt] at hx
      have h1 : (-1 : ℝ) < n := by linarith [hx.1]
      have h2 : (n : ℝ) < 0 := by linarith [hx.2]
      have h1' : (-1 : ℤ) < n := by exact_mod_cast h1
      have h2' : n < 0 := by exact_mod_cast h2
      omega
    simp only [l, List.mem_cons, List.not_mem_nil, or_false] at ha ha'
    rcases ha with rfl | rfl <;> rcases ha' with rfl | rfl <;>
      refine ⟨key _ ?_, key _ ?_, key _ ?_⟩ <;> simp [abs_lt] <;> norm_num

end Pyscal
