import Verif.Lemmas.Alike
import Verif.Props.WrapSmall

/-! C92: results depend on the infinite crystal only, not on the cell that was chosen to describe it. -/

namespace Pyscal

open Spec (diagBox ofFrac latticeVec IsImage FracBound crystal cross volume)

/-! ### Specification -/

/-- Specification: two atoms, each of its own system, have the same type and see the same atoms at the same places. -/
def Spec.SameView (s : System) (a : Atom) (g : System) (a' : Atom) : Prop :=
  a'.type = a.type ∧ ∀ v t, (a'.pos + v, t) ∈ crystal g.box g.atoms ↔ (a.pos + v, t) ∈ crystal s.box s.atoms

/-- Specification: up to the distance `r` the displacements computed between atoms of the system are those of the infinite
crystal, and no atom is listed twice. -/
structure Spec.Faithful (s : System) (r : ℝ) : Prop where
  image : ∀ a ∈ s.atoms, ∀ c ∈ s.atoms, IsImage s.box (c.pos - a.pos) (s.getDistanceVector c a)
  short : ∀ a ∈ s.atoms, ∀ c ∈ s.atoms, ∀ w, IsImage s.box (c.pos - a.pos) w → V3.norm w < r → s.getDistanceVector c a = w
  distinct : ∀ (i j : ℕ) (a c : Atom), s.atoms[i]? = some a → s.atoms[j]? = some c → IsImage s.box (c.pos - a.pos) 0 → i = j

/-- Specification: `r` is at most half of each of the three heights of the cell. -/
def Spec.HalfHeights (b : Mat3) (r : ℝ) : Prop :=
  2 * r * V3.norm (cross b.r1 b.r2) ≤ |volume b| ∧ 2 * r * V3.norm (cross b.r2 b.r0) ≤ |volume b| ∧
    2 * r * V3.norm (cross b.r0 b.r1) ≤ |volume b|

/-- Specification: no two atoms of the list are periodic copies of each other. -/
def Spec.NoRepeats (b : Mat3) (l : List Atom) : Prop :=
  ∀ (i j : ℕ) (a c : Atom), l[i]? = some a → l[j]? = some c → IsImage b (c.pos - a.pos) 0 → i = j

/-! ### Neighbours -/

/-- What an atom has for neighbours, in terms of the infinite crystal. -/
theorem C92_neighbours {s : System} {r : ℝ} (hF : Spec.Faithful s r) {f i : ℕ} {a : Atom} (hi : s.atoms[i]? = some a) (v : V3) (t : ℤ) :
    (∃ x ∈ cutoffNbs s r f i, x.vec = v ∧ s.typeOf x.idx = t) ↔
      v ≠ 0 ∧ V3.norm v < r ∧ filterOK f a.type t = true ∧ (a.pos + v, t) ∈ crystal s.box s.atoms := by
  have hti : s.typeOf i = a.type := by unfold System.typeOf; rw [(mem_of_getElem? hi).2]
  have ham := List.mem_of_getElem? hi
  constructor
  · rintro ⟨x, hx, rfl, rfl⟩
    unfold cutoffNbs at hx
    obtain ⟨j, hj, rfl⟩ := List.mem_map.1 hx
    obtain ⟨hjr, hj'⟩ := List.mem_filter.1 hj
    obtain ⟨hne, hd, hf⟩ := of_decide_eq_true hj'
    have hjl := List.mem_range.1 hjr
    have hc := List.getElem?_eq_getElem hjl
    obtain ⟨d1, d2⟩ := distOf_eq hi hc
    have him := hF.image a ham _ (List.getElem_mem hjl)
    have htj : s.typeOf j = s.atoms[j].type := by unfold System.typeOf; rw [(mem_of_getElem? hc).2]
    show s.diffOf i j ≠ 0 ∧ V3.norm (s.diffOf i j) < r ∧ filterOK f a.type (s.typeOf j) = true ∧ (a.pos + s.diffOf i j, s.typeOf j) ∈ _
    rw [hti] at hf
    rw [d1] at hd
    rw [d2]
    refine ⟨fun h0 => ?_, hd, hf, ?_⟩
    · rw [h0] at him
      exact hne (hF.distinct i j a _ hi hc him).symm
    · obtain ⟨n1, n2, n3, e⟩ := him
      refine ⟨_, List.getElem_mem hjl, n1, n2, n3, ?_, htj⟩
      show a.pos + _ = _
      rw [e]
      ext <;> simp <;> ring
  · rintro ⟨hv, hr, hf, c, hcm, n1, n2, n3, e, ht⟩
    obtain ⟨j, hjl, rfl⟩ := List.getElem_of_mem hcm
    have hc := List.getElem?_eq_getElem hjl
    obtain ⟨d1, d2⟩ := distOf_eq hi hc
    dsimp only at e ht
    have him : IsImage s.box (s.atoms[j].pos - a.pos) v := by
      refine ⟨n1, n2, n3, ?_⟩
      have : v = s.atoms[j].pos + latticeVec s.box n1 n2 n3 - a.pos := by rw [← e]; ext <;> simp
      rw [this]
      ext <;> simp <;> ring
    have hd := hF.short a ham _ hcm v him hr
    have htj : s.typeOf j = s.atoms[j].type := by unfold System.typeOf; rw [(mem_of_getElem? hc).2]
    have hne : j ≠ i := by
      rintro rfl
      have hac : s.atoms[j] = a := by rw [hi] at hc; exact (Option.some.inj hc).symm
      have h0 := hF.short a ham _ hcm 0 ⟨0, 0, 0, by rw [hac]; ext <;> simp [latticeVec]⟩
        (by
          have : V3.norm (0 : V3) = 0 := (V3.norm_eq_zero _).2 rfl
          rw [this]
          exact lt_of_le_of_lt (V3.norm_nonneg v) hr)
      exact hv (hd.symm.trans h0)
    refine ⟨s.mkNb i j, ?_, d2.trans hd, htj.trans ht.symm⟩
    unfold cutoffNbs
    refine List.mem_map.2 ⟨j, List.mem_filter.2 ⟨List.mem_range.2 hjl, decide_eq_true ⟨hne, ?_, ?_⟩⟩, rfl⟩
    · rw [d1]
      show V3.norm (s.getDistanceVector _ _) < r
      rw [hd]; exact hr
    · rw [hti, htj, ← ht]; exact hf

theorem vec_nodup {s : System} {r : ℝ} (hF : Spec.Faithful s r) (f : ℕ) {i : ℕ} {a : Atom} (hi : s.atoms[i]? = some a) :
    ((cutoffNbs s r f i).map Nb.vec).Nodup := by
  unfold cutoffNbs
  rw [List.map_map]
  refine List.Nodup.map_on ?_ (List.Nodup.filter _ List.nodup_range)
  intro j hj k hk e
  have hjl := List.mem_range.1 (List.mem_filter.1 hj).1
  have hkl := List.mem_range.1 (List.mem_filter.1 hk).1
  have cj := List.getElem?_eq_getElem hjl
  have ck := List.getElem?_eq_getElem hkl
  change s.diffOf i j = s.diffOf i k at e
  rw [(distOf_eq hi cj).2, (distOf_eq hi ck).2] at e
  obtain ⟨n1, n2, n3, e1⟩ := hF.image a (List.mem_of_getElem? hi) _ (List.getElem_mem hjl)
  obtain ⟨m1, m2, m3, e2⟩ := hF.image a (List.mem_of_getElem? hi) _ (List.getElem_mem hkl)
  refine hF.distinct j k _ _ cj ck ⟨m1 - n1, m2 - n2, m3 - n3, ?_⟩
  rw [e1, e2] at e
  rw [V3.ext_iff] at e ⊢
  simp [latticeVec] at e ⊢
  refine ⟨?_, ?_, ?_⟩ <;> linarith [e.1, e.2.1, e.2.2]

/-- A neighbour as a place and a type. -/
def placed (s : System) (x : Nb) : V3 × ℤ := (x.vec, s.typeOf x.idx)

theorem view_perm {s g : System} {r : ℝ} (hF : Spec.Faithful s r) (hG : Spec.Faithful g r) (f : ℕ) {i k : ℕ} {a c : Atom} (hi : s.atoms[i]? = some a)
    (hk : g.atoms[k]? = some c) (hV : Spec.SameView s a g c) : ((cutoffNbs g r f k).map (placed g)).Perm ((cutoffNbs s r f i).map (placed s)) := by
  have nd : ∀ {t : System} (_ : Spec.Faithful t r) {j : ℕ} {b : Atom} (_ : t.atoms[j]? = some b), ((cutoffNbs t r f j).map (placed t)).Nodup := by
    intro t ht j b hb
    have := vec_nodup ht f hb
    refine List.Nodup.of_map Prod.fst ?_
    rw [List.map_map]
    exact this
  rw [List.perm_ext_iff_of_nodup (nd hG hk) (nd hF hi)]
  rintro ⟨v, t⟩
  have e : ∀ {h : System} {j : ℕ}, (v, t) ∈ (cutoffNbs h r f j).map (placed h) ↔ ∃ x ∈ cutoffNbs h r f j, x.vec = v ∧ h.typeOf x.idx = t := by
    intro h j
    rw [List.mem_map]
    simp only [placed, Prod.mk.injEq]
  rw [e, e, C92_neighbours hF hi, C92_neighbours hG hk, hV.1, hV.2]

/-- Neighbours at corresponding places again see the same. -/
theorem view_nbr {s g : System} {r : ℝ} (hF : Spec.Faithful s r) (hG : Spec.Faithful g r) {f i k : ℕ} {a c : Atom} (hi : s.atoms[i]? = some a)
    (hk : g.atoms[k]? = some c) (hV : Spec.SameView s a g c) {x y : Nb} (hx : x ∈ cutoffNbs s r f i) (hy : y ∈ cutoffNbs g r f k)
    (hxy : placed g y = placed s x) : ∃ u w, s.atoms[x.idx]? = some u ∧ g.atoms[y.idx]? = some w ∧ Spec.SameView s u g w := by
  have key : ∀ {h : System} (_ : Spec.Faithful h r) {j : ℕ} {b : Atom} (_ : h.atoms[j]? = some b) {z : Nb} (_ : z ∈ cutoffNbs h r f j),
      ∃ u, h.atoms[z.idx]? = some u ∧ u.type = h.typeOf z.idx ∧
        ∀ v t, (u.pos + v, t) ∈ crystal h.box h.atoms ↔ (b.pos + (z.vec + v), t) ∈ crystal h.box h.atoms := by
    intro h hh j b hb z hz
    unfold cutoffNbs at hz
    obtain ⟨m, hm, rfl⟩ := List.mem_map.1 hz
    have hml := List.mem_range.1 (List.mem_filter.1 hm).1
    have hc := List.getElem?_eq_getElem hml
    obtain ⟨-, d2⟩ := distOf_eq hb hc
    refine ⟨_, hc, by show _ = h.typeOf m; unfold System.typeOf; rw [(mem_of_getElem? hc).2], fun v t => ?_⟩
    obtain ⟨n1, n2, n3, e⟩ := hh.image b (List.mem_of_getElem? hb) _ (List.getElem_mem hml)
    show _ ↔ (b.pos + (h.diffOf j m + v), t) ∈ _
    rw [d2, e]
    constructor
    · rintro ⟨q, hq, l1, l2, l3, e1, e2⟩
      refine ⟨q, hq, l1 + n1, l2 + n2, l3 + n3, ?_, e2⟩
      dsimp only at e1 ⊢
      rw [V3.ext_iff] at e1 ⊢
      simp [latticeVec] at e1 ⊢
      refine ⟨?_, ?_, ?_⟩ <;> linarith [e1.1, e1.2.1, e1.2.2]
    · rintro ⟨q, hq, l1, l2, l3, e1, e2⟩
      refine ⟨q, hq, l1 - n1, l2 - n2, l3 - n3, ?_, e2⟩
      dsimp only at e1 ⊢
      rw [V3.ext_iff] at e1 ⊢
      simp [latticeVec] at e1 ⊢
      refine ⟨?_, ?_, ?_⟩ <;> linarith [e1.1, e1.2.1, e1.2.2]
  obtain ⟨u, hu, ut, uv⟩ := key hF hi hx
  obtain ⟨w, hw, wt, wv⟩ := key hG hk hy
  simp only [placed, Prod.mk.injEq] at hxy
  refine ⟨u, w, hu, hw, by rw [ut, wt, hxy.2], fun v t => ?_⟩
  rw [uv, wv, hxy.1, hV.2]

theorem wv_of_cutoff (s : System) (r : ℝ) (f i : ℕ) : wv (cutoffNbs s r f i) = ((cutoffNbs s r f i).map (placed s)).map fun p => (1, p.1) := by
  unfold cutoffNbs wv
  simp only [List.map_map]
  rfl

/-! ### The results -/

section
variable {σ σ' : StdSort} {s g s1 g1 : System} {f : ℕ} {r : ℝ}

/-- The atoms after the searches. -/
theorem view_alike (hr : r ≠ 0) (hF : Spec.Faithful s r) (hG : Spec.Faithful g r) (hn : Spec.PairsExact s r) (hn' : Spec.PairsExact g r)
    (h1 : s.findNeighbors σ f (.cutoff r) = .ok s1) (h2 : g.findNeighbors σ' f (.cutoff r) = .ok g1)
    {i k : ℕ} {a c : Atom} (hi : s.atoms[i]? = some a) (hk : g.atoms[k]? = some c) (hV : Spec.SameView s a g c) :
    ∃ a1 c1, s1.atoms[i]? = some a1 ∧ g1.atoms[k]? = some c1 ∧ (c1.nbrs.map (placed g)).Perm (a1.nbrs.map (placed s)) ∧ Alike1 s1 g1 a1 c1 := by
  obtain ⟨-, l1, e1⟩ := cutoff_any hr hn h1
  obtain ⟨-, l2, e2⟩ := cutoff_any hr hn' h2
  have zero : ∀ {i k : ℕ} {a c : Atom} (_ : s.atoms[i]? = some a) (_ : g.atoms[k]? = some c) (_ : Spec.SameView s a g c),
      ∃ a1 c1, s1.atoms[i]? = some a1 ∧ g1.atoms[k]? = some c1 ∧ (c1.nbrs.map (placed g)).Perm (a1.nbrs.map (placed s)) ∧ Alike0 a1 c1 ∧
        a1.nbrs.Perm (cutoffNbs s r f i) ∧ c1.nbrs.Perm (cutoffNbs g r f k) := by
    intro i k a c hi hk hV
    obtain ⟨a1, ha⟩ : ∃ a1, s1.atoms[i]? = some a1 := ⟨_, List.getElem?_eq_getElem (show i < s1.atoms.length by rw [l1]; exact (List.getElem?_eq_some_iff.1 hi).1)⟩
    obtain ⟨c1, hb⟩ : ∃ c1, g1.atoms[k]? = some c1 := ⟨_, List.getElem?_eq_getElem (show k < g1.atoms.length by rw [l2]; exact (List.getElem?_eq_some_iff.1 hk).1)⟩
    obtain ⟨-, na, -⟩ := e1 i _ ha
    obtain ⟨-, nc, -⟩ := e2 k _ hb
    have hP := view_perm hF hG f hi hk hV
    refine ⟨_, _, ha, hb, ((nc.map _).trans hP).trans (na.map _).symm, ?_, na, nc⟩
    have w1 : (wv a1.nbrs).Perm (wv (cutoffNbs s r f i)) := na.map _
    have w2 : (wv c1.nbrs).Perm (wv (cutoffNbs g r f k)) := nc.map _
    refine (w2.trans ?_).trans w1.symm
    rw [wv_of_cutoff, wv_of_cutoff]
    exact hP.map _
  obtain ⟨a1, c1, ha, hc, hP, -, na, nc⟩ := zero hi hk hV
  refine ⟨a1, c1, ha, hc, hP, V3 × ℤ, placed s, placed g, hP, fun x hx y hy hxy => ?_⟩
  have hx' := na.mem_iff.1 hx
  have hy' := nc.mem_iff.1 hy
  obtain ⟨u, w, hu, hw, huw⟩ := view_nbr hF hG hi hk hV hx' hy' hxy
  obtain ⟨u1, w1, hu1, hw1, -, hz, -⟩ := zero hu hw huw
  refine ⟨?_, u1, w1, hu1, hw1, hz⟩
  have one : ∀ {t : System} {j : ℕ} {z : Nb}, z ∈ cutoffNbs t r f j → z.weight = 1 := by
    intro t j z hz
    unfold cutoffNbs at hz
    obtain ⟨m, -, rfl⟩ := List.mem_map.1 hz
    rfl
  simp only [placed, Prod.mk.injEq] at hxy
  rw [one hx', one hy', hxy.1]

/-- **C92, neighbours and q**: two atoms, in the same or in different systems, that see the same infinite crystal get the same
neighbours (the same vectors, with the same types) from a cutoff search and the same values from `calculate_q`. -/
theorem C92_q (hr : r ≠ 0) (hF : Spec.Faithful s r) (hG : Spec.Faithful g r) (hn : Spec.PairsExact s r) (hn' : Spec.PairsExact g r)
    (h1 : s.findNeighbors σ f (.cutoff r) = .ok s1) (h2 : g.findNeighbors σ' f (.cutoff r) = .ok g1)
    (i k : ℕ) (a c : Atom) (hi : s.atoms[i]? = some a) (hk : g.atoms[k]? = some c) (hV : Spec.SameView s a g c)
    (ls : List ℤ) (av : Bool) (s2 g2 : System) (h3 : s1.calculateQ ls av = .ok s2) (h4 : g1.calculateQ ls av = .ok g2) :
    ∃ a2 c2, s2.atoms[i]? = some a2 ∧ g2.atoms[k]? = some c2 ∧
      (c2.nbrs.map fun x => (x.vec, x.dist, x.weight, (g2.mem x.idx).type)).Perm (a2.nbrs.map fun x => (x.vec, x.dist, x.weight, (s2.mem x.idx).type)) ∧
      ∀ l : ℕ, (l : ℤ) ∈ ls → c2.q l = a2.q l ∧ c2.qlm l = a2.qlm l ∧ (av = true → c2.aq l = a2.aq l) := by
  obtain ⟨a1, c1, ha, hc, hP, hA⟩ := view_alike hr hF hG hn hn' h1 h2 hi hk hV
  obtain ⟨a2, c2, ka, kc, ra, rc, hq⟩ := alike_q (cutoff_plain hr hn h1) (cutoff_plain hr hn' h2) ha hc hA.zero h3 h4
  refine ⟨a2, c2, ka, kc, ?_, fun l hl => ⟨(hq l hl).1, (hq l hl).2.1, fun h => (hq l hl).2.2 h hA⟩⟩
  have key : ∀ {t t1 t2 : System} {τ : StdSort} (_ : Spec.PairsExact t r) (_ : t.findNeighbors τ f (.cutoff r) = .ok t1) (_ : t1.calculateQ ls av = .ok t2)
      (j : ℕ) (b : Atom) (_ : t1.atoms[j]? = some b), (b.nbrs.map fun x => (x.vec, x.dist, x.weight, (t2.mem x.idx).type)) =
        (b.nbrs.map (placed t)).map fun p => (p.1, V3.norm p.1, 1, p.2) := by
    intro t t1 t2 τ ht p1 p2 j b hb
    obtain ⟨-, q1, q2⟩ := cutoff_any hr ht p1
    rw [List.map_map]
    refine List.map_congr_left fun x hx => ?_
    have hx := (q2 j b hb).2.1.mem_iff.1 hx
    unfold cutoffNbs at hx
    obtain ⟨m, hm, rfl⟩ := List.mem_map.1 hx
    have hml := List.mem_range.1 (List.mem_filter.1 hm).1
    obtain ⟨-, -, q3⟩ := calculateQ_ok p2
    have hm2 : m < t2.atoms.length := by rw [q3]; split_ifs <;> simpa [System.afterQ, q1] using hml
    have g1 := List.getElem?_eq_getElem (show m < t1.atoms.length by omega)
    have g2 := List.getElem?_eq_getElem hm2
    have ht1 : (t2.mem m).type = t.typeOf m := by
      rw [(mem_of_getElem? g2).2, calculateQ_atom p2 g1 g2]
      have h5 := congrArg Atom.type (q2 m _ g1).2.2
      have : t1.atoms[m].type = t.typeOf m := h5
      split_ifs <;> exact this
    show (t.diffOf j m, t.distOf j m, (1 : ℝ), (t2.mem m).type) = (t.diffOf j m, V3.norm (t.diffOf j m), 1, t.typeOf m)
    rw [ht1]
    rfl
  rw [ra.2.2, rc.2.2, key hn h1 h3 i a1 ha, key hn' h2 h4 k c1 hc]
  exact hP.map _

/-- **C92, solids**: under the same hypotheses `find_solids` finds the same correlations with the neighbours, the same number of
solid bonds, the same average and the same verdict for the two atoms. -/
theorem C92_solids (hr : r ≠ 0) (hF : Spec.Faithful s r) (hG : Spec.Faithful g r) (hn : Spec.PairsExact s r) (hn' : Spec.PairsExact g r)
    (hcmp : g1.comparecriteria = s1.comparecriteria)
    (h1 : s.findNeighbors σ f (.cutoff r) = .ok s1) (h2 : g.findNeighbors σ' f (.cutoff r) = .ok g1)
    (i k : ℕ) (a c : Atom) (hi : s.atoms[i]? = some a) (hk : g.atoms[k]? = some c) (hV : Spec.SameView s a g c)
    (bonds threshold avgthreshold q : PyNum) (cutoff cutoff' : ℝ) (right right' : Bool) (s2 g2 : System) (o o' : Option ℕ)
    (h3 : System.findSolids bonds threshold avgthreshold false q cutoff right s1 = (s2, .ok o))
    (h4 : System.findSolids bonds threshold avgthreshold false q cutoff' right' g1 = (g2, .ok o')) :
    ∃ a2 c2, s2.atoms[i]? = some a2 ∧ g2.atoms[k]? = some c2 ∧ c2.sij.Perm a2.sij ∧ c2.frenkel = a2.frenkel ∧ c2.avq = a2.avq ∧
      c2.issolid = a2.issolid := by
  obtain ⟨a1, c1, ha, hc, -, hA⟩ := view_alike hr hF hG hn hn' h1 h2 hi hk hV
  exact alike_solids (cutoff_plain hr hn h1) (cutoff_plain hr hn' h2) hcmp ha hc hA h3 h4

end

/-! ### Systems that are faithful -/

theorem shorter_of_half {b : Mat3} {r : ℝ} (hv : volume b ≠ 0) (h : Spec.HalfHeights b r) {w : V3} (hw : V3.norm w < r) :
    Spec.ShorterThanHalfHeights b w := by
  have key : ∀ c : ℝ, 0 ≤ c → 2 * r * c ≤ |volume b| → 2 * V3.norm w * c < |volume b| := by
    intro c hc hr
    rcases hc.eq_or_lt with h0 | h0
    · rw [← h0, mul_zero]; exact abs_pos.2 hv
    · nlinarith
  exact ⟨key _ (V3.norm_nonneg _) h.1, key _ (V3.norm_nonneg _) h.2.1, key _ (V3.norm_nonneg _) h.2.2⟩

/-- The box vectors are linearly independent. -/
theorem FracBox.volume_ne {s : System} (h : FracBox s) : volume s.box ≠ 0 := by
  obtain ⟨-, -, -, hs, hinj, -⟩ := h
  obtain ⟨f1, e1⟩ := hs ⟨1, 0, 0⟩
  obtain ⟨f2, e2⟩ := hs ⟨0, 1, 0⟩
  obtain ⟨f3, e3⟩ := hs ⟨0, 0, 1⟩
  have key : V3.dot (ofFrac s.box f1) (cross (ofFrac s.box f2) (ofFrac s.box f3)) = volume ⟨f1, f2, f3⟩ * volume s.box := by
    simp only [volume, V3.dot, cross, ofFrac, V3.add_x, V3.add_y, V3.add_z, V3.smul_x, V3.smul_y, V3.smul_z]
    ring
  rw [← e1, ← e2, ← e3] at key
  intro h0
  rw [h0, mul_zero] at key
  simp [V3.dot, cross] at key

theorem FracBox.faithful {s : System} (h : FracBox s) {r : ℝ} (hc : Spec.Compact s.box s.atoms) (hd : Spec.NoRepeats s.box s.atoms)
    (hr : Spec.HalfHeights s.box r) : Spec.Faithful s r := by
  obtain ⟨px, py, pz, hsurj, hinj, himg⟩ := id h
  refine ⟨fun a ha c hc' => ?_, fun a ha c hc' w hw hwr => ?_, hd⟩
  · obtain ⟨f, hf, -⟩ := hc a ha c hc'
    unfold System.getDistanceVector
    rw [hf, himg]
    obtain ⟨n1, h1⟩ := wrap_frac_int px f.x
    obtain ⟨n2, h2⟩ := wrap_frac_int py f.y
    obtain ⟨n3, h3⟩ := wrap_frac_int pz f.z
    refine ⟨n1, n2, n3, ?_⟩
    rw [h1, h2, h3, ← ofFrac_int, ← ofFrac_add]
    rfl
  · obtain ⟨f, hf, b1, b2, b3⟩ := hc a ha c hc'
    unfold System.getDistanceVector
    have hsh := shorter_of_half h.volume_ne hr hwr
    rw [hf] at hw ⊢
    obtain ⟨n1, n2, n3, rfl⟩ := hw
    rw [← ofFrac_int, ← ofFrac_add] at hsh ⊢
    obtain ⟨g1, g2, g3⟩ := frac_of_short hsh
    rw [himg, wrap_frac_unique px b1 n1 g1, wrap_frac_unique py b2 n2 g2, wrap_frac_unique pz b3 n3 g3]
    rfl

/-- The padded list inherits the properties of the list. -/
theorem padded_props {s : System} {b : Mat3} {m : ℕ} {l : List Atom} (hs : s.atoms = l ++ repNew b true m m m l) (hbox : s.box = scaleBox b m m m)
    (hF : FracBox s) (hn : 0 < l.length) (hc : Spec.Compact b l) (hd : Spec.NoRepeats b l) : Spec.Compact s.box s.atoms ∧ Spec.NoRepeats s.box s.atoms := by
  have hw : (2 * (m : ℝ) + 1) ≠ 0 := by positivity
  have hinj : ∀ f f', ofFrac b f = ofFrac b f' → f = f' := by
    intro f f' e
    rw [← ofFrac_scale b m f, ← ofFrac_scale b m f', ← hbox] at e
    have := hF.2.2.2.2.1 _ _ e
    simp only [V3.mk.injEq] at this
    obtain ⟨h1, h2, h3⟩ := this
    ext
    · field_simp at h1; exact h1
    · field_simp at h2; exact h2
    · field_simp at h3; exact h3
  have hat : ∀ (k : ℕ) (a : Atom), s.atoms[k]? = some a → ∃ c ∈ padCells m, (padCells m)[k / l.length]? = some c ∧
      a.pos = (l[k % l.length]'(Nat.mod_lt _ hn)).pos + latticeVec b c.1 c.2.1 c.2.2 := by
    intro k a ha
    have hk := (List.getElem?_eq_some_iff.1 ha).1
    obtain ⟨c, h1, h2, h3⟩ := padded_mem hs hn hk
    refine ⟨c, h1, h2, ?_⟩
    rw [← (mem_of_getElem? ha).2]
    refine (congrArg Prod.fst h3).trans ?_
    simp only [geo, repAtom, latticeVec]
    ext <;> simp <;> ring
  constructor
  · intro a ha a' ha'
    obtain ⟨k, hk⟩ := List.mem_iff_getElem?.1 ha
    obtain ⟨k', hk'⟩ := List.mem_iff_getElem?.1 ha'
    obtain ⟨c, hcm, -, e⟩ := hat k a hk
    obtain ⟨c', hcm', -, e'⟩ := hat k' a' hk'
    obtain ⟨f, hf, f1, f2, f3⟩ := hc _ (List.getElem_mem (Nat.mod_lt k hn)) _ (List.getElem_mem (Nat.mod_lt k' hn))
    obtain ⟨q1, q2, q3⟩ := mem_padCells.1 hcm
    obtain ⟨r1, r2, r3⟩ := mem_padCells.1 hcm'
    refine ⟨⟨(f.x + ((c'.1 - c.1 : ℤ) : ℝ)) / (2 * m + 1), (f.y + ((c'.2.1 - c.2.1 : ℤ) : ℝ)) / (2 * m + 1), (f.z + ((c'.2.2 - c.2.2 : ℤ) : ℝ)) / (2 * m + 1)⟩, ?_,
      bound_scaled f1 q1 r1, bound_scaled f2 q2 r2, bound_scaled f3 q3 r3⟩
    rw [hbox, ofFrac_scale b m ⟨f.x + ((c'.1 - c.1 : ℤ) : ℝ), f.y + ((c'.2.1 - c.2.1 : ℤ) : ℝ), f.z + ((c'.2.2 - c.2.2 : ℤ) : ℝ)⟩, e, e']
    have : (l[k' % l.length]'(Nat.mod_lt _ hn)).pos = (l[k % l.length]'(Nat.mod_lt _ hn)).pos + ofFrac b f := by rw [← hf]; ext <;> simp
    rw [this]
    simp only [ofFrac, latticeVec]
    ext <;> simp <;> ring
  · intro k k' a a' hk hk' him
    obtain ⟨c, hcm, hcc, e⟩ := hat k a hk
    obtain ⟨c', hcm', hcc', e'⟩ := hat k' a' hk'
    obtain ⟨n1, n2, n3, h0⟩ := him
    rw [e, e', hbox] at h0
    have h1 : IsImage b ((l[k' % l.length]'(Nat.mod_lt _ hn)).pos - (l[k % l.length]'(Nat.mod_lt _ hn)).pos) 0 := by
      refine ⟨c'.1 - c.1 + (2 * m + 1) * n1, c'.2.1 - c.2.1 + (2 * m + 1) * n2, c'.2.2 - c.2.2 + (2 * m + 1) * n3, h0.trans ?_⟩
      simp only [latticeVec, scaleBox]
      ext <;> simp <;> ring
    have hij : k % l.length = k' % l.length :=
      hd _ _ _ _ (List.getElem?_eq_getElem (Nat.mod_lt k hn)) (List.getElem?_eq_getElem (Nat.mod_lt k' hn)) h1
    have hpos : (l[k' % l.length]'(Nat.mod_lt _ hn)).pos = (l[k % l.length]'(Nat.mod_lt _ hn)).pos := by
      congr 2; exact hij.symm
    rw [hpos] at h0
    have h2 : ofFrac b ⟨((c'.1 - c.1 + (2 * m + 1) * n1 : ℤ) : ℝ), ((c'.2.1 - c.2.1 + (2 * m + 1) * n2 : ℤ) : ℝ), ((c'.2.2 - c.2.2 + (2 * m + 1) * n3 : ℤ) : ℝ)⟩ = ofFrac b 0 := by
      have z : ofFrac b 0 = 0 := by ext <;> simp [ofFrac]
      rw [z, h0]
      simp only [ofFrac, latticeVec, scaleBox]
      ext <;> simp <;> ring
    have h3 := hinj _ _ h2
    rw [V3.ext_iff] at h3
    obtain ⟨z1, z2, z3⟩ := h3
    have y1 : c'.1 - c.1 + (2 * m + 1) * n1 = 0 := Int.cast_eq_zero.1 z1
    have y2 : c'.2.1 - c.2.1 + (2 * m + 1) * n2 = 0 := Int.cast_eq_zero.1 z2
    have y3 : c'.2.2 - c.2.2 + (2 * m + 1) * n3 = 0 := Int.cast_eq_zero.1 z3
    obtain ⟨q1, q2, q3⟩ := mem_padCells.1 hcm
    obtain ⟨r1, r2, r3⟩ := mem_padCells.1 hcm'
    have hz : ∀ (x y n : ℤ), y - x + (2 * m + 1) * n = 0 → (-(m : ℤ) ≤ x ∧ x ≤ m) → (-(m : ℤ) ≤ y ∧ y ≤ m) → y = x := by
      intro x y n h hx hy
      have hn0 : n = 0 := by
        by_contra hne
        rcases lt_or_gt_of_ne hne with h' | h'
        · nlinarith
        · nlinarith
      rw [hn0] at h; linarith
    have hce : c' = c := Prod.ext (hz _ _ _ y1 q1 r1) (Prod.ext (hz _ _ _ y2 q2 r2) (hz _ _ _ y3 q3 r3))
    rw [hce] at hcc'
    have hdiv : k / l.length = k' / l.length := by
      obtain ⟨u, hu⟩ := List.getElem?_eq_some_iff.1 hcc
      obtain ⟨u', hu'⟩ := List.getElem?_eq_some_iff.1 hcc'
      exact (padCells_nodup m).getElem_inj_iff.1 (hu.trans hu'.symm)
    rw [← Nat.div_add_mod k l.length, ← Nat.div_add_mod k' l.length, hdiv, hij]

/-- What a newly built system holds. -/
theorem build_props {b : Mat3} (hb : Spec.Skew b ∨ ∃ lx ly lz, 0 < lx ∧ 0 < ly ∧ 0 < lz ∧ b = diagBox lx ly lz) {l : List Atom} (hreal : ∀ a ∈ l, a.ghost = false)
    (hc : Spec.Compact b l) (hd : Spec.NoRepeats b l) {s : System} (h : buildSystem b l = .ok s) :
    FracBox s ∧ Spec.Compact s.box s.atoms ∧ Spec.NoRepeats s.box s.atoms ∧ crystal s.box s.atoms = crystal b l ∧ s.realNop = l.length ∧
      ∀ i < l.length, s.atoms[i]? = l[i]? := by
  unfold buildSystem at h
  rcases h0 : System.init.setBox b with e | s0
  · rw [h0] at h; cases h
  rw [h0] at h
  simp only [bind, Except.bind] at h
  have hgb : s0.getBox = b := by
    have h2 := setBox_frame h0
    unfold System.getBox
    rw [h2.2.1, h2.1]; rfl
  have hcr : countReal l = l.length := by
    unfold countReal
    rw [List.filter_eq_self.2]
    intro a ha; rw [hreal a ha]; rfl
  unfold System.assignAtoms at h
  by_cases h200 : l.length < 200
  · rw [if_pos h200] at h
    by_cases hn : l.length = 0
    · rw [if_pos hn] at h; cases h
    rw [if_neg hn] at h
    by_cases hbs : boxSum s0.getBox = 0
    · rw [if_pos hbs] at h; cases h
    rw [if_neg hbs] at h
    set n := padReps l.length
    unfold System.repeatAtoms at h
    simp only [if_true, hgb] at h
    rcases h1 : ({ s0 with actualBox := some b } : System).setBox (scaleBox b n n n) with e | s1 <;> rw [h1] at h
    · cases h
    obtain rfl : System.setAtoms { s1 with ghostsCreated := true } (l ++ repNew b true n n n l) = s := Except.ok.inj h
    have hF : FracBox (System.setAtoms { s1 with ghostsCreated := true } (l ++ repNew b true n n n l)) := fracBox_scaled hb h0 h1 ⟨rfl, rfl, rfl, rfl⟩
    have hbox : (System.setAtoms { s1 with ghostsCreated := true } (l ++ repNew b true n n n l)).box = scaleBox b n n n := (setBox_frame h1).1
    obtain ⟨p1, p2⟩ := padded_props (m := n) (l := l) (b := b) rfl hbox hF (by omega) hc hd
    refine ⟨hF, p1, p2, ?_, ?_, fun i hi => ?_⟩
    · rw [hbox]; exact crystal_repeat b true n n n l
    · change countReal (l ++ repNew b true n n n l) = _
      have hcg : countReal (repNew b true n n n l) = 0 := by
        unfold countReal
        rw [List.filter_eq_nil_iff.2 (fun a ha => by rw [repNew_ghost a ha]; simp)]; rfl
      rw [countReal_append, hcg, hcr, add_zero]
    · exact List.getElem?_append_left hi
  · rw [if_neg h200] at h
    obtain rfl := Except.ok.inj h
    have hbox : (s0.setAtoms l).box = b := (setBox_frame h0).1
    refine ⟨?_, by rw [hbox]; exact hc, by rw [hbox]; exact hd, by rw [hbox]; rfl, hcr, fun i _ => rfl⟩
    rcases hb with hb | ⟨lx, ly, lz, hx, hy, hz, rfl⟩
    · have hT := (setBox_skewed ((skewed_iff b).2 hb) h0).1
      exact fracBox_tri ⟨hT.tri, hT.rot, hT.rotinv, hT.det⟩
    · refine fracBox_diag (lx := lx) (ly := ly) (lz := lz) hx hy hz ?_ hbox
      have : System.init.setBox (diagBox lx ly lz) = .ok { System.init with box := diagBox lx ly lz } := by
        simp [System.setBox, not_skewed_diag]
      rw [this] at h0
      cases h0
      rfl

/-- **C92, the whole calculation**: give two systems lists of atoms and boxes (each skewed or orthogonal, of any size) that
describe crystals which look the same from atom `i` of the first and atom `k` of the second: for example a cell and a
supercell of it, or two equivalent sites of one crystal.  If the cutoff is at most half of every height of the box in
which the atoms are stored (which is the padded one below 200 atoms), then `atoms` reports for the two atoms the same
neighbour vectors, distances and weights, and the same Steinhardt parameters, plain and averaged. -/
theorem C92_api (σ σ' : StdSort) (b b' : Mat3) (hb : Spec.Skew b ∨ ∃ lx ly lz, 0 < lx ∧ 0 < ly ∧ 0 < lz ∧ b = diagBox lx ly lz)
    (hb' : Spec.Skew b' ∨ ∃ lx ly lz, 0 < lx ∧ 0 < ly ∧ 0 < lz ∧ b' = diagBox lx ly lz) (l l' : List Atom)
    (hreal : ∀ a ∈ l, a.ghost = false) (hreal' : ∀ a ∈ l', a.ghost = false)
    (hc : Spec.Compact b l) (hc' : Spec.Compact b' l') (hd : Spec.NoRepeats b l) (hd' : Spec.NoRepeats b' l') (f : ℕ) (r : ℝ) (hr : r ≠ 0)
    (s g : System) (hs : buildSystem b l = .ok s) (hg : buildSystem b' l' = .ok g) (hh : Spec.HalfHeights s.box r) (hh' : Spec.HalfHeights g.box r)
    (hp : Spec.PairsExact s r) (hp' : Spec.PairsExact g r) (i k : ℕ) (x y : Atom) (hx : l[i]? = some x) (hy : l'[k]? = some y) (ht : y.type = x.type)
    (hV : ∀ v t, (y.pos + v, t) ∈ crystal b' l' ↔ (x.pos + v, t) ∈ crystal b l) (ls : List ℤ) (av : Bool) (as cs : List Atom)
    (h1 : analyse σ b l f (.cutoff r) ls av = .ok as) (h2 : analyse σ' b' l' f (.cutoff r) ls av = .ok cs) :
    ∃ a c, as[i]? = some a ∧ cs[k]? = some c ∧
      (c.nbrs.map fun x => (x.vec, x.dist, x.weight)).Perm (a.nbrs.map fun x => (x.vec, x.dist, x.weight)) ∧
      ∀ l : ℕ, (l : ℤ) ∈ ls → c.q l = a.q l ∧ c.qlm l = a.qlm l ∧ (av = true → c.aq l = a.aq l) := by
  obtain ⟨p1, p2, p3, p4, p5, p6⟩ := build_props hb hreal hc hd hs
  obtain ⟨q1, q2, q3, q4, q5, q6⟩ := build_props hb' hreal' hc' hd' hg
  have parts : ∀ {τ : StdSort} {b : Mat3} {l as : List Atom} {s : System} (_ : buildSystem b l = .ok s) (_ : s.realNop = l.length) (_ : Spec.PairsExact s r)
      (_ : analyse τ b l f (.cutoff r) ls av = .ok as), ∃ s1 s2, s.findNeighbors τ f (.cutoff r) = .ok s1 ∧ s1.calculateQ ls av = .ok s2 ∧
        ∀ i, i < l.length → as[i]? = s2.atoms[i]? := by
    intro τ b l as s hs hrn hl h
    unfold analyse at h
    rw [hs] at h
    simp only [bind, Except.bind] at h
    rcases h1 : s.findNeighbors τ f (.cutoff r) with e | s1 <;> rw [h1] at h
    · cases h
    dsimp only at h
    rcases h2 : s1.calculateQ ls av with e | s2 <;> rw [h2] at h
    · cases h
    dsimp only at h
    refine ⟨s1, s2, rfl, h2, fun i hi => ?_⟩
    have hn : s2.realNop = l.length := by
      obtain ⟨-, -, e⟩ := calculateQ_ok h2
      have e1 : s2.realNop = s1.realNop := by rw [e]; split_ifs <;> rfl
      obtain ⟨e2, -⟩ := cutoff_any hr hl h1
      rw [e1, e2]
      exact hrn
    unfold System.getAtoms at h
    split_ifs at h
    obtain rfl := Except.ok.inj h
    rw [hn, List.getElem?_take, if_pos hi]
  obtain ⟨s1, s2, u1, u2, u3⟩ := parts hs p5 hp h1
  obtain ⟨g1, g2, w1, w2, w3⟩ := parts hg q5 hp' h2
  have hil := (List.getElem?_eq_some_iff.1 hx).1
  have hkl := (List.getElem?_eq_some_iff.1 hy).1
  obtain ⟨a, c, ha, hcc, hP, hq⟩ := C92_q hr (p1.faithful p2 p3 hh) (q1.faithful q2 q3 hh') hp hp' u1 w1 i k x y
    (by rw [p6 i hil, hx]) (by rw [q6 k hkl, hy]) ⟨ht, by rw [p4, q4]; exact hV⟩ ls av s2 g2 u2 w2
  refine ⟨a, c, by rw [u3 i hil, ha], by rw [w3 k hkl, hcc], ?_, hq⟩
  have := hP.map fun p => (p.1, p.2.1, p.2.2.1)
  rwa [List.map_map, List.map_map] at this

/-! ### A concrete case -/

/-- `N` atoms at unit distance along a periodic line. -/
noncomputable def ringAtoms (N : ℕ) : List Atom := (List.range N).map fun (k : ℕ) => { pos := ⟨(k : ℝ), 0, 0⟩ }

theorem ring_get {N i : ℕ} {a : Atom} (h : (ringAtoms N)[i]? = some a) : i < N ∧ a = { pos := ⟨(i : ℝ), 0, 0⟩ } := by
  unfold ringAtoms at h
  rw [List.getElem?_map] at h
  rcases lt_or_ge i N with hi | hi
  · rw [List.getElem?_range hi] at h
    exact ⟨hi, (Option.some.inj h).symm⟩
  · rw [List.getElem?_eq_none (by simpa using hi)] at h
    cases h

theorem ring_mem {N : ℕ} {a : Atom} (h : a ∈ ringAtoms N) : ∃ i < N, a = { pos := ⟨(i : ℝ), 0, 0⟩ } := by
  obtain ⟨i, hi⟩ := List.mem_iff_getElem?.1 h
  exact ⟨i, ring_get hi⟩

theorem ring_crystal {N : ℕ} (hN : 0 < N) (p : V3) (t : ℤ) : (p, t) ∈ crystal (diagBox N 10 10) (ringAtoms N) ↔
    (∃ a b c : ℤ, p = ⟨a, 10 * b, 10 * c⟩) ∧ t = ({ pos := 0 } : Atom).type := by
  constructor
  · rintro ⟨x, hx, n1, n2, n3, e, ht⟩
    obtain ⟨i, -, rfl⟩ := ring_mem hx
    refine ⟨⟨i + n1 * N, n2, n3, ?_⟩, ht⟩
    dsimp only at e
    rw [e]
    ext <;> simp [latticeVec, diagBox] <;> ring
  · rintro ⟨⟨a, b, c, rfl⟩, rfl⟩
    have hz : (N : ℤ) ≠ 0 := by omega
    have h0 := Int.emod_nonneg a hz
    have h1 := Int.emod_lt_of_pos a (show (0 : ℤ) < N by omega)
    have h2 := Int.emod_add_mul_ediv a N
    refine ⟨{ pos := ⟨((a % N).toNat : ℝ), 0, 0⟩ }, List.mem_map.2 ⟨(a % N).toNat, List.mem_range.2 (by omega), rfl⟩, a / N, b, c, ?_, rfl⟩
    have h3 : (((a % N).toNat : ℕ) : ℝ) = ((a % N : ℤ) : ℝ) := by
      have : (((a % N).toNat : ℤ)) = a % N := Int.toNat_of_nonneg h0
      exact_mod_cast congrArg (Int.cast : ℤ → ℝ) this
    have h4 : (a : ℝ) = ((a % N : ℤ) : ℝ) + N * ((a / N : ℤ) : ℝ) := by exact_mod_cast h2.symm
    dsimp only
    rw [h3]
    ext
    · simp [latticeVec, diagBox]; linarith
    · simp [latticeVec, diagBox]; ring
    · simp [latticeVec, diagBox]; ring

theorem ring_ok {N : ℕ} (hN : 200 ≤ N) : Spec.Compact (diagBox N 10 10) (ringAtoms N) ∧ Spec.NoRepeats (diagBox N 10 10) (ringAtoms N) ∧
    Spec.HalfHeights (diagBox N 10 10) (5 / 2) := by
  have hNr : (200 : ℝ) ≤ N := by exact_mod_cast hN
  refine ⟨?_, ?_, ?_⟩
  · apply compact_of_inside
    intro a ha
    obtain ⟨i, hi, rfl⟩ := ring_mem ha
    refine ⟨⟨i / N, 0, 0⟩, ?_, ⟨by positivity, ?_⟩, ⟨le_refl _, by norm_num⟩, le_refl _, by norm_num⟩
    · ext <;> simp [ofFrac, diagBox]
      field_simp
    · rw [div_lt_one (by linarith)]; exact_mod_cast hi
  · intro i j a c ha hc him
    obtain ⟨hi, rfl⟩ := ring_get ha
    obtain ⟨hj, rfl⟩ := ring_get hc
    obtain ⟨n1, n2, n3, e⟩ := him
    rw [V3.ext_iff] at e
    have e1 := e.1
    simp [latticeVec, diagBox] at e1
    have e2 : (0 : ℤ) = j - i + n1 * N := by exact_mod_cast e1
    have hn0 : n1 = 0 := by
      by_contra hne
      rcases lt_or_gt_of_ne hne with h' | h'
      · nlinarith
      · nlinarith
    rw [hn0] at e2
    omega
  · have hv : volume (diagBox N 10 10) = 100 * N := by simp [volume, V3.dot, cross, diagBox]; ring
    have c1 : cross (diagBox N 10 10).r1 (diagBox N 10 10).r2 = ⟨100, 0, 0⟩ := by simp [cross, diagBox]; norm_num
    have c2 : cross (diagBox N 10 10).r2 (diagBox N 10 10).r0 = ⟨0, 10 * N, 0⟩ := by simp [cross, diagBox]
    have c3 : cross (diagBox N 10 10).r0 (diagBox N 10 10).r1 = ⟨0, 0, 10 * N⟩ := by simp [cross, diagBox]; ring
    unfold Spec.HalfHeights
    rw [hv, c1, c2, c3, norm_axis_x _ (by norm_num), norm_axis_y _ (by linarith), norm_axis_z _ (by linarith), abs_of_nonneg (by linarith)]
    refine ⟨?_, ?_, ?_⟩ <;> linarith

theorem ring_build {N : ℕ} (hN : 200 ≤ N) : ∃ s, buildSystem (diagBox N 10 10) (ringAtoms N) = .ok s ∧ s.box = diagBox N 10 10 ∧ s.atoms = ringAtoms N := by
  have hb : System.init.setBox (diagBox N 10 10) = .ok { System.init with box := diagBox N 10 10 } := by
    simp [System.setBox, not_skewed_diag]
  refine ⟨System.setAtoms { System.init with box := diagBox N 10 10 } (ringAtoms N), ?_, rfl, rfl⟩
  unfold buildSystem
  rw [hb]
  exact if_neg (by simp [ringAtoms]; omega)

/-- The hypotheses of `C92_api` hold for a line of 200 atoms in a box of length 200 and a line of 300 atoms in a box of
length 300, any atom of the one and any of the other, and the calculation succeeds: all these atoms get the same results. -/
example (σ : StdSort) (i k : ℕ) (hi : i < 200) (hk : k < 300) : ∃ as cs a c,
    analyse σ (diagBox (200 : ℕ) 10 10) (ringAtoms 200) 0 (.cutoff (5 / 2)) [4, 6] true = .ok as ∧
    analyse σ (diagBox (300 : ℕ) 10 10) (ringAtoms 300) 0 (.cutoff (5 / 2)) [4, 6] true = .ok cs ∧ as[i]? = some a ∧ cs[k]? = some c ∧
      c.nbrs.length = a.nbrs.length ∧ c.q 6 = a.q 6 ∧ c.aq 4 = a.aq 4 := by
  have hb : ∀ N : ℕ, 200 ≤ N → N ≤ 300 → ∃ as, analyse σ (diagBox N 10 10) (ringAtoms N) 0 (.cutoff (5 / 2)) [4, 6] true = .ok as := by
    intro N h1 h2
    have e : System.init.setBox (diagBox N 10 10) = .ok { System.init with box := diagBox N 10 10 } := by
      simp [System.setBox, not_skewed_diag]
    refine analyse_runs σ 0 true e (by simp [ringAtoms]; omega) (by simp [ringAtoms]; omega) ?_ (by norm_num) ?_
    · intro a ha
      obtain ⟨i, -, rfl⟩ := ring_mem ha
      rfl
    · intro k hk
      simp at hk
      omega
  have hreal : ∀ N : ℕ, ∀ a ∈ ringAtoms N, a.ghost = false := by
    intro N a ha
    obtain ⟨i, -, rfl⟩ := ring_mem ha
    rfl
  have hget : ∀ N i : ℕ, i < N → (ringAtoms N)[i]? = some { pos := ⟨(i : ℝ), 0, 0⟩ } := by
    intro N i h
    unfold ringAtoms
    rw [List.getElem?_map, List.getElem?_range h]; rfl
  have hor : ∀ N : ℕ, 200 ≤ N → (Spec.Skew (diagBox N 10 10) ∨ ∃ lx ly lz, 0 < lx ∧ 0 < ly ∧ 0 < lz ∧ diagBox N 10 10 = diagBox lx ly lz) := by
    intro N h
    have : (0 : ℝ) < N := by exact_mod_cast (by omega : 0 < N)
    exact .inr ⟨N, 10, 10, this, by norm_num, by norm_num, rfl⟩
  obtain ⟨as, h1⟩ := hb 200 le_rfl (by norm_num)
  obtain ⟨cs, h2⟩ := hb 300 (by norm_num) le_rfl
  obtain ⟨s, s1, s2, -⟩ := ring_build (N := 200) le_rfl
  obtain ⟨g, g1, g2, -⟩ := ring_build (N := 300) (by norm_num)
  have hs2 : s.natoms ≤ 2300 := by
    show s.realNop ≤ 2300
    rw [(build_props (hor 200 le_rfl) (hreal 200) (ring_ok le_rfl).1 (ring_ok le_rfl).2.1 s1).2.2.2.2.1]; simp [ringAtoms]
  have hg2 : g.natoms ≤ 2300 := by
    show g.realNop ≤ 2300
    rw [(build_props (hor 300 (by norm_num)) (hreal 300) (ring_ok (by norm_num)).1 (ring_ok (by norm_num)).2.1 g1).2.2.2.2.1]; simp [ringAtoms]
  obtain ⟨a, c, ha, hc, hP, hq⟩ := C92_api σ σ (diagBox (200 : ℕ) 10 10) (diagBox (300 : ℕ) 10 10) (hor 200 le_rfl) (hor 300 (by norm_num))
    (ringAtoms 200) (ringAtoms 300) (hreal 200) (hreal 300) (ring_ok le_rfl).1 (ring_ok (by norm_num)).1
    (ring_ok le_rfl).2.1 (ring_ok (by norm_num)).2.1 0 (5 / 2) (by norm_num) s g s1 g1 (by rw [s2]; exact (ring_ok le_rfl).2.2)
    (by rw [g2]; exact (ring_ok (by norm_num)).2.2) (.inl hs2) (.inl hg2) i k _ _ (hget 200 i hi) (hget 300 k hk) rfl (fun v t => by
      rw [ring_crystal (by norm_num), ring_crystal (by norm_num)]
      refine and_congr_left fun _ => ⟨?_, ?_⟩
      · rintro ⟨a, b, c, e⟩
        rw [V3.ext_iff] at e
        simp at e
        exact ⟨i - k + a, b, c, by ext <;> simp [e.2.1, e.2.2]; linarith [e.1]⟩
      · rintro ⟨a, b, c, e⟩
        rw [V3.ext_iff] at e
        simp at e
        exact ⟨k - i + a, b, c, by ext <;> simp [e.2.1, e.2.2]; linarith [e.1]⟩) [4, 6] true as cs h1 h2
  have hlen := hP.length_eq
  rw [List.length_map, List.length_map] at hlen
  exact ⟨as, cs, a, c, h1, h2, ha, hc, hlen, (hq 6 (by simp)).1, (hq 4 (by simp)).2.2 rfl⟩

/-- **The bound on the cutoff is needed**: with the cutoff 21/2 in a box of height 10, the crystal has an atom at the distance 10
straight above every atom, and no neighbour list contains it, since it is a copy of the atom itself. -/
theorem C92_range_needed (σ : StdSort) (s1 : System) (s : System) (h0 : buildSystem (diagBox (200 : ℕ) 10 10) (ringAtoms 200) = .ok s)
    (h : s.findNeighbors σ 0 (.cutoff (21 / 2)) = .ok s1) (i : ℕ) (a : Atom) (hi : s1.atoms[i]? = some a) :
    (a.pos + ⟨0, 10, 0⟩, a.type) ∈ crystal s1.box (ringAtoms 200) ∧ V3.norm ⟨0, 10, 0⟩ < 21 / 2 ∧ ∀ x ∈ a.nbrs, x.vec ≠ ⟨0, 10, 0⟩ := by
  obtain ⟨s', e, hbox, hat⟩ := ring_build (N := 200) le_rfl
  obtain rfl : s = s' := by rw [h0] at e; exact Except.ok.inj e
  obtain ⟨p1, p2, p3, p4, p5, p6⟩ := build_props (.inr ⟨(200 : ℕ), 10, 10, by norm_num, by norm_num, by norm_num, rfl⟩)
    (fun a ha => by obtain ⟨i, -, rfl⟩ := ring_mem ha; rfl) (ring_ok le_rfl).1 (ring_ok le_rfl).2.1 h0
  have hn : s.natoms ≤ 2300 := by
    show s.realNop ≤ 2300
    rw [p5]; simp [ringAtoms]
  obtain ⟨-, l1, e1⟩ := cutoff_atom (by norm_num) hn h
  obtain ⟨hlt, ea, -⟩ := e1 i a hi
  have hb1 : s1.box = s.box := by rw [(findNeighbors_cutoff_ok (by norm_num) hn h).2.1]
  have hm : ∀ j, j < s.atoms.length → s.mem j = { pos := ⟨(j : ℝ), 0, 0⟩ } := by
    intro j hj
    have h1 := List.getElem?_eq_getElem hj
    rw [(mem_of_getElem? h1).2]
    exact (ring_get (N := 200) (i := j) (by rw [← hat]; exact h1)).2
  have hp : a.pos = ⟨(i : ℝ), 0, 0⟩ ∧ a.type = ({ pos := 0 } : Atom).type := by
    rw [ea]
    constructor
    · show (s.mem i).pos = _; rw [hm i hlt]
    · show (s.mem i).type = _; rw [hm i hlt]
  refine ⟨?_, by rw [norm_axis_y _ (by norm_num)]; norm_num, fun x hx hv => ?_⟩
  · rw [hb1, hbox, ring_crystal (by norm_num), hp.1]
    exact ⟨⟨i, 1, 0, by ext <;> simp⟩, hp.2⟩
  · rw [ea] at hx
    change x ∈ cutoffNbs s (21 / 2) 0 i at hx
    unfold cutoffNbs at hx
    obtain ⟨j, hj, rfl⟩ := List.mem_map.1 hx
    have hjl := List.mem_range.1 (List.mem_filter.1 hj).1
    have hd : s.diffOf i j = s.image (ofFrac s.box ⟨((j : ℝ) - i) / 200, 0, 0⟩) := by
      show s.image ((s.mem j).pos - (s.mem i).pos) = _
      rw [hm i hlt, hm j hjl, hbox]
      congr 1
      ext <;> simp [ofFrac, diagBox]
    change s.diffOf i j = _ at hv
    rw [hd, p1.2.2.2.2.2, V3.ext_iff] at hv
    have hy := hv.2.1
    have h0' : wrap s.boxy 0 = 0 := by
      have hpos := p1.2.1
      have h1 : ¬ (0 : ℝ) > s.boxy / 2 := by linarith
      have h2 : ¬ (0 : ℝ) < -s.boxy / 2 := by linarith
      simp only [wrap, if_neg h1, if_neg h2]
    rw [hbox] at hy
    simp [ofFrac, diagBox, h0'] at hy

/-- The search of `C92_range_needed` succeeds, and there are atoms to look at. -/
example (σ : StdSort) : ∃ s s1 a, buildSystem (diagBox (200 : ℕ) 10 10) (ringAtoms 200) = .ok s ∧ s.findNeighbors σ 0 (.cutoff (21 / 2)) = .ok s1 ∧
    s1.atoms[57]? = some a := by
  obtain ⟨s, e, -, hat⟩ := ring_build (N := 200) le_rfl
  obtain ⟨-, -, -, -, p5, -⟩ := build_props (.inr ⟨(200 : ℕ), 10, 10, by norm_num, by norm_num, by norm_num, rfl⟩)
    (fun a ha => by obtain ⟨i, -, rfl⟩ := ring_mem ha; rfl) (ring_ok le_rfl).1 (ring_ok le_rfl).2.1 e
  have hn : s.realNop = 200 := by rw [p5]; simp [ringAtoms]
  have hl : s.atoms.length = 200 := by rw [hat]; simp [ringAtoms]
  obtain ⟨s1, h1⟩ := (C09_overrun σ s 0 (21 / 2) (by norm_num) (by omega) (by omega)).2 (by
    intro k hk
    rw [← cutoffList_length (List.getElem?_eq_getElem hk) (cutoffNbs_spec (List.getElem?_eq_getElem hk))]
    exact (cutoffNbs_le _ _ _ _).trans (by omega))
  have := (cutoff_atom (by norm_num) (show s.natoms ≤ 2300 by show s.realNop ≤ 2300; omega) h1).2.1
  exact ⟨s, s1, _, e, h1, List.getElem?_eq_getElem (show 57 < s1.atoms.length by omega)⟩

end Pyscal
