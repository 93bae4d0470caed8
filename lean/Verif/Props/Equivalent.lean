import Verif.Props.Supercell
import Verif.Props.Entropy
import Verif.Props.Perfect
import Verif.Props.Frame
import Verif.Props.PerfectChi

/-! C92 and C106: atoms that see the same crystal have the same entropy; atoms on the same site of a crystal built with `make_crystal` have the same results. -/

namespace Pyscal

open Spec (diagBox ofFrac latticeVec IsImage crystal InBox)

/-! ### Entropy -/

theorem gmr_perm {a c : Atom} (h : (c.nbrs.map Nb.dist).Perm (a.nbrs.map Nb.dist)) (w ρ x : ℝ) : gmr c w ρ x = gmr a w ρ x := by
  unfold gmr
  have : (c.nbrs.map fun e => Real.exp (-1 * ((x - e.dist) * (x - e.dist)) / (2 * (w * w)))).sum =
      (a.nbrs.map fun e => Real.exp (-1 * ((x - e.dist) * (x - e.dist)) / (2 * (w * w)))).sum := by
    have := (h.map fun d => Real.exp (-1 * ((x - d) * (x - d)) / (2 * (w * w)))).sum_eq
    rw [List.map_map, List.map_map] at this
    exact this
  simp only [this]

theorem trapezoid_perm {a c : Atom} (h : (c.nbrs.map Nb.dist).Perm (a.nbrs.map Nb.dist)) (w ρ x y d k : ℝ) : trapezoid c w ρ x y d k = trapezoid a w ρ x y d k := by
  have : ∀ z, entropyIntegrand c w ρ z = entropyIntegrand a w ρ z := fun z => by
    unfold entropyIntegrand
    rw [gmr_perm h]
  unfold trapezoid
  simp only [this]

theorem nanAdd_perm {l l' : List (Option ℝ)} (h : l.Perm l') (c : Option ℝ) : l.foldl nanAdd c = l'.foldl nanAdd c := by
  refine h.foldl_eq' (fun x _ y _ z => ?_) c
  cases x <;> cases y <;> cases z <;> simp [nanAdd, add_right_comm]

/-- The state after `calculate_entropy` with a density other than zero. -/
theorem entropy_state {s s' : System} {reals : List Atom} (hi : StoreInv s reals) {rm w rstart h : ℝ} {av : System.EntropyAverage}
    (he : System.calculateEntropy rm w rstart h false av s = (s', .ok ())) {ρ : ℝ} (hρ : fdiv s.natoms s.getBox.det = some ρ) (h0 : ρ ≠ 0) :
    ∃ t : System, t.atoms = (s.atoms.map fun a => { a with entropy := trapezoid a w ρ rstart rm h 1 }) ∧
      (av = .none → s'.atoms = t.atoms) ∧ (av = .plain → s'.atoms = t.atoms.map t.avgEntropy1) ∧
      (∀ ra M N, av = .switch ra M N → ∃ x, ra = some x ∧ s'.atoms = t.atoms.map (t.avgEntropySwitch1 x M N)) := by
  have hl : (reals.length : ℝ) = s.natoms := by rw [← hi.realNop]; rfl
  unfold System.calculateEntropy at he
  rw [getAtoms_inv hi] at he
  dsimp only at he
  generalize hR : (if false = true then some 0 else fdiv (reals.length : ℝ) s.boxDet) = R at he
  rw [if_neg (by decide), hl, boxDet_eq, hρ] at hR
  subst hR
  refine ⟨{ s with atoms := entropyLoop w rstart rm h 1 (some ρ) s.atoms }, ?_, ?_⟩
  · change entropyLoop w rstart rm h 1 (some ρ) s.atoms = _
    rw [entropyLoop_const _ _ _ _ _ _ (by simpa using h0)]
    rfl
  cases av with
  | none =>
    refine ⟨fun _ => ?_, (by intro h; cases h), (by intro _ _ _ h; cases h)⟩
    exact (congrArg (fun p : System × Except Fault Unit => p.1.atoms) he).symm
  | plain =>
    dsimp only at he
    refine ⟨(by intro h; cases h), fun _ => ?_, (by intro _ _ _ h; cases h)⟩
    split_ifs at he
    · exact (congrArg (fun p : System × Except Fault Unit => p.1.atoms) he).symm
    · cases congrArg Prod.snd he
  | switch ra M N =>
    cases ra with
    | none => cases congrArg Prod.snd he
    | some x =>
      dsimp only at he
      refine ⟨(by intro h; cases h), (by intro h; cases h), fun ra' M' N' e => ?_⟩
      cases e
      refine ⟨x, rfl, ?_⟩
      split_ifs at he
      · exact (congrArg (fun p : System × Except Fault Unit => p.1.atoms) he).symm
      · cases congrArg Prod.snd he

/-- **C92, entropy**: two atoms, in the same or in different systems of the same density, that see the same crystal get the same entropy from `calculate_entropy` and the same averaged
entropy, with all parameters, with and without the switching function. -/
theorem C92_entropy {σ σ' : StdSort} {s g s1 g1 : System} {f : ℕ} {r : ℝ} (hr : r ≠ 0) (hF : Spec.Faithful s r) (hG : Spec.Faithful g r) (hn : Spec.PairsExact s r)
    (hn' : Spec.PairsExact g r) (h1 : s.findNeighbors σ f (.cutoff r) = .ok s1) (h2 : g.findNeighbors σ' f (.cutoff r) = .ok g1)
    {rs rg : List Atom} (is : StoreInv s rs) (ig : StoreInv g rg) (hs0 : 0 < s.natoms) (hds : s.getBox.det ≠ 0) (hdg : g.getBox.det ≠ 0)
    (hρ : (g.natoms : ℝ) / g.getBox.det = s.natoms / s.getBox.det)
    (i k : ℕ) (a c : Atom) (hi : s.atoms[i]? = some a) (hk : g.atoms[k]? = some c) (hV : Spec.SameView s a g c)
    (rm w rstart h : ℝ) (av : System.EntropyAverage) (s2 g2 : System)
    (h3 : System.calculateEntropy rm w rstart h false av s1 = (s2, .ok ())) (h4 : System.calculateEntropy rm w rstart h false av g1 = (g2, .ok ())) :
    ∃ a2 c2, s2.atoms[i]? = some a2 ∧ g2.atoms[k]? = some c2 ∧ c2.entropy = a2.entropy ∧ (av ≠ .none → c2.avgEntropy = a2.avgEntropy) := by
  set ρ := (s.natoms : ℝ) / s.getBox.det with hρd
  have hρ0 : ρ ≠ 0 := div_ne_zero (by exact_mod_cast hs0.ne') hds
  obtain ⟨x1, l1, y1⟩ := cutoff_any hr hn h1
  obtain ⟨x2, l2, y2⟩ := cutoff_any hr hn' h2
  have is1 := (storeInv_any hr hn h1 is).1
  have ig1 := (storeInv_any hr hn' h2 ig).1
  have f1 : fdiv s1.natoms s1.getBox.det = some ρ := by
    rw [x1]
    change fdiv s.natoms s.getBox.det = some ρ
    rw [fdiv, if_neg hds]
  have f2 : fdiv g1.natoms g1.getBox.det = some ρ := by
    rw [x2]
    change fdiv g.natoms g.getBox.det = some ρ
    rw [fdiv, if_neg hdg, hρ]
  obtain ⟨t, ht, ta, tb, tc⟩ := entropy_state is1 h3 f1 hρ0
  obtain ⟨u, hu, ua, ub, uc⟩ := entropy_state ig1 h4 f2 hρ0
  -- distances of neighbours
  have hd : ∀ {q q1 : System} {τ : StdSort} (_ : Spec.PairsExact q r) (_ : q.findNeighbors τ f (.cutoff r) = .ok q1) (j : ℕ) (b : Atom), q1.atoms[j]? = some b →
      b.nbrs.map Nb.dist = (b.nbrs.map (placed q)).map fun p => V3.norm p.1 := by
    intro q q1 τ hq e j b hb
    obtain ⟨-, -, y⟩ := cutoff_any hr hq e
    rw [List.map_map]
    refine List.map_congr_left fun e he => ?_
    have := (y j b hb).2.1.mem_iff.1 he
    unfold cutoffNbs at this
    obtain ⟨m, -, rfl⟩ := List.mem_map.1 this
    rfl
  have zero : ∀ {i k : ℕ} {a c : Atom} (_ : s.atoms[i]? = some a) (_ : g.atoms[k]? = some c) (_ : Spec.SameView s a g c),
      ∃ a1 c1, s1.atoms[i]? = some a1 ∧ g1.atoms[k]? = some c1 ∧ (c1.nbrs.map (placed g)).Perm (a1.nbrs.map (placed s)) ∧
        trapezoid c1 w ρ rstart rm h 1 = trapezoid a1 w ρ rstart rm h 1 ∧ (c1.nbrs.map Nb.dist).Perm (a1.nbrs.map Nb.dist) := by
    intro i k a c hi hk hV
    obtain ⟨a1, c1, ha, hc, hP, -⟩ := view_alike hr hF hG hn hn' h1 h2 hi hk hV
    have hD : (c1.nbrs.map Nb.dist).Perm (a1.nbrs.map Nb.dist) := by
      rw [hd hn h1 i a1 ha, hd hn' h2 k c1 hc]
      exact hP.map _
    exact ⟨a1, c1, ha, hc, hP, trapezoid_perm hD _ _ _ _ _ _, hD⟩
  obtain ⟨a1, c1, ha, hc, hP, hT, hD⟩ := zero hi hk hV
  have na := (y1 i a1 ha).2.1
  have nc := (y2 k c1 hc).2.1
  have mem : ∀ {q1 t : System}, t.atoms = (q1.atoms.map fun a => { a with entropy := trapezoid a w ρ rstart rm h 1 }) → ∀ (j : ℕ) (b : Atom), q1.atoms[j]? = some b →
      (t.mem j).entropy = trapezoid b w ρ rstart rm h 1 := by
    intro q1 t ht j b hb
    have : t.atoms[j]? = some { b with entropy := trapezoid b w ρ rstart rm h 1 } := by rw [ht, List.getElem?_map, hb]; rfl
    rw [(mem_of_getElem? this).2]
  have ent : ∀ x ∈ a1.nbrs, ∀ y ∈ c1.nbrs, placed g y = placed s x → y.dist = x.dist ∧ (u.mem y.idx).entropy = (t.mem x.idx).entropy := by
    intro x hx y hy hxy
    have hx' := na.mem_iff.1 hx
    have hy' := nc.mem_iff.1 hy
    obtain ⟨p, q, hp, hq, hpq⟩ := view_nbr hF hG hi hk hV hx' hy' hxy
    obtain ⟨p1, q1, hp1, hq1, -, hz, -⟩ := zero hp hq hpq
    refine ⟨?_, by rw [mem hu _ _ hq1, mem ht _ _ hp1, hz]⟩
    unfold cutoffNbs at hx' hy'
    obtain ⟨m, -, rfl⟩ := List.mem_map.1 hx'
    obtain ⟨m', -, rfl⟩ := List.mem_map.1 hy'
    exact congrArg (fun p : V3 × ℤ => V3.norm p.1) hxy
  have hta : t.atoms[i]? = some { a1 with entropy := trapezoid a1 w ρ rstart rm h 1 } := by rw [ht, List.getElem?_map, ha]; rfl
  have huc : u.atoms[k]? = some { c1 with entropy := trapezoid c1 w ρ rstart rm h 1 } := by rw [hu, List.getElem?_map, hc]; rfl
  have hlen : c1.nbrs.length = a1.nbrs.length := by
    have := hP.length_eq
    simpa using this
  cases av with
  | none => exact ⟨_, _, by rw [ta rfl]; exact hta, by rw [ua rfl]; exact huc, hT, fun h => absurd rfl h⟩
  | plain =>
    refine ⟨_, _, by rw [tb rfl, List.getElem?_map, hta]; rfl, by rw [ub rfl, List.getElem?_map, huc]; rfl, hT, fun _ => ?_⟩
    simp only [System.avgEntropy1]
    rw [hT, hlen]
    congr 1
    exact nanAdd_perm (perm_of_key _ _ hP fun x hx y hy e => (ent x hx y hy e).2) _
  | switch ra M N =>
    obtain ⟨x, rfl, e1⟩ := tc _ _ _ rfl
    obtain ⟨x', e, e2⟩ := uc _ _ _ rfl
    cases e
    refine ⟨_, _, by rw [e1, List.getElem?_map, hta]; rfl, by rw [e2, List.getElem?_map, huc]; rfl, hT, fun _ => ?_⟩
    simp only [System.avgEntropySwitch1]
    rw [hT]
    have q1 := nanAdd_perm (perm_of_key (fun e : Nb => switchingFn e.dist x M N) (fun e : Nb => switchingFn e.dist x M N) hP
      fun x hx y hy e => by rw [(ent x hx y hy e).1]) (some 0)
    have q2 := nanAdd_perm (perm_of_key (fun z : Nb => (do
        let e ← (t.mem z.idx).entropy
        let f ← switchingFn z.dist x M N
        return e * f : Option ℝ)) (fun z : Nb => (do
        let e ← (u.mem z.idx).entropy
        let f ← switchingFn z.dist x M N
        return e * f : Option ℝ)) hP fun x hx y hy e => by rw [(ent x hx y hy e).1, (ent x hx y hy e).2]) (some 0)
    rw [q1, q2]

/-! ### Chi parameters -/

open Classical in
theorem chi_list (cos : V3 → V3 → Option ℝ) (a : Atom) :
    (chi1With cos a).chi = (List.range 9).map fun b => pairCount (fun v w => decide (∃ x, cos v w = some x ∧ Spec.ChiBin b x)) (a.nbrs.map Nb.vec) := by
  refine List.ext_getElem? fun b => ?_
  by_cases hb : b < 9
  · haveI : Inhabited V3 := ⟨0⟩
    rw [chi_entry_with cos a hb, List.getElem?_map, List.getElem?_range hb, Option.map_some, ← pairSet_count, List.length_map]
    congr 2
    refine Finset.filter_congr ?_
    rintro ⟨i, j⟩ hp
    simp only [Spec.pairSet, Finset.mem_filter, Finset.mem_product, Finset.mem_range] at hp
    have hv : ∀ j < a.nbrs.length, (a.nbrs.map Nb.vec).getD j default = Spec.nbVector a.nbrs j := by
      intro j hj
      unfold Spec.nbVector
      rw [List.getD_eq_getElem?_getD, List.getElem?_map, List.getElem?_eq_getElem hj]
      rfl
    rw [hv i hp.1.1, hv j hp.1.2]
    simp
  · rw [List.getElem?_eq_none (by rw [chi_length_with]; omega), List.getElem?_eq_none (by simp; omega)]

theorem chi_perm {a c : Atom} (h : (c.nbrs.map Nb.vec).Perm (a.nbrs.map Nb.vec)) : (chi1 c).chi = (chi1 a).chi := by
  classical
  have hsym : ∀ v w, pyCos v w = pyCos w v := by
    intro v w
    unfold pyCos
    rw [mul_comm (V3.norm v)]
    congr 1
    simp only [V3.dot]
    ring
  unfold chi1
  rw [chi_list, chi_list]
  refine List.map_congr_left fun b _ => pairCount_perm (fun v w => ?_) h
  simp only [hsym v w]

/-- **C92, chi parameters**: two atoms that see the same crystal get the same vector from `calculate_chiparams`. -/
theorem C92_chi {σ σ' : StdSort} {s g s1 g1 : System} {f : ℕ} {r : ℝ} (hr : r ≠ 0) (hF : Spec.Faithful s r) (hG : Spec.Faithful g r) (hn : Spec.PairsExact s r)
    (hn' : Spec.PairsExact g r) (h1 : s.findNeighbors σ f (.cutoff r) = .ok s1) (h2 : g.findNeighbors σ' f (.cutoff r) = .ok g1)
    {rs rg : List Atom} (is : StoreInv s rs) (ig : StoreInv g rg) (i k : ℕ) (a c : Atom) (hi : s.atoms[i]? = some a) (hk : g.atoms[k]? = some c) (hV : Spec.SameView s a g c)
    (hin : i < s.natoms) (hkn : k < g.natoms) (s2 g2 : System) (h3 : s1.calculateChi = .ok s2) (h4 : g1.calculateChi = .ok g2) :
    ∃ as cs a2 c2, s2.getAtoms = .ok as ∧ g2.getAtoms = .ok cs ∧ as[i]? = some a2 ∧ cs[k]? = some c2 ∧ c2.chi = a2.chi := by
  obtain ⟨a1, c1, ha, hc, hP, -⟩ := view_alike hr hF hG hn hn' h1 h2 hi hk hV
  have key : ∀ {q q1 q2 : System} {τ : StdSort} {rq : List Atom} (_ : StoreInv q rq) (_ : Spec.PairsExact q r) (_ : q.findNeighbors τ f (.cutoff r) = .ok q1)
      (_ : q1.calculateChi = .ok q2) (j : ℕ) (b : Atom), q1.atoms[j]? = some b → j < q.natoms → ∃ bs, q2.getAtoms = .ok bs ∧ bs[j]? = some (chi1 b) := by
    intro q q1 q2 τ rq iq hq e1 e2 j b hb hj
    obtain ⟨i1, -⟩ := storeInv_any hr hq e1 iq
    unfold System.calculateChi at e2
    rw [getAtoms_inv i1] at e2
    change q1.assignAtoms ((q1.atoms.take q.realNop).map chi1) = .ok q2 at e2
    obtain ⟨g2, -, -⟩ := C05_assign_atoms q1 q2 _ (by
      intro x hx
      obtain ⟨y, hy, rfl⟩ := List.mem_map.1 hx
      exact i1.real y hy) e2
    exact ⟨_, g2, by rw [List.getElem?_map, List.getElem?_take_of_lt (show j < q.realNop from hj), hb]; rfl⟩
  obtain ⟨as, e1, e2⟩ := key is hn h1 h3 i a1 ha hin
  obtain ⟨cs, e3, e4⟩ := key ig hn' h2 h4 k c1 hc hkn
  refine ⟨as, cs, _, _, e1, e3, e2, e4, chi_perm ?_⟩
  have := hP.map Prod.fst
  rw [List.map_map, List.map_map] at this
  exact this

/-! ### Sites of a crystal -/

/-- Specification: two atoms of a crystal are on equivalent sites: they are whole cells apart, or the structure has only one kind of site (sc, bcc, fcc). -/
def Spec.SameSite (name : String) (e : V3) (x y : Atom) : Prop :=
  name ∈ ["sc", "bcc", "fcc"] ∨ ∃ n1 n2 n3 : ℤ, y.pos.x = x.pos.x + n1 * e.x ∧ y.pos.y = x.pos.y + n2 * e.y ∧ y.pos.z = x.pos.z + n3 * e.z

theorem basis_range : ∀ name ∈ Spec.structures, (∀ b ∈ Spec.basis name, (0 ≤ b.1.1 ∧ b.1.1 < 1) ∧ (0 ≤ b.1.2.1 ∧ b.1.2.1 < 1) ∧ (0 ≤ b.1.2.2 ∧ b.1.2.2 < 1)) ∧
    ∀ b ∈ Spec.basis name, ∀ c ∈ Spec.basis name, b.1 = c.1 → b.2 = c.2 := by decide +kernel

theorem basis_closed : ∀ name ∈ ["sc", "bcc", "fcc"], ∀ b ∈ Spec.basis name, ∀ c ∈ Spec.basis name, ∀ d ∈ Spec.basis name, ∃ g ∈ Spec.basis name, g.2 = d.2 ∧
    (d.1.1 + c.1.1 - b.1.1 - g.1.1).den = 1 ∧ (d.1.2.1 + c.1.2.1 - b.1.2.1 - g.1.2.1).den = 1 ∧ (d.1.2.2 + c.1.2.2 - b.1.2.2 - g.1.2.2).den = 1 := by decide +kernel

theorem den_one {q : ℚ} (h : q.den = 1) : (q : ℝ) = (q.num : ℝ) := by
  have : (q.num : ℚ) = q := Rat.coe_int_num_of_den_eq_one h
  have := congrArg (fun z : ℚ => (z : ℝ)) this
  push_cast at this
  exact this.symm

theorem int_zero {q p : ℚ} {n m : ℤ} (hq : 0 ≤ q ∧ q < 1) (hp : 0 ≤ p ∧ p < 1) (h : (q : ℝ) + n = p + m) : q = p := by
  have h' : q + n = p + m := by exact_mod_cast h
  have h1 : (n : ℚ) - m < 1 := by linarith
  have h2 : (-1 : ℚ) < n - m := by linarith
  have : n = m := by
    have a1 : n - m < 1 := by exact_mod_cast h1
    have a2 : -1 < n - m := by exact_mod_cast h2
    omega
  subst this
  linarith

/-- A position of a crystal has one type only. -/
theorem ideal_type {name : String} (hn : name ∈ Spec.structures) {e : V3} (hx : e.x ≠ 0) (hy : e.y ≠ 0) (hz : e.z ≠ 0) {p : V3} {t u : ℤ}
    (ht : (p, t) ∈ Spec.idealCrystal e (Spec.basis name)) (hu : (p, u) ∈ Spec.idealCrystal e (Spec.basis name)) : t = u := by
  obtain ⟨b, hb, n1, n2, n3, e1, rfl⟩ := ht
  obtain ⟨c, hc, m1, m2, m3, e2, rfl⟩ := hu
  obtain ⟨r1, r2⟩ := basis_range name hn
  dsimp only at e1 e2
  rw [e1] at e2
  simp only [V3.mk.injEq] at e2
  obtain ⟨q1, q2, q3⟩ := e2
  refine r2 b hb c hc (Prod.ext ?_ (Prod.ext ?_ ?_))
  · exact int_zero (r1 b hb).1 (r1 c hc).1 (mul_right_cancel₀ hx q1)
  · exact int_zero (r1 b hb).2.1 (r1 c hc).2.1 (mul_right_cancel₀ hy q2)
  · exact int_zero (r1 b hb).2.2 (r1 c hc).2.2 (mul_right_cancel₀ hz q3)

/-- Equivalent sites: the crystal around one is the crystal around the other. -/
theorem site_view {name : String} {e : V3} {x y : Atom} (hx : (x.pos, x.type) ∈ Spec.idealCrystal e (Spec.basis name))
    (hy : (y.pos, y.type) ∈ Spec.idealCrystal e (Spec.basis name)) (h : Spec.SameSite name e x y) (v : V3) (t : ℤ)
    (hm : (x.pos + v, t) ∈ Spec.idealCrystal e (Spec.basis name)) : (y.pos + v, t) ∈ Spec.idealCrystal e (Spec.basis name) := by
  obtain ⟨d, hd, l1, l2, l3, ed, rfl⟩ := hm
  dsimp only at ed
  have ev : v.x = (d.1.1 + l1) * e.x - x.pos.x ∧ v.y = (d.1.2.1 + l2) * e.y - x.pos.y ∧ v.z = (d.1.2.2 + l3) * e.z - x.pos.z := by
    have c1 := congrArg V3.x ed
    have c2 := congrArg V3.y ed
    have c3 := congrArg V3.z ed
    simp only [V3.add_x, V3.add_y, V3.add_z] at c1 c2 c3
    refine ⟨?_, ?_, ?_⟩ <;> linarith
  rcases h with h | ⟨n1, n2, n3, q1, q2, q3⟩
  · obtain ⟨b, hb, n1, n2, n3, eb, -⟩ := hx
    obtain ⟨c, hc, m1, m2, m3, ec, -⟩ := hy
    dsimp only at eb ec
    obtain ⟨g, hg, gt, g1, g2, g3⟩ := basis_closed name h b hb c hc d hd
    have k1 := den_one g1
    have k2 := den_one g2
    have k3 := den_one g3
    push_cast at k1 k2 k3
    refine ⟨g, hg, (d.1.1 + c.1.1 - b.1.1 - g.1.1).num + l1 + m1 - n1, (d.1.2.1 + c.1.2.1 - b.1.2.1 - g.1.2.1).num + l2 + m2 - n2,
      (d.1.2.2 + c.1.2.2 - b.1.2.2 - g.1.2.2).num + l3 + m3 - n3, ?_, gt.symm⟩
    dsimp only
    rw [V3.ext_iff]
    simp only [V3.add_x, V3.add_y, V3.add_z]
    push_cast
    rw [← k1, ← k2, ← k3, ev.1, ev.2.1, ev.2.2, ec, eb]
    dsimp only
    refine ⟨?_, ?_, ?_⟩ <;> ring
  · refine ⟨d, hd, l1 + n1, l2 + n2, l3 + n3, ?_, rfl⟩
    dsimp only
    rw [V3.ext_iff]
    simp only [V3.add_x, V3.add_y, V3.add_z]
    push_cast
    rw [q1, q2, q3, ev.1, ev.2.1, ev.2.2]
    refine ⟨?_, ?_, ?_⟩ <;> ring

theorem sameSite_symm {name : String} {e : V3} {x y : Atom} (h : Spec.SameSite name e x y) : Spec.SameSite name e y x := by
  rcases h with h | ⟨n1, n2, n3, q1, q2, q3⟩
  · exact .inl h
  · refine .inr ⟨-n1, -n2, -n3, ?_, ?_, ?_⟩ <;> push_cast <;> linarith

/-- Two atoms on equivalent sites of a crystal see the same. -/
theorem site_same {name : String} (hn : name ∈ Spec.structures) {e : V3} (ex : e.x ≠ 0) (ey : e.y ≠ 0) (ez : e.z ≠ 0) {s : System}
    (hcr : crystal s.box s.atoms = Spec.idealCrystal e (Spec.basis name)) {x y : Atom} (hx : x ∈ s.atoms) (hy : y ∈ s.atoms) (h : Spec.SameSite name e x y) : Spec.SameView s x s y := by
  have mem : ∀ z ∈ s.atoms, (z.pos, z.type) ∈ Spec.idealCrystal e (Spec.basis name) := by
    intro z hz
    rw [← hcr]
    exact ⟨z, hz, 0, 0, 0, by ext <;> simp [latticeVec], rfl⟩
  refine ⟨?_, fun v t => ?_⟩
  · have z0 : ∀ v : V3, v + 0 = v := fun v => by ext <;> simp
    have := site_view (mem x hx) (mem y hy) h 0 x.type (by rw [z0]; exact mem x hx)
    rw [z0] at this
    exact ideal_type hn ex ey ez (mem y hy) this
  · rw [hcr]
    exact ⟨site_view (mem y hy) (mem x hx) (sameSite_symm h) v t, site_view (mem x hx) (mem y hy) h v t⟩

/-- A system built from the output of `make_crystal`. -/
theorem crystal_ready {name : String} (hn : name ∈ Spec.structures) {a ca r : ℝ} (ha : 0 < a) (hca : 0 < ca) {nx ny nz : ℕ} (hx : 1 ≤ nx) (hy : 1 ≤ ny) (hz : 1 ≤ nz) (hr : 0 ≤ r)
    (hfit : Spec.RangeFits ((Spec.basis name).length * nx * ny * nz) (nx * (Spec.cellEdges name a ca).x) (ny * (Spec.cellEdges name a ca).y) (nz * (Spec.cellEdges name a ca).z) r) :
    ∃ atoms box s reals, makeCrystal name a nx ny nz ca = .ok (atoms, box) ∧ buildSystem box atoms = .ok s ∧ Spec.Faithful s r ∧ Spec.PairsExact s r ∧
      crystal s.box s.atoms = Spec.idealCrystal (Spec.cellEdges name a ca) (Spec.basis name) ∧ StoreInv s reals ∧ 0 < s.natoms ∧ s.natoms = atoms.length ∧ s.getBox.det ≠ 0 ∧
      (Spec.cellEdges name a ca).x ≠ 0 ∧ (Spec.cellEdges name a ca).y ≠ 0 ∧ (Spec.cellEdges name a ca).z ≠ 0 := by
  have he : 0 < (Spec.cellEdges name a ca).x ∧ 0 < (Spec.cellEdges name a ca).y ∧ 0 < (Spec.cellEdges name a ca).z := by
    unfold Spec.cellEdges
    split
    · exact ⟨ha, by positivity, by positivity⟩
    · exact ⟨ha, ha, ha⟩
  obtain ⟨e1, e2, e3⟩ := he
  obtain ⟨atoms, lx, ly, lz, hm, ex, ey, ez, hlen, hat, hnd, hcr⟩ := C40_make_crystal name hn ha hca hx hy hz
  have x0 : (0 : ℝ) < nx := by exact_mod_cast hx
  have y0 : (0 : ℝ) < ny := by exact_mod_cast hy
  have z0 : (0 : ℝ) < nz := by exact_mod_cast hz
  have hall : ∀ c ∈ atoms, c.ghost = false ∧ InBox lx ly lz c.pos := by
    intro c hc
    obtain ⟨k, hk⟩ := List.mem_iff_getElem?.1 hc
    exact (hat k c hk).2.2
  have hB : ∀ name ∈ Spec.structures, 0 < (Spec.basis name).length := by decide
  have hpos : 0 < (Spec.basis name).length * nx * ny * nz := by have := hB name hn; positivity
  have hne : atoms ≠ [] := by
    rintro rfl
    rw [List.length_nil] at hlen
    omega
  have lx0 : 0 < lx := by rw [ex]; positivity
  have ly0 : 0 < ly := by rw [ey]; positivity
  have lz0 : 0 < lz := by rw [ez]; positivity
  obtain ⟨s, hb, hF, hP, hreal, hle, hcr', -⟩ := inBox_build lx0 ly0 lz0 hne (fun c hc => (hall c hc).1) (fun c hc => (hall c hc).2) hnd hr (by rw [hlen, ex, ey, ez]; exact hfit)
  have hb0 := hb
  unfold buildSystem at hb0
  obtain ⟨s0, hs0, ha0⟩ := bind_ok hb0
  have hH := (assigned_start hs0 ha0 fun c hc => (hall c hc).1).2
  obtain ⟨reals, hinv, -⟩ := hH.inv
  refine ⟨atoms, _, s, reals, hm, hb, hF, hP, hcr'.trans hcr, hinv, ?_, hreal, ?_, e1.ne', e2.ne', e3.ne'⟩
  · show 0 < s.realNop
    rw [hreal, hlen]
    exact hpos
  · rw [hH.getBox]
    simp only [Mat3.det, diagBox]
    have : 0 < lx * ly * lz := by positivity
    intro h0
    ring_nf at h0
    exact this.ne' h0

/-- **C106**: build a crystal of any structure with `make_crystal` and search with any cutoff that fits into the box.  Two atoms on equivalent sites have the same neighbour vectors,
distances and types, the same q and averaged q, the same correlations and verdict of `find_solids`, the same entropy and averaged entropy, and the same chi parameters. -/
theorem C106_sites (σ : StdSort) (name : String) (hn : name ∈ Spec.structures) {a ca r : ℝ} (ha : 0 < a) (hca : 0 < ca) {nx ny nz : ℕ} (hx : 1 ≤ nx) (hy : 1 ≤ ny) (hz : 1 ≤ nz) (hr : 0 < r)
    (hfit : Spec.RangeFits ((Spec.basis name).length * nx * ny * nz) (nx * (Spec.cellEdges name a ca).x) (ny * (Spec.cellEdges name a ca).y) (nz * (Spec.cellEdges name a ca).z) r)
    (f : ℕ) : ∃ atoms box s, makeCrystal name a nx ny nz ca = .ok (atoms, box) ∧ buildSystem box atoms = .ok s ∧
      ∀ s1, s.findNeighbors σ f (.cutoff r) = .ok s1 → ∀ (i k : ℕ) (x y : Atom), s.atoms[i]? = some x → s.atoms[k]? = some y → Spec.SameSite name (Spec.cellEdges name a ca) x y →
        (∀ (ls : List ℤ) (av : Bool) (s2 : System), s1.calculateQ ls av = .ok s2 → ∃ x2 y2, s2.atoms[i]? = some x2 ∧ s2.atoms[k]? = some y2 ∧
          (y2.nbrs.map fun e => (e.vec, e.dist, e.weight, (s2.mem e.idx).type)).Perm (x2.nbrs.map fun e => (e.vec, e.dist, e.weight, (s2.mem e.idx).type)) ∧
          ∀ l : ℕ, (l : ℤ) ∈ ls → y2.q l = x2.q l ∧ y2.qlm l = x2.qlm l ∧ (av = true → y2.aq l = x2.aq l)) ∧
        (∀ (bonds threshold avgthreshold q : PyNum) (cutoff : ℝ) (right : Bool) (s2 : System) (o : Option ℕ),
          System.findSolids bonds threshold avgthreshold false q cutoff right s1 = (s2, .ok o) → ∃ x2 y2, s2.atoms[i]? = some x2 ∧ s2.atoms[k]? = some y2 ∧
            y2.sij.Perm x2.sij ∧ y2.frenkel = x2.frenkel ∧ y2.avq = x2.avq ∧ y2.issolid = x2.issolid) ∧
        (∀ (rm w rstart h : ℝ) (av : System.EntropyAverage) (s2 : System), System.calculateEntropy rm w rstart h false av s1 = (s2, .ok ()) →
          ∃ x2 y2, s2.atoms[i]? = some x2 ∧ s2.atoms[k]? = some y2 ∧ y2.entropy = x2.entropy ∧ (av ≠ .none → y2.avgEntropy = x2.avgEntropy)) ∧
        ∀ s2, s1.calculateChi = .ok s2 → i < atoms.length → k < atoms.length → ∃ as x2 y2, s2.getAtoms = .ok as ∧ as[i]? = some x2 ∧ as[k]? = some y2 ∧ y2.chi = x2.chi := by
  obtain ⟨atoms, box, s, reals, hm, hb, hF, hP, hcr, hinv, hnat, hnl, hdet, ex, ey, ez⟩ := crystal_ready hn ha hca hx hy hz hr.le hfit
  refine ⟨atoms, box, s, hm, hb, fun s1 h1 i k x y hi hk hS => ?_⟩
  have hV := site_same hn ex ey ez hcr (List.mem_of_getElem? hi) (List.mem_of_getElem? hk) hS
  refine ⟨fun ls av s2 h2 => C92_q hr.ne' hF hF hP hP h1 h1 i k x y hi hk hV ls av s2 s2 h2 h2, fun bonds th ath q cu ri s2 o h2 => ?_, fun rm w rs h av s2 h2 => ?_, fun s2 h2 hil hkl => ?_⟩
  · exact C92_solids hr.ne' hF hF hP hP rfl h1 h1 i k x y hi hk hV bonds th ath q cu cu ri ri s2 s2 o o h2 h2
  · exact C92_entropy hr.ne' hF hF hP hP h1 h1 hinv hinv hnat hdet hdet rfl i k x y hi hk hV rm w rs h av s2 s2 h2 h2
  · obtain ⟨as, cs, x2, y2, g1, g2, g3, g4, g5⟩ := C92_chi hr.ne' hF hF hP hP h1 h1 hinv hinv i k x y hi hk hV (by rw [hnl]; exact hil) (by rw [hnl]; exact hkl) s2 s2 h2 h2
    rw [g1] at g2
    cases g2
    exact ⟨as, x2, y2, g1, g3, g4, g5⟩

/-- **C106, entropy**: in sc, bcc and fcc crystals all atoms have the same entropy, and the averaged entropy (without switching function) equals it. -/
theorem C106_entropy (σ : StdSort) (name : String) (hn : name ∈ ["sc", "bcc", "fcc"]) {a ca r : ℝ} (ha : 0 < a) (hca : 0 < ca) {nx ny nz : ℕ} (hx : 1 ≤ nx) (hy : 1 ≤ ny) (hz : 1 ≤ nz)
    (hr : 0 < r) (hfit : Spec.RangeFits ((Spec.basis name).length * nx * ny * nz) (nx * a) (ny * a) (nz * a) r) (f : ℕ) :
    ∃ atoms box s, makeCrystal name a nx ny nz ca = .ok (atoms, box) ∧ buildSystem box atoms = .ok s ∧
      ∀ s1, s.findNeighbors σ f (.cutoff r) = .ok s1 → ∀ (rm w rstart h : ℝ) (s2 : System), System.calculateEntropy rm w rstart h false .plain s1 = (s2, .ok ()) →
        ∃ v, ∀ x ∈ s2.atoms, x.entropy = v ∧ x.avgEntropy = v := by
  have hs : ∀ name ∈ ["sc", "bcc", "fcc"], name ∈ Spec.structures ∧ name ≠ "hcp" := by decide
  obtain ⟨hn', hh⟩ := hs name hn
  have hE : Spec.cellEdges name a ca = ⟨a, a, a⟩ := by rw [Spec.cellEdges, if_neg hh]
  obtain ⟨atoms, box, s, reals, hm, hb, hF, hP, hcr, hinv, hnat, hnl, hdet, ex, ey, ez⟩ := crystal_ready hn' ha hca hx hy hz hr.le (r := r) (by rw [hE]; exact hfit)
  refine ⟨atoms, box, s, hm, hb, fun s1 h1 rm w rstart h s2 h2 => ?_⟩
  obtain ⟨x1, l1, -⟩ := cutoff_any hr.ne' hP h1
  have is1 := (storeInv_any hr.ne' hP h1 hinv).1
  have f1 : fdiv s1.natoms s1.getBox.det = some ((s.natoms : ℝ) / s.getBox.det) := by
    rw [x1]
    change fdiv s.natoms s.getBox.det = _
    rw [fdiv, if_neg hdet]
  obtain ⟨t, ht, -, tb, -⟩ := entropy_state is1 h2 f1 (div_ne_zero (by exact_mod_cast hnat.ne') hdet)
  have tb := tb rfl
  have l2 : s2.atoms.length = s.atoms.length := by rw [tb, List.length_map, ht, List.length_map, l1]
  have h0 : 0 < s.atoms.length := by
    obtain ⟨gs, e, -⟩ := hinv.ex
    rw [e, List.length_append, ← hinv.realNop]
    exact Nat.lt_of_lt_of_le hnat (Nat.le_add_right _ _)
  -- all entropies agree
  have hv : ∀ k (hk : k < s2.atoms.length), s2.atoms[k].entropy = (s2.atoms[0]'(by omega)).entropy := by
    intro k hk
    have hi := List.getElem?_eq_getElem h0
    have hkk := List.getElem?_eq_getElem (show k < s.atoms.length by omega)
    obtain ⟨a2, c2, g1, g2, g3, -⟩ := C92_entropy hr.ne' hF hF hP hP h1 h1 hinv hinv hnat hdet hdet rfl 0 k _ _ hi hkk
      (site_same hn' ex ey ez hcr (List.mem_of_getElem? hi) (List.mem_of_getElem? hkk) (.inl hn)) rm w rstart h .plain s2 s2 h2 h2
    obtain ⟨_, rfl⟩ := List.getElem?_eq_some_iff.1 g1
    obtain ⟨_, rfl⟩ := List.getElem?_eq_some_iff.1 g2
    exact g3
  refine ⟨(s2.atoms[0]'(by omega)).entropy, fun x hx => ?_⟩
  obtain ⟨k, hk, rfl⟩ := List.getElem_of_mem hx
  refine ⟨hv k hk, ?_⟩
  have hmem : ∀ j < t.atoms.length, (t.mem j).entropy = (s2.atoms[0]'(by omega)).entropy := by
    intro j hj
    have hj2 : j < s2.atoms.length := by rw [tb, List.length_map]; exact hj
    rw [← hv j hj2, (mem_of_getElem? (List.getElem?_eq_getElem hj)).2]
    simp only [tb, List.getElem_map, System.avgEntropy1]
  have hkt : k < t.atoms.length := by rw [tb, List.length_map] at hk; exact hk
  have hrange : ∀ e ∈ t.atoms[k].nbrs, e.idx < t.atoms.length := by
    intro e he
    have := (cutoff_plain hr.ne' hP h1).range
    have hk1 : k < s1.atoms.length := by rw [ht, List.length_map] at hkt; exact hkt
    simp only [ht, List.getElem_map] at he
    rw [ht, List.length_map]
    exact this _ (List.getElem_mem hk1) e he
  have hself : t.atoms[k].entropy = (s2.atoms[0]'(by omega)).entropy := by
    rw [← hmem k hkt, (mem_of_getElem? (List.getElem?_eq_getElem hkt)).2]
  have hx2 : s2.atoms[k] = t.avgEntropy1 t.atoms[k] := by simp only [tb, List.getElem_map]
  rw [hx2]
  simp only [System.avgEntropy1]
  rw [List.map_congr_left fun e he => hmem e.idx (hrange e he), hself]
  cases (s2.atoms[0]'(by omega)).entropy with
  | none => rw [foldl_nanAdd_none]; rfl
  | some v =>
    have : (t.atoms[k].nbrs.map fun _ => some v) = (t.atoms[k].nbrs.map fun _ => v).map some := by rw [List.map_map]; rfl
    rw [this, foldl_nanAdd_some, List.map_const', List.sum_replicate, nsmul_eq_mul]
    have hp : (((t.atoms[k].nbrs.length + 1 : ℕ)) : ℝ) ≠ 0 := by positivity
    change fdiv (v + t.atoms[k].nbrs.length * v) ((t.atoms[k].nbrs.length + 1 : ℕ) : ℝ) = some v
    rw [fdiv, if_neg hp]
    congr 1
    rw [div_eq_iff hp]
    push_cast
    ring

/-- The hypotheses: fcc in 7 x 7 x 7 cells with a cutoff of 3.5 for the lattice constant 4; the search succeeds (C95). -/
example (σ : StdSort) : ∃ atoms box s s1, makeCrystal "fcc" 4 7 7 7 1 = .ok (atoms, box) ∧ buildSystem box atoms = .ok s ∧ s.findNeighbors σ 0 (.cutoff (7 / 2)) = .ok s1 ∧
    ∀ (rm w rstart h : ℝ) (s2 : System), System.calculateEntropy rm w rstart h false .plain s1 = (s2, .ok ()) → ∃ v, ∀ x ∈ s2.atoms, x.entropy = v ∧ x.avgEntropy = v := by
  have hfit : Spec.RangeFits ((Spec.basis "fcc").length * 7 * 7 * 7) ((7 : ℕ) * 4) ((7 : ℕ) * 4) ((7 : ℕ) * 4) (7 / 2) := by
    simp only [Spec.RangeFits, Spec.basis, List.length_cons, List.length_nil]; refine ⟨?_, ?_, ?_⟩ <;> norm_num
  obtain ⟨atoms, box, s, s1, hm, -, hb, hs, -⟩ := perfect_search σ (name := "fcc") (by decide) (a := 4) (ca := 1) (r := 7 / 2) (by norm_num) (by norm_num) (nx := 7) (ny := 7) (nz := 7)
    (by norm_num) (by norm_num) (by norm_num) (by
      have t8 : Real.sqrt 8 < 3 := by rw [Real.sqrt_lt' (by norm_num)]; norm_num
      have t16 : (3.9 : ℝ) < Real.sqrt 16 := by rw [Real.lt_sqrt (by norm_num)]; norm_num
      constructor <;> norm_num [Spec.limits] <;> linarith) hfit 0
  obtain ⟨atoms', box', s', hm', hb', h⟩ := C106_entropy σ "fcc" (by decide) (a := 4) (ca := 1) (r := 7 / 2) (by norm_num) (by norm_num) (nx := 7) (ny := 7) (nz := 7)
    (by norm_num) (by norm_num) (by norm_num) (by norm_num) hfit 0
  rw [hm] at hm'
  cases hm'
  rw [hb] at hb'
  cases hb'
  exact ⟨atoms, box, s, s1, hm, hb, hs, h s1 hs⟩

/-- The hypotheses of `C106_sites`: hcp in 6 x 4 x 4 cells. -/
example (σ : StdSort) := C106_sites σ "hcp" (by decide) (a := 3) (ca := 1.6) (r := 4) (by norm_num) (by norm_num) (nx := 6) (ny := 4) (nz := 4) (by norm_num) (by norm_num) (by norm_num)
  (by norm_num) (by
    have t3 : (1.7 : ℝ) < Real.sqrt 3 := by rw [Real.lt_sqrt (by norm_num)]; norm_num
    simp only [Spec.RangeFits, Spec.basis, Spec.cellEdges, if_true, List.length_cons, List.length_nil]
    refine ⟨?_, ?_, ?_⟩ <;> norm_num <;> linarith) 0

end Pyscal
