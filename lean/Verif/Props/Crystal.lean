import Verif.Model.Crystal
import Verif.Spec.Crystal
import Verif.Props.Voronoi

/-! # C40: crystal structures -/

namespace Pyscal

/-- The unit cells of the code are those of the specification. -/
theorem unitCell_basis (name : String) (hn : name ∈ Spec.structures) (a ca : ℝ) :
    ∃ u, unitCell a ca name = some u ∧ Spec.cellEdges name a ca = ⟨a * u.fact.x, a * u.fact.y, a * u.fact.z⟩ ∧
      u.sites = (Spec.basis name).map fun b => (⟨(b.1.1 : ℝ) * (a * u.fact.x), (b.1.2.1 : ℝ) * (a * u.fact.y), (b.1.2.2 : ℝ) * (a * u.fact.z)⟩, b.2) := by
  have h3 : Real.sqrt 3 * Real.sqrt 3 = 3 := Real.mul_self_sqrt (by norm_num)
  have h3' : Real.sqrt 3 ≠ 0 := by positivity
  simp only [Spec.structures, List.mem_cons, List.not_mem_nil, or_false] at hn
  rcases hn with rfl | rfl | rfl | rfl | rfl | rfl | rfl | rfl
  all_goals
    refine ⟨_, rfl, ?_, ?_⟩
    · simp [Spec.cellEdges]
      try ring_nf
      try simp
    · simp only [Spec.basis, List.map_cons, List.map_nil]
      norm_num
      try (field_simp; norm_num)

theorem basis_unit (name : String) : ∀ b ∈ Spec.basis name, (0 ≤ b.1.1 ∧ b.1.1 < 1) ∧ (0 ≤ b.1.2.1 ∧ b.1.2.1 < 1) ∧ (0 ≤ b.1.2.2 ∧ b.1.2.2 < 1) := by
  unfold Spec.basis
  split <;> decide +kernel

theorem basis_nodup (name : String) : ((Spec.basis name).map Prod.fst).Nodup := by
  unfold Spec.basis
  split <;> decide +kernel

theorem mem_crystalCells {nx ny nz : ℕ} {c : ℕ × ℕ × ℕ} : c ∈ crystalCells nx ny nz ↔ c.1 < nx ∧ c.2.1 < ny ∧ c.2.2 < nz := by
  obtain ⟨i, j, k⟩ := c
  simp [crystalCells]

theorem crystalCells_length (nx ny nz : ℕ) : (crystalCells nx ny nz).length = nx * ny * nz := by
  simp [crystalCells, List.length_flatMap, mul_assoc]

theorem crystalCells_nodup (nx ny nz : ℕ) : (crystalCells nx ny nz).Nodup := by
  have h : crystalCells nx ny nz = List.product (List.range nx) (List.product (List.range ny) (List.range nz)) := by
    simp only [crystalCells, List.product]
    congr 1
    funext i
    rw [List.map_flatMap]
    simp [Function.comp_def]
  rw [h]
  exact List.Nodup.product List.nodup_range (List.Nodup.product List.nodup_range List.nodup_range)

/-- The position of a site in a cell. -/
noncomputable def sitePos (e : V3) (c : ℕ × ℕ × ℕ) (b : (ℚ × ℚ × ℚ) × ℤ) : V3 :=
  ⟨((b.1.1 : ℝ) + c.1) * e.x, ((b.1.2.1 : ℝ) + c.2.1) * e.y, ((b.1.2.2 : ℝ) + c.2.2) * e.z⟩

/-- A number is determined by its integer part and its remainder. -/
theorem frac_unique {p q : ℚ} {i j : ℤ} (hp : 0 ≤ p ∧ p < 1) (hq : 0 ≤ q ∧ q < 1) (h : (p : ℝ) + i = q + j) : p = q ∧ i = j := by
  have h' : p + (i : ℚ) = q + j := by exact_mod_cast h
  have e : i = j := by
    have h1 : ⌊p + (i : ℚ)⌋ = i := by rw [Int.floor_add_intCast, Int.floor_eq_zero_iff.2 ⟨hp.1, hp.2⟩, zero_add]
    have h2 : ⌊q + (j : ℚ)⌋ = j := by rw [Int.floor_add_intCast, Int.floor_eq_zero_iff.2 ⟨hq.1, hq.2⟩, zero_add]
    rw [← h1, h', h2]
  subst e
  exact ⟨by linarith, rfl⟩

theorem sitePos_inj {e : V3} (hx : 0 < e.x) (hy : 0 < e.y) (hz : 0 < e.z) {name : String} {c c' : ℕ × ℕ × ℕ} {b b' : (ℚ × ℚ × ℚ) × ℤ}
    (hb : b ∈ Spec.basis name) (hb' : b' ∈ Spec.basis name) (h : sitePos e c b = sitePos e c' b') : c = c' ∧ b.1 = b'.1 := by
  obtain ⟨u1, u2, u3⟩ := basis_unit name b hb
  obtain ⟨v1, v2, v3⟩ := basis_unit name b' hb'
  have e1 := mul_right_cancel₀ hx.ne' (congrArg V3.x h)
  have e2 := mul_right_cancel₀ hy.ne' (congrArg V3.y h)
  have e3 := mul_right_cancel₀ hz.ne' (congrArg V3.z h)
  obtain ⟨p1, q1⟩ := frac_unique (i := c.1) (j := c'.1) u1 v1 (by exact_mod_cast e1)
  obtain ⟨p2, q2⟩ := frac_unique (i := c.2.1) (j := c'.2.1) u2 v2 (by exact_mod_cast e2)
  obtain ⟨p3, q3⟩ := frac_unique (i := c.2.2) (j := c'.2.2) u3 v3 (by exact_mod_cast e3)
  exact ⟨Prod.ext (by exact_mod_cast q1) (Prod.ext (by exact_mod_cast q2) (by exact_mod_cast q3)), Prod.ext p1 (Prod.ext p2 p3)⟩

/-- The atoms of a crystal before numbering. -/
noncomputable def siteAtoms (e : V3) (name : String) (nx ny nz : ℕ) : List Atom :=
  (crystalCells nx ny nz).flatMap fun c => (Spec.basis name).map fun b => { pos := sitePos e c b, type := b.2 }

theorem makeCrystal_eq (name : String) (hn : name ∈ Spec.structures) (a ca : ℝ) (nx ny nz : ℕ) :
    makeCrystal name a nx ny nz ca = .ok
      ((siteAtoms (Spec.cellEdges name a ca) name nx ny nz).mapIdx fun (k : ℕ) at_ => { at_ with id := (k : ℤ) + 1, loc := k },
        Spec.diagBox (nx * (Spec.cellEdges name a ca).x) (ny * (Spec.cellEdges name a ca).y) (nz * (Spec.cellEdges name a ca).z)) := by
  obtain ⟨u, hu, he, hs⟩ := unitCell_basis name hn a ca
  unfold makeCrystal
  rw [hu]
  simp only [hs, List.map_map, he, Spec.diagBox, mul_assoc]
  congr 2
  congr 1
  unfold siteAtoms
  congr 1
  funext c
  refine List.map_congr_left fun b hb => ?_
  simp only [Function.comp, crystalPos, sitePos]
  congr 2 <;> ring

theorem mem_siteAtoms {e : V3} {name : String} {nx ny nz : ℕ} {at_ : Atom} : at_ ∈ siteAtoms e name nx ny nz ↔
    ∃ c b, (c.1 < nx ∧ c.2.1 < ny ∧ c.2.2 < nz) ∧ b ∈ Spec.basis name ∧ at_ = { pos := sitePos e c b, type := b.2 } := by
  simp only [siteAtoms, List.mem_flatMap, List.mem_map, mem_crystalCells]
  constructor
  · rintro ⟨c, hc, b, hb, rfl⟩; exact ⟨c, b, hc, hb, rfl⟩
  · rintro ⟨c, b, hc, hb, rfl⟩; exact ⟨c, hc, b, hb, rfl⟩

theorem siteAtoms_nodup {e : V3} (hx : 0 < e.x) (hy : 0 < e.y) (hz : 0 < e.z) (name : String) (nx ny nz : ℕ) :
    ((siteAtoms e name nx ny nz).map Atom.pos).Nodup := by
  have h : (siteAtoms e name nx ny nz).map Atom.pos = (List.product (crystalCells nx ny nz) (Spec.basis name)).map fun p => sitePos e p.1 p.2 := by
    simp only [siteAtoms, List.product, List.map_flatMap, List.map_map]
    rfl
  rw [h]
  refine List.Nodup.map_on ?_ (List.Nodup.product (crystalCells_nodup nx ny nz) (List.Nodup.of_map _ (basis_nodup name)))
  rintro ⟨c, b⟩ h1 ⟨c', b'⟩ h2 hp
  obtain ⟨hc, hb⟩ := List.pair_mem_product.1 h1
  obtain ⟨hc', hb'⟩ := List.pair_mem_product.1 h2
  obtain ⟨e1, e2⟩ := sitePos_inj hx hy hz hb hb' hp
  exact Prod.ext e1 (List.inj_on_of_nodup_map (basis_nodup name) hb hb' e2)

/-- Only positions and types matter for the crystal. -/
theorem crystal_congr {B : Mat3} {l l' : List Atom} (h : l.map (fun a => (a.pos, a.type)) = l'.map fun a => (a.pos, a.type)) : Spec.crystal B l = Spec.crystal B l' := by
  have key : ∀ l l' : List Atom, l.map (fun a => (a.pos, a.type)) = l'.map (fun a => (a.pos, a.type)) → Spec.crystal B l ⊆ Spec.crystal B l' := by
    rintro l l' h pt ⟨a, ha, n1, n2, n3, h1, h2⟩
    have : (a.pos, a.type) ∈ l'.map fun a => (a.pos, a.type) := h ▸ List.mem_map.2 ⟨a, ha, rfl⟩
    obtain ⟨a', ha', he⟩ := List.mem_map.1 this
    obtain ⟨e1, e2⟩ := Prod.mk.inj he
    exact ⟨a', ha', n1, n2, n3, by rw [h1, e1], by rw [h2, e2]⟩
  exact Set.Subset.antisymm (key l l' h) (key l' l h.symm)

/-- The crystal of the repeated cell is the ideal one. -/
theorem siteAtoms_crystal (e : V3) (name : String) {nx ny nz : ℕ} (hx : 1 ≤ nx) (hy : 1 ≤ ny) (hz : 1 ≤ nz) :
    Spec.crystal (Spec.diagBox (nx * e.x) (ny * e.y) (nz * e.z)) (siteAtoms e name nx ny nz) = Spec.idealCrystal e (Spec.basis name) := by
  ext ⟨p, t⟩
  constructor
  · rintro ⟨at_, hat, n1, n2, n3, h1, h2⟩
    obtain ⟨c, b, hc, hb, rfl⟩ := mem_siteAtoms.1 hat
    refine ⟨b, hb, c.1 + n1 * nx, c.2.1 + n2 * ny, c.2.2 + n3 * nz, ?_, h2⟩
    simp only at h1 ⊢
    rw [h1]
    apply V3.ext <;> simp [sitePos, Spec.latticeVec, Spec.diagBox] <;> ring
  · rintro ⟨b, hb, m1, m2, m3, h1, h2⟩
    have hm : ∀ (m : ℤ) (n : ℕ), 1 ≤ n → ∃ i : ℕ, i < n ∧ m = i + (m / n) * n := by
      intro m n hn
      have hn' : (0 : ℤ) < n := by exact_mod_cast hn
      refine ⟨(m % n).toNat, ?_, ?_⟩
      · have := Int.emod_lt_of_pos m hn'
        have := Int.emod_nonneg m hn'.ne'
        omega
      · rw [Int.toNat_of_nonneg (Int.emod_nonneg m hn'.ne')]
        have := Int.emod_add_mul_ediv m n
        linarith [mul_comm (n : ℤ) (m / n)]
    obtain ⟨i, hi, e1⟩ := hm m1 nx hx
    obtain ⟨j, hj, e2⟩ := hm m2 ny hy
    obtain ⟨k, hk, e3⟩ := hm m3 nz hz
    refine ⟨_, mem_siteAtoms.2 ⟨(i, j, k), b, ⟨hi, hj, hk⟩, hb, rfl⟩, m1 / nx, m2 / ny, m3 / nz, ?_, h2⟩
    simp only at h1 ⊢
    have f1 : (m1 : ℝ) = i + ((m1 / nx : ℤ) : ℝ) * nx := by exact_mod_cast e1
    have f2 : (m2 : ℝ) = j + ((m2 / ny : ℤ) : ℝ) * ny := by exact_mod_cast e2
    have f3 : (m3 : ℝ) = k + ((m3 / nz : ℤ) : ℝ) * nz := by exact_mod_cast e3
    rw [h1, f1, f2, f3]
    apply V3.ext <;> simp [sitePos, Spec.latticeVec, Spec.diagBox] <;> ring

/-- **C40** `make_crystal(structure, lattice_constant=a, repetitions=[nx, ny, nz], ca_ratio=ca)` without noise builds the requested
crystal: the box has `nx × ny × nz` unit cells, it holds as many atoms as that many cells have sites, they are numbered `1..N` with
locations `0..N-1`, lie at distinct places inside the box, and repeated periodically they form the ideal crystal. -/
theorem C40_make_crystal (name : String) (hn : name ∈ Spec.structures) {a ca : ℝ} (ha : 0 < a) (hca : 0 < ca) {nx ny nz : ℕ} (hx : 1 ≤ nx) (hy : 1 ≤ ny) (hz : 1 ≤ nz) :
    ∃ atoms lx ly lz, makeCrystal name a nx ny nz ca = .ok (atoms, Spec.diagBox lx ly lz) ∧
      lx = nx * (Spec.cellEdges name a ca).x ∧ ly = ny * (Spec.cellEdges name a ca).y ∧ lz = nz * (Spec.cellEdges name a ca).z ∧
      atoms.length = (Spec.basis name).length * nx * ny * nz ∧
      (∀ (k : ℕ) (at_ : Atom), atoms[k]? = some at_ → at_.id = (k : ℤ) + 1 ∧ at_.loc = k ∧ at_.ghost = false ∧ Spec.InBox lx ly lz at_.pos) ∧
      (atoms.map Atom.pos).Nodup ∧
      Spec.crystal (Spec.diagBox lx ly lz) atoms = Spec.idealCrystal (Spec.cellEdges name a ca) (Spec.basis name) := by
  have he : 0 < (Spec.cellEdges name a ca).x ∧ 0 < (Spec.cellEdges name a ca).y ∧ 0 < (Spec.cellEdges name a ca).z := by
    unfold Spec.cellEdges
    split
    · exact ⟨ha, by positivity, by positivity⟩
    · exact ⟨ha, ha, ha⟩
  obtain ⟨ex, ey, ez⟩ := he
  generalize hE : Spec.cellEdges name a ca = e at *
  refine ⟨_, _, _, _, hE ▸ makeCrystal_eq name hn a ca nx ny nz, rfl, rfl, rfl, ?_, ?_, ?_, ?_⟩
  · rw [List.length_mapIdx]
    simp only [siteAtoms, List.length_flatMap, List.length_map, List.map_const', List.sum_replicate, smul_eq_mul, crystalCells_length]
    ring
  · intro k at_ hk
    rw [List.getElem?_mapIdx] at hk
    obtain ⟨at0, h0, rfl⟩ := Option.map_eq_some_iff.1 hk
    obtain ⟨c, b, hc, hb, rfl⟩ := mem_siteAtoms.1 (List.mem_of_getElem? h0)
    refine ⟨rfl, rfl, rfl, ?_⟩
    obtain ⟨u1, u2, u3⟩ := basis_unit name b hb
    have hin : ∀ (q : ℚ) (i n : ℕ) (L : ℝ), 0 < L → 0 ≤ q ∧ q < 1 → i < n → 0 ≤ ((q : ℝ) + i) * L ∧ ((q : ℝ) + i) * L < n * L := by
      intro q i n L hL hq hi
      have h1 : (0 : ℝ) ≤ q := by exact_mod_cast hq.1
      have h2 : (q : ℝ) < 1 := by exact_mod_cast hq.2
      have h3 : (i : ℝ) + 1 ≤ n := by exact_mod_cast hi
      exact ⟨by positivity, by nlinarith⟩
    exact ⟨hin _ _ _ _ ex u1 hc.1, hin _ _ _ _ ey u2 hc.2.1, hin _ _ _ _ ez u3 hc.2.2⟩
  · have : ((siteAtoms e name nx ny nz).mapIdx fun (k : ℕ) at_ => ({ at_ with id := (k : ℤ) + 1, loc := k } : Atom)).map Atom.pos = (siteAtoms e name nx ny nz).map Atom.pos := by
      apply List.ext_getElem <;> simp
    rw [this]
    exact siteAtoms_nodup ex ey ez name nx ny nz
  · rw [← siteAtoms_crystal e name hx hy hz]
    apply crystal_congr
    apply List.ext_getElem <;> simp

/-- **C40** Any other structure name raises `ValueError`. -/
theorem C40_unknown (name : String) (hn : name ∉ Spec.structures) (a ca : ℝ) (nx ny nz : ℕ) : makeCrystal name a nx ny nz ca = .error .valueError := by
  have h : unitCell a ca name = none := by
    unfold unitCell
    split <;> first | rfl | exact absurd (by decide) hn
  unfold makeCrystal
  rw [h]

/-- A hexagonal crystal of 2 × 3 × 4 cells. -/
example : ∃ atoms lx ly lz, makeCrystal "hcp" 3 2 3 4 (8 / 5) = .ok (atoms, Spec.diagBox lx ly lz) ∧ atoms.length = 96 ∧ lx = 6 := by
  obtain ⟨atoms, lx, ly, lz, h, hx, -, -, hl, -⟩ := C40_make_crystal "hcp" (by decide) (a := 3) (ca := 8 / 5) (by norm_num) (by norm_num) (nx := 2) (ny := 3) (nz := 4)
    (by norm_num) (by norm_num) (by norm_num)
  refine ⟨atoms, lx, ly, lz, h, hl, ?_⟩
  rw [hx]
  norm_num [Spec.cellEdges]

example : "perovskite" ∉ Spec.structures := by decide

/-! # C39: remapping atoms into the box -/

theorem remapCoord_moved {L x : ℝ} (hL : 0 < L) : Spec.MovedCoord L x (remapCoord L x) := by
  unfold remapCoord Spec.MovedCoord
  split_ifs with h1 h2
  · exact ⟨Or.inr (Or.inl rfl), fun _ _ => ⟨by linarith, by linarith⟩⟩
  · exact ⟨Or.inr (Or.inr rfl), fun _ _ => ⟨by linarith, by linarith⟩⟩
  · exact ⟨Or.inl rfl, fun _ _ => ⟨by linarith, by linarith⟩⟩

theorem insideBox_iff (lx ly lz : ℝ) (p : V3) : insideBox (Spec.diagBox lx ly lz) p = true ↔ Spec.InBox lx ly lz p := by
  unfold insideBox Spec.InBox
  rw [Bool.and_eq_true, Bool.and_eq_true, decide_eq_true_iff, decide_eq_true_iff, decide_eq_true_iff, and_assoc]
  rfl

/-- `keepLast` by positions in the list. -/
theorem keepLast_zipIdx (near : Atom → Atom → Prop) : ∀ (l : List Atom) (g : ℕ → Bool),
    (∀ i a, l[i]? = some a → (g i = true ↔ ∃ j b, i < j ∧ l[j]? = some b ∧ near a b)) →
    (l.zipIdx.filter fun p => !g p.2).map Prod.fst = Spec.keepLast near l
  | [], g, h => rfl
  | a :: l, g, h => by
    have ih := keepLast_zipIdx near l (fun i => g (i + 1)) (by
      intro i b hb
      rw [h (i + 1) b (by simpa using hb)]
      constructor
      · rintro ⟨j, c, hj, hc, hn⟩
        obtain _ | j := j
        · omega
        · exact ⟨j, c, by omega, by simpa using hc, hn⟩
      · rintro ⟨j, c, hj, hc, hn⟩
        exact ⟨j + 1, c, by omega, by simpa using hc, hn⟩)
    have h0 : g 0 = true ↔ ∃ b ∈ l, near a b := by
      rw [h 0 a rfl]
      constructor
      · rintro ⟨j, c, hj, hc, hn⟩
        obtain _ | j := j
        · omega
        · exact ⟨c, List.mem_of_getElem? (by simpa using hc), hn⟩
      · rintro ⟨b, hb, hn⟩
        obtain ⟨j, hj⟩ := List.mem_iff_getElem?.1 hb
        exact ⟨j + 1, b, by omega, by simpa using hj, hn⟩
    have hz : (a :: l).zipIdx = (a, 0) :: l.zipIdx.map fun p => (p.1, p.2 + 1) := by
      rw [List.zipIdx_cons, List.zipIdx_succ]
    rw [hz, List.filter_cons, List.filter_map]
    have h2 : ((l.zipIdx.filter ((fun p => !g p.2) ∘ fun p => (p.1, p.2 + 1))).map fun p => (p.1, p.2 + 1)).map Prod.fst = Spec.keepLast near l := by
      rw [List.map_map]
      exact ih
    unfold Spec.keepLast
    by_cases hg : g 0 = true
    · rw [if_neg (by simpa using hg), if_pos (h0.1 hg)]
      exact h2
    · rw [if_pos (by simpa using hg), if_neg (fun hc => hg (h0.2 hc)), List.map_cons, h2]

theorem mem_imagePairs {s : System} {dtol : ℝ} {l : List Atom} {i : ℕ} : i ∈ s.imagePairs dtol l ↔
    i < l.length ∧ ∃ j, i < j ∧ j < l.length ∧ s.getDistance (l.getD i default) (l.getD j default) ≤ dtol := by
  simp only [System.imagePairs, List.mem_flatMap, List.mem_range, List.mem_map, List.mem_filter, Bool.and_eq_true, decide_eq_true_eq]
  constructor
  · rintro ⟨k, hk, j, ⟨hj, hkj, hd⟩, rfl⟩; exact ⟨hk, j, hkj, hj, hd⟩
  · rintro ⟨hi, j, hij, hj, hd⟩; exact ⟨i, hi, j, ⟨hj, hij, hd⟩, rfl⟩

theorem removeImages_eq (s : System) (dtol : ℝ) (l : List Atom) : s.removeImages dtol l = Spec.keepLast (fun a b => s.getDistance a b ≤ dtol) l := by
  refine keepLast_zipIdx _ l _ fun i a hi => ?_
  rw [List.contains_iff_mem, mem_imagePairs]
  have hil : i < l.length := (List.getElem?_eq_some_iff.1 hi).1
  constructor
  · rintro ⟨-, j, hij, hj, hd⟩
    refine ⟨j, l[j], hij, List.getElem?_eq_getElem hj, ?_⟩
    simpa [List.getD_eq_getElem?_getD, hi, hj] using hd
  · rintro ⟨j, b, hij, hb, hd⟩
    exact ⟨hil, j, hij, (List.getElem?_eq_some_iff.1 hb).1, by simpa [List.getD_eq_getElem?_getD, hi, hb] using hd⟩

theorem keepLast_congr {P Q : Atom → Atom → Prop} : ∀ {l : List Atom}, (∀ a ∈ l, ∀ b ∈ l, P a b ↔ Q a b) → Spec.keepLast P l = Spec.keepLast Q l
  | [], _ => rfl
  | a :: l, h => by
    have ih := keepLast_congr (l := l) fun a ha b hb => h a (List.mem_cons_of_mem _ ha) b (List.mem_cons_of_mem _ hb)
    have hc : (∃ b ∈ l, P a b) ↔ ∃ b ∈ l, Q a b := exists_congr fun b => and_congr_right fun hb => h a List.mem_cons_self b (List.mem_cons_of_mem _ hb)
    unfold Spec.keepLast
    rw [ih]
    by_cases h1 : ∃ b ∈ l, P a b
    · rw [if_pos h1, if_pos (hc.1 h1)]
    · rw [if_neg h1, if_neg (fun h2 => h1 (hc.2 h2))]

theorem keepLast_sublist (P : Atom → Atom → Prop) : ∀ l : List Atom, (Spec.keepLast P l).Sublist l
  | [] => List.Sublist.refl _
  | a :: l => by
    unfold Spec.keepLast
    split_ifs
    · exact (keepLast_sublist P l).cons a
    · exact (keepLast_sublist P l).cons_cons a

theorem keepLast_pairwise (P : Atom → Atom → Prop) : ∀ l : List Atom, (Spec.keepLast P l).Pairwise fun a b => ¬ P a b
  | [] => List.Pairwise.nil
  | a :: l => by
    unfold Spec.keepLast
    split_ifs with h
    · exact keepLast_pairwise P l
    · exact List.Pairwise.cons (fun b hb hp => h ⟨b, (keepLast_sublist P l).subset hb, hp⟩) (keepLast_pairwise P l)

theorem keepLast_mem (P : Atom → Atom → Prop) : ∀ (pre : List Atom) (a : Atom) (post : List Atom),
    a ∈ Spec.keepLast P (pre ++ a :: post) ∨ ∃ b ∈ post, P a b
  | [], a, post => by
    rw [List.nil_append]
    unfold Spec.keepLast
    split_ifs with h
    · exact Or.inr h
    · exact Or.inl List.mem_cons_self
  | x :: pre, a, post => by
    rcases keepLast_mem P pre a post with h | h
    · left
      rw [List.cons_append]
      unfold Spec.keepLast
      split_ifs
      · exact h
      · exact List.mem_cons_of_mem _ h
    · exact Or.inr h

theorem keepLast_of_pairwise {P : Atom → Atom → Prop} : ∀ {l : List Atom}, (l.Pairwise fun a b => ¬ P a b) → Spec.keepLast P l = l
  | [], _ => rfl
  | a :: l, h => by
    obtain ⟨h1, h2⟩ := List.pairwise_cons.1 h
    unfold Spec.keepLast
    rw [if_neg (by rintro ⟨b, hb, hp⟩; exact h1 b hb hp), keepLast_of_pairwise h2]

/-- The system with the box assigned by `remap_atoms`. -/
theorem setBox_diag (s : System) (lx ly lz : ℝ) : s.setBox (Spec.diagBox lx ly lz) = .ok { s with box := Spec.diagBox lx ly lz } := by
  unfold System.setBox
  rw [if_neg (not_skewed_diag _ _ _)]

/-- Inside the box, the distance decides periodic nearness. -/
theorem near_iff {s : System} {lx ly lz : ℝ} (hx : 0 < lx) (hy : 0 < ly) (hz : 0 < lz) (ht : s.triclinic = false) (hb : s.box = Spec.diagBox lx ly lz)
    {a b : Atom} (ha : Spec.InBox lx ly lz a.pos) (hb' : Spec.InBox lx ly lz b.pos) (d : ℝ) :
    s.getDistance a b ≤ d ↔ Spec.PeriodicNear (Spec.diagBox lx ly lz) d a b := by
  obtain ⟨⟨a1, a2⟩, ⟨a3, a4⟩, a5, a6⟩ := ha
  obtain ⟨⟨b1, b2⟩, ⟨b3, b4⟩, b5, b6⟩ := hb'
  have key := image_diag_shortest s lx ly lz hx.le hy.le hz.le ht hb (a.pos - b.pos) (by simp only [V3.sub_x]; rw [abs_le]; constructor <;> linarith)
    (by simp only [V3.sub_y]; rw [abs_le]; constructor <;> linarith) (by simp only [V3.sub_z]; rw [abs_le]; constructor <;> linarith)
  rw [hb] at key
  obtain ⟨⟨n1, n2, n3, hn⟩, hmin⟩ := key
  constructor
  · intro h
    refine ⟨n1, n2, n3, ?_⟩
    rw [← hn]
    exact h
  · rintro ⟨m1, m2, m3, hm⟩
    exact (hmin _ ⟨m1, m2, m3, rfl⟩).trans hm

/-- The moved atoms. -/
noncomputable def movedAtoms (b : Mat3) (l : List Atom) : List Atom := l.map fun a => { a with pos := remapPos b a.pos }

theorem remapPos_moved {lx ly lz : ℝ} (hx : 0 < lx) (hy : 0 < ly) (hz : 0 < lz) (a : Atom) :
    Spec.Moved lx ly lz a { a with pos := remapPos (Spec.diagBox lx ly lz) a.pos } :=
  ⟨rfl, remapCoord_moved hx, remapCoord_moved hy, remapCoord_moved hz⟩

theorem Spec.Moved.inBox {lx ly lz : ℝ} {a a' : Atom} (h : Spec.Moved lx ly lz a a') (hw : Spec.WithinOneLength lx ly lz a.pos) : Spec.InBox lx ly lz a'.pos :=
  ⟨h.2.1.2 hw.1.1 hw.1.2, h.2.2.1.2 hw.2.1.1 hw.2.1.2, h.2.2.2.2 hw.2.2.1 hw.2.2.2⟩

/-- `remap_atoms` computed: the kept atoms, with the distances of the code. -/
theorem remapAtoms_eq {s : System} {reals : List Atom} (hi : StoreInv s reals) {lx ly lz : ℝ} (hbox : s.getBox = Spec.diagBox lx ly lz) (images assign remove : Bool) (dtol : ℝ) :
    s.remapAtoms images assign remove dtol =
      (let s1 := { s with box := Spec.diagBox lx ly lz }
       let inside := if remove then (movedAtoms (Spec.diagBox lx ly lz) reals).filter fun a => insideBox (Spec.diagBox lx ly lz) a.pos else movedAtoms (Spec.diagBox lx ly lz) reals
       let out := if images then Spec.keepLast (fun a b => s1.getDistance a b ≤ dtol) inside else inside
       if assign then .ok (s1.setAtoms out, none) else .ok (s1, some out)) := by
  unfold System.remapAtoms
  rw [getAtoms_inv hi, hbox]
  simp only [bind, Except.bind, setBox_diag, removeImages_eq]
  rfl

/-- What is kept, in terms of the specification. -/
theorem remap_kept {s : System} {lx ly lz : ℝ} (hx : 0 < lx) (hy : 0 < ly) (hz : 0 < lz) (ht : s.triclinic = false) (hb : s.box = Spec.diagBox lx ly lz)
    (moved : List Atom) (images remove : Bool) (dtol : ℝ) (hin : remove = true ∨ images = false ∨ ∀ a ∈ moved, Spec.InBox lx ly lz a.pos) :
    (let inside := if remove then moved.filter fun a => insideBox (Spec.diagBox lx ly lz) a.pos else moved
     if images then Spec.keepLast (fun a b => s.getDistance a b ≤ dtol) inside else inside) = Spec.remapKept lx ly lz dtol images remove moved := by
  unfold Spec.remapKept
  have h1 : (moved.filter fun a => insideBox (Spec.diagBox lx ly lz) a.pos) = moved.filter fun a => @decide (Spec.InBox lx ly lz a.pos) (Classical.propDecidable _) := by
    apply List.filter_congr
    intro a _
    rw [Bool.eq_iff_iff, insideBox_iff, @decide_eq_true_iff _ (Classical.propDecidable _)]
  rw [h1]
  cases images
  · rfl
  · dsimp only
    rw [if_pos rfl, if_pos rfl]
    apply keepLast_congr
    have hall : ∀ a ∈ (if remove = true then moved.filter fun a => @decide (Spec.InBox lx ly lz a.pos) (Classical.propDecidable _) else moved), Spec.InBox lx ly lz a.pos := by
      intro a ha
      split_ifs at ha with hr
      · simpa using (List.mem_filter.1 ha).2
      · rcases hin with h | h | h
        · exact absurd h hr
        · cases h
        · exact h a ha
    intro a ha b hb'
    exact near_iff hx hy hz ht hb (hall a ha) (hall b hb') dtol

/-- A remapped atom stays. -/
theorem remapPos_inside {lx ly lz : ℝ} {p : V3} (h : Spec.InBox lx ly lz p) : remapPos (Spec.diagBox lx ly lz) p = p := by
  obtain ⟨⟨a1, a2⟩, ⟨a3, a4⟩, a5, a6⟩ := h
  have key : ∀ L x : ℝ, 0 ≤ x → x < L → remapCoord L x = x := by
    intro L x h1 h2
    unfold remapCoord
    rw [if_neg (by linarith), if_neg (by linarith)]
  exact V3.ext (key _ _ a1 a2) (key _ _ a3 a4) (key _ _ a5 a6)

theorem movedAtoms_inside {lx ly lz : ℝ} {l : List Atom} (h : ∀ a ∈ l, Spec.InBox lx ly lz a.pos) : movedAtoms (Spec.diagBox lx ly lz) l = l := by
  unfold movedAtoms
  refine (List.map_congr_left fun a ha => ?_).trans (List.map_id l)
  rw [remapPos_inside (h a ha)]
  rfl

/-- Moving by box lengths does not change the crystal. -/
theorem movedAtoms_crystal {lx ly lz : ℝ} (hx : 0 < lx) (hy : 0 < ly) (hz : 0 < lz) (l : List Atom) :
    Spec.crystal (Spec.diagBox lx ly lz) (movedAtoms (Spec.diagBox lx ly lz) l) = Spec.crystal (Spec.diagBox lx ly lz) l := by
  have step : ∀ L x : ℝ, 0 < L → ∃ k : ℤ, remapCoord L x = x + k * L := by
    intro L x hL
    rcases (remapCoord_moved (x := x) hL).1 with h | h | h
    · exact ⟨0, by rw [h]; simp⟩
    · exact ⟨1, by rw [h]; simp⟩
    · exact ⟨-1, by rw [h]; push_cast; ring⟩
  have key : ∀ a : Atom, ∃ k1 k2 k3 : ℤ, remapPos (Spec.diagBox lx ly lz) a.pos = a.pos + Spec.latticeVec (Spec.diagBox lx ly lz) k1 k2 k3 := by
    intro a
    obtain ⟨k1, h1⟩ := step lx a.pos.x hx
    obtain ⟨k2, h2⟩ := step ly a.pos.y hy
    obtain ⟨k3, h3⟩ := step lz a.pos.z hz
    refine ⟨k1, k2, k3, ?_⟩
    apply V3.ext <;> simp [remapPos, Spec.latticeVec, Spec.diagBox, h1, h2, h3]
  ext ⟨p, t⟩
  constructor
  · rintro ⟨a', ha', n1, n2, n3, h1, h2⟩
    obtain ⟨a, ha, rfl⟩ := List.mem_map.1 ha'
    obtain ⟨k1, k2, k3, hk⟩ := key a
    refine ⟨a, ha, k1 + n1, k2 + n2, k3 + n3, ?_, h2⟩
    simp only at h1 ⊢
    rw [h1, hk]
    apply V3.ext <;> simp [Spec.latticeVec, Spec.diagBox] <;> ring
  · rintro ⟨a, ha, n1, n2, n3, h1, h2⟩
    obtain ⟨k1, k2, k3, hk⟩ := key a
    refine ⟨_, List.mem_map.2 ⟨a, ha, rfl⟩, n1 - k1, n2 - k2, n3 - k3, ?_, h2⟩
    simp only at h1 ⊢
    rw [h1, hk]
    apply V3.ext <;> simp [Spec.latticeVec, Spec.diagBox] <;> ring

/-- **C39** `remap_atoms` on an orthogonal box.  There is a list `moved` with the atoms in order, each moved by at most one box length per
axis and into the box if it was less than one length outside; the periodic crystal is the same.  What is kept are the atoms of `moved`,
without those outside if `remove_atoms`, and then, if `remove_images`, without those that have a later atom with an image within `dtol`
(for this the atoms have to end inside the box, which they do if `remove_atoms` or if none was more than a length outside).
With `assign` these become the atoms of the system, without it they are returned. -/
theorem C39_remap (s : System) (reals : List Atom) (hi : StoreInv s reals) {lx ly lz : ℝ} (hx : 0 < lx) (hy : 0 < ly) (hz : 0 < lz)
    (hbox : s.getBox = Spec.diagBox lx ly lz) (ht : s.triclinic = false) (images assign remove : Bool) (dtol : ℝ)
    (hin : remove = true ∨ images = false ∨ ∀ a ∈ reals, Spec.WithinOneLength lx ly lz a.pos) :
    ∃ s' moved ret, s.remapAtoms images assign remove dtol = .ok (s', ret) ∧
      List.Forall₂ (Spec.Moved lx ly lz) reals moved ∧
      Spec.crystal (Spec.diagBox lx ly lz) moved = Spec.crystal (Spec.diagBox lx ly lz) reals ∧
      (assign = true → s'.atoms = Spec.remapKept lx ly lz dtol images remove moved ∧ s'.getAtoms = .ok s'.atoms ∧ ret = none) ∧
      (assign = false → s'.atoms = s.atoms ∧ ret = some (Spec.remapKept lx ly lz dtol images remove moved)) := by
  have hm : List.Forall₂ (Spec.Moved lx ly lz) reals (movedAtoms (Spec.diagBox lx ly lz) reals) := by
    unfold movedAtoms
    rw [List.forall₂_map_right_iff, List.forall₂_same]
    exact fun a _ => remapPos_moved hx hy hz a
  have hin' : remove = true ∨ images = false ∨ ∀ a ∈ movedAtoms (Spec.diagBox lx ly lz) reals, Spec.InBox lx ly lz a.pos := by
    rcases hin with h | h | h
    · exact Or.inl h
    · exact Or.inr (Or.inl h)
    · refine Or.inr (Or.inr fun a ha => ?_)
      obtain ⟨b, hb, rfl⟩ := List.mem_map.1 ha
      exact (remapPos_moved hx hy hz b).inBox (h b hb)
  have hk := remap_kept (s := { s with box := Spec.diagBox lx ly lz }) hx hy hz ht rfl (movedAtoms (Spec.diagBox lx ly lz) reals) images remove dtol hin'
  have he := remapAtoms_eq hi hbox images assign remove dtol
  dsimp only at hk he
  rw [hk] at he
  have hreal : ∀ a ∈ Spec.remapKept lx ly lz dtol images remove (movedAtoms (Spec.diagBox lx ly lz) reals), a.ghost = false := by
    intro a ha
    have hsub : a ∈ movedAtoms (Spec.diagBox lx ly lz) reals := by
      unfold Spec.remapKept at ha
      dsimp only at ha
      split_ifs at ha
      · exact (List.mem_filter.1 ((keepLast_sublist _ _).subset ha)).1
      · exact (keepLast_sublist _ _).subset ha
      · exact (List.mem_filter.1 ha).1
      · exact ha
    obtain ⟨b, hb, rfl⟩ := List.mem_map.1 hsub
    exact hi.real b hb
  cases assign
  · exact ⟨_, _, _, he, hm, movedAtoms_crystal hx hy hz reals, by simp, fun _ => ⟨rfl, rfl⟩⟩
  · refine ⟨_, _, _, he, hm, movedAtoms_crystal hx hy hz reals, fun _ => ⟨rfl, ?_, rfl⟩, by simp⟩
    simp only [System.getAtoms, System.setAtoms, countReal_of_real hreal, le_refl, if_true, List.take_length]

/-- **C39** With `remove_images` the kept atoms are pairwise more than `dtol` apart (all periodic images), and every removed one has a later
atom within `dtol`; with `remove_atoms` all are inside. -/
theorem C39_kept (lx ly lz dtol : ℝ) (images remove : Bool) (moved : List Atom) :
    (Spec.remapKept lx ly lz dtol images remove moved).Sublist moved ∧
    (images = true → (Spec.remapKept lx ly lz dtol images remove moved).Pairwise fun a b => ¬ Spec.PeriodicNear (Spec.diagBox lx ly lz) dtol a b) ∧
    (remove = true → ∀ a ∈ Spec.remapKept lx ly lz dtol images remove moved, Spec.InBox lx ly lz a.pos) ∧
    (∀ pre a post, moved = pre ++ a :: post → (remove = true → Spec.InBox lx ly lz a.pos) →
      a ∈ Spec.remapKept lx ly lz dtol images remove moved ∨ (images = true ∧ ∃ b ∈ post, Spec.PeriodicNear (Spec.diagBox lx ly lz) dtol a b)) ∧
    (images = false → remove = false → Spec.remapKept lx ly lz dtol images remove moved = moved) := by
  unfold Spec.remapKept
  dsimp only
  refine ⟨?_, ?_, ?_, ?_, ?_⟩
  · split_ifs
    · exact (keepLast_sublist _ _).trans List.filter_sublist
    · exact keepLast_sublist _ _
    · exact List.filter_sublist
    · exact List.Sublist.refl _
  · rintro rfl
    rw [if_pos rfl]
    exact keepLast_pairwise _ _
  · rintro rfl a ha
    rw [if_pos rfl] at ha
    have : a ∈ moved.filter fun a => @decide (Spec.InBox lx ly lz a.pos) (Classical.propDecidable _) := by
      split_ifs at ha
      · exact (keepLast_sublist _ _).subset ha
      · exact ha
    simpa using (List.mem_filter.1 this).2
  · rintro pre a post rfl hin
    cases images with
    | false =>
      left
      rw [if_neg (by simp)]
      split_ifs with hr
      · exact List.mem_filter.2 ⟨by simp, by simpa using hin hr⟩
      · simp
    | true =>
      rw [if_pos rfl]
      split_ifs with hr
      · rw [List.filter_append, List.filter_cons_of_pos (by simpa using hin hr)]
        rcases keepLast_mem _ (pre.filter fun a => @decide (Spec.InBox lx ly lz a.pos) (Classical.propDecidable _)) a
          (post.filter fun a => @decide (Spec.InBox lx ly lz a.pos) (Classical.propDecidable _)) with h | ⟨b, hb, hn⟩
        · exact Or.inl h
        · exact Or.inr ⟨rfl, b, (List.mem_filter.1 hb).1, hn⟩
      · rcases keepLast_mem _ pre a post with h | h
        · exact Or.inl h
        · exact Or.inr ⟨rfl, h⟩
  · rintro rfl rfl
    rfl

/-- **C39** Remapping twice is remapping once, if no atom was more than a length outside. -/
theorem C39_idempotent (s s1 : System) (reals : List Atom) (hi : StoreInv s reals) {lx ly lz : ℝ} (hx : 0 < lx) (hy : 0 < ly) (hz : 0 < lz)
    (hbox : s.getBox = Spec.diagBox lx ly lz) (ht : s.triclinic = false) (images remove : Bool) (dtol : ℝ)
    (hin : ∀ a ∈ reals, Spec.WithinOneLength lx ly lz a.pos) (h : s.remapAtoms images true remove dtol = .ok (s1, none)) :
    s1.remapAtoms images true remove dtol = .ok (s1, none) := by
  have hin' : ∀ a ∈ movedAtoms (Spec.diagBox lx ly lz) reals, Spec.InBox lx ly lz a.pos := by
    intro a ha
    obtain ⟨b, hb, rfl⟩ := List.mem_map.1 ha
    exact (remapPos_moved hx hy hz b).inBox (hin b hb)
  have hk := remap_kept (s := { s with box := Spec.diagBox lx ly lz }) hx hy hz ht rfl (movedAtoms (Spec.diagBox lx ly lz) reals) images remove dtol (Or.inr (Or.inr hin'))
  have he := remapAtoms_eq hi hbox images true remove dtol
  dsimp only at hk he
  rw [hk, h] at he
  obtain rfl := congrArg Prod.fst (Except.ok.inj he)
  generalize hout : Spec.remapKept lx ly lz dtol images remove (movedAtoms (Spec.diagBox lx ly lz) reals) = out at *
  obtain ⟨c1, c2, c3, -, c4⟩ := C39_kept lx ly lz dtol images remove (movedAtoms (Spec.diagBox lx ly lz) reals)
  rw [hout] at c1 c2 c3 c4
  have hreal : ∀ a ∈ out, a.ghost = false := by
    intro a ha
    obtain ⟨b, hb, rfl⟩ := List.mem_map.1 (c1.subset ha)
    exact hi.real b hb
  have hio : ∀ a ∈ out, Spec.InBox lx ly lz a.pos := fun a ha => hin' a (c1.subset ha)
  have hi2 : StoreInv (System.setAtoms { s with box := Spec.diagBox lx ly lz } out) out :=
    ⟨hreal, ⟨[], by simp [System.setAtoms], by simp, by simp [System.setAtoms, countGhost_of_real hreal]⟩, rfl, countReal_of_real hreal⟩
  have hbox2 : (System.setAtoms { s with box := Spec.diagBox lx ly lz } out).getBox = Spec.diagBox lx ly lz := by
    unfold System.getBox at hbox ⊢
    change s.actualBox.getD _ = _
    cases hab : s.actualBox with
    | none => rfl
    | some b => rw [hab] at hbox; exact hbox
  have he2 := remapAtoms_eq hi2 hbox2 images true remove dtol
  have hk2 := remap_kept (s := { System.setAtoms { s with box := Spec.diagBox lx ly lz } out with box := Spec.diagBox lx ly lz }) hx hy hz ht rfl
    (movedAtoms (Spec.diagBox lx ly lz) out) images remove dtol (Or.inr (Or.inr (by rw [movedAtoms_inside hio]; exact hio)))
  dsimp only at he2 hk2
  rw [hk2, movedAtoms_inside hio] at he2
  have hfix : Spec.remapKept lx ly lz dtol images remove out = out := by
    unfold Spec.remapKept
    dsimp only
    have hf : (if remove = true then out.filter fun a => @decide (Spec.InBox lx ly lz a.pos) (Classical.propDecidable _) else out) = out := by
      split_ifs
      · rw [List.filter_eq_self]
        intro a ha
        simpa using hio a ha
      · rfl
    rw [hf]
    split_ifs with him
    · exact keepLast_of_pairwise (c2 him)
    · rfl
  rw [hfix] at he2
  rw [he2]
  rfl

/-- Two atoms in a box of length 10, one of them outside, and both within `0.1` of each other through the boundary: the hypotheses of the
C39 theorems are met, and only the second atom is kept. -/
example : ∃ s s' : System, ∃ a b : Atom, StoreInv s [a, b] ∧ s.getBox = Spec.diagBox 10 10 10 ∧ s.triclinic = false ∧
    (∀ c ∈ [a, b], Spec.WithinOneLength 10 10 10 c.pos) ∧ a.pos = ⟨-1, 0, 0⟩ ∧ b.pos = ⟨9, 1 / 20, 0⟩ ∧
    s.remapAtoms true true false (1 / 10) = .ok (s', none) ∧ s'.atoms = [b] := by
  let a : Atom := { pos := ⟨-1, 0, 0⟩ }
  let b : Atom := { pos := ⟨9, 1 / 20, 0⟩ }
  let s : System := { System.init with box := Spec.diagBox 10 10 10, atoms := [a, b], nop := 2, realNop := 2 }
  have hi : StoreInv s [a, b] := ⟨by simp [a, b], ⟨[], by simp [s], by simp, by simp [s, System.init]⟩, rfl, rfl⟩
  have hw : ∀ c ∈ [a, b], Spec.WithinOneLength 10 10 10 c.pos := by
    intro c hc
    rcases List.mem_cons.1 hc with rfl | hc
    · norm_num [Spec.WithinOneLength, a]
    · obtain rfl := List.mem_singleton.1 hc
      norm_num [Spec.WithinOneLength, b]
  obtain ⟨s', moved, ret, h, h1, -, h2, -⟩ := C39_remap s [a, b] hi (lx := 10) (ly := 10) (lz := 10) (by norm_num) (by norm_num) (by norm_num) rfl rfl true true false
    (1 / 10) (Or.inr (Or.inr hw))
  obtain ⟨h3, -, rfl⟩ := h2 rfl
  refine ⟨s, s', a, b, hi, rfl, rfl, hw, rfl, rfl, h, ?_⟩
  have hm : moved = [{ a with pos := ⟨9, 0, 0⟩ }, b] := by
    cases h1 with
    | @cons _ a' _ m ha hr =>
      cases hr with
      | @cons _ b' _ m hb hr =>
        cases hr
        have ia := ha.inBox (hw a (by simp))
        have ib := hb.inBox (hw b (by simp))
        obtain ⟨ea, ⟨xa, -⟩, ⟨ya, -⟩, za, -⟩ := ha
        obtain ⟨eb, ⟨xb, -⟩, ⟨yb, -⟩, zb, -⟩ := hb
        obtain ⟨⟨i1, i2⟩, ⟨i3, i4⟩, i5, i6⟩ := ia
        obtain ⟨⟨j1, j2⟩, ⟨j3, j4⟩, j5, j6⟩ := ib
        simp only [a, b] at xa ya za xb yb zb
        have pa : a'.pos = ⟨9, 0, 0⟩ := by
          apply V3.ext
          · rcases xa with h | h | h <;> rw [h] at i1 i2 ⊢ <;> linarith
          · rcases ya with h | h | h <;> rw [h] at i3 i4 ⊢ <;> linarith
          · rcases za with h | h | h <;> rw [h] at i5 i6 ⊢ <;> linarith
        have pb : b'.pos = b.pos := by
          apply V3.ext
          · rcases xb with h | h | h <;> rw [h] at j1 j2 ⊢ <;> linarith
          · rcases yb with h | h | h <;> rw [h] at j3 j4 ⊢ <;> linarith
          · rcases zb with h | h | h <;> rw [h] at j5 j6 ⊢ <;> linarith
        rw [pa] at ea
        rw [pb] at eb
        rw [ea, eb]
  rw [h3, hm]
  have hnear : Spec.PeriodicNear (Spec.diagBox 10 10 10) (1 / 10) { a with pos := ⟨9, 0, 0⟩ } b := by
    refine ⟨0, 0, 0, ?_⟩
    rw [V3.norm, Real.sqrt_le_left (by norm_num)]
    norm_num [V3.normSq, Spec.latticeVec, b]
  unfold Spec.remapKept
  dsimp only
  rw [if_pos rfl, if_neg (by simp)]
  unfold Spec.keepLast
  rw [if_pos ⟨b, List.mem_singleton_self _, hnear⟩]
  exact keepLast_of_pairwise (List.pairwise_singleton _ _)

/-! # C66: what else remapping changes -/

/-- **C66 (part)** In a system without ghosts, `remap_atoms(assign=False)` leaves the system as it is; and remapping with assignment
changes nothing if all atoms are inside and no two have images within `dtol`.  For padded systems both are false (`C66_false`). -/
theorem C66_partial (s : System) (reals : List Atom) (hi : StoreInv s reals) (hg : s.ghostNop = 0) {lx ly lz : ℝ} (hx : 0 < lx) (hy : 0 < ly) (hz : 0 < lz)
    (hbox : s.box = Spec.diagBox lx ly lz) (hact : s.actualBox = none) (ht : s.triclinic = false) (images remove : Bool) (dtol : ℝ) :
    (∀ s' ret, s.remapAtoms images false remove dtol = .ok (s', ret) → s' = s) ∧
    ((∀ a ∈ reals, Spec.InBox lx ly lz a.pos) → (reals.Pairwise fun a b => ¬ Spec.PeriodicNear (Spec.diagBox lx ly lz) dtol a b) →
      s.remapAtoms images true remove dtol = .ok (s, none)) := by
  have hgb : s.getBox = Spec.diagBox lx ly lz := by rw [System.getBox, hact, hbox]; rfl
  have hs1 : ({ s with box := Spec.diagBox lx ly lz } : System) = s := by rw [← hbox]
  have hat : s.atoms = reals := by
    obtain ⟨gs, h1, h2, h3⟩ := hi.ex
    rw [hg] at h3
    rw [h1, List.length_eq_zero_iff.1 h3.symm, List.append_nil]
  constructor
  · intro s' ret h
    rw [remapAtoms_eq hi hgb] at h
    dsimp only at h
    rw [if_neg (by simp), hs1] at h
    exact (congrArg Prod.fst (Except.ok.inj h)).symm
  · intro hin hp
    have he := remapAtoms_eq hi hgb images true remove dtol
    have hk := remap_kept (s := s) hx hy hz ht hbox (movedAtoms (Spec.diagBox lx ly lz) reals) images remove dtol (Or.inr (Or.inr (by rw [movedAtoms_inside hin]; exact hin)))
    dsimp only at he hk
    rw [hs1, hk, movedAtoms_inside hin] at he
    have hfix : Spec.remapKept lx ly lz dtol images remove reals = reals := by
      unfold Spec.remapKept
      dsimp only
      have hf : (if remove = true then reals.filter fun a => @decide (Spec.InBox lx ly lz a.pos) (Classical.propDecidable _) else reals) = reals := by
        split_ifs
        · rw [List.filter_eq_self]
          intro a ha
          simpa using hin a ha
        · rfl
      rw [hf]
      split_ifs with him
      · exact keepLast_of_pairwise hp
      · rfl
    rw [hfix] at he
    have hset : s.setAtoms reals = s := by
      have h1 := countReal_of_real hi.real
      have h2 := countGhost_of_real hi.real
      have h3 := hi.nop
      have h4 := hi.realNop
      unfold System.setAtoms
      rw [h1, h2, ← h4, ← hg, ← hat]
      have h5 : s.realNop = s.nop := by rw [h4, h3, hat]
      have h6 : ∀ n, n = s.nop → ({ s with nop := n } : System) = s := by rintro _ rfl; rfl
      exact h6 _ h5
    rw [hset] at he
    exact he

/-- **C66 is false for padded systems**: two atoms inside a box of length 10, padded by the atoms setter to 250 atoms.
Remapping moves nothing, but with assignment the ghosts are gone, and without it the box used for distances is no longer that of the padded
system: it is the box of the user, while the ghosts stay. -/
theorem C66_false (σ : StdSort) : ∃ s0 s s1 s2 : System, ∃ out : List Atom,
    System.init.setBox (Spec.diagBox 10 10 10) = .ok s0 ∧ s0.assignAtoms edgeAtoms = .ok s ∧
    (∀ a ∈ edgeAtoms, Spec.InBox 10 10 10 a.pos) ∧ s.ntotal = 250 ∧ s.box = Spec.diagBox 50 50 50 ∧
    s.remapAtoms false true false (1 / 10) = .ok (s1, none) ∧ s1.ntotal = 2 ∧ s1.natoms = 2 ∧
    s.remapAtoms false false false (1 / 10) = .ok (s2, some out) ∧ s2.ntotal = 250 ∧ s2.box = Spec.diagBox 10 10 10 := by
  obtain ⟨s0, s, -, h1, h2, -, hi, hr, hl, hb, hb', ht, -⟩ := edge_setup σ
  have hin : ∀ a ∈ edgeAtoms, Spec.InBox 10 10 10 a.pos := by
    intro a ha
    rcases List.mem_cons.1 ha with rfl | ha
    · norm_num [Spec.InBox]
    · obtain rfl := List.mem_singleton.1 ha
      norm_num [Spec.InBox]
  have e1 := remapAtoms_eq hi hb false true false (1 / 10)
  have e2 := remapAtoms_eq hi hb false false false (1 / 10)
  dsimp only at e1 e2
  refine ⟨s0, s, _, _, _, h1, h2, hin, hi.nop.trans hl, hb', e1, ?_, ?_, e2, hi.nop.trans hl, rfl⟩
  · simp [System.ntotal, System.setAtoms, movedAtoms, edgeAtoms]
  · simp [System.natoms, System.setAtoms, movedAtoms, edgeAtoms, countReal]

/-! # C58, C67, C68: extracting a cubic box -/

/-- The search along one axis finds an aligned atom at the least distance, if there is one nearer than 10000. -/
theorem axisFold (s : System) (f g : V3 → ℝ) (anchor : Atom) : ∀ (l : List Atom) (best : ℝ × Option Atom),
    let r := l.foldl (fun best atom => @ite _ (aligned f g anchor atom && @decide (s.getDistance anchor atom < best.1) (Classical.propDecidable _)) (instDecidableEqBool _ _)
      (s.getDistance anchor atom, some atom) best) best
    (r = best ∧ ∀ x ∈ l, aligned f g anchor x = true → best.1 ≤ s.getDistance anchor x) ∨
    (∃ x ∈ l, aligned f g anchor x = true ∧ r = (s.getDistance anchor x, some x) ∧ s.getDistance anchor x < best.1 ∧
      ∀ y ∈ l, aligned f g anchor y = true → s.getDistance anchor x ≤ s.getDistance anchor y)
  | [], best => Or.inl ⟨rfl, by simp⟩
  | a :: l, best => by
    rw [List.foldl_cons]
    by_cases hc : (aligned f g anchor a && @decide (s.getDistance anchor a < best.1) (Classical.propDecidable _)) = true
    · rw [if_pos hc]
      obtain ⟨ha, hd⟩ := (Bool.and_eq_true _ _).mp hc
      have hd' : s.getDistance anchor a < best.1 := by simpa using hd
      right
      rcases axisFold s f g anchor l (s.getDistance anchor a, some a) with ⟨h1, h2⟩ | ⟨x, hx, h1, h2, h3, h4⟩
      · refine ⟨a, List.mem_cons_self, ha, h1, hd', ?_⟩
        intro y hy hya
        rcases List.mem_cons.1 hy with rfl | hy
        · exact le_refl _
        · exact h2 y hy hya
      · refine ⟨x, List.mem_cons_of_mem _ hx, h1, h2, h3.trans hd', ?_⟩
        intro y hy hya
        rcases List.mem_cons.1 hy with rfl | hy
        · exact h3.le
        · exact h4 y hy hya
    · rw [if_neg hc]
      have hd' : aligned f g anchor a = true → best.1 ≤ s.getDistance anchor a := by
        intro ha
        by_contra hlt
        exact hc (by simp [ha, not_le.1 hlt])
      rcases axisFold s f g anchor l best with ⟨h1, h2⟩ | ⟨x, hx, h1, h2, h3, h4⟩
      · left
        refine ⟨h1, ?_⟩
        intro y hy hya
        rcases List.mem_cons.1 hy with rfl | hy
        · exact hd' hya
        · exact h2 y hy hya
      · right
        refine ⟨x, List.mem_cons_of_mem _ hx, h1, h2, h3, ?_⟩
        intro y hy hya
        rcases List.mem_cons.1 hy with rfl | hy
        · exact h3.le.trans (hd' hya)
        · exact h4 y hy hya

theorem axisRange_ok {s : System} {f g h : V3 → ℝ} {anchor : Atom} {l : List Atom} {x : ℝ × ℝ} (hr : s.axisRange f g h anchor l = .ok x) :
    ∃ m ∈ l, aligned f g anchor m = true ∧ (∀ y ∈ l, aligned f g anchor y = true → s.getDistance anchor m ≤ s.getDistance anchor y) ∧
      x = (min (h anchor.pos) (h m.pos), max (h anchor.pos) (h m.pos)) := by
  unfold System.axisRange at hr
  have key := axisFold s f g anchor l (10000, none)
  dsimp only at key
  split at hr
  · cases hr
  · rename_i m hm
    rcases key with ⟨h1, -⟩ | ⟨y, hy, h1, h2, h3, h4⟩
    · have := (congrArg Prod.snd h1).symm.trans hm
      cases this
    · have : some y = some m := (congrArg Prod.snd h2).symm.trans hm
      obtain rfl := Option.some.inj this
      exact ⟨y, hy, h1, h4, (Except.ok.inj hr).symm⟩

theorem axisRange_error {s : System} {f g h : V3 → ℝ} {anchor : Atom} {l : List Atom} {e : Fault} (hr : s.axisRange f g h anchor l = .error e) : e = .valueError := by
  unfold System.axisRange at hr
  split at hr
  · exact (Except.error.inj hr).symm
  · cases hr

/-- It succeeds if there is an aligned atom nearer than 10000. -/
theorem axisRange_isOk {s : System} {f g h : V3 → ℝ} {anchor : Atom} {l : List Atom} (hex : ∃ m ∈ l, aligned f g anchor m = true ∧ s.getDistance anchor m < 10000) :
    ∃ x, s.axisRange f g h anchor l = .ok x := by
  unfold System.axisRange
  have key := axisFold s f g anchor l (10000, none)
  dsimp only at key
  split
  · rename_i hm
    obtain ⟨m, hm1, hm2, hm3⟩ := hex
    rcases key with ⟨-, h1⟩ | ⟨y, hy, h1, h2, h3, h4⟩
    · exact absurd (h1 m hm1 hm2) (not_le.2 hm3)
    · have := (congrArg Prod.snd h2).symm.trans hm
      cases this
  · exact ⟨_, rfl⟩

theorem inRanges_iff (x y z : ℝ × ℝ) (p : V3) : inRanges x y z p = true ↔ (x.1 ≤ p.x ∧ p.x < x.2) ∧ (y.1 ≤ p.y ∧ p.y < y.2) ∧ (z.1 ≤ p.z ∧ p.z < z.2) := by
  unfold inRanges
  rw [Bool.and_eq_true, Bool.and_eq_true, decide_eq_true_iff, decide_eq_true_iff, decide_eq_true_iff, and_assoc]

/-- The atoms of `repeat`: all translates by up to `r` cells. -/
theorem mem_repeat {b : Mat3} {rx ry rz : ℕ} {l : List Atom} {p : V3} {t : ℤ} :
    (∃ a ∈ l ++ repNew b false rx ry rz l, a.pos = p ∧ a.type = t) ↔
      ∃ a ∈ l, ∃ n1 n2 n3 : ℤ, |n1| ≤ rx ∧ |n2| ≤ ry ∧ |n3| ≤ rz ∧ p = a.pos + Spec.latticeVec b n1 n2 n3 ∧ t = a.type := by
  constructor
  · rintro ⟨a, ha, rfl, rfl⟩
    rcases List.mem_append.1 ha with ha | ha
    · exact ⟨a, ha, 0, 0, 0, by simp, by simp, by simp, by apply V3.ext <;> simp [Spec.latticeVec], rfl⟩
    · obtain ⟨c, hc, a0, ha0, i, rfl⟩ := mem_repNew ha
      obtain ⟨h1, h2, h3⟩ := (mem_repCells.1 hc).1
      refine ⟨a0, ha0, c.1, c.2.1, c.2.2, abs_le.2 (mem_repRange.1 h1), abs_le.2 (mem_repRange.1 h2), abs_le.2 (mem_repRange.1 h3), ?_, rfl⟩
      apply V3.ext <;> simp [Spec.latticeVec, repAtom, Atom.withId] <;> ring
  · rintro ⟨a, ha, n1, n2, n3, h1, h2, h3, rfl, rfl⟩
    by_cases h0 : n1 = 0 ∧ n2 = 0 ∧ n3 = 0
    · obtain ⟨rfl, rfl, rfl⟩ := h0
      exact ⟨a, List.mem_append_left _ ha, by apply V3.ext <;> simp [Spec.latticeVec], rfl⟩
    · have hc : (n1, n2, n3) ∈ repCells rx ry rz := by
        rw [mem_repCells]
        refine ⟨⟨mem_repRange.2 (abs_le.1 h1), mem_repRange.2 (abs_le.1 h2), mem_repRange.2 (abs_le.1 h3)⟩, ?_⟩
        simpa using h0
      obtain ⟨i, hi⟩ := repNew_of_mem (b := b) (g := false) hc ha
      refine ⟨_, List.mem_append_right _ hi, ?_, rfl⟩
      apply V3.ext <;> simp [Spec.latticeVec, repAtom, Atom.withId] <;> ring

/-- What a successful call did. -/
theorem extract_ok {s s' : System} {reals : List Atom} (hi : StoreInv s reals) {rx ry rz : ℕ} {box : Mat3} {atoms : List Atom}
    (h : s.extractCubicBox rx ry rz = .ok (s', box, atoms)) : ∃ anchor rest x y z,
      s.repeatAtoms rx ry rz reals false true = .ok (s', anchor :: rest) ∧
      s'.axisRange V3.y V3.z V3.x anchor rest = .ok x ∧ s'.axisRange V3.x V3.z V3.y anchor rest = .ok y ∧ s'.axisRange V3.x V3.y V3.z anchor rest = .ok z ∧
      box = Spec.diagBox (x.2 - x.1) (y.2 - y.1) (z.2 - z.1) ∧
      atoms = ((anchor :: rest).filter fun a => inRanges x y z a.pos).map fun a => { a with pos := ⟨a.pos.x - x.1, a.pos.y - y.1, a.pos.z - z.1⟩ } := by
  unfold System.extractCubicBox System.repeat at h
  rw [getAtoms_inv hi] at h
  simp only [bind, Except.bind] at h
  cases hr : s.repeatAtoms rx ry rz reals false true with
  | error e => rw [hr] at h; cases h
  | ok v =>
    obtain ⟨s1, l⟩ := v
    rw [hr] at h
    dsimp only at h
    cases l with
    | nil => cases h
    | cons anchor rest =>
      dsimp only at h
      cases hx : s1.axisRange V3.y V3.z V3.x anchor rest with
      | error e => rw [hx] at h; cases h
      | ok x =>
        rw [hx] at h
        dsimp only at h
        cases hy : s1.axisRange V3.x V3.z V3.y anchor rest with
        | error e => rw [hy] at h; cases h
        | ok y =>
          rw [hy] at h
          dsimp only at h
          cases hz : s1.axisRange V3.x V3.y V3.z anchor rest with
          | error e => rw [hz] at h; cases h
          | ok z =>
            rw [hz] at h
            have h' := Except.ok.inj h
            obtain rfl := congrArg Prod.fst h'
            obtain rfl := congrArg (fun q : System × Mat3 × List Atom => q.2.1) h'
            obtain rfl := congrArg (fun q : System × Mat3 × List Atom => q.2.2) h'
            exact ⟨anchor, rest, x, y, z, rfl, hx, hy, hz, rfl, rfl⟩

theorem axisRange_le {s : System} {f g h : V3 → ℝ} {anchor : Atom} {l : List Atom} {x : ℝ × ℝ} (hr : s.axisRange f g h anchor l = .ok x) : 0 ≤ x.2 - x.1 := by
  obtain ⟨m, -, -, -, rfl⟩ := axisRange_ok hr
  simp

/-- **C58** If `extract_cubic_box(repeat)` returns, it returns an orthogonal box with non-negative edges, and the atoms are, up to the
choice of the origin, exactly the translates of the atoms of the system by up to `repeat` cells which lie in `[0, edge)` along each axis. -/
theorem C58_extract (s s' : System) (reals : List Atom) (hi : StoreInv s reals) (rx ry rz : ℕ) (box : Mat3) (atoms : List Atom)
    (h : s.extractCubicBox rx ry rz = .ok (s', box, atoms)) : ∃ (lx ly lz : ℝ) (o : V3), box = Spec.diagBox lx ly lz ∧ 0 ≤ lx ∧ 0 ≤ ly ∧ 0 ≤ lz ∧
      (∀ a ∈ atoms, Spec.InBox lx ly lz a.pos) ∧
      ∀ (p : V3) (t : ℤ), (∃ a ∈ atoms, a.pos = p ∧ a.type = t) ↔ Spec.InBox lx ly lz p ∧
        ∃ a ∈ reals, ∃ n1 n2 n3 : ℤ, |n1| ≤ rx ∧ |n2| ≤ ry ∧ |n3| ≤ rz ∧ p + o = a.pos + Spec.latticeVec s.getBox n1 n2 n3 ∧ t = a.type := by
  obtain ⟨anchor, rest, x, y, z, hr, hx, hy, hz, rfl, rfl⟩ := extract_ok hi h
  obtain ⟨hall, -⟩ := repeatAtoms_ok hr
  have hiff : ∀ (p : V3) (t : ℤ), (∃ a ∈ ((anchor :: rest).filter fun a => inRanges x y z a.pos).map fun a => ({ a with pos := ⟨a.pos.x - x.1, a.pos.y - y.1, a.pos.z - z.1⟩ } : Atom),
      a.pos = p ∧ a.type = t) ↔ Spec.InBox (x.2 - x.1) (y.2 - y.1) (z.2 - z.1) p ∧ ∃ a ∈ anchor :: rest, a.pos = p + ⟨x.1, y.1, z.1⟩ ∧ a.type = t := by
    intro p t
    constructor
    · rintro ⟨a', ha', rfl, rfl⟩
      obtain ⟨a, ha, rfl⟩ := List.mem_map.1 ha'
      obtain ⟨ha, hin⟩ := List.mem_filter.1 ha
      obtain ⟨⟨h1, h2⟩, ⟨h3, h4⟩, h5, h6⟩ := (inRanges_iff _ _ _ _).1 hin
      refine ⟨⟨⟨?_, ?_⟩, ⟨?_, ?_⟩, ?_, ?_⟩, a, ha, ?_, rfl⟩ <;> dsimp only <;> try linarith
      apply V3.ext <;> simp
    · rintro ⟨⟨⟨h1, h2⟩, ⟨h3, h4⟩, h5, h6⟩, a, ha, he, rfl⟩
      refine ⟨_, List.mem_map.2 ⟨a, List.mem_filter.2 ⟨ha, (inRanges_iff _ _ _ _).2 ?_⟩, rfl⟩, ?_, rfl⟩
      · rw [he]
        refine ⟨⟨?_, ?_⟩, ⟨?_, ?_⟩, ?_, ?_⟩ <;> simp <;> linarith
      · rw [he]
        apply V3.ext <;> simp
  refine ⟨_, _, _, ⟨x.1, y.1, z.1⟩, rfl, axisRange_le hx, axisRange_le hy, axisRange_le hz, ?_, ?_⟩
  · intro a ha
    exact ((hiff a.pos a.type).1 ⟨a, ha, rfl, rfl⟩).1
  · intro p t
    rw [hiff, hall, mem_repeat]

/-- **C58** On a system with atoms whose box is not singular, the only exception is `ValueError`. -/
theorem C58_errors (s : System) (reals : List Atom) (hi : StoreInv s reals) (hne : reals ≠ []) (hs : Spec.Skew s.getBox → s.getBox.det ≠ 0) (rx ry rz : ℕ) (e : Fault)
    (h : s.extractCubicBox rx ry rz = .error e) : e = .valueError := by
  obtain ⟨s1, l, hr⟩ := repeatAtoms_isOk (s := s) (rx := rx) (ry := ry) (rz := rz) (l := reals) (g := false) (sc := true) (fun h => hs ((skewed_iff _).1 h))
  obtain ⟨hall, -⟩ := repeatAtoms_ok hr
  unfold System.extractCubicBox System.repeat at h
  rw [getAtoms_inv hi] at h
  simp only [bind, Except.bind] at h
  rw [hr] at h
  dsimp only at h
  cases l with
  | nil => cases reals with
    | nil => exact absurd rfl hne
    | cons a l => cases hall
  | cons anchor rest =>
    dsimp only at h
    cases hx : s1.axisRange V3.y V3.z V3.x anchor rest with
    | error e' => rw [hx] at h; cases h; exact axisRange_error hx
    | ok x =>
      rw [hx] at h
      dsimp only at h
      cases hy : s1.axisRange V3.x V3.z V3.y anchor rest with
      | error e' => rw [hy] at h; cases h; exact axisRange_error hy
      | ok y =>
        rw [hy] at h
        dsimp only at h
        cases hz : s1.axisRange V3.x V3.y V3.z anchor rest with
        | error e' => rw [hz] at h; cases h; exact axisRange_error hz
        | ok z => rw [hz] at h; cases h

/-- **C68 (part)** `extract_cubic_box` leaves the atoms, their number and the reported box as they were.  It does not leave the box used
for distances (`C68_false`). -/
theorem C68_partial (s s' : System) (reals : List Atom) (hi : StoreInv s reals) (rx ry rz : ℕ) (box : Mat3) (atoms : List Atom)
    (h : s.extractCubicBox rx ry rz = .ok (s', box, atoms)) :
    s'.atoms = s.atoms ∧ s'.natoms = s.natoms ∧ s'.ntotal = s.ntotal ∧ s'.getBox = s.getBox ∧ StoreInv s' reals := by
  obtain ⟨anchor, rest, x, y, z, hr, -⟩ := extract_ok hi h
  obtain ⟨-, h1, -, h3, h4, h5, h6, -⟩ := repeatAtoms_ok hr
  refine ⟨h3, h5, h4, by rw [System.getBox, h1]; rfl, hi.real, ?_, by rw [h4, hi.nop, h3], by rw [h5, hi.realNop]⟩
  obtain ⟨gs, g1, g2, g3⟩ := hi.ex
  exact ⟨gs, by rw [h3, g1], g2, by rw [h6, g3]⟩

/-- **C67 (part)** For a system with one atom the edges of the extracted box are lengths of lattice vectors along the axes, up to the
tolerance of `1e-5` in the other two components.  With more atoms they need not be periods of the crystal (`C67_false`). -/
theorem C67_partial (s s' : System) (a0 : Atom) (hi : StoreInv s [a0]) (rx ry rz : ℕ) (box : Mat3) (atoms : List Atom)
    (h : s.extractCubicBox rx ry rz = .ok (s', box, atoms)) :
    (∃ n1 n2 n3 : ℤ, (n1, n2, n3) ≠ 0 ∧ |(Spec.latticeVec s.getBox n1 n2 n3).x| = box.r0.x ∧ |(Spec.latticeVec s.getBox n1 n2 n3).y| < 1e-5 ∧ |(Spec.latticeVec s.getBox n1 n2 n3).z| < 1e-5) ∧
    (∃ n1 n2 n3 : ℤ, (n1, n2, n3) ≠ 0 ∧ |(Spec.latticeVec s.getBox n1 n2 n3).y| = box.r1.y ∧ |(Spec.latticeVec s.getBox n1 n2 n3).x| < 1e-5 ∧ |(Spec.latticeVec s.getBox n1 n2 n3).z| < 1e-5) ∧
    (∃ n1 n2 n3 : ℤ, (n1, n2, n3) ≠ 0 ∧ |(Spec.latticeVec s.getBox n1 n2 n3).z| = box.r2.z ∧ |(Spec.latticeVec s.getBox n1 n2 n3).x| < 1e-5 ∧ |(Spec.latticeVec s.getBox n1 n2 n3).y| < 1e-5) := by
  obtain ⟨anchor, rest, x, y, z, hr, hx, hy, hz, rfl, -⟩ := extract_ok hi h
  obtain ⟨hall, -⟩ := repeatAtoms_ok hr
  obtain ⟨rfl, rfl⟩ : anchor = a0 ∧ rest = repNew s.getBox false rx ry rz [a0] := by
    rw [List.singleton_append] at hall
    exact List.cons.inj hall
  have key : ∀ m ∈ repNew s.getBox false rx ry rz [anchor], ∃ n1 n2 n3 : ℤ, (n1, n2, n3) ≠ 0 ∧ m.pos = anchor.pos + Spec.latticeVec s.getBox n1 n2 n3 := by
    intro m hm
    obtain ⟨c, hc, a, ha, i, rfl⟩ := mem_repNew hm
    obtain rfl := List.mem_singleton.1 ha
    refine ⟨c.1, c.2.1, c.2.2, (mem_repCells.1 hc).2, ?_⟩
    apply V3.ext <;> simp [Spec.latticeVec, repAtom, Atom.withId] <;> ring
  have hal : ∀ (f g : V3 → ℝ) (m : Atom), aligned f g anchor m = true → |f m.pos - f anchor.pos| < 1e-5 ∧ |g m.pos - g anchor.pos| < 1e-5 := by
    intro f g m hm
    unfold aligned at hm
    rw [Bool.and_eq_true, Bool.and_eq_true, decide_eq_true_iff, decide_eq_true_iff] at hm
    exact hm.1
  have hmm : ∀ u v : ℝ, max u (u + v) - min u (u + v) = |v| := by
    intro u v
    rw [max_sub_min_eq_abs]
    simp
  refine ⟨?_, ?_, ?_⟩
  · obtain ⟨m, hm, h1, -, rfl⟩ := axisRange_ok hx
    obtain ⟨n1, n2, n3, hn, hp⟩ := key m hm
    have := hal _ _ m h1
    rw [hp] at this ⊢
    refine ⟨n1, n2, n3, hn, (hmm _ _).symm, by simpa using this.1, by simpa using this.2⟩
  · obtain ⟨m, hm, h1, -, rfl⟩ := axisRange_ok hy
    obtain ⟨n1, n2, n3, hn, hp⟩ := key m hm
    have := hal _ _ m h1
    rw [hp] at this ⊢
    refine ⟨n1, n2, n3, hn, (hmm _ _).symm, by simpa using this.1, by simpa using this.2⟩
  · obtain ⟨m, hm, h1, -, rfl⟩ := axisRange_ok hz
    obtain ⟨n1, n2, n3, hn, hp⟩ := key m hm
    have := hal _ _ m h1
    rw [hp] at this ⊢
    refine ⟨n1, n2, n3, hn, (hmm _ _).symm, by simpa using this.1, by simpa using this.2⟩

/-- A translation which maps the crystal into itself. -/
def Spec.IsPeriod (b : Mat3) (l : List Atom) (v : V3) : Prop := ∀ p t, (p, t) ∈ Spec.crystal b l → (p + v, t) ∈ Spec.crystal b l

/-- The edge system: extracting a cubic box with one repetition per axis returns a box with edge 1 along `x`. -/
theorem edge_extract (σ : StdSort) : ∃ s0 s s' : System, ∃ (ly lz : ℝ) (atoms : List Atom),
    System.init.setBox (Spec.diagBox 10 10 10) = .ok s0 ∧ s0.assignAtoms edgeAtoms = .ok s ∧ StoreInv s edgeAtoms ∧
    s.getBox = Spec.diagBox 10 10 10 ∧ s.box = Spec.diagBox 50 50 50 ∧ s.triclinic = false ∧
    s.extractCubicBox 1 1 1 = .ok (s', Spec.diagBox 1 ly lz, atoms) ∧ s'.box = Spec.diagBox 30 30 30 ∧ s'.triclinic = false := by
  obtain ⟨s0, s, -, h1, h2, -, hi, hr, hl, hb, hb', ht, -⟩ := edge_setup σ
  obtain ⟨s1, l, hrep⟩ := repeatAtoms_isOk (s := s) (rx := 1) (ry := 1) (rz := 1) (l := edgeAtoms) (g := false) (sc := true)
    (fun h => absurd h (by rw [hb]; exact not_skewed_diag _ _ _))
  obtain ⟨hall, -, hbox, -⟩ := repeatAtoms_ok hrep
  have hsc : scaleBox (Spec.diagBox 10 10 10) 1 1 1 = Spec.diagBox 30 30 30 := by
    simp only [scaleBox, Spec.diagBox, V3.smul]
    norm_num
  rw [if_pos rfl, hb, hsc] at hbox
  have ht1 : s1.triclinic = false := by
    have hh := hrep
    unfold System.repeatAtoms at hh
    rw [hb] at hh
    simp only [bind, Except.bind, if_true, hsc, setBox_diag] at hh
    have := congrArg (fun q : System × List Atom => q.1.triclinic) (Except.ok.inj hh)
    exact this.symm.trans ht
  rw [hb] at hall
  set R := repNew (Spec.diagBox 10 10 10) false 1 1 1 edgeAtoms with hR
  have hl' : l = ({ pos := ⟨1 / 2, 0, 0⟩ } : Atom) :: ({ pos := ⟨19 / 2, 0, 0⟩ } : Atom) :: R := hall
  set a0 : Atom := { pos := ⟨1 / 2, 0, 0⟩ } with ha0
  set b0 : Atom := { pos := ⟨19 / 2, 0, 0⟩ } with hb0
  have hdist : ∀ m : Atom, s1.getDistance a0 m = V3.norm ⟨wrap 30 (1 / 2 - m.pos.x), wrap 30 (0 - m.pos.y), wrap 30 (0 - m.pos.z)⟩ := by
    intro m
    rw [System.getDistance, image_diag s1 30 30 30 (by norm_num) (by norm_num) (by norm_num) ht1 hbox]
    rfl
  have hex : ∀ (c : ℤ × ℤ × ℤ), c ∈ repCells 1 1 1 → ∀ a ∈ edgeAtoms, ∃ m ∈ b0 :: R, m.pos = a.pos + Spec.latticeVec (Spec.diagBox 10 10 10) c.1 c.2.1 c.2.2 ∧ m.type = a.type := by
    intro c hc a ha
    obtain ⟨i, hm⟩ := repNew_of_mem (b := Spec.diagBox 10 10 10) (g := false) hc ha
    refine ⟨_, List.mem_cons_of_mem _ hm, ?_, rfl⟩
    apply V3.ext <;> simp [Spec.latticeVec, repAtom, Atom.withId] <;> ring
  -- the three searches succeed
  obtain ⟨mx, hmx, px, tx⟩ := hex (-1, 0, 0) (by decide +kernel) b0 (by simp [edgeAtoms, hb0])
  obtain ⟨my, hmy, py, ty⟩ := hex (0, 1, 0) (by decide +kernel) a0 (by simp [edgeAtoms, ha0])
  obtain ⟨mz, hmz, pz, tz⟩ := hex (0, 0, 1) (by decide +kernel) a0 (by simp [edgeAtoms, ha0])
  have px' : mx.pos = ⟨-1 / 2, 0, 0⟩ := by
    rw [px]; apply V3.ext <;> norm_num [Spec.latticeVec, Spec.diagBox, hb0]
  have py' : my.pos = ⟨1 / 2, 10, 0⟩ := by
    rw [py]; apply V3.ext <;> norm_num [Spec.latticeVec, Spec.diagBox, ha0]
  have pz' : mz.pos = ⟨1 / 2, 0, 10⟩ := by
    rw [pz]; apply V3.ext <;> norm_num [Spec.latticeVec, Spec.diagBox, ha0]
  have dx : s1.getDistance a0 mx = 1 := by
    rw [hdist, px', V3.norm, show V3.normSq _ = (1 : ℝ) ^ 2 by norm_num [wrap, V3.normSq]]
    exact Real.sqrt_sq (by norm_num)
  have dy : s1.getDistance a0 my = 10 := by
    rw [hdist, py', V3.norm, show V3.normSq _ = (10 : ℝ) ^ 2 by norm_num [wrap, V3.normSq]]
    exact Real.sqrt_sq (by norm_num)
  have dz : s1.getDistance a0 mz = 10 := by
    rw [hdist, pz', V3.norm, show V3.normSq _ = (10 : ℝ) ^ 2 by norm_num [wrap, V3.normSq]]
    exact Real.sqrt_sq (by norm_num)
  have ax : aligned V3.y V3.z a0 mx = true := by
    unfold aligned
    simp only [px', tx, ha0, hb0]
    norm_num
  have ay : aligned V3.x V3.z a0 my = true := by
    unfold aligned
    simp only [py', ty, ha0]
    norm_num
  have az : aligned V3.x V3.y a0 mz = true := by
    unfold aligned
    simp only [pz', tz, ha0]
    norm_num
  obtain ⟨x, hx⟩ := axisRange_isOk (s := s1) (h := V3.x) ⟨mx, hmx, ax, by rw [dx]; norm_num⟩
  obtain ⟨y, hy⟩ := axisRange_isOk (s := s1) (h := V3.y) ⟨my, hmy, ay, by rw [dy]; norm_num⟩
  obtain ⟨z, hz⟩ := axisRange_isOk (s := s1) (h := V3.z) ⟨mz, hmz, az, by rw [dz]; norm_num⟩
  -- the nearest aligned atom
  obtain ⟨m, hm, hal, hmin, hxe⟩ := axisRange_ok hx
  have hd := hmin mx hmx ax
  rw [dx, hdist] at hd
  have hwx : |wrap 30 (1 / 2 - m.pos.x)| ≤ 1 := by
    refine le_trans ?_ hd
    rw [← Real.sqrt_sq_eq_abs]
    apply Real.sqrt_le_sqrt
    unfold V3.normSq
    nlinarith [mul_self_nonneg (wrap 30 (0 - m.pos.y)), mul_self_nonneg (wrap 30 (0 - m.pos.z))]
  have hmx' : m.pos.x = -1 / 2 := by
    rcases List.mem_cons.1 hm with rfl | hm
    · exfalso
      norm_num [hb0, wrap] at hwx
    · obtain ⟨c, hc, a, ha, i, rfl⟩ := mem_repNew hm
      obtain ⟨⟨r1, r2, r3⟩, hne⟩ := mem_repCells.1 hc
      obtain ⟨u1, u2⟩ := mem_repRange.1 r1
      unfold aligned at hal
      rw [Bool.and_eq_true, Bool.and_eq_true, decide_eq_true_iff, decide_eq_true_iff] at hal
      obtain ⟨⟨e1, e2⟩, -⟩ := hal
      obtain ⟨i1, i2, i3⟩ := c
      have small : ∀ n : ℤ, |(n : ℝ) * 10| < 1e-5 → n = 0 := by
        intro n hn
        by_contra h0
        have : (1 : ℝ) ≤ |(n : ℝ)| := by exact_mod_cast Int.one_le_abs h0
        rw [abs_mul] at hn
        norm_num at hn
        linarith
      have hay : a.pos.y = 0 ∧ a.pos.z = 0 ∧ (a.pos.x = 1 / 2 ∨ a.pos.x = 19 / 2) := by
        rcases List.mem_cons.1 ha with rfl | ha
        · simp
        · obtain rfl := List.mem_singleton.1 ha
          simp
      obtain ⟨ya, za, xa⟩ := hay
      have z2 : i2 = 0 := small i2 (by simpa [repAtom, Atom.withId, Spec.diagBox, ya, ha0] using e1)
      have z3 : i3 = 0 := small i3 (by simpa [repAtom, Atom.withId, Spec.diagBox, za, ha0] using e2)
      subst z2 z3
      have hpx : ((repAtom (Spec.diagBox 10 10 10) false (i1, 0, 0) a).withId i).pos.x = a.pos.x + i1 * 10 := by
        simp [repAtom, Atom.withId, Spec.diagBox]
      rw [hpx] at hwx ⊢
      dsimp only at u1 u2
      have h1 : i1 = -1 ∨ i1 = 0 ∨ i1 = 1 := by omega
      rcases h1 with rfl | rfl | rfl <;> rcases xa with xa | xa <;> rw [xa] at hwx ⊢
      all_goals first | (exfalso; norm_num [wrap] at hwx; done) | exact absurd rfl hne | norm_num
  have hbe : Spec.diagBox (x.2 - x.1) (y.2 - y.1) (z.2 - z.1) = Spec.diagBox 1 (y.2 - y.1) (z.2 - z.1) := by
    rw [hxe, hmx']
    norm_num [ha0]
  have hfin : ∃ atoms, s.extractCubicBox 1 1 1 = .ok (s1, Spec.diagBox (x.2 - x.1) (y.2 - y.1) (z.2 - z.1), atoms) := by
    unfold System.extractCubicBox System.repeat
    rw [getAtoms_inv hi]
    simp only [bind, Except.bind]
    rw [hrep, hl']
    dsimp only
    rw [hx]
    dsimp only
    rw [hy]
    dsimp only
    rw [hz]
    exact ⟨_, rfl⟩
  obtain ⟨atoms, hfin⟩ := hfin
  rw [hbe] at hfin
  exact ⟨s0, s, s1, _, _, atoms, h1, h2, hi, hb, hb', ht, hfin, hbox, ht1⟩

/-- **C67 is false with more than one atom**: for the crystal with atoms at `x = 1/2` and `x = 19/2` in a box of length 10, the returned box has
edge 1 along `x`, but translating the crystal by 1 along `x` gives another crystal. -/
theorem C67_false (σ : StdSort) : ∃ s0 s s' : System, ∃ (box : Mat3) (atoms : List Atom),
    System.init.setBox (Spec.diagBox 10 10 10) = .ok s0 ∧ s0.assignAtoms edgeAtoms = .ok s ∧ StoreInv s edgeAtoms ∧
    s.extractCubicBox 1 1 1 = .ok (s', box, atoms) ∧ ¬ Spec.IsPeriod s.getBox edgeAtoms box.r0 := by
  obtain ⟨s0, s, s', ly, lz, atoms, h1, h2, hi, hb, -, -, he, -⟩ := edge_extract σ
  refine ⟨s0, s, s', _, atoms, h1, h2, hi, he, ?_⟩
  intro hp
  rw [hb] at hp
  have h0 : ((⟨1 / 2, 0, 0⟩, 0) : V3 × ℤ) ∈ Spec.crystal (Spec.diagBox 10 10 10) edgeAtoms :=
    ⟨{ pos := ⟨1 / 2, 0, 0⟩ }, by simp [edgeAtoms], 0, 0, 0, by apply V3.ext <;> simp [Spec.latticeVec], rfl⟩
  obtain ⟨a, ha, n1, n2, n3, hx, -⟩ := hp _ _ h0
  have hx := congrArg V3.x hx
  have hax : a.pos.x = 1 / 2 ∨ a.pos.x = 19 / 2 := by
    rcases List.mem_cons.1 ha with rfl | ha
    · simp
    · obtain rfl := List.mem_singleton.1 ha
      simp
  simp only [Spec.latticeVec, Spec.diagBox, V3.add_x, V3.smul_x] at hx
  rcases hax with e | e <;> rw [e] at hx
  · have : ((10 * n1 : ℤ) : ℝ) = (1 : ℤ) := by push_cast; linarith
    have : 10 * n1 = 1 := by exact_mod_cast this
    omega
  · have : ((10 * n1 : ℤ) : ℝ) = (-8 : ℤ) := by push_cast; linarith
    have : 10 * n1 = -8 := by exact_mod_cast this
    omega

/-- **C68 is false**: after the call the distances of the system are computed with another box; two stored atoms at distance 20 (in the padded
box of length 50) are at distance 10 afterwards. -/
theorem C68_false (σ : StdSort) : ∃ s0 s s' : System, ∃ (box : Mat3) (atoms : List Atom),
    System.init.setBox (Spec.diagBox 10 10 10) = .ok s0 ∧ s0.assignAtoms edgeAtoms = .ok s ∧ s.extractCubicBox 1 1 1 = .ok (s', box, atoms) ∧
    s.getDistance { pos := ⟨1 / 2, 0, 0⟩ } { pos := ⟨41 / 2, 0, 0⟩ } = 20 ∧ s'.getDistance { pos := ⟨1 / 2, 0, 0⟩ } { pos := ⟨41 / 2, 0, 0⟩ } = 10 := by
  obtain ⟨s0, s, s', ly, lz, atoms, h1, h2, -, -, hb, ht, he, hb', ht'⟩ := edge_extract σ
  refine ⟨s0, s, s', _, atoms, h1, h2, he, ?_, ?_⟩
  · rw [System.getDistance, image_diag s 50 50 50 (by norm_num) (by norm_num) (by norm_num) ht hb]
    rw [V3.norm, show V3.normSq _ = (20 : ℝ) ^ 2 by norm_num [wrap, V3.normSq]]
    exact Real.sqrt_sq (by norm_num)
  · rw [System.getDistance, image_diag s' 30 30 30 (by norm_num) (by norm_num) (by norm_num) ht' hb']
    rw [V3.norm, show V3.normSq _ = (10 : ℝ) ^ 2 by norm_num [wrap, V3.normSq]]
    exact Real.sqrt_sq (by norm_num)

/-- **C69** `get_concentration` lists every type that occurs among the atoms of the system once, in increasing order, with the number of atoms of
that type; ghosts do not count, and the numbers add up to the number of atoms. -/
theorem C69_concentration (s : System) (reals : List Atom) (hi : StoreInv s reals) : ∃ conc, s.getConcentration = .ok conc ∧
    (conc.map Prod.fst).Pairwise (· < ·) ∧
    (∀ t n, (t, n) ∈ conc ↔ 0 < n ∧ n = (reals.filter fun a => decide (a.type = t)).length) ∧
    (conc.map Prod.snd).sum = s.natoms := by
  refine ⟨_, by unfold System.getConcentration; rw [getAtoms_inv hi]; rfl, ?_, ?_, ?_⟩
  · rw [List.map_map]
    have h1 : ((reals.map Atom.type).dedup.mergeSort (· ≤ ·)).Pairwise (· ≤ ·) := List.pairwise_mergeSort' (· ≤ ·) _
    have h2 : ((reals.map Atom.type).dedup.mergeSort (· ≤ ·)).Nodup := (List.mergeSort_perm _ _).nodup_iff.2 (List.nodup_dedup _)
    have h3 : ((reals.map Atom.type).dedup.mergeSort (· ≤ ·)).Pairwise (· < ·) := (h1.and h2).imp fun {a b} h => lt_of_le_of_ne h.1 h.2
    exact h3.map _ fun a b h => h
  · intro t n
    have hc : ∀ u, (reals.map Atom.type).count u = (reals.filter fun a => decide (a.type = u)).length := by
      intro u
      rw [List.count_eq_countP, List.countP_map, List.countP_eq_length_filter]
      congr 1
    simp only [List.mem_map, (List.mergeSort_perm _ _).mem_iff, List.mem_dedup, Prod.mk.injEq]
    constructor
    · rintro ⟨u, hu, rfl, rfl⟩
      exact ⟨List.count_pos_iff.2 (List.mem_map.2 hu), hc u⟩
    · rintro ⟨h0, rfl⟩
      rw [← hc] at h0
      exact ⟨t, List.mem_map.1 (List.count_pos_iff.1 h0), rfl, hc t⟩
  · rw [List.map_map]
    have h1 : (((reals.map Atom.type).dedup.mergeSort (· ≤ ·)).map (Prod.snd ∘ fun t => (t, (reals.map Atom.type).count t))).Perm
        ((reals.map Atom.type).dedup.map fun t => (reals.map Atom.type).count t) := (List.mergeSort_perm _ _).map _
    rw [h1.sum_eq, List.sum_map_count_dedup_eq_length, List.length_map]
    exact hi.realNop.symm

/-- Three atoms of two types. -/
example : ∃ s : System, ∃ reals : List Atom, StoreInv s reals ∧ (reals.map Atom.type) = [2, 1, 2] :=
  ⟨System.init.setAtoms [{ pos := 0, type := 2 }, { pos := 0, type := 1 }, { pos := 0, type := 2 }],
    [{ pos := 0, type := 2 }, { pos := 0, type := 1 }, { pos := 0, type := 2 }],
    ⟨by simp, ⟨[], rfl, by simp, by simp [System.setAtoms, countGhost]⟩, rfl, by simp [System.setAtoms, countReal]⟩, rfl⟩

end Pyscal
