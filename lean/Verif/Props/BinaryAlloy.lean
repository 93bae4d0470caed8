import Verif.Props.PerfectSro

/-! Property C107: in a binary alloy `calculate_pmsro` and `calculate_sro` agree. -/

namespace Pyscal

/-- The stored atoms are of the types 1 and 2, and have the composition of the real atoms. -/
structure Spec.Binary (s : System) (reals : List Atom) : Prop where
  types : ∀ a ∈ s.atoms, a.type = 1 ∨ a.type = 2
  one : ∃ a ∈ reals, a.type = 1
  two : ∃ a ∈ reals, a.type = 2
  composition : ∀ t : ℤ, (Spec.numType s t : ℝ) / s.atoms.length = Spec.fraction reals t

theorem Spec.Binary.oneTo {s : System} {reals : List Atom} (h : Spec.Binary s reals) (hi : StoreInv s reals) : Spec.TypesOneTo reals 2 := by
  intro t
  constructor
  · rintro ⟨a, ha, rfl⟩
    obtain ⟨gs, hs, -⟩ := hi.ex
    rcases h.types a (by rw [hs]; exact List.mem_append_left _ ha) with e | e <;> rw [e] <;> norm_num
  · rintro ⟨h1, h2⟩
    have : t = 1 ∨ t = 2 := by
      push_cast at h2
      omega
    rcases this with rfl | rfl
    · exact h.one
    · exact h.two

theorem binary_length {L : List Atom} (h : ∀ a ∈ L, a.type = 1 ∨ a.type = 2) {ref : ℤ} (hr : ref = 1 ∨ ref = 2) :
    L.length = countType L ref + countType L (Spec.otherType ref) := by
  unfold countType
  rw [List.length_eq_countP_add_countP (fun a => decide (a.type = ref)) (l := L)]
  congr 1
  refine List.countP_congr fun a ha => ?_
  rcases hr with rfl | rfl <;> rcases h a ha with e | e <;> simp [e, Spec.otherType]

/-- `1 - p/(1 - m)` in the three forms. -/
theorem binary_value {p q : ℕ} {m : ℝ} (h0 : 0 < m) (h1 : m < 1) :
    pmsroValue false q (p + q) m = sroValue q (p + q) m ∧ pmsroValue true p (p + q) (1 - m) = sroValue q (p + q) m := by
  refine ⟨rfl, ?_⟩
  unfold pmsroValue sroValue
  rw [if_pos rfl]
  by_cases hc : ((p + q : ℕ) : ℝ) = 0
  · rw [hc, zero_mul]
    simp [fdiv]
  · have hm : ((p + q : ℕ) : ℝ) * m ≠ 0 := mul_ne_zero hc h0.ne'
    rw [fdiv, if_neg hc, fdiv, if_neg hm]
    change fdiv _ _ = _
    rw [fdiv, if_neg (by simpa using h0.ne')]
    simp only [Option.map_some, Option.some.injEq]
    push_cast at hc hm ⊢
    have hm0 : m ≠ 0 := h0.ne'
    rw [sub_sub_cancel]
    field_simp
    ring

theorem shellData_mem {s : System} {L : List Atom} {a : Atom} {d : List (Atom × ℝ)} (h : shellData s L a = .ok d) : ∀ x ∈ d, x.1 ∈ L := by
  intro x hx
  obtain ⟨hl, hk⟩ := mapM_except _ _ _ h
  obtain ⟨k, hk'⟩ := List.mem_iff_getElem?.1 hx
  have hlt : k < a.nbrs.length := by
    rw [← hl]
    exact (List.getElem?_eq_some_iff.1 hk').1
  obtain ⟨b, hb, hbd⟩ := hk k _ (List.getElem?_eq_getElem hlt)
  rw [hk'] at hbd
  cases hbd
  unfold pyGet at hb
  cases hg : L[(a.nbrs[k]).idx]? with
  | none => rw [hg] at hb; cases hb
  | some c =>
    rw [hg] at hb
    cases hb
    exact List.mem_of_getElem? hg

theorem binary_atom {s : System} {reals : List Atom} (h : Spec.Binary s reals) {ref : ℤ} (hr : ref = 1 ∨ ref = 2) {m : ℝ} (h0 : 0 < m) (h1 : m < 1) (shells : ℤ) (a : Atom) :
    pmsro1 s s.atoms (Spec.otherType ref) false m shells a = sro1 s s.atoms ref m shells a ∧
    pmsro1 s s.atoms ref true (1 - m) shells a = sro1 s s.atoms ref m shells a := by
  unfold pmsro1 sro1
  cases hd : shellData s s.atoms a with
  | error e => exact ⟨rfl, rfl⟩
  | ok d =>
    have hmem := shellData_mem hd
    have key : ∀ L : List Atom, (∀ b ∈ L, b ∈ s.atoms) →
        pmsroValue false (countType L (Spec.otherType ref)) L.length m = sroValue (L.length - countType L ref) L.length m ∧
        pmsroValue true (countType L ref) L.length (1 - m) = sroValue (L.length - countType L ref) L.length m := by
      intro L hL
      have hlen := binary_length (fun b hb => h.types b (hL b hb)) hr
      rw [hlen, Nat.add_sub_cancel_left]
      exact binary_value h0 h1
    have k1 := key (shellSplit d).1 (by
      intro b hb
      obtain ⟨x, hx, rfl⟩ := List.mem_map.1 hb
      exact hmem x (List.mem_of_mem_filter hx))
    have k2 := key (shellSplit d).2 (by
      intro b hb
      obtain ⟨x, hx, rfl⟩ := List.mem_map.1 hb
      exact hmem x (List.mem_of_mem_filter hx))
    have k3 := key (d.map Prod.fst) (by
      intro b hb
      obtain ⟨x, hx, rfl⟩ := List.mem_map.1 hb
      exact hmem x hx)
    dsimp only [bind, Except.bind]
    constructor
    · rw [k1.1, k2.1, k3.1]
    · rw [k1.2, k2.2, k3.2]

/-- **C107.**  In a state whose atoms are of the types 1 and 2, both present, and whose stored atoms have the composition of the
real ones: for either reference type, any number of shells, averaged or not, `calculate_pmsro` with the other type as
`compare_type` (whatever `delta` is), and `calculate_pmsro` comparing the reference type with itself with `delta=True`, both
do exactly what `calculate_sro` does: the same state afterwards, the same result, the same exceptions. -/
theorem C107_binary (s : System) (reals : List Atom) (hi : StoreInv s reals) (hb : Spec.Binary s reals) (ref : ℤ) (hr : ref = 1 ∨ ref = 2)
    (average : Bool) (shells : ℤ) :
    (∀ delta, System.calculatePmsro ref (3 - ref) average shells delta s = System.calculateSro ref average shells s) ∧
    System.calculatePmsro ref ref average shells true s = System.calculateSro ref average shells s := by
  have hother : 3 - ref = Spec.otherType ref := by rcases hr with rfl | rfl <;> rfl
  have hne : ref ≠ 3 - ref := by omega
  by_cases hn : s.neighborsFound = true
  · have ho := hb.oneTo hi
    have hpos : ∀ t : ℤ, t = 1 ∨ t = 2 → 0 < Spec.numType s t := by
      intro t ht
      have : ∃ a ∈ reals, a.type = t := by rcases ht with rfl | rfl; exacts [hb.one, hb.two]
      obtain ⟨a, ha, hat⟩ := this
      obtain ⟨gs, hs, -⟩ := hi.ex
      exact List.countP_pos_iff.2 ⟨a, by rw [hs]; exact List.mem_append_left _ ha, by simpa using hat⟩
    have hlen : (s.atoms.length : ℝ) = Spec.numType s 1 + Spec.numType s 2 := by
      have := binary_length hb.types (ref := 1) (.inl rfl)
      change _ = Spec.numType s 1 + Spec.numType s 2 at this
      exact_mod_cast this
    have p1 : (0 : ℝ) < Spec.numType s 1 := by exact_mod_cast hpos 1 (.inl rfl)
    have p2 : (0 : ℝ) < Spec.numType s 2 := by exact_mod_cast hpos 2 (.inr rfl)
    set m : ℝ := Spec.numType s (Spec.otherType ref) / (Spec.numType s 1 + Spec.numType s 2) with hm
    have hsum : (Spec.numType s ref : ℝ) + Spec.numType s (Spec.otherType ref) = Spec.numType s 1 + Spec.numType s 2 := by
      rcases hr with rfl | rfl
      · rfl
      · exact add_comm _ _
    have hpr : (0 : ℝ) < Spec.numType s ref := by rcases hr with rfl | rfl <;> assumption
    have hpo : (0 : ℝ) < Spec.numType s (Spec.otherType ref) := by rcases hr with rfl | rfl <;> assumption
    have hm0 : 0 < m := by rw [hm]; positivity
    have hm1 : m < 1 := by rw [hm, div_lt_one (by positivity)]; linarith
    have f1 : Spec.fraction reals (3 - ref) = m := by rw [← hb.composition, hlen, hother]
    have f2 : Spec.fraction reals ref = 1 - m := by
      rw [← hb.composition, hlen, hm]
      rw [← hsum] at *
      field_simp
      ring
    have r1 : 1 ≤ ref ∧ ref ≤ (2 : ℕ) := by rcases hr with rfl | rfl <;> norm_num
    have r2 : 1 ≤ 3 - ref ∧ 3 - ref ≤ (2 : ℕ) := by rcases hr with rfl | rfl <;> norm_num
    rw [calculateSro_eq s reals hi ref average shells hn hr (hpos 1 (.inl rfl)) (hpos 2 (.inr rfl)), ← hm]
    constructor
    · intro delta
      rw [calculatePmsro_eq s reals hi ref (3 - ref) average shells delta hn 2 ho r1 r2, f1, decide_eq_false hne, Bool.false_and, hother]
      congr 2
      funext a
      rw [(binary_atom hb hr hm0 hm1 shells a).1]
    · rw [calculatePmsro_eq s reals hi ref ref average shells true hn 2 ho r1 r1, f2, decide_eq_true rfl, Bool.true_and]
      congr 2
      funext a
      rw [(binary_atom hb hr hm0 hm1 shells a).2]
  · have e : ∀ cmp delta, System.calculatePmsro ref cmp average shells delta s = (s, .error .runtimeError) := by
      intro cmp delta
      unfold System.calculatePmsro
      rw [if_pos (by simpa using hn)]
    have e2 : System.calculateSro ref average shells s = (s, .error .runtimeError) := by
      unfold System.calculateSro
      rw [if_pos (by simpa using hn)]
    exact ⟨fun _ => by rw [e, e2], by rw [e, e2]⟩

/-- Padding keeps the composition. -/
theorem build_types {b : Mat3} {l : List Atom} {s : System} (h : buildSystem b l = .ok s) (hreal : ∀ a ∈ l, a.ghost = false) :
    ∃ M : ℕ, 0 < M ∧ (∀ t, (s.atoms.map Atom.type).count t = M * (l.map Atom.type).count t) ∧ s.atoms.length = M * l.length ∧
      ∀ a ∈ s.atoms, ∃ c ∈ l, a.type = c.type := by
  unfold buildSystem at h
  obtain ⟨s0, hs0, ha⟩ := bind_ok h
  obtain ⟨hA, -⟩ := assigned_start hs0 ha hreal
  by_cases hl : l.length < 200
  · have hat := hA.atoms
    rw [if_pos hl] at hat
    have ht : s.atoms.map Atom.type = l.map Atom.type ++ (repCells (padReps l.length) (padReps l.length) (padReps l.length)).flatMap fun _ => l.map Atom.type := by
      rw [hat, List.map_append, repNew_types]
    refine ⟨1 + (repCells (padReps l.length) (padReps l.length) (padReps l.length)).length, by omega, fun t => ?_, ?_, fun a ha => ?_⟩
    · rw [ht, List.count_append, count_repeat]
      ring
    · have := congrArg List.length ht
      rw [List.length_map, List.length_append, List.length_map, List.length_flatMap] at this
      rw [this]
      simp
      ring
    · have : a.type ∈ s.atoms.map Atom.type := List.mem_map_of_mem ha
      rw [ht] at this
      rcases List.mem_append.1 this with h | h
      · obtain ⟨c, hc, e⟩ := List.mem_map.1 h
        exact ⟨c, hc, e.symm⟩
      · obtain ⟨-, -, h⟩ := List.mem_flatMap.1 h
        obtain ⟨c, hc, e⟩ := List.mem_map.1 h
        exact ⟨c, hc, e.symm⟩
  · have hat := hA.atoms
    rw [if_neg hl, List.append_nil] at hat
    rw [hat]
    exact ⟨1, one_pos, by simp, by simp, fun a ha => ⟨a, ha, rfl⟩⟩

theorem count_types (l : List Atom) (t : ℤ) : (l.countP fun a => decide (a.type = t)) = (l.map Atom.type).count t := by
  rw [List.count, List.countP_map]
  congr 1

/-- **C107 for every system and every search.**  Any list of atoms of the types 1 and 2, both present, given to a new system with any
box, followed by any successful neighbour search: the three calls agree, for either reference type. -/
theorem C107_system (σ : StdSort) (b : Mat3) (l : List Atom) (f : ℕ) (method : Method) (s s1 : System) (hreal : ∀ a ∈ l, a.ghost = false)
    (ht : ∀ a ∈ l, a.type = 1 ∨ a.type = 2) (h1 : ∃ a ∈ l, a.type = 1) (h2 : ∃ a ∈ l, a.type = 2)
    (hs : buildSystem b l = .ok s) (hf : s.findNeighbors σ f method = .ok s1) (ref : ℤ) (hr : ref = 1 ∨ ref = 2) (average : Bool) (shells : ℤ) :
    (∀ delta, System.calculatePmsro ref (3 - ref) average shells delta s1 = System.calculateSro ref average shells s1) ∧
    System.calculatePmsro ref ref average shells true s1 = System.calculateSro ref average shells s1 := by
  obtain ⟨M, hM, hcount, hlen, hmem⟩ := build_types hs hreal
  have hK := Kept.findNeighbors hf
  have hs' := hs
  unfold buildSystem at hs'
  obtain ⟨s0, hs0, ha⟩ := bind_ok hs'
  obtain ⟨reals, hinv, hid⟩ := ((assigned_start hs0 ha hreal).2.kept hK).inv
  have proj : ∀ {L L' : List Atom}, L.map Spec.identity = L'.map Spec.identity → L.map Atom.type = L'.map Atom.type := by
    intro L L' h
    have := congrArg (List.map fun t : ℤ × ℤ × V3 × ℕ × Bool => t.2.1) h
    rw [List.map_map, List.map_map] at this
    exact this
  have t1 := proj hK.atoms
  have t2 := proj hid
  have back : ∀ {L L' : List Atom} {t : ℤ}, L.map Atom.type = L'.map Atom.type → (∃ a ∈ L', a.type = t) → ∃ a ∈ L, a.type = t := by
    rintro L L' t h ⟨a, ha, rfl⟩
    have : a.type ∈ L.map Atom.type := by rw [h]; exact List.mem_map_of_mem ha
    obtain ⟨c, hc, e⟩ := List.mem_map.1 this
    exact ⟨c, hc, e⟩
  refine C107_binary s1 reals hinv ⟨?_, back t2 h1, back t2 h2, fun t => ?_⟩ ref hr average shells
  · intro a ha
    obtain ⟨c, hc, e⟩ := back t1.symm ⟨a, ha, rfl⟩
    obtain ⟨c', hc', e'⟩ := hmem c hc
    rw [← e, e']
    exact ht c' hc'
  · unfold Spec.fraction
    rw [count_types, t2, numType_eq, t1, hcount]
    have l1 : s1.atoms.length = M * l.length := by
      have := congrArg List.length t1
      rw [List.length_map, List.length_map] at this
      rw [this, hlen]
    have l2 : reals.length = l.length := by
      have := congrArg List.length t2
      rwa [List.length_map, List.length_map] at this
    rw [l1, l2]
    have hl : (l.length : ℝ) ≠ 0 := by
      obtain ⟨a, ha, -⟩ := h1
      exact_mod_cast (List.length_pos_of_mem ha).ne'
    have hM' : (M : ℝ) ≠ 0 := by exact_mod_cast hM.ne'
    push_cast
    field_simp

/-- A crystal of `make_crystal` has the types of its basis. -/
theorem crystal_binary {name : String} (hn : name ∈ ["b2", "l12"]) {a ca : ℝ} (ha : 0 < a) (hca : 0 < ca) {nx ny nz : ℕ} (hx : 1 ≤ nx) (hy : 1 ≤ ny) (hz : 1 ≤ nz)
    {atoms : List Atom} {box : Mat3} (hm : makeCrystal name a nx ny nz ca = .ok (atoms, box)) :
    (∀ x ∈ atoms, x.ghost = false) ∧ (∀ x ∈ atoms, x.type = 1 ∨ x.type = 2) ∧ (∃ x ∈ atoms, x.type = 1) ∧ ∃ x ∈ atoms, x.type = 2 := by
  have hstr : ∀ name ∈ ["b2", "l12"], name ∈ Spec.structures ∧ ((Spec.basis name).map Prod.snd).count 1 ≠ 0 ∧ ((Spec.basis name).map Prod.snd).count 2 ≠ 0 ∧
      ∀ t ∈ (Spec.basis name).map Prod.snd, t = 1 ∨ t = 2 := by decide +kernel
  obtain ⟨h2, c1, c2, hb⟩ := hstr name hn
  have hc := crystal_types h2 hm
  have hpos : 0 < nx * ny * nz := by positivity
  have hex : ∀ t : ℤ, ((Spec.basis name).map Prod.snd).count t ≠ 0 → ∃ x ∈ atoms, x.type = t := by
    intro t ht
    have : 0 < (atoms.map Atom.type).count t := by
      rw [hc]
      exact Nat.mul_pos hpos (Nat.pos_of_ne_zero ht)
    obtain ⟨x, hx, e⟩ := List.mem_map.1 (List.count_pos_iff.1 this)
    exact ⟨x, hx, e⟩
  refine ⟨?_, ?_, hex 1 c1, hex 2 c2⟩
  · obtain ⟨atoms', lx, ly, lz, hm', -, -, -, -, hat, -⟩ := C40_make_crystal name h2 ha hca hx hy hz
    rw [hm] at hm'
    cases hm'
    intro x hx
    obtain ⟨k, hk⟩ := List.mem_iff_getElem?.1 hx
    exact (hat k x hk).2.2.1
  · intro x hx
    have : 0 < (atoms.map Atom.type).count x.type := List.count_pos_iff.2 (List.mem_map_of_mem hx)
    rw [hc] at this
    exact hb _ (List.count_pos_iff.1 (Nat.pos_of_mul_pos_left this))

/-- **C105 for `calculate_pmsro`**: build a B2 or L12 crystal with `make_crystal`, search with a cutoff between the second and the third shell and call
`calculate_pmsro` (two shells, the default): comparing either type with the other gives the average `[-1, 1]` for B2 and `[-1/3, 1]` for L12, and so does comparing it with itself
when `delta=True`. -/
theorem C105_pmsro (σ : StdSort) (name : String) (hn : name ∈ ["b2", "l12"]) {a ca r : ℝ} (ha : 0 < a) (hca : 0 < ca) {nx ny nz : ℕ} (hx : 1 ≤ nx) (hy : 1 ≤ ny) (hz : 1 ≤ nz)
    (hr : Spec.SecondShell name a r) (hfit : Spec.RangeFits ((Spec.basis name).length * nx * ny * nz) (nx * a) (ny * a) (nz * a) r) (ref cmp : ℤ) (href : ref = 1 ∨ ref = 2)
    (hcmp : cmp = 1 ∨ cmp = 2) (delta : Bool) (hd : ref = cmp → delta = true) :
    ∃ atoms box s s1 s2, makeCrystal name a nx ny nz ca = .ok (atoms, box) ∧ buildSystem box atoms = .ok s ∧ s.findNeighbors σ 0 (.cutoff r) = .ok s1 ∧
      System.calculatePmsro ref cmp true 2 delta s1 = (s2, .ok (some [some (Spec.orderedSro name), some 1])) ∧
      s2.atoms.length = s1.atoms.length ∧ ∀ x ∈ s2.atoms, x.type = ref → x.sro = [some (Spec.orderedSro name), some 1] := by
  obtain ⟨atoms, box, s, s1, s2, hm, hb, hs1, hs2, hl, hall⟩ := C105_sro σ name hn ha hca hx hy hz hr hfit ref href
  obtain ⟨q1, q2, q3, q4⟩ := crystal_binary hn ha hca hx hy hz hm
  obtain ⟨e1, e2⟩ := C107_system σ box atoms 0 (.cutoff r) s s1 q1 q2 q3 q4 hb hs1 ref href true 2
  refine ⟨atoms, box, s, s1, s2, hm, hb, hs1, ?_, hl, hall⟩
  by_cases he : ref = cmp
  · subst he
    rw [hd rfl, e2, hs2]
  · have : cmp = 3 - ref := by omega
    rw [this, e1, hs2]

/-- The hypotheses: L12 in 3 x 3 x 3 cells with a cutoff of 4.5 and lattice constant 4, for every pair of types. -/
example (σ : StdSort) (ref cmp : ℤ) (h : ref = 1 ∨ ref = 2) (h' : cmp = 1 ∨ cmp = 2) := C105_pmsro σ "l12" (by decide) (a := 4) (ca := 1) (r := 4.5) (by norm_num) (by norm_num) (nx := 3) (ny := 3) (nz := 3)
  (by norm_num) (by norm_num) (by norm_num)
  (by
    have t : (4.5 : ℝ) < Real.sqrt 24 := by rw [Real.lt_sqrt (by norm_num)]; norm_num
    refine ⟨by norm_num, ?_⟩
    rw [if_neg (by decide)]
    push_cast
    linarith) (by simp only [Spec.RangeFits, Spec.basis, List.length_cons, List.length_nil]; refine ⟨?_, ?_, ?_⟩ <;> norm_num) ref cmp h h' true (fun _ => rfl)

/-- The hypotheses of `C107_binary` can be met. -/
example : Spec.Binary alloy12 alloy12.atoms where
  types := by
    intro a ha
    simp only [alloy12, alloy, List.map_cons, List.map_nil, List.mem_cons, List.not_mem_nil, or_false] at ha
    rcases ha with rfl | rfl | rfl <;> norm_num
  one := ⟨_, List.mem_cons_self, rfl⟩
  two := ⟨_, List.mem_cons_of_mem _ (List.mem_cons_of_mem _ List.mem_cons_self), rfl⟩
  composition := fun _ => rfl

/-- The hypotheses of `C107_system` are met by every B2 crystal of the example above: 7 x 7 x 7 cells and the cutoff 5. -/
example (σ : StdSort) : ∃ b l s s1, (∀ a ∈ l, a.ghost = false) ∧ (∀ a ∈ l, a.type = 1 ∨ a.type = 2) ∧ (∃ a ∈ l, a.type = 1) ∧ (∃ a ∈ l, a.type = 2) ∧
    buildSystem b l = .ok s ∧ s.findNeighbors σ 0 (.cutoff 5) = .ok s1 := by
  obtain ⟨atoms, box, s, s1, s2, hm, hb, hs1, -⟩ := C105_sro σ "b2" (by decide) (a := 4) (ca := 1) (r := 5) (by norm_num) (by norm_num) (nx := 7) (ny := 7) (nz := 7) (by norm_num) (by norm_num) (by norm_num)
    (by
      have t : (5 : ℝ) < Real.sqrt 32 := by rw [Real.lt_sqrt (by norm_num)]; norm_num
      refine ⟨by norm_num, ?_⟩
      rw [if_pos rfl]
      push_cast
      linarith) (by simp only [Spec.RangeFits, Spec.basis, List.length_cons, List.length_nil]; refine ⟨?_, ?_, ?_⟩ <;> norm_num) 1 (.inl rfl)
  obtain ⟨q1, q2, q3, q4⟩ := crystal_binary (name := "b2") (by decide) (a := 4) (ca := 1) (by norm_num) (by norm_num) (by norm_num) (by norm_num) (by norm_num) hm
  exact ⟨box, atoms, s, s1, q1, q2, q3, q4, hb, hs1⟩

end Pyscal
