import Verif.Lemmas.CalcQ

/-! Steinhardt values depend on the neighbours only through Legendre sums. -/

namespace Pyscal

theorem ip_smul_smul (l : ℕ) (c d : ℝ) (f g : ℕ → ℝ × ℝ) :
    ip l (fun k => (c * (f k).1, c * (f k).2)) (fun k => (d * (g k).1, d * (g k).2)) = c * d * ip l f g := by
  rw [ip_smul_left, ip_comm, ip_smul_left, ip_comm, mul_assoc]

/-- `mapM` in `Option` as a map under a test. -/
theorem mapM_option {α β : Type} (F : α → Option β) (d : β) (L : List α) :
    ((∀ x ∈ L, (F x).isSome) → L.mapM F = some (L.map fun x => (F x).getD d)) ∧
    ((∃ x ∈ L, F x = none) → L.mapM F = none) := by
  induction L with
  | nil => simp
  | cons x L ih =>
    rw [List.mapM_cons]
    constructor
    · intro h
      obtain ⟨y, hy⟩ := Option.isSome_iff_exists.1 (h x (by simp))
      rw [hy, ih.1 (fun z hz => h z (by simp [hz]))]
      simp [hy]
    · rintro ⟨z, hz, hn⟩
      rcases List.mem_cons.1 hz with rfl | hz
      · rw [hn]; rfl
      · rcases F x with _ | y
        · rfl
        · rw [ih.2 ⟨z, hz, hn⟩]; rfl

/-- Componentwise sum of a list of coefficient vectors. -/
def vecSum (V : List (ℕ → ℝ × ℝ)) : ℕ → ℝ × ℝ := fun k => ((V.map fun c => (c k).1).sum, (V.map fun c => (c k).2).sum)

theorem aqSum_eq (own : ℕ → ℝ × ℝ) (nb : List (ℕ → ℝ × ℝ)) (k : ℕ) :
    aqSum (own k) (nb.map fun c => c k) = vecSum (own :: nb) k := by
  have : ∀ (L : List (ℕ → ℝ × ℝ)) (acc : ℝ × ℝ), aqSum acc (L.map fun c => c k)
      = (acc.1 + (L.map fun c => (c k).1).sum, acc.2 + (L.map fun c => (c k).2).sum) := by
    intro L
    induction L with
    | nil => intro acc; simp [aqSum]
    | cons c L ih =>
      intro acc
      simp only [List.map_cons, aqSum, List.foldl_cons] at ih ⊢
      rw [ih]
      simp [add_assoc]
  rw [this]
  simp [vecSum]

theorem ip_vecSum_left (l : ℕ) (V : List (ℕ → ℝ × ℝ)) (g : ℕ → ℝ × ℝ) :
    ip l (vecSum V) g = (V.map fun f => ip l f g).sum := by
  induction V with
  | nil =>
    have : vecSum [] = fun _ => (0, 0) := rfl
    rw [this, ip_zero_left]; rfl
  | cons f V ih =>
    have : vecSum (f :: V) = fun k => ((f k).1 + (vecSum V k).1, (f k).2 + (vecSum V k).2) := rfl
    rw [this, ip_add_left, ih]; rfl

theorem ip_vecSum (l : ℕ) (V : List (ℕ → ℝ × ℝ)) :
    ip l (vecSum V) (vecSum V) = (V.map fun f => (V.map fun g => ip l g f).sum).sum := by
  rw [ip_vecSum_left]
  refine congrArg List.sum (List.map_congr_left fun f _ => ?_)
  rw [ip_comm, ip_vecSum_left]

theorem qValue_vecSum (l : ℕ) (V : List (ℕ → ℝ × ℝ)) (n : ℝ) :
    qValue l (fun k => ((vecSum V k).1 / n, (vecSum V k).2 / n)) = |n⁻¹| * qValue l (vecSum V) := by
  simp only [div_eq_inv_mul]
  exact qValue_smul l _ _

/-- Two systems whose neighbours have the same Legendre sums, atom `k` of the first corresponding to
atom `π k` of the second. -/
structure QEquiv (π : ℕ → ℕ) (s g : System) : Prop where
  vor : g.voronoiused = s.voronoiused
  len : g.atoms.length = s.atoms.length
  lt : ∀ k < s.atoms.length, π k < s.atoms.length
  range : g.NbrsInRange ↔ s.NbrsInRange
  idx : ∀ k < s.atoms.length, ((g.qNbrs (g.mem (π k))).map Nb.idx).Perm ((s.qNbrs (s.mem k)).map fun x => π x.idx)
  weight : ∀ k < s.atoms.length, ((g.qNbrs (g.mem (π k))).map Nb.weight).sum = ((s.qNbrs (s.mem k)).map Nb.weight).sum
  zero : ∀ k < s.atoms.length, (∃ x ∈ g.qNbrs (g.mem (π k)), x.vec = 0) ↔ ∃ x ∈ s.qNbrs (s.mem k), x.vec = 0
  cross : ∀ l, ∀ i < s.atoms.length, ∀ j < s.atoms.length,
    Spec.crossSum l (wv (g.qNbrs (g.mem (π i)))) (wv (g.qNbrs (g.mem (π j))))
      = Spec.crossSum l (wv (s.qNbrs (s.mem i))) (wv (s.qNbrs (s.mem j)))

namespace QEquiv

variable {π : ℕ → ℕ} {s g : System}

theorem isSome (h : QEquiv π s g) (l : ℕ) {k : ℕ} (hk : k < s.atoms.length) :
    (g.calcQlm l (g.mem (π k))).isSome ↔ (s.calcQlm l (s.mem k)).isSome := by
  by_cases hz : ∃ x ∈ s.qNbrs (s.mem k), x.vec = 0
  · rw [(calcQ_value s l _).1 hz, (calcQ_value g l _).1 ((h.zero k hk).2 hz)]
  · have hz' : ¬ ∃ x ∈ g.qNbrs (g.mem (π k)), x.vec = 0 := fun hx => hz ((h.zero k hk).1 hx)
    push Not at hz hz'
    have A := (calcQ_value s l _).2 hz
    have B := (calcQ_value g l _).2 hz'
    by_cases hv : s.voronoiused = true
    · rw [A.1 hv, B.1 (h.vor.trans hv)]; simp
    · have hv : s.voronoiused = false := by simpa using hv
      by_cases hw : ((s.qNbrs (s.mem k)).map Nb.weight).sum = 0
      · rw [A.2.1 hv hw, B.2.1 (h.vor.trans hv) ((h.weight k hk).trans hw)]
      · rw [A.2.2 hv hw, B.2.2 (h.vor.trans hv) (by rw [h.weight k hk]; exact hw)]; simp

theorem form (s : System) (l : ℕ) {k : ℕ} {f : ℕ → ℝ × ℝ}
    (hf : s.calcQlm l (s.mem k) = some f) : (∀ x ∈ s.qNbrs (s.mem k), x.vec ≠ 0) ∧
    f = fun t => ((if s.voronoiused then 1 else (((s.qNbrs (s.mem k)).map Nb.weight).sum)⁻¹) * (sumVec l (s.qNbrs (s.mem k)) t).1,
      (if s.voronoiused then 1 else (((s.qNbrs (s.mem k)).map Nb.weight).sum)⁻¹) * (sumVec l (s.qNbrs (s.mem k)) t).2) := by
  by_cases hz : ∃ x ∈ s.qNbrs (s.mem k), x.vec = 0
  · rw [(calcQ_value s l _).1 hz] at hf; cases hf
  · push Not at hz
    refine ⟨hz, ?_⟩
    have A := (calcQ_value s l _).2 hz
    by_cases hv : s.voronoiused = true
    · rw [A.1 hv] at hf
      rw [← Option.some.inj hf]; simp [hv]
    · have hv : s.voronoiused = false := by simpa using hv
      by_cases hw : ((s.qNbrs (s.mem k)).map Nb.weight).sum = 0
      · rw [A.2.1 hv hw] at hf; cases hf
      · rw [A.2.2 hv hw] at hf
        rw [← Option.some.inj hf]; simp [hv]

theorem ip_eq (h : QEquiv π s g) (l : ℕ) (h2 : 2 ≤ l) (h12 : l ≤ 12) {i j : ℕ} (hi : i < s.atoms.length) (hj : j < s.atoms.length)
    {f f' e e' : ℕ → ℝ × ℝ} (hf : s.calcQlm l (s.mem i) = some f) (hf' : s.calcQlm l (s.mem j) = some f')
    (he : g.calcQlm l (g.mem (π i)) = some e) (he' : g.calcQlm l (g.mem (π j)) = some e') : ip l e e' = ip l f f' := by
  obtain ⟨z1, rfl⟩ := form s l hf
  obtain ⟨z2, rfl⟩ := form s l hf'
  obtain ⟨z3, rfl⟩ := form g l he
  obtain ⟨z4, rfl⟩ := form g l he'
  rw [ip_smul_smul, ip_smul_smul, ip_sumVec_cross l h2 h12 _ _ z3 z4, ip_sumVec_cross l h2 h12 _ _ z1 z2, h.cross l i hi j hj,
    h.weight i hi, h.weight j hj, h.vor]

theorem q_eq (h : QEquiv π s g) (l : ℕ) (h2 : 2 ≤ l) (h12 : l ≤ 12) {k : ℕ} (hk : k < s.atoms.length) :
    (g.calcQlm l (g.mem (π k))).map (qValue l) = (s.calcQlm l (s.mem k)).map (qValue l) := by
  have hs := h.isSome l hk
  rcases h1 : s.calcQlm l (s.mem k) with _ | f <;> rcases h3 : g.calcQlm l (g.mem (π k)) with _ | e
  · rfl
  · rw [h1, h3] at hs; simp at hs
  · rw [h1, h3] at hs; simp at hs
  · simp only [Option.map_some, Option.some.injEq, qValue_eq]
    rw [h.ip_eq l h2 h12 hk hk h1 h1 h3 h3]

end QEquiv

theorem afterQ_qNbrs (s : System) (ls : List ℕ) (a b : Atom) (h1 : b.nbrs = a.nbrs) (h2 : b.condition = a.condition) :
    (s.afterQ ls).qNbrs b = s.qNbrs a := by
  unfold System.qNbrs
  rw [h1]
  refine List.filter_congr fun x _ => ?_
  have : ((s.afterQ ls).mem x.idx).condition = (s.mem x.idx).condition := by
    by_cases hx : x.idx < s.atoms.length
    · simp [System.mem, System.afterQ, List.getElem?_eq_getElem hx, qAtom]
    · simp [System.mem, System.afterQ, hx]
  rw [this, h2]

theorem afterQ_mem_qlm (s : System) (ls : List ℕ) (l : ℕ) (hl : l ∈ ls) (k : ℕ) (hk : k < s.atoms.length) :
    ((s.afterQ ls).mem k).qlm l = s.calcQlm l (s.mem k) := by
  simp [System.mem, System.afterQ, List.getElem?_eq_getElem hk, qAtom, hl]

/-- The averaged vector after a plain `calculate_q`, in terms of the plain vectors. -/
theorem calcAqlm_afterQ (s : System) (ls : List ℕ) (l : ℕ) (hl : l ∈ ls) (hs : s.NbrsInRange) (k : ℕ) (hk : k < s.atoms.length)
    (F : ℕ → Option (ℕ → ℝ × ℝ)) (hF : ∀ i < s.atoms.length, F i = s.calcQlm l (s.mem i)) :
    let I := k :: (s.qNbrs (s.mem k)).map Nb.idx
    (∀ i ∈ I, i < s.atoms.length) ∧
    ((∃ i ∈ I, F i = none) → (s.afterQ ls).calcAqlm l (qAtom s ls (s.mem k)) = none) ∧
    ((∀ i ∈ I, (F i).isSome) → (s.afterQ ls).calcAqlm l (qAtom s ls (s.mem k)) = some fun t =>
      ((vecSum (I.map fun i => (F i).getD default) t).1 / (I.length : ℝ), (vecSum (I.map fun i => (F i).getD default) t).2 / (I.length : ℝ))) := by
  intro I
  have hmem : s.mem k ∈ s.atoms := by rw [mem_eq_getElem _ _ hk]; exact List.getElem_mem hk
  have hx : ∀ x ∈ s.qNbrs (s.mem k), x.idx < s.atoms.length := fun x hx => hs _ hmem x (List.mem_of_mem_filter hx)
  have hI : ∀ i ∈ I, i < s.atoms.length := by
    intro i hi
    rcases List.mem_cons.1 hi with rfl | hi
    · exact hk
    · obtain ⟨x, hx', rfl⟩ := List.mem_map.1 hi
      exact hx x hx'
  refine ⟨hI, ?_⟩
  have hq : (s.afterQ ls).qNbrs (qAtom s ls (s.mem k)) = s.qNbrs (s.mem k) := afterQ_qNbrs s ls _ _ rfl rfl
  have hown : (qAtom s ls (s.mem k)).qlm l = F k := by rw [hF k hk]; simp [qAtom, hl]
  have hnb : ((s.qNbrs (s.mem k)).mapM fun x => ((s.afterQ ls).mem x.idx).qlm l) = (s.qNbrs (s.mem k)).mapM fun x => F x.idx := by
    have : ∀ L : List Nb, (∀ x ∈ L, x.idx < s.atoms.length) →
        (L.mapM fun x => ((s.afterQ ls).mem x.idx).qlm l) = L.mapM fun x => F x.idx := by
      intro L
      induction L with
      | nil => intro _; rfl
      | cons x L ih =>
        intro hL
        rw [List.mapM_cons, List.mapM_cons, ih (fun y hy => hL y (by simp [hy])), afterQ_mem_qlm s ls l hl _ (hL x (by simp)),
          hF _ (hL x (by simp))]
    exact this _ hx
  have hM := mapM_option (fun x : Nb => F x.idx) default (s.qNbrs (s.mem k))
  unfold System.calcAqlm
  rw [hq, hown, hnb]
  constructor
  · rintro ⟨i, hi, hn⟩
    rcases List.mem_cons.1 hi with rfl | hi
    · rw [hn]; rfl
    · obtain ⟨x, hx', rfl⟩ := List.mem_map.1 hi
      rw [hM.2 ⟨x, hx', hn⟩]
      rcases F k with _ | _ <;> rfl
  · intro hsome
    obtain ⟨own, ho⟩ := Option.isSome_iff_exists.1 (hsome k (by simp [I]))
    rw [hM.1 (fun x hx' => hsome _ (by simp only [I]; exact List.mem_cons_of_mem _ (List.mem_map_of_mem hx'))), ho]
    simp only [Option.bind_eq_bind, Option.bind_some, aqSum_eq]
    have e : I.map (fun i => (F i).getD default) = own :: (s.qNbrs (s.mem k)).map fun x => (F x.idx).getD default := by
      simp [I, ho]
    rw [e]
    simp [I]

namespace QEquiv

variable {π : ℕ → ℕ} {s g : System}

theorem aq_eq (h : QEquiv π s g) (ls : List ℕ) (l : ℕ) (hl : l ∈ ls) (h2 : 2 ≤ l) (h12 : l ≤ 12) (hs : s.NbrsInRange) {k : ℕ}
    (hk : k < s.atoms.length) :
    ((g.afterQ ls).calcAqlm l (qAtom g ls (g.mem (π k)))).map (qValue l)
      = ((s.afterQ ls).calcAqlm l (qAtom s ls (s.mem k))).map (qValue l) := by
  obtain ⟨hI, hn, hsm⟩ := calcAqlm_afterQ s ls l hl hs k hk (fun i => s.calcQlm l (s.mem i)) (fun _ _ => rfl)
  obtain ⟨hI', hn', hsm'⟩ := calcAqlm_afterQ g ls l hl (h.range.2 hs) (π k) (h.len ▸ h.lt k hk) (fun i => g.calcQlm l (g.mem i))
    (fun _ _ => rfl)
  set I := k :: (s.qNbrs (s.mem k)).map Nb.idx with hIdef
  set I' := π k :: (g.qNbrs (g.mem (π k))).map Nb.idx with hIdef'
  have hp : I'.Perm (I.map π) := by
    rw [hIdef, hIdef', List.map_cons, List.map_map]
    exact (h.idx k hk).cons (π k)
  by_cases hall : ∀ i ∈ I, (s.calcQlm l (s.mem i)).isSome
  · have hall' : ∀ i ∈ I', (g.calcQlm l (g.mem i)).isSome := fun i hi => by
      obtain ⟨j, hj, rfl⟩ := List.mem_map.1 (hp.mem_iff.1 hi)
      exact (h.isSome l (hI j hj)).2 (hall j hj)
    have hlen : I'.length = I.length := by rw [hp.length_eq, List.length_map]
    rw [hsm hall, hsm' hall', Option.map_some, Option.map_some, qValue_vecSum, qValue_vecSum, hlen, qValue_eq, qValue_eq,
      ip_vecSum, ip_vecSum]
    congr 4
    simp only [List.map_map]
    have e1 : (I'.map ((fun f => (I'.map ((fun e => ip l e f) ∘ fun i => (g.calcQlm l (g.mem i)).getD default)).sum) ∘
        fun i => (g.calcQlm l (g.mem i)).getD default)).sum
        = (I.map ((fun f => (I.map ((fun e => ip l e f) ∘ fun i => (g.calcQlm l (g.mem (π i))).getD default)).sum) ∘
        fun i => (g.calcQlm l (g.mem (π i))).getD default)).sum := by
      have : ∀ f, (I'.map ((fun e => ip l e f) ∘ fun i => (g.calcQlm l (g.mem i)).getD default)).sum
          = (I.map ((fun e => ip l e f) ∘ fun i => (g.calcQlm l (g.mem (π i))).getD default)).sum := fun f => by
        rw [(hp.map _).sum_eq, List.map_map]; rfl
      simp only [this]
      rw [(hp.map _).sum_eq, List.map_map]; rfl
    rw [e1]
    refine congrArg List.sum (List.map_congr_left fun i hi => ?_)
    refine congrArg List.sum (List.map_congr_left fun j hj => ?_)
    obtain ⟨f, hf⟩ := Option.isSome_iff_exists.1 (hall i hi)
    obtain ⟨f', hf'⟩ := Option.isSome_iff_exists.1 (hall j hj)
    obtain ⟨e, he⟩ := Option.isSome_iff_exists.1 (hall' (π i) (hp.mem_iff.2 (List.mem_map_of_mem hi)))
    obtain ⟨e', he'⟩ := Option.isSome_iff_exists.1 (hall' (π j) (hp.mem_iff.2 (List.mem_map_of_mem hj)))
    simp only [Function.comp, hf, hf', he, he', Option.getD_some]
    exact h.ip_eq l h2 h12 (hI j hj) (hI i hi) hf' hf he' he
  · push Not at hall
    obtain ⟨i, hi, hno⟩ := hall
    have hno1 : s.calcQlm l (s.mem i) = none := by simpa using hno
    have hno2 : g.calcQlm l (g.mem (π i)) = none := by
      have := h.isSome l (hI i hi)
      rw [hno1] at this
      simpa using this
    rw [hn ⟨i, hi, hno1⟩, hn' ⟨π i, hp.mem_iff.2 (List.mem_map_of_mem hi), hno2⟩]

end QEquiv

end Pyscal
