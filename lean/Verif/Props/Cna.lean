import Verif.Lemmas.CnaSpec
import Verif.Lemmas.IntSystem
import Verif.Props.History

/-! C27, C28, C29 and C63: common neighbour analysis. -/

namespace Pyscal

/-- The method number passed to the core by `calculate_cna`. -/
def cnaMethod : Option ℝ → ℕ
  | none => 2
  | some _ => 1

/-- The state in which the core runs. -/
noncomputable def cnaStart (s : System) : Option ℝ → System
  | none => s
  | some a => { s with latticeConstant := a }

theorem calculateCna_eq (σ : StdSort) (s : System) (lc : Option ℝ) :
    s.calculateCna σ lc = (cnaStart s lc).ccalculateCna σ (cnaMethod lc) := by
  cases lc <;> rfl

theorem cnaStart_frame (s : System) (lc : Option ℝ) :
    (cnaStart s lc).atoms = s.atoms ∧ (cnaStart s lc).realNop = s.realNop ∧ (cnaStart s lc).usecells = s.usecells ∧
    Like s (cnaStart s lc) ∧ ∀ a, lc = some a → (cnaStart s lc).latticeConstant = a := by
  cases lc
  · exact ⟨rfl, rfl, rfl, ⟨rfl, fun _ => rfl, fun _ => rfl, rfl, rfl, rfl, rfl⟩, fun a h => (by cases h)⟩
  · exact ⟨rfl, rfl, rfl, ⟨rfl, fun _ => rfl, fun _ => rfl, rfl, rfl, rfl, rfl⟩, fun a h => Option.some.inj h⟩

theorem map_nb_dist {s : System} {k : ℕ} {S t : List DAtom} (hS : SortedCands s k S) (h : ∀ x ∈ t, x ∈ S) :
    (t.map fun x => s.mkNb k x.idx).map Nb.dist = t.map DAtom.dist := by
  rw [List.map_map]
  exact List.map_congr_left fun x hx => hS.mkNb_dist (h x hx)

/-- Everything `calculate_cna` guarantees for one atom when it starts without candidates and every
atom has 14 others in the search radius. -/
theorem cna_fresh (σ : StdSort) (s : System) (lc : Option ℝ) (R : ℝ) (hR : Spec.SearchRadius s 3 R)
    (hreal : s.realNop ≤ s.atoms.length) (hfresh : ∀ a ∈ s.atoms, a.temp = [])
    (hok : Spec.SearchExact s s.usecells 3) (henough : Spec.EnoughWithin s R 14) :
    ∃ (s' : System) (r : List ℕ), s.calculateCna σ lc = .ok (s', r) ∧ ∀ (k : ℕ) (a : Atom), s.atoms[k]? = some a → ∃ a' : Atom, s'.atoms[k]? = some a' ∧
      ∃ c1 c2 sig1 sig2, Spec.NearestList s k a 14 a'.nbrs ∧ a'.cutoff = some c2 ∧
        Spec.CnaCutoffs lc a'.nbrs c1 c2 ∧ Spec.Signatures s c1 (a'.nbrs.take 12) sig1 ∧
        Spec.Signatures s c2 a'.nbrs sig2 ∧ Spec.Classified sig1 sig2 a'.struct ∧
        a'.cna = if a'.struct = 0 ∨ a'.struct = 3 then sig2 else sig1 := by
  obtain ⟨f1, f2, f3, f4, f5⟩ := cnaStart_frame s lc
  set s1 := cnaStart s lc with hs1
  have hmem : ∀ k, s1.mem k = s.mem k := fun k => by unfold System.mem; rw [f1]
  have hlc : Like (s.candSettings s.usecells 3) (s1.candSettings s1.usecells 3) :=
    ⟨f4.len, f4.pos, f4.type, f4.box, f4.rot, f4.rotinv, f4.tri⟩
  have hgd : (s1.candSettings s1.usecells 3).neighbordistance = (s.candSettings s.usecells 3).neighbordistance := f4.guessDist 3
  obtain ⟨T, hT, hrun⟩ := cna_run σ s1 (cnaMethod lc) (hlc.candOK f3 hgd (candOK_of hok)) (by rw [f1, f2]; exact hreal)
  rw [f1] at hT hrun
  have htemp : ∀ k < s.atoms.length, (s1.mem k).temp = [] := by
    intro k hk
    rw [hmem, mem_eq_getElem _ _ hk]
    exact hfresh _ (List.getElem_mem hk)
  have hT' : ∀ k < s.atoms.length, (T k).Perm (cands (s.candSettings s.usecells 3) k) := fun k hk =>
    (hT k hk).trans (List.Perm.of_eq (hlc.cands f3 hgd k))
  have hlen : ∀ k < s.atoms.length, 14 ≤ (T k).length := by
    intro k hk
    rw [(hT' k hk).length_eq]
    exact enough_cands _ _ ((searchRadius_iff _ _ _).1 hR) henough k hk
  obtain ⟨s', r, hrun, hl, -, -, -, hm⟩ := hrun
    (fun k hk => by rw [htemp k hk]; exact hlen k hk) (fun k hk x hx => by rw [htemp k hk] at hx; cases hx)
  refine ⟨s', r, by rw [calculateCna_eq]; exact hrun, ?_⟩
  intro k a hka
  obtain ⟨hk, hmk⟩ := mem_of_getElem? hka
  have hk' : k < s'.atoms.length := by rw [hl.len, f1]; exact hk
  refine ⟨s'.atoms[k], List.getElem?_eq_getElem hk', ?_⟩
  have hatom := hm k hk
  rw [htemp k hk, List.nil_append, mem_eq_getElem _ _ hk'] at hatom
  rw [hatom]
  have hS : SortedCands (s.candSettings s.usecells 3) k (σ.sort (T k)) := SortedCands.mk' σ (hT' k hk)
  set t := σ.sort (T k) with ht
  have ht14 : 14 ≤ t.length := by rw [ht, (σ.perm _).length_eq]; exact hlen k hk
  obtain ⟨e1, e2, -, e4, e5⟩ := cnaAtomOf_spec s1 (cnaMethod lc) k t ht14
  rw [f4.mkNb] at e1
  have hnear : Spec.NearestList s k a 14 ((t.take 14).map fun x => s.mkNb k x.idx) := hS.nearest (a := a) hka ht14
  have hidx : ∀ x ∈ t, x.idx < s.atoms.length := fun x hx => (hS.mem.1 hx).1
  have hwc : ∀ c, withinC s1 c = withinC s c := by
    intro c; funext m n; unfold withinC; rw [f4.distOf]
  have hsig1 : stageSig s1 (cnaMethod lc) 1 t = cnaSignatures (withinC s (stageCut s1 (cnaMethod lc) 1 t))
      ((((t.take 14).map fun x => s.mkNb k x.idx).take 12).map Nb.idx) := by
    unfold stageSig
    rw [hwc, ← List.map_take, List.map_map, List.take_take]; rfl
  have hsig2 : stageSig s1 (cnaMethod lc) 2 t = cnaSignatures (withinC s (stageCut s1 (cnaMethod lc) 2 t))
      (((t.take 14).map fun x => s.mkNb k x.idx).map Nb.idx) := by
    unfold stageSig
    rw [hwc, List.map_map]; rfl
  have hrng : ∀ x ∈ (t.take 14).map fun x => s.mkNb k x.idx, x.idx < s.atoms.length := by
    intro x hx
    obtain ⟨y, hy, rfl⟩ := List.mem_map.1 hx
    exact hidx y (List.mem_of_mem_take hy)
  have g1 : Spec.Signatures s (stageCut s1 (cnaMethod lc) 1 t) (((t.take 14).map fun x => s.mkNb k x.idx).take 12)
      (stageSig s1 (cnaMethod lc) 1 t) := by
    rw [hsig1]
    exact signatures_of_code s _ _ fun x hx => hrng x (List.mem_of_mem_take hx)
  have g2 : Spec.Signatures s (stageCut s1 (cnaMethod lc) 2 t) ((t.take 14).map fun x => s.mkNb k x.idx)
      (stageSig s1 (cnaMethod lc) 2 t) := by
    rw [hsig2]
    exact signatures_of_code s _ _ hrng
  have h12 : (stageSig s1 (cnaMethod lc) 1 t).length = 12 := by
    rw [g1.1]
    simp only [List.length_take, List.length_map]
    omega
  have hclass := classified_code (stageSig s1 (cnaMethod lc) 1 t) (stageSig s1 (cnaMethod lc) 2 t) h12
  rw [← e4] at hclass
  rw [e1, e2]
  refine ⟨_, _, _, _, hnear, rfl, ?_, g1, g2, hclass, ?_⟩
  · cases lc with
    | some L =>
      have := f5 L rfl
      simp only [stageCut, cnaMethod, Spec.CnaCutoffs, this]
      norm_num
    | none =>
      have hd : ∀ u : List DAtom, (∀ x ∈ u, x ∈ t) → (u.map fun x => s.mkNb k x.idx).map Nb.dist = u.map DAtom.dist :=
        fun u hu => map_nb_dist (s := s.candSettings s.usecells 3) hS hu
      have m1 : ((((t.take 14).map fun x => s.mkNb k x.idx).take 12).map Nb.dist) = (t.map DAtom.dist).take 12 := by
        rw [← List.map_take, List.take_take, hd _ (fun x hx => List.mem_of_mem_take hx), List.map_take]; rfl
      have m2 : ((((t.take 14).map fun x => s.mkNb k x.idx).take 8).map Nb.dist) = (t.map DAtom.dist).take 8 := by
        rw [← List.map_take, List.take_take, hd _ (fun x hx => List.mem_of_mem_take hx), List.map_take]; rfl
      have m3 : ((((t.take 14).map fun x => s.mkNb k x.idx).drop 8).map Nb.dist) = ((t.map DAtom.dist).take 14).drop 8 := by
        rw [← List.map_drop, hd _ (fun x hx => List.mem_of_mem_take (List.mem_of_mem_drop hx)), List.map_drop, List.map_take]
      have m4 : ∀ l : List ℝ, (l.map fun x => 1.1547 * x).sum = 1.1547 * l.sum := fun l => by
        rw [List.sum_map_mul_left, List.map_id']
      have a1 : stageCut s1 (cnaMethod none) 1 t = 1.207 * ((t.map DAtom.dist).take 12).sum / 12 := rfl
      have a2 : stageCut s1 (cnaMethod none) 2 t = 1.207 * ((((t.map DAtom.dist).take 8).map fun x => 1.1547 * x).sum +
        (((t.map DAtom.dist).take 14).drop 8).sum) / 14 := rfl
      rw [a1, a2, m4]
      unfold Spec.CnaCutoffs
      dsimp only
      rw [m1, m2, m3]
      constructor <;> ring
  · rw [e5, e4]
    rcases struct12_range (counts12 (stageSig s1 (cnaMethod lc) 1 t)) with h | h | h | h <;>
      rcases struct14_range (counts14 (stageSig s1 (cnaMethod lc) 2 t)) with h' | h' <;> rw [h, h'] <;> simp

/-- **C27**, what holds: for a system without candidate lists left over (see C29), in which every atom
has 14 others in the search radius, `calculate_cna` succeeds; each atom gets its 14 nearest
neighbours, and its signatures are, for every neighbour, the number of common neighbours within
the documented cutoff, the number of bonds among them and the largest and smallest number of
bonds of one of them — for the 14 neighbours, or for the nearest 12 with the first cutoff when the
atom is fcc, hcp or ico.  Missing: the smallest number of bonds is reported as 8 when there is no
common neighbour, or when all have more than 8 bonds (`Spec.Signatures`, `C27_false`). -/
theorem C27_partial (σ : StdSort) (s : System) (lc : Option ℝ) (R : ℝ) (hR : Spec.SearchRadius s 3 R)
    (hreal : s.realNop ≤ s.atoms.length) (hfresh : ∀ a ∈ s.atoms, a.temp = [])
    (hok : Spec.SearchExact s s.usecells 3) (henough : Spec.EnoughWithin s R 14) :
    ∃ (s' : System) (r : List ℕ), s.calculateCna σ lc = .ok (s', r) ∧ ∀ (k : ℕ) (a : Atom), s.atoms[k]? = some a → ∃ a' : Atom, s'.atoms[k]? = some a' ∧
      Spec.NearestList s k a 14 a'.nbrs ∧ ∃ c1 c2, Spec.CnaCutoffs lc a'.nbrs c1 c2 ∧ a'.cutoff = some c2 ∧
        if a'.struct = 0 ∨ a'.struct = 3 then Spec.Signatures s c2 a'.nbrs a'.cna
        else Spec.Signatures s c1 (a'.nbrs.take 12) a'.cna := by
  obtain ⟨s', r, h, hk⟩ := cna_fresh σ s lc R hR hreal hfresh hok henough
  refine ⟨s', r, h, fun k a hka => ?_⟩
  obtain ⟨a', ha', c1, c2, sig1, sig2, h1, h2, h3, h4, h5, -, h7⟩ := hk k a hka
  refine ⟨a', ha', h1, c1, c2, h3, h2, ?_⟩
  rw [h7]
  split_ifs
  · exact h5
  · exact h4

/-- **C63**: in the same conditions the structure code is the one the signatures call for: fcc when
the nearest 12 neighbours all have signature (4,2,1,1), hcp for six (4,2,1,1) and six (4,2,2,0), ico
for twelve (5,5,2,2), bcc when none of these and among the 14 there are six (4,4,2,2) and eight
(6,6,2,2), 0 otherwise. -/
theorem C63_structure (σ : StdSort) (s : System) (lc : Option ℝ) (R : ℝ) (hR : Spec.SearchRadius s 3 R)
    (hreal : s.realNop ≤ s.atoms.length) (hfresh : ∀ a ∈ s.atoms, a.temp = [])
    (hok : Spec.SearchExact s s.usecells 3) (henough : Spec.EnoughWithin s R 14) :
    ∃ (s' : System) (r : List ℕ), s.calculateCna σ lc = .ok (s', r) ∧ ∀ (k : ℕ) (a : Atom), s.atoms[k]? = some a → ∃ a' : Atom, s'.atoms[k]? = some a' ∧
      ∃ c1 c2 sig1 sig2, Spec.CnaCutoffs lc a'.nbrs c1 c2 ∧ Spec.Signatures s c1 (a'.nbrs.take 12) sig1 ∧
        Spec.Signatures s c2 a'.nbrs sig2 ∧ Spec.Classified sig1 sig2 a'.struct := by
  obtain ⟨s', r, h, hk⟩ := cna_fresh σ s lc R hR hreal hfresh hok henough
  refine ⟨s', r, h, fun k a hka => ?_⟩
  obtain ⟨a', ha', c1, c2, sig1, sig2, h1, h2, h3, h4, h5, h6, h7⟩ := hk k a hka
  exact ⟨a', ha', c1, c2, sig1, sig2, h3, h4, h5, h6⟩

/-! ### C28 -/

/-- **C28** for `calculate_cna`, from any state: the five counts returned are the numbers of (real)
atoms carrying the codes 0 to 4, every atom carries one of them, and they add up to the number
of atoms. -/
theorem C28_cna (σ : StdSort) (s s' : System) (lc : Option ℝ) (r : List ℕ) (h : s.calculateCna σ lc = .ok (s', r)) :
    s'.realNop = s.realNop ∧ s'.atoms.length = s.atoms.length ∧ r.length = 5 ∧ r.sum = s.realNop ∧
    (∀ a ∈ s'.atoms.take s'.realNop, 0 ≤ a.struct ∧ a.struct < 5) ∧
    ∀ c : ℕ, c < 5 → r[c]? = some ((s'.atoms.take s'.realNop).countP fun a : Atom => decide (a.struct = (c : ℤ))) := by
  rw [calculateCna_eq] at h
  obtain ⟨f1, f2, -⟩ := cnaStart_frame s lc
  obtain ⟨g, b, -, h2, -, h4, -, -, -, rfl, ht⟩ := ccalculateCna_ok h
  obtain ⟨-, t2, t3, t4, t5⟩ := tally_ok ht
  have hr : (g.ofMem (cnaAtom g (cnaMethod lc))).realNop = s.realNop := by
    have : (g.ofMem (cnaAtom g (cnaMethod lc))).realNop = g.realNop := rfl
    rw [this, h4, f2]
  refine ⟨hr, by rw [ofMem_length, h2.len, f1], t2, by rw [t3, hr], t4, t5⟩

/-! ### C29 -/

theorem cnaAtom_sim {p q : System} (h : Like p q) (k method : ℕ) (hc : method = 1 → q.latticeConstant = p.latticeConstant)
    (ht : (q.mem k).temp = (p.mem k).temp) (hp : (p.mem k).struct = 0) (hq : (q.mem k).struct = 0) :
    (cnaAtom q method k).struct = (cnaAtom p method k).struct ∧
      (cnaAtom q method k).cna = (cnaAtom p method k).cna ∧ (cnaAtom q method k).nbrs = (cnaAtom p method k).nbrs := by
  have hst : ∀ style (a b : Atom), b.temp = a.temp →
      (stageAtom p method style k b).nbrs = (stageAtom p method style k a).nbrs ∧
      p.signatures (stageAtom p method style k b) = p.signatures (stageAtom p method style k a) := by
    intro style a b hab
    unfold stageAtom
    rw [hab]
    rcases stageOf p method style k a.temp with _ | ⟨c, l⟩
    · exact ⟨rfl, signatures_congr rfl (.inl rfl)⟩
    · exact ⟨rfl, signatures_congr rfl (.inr rfl)⟩
  unfold cnaAtom
  rw [h.cn14, h.cn12]
  have hsa : stageAtom q method = stageAtom p method := by
    by_cases hm : method = 1
    · rw [h.stageAtom (hc hm)]
    · funext style i a
      unfold Pyscal.stageAtom stageOf
      rw [if_neg hm, if_neg hm, h.mkNb]
  rw [hsa]
  have hcn : ∀ style (a b : Atom), b.temp = a.temp → b.struct = a.struct →
      (stageAtom p method style k b).struct = (stageAtom p method style k a).struct ∧
      (stageAtom p method style k b).temp = (stageAtom p method style k a).temp := by
    intro style a b h1 h2
    rw [(stageAtom_frame ..).2.2.2.1, (stageAtom_frame ..).2.2.1, (stageAtom_frame ..).2.2.2.1, (stageAtom_frame ..).2.2.1]
    exact ⟨h2, h1⟩
  obtain ⟨a1, a2⟩ := hst 1 _ _ ht
  obtain ⟨b1, b2⟩ := hcn 1 _ _ ht (hq.trans hp.symm)
  have c12 : ∀ a b : Atom, a.struct = 0 → b.struct = 0 → p.signatures b = p.signatures a →
      (p.cn12 b).struct = (p.cn12 a).struct ∧ (p.cn12 b).cna = (p.cn12 a).cna := by
    intro a b ha hb hs
    unfold System.cn12
    rw [if_pos ha, if_pos hb]
    dsimp only
    rw [hs]; exact ⟨rfl, rfl⟩
  have c14 : ∀ a b : Atom, b.struct = a.struct → b.cna = a.cna → p.signatures b = p.signatures a →
      (p.cn14 b).struct = (p.cn14 a).struct ∧ (p.cn14 b).cna = (p.cn14 a).cna := by
    intro a b ha hb hs
    unfold System.cn14
    rw [ha]
    split_ifs
    · dsimp only
      rw [hs]; exact ⟨rfl, rfl⟩
    · exact ⟨ha, hb⟩
  have z : (stageAtom p method 1 k (p.mem k)).struct = 0 := by rw [(stageAtom_frame ..).2.2.2.1]; exact hp
  obtain ⟨d1, d2⟩ := c12 _ _ z (b1.trans z) a2
  have dt : (p.cn12 (stageAtom p method 1 k (q.mem k))).temp = (p.cn12 (stageAtom p method 1 k (p.mem k))).temp := by
    rw [(cn12_frame ..).2.2.1, (cn12_frame ..).2.2.1, b2]
  obtain ⟨e1, e2⟩ := hst 2 _ _ dt
  obtain ⟨f1, f2⟩ := hcn 2 _ _ dt d1
  have fc : (stageAtom p method 2 k (p.cn12 (stageAtom p method 1 k (q.mem k)))).cna =
      (stageAtom p method 2 k (p.cn12 (stageAtom p method 1 k (p.mem k)))).cna := by
    rw [(stageAtom_frame ..).2.2.2.2, (stageAtom_frame ..).2.2.2.2, d2]
  obtain ⟨g1, g2⟩ := c14 _ _ f1 fc e2
  refine ⟨g1, g2, ?_⟩
  rw [(cn14_frame ..).2.2.2.1, (cn14_frame ..).2.2.2.1, e1]

theorem tally_congr {s g : System} (hr : g.realNop = s.realNop) (h : g.atoms.map Atom.struct = s.atoms.map Atom.struct) (n : ℕ) :
    g.tally n = s.tally n := by
  have hl : g.atoms.length = s.atoms.length := by simpa using congrArg List.length h
  have ht : (g.atoms.take g.realNop).map Atom.struct = (s.atoms.take s.realNop).map Atom.struct := by
    rw [List.map_take, List.map_take, h, hr]
  have hf : ∀ (l : List Atom) (r : List ℕ), l.foldl (fun l a => l.modify a.struct.toNat (· + 1)) r =
      (l.map Atom.struct).foldl (fun l x => l.modify x.toNat (· + 1)) r := by
    intro l r
    rw [List.foldl_map]
  have hq : ∀ l : List Atom, (∀ a ∈ l, 0 ≤ a.struct ∧ a.struct < n) ↔ ∀ x ∈ l.map Atom.struct, 0 ≤ x ∧ x < n := by
    intro l; simp
  unfold System.tally
  simp only [hf, hq, ht, hl]
  rw [hr]

/-- Two runs from states that agree on what the analysis reads. -/
theorem cna_sim (σ : StdSort) {s g : System} (h : Sim s g) (hu : g.usecells = s.usecells)
    (method : ℕ) (hc : method = 1 → g.latticeConstant = s.latticeConstant) :
    RelE (fun a b : System × List ℕ => b.2 = a.2 ∧ b.1.atoms.length = a.1.atoms.length ∧ b.1.realNop = a.1.realNop ∧
      ∀ k < a.1.atoms.length, (b.1.mem k).struct = (a.1.mem k).struct ∧ (b.1.mem k).cna = (a.1.mem k).cna ∧
        (b.1.mem k).nbrs = (a.1.mem k).nbrs) (s.ccalculateCna σ method) (g.ccalculateCna σ method) := by
  rw [ccalculateCna_eq, ccalculateCna_eq]
  have h0 : Sim s.resetStruct g.resetStruct := by
    have hm : ∀ (s : System) k, s.resetStruct.mem k = if k < s.atoms.length then { s.mem k with struct := 0 } else default := by
      intro s k
      split_ifs with hk
      · simp [System.mem, System.resetStruct, hk]
      · simp [System.mem, System.resetStruct, hk]
    refine ⟨?_, fun k => ?_, h.filter, h.nop, h.realNop⟩
    · have l1 := like_resetStruct s
      have l2 := h.like.trans (like_resetStruct g)
      exact ⟨l2.len.trans l1.len.symm, fun k => (l2.pos k).trans (l1.pos k).symm, fun k => (l2.type k).trans (l1.type k).symm,
        l2.box, l2.rot, l2.rotinv, l2.tri⟩
    · rw [hm, hm, h.like.len]
      split_ifs with hk
      · exact h.mem k
      · exact ⟨rfl, rfl, rfl, rfl⟩
  have hrel := h0.neighborsByNumber σ 3 14 false hu
  rcases hx : s.resetStruct.neighborsByNumber σ 3 14 false with e | ⟨p, bp⟩ <;>
    rcases hy : g.resetStruct.neighborsByNumber σ 3 14 false with e' | ⟨q, bq⟩ <;> rw [hx, hy] at hrel
  · exact hrel
  · exact hrel.elim
  · exact hrel.elim
  obtain ⟨hsim, -⟩ : Sim p q ∧ bq = bp := hrel
  change RelE _ (p.cnaRest method) (q.cnaRest method)
  obtain ⟨p1, p2, p3⟩ := byNumber_frame hx
  obtain ⟨q1, q2, q3⟩ := byNumber_frame hy
  have hpl : p.latticeConstant = s.latticeConstant := by rw [p3]; rfl
  have hql : method = 1 → q.latticeConstant = p.latticeConstant := by
    intro hm
    rw [hpl, ← hc hm, q3]; rfl
  have hps : ∀ k < p.atoms.length, (p.mem k).struct = 0 ∧ (q.mem k).struct = 0 := by
    intro k hk
    rw [p1] at hk
    have hk' : k < g.resetStruct.atoms.length := by
      rw [← q1, hsim.like.len, p1]; exact hk
    obtain ⟨t, ht⟩ := p2 k hk
    obtain ⟨t', ht'⟩ := q2 k hk'
    have e1 : (s.resetStruct.mem k).struct = 0 := by
      rw [System.resetStruct, List.length_map] at hk
      simp [System.mem, System.resetStruct, hk]
    have e2 : (g.resetStruct.mem k).struct = 0 := by
      rw [System.resetStruct, List.length_map] at hk'
      simp [System.mem, System.resetStruct, hk']
    rw [ht, ht']
    exact ⟨e1, e2⟩
  rw [cnaRest_eq, cnaRest_eq]
  have hready : ∀ style, StageReady q method style ↔ StageReady p method style := by
    intro style
    have : q.atoms.length = p.atoms.length := hsim.like.len
    have e := stageReady_congr (s := p) (m := q.mem) method style (fun k _ => (hsim.mem k).2.2.2)
    have e2 : (p.ofMem q.mem).atoms = q.atoms := by
      refine List.ext_getElem (by rw [ofMem_length, this]) fun k hk hk' => ?_
      rw [← mem_eq_getElem _ _ hk, ← mem_eq_getElem _ _ hk']
      rw [ofMem_length] at hk
      exact ofMem_mem p _ k hk
    rw [← e]
    unfold StageReady System.TempOk
    rw [e2]
  have hatom : ∀ k < p.atoms.length, (cnaAtom q method k).struct = (cnaAtom p method k).struct ∧
      (cnaAtom q method k).cna = (cnaAtom p method k).cna ∧ (cnaAtom q method k).nbrs = (cnaAtom p method k).nbrs := by
    intro k hk
    obtain ⟨z1, z2⟩ := hps k hk
    exact cnaAtom_sim hsim.like k method hql (hsim.mem k).2.2.2 z1 z2
  by_cases hr : StageReady p method 1 ∧ StageReady p method 2
  · rw [if_pos hr, if_pos ⟨(hready 1).2 hr.1, (hready 2).2 hr.2⟩]
    have hstr : ((q.ofMem (cnaAtom q method)).atoms.map Atom.struct) = ((p.ofMem (cnaAtom p method)).atoms.map Atom.struct) := by
      refine List.ext_getElem (by simp [ofMem_length, hsim.like.len]) fun k hk hk' => ?_
      rw [List.length_map, ofMem_length] at hk hk'
      rw [List.getElem_map, List.getElem_map, ← mem_eq_getElem, ← mem_eq_getElem, ofMem_mem _ _ _ hk, ofMem_mem _ _ _ hk']
      exact (hatom k hk').1
    have htally := tally_congr (s := p.ofMem (cnaAtom p method)) (g := q.ofMem (cnaAtom q method)) hsim.realNop hstr 5
    rw [htally]
    rcases (p.ofMem (cnaAtom p method)).tally 5 with e | r
    · exact rfl
    · refine ⟨rfl, by rw [ofMem_length, ofMem_length, hsim.like.len], hsim.realNop, fun k hk => ?_⟩
      dsimp only at hk ⊢
      rw [ofMem_length] at hk
      rw [ofMem_mem p _ k hk, ofMem_mem q _ k (by rw [hsim.like.len]; exact hk)]
      exact hatom k hk
  · rw [if_neg hr, if_neg (fun h => hr ⟨(hready 1).1 h.1, (hready 2).1 h.2⟩)]
    exact rfl

theorem tempCells_filter (s : System) (f : ℕ) :
    ({ s with filter := f } : System).tempCells = s.tempCells.map fun r => { r with filter := f } := by
  have h : ∀ s : System, s.tempCells = s.cellPairs.map fun ps => s.ofMem (pairLoop Atom.pushTemp (tempHitLt s) ps s.mem) := by
    intro s
    unfold System.tempCells
    change Except.bind _ _ = _
    rcases s.cellPairs with e | ps <;> rfl
  have hc : ({ s with filter := f } : System).cellPairs = s.cellPairs := rfl
  rw [h, h, hc]
  rcases s.cellPairs with e | ps <;> rfl

/-- The filter of the last search is not read. -/
theorem byNumber_filter (σ : StdSort) (s : System) (f : ℕ) (p : ℝ) (n : ℕ) (b : Bool) :
    ({ s with filter := f } : System).neighborsByNumber σ p n b =
      (s.neighborsByNumber σ p n b).map fun r => ({ r.1 with filter := f }, r.2) := by
  unfold System.neighborsByNumber
  have h : ({ s with filter := f, voronoiused := false } : System).fillTemp p =
      (({ s with voronoiused := false } : System).fillTemp p).map fun r => { r with filter := f } := by
    unfold System.fillTemp
    by_cases hu : s.usecells = true
    · dsimp only
      rw [if_pos hu, if_pos hu]
      exact tempCells_filter { s with voronoiused := false, neighbordistance := s.guessDist p } f
    · dsimp only
      rw [if_neg hu, if_neg hu]
      rfl
  change Except.bind _ _ = Except.map _ (Except.bind _ _)
  rw [h]
  have hl : ∀ (r : System) (is : List ℕ) (m : Mem), System.byNumberLoop σ { r with filter := f } n b is m =
      System.byNumberLoop σ r n b is m := by
    intro r is
    induction is with
    | nil => intro m; rfl
    | cons i is ih =>
      intro m
      unfold System.byNumberLoop
      by_cases h1 : (m i).temp.length < n
      · rw [if_pos h1, if_pos h1]
      · rw [if_neg h1, if_neg h1]
        exact ih _
  rcases ({ s with voronoiused := false } : System).fillTemp p with e | r
  · rfl
  · change Except.ok (System.ofMem { r with filter := f } (System.byNumberLoop σ { r with filter := f } n b _ _).1,
      (System.byNumberLoop σ { r with filter := f } n b _ _).2) = _
    rw [hl]
    rfl

theorem cna_filter (σ : StdSort) (s : System) (f method : ℕ) :
    ({ s with filter := f } : System).ccalculateCna σ method =
      (s.ccalculateCna σ method).map fun r => ({ r.1 with filter := f }, r.2) := by
  rw [ccalculateCna_eq, ccalculateCna_eq]
  have h := byNumber_filter σ s.resetStruct f 3 14 false
  change Except.bind (System.neighborsByNumber σ { s.resetStruct with filter := f } 3 14 false) _ = _
  rw [h]
  rcases s.resetStruct.neighborsByNumber σ 3 14 false with e | ⟨p, bp⟩
  · rfl
  · change System.cnaRest { p with filter := f } method = (p.cnaRest method).map _
    rw [cnaRest_eq, cnaRest_eq]
    by_cases hr : StageReady p method 1 ∧ StageReady p method 2
    · have hr' : StageReady { p with filter := f } method 1 ∧ StageReady { p with filter := f } method 2 := hr
      rw [if_pos hr, if_pos hr']
      change ((p.ofMem (cnaAtom p method)).tally 5).map _ = _
      rcases (p.ofMem (cnaAtom p method)).tally 5 with e | r <;> rfl
    · have hr' : ¬ (StageReady { p with filter := f } method 1 ∧ StageReady { p with filter := f } method 2) := hr
      rw [if_neg hr, if_neg hr']
      rfl

/-- **C29**, what holds: after `reset_neighbors`, `calculate_cna` depends only on the atoms and the
box (and on the choice between the double loop and cell lists left by the last search): on two
systems with the same atoms and box, whatever was done to them before, it raises the same
exception or gives the same counts, structures, signatures and neighbours.  Missing: without the
reset it does not (`C29_false`). -/
theorem C29_partial (σ : StdSort) (s g : System) (lc : Option ℝ) (h : Spec.SameInput s g) (hu : g.usecells = s.usecells) :
    (∃ e, s.resetNeighbors.calculateCna σ lc = .error e ∧ g.resetNeighbors.calculateCna σ lc = .error e) ∨
    ∃ s' g' r, s.resetNeighbors.calculateCna σ lc = .ok (s', r) ∧ g.resetNeighbors.calculateCna σ lc = .ok (g', r) ∧
      g'.atoms.map (fun a => (a.struct, a.cna, a.nbrs)) = s'.atoms.map (fun a => (a.struct, a.cna, a.nbrs)) := by
  have hl := h.like
  have hm : ∀ (s : System) k, s.resetNeighbors.mem k =
      if k < s.atoms.length then { s.mem k with nbrs := [], temp := [], condition := some 0 } else default := by
    intro s k
    split_ifs with hk
    · simp [System.mem, System.resetNeighbors, System.resetAllNeighbors, hk]
    · simp [System.mem, System.resetNeighbors, System.resetAllNeighbors, hk]
  have hmem : MSim s.resetNeighbors.mem g.resetNeighbors.mem := by
    intro k
    rw [hm, hm, hl.len]
    split_ifs with hk
    · exact ⟨hl.pos k, hl.type k, rfl, rfl⟩
    · exact ⟨rfl, rfl, rfl, rfl⟩
  have hlen : ∀ s : System, s.resetNeighbors.atoms.length = s.atoms.length := by
    intro s; simp [System.resetNeighbors, System.resetAllNeighbors]
  have hlike : Like s.resetNeighbors g.resetNeighbors :=
    ⟨by rw [hlen, hlen, hl.len], fun k => (hmem k).1, fun k => (hmem k).2.1, hl.box, hl.rot, hl.rotinv, hl.tri⟩
  rw [calculateCna_eq, calculateCna_eq]
  have hsim : Sim (cnaStart s.resetNeighbors lc) { cnaStart g.resetNeighbors lc with filter := s.filter } := by
    cases lc with
    | none => exact ⟨⟨hlike.len, hlike.pos, hlike.type, hlike.box, hlike.rot, hlike.rotinv, hlike.tri⟩, hmem, rfl,
        h.2.2.2.2.2.1, h.2.2.2.2.2.2⟩
    | some L => exact ⟨⟨hlike.len, hlike.pos, hlike.type, hlike.box, hlike.rot, hlike.rotinv, hlike.tri⟩, hmem, rfl,
        h.2.2.2.2.2.1, h.2.2.2.2.2.2⟩
  have hrel := cna_sim σ hsim (by cases lc <;> exact hu) (cnaMethod lc) (by
    cases lc with
    | none => exact fun h => absurd h (by decide)
    | some L => exact fun _ => rfl)
  rw [cna_filter σ (cnaStart g.resetNeighbors lc) s.filter] at hrel
  rcases hx : (cnaStart s.resetNeighbors lc).ccalculateCna σ (cnaMethod lc) with e | ⟨s', r⟩ <;>
    rcases hy : (cnaStart g.resetNeighbors lc).ccalculateCna σ (cnaMethod lc) with e' | ⟨g', r'⟩ <;> rw [hx, hy] at hrel
  · exact .inl ⟨e, rfl, by rw [show e = e' from hrel]⟩
  · exact hrel.elim
  · exact hrel.elim
  · obtain ⟨rfl, h2, -, h4⟩ := hrel
    refine .inr ⟨s', g', _, rfl, rfl, ?_⟩
    have h2 : g'.atoms.length = s'.atoms.length := h2
    refine List.ext_getElem (by simp [h2]) fun k hk hk' => ?_
    rw [List.length_map] at hk hk'
    rw [List.getElem_map, List.getElem_map, ← mem_eq_getElem, ← mem_eq_getElem]
    obtain ⟨i1, i2, i3⟩ : (g'.mem k).struct = (s'.mem k).struct ∧ (g'.mem k).cna = (s'.mem k).cna ∧
      (g'.mem k).nbrs = (s'.mem k).nbrs := h4 k hk'
    rw [i1, i2, i3]

/-! ### A concrete cluster -/

/-- An atom with its twelve fcc neighbours (slightly displaced, so that no two are at the same
distance), and two further atoms, in a box of edge 4000. -/
def cnaPs : List (ℤ × ℤ × ℤ) :=
  [(1000, 1000, 1000), (1101, 1101, 1000), (1102, 898, 1000), (897, 1103, 1000), (896, 896, 1000), (1105, 1000, 1105),
   (1106, 1000, 894), (893, 1000, 1107), (892, 1000, 892), (1000, 1109, 1109), (1000, 1110, 890), (1000, 889, 1111),
   (1000, 888, 888), (1300, 1000, 1000), (1320, 1000, 1000)]

noncomputable def cnaSys : System := intSystem cnaPs 4000

theorem cnaSys_ok : IntOK cnaPs 4000 := by decide +kernel

/-- Atom `k` as candidate of atom 0. -/
noncomputable def cnaDA (j : ℕ) : DAtom := ⟨Real.sqrt (intSq cnaPs 0 j : ℤ), j⟩

theorem cnaSys_near : ∀ i < 15, ∀ j < 15, intSq cnaPs i j ≤ 810000 := by decide +kernel

theorem cnaSys_cands (k : ℕ) (hk : k < 15) : cands (cnaSys.candSettings false 3) k =
    ((List.range 15).filter fun j => decide (j ≠ k)).map fun j => ⟨Real.sqrt (intSq cnaPs k j : ℤ), j⟩ :=
  intSystem_cands cnaSys_ok 3 (by norm_num) (by decide) 300 (by norm_num) (by decide)
    (fun i hi j hj => by
      have h : (intSq cnaPs i j : ℝ) ≤ 810000 := by exact_mod_cast cnaSys_near i hi j hj
      refine h.trans (by norm_num)) k hk

theorem cnaSys_len14 : ∀ k < 15, ((List.range 15).filter fun j => decide (j ≠ k)).length = 14 := by decide +kernel

theorem cnaSys_cands_length (k : ℕ) (hk : k < 15) : (cands (cnaSys.candSettings false 3) k).length = 14 := by
  rw [cnaSys_cands k hk, List.length_map]
  exact cnaSys_len14 k hk

theorem cnaDA_sorted {l : List ℕ} (h : l.Pairwise fun i j => intSq cnaPs 0 i ≤ intSq cnaPs 0 j) :
    (l.map cnaDA).Pairwise fun a b => a.dist ≤ b.dist := by
  rw [List.pairwise_map]
  refine h.imp fun {i j} hij => ?_
  unfold cnaDA
  exact Real.sqrt_le_sqrt (by exact_mod_cast hij)

theorem cnaSq_inj : ∀ i < 15, ∀ j < 15, intSq cnaPs 0 i = intSq cnaPs 0 j → i = j := by decide +kernel

/-- The sorted candidate list is determined by its members. -/
theorem cna_sort (σ : StdSort) {T : List DAtom} {l : List ℕ} (hT : T.Perm (l.map cnaDA)) (hl : ∀ i ∈ l, i < 15)
    (hs : l.Pairwise fun i j => intSq cnaPs 0 i ≤ intSq cnaPs 0 j) : σ.sort T = l.map cnaDA := by
  refine List.Perm.eq_of_pairwise (le := fun a b : DAtom => a.dist ≤ b.dist) ?_ (σ.sorted T) (cnaDA_sorted hs)
    ((σ.perm T).trans hT)
  intro a b ha hb h1 h2
  obtain ⟨i, hi, rfl⟩ := List.mem_map.1 (((σ.perm T).trans hT).mem_iff.1 ha)
  obtain ⟨j, hj, rfl⟩ := List.mem_map.1 hb
  have he : Real.sqrt (intSq cnaPs 0 i : ℤ) = Real.sqrt (intSq cnaPs 0 j : ℤ) := le_antisymm h1 h2
  rw [Real.sqrt_inj (by exact_mod_cast intSq_nonneg 0 i) (by exact_mod_cast intSq_nonneg 0 j)] at he
  rw [cnaSq_inj i (hl i hi) j (hl j hj) (by exact_mod_cast he)]

/-- The relation "within `c`", evaluated on integers. -/
theorem cnaSys_within {s : System} (h : Like cnaSys s) (c : ℝ) (hc : 0 ≤ c) (m : ℤ) (h1 : (m : ℝ) ≤ c ^ 2) (h2 : c ^ 2 < m + 1) :
    withinC s c = fun i j => decide (intSq cnaPs i j ≤ m) := by
  funext i j
  unfold withinC
  rw [h.distOf]
  have hd : cnaSys.distOf i j = Real.sqrt (intSq cnaPs i j : ℤ) := intSystem_dist cnaSys_ok i j
  rw [hd]
  exact decide_eq_decide.2 (sqrt_int_le _ (intSq_nonneg i j) c hc m h1 h2)

/-- The indices of the first and of the second run. -/
def cnaOne : List ℕ := [1, 2, 3, 4, 5, 6, 7, 8, 9, 10, 11, 12, 13, 14]
def cnaTwo : List ℕ := [1, 1, 2, 2, 3, 3, 4, 4, 5, 5, 6, 6, 7, 7, 8, 8, 9, 9, 10, 10, 11, 11, 12, 12, 13, 13, 14, 14]

theorem cnaStart_like (s : System) (lc : Option ℝ) : Like s (cnaStart s lc) := (cnaStart_frame s lc).2.2.2.1

/-- `calculate_cna` on the cluster. -/
theorem cnaSys_first (σ : StdSort) (lc : Option ℝ) : ∃ s' r, cnaSys.calculateCna σ lc = .ok (s', r) ∧ Like cnaSys s' ∧
    s'.realNop = 15 ∧ s'.usecells = false ∧
    (∀ k < 15, ∃ T : List DAtom, T.Perm (cands (cnaSys.candSettings false 3) k) ∧ (s'.mem k).temp = T) ∧
    s'.mem 0 = cnaAtomOf (cnaStart cnaSys lc) (cnaMethod lc) 0 (cnaOne.map cnaDA) := by
  obtain ⟨f1, f2, f3, f4, -⟩ := cnaStart_frame cnaSys lc
  have hlen : (cnaStart cnaSys lc).atoms.length = 15 := by rw [f1]; exact intSystem_length (L := 4000)
  have hcs : cands ((cnaStart cnaSys lc).candSettings (cnaStart cnaSys lc).usecells 3) = cands (cnaSys.candSettings false 3) := by
    cases lc <;> rfl
  obtain ⟨T, hT, hrun⟩ := cna_run σ (cnaStart cnaSys lc) (cnaMethod lc) (.inl f3) (by rw [f2, hlen]; decide)
  rw [hlen, hcs] at hT
  have htemp : ∀ k, ((cnaStart cnaSys lc).mem k).temp = [] := by
    intro k
    have : (cnaStart cnaSys lc).mem k = cnaSys.mem k := by unfold System.mem; rw [f1]
    rw [this]
    unfold System.mem cnaSys intSystem
    by_cases hk : k < cnaPs.length
    · simp [hk]
    · simp [hk]; rfl
  have hlT : ∀ k < 15, (T k).length = 14 := fun k hk => by rw [(hT k hk).length_eq]; exact cnaSys_cands_length k hk
  obtain ⟨s', r, h1, h2, h3, h4, -, h6⟩ := hrun
    (fun k hk => by rw [hlen] at hk; rw [htemp, List.nil_append, hlT k hk])
    (fun k _ x hx => by rw [htemp] at hx; cases hx)
  rw [hlen] at h6
  refine ⟨s', r, by rw [calculateCna_eq]; exact h1, f4.trans h2, by rw [h3, f2]; rfl, by rw [h4, f3]; rfl, ?_, ?_⟩
  · intro k hk
    refine ⟨σ.sort (T k), (σ.perm _).trans (hT k hk), ?_⟩
    rw [h6 k hk, htemp, List.nil_append]
    exact (cnaAtomOf_spec _ _ _ _ (by rw [(σ.perm _).length_eq, hlT k hk])).2.2.1
  · rw [h6 0 (by norm_num), htemp, List.nil_append]
    rw [cna_sort σ (l := cnaOne) ((hT 0 (by norm_num)).trans ?_) (by decide) (by decide +kernel)]
    rw [cnaSys_cands 0 (by norm_num)]
    exact List.Perm.of_eq rfl

/-- The negation of **C29**: on the cluster, `calculate_cna(lattice_constant=200)` finds the
central atom to be fcc; called again, on unchanged positions, it finds it to be none of the known
structures.  The candidate lists of the first call are still there, so every neighbour is listed
twice. -/
theorem C29_false (σ : StdSort) : ∃ s1 r1 s2 r2 a1 a2, cnaSys.calculateCna σ (some 200) = .ok (s1, r1) ∧
    s1.calculateCna σ (some 200) = .ok (s2, r2) ∧
    s1.atoms.map Atom.pos = cnaSys.atoms.map Atom.pos ∧ s1.box = cnaSys.box ∧
    s1.atoms[0]? = some a1 ∧ s2.atoms[0]? = some a2 ∧ a1.struct = 1 ∧ a2.struct = 0 := by
  obtain ⟨s1, r1, h1, l1, n1, u1, t1, m1⟩ := cnaSys_first σ (some 200)
  have hlen0 : cnaSys.atoms.length = 15 := intSystem_length (L := 4000)
  have hlen1 : s1.atoms.length = 15 := by rw [l1.len, hlen0]
  obtain ⟨f1, f2, f3, f4, f5⟩ := cnaStart_frame s1 (some 200)
  have hlen : (cnaStart s1 (some 200)).atoms.length = 15 := by rw [f1, hlen1]
  have l2 : Like cnaSys (cnaStart s1 (some 200)) := l1.trans f4
  have hu : (cnaStart s1 (some 200)).usecells = false := by rw [f3, u1]
  have hlc : Like (cnaSys.candSettings false 3) ((cnaStart s1 (some 200)).candSettings (cnaStart s1 (some 200)).usecells 3) :=
    ⟨l2.len, l2.pos, l2.type, l2.box, l2.rot, l2.rotinv, l2.tri⟩
  have hcs : ∀ k, cands ((cnaStart s1 (some 200)).candSettings (cnaStart s1 (some 200)).usecells 3) k =
      cands (cnaSys.candSettings false 3) k := fun k => hlc.cands hu (l2.guessDist 3) k
  obtain ⟨T, hT, hrun⟩ := cna_run σ (cnaStart s1 (some 200)) 1 (.inl hu) (by rw [f2, n1, hlen])
  rw [hlen] at hT
  have hmem : ∀ k, (cnaStart s1 (some 200)).mem k = s1.mem k := fun k => by unfold System.mem; rw [f1]
  have hT14 : ∀ k < 15, (T k).length = 14 := fun k hk => by
    rw [(hT k hk).length_eq, hcs, cnaSys_cands_length k hk]
  obtain ⟨s2, r2, h2, l3, -, -, -, h6⟩ := hrun
    (fun k hk => by rw [hlen] at hk; rw [List.length_append, hT14 k hk]; omega)
    (fun k hk x hx => by
      rw [hlen] at hk ⊢
      rw [hmem] at hx
      obtain ⟨T0, hp, he⟩ := t1 k hk
      rw [he] at hx
      have := hp.mem_iff.1 hx
      rw [cnaSys_cands k hk] at this
      obtain ⟨j, hj, rfl⟩ := List.mem_map.1 this
      exact List.mem_range.1 (List.mem_filter.1 hj).1)
  have hlen2 : s2.atoms.length = 15 := by rw [l3.len, hlen]
  refine ⟨s1, r1, s2, r2, s1.atoms[0], s2.atoms[0], h1, by rw [calculateCna_eq]; exact h2, ?_, l1.box,
    List.getElem?_eq_getElem _, List.getElem?_eq_getElem _, ?_, ?_⟩
  · refine List.ext_getElem (by simp [l1.len]) fun k hk hk' => ?_
    rw [List.length_map] at hk hk'
    rw [List.getElem_map, List.getElem_map, ← mem_eq_getElem, ← mem_eq_getElem]
    exact l1.pos k
  · rw [← mem_eq_getElem _ _ (by omega), m1, (cnaAtomOf_spec _ _ _ _ (by decide)).2.2.2.1]
    have hsig : stageSig (cnaStart cnaSys (some 200)) (cnaMethod (some 200)) 1 (cnaOne.map cnaDA) = List.replicate 12 (4, 2, 1, 1) := by
      unfold stageSig
      have hc : stageCut (cnaStart cnaSys (some 200)) (cnaMethod (some 200)) 1 (cnaOne.map cnaDA) = 170.8 := by
        have : stageCut (cnaStart cnaSys (some 200)) (cnaMethod (some 200)) 1 (cnaOne.map cnaDA) = 0.854 * 200 := rfl
        rw [this]; norm_num
      rw [hc, cnaSys_within (cnaStart_like _ _) 170.8 (by norm_num) 29172 (by norm_num) (by norm_num)]
      rw [← List.map_take, List.map_map]
      change cnaSignatures _ ((cnaOne.take 12).map id) = _
      decide +kernel
    rw [hsig]
    decide
  · have hidx : ∀ l : List ℕ, (l.map cnaDA).map DAtom.idx = l := fun l => by rw [List.map_map]; exact List.map_id l
    rw [← mem_eq_getElem _ _ (by omega), h6 0 (by omega), hmem]
    obtain ⟨T0, hp, he⟩ := t1 0 (by omega)
    rw [he]
    have hperm : (T0 ++ T 0).Perm (cnaTwo.map cnaDA) := by
      have e1 : cands (cnaSys.candSettings false 3) 0 = cnaOne.map cnaDA := by
        rw [cnaSys_cands 0 (by norm_num)]; rfl
      have p1 : (T0 ++ T 0).Perm (cnaOne.map cnaDA ++ cnaOne.map cnaDA) := by
        refine List.Perm.append (hp.trans (List.Perm.of_eq e1)) ((hT 0 (by omega)).trans (List.Perm.of_eq ?_))
        rw [hcs, e1]
      refine p1.trans ?_
      rw [← List.map_append]
      exact List.Perm.map _ (by decide)
    rw [cna_sort σ hperm (by decide) (by decide +kernel)]
    rw [(cnaAtomOf_spec _ _ _ _ (by decide)).2.2.2.1]
    have hsig1 : stageSig (cnaStart s1 (some 200)) 1 1 (cnaTwo.map cnaDA) =
        cnaSignatures (fun i j => decide (intSq cnaPs i j ≤ 29172)) (cnaTwo.take 12) := by
      unfold stageSig
      have hc : stageCut (cnaStart s1 (some 200)) 1 1 (cnaTwo.map cnaDA) = 170.8 := by
        have : stageCut (cnaStart s1 (some 200)) 1 1 (cnaTwo.map cnaDA) = 0.854 * 200 := rfl
        rw [this]; norm_num
      rw [hc, cnaSys_within l2 170.8 (by norm_num) 29172 (by norm_num) (by norm_num)]
      rw [← List.map_take, hidx]; rfl
    have hsig2 : stageSig (cnaStart s1 (some 200)) 1 2 (cnaTwo.map cnaDA) =
        cnaSignatures (fun i j => decide (intSq cnaPs i j ≤ 58273)) (cnaTwo.take 14) := by
      unfold stageSig
      have hc : stageCut (cnaStart s1 (some 200)) 1 2 (cnaTwo.map cnaDA) = 241.4 := by
        have : stageCut (cnaStart s1 (some 200)) 1 2 (cnaTwo.map cnaDA) = 1.207 * 200 := rfl
        rw [this]; norm_num
      rw [hc, cnaSys_within l2 241.4 (by norm_num) 58273 (by norm_num) (by norm_num)]
      rw [← List.map_take, hidx]; rfl
    rw [hsig1, hsig2]
    decide +kernel

end Pyscal
