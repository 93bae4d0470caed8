import Verif.Props.Locality
import Verif.Props.Number

/-! C91: what happens to the neighbours and the clusters when the cutoff, the padding or the number of neighbours is increased. -/

namespace Pyscal

open Classical in
theorem cutoffNbs_filter (s : System) {r r' : ℝ} (h : r ≤ r') (f k : ℕ) : cutoffNbs s r f k = (cutoffNbs s r' f k).filter fun x => decide (x.dist < r) := by
  unfold cutoffNbs
  rw [List.filter_map, List.filter_filter]
  congr 1
  refine List.filter_congr fun j _ => ?_
  simp only [Function.comp_apply]
  rw [Bool.eq_iff_iff]
  simp only [decide_eq_true_eq, Bool.and_eq_true]
  show _ ↔ s.distOf k j < r ∧ _
  constructor
  · rintro ⟨h1, h2, h3⟩
    exact ⟨h2, h1, by linarith, h3⟩
  · rintro ⟨h1, h2, -, h3⟩
    exact ⟨h2, h1, h3⟩

open Classical in
/-- **C91, cutoff**: if `find_neighbors(cutoff=r')` succeeds then so does the search with a smaller cutoff `r`, and the list of
every atom for `r` is what remains of its list for `r'`, in the same order, after dropping the entries at a distance of at least `r`. -/
theorem C91_cutoff (σ σ' : StdSort) (s s' : System) (f : ℕ) (r r' : ℝ) (hr : r ≠ 0) (hr' : r' ≠ 0) (h : r ≤ r') (hn : s.natoms ≤ 2300)
    (h1 : s.findNeighbors σ f (.cutoff r') = .ok s') :
    ∃ s'', s.findNeighbors σ' f (.cutoff r) = .ok s'' ∧ s''.atoms.length = s'.atoms.length ∧
      ∀ (k : ℕ) (a b : Atom), s'.atoms[k]? = some a → s''.atoms[k]? = some b → b.nbrs = a.nbrs.filter fun x => decide (x.dist < r) := by
  obtain ⟨hle, hs', -⟩ := findNeighbors_cutoff_ok hr' hn h1
  have hcap : ∀ k < s.atoms.length, (cutoffNbs s r' f k).length ≤ 300 := by
    intro k hk
    by_contra hc
    have := (C09_overrun σ s f r' hr' hn hle).1 ⟨k, hk, by
      rw [← cutoffList_length (List.getElem?_eq_getElem hk) (cutoffNbs_spec (List.getElem?_eq_getElem hk))]; omega⟩
    rw [this] at h1
    cases h1
  obtain ⟨s'', h2⟩ := (C09_overrun σ' s f r hr hn hle).2 fun k hk => by
    rw [← cutoffList_length (List.getElem?_eq_getElem hk) (cutoffNbs_spec (List.getElem?_eq_getElem hk)), cutoffNbs_filter s h]
    exact (List.length_filter_le _ _).trans (hcap k hk)
  obtain ⟨-, l1, e1⟩ := cutoff_atom hr' hn h1
  obtain ⟨-, l2, e2⟩ := cutoff_atom hr hn h2
  refine ⟨s'', h2, by omega, fun k a b ha hb => ?_⟩
  rw [(e1 k a ha).2.1, (e2 k b hb).2.1]
  exact cutoffNbs_filter s h f k

theorem search_finishes {σ : StdSort} {s g : System} {f : ℕ} {meth : Method} (h : (s.startSearch f).search σ meth = .ok g)
    (hc : ∀ a ∈ g.atoms, a.nbrs.length ≤ 300) : s.findNeighbors σ f meth = .ok { g with neighborsFound := true } := by
  rw [finish_search h]
  unfold System.checkCapacity
  rw [if_neg (by push Not; exact hc)]
  rfl

/-- **C91, number**: if `find_neighbors(method='number', nmax=n')` succeeds then so does the search with a smaller `nmax`, and the list of every
atom is the beginning of its longer list. -/
theorem C91_number (σ : StdSort) (s s' : System) (f : ℕ) (t : ℝ) (n n' : ℕ) (hn : n ≤ n') (hok : Spec.SearchExact s (decide (s.realNop > 4000)) t)
    (h1 : s.findNeighbors σ f (.number t n' true) = .ok s') :
    ∃ s'', s.findNeighbors σ f (.number t n true) = .ok s'' ∧ s''.atoms.length = s'.atoms.length ∧
      ∀ (k : ℕ) (a b : Atom), s'.atoms[k]? = some a → s''.atoms[k]? = some b → a.nbrs.length = n' ∧ b.nbrs = a.nbrs.take n := by
  have hcand := candOK_of hok
  obtain ⟨ht, hle, -, -, -, -, -⟩ := find_number_ok hcand h1
  obtain ⟨g, hg, hs', hcap⟩ := ok_of_find h1
  obtain ⟨herr, hsucc⟩ := searchNumber_runs σ s f t n' true ht hle hcand.runs
  set T := candList (s.candSettings (decide (s.realNop > 4000)) t) with hT
  have hall : ∀ k < s.atoms.length, n' ≤ (T k).length := by
    by_contra hc
    push Not at hc
    rw [herr hc] at hg
    cases hg
  rw [hsucc hall] at hg
  obtain rfl := Except.ok.inj hg
  have h2 := (searchNumber_runs σ s f t n true ht hle hcand.runs).2 fun k hk => hn.trans (hall k hk)
  have hnb : ∀ n k, (byNumberAtom σ s n true k (candAtom s (T k) k)).nbrs = ((σ.sort (T k)).take n).map fun x => s.mkNb k x.idx := by
    intro n k
    simp [byNumberAtom, candAtom]
  have hpre : ∀ k, (byNumberAtom σ s n true k (candAtom s (T k) k)).nbrs = (byNumberAtom σ s n' true k (candAtom s (T k) k)).nbrs.take n := by
    intro k
    rw [hnb, hnb, ← List.map_take, List.take_take, min_eq_left hn]
  have h4 := search_finishes h2 (by
    intro a ha
    obtain ⟨k, hk, rfl⟩ := List.mem_map.1 ha
    rw [hpre]
    refine (List.length_take_le' _ _).trans ?_
    exact hcap _ (List.mem_map_of_mem hk))
  refine ⟨_, h4, by rw [hs']; simp, fun k a b ha hb => ?_⟩
  rw [hs'] at ha
  obtain ⟨hk, rfl⟩ := map_range_getElem? _ ha
  obtain ⟨-, rfl⟩ := map_range_getElem? _ hb
  refine ⟨?_, hpre k⟩
  rw [hnb, List.length_map, List.length_take, (σ.perm _).length_eq]
  exact min_eq_left (hall k hk)

open Classical in
/-- **C91, adaptive**: with a larger padding every atom keeps the neighbours it had: its list for padding `p` is what remains of its list for `p'`
after dropping the entries beyond some distance. -/
theorem C91_adaptive (σ : StdSort) (s s' : System) (f : ℕ) (t : ℝ) (n : ℕ) (p p' : ℝ) (hp : p ≤ p') (hok : Spec.SearchExact s (decide (s.nop > 4000)) t)
    (h1 : s.findNeighbors σ f (.adaptive t n p') = .ok s') :
    ∃ s'', s.findNeighbors σ f (.adaptive t n p) = .ok s'' ∧ s''.atoms.length = s'.atoms.length ∧
      ∀ (k : ℕ) (a b : Atom), s'.atoms[k]? = some a → s''.atoms[k]? = some b →
        ∃ c : ℝ, (b.nbrs = a.nbrs.filter fun x => decide (x.dist < c)) ∧ (b.nbrs ≠ [] → b.cutoff = some c) := by
  have hcand := candOK_of hok
  obtain ⟨ht, -⟩ := find_adaptive_ok hcand h1
  obtain ⟨g, hg, hs', hcap⟩ := ok_of_find h1
  obtain ⟨herr, hsucc⟩ := searchAdaptive_runs σ s f t n p' ht hcand.runs
  have hlen : ∀ k < s.atoms.length, (candList (s.candSettings (decide (s.nop > 4000)) t) k).Perm (cands (s.candSettings (decide (s.nop > 4000)) t) k) :=
    fun k hk => candList_perm hcand hk
  set T := candList (s.candSettings (decide (s.nop > 4000)) t) with hT
  have hall : ∀ k < s.atoms.length, n ≤ (T k).length := by
    by_contra hc
    push Not at hc
    have e : (s.startSearch f).search σ (.adaptive t n p') = _ := herr hc
    rw [e] at hg
    cases hg
  have e : (s.startSearch f).search σ (.adaptive t n p') = _ := hsucc hall
  rw [e] at hg
  obtain rfl := Except.ok.inj hg
  have h2 : (s.startSearch f).search σ (.adaptive t n p) = _ := (searchAdaptive_runs σ s f t n p ht hcand.runs).2 hall
  have hnb : ∀ p k, (adaptiveAtom σ { s with filter := f } n p k (candAtom s (T k) k)).nbrs =
      (adaptiveSel { s with filter := f } k (System.adaptiveCut p n (σ.sort (T k))) (σ.sort (T k))).map fun x => s.mkNb k x.idx := by
    intro p k
    rfl
  have hmem : ∀ k < s.atoms.length, ∀ x ∈ σ.sort (T k), x.dist = s.distOf k x.idx := by
    intro k hk x hx
    have := (hlen k hk).mem_iff.1 ((σ.perm _).mem_iff.1 hx)
    exact (cands_mem.1 this).2.2.1
  have hcut : ∀ k < s.atoms.length, System.adaptiveCut p n (σ.sort (T k)) ≤ System.adaptiveCut p' n (σ.sort (T k)) := by
    intro k hk
    unfold System.adaptiveCut
    have hs0 : 0 ≤ (((σ.sort (T k)).take n).map DAtom.dist).sum := by
      refine List.sum_nonneg fun y hy => ?_
      obtain ⟨x, hx, rfl⟩ := List.mem_map.1 hy
      rw [hmem k hk x (List.mem_of_mem_take hx)]
      exact Real.sqrt_nonneg _
    have hn0 : (0 : ℝ) ≤ 1 / n := by positivity
    exact mul_le_mul_of_nonneg_right (mul_le_mul_of_nonneg_right hp hn0) hs0
  have hpre : ∀ k < s.atoms.length, (adaptiveAtom σ { s with filter := f } n p k (candAtom s (T k) k)).nbrs =
      (adaptiveAtom σ { s with filter := f } n p' k (candAtom s (T k) k)).nbrs.filter fun x => decide (x.dist < System.adaptiveCut p n (σ.sort (T k))) := by
    intro k hk
    rw [hnb, hnb, List.filter_map]
    congr 1
    unfold adaptiveSel
    rw [List.filter_filter]
    refine List.filter_congr fun x hx => ?_
    have hd := hmem k hk x hx
    have hc := hcut k hk
    simp only [Function.comp_apply]
    rw [Bool.eq_iff_iff]
    simp only [decide_eq_true_eq, Bool.and_eq_true]
    show _ ↔ s.distOf k x.idx < _ ∧ _
    rw [← hd]
    constructor
    · rintro ⟨h1, h2⟩
      exact ⟨h1, by linarith, h2⟩
    · rintro ⟨h1, -, h2⟩
      exact ⟨h1, h2⟩
  have h4 := search_finishes h2 (by
    intro a ha
    obtain ⟨k, hk, rfl⟩ := List.mem_map.1 ha
    rw [hpre k (List.mem_range.1 hk)]
    exact (List.length_filter_le _ _).trans (hcap _ (List.mem_map_of_mem hk)))
  refine ⟨_, h4, by rw [hs']; simp, fun k a b ha hb => ?_⟩
  rw [hs'] at ha
  obtain ⟨hk, rfl⟩ := map_range_getElem? _ ha
  obtain ⟨-, rfl⟩ := map_range_getElem? _ hb
  refine ⟨_, hpre k hk, fun hne => ?_⟩
  rw [hnb] at hne
  unfold adaptiveAtom
  exact if_neg fun h => hne (by rw [← List.map_nil, ← h]; rfl)

/-- **C91, clusters**: with a larger cutoff clusters can only merge.  For a condition that does not depend on the
neighbours, two atoms in the same cluster for cutoff `r` are in the same cluster for `r'`. -/
theorem C91_clusters (σ σ' : StdSort) (s0 s s1 s1' s2 s2' : System) (l : List Atom) (hreal : ∀ a ∈ l, a.ghost = false)
    (h0 : s0.assignAtoms l = .ok s) (f : ℕ) (r r' : ℝ) (hr : r ≠ 0) (hr' : r' ≠ 0) (hrr : r ≤ r')
    (hp : Spec.PairsExact s r) (hp' : Spec.PairsExact s r')
    (h1 : s.findNeighbors σ f (.cutoff r) = .ok s1) (h1' : s.findNeighbors σ' f (.cutoff r') = .ok s1')
    (cond : Atom → Except Fault ℤ) (hcond : ∀ (i : ℕ) (a a' : Atom), s1.atoms[i]? = some a → s1'.atoms[i]? = some a' → cond a' = cond a)
    (c c' : ℝ) (hc : c' = 0 ∨ (c ≠ 0 ∧ c ≤ c')) (n n' : ℕ) (h2 : s1.clusterAtoms cond c = .ok (s2, n)) (h2' : s1'.clusterAtoms cond c' = .ok (s2', n')) :
    ∃ l2 l2', s2.getAtoms = .ok l2 ∧ s2'.getAtoms = .ok l2' ∧ l2.length = l.length ∧ l2'.length = l.length ∧
      (∀ (i : ℕ) (a a' : Atom), l2[i]? = some a → l2'[i]? = some a' → (a'.belongsto = -1 ↔ a.belongsto = -1)) ∧
      ∀ (i j : ℕ) (a b a' b' : Atom), l2[i]? = some a → l2[j]? = some b → l2'[i]? = some a' → l2'[j]? = some b' →
        a.belongsto = b.belongsto → a'.belongsto = b'.belongsto := by
  have hi0 : StoreInv s l := by
    obtain ⟨extra, e1, e2, e3, e4, e5, -⟩ := assign_shape hreal h0
    exact ⟨hreal, ⟨extra, e1, fun a ha => (e2 a ha).1, e5⟩, by rw [e4, e1], e3⟩
  have hnat : s.natoms = l.length := hi0.realNop
  obtain ⟨l2, lab, g1, g2, g3⟩ := C25_partial σ s s1 s2 l hi0 f r hr hp h1 cond c n h2
  obtain ⟨l2', lab', k1, k2, k3⟩ := C25_partial σ' s s1' s2' l hi0 f r' hr' hp' h1' cond c' n' h2'
  rw [hnat] at g2 g3 k2 k3
  obtain ⟨-, e1, -⟩ := cutoff_any hr hp h1
  obtain ⟨-, e1', -⟩ := cutoff_any hr' hp' h1'
  have hget : ∀ {L : List Atom} {b : ℕ → ℤ}, L.map Atom.belongsto = (List.range l.length).map b → ∀ {i : ℕ} {a : Atom}, L[i]? = some a →
      i < l.length ∧ a.belongsto = b i := by
    intro L b hL i a hi
    have h : (L.map Atom.belongsto)[i]? = some a.belongsto := by rw [List.getElem?_map, hi]; rfl
    rw [hL] at h
    obtain ⟨h5, h6⟩ := map_range_getElem? _ h
    exact ⟨h5, h6⟩
  have hmem : ∀ i : ℕ, Spec.Chosen s1 l.length cond i ↔ Spec.Chosen s1' l.length cond i := by
    intro i
    refine and_congr_right fun _ => ?_
    constructor
    · rintro ⟨a, v, ha, hv, h0⟩
      have hi : i < s1'.atoms.length := by
        have := (List.getElem?_eq_some_iff.1 ha).1
        omega
      exact ⟨_, v, List.getElem?_eq_getElem hi, by rw [hcond i a _ ha (List.getElem?_eq_getElem hi)]; exact hv, h0⟩
    · rintro ⟨a, v, ha, hv, h0⟩
      have hi : i < s1.atoms.length := by
        have := (List.getElem?_eq_some_iff.1 ha).1
        omega
      exact ⟨_, v, List.getElem?_eq_getElem hi, by rw [← hcond i _ a (List.getElem?_eq_getElem hi) ha]; exact hv, h0⟩
  refine ⟨l2, l2', g1, k1, by simpa using congrArg List.length g2, by simpa using congrArg List.length k2, ?_, ?_⟩
  · intro i a a' ha ha'
    obtain ⟨hi, e⟩ := hget g2 ha
    obtain ⟨-, e'⟩ := hget k2 ha'
    rw [e, e', g3.outside i hi, k3.outside i hi, hmem i]
  · intro i j a b a' b' ha hb ha' hb' hab
    obtain ⟨hi, ea⟩ := hget g2 ha
    obtain ⟨hj, eb⟩ := hget g2 hb
    obtain ⟨-, ea'⟩ := hget k2 ha'
    obtain ⟨-, eb'⟩ := hget k2 hb'
    rw [ea, eb] at hab
    rw [ea', eb']
    by_cases hmi : Spec.Chosen s1 l.length cond i
    · have hmj : Spec.Chosen s1 l.length cond j := by
        by_contra hmj
        have h3 := (g3.outside j hj).2 hmj
        rw [h3] at hab
        exact (g3.outside i hi).1 hab hmi
      rw [k3.same i hi j hj ((hmem i).1 hmi) ((hmem j).1 hmj)]
      refine Relation.ReflTransGen.mono ?_ i j ((g3.same i hi j hj hmi hmj).1 hab)
      rintro u v ⟨q1, q2, x, y, q4, q5, ⟨q3, q6, q7⟩, q8⟩
      refine ⟨(hmem u).1 q1, (hmem v).1 q2, x, y, q4, q5, ⟨q3, by linarith, q7⟩, fun h => ?_⟩
      rcases hc with h' | ⟨h', h''⟩
      · exact absurd h' h
      · exact (q8 h').trans h''
    · have hmj : ¬ Spec.Chosen s1 l.length cond j := by
        intro hmj
        have h3 := (g3.outside i hi).2 hmi
        rw [h3] at hab
        exact (g3.outside j hj).1 hab.symm hmj
      rw [(k3.outside i hi).2 (fun h => hmi ((hmem i).2 h)), (k3.outside j hj).2 (fun h => hmj ((hmem j).2 h))]

/-- The hypotheses of `C91_cutoff` and `C91_clusters` hold for 200 atoms in a row, with cutoffs 3/2 and 5/2 and all atoms in the condition. -/
example (σ : StdSort) : ∃ s0 s s1 s1' s2 s2' : System, ∃ n n', System.init.setBox (Spec.diagBox 1000 1000 1000) = .ok s0 ∧ s0.assignAtoms chainAtoms = .ok s ∧
    (∀ a ∈ chainAtoms, a.ghost = false) ∧ chainAtoms.length = 200 ∧ s.findNeighbors σ 0 (.cutoff (3 / 2)) = .ok s1 ∧ s.findNeighbors σ 0 (.cutoff (5 / 2)) = .ok s1' ∧
    s1.clusterAtoms (fun _ => .ok 1) 0 = .ok (s2, n) ∧ s1'.clusterAtoms (fun _ => .ok 1) 0 = .ok (s2', n') := by
  obtain ⟨s0, s, h1, h2, hi, ha, -⟩ := chain_setup
  have hlen := chainAtoms_length
  have hrn : s.realNop = 200 := by rw [hi.realNop, hlen]
  have hal : s.atoms.length = 200 := by rw [ha, hlen]
  obtain ⟨f1, f2, -⟩ := setBox_frame h1
  have hnsk : ¬ Spec.Skew s0.getBox := by
    have : s0.getBox = Spec.diagBox 1000 1000 1000 := by simp [System.getBox, f1, f2, System.init]
    rw [this, ← skewed_iff]; exact not_skewed_diag _ _ _
  have hrun : ∀ r : ℝ, r ≠ 0 → ∃ s1 s2 n, s.findNeighbors σ 0 (.cutoff r) = .ok s1 ∧ s1.clusterAtoms (fun _ => .ok 1) 0 = .ok (s2, n) := by
    intro r hr
    obtain ⟨s1, h3⟩ := (C09_overrun σ s 0 r hr (by omega) (by omega)).2 (by
      intro k hk
      rw [← cutoffList_length (List.getElem?_eq_getElem hk) (cutoffNbs_spec (List.getElem?_eq_getElem hk))]
      exact (cutoffNbs_le _ _ _ _).trans (by omega))
    obtain ⟨s2, n, h4⟩ := C25_run σ s0 s s1 chainAtoms hi.real (by omega) (fun h => absurd h hnsk) h2 0 r hr (pairsExact_assign hi.real h2 (by omega) r) h3 (fun _ => .ok 1) 0
      (fun _ => ⟨1, rfl, .inr rfl⟩)
    exact ⟨s1, s2, n, h3, h4⟩
  obtain ⟨s1, s2, n, h3, h4⟩ := hrun (3 / 2) (by norm_num)
  obtain ⟨s1', s2', n', h3', h4'⟩ := hrun (5 / 2) (by norm_num)
  exact ⟨s0, s, s1, s1', s2, s2', n, n', h1, h2, hi.real, hlen, h3, h3', h4, h4'⟩

/-- The hypotheses of `C91_number` and `C91_adaptive` hold for the same atoms: 12 nearest, and padding 3/2. -/
example (σ : StdSort) : ∃ s0 s s1 s2 : System, System.init.setBox (Spec.diagBox 1000 1000 1000) = .ok s0 ∧ s0.assignAtoms chainAtoms = .ok s ∧
    Spec.SearchExact s (decide (s.realNop > 4000)) 2 ∧ Spec.SearchExact s (decide (s.nop > 4000)) 2 ∧
    s.findNeighbors σ 0 (.number 2 12 true) = .ok s1 ∧ s.findNeighbors σ 0 (.adaptive 2 6 (3 / 2)) = .ok s2 := by
  obtain ⟨s0, s, h1, h2, hi, ha, -, hb, ht⟩ := chain_setup
  have hlen := chainAtoms_length
  have hrn : s.realNop = 200 := by rw [hi.realNop, hlen]
  have hal : s.atoms.length = 200 := by rw [ha, hlen]
  have hnop : s.nop = 200 := by rw [hi.nop, hal]
  have hch : ChainLike s := ⟨hb, ht, hal, hnop, fun i hi => ⟨_, by rw [ha]; exact chainAtoms_get i hi, rfl⟩⟩
  have hc := chain_count hch
  obtain ⟨s1, e1⟩ := ((C12_errors σ s 0 2 _ ((searchRadius_iff _ _ _).2 rfl) 12 true).2 (by norm_num) (by omega) (by omega)).2
    (fun k hk => le_trans (by norm_num) (hc k hk)) (by norm_num)
  obtain ⟨s2, e2⟩ := adaptive_succeeds σ s 0 2 6 (3 / 2) (by norm_num) (by omega) (fun k hk => le_trans (by norm_num) (hc k hk)) (by omega)
  refine ⟨s0, s, s1, s2, h1, h2, ?_, ?_, e1, e2⟩
  · rw [hrn]; exact exact_small
  · rw [hnop]; exact exact_small

end Pyscal
