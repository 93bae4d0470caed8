import Verif.Model.Sharing
import Verif.Lemmas.Text
import Verif.Props.PerfectChi
import Verif.Props.Frame

/-! Property C108: the cosines stored by `calculate_chiparams(angles=True)`, and what other systems see of them. -/

namespace Pyscal

/-- What a system shows: its stored atoms, each with the content of its `custom` dictionary. -/
def Spec.shows (w : Objects) (k : ℕ) : List (Atom × PyDict) := (w.systems k).sys.atoms.zip ((w.systems k).refs.map w.heap)

/-- The `custom` dictionary of atom `i` of system `k`. -/
def Spec.customOf (w : Objects) (k i : ℕ) : Option PyDict := ((w.systems k).refs[i]?).map w.heap

/-- Every stored atom has a dictionary, in use, of its own. -/
structure Spec.OwnDicts (w : Objects) (k : ℕ) : Prop where
  length : (w.systems k).refs.length = (w.systems k).sys.atoms.length
  nodup : (w.systems k).refs.Nodup
  used : ∀ r ∈ (w.systems k).refs, r < w.next

/-- No system shares a dictionary with another. -/
def Spec.Separate (w : Objects) : Prop := ∀ j k, j ≠ k → ∀ r ∈ (w.systems j).refs, r ∉ (w.systems k).refs

/-- What can be done with systems, except giving the atoms of one to another. -/
inductive Spec.Step where
  | setBox (k : ℕ) (b : Mat3)
  | assignNew (k : ℕ) (l : List Atom)
  | reassign (k : ℕ)
  | search (σ : StdSort) (k filter : ℕ) (m : Method)
  | chi (k : ℕ) (angles : Bool)
  | edit (k i : ℕ) (key : String) (v : CVal)

/-- The system concerned. -/
def Spec.Step.target : Spec.Step → ℕ
  | .setBox k _ => k
  | .assignNew k _ => k
  | .reassign k => k
  | .search _ k _ _ => k
  | .chi k _ => k
  | .edit k _ _ _ => k

/-- The call, whether or not it raises. -/
noncomputable def Spec.Step.run (w : Objects) : Spec.Step → Objects
  | .setBox k b => (w.setBox k b).1
  | .assignNew k l => (w.assignNew k l).1
  | .reassign k => (w.assignFrom k k).1
  | .search σ k f m => (w.findNeighbors σ k f m).1
  | .chi k angles => (w.calculateChi k angles).1
  | .edit k i key v => (w.editCustom k i key v).1

/-! ### The dictionaries -/

theorem setItem_self (h : ℕ → PyDict) (r : ℕ) (key : String) (v : CVal) : setItem h r key v r = dictSet (h r) key v := by
  simp [setItem]

theorem setItem_ne (h : ℕ → PyDict) {r q : ℕ} (hq : q ≠ r) (key : String) (v : CVal) : setItem h r key v q = h q := by
  simp [setItem, hq]

theorem setItems_ne (L : List (Atom × ℕ)) (f : Atom → CVal) (key : String) (q : ℕ) : ∀ (h : ℕ → PyDict), (∀ p ∈ L, p.2 ≠ q) →
    L.foldl (fun h (p : Atom × ℕ) => setItem h p.2 key (f p.1)) h q = h q := by
  induction L with
  | nil => intro h _; rfl
  | cons p L ih =>
    intro h hL
    rw [List.foldl_cons, ih _ fun x hx => hL x (List.mem_cons_of_mem _ hx), setItem_ne _ (hL p List.mem_cons_self).symm]

theorem setItems_get (L : List (Atom × ℕ)) (f : Atom → CVal) (key : String) : ∀ (h : ℕ → PyDict), (L.map Prod.snd).Nodup → ∀ p ∈ L,
    L.foldl (fun h (p : Atom × ℕ) => setItem h p.2 key (f p.1)) h p.2 = dictSet (h p.2) key (f p.1) := by
  induction L with
  | nil => intro h _ p hp; simp at hp
  | cons q L ih =>
    intro h hn p hp
    rw [List.map_cons, List.nodup_cons] at hn
    rw [List.foldl_cons]
    rcases List.mem_cons.1 hp with rfl | hp
    · rw [setItems_ne _ _ _ _ _ fun x hx he => hn.1 (by rw [← he]; exact List.mem_map_of_mem hx), setItem_self]
    · rw [ih _ hn.2 p hp, setItem_ne]
      intro he
      exact hn.1 (he ▸ List.mem_map_of_mem hp)

/-! ### The operations -/

theorem zip_snd {α β : Type} : ∀ (l : List α) (m : List β), (l.zip m).map Prod.snd = m.take l.length
  | [], _ => by simp
  | _ :: _, [] => by simp
  | a :: l, b :: m => by
    rw [List.zip_cons_cons, List.map_cons, zip_snd l m]
    rfl

theorem Objects.getAtoms_refs {w : Objects} {k : ℕ} {l : List (Atom × ℕ)} (h : w.getAtoms k = .ok l) :
    (l.map Prod.snd).Sublist (w.systems k).refs ∧ ∃ L, (w.systems k).sys.getAtoms = .ok L ∧ l = L.zip (w.systems k).refs := by
  unfold Objects.getAtoms at h
  cases hg : (w.systems k).sys.getAtoms with
  | error e => rw [hg] at h; cases h
  | ok L =>
    rw [hg] at h
    cases h
    refine ⟨?_, L, rfl, rfl⟩
    rw [zip_snd]
    exact List.take_sublist _ _

theorem Objects.assign_ok {w w' : Objects} {k : ℕ} {l : List (Atom × ℕ)} (h : w.assign k l = .ok w') :
    ∃ s, (w.systems k).sys.assignAtoms (l.map Prod.fst) = .ok s ∧ (w'.systems k).sys = s ∧
      (w'.systems k).refs = l.map Prod.snd ++ List.range' w.next (s.atoms.length - l.length) ∧
      w'.next = w.next + (s.atoms.length - l.length) ∧ (∀ r < w.next, w'.heap r = w.heap r) ∧ (∀ r, w.next ≤ r → w'.heap r = []) ∧
      (∀ j, j ≠ k → w'.systems j = w.systems j) ∧ l.length ≤ s.atoms.length := by
  unfold Objects.assign at h
  cases ha : (w.systems k).sys.assignAtoms (l.map Prod.fst) with
  | error e => rw [ha] at h; cases h
  | ok s =>
    rw [ha] at h
    cases h
    obtain ⟨extra, he⟩ := assign_prefix ha
    refine ⟨s, rfl, by simp, by simp, rfl, fun r hr => ?_, fun r hr => ?_, fun j hj => by simp [hj], ?_⟩
    · simp [Nat.not_le.2 hr]
    · simp [hr]
    · rw [he, List.length_append, List.length_map]
      omega

/-- The state of the dictionaries of all systems. -/
structure Sound (w : Objects) : Prop where
  own : ∀ k, Spec.OwnDicts w k
  separate : Spec.Separate w

/-- Assigning atoms whose dictionaries are the system's own or new. -/
theorem Sound.assign {w w' : Objects} (hw : Sound w) {k : ℕ} {l : List (Atom × ℕ)} (h : w.assign k l = .ok w') (hn : (l.map Prod.snd).Nodup)
    (hu : ∀ r ∈ l.map Prod.snd, r < w.next) (hs : ∀ j, j ≠ k → ∀ r ∈ l.map Prod.snd, r ∉ (w.systems j).refs) :
    Sound w' ∧ ∀ j, j ≠ k → Spec.shows w' j = Spec.shows w j := by
  obtain ⟨s, h1, h2, h3, h4, h5, -, h7, h8⟩ := Objects.assign_ok h
  have hnew : ∀ r ∈ List.range' w.next (s.atoms.length - l.length), w.next ≤ r ∧ r < w'.next := by
    intro r hr
    rw [List.mem_range'_1] at hr
    omega
  have hk : ∀ j, j ≠ k → ∀ r ∈ (w.systems j).refs, r ∉ (w'.systems k).refs := by
    intro j hj r hr hr'
    rw [h3] at hr'
    rcases List.mem_append.1 hr' with hr' | hr'
    · exact hs j hj r hr' hr
    · have := (hw.own j).used r hr
      have := (hnew r hr').1
      omega
  refine ⟨⟨fun j => ?_, fun i j hij r hr hr' => ?_⟩, fun j hj => ?_⟩
  · by_cases hj : j = k
    · subst hj
      refine ⟨?_, ?_, ?_⟩
      · rw [h3, h2, List.length_append, List.length_map, List.length_range']
        omega
      · rw [h3, List.nodup_append]
        refine ⟨hn, List.nodup_range' , ?_⟩
        intro a ha b hb
        have := hu a ha
        have := (hnew b hb).1
        omega
      · intro r hr
        rw [h3] at hr
        rcases List.mem_append.1 hr with hr | hr
        · have := hu r hr
          omega
        · exact (hnew r hr).2
    · have := hw.own j
      exact ⟨by rw [h7 j hj]; exact this.length, by rw [h7 j hj]; exact this.nodup, by
        rw [h7 j hj]
        intro r hr
        have := this.used r hr
        omega⟩
  · by_cases hi : i = k
    · subst hi
      rw [h7 j (Ne.symm hij)] at hr'
      exact hk j (Ne.symm hij) r hr' hr
    · rw [h7 i hi] at hr
      by_cases hj : j = k
      · subst hj
        exact hk i hij r hr hr'
      · rw [h7 j hj] at hr'
        exact hw.separate i j hij r hr hr'
  · unfold Spec.shows
    rw [h7 j hj]
    congr 1
    refine List.map_congr_left fun r hr => ?_
    exact h5 r ((hw.own j).used r hr)

/-- Changing the content of dictionaries of one system. -/
theorem Sound.heap {w : Objects} (hw : Sound w) {k : ℕ} (h : ℕ → PyDict) (hh : ∀ r, r ∉ (w.systems k).refs → r < w.next → h r = w.heap r) :
    Sound { w with heap := h } ∧ ∀ j, j ≠ k → Spec.shows { w with heap := h } j = Spec.shows w j := by
  refine ⟨⟨fun j => ⟨(hw.own j).length, (hw.own j).nodup, (hw.own j).used⟩, hw.separate⟩, fun j hj => ?_⟩
  unfold Spec.shows
  congr 1
  refine List.map_congr_left fun r hr => ?_
  exact hh r (hw.separate j k hj r hr) ((hw.own j).used r hr)

/-- Replacing a system by one with as many atoms. -/
theorem Sound.replace {w : Objects} (hw : Sound w) (k : ℕ) (s : System) (hs : s.atoms.length = (w.systems k).sys.atoms.length) :
    Sound { w with systems := Function.update w.systems k ⟨s, (w.systems k).refs⟩ } ∧
      ∀ j, j ≠ k → Spec.shows { w with systems := Function.update w.systems k ⟨s, (w.systems k).refs⟩ } j = Spec.shows w j := by
  have hrefs : ∀ j, (Function.update w.systems k ⟨s, (w.systems k).refs⟩ j).refs = (w.systems j).refs := by
    intro j
    by_cases hj : j = k
    · subst hj; simp
    · simp [hj]
  refine ⟨⟨fun j => ?_, ?_⟩, fun j hj => ?_⟩
  · refine ⟨?_, ?_, ?_⟩
    · rw [hrefs]
      by_cases hj : j = k
      · subst hj
        simp [hs, (hw.own j).length]
      · simp [hj, (hw.own j).length]
    · rw [hrefs]; exact (hw.own j).nodup
    · rw [hrefs]; exact (hw.own j).used
  · intro i j hij r
    rw [hrefs, hrefs]
    exact hw.separate i j hij r
  · unfold Spec.shows
    simp [hj]

/-- Every operation keeps the dictionaries apart, and concerns one system only. -/
theorem Sound.step {w : Objects} (hw : Sound w) (op : Spec.Step) : Sound (op.run w) ∧ ∀ j, j ≠ op.target → Spec.shows (op.run w) j = Spec.shows w j := by
  cases op with
  | setBox k b =>
    change Sound (w.setBox k b).1 ∧ ∀ j, j ≠ k → Spec.shows (w.setBox k b).1 j = Spec.shows w j
    unfold Objects.setBox
    cases hs : (w.systems k).sys.setBox b with
    | error e => exact ⟨hw, fun _ _ => rfl⟩
    | ok s => exact hw.replace k s (by rw [(setBox_frame hs).2.2.1])
  | search σ k f m =>
    change Sound (w.findNeighbors σ k f m).1 ∧ ∀ j, j ≠ k → Spec.shows (w.findNeighbors σ k f m).1 j = Spec.shows w j
    unfold Objects.findNeighbors
    cases hs : (w.systems k).sys.findNeighbors σ f m with
    | error e => exact ⟨hw, fun _ _ => rfl⟩
    | ok s => exact hw.replace k s (by
        have := congrArg List.length (Kept.findNeighbors hs).atoms
        rwa [List.length_map, List.length_map] at this)
  | edit k i key v =>
    change Sound (w.editCustom k i key v).1 ∧ ∀ j, j ≠ k → Spec.shows (w.editCustom k i key v).1 j = Spec.shows w j
    unfold Objects.editCustom
    cases hg : w.getAtoms k with
    | error e => exact ⟨hw, fun _ _ => rfl⟩
    | ok l =>
      dsimp only
      cases hi : l[i]? with
      | none => exact ⟨hw, fun _ _ => rfl⟩
      | some p =>
        refine hw.heap (k := k) _ fun r hr _ => setItem_ne _ ?_ _ _
        rintro rfl
        exact hr ((Objects.getAtoms_refs hg).1.mem (List.mem_map_of_mem (List.mem_of_getElem? hi)))
  | assignNew k l =>
    change Sound (w.assignNew k l).1 ∧ ∀ j, j ≠ k → Spec.shows (w.assignNew k l).1 j = Spec.shows w j
    unfold Objects.assignNew
    have h0 : Sound { w with heap := fun r => if w.next ≤ r then [] else w.heap r, next := w.next + l.length } ∧
        ∀ j, Spec.shows { w with heap := fun r => if w.next ≤ r then [] else w.heap r, next := w.next + l.length } j = Spec.shows w j := by
      refine ⟨⟨fun j => ⟨(hw.own j).length, (hw.own j).nodup, fun r hr => lt_of_lt_of_le ((hw.own j).used r hr) (Nat.le_add_right _ _)⟩, hw.separate⟩, fun j => ?_⟩
      unfold Spec.shows
      congr 1
      refine List.map_congr_left fun r hr => ?_
      dsimp only
      rw [if_neg (Nat.not_le.2 ((hw.own j).used r hr))]
    dsimp only
    have hsnd : (l.zip (List.range' w.next l.length)).map Prod.snd = List.range' w.next l.length := by
      rw [zip_snd, List.take_of_length_le (by simp)]
    cases ha : Objects.assign { w with heap := fun r => if w.next ≤ r then [] else w.heap r, next := w.next + l.length } k (l.zip (List.range' w.next l.length)) with
    | error e => exact ⟨h0.1, fun j _ => h0.2 j⟩
    | ok w' =>
      obtain ⟨g1, g2⟩ := h0.1.assign ha (by rw [hsnd]; exact List.nodup_range') (by
        intro r hr
        rw [hsnd, List.mem_range'_1] at hr
        exact hr.2) (by
        intro j _ r hr hr'
        rw [hsnd, List.mem_range'_1] at hr
        have := (hw.own j).used r hr'
        omega)
      exact ⟨g1, fun j hj => (g2 j hj).trans (h0.2 j)⟩
  | reassign k =>
    change Sound (w.assignFrom k k).1 ∧ ∀ j, j ≠ k → Spec.shows (w.assignFrom k k).1 j = Spec.shows w j
    unfold Objects.assignFrom
    cases hg : w.getAtoms k with
    | error e => exact ⟨hw, fun _ _ => rfl⟩
    | ok l =>
      have hsub := (Objects.getAtoms_refs hg).1
      dsimp only
      cases ha : w.assign k l with
      | error e => exact ⟨hw, fun _ _ => rfl⟩
      | ok w' => exact hw.assign ha (hsub.nodup (hw.own k).nodup) (fun r hr => (hw.own k).used r (hsub.mem hr)) (fun j hj r hr => hw.separate k j (Ne.symm hj) r (hsub.mem hr))
  | chi k angles =>
    change Sound (w.calculateChi k angles).1 ∧ ∀ j, j ≠ k → Spec.shows (w.calculateChi k angles).1 j = Spec.shows w j
    unfold Objects.calculateChi
    cases hg : w.getAtoms k with
    | error e => exact ⟨hw, fun _ _ => rfl⟩
    | ok l =>
      have hsub := (Objects.getAtoms_refs hg).1
      dsimp only
      set h := if angles then l.foldl (fun h (p : Atom × ℕ) => setItem h p.2 "cosines" (.nums (costhetas p.1))) w.heap else w.heap with hh
      have h0 := hw.heap (k := k) h (by
        intro r hr _
        rw [hh]
        split_ifs
        · refine setItems_ne l (fun a => .nums (costhetas a)) "cosines" r w.heap fun p hp he => ?_
          exact hr (hsub.mem (he ▸ List.mem_map_of_mem hp))
        · rfl)
      have hsnd : (l.map fun p : Atom × ℕ => (chi1 p.1, p.2)).map Prod.snd = l.map Prod.snd := by
        rw [List.map_map]
        rfl
      cases ha : Objects.assign { w with heap := h } k (l.map fun p : Atom × ℕ => (chi1 p.1, p.2)) with
      | error e => exact h0
      | ok w' =>
        obtain ⟨g1, g2⟩ := h0.1.assign ha (by rw [hsnd]; exact hsub.nodup (hw.own k).nodup) (by
          rw [hsnd]
          exact fun r hr => (hw.own k).used r (hsub.mem hr)) (by
          rw [hsnd]
          exact fun j hj r hr => hw.separate k j (Ne.symm hj) r (hsub.mem hr))
        exact ⟨g1, fun j hj => (g2 j hj).trans (h0.2 j hj)⟩

theorem sound_init : Sound Objects.init :=
  ⟨fun _ => ⟨rfl, List.nodup_nil, by simp [Objects.init]⟩, by simp [Spec.Separate, Objects.init]⟩

theorem sound_run (ops : List Spec.Step) : ∀ w, Sound w → Sound (ops.foldl Spec.Step.run w) := by
  induction ops with
  | nil => exact fun w h => h
  | cons op ops ih => exact fun w h => ih _ (h.step op).1

/-- **C108, what holds.**  Full statement: whatever is done with one `System`, any other shows the same atoms, attributes and `custom` values as before.
Proved: after any history of calls (raising or not) in which every system is given atoms made for it, or its own, the next such call leaves what all other
systems show unchanged.  Missing: systems that are given atoms of another one, see `C108_false_shared`. -/
theorem C108_partial (ops : List Spec.Step) (op : Spec.Step) (j : ℕ) (hj : j ≠ op.target) :
    Spec.shows ((ops ++ [op]).foldl Spec.Step.run Objects.init) j = Spec.shows (ops.foldl Spec.Step.run Objects.init) j := by
  rw [List.foldl_append]
  exact ((sound_run ops _ sound_init).step op).2 j hj

/-! ### The cosines -/

theorem pairs_lex (n : ℕ) : (pairs n).Pairwise fun p q => p.1 < q.1 ∨ p.1 = q.1 ∧ p.2 < q.2 := by
  unfold pairs
  rw [List.pairwise_flatMap]
  refine ⟨fun i _ => ?_, ?_⟩
  · rw [List.pairwise_map]
    exact (List.Pairwise.filter _ List.pairwise_lt_range).imp fun h => .inr ⟨rfl, h⟩
  · refine List.pairwise_lt_range.imp fun h => ?_
    intro x hx y hy
    obtain ⟨a, -, rfl⟩ := List.mem_map.1 hx
    obtain ⟨b, -, rfl⟩ := List.mem_map.1 hy
    exact .inl h

open Classical in
/-- The cosine of the angle between two neighbour vectors, NaN (`none`) if one of them is zero. -/
noncomputable def Spec.cosine (l : List Nb) (p : ℕ × ℕ) : Option ℝ :=
  if Spec.nbVector l p.1 = 0 ∨ Spec.nbVector l p.2 = 0 then none else some (Spec.cosAngle (Spec.nbVector l p.1) (Spec.nbVector l p.2))

theorem costhetas_eq (a : Atom) : costhetas a = (pairs a.nbrs.length).map (Spec.cosine a.nbrs) := by
  unfold costhetas Spec.cosine
  refine List.map_congr_left fun p _ => ?_
  rw [nbVec_eq, nbVec_eq]
  split_ifs with h
  · exact pyCos_none h
  · exact pyCos_eq (fun h1 => h (.inl h1)) fun h2 => h (.inr h2)

/-- `calculate_chiparams(angles=True)` in a system whose atoms have dictionaries of their own. -/
theorem chi_dicts {w w' : Objects} {k : ℕ} {reals : List Atom} (hi : StoreInv (w.systems k).sys reals) (ho : Spec.OwnDicts w k)
    (h : w.calculateChi k true = (w', .ok ())) :
    (w.systems k).sys.calculateChi = .ok (w'.systems k).sys ∧ (w'.systems k).refs.take reals.length = (w.systems k).refs.take reals.length ∧
    ∀ (i : ℕ) (a : Atom) (r : ℕ), reals[i]? = some a → (w.systems k).refs[i]? = some r → w'.heap r = dictSet (w.heap r) "cosines" (.nums (costhetas a)) := by
  unfold Objects.calculateChi at h
  have hg : w.getAtoms k = .ok (reals.zip (w.systems k).refs) := by
    unfold Objects.getAtoms
    rw [getAtoms_inv hi]
  obtain ⟨gs, hs, -⟩ := hi.ex
  have hlen : reals.length ≤ (w.systems k).refs.length := by
    rw [ho.length, hs, List.length_append]
    omega
  rw [hg] at h
  dsimp only at h
  rw [if_pos rfl] at h
  set H := (reals.zip (w.systems k).refs).foldl (fun h (p : Atom × ℕ) => setItem h p.2 "cosines" (.nums (costhetas p.1))) w.heap with hH
  cases ha : Objects.assign { w with heap := H } k ((reals.zip (w.systems k).refs).map fun p : Atom × ℕ => (chi1 p.1, p.2)) with
  | error e => rw [ha] at h; cases congrArg Prod.snd h
  | ok v =>
    rw [ha] at h
    obtain rfl : v = w' := congrArg Prod.fst h
    obtain ⟨s, h1, h2, h3, -, h5, -, -, -⟩ := Objects.assign_ok ha
    have e1 : ((reals.zip (w.systems k).refs).map fun p : Atom × ℕ => (chi1 p.1, p.2)).map Prod.fst = reals.map chi1 := by
      rw [List.map_map, ← List.map_fst_zip hlen (l₁ := reals), List.map_map]
      rw [List.map_fst_zip hlen]
      rfl
    have e2 : ((reals.zip (w.systems k).refs).map fun p : Atom × ℕ => (chi1 p.1, p.2)).map Prod.snd = (w.systems k).refs.take reals.length := by
      rw [List.map_map, ← zip_snd]
      rfl
    refine ⟨?_, ?_, fun i a r hia hir => ?_⟩
    · unfold System.calculateChi
      rw [getAtoms_inv hi, h2, ← h1, e1]
      rfl
    · rw [h3, e2, List.take_append_of_le_length (by rw [List.length_take]; omega), List.take_take, min_self]
    · have hmem : (a, r) ∈ reals.zip (w.systems k).refs := by
        refine List.mem_of_getElem? (i := i) ?_
        rw [List.getElem?_zip_eq_some]
        exact ⟨hia, hir⟩
      rw [h5 r (ho.used r (List.mem_of_getElem? hir)), hH]
      exact setItems_get _ (fun a => .nums (costhetas a)) "cosines" w.heap (by
        rw [zip_snd]
        exact (List.take_sublist _ _).nodup ho.nodup) (a, r) hmem

/-- **C108, the cosines.**  In a system whose atoms have dictionaries of their own, after a successful `calculate_chiparams(angles=True)` the entry `cosines` of
each atom is the list of the cosines of the angles between its neighbours, one for each of the `n(n-1)/2` pairs of neighbours in lexicographic order, NaN exactly where a neighbour
vector is zero; each lies between -1 and 1; the other entries are unchanged; and the atoms are those of `calculate_chiparams()` (C31). -/
theorem C108_cosines {w w' : Objects} {k : ℕ} {reals : List Atom} (hi : StoreInv (w.systems k).sys reals) (ho : Spec.OwnDicts w k)
    (h : w.calculateChi k true = (w', .ok ())) :
    (w.systems k).sys.calculateChi = .ok (w'.systems k).sys ∧ ∀ (i : ℕ) (a : Atom), reals[i]? = some a → ∃ (d d' : PyDict) (ps : List (ℕ × ℕ)),
      Spec.customOf w k i = some d ∧ Spec.customOf w' k i = some d' ∧ (∀ key, key ≠ "cosines" → dictGet d' key = dictGet d key) ∧
      ps.Pairwise (fun p q => p.1 < q.1 ∨ p.1 = q.1 ∧ p.2 < q.2) ∧ (∀ p, p ∈ ps ↔ p.1 < p.2 ∧ p.2 < a.nbrs.length) ∧ 2 * ps.length = a.nbrs.length * (a.nbrs.length - 1) ∧
      dictGet d' "cosines" = some (.nums (ps.map (Spec.cosine a.nbrs))) ∧ ∀ p ∈ ps, ∀ c, Spec.cosine a.nbrs p = some c → -1 ≤ c ∧ c ≤ 1 := by
  obtain ⟨h1, h2, h3⟩ := chi_dicts hi ho h
  refine ⟨h1, fun i a hia => ?_⟩
  obtain ⟨gs, hs, -⟩ := hi.ex
  have hil : i < reals.length := (List.getElem?_eq_some_iff.1 hia).1
  have hir : i < (w.systems k).refs.length := by
    rw [ho.length, hs, List.length_append]
    omega
  have hr := List.getElem?_eq_getElem hir
  have hr' : (w'.systems k).refs[i]? = some (w.systems k).refs[i] := by
    rw [← List.getElem?_take_of_lt hil, h2, List.getElem?_take_of_lt hil, hr]
  have hd := h3 i a _ hia hr
  refine ⟨w.heap (w.systems k).refs[i], w'.heap (w.systems k).refs[i], pairs a.nbrs.length, ?_, ?_, fun key hk => ?_, pairs_lex _, fun p => ?_, pairs_length _, ?_, fun p _ c hc => ?_⟩
  · unfold Spec.customOf
    rw [hr, Option.map_some]
  · unfold Spec.customOf
    rw [hr', Option.map_some]
  · rw [hd, dictGet_set_ne _ _ hk]
  · rw [mem_pairs]
  · rw [hd, dictGet_set_self, costhetas_eq]
  · unfold Spec.cosine at hc
    split_ifs at hc with hz
    cases hc
    push Not at hz
    exact cosAngle_mem hz.1 hz.2

/-- Without `angles` no dictionary in use is touched. -/
theorem chi_plain_heap {w w' : Objects} {k : ℕ} (e : Except Fault Unit) (h : w.calculateChi k false = (w', e)) (r : ℕ) (hr : r < w.next) : w'.heap r = w.heap r := by
  unfold Objects.calculateChi at h
  cases hg : w.getAtoms k with
  | error e' =>
    rw [hg] at h
    have h1 : w = w' := congrArg Prod.fst h
    rw [h1]
  | ok l =>
    rw [hg] at h
    dsimp only at h
    rw [if_neg (by decide)] at h
    split at h
    · have h1 := congrArg Prod.fst h
      dsimp only at h1
      rw [← h1]
    · rename_i v hv
      obtain rfl : v = w' := congrArg Prod.fst h
      obtain ⟨_, -, -, -, -, h5, -⟩ := Objects.assign_ok hv
      exact h5 r hr

/-- **C108, without `angles`.**  After a successful `calculate_chiparams()` every atom of the system shows the `custom` values it had, so do all atoms of the other systems, and the atoms are
those of `calculate_chiparams()` (C31). -/
theorem C108_plain {w w' : Objects} {k : ℕ} {reals : List Atom} (hi : StoreInv (w.systems k).sys reals) (ho : ∀ j, Spec.OwnDicts w j)
    (h : w.calculateChi k false = (w', .ok ())) :
    (w.systems k).sys.calculateChi = .ok (w'.systems k).sys ∧ (∀ i < reals.length, Spec.customOf w' k i = Spec.customOf w k i) ∧
      ∀ j, j ≠ k → (w'.systems j).sys = (w.systems j).sys ∧ ∀ i, Spec.customOf w' j i = Spec.customOf w j i := by
  have hh := chi_plain_heap _ h
  unfold Objects.calculateChi at h
  have hg : w.getAtoms k = .ok (reals.zip (w.systems k).refs) := by
    unfold Objects.getAtoms
    rw [getAtoms_inv hi]
  obtain ⟨gs, hs, -⟩ := hi.ex
  have hlen : reals.length ≤ (w.systems k).refs.length := by
    rw [(ho k).length, hs, List.length_append]
    omega
  have hcu : ∀ (j i : ℕ), (w'.systems j).refs[i]? = (w.systems j).refs[i]? → Spec.customOf w' j i = Spec.customOf w j i := by
    intro j i he
    unfold Spec.customOf
    rw [he]
    cases hr : (w.systems j).refs[i]? with
    | none => rfl
    | some r => rw [Option.map_some, Option.map_some, hh r ((ho j).used r (List.mem_of_getElem? hr))]
  rw [hg] at h
  dsimp only at h
  rw [if_neg (by decide)] at h
  cases ha : Objects.assign { w with heap := w.heap } k ((reals.zip (w.systems k).refs).map fun p : Atom × ℕ => (chi1 p.1, p.2)) with
  | error e => rw [ha] at h; cases congrArg Prod.snd h
  | ok v =>
    rw [ha] at h
    obtain rfl : v = w' := congrArg Prod.fst h
    obtain ⟨s, h1, h2, h3, -, -, -, h7, -⟩ := Objects.assign_ok ha
    have e1 : ((reals.zip (w.systems k).refs).map fun p : Atom × ℕ => (chi1 p.1, p.2)).map Prod.fst = reals.map chi1 := by
      rw [List.map_map, ← List.map_fst_zip hlen (l₁ := reals), List.map_map]
      rw [List.map_fst_zip hlen]
      rfl
    have e2 : ((reals.zip (w.systems k).refs).map fun p : Atom × ℕ => (chi1 p.1, p.2)).map Prod.snd = (w.systems k).refs.take reals.length := by
      rw [List.map_map, ← zip_snd]
      rfl
    refine ⟨?_, fun i hil => hcu k i ?_, fun j hj => ⟨by rw [h7 j hj], fun i => hcu j i (by rw [h7 j hj])⟩⟩
    · unfold System.calculateChi
      rw [getAtoms_inv hi, h2, ← h1, e1]
      rfl
    · rw [h3, e2, List.getElem?_append_left (by rw [List.length_take]; omega), List.getElem?_take_of_lt hil]

/-- The hypotheses of `C108_plain` hold for a system of 200 new atoms. -/
example : ∃ (w w' : Objects) (reals : List Atom), reals.length = 200 ∧ StoreInv (w.systems 0).sys reals ∧ (∀ j, Spec.OwnDicts w j) ∧ w.calculateChi 0 false = (w', .ok ()) := by
  set l : List Atom := List.replicate 200 default with hl
  have hreal : ∀ a ∈ l, a.ghost = false := fun a ha => by rw [List.eq_of_mem_replicate ha]; rfl
  set w := (Objects.init).assignNew 0 l with hw
  have hso : Sound w.1 := sound_run [.assignNew 0 l] _ sound_init
  have has : (Objects.init.systems 0).sys.assignAtoms l = .ok ((Objects.init.systems 0).sys.setAtoms l) := by
    unfold System.assignAtoms
    rw [if_neg (by rw [hl, List.length_replicate]; omega)]
  have hsys : (w.1.systems 0).sys = (Objects.init.systems 0).sys.setAtoms l := by
    rw [hw]
    unfold Objects.assignNew Objects.assign
    simp only [List.map_fst_zip (l₁ := l) (l₂ := List.range' Objects.init.next l.length) (by simp), has, Function.update_self]
  have hi : StoreInv (w.1.systems 0).sys l := by
    rw [hsys]
    refine storeInv_step _ _ [] (.assign l) ?_ hreal has
    exact ⟨by simp, ⟨[], rfl, by simp, rfl⟩, rfl, rfl⟩
  have hg : w.1.getAtoms 0 = .ok (l.zip (w.1.systems 0).refs) := by
    unfold Objects.getAtoms
    rw [getAtoms_inv hi]
  have hlen : l.length ≤ (w.1.systems 0).refs.length := by
    obtain ⟨gs, hgs, -⟩ := hi.ex
    rw [(hso.own 0).length, hgs, List.length_append]
    omega
  have hok : ∃ w', w.1.calculateChi 0 false = (w', .ok ()) := by
    unfold Objects.calculateChi
    rw [hg]
    dsimp only
    unfold Objects.assign System.assignAtoms
    rw [if_neg (by simp only [List.length_map, List.length_zip]; rw [hl] at hlen ⊢; rw [List.length_replicate] at hlen ⊢; omega)]
    exact ⟨_, rfl⟩
  obtain ⟨w', h⟩ := hok
  exact ⟨w.1, w', l, by rw [hl, List.length_replicate], hi, hso.own, h⟩

/-! ### Atoms given to two systems -/

/-- **The negation of C108 for atoms given to two systems.**  If the dictionaries of the first atoms of two systems `j` and `k` are the same, as after `sys_j.atoms = atoms; sys_k.atoms = atoms`
with one list of atoms (`shared_after`), then after `calculate_chiparams(angles=True)` on system `k` the entry `cosines` of every atom shown by system `j` is that of the atom of
system `k`, whatever the neighbours in `j` are and whatever was stored before; no atom of `j` changes otherwise. -/
theorem C108_false_shared {w w' : Objects} {j k : ℕ} (hjk : j ≠ k) {reals : List Atom} (hi : StoreInv (w.systems k).sys reals) (ho : Spec.OwnDicts w k)
    (hs : (w.systems j).refs.take reals.length = (w.systems k).refs.take reals.length) (h : w.calculateChi k true = (w', .ok ())) :
    (w'.systems j).sys = (w.systems j).sys ∧ ∀ (i : ℕ) (a : Atom), reals[i]? = some a → ∃ d', Spec.customOf w' j i = some d' ∧ Spec.customOf w' k i = some d' ∧
      ∃ L, dictGet d' "cosines" = some (.nums L) ∧ 2 * L.length = a.nbrs.length * (a.nbrs.length - 1) := by
  obtain ⟨-, h2, h3⟩ := chi_dicts hi ho h
  have hj : w'.systems j = w.systems j := by
    unfold Objects.calculateChi at h
    cases hg : w.getAtoms k with
    | error e => rw [hg] at h; cases congrArg Prod.snd h
    | ok l =>
      rw [hg] at h
      dsimp only at h
      split at h
      · cases congrArg Prod.snd h
      · rename_i v hv
        obtain rfl : v = w' := congrArg Prod.fst h
        obtain ⟨-, -, -, -, -, -, -, h7, -⟩ := Objects.assign_ok hv
        exact h7 j hjk
  refine ⟨by rw [hj], fun i a hia => ?_⟩
  obtain ⟨gs, hgs, -⟩ := hi.ex
  have hil : i < reals.length := (List.getElem?_eq_some_iff.1 hia).1
  have hir : i < (w.systems k).refs.length := by
    rw [ho.length, hgs, List.length_append]
    omega
  have hr := List.getElem?_eq_getElem hir
  have hr' : (w'.systems k).refs[i]? = some (w.systems k).refs[i] := by
    rw [← List.getElem?_take_of_lt hil, h2, List.getElem?_take_of_lt hil, hr]
  have hrj : (w'.systems j).refs[i]? = some (w.systems k).refs[i] := by
    rw [hj, ← List.getElem?_take_of_lt hil, hs, List.getElem?_take_of_lt hil, hr]
  refine ⟨w'.heap (w.systems k).refs[i], ?_, ?_, costhetas a, ?_, ?_⟩
  · unfold Spec.customOf
    rw [hrj, Option.map_some]
  · unfold Spec.customOf
    rw [hr', Option.map_some]
  · rw [h3 i a _ hia hr, dictGet_set_self]
  · unfold costhetas
    rw [List.length_map]
    exact pairs_length _

/-- Giving the atoms of system `j` to system `k` makes them share their dictionaries, and system `k` is as `C108_false_shared` requires. -/
theorem shared_after {w w' : Objects} {j k : ℕ} (hjk : j ≠ k) {reals : List Atom} (hi : StoreInv (w.systems j).sys reals) (hk : StoreInv (w.systems k).sys [])
    (ho : Spec.OwnDicts w j) (h : w.assignFrom j k = (w', .ok ())) :
    StoreInv (w'.systems k).sys reals ∧ Spec.OwnDicts w' k ∧ (w'.systems j).refs.take reals.length = (w'.systems k).refs.take reals.length ∧
      w'.systems j = w.systems j ∧ (w.systems k).sys.assignAtoms reals = .ok (w'.systems k).sys := by
  unfold Objects.assignFrom at h
  have hg : w.getAtoms j = .ok (reals.zip (w.systems j).refs) := by
    unfold Objects.getAtoms
    rw [getAtoms_inv hi]
  obtain ⟨gs, hgs, -⟩ := hi.ex
  have hlen : reals.length ≤ (w.systems j).refs.length := by
    rw [ho.length, hgs, List.length_append]
    omega
  rw [hg] at h
  dsimp only at h
  split at h
  · cases congrArg Prod.snd h
  · rename_i v hv
    obtain rfl : v = w' := congrArg Prod.fst h
    obtain ⟨s, h1, h2, h3, h4, -, -, h7, h8⟩ := Objects.assign_ok hv
    rw [List.map_fst_zip hlen] at h1
    rw [zip_snd] at h3
    have hz : (reals.zip (w.systems j).refs).length = reals.length := by
      rw [List.length_zip]
      omega
    rw [hz] at h3 h4 h8
    refine ⟨?_, ⟨?_, ?_, ?_⟩, ?_, h7 j hjk, by rw [h2]; exact h1⟩
    · rw [h2]
      exact storeInv_step _ s [] (.assign reals) hk hi.real h1
    · rw [h3, h2, List.length_append, List.length_take, List.length_range']
      omega
    · rw [h3, List.nodup_append]
      refine ⟨(List.take_sublist _ _).nodup ho.nodup, List.nodup_range', fun a ha b hb => ?_⟩
      have := ho.used a (List.mem_of_mem_take ha)
      rw [List.mem_range'_1] at hb
      omega
    · intro r hr
      rw [h3] at hr
      rcases List.mem_append.1 hr with hr | hr
      · have := ho.used r (List.mem_of_mem_take hr)
        omega
      · rw [List.mem_range'_1] at hr
        omega
    · rw [h7 j hjk, h3, List.take_append_of_le_length (by rw [List.length_take]; omega), List.take_take, min_self]

/-- The calls of the counterexample: a box for two systems, new atoms for the first, `sys1.atoms = sys0.atoms`, a search in the first and `sys0.calculate_chiparams(angles=True)`. -/
noncomputable def twoSystems (σ : StdSort) (b : Mat3) (l : List Atom) (f : ℕ) (m : Method) : Objects :=
  let w := Spec.Step.run (Spec.Step.run (Spec.Step.run Objects.init (.setBox 0 b)) (.setBox 1 b)) (.assignNew 0 l)
  Spec.Step.run (Spec.Step.run (w.assignFrom 0 1).1 (.search σ 0 f m)) (.chi 0 true)

theorem assign_big {s : System} {l : List Atom} (hl : 200 ≤ l.length) : s.assignAtoms l = .ok (s.setAtoms l) := by
  unfold System.assignAtoms
  rw [if_neg (by omega)]

/-- **C108 is false**, for any 200 or more atoms in any box and any search.  After the calls of `twoSystems` the first system shows the cosines of its `n(n-1)/2` pairs of neighbours; then
`calculate_chiparams(angles=True)` on the second system, in which no neighbours were searched, succeeds and replaces them by empty lists, in the first system. -/
theorem C108_false (σ : StdSort) (b : Mat3) (l : List Atom) (f : ℕ) (m : Method) (s s1 : System) (hl : 200 ≤ l.length) (hreal : ∀ a ∈ l, a.ghost = false)
    (hnb : ∀ a ∈ l, a.nbrs = []) (hs : buildSystem b l = .ok s) (hf : s.findNeighbors σ f m = .ok s1) (i : ℕ) (hi : i < l.length) (a : Atom) (ha : s1.atoms[i]? = some a) :
    ∃ w', (twoSystems σ b l f m).calculateChi 1 true = (w', .ok ()) ∧ (w'.systems 0).sys = ((twoSystems σ b l f m).systems 0).sys ∧
      (∃ d L, Spec.customOf (twoSystems σ b l f m) 0 i = some d ∧ dictGet d "cosines" = some (.nums L) ∧ 2 * L.length = a.nbrs.length * (a.nbrs.length - 1)) ∧
      ∃ d', Spec.customOf w' 0 i = some d' ∧ dictGet d' "cosines" = some (.nums []) := by
  unfold buildSystem at hs
  obtain ⟨s0, hs0, has⟩ := bind_ok hs
  have hst := assigned_start hs0 has hreal
  have hinv : StoreInv s l := by
    have h0 : StoreInv s0 [] := by
      obtain ⟨f1, f2, f3, f4, f5, f6, _⟩ := setBox_frame hs0
      exact ⟨by simp, ⟨[], by rw [f3]; rfl, by simp, by rw [f6]; rfl⟩, by rw [f4, f3]; rfl, by rw [f5]; rfl⟩
    exact storeInv_step s0 s [] (.assign l) h0 hreal has
  have h0 : StoreInv s0 [] := by
    obtain ⟨f1, f2, f3, f4, f5, f6, _⟩ := setBox_frame hs0
    exact ⟨by simp, ⟨[], by rw [f3]; rfl, by simp, by rw [f6]; rfl⟩, by rw [f4, f3]; rfl, by rw [f5]; rfl⟩
  -- the first three calls
  set w3 := Spec.Step.run (Spec.Step.run (Spec.Step.run Objects.init (.setBox 0 b)) (.setBox 1 b)) (.assignNew 0 l) with hw3
  have hsound : Sound w3 := sound_run [.setBox 0 b, .setBox 1 b, .assignNew 0 l] _ sound_init
  have w3_0 : (w3.systems 0).sys = s ∧ (w3.systems 1).sys = s0 := by
    rw [hw3]
    simp only [Spec.Step.run, Objects.setBox, Objects.init, hs0, Objects.assignNew, Objects.assign, Function.update_self, ne_eq, zero_ne_one, not_false_eq_true, Function.update_of_ne,
      one_ne_zero, List.map_fst_zip (l₁ := l) (l₂ := List.range' 0 l.length) (by simp), has, and_self]
  obtain ⟨e0, e1⟩ := w3_0
  -- sharing
  have hg : w3.getAtoms 0 = .ok (l.zip (w3.systems 0).refs) := by
    unfold Objects.getAtoms
    rw [e0, getAtoms_inv hinv]
  have hlen : l.length ≤ (w3.systems 0).refs.length := by
    obtain ⟨gs, hgs, -⟩ := hinv.ex
    rw [(hsound.own 0).length, e0, hgs, List.length_append]
    omega
  obtain ⟨w4, hw4⟩ : ∃ w4, w3.assignFrom 0 1 = (w4, .ok ()) := by
    unfold Objects.assignFrom
    rw [hg]
    dsimp only
    unfold Objects.assign
    rw [e1, List.map_fst_zip hlen, has]
    exact ⟨_, rfl⟩
  obtain ⟨i4, o4, t4, q4, -⟩ := shared_after (by norm_num : (0 : ℕ) ≠ 1) (by rw [e0]; exact hinv) (by rw [e1]; exact h0) (hsound.own 0) hw4
  have n4 : w3.next ≤ w4.next := by
    unfold Objects.assignFrom at hw4
    rw [hg] at hw4
    dsimp only at hw4
    split at hw4
    · cases congrArg Prod.snd hw4
    · rename_i v hv
      obtain rfl : v = w4 := congrArg Prod.fst hw4
      obtain ⟨_, -, -, -, h4, -⟩ := Objects.assign_ok hv
      omega
  -- the search
  set w5 : Objects := { w4 with systems := Function.update w4.systems 0 ⟨s1, (w4.systems 0).refs⟩ } with hw5
  have r5 : Spec.Step.run w4 (.search σ 0 f m) = w5 := by
    simp only [Spec.Step.run, Objects.findNeighbors, q4, e0, hf, hw5]
  have s5 : (w5.systems 0).sys = s1 ∧ (w5.systems 0).refs = (w3.systems 0).refs ∧ w5.systems 1 = w4.systems 1 := by
    rw [hw5]
    simp [q4]
  have hK := Kept.findNeighbors hf
  obtain ⟨reals, hinv1, hid⟩ := (hst.2.kept hK).inv
  have hrl : reals.length = l.length := by
    have := congrArg List.length hid
    rwa [List.length_map, List.length_map] at this
  have o5 : Spec.OwnDicts w5 0 := by
    have h := hsound.own 0
    refine ⟨?_, by rw [s5.2.1]; exact h.nodup, fun r hr => ?_⟩
    · rw [s5.2.1, s5.1, h.length, e0]
      have := congrArg List.length hK.atoms
      rw [List.length_map, List.length_map] at this
      exact this.symm
    · rw [s5.2.1] at hr
      exact lt_of_lt_of_le (h.used r hr) n4
  -- the first analysis
  have hchi : ∀ (w : Objects) (k : ℕ) (reals : List Atom), StoreInv (w.systems k).sys reals → 200 ≤ reals.length → reals.length ≤ (w.systems k).refs.length →
      ∃ w', w.calculateChi k true = (w', .ok ()) ∧ (∀ j, j ≠ k → w'.systems j = w.systems j) ∧ w.next ≤ w'.next := by
    intro w k reals hr h200 hle
    unfold Objects.calculateChi
    have hg : w.getAtoms k = .ok (reals.zip (w.systems k).refs) := by
      unfold Objects.getAtoms
      rw [getAtoms_inv hr]
    rw [hg]
    dsimp only
    rw [if_pos rfl]
    set w1 : Objects := { w with heap := (reals.zip (w.systems k).refs).foldl (fun h (p : Atom × ℕ) => setItem h p.2 "cosines" (.nums (costhetas p.1))) w.heap } with hw1
    cases hv : w1.assign k ((reals.zip (w.systems k).refs).map fun p : Atom × ℕ => (chi1 p.1, p.2)) with
    | error e =>
      exfalso
      unfold Objects.assign at hv
      rw [assign_big (by
        rw [List.length_map, List.length_map, List.length_zip]
        omega)] at hv
      cases hv
    | ok v =>
      obtain ⟨_, -, -, -, h4, -, -, h7, -⟩ := Objects.assign_ok hv
      refine ⟨v, rfl, fun j hj => h7 j hj, ?_⟩
      rw [h4]
      exact Nat.le_add_right _ _
  obtain ⟨w6, hw6, j6, n6⟩ := hchi w5 0 reals (by rw [s5.1]; exact hinv1) (by omega) (by rw [s5.2.1]; omega)
  have htwo : twoSystems σ b l f m = w6 := by
    unfold twoSystems
    dsimp only
    rw [← hw3, hw4]
    dsimp only
    rw [r5]
    change (w5.calculateChi 0 true).1 = w6
    rw [hw6]
  rw [htwo]
  have i5 : StoreInv (w5.systems 0).sys reals := by rw [s5.1]; exact hinv1
  obtain ⟨-, hcos⟩ := C108_cosines i5 o5 hw6
  obtain ⟨-, hrefs, -⟩ := chi_dicts i5 o5 hw6
  have hia : reals[i]? = some a := by
    obtain ⟨gs, hgs, -⟩ := hinv1.ex
    rw [hgs, List.getElem?_append_left (by omega)] at ha
    exact ha
  obtain ⟨-, d', ps, -, hd', -, -, -, hps, hdc, -⟩ := hcos i a hia
  -- the second analysis
  have h16 : w6.systems 1 = w4.systems 1 := by rw [j6 1 (by norm_num), s5.2.2]
  have o6 : Spec.OwnDicts w6 1 := by
    refine ⟨?_, ?_, fun r hr => ?_⟩
    · rw [h16]; exact o4.length
    · rw [h16]; exact o4.nodup
    · rw [h16] at hr
      exact lt_of_lt_of_le (o4.used r hr) n6
  have i6 : StoreInv (w6.systems 1).sys l := by rw [h16]; exact i4
  have hlen6 : l.length ≤ (w6.systems 1).refs.length := by
    obtain ⟨gs, hgs, -⟩ := i6.ex
    rw [o6.length, hgs, List.length_append]
    omega
  obtain ⟨w7, hw7, -, -⟩ := hchi w6 1 l i6 hl hlen6
  obtain ⟨k1, k2⟩ := C108_false_shared (j := 0) (by norm_num) i6 o6 (by
    rw [hrl] at hrefs
    rw [hrefs, s5.2.1, h16, ← t4, q4]) hw7
  obtain ⟨d7, g1, -, L, g2, g3⟩ := k2 i l[i] (List.getElem?_eq_getElem hi)
  refine ⟨w7, hw7, k1, ⟨d', _, hd', hdc, by rw [List.length_map]; exact hps⟩, d7, g1, ?_⟩
  rw [hnb _ (List.getElem_mem hi), List.length_nil] at g3
  have : L = [] := List.eq_nil_of_length_eq_zero (by omega)
  rw [g2, this]

theorem crystal_nbrs {name : String} (hn : name ∈ Spec.structures) {a ca : ℝ} {nx ny nz : ℕ} {atoms : List Atom} {box : Mat3}
    (hm : makeCrystal name a nx ny nz ca = .ok (atoms, box)) : ∀ a ∈ atoms, a.nbrs = [] := by
  rw [makeCrystal_eq name hn] at hm
  cases hm
  intro x hx
  obtain ⟨k, hk, rfl⟩ := List.mem_mapIdx.1 hx
  obtain ⟨c, -, h⟩ := List.mem_flatMap.1 (List.getElem_mem hk)
  obtain ⟨b, -, h⟩ := List.mem_map.1 h
  change ((siteAtoms (Spec.cellEdges name a ca) name nx ny nz)[k]).nbrs = []
  rw [← h]

/-- The hypotheses: a simple cubic crystal of 6 x 6 x 6 cells with lattice constant 4 and the cutoff 5; every atom has 6 neighbours, so 15 cosines are lost. -/
example (σ : StdSort) : ∃ b l s s1 a, 200 ≤ l.length ∧ (∀ a ∈ l, a.ghost = false) ∧ (∀ a ∈ l, a.nbrs = []) ∧ buildSystem b l = .ok s ∧
    s.findNeighbors σ 0 (.cutoff 5) = .ok s1 ∧ 0 < l.length ∧ s1.atoms[0]? = some a ∧ a.nbrs.length = 6 := by
  have hr : Spec.FirstShell "sc" 4 5 := by
    have t : (5 : ℝ) < Real.sqrt 32 := by rw [Real.lt_sqrt (by norm_num)]; norm_num
    have s16 : Real.sqrt 16 = 4 := by
      rw [show (16 : ℝ) = 4 ^ 2 by norm_num, Real.sqrt_sq (by norm_num)]
    constructor <;> norm_num [Spec.limits, s16] <;> linarith
  obtain ⟨atoms, box, s, s1, as, hm, hb, hf, hg, hl, hall⟩ := C95_coordination σ "sc" (by decide) (a := 4) (ca := 1) (r := 5) (by norm_num) (by norm_num) (nx := 6) (ny := 6) (nz := 6)
    (by norm_num) (by norm_num) (by norm_num) hr (by simp only [Spec.RangeFits, Spec.basis, List.length_cons, List.length_nil]; refine ⟨?_, ?_, ?_⟩ <;> norm_num) 0 (by norm_num)
  obtain ⟨atoms', lx, ly, lz, hm', -, -, -, hl', hat, -⟩ := C40_make_crystal "sc" (by decide) (a := 4) (ca := 1) (by norm_num) (by norm_num) (nx := 6) (ny := 6) (nz := 6) (by norm_num) (by norm_num) (by norm_num)
  rw [hm] at hm'
  cases hm'
  have hB : (Spec.basis "sc").length = 1 := rfl
  rw [hB] at hl hl'
  have hnb := crystal_nbrs (by decide) hm
  have has : 0 < as.length := by omega
  have h0 : s1.atoms[0]? = some as[0] := by
    unfold System.getAtoms at hg
    split_ifs at hg
    cases hg
    rw [← List.getElem?_eq_getElem has, List.getElem?_take_of_lt (by rw [List.length_take] at has; omega)]
  refine ⟨_, atoms, s, s1, as[0], by omega, fun a ha => ?_, hnb, hb, hf, by omega, h0, ?_⟩
  · obtain ⟨k, hk⟩ := List.mem_iff_getElem?.1 ha
    exact (hat k a hk).2.2.1
  · have h6 : ∀ t, Spec.coordination "sc" 0 t = [6] := by
      intro t
      rfl
    have := (hall as[0] (List.getElem_mem has)).1
    rw [h6] at this
    simpa using this

end Pyscal
