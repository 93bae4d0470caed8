import Verif.Spec.AtomApi
import Mathlib.Tactic.Linarith

/-! Properties C80 and C81: attributes of an `Atom`. -/

namespace Pyscal

namespace RawAtom

/-- The place an attribute reads. -/
def Access.place : Access → String
  | .member m _ => "m." ++ m
  | .pos => "pos"
  | .neighbors => "neighbors"
  | .dist => "dist"
  | .coordination => "coordination"
  | .weights => "weights"
  | .vecs => "vecs"
  | .angles => "angles"
  | .allq => "allq"
  | .allaq => "allaq"
  | .sij => "sij"
  | .faceVertices => "faceVertices"
  | .facePerimeters => "facePerimeters"
  | .vertexPositions => "vertexPositions"
  | .edgeLengths => "edgeLengths"
  | .vorovector => "vorovector"

theorem access_mem {name : String} {acc : Access} (h : access name = some acc) : (name, acc) ∈ registrations := by
  unfold access at h
  rw [Option.map_eq_some_iff] at h
  obtain ⟨⟨n, a⟩, h1, rfl⟩ := h
  have h2 := List.mem_of_find?_eq_some h1
  have h3 := List.find?_some h1
  rw [List.mem_reverse] at h2
  simp only [decide_eq_true_eq] at h3
  rw [← h3]
  exact h2

/-- Different attributes use different places. -/
theorem places_distinct : ∀ p ∈ registrations, ∀ p' ∈ registrations, access p.1 = some p.2 → access p'.1 = some p'.2 →
    p.1 ≠ p'.1 → p.2.place ≠ p'.2.place := by decide +kernel

/-- No attribute reads the number of solid bonds. -/
theorem no_frenkel : ∀ p ∈ registrations, access p.1 = some p.2 → p.2.place ≠ "m.frenkelnumber" := by decide +kernel

/-- The names of the accesses that depend on the number of neighbours. -/
theorem neighbour_names : ∀ p ∈ registrations, p.2 ∈ [Access.neighbors, .dist, .coordination, .weights, .vecs, .angles, .sij,
    .faceVertices, .facePerimeters] → p.1 ∈ Spec.neighbourAttrs := by decide +kernel

theorem ignored_names : ∀ p ∈ registrations, p.2 ∈ [Access.dist, .vecs, .angles, .sij] → p.1 ∈ Spec.ignoredAttrs := by decide +kernel

theorem write_other {a a' : RawAtom} {acc acc' : Access} {v : Value} (h : a.write acc v = .ok a') (hp : acc.place ≠ acc'.place)
    (hn : acc = .neighbors → acc' ∉ [Access.neighbors, .dist, .coordination, .weights, .vecs, .angles, .sij, .faceVertices, .facePerimeters]) :
    a'.read acc' = a.read acc' := by
  cases acc with
  | member m k =>
    simp only [write] at h
    split_ifs at h with hk
    obtain rfl := Except.ok.inj h
    cases acc' with
    | member m' k' =>
      have : m' ≠ m := fun e => hp (by rw [e]; rfl)
      simp [RawAtom.read, Function.update_of_ne this]
    | _ => rfl
  | neighbors =>
    cases v <;> simp only [write, reduceCtorEq] at h
    unfold setNeighbors at h
    split_ifs at h
    obtain rfl := Except.ok.inj h
    have hn' := hn rfl
    cases acc' <;> first | rfl | (simp at hn')
  | _ =>
    cases v <;> simp only [write, reduceCtorEq] at h <;>
    (try unfold setPos at h) <;> (try unfold setWeights at h) <;> (try unfold setAllQ at h) <;> (try unfold setAllAq at h) <;>
    (try unfold setFaceVertices at h) <;> (try unfold setFacePerimeters at h) <;> (try unfold setVoro at h) <;> (try split at h) <;>
    first
      | (exfalso; simp at h; done)
      | (obtain rfl := Except.ok.inj h; cases acc' <;> first | rfl | exact absurd rfl hp)

end RawAtom

open RawAtom

/-- **C80, other attributes**: assigning an attribute leaves every other attribute as it was.  Only `neighbors` also changes
the other attributes with one entry per neighbour. -/
theorem C80_frame (a a' : RawAtom) (name m : String) (v : Value) (h : a.setAttr name v = .ok a') (hm : m ≠ name)
    (hn : name = "neighbors" → m ∉ Spec.neighbourAttrs) : a'.getAttr m = a.getAttr m := by
  unfold setAttr at h
  unfold getAttr
  cases hacc : access name with
  | none => rw [hacc] at h; cases h
  | some acc =>
    rw [hacc] at h
    cases hacc' : access m with
    | none => rfl
    | some acc' =>
      dsimp only at h ⊢
      rw [write_other h (places_distinct _ (access_mem hacc) _ (access_mem hacc') hacc hacc' (Ne.symm hm)) ?_]
      rintro rfl hmem
      refine hn ?_ (neighbour_names _ (access_mem hacc') hmem)
      have : ∀ p ∈ registrations, p.2 = Access.neighbors → p.1 = "neighbors" := by decide +kernel
      exact this _ (access_mem hacc) rfl

theorem slots_fill {α : Type} {a : RawAtom} (l : List α) (f : ℕ → α) (h : l.length = a.n) : a.slots (fill l f) = l := by
  refine List.ext_getElem? fun k => ?_
  unfold slots fill
  by_cases hk : k < l.length
  · rw [List.getElem?_map, List.getElem?_range (by omega), Option.map_some, List.getElem?_eq_getElem hk]
    simp [List.getD_eq_getElem?_getD, hk]
  · rw [List.getElem?_eq_none (by simp; omega), List.getElem?_eq_none (by omega)]

theorem eleven_get (l : List ℝ) (f : ℕ → ℝ) (h : l.length = 11) : elevenOf (fun k => if k < 11 then l.getD k 0 else f k) = l := by
  refine List.ext_getElem? fun k => ?_
  unfold elevenOf
  by_cases hk : k < 11
  · rw [List.getElem?_map, List.getElem?_range hk, Option.map_some, if_pos hk, List.getElem?_eq_getElem (by omega)]
    simp [List.getD_eq_getElem?_getD, show k < l.length by omega]
  · rw [List.getElem?_eq_none (by simp; omega), List.getElem?_eq_none (by omega)]

/-- The coordination number as a number. -/
theorem coordination_attr (a : RawAtom) : a.getAttr "coordination" = .ok (.int a.n) := by
  have : access "coordination" = some .coordination := by decide +kernel
  unfold getAttr
  rw [this]
  rfl

/-- **C80, reading back**: an attribute that has been assigned a value of the right size reads as that value, except for the four
attributes whose assignment is ignored. -/
theorem C80_roundtrip (a a' : RawAtom) (name : String) (v : Value) (h : a.setAttr name v = .ok a') (hi : name ∉ Spec.ignoredAttrs)
    (c : ℤ) (hc : a.getAttr "coordination" = .ok (.int c)) (hw : Spec.WellSized c name v) : a'.getAttr name = .ok v := by
  have hcn : c = a.n := by
    rw [coordination_attr] at hc
    have := Except.ok.inj hc
    injection this with this
    exact this.symm
  subst hcn
  unfold setAttr at h
  unfold getAttr
  cases hacc : access name with
  | none => rw [hacc] at h; cases h
  | some acc =>
    rw [hacc] at h
    dsimp only at h ⊢
    have hmem := access_mem hacc
    have hig : acc ∉ [Access.dist, .vecs, .angles, .sij] := fun hh => hi (ignored_names _ hmem hh)
    obtain ⟨w1, w2, w3, w4⟩ := hw
    cases acc with
    | member m k =>
      simp only [write] at h
      split_ifs at h
      obtain rfl := Except.ok.inj h
      simp [RawAtom.read]
    | pos =>
      have hname : ∀ p ∈ registrations, p.2 = Access.pos → p.1 = "pos" := by decide +kernel
      cases v <;> simp only [write, reduceCtorEq] at h
      have hl := w1 (hname _ hmem rfl)
      unfold setPos at h
      split at h
      · obtain rfl := Except.ok.inj h
        rename_i x y z rest
        have : rest = [] := by
          have : rest.length + 1 + 1 + 1 = 3 := hl
          exact List.length_eq_zero_iff.1 (by omega)
        rw [this]
        rfl
      · cases h
    | vorovector =>
      have hname : ∀ p ∈ registrations, p.2 = Access.vorovector → p.1 = "vorovector" := by decide +kernel
      cases v <;> simp only [write, reduceCtorEq] at h
      have hl := w2 (hname _ hmem rfl)
      unfold setVoro at h
      split at h
      · obtain rfl := Except.ok.inj h
        rename_i x y z u rest
        have : rest = [] := by
          have : rest.length + 1 + 1 + 1 + 1 = 4 := hl
          exact List.length_eq_zero_iff.1 (by omega)
        rw [this]
        rfl
      · cases h
    | allq =>
      have hname : ∀ p ∈ registrations, p.2 = Access.allq → p.1 = "allq" := by decide +kernel
      cases v <;> simp only [write, reduceCtorEq] at h
      unfold setAllQ at h
      split_ifs at h
      obtain rfl := Except.ok.inj h
      simp only [RawAtom.read]
      rw [eleven_get _ _ (w3 (.inl (hname _ hmem rfl)))]
    | allaq =>
      have hname : ∀ p ∈ registrations, p.2 = Access.allaq → p.1 = "allaq" := by decide +kernel
      cases v <;> simp only [write, reduceCtorEq] at h
      unfold setAllAq at h
      split_ifs at h
      obtain rfl := Except.ok.inj h
      simp only [RawAtom.read]
      rw [eleven_get _ _ (w3 (.inr (hname _ hmem rfl)))]
    | weights =>
      have hname : ∀ p ∈ registrations, p.2 = Access.weights → p.1 = "neighbor_weights" := by decide +kernel
      cases v <;> simp only [write, reduceCtorEq] at h
      have hl := w4 (.inl (hname _ hmem rfl))
      unfold setWeights at h
      split_ifs at h
      obtain rfl := Except.ok.inj h
      simp only [RawAtom.read, getWeights]
      rw [slots_fill]
      exact_mod_cast hl
    | faceVertices =>
      have hname : ∀ p ∈ registrations, p.2 = Access.faceVertices → p.1 = "face_vertices" := by decide +kernel
      cases v <;> simp only [write, reduceCtorEq] at h
      have hl := w4 (.inr (.inl (hname _ hmem rfl)))
      unfold setFaceVertices at h
      split_ifs at h
      obtain rfl := Except.ok.inj h
      simp only [RawAtom.read, getFaceVertices]
      rw [slots_fill]
      exact_mod_cast hl
    | facePerimeters =>
      have hname : ∀ p ∈ registrations, p.2 = Access.facePerimeters → p.1 = "face_perimeters" := by decide +kernel
      cases v <;> simp only [write, reduceCtorEq] at h
      have hl := w4 (.inr (.inr (hname _ hmem rfl)))
      unfold setFacePerimeters at h
      split_ifs at h
      obtain rfl := Except.ok.inj h
      simp only [RawAtom.read, getFacePerimeters]
      rw [slots_fill]
      exact_mod_cast hl
    | neighbors =>
      cases v <;> simp only [write, reduceCtorEq] at h
      unfold setNeighbors at h
      split_ifs at h
      obtain rfl := Except.ok.inj h
      simp only [RawAtom.read, getNeighbors]
      rw [slots_fill]
      rfl
    | edgeLengths =>
      cases v <;> simp only [write, reduceCtorEq] at h
      obtain rfl := Except.ok.inj h
      rfl
    | vertexPositions =>
      cases v <;> simp only [write, reduceCtorEq] at h
      obtain rfl := Except.ok.inj h
      rfl
    | coordination => simp [write] at h
    | dist => simp at hig
    | vecs => simp at hig
    | angles => simp at hig
    | sij => simp at hig

/-- **C80, what holds over histories.**  Full statement: after any sequence of assignments every attribute reads as the value last
assigned to it, or as before if none was.  Proved for every sequence of assignments that succeed, with values of the right size,
and every attribute that is not given per neighbour, and for `neighbors` itself.  Missing: the attributes with one entry per
neighbour, of which four ignore assignments (`C80_false_ignored`), the others depend on the number of neighbours
(`C80_false_size`); and `bonds`, which is not the number of solid bonds (`C80_false_bonds`). -/
theorem C80_partial (ops : List (String × Value)) (a a' : RawAtom) (h : Spec.assignAll a ops = .ok a') (m : String)
    (hm : m ∉ Spec.neighbourAttrs ∨ m = "neighbors") (hw : ∀ v, (m, v) ∈ ops → Spec.WellSized 0 m v) :
    (∀ v, Spec.lastAssigned ops m = some v → a'.getAttr m = .ok v) ∧ (Spec.lastAssigned ops m = none → a'.getAttr m = a.getAttr m) := by
  induction ops generalizing a with
  | nil =>
    obtain rfl := Except.ok.inj h
    exact ⟨fun v hv => by simp [Spec.lastAssigned] at hv, fun _ => rfl⟩
  | cons op ops ih =>
    obtain ⟨n, w⟩ := op
    unfold Spec.assignAll at h
    cases hs : a.setAttr n w with
    | error e => rw [hs] at h; cases h
    | ok a1 =>
      rw [hs] at h
      obtain ⟨i1, i2⟩ := ih a1 h (fun v hv => hw v (List.mem_cons_of_mem _ hv))
      have hlast : Spec.lastAssigned ((n, w) :: ops) m = (Spec.lastAssigned ops m).or (if n = m then some w else none) := by
        unfold Spec.lastAssigned
        rw [List.reverse_cons, List.find?_append]
        by_cases hnm : n = m <;> cases (ops.reverse.find? fun p => p.1 = m) <;> simp [hnm]
      rw [hlast]
      cases hl : Spec.lastAssigned ops m with
      | some u =>
        simp only [Option.some_or, Option.some.injEq, reduceCtorEq, false_implies, and_true]
        rintro v rfl
        exact i1 _ hl
      | none =>
        simp only [Option.none_or]
        have i3 := i2 hl
        by_cases hnm : n = m
        · subst hnm
          rw [if_pos rfl]
          refine ⟨fun v hv => ?_, fun hv => by simp at hv⟩
          obtain rfl := Option.some.inj hv
          rw [i3]
          have hw0 := hw w (by simp)
          refine C80_roundtrip a a1 n w hs ?_ _ (coordination_attr a) ⟨hw0.1, hw0.2.1, hw0.2.2.1, fun hh => ?_⟩
          · rcases hm with hm | rfl
            · intro hh
              refine hm ?_
              simp only [Spec.ignoredAttrs, Spec.neighbourAttrs, List.mem_cons, List.not_mem_nil, or_false] at hh ⊢
              tauto
            · decide
          · exfalso
            rcases hm with hm | rfl
            · refine hm ?_
              simp only [Spec.neighbourAttrs, List.mem_cons, List.not_mem_nil, or_false]
              tauto
            · revert hh; decide
        · rw [if_neg hnm]
          refine ⟨fun v hv => by simp at hv, fun _ => ?_⟩
          rw [i3]
          refine C80_frame a a1 n m w hs (Ne.symm hnm) ?_
          rintro rfl
          rcases hm with hm | rfl
          · exact hm
          · exact absurd rfl hnm

/-- Some content of memory. -/
def someJunk : RawAtom where
  x := 0
  y := 0
  z := 0
  n := 0
  neighbors := fun _ => 0
  dist := fun _ => 0
  weight := fun _ => 0
  vec := fun _ => 0
  phi := fun _ => 0
  theta := fun _ => 0
  sij := fun _ => 0
  q := fun _ => 0
  aq := fun _ => 0
  qlm := fun _ _ => (0, 0)
  aqlm := fun _ _ => (0, 0)
  faceVertices := fun _ => 0
  facePerimeters := fun _ => 0
  edgeLengths := []
  vertexPositions := []
  n3 := 0
  n4 := 0
  n5 := 0
  n6 := 0
  fields := fun _ => .int 0

theorem access_vals : access "pos" = some .pos ∧ access "cluster" = some (.member "belongsto" .int) ∧ access "neighbors" = some .neighbors ∧
    access "neighbor_weights" = some .weights ∧ access "neighbor_distance" = some .dist ∧ access "neighbor_vector" = some .vecs ∧
    access "local_angles" = some .angles ∧ access "sij" = some .sij ∧ access "bonds" = some (.member "bonds" .ints2) ∧
    access "coordination" = some .coordination := by decide +kernel

/-- Hypotheses of C80_partial met: position and cluster assigned, then the position again. -/
example : ∃ a', Spec.assignAll someJunk [("pos", .flts [1, 2, 3]), ("cluster", .int 7), ("pos", .flts [4, 5, 6])] = .ok a' ∧
    a'.getAttr "pos" = .ok (.flts [4, 5, 6]) := by
  have h : ∃ a', Spec.assignAll someJunk [("pos", .flts [1, 2, 3]), ("cluster", .int 7), ("pos", .flts [4, 5, 6])] = .ok a' := by
    simp only [Spec.assignAll, setAttr, access_vals.1, access_vals.2.1, write, setPos, Value.kind, if_true]
    exact ⟨_, rfl⟩
  obtain ⟨a', h⟩ := h
  refine ⟨a', h, (C80_partial _ _ _ h "pos" (.inl (by decide)) ?_).1 _ (by simp [Spec.lastAssigned])⟩
  intro v hv
  simp only [List.mem_cons, Prod.mk.injEq, List.not_mem_nil, or_false, true_and] at hv
  rcases hv with rfl | ⟨h, -⟩ | rfl
  · exact ⟨fun _ => rfl, by decide, by decide, by decide⟩
  · exact absurd h (by decide)
  · exact ⟨fun _ => rfl, by decide, by decide, by decide⟩

/-- **C80 is false for four attributes**: for every atom, assigning `neighbor_distance`, `neighbor_vector`, `local_angles` or
`sij` succeeds and changes nothing. -/
theorem C80_false_ignored (a : RawAtom) (l : List ℝ) (ls : List (List ℝ)) :
    a.setAttr "neighbor_distance" (.flts l) = .ok a ∧ a.setAttr "sij" (.flts l) = .ok a ∧
    a.setAttr "neighbor_vector" (.flts2 ls) = .ok a ∧ a.setAttr "local_angles" (.flts2 ls) = .ok a ∧
    (l.length ≠ a.n → a.getAttr "neighbor_distance" ≠ .ok (.flts l) ∧ a.getAttr "sij" ≠ .ok (.flts l)) := by
  obtain ⟨-, -, -, -, h1, h2, h3, h4, -⟩ := access_vals
  refine ⟨by simp only [setAttr, h1, write], by simp only [setAttr, h4, write], by simp only [setAttr, h2, write],
    by simp only [setAttr, h3, write], fun hl => ⟨fun h => hl ?_, fun h => hl ?_⟩⟩
  · simp only [getAttr, h1, RawAtom.read, Except.ok.injEq, Value.flts.injEq] at h
    rw [← h]
    simp [getDist, slots]
  · simp only [getAttr, h4, RawAtom.read, Except.ok.injEq, Value.flts.injEq] at h
    rw [← h]
    simp [getSij, slots]

/-- **C80 is false for lists of another size**: one weight assigned to an atom with two neighbours leaves the second as it was;
three weights assigned to it read back as two. -/
theorem C80_false_size : ∃ a a1 a2 : RawAtom, someJunk.setAttr "neighbors" (.ints [4, 5]) = .ok a ∧
    a.setAttr "neighbor_weights" (.flts [3]) = .ok a1 ∧ a1.getAttr "neighbor_weights" = .ok (.flts [3, 1]) ∧
    a.setAttr "neighbor_weights" (.flts [3, 4, 5]) = .ok a2 ∧ a2.getAttr "neighbor_weights" = .ok (.flts [3, 4]) := by
  obtain ⟨-, -, h1, h2, -⟩ := access_vals
  refine ⟨_, _, _, by simp [setAttr, h1, write, setNeighbors, maxNeighbors]; rfl, by simp [setAttr, h2, write, setWeights, maxNeighbors]; rfl, ?_,
    by simp [setAttr, h2, write, setWeights, maxNeighbors]; rfl, ?_⟩
  · simp [getAttr, h2, RawAtom.read, getWeights, slots, fill, List.range_succ]
  · simp [getAttr, h2, RawAtom.read, getWeights, slots, fill, List.range_succ]

/-- **C80 is false for `bonds`**: documented as the number of solid bonds, but registered twice, so that it is the table of common
neighbour analysis.  The number of solid bonds cannot be read through any attribute, and assigning a number is refused. -/
theorem C80_false_bonds (a : RawAtom) (n : Value) (k : ℤ) :
    (∀ name, RawAtom.getAttr { a with fields := Function.update a.fields "frenkelnumber" n } name = a.getAttr name) ∧
    a.setAttr "bonds" (.int k) = .error .typeError := by
  constructor
  · intro name
    unfold getAttr
    cases hacc : access name with
    | none => rfl
    | some acc =>
      have := no_frenkel _ (access_mem hacc) hacc
      cases acc with
      | member m k =>
        have : m ≠ "frenkelnumber" := fun e => this (by rw [e]; rfl)
        simp [RawAtom.read, Function.update_of_ne this]
      | _ => rfl
  · simp [setAttr, access_vals.2.2.2.2.2.2.2.2.1, write, Value.kind]

/-! Steinhardt parameters by number -/

theorem qAt_put (a : RawAtom) (av av' : Bool) (l l' : ℤ) (v : ℝ) (h : 2 ≤ l) (h' : 2 ≤ l') :
    (a.putQ av l v).qAt av' l' = if av = av' ∧ l = l' then v else a.qAt av' l' := by
  have hiff : ((l' - 2).toNat = (l - 2).toNat) ↔ l = l' := by omega
  by_cases e : l = l'
  · subst e
    cases av <;> cases av' <;> simp [putQ, qAt]
  · have : (l' - 2).toNat ≠ (l - 2).toNat := fun hh => e (hiff.1 hh)
    cases av <;> cases av' <;> simp [putQ, qAt, e, Function.update_of_ne this]

/-- **C80, Steinhardt parameters**: `set_q` with a list of different numbers between 2 and 12 and as many values succeeds,
`get_q` then returns these values, and q values with other numbers and of the other kind (averaged or not) stay. -/
theorem C80_q (ls : List ℤ) (vs : List ℝ) (a : RawAtom) (av : Bool) (hlen : ls.length = vs.length) (hr : ∀ l ∈ ls, 2 ≤ l ∧ l ≤ 12)
    (hd : ls.Nodup) : ∃ a', a.setQs av ls vs = (a', .ok ()) ∧ a'.getQs ls av = .ok vs ∧
      ∀ l av', (l ∉ ls ∨ av' ≠ av) → a'.getQ l av' = a.getQ l av' := by
  suffices hs : ∀ (ls : List ℤ) (vs : List ℝ) (a : RawAtom), ls.length = vs.length → (∀ l ∈ ls, 2 ≤ l ∧ l ≤ 12) → ls.Nodup →
      ∃ a', a.setQs av ls vs = (a', .ok ()) ∧ (∀ (k : ℕ) (l : ℤ) (v : ℝ), ls[k]? = some l → vs[k]? = some v → a'.getQ l av = .ok v) ∧
      ∀ l av', (l ∉ ls ∨ av' ≠ av) → a'.getQ l av' = a.getQ l av' by
    obtain ⟨a', h1, h2, h3⟩ := hs ls vs a hlen hr hd
    refine ⟨a', h1, ?_, h3⟩
    unfold getQs
    clear h1 h3 hs hd hr
    induction ls generalizing vs with
    | nil =>
      cases vs with
      | nil => rfl
      | cons v vs => simp at hlen
    | cons l ls ih =>
      cases vs with
      | nil => simp at hlen
      | cons v vs =>
        rw [List.mapM_cons, h2 0 l v rfl rfl, ih vs (by simpa using hlen) (fun k l v hl hv => h2 (k + 1) l v hl hv)]
        rfl
  intro ls
  induction ls with
  | nil =>
    intro vs a hlen _ _
    exact ⟨a, rfl, fun k l v hl => by simp at hl, fun _ _ _ => rfl⟩
  | cons l ls ih =>
    intro vs a hlen hr hd
    cases vs with
    | nil => simp at hlen
    | cons v vs =>
      have hl := hr l (by simp)
      rw [List.nodup_cons] at hd
      obtain ⟨a', h1, h2, h3⟩ := ih vs (a.putQ av l v) (by simpa using hlen) (fun x hx => hr x (List.mem_cons_of_mem _ hx)) hd.2
      have hget : ∀ l' av', (a.putQ av l v).getQ l' av' = if av = av' ∧ l = l' then .ok v else a.getQ l' av' := by
        intro l' av'
        unfold getQ
        by_cases hb : l' < 2 ∨ l' > 12
        · rw [if_pos hb, if_pos hb, if_neg (by rintro ⟨-, rfl⟩; omega)]
        · rw [if_neg hb, if_neg hb, qAt_put _ _ _ _ _ _ hl.1 (by omega)]
          split_ifs <;> rfl
      refine ⟨a', ?_, ?_, ?_⟩
      · rw [setQs, if_neg (by omega)]
        exact h1
      · intro k l' v' hk hv
        cases k with
        | zero =>
          obtain rfl := Option.some.inj hk
          obtain rfl := Option.some.inj hv
          rw [h3 _ _ (.inl hd.1), hget, if_pos ⟨rfl, rfl⟩]
        | succ k => exact h2 k l' v' hk hv
      · intro l' av' hh
        have hh' : l' ∉ ls ∨ av' ≠ av := hh.imp (fun h hm => h (List.mem_cons_of_mem _ hm)) id
        rw [h3 _ _ hh', hget, if_neg]
        rintro ⟨rfl, rfl⟩
        rcases hh with hh | hh
        · exact hh (by simp)
        · exact hh rfl

/-- Hypotheses of C80_q met. -/
example : ∃ a', someJunk.setQs true [4, 12] [1, 2] = (a', .ok ()) ∧ a'.getQs [4, 12] true = .ok [1, 2] := by
  obtain ⟨a', h1, h2, -⟩ := C80_q [4, 12] [1, 2] someJunk true rfl (by simp) (by simp)
  exact ⟨a', h1, h2⟩

/-- **C80, refused numbers**: numbers outside 2 to 12 are refused by `get_q` and `set_q`; but a list is written up to the first
such number before the error is raised. -/
theorem C80_q_errors (a : RawAtom) (l : ℤ) (h : l < 2 ∨ l > 12) (v : ℝ) (av : Bool) :
    a.getQ l av = .error .invalidArgument ∧ a.setQ l v av = (a, .error .invalidArgument) ∧
    ∀ l', 2 ≤ l' → l' ≤ 12 → ∃ a', a.setQs av [l', l] [v, v] = (a', .error .invalidArgument) ∧ a'.getQ l' av = .ok v := by
  refine ⟨if_pos h, if_pos h, fun l' h1 h2 => ⟨a.putQ av l' v, ?_, ?_⟩⟩
  · rw [setQs, if_neg (by omega), setQs, if_pos h]
  · unfold getQ
    rw [if_neg (by omega), qAt_put _ _ _ _ _ _ h1 h1, if_pos ⟨rfl, rfl⟩]

/-- **C80, all q values**: entry `l - 2` of `allq` is `get_q(l)`, for `allaq` with `averaged=True`. -/
theorem C80_allq (a : RawAtom) (l : ℤ) (h1 : 2 ≤ l) (h2 : l ≤ 12) : ∃ qs aqs, a.getAttr "allq" = .ok (.flts qs) ∧
    a.getAttr "allaq" = .ok (.flts aqs) ∧ qs.length = 11 ∧ aqs.length = 11 ∧
    (∃ x, qs[(l - 2).toNat]? = some x ∧ a.getQ l false = .ok x) ∧ ∃ x, aqs[(l - 2).toNat]? = some x ∧ a.getQ l true = .ok x := by
  have e1 : access "allq" = some .allq := by decide +kernel
  have e2 : access "allaq" = some .allaq := by decide +kernel
  have hk : (l - 2).toNat < 11 := by omega
  refine ⟨elevenOf a.q, elevenOf a.aq, by simp only [getAttr, e1, RawAtom.read], by simp only [getAttr, e2, RawAtom.read], by simp [elevenOf], by simp [elevenOf],
    ⟨a.q (l - 2).toNat, ?_, ?_⟩, ⟨a.aq (l - 2).toNat, ?_, ?_⟩⟩
  · unfold elevenOf; rw [List.getElem?_map, List.getElem?_range hk]; rfl
  · unfold getQ qAt; rw [if_neg (by omega), if_neg (by simp)]
  · unfold elevenOf; rw [List.getElem?_map, List.getElem?_range hk]; rfl
  · unfold getQ qAt; rw [if_neg (by omega), if_pos rfl]

/-- **C80, components**: `get_qlm(l)` returns `2 l + 1` numbers exactly for `l` from 2 to 12, those stored for `l` in the table asked for, in order; other numbers are not refused but read
out of bounds (0, 1 and above 12) or fail in the allocation (negative). -/
theorem C80_qlm (a : RawAtom) (l : ℤ) (av : Bool) :
    (∀ k : ℕ, l = k + 2 → k ≤ 10 → ∃ r, a.getQlm l av = .ok r ∧ (r.length : ℤ) = 2 * l + 1 ∧
      ∀ (i : ℕ) (x : ℝ × ℝ), r[i]? = some x → x = match av with | true => a.aqlm k i | false => a.qlm k i) ∧
    ((0 ≤ l ∧ l < 2) ∨ 12 < l → a.getQlm l av = .error .oob) ∧ (l < 0 → a.getQlm l av = .error .valueError) := by
  unfold getQlm
  refine ⟨fun k h1 h2 => ⟨_, by rw [if_neg (by omega), if_neg (by omega)], ?_, fun i x hx => ?_⟩, fun h => ?_, fun h => if_pos h⟩
  · rw [List.length_map, List.length_range]; omega
  · have hk : (l - 2).toNat = k := by omega
    rw [hk, List.getElem?_map, Option.map_eq_some_iff] at hx
    obtain ⟨y, hy, rfl⟩ := hx
    obtain ⟨hlt, rfl⟩ := List.getElem?_eq_some_iff.1 hy
    rw [List.getElem_range]
    cases av <;> rfl
  · rw [if_neg (by omega), if_pos (by omega)]

/-- **C80, the size of the tables.**  The attributes given per neighbour accept every list of at most 300 entries, and a longer one is written out of bounds. -/
theorem C80_capacity (a : RawAtom) (l : List ℤ) (w : List ℝ) :
    ((∃ a', a.setNeighbors l = .ok a') ↔ l.length ≤ 300) ∧ ((∃ a', a.setFaceVertices l = .ok a') ↔ l.length ≤ 300) ∧
    ((∃ a', a.setWeights w = .ok a') ↔ w.length ≤ 300) ∧ ((∃ a', a.setFacePerimeters w = .ok a') ↔ w.length ≤ 300) := by
  unfold setNeighbors setFaceVertices setWeights setFacePerimeters maxNeighbors
  refine ⟨?_, ?_, ?_, ?_⟩ <;> split_ifs with h <;> simp <;> omega

/-- Lists of exactly 300 entries are accepted, of 301 not. -/
example (a : RawAtom) : (∃ a', a.setNeighbors (List.replicate 300 7) = .ok a') ∧ ¬ ∃ a', a.setNeighbors (List.replicate 301 7) = .ok a' := by
  rw [(C80_capacity a _ []).1, (C80_capacity a _ []).1, List.length_replicate, List.length_replicate]
  omega

/-! ## C81 -/

/-- The object holds the neighbours `l` in its first slots. -/
def Holds (a : RawAtom) (l : List Nb) : Prop :=
  a.n = l.length ∧ ∀ k x, l[k]? = some x → a.neighbors k = x.idx ∧ a.dist k = x.dist ∧ a.weight k = x.weight ∧ a.vec k = x.vec ∧
    a.phi k = x.vec.phi ∧ a.theta k = x.vec.theta

theorem slots_of {α : Type} {a : RawAtom} {l : List Nb} (hn : a.n = l.length) (f : ℕ → α) (g : Nb → α)
    (h : ∀ k x, l[k]? = some x → f k = g x) : a.slots f = l.map g := by
  refine List.ext_getElem? fun k => ?_
  unfold slots
  rw [List.getElem?_map, List.getElem?_map]
  by_cases hk : k < l.length
  · rw [List.getElem?_range (by omega), List.getElem?_eq_getElem hk]
    simp [h k _ (List.getElem?_eq_getElem hk)]
  · rw [List.getElem?_eq_none (by simp; omega), List.getElem?_eq_none (by omega)]; rfl

theorem reports_of_holds {a : RawAtom} {l : List Nb} (h : Holds a l) : Spec.Reports a l := by
  obtain ⟨hn, h⟩ := h
  obtain ⟨-, -, e1, e2, e3, e4, e5, -, -, e6⟩ := access_vals
  refine ⟨?_, ?_, ?_, ?_, ?_, ?_⟩
  · simp only [getAttr, e6, RawAtom.read, hn]
  · simp only [getAttr, e1, RawAtom.read, getNeighbors]; rw [slots_of hn _ _ fun k x hx => (h k x hx).1]
  · simp only [getAttr, e3, RawAtom.read, getDist]; rw [slots_of hn _ _ fun k x hx => (h k x hx).2.1]
  · simp only [getAttr, e2, RawAtom.read, getWeights]; rw [slots_of hn _ _ fun k x hx => (h k x hx).2.2.1]
  · simp only [getAttr, e4, RawAtom.read, getVecs]
    rw [slots_of hn (fun k => [(a.vec k).x, (a.vec k).y, (a.vec k).z]) (fun x => [x.vec.x, x.vec.y, x.vec.z]) fun k x hx => by rw [(h k x hx).2.2.2.1]]
  · simp only [getAttr, e5, RawAtom.read, getAngles]
    rw [slots_of hn (fun k => [a.phi k, a.theta k]) (fun x => [x.vec.phi, x.vec.theta]) fun k x hx => by rw [(h k x hx).2.2.2.2.1, (h k x hx).2.2.2.2.2]]

/-- **C80, the constructor**: whatever the memory held, `Atom(pos, id, type)` has this position (its first three entries), id and type, no
neighbours, cluster -1, all flags off and every q value -1; fewer than three coordinates are read out of bounds. -/
theorem C80_new (junk : RawAtom) (pos : List ℝ) (id typ : ℤ) :
    (pos.length < 3 → RawAtom.new junk pos id typ = .error .oob) ∧
    (3 ≤ pos.length → ∃ a, RawAtom.new junk pos id typ = .ok a ∧ a.getAttr "pos" = .ok (.flts (pos.take 3)) ∧ a.getAttr "id" = .ok (.int id) ∧
      a.getAttr "type" = .ok (.int typ) ∧ Spec.Reports a [] ∧ a.getAttr "cluster" = .ok (.int (-1)) ∧ a.getAttr "ghost" = .ok (.int 0) ∧
      (∀ m ∈ ["solid", "surface", "largest_cluster"], a.getAttr m = .ok (.bool false)) ∧
      ∀ l av, 2 ≤ l → l ≤ 12 → a.getQ l av = .ok (-1)) := by
  have e1 : access "id" = some (.member "id" .int) ∧ access "type" = some (.member "type" .int) ∧ access "ghost" = some (.member "ghost" .int) ∧
      access "solid" = some (.member "issolid" .bool) ∧ access "surface" = some (.member "issurface" .bool) ∧
      access "largest_cluster" = some (.member "lcluster" .bool) := by decide +kernel
  obtain ⟨a1, a2, a3, a4, a5, a6⟩ := e1
  obtain ⟨b1, b2, -⟩ := access_vals
  match pos with
  | [] => exact ⟨fun _ => rfl, fun h => by simp at h⟩
  | [x] => exact ⟨fun _ => rfl, fun h => by simp at h⟩
  | [x, y] => exact ⟨fun _ => rfl, fun h => by simp at h⟩
  | x :: y :: z :: r =>
    refine ⟨fun h => by simp at h; omega, fun _ => ⟨_, rfl, ?_, ?_, ?_, ?_, ?_, ?_, ?_, ?_⟩⟩
    · simp [getAttr, b1, RawAtom.read]
    · simp [getAttr, a1, RawAtom.read]
    · simp [getAttr, a2, RawAtom.read]
    · exact reports_of_holds ⟨rfl, fun k x hx => by simp at hx⟩
    · simp [getAttr, b2, RawAtom.read]
    · simp [getAttr, a3, RawAtom.read]
    · intro m hm
      simp only [List.mem_cons, List.not_mem_nil, or_false] at hm
      rcases hm with rfl | rfl | rfl
      · simp [getAttr, a4, RawAtom.read]
      · simp [getAttr, a5, RawAtom.read]
      · simp [getAttr, a6, RawAtom.read]
    · intro l av h1 h2
      unfold getQ
      rw [if_neg (by omega)]
      cases av <;> rfl

theorem holds_push {a a' : RawAtom} {l : List Nb} {x : Nb} (h : Holds a l) (hp : a.pushNeighbor x = .ok a') : Holds a' (l ++ [x]) := by
  obtain ⟨hn, h⟩ := h
  unfold pushNeighbor at hp
  split_ifs at hp
  obtain rfl := Except.ok.inj hp
  refine ⟨by simp [hn], fun k y hy => ?_⟩
  by_cases hk : k = l.length
  · subst hk
    rw [List.getElem?_append_right le_rfl] at hy
    simp only [Nat.sub_self, List.getElem?_cons_zero, Option.some.injEq] at hy
    subst hy
    simp only [hn, Function.update_self, and_self]
  · have hlt : k < l.length := by
      have := (List.getElem?_eq_some_iff.1 hy).1
      simp at this
      omega
    rw [List.getElem?_append_left hlt] at hy
    have hne : k ≠ a.n := by omega
    simp only [Function.update_of_ne hne]
    exact h k y hy

/-- Appending many neighbours. -/
theorem push_many (xs : List Nb) : ∀ (a : RawAtom) (l : List Nb), Holds a l → l.length ≤ 300 →
    ((∃ a', Spec.runNb a (xs.map .push) = .ok a') ↔ l.length + xs.length ≤ 300) ∧
    (∀ a', Spec.runNb a (xs.map .push) = .ok a' → Holds a' (l ++ xs)) ∧
    (300 < l.length + xs.length → Spec.runNb a (xs.map .push) = .error .oob) := by
  induction xs with
  | nil =>
    intro a l h hl
    refine ⟨⟨fun _ => by simpa using hl, fun _ => ⟨a, rfl⟩⟩, fun a' ha => ?_, fun h => by simp at h; omega⟩
    obtain rfl := Except.ok.inj ha
    rwa [List.append_nil]
  | cons x xs ih =>
    intro a l h hl
    simp only [List.map_cons, Spec.runNb, Spec.stepNb, List.length_cons]
    by_cases hfull : 300 ≤ l.length
    · have : a.pushNeighbor x = .error .oob := by
        unfold pushNeighbor
        rw [if_pos (by rw [h.1]; exact hfull)]
      rw [this]
      refine ⟨⟨fun ⟨a', ha⟩ => by simp at ha, fun hh => by omega⟩, fun a' ha => by simp at ha, fun _ => rfl⟩
    · obtain ⟨a1, h1⟩ : ∃ a1, a.pushNeighbor x = .ok a1 := by
        unfold pushNeighbor
        rw [if_neg (by rw [h.1]; exact hfull)]
        exact ⟨_, rfl⟩
      rw [h1]
      obtain ⟨i1, i2, i3⟩ := ih a1 (l ++ [x]) (holds_push h h1) (by simp; omega)
      simp only [List.length_append, List.length_cons, List.length_nil, List.append_assoc, List.cons_append, List.nil_append] at i1 i2 i3
      refine ⟨?_, i2, fun hh => i3 (by omega)⟩
      dsimp only
      rw [i1]
      omega

/-- **C81, after a search.**  Full statement: the attributes of an atom with one entry per neighbour always describe the same
neighbours in the same order.  Proved: whatever the object held before, after a search that finds the neighbours `xs`, all of them
report exactly `xs`; the search stays within the arrays exactly if there are at most 300, and writes out of bounds otherwise.
Missing: lists assigned by the user, see `C81_false_assigned`. -/
theorem C81_partial (a : RawAtom) (xs : List Nb) :
    (∀ a', Spec.runNb a (.reset :: xs.map .push) = .ok a' → Spec.Reports a' xs) ∧
    ((∃ a', Spec.runNb a (.reset :: xs.map .push) = .ok a') ↔ xs.length ≤ 300) ∧
    (300 < xs.length → Spec.runNb a (.reset :: xs.map .push) = .error .oob) := by
  have h0 : Holds a.resetNeighbors [] := ⟨rfl, fun k x hx => by simp at hx⟩
  obtain ⟨h1, h2, h3⟩ := push_many xs a.resetNeighbors [] h0 (by simp)
  simp only [List.length_nil, Nat.zero_add, List.nil_append] at h1 h2 h3
  exact ⟨fun a' ha => reports_of_holds (h2 a' ha), h1, h3⟩

/-- **C81, weights**: weights assigned to an atom with as many neighbours replace the weights and nothing else. -/
theorem C81_weights (a a' : RawAtom) (xs : List Nb) (w : List ℝ) (hl : w.length = xs.length)
    (h : Spec.runNb a (.reset :: xs.map .push ++ [.weights w]) = .ok a') :
    Spec.Reports a' (List.zipWith (fun x v => { x with weight := v }) xs w) := by
  have hsplit : ∀ (ops : List Spec.NbOp) (op : Spec.NbOp) (b : RawAtom), Spec.runNb b (ops ++ [op]) = .ok a' →
      ∃ c, Spec.runNb b ops = .ok c ∧ Spec.runNb c [op] = .ok a' := by
    intro ops op
    induction ops with
    | nil => intro b hb; exact ⟨b, rfl, hb⟩
    | cons o ops ih =>
      intro b hb
      rw [List.cons_append] at hb
      unfold Spec.runNb at hb
      split at hb
      · rename_i b1 e1
        obtain ⟨c, k1, k2⟩ := ih b1 hb
        refine ⟨c, ?_, k2⟩
        rw [Spec.runNb, e1]
        exact k1
      · cases hb
  obtain ⟨c, h1, h2⟩ := hsplit _ _ _ h
  have h0 : Holds a.resetNeighbors [] := ⟨rfl, fun k x hx => by simp at hx⟩
  have hc : Holds c xs := by
    have := (push_many xs a.resetNeighbors [] h0 (by simp)).2.1 c h1
    simpa using this
  refine reports_of_holds ⟨?_, ?_⟩
  · simp only [Spec.runNb, Spec.stepNb, setAttr, access_vals.2.2.2.1, write, setWeights] at h2
    split_ifs at h2
    obtain rfl := Except.ok.inj h2
    simp [hc.1, hl]
  · intro k x hx
    simp only [Spec.runNb, Spec.stepNb, setAttr, access_vals.2.2.2.1, write, setWeights] at h2
    split_ifs at h2
    obtain rfl := Except.ok.inj h2
    rw [List.getElem?_zipWith_eq_some] at hx
    obtain ⟨y, v, hy, hv, rfl⟩ := hx
    obtain ⟨q1, q2, q3, q4, q5, q6⟩ := hc.2 k y hy
    refine ⟨q1, q2, ?_, q4, q5, q6⟩
    simp [fill, List.getD_eq_getElem?_getD, hv]

/-- Hypotheses of C81_weights met: one neighbour, weight 5. -/
example : ∃ a', Spec.runNb someJunk (.reset :: [⟨3, 2, 1, ⟨2, 0, 0⟩⟩].map .push ++ [.weights [5]]) = .ok a' ∧
    a'.getAttr "neighbor_weights" = .ok (.flts [5]) := by
  have h : ∃ a', Spec.runNb someJunk (.reset :: [⟨3, 2, 1, ⟨2, 0, 0⟩⟩].map .push ++ [.weights [5]]) = .ok a' := by
    simp [Spec.runNb, Spec.stepNb, setAttr, access_vals.2.2.2.1, write, setWeights, pushNeighbor, resetNeighbors, maxNeighbors]
  obtain ⟨a', h⟩ := h
  exact ⟨a', h, (C81_weights _ _ _ _ rfl h).2.2.2.1⟩

/-- **C81 is false for assigned neighbours**: whatever the object, after a search that found one neighbour, assigning another
neighbour leaves the vector of the old one and sets the distance to -1. -/
theorem C81_false_assigned (a : RawAtom) : ∃ a', Spec.runNb a [.reset, .push ⟨3, 2, 1, ⟨2, 0, 0⟩⟩, .assign [7]] = .ok a' ∧
    a'.getAttr "neighbors" = .ok (.ints [7]) ∧ a'.getAttr "neighbor_vector" = .ok (.flts2 [[2, 0, 0]]) ∧
    a'.getAttr "neighbor_distance" = .ok (.flts [-1]) := by
  obtain ⟨-, -, e1, e2, e3, e4, -⟩ := access_vals
  refine ⟨_, by
    simp only [Spec.runNb, Spec.stepNb, setAttr, e1, write, setNeighbors, pushNeighbor, resetNeighbors, maxNeighbors]
    norm_num
    rfl, ?_, ?_, ?_⟩
  · simp [getAttr, e1, RawAtom.read, getNeighbors, slots, fill, List.range_succ]
  · simp [getAttr, e4, RawAtom.read, getVecs, slots, List.range_succ]
  · simp [getAttr, e3, RawAtom.read, getDist, slots, List.range_succ]

theorem access_names (name : String) : (access name).isSome ↔ name ∈ Spec.attributeNames := by
  have hsub : (∀ p ∈ registrations, p.1 ∈ Spec.attributeNames) ∧ ∀ n ∈ Spec.attributeNames, n ∈ registrations.map Prod.fst := by decide +kernel
  unfold access
  rw [Option.isSome_map, List.find?_isSome]
  constructor
  · rintro ⟨p, hp, e⟩
    rw [← of_decide_eq_true e]
    exact hsub.1 p (List.mem_reverse.1 hp)
  · intro h
    obtain ⟨p, hp, e⟩ := List.mem_map.1 (hsub.2 name h)
    exact ⟨p, List.mem_reverse.2 hp, by simpa using e⟩

/-- **C80, names**: every attribute can be read, whatever the object holds; other names can be neither read nor assigned (AttributeError). -/
theorem C80_names (a : RawAtom) (name : String) (v : Value) :
    (name ∈ Spec.attributeNames → ∃ w, a.getAttr name = .ok w) ∧
    (name ∉ Spec.attributeNames → a.getAttr name = .error .attributeError ∧ a.setAttr name v = .error .attributeError) := by
  rw [← access_names]
  unfold getAttr setAttr
  rcases access name with _ | acc
  · simp
  · simp

/-- **C81, bond values**: the values stored by `find_solids` for the neighbours are what `sij` reports, one for each neighbour and in the order of
the neighbours; all other attributes stay as they were. -/
theorem C81_sij (a : RawAtom) (vs : List ℝ) (hv : a.getAttr "coordination" = .ok (.int vs.length)) :
    (a.putSij vs).getAttr "sij" = .ok (.flts vs) ∧ ∀ m, m ≠ "sij" → (a.putSij vs).getAttr m = a.getAttr m := by
  obtain ⟨-, -, -, -, -, -, -, e, -, ec⟩ := access_vals
  have hn : a.n = vs.length := by
    simp only [getAttr, ec, RawAtom.read, Except.ok.injEq, Value.int.injEq] at hv
    exact_mod_cast hv
  constructor
  · simp only [getAttr, e, RawAtom.read, Except.ok.injEq, Value.flts.injEq]
    refine List.ext_getElem (by simp [getSij, slots, putSij, hn]) fun k h1 h2 => ?_
    simp [getSij, slots, putSij, List.getD_eq_getElem?_getD, h2]
  · intro m hm
    have hne : ∀ p ∈ registrations, p.2 = .sij → p.1 = "sij" := by decide +kernel
    unfold getAttr
    cases hacc : access m with
    | none => rfl
    | some acc =>
      have : acc ≠ .sij := by
        rintro rfl
        exact hm (hne _ (access_mem hacc) rfl)
      cases acc <;> first | rfl | exact absurd rfl this

/-- The hypotheses can be met: two neighbours. -/
example : ∃ a, Spec.runNb someJunk [.reset, .push ⟨3, 2, 1, ⟨2, 0, 0⟩⟩, .push ⟨4, 3, 1, ⟨0, 3, 0⟩⟩] = .ok a ∧ (a.putSij [1, 2]).getAttr "sij" = .ok (.flts [1, 2]) := by
  obtain ⟨a, ha⟩ := (C81_partial someJunk [⟨3, 2, 1, ⟨2, 0, 0⟩⟩, ⟨4, 3, 1, ⟨0, 3, 0⟩⟩]).2.1.2 (by simp)
  exact ⟨a, ha, (C81_sij a [1, 2] ((C81_partial someJunk _).1 a ha).1).1⟩

/-- **C81 is false for `sij`**: for every atom, a new search leaves the old bond values in place, so that `sij` describes the neighbours of the
search before. -/
theorem C81_false_sij (a : RawAtom) (xs : List Nb) (vs : List ℝ) (a' : RawAtom) (h : Spec.runNb (a.putSij vs) (.reset :: xs.map .push) = .ok a')
    (hl : xs.length = vs.length) : a'.getAttr "sij" = .ok (.flts vs) := by
  have keep : ∀ (ops : List Nb) (b b' : RawAtom), Spec.runNb b (ops.map .push) = .ok b' → b'.sij = b.sij := by
    intro ops
    induction ops with
    | nil => intro b b' hb; rw [List.map_nil, Spec.runNb] at hb; rw [Except.ok.inj hb]
    | cons o ops ih =>
      intro b b' hb
      rw [List.map_cons, Spec.runNb] at hb
      split at hb
      · rename_i b1 e1
        rw [ih b1 b' hb]
        simp only [Spec.stepNb, pushNeighbor] at e1
        split_ifs at e1
        rw [← Except.ok.inj e1]
      · cases hb
  have hc := ((C81_partial (a.putSij vs) xs).1 a' h).1
  have hs : a'.sij = (a.putSij vs).sij := by
    rw [Spec.runNb] at h
    exact keep xs (a.putSij vs).resetNeighbors a' h
  obtain ⟨-, -, -, -, -, -, -, e, -, ec⟩ := access_vals
  have hn : a'.n = vs.length := by
    simp only [getAttr, ec, RawAtom.read, Except.ok.injEq, Value.int.injEq] at hc
    rw [← hl]
    exact_mod_cast hc
  simp only [getAttr, e, RawAtom.read, Except.ok.injEq, Value.flts.injEq, getSij, hs]
  refine List.ext_getElem (by simp [slots, hn]) fun k h1 h2 => ?_
  simp [slots, putSij, List.getD_eq_getElem?_getD, h2]

/-- The hypotheses can be met: other neighbours, the old values. -/
example (a : RawAtom) : ∃ a', Spec.runNb (a.putSij [1]) [.reset, .push ⟨4, 3, 1, ⟨0, 3, 0⟩⟩] = .ok a' ∧ a'.getAttr "neighbors" = .ok (.ints [4]) ∧
    a'.getAttr "sij" = .ok (.flts [1]) := by
  obtain ⟨a', ha⟩ := (C81_partial (a.putSij [1]) [⟨4, 3, 1, ⟨0, 3, 0⟩⟩]).2.1.2 (by simp)
  exact ⟨a', ha, by simpa using ((C81_partial _ _).1 a' ha).2.1, C81_false_sij a [⟨4, 3, 1, ⟨0, 3, 0⟩⟩] [1] a' ha rfl⟩

end Pyscal
