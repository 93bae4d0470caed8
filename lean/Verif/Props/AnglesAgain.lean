import Verif.Props.EntropyAgain
import Verif.Props.Angles
import Verif.Props.Padded
import Verif.Props.Frame

/-! Property C118: angular parameters after other analyses. -/

namespace Pyscal

/-- What the calls of `Spec.Explored` leave alone: positions and the box as used for distances. -/
structure SamePlaces (s t : System) : Prop where
  pos : t.atoms.map Atom.pos = s.atoms.map Atom.pos
  image : ∀ d, t.image d = s.image d

theorem SamePlaces.map {s t t' : System} (h : SamePlaces s t) (f : Atom → Atom) (hf : ∀ a, (f a).pos = a.pos) (ha : t'.atoms = t.atoms.map f)
    (h1 : t'.box = t.box) (h2 : t'.rot = t.rot) (h3 : t'.rotinv = t.rotinv) (h4 : t'.triclinic = t.triclinic) : SamePlaces s t' := by
  refine ⟨?_, fun d => (image_frame h1 h2 h3 h4 d).trans (h.image d)⟩
  rw [ha, ← h.pos, List.map_map]
  exact List.map_congr_left fun a _ => hf a

theorem SamePlaces.cluster {s t t' : System} (hk : SamePlaces s t) (hx : NoCopies t) {cond : Atom → Except Fault ℤ} {c : ℝ} {n : ℕ}
    (h : t.clusterAtoms cond c = .ok (t', n)) : SamePlaces s t' := by
  refine ⟨?_, fun d => ?_⟩
  · obtain ⟨new, lab, -, -, -, -, hl, hat⟩ := cluster_run hx h
    rw [← hk.pos]
    refine List.ext_getElem (by simp [hl]) fun i h1 h2 => ?_
    rw [List.length_map] at h1 h2
    obtain ⟨a, ha, e⟩ := hat i _ (List.getElem?_eq_getElem h1)
    rw [List.getElem_map, List.getElem_map, mem_of_getElem?' ha, e]
  · rw [← hk.image]
    obtain ⟨new, t1, t2, a1, a2, a3, a4, a5⟩ := clusterAtoms_ok hx.inv h
    have hreal : ∀ b ∈ new, b.ghost = false := by
      intro b hb
      obtain ⟨i, hib⟩ := List.mem_iff_getElem?.1 hb
      have hlt := (List.getElem?_eq_some_iff.1 hib).1
      obtain ⟨v, -, h2⟩ := a5 i t.atoms[i] (List.getElem?_eq_getElem (by omega))
      rw [hib] at h2
      rw [Option.some.inj h2]
      exact hx.real t.atoms[i] (List.getElem_mem _)
    obtain ⟨extra, -, -, -, -, -, x6, -, -⟩ := assign_shape hreal a1
    obtain ⟨-, rfl⟩ := x6 (by rw [a4]; exact hx.large)
    obtain ⟨c1, c2⟩ := findClusters_inRange a2
    obtain ⟨lab, hb, -, -⟩ := findClusters_ok _ c c1 c2
    rw [a2] at hb
    unfold System.largestCluster at a3
    split_ifs at a3
    have := congrArg (fun x => x.1) (Except.ok.inj a3)
    dsimp only at this
    rw [← this, Except.ok.inj hb]
    exact image_frame rfl rfl rfl rfl d

theorem SamePlaces.solids {s t t' : System} (hk : SamePlaces s t) (hx : NoCopies t) {bonds threshold avgthreshold q : PyNum} {cutoff : ℝ} {right : Bool}
    {r : Option ℕ} (h : System.findSolids bonds threshold avgthreshold false q cutoff right t = (t', .ok r)) : SamePlaces s t' := by
  obtain ⟨p, rfl, -, -⟩ := findSolids_store hx.inv h
  exact hk.map (solidAtom t p) (fun a => (solidAtom_rest _ _ _).2.2.2) rfl rfl rfl rfl rfl

theorem explored_places {s t : System} (hs : NoCopies s) (h : Spec.Explored s t) : SamePlaces s t := by
  induction h with
  | refl => exact ⟨rfl, fun _ => rfl⟩
  | @solids t t' bonds threshold avgthreshold q cluster cutoff right r h0 h ih =>
    have hk := explored_kept hs h0
    cases cluster with
    | false => exact ih.solids hk.copies h
    | true =>
      obtain ⟨u, n, hu, hc, -⟩ := (findSolids_cluster _ _ _ _ _ _ _ _ _).1 h
      exact (ih.solids hk.copies hu).cluster (hk.solids hu).copies hc
  | @cluster t t' cond cutoff n h0 h ih => exact ih.cluster (explored_kept hs h0).copies h
  | @disorder t t' averaged q _ h ih =>
    unfold System.calculateDisorder at h
    dsimp only at h
    have h0 : SamePlaces s { t with solidq := q.toNat, atoms := t.atoms.map { t with solidq := q.toNat }.disorder1 } :=
      ih.map { t with solidq := q.toNat }.disorder1 (fun a => rfl) rfl rfl rfl rfl rfl
    split_ifs at h <;> obtain ⟨rfl, he⟩ := Prod.mk.inj h <;> first
      | (cases he; done)
      | exact h0
      | exact h0.map _ (by exact fun a => rfl) rfl rfl rfl rfl rfl
  | @q t t' ls averaged _ h ih =>
    obtain ⟨-, -, e⟩ := calculateQ_ok h
    have h0 : SamePlaces s (t.afterQ (ls.map Int.toNat)) := ih.map _ (by exact fun a => rfl) rfl rfl rfl rfl rfl
    rw [e]
    split_ifs
    · exact h0.map _ (by exact fun a => rfl) rfl rfl rfl rfl rfl
    · exact h0

/-- The sum of `angular1` as a function of the vectors to the neighbours. -/
noncomputable def angularOf (σ : StdSort) (vecs : List V3) : Option ℝ :=
  let args := (σ.sort (vecs.mapIdx fun (i : ℕ) v => ⟨V3.norm v, i⟩)).map DAtom.idx
  let top := args.take 4
  let combos := (pairs top.length).map fun p => (top.getD p.1 0, top.getD p.2 0)
  combos.foldl (fun acc c => nanAdd acc ((pyCos (vecs.getD c.1 0) (vecs.getD c.2 0)).map fun x => (x + 1 / 3) ^ 2)) (some 0)

theorem mapIdx_of_map {α β γ : Type} (l : List α) (f : α → β) (g : ℕ → β → γ) : (l.map f).mapIdx g = l.mapIdx fun i x => g i (f x) :=
  List.ext_getElem (by simp) fun i h1 h2 => by simp

theorem angular1_eq (σ : StdSort) (s : System) (atoms : List Atom) (a : Atom) (h : ∀ x ∈ a.nbrs, x.idx < atoms.length) :
    angular1 σ s atoms a = .ok { a with angular := angularOf σ (a.nbrs.map fun x => s.image (a.pos - (atoms.getD x.idx default).pos)) } := by
  have hmap : (a.nbrs.mapM fun x => pyGet atoms x.idx) = .ok (a.nbrs.map fun x => atoms.getD x.idx default) := by
    refine mapM_ok_map _ _ _ fun x hx => ?_
    unfold pyGet
    rw [List.getElem?_eq_getElem (h x hx), List.getD_eq_getElem?_getD, List.getElem?_eq_getElem (h x hx)]
    rfl
  unfold angular1
  change Except.bind (a.nbrs.mapM _) _ = _
  rw [hmap]
  unfold angularOf
  change Except.ok _ = _
  simp only [List.map_map, mapIdx_of_map, Function.comp_def]
  rfl

/-- `calculate_angularcriteria` for at least 200 atoms. -/
theorem angular_run (σ : StdSort) {s : System} (hc : NoCopies s) (hr : s.NbrsInRange) :
    s.calculateAngular σ = .ok (s.setAtoms (s.atoms.map fun a =>
      { a with angular := angularOf σ (a.nbrs.map fun x => s.image (a.pos - (s.atoms.getD x.idx default).pos)) })) := by
  unfold System.calculateAngular
  rw [getAtoms_inv hc.inv]
  change Except.bind (s.atoms.mapM (angular1 σ s s.atoms)) _ = _
  rw [mapM_ok_map _ _ _ fun a ha => angular1_eq σ s s.atoms a (hr a ha)]
  change s.assignAtoms _ = _
  unfold System.assignAtoms
  rw [if_neg (by rw [List.length_map]; have := hc.large; omega)]

/-- `calculate_chiparams` for at least 200 atoms. -/
theorem chi_run {s : System} (hc : NoCopies s) : s.calculateChi = .ok (s.setAtoms (s.atoms.map chi1)) := by
  unfold System.calculateChi
  rw [getAtoms_inv hc.inv]
  change s.assignAtoms _ = _
  unfold System.assignAtoms
  rw [if_neg (by rw [List.length_map]; have := hc.large; omega)]

/-- **C118, what is proved.**  Full statement: calls of `find_solids`, `cluster_atoms`, `calculate_disorder` and `calculate_q` between a neighbour search and
`calculate_angularcriteria` or `calculate_chiparams` do not change what these give.  Proved for at least 200 atoms: both calls succeed and every atom
gets the same values as directly after the search.  Missing: fewer than 200 atoms, where `C118_chi` and
`C118_angular` give equal values for calls that succeed. -/
theorem C118_partial (σ : StdSort) (s t : System) (reals : List Atom) (hi : StoreInv s reals) (hn : 200 ≤ reals.length) (hg : s.ghostNop = 0)
    (hr : ∀ a ∈ reals, ∀ x ∈ a.nbrs, x.idx < reals.length) (hst : Spec.Explored s t) :
    (∃ s' t', s.calculateAngular σ = .ok s' ∧ t.calculateAngular σ = .ok t' ∧ s'.atoms.length = reals.length ∧
      t'.atoms.map Atom.angular = s'.atoms.map Atom.angular) ∧
    ∃ s' t', s.calculateChi = .ok s' ∧ t.calculateChi = .ok t' ∧ s'.atoms.length = reals.length ∧ t'.atoms.map Atom.chi = s'.atoms.map Atom.chi := by
  obtain ⟨hc, rfl⟩ := NoCopies.of_inv hi hn hg
  have hk := explored_kept hc hst
  have hp := explored_places hc hst
  have hl : t.atoms.length = s.atoms.length := by simpa using congrArg List.length hk.nbrs
  have hrt : t.NbrsInRange := nbrsInRange_congr hk.nbrs hr
  have hnb : ∀ (i : ℕ) (h1 : i < t.atoms.length) (h2 : i < s.atoms.length), t.atoms[i].nbrs = s.atoms[i].nbrs := by
    intro i h1 h2
    have e := congrArg (·[i]?) hk.nbrs
    simp only [List.getElem?_map, List.getElem?_eq_getElem h1, List.getElem?_eq_getElem h2] at e
    exact Option.some.inj e
  have hpo : ∀ (i : ℕ) (h1 : i < t.atoms.length) (h2 : i < s.atoms.length), t.atoms[i].pos = s.atoms[i].pos := by
    intro i h1 h2
    have e := congrArg (·[i]?) hp.pos
    simp only [List.getElem?_map, List.getElem?_eq_getElem h1, List.getElem?_eq_getElem h2] at e
    exact Option.some.inj e
  refine ⟨⟨_, _, angular_run σ hc hr, angular_run σ hk.copies hrt, List.length_map _, ?_⟩, ⟨_, _, chi_run hc, chi_run hk.copies, List.length_map _, ?_⟩⟩
  · refine List.ext_getElem (by simp [System.setAtoms, hl]) fun i h1 h2 => ?_
    have g1 : i < t.atoms.length := by simpa [System.setAtoms] using h1
    have g2 : i < s.atoms.length := by omega
    simp only [System.setAtoms, List.getElem_map]
    rw [hnb i g1 g2, hpo i g1 g2]
    congr 1
    refine List.map_congr_left fun x hx => ?_
    have hxl : x.idx < s.atoms.length := hr _ (List.getElem_mem g2) x hx
    rw [hp.image, List.getD_eq_getElem?_getD, List.getD_eq_getElem?_getD, List.getElem?_eq_getElem hxl, List.getElem?_eq_getElem (by omega)]
    simp only [Option.getD_some]
    rw [hpo x.idx (by omega) hxl]
  · refine List.ext_getElem (by simp [System.setAtoms, hl]) fun i h1 h2 => ?_
    have g1 : i < t.atoms.length := by simpa [System.setAtoms] using h1
    have g2 : i < s.atoms.length := by omega
    simp only [System.setAtoms, List.getElem_map, chi1, chi1With, Atom.nbVec]
    rw [hnb i g1 g2]

/-- The invariant after clustering, systems with stored copies included: the real atoms keep their neighbours. -/
theorem cluster_inv {s s' : System} {reals : List Atom} {cond : Atom → Except Fault ℤ} {c : ℝ} {n : ℕ} (hi : StoreInv s reals)
    (h : s.clusterAtoms cond c = .ok (s', n)) : ∃ rt, StoreInv s' rt ∧ rt.map Atom.nbrs = reals.map Atom.nbrs := by
  obtain ⟨new, t1, t2, a1, a2, a3, a4, a5⟩ := clusterAtoms_ok hi h
  have hnew : ∀ (i : ℕ) (b : Atom), new[i]? = some b → ∃ a, reals[i]? = some a ∧ b.ghost = a.ghost ∧ b.nbrs = a.nbrs := by
    intro i b hb
    have hlt := (List.getElem?_eq_some_iff.1 hb).1
    obtain ⟨v, -, h2⟩ := a5 i reals[i] (List.getElem?_eq_getElem (by omega))
    rw [hb] at h2
    exact ⟨_, List.getElem?_eq_getElem (by omega), by rw [Option.some.inj h2], by rw [Option.some.inj h2]⟩
  have hreal : ∀ b ∈ new, b.ghost = false := by
    intro b hb
    obtain ⟨i, hib⟩ := List.mem_iff_getElem?.1 hb
    obtain ⟨a, ha, e, -⟩ := hnew i b hib
    rw [e]
    exact hi.real a (List.mem_of_getElem? ha)
  obtain ⟨extra, x1, x2, x3, x4, x5, -, -, -⟩ := assign_shape hreal a1
  obtain ⟨c1, c2⟩ := findClusters_inRange a2
  obtain ⟨lab, hb, -, -⟩ := findClusters_ok t1 c c1 c2
  rw [a2] at hb
  have hlen2 : t2.atoms.length = t1.atoms.length := by rw [Except.ok.inj hb, ofMem_length, clusterStart_length]
  obtain ⟨-, d2, d3, -, -, d6⟩ := largestCluster_ok a3
  have e1 : t2.nop = t1.nop ∧ t2.ghostNop = t1.ghostNop ∧ t2.realNop = t1.realNop := by rw [Except.ok.inj hb]; exact ⟨rfl, rfl, rfl⟩
  have e2 : s'.nop = t2.nop ∧ s'.ghostNop = t2.ghostNop := by
    unfold System.largestCluster at a3
    split_ifs at a3
    have := congrArg (fun x => x.1) (Except.ok.inj a3)
    dsimp only at this
    rw [← this]
    exact ⟨rfl, rfl⟩
  have hat : s'.atoms.map (fun a => (a.ghost, a.nbrs)) = (new ++ extra).map fun a => (a.ghost, a.nbrs) := by
    refine List.ext_getElem (by rw [List.length_map, List.length_map, d3, hlen2, x1]) fun i h1 h2 => ?_
    rw [List.length_map] at h1 h2
    have hk1 : i < t1.atoms.length := by rw [x1]; exact h2
    have g1 : t2.atoms[i]? = some { t1.atoms[i] with cutoff := if c ≠ 0 then some c else t1.atoms[i].cutoff, belongsto := lab i } := by
      rw [Except.ok.inj hb]
      exact findClusters_atom (List.getElem?_eq_getElem hk1)
    obtain ⟨b', g2, -, -, g5⟩ := d6 i _ g1
    rw [List.getElem?_eq_getElem h1] at g2
    have e : (new ++ extra)[i] = t1.atoms[i] := by simp only [x1]
    rw [List.getElem_map, List.getElem_map, Option.some.inj g2, g5, e]
  have hl : s'.atoms.length = new.length + extra.length := by simpa using congrArg List.length hat
  have ht : (s'.atoms.take new.length).map (fun a => (a.ghost, a.nbrs)) = new.map fun a => (a.ghost, a.nbrs) := by
    rw [List.map_take, hat, List.map_append, List.take_left' (List.length_map _)]
  have hd : (s'.atoms.drop new.length).map (fun a => (a.ghost, a.nbrs)) = extra.map fun a => (a.ghost, a.nbrs) := by
    rw [List.map_drop, hat, List.map_append, List.drop_left' (List.length_map _)]
  have hlt : (s'.atoms.take new.length).length = new.length := by simpa using congrArg List.length ht
  have hld : (s'.atoms.drop new.length).length = extra.length := by simpa using congrArg List.length hd
  refine ⟨s'.atoms.take new.length, ⟨?_, ⟨s'.atoms.drop new.length, (List.take_append_drop _ _).symm, ?_, ?_⟩, ?_, ?_⟩, ?_⟩
  · intro a ha
    have : (a.ghost, a.nbrs) ∈ new.map fun a => (a.ghost, a.nbrs) := by rw [← ht]; exact List.mem_map_of_mem ha
    obtain ⟨b, hb1, hb2⟩ := List.mem_map.1 this
    rw [← (Prod.mk.inj hb2).1]
    exact hreal b hb1
  · intro a ha
    have : (a.ghost, a.nbrs) ∈ extra.map fun a => (a.ghost, a.nbrs) := by rw [← hd]; exact List.mem_map_of_mem ha
    obtain ⟨b, hb1, hb2⟩ := List.mem_map.1 this
    rw [← (Prod.mk.inj hb2).1]
    exact (x2 b hb1).1
  · rw [e2.2, e1.2.1, x5, hld]
  · rw [e2.1, e1.1, x4, hl, List.length_append]
  · rw [d2, e1.2.2, x3, hlt]
  · have h1 := congrArg (List.map Prod.snd) ht
    simp only [List.map_map, Function.comp_def] at h1
    refine h1.trans (List.ext_getElem (by simp [a4]) fun i k1 k2 => ?_)
    rw [List.length_map] at k1 k2
    obtain ⟨a, ha, -, e⟩ := hnew i _ (List.getElem?_eq_getElem k1)
    rw [List.getElem_map, List.getElem_map, e, mem_of_getElem?' ha]

theorem map_inv {s s' : System} {reals : List Atom} (hi : StoreInv s reals) (f : Atom → Atom) (hf : ∀ a, (f a).ghost = a.ghost ∧ (f a).nbrs = a.nbrs)
    (ha : s'.atoms = s.atoms.map f) (h1 : s'.nop = s.nop) (h2 : s'.realNop = s.realNop) (h3 : s'.ghostNop = s.ghostNop) :
    ∃ rt, StoreInv s' rt ∧ rt.map Atom.nbrs = reals.map Atom.nbrs := by
  obtain ⟨gs, g1, g2, g3⟩ := hi.ex
  refine ⟨reals.map f, ⟨?_, ⟨gs.map f, by rw [ha, g1, List.map_append], ?_, by rw [h3, g3, List.length_map]⟩, by rw [h1, hi.nop, ha, List.length_map], by
    rw [h2, hi.realNop, List.length_map]⟩, ?_⟩
  · intro a hm
    obtain ⟨b, hb, rfl⟩ := List.mem_map.1 hm
    rw [(hf b).1]
    exact hi.real b hb
  · intro a hm
    obtain ⟨b, hb, rfl⟩ := List.mem_map.1 hm
    rw [(hf b).1]
    exact g2 b hb
  · rw [List.map_map]
    exact List.map_congr_left fun a _ => (hf a).2

/-- The calls of `Spec.Explored` keep the neighbours of the real atoms, for systems of any size. -/
theorem explored_inv {s t : System} {reals : List Atom} (hi : StoreInv s reals) (h : Spec.Explored s t) :
    ∃ rt, StoreInv t rt ∧ rt.map Atom.nbrs = reals.map Atom.nbrs := by
  have tr : ∀ {x y : System} {rx : List Atom}, rx.map Atom.nbrs = reals.map Atom.nbrs → (∃ rt, StoreInv y rt ∧ rt.map Atom.nbrs = rx.map Atom.nbrs) →
      ∃ rt, StoreInv y rt ∧ rt.map Atom.nbrs = reals.map Atom.nbrs := fun e ⟨rt, h1, h2⟩ => ⟨rt, h1, h2.trans e⟩
  induction h with
  | refl => exact ⟨reals, hi, rfl⟩
  | @solids t t' bonds threshold avgthreshold q cluster cutoff right r h0 h ih =>
    obtain ⟨rt, k1, k2⟩ := ih
    have hsol : ∀ {u : System} {r : Option ℕ}, System.findSolids bonds threshold avgthreshold false q cutoff right t = (u, .ok r) →
        ∃ ru, StoreInv u ru ∧ ru.map Atom.nbrs = reals.map Atom.nbrs := by
      intro u r h
      obtain ⟨p, -, k3, -⟩ := findSolids_store k1 h
      refine ⟨_, k3, ?_⟩
      rw [List.map_map, ← k2]
      exact List.map_congr_left fun a _ => (solidAtom_rest _ _ _).2.1
    cases cluster with
    | false => exact hsol h
    | true =>
      obtain ⟨u, n, hu, hc, -⟩ := (findSolids_cluster _ _ _ _ _ _ _ _ _).1 h
      obtain ⟨ru, k3, k4⟩ := hsol hu
      exact tr (x := u) k4 (cluster_inv k3 hc)
  | @cluster t t' cond cutoff n h0 h ih =>
    obtain ⟨rt, k1, k2⟩ := ih
    exact tr (x := t) k2 (cluster_inv k1 h)
  | @disorder t t' averaged q _ h ih =>
    obtain ⟨rt, k1, k2⟩ := ih
    unfold System.calculateDisorder at h
    dsimp only at h
    obtain ⟨ru, k3, k4⟩ := map_inv (s' := { t with solidq := q.toNat, atoms := t.atoms.map { t with solidq := q.toNat }.disorder1 }) k1
      { t with solidq := q.toNat }.disorder1 (fun a => ⟨rfl, rfl⟩) rfl rfl rfl rfl
    split_ifs at h <;> obtain ⟨rfl, he⟩ := Prod.mk.inj h <;> first
      | (cases he; done)
      | exact ⟨ru, k3, k4.trans k2⟩
      | exact tr (x := t) (k4.trans k2) (map_inv k3 _ (by exact fun a => ⟨rfl, rfl⟩) rfl rfl rfl rfl)
  | @q t t' ls averaged _ h ih =>
    obtain ⟨rt, k1, k2⟩ := ih
    obtain ⟨-, -, e⟩ := calculateQ_ok h
    obtain ⟨ru, k3, k4⟩ := map_inv (s' := t.afterQ (ls.map Int.toNat)) k1 _ (by exact fun a => ⟨rfl, rfl⟩) rfl rfl rfl rfl
    rw [e]
    split_ifs
    · exact tr (x := t) (k4.trans k2) (map_inv k3 _ (by exact fun a => ⟨rfl, rfl⟩) rfl rfl rfl rfl)
    · exact ⟨ru, k3, k4.trans k2⟩

/-- **C118 for the chi parameters, systems of any size**: after any calls of `find_solids`, `cluster_atoms`, `calculate_disorder` and `calculate_q` the
real atoms get the same chi parameters. -/
theorem C118_chi (s t s' t' : System) (reals : List Atom) (hi : StoreInv s reals) (hst : Spec.Explored s t) (h1 : s.calculateChi = .ok s')
    (h2 : t.calculateChi = .ok t') :
    ∃ l m, s'.getAtoms = .ok l ∧ t'.getAtoms = .ok m ∧ l.length = reals.length ∧ m.map Atom.chi = l.map Atom.chi := by
  obtain ⟨rt, k1, k2⟩ := explored_inv hi hst
  have run : ∀ {x x' : System} {rx : List Atom}, StoreInv x rx → x.calculateChi = .ok x' → x'.getAtoms = .ok (rx.map chi1) := by
    intro x x' rx hx h
    unfold System.calculateChi at h
    rw [getAtoms_inv hx] at h
    change x.assignAtoms (rx.map chi1) = .ok x' at h
    exact (C05_assign_atoms x x' _ (by
      intro a ha
      obtain ⟨b, hb, rfl⟩ := List.mem_map.1 ha
      exact hx.real b hb) h).1
  refine ⟨_, _, run hi h1, run k1 h2, List.length_map _, ?_⟩
  have hc : ∀ l : List Atom, (l.map chi1).map Atom.chi = (l.map Atom.nbrs).map fun nb => (chi1 { (default : Atom) with nbrs := nb }).chi := by
    intro l
    rw [List.map_map, List.map_map]
    exact List.map_congr_left fun a _ => rfl
  rw [hc, hc, k2]

/-- The hypotheses of `C118_partial` hold for the row of atoms, with a neighbour, before and after a clustering. -/
example (σ : StdSort) : ∃ (s t : System) (a : Atom), StoreInv s s.atoms ∧ 200 ≤ s.atoms.length ∧ s.ghostNop = 0 ∧
    (∀ a ∈ s.atoms, ∀ x ∈ a.nbrs, x.idx < s.atoms.length) ∧ s.atoms[0]? = some a ∧ a.nbrs ≠ [] ∧ Spec.Explored s t ∧
    ∃ m, s.clusterAtoms (fun _ => .ok 1) (1 / 2) = .ok (t, m) := by
  obtain ⟨s, a0, hc, h0, hn0, hrun⟩ := entropy_chain σ
  obtain ⟨t, m, -, -, p, -⟩ := hrun (1 / 2)
  have hk : StillNear s t := StillNear.cluster ⟨hc, rfl, rfl, rfl, rfl⟩ p
  exact ⟨s, t, a0, hc.inv, hc.large, hc.ghostNop, nbrsInRange_congr hk.nbrs.symm (clusterAtoms_inRange hc.inv p), h0, hn0, .cluster _ _ _ .refl p, m, p⟩

theorem cluster_getBox {s s' : System} {reals : List Atom} {cond : Atom → Except Fault ℤ} {c : ℝ} {n : ℕ} (hi : StoreInv s reals)
    (h : s.clusterAtoms cond c = .ok (s', n)) : s'.getBox = s.getBox := by
  obtain ⟨new, t1, t2, a1, a2, a3, a4, a5⟩ := clusterAtoms_ok hi h
  have hreal : ∀ b ∈ new, b.ghost = false := by
    intro b hb
    obtain ⟨i, hib⟩ := List.mem_iff_getElem?.1 hb
    have hlt := (List.getElem?_eq_some_iff.1 hib).1
    obtain ⟨v, -, h2⟩ := a5 i reals[i] (List.getElem?_eq_getElem (by omega))
    rw [hib] at h2
    rw [Option.some.inj h2]
    exact hi.real reals[i] (List.getElem_mem _)
  obtain ⟨extra, -, -, -, -, -, x6, x7, -⟩ := assign_shape hreal a1
  have hb1 : t1.getBox = s.getBox := by
    by_cases hl : new.length < 200
    · exact (x7 hl).2.1
    · obtain ⟨-, rfl⟩ := x6 (by omega)
      rfl
  obtain ⟨c1, c2⟩ := findClusters_inRange a2
  obtain ⟨lab, hb, -, -⟩ := findClusters_ok t1 c c1 c2
  rw [a2] at hb
  unfold System.largestCluster at a3
  split_ifs at a3
  have := congrArg (fun x => x.1) (Except.ok.inj a3)
  dsimp only at this
  rw [← this, Except.ok.inj hb, ← hb1]
  rfl

/-- The hypotheses of `C118_chi` hold for two atoms, stored with copies, before and after a clustering. -/
theorem small_case (σ : StdSort) : ∃ (s t s' t' : System) (reals : List Atom), StoreInv s reals ∧ reals.length = 2 ∧ (∃ a, s.atoms[0]? = some a ∧ a.nbrs ≠ []) ∧
    Spec.Explored s t ∧ (∃ m, s.clusterAtoms (fun _ => .ok 1) (1 / 2) = .ok (t, m)) ∧ s.calculateChi = .ok s' ∧ t.calculateChi = .ok t' := by
  obtain ⟨s0, s, s1, h1, h2, h3, hi, hr, hl, hbox, -, -, hs1, -, -, x, hx, -⟩ := edge_setup σ
  have hn : s.natoms ≤ 2300 := by unfold System.natoms; omega
  obtain ⟨hi1, hlen⟩ := storeInv_any (by norm_num) (.inl hn) h3 hi
  have hb1 : s1.getBox = Spec.diagBox 10 10 10 := by rw [← hbox, hs1]; rfl
  have hnsk : ¬ Spec.Skew (Spec.diagBox 10 10 10) := by rw [← skewed_iff]; exact not_skewed_diag _ _ _
  have hb0 : s0.getBox = Spec.diagBox 10 10 10 := by
    obtain ⟨f1, f2, -⟩ := setBox_frame h1
    simp [System.getBox, f1, f2, System.init]
  have hsum : boxSum (Spec.diagBox 10 10 10) ≠ 0 := by norm_num [boxSum, Spec.diagBox]
  obtain ⟨t, m, h4⟩ := C25_run σ s0 s s1 edgeAtoms hi.real (by simp [edgeAtoms]) (by rw [hb0]; exact fun h => absurd h hnsk) h2 0 2 (by norm_num) (.inl hn) h3
    (fun _ => .ok 1) (1 / 2) (fun _ => ⟨1, rfl, .inr rfl⟩)
  obtain ⟨rt, k1, k2⟩ := cluster_inv hi1 h4
  have hlt : rt.length = 2 := by
    have := congrArg List.length k2
    rw [List.length_map, List.length_map, hlen, hr] at this
    exact this
  have hbt : t.getBox = Spec.diagBox 10 10 10 := (cluster_getBox hi1 h4).trans hb1
  obtain ⟨s', h5⟩ := C31_succeeds s1 _ hi1 (by omega) (by rw [hb1]; exact hsum) (by rw [hb1]; exact fun h => absurd h hnsk)
  obtain ⟨t', h6⟩ := C31_succeeds t _ k1 (by omega) (by rw [hbt]; exact hsum) (by rw [hbt]; exact fun h => absurd h hnsk)
  refine ⟨s1, t, s', t', _, hi1, by omega, ⟨cutoffAtom s 2 0 0, ?_, List.ne_nil_of_mem hx⟩, .cluster _ _ _ .refl h4, ⟨m, h4⟩, h5, h6⟩
  rw [hs1]
  simp only [List.getElem?_map, hl]
  rfl

/-- The box of the user is not touched by the calls of `Spec.Explored`, for systems of any size. -/
theorem explored_getBox {s t : System} {reals : List Atom} (hi : StoreInv s reals) (h : Spec.Explored s t) : t.getBox = s.getBox := by
  induction h with
  | refl => rfl
  | @solids t t' bonds threshold avgthreshold q cluster cutoff right r h0 h ih =>
    obtain ⟨rt, k1, -⟩ := explored_inv hi h0
    have hso : ∀ {u : System} {r : Option ℕ}, System.findSolids bonds threshold avgthreshold false q cutoff right t = (u, .ok r) →
        u.getBox = t.getBox ∧ ∃ ru, StoreInv u ru := by
      intro u r h
      obtain ⟨p, rfl, k3, -⟩ := findSolids_store k1 h
      exact ⟨rfl, _, k3⟩
    cases cluster with
    | false => exact (hso h).1.trans ih
    | true =>
      obtain ⟨u, n, hu, hc, -⟩ := (findSolids_cluster _ _ _ _ _ _ _ _ _).1 h
      obtain ⟨e, ru, k3⟩ := hso hu
      exact (cluster_getBox k3 hc).trans (e.trans ih)
  | @cluster t t' cond cutoff n h0 h ih =>
    obtain ⟨rt, k1, -⟩ := explored_inv hi h0
    exact (cluster_getBox k1 h).trans ih
  | @disorder t t' averaged q _ h ih =>
    unfold System.calculateDisorder at h
    dsimp only at h
    split_ifs at h <;> obtain ⟨rfl, he⟩ := Prod.mk.inj h <;> first
      | (cases he; done)
      | exact ih
  | @q t t' ls averaged _ h ih =>
    obtain ⟨-, -, e⟩ := calculateQ_ok h
    rw [e, ← ih]
    split_ifs <;> rfl

/-- **C117 for systems of any size**: with `local=False` every real atom gets the same entropy after any calls of `find_solids`, `cluster_atoms`,
`calculate_disorder` and `calculate_q`.  The averages are not included: with stored copies they read entropies of copies. -/
theorem C117_any_size (s t s' t' : System) (reals : List Atom) (hi : StoreInv s reals) (hst : Spec.Explored s t) (rm σ rstart h : ℝ)
    (av : System.EntropyAverage) (r r' : Except Fault Unit)
    (h1 : System.calculateEntropy rm σ rstart h false av s = (s', r)) (h2 : System.calculateEntropy rm σ rstart h false av t = (t', r'))
    (i : ℕ) (hir : i < reals.length) (a b : Atom) (ha : s'.atoms[i]? = some a) (hb : t'.atoms[i]? = some b) : a.entropy = b.entropy := by
  obtain ⟨rt, k1, k2⟩ := explored_inv hi hst
  have hl : rt.length = reals.length := by simpa using congrArg List.length k2
  have hdet : t.boxDet = s.boxDet := by unfold System.boxDet; rw [explored_getBox hi hst]
  have hget : ∀ {x : System} {rx : List Atom}, StoreInv x rx → (hx : i < rx.length) → x.atoms[i]? = some rx[i] := by
    intro x rx hx hlt
    obtain ⟨gs, g1, -⟩ := hx.ex
    rw [g1, List.getElem?_append_left hlt]
    exact List.getElem?_eq_getElem hlt
  have g1 := hget hi hir
  have g2 := hget k1 (by omega)
  have hne : fdiv (reals.length : ℝ) s.boxDet ≠ some 0 := by
    unfold fdiv
    have h0 : (reals.length : ℝ) ≠ 0 := by
      have : reals.length ≠ 0 := by omega
      exact_mod_cast this
    split_ifs with hz
    · simp
    · intro e
      exact div_ne_zero h0 hz (Option.some.inj e)
  obtain ⟨x, hx, ex, -⟩ := calculateEntropy_atom (getAtoms_inv hi) h1 g1 ha
  obtain ⟨y, hy, ey, -⟩ := calculateEntropy_atom (getAtoms_inv k1) h2 g2 hb
  rw [if_neg (by simp), entropyLoop_const _ _ _ _ _ _ hne, List.getElem?_map, g1] at hx
  rw [if_neg (by simp), hdet, hl, entropyLoop_const _ _ _ _ _ _ hne, List.getElem?_map, g2] at hy
  obtain rfl := Option.some.inj hx
  obtain rfl := Option.some.inj hy
  rw [ex, ey]
  have hnb : reals[i].nbrs = (rt[i]'(by omega)).nbrs := by
    have e := congrArg (·[i]?) k2
    simp only [List.getElem?_map, List.getElem?_eq_getElem hir, List.getElem?_eq_getElem (show i < rt.length by omega)] at e
    exact (Option.some.inj e).symm
  dsimp only
  congr 1
  funext ρ
  exact trapezoid_congr hnb _ _ _ _ _ _

/-- The hypotheses of `C117_any_size` hold for two atoms, stored with copies, before and after a clustering. -/
example (σ : StdSort) : ∃ (s t s' t' : System) (reals : List Atom) (a b : Atom), StoreInv s reals ∧ reals.length = 2 ∧ Spec.Explored s t ∧
    (∃ m, s.clusterAtoms (fun _ => .ok 1) (1 / 2) = .ok (t, m)) ∧
    System.calculateEntropy 2 1 1 1 false .none s = (s', .ok ()) ∧ System.calculateEntropy 2 1 1 1 false .none t = (t', .ok ()) ∧
    s'.atoms[0]? = some a ∧ t'.atoms[0]? = some b := by
  obtain ⟨s, t, -, -, reals, hi, hl, -, hst, ⟨m, hm⟩, -, -⟩ := small_case σ
  obtain ⟨rt, k1, k2⟩ := explored_inv hi hst
  have hlt : rt.length = reals.length := by simpa using congrArg List.length k2
  have run : ∀ {x : System} {rx : List Atom}, StoreInv x rx → 0 < rx.length →
      ∃ x' a, System.calculateEntropy 2 1 1 1 false .none x = (x', .ok ()) ∧ x'.atoms[0]? = some a := by
    intro x rx hx h0
    obtain ⟨gs, g1, -⟩ := hx.ex
    refine ⟨{ x with atoms := entropyLoop 1 1 2 1 1 (fdiv rx.length x.boxDet) x.atoms }, _, ?_,
      List.getElem?_eq_getElem (by rw [entropyLoop_length, g1, List.length_append]; omega)⟩
    unfold System.calculateEntropy
    rw [getAtoms_inv hx]
    rfl
  obtain ⟨s', a, e1, g1⟩ := run hi (by omega)
  obtain ⟨t', b, e2, g2⟩ := run k1 (by omega)
  exact ⟨s, t, s', t', reals, a, b, hi, hl, hst, ⟨m, hm⟩, e1, e2, g1, g2⟩

theorem run_snoc {s t g : System} (h : Spec.AnalysisRun s t) (hc : Spec.AnalysisCall t g) : Spec.AnalysisRun s g := by
  induction h with
  | nil s => exact .cons hc (.nil _)
  | cons h1 _ ih => exact .cons h1 (ih hc)

/-- The calls of `Spec.Explored` are analysis calls in the sense of C85. -/
theorem explored_run {r s t : System} (hr : Spec.AnalysisRun r s) (h : Spec.Explored s t) : Spec.AnalysisRun r t := by
  induction h with
  | refl => exact hr
  | @solids t t' bonds threshold avgthreshold q cluster cutoff right x _ h ih =>
    have := run_snoc ih (.solids t bonds threshold avgthreshold cluster q cutoff right)
    rwa [h] at this
  | @cluster t t' cond cutoff n _ h ih => exact run_snoc ih (.clusters cond cutoff h)
  | @disorder t t' averaged q _ h ih =>
    have := run_snoc ih (.disorder t averaged q)
    rwa [h] at this
  | @q t t' ls averaged _ h ih => exact run_snoc ih (.q ls averaged false none false h)

/-- **C118 for the angular criterion, systems of any size**: atoms are assigned to a box and any analyses made; then after further calls of `find_solids`,
`cluster_atoms`, `calculate_disorder` and `calculate_q` the angular criterion gives the real atoms the same values. -/
theorem C118_angular (σ : StdSort) (b : Mat3) (l : List Atom) (s0 s1 s t s' t' : System) (hb : System.init.setBox b = .ok s0) (ha : s0.assignAtoms l = .ok s1)
    (hreal : ∀ a ∈ l, a.ghost = false) (hrun : Spec.AnalysisRun s1 s) (hst : Spec.Explored s t) (h1 : s.calculateAngular σ = .ok s')
    (h2 : t.calculateAngular σ = .ok t') :
    ∃ L M, s'.getAtoms = .ok L ∧ t'.getAtoms = .ok M ∧ L.length = l.length ∧ M.map Atom.angular = L.map Atom.angular := by
  obtain ⟨r1, r2⟩ := assigned_start hb ha hreal
  have hs := r2.run r1 hrun
  have ht := r2.run r1 (explored_run hrun hst)
  obtain ⟨rs, is, es⟩ := hs.inv
  obtain ⟨rt', it', et'⟩ := ht.inv
  obtain ⟨rt, it, nt⟩ := explored_inv is hst
  obtain rfl : rt' = rt := Except.ok.inj ((getAtoms_inv it').symm.trans (getAtoms_inv it))
  have hls : rs.length = l.length := by simpa using congrArg List.length es
  have hlt : rt'.length = rs.length := by simpa using congrArg List.length nt
  have him : ∀ d, t.image d = s.image d := image_frame (ht.box.trans hs.box.symm) (ht.rot.trans hs.rot.symm) (ht.rotinv.trans hs.rotinv.symm) (ht.tri.trans hs.tri.symm)
  have hpos : rt'.map Atom.pos = rs.map Atom.pos := by
    have hp : ∀ m : List Atom, m.map Atom.pos = (m.map Spec.identity).map fun x => x.2.2.1 := fun m => by rw [List.map_map]; rfl
    rw [hp, hp, et', es]
  have hin : ∀ {x x' : System} {rx : List Atom}, StoreInv x rx → x.calculateAngular σ = .ok x' → (∀ a ∈ rx, ∀ y ∈ a.nbrs, y.idx < rx.length) ∧
      x'.getAtoms = .ok (rx.map fun a => { a with angular := angularOf σ (a.nbrs.map fun y => x.image (a.pos - (rx.getD y.idx default).pos)) }) := by
    intro x x' rx hx h
    have hr : ∀ a ∈ rx, ∀ y ∈ a.nbrs, y.idx < rx.length := by
      intro a ha y hy
      by_contra hlt
      rw [(C59_errors σ x rx hx).1 ⟨a, ha, y, hy, by omega⟩] at h
      cases h
    refine ⟨hr, ?_⟩
    unfold System.calculateAngular at h
    rw [getAtoms_inv hx] at h
    change Except.bind (rx.mapM (angular1 σ x rx)) _ = _ at h
    rw [mapM_ok_map _ _ _ fun a ha => angular1_eq σ x rx a (hr a ha)] at h
    change x.assignAtoms _ = _ at h
    exact (C05_assign_atoms x x' _ (by
      intro a ha
      obtain ⟨c, hc, rfl⟩ := List.mem_map.1 ha
      exact hx.real c hc) h).1
  obtain ⟨hr, g1⟩ := hin is h1
  obtain ⟨-, g2⟩ := hin it' h2
  have at' : ∀ {β : Type} (f : Atom → β), rt'.map f = rs.map f → ∀ (i : ℕ) (k1 : i < rt'.length) (k2 : i < rs.length), f rt'[i] = f rs[i] := by
    intro β f e i k1 k2
    have e := congrArg (·[i]?) e
    simp only [List.getElem?_map, List.getElem?_eq_getElem k1, List.getElem?_eq_getElem k2] at e
    exact Option.some.inj e
  refine ⟨_, _, g1, g2, by rw [List.length_map, hls], ?_⟩
  refine List.ext_getElem (by simp [hlt]) fun i k1 k2 => ?_
  have q1 : i < rt'.length := by simpa using k1
  have q2 : i < rs.length := by omega
  simp only [List.getElem_map]
  rw [at' _ nt i q1 q2, at' _ hpos i q1 q2]
  congr 1
  refine List.map_congr_left fun x hx => ?_
  have hxl : x.idx < rs.length := hr _ (List.getElem_mem q2) x hx
  rw [him, List.getD_eq_getElem?_getD, List.getD_eq_getElem?_getD, List.getElem?_eq_getElem hxl, List.getElem?_eq_getElem (by omega)]
  simp only [Option.getD_some]
  rw [at' _ hpos x.idx (by omega) hxl]

/-- The hypotheses of `C118_angular` hold for the row of atoms after a neighbour search, with a neighbour, before and after a clustering. -/
example (σ : StdSort) : ∃ (s0 s1 s t s' t' : System) (a : Atom), System.init.setBox (Spec.diagBox 1000 1000 1000) = .ok s0 ∧
    s0.assignAtoms chainAtoms = .ok s1 ∧ (∀ a ∈ chainAtoms, a.ghost = false) ∧ Spec.AnalysisRun s1 s ∧ Spec.Explored s t ∧
    s.calculateAngular σ = .ok s' ∧ t.calculateAngular σ = .ok t' ∧ s.atoms[0]? = some a ∧ a.nbrs ≠ [] := by
  obtain ⟨s1, s, t, u, u', n, n', hi, h2, -, -, h5, -, -, hc1, ⟨s0, g1, g2⟩, a0, ha0, hn0⟩ := cluster_chain σ
  have hkt : StillNear s t := StillNear.cluster ⟨hc1, rfl, rfl, rfl, rfl⟩ h5
  have hr := nbrsInRange_congr hkt.nbrs.symm (clusterAtoms_inRange hc1.inv h5)
  have hst : Spec.Explored s t := .cluster _ _ _ .refl h5
  obtain ⟨⟨s', t', e1, e2, -⟩, -⟩ := C118_partial σ s t s.atoms hc1.inv hc1.large hc1.ghostNop hr hst
  exact ⟨s0, s1, s, t, s', t', a0, g1, g2, hi.real, .cons (.findNeighbors σ 0 _ h2) (.nil _), hst, e1, e2, ha0, hn0⟩

end Pyscal
