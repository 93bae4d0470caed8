import Verif.Lemmas.Frame2
import Verif.Lemmas.FailedSearch
import Verif.Props.Entropy
import Verif.Props.Clusters
import Verif.Props.Voronoi

/-! Analysis calls leave the atoms and the box alone (C85). -/

namespace Pyscal

open Spec (identity)

/-- Reference state `r`, reached by assigning the box `b` and the atoms `l`. -/
structure Assigned (b : Mat3) (l : List Atom) (r : System) : Prop where
  real : ∀ a ∈ l, a.ghost = false
  fix : ∃ t t' : System, t.setBox r.box = .ok t' ∧ t'.triclinic = r.triclinic ∧ t'.rot = r.rot ∧ t'.rotinv = r.rotinv
  small : l.length < 200 → r.box = scaleBox b (padReps l.length) (padReps l.length) (padReps l.length)
  large : 200 ≤ l.length → r.box = b
  skew : 200 ≤ l.length → r.triclinic = true → Skewed b
  atoms : r.atoms = l ++ (if l.length < 200 then repNew b true (padReps l.length) (padReps l.length) (padReps l.length) l else [])

/-- A state that still holds these atoms in this box. -/
structure Holding (b : Mat3) (l : List Atom) (r s : System) : Prop where
  inv : ∃ reals, StoreInv s reals ∧ reals.map identity = l.map identity
  getBox : s.getBox = b
  box : s.box = r.box
  tri : s.triclinic = r.triclinic
  rot : s.rot = r.rot
  rotinv : s.rotinv = r.rotinv
  big : 200 ≤ s.atoms.length
  ghosts : l.length < 200 → s.ghostsCreated = true
  full : (r.triclinic = false ∨ l.length < 200) → s.atoms.map identity = r.atoms.map identity

/-- The replicas depend on the identities only. -/
theorem repNew_identity {l m : List Atom} (h : m.map identity = l.map identity) (b : Mat3) (g : Bool) (x y z : ℕ) :
    repNew b g x y z m = repNew b g x y z l := by
  have key : ∀ c : ℤ × ℤ × ℤ, m.map (repAtom b g c) = l.map (repAtom b g c) := by
    intro c
    have e : ∀ k : List Atom, k.map (repAtom b g c) = (k.map identity).map fun p : ℤ × ℤ × V3 × ℕ × Bool =>
        repAtom b g c { pos := p.2.2.1, type := p.2.1 } := by
      intro k
      rw [List.map_map]
      rfl
    rw [e, e, h]
  have hlen : m.length = l.length := by simpa using congrArg List.length h
  unfold repNew
  simp only [key, hlen]

theorem ghost_of_identity {l m : List Atom} (h : m.map identity = l.map identity) {g : Bool} (hl : ∀ a ∈ l, a.ghost = g) :
    ∀ a ∈ m, a.ghost = g := by
  intro a ha
  have : identity a ∈ l.map identity := h ▸ List.mem_map_of_mem ha
  obtain ⟨c, hc, hca⟩ := List.mem_map.1 this
  have e : c.ghost = a.ghost := congrArg (fun p : ℤ × ℤ × V3 × ℕ × Bool => p.2.2.2.2) hca
  rw [← e, hl c hc]

theorem Holding.kept {b : Mat3} {l : List Atom} {r s g : System} (h : Holding b l r s) (k : Kept s g) : Holding b l r g := by
  obtain ⟨reals, hi, hr⟩ := h.inv
  obtain ⟨gs, h1, h2, h3⟩ := hi.ex
  have hl := k.len
  have hat := k.atoms
  rw [h1, List.map_append] at hat
  have hlen : reals.length ≤ g.atoms.length := by rw [hl, h1, List.length_append]; omega
  have e1 : (g.atoms.take reals.length).map identity = reals.map identity := by
    rw [List.map_take, hat]
    exact List.take_left' (by simp)
  have e2 : (g.atoms.drop reals.length).map identity = gs.map identity := by
    rw [List.map_drop, hat]
    exact List.drop_left' (by simp)
  refine ⟨⟨g.atoms.take reals.length, ⟨ghost_of_identity e1 hi.real, ⟨g.atoms.drop reals.length, (List.take_append_drop _ _).symm,
    ghost_of_identity e2 h2, ?_⟩, ?_, ?_⟩, e1.trans hr⟩, ?_, ?_, ?_, ?_, ?_, ?_, ?_, fun hf => k.atoms.trans (h.full hf)⟩
  · rw [k.ghostNop, h3, List.length_drop, hl, h1, List.length_append]; omega
  · rw [k.nop, hi.nop, hl]
  · rw [k.realNop, hi.realNop, List.length_take]; omega
  · rw [← h.getBox, System.getBox, System.getBox, k.actual, k.box]
  · rw [k.box, h.box]
  · rw [k.tri, h.tri]
  · rw [k.rot, h.rot]
  · rw [k.rotinv, h.rotinv]
  · rw [hl]; exact h.big
  · intro hh; rw [k.ghosts]; exact h.ghosts hh

/-- Setting the reference box again gives the reference geometry. -/
theorem setBox_again {b : Mat3} {l : List Atom} {r s g : System} (hr : Assigned b l r) (h : s.setBox r.box = .ok g)
    (hs : Skewed r.box ∨ (s.triclinic = r.triclinic ∧ s.rot = r.rot ∧ s.rotinv = r.rotinv)) :
    g.box = r.box ∧ g.triclinic = r.triclinic ∧ g.rot = r.rot ∧ g.rotinv = r.rotinv ∧ g.atoms = s.atoms ∧
      g.nop = s.nop ∧ g.realNop = s.realNop ∧ g.ghostNop = s.ghostNop ∧ g.actualBox = s.actualBox ∧ g.ghostsCreated = s.ghostsCreated := by
  obtain ⟨t, t', ht, h1, h2, h3⟩ := hr.fix
  unfold System.setBox at h ht
  by_cases hsk : Skewed r.box
  · rw [if_pos hsk] at h ht
    dsimp only at h ht
    split_ifs at h ht
    obtain rfl := Except.ok.inj h
    obtain rfl := Except.ok.inj ht
    exact ⟨rfl, h1, h2, h3, rfl, rfl, rfl, rfl, rfl, rfl⟩
  · rw [if_neg hsk] at h
    obtain rfl := Except.ok.inj h
    obtain ⟨a1, a2, a3⟩ := hs.resolve_left hsk
    exact ⟨rfl, a1, a2, a3, rfl, rfl, rfl, rfl, rfl, rfl⟩

/-- Assigning the same atoms (up to what the analysis wrote into them) keeps the system. -/
theorem Holding.assign {b : Mat3} {l new : List Atom} {r s g : System} (hr : Assigned b l r) (h : Holding b l r s)
    (hn : new.map identity = l.map identity) (ha : s.assignAtoms new = .ok g) : Holding b l r g := by
  have hreal := ghost_of_identity hn hr.real
  have hlen : new.length = l.length := by simpa using congrArg List.length hn
  obtain ⟨reals, hi, _⟩ := h.inv
  have hst : StoreInv g new := storeInv_step s g reals (.assign new) hi hreal ha
  obtain ⟨_, _, extra, h3, _, h5, h6⟩ := C05_assign_atoms s g new hreal ha
  rw [getAllAtoms_inv hst, Except.ok.injEq] at h3
  have hbig : 200 ≤ g.atoms.length := by
    rcases Nat.lt_or_ge new.length 200 with hl | hl
    · rw [h3]; exact (h5 hl).1
    · rw [h3, List.length_append]; omega
  unfold System.assignAtoms at ha
  by_cases hl : new.length < 200
  · rw [if_pos hl] at ha
    split_ifs at ha
    dsimp only at ha
    cases hrep : s.repeatAtoms (padReps new.length) (padReps new.length) (padReps new.length) new true true with
    | error e => rw [hrep] at ha; cases ha
    | ok v =>
      obtain ⟨s', out⟩ := v
      rw [hrep] at ha
      obtain rfl := Except.ok.inj ha
      obtain ⟨hout, hab, _⟩ := repeatAtoms_ok hrep
      unfold System.repeatAtoms at hrep
      dsimp only at hrep
      rw [if_pos rfl, h.getBox, hlen, ← hr.small (hlen ▸ hl)] at hrep
      cases hb : ({ s with actualBox := some b } : System).setBox r.box with
      | error e => rw [hb] at hrep; cases hrep
      | ok s2 =>
        rw [hb] at hrep
        have hrep := (Prod.mk.inj (Except.ok.inj hrep)).1
        rw [if_pos rfl] at hrep
        obtain ⟨b1, b2, b3, b4, _⟩ := setBox_again hr hb (Or.inr ⟨h.tri, h.rot, h.rotinv⟩)
        subst hrep
        exact ⟨⟨new, hst, hn⟩, by rw [System.getBox, System.setAtoms, hab, h.getBox]; rfl, b1, b2, b3, b4, hbig, fun _ => rfl, fun _ => by
          rw [hr.atoms, if_pos (hlen ▸ hl), List.map_append, ← hn, ← repNew_identity hn, ← hlen, ← h.getBox, ← List.map_append]
          exact congrArg _ hout⟩
  · rw [if_neg hl] at ha
    obtain rfl := Except.ok.inj ha
    exact ⟨⟨new, hst, hn⟩, h.getBox, h.box, h.tri, h.rot, h.rotinv, hbig, fun h' => absurd h' (by omega), fun _ => by
      rw [hr.atoms, if_neg (by omega), List.append_nil, ← hn]
      rfl⟩

/-- Writing back all atoms, ghosts included. -/
theorem Holding.assignAll {b : Mat3} {l new : List Atom} {r s g : System} (h : Holding b l r s)
    (hn : new.map identity = s.atoms.map identity) (ha : s.assignAtoms new = .ok g) : Holding b l r g := by
  have hlen : new.length = s.atoms.length := by simpa using congrArg List.length hn
  have hbig := h.big
  refine h.kept ?_
  unfold System.assignAtoms at ha
  rw [if_neg (by omega)] at ha
  obtain rfl := Except.ok.inj ha
  obtain ⟨reals, hi, _⟩ := h.inv
  obtain ⟨gs, h1, h2, h3⟩ := hi.ex
  have hc : ∀ (p : Bool → Bool) (m : List Atom), (m.filter fun a => p a.ghost).length =
      ((m.map identity).filter fun x => p x.2.2.2.2).length := by
    intro p m
    rw [List.filter_map, List.length_map]
    rfl
  have e1 : countReal new = countReal s.atoms := by
    unfold countReal
    rw [hc (fun x => !x), hn, ← hc (fun x => !x)]
  have e2 : countGhost new = countGhost s.atoms := by
    unfold countGhost
    have := (hc id new).trans (by rw [hn])
    exact this.trans (hc id s.atoms).symm
  refine ⟨hn, ?_, ?_, ?_, rfl, rfl, rfl, rfl, rfl, rfl⟩
  · change new.length = s.nop
    rw [hlen, hi.nop]
  · change countReal new = s.realNop
    rw [e1, h1, countReal_append, countReal_of_real hi.real, countReal_of_ghost h2, hi.realNop, Nat.add_zero]
  · change countGhost new = s.ghostNop
    rw [e2, h1, countGhost_append, countGhost_of_real hi.real, countGhost_of_ghost h2, h3, Nat.zero_add]

/-- Reading the atoms, changing results in them, and writing them back. -/
theorem Holding.rewrite {b : Mat3} {l cur new : List Atom} {r s g : System} (hr : Assigned b l r) (h : Holding b l r s)
    (hc : s.getAtoms = .ok cur) (hn : new.map identity = cur.map identity) (ha : s.assignAtoms new = .ok g) : Holding b l r g := by
  obtain ⟨reals, hi, hid⟩ := h.inv
  rw [getAtoms_inv hi] at hc
  obtain rfl := Except.ok.inj hc
  exact h.assign hr (hn.trans hid) ha

theorem condition_identity {c : Atom → Except Fault ℤ} {a x : Atom}
    (h : (c a >>= fun v => (pure { a with condition := some v } : Except Fault Atom)) = .ok x) : identity x = identity a := by
  cases hc : c a with
  | error e => rw [hc] at h; cases h
  | ok v => rw [hc] at h; obtain rfl := Except.ok.inj h; rfl

theorem Holding.clusters {b : Mat3} {l : List Atom} {r s : System} {v : System × ℕ} {c : Atom → Except Fault ℤ} {x : ℝ}
    (hr : Assigned b l r) (h : Holding b l r s) (hv : s.clusterAtoms c x = .ok v) : Holding b l r v.1 := by
  unfold System.clusterAtoms at hv
  cases h0 : s.getAtom 0 with
  | error e => rw [h0] at hv; cases hv
  | ok a0 =>
    rw [h0] at hv
    simp only [bind, Except.bind] at hv
    split at hv
    · cases hv
    · split_ifs at hv
      cases hg : s.getAtoms with
      | error e => rw [hg] at hv; cases hv
      | ok cur =>
        rw [hg] at hv
        dsimp only at hv
        generalize hm : (List.mapM _ cur : Except Fault (List Atom)) = w at hv
        cases w with
        | error e => cases hv
        | ok new =>
          dsimp only at hv
          cases ha : s.assignAtoms new with
          | error e => rw [ha] at hv; cases hv
          | ok t =>
            rw [ha] at hv
            dsimp only at hv
            cases hf : t.findClusters x with
            | error e => rw [hf] at hv; cases hv
            | ok u =>
              rw [hf] at hv
              have h1 := h.rewrite hr hg (mapM_identity (fun a b hab => condition_identity (c := c) hab) hm) ha
              exact (h1.kept (Kept.findClusters hf)).kept (Kept.largest hv)

theorem bind_ok {α β : Type} {x : Except Fault α} {f : α → Except Fault β} {y : β} (h : (x >>= f) = .ok y) :
    ∃ a, x = .ok a ∧ f a = .ok y := by
  cases x with
  | error e => cases h
  | ok a => exact ⟨a, rfl, h⟩

theorem Holding.condition {b : Mat3} {l : List Atom} {r s g : System} {c : Atom → Except Fault ℤ}
    (hr : Assigned b l r) (h : Holding b l r s) (hg : s.applyCondition c = .ok g) : Holding b l r g := by
  unfold System.applyCondition at hg
  obtain ⟨cur, hc, hg⟩ := bind_ok hg
  split at hg
  · cases hg
  · split at hg
    · cases hg
    · split_ifs at hg
      obtain ⟨new, hm, ha⟩ := bind_ok hg
      exact h.rewrite hr hc (mapM_identity (fun a b hab => condition_identity (c := c) hab) hm) ha

theorem Holding.clear {b : Mat3} {l : List Atom} {r s g : System}
    (hr : Assigned b l r) (h : Holding b l r s) (hg : s.clearCondition = .ok g) : Holding b l r g := by
  unfold System.clearCondition at hg
  obtain ⟨cur, hc, hg⟩ := bind_ok hg
  exact h.rewrite hr hc (map_identity (f := fun a => { a with condition := some 0 }) fun _ => rfl) hg

theorem Holding.q {b : Mat3} {l : List Atom} {r s g : System} {ls : List ℤ} {av only clear : Bool}
    {c : Option (Atom → Except Fault ℤ)} (hr : Assigned b l r) (h : Holding b l r s)
    (hg : s.calculateQ ls av only c clear = .ok g) : Holding b l r g := by
  unfold System.calculateQ at hg
  by_cases hq : ¬ qRange ls
  · rw [if_pos hq] at hg; cases hg
  rw [if_neg hq] at hg
  have last : ∀ t : System, Holding b l r t →
      (if (av || only) = true then t.ccalculateAq (ls.map Int.toNat) else .ok t) = .ok g → Holding b l r g := by
    intro t ht hg
    split_ifs at hg
    · exact ht.kept (Kept.ccalculateAq hg)
    · obtain rfl := Except.ok.inj hg; exact ht
  have stage2 : ∀ t : System, Holding b l r t →
      (if (!only) = true then t.ccalculateQ (ls.map Int.toNat) >>= fun t => if (av || only) = true then t.ccalculateAq (ls.map Int.toNat) else .ok t
        else if (av || only) = true then t.ccalculateAq (ls.map Int.toNat) else .ok t) = .ok g → Holding b l r g := by
    intro t ht hg
    by_cases ho : (!only) = true
    · rw [if_pos ho] at hg
      obtain ⟨u, hu, hg⟩ := bind_ok hg
      exact last u (ht.kept (Kept.ccalculateQ hu)) hg
    · rw [if_neg ho] at hg
      exact last t ht hg
  have stage1 : ∀ t : System, Holding b l r t →
      (if clear = true then t.clearCondition >>= fun t => 
        (if (!only) = true then t.ccalculateQ (ls.map Int.toNat) >>= fun t => if (av || only) = true then t.ccalculateAq (ls.map Int.toNat) else .ok t
        else if (av || only) = true then t.ccalculateAq (ls.map Int.toNat) else .ok t)
      else (if (!only) = true then t.ccalculateQ (ls.map Int.toNat) >>= fun t => if (av || only) = true then t.ccalculateAq (ls.map Int.toNat) else .ok t
        else if (av || only) = true then t.ccalculateAq (ls.map Int.toNat) else .ok t)) = .ok g → Holding b l r g := by
    intro t ht hg
    by_cases ho : clear = true
    · rw [if_pos ho] at hg
      obtain ⟨u, hu, hg⟩ := bind_ok hg
      exact stage2 u (ht.clear hr hu) hg
    · rw [if_neg ho] at hg
      exact stage2 t ht hg
  cases c with
  | none => exact stage1 s h hg
  | some c =>
    obtain ⟨u, hu, hg⟩ := bind_ok hg
    exact stage1 u (h.condition hr hu) hg

theorem identity_of_pure {a x y : Atom} (h : (pure y : Except Fault Atom) = .ok x) (hy : identity y = identity a) : identity x = identity a := by
  obtain rfl := Except.ok.inj h; exact hy

theorem sro1_identity {s : System} {atoms : List Atom} {ref : ℤ} {m : ℝ} {n : ℤ} {a x : Atom} (h : sro1 s atoms ref m n a = .ok x) :
    identity x = identity a := by
  unfold sro1 at h
  cases hd : shellData s atoms a with
  | error e => rw [hd] at h; cases h
  | ok d =>
    rw [hd] at h
    simp only [bind, Except.bind] at h
    split_ifs at h <;> exact identity_of_pure h rfl

theorem pmsro1_identity {s : System} {atoms : List Atom} {cmp : ℤ} {d : Bool} {m : ℝ} {n : ℤ} {a x : Atom}
    (h : pmsro1 s atoms cmp d m n a = .ok x) : identity x = identity a := by
  unfold pmsro1 at h
  cases hd : shellData s atoms a with
  | error e => rw [hd] at h; cases h
  | ok d =>
    rw [hd] at h
    simp only [bind, Except.bind] at h
    split_ifs at h <;> exact identity_of_pure h rfl

theorem angular1_identity {σ : StdSort} {s : System} {atoms : List Atom} {a x : Atom} (h : angular1 σ s atoms a = .ok x) :
    identity x = identity a := by
  unfold angular1 at h
  generalize hm : (List.mapM _ a.nbrs : Except Fault (List Atom)) = w at h
  cases w with
  | error e => cases h
  | ok d => exact identity_of_pure h rfl

theorem avgEnergy1_identity {atoms : List Atom} {a x : Atom} (h : System.avgEnergy1 atoms a = .ok x) :
    identity x = identity a := by
  unfold System.avgEnergy1 at h
  generalize hm : (List.mapM _ a.nbrs : Except Fault (List ℝ)) = w at h
  cases w with
  | error e => cases h
  | ok d => exact identity_of_pure h rfl

theorem setEnergy_identity {f : ℤ → Option ℝ} {a x : Atom} (h : System.setEnergy f a = .ok x) : identity x = identity a := by
  unfold System.setEnergy at h
  split at h
  · obtain rfl := Except.ok.inj h; rfl
  · cases h

theorem Holding.solids {b : Mat3} {l : List Atom} {r s : System} {p : ℕ × ℝ × ℝ × ℕ × ℝ} {cl : Bool} {x : ℝ} {v : System × Option ℕ}
    (hr : Assigned b l r) (h : Holding b l r s) (hg : s.solidRun p cl x = .ok v) : Holding b l r v.1 := by
  unfold System.solidRun at hg
  obtain ⟨t, ht, hg⟩ := bind_ok hg
  obtain ⟨u, hu, hg⟩ := bind_ok hg
  have h0 : Kept s { s with criteria := p.2.2.2.1, solidq := p.1 } := ⟨rfl, rfl, rfl, rfl, rfl, rfl, rfl, rfl, rfl, rfl⟩
  have h1 : Kept t { t with minfrenkel := p.2.2.2.2, threshold := p.2.1, avgthreshold := p.2.2.1 } :=
    ⟨rfl, rfl, rfl, rfl, rfl, rfl, rfl, rfl, rfl, rfl⟩
  have h2 := h.kept ((((h0.trans (Kept.ccalculateQ ht)).trans h1).trans (Kept.frenkel hu)).trans (Kept.solidAtoms u))
  cases cl with
  | false => obtain rfl := Except.ok.inj hg; exact h2
  | true =>
    rw [if_pos rfl] at hg
    obtain ⟨w, hw, hg⟩ := bind_ok hg
    obtain rfl := Except.ok.inj hg
    exact h2.clusters hr hw

theorem Holding.voronoi {b : Mat3} {l : List Atom} {r s g : System} {T : Tessellation} {f : ℕ} {e : ℤ}
    (hr : Assigned b l r) (h : Holding b l r s) (hg : s.findVoronoi T f e = .ok g) : Holding b l r g := by
  unfold System.findVoronoi at hg
  obtain ⟨t, ht, hg⟩ := bind_ok hg
  obtain ⟨u, hu, hg⟩ := bind_ok hg
  obtain ⟨w, hw, hg⟩ := bind_ok hg
  obtain rfl := Except.ok.inj hg
  have k0 : Kept s { s.resetAllNeighbors with filter := f, alpha := e } :=
    (Kept.resetAll s).trans ⟨rfl, rfl, rfl, rfl, rfl, rfl, rfl, rfl, rfl, rfl⟩
  have h0 := h.kept k0
  have ku := Kept.neighborsVoronoi hu
  generalize hs0 : ({ s.resetAllNeighbors with filter := f, alpha := e } : System) = s0 at *
  have hend : ∀ v : System, Holding b l r v → Holding b l r { v with neighborsFound := true } := fun v hv =>
    hv.kept ⟨rfl, rfl, rfl, rfl, rfl, rfl, rfl, rfl, rfl, rfl⟩
  apply hend
  rw [h0.box] at hw
  unfold System.voronoiPrepare at ht
  by_cases hc : s0.triclinic = true ∧ s0.ghostsCreated = false
  · rw [if_pos hc] at ht
    obtain ⟨cur, hcur, ht⟩ := bind_ok ht
    obtain ⟨v, hrep, ht2⟩ := bind_ok ht
    obtain ⟨s1, al⟩ := v
    dsimp only at ht2
    have hlarge : 200 ≤ l.length := by
      by_contra hlt
      have := h0.ghosts (by omega)
      rw [hc.2] at this
      cases this
    have hsk : Skewed r.box := by
      rw [hr.large hlarge]
      exact hr.skew hlarge (by rw [← h0.tri]; exact hc.1)
    obtain ⟨w1, w2, w3, w4, w5, w6, w7, w8, w9, w10⟩ := setBox_again hr hw (Or.inl hsk)
    obtain ⟨reals, hi, hid⟩ := h0.inv
    rw [getAtoms_inv hi] at hcur
    obtain rfl := Except.ok.inj hcur
    obtain ⟨a1, a2, _⟩ := repeatAtoms_ok hrep
    obtain ⟨c1, c2, c3, c4, c5, c6, _⟩ := setBox_frame ht2
    -- the state with the replicas holds the atoms
    have hlen : reals.length = l.length := by simpa using congrArg List.length hid
    have hgg : ∀ a ∈ repNew s0.getBox true 1 1 1 reals, a.ghost = true := repNew_ghost
    have hw' : Holding b l r { (s1.setAtoms al) with
        box := r.box, triclinic := r.triclinic, rot := r.rot, rotinv := r.rotinv, ghostsCreated := w.ghostsCreated } := by
      refine ⟨⟨reals, ⟨hi.real, ⟨_, a1, hgg, ?_⟩, rfl, ?_⟩, hid⟩, ?_, rfl, rfl, rfl, rfl, ?_, fun h' => absurd h' (by omega), fun h' => ?_⟩
      · change countGhost al = _
        rw [a1, countGhost_append, countGhost_of_real hi.real, countGhost_of_ghost hgg, Nat.zero_add]
      · change countReal al = _
        rw [a1, countReal_append, countReal_of_real hi.real, countReal_of_ghost hgg, Nat.add_zero]
      · change s1.actualBox.getD _ = b
        rw [a2, Option.getD_some, h0.getBox]
      · change 200 ≤ al.length
        rw [a1, List.length_append]; omega
      · rcases h' with h' | h'
        · rw [← h0.tri, hc.1] at h'; cases h'
        · omega
    refine hw'.kept ⟨?_, ?_, ?_, ?_, w1, w2, w3, w4, ?_, rfl⟩
    · rw [w5, ku.atoms, c3]
    · rw [w6, ku.nop, c4]
    · rw [w7, ku.realNop, c5]
    · rw [w8, ku.ghostNop, c6]
    · rw [w9, ku.actual, c2]
  · rw [if_neg hc] at ht
    obtain rfl := Except.ok.inj ht
    have hu' := h0.kept ku
    obtain ⟨w1, w2, w3, w4, w5, w6, w7, w8, w9, w10⟩ := setBox_again hr hw (Or.inr ⟨hu'.tri, hu'.rot, hu'.rotinv⟩)
    exact hu'.kept ⟨by rw [w5], w6, w7, w8, w1.trans hu'.box.symm, w2.trans hu'.tri.symm, w3.trans hu'.rot.symm,
      w4.trans hu'.rotinv.symm, w9, w10⟩

/-- The end of the two short range order functions: write back all atoms, then average. -/
theorem Holding.tail {b : Mat3} {l : List Atom} {r s : System} (h : Holding b l r s) {F : Atom → Except Fault Atom}
    (hF : ∀ a x, F a = .ok x → identity x = identity a) (av : Bool) (A : List Atom → Except Fault (List (Option ℝ))) :
    Holding b l r (match s.atoms.mapM F with
      | .error e => ((s, .error e) : System × Except Fault (Option (List (Option ℝ))))
      | .ok new =>
        match s.assignAtoms new with
        | .error e => (s, .error e)
        | .ok s' =>
          if av = true then
            match A new with
            | .error e => (s', .error e)
            | .ok v => (s', .ok (some v))
          else (s', .ok none)).1 := by
  cases hm : s.atoms.mapM F with
  | error e => exact h
  | ok new =>
    dsimp only
    cases ha : s.assignAtoms new with
    | error e => exact h
    | ok s' =>
      have h' := h.assignAll (mapM_identity hF hm) ha
      dsimp only
      split_ifs
      · cases A new <;> exact h'
      · exact h'

theorem Holding.call {b : Mat3} {l : List Atom} {r s g : System} (hr : Assigned b l r) (h : Holding b l r s)
    (hc : Spec.AnalysisCall s g) : Holding b l r g := by
  cases hc with
  | findNeighbors σ f m hh => exact h.kept (Kept.findNeighbors hh)
  | failedSearch σ f m e hh => exact h.kept (Kept.failedSearch hh)
  | failedDiamond σ e hh => exact h.kept (Kept.failedDiamond σ s e hh)
  | findVoronoi T f e hh => exact h.voronoi hr hh
  | vorovector e a hh =>
    unfold System.calculateVorovector at hh
    obtain ⟨cur, hc, hh⟩ := bind_ok hh
    obtain ⟨new, hm, ha⟩ := bind_ok hh
    refine h.rewrite hr hc (mapM_identity (fun x y hxy => ?_) hm) ha
    rw [vorovector1_frame hxy]; rfl
  | resetNeighbors => exact h.kept (Kept.resetNeighbors s)
  | atomCutoff f => exact h.kept (Kept.map s fun _ => rfl)
  | q ls av only c clear hh => exact h.q hr hh
  | solids b t a cl q c rr =>
    unfold System.findSolids
    split
    · exact h
    · split
      · exact h
      · rename_i hh
        exact h.solids hr hh
  | clusters c x hh => exact h.clusters hr hh
  | disorder av q => exact h.kept (Kept.disorder s av q)
  | cna σ lc hh => exact h.kept (Kept.cna hh)
  | diamond σ find hh => exact h.kept (Kept.diamond hh)
  | diamondNeighbors σ hh => exact h.kept (Kept.findDiamond hh)
  | centrosymmetry σ n =>
    unfold System.calculateCentrosymmetry
    by_cases h1 : ¬ n > 0
    · rw [if_pos h1]; exact h
    rw [if_neg h1]
    by_cases h2 : ¬ n % 2 = 0
    · rw [if_pos h2]; exact h
    rw [if_neg h2]
    split
    · exact h
    · rename_i hh
      exact h.kept (Kept.centro hh)
  | angular σ hh =>
    unfold System.calculateAngular at hh
    obtain ⟨cur, hc, hh⟩ := bind_ok hh
    obtain ⟨new, hm, ha⟩ := bind_ok hh
    exact h.rewrite hr hc (mapM_identity (fun _ _ => angular1_identity) hm) ha
  | chi hh =>
    unfold System.calculateChi at hh
    obtain ⟨cur, hc, ha⟩ := bind_ok hh
    exact h.rewrite hr hc (map_identity (f := chi1) fun _ => rfl) ha
  | entropy rm sg r0 hh loc av => exact h.kept (Kept.entropy s rm sg r0 hh loc av)
  | sro ref av n =>
    obtain ⟨reals, hi, _⟩ := h.inv
    unfold System.calculateSro
    rw [getAllAtoms_inv hi]
    by_cases h1 : (!s.neighborsFound) = true
    · rw [if_pos h1]; exact h
    rw [if_neg h1]
    by_cases h2 : ¬ (ref = 1 ∨ ref = 2)
    · rw [if_pos h2]; exact h
    rw [if_neg h2]
    dsimp only
    by_cases h3 : ¬ (countType s.atoms 1 > 0 ∧ countType s.atoms 2 > 0)
    · rw [if_pos h3]; exact h
    rw [if_neg h3]
    refine h.tail (fun a x hx => ?_) av (fun l => sroAverage l ref)
    by_cases ha : a.type = ref
    · rw [if_pos ha] at hx; exact sro1_identity hx
    · rw [if_neg ha] at hx; obtain rfl := Except.ok.inj hx; rfl
  | pmsro ref cmp av n d =>
    obtain ⟨reals, hi, _⟩ := h.inv
    unfold System.calculatePmsro
    rw [getAllAtoms_inv hi, getAtoms_inv hi]
    by_cases h1 : (!s.neighborsFound) = true
    · rw [if_pos h1]; exact h
    rw [if_neg h1]
    dsimp only
    by_cases h2 : ref ∉ uniqueTypes reals
    · rw [if_pos h2]; exact h
    rw [if_neg h2]
    by_cases h3 : cmp ∉ uniqueTypes reals
    · rw [if_pos h3]; exact h
    rw [if_neg h3]
    cases typeCount reals ref with
    | error e => exact h
    | ok n1 =>
      cases typeCount reals cmp with
      | error e => exact h
      | ok n2 =>
        dsimp only
        refine h.tail (fun a x hx => ?_) av (fun l => sroAverage l ref)
        split_ifs at hx
        · exact pmsro1_identity hx
        · obtain rfl := Except.ok.inj hx; rfl
  | energy σ lm av hh =>
    unfold System.calculateEnergy at hh
    obtain ⟨cur, hc, hh⟩ := bind_ok hh
    obtain ⟨e, he, hh⟩ := bind_ok hh
    obtain ⟨t, ht, hh⟩ := bind_ok hh
    obtain ⟨new, hm, ha⟩ := bind_ok hh
    obtain ⟨reals, hi, hid⟩ := h.inv
    rw [getAtoms_inv hi] at hc
    obtain rfl := Except.ok.inj hc
    have ht' : Holding b l r t := by
      unfold System.energySearch at ht
      split_ifs at ht
      · exact h.kept (Kept.findNeighbors ht)
      · obtain rfl := Except.ok.inj ht; exact h
    exact ht'.assign hr (((mapM_identity (fun _ _ => avgEnergy1_identity) hm).trans
      (mapM_identity (fun _ _ => setEnergy_identity) he)).trans hid) ha

theorem Holding.run {b : Mat3} {l : List Atom} {r s g : System} (hr : Assigned b l r) (h : Holding b l r s)
    (hc : Spec.AnalysisRun s g) : Holding b l r g := by
  induction hc with
  | nil => exact h
  | cons hc _ ih => exact ih (h.call hr hc)

theorem assigned_start {b : Mat3} {l : List Atom} {s0 s1 : System} (hb : System.init.setBox b = .ok s0)
    (ha : s0.assignAtoms l = .ok s1) (hreal : ∀ a ∈ l, a.ghost = false) : Assigned b l s1 ∧ Holding b l s1 s1 := by
  obtain ⟨f1, f2, f3, f4, f5, f6, _⟩ := setBox_frame hb
  have hi0 : StoreInv s0 [] := ⟨by simp, ⟨[], by rw [f3]; rfl, by simp, by rw [f6]; rfl⟩, by rw [f4, f3]; rfl, by rw [f5]; rfl⟩
  have hst : StoreInv s1 l := storeInv_step s0 s1 [] (.assign l) hi0 hreal ha
  have hbox : s0.getBox = b := by rw [System.getBox, f2, f1]; rfl
  obtain ⟨_, _, extra, h3, _, h5, h6⟩ := C05_assign_atoms s0 s1 l hreal ha
  rw [getAllAtoms_inv hst, Except.ok.injEq] at h3
  have hbig : 200 ≤ s1.atoms.length := by
    rcases Nat.lt_or_ge l.length 200 with hl | hl
    · rw [h3]; exact (h5 hl).1
    · rw [h3, List.length_append]; omega
  unfold System.assignAtoms at ha
  by_cases hl : l.length < 200
  · rw [if_pos hl] at ha
    split_ifs at ha
    dsimp only at ha
    cases hrep : s0.repeatAtoms (padReps l.length) (padReps l.length) (padReps l.length) l true true with
    | error e => rw [hrep] at ha; cases ha
    | ok v =>
      obtain ⟨s', out⟩ := v
      rw [hrep] at ha
      obtain rfl := Except.ok.inj ha
      obtain ⟨hout, hab, hbx, _⟩ := repeatAtoms_ok hrep
      rw [if_pos rfl, hbox] at hbx
      unfold System.repeatAtoms at hrep
      dsimp only at hrep
      rw [if_pos rfl, hbox] at hrep
      cases hb2 : ({ s0 with actualBox := some b } : System).setBox (scaleBox b (padReps l.length) (padReps l.length) (padReps l.length)) with
      | error e => rw [hb2] at hrep; cases hrep
      | ok s2 =>
        rw [hb2] at hrep
        have hrep := (Prod.mk.inj (Except.ok.inj hrep)).1
        rw [if_pos rfl] at hrep
        subst hrep
        refine ⟨⟨hreal, ⟨{ s0 with actualBox := some b }, s2, ?_, rfl, rfl, rfl⟩, fun _ => hbx, fun h => absurd h (by omega), fun h => absurd h (by omega), ?_⟩,
          ⟨⟨l, hst, rfl⟩, ?_, rfl, rfl, rfl, rfl, hbig, fun _ => rfl, fun _ => rfl⟩⟩
        · rw [show (({ s2 with ghostsCreated := true } : System).setAtoms out).box = _ from hbx]
          exact hb2
        · rw [if_pos hl, ← hbox]; exact hout
        · change s2.actualBox.getD _ = b
          have : s2.actualBox = some s0.getBox := hab
          rw [this, hbox]; rfl
  · rw [if_neg hl] at ha
    obtain rfl := Except.ok.inj ha
    refine ⟨⟨hreal, ⟨System.init, s0, ?_, rfl, rfl, rfl⟩, fun h => absurd h hl, fun _ => f1, ?_, by rw [if_neg hl, List.append_nil]; rfl⟩,
      ⟨⟨l, hst, rfl⟩, hbox, rfl, rfl, rfl, rfl, hbig, fun h => absurd h hl, fun _ => rfl⟩⟩
    · change System.init.setBox s0.box = .ok s0
      rw [f1]; exact hb
    · intro _ ht
      change s0.triclinic = true at ht
      by_contra hsk
      unfold System.setBox at hb
      rw [if_neg hsk] at hb
      obtain rfl := Except.ok.inj hb
      cases ht

/-- **C85.**  A system is made, its box and its atoms are assigned, and then any sequence of analysis functions is
called (neighbour searches by every method, Voronoi tessellation and vectors, order parameters, solids,
clusters, disorder, common neighbour analysis, diamond structure, centrosymmetry, angles, entropy, short range
order, energies, resets), in any order and any number of times, some of them raising exceptions (all kinds of searches but
the Voronoi one, and the calls modelled with `Py`).  Afterwards `sys.atoms` has the same atoms in the same
order, with the same numbers, types and positions, `natoms` and `sys.box` are unchanged, and so are all distances
`get_distance` reports. -/
theorem C85_history (b : Mat3) (l : List Atom) (s0 s1 s : System) (hb : System.init.setBox b = .ok s0)
    (ha : s0.assignAtoms l = .ok s1) (hreal : ∀ a ∈ l, a.ghost = false) (hrun : Spec.AnalysisRun s1 s) :
    ∃ l', s.getAtoms = .ok l' ∧ l'.map identity = l.map identity ∧ s.natoms = l.length ∧ s.getBox = b ∧
      (∀ x y : Atom, s.getDistance x y = s1.getDistance x y ∧ s.getDistanceVector x y = s1.getDistanceVector x y) := by
  obtain ⟨h1, h2⟩ := assigned_start hb ha hreal
  have h := h2.run h1 hrun
  obtain ⟨reals, hi, hid⟩ := h.inv
  have him : ∀ d, s.image d = s1.image d := fun d => by
    unfold System.image System.boxx System.boxy System.boxz
    rw [h.box, h.tri, h.rot, h.rotinv]
  refine ⟨reals, getAtoms_inv hi, hid, ?_, h.getBox, fun x y => ⟨?_, him _⟩⟩
  · have := congrArg List.length hid
    simp only [List.length_map] at this
    exact hi.realNop.trans this
  · exact congrArg V3.norm (him _)

/-- A history of four calls on 200 atoms: Voronoi search, Voronoi vectors, a reset, and the disorder variable. -/
example : ∃ s0 s1 s : System, System.init.setBox (Spec.diagBox 1000 1000 1000) = .ok s0 ∧ s0.assignAtoms chainAtoms = .ok s1 ∧
    (∀ a ∈ chainAtoms, a.ghost = false) ∧ Spec.AnalysisRun s1 s := by
  obtain ⟨s0, s, s1, s2, h0, h1, h2, h3, -⟩ := chain_vorovector
  refine ⟨s0, s, _, h0, h1, ?_, .cons (.findVoronoi _ _ _ h2) (.cons (.vorovector _ _ h3)
    (.cons (.resetNeighbors _) (.cons (.disorder _ true 6) (.nil _))))⟩
  intro a ha
  simp only [chainAtoms, List.mem_map] at ha
  obtain ⟨i, -, rfl⟩ := ha
  rfl

end Pyscal
