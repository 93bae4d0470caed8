import Verif.Props.AseTrajectory

/-! C47: the generator `Trajectory.iter` with its three kinds of output. -/

namespace Pyscal

theorem yieldAll_prefix {C : Codec} {t : Traj} {o : IterOutput} : ∀ (ks rest : List ℤ) (ys : List Yielded),
    List.Forall₂ (fun k y => C.yieldOne t o k = .ok y) ks ys → C.yieldAll t o (ks ++ rest) = (ys ++ (C.yieldAll t o rest).1, (C.yieldAll t o rest).2)
  | [], rest, _, .nil => by simp
  | k :: ks, rest, _, .cons (b := y) (l₂ := ys) h1 h2 => by
    simp only [List.cons_append, Codec.yieldAll, h1, yieldAll_prefix ks rest ys h2]

/-- The systems of the blocks `ks`, as far as they can be read. -/
theorem yield_systems {C : Codec} {t : Traj} {n : ℕ} {frames : List (List String)} {stray : List String} (hT : TrajOf t n frames stray)
    {S : ℕ → System} : ∀ (ks : List ℕ), (∀ k ∈ ks, ∃ h : k < frames.length, System.init.readDump C (some frames[k]) [] = .ok (S k)) →
      List.Forall₂ (fun k y => C.yieldOne t .system k = .ok y) (ks.map fun k : ℕ => (k : ℤ)) (ks.map fun k => Yielded.system (S k))
  | [], _ => .nil
  | k :: ks, h => by
    refine .cons ?_ (yield_systems hT ks fun j hj => h j (List.mem_cons_of_mem _ hj))
    obtain ⟨hk, hr⟩ := h k List.mem_cons_self
    simp only [Codec.yieldOne, getBlock_nat hT hk, bind, Except.bind, hr]
    rfl

/-- **C47, systems in ascending order, in part**: with at most as many slices as there are frames, the first `j` values given are the systems
read from the frames 0, 1, …, `j - 1`, if these can be read.  If all requested frames can be read, nothing else is given and nothing is raised;
and if frame `j` cannot be read, its exception ends the loop after these `j` systems. -/
theorem C47_system_partial (C : Codec) (n : ℕ) (t : Traj) (frames : List (List String)) (stray : List String) (hT : TrajOf t n frames stray)
    (nslices : Option ℤ) (m : ℕ) (hm : nslices.getD frames.length = m) (hle : m ≤ frames.length) (S : ℕ → System) (j : ℕ) (hj : j ≤ m)
    (hS : ∀ (k : ℕ) (hk : k < j), System.init.readDump C (some (frames[k]'(by omega))) [] = .ok (S k)) :
    ((C.iterOut t .ascending nslices .system).1.take j = (List.range j).map fun k => Yielded.system (S k)) ∧
    (j = m → C.iterOut t .ascending nslices .system = ((List.range m).map fun k => Yielded.system (S k), none)) ∧
    (∀ e, (∃ h : j < m, System.init.readDump C (some (frames[j]'(by omega))) [] = .error e) →
      C.iterOut t .ascending nslices .system = ((List.range j).map fun k => Yielded.system (S k), some e)) := by
  have hn : nslices.getD t.nblocks = m := by rw [hT.nblocks]; exact hm
  have hsplit : List.range m = List.range j ++ (List.range (m - j)).map (j + ·) := by
    rw [← List.range_add, Nat.add_sub_cancel' hj]
  have key := yieldAll_prefix (C := C) (t := t) (o := .system) ((List.range j).map fun k : ℕ => (k : ℤ))
    (((List.range (m - j)).map (j + ·)).map fun k : ℕ => (k : ℤ)) _ (yield_systems hT (List.range j)
      (fun k hk => ⟨by have := List.mem_range.1 hk; omega, hS k (List.mem_range.1 hk)⟩))
  have hit : C.iterOut t .ascending nslices .system = C.yieldAll t .system ((List.range j).map (fun k : ℕ => (k : ℤ)) ++
      ((List.range (m - j)).map (j + ·)).map fun k : ℕ => (k : ℤ)) := by
    unfold Codec.iterOut Traj.iter
    simp only [hn, Int.toNat_natCast, hsplit, List.map_append]
  rw [key] at hit
  refine ⟨?_, ?_, ?_⟩
  · rw [hit]
    simp only
    rw [List.take_append_of_le_length (by simp), List.take_of_length_le (by simp)]
  · rintro rfl
    rw [hit]
    simp [Codec.yieldAll]
  · rintro e ⟨hjm, he⟩
    rw [hit]
    have hh : (List.range (m - j)).map (j + ·) = j :: (List.range (m - j - 1)).map (fun k => j + (k + 1)) := by
      obtain ⟨d, hd⟩ : ∃ d, m - j = d + 1 := ⟨m - j - 1, by omega⟩
      rw [hd, List.range_succ_eq_map]
      simp [Function.comp_def]
    rw [hh]
    have hy : C.yieldOne t .system (j : ℤ) = .error e := by
      simp only [Codec.yieldOne, getBlock_nat hT (show j < frames.length by omega), bind, Except.bind, he]
    simp only [List.map_cons, Codec.yieldAll, hy, List.append_nil]

/-- **C47, systems in random order**: every requested block gives the system of its frame, in the order of the shuffled list, if all frames can
be read. -/
theorem C47_system_random (C : Codec) (n : ℕ) (t : Traj) (frames : List (List String)) (stray : List String) (hT : TrajOf t n frames stray)
    (nslices : Option ℤ) (m : ℕ) (hm : nslices.getD frames.length = m) (sh : List ℕ) (hsh : sh.Perm (List.range frames.length)) (S : ℕ → System)
    (hS : ∀ (k : ℕ) (hk : k < frames.length), System.init.readDump C (some frames[k]) [] = .ok (S k)) :
    C.iterOut t (.random (sh.map fun k : ℕ => (k : ℤ))) nslices .system = ((sh.take m).map fun k => Yielded.system (S k), none) := by
  have hn : nslices.getD t.nblocks = m := by rw [hT.nblocks]; exact hm
  unfold Codec.iterOut Traj.iter
  simp only [hn, takePy, Int.toNat_natCast]
  rw [if_pos (by positivity), ← List.map_take]
  have key := yieldAll_prefix (C := C) (t := t) (o := .system) _ [] _ (yield_systems hT (S := S) (sh.take m)
    (fun k hk => ⟨List.mem_range.1 (hsh.mem_iff.1 (List.mem_of_mem_take hk)), hS k _⟩))
  simpa [Codec.yieldAll] using key

/-- **C47, systems: agreement with slices**: if all frames can be read, the systems given in ascending order are those of `traj[:m].to_system()`. -/
theorem C47_system_slice (C : Codec) (n : ℕ) (t : Traj) (frames : List (List String)) (stray : List String) (hT : TrajOf t n frames stray)
    (m : ℕ) (hle : m ≤ frames.length) (S : ℕ → System)
    (hS : ∀ (k : ℕ) (hk : k < m), System.init.readDump C (some (frames[k]'(by omega))) [] = .ok (S k)) :
    ∃ ks ss, t.sliceBlocks none (some m) none = .ok ks ∧ C.sliceToSystem (fun _ => t) [(0, ks)] [] = .ok ss ∧
      C.iterOut t .ascending (some m) .system = (ss.map Yielded.system, none) := by
  refine ⟨(List.range m).map fun k : ℕ => (k : ℤ), (List.range m).map S, ?_, ?_, ?_⟩
  · simp only [Traj.sliceBlocks, sliceIndices, hT.nblocks, bind, Except.bind, Option.getD_none, one_ne_zero, if_false, show ¬ (1 : ℤ) < 0 by norm_num,
      show ¬ (m : ℤ) < 0 by omega, show ¬ (m : ℤ) > (frames.length : ℤ) by omega, pure, Except.pure]
    simp only [pyRange, show (0 : ℤ) < 1 by norm_num, if_true, Except.ok.injEq]
    rcases Nat.eq_zero_or_pos m with rfl | h0
    · simp
    · rw [if_pos (by exact_mod_cast h0)]
      have : (((m : ℤ) - 0 - 1) / 1 + 1).toNat = m := by omega
      rw [this]
      simp
  · unfold Codec.sliceToSystem Slices.pairs
    simp only [List.flatMap_cons, List.flatMap_nil, List.append_nil, List.map_map]
    have : ∀ ks : List ℕ, (∀ k ∈ ks, k < m) → (ks.map ((fun k : ℤ => ((0 : ℕ), k)) ∘ fun k : ℕ => (k : ℤ))).mapM (fun p => do
        let lines ← t.getBlock p.2
        System.init.readDump C (some lines) []) = .ok (ks.map S) := by
      intro ks
      induction ks with
      | nil => intro _; rfl
      | cons k ks ih =>
        intro h
        have hk := h k List.mem_cons_self
        simp only [List.map_cons, List.mapM_cons, Function.comp, getBlock_nat hT (show k < frames.length by omega), bind, Except.bind, hS k hk]
        have := ih fun j hj => h j (List.mem_cons_of_mem _ hj)
        simp only [bind, Except.bind] at this
        rw [this]
        rfl
    exact this (List.range m) fun k hk => List.mem_range.1 hk
  · have := (C47_system_partial C n t frames stray hT (some m) m rfl hle S m le_rfl hS).2.1 rfl
    rw [this]
    simp [Function.comp_def]

/-- **C47 is false for systems in descending order**: for a file of complete frames the generator raises IndexError before it gives anything,
whatever number of slices is requested. -/
theorem C47_false_system (C : Codec) (n : ℕ) (t : Traj) (frames : List (List String)) (hT : TrajOf t n frames []) (hf : frames ≠ [])
    (nslices : Option ℤ) (h0 : ∀ k, nslices = some k → 0 < k) : C.iterOut t .descending nslices .system = ([], some .indexError) := by
  have hfl : 0 < frames.length := List.length_pos_iff.2 hf
  obtain ⟨d, hd⟩ : ∃ d : ℕ, (nslices.getD t.nblocks).toNat = d + 1 := by
    cases nslices with
    | none => exact ⟨frames.length - 1, by rw [Option.getD_none, hT.nblocks]; omega⟩
    | some k => exact ⟨k.toNat - 1, by have := h0 k rfl; rw [Option.getD_some]; omega⟩
  have hb : t.getBlock (frames.length : ℤ) = .error .indexError := by
    have hlen := hT.length
    simp only [List.length_nil, Nat.add_zero] at hlen
    have e : (frames.length : ℤ) * t.blocksize = ((t.lines.length : ℕ) : ℤ) := by
      rw [hT.blocksize, hlen]; push_cast; ring
    unfold Traj.getBlock
    rw [e]
    have : pyIdx t.lines.length ((t.lines.length : ℕ) : ℤ) = none := by
      unfold pyIdx
      rw [if_pos (by omega), if_neg (by omega)]
    rw [this]
  unfold Codec.iterOut Traj.iter
  simp only [hd, List.range_succ_eq_map, List.map_cons, Codec.yieldAll, Nat.cast_zero, sub_zero]
  rw [hT.nblocks]
  have hy : C.yieldOne t .system (frames.length : ℤ) = .error .indexError := by simp only [Codec.yieldOne, hb, bind, Except.bind]
  rw [hy]

/-- **C47, an unknown kind of output** is not reported: the generator gives `None` for every slice; an unknown method raises ValueError. -/
theorem C47_other (C : Codec) (t : Traj) (m : IterMethod) (nslices : Option ℤ) (o : IterOutput) :
    (∀ ks, t.iter m nslices = .ok ks → C.iterOut t m nslices .other = (ks.map fun _ => Yielded.nothing, none) ∧
      C.iterOut t m nslices .index = (ks.map Yielded.index, none)) ∧ C.iterOut t .unknown nslices o = ([], some .valueError) := by
  refine ⟨fun ks h => ⟨?_, ?_⟩, rfl⟩
  all_goals
    unfold Codec.iterOut
    simp only [h]
    clear h
    induction ks with
    | nil => rfl
    | cons k ks ih => simp only [Codec.yieldAll, Codec.yieldOne, ih, List.map_cons]

/-- The hypotheses hold for the trajectory of three frames: all systems in ascending order, and none in descending order. -/
example : ∃ a b c : System, unaryCodec.iterOut threeFrames .ascending none .system = ([.system a, .system b, .system c], none) ∧
    unaryCodec.iterOut threeFrames .descending none .system = ([], some .indexError) := by
  have hr : ∀ t u : ℤ, ∃ s, System.init.readDump unaryCodec (some (twoFrame t u)) [] = .ok s := by
    intro t u
    obtain ⟨atoms, h1, h2⟩ := frame_snap (twoFrame_frame t u)
    obtain ⟨s, hs, -⟩ := frame_read h1 (by rintro rfl; cases h2) (by norm_num)
    exact ⟨s, hs⟩
  choose S hS using hr
  set T : ℕ → System := fun k => if k = 0 then S 1 2 else if k = 1 then S 2 1 else S 1 1 with hTd
  have h := (C47_system_partial unaryCodec 2 threeFrames _ _ threeFrames_of none 3 rfl le_rfl T 3 le_rfl (by
    intro k hk
    rcases (show k = 0 ∨ k = 1 ∨ k = 2 by omega) with rfl | rfl | rfl <;> simp [hTd, hS])).2.1 rfl
  exact ⟨S 1 2, S 2 1, S 1 1, by rw [h]; simp [List.range_succ, hTd], C47_false_system unaryCodec 2 threeFrames _ threeFrames_of (by simp) none (by simp)⟩

end Pyscal
