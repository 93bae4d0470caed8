import Mathlib.Logic.Relation
import Mathlib.Data.Finset.Card
import Mathlib.Data.Finset.Range
import Mathlib.Tactic.Linarith
import Mathlib.Data.Finset.Filter
import Mathlib.Algebra.Order.Group.Int

/-! Depth first labelling of a graph, abstracted from `harvest_cluster`. -/

namespace Pyscal

/-- Depth first labelling with label `ci`; `-1` means unlabelled. -/
def dfs (adj : ℕ → List ℕ) : ℕ → ℕ → ℤ → (ℕ → ℤ) → Option (ℕ → ℤ)
  | 0, _, _, _ => none
  | fuel + 1, ti, ci, b =>
    (adj ti).foldlM (fun b j =>
      if b j = -1 then dfs adj fuel j ci (Function.update b j ci) else some b) b

/-- Unlabelled nodes below `n`. -/
def unlabelled (n : ℕ) (b : ℕ → ℤ) : Finset ℕ := (Finset.range n).filter fun j => b j = -1

/-- What one call achieves. -/
structure DfsPost (adj : ℕ → List ℕ) (ci : ℤ) (root : ℕ) (done : List ℕ) (b b' : ℕ → ℤ) : Prop where
  keep : ∀ j, b j ≠ -1 → b' j = b j
  new : ∀ j, b j = -1 → b' j ≠ -1 → b' j = ci ∧ Relation.ReflTransGen (fun i j => j ∈ adj i) root j
  done : ∀ j ∈ done, b' j ≠ -1
  closed : ∀ j, b j = -1 → b' j ≠ -1 → ∀ k ∈ adj j, b' k ≠ -1

theorem DfsPost.mono {adj : ℕ → List ℕ} {ci : ℤ} {root : ℕ} {d : List ℕ} {b b' : ℕ → ℤ} (h : DfsPost adj ci root d b b')
    {j : ℕ} (hj : b j ≠ -1) : b' j ≠ -1 := by rw [h.keep j hj]; exact hj

theorem unlabelled_mono {n : ℕ} {b b' : ℕ → ℤ} (h : ∀ j, b j ≠ -1 → b' j = b j) : unlabelled n b' ⊆ unlabelled n b := by
  intro j hj
  simp only [unlabelled, Finset.mem_filter] at hj ⊢
  refine ⟨hj.1, ?_⟩
  by_contra hc
  rw [h j hc] at hj
  exact hc hj.2

theorem unlabelled_update {n : ℕ} {b : ℕ → ℤ} {j : ℕ} {ci : ℤ} (hj : j < n) (hb : b j = -1) (hci : ci ≠ -1) :
    (unlabelled n (Function.update b j ci)).card < (unlabelled n b).card := by
  refine Finset.card_lt_card ⟨unlabelled_mono fun k hk => ?_, fun hs => ?_⟩
  · have : k ≠ j := fun e => hk (e ▸ hb)
    rw [Function.update_of_ne this]
  · have h1 : j ∈ unlabelled n b := by simp [unlabelled, hj, hb]
    have h2 := hs h1
    simp [unlabelled] at h2
    exact hci h2.2

theorem dfs_spec (adj : ℕ → List ℕ) (n : ℕ) (hadj : ∀ i, ∀ j ∈ adj i, j < n) (ci : ℤ) (hci : ci ≠ -1) :
    ∀ fuel ti b, (unlabelled n b).card < fuel → ∃ b', dfs adj fuel ti ci b = some b' ∧ DfsPost adj ci ti (adj ti) b b' := by
  intro fuel
  induction fuel with
  | zero => intro ti b h; exact absurd h (Nat.not_lt_zero _)
  | succ fuel ih =>
    intro ti b hfuel
    rw [dfs]
    have key : ∀ (todo done : List ℕ) (c : ℕ → ℤ), adj ti = done ++ todo → DfsPost adj ci ti done b c →
        ∃ b', todo.foldlM (fun b j => if b j = -1 then dfs adj fuel j ci (Function.update b j ci) else some b) c = some b' ∧
          DfsPost adj ci ti (adj ti) b b' := by
      intro todo
      induction todo with
      | nil =>
        intro done c hd hp
        refine ⟨c, rfl, ?_⟩
        rw [hd, List.append_nil]; exact hp
      | cons j todo ihl =>
        intro done c hd hp
        have hjm : j ∈ adj ti := by rw [hd]; simp
        have hd' : adj ti = (done ++ [j]) ++ todo := by rw [hd]; simp
        rw [List.foldlM_cons]
        by_cases hj : c j = -1
        · rw [if_pos hj]
          have hjn := hadj ti j hjm
          have hcard : (unlabelled n (Function.update c j ci)).card < fuel := by
            have h1 := unlabelled_update hjn hj hci
            have h2 := Finset.card_le_card (unlabelled_mono (n := n) hp.keep)
            omega
          obtain ⟨d, hd1, hd2⟩ := ih j _ hcard
          rw [hd1]
          have hbj : b j = -1 := by
            by_contra hc
            rw [hp.keep j hc] at hj
            exact hc hj
          have hself : Function.update c j ci j ≠ -1 := by simpa using hci
          have hmono : ∀ k, c k ≠ -1 → d k = c k := by
            intro k hk
            have hkj : k ≠ j := fun e => hk (e ▸ hj)
            rw [hd2.keep k (by rwa [Function.update_of_ne hkj]), Function.update_of_ne hkj]
          have hdj : d j = ci := by rw [hd2.keep j hself, Function.update_self]
          refine ihl (done ++ [j]) d hd' ⟨?_, ?_, ?_, ?_⟩
          · intro k hk
            rw [hmono k (hp.mono hk), hp.keep k hk]
          · intro k hk hk'
            by_cases hck : c k = -1
            · by_cases hkj : k = j
              · rw [hkj]
                exact ⟨hdj, Relation.ReflTransGen.single hjm⟩
              · have := hd2.new k (by rw [Function.update_of_ne hkj]; exact hck) hk'
                exact ⟨this.1, Relation.ReflTransGen.head hjm this.2⟩
            · rw [hmono k hck]
              exact hp.new k hk hck
          · intro k hk
            rcases List.mem_append.1 hk with hk | hk
            · rw [hmono k (hp.done k hk)]; exact hp.done k hk
            · rw [List.mem_singleton.1 hk, hdj]; exact hci
          · intro k hk hk' x hx
            by_cases hck : c k = -1
            · by_cases hkj : k = j
              · subst hkj
                exact hd2.done x hx
              · exact hd2.closed k (by rw [Function.update_of_ne hkj]; exact hck) hk' x hx
            · have := hp.closed k hk hck x hx
              rw [hmono x this]; exact this
        · rw [if_neg hj]
          refine ihl (done ++ [j]) c hd' ⟨hp.keep, hp.new, ?_, hp.closed⟩
          intro k hk
          rcases List.mem_append.1 hk with hk | hk
          · exact hp.done k hk
          · rw [List.mem_singleton.1 hk]; exact hj
    exact key (adj ti) [] b rfl ⟨fun _ _ => rfl, fun j h1 h2 => absurd h1 h2, fun _ h => absurd h List.not_mem_nil,
      fun j h1 h2 => absurd h1 h2⟩

/-- The main loop: number the components met by the nodes of `todo` that satisfy `elig`. -/
def dfsLoop (adj : ℕ → List ℕ) (elig : ℕ → Bool) (fuel : ℕ) : List ℕ → ℤ → (ℕ → ℤ) → Option (ℕ → ℤ)
  | [], _, b => some b
  | ti :: is, ci, b =>
    if elig ti then
      if b ti = -1 then do
        let b ← dfs adj fuel ti (ci + 1) (Function.update b ti (ci + 1))
        dfsLoop adj elig fuel is (ci + 1) b
      else dfsLoop adj elig fuel is ci b
    else dfsLoop adj elig fuel is ci b

/-- Invariant of the main loop. -/
structure CInv (adj : ℕ → List ℕ) (elig : ℕ → Bool) (c : ℤ) (b : ℕ → ℤ) : Prop where
  pos : 0 ≤ c
  range : ∀ j, b j ≠ -1 → 1 ≤ b j ∧ b j ≤ c
  used : ∀ k, 1 ≤ k → k ≤ c → ∃ j, b j = k
  elig : ∀ j, b j ≠ -1 → elig j = true
  same : ∀ i, b i ≠ -1 → ∀ j ∈ adj i, b j = b i
  conn : ∀ i j, b i ≠ -1 → b i = b j → Relation.ReflTransGen (fun i j => j ∈ adj i) i j

theorem dfsLoop_spec (adj : ℕ → List ℕ) (elig : ℕ → Bool) (n fuel : ℕ) (hadj : ∀ i, ∀ j ∈ adj i, j < n ∧ elig j = true)
    (hsym : ∀ i j, elig i = true → j ∈ adj i → i ∈ adj j) (hfuel : n < fuel) :
    ∀ (todo : List ℕ) (c : ℤ) (b : ℕ → ℤ), CInv adj elig c b →
      ∃ b' c', dfsLoop adj elig fuel todo c b = some b' ∧ CInv adj elig c' b' ∧ (∀ j, b j ≠ -1 → b' j = b j) ∧
        ∀ j ∈ todo, elig j = true → b' j ≠ -1 := by
  intro todo
  induction todo with
  | nil => intro c b h; exact ⟨b, c, rfl, h, fun _ _ => rfl, fun _ h => absurd h List.not_mem_nil⟩
  | cons ti todo ih =>
    intro c b h
    rw [dfsLoop]
    have skip : (elig ti = true → b ti ≠ -1) → ∃ b' c', dfsLoop adj elig fuel todo c b = some b' ∧ CInv adj elig c' b' ∧
        (∀ j, b j ≠ -1 → b' j = b j) ∧ ∀ j ∈ ti :: todo, elig j = true → b' j ≠ -1 := by
      intro hti
      obtain ⟨b', c', h1, h2, h3, h4⟩ := ih c b h
      refine ⟨b', c', h1, h2, h3, fun j hj he => ?_⟩
      rcases List.mem_cons.1 hj with rfl | hj
      · rw [h3 j (hti he)]; exact hti he
      · exact h4 j hj he
    by_cases he : elig ti = true
    · rw [if_pos he]
      by_cases hb : b ti = -1
      · rw [if_pos hb]
        have hci : c + 1 ≠ -1 := by have := h.pos; omega
        have hcard : (unlabelled n (Function.update b ti (c + 1))).card < fuel := by
          have := Finset.card_le_card (Finset.filter_subset (fun j => Function.update b ti (c + 1) j = -1) (Finset.range n))
          rw [Finset.card_range] at this
          exact lt_of_le_of_lt this hfuel
        obtain ⟨d, hd1, hd2⟩ := dfs_spec adj n (fun i j hj => (hadj i j hj).1) (c + 1) hci fuel ti _ hcard
        rw [hd1]
        have hkeep : ∀ j, b j ≠ -1 → d j = b j := by
          intro j hj
          have hne : j ≠ ti := fun e => hj (e ▸ hb)
          rw [hd2.keep j (by rwa [Function.update_of_ne hne]), Function.update_of_ne hne]
        have hdti : d ti = c + 1 := by
          rw [hd2.keep ti (by simpa using hci), Function.update_self]
        -- reachability among eligible nodes is symmetric
        have hreachE : ∀ i j, elig i = true → Relation.ReflTransGen (fun i j => j ∈ adj i) i j → elig j = true := by
          intro i j hi hr
          induction hr with
          | refl => exact hi
          | tail _ hs _ => exact (hadj _ _ hs).2
        have hsymR : ∀ i j, elig i = true → Relation.ReflTransGen (fun i j => j ∈ adj i) i j →
            Relation.ReflTransGen (fun i j => j ∈ adj i) j i := by
          intro i j hi hr
          induction hr with
          | refl => exact .refl
          | @tail x y hix hs ihr =>
            exact Relation.ReflTransGen.head (hsym x y (hreachE i x hi hix) hs) ihr
        -- new nodes
        have hnew : ∀ j, b j = -1 → d j ≠ -1 → d j = c + 1 ∧ Relation.ReflTransGen (fun i j => j ∈ adj i) ti j := by
          intro j hj hj'
          by_cases hne : j = ti
          · subst hne; exact ⟨hdti, .refl⟩
          · exact hd2.new j (by rwa [Function.update_of_ne hne]) hj'
        have hclosed : ∀ j, b j = -1 → d j ≠ -1 → ∀ k ∈ adj j, d k ≠ -1 := by
          intro j hj hj' k hk
          by_cases hne : j = ti
          · subst hne; exact hd2.done k hk
          · exact hd2.closed j (by rwa [Function.update_of_ne hne]) hj' k hk
        have helig : ∀ j, d j ≠ -1 → elig j = true := by
          intro j hj
          by_cases hbj : b j = -1
          · exact hreachE ti j he (hnew j hbj hj).2
          · exact h.elig j hbj
        have hinv : CInv adj elig (c + 1) d := by
          refine ⟨by have := h.pos; omega, ?_, ?_, helig, ?_, ?_⟩
          · intro j hj
            by_cases hbj : b j = -1
            · rw [(hnew j hbj hj).1]; have := h.pos; omega
            · rw [hkeep j hbj]; have := h.range j hbj; omega
          · intro k hk1 hk2
            by_cases hk : k = c + 1
            · exact ⟨ti, by rw [hdti, hk]⟩
            · obtain ⟨j, hj⟩ := h.used k hk1 (by omega)
              exact ⟨j, by rw [hkeep j (by omega), hj]⟩
          · intro i hi j hj
            by_cases hbi : b i = -1
            · have hdj := hclosed i hbi hi j hj
              by_cases hbj : b j = -1
              · rw [(hnew j hbj hdj).1, (hnew i hbi hi).1]
              · exact absurd (h.same j hbj i (hsym i j (helig i hi) hj) ▸ hbi) hbj
            · have := h.same i hbi j hj
              rw [hkeep i hbi, hkeep j (by rw [this]; exact hbi), this]
          · intro i j hi hij
            have hj : d j ≠ -1 := hij ▸ hi
            by_cases hbi : b i = -1 <;> by_cases hbj : b j = -1
            · exact (hsymR ti i he (hnew i hbi hi).2).trans (hnew j hbj hj).2
            · have h1 := (hnew i hbi hi).1
              have h2 := hkeep j hbj
              have h3 := h.range j hbj
              omega
            · have h1 := (hnew j hbj hj).1
              have h2 := hkeep i hbi
              have h3 := h.range i hbi
              omega
            · exact h.conn i j hbi (by rw [← hkeep i hbi, ← hkeep j hbj, hij])
        obtain ⟨b', c', h1, h2, h3, h4⟩ := ih (c + 1) d hinv
        refine ⟨b', c', h1, h2, fun j hj => ?_, fun j hj hje => ?_⟩
        · rw [h3 j (by rw [hkeep j hj]; exact hj), hkeep j hj]
        · rcases List.mem_cons.1 hj with rfl | hj
          · rw [h3 j (by rw [hdti]; exact hci), hdti]; exact hci
          · exact h4 j hj hje
      · rw [if_neg hb]; exact skip fun _ => hb
    · rw [if_neg he]; exact skip fun h => absurd h he

end Pyscal
