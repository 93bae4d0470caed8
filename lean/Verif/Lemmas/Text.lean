import Verif.Model.Text
import Mathlib.Algebra.Order.Round
import Mathlib.Algebra.Order.Archimedean.Real.Basic
import Mathlib.Tactic.FieldSimp

/-! Lemmas about words, lines and dictionaries, and a codec satisfying the assumed laws. -/

namespace Pyscal

theorem isSpace_space : isSpace ' ' = true := by decide
theorem isSpace_nl : isSpace '\n' = true := by decide

theorem splitOnP_words (ws : List (List Char)) (h : ∀ w ∈ ws, w ≠ [] ∧ ∀ c ∈ w, isSpace c = false) (c : Char) (hc : isSpace c = true) :
    ((([' '].intercalate ws) ++ [c]).splitOnP isSpace).filter (fun w => w ≠ []) = ws := by
  induction ws with
  | nil =>
    rw [List.intercalate_nil, List.nil_append]
    rw [List.splitOnP_cons_eq_if_modifyHead]
    simp [hc]
  | cons w ws ih =>
    have hw := h w (by simp)
    have ih' := ih (fun v hv => h v (by simp [hv]))
    cases ws with
    | nil =>
      rw [List.intercalate_singleton, List.splitOnP_append_cons_of_forall_mem hw.2 c hc]
      simp [hw.1]
    | cons v vs =>
      rw [List.intercalate_cons_cons]
      rw [show w ++ [' '] ++ [' '].intercalate (v :: vs) ++ [c] = w ++ ' ' :: ([' '].intercalate (v :: vs) ++ [c]) by simp]
      rw [List.splitOnP_append_cons_of_forall_mem hw.2 ' ' isSpace_space]
      rw [List.filter_cons_of_pos (by simpa using hw.1), ih']

theorem words_textLine (ws : List String) (h : ∀ w ∈ ws, IsWord w) : words (textLine ws) = ws := by
  unfold words textLine joinWords
  have e : (String.ofList ([' '].intercalate (ws.map String.toList)) ++ "\n").toList = [' '].intercalate (ws.map String.toList) ++ ['\n'] := by
    rw [String.toList_append]
    simp
  rw [e, splitOnP_words _ _ _ isSpace_nl]
  · rw [List.map_map]
    calc _ = ws.map id := List.map_congr_left fun a _ => by simp
      _ = ws := List.map_id _
  · intro w hw
    obtain ⟨v, hv, rfl⟩ := List.mem_map.1 hw
    exact h v hv

theorem dropWhile_word {w : List Char} (h : ∀ c ∈ w, isSpace c = false) : w.dropWhile isSpace = w := by
  cases w with
  | nil => rfl
  | cons a l => rw [List.dropWhile_cons_of_neg]; simp [h a (by simp)]

theorem strip_textLine {w : String} (h : IsWord w) : strip (textLine [w]) = w := by
  unfold strip textLine joinWords
  have e : (String.ofList ([' '].intercalate ([w].map String.toList)) ++ "\n").toList = w.toList ++ ['\n'] := by
    rw [String.toList_append]
    simp
  rw [e]
  obtain ⟨h1, h2⟩ := h
  have d1 : (w.toList ++ ['\n']).dropWhile isSpace = w.toList ++ ['\n'] := by
    cases hw : w.toList with
    | nil => exact absurd hw h1
    | cons a l =>
      rw [List.cons_append, List.dropWhile_cons_of_neg]
      simp [h2 a (by simp [hw])]
  rw [d1, List.reverse_append, List.reverse_singleton, List.singleton_append, List.dropWhile_cons_of_pos isSpace_nl,
    dropWhile_word (by intro c hc; exact h2 c (List.mem_reverse.1 hc)), List.reverse_reverse, String.ofList_toList]

/-! ### Python indexing -/

theorem pyIdx_nat {n k : ℕ} (h : k < n) : pyIdx n (k : ℤ) = some k := by
  unfold pyIdx
  rw [if_pos (by omega), if_pos (by exact_mod_cast h)]
  simp

theorem pyIdx_eq_some {n k : ℕ} {i : ℤ} (h : pyIdx n i = some k) : k < n ∧ (i = k ∨ i + n = k) := by
  unfold pyIdx at h
  split at h
  · split at h
    · simp only [Option.some.injEq] at h; omega
    · simp at h
  · split at h
    · simp only [Option.some.injEq] at h; omega
    · simp at h

theorem pyIdx_none {n : ℕ} {i : ℤ} : pyIdx n i = none ↔ (n : ℤ) ≤ i ∨ i + n < 0 := by
  unfold pyIdx
  split
  · split
    · simp; omega
    · simp; omega
  · split
    · simp; omega
    · simp; omega

theorem pyItem_nat {α : Type} {xs : List α} {k : ℕ} (h : k < xs.length) : pyItem xs (k : ℤ) = some xs[k] := by
  unfold pyItem
  rw [pyIdx_nat h]
  simp [h]

/-! ### Dictionaries -/

theorem dictGet_append_self {α : Type} {d : List (String × α)} {k : String} {v : α} (h : ∀ p ∈ d, p.1 ≠ k) :
    dictGet (d ++ [(k, v)]) k = some v := by
  unfold dictGet
  rw [List.find?_append, List.find?_eq_none.2 (by simpa using h)]
  simp

theorem dictGet_set_self {α : Type} (d : List (String × α)) (k : String) (v : α) : dictGet (dictSet d k v) k = some v := by
  unfold dictSet
  by_cases h : d.any (fun p => p.1 = k) = true
  · rw [if_pos h]
    induction d with
    | nil => simp at h
    | cons p d ih =>
      unfold dictGet
      by_cases hp : p.1 = k
      · simp [hp]
      · have h2 : d.any (fun p => p.1 = k) = true := by simpa [hp] using h
        have := ih h2
        unfold dictGet at this
        simpa [hp] using this
  · rw [if_neg h]
    refine dictGet_append_self fun p hp hk => h ?_
    exact List.any_eq_true.2 ⟨p, hp, by simpa using hk⟩

theorem dictGet_set_ne {α : Type} (d : List (String × α)) {k j : String} (v : α) (hj : j ≠ k) :
    dictGet (dictSet d k v) j = dictGet d j := by
  unfold dictSet
  by_cases h : d.any (fun p => p.1 = k) = true
  · rw [if_pos h]
    clear h
    induction d with
    | nil => rfl
    | cons p d ih =>
      unfold dictGet at ih ⊢
      by_cases hp : p.1 = k
      · have h1 : ¬ k = j := fun e => hj e.symm
        simpa [hp, h1] using ih
      · by_cases hpj : p.1 = j
        · simp [hpj, hj]
        · simpa [hp, hpj] using ih
  · rw [if_neg h]
    unfold dictGet
    rw [List.find?_append]
    cases d.find? (fun p => p.1 = j) with
    | some x => simp
    | none => simp [Ne.symm hj]

theorem foldl_dictSet_get {α : Type} (f : String → α) : ∀ (ks : List String) (d : List (String × α)) (k : String),
    dictGet (ks.foldl (fun d k => dictSet d k (f k)) d) k = if k ∈ ks then some (f k) else dictGet d k := by
  intro ks
  induction ks with
  | nil => intro d k; simp
  | cons a ks ih =>
    intro d k
    rw [List.foldl_cons, ih]
    by_cases hk : k ∈ ks
    · simp [hk]
    · rw [if_neg hk]
      by_cases ha : k = a
      · subst ha; rw [dictGet_set_self]; simp
      · rw [dictGet_set_ne _ _ ha]; simp [hk, ha]

/-! ### A codec satisfying the laws -/

/-- A word coding the integer `n`, made of the character `c`. -/
def unary (c : Char) (n : ℤ) : String := String.ofList (List.replicate (Encodable.encode n + 1) c)

theorem unary_inj {c : Char} {m n : ℤ} (h : unary c m = unary c n) : m = n := by
  have := congrArg (fun s : String => s.toList.length) h
  simp only [unary, String.toList_ofList, List.length_replicate] at this
  exact Encodable.encode_injective (by omega)

theorem unary_ne {m n : ℤ} : unary 'a' m ≠ unary 'b' n := by
  intro h
  have := congrArg (fun s : String => s.toList.head?) h
  simp [unary, List.replicate_succ] at this

theorem unary_word {c : Char} (hc : isSpace c = false) (n : ℤ) : IsWord (unary c n) := by
  refine ⟨by simp [unary], fun x hx => ?_⟩
  simp only [unary, String.toList_ofList, List.mem_replicate] at hx
  rw [hx.2]; exact hc

/-- The number printed with six decimals. -/
noncomputable def micro (x : ℝ) : ℤ := round (x * 1000000)

/-- A codec with unary numerals. -/
noncomputable def unaryCodec : Codec where
  int s := open Classical in if h : ∃ n, s = unary 'a' n then some h.choose else none
  float s := open Classical in if h : ∃ n, s = unary 'a' n then some h.choose else
    if h : ∃ n, s = unary 'b' n then some ((h.choose : ℝ) / 1000000) else none
  fmtD n := unary 'a' n
  fmtF x := unary 'b' (micro x)
  str x := unary 'b' (micro x)
  double := {x | ∃ n : ℤ, x = n / 1000000}

theorem unary_float_b (n : ℤ) : unaryCodec.float (unary 'b' n) = some ((n : ℝ) / 1000000) := by
  have h1 : ¬ ∃ m, unary 'b' n = unary 'a' m := fun ⟨m, hm⟩ => unary_ne hm.symm
  have h2 : ∃ m, unary 'b' n = unary 'b' m := ⟨n, rfl⟩
  simp only [unaryCodec]
  rw [dif_neg h1, dif_pos h2, ← unary_inj h2.choose_spec]

theorem unary_int (n : ℤ) : unaryCodec.int (unary 'a' n) = some n := by
  have h2 : ∃ m, unary 'a' n = unary 'a' m := ⟨n, rfl⟩
  simp only [unaryCodec]
  rw [dif_pos h2, ← unary_inj h2.choose_spec]

theorem unary_float_a (n : ℤ) : unaryCodec.float (unary 'a' n) = some (n : ℝ) := by
  have h2 : ∃ m, unary 'a' n = unary 'a' m := ⟨n, rfl⟩
  simp only [unaryCodec]
  rw [dif_pos h2, ← unary_inj h2.choose_spec]

/-- The laws assumed of the conversions can be met. -/
theorem unary_lawful : unaryCodec.Lawful where
  int_fmtD n := unary_int n
  float_fmtD n _ := unary_float_a n
  float_fmtF x := by
    refine ⟨_, unary_float_b _, ?_⟩
    have h := abs_sub_round (x * 1000000)
    have e : (micro x : ℝ) / 1000000 - x = -((x * 1000000 - (round (x * 1000000) : ℤ)) / 1000000) := by
      unfold micro; field_simp; ring
    rw [e, abs_neg, abs_div, abs_of_pos (by norm_num : (0 : ℝ) < 1000000)]
    rw [div_le_div_iff_of_pos_right (by norm_num)]
    linarith
  float_fmtF_zero := by
    have h : micro 0 = 0 := by simp [micro]
    change unaryCodec.float (unary 'b' (micro 0)) = _
    rw [h, unary_float_b]; simp
  float_str x hx := by
    obtain ⟨n, rfl⟩ := hx
    have h : micro ((n : ℝ) / 1000000) = n := by
      unfold micro
      rw [div_mul_cancel₀ _ (by norm_num)]
      exact round_intCast n
    change unaryCodec.float (unary 'b' (micro _)) = _
    rw [h, unary_float_b]
  word_fmtD n := unary_word (by decide) n
  word_fmtF x := unary_word (by decide) _
  word_str x := unary_word (by decide) _

end Pyscal
