import Verif.Spec.PySource
import Verif.Spec.DeltaTTable
import Verif.Model.DeltaTText
import Mathlib.Tactic.NormNum
import Mathlib.Tactic.Linarith
import Mathlib.Tactic.Ring
import Mathlib.Tactic.FieldSimp
import Mathlib.Algebra.Order.Floor.Ring
import Mathlib.Data.Rat.Floor
import Mathlib.Data.List.Induction

/-!
# Reading the source printed by util/get_delta_t
-/

namespace Verif

open Pysolar.DeltaTGen Verif.Spec.PySource

/-! ## Characters -/

theorem digitChar_digit : ∀ n < 10, (Nat.digitChar n).isDigit = true ∧ (Nat.digitChar n).toNat - 48 = n := by
  decide

theorem digit_word {c : Char} (h : c.isDigit = true) : isWord c = true := by
  unfold isWord Char.isAlphanum
  rw [h]
  simp

theorem showNat_digits (n : ℕ) : ∀ c ∈ showNat n, c.isDigit = true := by
  induction n using Nat.strong_induction_on with
  | _ n ih =>
    rw [showNat]
    split_ifs with h
    · intro c hc
      rw [List.mem_singleton.mp hc]
      exact (digitChar_digit n h).1
    · intro c hc
      rcases List.mem_append.mp hc with hc | hc
      · exact ih (n / 10) (by omega) c hc
      · rw [List.mem_singleton.mp hc]
        exact (digitChar_digit (n % 10) (by omega)).1

theorem showNat_ne (n : ℕ) : showNat n ≠ [] := by
  rw [showNat]
  split_ifs <;> simp

theorem ofDigits_append (a b : List Char) : ofDigits (a ++ b) = ofDigits a * 10 ^ b.length + ofDigits b := by
  unfold ofDigits
  rw [List.foldl_append]
  generalize a.foldl (fun n c => 10 * n + (c.toNat - 48)) 0 = k
  induction b using List.reverseRecOn with
  | nil => simp
  | append_singleton b c ih =>
    rw [List.foldl_append, List.foldl_append, ih]
    simp only [List.foldl_cons, List.foldl_nil, List.length_append, List.length_singleton, pow_succ]
    ring

theorem ofDigits_showNat (n : ℕ) : ofDigits (showNat n) = n := by
  induction n using Nat.strong_induction_on with
  | _ n ih =>
    rw [showNat]
    split_ifs with h
    · show 10 * 0 + ((Nat.digitChar n).toNat - 48) = n
      rw [(digitChar_digit n h).2]
      omega
    · rw [ofDigits_append, ih (n / 10) (by omega)]
      show n / 10 * 10 ^ 1 + (10 * 0 + ((Nat.digitChar (n % 10)).toNat - 48)) = n
      rw [(digitChar_digit (n % 10) (by omega)).2]
      omega

theorem digitChar_zero : ∀ n < 10, Nat.digitChar n = '0' → n = 0 := by decide

theorem showNat_head (n : ℕ) (h : n ≠ 0) : (showNat n).head? ≠ some '0' := by
  induction n using Nat.strong_induction_on with
  | _ n ih =>
    rw [showNat]
    split_ifs with h'
    · intro hc
      exact h (digitChar_zero n h' (by simpa using hc))
    · rw [List.head?_append_of_ne_nil _ (showNat_ne _)]
      exact ih (n / 10) (by omega) (by omega)

theorem show4_digits (n : ℕ) : ∀ c ∈ show4 n, c.isDigit = true := by
  intro c hc
  simp only [show4, List.mem_cons, List.not_mem_nil, or_false] at hc
  rcases hc with rfl | rfl | rfl | rfl <;> exact (digitChar_digit _ (by omega)).1

theorem ofDigits_show4 {n : ℕ} (h : n < 10000) : ofDigits (show4 n) = n := by
  unfold ofDigits show4
  simp only [List.foldl_cons, List.foldl_nil]
  rw [(digitChar_digit (n / 1000 % 10) (by omega)).2, (digitChar_digit (n / 100 % 10) (by omega)).2,
    (digitChar_digit (n / 10 % 10) (by omega)).2, (digitChar_digit (n % 10) (by omega)).2]
  omega

/-! ## Literals -/

theorem takeWhile_digits {w : List Char} (h : ∀ c ∈ w, c.isDigit = true) (r : List Char) :
    (w ++ '.' :: r).takeWhile Char.isDigit = w ∧ (w ++ '.' :: r).dropWhile Char.isDigit = '.' :: r := by
  induction w with
  | nil => exact ⟨rfl, rfl⟩
  | cons c w ih =>
    have hc := h c (by simp)
    obtain ⟨h1, h2⟩ := ih fun c hc => h c (by simp [hc])
    constructor
    · rw [List.cons_append, List.takeWhile_cons, if_pos hc, h1]
    · rw [List.cons_append, List.dropWhile_cons, if_pos hc, h2]

theorem literal_int (dbl : ℚ → ℚ) (neg : Bool) (n : ℕ) :
    literal dbl neg (showNat n) = some (.int (if neg then -n else n)) := by
  unfold literal
  rw [if_pos ⟨showNat_ne n, List.all_eq_true.mpr (showNat_digits n)⟩, if_neg ?_, ofDigits_showNat]
  rintro ⟨h1, h2⟩
  by_cases hn : n = 0
  · subst hn
    exact h2 (by rw [showNat]; decide)
  · exact showNat_head n hn h1

theorem literal_fix (dbl : ℚ → ℚ) (neg : Bool) (a : ℕ) {b : ℕ} (hb : b < 10000) :
    literal dbl neg (showNat a ++ '.' :: show4 b)
      = some (.float (if neg then -dbl (((a * 10000 + b : ℕ) : ℚ) / 10000) else dbl (((a * 10000 + b : ℕ) : ℚ) / 10000))) := by
  unfold literal
  rw [if_neg ?_]
  · obtain ⟨h1, h2⟩ := takeWhile_digits (showNat_digits a) (show4 b)
    rw [h2]
    show (if (show4 b).all Char.isDigit = true
        ∧ ((showNat a ++ '.' :: show4 b).takeWhile Char.isDigit ≠ [] ∨ show4 b ≠ []) then
      some (Val.float (if neg = true
        then -dbl (ofDigits ((showNat a ++ '.' :: show4 b).takeWhile Char.isDigit ++ show4 b) / 10 ^ (show4 b).length)
        else dbl (ofDigits ((showNat a ++ '.' :: show4 b).takeWhile Char.isDigit ++ show4 b) / 10 ^ (show4 b).length)))
      else none) = _
    rw [h1, if_pos ⟨List.all_eq_true.mpr (show4_digits b), .inl (showNat_ne a)⟩, ofDigits_append, ofDigits_showNat,
      ofDigits_show4 hb]
    have hl : (show4 b).length = 4 := rfl
    rw [hl]
    norm_num
  · rintro ⟨-, h⟩
    have := List.all_eq_true.mp h '.' (by simp)
    exact absurd this (by decide)

/-! ## Tokens -/

/-- The tokens complete within a text. -/
def emits : Mode → List Char → List Tok
  | _, [] => []
  | m, c :: cs => emit m c ++ emits (next m c) cs

/-- Where the reader is after a text. -/
def run : Mode → List Char → Mode
  | m, [] => m
  | m, c :: cs => run (next m c) cs

theorem lex_append (m : Mode) (s t : List Char) : lex m (s ++ t) = emits m s ++ lex (run m s) t := by
  induction s generalizing m with
  | nil => rfl
  | cons c s ih =>
    have : lex m (c :: (s ++ t)) = emit m c ++ lex (next m c) (s ++ t) := by
      cases m <;> rfl
    rw [List.cons_append, this, ih, emits, run, List.append_assoc]

theorem run_word {w : List Char} (h : ∀ c ∈ w, isWord c = true) (acc : List Char) :
    run (.word acc) w = .word (acc ++ w) ∧ emits (.word acc) w = [] := by
  induction w generalizing acc with
  | nil => exact ⟨by simp [run], rfl⟩
  | cons c w ih =>
    have hc := h c (by simp)
    obtain ⟨h1, h2⟩ := ih (fun c hc => h c (by simp [hc])) (acc ++ [c])
    constructor
    · rw [run, next, if_pos hc, h1, List.append_assoc]
      rfl
    · rw [emits, emit, next, if_pos hc, if_pos hc, h2]
      rfl

/-- A word within a line. -/
theorem lex_word {w : List Char} (hne : w ≠ []) (h : ∀ c ∈ w, isWord c = true) (c : Char) (hc : isWord c = false)
    (t : List Char) : lex .normal (w ++ c :: t) = .word w :: (punct c ++ lex (after c) t) := by
  cases w with
  | nil => exact absurd rfl hne
  | cons a w =>
    obtain ⟨h1, h2⟩ := run_word (w := w) (fun c hc => h c (by simp [hc])) [a]
    have ha := h a (by simp)
    rw [List.cons_append]
    show emit .normal a ++ lex (next .normal a) (w ++ c :: t) = _
    have e1 : emit .normal a = [] := by rw [emit, if_pos ha]
    have e2 : next .normal a = .word [a] := by
      show (if isWord a then Mode.word [a] else after a) = _
      rw [if_pos ha]
    rw [e1, e2, lex_append, h1, h2]
    show [] ++ ([] ++ (emit (.word ([a] ++ w)) c ++ lex (next (.word ([a] ++ w)) c) t)) = _
    have e3 : emit (.word ([a] ++ w)) c = .word (a :: w) :: punct c := by
      rw [emit, if_neg (by rw [hc]; simp)]
      rfl
    have e4 : next (.word ([a] ++ w)) c = after c := by
      rw [next, if_neg (by rw [hc]; simp)]
    rw [e3, e4]
    rfl

/-- Text within a comment. -/
theorem lex_comment {w : List Char} (h : '\n' ∉ w) (t : List Char) :
    lex .comment (w ++ '\n' :: t) = .nl :: lex .bol t := by
  induction w with
  | nil => rfl
  | cons c w ih =>
    have hc : c ≠ '\n' := fun he => h (by simp [he])
    rw [List.cons_append]
    show emit .comment c ++ lex (next .comment c) (w ++ '\n' :: t) = _
    have e1 : emit .comment c = [] := by rw [emit, if_neg hc]
    have e2 : next .comment c = .comment := by rw [next, if_neg hc]
    rw [e1, e2, ih fun hm => h (by simp [hm])]
    rfl

theorem digits_word {w : List Char} (h : ∀ c ∈ w, c.isDigit = true) : ∀ c ∈ w, isWord c = true :=
  fun c hc => digit_word (h c hc)

theorem digits_no_nl {w : List Char} (h : ∀ c ∈ w, c.isDigit = true) : '\n' ∉ w := fun hc => by
  have := h _ hc
  exact absurd this (by decide)

/-- The tokens of a printed integer. -/
def intToks (n : ℤ) : List Tok := if n < 0 then [.minus, .word (showNat n.natAbs)] else [.word (showNat n.natAbs)]

theorem lex_int (n : ℤ) (t : List Char) : lex .normal (showInt n ++ '\n' :: t) = intToks n ++ .nl :: lex .bol t := by
  have hw := lex_word (showNat_ne n.natAbs) (digits_word (showNat_digits n.natAbs)) '\n' (by decide) t
  unfold showInt intToks
  split_ifs with h
  · show emit .normal '-' ++ lex (next .normal '-') (showNat n.natAbs ++ '\n' :: t) = _
    have e2 : next .normal '-' = .normal := by decide
    have e1 : emit .normal '-' = [.minus] := by decide
    rw [e1, e2, hw]
    rfl
  · rw [hw]
    rfl

theorem showInt_no_nl (n : ℤ) : '\n' ∉ showInt n := by
  have := digits_no_nl (showNat_digits n.natAbs)
  unfold showInt
  split_ifs
  · simp only [List.mem_cons, not_or]
    exact ⟨by decide, this⟩
  · exact this

/-- The tokens of a printed decimal fraction with `k` ten-thousandths. -/
def fixToks (k : ℤ) : List Tok :=
  (if k < 0 then [.minus] else []) ++ [.word (showNat (k.natAbs / 10000) ++ '.' :: show4 (k.natAbs % 10000))]

theorem showFix_eq (k : ℤ) : showFix ((k : ℚ) / 10000)
    = (if k < 0 then ['-'] else []) ++ (showNat (k.natAbs / 10000) ++ '.' :: show4 (k.natAbs % 10000)) := by
  unfold showFix
  have h1 : (k : ℚ) / 10000 * 10000 = k := by field_simp
  have h2 : Rat.floor (k : ℚ) = k := Rat.floor_intCast k
  rw [h1, h2]
  dsimp only
  rw [List.append_assoc]

theorem lex_fix (k : ℤ) (t : List Char) :
    lex .normal (showFix ((k : ℚ) / 10000) ++ ',' :: t) = fixToks k ++ .comma :: lex .normal t := by
  have hall : ∀ c ∈ showNat (k.natAbs / 10000) ++ '.' :: show4 (k.natAbs % 10000), isWord c = true := by
    intro c hc
    rcases List.mem_append.mp hc with hc | hc
    · exact digits_word (showNat_digits _) c hc
    · rcases List.mem_cons.mp hc with rfl | hc
      · decide
      · exact digits_word (show4_digits _) c hc
  have hw := lex_word (by simp) hall ',' (by decide) t
  rw [showFix_eq]
  unfold fixToks
  split_ifs with h
  · show emit .normal '-' ++ lex (next .normal '-') ((showNat _ ++ '.' :: show4 _) ++ ',' :: t) = _
    have e2 : next .normal '-' = .normal := by decide
    have e1 : emit .normal '-' = [.minus] := by decide
    rw [e1, e2, hw]
    rfl
  · rw [List.nil_append, hw]
    rfl

/-! ## Pieces of output -/

theorem lex_baseYear (y : ℤ) (t : List Char) : lex .bol (render (.baseYear y) ++ t)
    = [.nl, .word "delta_t_base_year".toList, .eq] ++ intToks y ++ .nl :: lex .bol t := by
  unfold render
  rw [List.append_assoc, List.append_assoc, lex_append, List.append_assoc]
  have e1 : emits .bol "# table generated by util/get_delta_t script\ndelta_t_base_year = ".toList
    = [.nl, .word "delta_t_base_year".toList, .eq] := by decide +kernel
  have e2 : run .bol "# table generated by util/get_delta_t script\ndelta_t_base_year = ".toList = .normal := by
    decide +kernel
  rw [e1, e2, List.singleton_append, lex_int]

theorem lex_baseMonth (y : ℤ) (t : List Char) : lex .bol (render (.baseMonth y) ++ t)
    = [.word "delta_t_base_month".toList, .eq] ++ intToks y ++ .nl :: lex .bol t := by
  unfold render
  rw [List.append_assoc, List.append_assoc, lex_append, List.append_assoc]
  have e1 : emits .bol "delta_t_base_month = ".toList = [.word "delta_t_base_month".toList, .eq] := by decide +kernel
  have e2 : run .bol "delta_t_base_month = ".toList = .normal := by decide +kernel
  rw [e1, e2, List.singleton_append, lex_int]

theorem lex_openTable (t : List Char) : lex .bol (render .openTable ++ t)
    = [.word "delta_t".toList, .eq, .lb, .nl] ++ lex .bol t := by
  unfold render
  rw [lex_append]
  have e1 : emits .bol "delta_t = \\\n  [\n".toList = [.word "delta_t".toList, .eq, .lb, .nl] := by decide +kernel
  have e2 : run .bol "delta_t = \\\n  [\n".toList = .bol := by decide +kernel
  rw [e1, e2]

theorem lex_openRow (y : ℤ) (t : List Char) : lex .bol (render (.openRow y) ++ t)
    = [.indent, .lb, .nl] ++ lex .bol t := by
  unfold render
  rw [List.append_assoc, List.append_assoc, lex_append]
  have e1 : emits .bol "        [ # ".toList = [.indent, .lb] := by decide +kernel
  have e2 : run .bol "        [ # ".toList = .comment := by decide +kernel
  rw [e1, e2, List.singleton_append, lex_comment (showInt_no_nl y)]
  rfl

theorem lex_value (k m : ℤ) (t : List Char) : lex .bol (render (.value ((k : ℚ) / 10000) m) ++ t)
    = [.indent] ++ fixToks k ++ [.comma, .nl] ++ lex .bol t := by
  unfold render
  simp only [List.append_assoc]
  rw [lex_append]
  have e1 : emits .bol "            ".toList = [.indent] := by decide +kernel
  have e2 : run .bol "            ".toList = .normal := by decide +kernel
  have e3 : ∀ r, ", # ".toList ++ r = ',' :: (" # ".toList ++ r) := fun _ => rfl
  have e4 : emits .normal " # ".toList = [] := by decide +kernel
  have e5 : run .normal " # ".toList = .comment := by decide +kernel
  rw [e1, e2, e3, lex_fix, lex_append, e4, e5, List.singleton_append (l := t), lex_comment (showInt_no_nl m)]
  simp

theorem lex_closeRow (t : List Char) : lex .bol (render .closeRow ++ t) = [.indent, .rb, .comma, .nl] ++ lex .bol t := by
  unfold render
  rw [lex_append]
  have e1 : emits .bol "        ],\n".toList = [.indent, .rb, .comma, .nl] := by decide +kernel
  have e2 : run .bol "        ],\n".toList = .bol := by decide +kernel
  rw [e1, e2]

theorem lex_closeTable (t : List Char) : lex .bol (render .closeTable ++ t) = [.indent, .rb, .nl] ++ lex .bol t := by
  unfold render
  rw [lex_append]
  have e1 : emits .bol "    ] # delta_t\n".toList = [.indent, .rb, .nl] := by decide +kernel
  have e2 : run .bol "    ] # delta_t\n".toList = .bol := by decide +kernel
  rw [e1, e2]

/-! ## Statements -/

section

variable (dbl : ℚ → ℚ) (env : List (List Char × Val)) (n : List Char)

theorem step_int (y : ℤ) (t : List Tok) : (intToks y ++ .nl :: t).foldl (step dbl) (env, .value n [] false)
    = t.foldl (step dbl) (env ++ [(n, .int y)], .start) := by
  unfold intToks
  split_ifs with h
  · have e : step dbl (env, .value n [] true) (.word (showNat y.natAbs)) = (env, .done n (.int y)) := by
      show (env, match literal dbl true (showNat y.natAbs) with | some v => push n v [] | none => .fail) = _
      rw [literal_int]
      have : -(y.natAbs : ℤ) = y := by omega
      show (env, push n (.int (-(y.natAbs : ℤ))) []) = _
      rw [this]
      rfl
    show (Tok.nl :: t).foldl (step dbl) (step dbl (env, .value n [] true) (.word (showNat y.natAbs))) = _
    rw [e]
    rfl
  · have e : step dbl (env, .value n [] false) (.word (showNat y.natAbs)) = (env, .done n (.int y)) := by
      show (env, match literal dbl false (showNat y.natAbs) with | some v => push n v [] | none => .fail) = _
      rw [literal_int]
      have : (y.natAbs : ℤ) = y := by omega
      show (env, push n (.int (y.natAbs : ℤ)) []) = _
      rw [this]
      rfl
    show (Tok.nl :: t).foldl (step dbl) (step dbl (env, .value n [] false) (.word (showNat y.natAbs))) = _
    rw [e]
    rfl

/-- `dbl` of a negative number. -/
def Odd (dbl : ℚ → ℚ) : Prop := ∀ x, dbl (-x) = -dbl x

theorem step_fix (hodd : Odd dbl) (k : ℤ) (row : List Val) (os : List (List Val)) (t : List Tok) :
    (fixToks k ++ t).foldl (step dbl) (env, .value n (row :: os) false)
    = t.foldl (step dbl) (env, .between n ((row ++ [.float (dbl ((k : ℚ) / 10000))]) :: os)) := by
  have hmod : k.natAbs % 10000 < 10000 := Nat.mod_lt _ (by norm_num)
  have hsum : k.natAbs / 10000 * 10000 + k.natAbs % 10000 = k.natAbs := by omega
  unfold fixToks
  split_ifs with h
  · have e : step dbl (env, .value n (row :: os) true) (.word (showNat (k.natAbs / 10000) ++ '.' :: show4 (k.natAbs % 10000)))
        = (env, .between n ((row ++ [.float (dbl ((k : ℚ) / 10000))]) :: os)) := by
      show (env, match literal dbl true _ with | some v => push n v (row :: os) | none => .fail) = _
      rw [literal_fix dbl true _ hmod, hsum]
      have : ((k.natAbs : ℕ) : ℚ) / 10000 = -((k : ℚ) / 10000) := by
        have h3 : ((k.natAbs : ℕ) : ℚ) = -(k : ℚ) := by
          rw [Nat.cast_natAbs, abs_of_neg h]
          push_cast
          rfl
        rw [h3]
        ring
      rw [this, hodd]
      simp [push]
    show t.foldl (step dbl) (step dbl (env, .value n (row :: os) true) _) = _
    rw [e]
  · have e : step dbl (env, .value n (row :: os) false) (.word (showNat (k.natAbs / 10000) ++ '.' :: show4 (k.natAbs % 10000)))
        = (env, .between n ((row ++ [.float (dbl ((k : ℚ) / 10000))]) :: os)) := by
      show (env, match literal dbl false _ with | some v => push n v (row :: os) | none => .fail) = _
      rw [literal_fix dbl false _ hmod, hsum]
      have : ((k.natAbs : ℕ) : ℚ) / 10000 = ((k : ℚ) / 10000) := by
        rw [Nat.cast_natAbs, abs_of_nonneg (not_lt.mp h)]
      rw [this]
      simp [push]
    show t.foldl (step dbl) (step dbl (env, .value n (row :: os) false) _) = _
    rw [e]

/-- All values are multiples of 0.0001. -/
def FixValues (toks : List Token) : Prop := ∀ v m, Token.value v m ∈ toks → ∃ k : ℤ, v = (k : ℚ) / 10000

/-- A number of the table as Python reads it. -/
def cell (v : ℚ) : Val := .float (dbl v)

theorem rows_run (hodd : Odd dbl) (toks : List Token) : ∀ (cur : List ℚ) (tv : List Val) (table : List (List ℚ)) (rest : List Char),
    FixValues toks → Verif.Spec.readRows cur toks = some table →
    (lex .bol (toks.flatMap render ++ rest)).foldl (step dbl) (env, .value n [cur.map (cell dbl), tv] false)
    = (lex .bol rest).foldl (step dbl)
        (env ++ [(n, .list (tv ++ table.map fun row => .list (row.map (cell dbl))))], .start) := by
  intro cur tv table rest hfix h
  induction cur, toks using Verif.Spec.readRows.induct generalizing tv table with
  | case1 cur v m ts ih =>
    obtain ⟨k, rfl⟩ := hfix v m (by simp)
    rw [Verif.Spec.readRows] at h
    have := ih (tv := tv) (table := table) (fun v m hm => hfix v m (by simp [hm])) h
    rw [List.flatMap_cons, List.append_assoc, lex_value, List.append_assoc, List.append_assoc]
    show (fixToks k ++ _).foldl (step dbl) (env, .value n [cur.map (cell dbl), tv] false) = _
    rw [step_fix dbl env n hodd]
    rw [List.map_append] at this
    exact this
  | case2 cur y ts ih =>
    rw [Verif.Spec.readRows] at h
    cases hr : Verif.Spec.readRows [] ts with
    | none => rw [hr] at h; cases h
    | some tab =>
      rw [hr] at h
      obtain rfl : cur :: tab = table := by simpa using h
      have := ih (tv := tv ++ [.list (cur.map (cell dbl))]) (table := tab) (fun v m hm => hfix v m (by simp [hm])) hr
      rw [List.flatMap_cons, List.flatMap_cons, List.append_assoc, List.append_assoc, lex_closeRow, lex_openRow]
      rw [List.append_assoc] at this
      exact this
  | case3 cur =>
    rw [Verif.Spec.readRows] at h
    obtain rfl : [cur] = table := by simpa using h
    show (lex .bol ((render .closeRow ++ (render .closeTable ++ [])) ++ rest)).foldl _ _ = _
    rw [List.append_nil, List.append_assoc, lex_closeRow, lex_closeTable]
    rfl
  | case4 cur toks h1 h2 h3 =>
    rw [Verif.Spec.readRows] at h
    · cases h
    all_goals assumption

omit n in
theorem step_name {w : List Char} (h : (w.head?.map Char.isDigit) = some false ∧ '.' ∉ w) :
    step dbl (env, .start) (.word w) = (env, .named w) := by
  show (env, if (w.head?.map Char.isDigit) = some false ∧ '.' ∉ w then State.named w else .fail) = _
  rw [if_pos h]

omit env n in
theorem source_run (hodd : Odd dbl) (toks : List Token) {y m : ℤ} {table : List (List ℚ)} (hfix : FixValues toks)
    (h : Verif.Spec.readSource toks = some (y, m, table)) :
    exec dbl (toks.flatMap render) = some [("delta_t_base_year".toList, .int y), ("delta_t_base_month".toList, .int m),
      ("delta_t".toList, .list (table.map fun row => .list (row.map (cell dbl))))] := by
  unfold Verif.Spec.readSource at h
  split at h
  · rename_i y' m' yr ts
    cases hr : Verif.Spec.readRows [] ts with
    | none => rw [hr] at h; cases h
    | some tab =>
      rw [hr] at h
      simp only [Option.map_some, Option.some.injEq, Prod.mk.injEq] at h
      obtain ⟨rfl, rfl, rfl⟩ := h
      have hrun := rows_run dbl [("delta_t_base_year".toList, .int y'), ("delta_t_base_month".toList, .int m')]
        "delta_t".toList hodd ts [] [] tab ['\n'] (fun v m hm => hfix v m (by simp [hm])) hr
      unfold exec
      simp only [List.flatMap_cons, List.append_assoc]
      rw [lex_baseYear, lex_baseMonth, lex_openTable, lex_openRow, List.append_assoc, List.append_assoc]
      rw [List.foldl_append]
      have e1 : [Tok.nl, .word "delta_t_base_year".toList, .eq].foldl (step dbl) ([], .start)
          = ([], .value "delta_t_base_year".toList [] false) := by
        show step dbl (step dbl ([], .start) (.word "delta_t_base_year".toList)) .eq = _
        rw [step_name dbl [] (by decide +kernel)]
        rfl
      have e2 : [Tok.word "delta_t_base_month".toList, .eq].foldl (step dbl) ([("delta_t_base_year".toList, .int y')], .start)
          = ([("delta_t_base_year".toList, .int y')], .value "delta_t_base_month".toList [] false) := by
        show step dbl (step dbl (_, .start) (.word "delta_t_base_month".toList)) .eq = _
        rw [step_name dbl _ (by decide +kernel)]
        rfl
      have e3 : ∀ env, ([Tok.word "delta_t".toList, .eq, .lb, .nl] ++ [Tok.indent, .lb, .nl]).foldl (step dbl) (env, .start)
          = (env, .value "delta_t".toList [[], []] false) := fun env => by
        show ([Tok.eq, .lb, .nl] ++ [Tok.indent, .lb, .nl]).foldl (step dbl) (step dbl (env, .start) (.word "delta_t".toList)) = _
        rw [step_name dbl _ (by decide +kernel)]
        rfl
      rw [e1, step_int, List.nil_append, List.foldl_append, e2, step_int, ← List.append_assoc, List.foldl_append, e3]
      show (match (lex .bol (ts.flatMap render ++ ['\n'])).foldl (step dbl) _ with | (env, .start) => some env | _ => none) = _
      have hrun' := hrun
      rw [List.map_nil] at hrun'
      rw [show [("delta_t_base_year".toList, Val.int y')] ++ [("delta_t_base_month".toList, Val.int m')]
        = [("delta_t_base_year".toList, Val.int y'), ("delta_t_base_month".toList, Val.int m')] from rfl, hrun']
      rfl
  · cases h

end

end Verif
