import Verif.Spec.DeltaTTable
import Verif.Model.Solartime
import Mathlib.Algebra.Order.Floor.Ring
import Mathlib.Tactic.NormNum
import Mathlib.Tactic.Linarith
import Mathlib.Tactic.FieldSimp
import Mathlib.Tactic.Ring
import Mathlib.Tactic.IntervalCases

/-!
# C64: the delta-T table generator and the lookup are inverse
-/

namespace Verif.Props

open Verif.Spec Pysolar Pysolar.DeltaTGen Pysolar.Solartime

theorem getElem?_of_prefix {α : Type} {xs ys : List α} (h : xs <+: ys) {n : ℕ} {x : α} (hx : xs[n]? = some x) :
    ys[n]? = some x := by
  obtain ⟨zs, rfl⟩ := h
  have hn : n < xs.length := by
    by_contra hc
    rw [List.getElem?_eq_none (by omega)] at hx
    cases hx
  rw [List.getElem?_append_left hn, hx]

theorem genLoop_spec (data : List Entry) : ∀ (ly : ℤ) (m : ℕ) (cur : List ℚ), 1 ≤ m → m ≤ 12 →
    (∀ (n : ℕ) (e : Entry), data[n]? = some e →
      e.day = 1 ∧ 1 ≤ e.month ∧ e.month ≤ 12 ∧ e.year * 12 + e.month = ly * 12 + m + 1 + n) →
    ∃ toks table, genLoop (some ly) (some (m : ℤ)) data = .ok toks ∧ readRows cur toks = some table ∧
      table.length = (m + data.length - 1) / 12 + 1 ∧ (∃ row0, table[0]? = some row0 ∧ cur <+: row0) ∧
      ∀ (n : ℕ) (e : Entry), data[n]? = some e → ∃ row, table[(m + n) / 12]? = some row ∧
        row[if m + n < 12 then cur.length + n else (m + n) % 12]? = some (fmt4 e.dt) := by
  induction data with
  | nil =>
    intro ly m cur h1 h2 _
    refine ⟨[.closeRow, .closeTable], [cur], rfl, rfl, ?_, ⟨cur, rfl, List.prefix_rfl⟩, by simp⟩
    simp only [List.length_singleton, List.length_nil, add_zero]
    omega
  | cons e rest ih =>
    intro ly m cur h1 h2 hd
    obtain ⟨hday, hm1, hm2, hidx⟩ := hd 0 e rfl
    rcases Nat.lt_or_eq_of_le h2 with h2 | rfl
    · have hy : e.year = ly := by omega
      have hm : e.month = m + 1 := by omega
      obtain ⟨toks, table, hg, hr, hl, ⟨row0, hrow0, hpre⟩, hent⟩ := ih ly (m + 1) (cur ++ [fmt4 e.dt]) (by omega)
        (by omega) (fun n e' he' => by
          have := hd (n + 1) e' (by simpa using he')
          push_cast at this ⊢
          refine ⟨this.1, this.2.1, this.2.2.1, ?_⟩
          omega)
      refine ⟨.value (fmt4 e.dt) e.month :: toks, table, ?_, ?_, ?_, ⟨row0, hrow0, ?_⟩, ?_⟩
      · rw [genLoop, if_neg (by simp [hday]), if_neg (by simp [hy])]
        simp only [hm, ne_eq, not_true_eq_false, if_false, hy]
        push_cast at hg
        rw [hg]
        rfl
      · rw [readRows, hr]
      · rw [hl]; simp only [List.length_cons]; omega
      · exact (List.prefix_append _ _).trans hpre
      · intro n e' he'
        cases n with
        | zero =>
          obtain rfl : e = e' := by simpa using he'
          refine ⟨row0, ?_, ?_⟩
          · rw [show (m + 0) / 12 = 0 by omega, hrow0]
          · rw [if_pos (by omega)]
            exact getElem?_of_prefix hpre (by simp)
        | succ n =>
          obtain ⟨row, hrow, hv⟩ := hent n e' (by simpa using he')
          refine ⟨row, ?_, ?_⟩
          · rw [show m + (n + 1) = m + 1 + n by omega, hrow]
          · rw [show m + (n + 1) = m + 1 + n by omega]
            rw [List.length_append, List.length_singleton] at hv
            rw [show cur.length + (n + 1) = cur.length + 1 + n by omega]
            exact hv
    · have hy : e.year = ly + 1 := by omega
      have hm : e.month = 1 := by omega
      obtain ⟨toks, table, hg, hr, hl, ⟨row0, hrow0, hpre⟩, hent⟩ := ih (ly + 1) 1 [fmt4 e.dt] (by omega)
        (by omega) (fun n e' he' => by
          have := hd (n + 1) e' (by simpa using he')
          push_cast at this ⊢
          refine ⟨this.1, this.2.1, this.2.2.1, ?_⟩
          omega)
      refine ⟨.closeRow :: .openRow e.year :: .value (fmt4 e.dt) e.month :: toks, cur :: table, ?_, ?_, ?_,
        ⟨cur, rfl, List.prefix_rfl⟩, ?_⟩
      · rw [genLoop, if_neg (by simp [hday]), if_pos (by simp [hy])]
        simp only [hy, hm, ne_eq, not_true_eq_false, if_false, zero_add]
        push_cast at hg
        rw [hg]
        rfl
      · rw [readRows, readRows, List.nil_append, hr]
        rfl
      · rw [List.length_cons, hl]; simp only [List.length_cons]; omega
      · intro n e' he'
        cases n with
        | zero =>
          obtain rfl : e = e' := by simpa using he'
          refine ⟨row0, ?_, ?_⟩
          · simpa using hrow0
          · simpa using getElem?_of_prefix hpre (n := 0) (x := fmt4 e.dt) (by simp)
        | succ n =>
          obtain ⟨row, hrow, hv⟩ := hent n e' (by simpa using he')
          refine ⟨row, ?_, ?_⟩
          · rw [show (12 + (n + 1)) / 12 = (1 + n) / 12 + 1 by omega, List.getElem?_cons_succ, hrow]
          · rw [if_neg (by omega)]
            rw [List.length_singleton] at hv
            split_ifs at hv with hlt
            · rw [show (12 + (n + 1)) % 12 = 1 + n by omega]; exact hv
            · rw [show (12 + (n + 1)) % 12 = (1 + n) % 12 by omega]; exact hv

theorem pyIndexInt_nat {α : Type} {xs : List α} {n : ℕ} {x : α} (h : xs[n]? = some x) {i : ℤ} (hi : i = n) :
    pyIndexInt xs i = .ok x := by
  subst hi
  unfold pyIndexInt pyIndex
  rw [if_pos (by omega), Int.toNat_natCast, h]

/-- The lookup, given the position of a value. -/
theorem lookup_eq {table : List (List ℚ)} {by' bm year month : ℤ} {r c : ℕ} {row : List ℚ} {v : ℚ}
    (hrow : table[r]? = some row) (hv : row[c]? = some v) (hy : year = by' + r)
    (hc : (c : ℤ) = if r = 0 then max 0 (month - bm) else month - 1) :
    deltaTLookup table by' bm year month = .ok v := by
  have hr : r < table.length := by
    by_contra h
    rw [List.getElem?_eq_none (by omega)] at hrow
    cases hrow
  have hcl : c < row.length := by
    by_contra h
    rw [List.getElem?_eq_none (by omega)] at hv
    cases hv
  have hidx : ∀ y, y = year → pyIndexInt table (y - by') = .ok row := fun y h => pyIndexInt_nat hrow (by omega)
  unfold deltaTLookup
  rw [if_neg (by omega)]
  by_cases h0 : r = 0
  · rw [if_pos h0] at hc
    rw [if_pos (by omega)]
    dsimp only
    split_ifs with hlast
    · rw [hidx _ rfl]
      show pyIndexInt row _ = _
      apply pyIndexInt_nat hv
      omega
    · rw [hidx _ rfl]
      show pyIndexInt row _ = _
      apply pyIndexInt_nat hv
      omega
  · rw [if_neg h0] at hc
    rw [if_neg (by omega), if_neg (by omega)]
    dsimp only
    split_ifs with hlast
    · rw [hidx _ rfl]
      show pyIndexInt row _ = _
      apply pyIndexInt_nat hv
      omega
    · rw [hidx _ rfl]
      show pyIndexInt row _ = _
      apply pyIndexInt_nat hv
      omega

/-- C64: the generated table, read back and indexed as `get_delta_t` does, gives for each month of the data its value,
rounded to the four decimals that are printed. -/
theorem C64_round_trip (data : List Entry) (hne : data ≠ []) (h : MonthlyData data) :
    ∃ toks base_year base_month table, generate data = .ok toks ∧
      readSource toks = some (base_year, base_month, table) ∧
      ∀ e ∈ data, deltaTLookup table base_year base_month e.year e.month = .ok (fmt4 e.dt) := by
  obtain ⟨first, hd⟩ := h
  cases data with
  | nil => exact absurd rfl hne
  | cons e0 rest =>
    obtain ⟨hday, hm1, hm2, hidx⟩ := hd 0 e0 rfl
    obtain ⟨m, hm⟩ : ∃ m : ℕ, e0.month = m := ⟨e0.month.toNat, by omega⟩
    obtain ⟨toks, table, hg, hr, hl, ⟨row0, hrow0, hpre⟩, hent⟩ := genLoop_spec rest e0.year m [fmt4 e0.dt] (by omega)
      (by omega) (fun n e' he' => by
        have := hd (n + 1) e' (by simpa using he')
        push_cast at this hidx ⊢
        refine ⟨this.1, this.2.1, this.2.2.1, ?_⟩
        omega)
    refine ⟨.baseYear e0.year :: .baseMonth e0.month :: .openTable :: .openRow e0.year
      :: .value (fmt4 e0.dt) e0.month :: toks, e0.year, e0.month, table, ?_, ?_, ?_⟩
    · rw [generate, genLoop, if_neg (by simp [hday]), if_pos (by simp)]
      rw [← hm] at hg
      rw [hg]
      rfl
    · rw [readSource, readRows, List.nil_append, hr]
      rfl
    · intro e he
      obtain ⟨n, hn⟩ := List.mem_iff_getElem?.mp he
      have hw := hd n e hn
      push_cast at hidx hw
      cases n with
      | zero =>
        obtain rfl : e0 = e := by simpa using hn
        exact lookup_eq (c := 0) hrow0 (getElem?_of_prefix hpre (by simp)) (by simp) (by simp)
      | succ n =>
        obtain ⟨row, hrow, hv⟩ := hent n e (by simpa using hn)
        push_cast at hw
        refine lookup_eq hrow hv (by omega) ?_
        rw [List.length_singleton]
        split_ifs <;> omega

/-- C64: values given with at most four decimals are returned exactly. -/
theorem C64_four_decimals (k : ℤ) : fmt4 ((k : ℚ) / 10000) = (k : ℚ) / 10000 := by
  unfold fmt4
  have : (k : ℚ) / 10000 * 10000 = k := by field_simp
  simp only [this]
  have hf : Rat.floor (k : ℚ) = k := Rat.floor_intCast k
  rw [hf, sub_self, if_pos (by norm_num)]

/-- C64: in general the value is the nearest multiple of 0.0001. -/
theorem C64_rounding (x : ℚ) : |fmt4 x - x| ≤ 0.00005 ∧ ∃ k : ℤ, fmt4 x = (k : ℚ) / 10000 := by
  have hfl : Rat.floor (x * 10000) = ⌊x * 10000⌋ := rfl
  have h1 := Int.floor_le (x * 10000)
  have h2 := Int.lt_floor_add_one (x * 10000)
  refine ⟨?_, ⟨_, rfl⟩⟩
  unfold fmt4
  simp only [hfl]
  rw [abs_le]
  split_ifs with a b c <;> push_cast at * <;> constructor <;> norm_num <;> linarith

/-- C64: an entry that is not for day 1 makes the generator fail. -/
theorem C64_rejects_other_days (e : Entry) (rest : List Entry) (h : e.day ≠ 1) :
    generate (e :: rest) = .error .assertionError := by
  rw [generate, genLoop, if_pos h]

theorem genLoop_accepts (data : List Entry) : ∀ (ly lm : ℤ) (toks : List Token),
    genLoop (some ly) (some lm) data = .ok toks → ∀ (n : ℕ) (e : Entry), data[n]? = some e →
      e.day = 1 ∧ e.year * 12 + e.month = ly * 12 + lm + 1 + n := by
  induction data with
  | nil => intro _ _ _ _ n e he; simp at he
  | cons e0 rest ih =>
    intro ly lm toks h n e he
    have key : e0.day = 1 ∧ e0.year * 12 + e0.month = ly * 12 + lm + 1 ∧
        ∃ out, genLoop (some e0.year) (some e0.month) rest = .ok out := by
      rw [genLoop] at h
      by_cases hd : e0.day = 1
      · rw [if_neg (not_not.mpr hd)] at h
        by_cases hy : ly = e0.year
        · rw [if_neg (by simp [hy])] at h
          by_cases hm : e0.month = lm + 1
          · simp only [if_neg (not_not.mpr hm)] at h
            cases ho : genLoop (some e0.year) (some e0.month) rest with
            | error err => rw [ho] at h; cases h
            | ok out => exact ⟨hd, by omega, out, rfl⟩
          · simp only [if_pos hm] at h; cases h
        · rw [if_pos (by simpa using hy)] at h
          by_cases h1 : ly + 1 = e0.year
          · rw [if_neg (not_not.mpr h1)] at h
            by_cases h2 : lm = 12
            · rw [if_neg (by simp [h2])] at h
              by_cases h3 : e0.month = 0 + 1
              · rw [if_neg (not_not.mpr h3)] at h
                cases ho : genLoop (some e0.year) (some e0.month) rest with
                | error err => rw [ho] at h; cases h
                | ok out => exact ⟨hd, by omega, out, rfl⟩
              · rw [if_pos h3] at h; cases h
            · rw [if_pos (by simpa using h2)] at h; cases h
          · rw [if_pos h1] at h; cases h
      · rw [if_pos hd] at h; cases h
    obtain ⟨hd, hi, out, ho⟩ := key
    cases n with
    | zero =>
      obtain rfl : e0 = e := by simpa using he
      exact ⟨hd, by push_cast; omega⟩
    | succ n =>
      have := ih _ _ out ho n e (by simpa using he)
      refine ⟨this.1, ?_⟩
      push_cast
      omega

/-- C64: data accepted by the generator are consecutive months, each given for day 1; with months 1..12 they are
well-formed. -/
theorem C64_accepts (data : List Entry) (toks : List Token) (h : generate data = .ok toks) :
    (∃ first : ℤ, ∀ (n : ℕ) (e : Entry), data[n]? = some e → e.day = 1 ∧ e.year * 12 + e.month = first + n) ∧
      ((∀ e ∈ data, 1 ≤ e.month ∧ e.month ≤ 12) → MonthlyData data) := by
  have key : ∃ first : ℤ, ∀ (n : ℕ) (e : Entry), data[n]? = some e →
      e.day = 1 ∧ e.year * 12 + e.month = first + n := by
    cases data with
    | nil => exact ⟨0, fun n e he => by simp at he⟩
    | cons e0 rest =>
      rw [generate, genLoop] at h
      by_cases hd : e0.day = 1
      · rw [if_neg (not_not.mpr hd), if_pos (by simp)] at h
        cases ho : genLoop (some e0.year) (some e0.month) rest with
        | error err => rw [ho] at h; cases h
        | ok out =>
          refine ⟨e0.year * 12 + e0.month, fun n e he => ?_⟩
          cases n with
          | zero =>
            obtain rfl : e0 = e := by simpa using he
            exact ⟨hd, by push_cast; omega⟩
          | succ n =>
            have := genLoop_accepts rest _ _ out ho n e (by simpa using he)
            refine ⟨this.1, ?_⟩
            push_cast
            omega
      · rw [if_pos hd] at h; cases h
  refine ⟨key, fun hm => ?_⟩
  obtain ⟨first, hf⟩ := key
  exact ⟨first, fun n e he => ⟨(hf n e he).1, (hm e (List.mem_of_getElem? he)).1, (hm e (List.mem_of_getElem? he)).2,
    (hf n e he).2⟩⟩

/-- Five months over a year's end. -/
def sampleData : List Entry :=
  [⟨1973, 11, 1, 44.3675⟩, ⟨1973, 12, 1, 44.4⟩, ⟨1974, 1, 1, 44.48⟩, ⟨1974, 2, 1, 44.58⟩, ⟨1974, 3, 1, 44.6⟩]

example : MonthlyData sampleData := by
  refine ⟨1973 * 12 + 11, fun n e he => ?_⟩
  have : n < 5 := by
    by_contra h
    rw [List.getElem?_eq_none (by simpa [sampleData] using h)] at he
    cases he
  interval_cases n <;> simp [sampleData] at he <;> subst he <;> norm_num

example : generate sampleData = .ok [.baseYear 1973, .baseMonth 11, .openTable, .openRow 1973, .value 44.3675 11,
    .value 44.4 12, .closeRow, .openRow 1974, .value 44.48 1, .value 44.58 2, .value 44.6 3, .closeRow,
    .closeTable] := by decide +kernel

end Verif.Props
