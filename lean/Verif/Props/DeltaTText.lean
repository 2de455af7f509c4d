import Verif.Proofs.DeltaTText
import Verif.Props.DeltaTGen

/-!
# C122 the script util/get_delta_t from the text of its data to the table that Python reads

The text of the data file, through the script, Python's reading of what the script prints, and the lookup of
`get_delta_t`: for every month the result is `float` of the value written in the file.
-/

namespace Verif.Props

open Pysolar Pysolar.DeltaTGen Pysolar.Solartime Verif.Spec Verif.Spec.PySource

variable {dbl : ℚ → ℚ}

/-! ## Rounding to four decimals undoes the rounding to double -/

theorem fmt4_dbl (hd : NearDouble dbl) {k : ℤ} (hk : |(k : ℚ)| ≤ 10 ^ 15) : fmt4 (dbl ((k : ℚ) / 10000)) = (k : ℚ) / 10000 := by
  have habs : |(k : ℚ) / 10000| = |(k : ℚ)| / 10000 := by
    rw [abs_div]
    norm_num
  have herr := hd.err ((k : ℚ) / 10000) (by
    rw [habs]
    by_cases h0 : k = 0
    · left; rw [h0]; norm_num
    · right
      have : (1 : ℚ) ≤ |(k : ℚ)| := by exact_mod_cast Int.one_le_abs h0
      rw [div_le_div_iff₀ (by norm_num) (by norm_num)]
      linarith) (by
    rw [habs, div_le_iff₀ (by norm_num)]
    refine hk.trans ?_
    norm_num)
  rw [habs] at herr
  have hlt : |dbl ((k : ℚ) / 10000) * 10000 - k| < 1 / 2 := by
    have e : dbl ((k : ℚ) / 10000) * 10000 - k = (dbl ((k : ℚ) / 10000) - (k : ℚ) / 10000) * 10000 := by ring
    rw [e, abs_mul]
    have h2 : |(k : ℚ)| / 10000 / 2 ^ 53 ≤ 10 ^ 15 / 10000 / 2 ^ 53 := by gcongr
    have h3 : |dbl ((k : ℚ) / 10000) - (k : ℚ) / 10000| ≤ 10 ^ 15 / 10000 / 2 ^ 53 := herr.trans h2
    have h4 : |(10000 : ℚ)| = 10000 := by norm_num
    rw [h4]
    calc _ ≤ (10 : ℚ) ^ 15 / 10000 / 2 ^ 53 * 10000 := by gcongr
      _ < 1 / 2 := by norm_num
  obtain ⟨h1, h2⟩ := abs_lt.mp hlt
  unfold fmt4
  generalize dbl ((k : ℚ) / 10000) * 10000 = s at h1 h2
  have hfl : Rat.floor s = ⌊s⌋ := rfl
  dsimp only
  rw [hfl]
  have hf : ⌊s⌋ = k ∨ ⌊s⌋ = k - 1 := by
    have a1 := Int.floor_le s
    have a2 := Int.lt_floor_add_one s
    have b1 : ((⌊s⌋ : ℤ) : ℚ) < (k + 1 : ℤ) := by push_cast; linarith
    have b2 : ((k - 2 : ℤ) : ℚ) < (⌊s⌋ : ℤ) := by push_cast; linarith
    have c1 := Int.cast_lt.mp b1
    have c2 := Int.cast_lt.mp b2
    omega
  rcases hf with hf | hf <;> rw [hf]
  · rw [if_pos (by linarith)]
  · have e : s - ((k - 1 : ℤ) : ℚ) = s - k + 1 := by push_cast; ring
    rw [e, if_neg (by linarith), if_pos (by linarith)]
    push_cast
    ring

/-- A value written with at most four decimals is a number of ten-thousandths. -/
theorem value_fix {d : ℕ} (hd : d ≤ 4) (n : ℕ) : ∃ k : ℤ, (n : ℚ) / 10 ^ d = (k : ℚ) / 10000 := by
  refine ⟨n * 10 ^ (4 - d), ?_⟩
  have h : (10 : ℚ) ^ (4 - d) * 10 ^ d = 10000 := by
    rw [← pow_add, show 4 - d + d = 4 by omega]
    norm_num
  push_cast
  rw [div_eq_div_iff (by positivity) (by norm_num), ← h]
  ring

theorem file_values {lines : List Txt} {rows : List Row} (h : FileLines 4 lines rows) :
    ∀ r ∈ rows, 0 ≤ r.value ∧ ∃ k : ℤ, r.value = (k : ℚ) / 10000 := by
  induction h with
  | nil => simp
  | blank _ _ ih => exact ih
  | row hd hr _ ih =>
    intro r' hr'
    rcases List.mem_cons.mp hr' with rfl | hr'
    · obtain ⟨w0, y, w1, m, w2, dd, w3, ip, fp, w4, -, -, -, -, -, -, -, -, -, -, -, -, -, -, -, rv⟩ := hr
      rw [rv]
      exact ⟨by positivity, value_fix hd _⟩
    · exact ih r' hr'

/-! ## The values printed -/

theorem genLoop_fix (data : List Entry) : ∀ (ly lm : Option ℤ) (toks : List Token), genLoop ly lm data = .ok toks →
    FixValues toks := by
  have hfm : ∀ x : ℚ, ∃ k : ℤ, fmt4 x = (k : ℚ) / 10000 := fun x => ⟨_, rfl⟩
  induction data with
  | nil =>
    intro ly lm toks h
    unfold genLoop at h
    cases ly <;> cases h <;> intro v m hm <;> simp at hm
  | cons e rest ih =>
    intro ly lm toks h
    unfold genLoop at h
    split_ifs at h with h1 h2
    all_goals (split at h)
    all_goals try split_ifs at h
    all_goals try (cases h)
    all_goals (
      cases ho : genLoop (some e.year) (some e.month) rest with
      | error er => rw [ho] at h; cases h
      | ok out =>
        rw [ho] at h
        cases h
        intro v m hm
        have := ih _ _ _ ho v m
        simp only [List.mem_append, List.mem_cons, List.not_mem_nil, or_false, reduceCtorEq, false_or, Token.value.injEq] at hm
        rcases hm with ⟨rfl, -⟩ | hm
        · exact hfm _
        · exact this hm)

/-! ## The lookup in the table that Python reads -/

theorem pyIndex_map {α β : Type} (f : α → β) (xs : List α) (i : ℕ) {x : α} (h : pyIndex xs i = .ok x) :
    pyIndex (xs.map f) i = .ok (f x) := by
  unfold pyIndex at h ⊢
  rw [List.getElem?_map]
  cases hx : xs[i]? with
  | none => rw [hx] at h; cases h
  | some y => rw [hx] at h; cases h; rfl

theorem pyIndexInt_map {α β : Type} (f : α → β) (xs : List α) (i : ℤ) {x : α} (h : pyIndexInt xs i = .ok x) :
    pyIndexInt (xs.map f) i = .ok (f x) := by
  unfold pyIndexInt at h ⊢
  rw [List.length_map]
  split_ifs at h ⊢
  · exact pyIndex_map f xs _ h
  · exact pyIndex_map f xs _ h

theorem lookup_map (f : ℚ → ℚ) (table : List (List ℚ)) (by' bm y m : ℤ) {v : ℚ}
    (h : deltaTLookup table by' bm y m = .ok v) : deltaTLookup (table.map (List.map f)) by' bm y m = .ok (f v) := by
  unfold deltaTLookup at h ⊢
  rw [List.length_map]
  generalize (if y < by' then (by', 1) else if y = by' then (y, max 0 (m - bm) + 1)
    else if y ≥ by' + table.length then (by' + table.length - 1, m) else (y, m) : ℤ × ℤ) = p at h ⊢
  obtain ⟨y', m'⟩ := p
  dsimp only at h ⊢
  cases hrow : pyIndexInt table (y' - by') with
  | error e =>
    rw [hrow] at h
    split_ifs at h <;> cases h
  | ok row =>
    have hrow' := pyIndexInt_map (List.map f) _ _ hrow
    rw [hrow] at h
    rw [hrow']
    split_ifs at h ⊢
    · show pyIndexInt (row.map f) (min m' ((row.map f).length : ℤ) - 1) = _
      rw [List.length_map]
      exact pyIndexInt_map f _ _ h
    · exact pyIndexInt_map f _ _ h

theorem asRow_cells (row : List ℚ) : asRow (.list (row.map (cell dbl))) = some (row.map dbl) := by
  show (row.map (cell dbl)).mapM _ = _
  induction row with
  | nil => rfl
  | cons v row ih =>
    rw [List.map_cons, List.mapM_cons, ih]
    rfl

theorem asTable_cells (table : List (List ℚ)) :
    asTable (.list (table.map fun row => .list (row.map (cell dbl)))) = some (table.map (List.map dbl)) := by
  show (table.map fun row => Val.list (row.map (cell dbl))).mapM asRow = _
  induction table with
  | nil => rfl
  | cons row table ih =>
    rw [List.map_cons, List.mapM_cons, asRow_cells, ih]
    rfl

/-! ## C122 -/

theorem monthly_entries {rows : List Row} (h : MonthlyRows rows) : MonthlyData (rows.map (entryOf dbl)) := by
  obtain ⟨first, hf⟩ := h
  refine ⟨first, fun n e he => ?_⟩
  rw [List.getElem?_map] at he
  cases hr : rows[n]? with
  | none => rw [hr] at he; cases he
  | some r =>
    rw [hr] at he
    obtain rfl : entryOf dbl r = e := by simpa using he
    obtain ⟨h1, h2, h3, h4⟩ := hf n r hr
    unfold entryOf
    dsimp only
    refine ⟨by exact_mod_cast h1, by exact_mod_cast h2, by exact_mod_cast h3, by exact_mod_cast h4⟩

/-- **C122** For every data file of consecutive months, with values of at most four decimals, the script prints Python
source that defines a base year, a base month and a table in which `get_delta_t` finds for each month `float` of the
text in the file. -/
theorem C122_end_to_end (hd : NearDouble dbl) {lines : List Txt} {rows : List Row} (hfile : FileLines 4 lines rows)
    (hne : rows ≠ []) (hrows : MonthlyRows rows) (hsize : ∀ r ∈ rows, r.value ≤ 10 ^ 11) :
    ∃ source env base_year base_month table,
      script dbl (fileText lines) = .ok source ∧ exec dbl source = some env ∧
      PySource.get env "delta_t_base_year" = some (.int base_year) ∧ PySource.get env "delta_t_base_month" = some (.int base_month) ∧
      (PySource.get env "delta_t").bind asTable = some table ∧
      ∀ r ∈ rows, deltaTLookup table base_year base_month r.year r.month = .ok (dbl r.value) := by
  have hlines : lines ≠ [] := by
    rintro rfl
    cases hfile
    exact hne rfl
  obtain ⟨toks, by', bm, table, hgen, hread, hlook⟩ := C64_round_trip (rows.map (entryOf dbl)) (by simpa using hne)
    (monthly_entries hrows)
  have hscript : script dbl (fileText lines) = .ok (toks.flatMap render) := by
    unfold script
    rw [splitNl_fileText hlines (file_no_nl hfile), parseLines_file dbl hfile]
    dsimp only
    rw [hgen]
  refine ⟨_, _, by', bm, table.map (List.map dbl), hscript, source_run dbl hd.odd toks (genLoop_fix _ _ _ _ hgen) hread,
    ?_, ?_, ?_, ?_⟩
  · have : PySource.get [("delta_t_base_year".toList, Val.int by'), ("delta_t_base_month".toList, .int bm),
      ("delta_t".toList, .list (table.map fun row => .list (row.map (cell dbl))))] "delta_t_base_year" = some (.int by') := by
      unfold PySource.get
      simp
    exact this
  · unfold PySource.get
    simp
  · have : PySource.get [("delta_t_base_year".toList, Val.int by'), ("delta_t_base_month".toList, .int bm),
      ("delta_t".toList, .list (table.map fun row => .list (row.map (cell dbl))))] "delta_t"
      = some (.list (table.map fun row => .list (row.map (cell dbl)))) := by
      unfold PySource.get
      simp
    rw [this]
    exact asTable_cells table
  · intro r hr
    have h1 := hlook (entryOf dbl r) (List.mem_map.mpr ⟨r, hr, rfl⟩)
    have h2 := lookup_map dbl _ _ _ _ _ h1
    obtain ⟨h0, k, hk⟩ := file_values hfile r hr
    have hsz := hsize r hr
    have hv : fmt4 (dbl r.value) = r.value := by
      rw [hk]
      refine fmt4_dbl hd ?_
      rw [hk] at h0 hsz
      have hk0 : (0 : ℚ) ≤ k := by linarith
      rw [abs_of_nonneg hk0]
      linarith
    show deltaTLookup _ _ _ (r.year : ℤ) (r.month : ℤ) = _
    have h3 : deltaTLookup (table.map (List.map dbl)) by' bm (r.year : ℤ) (r.month : ℤ) = .ok (dbl (fmt4 (dbl r.value))) := h2
    rw [h3, hv]

theorem parseLines_append (dbl : ℚ → ℚ) {D : ℕ} {lines : List Txt} {rows : List Row} (h : FileLines D lines rows) (rest : List Txt) :
    parseLines dbl (lines ++ rest) = (rows.map (entryOf dbl) ++ (parseLines dbl rest).1, (parseLines dbl rest).2) := by
  induction h with
  | nil => rfl
  | blank hb _ ih => rw [List.cons_append, parseLines, parseLine_blank dbl hb]; exact ih
  | row _ hr _ ih => rw [List.cons_append, parseLines, parseLine_row dbl hr]; simp only [ih, List.map_cons, List.cons_append]

theorem genLoop_day (data : List Entry) : ∀ (ly lm : ℤ), (∃ e ∈ data, e.day ≠ 1) →
    genLoop (some ly) (some lm) data = .error .assertionError := by
  induction data with
  | nil => rintro ly lm ⟨e, he, -⟩; simp at he
  | cons e rest ih =>
    rintro ly lm ⟨e', he', hday⟩
    rw [genLoop]
    by_cases hd : e.day = 1
    · rw [if_neg (not_not.mpr hd)]
      have hrest : ∃ e ∈ rest, e.day ≠ 1 := by
        rcases List.mem_cons.mp he' with rfl | he'
        · exact absurd hd hday
        · exact ⟨e', he', hday⟩
      rw [ih _ _ hrest]
      split_ifs <;> rfl
    · rw [if_pos hd]

theorem generate_day (data : List Entry) (h : ∃ e ∈ data, e.day ≠ 1) : generate data = .error .assertionError := by
  cases data with
  | nil => obtain ⟨e, he, -⟩ := h; simp at he
  | cons e rest =>
    by_cases hd : e.day = 1
    · obtain ⟨e', he', hday⟩ := h
      rw [generate, genLoop, if_neg (not_not.mpr hd), if_pos (by simp)]
      rw [genLoop_day rest _ _ ?_]
      · rfl
      · rcases List.mem_cons.mp he' with rfl | he'
        · exact absurd hd hday
        · exact ⟨e', he', hday⟩
    · exact C64_rejects_other_days e rest hd

theorem row_no_nl {d : ℕ} {r : Row} {l : Txt} (h : RowText d r l) : '\n' ∉ l :=
  file_no_nl (FileLines.row le_rfl h .nil) l (by simp)

/-- **C122** A row that is not for the first day of its month makes the script fail, whatever follows it. -/
theorem C122_first_of_month {D d : ℕ} {lines rest : List Txt} {rows : List Row} {r : Row} {line : Txt}
    (hfile : FileLines D lines rows) (hr : RowText d r line) (hday : r.day ≠ 1) (hrest : ∀ l ∈ rest, '\n' ∉ l) :
    script dbl (fileText (lines ++ line :: rest)) = .error .assertionError := by
  unfold script
  rw [splitNl_fileText (by simp) ?_, parseLines_append dbl hfile, parseLines, parseLine_row dbl hr]
  · dsimp only
    rw [generate_day _ ⟨entryOf dbl r, by simp, by
      show (r.day : ℤ) ≠ 1
      exact_mod_cast hday⟩]
  · intro l hl
    rcases List.mem_append.mp hl with hl | hl
    · exact file_no_nl hfile l hl
    · rcases List.mem_cons.mp hl with rfl | hl
      · exact row_no_nl hr
      · exact hrest l hl

theorem parseLine_three {l : Txt} (h : ThreeFields l) : parseLine dbl l = .error .valueError := by
  obtain ⟨w0, a, w1, b, w2, c, w3, rfl, hw0, hw1, hw2, hw3, ha, hb, hc⟩ := h
  obtain ⟨aa, ua, ea, haa⟩ := digits_cons ha
  obtain ⟨ab, ub, eb, hab⟩ := digits_cons hb
  obtain ⟨ac, uc, ec, hac⟩ := digits_cons hc
  obtain ⟨vc, bc, efc, hbc⟩ := digits_snoc hc
  have hcore : strip (w0 ++ a ++ w1 ++ b ++ w2 ++ c ++ w3) = a ++ w1 ++ (b ++ w2 ++ c) := by
    have := strip_eq (blank_space hw0) (blank_space hw3) haa hbc (core := a ++ w1 ++ (b ++ w2 ++ c))
      (u := ua ++ w1 ++ (b ++ w2 ++ c)) (v := a ++ w1 ++ (b ++ w2 ++ vc)) (by rw [ea]; simp) (by rw [efc]; simp)
    rw [← this]
    simp only [List.append_assoc]
  have hsplit : splitWs 3 (a ++ w1 ++ (b ++ w2 ++ c)) = [a, b, c] := by
    have s1 := splitWs_field 2 (fun x hx => digit_not_space (ha.2 x hx)) hw1 hab (ub ++ w2 ++ c)
    have s2 := splitWs_field 1 (fun x hx => digit_not_space (hb.2 x hx)) hw2 hac uc
    have t1 : ab :: (ub ++ w2 ++ c) = b ++ w2 ++ c := by rw [eb]; simp
    have t2 : ac :: uc = c := ec.symm
    rw [t1] at s1
    rw [t2] at s2
    have hc' : ∀ x ∈ c, (!isSpace x) = true := fun x hx => by rw [digit_not_space (hc.2 x hx)]; rfl
    have e := dropWhile_all (p := fun x => !isSpace x) hc' []
    rw [List.append_nil] at e
    rw [s1, s2, splitWs, e]
    rfl
  unfold parseLine
  dsimp only
  rw [hcore, hsplit, if_pos (by rw [ea]; simp)]

/-- **C122** After any months in order, a line with a field too few makes the script fail with `ValueError`. -/
theorem C122_missing_field {D : ℕ} {lines rest : List Txt} {rows : List Row} {line : Txt} (hfile : FileLines D lines rows)
    (hrows : MonthlyRows rows) (hl : ThreeFields line) (hrest : ∀ l ∈ rest, '\n' ∉ l) :
    script dbl (fileText (lines ++ line :: rest)) = .error .valueError := by
  have hgen : ∃ toks, generate (rows.map (entryOf dbl)) = .ok toks := by
    by_cases hne : rows = []
    · subst hne
      exact ⟨[], rfl⟩
    · obtain ⟨toks, _, _, _, h, -⟩ := C64_round_trip (rows.map (entryOf dbl)) (by simpa using hne) (monthly_entries hrows)
      exact ⟨toks, h⟩
  obtain ⟨toks, hgen⟩ := hgen
  unfold script
  rw [splitNl_fileText (by simp) ?_, parseLines_append dbl hfile, parseLines, parseLine_three hl]
  · dsimp only
    rw [List.append_nil, hgen]
  · intro l hl'
    rcases List.mem_append.mp hl' with hl' | hl'
    · exact file_no_nl hfile l hl'
    · rcases List.mem_cons.mp hl' with rfl | hl'
      · obtain ⟨w0, a, w1, b, w2, c, w3, rfl, hw0, hw1, hw2, hw3, ha, hb, hc⟩ := hl
        simp only [List.mem_append, not_or]
        exact ⟨⟨⟨⟨⟨⟨blank_no_nl hw0, digits_no_nl ha.2⟩, blank_no_nl hw1⟩, digits_no_nl hb.2⟩, blank_no_nl hw2⟩,
          digits_no_nl hc.2⟩, blank_no_nl hw3⟩
      · exact hrest l hl'

/-! ## Examples -/

/-- Exact arithmetic is one admissible rounding. -/
example : NearDouble id := ⟨fun _ => rfl, fun x _ _ => by simp only [id, sub_self, abs_zero]; positivity⟩

/-- A file of three lines, of which the last is empty. -/
example : FileLines 4 [" 1973  2  1  43.4724".toList, "1973 03 1 43.56 ".toList, []]
    [⟨1973, 2, 1, 43.4724⟩, ⟨1973, 3, 1, 43.56⟩] := by
  refine .row (d := 4) le_rfl ⟨" ".toList, "1973".toList, "  ".toList, "2".toList, "  ".toList, "1".toList, "  ".toList, "43".toList,
    "4724".toList, [], ?_⟩ (.row (d := 2) (by norm_num) ⟨[], "1973".toList, " ".toList, "03".toList, " ".toList, "1".toList,
    " ".toList, "43".toList, "56".toList, " ".toList, ?_⟩ (.blank ⟨le_rfl, by simp⟩ .nil))
  all_goals
    refine ⟨by decide +kernel, ?_, ?_, ?_, ?_, ?_, ?_, ?_, ?_, ?_, ?_, by decide +kernel, by decide +kernel, by decide +kernel,
      by decide +kernel, by decide +kernel⟩
    all_goals first | exact ⟨by decide +kernel, by decide +kernel⟩

/-- Two months of the file and what is printed. -/
example : script id "  1973  2  1  43.4724 \n 1973  3  1  43.5648\n".toList
    = .ok ("# table generated by util/get_delta_t script\ndelta_t_base_year = 1973\ndelta_t_base_month = 2\n"
      ++ "delta_t = \\\n  [\n        [ # 1973\n            43.4724, # 2\n            43.5648, # 3\n        ],\n    ] # delta_t\n").toList := by
  decide +kernel

end Verif.Props
