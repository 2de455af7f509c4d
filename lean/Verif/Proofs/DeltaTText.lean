import Verif.Proofs.PySource
import Verif.Spec.DeltaTText

/-!
# Parsing the delta-T data file
-/

namespace Verif

open Pysolar.DeltaTGen Verif.Spec Verif.Spec.PySource

/-! ## Lines -/

theorem splitNl_ne (s : Txt) : splitNl s ≠ [] := by
  cases s with
  | nil => simp [splitNl]
  | cons c s =>
    rw [splitNl]
    split_ifs
    · simp
    · split <;> simp

theorem splitNl_line {l : Txt} (h : '\n' ∉ l) : splitNl l = [l] := by
  induction l with
  | nil => rfl
  | cons c l ih =>
    have hc : c ≠ '\n' := fun he => h (by simp [he])
    rw [splitNl, if_neg hc, ih fun hm => h (by simp [hm])]

theorem splitNl_append {l : Txt} (h : '\n' ∉ l) (t : Txt) : splitNl (l ++ '\n' :: t) = l :: splitNl t := by
  induction l with
  | nil => rw [List.nil_append, splitNl, if_pos rfl]
  | cons c l ih =>
    have hc : c ≠ '\n' := fun he => h (by simp [he])
    rw [List.cons_append, splitNl, if_neg hc, ih fun hm => h (by simp [hm])]

theorem splitNl_fileText {lines : List Txt} (hne : lines ≠ []) (h : ∀ l ∈ lines, '\n' ∉ l) :
    splitNl (fileText lines) = lines := by
  induction lines with
  | nil => exact absurd rfl hne
  | cons l ls ih =>
    cases ls with
    | nil =>
      have : fileText [l] = l := by simp [fileText]
      rw [this, splitNl_line (h l (by simp))]
    | cons l' ls =>
      have : fileText (l :: l' :: ls) = l ++ '\n' :: fileText (l' :: ls) := by
        simp [fileText, List.intercalate]
      rw [this, splitNl_append (h l (by simp)), ih (by simp) fun k hk => h k (by simp [hk])]

/-! ## Space -/

theorem blank_space {n : ℕ} {w : List Char} (h : Blank n w) : ∀ c ∈ w, isSpace c = true := by
  intro c hc
  rcases h.2 c hc with rfl | rfl <;> decide

theorem isDigit_iff (c : Char) : c.isDigit = true ↔ 48 ≤ c.toNat ∧ c.toNat ≤ 57 := by
  unfold Char.isDigit
  simp only [Bool.and_eq_true, decide_eq_true_eq, ge_iff_le]
  rfl

theorem digit_not_space {c : Char} (h : c.isDigit = true) : isSpace c = false := by
  rw [isDigit_iff] at h
  unfold isSpace
  have : c ≠ ' ' := by rintro rfl; revert h; decide
  simp only [this, decide_false, Bool.false_or, Bool.or_eq_false_iff, Bool.and_eq_false_iff, decide_eq_false_iff_not]
  omega

theorem dropWhile_all {p : Char → Bool} {w : List Char} (h : ∀ c ∈ w, p c = true) (t : List Char) :
    (w ++ t).dropWhile p = t.dropWhile p := by
  induction w with
  | nil => rfl
  | cons c w ih => rw [List.cons_append, List.dropWhile_cons, if_pos (h c (by simp)), ih fun c hc => h c (by simp [hc])]

theorem takeWhile_all {p : Char → Bool} {w : List Char} (h : ∀ c ∈ w, p c = true) (t : List Char) :
    (w ++ t).takeWhile p = w ++ t.takeWhile p := by
  induction w with
  | nil => rfl
  | cons c w ih =>
    rw [List.cons_append, List.takeWhile_cons, if_pos (h c (by simp)), ih fun c hc => h c (by simp [hc]), List.cons_append]

theorem dropWhile_head {p : Char → Bool} {c : Char} (h : p c = false) (t : List Char) :
    (c :: t).dropWhile p = c :: t := by
  rw [List.dropWhile_cons, if_neg (by rw [h]; simp)]

theorem takeWhile_head {p : Char → Bool} {c : Char} (h : p c = false) (t : List Char) :
    (c :: t).takeWhile p = [] := by
  rw [List.takeWhile_cons, if_neg (by rw [h]; simp)]

/-- `strip` removes space around a text that begins and ends with other characters. -/
theorem strip_eq {w w' : List Char} (hw : ∀ c ∈ w, isSpace c = true) (hw' : ∀ c ∈ w', isSpace c = true) {a b : Char}
    (ha : isSpace a = false) (hb : isSpace b = false) {core u v : List Char} (h1 : core = a :: u) (h2 : core = v ++ [b]) :
    strip (w ++ core ++ w') = core := by
  unfold strip
  rw [List.append_assoc, dropWhile_all hw, h1, List.cons_append, dropWhile_head ha, ← List.cons_append, ← h1,
    List.reverse_append, dropWhile_all (fun c hc => hw' c (List.mem_reverse.mp hc)), h2, List.reverse_append]
  show ((b :: v.reverse).dropWhile isSpace).reverse = _
  rw [dropWhile_head hb]
  simp

theorem strip_blank {w : List Char} (h : ∀ c ∈ w, isSpace c = true) : strip w = [] := by
  unfold strip
  have := dropWhile_all h []
  rw [List.append_nil] at this
  rw [this]
  rfl

theorem strip_solid {w : List Char} (h : ∀ c ∈ w, isSpace c = false) : strip w = w := by
  rcases List.eq_nil_or_concat w with rfl | ⟨v, b, hb⟩
  · rfl
  · cases w with
    | nil => rfl
    | cons a u =>
      have := strip_eq (w := []) (w' := []) (by simp) (by simp) (h a (by simp)) (h b (by rw [hb]; simp)) (core := a :: u)
        rfl (v := v) (hb.trans (by simp))
      simpa using this

/-- One field and the rest. -/
theorem splitWs_field (n : ℕ) {f w : List Char} (hf : ∀ c ∈ f, isSpace c = false) (hw : Blank 1 w) {a : Char}
    (ha : isSpace a = false) (t : List Char) : splitWs (n + 1) (f ++ w ++ a :: t) = f :: splitWs n (a :: t) := by
  have hf' : ∀ c ∈ f, (!isSpace c) = true := fun c hc => by rw [hf c hc]; rfl
  cases w with
  | nil => exact absurd hw.1 (by simp)
  | cons b w =>
    have hb : isSpace b = true := blank_space hw b (by simp)
    have hb' : (!isSpace b) = false := by rw [hb]; rfl
    have e1 : (f ++ (b :: w) ++ a :: t).dropWhile (fun c => !isSpace c) = b :: (w ++ a :: t) := by
      rw [List.append_assoc, dropWhile_all (p := fun c => !isSpace c) hf', List.cons_append,
        dropWhile_head (p := fun c => !isSpace c) hb']
    have e2 : (f ++ (b :: w) ++ a :: t).takeWhile (fun c => !isSpace c) = f := by
      rw [List.append_assoc, takeWhile_all (p := fun c => !isSpace c) hf', List.cons_append,
        takeWhile_head (p := fun c => !isSpace c) hb', List.append_nil]
    have e3 : (b :: (w ++ a :: t)).dropWhile isSpace = a :: t := by
      rw [← List.cons_append, dropWhile_all (blank_space hw), dropWhile_head ha]
    rw [splitWs, e1]
    dsimp only
    rw [e2, e3]

/-! ## Numbers -/

theorem pyNat_digits {w : List Char} (h : ∀ c ∈ w, c.isDigit = true) (d : Bool) (acc : ℕ) (hne : w ≠ [] ∨ d = true) :
    pyNat d acc w = some (w.foldl (fun n c => 10 * n + (c.toNat - 48)) acc) := by
  induction w generalizing d acc with
  | nil =>
    rcases hne with h | h
    · exact absurd rfl h
    · rw [pyNat, if_pos h]
      rfl
  | cons c w ih =>
    rw [pyNat, if_pos (h c (by simp)), ih (fun c hc => h c (by simp [hc])) true _ (.inr rfl)]
    rfl

theorem pyNat_ofDigits {w : List Char} (h : Digits w) : pyNat false 0 w = some (ofDigits w) :=
  pyNat_digits h.2 false 0 (.inl h.1)

theorem pySign_digits {c : Char} (h : c.isDigit = true) (t : List Char) : pySign (c :: t) = (false, c :: t) := by
  unfold pySign
  split
  · rename_i h'
    cases h'
    exact absurd h (by decide)
  · rename_i h'
    cases h'
    exact absurd h (by decide)
  · rfl

theorem pyInt_digits {w : List Char} (h : Digits w) : pyInt w = .ok (ofDigits w : ℤ) := by
  unfold pyInt
  rw [strip_solid fun c hc => digit_not_space (h.2 c hc)]
  obtain ⟨hne, hd⟩ := h
  cases w with
  | nil => exact absurd rfl hne
  | cons c w =>
    rw [pySign_digits (hd c (by simp))]
    dsimp only
    rw [pyNat_ofDigits ⟨hne, hd⟩]
    rfl

theorem digit_ne {c : Char} (h : c.isDigit = true) {x : Char} (hx : x.isDigit = false) : c ≠ x := by
  rintro rfl
  rw [h] at hx
  cases hx

theorem pyMantissa_eq {ip fp : List Char} (hi : Digits ip) (hf : Digits fp) :
    pyMantissa (ip ++ '.' :: fp) = some ((ofDigits (ip ++ fp) : ℚ) / 10 ^ fp.length) := by
  have hip : ∀ c ∈ ip, (decide (c ≠ '.')) = true := fun c hc => decide_eq_true (digit_ne (hi.2 c hc) (by decide))
  unfold pyMantissa
  have e1 : (ip ++ '.' :: fp).takeWhile (fun c => decide (c ≠ '.')) = ip := by
    rw [takeWhile_all (p := fun c => decide (c ≠ '.')) hip, takeWhile_head (p := fun c => decide (c ≠ '.')) (by decide),
      List.append_nil]
  have e2 : (ip ++ '.' :: fp).dropWhile (fun c => decide (c ≠ '.')) = '.' :: fp := by
    rw [dropWhile_all (p := fun c => decide (c ≠ '.')) hip, dropWhile_head (p := fun c => decide (c ≠ '.')) (by decide)]
  have e3 : fp.filter (fun c => decide (c ≠ '_')) = fp :=
    List.filter_eq_self.mpr fun c hc => decide_eq_true (digit_ne (hf.2 c hc) (by decide))
  rw [e1, e2]
  dsimp only
  have key : (do return (← pyNat false 0 ip) + (← pyNat false 0 fp) / 10 ^ fp.length : Option ℚ)
      = some ((ofDigits (ip ++ fp) : ℚ) / 10 ^ fp.length) := by
    rw [pyNat_ofDigits hi, pyNat_ofDigits hf]
    show some ((ofDigits ip : ℚ) + (ofDigits fp : ℚ) / 10 ^ fp.length) = _
    rw [ofDigits_append]
    congr 1
    push_cast
    field_simp
  obtain ⟨hine, -⟩ := hi
  obtain ⟨hfne, -⟩ := hf
  cases ip with
  | nil => exact absurd rfl hine
  | cons a ip =>
    cases fp with
    | nil => exact absurd rfl hfne
    | cons b fp =>
      dsimp only
      rw [e3]
      exact key

theorem pyFloat_eq (dbl : ℚ → ℚ) {ip fp : List Char} (hi : Digits ip) (hf : Digits fp) :
    pyFloat dbl (ip ++ '.' :: fp) = .ok (dbl ((ofDigits (ip ++ fp) : ℚ) / 10 ^ fp.length)) := by
  have hall : ∀ c ∈ ip ++ '.' :: fp, c.isDigit = true ∨ c = '.' := by
    intro c hc
    rcases List.mem_append.mp hc with hc | hc
    · exact .inl (hi.2 c hc)
    · rcases List.mem_cons.mp hc with rfl | hc
      · exact .inr rfl
      · exact .inl (hf.2 c hc)
  have hs : ∀ c ∈ ip ++ '.' :: fp, isSpace c = false := by
    intro c hc
    rcases hall c hc with h | rfl
    · exact digit_not_space h
    · decide
  have he : ∀ c ∈ ip ++ '.' :: fp, (!(decide (c = 'e') || decide (c = 'E'))) = true := by
    intro c hc
    rcases hall c hc with h | rfl
    · have h1 := digit_ne h (x := 'e') (by decide)
      have h2 := digit_ne h (x := 'E') (by decide)
      simp [h1, h2]
    · decide
  have hdec : pyDecimal (ip ++ '.' :: fp) = some ((ofDigits (ip ++ fp) : ℚ) / 10 ^ fp.length) := by
    unfold pyDecimal
    have e1 := takeWhile_all (p := fun c => !(decide (c = 'e') || decide (c = 'E'))) he []
    have e2 := dropWhile_all (p := fun c => !(decide (c = 'e') || decide (c = 'E'))) he []
    rw [List.append_nil] at e1 e2
    dsimp only
    rw [e1, e2]
    dsimp only [List.dropWhile_nil, List.takeWhile_nil]
    rw [List.append_nil, pyMantissa_eq hi hf]
  unfold pyFloat
  rw [strip_solid hs]
  obtain ⟨hine, hid⟩ := hi
  cases ip with
  | nil => exact absurd rfl hine
  | cons a ip =>
    rw [List.cons_append, pySign_digits (hid a (by simp))]
    dsimp only
    rw [← List.cons_append, hdec]
    rfl

/-! ## Lines to rows -/

theorem parseLine_blank (dbl : ℚ → ℚ) {l : List Char} (h : Blank 0 l) : parseLine dbl l = .ok none := by
  unfold parseLine
  rw [strip_blank (blank_space h)]
  rfl

theorem digits_cons {w : List Char} (h : Digits w) : ∃ a u, w = a :: u ∧ isSpace a = false := by
  obtain ⟨hne, hd⟩ := h
  cases w with
  | nil => exact absurd rfl hne
  | cons a u => exact ⟨a, u, rfl, digit_not_space (hd a (by simp))⟩

theorem digits_snoc {w : List Char} (h : Digits w) : ∃ v b, w = v ++ [b] ∧ isSpace b = false := by
  rcases List.eq_nil_or_concat w with rfl | ⟨v, b, rfl⟩
  · exact absurd rfl h.1
  · exact ⟨v, b, by simp, digit_not_space (h.2 b (by simp))⟩

/-- The entry of a row. -/
def entryOf (dbl : ℚ → ℚ) (r : Row) : Entry := ⟨r.year, r.month, r.day, dbl r.value⟩

theorem parseLine_row (dbl : ℚ → ℚ) {d : ℕ} {r : Row} {l : List Char} (h : RowText d r l) :
    parseLine dbl l = .ok (some (entryOf dbl r)) := by
  obtain ⟨w0, y, w1, m, w2, dd, w3, ip, fp, w4, rfl, hw0, hw1, hw2, hw3, hw4, hy, hm, hd, hi, hf, rfl, ry, rm, rd, rv⟩ := h
  obtain ⟨ay, uy, ey, hay⟩ := digits_cons hy
  obtain ⟨am, um, em, ham⟩ := digits_cons hm
  obtain ⟨ad, ud, ed, had⟩ := digits_cons hd
  obtain ⟨ai, ui, ei, hai⟩ := digits_cons hi
  obtain ⟨vf, bf, ef, hbf⟩ := digits_snoc hf
  have hcore : strip (w0 ++ y ++ w1 ++ m ++ w2 ++ dd ++ w3 ++ ip ++ '.' :: fp ++ w4)
      = y ++ w1 ++ (m ++ w2 ++ (dd ++ w3 ++ (ip ++ '.' :: fp))) := by
    have := strip_eq (blank_space hw0) (blank_space hw4) hay hbf (core := y ++ w1 ++ (m ++ w2 ++ (dd ++ w3 ++ (ip ++ '.' :: fp))))
      (u := uy ++ w1 ++ (m ++ w2 ++ (dd ++ w3 ++ (ip ++ '.' :: fp))))
      (v := y ++ w1 ++ (m ++ w2 ++ (dd ++ w3 ++ (ip ++ '.' :: vf)))) (by rw [ey]; simp) (by rw [ef]; simp)
    rw [← this]
    simp only [List.append_assoc]
  have hsplit : splitWs 3 (y ++ w1 ++ (m ++ w2 ++ (dd ++ w3 ++ (ip ++ '.' :: fp)))) = [y, m, dd, ip ++ '.' :: fp] := by
    have s1 := splitWs_field 2 (fun c hc => digit_not_space (hy.2 c hc)) hw1 ham (um ++ w2 ++ (dd ++ w3 ++ (ip ++ '.' :: fp)))
    have s2 := splitWs_field 1 (fun c hc => digit_not_space (hm.2 c hc)) hw2 had (ud ++ w3 ++ (ip ++ '.' :: fp))
    have s3 := splitWs_field 0 (fun c hc => digit_not_space (hd.2 c hc)) hw3 hai (ui ++ '.' :: fp)
    have t1 : am :: (um ++ w2 ++ (dd ++ w3 ++ (ip ++ '.' :: fp))) = m ++ w2 ++ (dd ++ w3 ++ (ip ++ '.' :: fp)) := by
      rw [em]; simp
    have t2 : ad :: (ud ++ w3 ++ (ip ++ '.' :: fp)) = dd ++ w3 ++ (ip ++ '.' :: fp) := by rw [ed]; simp
    have t3 : ai :: (ui ++ '.' :: fp) = ip ++ '.' :: fp := by rw [ei]; simp
    rw [t1] at s1
    rw [t2] at s2
    rw [t3] at s3
    rw [s1, s2, s3]
    rfl
  unfold parseLine
  dsimp only
  rw [hcore, hsplit, if_pos (by rw [ey]; simp)]
  dsimp only
  rw [pyInt_digits hy, pyInt_digits hm, pyInt_digits hd, pyFloat_eq dbl hi hf, ry, rm, rd, ← rv]
  rfl

theorem parseLines_file (dbl : ℚ → ℚ) {D : ℕ} {lines : List Txt} {rows : List Row} (h : FileLines D lines rows) :
    parseLines dbl lines = (rows.map (entryOf dbl), none) := by
  induction h with
  | nil => rfl
  | blank hb _ ih => rw [parseLines, parseLine_blank dbl hb]; exact ih
  | row _ hr _ ih => rw [parseLines, parseLine_row dbl hr]; simp only [ih, List.map_cons]

theorem blank_no_nl {n : ℕ} {w : List Char} (h : Blank n w) : '\n' ∉ w := fun hc => by
  rcases h.2 _ hc with h | h <;> exact absurd h (by decide)

theorem file_no_nl {D : ℕ} {lines : List Txt} {rows : List Row} (h : FileLines D lines rows) :
    ∀ l ∈ lines, '\n' ∉ l := by
  induction h with
  | nil => simp
  | blank hb _ ih =>
    intro k hk
    rcases List.mem_cons.mp hk with rfl | hk
    · exact blank_no_nl hb
    · exact ih k hk
  | row _ hr _ ih =>
    intro k hk
    rcases List.mem_cons.mp hk with rfl | hk
    · obtain ⟨w0, y, w1, m, w2, dd, w3, ip, fp, w4, rfl, hw0, hw1, hw2, hw3, hw4, hy, hm, hd, hi, hf, -⟩ := hr
      simp only [List.mem_append, List.mem_cons, not_or]
      exact ⟨⟨⟨⟨⟨⟨⟨⟨⟨blank_no_nl hw0, digits_no_nl hy.2⟩, blank_no_nl hw1⟩, digits_no_nl hm.2⟩, blank_no_nl hw2⟩,
        digits_no_nl hd.2⟩, blank_no_nl hw3⟩, digits_no_nl hi.2⟩, by decide, digits_no_nl hf.2⟩, blank_no_nl hw4⟩
    · exact ih k hk

end Verif
