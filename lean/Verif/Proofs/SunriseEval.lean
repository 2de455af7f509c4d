import Verif.Spec.Sunrise
import Verif.Proofs.SolarEval
import Verif.Proofs.Time

/-!
# Evaluation of the sunrise functions over the exact `math` backend
-/

namespace Verif

open Verif.Spec Pysolar Pysolar.Util Real

variable {tp : ℝ}

theorem sunriseDecl_eval (n : ℝ) : sunriseDecl (mathB tp) (num n) = .ok (num (sunriseDeclination n)) := by
  have h : ((366 : ℚ) : ℝ) = 366 := by norm_num
  simp -implicitDefEqProofs only [sunriseDecl, m_ofNat, m_sci, m_pi, m_mul, m_divq, m_cos, m_sin, m_sub, m_add, ok_bind,
    pure_eq_ok, h]
  congr 2
  simp [sunriseDeclination, fourier]
  ring

theorem timeAdst_eval (n : ℝ) : timeAdst (mathB tp) (num n) = .ok (num (equationOfTime n)) := by
  have h : ((3600 : ℚ) : ℝ) = 3600 := by norm_num
  simp -implicitDefEqProofs only [timeAdst, m_ofNat, m_sci, m_mul, m_divq, m_cos, m_sin, m_sub, m_add, ok_bind, m_radians,
    pure_eq_ok, h]
  congr 2
  simp [equationOfTime, fourier]
  ring

theorem sunriseDeclination_abs (n : ℝ) : |sunriseDeclination n| ≤ 28 := by
  have c1 := abs_le.mp (abs_cos_le_one (2 * π * n / 366))
  have c2 := abs_le.mp (abs_cos_le_one (2 * (2 * π * n / 366)))
  have c3 := abs_le.mp (abs_cos_le_one (3 * (2 * π * n / 366)))
  have s1 := abs_le.mp (abs_sin_le_one (2 * π * n / 366))
  have s2 := abs_le.mp (abs_sin_le_one (2 * (2 * π * n / 366)))
  have s3 := abs_le.mp (abs_sin_le_one (3 * (2 * π * n / 366)))
  rw [abs_le]
  norm_num [sunriseDeclination, fourier]
  constructor <;> linarith

theorem equationOfTime_abs (n : ℝ) : |equationOfTime n| ≤ 0.33 := by
  unfold equationOfTime
  generalize rad (279.134 + 0.985647 * n) = x
  have c1 := abs_le.mp (abs_cos_le_one x)
  have c2 := abs_le.mp (abs_cos_le_one (2 * x))
  have c3 := abs_le.mp (abs_cos_le_one (3 * x))
  have s1 := abs_le.mp (abs_sin_le_one x)
  have s2 := abs_le.mp (abs_sin_le_one (2 * x))
  have s3 := abs_le.mp (abs_sin_le_one (3 * x))
  have s4 := abs_le.mp (abs_sin_le_one (4 * x))
  rw [abs_le]
  norm_num [fourier]
  constructor <;> linarith

/-- The argument of the arc cosine. -/
noncomputable def cosHalfDay (tp lat dec : ℝ) : ℝ :=
  cos (rad 90.833) / (cos (rad lat) * cos (rad dec)) - tanP tp (rad lat) * tanP tp (rad dec)

theorem ha_eval_ok {lat dec : ℝ} (h0 : cos (rad lat) * cos (rad dec) ≠ 0)
    (h1 : -1 ≤ cosHalfDay tp lat dec ∧ cosHalfDay tp lat dec ≤ 1) :
    sunriseHa (mathB tp) (num lat) (num dec) = .ok (num (arccos (cosHalfDay tp lat dec) * (12 / π))) := by
  unfold cosHalfDay at *
  simp -implicitDefEqProofs only [sunriseHa, m_sci, m_radians, m_cos, m_tan, ok_bind, m_mul, m_div _ h0, m_sub, m_acos h1,
    m_pi, m_ofNat, m_div _ pi_ne_zero, pure_eq_ok]
  norm_num

theorem ha_eval_value {lat dec : ℝ} (h0 : cos (rad lat) * cos (rad dec) ≠ 0)
    (h1 : ¬ (-1 ≤ cosHalfDay tp lat dec ∧ cosHalfDay tp lat dec ≤ 1)) :
    sunriseHa (mathB tp) (num lat) (num dec) = .error .valueError := by
  unfold cosHalfDay at *
  simp -implicitDefEqProofs only [sunriseHa, m_sci, m_radians, m_cos, m_tan, ok_bind, m_mul, m_div _ h0, m_sub, m_acos_err h1,
    error_bind]

theorem ha_eval_zero {lat dec : ℝ} (h0 : cos (rad lat) * cos (rad dec) = 0) :
    sunriseHa (mathB tp) (num lat) (num dec) = .error .zeroDivision := by
  simp -implicitDefEqProofs only [sunriseHa, m_sci, m_radians, m_cos, ok_bind, m_mul, h0, m_div_zero,
    error_bind]

theorem ha_inv {lat dec : ℝ} {y : (mathB tp).α} (h : sunriseHa (mathB tp) (num lat) (num dec) = .ok y) :
    cos (rad lat) * cos (rad dec) ≠ 0 ∧ (-1 ≤ cosHalfDay tp lat dec ∧ cosHalfDay tp lat dec ≤ 1) ∧
      y = num (arccos (cosHalfDay tp lat dec) * (12 / π)) := by
  by_cases h0 : cos (rad lat) * cos (rad dec) = 0
  · rw [ha_eval_zero h0] at h; simp at h
  · by_cases h1 : -1 ≤ cosHalfDay tp lat dec ∧ cosHalfDay tp lat dec ≤ 1
    · rw [ha_eval_ok h0 h1] at h
      exact ⟨h0, h1, (Except.ok.inj h).symm⟩
    · rw [ha_eval_value h0 h1] at h; simp at h

theorem sunrise_eval {d : DateTime} (hd : d.tz.isSome) (lat lon : ℝ) :
    get_sunrise_sunset_transit (mathB tp) (num lat) (num lon) (.dt d) = (do
      let ha ← sunriseHa (mathB tp) (num lat) (num (sunriseDeclination (yday d.civil.date)))
      let a ← (sameDay d).add (← (mathB tp).tdHours
        (num (noonHour (utcOffsetSeconds d) lon (yday d.civil.date)) - ha))
      let b ← (sameDay d).add (← (mathB tp).tdHours
        (num (noonHour (utcOffsetSeconds d) lon (yday d.civil.date)) + ha))
      let c ← (sameDay d).add (← (mathB tp).tdHours
        (num (noonHour (utcOffsetSeconds d) lon (yday d.civil.date))))
      return (a, b, c)) := by
  have hg : TzCheck.guard (B := mathB tp) (.dt d) = .ok () := by
    simp [TzCheck.guard, TzCheck.checkValue, TzCheck.whenView, Option.isSome_iff_ne_none.mp hd]
  have h1 : ((3600 : ℚ) : ℝ) = 3600 := by norm_num
  have h2 : ((15.0 : ℚ) : ℝ) = 15 := by norm_num
  have h3 : (((yday d.civil.date : ℤ) : ℚ) : ℝ) = yday d.civil.date := by norm_num
  have e : ∀ off : ℝ, (num (((12 : ℕ) : ℝ) + (off / 3600 * 15.0 - lon) / 15 - equationOfTime (yday d.civil.date)) : (mathB tp).α)
      = num (noonHour off lon (yday d.civil.date)) := fun off => by
    congr 1
    unfold noonHour
    norm_num
    ring
  simp -implicitDefEqProofs only [get_sunrise_sunset_transit, hg, asDatetime, ok_bind, m_lit, h3, sunriseDecl_eval, timeAdst_eval,
    m_divq, h1, h2, m_sci, m_ofNat, m_mul, m_sub, m_add, e]

theorem add_inv {d r : DateTime} {us : ℤ} (h : d.add us = .ok r) :
    r = ⟨civilOfMicros (d.civil.micros + us), false, d.tz⟩ ∧ r.civil.Valid ∧
      r.civil.micros = d.civil.micros + us := by
  unfold DateTime.add civilChecked at h
  dsimp only at h
  split_ifs at h with hy
  · have := Except.ok.inj h
    rw [← this]
    exact ⟨rfl, ⟨hy.1, hy.2, civilOfMicros_valid _⟩, micros_civilOfMicros _⟩
  · simp at h

theorem add_err {d : DateTime} {us : ℤ} {e : PyErr} (h : d.add us = .error e) : e = .overflow := by
  unfold DateTime.add civilChecked at h
  dsimp only at h
  split_ifs at h with hy
  · simp at h
  · exact (Except.error.inj h).symm

theorem tdHours_inv {a : ℝ} {us : ℤ} (h : tdHoursV (.fin a) = .ok us) : us = roundHalfEven (hourMicros a) := by
  unfold tdHoursV at h
  dsimp only at h
  split_ifs at h
  · exact (Except.ok.inj h).symm

theorem tdHours_err {a : ℝ} {e : PyErr} (h : tdHoursV (.fin a) = .error e) : e = .overflow := by
  unfold tdHoursV at h
  dsimp only at h
  split_ifs at h
  · exact (Except.error.inj h).symm

/-- Everything known about a successful call. -/
theorem sunrise_inv {d sr ss tr : DateTime} {lat lon : ℝ}
    (h : get_sunrise_sunset_transit (mathB tp) (num lat) (num lon) (.dt d) = .ok (sr, ss, tr)) :
    ∃ noon ha, noon = noonHour (utcOffsetSeconds d) lon (yday d.civil.date) ∧
      cos (rad lat) * cos (rad (sunriseDeclination (yday d.civil.date))) ≠ 0 ∧
      (-1 ≤ cosHalfDay tp lat (sunriseDeclination (yday d.civil.date)) ∧
        cosHalfDay tp lat (sunriseDeclination (yday d.civil.date)) ≤ 1) ∧
      ha = arccos (cosHalfDay tp lat (sunriseDeclination (yday d.civil.date))) * (12 / π) ∧
      (sr.civil.Valid ∧ ss.civil.Valid ∧ tr.civil.Valid) ∧
      (sr.tz = d.tz ∧ ss.tz = d.tz ∧ tr.tz = d.tz) ∧
      (sr.fold = false ∧ ss.fold = false ∧ tr.fold = false) ∧
      sr.civil.micros = (sameDay d).civil.micros + roundHalfEven (hourMicros (noon - ha)) ∧
      ss.civil.micros = (sameDay d).civil.micros + roundHalfEven (hourMicros (noon + ha)) ∧
      tr.civil.micros = (sameDay d).civil.micros + roundHalfEven (hourMicros noon) := by
  by_cases hd : d.tz.isSome
  · rw [sunrise_eval hd] at h
    cases hh : sunriseHa (mathB tp) (num lat) (num (sunriseDeclination (yday d.civil.date))) with
    | error e => rw [hh] at h; simp at h
    | ok y =>
      obtain ⟨h0, h1, hy⟩ := ha_inv hh
      rw [hh, hy] at h
      set noon := noonHour (utcOffsetSeconds d) lon (yday d.civil.date) with hn
      set ha := arccos (cosHalfDay tp lat (sunriseDeclination (yday d.civil.date))) * (12 / π) with hha
      simp only [ok_bind, m_sub, m_add, m_tdHours] at h
      cases ha1 : tdHoursV (.fin (noon - ha)) with
      | error e => rw [ha1] at h; simp at h
      | ok u1 =>
      rw [ha1] at h
      simp only [ok_bind] at h
      cases hb1 : (sameDay d).add u1 with
      | error e => rw [hb1] at h; simp at h
      | ok a =>
      rw [hb1] at h
      simp only [ok_bind] at h
      cases ha2 : tdHoursV (.fin (noon + ha)) with
      | error e => rw [ha2] at h; simp at h
      | ok u2 =>
      rw [ha2] at h
      simp only [ok_bind] at h
      cases hb2 : (sameDay d).add u2 with
      | error e => rw [hb2] at h; simp at h
      | ok b =>
      rw [hb2] at h
      simp only [ok_bind] at h
      cases ha3 : tdHoursV (.fin noon) with
      | error e => rw [ha3] at h; simp at h
      | ok u3 =>
      rw [ha3] at h
      simp only [ok_bind] at h
      cases hb3 : (sameDay d).add u3 with
      | error e => rw [hb3] at h; simp at h
      | ok c =>
      rw [hb3] at h
      simp only [ok_bind, pure_eq_ok] at h
      obtain ⟨rfl, rfl, rfl⟩ : a = sr ∧ b = ss ∧ c = tr := by
        have := Except.ok.inj h
        simpa using this
      obtain ⟨ea, va, ma⟩ := add_inv hb1
      obtain ⟨eb, vb, mb'⟩ := add_inv hb2
      obtain ⟨ec, vc, mc⟩ := add_inv hb3
      refine ⟨noon, ha, rfl, h0, h1, rfl, ⟨va, vb, vc⟩, ?_, ?_, ?_, ?_, ?_⟩
      · rw [ea, eb, ec]; exact ⟨rfl, rfl, rfl⟩
      · rw [ea, eb, ec]; exact ⟨rfl, rfl, rfl⟩
      · rw [ma, tdHours_inv ha1]
      · rw [mb', tdHours_inv ha2]
      · rw [mc, tdHours_inv ha3]
  · have hg : TzCheck.guard (B := mathB tp) (.dt d) = .error (.noTimeZoneInfo "when") := by
      have hd : d.tz = none := by simpa using hd
      simp [TzCheck.guard, TzCheck.checkValue, TzCheck.whenView, hd]
    rw [get_sunrise_sunset_transit, hg] at h
    simp at h

/-! ## Rounding -/

theorem roundHalfEven_bounds (x : ℝ) : |(roundHalfEven x : ℝ) - x| ≤ 1 / 2 := by
  have h1 := Int.fract_nonneg x
  have h2 := Int.fract_lt_one x
  have h3 := Int.self_sub_floor x
  unfold roundHalfEven
  rw [abs_le]
  split_ifs <;> push_cast <;> constructor <;> linarith

theorem roundHalfEven_mono {x y : ℝ} (h : x ≤ y) : roundHalfEven x ≤ roundHalfEven y := by
  have hf := Int.floor_mono h
  rcases hf.eq_or_lt with he | hl
  · have hfr : Int.fract x ≤ Int.fract y := by
      have h1 := Int.self_sub_floor x
      have h2 := Int.self_sub_floor y
      rw [he] at h1
      linarith
    unfold roundHalfEven
    rw [he]
    split_ifs <;> first | omega | (exfalso; linarith)
  · have h1 : roundHalfEven x ≤ ⌊x⌋ + 1 := by
      unfold roundHalfEven; split_ifs <;> omega
    have h2 : ⌊y⌋ ≤ roundHalfEven y := by
      unfold roundHalfEven; split_ifs <;> omega
    omega

theorem roundHalfEven_add_even (x : ℝ) {n : ℤ} (hn : Even n) : roundHalfEven (x + n) = roundHalfEven x + n := by
  unfold roundHalfEven
  rw [Int.fract_add_intCast, Int.floor_add_intCast]
  have he : Even (⌊x⌋ + n) ↔ Even ⌊x⌋ := by
    rw [Int.even_add]; simp [hn]
  simp only [he]
  split_ifs <;> ring

theorem roundHalfEven_int (n : ℤ) : roundHalfEven n = n := by
  unfold roundHalfEven
  simp

end Verif
