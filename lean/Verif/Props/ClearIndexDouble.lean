import Verif.Props.ExtraterrestrialDouble

/-!
# C177: the clear index in double precision

With a positive measured irradiance, at any aware datetime and for any latitude and longitude, even infinite or nan, what
`clear_index` returns in IEEE double precision is never nan, never negative and never less than the measurement divided by 1417:
a number or positive infinity. With `math` the only other outcomes are `ZeroDivisionError` and the exceptions of
`extraterrestrial_irrad`; with numpy positive infinity takes the place of `ZeroDivisionError`.
-/

namespace Verif.Props

open Verif Verif.Spec Pysolar Pysolar.Util Chain

/-- Positive infinity or a number not below `lo`. -/
def FromUp (lo : ℝ) (v : V) : Prop := v = .pinf ∨ ∃ r, v = .fin r ∧ lo ≤ r

theorem quotient_from {g r : ℝ} (hg : 0 < g) (r0 : 0 < r) (r1 : r ≤ 1417) :
    FromUp (b64 (g / 1417)) (V.rnd binary64 (.fin (g / r))) := by
  have m : b64 (g / 1417) ≤ binary64.rnd (g / r) := b64_mono (div_le_div_of_nonneg_left hg.le r0 r1)
  have p : 0 ≤ b64 (g / 1417) := b64_nonneg (by positivity)
  simp only [V.rnd]
  split_ifs with h1 h2
  · exact .inl rfl
  · exfalso
    have : (0 : ℝ) < 2 ^ 1024 := by positivity
    generalize (2 : ℝ) ^ 1024 = K at *
    linarith
  · exact .inr ⟨_, rfl, m⟩

/-- C177 for `math`: the value, or the exception. -/
theorem C177_math (d : DateTime) (c : Civil) (h : UtcFields d c) (lat lon : V) (g : ℝ) (hg : 0 < g) :
    (∀ v, clear_index (rndB binary64) (.fin g) lat lon (.dt d) = .ok v → FromUp (b64 (g / 1417)) v) ∧
    (∀ e, clear_index (rndB binary64) (.fin g) lat lon (.dt d) = .error e →
      e = .zeroDivision ∨ extraterrestrial_irrad (rndB binary64) lat lon (.dt d) = .error e) := by
  have s := clear_index_split (rndB binary64) h (.fin g) lat lon
  cases hx : extraterrestrial_irrad (rndB binary64) lat lon (.dt d) with
  | error e =>
    have k : clear_index (rndB binary64) (.fin g) lat lon (.dt d) = .error e := s.trans (by rw [hx]; rfl)
    exact ⟨fun v hv => (by cases k.symm.trans hv), fun e' he => .inr (congrArg Except.error (Except.error.inj (k.symm.trans he)))⟩
  | ok x =>
    obtain ⟨r, rfl, r0, r1⟩ := (C175_number d c h lat lon x).1 hx
    have k := s.trans (bind_of_ok hx rfl)
    rcases r0.eq_or_lt with e | r0
    · have k2 : (rndB binary64).div (.fin g) (.fin r) = .error .zeroDivision := if_pos e.symm
      exact ⟨fun v hv => (by cases (k.trans k2).symm.trans hv),
        fun e' he => .inl (Except.error.inj ((k.trans k2).symm.trans he)).symm⟩
    · have k2 : (rndB binary64).div (.fin g) (.fin r) = .ok (V.rnd binary64 (.fin (g / r))) := if_neg r0.ne'
      exact ⟨fun v hv => Except.ok.inj ((k.trans k2).symm.trans hv) ▸ quotient_from hg r0 r1,
        fun e' he => (by cases (k.trans k2).symm.trans he)⟩

/-- C177 for numpy. -/
theorem C177_numpy (d : DateTime) (c : Civil) (h : UtcFields d c) (lat lon : V) (g : ℝ) (hg : 0 < g) :
    (∀ v, clear_index (nprB binary64) (.fin g) lat lon (.dt d) = .ok v → FromUp (b64 (g / 1417)) v) ∧
    (∀ e, clear_index (nprB binary64) (.fin g) lat lon (.dt d) = .error e →
      extraterrestrial_irrad (nprB binary64) lat lon (.dt d) = .error e) := by
  have s := clear_index_split (nprB binary64) h (.fin g) lat lon
  cases hx : extraterrestrial_irrad (nprB binary64) lat lon (.dt d) with
  | error e =>
    have k : clear_index (nprB binary64) (.fin g) lat lon (.dt d) = .error e := s.trans (by rw [hx]; rfl)
    exact ⟨fun v hv => (by cases k.symm.trans hv), fun e' he => congrArg Except.error (Except.error.inj (k.symm.trans he))⟩
  | ok x =>
    obtain ⟨r, rfl, r0, r1⟩ := (C175_number d c h lat lon x).2 hx
    have k := s.trans (bind_of_ok hx rfl)
    rcases r0.eq_or_lt with e | r0
    · have k2 : (nprB binary64).div (.fin g) (.fin r) = .ok .pinf := (if_pos e.symm).trans (congrArg Except.ok (if_pos hg))
      exact ⟨fun v hv => Except.ok.inj ((k.trans k2).symm.trans hv) ▸ .inl rfl, fun e' he => (by cases (k.trans k2).symm.trans he)⟩
    · have k2 : (nprB binary64).div (.fin g) (.fin r) = .ok (V.rnd binary64 (.fin (g / r))) := if_neg r0.ne'
      exact ⟨fun v hv => Except.ok.inj ((k.trans k2).symm.trans hv) ▸ quotient_from hg r0 r1,
        fun e' he => (by cases (k.trans k2).symm.trans he)⟩

/-- A concrete case: 500 W/m² in Denver on 18 February 2007 never gives a clear index below 0.35. -/
example (v : V) (h : clear_index (rndB binary64) (.fin 500) (flt binary64 39.7) (flt binary64 (-105)) (.dt sampleDT) = .ok v) :
    FromUp 0.35 v := by
  rcases (C177_math _ _ sample_utc _ _ 500 (by norm_num)).1 v h with h | ⟨r, h, hr⟩
  · exact .inl h
  · refine .inr ⟨r, h, le_trans ?_ hr⟩
    have := (abs_le.1 (round_ge (x := 500 / 1417) (m := 1) (by norm_num) (by norm_num)).2).1
    norm_num at this ⊢
    linarith

end Verif.Props
