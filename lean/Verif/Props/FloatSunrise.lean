import Verif.Proofs.FloatSunrise
import Verif.Props.Float

/-!
# C107: sunrise, sunset and transit in double precision
-/

namespace Verif.Props

open Verif.Spec Verif.Chain Pysolar Pysolar.Util

/-- The cosine of the hour angle at which a sun of declination `dec` stands 0.833 degrees below the horizon. Sunrise and
sunset exist when it is between -1 and 1. -/
noncomputable def horizonCosine (lat dec : ℝ) : ℝ :=
  (Real.sin (rad (-0.833)) - Real.sin (rad lat) * Real.sin (rad dec)) / (Real.cos (rad lat) * Real.cos (rad dec))

theorem dayCos_eq {lat dec : ℝ} (h1 : 0 < Real.cos (rad lat)) (h2 : 0 < Real.cos (rad dec)) :
    dayCos lat dec = horizonCosine lat dec := by
  unfold dayCos horizonCosine
  rw [cos_90833, Real.tan_eq_sin_div_cos, Real.tan_eq_sin_div_cos]
  field_simp

theorem int_close {a b : ℤ} {x δ : ℝ} (h1 : |(a : ℝ) - x| ≤ δ) {N : ℤ} (h2 : b = roundHalfEven x) (h : δ + 1 / 2 < N + 1) :
    |a - b| ≤ N := by
  have h3 := abs_le.1 (roundHalfEven_bounds x)
  rw [← h2] at h3
  have h1' := abs_le.1 h1
  have : |((a - b : ℤ) : ℝ)| < ((N + 1 : ℤ) : ℝ) := by
    push_cast
    rw [abs_lt]
    constructor <;> linarith
  have h4 : |a - b| < N + 1 := by exact_mod_cast this
  omega

/-- C107: `get_sunrise_sunset_transit` in double precision, for latitudes up to 89 degrees and the years 2 to 9998. Where
the exact computation gives three times, the computed transit is within 1 microsecond of the exact one, and computed
sunrise and sunset are within 40 milliseconds, and within 1 microsecond unless the day is nearly polar (cosine of half
the day arc beyond 0.99). Double precision and exact arithmetic can disagree about polar day and night (`ValueError`)
only with that cosine within 3.5e-12 of 1 or -1. -/
theorem C107_sunrise (F : F64) (tp lat lon : ℝ) (hlat : |lat| ≤ 89) (hlon : |lon| ≤ 180) (d : DateTime)
    (hd : d.tz.isSome) (hv : d.Valid) (hy : 2 ≤ d.civil.year) (hy' : d.civil.year ≤ 9998) (K : ℝ)
    (hK : K = horizonCosine lat (sunriseDeclination (yday d.civil.date))) :
    (∀ sr ss tr, get_sunrise_sunset_transit (mathB tp) (num lat) (num lon) (.dt d) = .ok (sr, ss, tr) →
      (∃ sr' ss' tr', get_sunrise_sunset_transit (rndB F) (flt F lat) (flt F lon) (.dt d) = .ok (sr', ss', tr') ∧
        |tr'.civil.micros - tr.civil.micros| ≤ 1 ∧
        |sr'.civil.micros - sr.civil.micros| ≤ 40000 ∧ |ss'.civil.micros - ss.civil.micros| ≤ 40000 ∧
        (|K| ≤ 0.99 → |sr'.civil.micros - sr.civil.micros| ≤ 1 ∧ |ss'.civil.micros - ss.civil.micros| ≤ 1)) ∨
      (get_sunrise_sunset_transit (rndB F) (flt F lat) (flt F lon) (.dt d) = .error .valueError ∧
        1 - 35 / 10 ^ 13 < |K| ∧ |K| ≤ 1)) ∧
    (∀ e, get_sunrise_sunset_transit (mathB tp) (num lat) (num lon) (.dt d) = .error e →
      e = .valueError ∧ 1 < |K| ∧
      (get_sunrise_sunset_transit (rndB F) (flt F lat) (flt F lon) (.dt d) = .error .valueError ∨
        |K| ≤ 1 + 35 / 10 ^ 13)) := by
  have hlat' : |lat| < 90 := by linarith
  have hl := abs_lt.1 hlat'
  have c1 := cos_rad_pos hl.1 hl.2
  have hdec := decl_range (yday d.civil.date)
  have c2 := cos_rad_pos hdec.1 hdec.2
  have eK : dayCos lat (sunriseDeclination (yday d.civil.date)) = K := by rw [hK, dayCos_eq c1 c2]
  have eT : cosHalfDay tp lat (sunriseDeclination (yday d.civil.date)) = K := by
    rw [cosHalfDay_eq c1.ne' c2.ne', eK]
  have hf := sr_float F hlat hlon hd hv hy hy'
  rw [eK] at hf
  constructor
  · intro sr ss tr h
    obtain ⟨noon, ha, hn, -, hx, hha, -, -, -, a1, a2, a3⟩ := sunrise_inv h
    rw [eT] at hx hha
    have hx' : |K| ≤ 1 := abs_le.2 hx
    rcases hf with ⟨h1, h2⟩ | ⟨sr', ss', tr', h1, -, h3, h4⟩
    · exact .inr ⟨h1, h2, hx'⟩
    · left
      have close : ∀ {r r' : DateTime} {x δ : ℝ} {N : ℤ},
          r.civil.micros = (sameDay d).civil.micros + roundHalfEven (hourMicros x) →
          |((r'.civil.micros - (sameDay d).civil.micros : ℤ) : ℝ) - hourMicros x| ≤ δ → δ + 1 / 2 < N + 1 →
          |r'.civil.micros - r.civil.micros| ≤ N := by
        intro r r' x δ N h5 h6 h7
        have := int_close (b := r.civil.micros - (sameDay d).civil.micros) h6 (by rw [h5]; ring) h7
        rwa [show r'.civil.micros - (sameDay d).civil.micros - (r.civil.micros - (sameDay d).civil.micros)
          = r'.civil.micros - r.civil.micros by ring] at this
      rw [hn] at a1 a2 a3
      obtain ⟨w1, w2⟩ := h4 ha hha 39700 (.inl ⟨hx', rfl⟩)
      refine ⟨sr', ss', tr', h1, close a3 h3 (by norm_num), close a1 w1 (by norm_num), close a2 w2 (by norm_num), ?_⟩
      intro hK2
      obtain ⟨v1, v2⟩ := h4 ha hha 1.3 (.inr ⟨hK2, rfl⟩)
      exact ⟨close a1 v1 (by norm_num), close a2 v2 (by norm_num)⟩
  · intro e h
    have hno : ¬ ∃ H, OnHorizon lat (sunriseDeclination (yday d.civil.date)) H := by
      intro hH
      obtain ⟨_, _, _, h'⟩ := C50_returns tp lat lon hlat' hlon d hd hv hy hy' hH
      rw [h'] at h
      cases h
    rw [exists_onHorizon_iff (tp := tp) c1 c2, eT, ← abs_le] at hno
    have he : e = .valueError := by
      rw [sunrise_eval hd, ha_eval_value (mul_pos c1 c2).ne' (by rw [eT, ← abs_le]; exact hno)] at h
      exact (Except.error.inj h).symm
    refine ⟨he, not_le.1 hno, ?_⟩
    rcases hf with ⟨h1, -⟩ | ⟨_, _, _, -, h2, -⟩
    · exact .inl h1
    · exact .inr h2

/-- C107 for binary64 at the equator: all three times are within 1 microsecond of the exact ones. -/
example : ∃ sr ss tr sr' ss' tr',
    get_sunrise_sunset_transit (mathB 0) (num 0) (num (-71.1)) (.dt sampleDT) = .ok (sr, ss, tr) ∧
    get_sunrise_sunset_transit (rndB binary64) (flt binary64 0) (flt binary64 (-71.1)) (.dt sampleDT) = .ok (sr', ss', tr') ∧
    |sr'.civil.micros - sr.civil.micros| ≤ 1 ∧ |ss'.civil.micros - ss.civil.micros| ≤ 1 ∧
    |tr'.civil.micros - tr.civil.micros| ≤ 1 := by
  have hv : sampleDT.Valid := ⟨civil_valid_of_check (by decide), fun o h => by
    have h : some (-18000000000) = some o := h
    cases h; decide⟩
  have hlon : |(-71.1 : ℝ)| ≤ 180 := by rw [abs_of_neg] <;> norm_num
  obtain ⟨sr, ss, tr, h⟩ := C50_returns 0 0 (-71.1) (by norm_num) hlon sampleDT rfl hv (by decide) (by decide)
    (equator_onHorizon _)
  have hK : |horizonCosine 0 (sunriseDeclination (yday sampleDT.civil.date))| ≤ 0.99 := by
    have h1 := (cos28 (sunriseDeclination_abs (yday sampleDT.civil.date))).1
    have h2 := c1_range
    rw [cos_90833] at h2
    unfold horizonCosine
    have e0 : rad 0 = 0 := by simp [rad]
    rw [e0, Real.sin_zero, Real.cos_zero, zero_mul, sub_zero, one_mul, abs_div,
      abs_of_pos (by linarith : 0 < Real.cos (rad (sunriseDeclination (yday sampleDT.civil.date)))),
      div_le_iff₀ (by linarith), abs_le]
    constructor <;> norm_num at * <;> linarith
  rcases (C107_sunrise binary64 0 0 (-71.1) (by norm_num) hlon sampleDT rfl hv (by decide) (by decide) _ rfl).1 sr ss tr h with
    ⟨sr', ss', tr', h1, h2, -, -, h5⟩ | ⟨-, h2, -⟩
  · exact ⟨sr, ss, tr, sr', ss', tr', h, h1, (h5 hK).1, (h5 hK).2, h2⟩
  · norm_num at hK h2
    linarith

end Verif.Props
