import Verif.Props.FastEquinox
import Verif.Props.NightRadiation
import Verif.Props.FloatPole

/-!
# C165: bearings in double precision

In IEEE double precision `get_azimuth` returns, for whatever arguments, a number from 0 up to but not including 360, if it returns
a number at all. `get_azimuth_fast` can return 360.0: it adds 360 to a negative angle, and the sum with a tiny negative angle is
rounded to 360. The case proved here is 80° south, 1.88250000000002° east, 22 March 2007 12:00 UTC.
-/

namespace Verif.Props

open Verif Verif.Spec Pysolar Pysolar.Solar Pysolar.Constants Chain

/-- Rounding a double changes nothing. -/
theorem b64_idem (x : ℝ) : b64 (b64 x) = b64 x := by
  have := (b64_nearest (b64 x)).2 (b64 x) (b64_nearest x).1
  rw [sub_self, abs_zero] at this
  exact sub_eq_zero.1 (abs_nonpos_iff.1 this)

theorem half_turn : b64 (7074237752028440 / 2 ^ 51 * (8063664102031864 / 2 ^ 47)) = 180 := by
  have := b64_near (x := 7074237752028440 / 2 ^ 51 * (8063664102031864 / 2 ^ 47)) 6333186975989760 45 (by norm_num) (by norm_num)
    (by norm_num) (by rw [abs_lt]; constructor <;> norm_num)
  rw [this]
  norm_num

theorem b64_half_pi : b64 (Real.pi / 2) = 7074237752028440 / 2 ^ 52 := by
  have h1 := Real.pi_gt_d20
  have h2 := Real.pi_lt_d20
  have := b64_near (x := Real.pi / 2) 7074237752028440 52 (by norm_num) (by norm_num at *; linarith) (by norm_num)
    (by rw [abs_lt]; constructor <;> norm_num at * <;> linarith)
  push_cast at this
  exact this

theorem quarter_turn : b64 (7074237752028440 / 2 ^ 52 * (8063664102031864 / 2 ^ 47)) = 90 := by
  have := b64_near (x := 7074237752028440 / 2 ^ 52 * (8063664102031864 / 2 ^ 47)) 6333186975989760 46 (by norm_num) (by norm_num)
    (by norm_num) (by rw [abs_lt]; constructor <;> norm_num)
  rw [this]
  norm_num

/-- `math.degrees` of an angle within half a turn. -/
theorem deg_half_turn {t : ℝ} (h : |t| ≤ b64 Real.pi) : ∃ g : ℝ, (rndB binary64).degrees (V.fin t) = V.fin g ∧ |g| ≤ 180 := by
  have hp := b64_pi
  rw [hp] at h
  have h' := abs_le.1 h
  refine ⟨b64 (t * (8063664102031864 / 2 ^ 47)), ?_, ?_⟩
  · show V.rnd binary64 (.fin (t * b64 (180 / b64 Real.pi))) = _
    rw [hp, eq_factor]
    refine vrnd64 ?_ rfl
    rw [abs_mul]
    calc |t| * _ ≤ 4 * 100 := by
          refine mul_le_mul (h.trans (by norm_num)) ?_ (abs_nonneg _) (by norm_num)
          rw [abs_of_nonneg (by positivity)]
          norm_num
      _ ≤ _ := by norm_num
  · have a := b64_mono (mul_le_mul_of_nonneg_right h'.2 (by positivity : (0 : ℝ) ≤ 8063664102031864 / 2 ^ 47))
    have b := b64_mono (mul_le_mul_of_nonneg_right h'.1 (by positivity : (0 : ℝ) ≤ 8063664102031864 / 2 ^ 47))
    rw [half_turn] at a
    rw [neg_mul, b64_neg, half_turn] at b
    exact abs_le.2 ⟨b, a⟩

/-- `math.degrees` of an angle within a quarter of a turn. -/
theorem deg_quarter_turn {t : ℝ} (h : |t| ≤ b64 (Real.pi / 2)) :
    ∃ g : ℝ, (rndB binary64).degrees (V.fin t) = V.fin g ∧ |g| ≤ 90 ∧ (t < 0 → g ≤ 0) ∧ (0 ≤ t → 0 ≤ g) := by
  have hp := b64_half_pi
  rw [hp] at h
  have h' := abs_le.1 h
  refine ⟨b64 (t * (8063664102031864 / 2 ^ 47)), deg64 (h.trans (by norm_num)), ?_, ?_, ?_⟩
  · have a := b64_mono (mul_le_mul_of_nonneg_right h'.2 (by positivity : (0 : ℝ) ≤ 8063664102031864 / 2 ^ 47))
    have b := b64_mono (mul_le_mul_of_nonneg_right h'.1 (by positivity : (0 : ℝ) ≤ 8063664102031864 / 2 ^ 47))
    rw [quarter_turn] at a
    rw [neg_mul, b64_neg, quarter_turn] at b
    exact abs_le.2 ⟨b, a⟩
  · intro ht
    have a := b64_mono (show t * (8063664102031864 / 2 ^ 47) ≤ 0 from mul_nonpos_of_nonpos_of_nonneg ht.le (by positivity))
    rwa [b64_zero] at a
  · intro ht
    have a := b64_mono (show 0 ≤ t * (8063664102031864 / 2 ^ 47) by positivity)
    rwa [b64_zero] at a

theorem atan2_exact (y x : V) : V.atan2 y x = V.nan ∨ ∃ c, V.atan2 y x = V.fin c ∧ |c| ≤ Real.pi := by
  have hp := Real.pi_pos
  cases y <;> cases x
  case fin.fin => exact .inr ⟨_, rfl, Complex.abs_arg_le_pi _⟩
  case fin.ninf a =>
    by_cases h : 0 ≤ a
    · exact .inr ⟨Real.pi, if_pos h, (abs_of_pos hp).le⟩
    · exact .inr ⟨-Real.pi, if_neg h, by rw [abs_neg, abs_of_pos hp]⟩
  all_goals first
    | exact .inl rfl
    | exact .inr ⟨_, rfl, by rw [abs_le]; constructor <;> linarith⟩

/-- The rounded arctangent is within half a turn. -/
theorem atan2_half_turn {y x : V} {v : V} (h : (rndB binary64).atan2 y x = .ok v) : v = V.nan ∨ ∃ t, v = V.fin t ∧ |t| ≤ b64 Real.pi := by
  have key : ∀ c : ℝ, |c| ≤ Real.pi → |b64 c| ≤ b64 Real.pi := fun c hc => by
    have hc' := abs_le.1 hc
    have a := b64_mono hc'.1
    rw [b64_neg] at a
    exact abs_le.2 ⟨a, b64_mono hc'.2⟩
  have gen : (rndB binary64).atan2 y x = .ok (V.rnd binary64 (V.atan2 y x)) ∨ ∃ a b, y = .fin b ∧ x = .fin a := by
    cases y <;> cases x <;> first | exact .inl rfl | exact .inr ⟨_, _, rfl, rfl⟩
  rcases gen with e | ⟨a, b, rfl, rfl⟩
  · have hv : v = V.rnd binary64 (V.atan2 y x) := Except.ok.inj (h.symm.trans e)
    rcases atan2_exact y x with e' | ⟨c, e', hc⟩
    · rw [e'] at hv
      exact .inl hv
    · rw [e'] at hv
      refine .inr ⟨b64 c, hv.trans (vrnd64 (hc.trans ?_) rfl), key c hc⟩
      have := Real.pi_lt_four
      norm_num
      linarith
  · refine .inr ⟨b64 (Complex.arg ⟨a, b⟩), (Except.ok.inj h).symm, key _ (Complex.abs_arg_le_pi _)⟩

/-- The last step of `get_topocentric_azimuth_angle`. -/
theorem mod_turn {g : ℝ} (h : |g| ≤ 180) : ∃ z : ℝ, (rndB binary64).modq ((rndB binary64).add ((rndB binary64).lit 180.0) (V.fin g)) 360
    = V.fin z ∧ 0 ≤ z ∧ z < 360 := by
  have h' := abs_le.1 h
  have l : (rndB binary64).lit 180.0 = V.fin 180 := by
    have := lit64 180 (by norm_num)
    norm_num at this ⊢
    exact this
  have b0 := b64_mono (show 0 ≤ 180 + g by linarith)
  have b1 := b64_mono (show 180 + g ≤ ((360 : ℤ) : ℝ) by push_cast; linarith)
  rw [b64_zero] at b0
  rw [b64_int 360 (by norm_num)] at b1
  push_cast at b1
  have hadd : (rndB binary64).add (V.fin 180) (V.fin g) = V.fin (b64 (180 + g)) := by
    refine vrnd64 (z := 180 + g) ?_ rfl
    rw [abs_of_nonneg (by linarith)]
    norm_num
    linarith
  rw [l, hadd]
  have hid := b64_idem (180 + g)
  generalize b64 (180 + g) = s at *
  have hmod : (rndB binary64).modq (V.fin s) 360 = V.rnd binary64 (.fin (s - ((360 : ℚ) : ℝ) * ⌊s / ((360 : ℚ) : ℝ)⌋)) := rfl
  rw [hmod]
  rcases b1.lt_or_eq with hlt | heq
  · have hf : ⌊s / ((360 : ℚ) : ℝ)⌋ = 0 := by
      rw [Int.floor_eq_zero_iff]
      push_cast
      exact ⟨by positivity, by rw [div_lt_one (by norm_num)]; exact hlt⟩
    rw [hf, Int.cast_zero, mul_zero, sub_zero]
    refine ⟨s, vrnd64 ?_ hid, b0, hlt⟩
    rw [abs_of_nonneg b0]
    exact b1.trans (by norm_num)
  · have e : s - ((360 : ℚ) : ℝ) * ⌊s / ((360 : ℚ) : ℝ)⌋ = 0 := by
      rw [heq]
      push_cast
      norm_num
    rw [e]
    exact ⟨0, vrnd64 (by norm_num) b64_zero, le_rfl, by norm_num⟩

/-- C165 for `get_azimuth`, without any hypothesis on the arguments: what it returns in IEEE double precision is a number in [0, 360)
or nan. -/
theorem C165_azimuth_partial (lat lon elev : (rndB binary64).α) (w : When (rndB binary64)) (v : V)
    (h : get_azimuth (rndB binary64) lat lon w elev = .ok v) : v = V.nan ∨ ∃ z : ℝ, v = V.fin z ∧ 0 ≤ z ∧ z < 360 := by
  unfold get_azimuth at h
  obtain ⟨_, -, h⟩ := bind_ok_inv h
  obtain ⟨⟨dec, ha⟩, -, h⟩ := bind_ok_inv h
  unfold get_topocentric_azimuth_angle at h
  obtain ⟨_, -, h⟩ := bind_ok_inv h
  obtain ⟨_, -, h⟩ := bind_ok_inv h
  obtain ⟨_, -, h⟩ := bind_ok_inv h
  obtain ⟨_, -, h⟩ := bind_ok_inv h
  obtain ⟨_, -, h⟩ := bind_ok_inv h
  obtain ⟨t, ht, h⟩ := bind_ok_inv h
  have hv := Except.ok.inj h
  rcases atan2_half_turn ht with rfl | ⟨t, rfl, hle⟩
  · exact .inl hv.symm
  · obtain ⟨g, hg, hg'⟩ := deg_half_turn hle
    obtain ⟨z, hz, hz'⟩ := mod_turn hg'
    refine .inr ⟨z, ?_, hz'⟩
    rw [← hv]
    refine Eq.trans ?_ hz
    exact congrArg (fun q => (rndB binary64).modq ((rndB binary64).add ((rndB binary64).lit 180.0) q) 360) hg

/-- C165 for `get_azimuth_fast`: a number from 0 to 360, both included, or nan. Missing: that 360 is never returned, which is false
(`C165_refuted`). -/
theorem C165_fast_partial (lat lon : (rndB binary64).α) (w : When (rndB binary64)) (v : V)
    (h : get_azimuth_fast (rndB binary64) lat lon w = .ok v) : v = V.nan ∨ ∃ z : ℝ, v = V.fin z ∧ 0 ≤ z ∧ z ≤ 360 := by
  unfold get_azimuth_fast at h
  obtain ⟨_, -, h⟩ := bind_ok_inv h
  obtain ⟨_, -, h⟩ := bind_ok_inv h
  obtain ⟨_, -, h⟩ := bind_ok_inv h
  obtain ⟨_, -, h⟩ := bind_ok_inv h
  obtain ⟨_, -, h⟩ := bind_ok_inv h
  obtain ⟨_, -, h⟩ := bind_ok_inv h
  obtain ⟨_, -, h⟩ := bind_ok_inv h
  obtain ⟨x, -, h⟩ := bind_ok_inv h
  obtain ⟨a, ha, h⟩ := bind_ok_inv h
  obtain ⟨td, -, h⟩ := bind_ok_inv h
  obtain ⟨ch, -, h⟩ := bind_ok_inv h
  obtain ⟨tl, -, h⟩ := bind_ok_inv h
  have hv := Except.ok.inj h
  have l180 : (rndB binary64).lit 180 = V.fin 180 := by simpa using lit64 180 (by norm_num)
  have l360 : (rndB binary64).lit 360 = V.fin 360 := by simpa using lit64 360 (by norm_num)
  have l0 : (rndB binary64).lit 0 = V.fin 0 := by simpa using lit64 0 (by norm_num)
  have hasin : a = V.nan ∨ ∃ t, a = V.fin t ∧ |t| ≤ b64 (Real.pi / 2) := by
    cases x with
    | fin y =>
      have ha' : (if -1 ≤ y ∧ y ≤ 1 then Except.ok (V.fin (b64 (Real.arcsin y))) else Except.error PyErr.valueError) = .ok a := ha
      split_ifs at ha'
      refine .inr ⟨_, (Except.ok.inj ha').symm, ?_⟩
      have p := b64_mono (Real.neg_pi_div_two_le_arcsin y)
      rw [b64_neg] at p
      exact abs_le.2 ⟨p, b64_mono (Real.arcsin_le_pi_div_two y)⟩
    | nan => exact .inl (Except.ok.inj ha).symm
    | _ => cases ha
  have hw : v = (rndB binary64).sub ((rndB binary64).lit 180) ((rndB binary64).degrees a) ∨
      v = (rndB binary64).add ((rndB binary64).degrees a) ((rndB binary64).mul ((rndB binary64).lit 360)
        ((rndB binary64).ofC ((rndB binary64).lt a ((rndB binary64).lit 0)))) := by
    rw [← hv]
    by_cases hc : (rndB binary64).le td ((rndB binary64).mul ch tl) = true
    · exact .inl (if_pos hc)
    · exact .inr (if_neg hc)
  rcases hasin with rfl | ⟨t, rfl, ht⟩
  · rcases hw with rfl | rfl
    · exact .inl rfl
    · exact .inl rfl
  · obtain ⟨g, hg, hg', hneg, hpos⟩ := deg_quarter_turn ht
    have hg2 := abs_le.1 hg'
    have i0 := b64_zero
    have i360 := b64_int 360 (by norm_num)
    push_cast at i360
    right
    rcases hw with rfl | rfl
    · rw [hg, l180]
      refine ⟨b64 (180 + -g), vrnd64 (z := 180 + -g) ?_ rfl, ?_, ?_⟩
      · rw [abs_of_nonneg (by linarith)]
        norm_num
        linarith
      · rw [← i0]
        exact b64_mono (by linarith)
      · rw [← i360]
        exact b64_mono (by linarith)
    · have key : ∃ q : ℝ, (rndB binary64).mul ((rndB binary64).lit 360) ((rndB binary64).ofC ((rndB binary64).lt (V.fin t)
          ((rndB binary64).lit 0))) = V.fin q ∧ 0 ≤ g + q ∧ g + q ≤ 360 := by
        rw [l360, l0]
        by_cases h0 : t < 0
        · have e : (rndB binary64).ofC ((rndB binary64).lt (V.fin t) (V.fin 0)) = V.fin 1 := if_pos (decide_eq_true h0)
          rw [e]
          refine ⟨360, vrnd64 (z := 360 * 1) (by norm_num) (by rw [mul_one]; exact i360), ?_, ?_⟩ <;> linarith [hneg h0]
        · have e : (rndB binary64).ofC ((rndB binary64).lt (V.fin t) (V.fin 0)) = V.fin 0 :=
            if_neg (by rw [show (rndB binary64).lt (V.fin t) (V.fin 0) = decide (t < 0) from rfl]; simpa using h0)
          rw [e]
          refine ⟨0, mul_zero64 360, ?_, ?_⟩ <;> linarith [hpos (not_lt.1 h0)]
      obtain ⟨q, hq, q0, q1⟩ := key
      rw [hg, hq]
      refine ⟨b64 (g + q), vrnd64 (z := g + q) ?_ rfl, ?_, ?_⟩
      · rw [abs_of_nonneg q0]
        norm_num
        linarith
      · rw [← i0]
        exact b64_mono q0
      · rw [← i360]
        exact b64_mono q1

/-! ## 360.0 -/

theorem br_lon : b64 (1.88250000000002) = 8478026298525049 / 2 ^ 52 := by
  have := b64_near (x := 1.88250000000002) 8478026298525049 52 (by norm_num) (by norm_num) (by norm_num) (by rw [abs_lt]; constructor <;> norm_num)
  push_cast at this
  exact this

theorem br_four : b64 (4 * (8478026298525049 / 2 ^ 52)) = 8478026298525049 / 2 ^ 50 := by
  have := b64_near (x := 4 * (8478026298525049 / 2 ^ 52)) 8478026298525049 50 (by norm_num) (by norm_num) (by norm_num) (by rw [abs_lt]; constructor <;> norm_num)
  push_cast at this
  exact this

theorem br_sum : b64 (720 + 8478026298525049 / 2 ^ 50) = 6399421556446987 / 2 ^ 43 := by
  have := b64_near (x := 720 + 8478026298525049 / 2 ^ 50) 6399421556446987 43 (by norm_num) (by norm_num) (by norm_num) (by rw [abs_lt]; constructor <;> norm_num)
  push_cast at this
  exact this

theorem br_minutes : b64 (6399421556446987 / 2 ^ 43 + -(8478026298524959 / 2 ^ 50)) = 6333186975989761 / 2 ^ 43 := by
  have := b64_near (x := 6399421556446987 / 2 ^ 43 + -(8478026298524959 / 2 ^ 50)) 6333186975989761 43 (by norm_num) (by norm_num) (by norm_num) (by rw [abs_lt]; constructor <;> norm_num)
  push_cast at this
  exact this

theorem br_hours : b64 (6333186975989761 / 2 ^ 43 / 60) = 6755399441055745 / 2 ^ 49 := by
  have := b64_near (x := 6333186975989761 / 2 ^ 43 / 60) 6755399441055745 49 (by norm_num) (by norm_num) (by norm_num) (by rw [abs_lt]; constructor <;> norm_num)
  push_cast at this
  exact this

theorem br_noon : b64 (6755399441055745 / 2 ^ 49 + -12) = 4503599627370496 / 2 ^ 101 := by
  have := b64_near (x := 6755399441055745 / 2 ^ 49 + -12) 4503599627370496 101 (by norm_num) (by norm_num) (by norm_num) (by rw [abs_lt]; constructor <;> norm_num)
  push_cast at this
  exact this

theorem br_degrees : b64 (15 * (4503599627370496 / 2 ^ 101)) = 8444249301319680 / 2 ^ 98 := by
  have := b64_near (x := 15 * (4503599627370496 / 2 ^ 101)) 8444249301319680 98 (by norm_num) (by norm_num) (by norm_num) (by rw [abs_lt]; constructor <;> norm_num)
  push_cast at this
  exact this

theorem br_radians : b64 (8444249301319680 / 2 ^ 98 * (5030569068109113 / 2 ^ 58)) = 4716158501352293 / 2 ^ 103 := by
  have := b64_near (x := 8444249301319680 / 2 ^ 98 * (5030569068109113 / 2 ^ 58)) 4716158501352293 103 (by norm_num) (by norm_num) (by norm_num) (by rw [abs_lt]; constructor <;> norm_num)
  push_cast at this
  exact this

theorem br_lat : b64 (80 * (5030569068109113 / 2 ^ 58)) = 6288211335136391 / 2 ^ 52 := by
  have := b64_near (x := 80 * (5030569068109113 / 2 ^ 58)) 6288211335136391 52 (by norm_num) (by norm_num) (by norm_num) (by rw [abs_lt]; constructor <;> norm_num)
  push_cast at this
  exact this

def south : Civil := ⟨2007, 3, 22, 12, 0, 0, 0⟩

theorem south_valid : south.Valid := civil_valid_of_check (by decide)

theorem br_ha : get_hour_angle (rndB binary64) (.dt (utcDT south)) (V.fin (8478026298525049 / 2 ^ 52))
    = .ok (V.fin (8444249301319680 / 2 ^ 98)) := by
  refine (ha_split _ rfl (utcDT_fields south_valid) _).trans (bind_of_ok eq_time ?_)
  have l12 : (rndB binary64).lit ((south.hour : ℤ) : ℚ) = V.fin 12 := by simpa [south] using lit64 12 (by norm_num)
  have l5 : (rndB binary64).lit ((south.minute : ℤ) : ℚ) = V.fin 0 := by simpa [south] using lit64 0 (by norm_num)
  have l60 : (rndB binary64).lit 60 = V.fin 60 := by simpa using lit64 60 (by norm_num)
  have l4 : (rndB binary64).lit 4 = V.fin 4 := by simpa using lit64 4 (by norm_num)
  have l15 : (rndB binary64).lit 15.0 = V.fin 15 := by
    have := lit64 15 (by norm_num)
    norm_num at this ⊢
    exact this
  have l12' : (rndB binary64).lit 12.0 = V.fin 12 := by
    have := lit64 12 (by norm_num)
    norm_num at this ⊢
    exact this
  have a1 : (rndB binary64).mul (V.fin 12) (V.fin 60) = V.fin 720 :=
    vrnd64 (z := 12 * 60) (by norm_num) (by rw [int64 720 (by norm_num) (by norm_num)]; norm_num)
  have a2 : (rndB binary64).add (V.fin 720) (V.fin 0) = V.fin 720 :=
    vrnd64 (z := 720 + 0) (by norm_num) (by rw [int64 720 (by norm_num) (by norm_num)]; norm_num)
  have a3 : (rndB binary64).mul (V.fin 4) (V.fin (8478026298525049 / 2 ^ 52)) = V.fin (8478026298525049 / 2 ^ 50) :=
    vrnd64 (by norm_num) br_four
  have a3' : (rndB binary64).add (V.fin 720) (V.fin (8478026298525049 / 2 ^ 50)) = V.fin (6399421556446987 / 2 ^ 43) :=
    vrnd64 (by norm_num) br_sum
  have a4 : (rndB binary64).add (V.fin (6399421556446987 / 2 ^ 43)) (V.fin (-(8478026298524959 / 2 ^ 50)))
      = V.fin (6333186975989761 / 2 ^ 43) := vrnd64 (by norm_num) br_minutes
  have a5 : (rndB binary64).divq (V.fin (6333186975989761 / 2 ^ 43)) 60 = V.fin (6755399441055745 / 2 ^ 49) := by
    have e : b64 ((60 : ℚ) : ℝ) = 60 := by
      have := b64_int 60 (by norm_num)
      norm_num at this ⊢
      exact this
    show V.rnd binary64 (V.divNZ (.fin (6333186975989761 / 2 ^ 43)) (.fin (b64 ((60 : ℚ) : ℝ)))) = _
    rw [e]
    exact vrnd64 (by norm_num) br_hours
  have a6 : (rndB binary64).sub (V.fin (6755399441055745 / 2 ^ 49)) (V.fin 12) = V.fin (4503599627370496 / 2 ^ 101) :=
    vrnd64 (by norm_num) br_noon
  have a7 : (rndB binary64).mul (V.fin 15) (V.fin (4503599627370496 / 2 ^ 101)) = V.fin (8444249301319680 / 2 ^ 98) :=
    vrnd64 (by norm_num) br_degrees
  have e : (rndB binary64).mul ((rndB binary64).lit 15.0) ((rndB binary64).sub ((rndB binary64).divq
      ((rndB binary64).add ((rndB binary64).add ((rndB binary64).add ((rndB binary64).mul ((rndB binary64).lit ((south.hour : ℤ) : ℚ))
        ((rndB binary64).lit 60)) ((rndB binary64).lit ((south.minute : ℤ) : ℚ))) ((rndB binary64).mul ((rndB binary64).lit 4)
        (V.fin (8478026298525049 / 2 ^ 52)))) (V.fin (-(8478026298524959 / 2 ^ 50)))) 60) ((rndB binary64).lit 12.0))
      = V.fin (8444249301319680 / 2 ^ 98) := by
    rw [l12, l5, l60, l4, l15, l12', a1, a2, a3, a3', a4, a5, a6, a7]
  exact congrArg Except.ok e

theorem br_ha_rad : (rndB binary64).radians (V.fin (8444249301319680 / 2 ^ 98)) = V.fin (4716158501352293 / 2 ^ 103) :=
  rad64 (by norm_num) br_radians

theorem br_lat_rad : (rndB binary64).radians (V.fin (-80)) = V.fin (-(6288211335136391 / 2 ^ 52)) :=
  rad64 (x := -80) (by norm_num) (by rw [neg_mul, b64_neg, br_lat])

theorem br_cos_ha : (rndB binary64).cos (V.fin (4716158501352293 / 2 ^ 103)) = .ok (V.fin 1) :=
  cos64 _ _ (b64_cos_tiny (by norm_num))

/-- The cosine of the latitude. -/
theorem br_cos_lat : ∃ c : ℝ, (rndB binary64).cos (V.fin (-(6288211335136391 / 2 ^ 52))) = .ok (V.fin c) ∧
    b64 c = c ∧ 0 ≤ c ∧ c ≤ 0.175 := by
  have h1 := Real.pi_gt_d20
  have h2 := Real.pi_lt_d20
  have e : Real.cos (-(6288211335136391 / 2 ^ 52)) = Real.sin (Real.pi / 2 - 6288211335136391 / 2 ^ 52) := by
    rw [Real.cos_neg, Real.sin_pi_div_two_sub]
  have hs := Real.sin_le (x := Real.pi / 2 - 6288211335136391 / 2 ^ 52) (by norm_num at *; linarith)
  have hs0 := Real.sin_nonneg_of_nonneg_of_le_pi (x := Real.pi / 2 - 6288211335136391 / 2 ^ 52) (by norm_num at *; linarith)
    (by norm_num at *; linarith)
  rw [← e] at hs hs0
  generalize hc : Real.cos (-(6288211335136391 / 2 ^ 52)) = c at *
  refine ⟨b64 c, cos64 _ _ (by rw [hc]), b64_idem c, ?_, ?_⟩
  · have := b64_mono hs0
    rwa [b64_zero] at this
  · have := (b64_err_nonneg hs0).2
    norm_num at *
    linarith

theorem br_arg {c : ℝ} (hc : (rndB binary64).cos (V.fin (-(6288211335136391 / 2 ^ 52))) = .ok (V.fin c)) (hd : b64 c = c)
    (h0 : 0 ≤ c) (h1 : c ≤ 0.175) :
    fastArg (rndB binary64) (V.fin (-80)) (V.fin 0) (V.fin (8444249301319680 / 2 ^ 98)) = .ok (V.fin c) := by
  have hab : |c| ≤ 2 ^ 100 := by rw [abs_of_nonneg h0]; norm_num at *; linarith
  have m1 : (rndB binary64).mul (V.fin c) (V.fin 1) = V.fin c :=
    vrnd64 (z := c * 1) (by rwa [mul_one]) (by rw [mul_one]; exact hd)
  have m2 : (rndB binary64).add (V.fin c) (V.fin 0) = V.fin c :=
    vrnd64 (z := c + 0) (by rwa [add_zero]) (by rw [add_zero]; exact hd)
  unfold fastArg
  rw [rad_zero64, br_ha_rad, br_lat_rad]
  refine bind_of_ok hc (bind_of_ok cos_zero64 (bind_of_ok br_cos_ha (bind_of_ok (sin64 _ _ rfl) (bind_of_ok sin_zero64 ?_))))
  have e : (rndB binary64).add ((rndB binary64).mul ((rndB binary64).mul (V.fin c) (V.fin 1)) (V.fin 1))
      ((rndB binary64).mul (V.fin (b64 (Real.sin (-(6288211335136391 / 2 ^ 52))))) (V.fin 0)) = V.fin c := by
    rw [m1, m1, mul_zero64, m2]
  exact congrArg Except.ok e

/-- The altitude, about 10°. -/
theorem br_alt : ∃ w : ℝ, get_altitude_fast (rndB binary64) (V.fin (-80)) (V.fin (8478026298525049 / 2 ^ 52)) (.dt (utcDT south))
    = .ok (V.fin w) ∧ |w| ≤ 100 ∧ 0.955 ≤ b64 (Real.cos (b64 (w * (5030569068109113 / 2 ^ 58)))) ∧
    b64 (Real.cos (b64 (w * (5030569068109113 / 2 ^ 58)))) ≤ 1 := by
  obtain ⟨c, hc, hd, h0, h1⟩ := br_cos_lat
  have hA0 : 0 ≤ Real.arcsin c := Real.arcsin_nonneg.2 h0
  have hA1 : Real.arcsin c ≤ 0.29 := by
    rw [Real.arcsin_le_iff_le_sin ⟨by linarith, by norm_num at *; linarith⟩ ⟨by linarith [Real.pi_gt_three], by linarith [Real.pi_gt_three]⟩]
    have := Real.sin_gt_sub_cube (x := 0.29) (by norm_num)
    norm_num at *
    linarith
  have ev := b64_err_nonneg hA0
  have v0 := b64_mono hA0
  rw [b64_zero] at v0
  have hasin : (rndB binary64).asin (V.fin c) = .ok (V.fin (b64 (Real.arcsin c))) := if_pos ⟨by linarith, by norm_num at *; linarith⟩
  generalize Real.arcsin c = A at *
  generalize b64 A = v at *
  have ew := b64_err_nonneg (x := v * (8063664102031864 / 2 ^ 47)) (by positivity)
  have w0 := b64_mono (show (0 : ℝ) ≤ v * (8063664102031864 / 2 ^ 47) by positivity)
  rw [b64_zero] at w0
  have hdeg := deg64 (x := v) (by rw [abs_of_nonneg v0]; norm_num at *; linarith)
  generalize b64 (v * (8063664102031864 / 2 ^ 47)) = w at *
  have er := b64_err_nonneg (x := w * (5030569068109113 / 2 ^ 58)) (by positivity)
  have r0 := b64_mono (show (0 : ℝ) ≤ w * (5030569068109113 / 2 ^ 58) by positivity)
  rw [b64_zero] at r0
  refine ⟨w, ?_, ?_, ?_, ?_⟩
  · refine (alt_split _ rfl (utcDT_fields south_valid) _ _).trans ?_
    refine bind_of_ok eq_decl (bind_of_ok br_ha (bind_of_ok (br_arg hc hd h0 h1) (bind_of_ok hasin ?_)))
    exact congrArg Except.ok hdeg
  · rw [abs_of_nonneg w0]
    norm_num at *
    linarith
  · generalize b64 (w * (5030569068109113 / 2 ^ 58)) = r at *
    have hr : r ≤ 0.2901 := by
      norm_num at *
      linarith
    have hcos := Real.one_sub_sq_div_two_le_cos (x := r)
    have hsq : r ^ 2 ≤ 0.2901 ^ 2 := pow_le_pow_left₀ r0 hr 2
    have ec := b64_err_nonneg (x := Real.cos r) (by norm_num at *; linarith)
    norm_num at *
    linarith
  · exact (abs_le.1 (b64_abs_le_one (Real.abs_cos_le_one _))).2

/-- The sine of the hour angle. -/
theorem br_sin_ha : ∃ s : ℝ, (rndB binary64).sin (V.fin (4716158501352293 / 2 ^ 103)) = .ok (V.fin s) ∧
    b64 s = s ∧ 4 / 10 ^ 16 ≤ s ∧ s ≤ 4.6505 / 10 ^ 16 := by
  have h1 := Real.sin_le (x := 4716158501352293 / 2 ^ 103) (by norm_num)
  have h2 := Real.sin_gt_sub_cube (x := 4716158501352293 / 2 ^ 103) (by norm_num)
  generalize hs : Real.sin (4716158501352293 / 2 ^ 103) = s at *
  have ec := b64_err_nonneg (x := s) (by norm_num at *; linarith)
  refine ⟨b64 s, sin64 _ _ (by rw [hs]), b64_idem s, ?_, ?_⟩ <;> norm_num at * <;> linarith

theorem tan64 {x : ℝ} (h : Real.cos x ≠ 0) : (rndB binary64).tan (V.fin x) = .ok (V.fin (b64 (Real.tan x))) :=
  congrArg (fun t => Except.ok (V.fin t)) (if_neg h)

/-- The tangent of the latitude. -/
theorem br_tan_lat : ∃ u : ℝ, (rndB binary64).tan (V.fin (-(6288211335136391 / 2 ^ 52))) = .ok (V.fin (-u)) ∧ 0 < u ∧ u ≤ 20 ∧
    b64 u = u := by
  have h1 := Real.pi_gt_d20
  have h2 := Real.pi_lt_d20
  have ht := Real.lt_tan (x := 6288211335136391 / 2 ^ 52) (by norm_num) (by norm_num at *; linarith)
  have hc : 0.1 ≤ Real.cos (6288211335136391 / 2 ^ 52) := by
    rw [← Real.sin_pi_div_two_sub]
    have hs := Real.sin_gt_sub_cube (x := Real.pi / 2 - 6288211335136391 / 2 ^ 52) (by norm_num at *; linarith)
    have hb : Real.pi / 2 - 6288211335136391 / 2 ^ 52 ≤ 0.2 := by norm_num at *; linarith
    have hb0 : 0.17 ≤ Real.pi / 2 - 6288211335136391 / 2 ^ 52 := by norm_num at *; linarith
    have hb3 := pow_le_pow_left₀ (le_trans (by norm_num) hb0) hb 3
    norm_num at *
    linarith
  have hu : Real.tan (6288211335136391 / 2 ^ 52) ≤ 10 := by
    rw [Real.tan_eq_sin_div_cos, div_le_iff₀ (by linarith)]
    linarith [Real.sin_le_one (6288211335136391 / 2 ^ 52)]
  refine ⟨b64 (Real.tan (6288211335136391 / 2 ^ 52)), ?_, ?_, ?_, b64_idem _⟩
  · refine (tan64 ?_).trans (by rw [Real.tan_neg, b64_neg])
    rw [Real.cos_neg]
    linarith
  · refine lt_of_lt_of_le one_pos ?_
    rw [← b64_one]
    exact b64_mono (le_trans (by norm_num) ht.le)
  · have := (b64_err_nonneg (x := Real.tan (6288211335136391 / 2 ^ 52)) (le_trans (by norm_num) ht.le)).2
    generalize Real.tan (6288211335136391 / 2 ^ 52) = u at *
    norm_num at *
    linarith

/-- C165 is false: at 80° south, 1.88250000000002° east, on 22 March 2007 at 12:00 UTC, `get_azimuth_fast` returns 360.0 in IEEE double
precision. -/
theorem C165_refuted : get_azimuth_fast (rndB binary64) ((rndB binary64).lit (-80)) ((rndB binary64).lit 1.88250000000002)
    (.dt (utcDT south)) = .ok (V.fin 360) := by
  have e1 : (rndB binary64).lit (-80) = V.fin (-80) := by simpa using lit64 (-80) (by norm_num)
  have e2 : (rndB binary64).lit 1.88250000000002 = V.fin (8478026298525049 / 2 ^ 52) := by
    show V.fin (b64 ((1.88250000000002 : ℚ) : ℝ)) = _
    rw [← br_lon]
    norm_num
  rw [e1, e2]
  obtain ⟨w, halt, hw, hc1, hc2⟩ := br_alt
  obtain ⟨s, hsin, hs, hs1, hs2⟩ := br_sin_ha
  have hr := rad64 (x := w) (hw.trans (by norm_num)) rfl
  generalize b64 (w * (5030569068109113 / 2 ^ 58)) = r at *
  have hcos : (rndB binary64).cos (V.fin r) = .ok (V.fin (b64 (Real.cos r))) := cos64 _ _ rfl
  generalize b64 (Real.cos r) = c at *
  have hc0 : 0 < c := by norm_num at *; linarith
  have hs0 : 0 < s := by norm_num at *; linarith
  have hm : (rndB binary64).mul ((rndB binary64).neg (V.fin 1)) (V.fin s) = V.fin (-s) :=
    vrnd64 (z := -1 * s) (by rw [neg_one_mul, abs_neg, abs_of_pos hs0]; norm_num at *; linarith)
      (by rw [neg_one_mul, b64_neg, hs])
  have hq0 : 0 < s / c := by positivity
  have hq1 : 4 / 10 ^ 16 ≤ s / c := by
    rw [le_div_iff₀ hc0]
    norm_num at *
    nlinarith
  have hq2 : s / c ≤ 4.8698 / 10 ^ 16 := by
    rw [div_le_iff₀ hc0]
    norm_num at *
    nlinarith
  have hdiv : (rndB binary64).div (V.fin (-s)) (V.fin c) = .ok (V.fin (-b64 (s / c))) := by
    refine (if_neg hc0.ne').trans (congrArg Except.ok (vrnd64 (z := -s / c) ?_ (by rw [neg_div, b64_neg])))
    rw [neg_div, abs_neg, abs_of_pos hq0]
    norm_num at *
    linarith
  have eq := b64_err_nonneg hq0.le
  generalize s / c = q at *
  have hb1 : 3 / 10 ^ 16 ≤ b64 q := by norm_num at *; linarith
  have hb2 : b64 q ≤ 4.87 / 10 ^ 16 := by norm_num at *; linarith
  generalize b64 q = p at *
  have hasin : (rndB binary64).asin (V.fin (-p)) = .ok (V.fin (-b64 (Real.arcsin p))) := by
    have hin : -1 ≤ -p ∧ -p ≤ 1 := by constructor <;> norm_num at * <;> linarith
    refine (if_pos hin).trans ?_
    show Except.ok (V.fin (b64 (Real.arcsin (-p)))) = _
    rw [Real.arcsin_neg, b64_neg]
    rfl
  have hA0 : 3 / 10 ^ 16 ≤ Real.arcsin p := by
    rw [Real.le_arcsin_iff_sin_le ⟨by linarith [Real.pi_gt_three], by norm_num at *; linarith [Real.pi_gt_three]⟩
      ⟨by norm_num at *; linarith, by norm_num at *; linarith⟩]
    exact (Real.sin_le (by norm_num)).trans hb1
  have hA1 : Real.arcsin p ≤ 4.88 / 10 ^ 16 := by
    rw [Real.arcsin_le_iff_le_sin ⟨by norm_num at *; linarith, by norm_num at *; linarith⟩
      ⟨by norm_num; linarith [Real.pi_gt_three], by norm_num; linarith [Real.pi_gt_three]⟩]
    have := Real.sin_gt_sub_cube (x := 4.88 / 10 ^ 16) (by norm_num)
    norm_num at *
    linarith
  have eA := b64_err_nonneg (x := Real.arcsin p) (by norm_num at *; linarith)
  generalize Real.arcsin p = A at *
  have ha1 : 2 / 10 ^ 16 ≤ b64 A := by norm_num at *; linarith
  have ha2 : b64 A ≤ 4.89 / 10 ^ 16 := by norm_num at *; linarith
  generalize b64 A = a at *
  have hdeg : (rndB binary64).degrees (V.fin (-a)) = V.fin (-b64 (a * (8063664102031864 / 2 ^ 47))) := by
    have := deg64 (x := -a) (by rw [abs_neg, abs_of_nonneg] <;> norm_num at * <;> linarith)
    rw [neg_mul, b64_neg] at this
    exact this
  have eg := b64_err_nonneg (x := a * (8063664102031864 / 2 ^ 47)) (by norm_num at *; linarith)
  have hg1 : 0 ≤ b64 (a * (8063664102031864 / 2 ^ 47)) := by norm_num at *; linarith
  have hg2 : b64 (a * (8063664102031864 / 2 ^ 47)) ≤ 2.82 / 10 ^ 14 := by norm_num at *; linarith
  generalize b64 (a * (8063664102031864 / 2 ^ 47)) = g at *
  have hadd : (rndB binary64).add (V.fin (-g)) (V.fin 360) = V.fin 360 := by
    refine vrnd64 (z := -g + 360) (by rw [abs_of_nonneg] <;> norm_num at * <;> linarith) ?_
    have := b64_near (x := -g + 360) 6333186975989760 44 (by norm_num) (by norm_num at *; linarith) (by norm_num)
      (by rw [abs_lt]; constructor <;> norm_num at * <;> linarith)
    rw [this]
    norm_num
  have htan : (rndB binary64).tan (V.fin 0) = .ok (V.fin 0) :=
    (tan64 (x := 0) (by rw [Real.cos_zero]; exact one_ne_zero)).trans (by rw [Real.tan_zero, b64_zero])
  obtain ⟨u, hu, hu0, hu1, hu2⟩ := br_tan_lat
  have hle : (rndB binary64).le (V.fin 0) ((rndB binary64).mul (V.fin 1) (V.fin (-u))) = false := by
    have e : (rndB binary64).mul (V.fin 1) (V.fin (-u)) = V.fin (-u) :=
      vrnd64 (z := 1 * -u) (by rw [one_mul, abs_neg, abs_of_pos hu0]; exact hu1.trans (by norm_num)) (by rw [one_mul, b64_neg, hu2])
    rw [e]
    exact decide_eq_false (by linarith)
  have l360 : (rndB binary64).lit 360 = V.fin 360 := by simpa using lit64 360 (by norm_num)
  have l0 : (rndB binary64).lit 0 = V.fin 0 := by simpa using lit64 0 (by norm_num)
  have hturn : (rndB binary64).mul ((rndB binary64).lit 360) ((rndB binary64).ofC ((rndB binary64).lt (V.fin (-a)) ((rndB binary64).lit 0)))
      = V.fin 360 := by
    have e : (rndB binary64).ofC ((rndB binary64).lt (V.fin (-a)) (V.fin 0)) = V.fin 1 :=
      if_pos (decide_eq_true (by norm_num at *; linarith))
    have i360 := b64_int 360 (by norm_num)
    push_cast at i360
    rw [l360, l0, e]
    exact vrnd64 (z := 360 * 1) (by norm_num) (by rw [mul_one]; exact i360)
  unfold get_azimuth_fast
  refine bind_of_ok (tm_yday_eq (rndB binary64) rfl (utcDT_fields south_valid)) (bind_of_ok eq_decl (bind_of_ok br_ha
    (bind_of_ok halt ?_)))
  rw [rad_zero64, br_ha_rad, hr, br_lat_rad]
  refine bind_of_ok cos_zero64 (bind_of_ok hsin (bind_of_ok hcos (bind_of_ok
    ((congrArg (fun t => (rndB binary64).div t (V.fin c)) hm).trans hdiv) (bind_of_ok hasin (bind_of_ok htan (bind_of_ok br_cos_ha
      (bind_of_ok hu ?_)))))))
  have e : (rndB binary64).add ((rndB binary64).degrees (V.fin (-a))) ((rndB binary64).mul ((rndB binary64).lit 360)
      ((rndB binary64).ofC ((rndB binary64).lt (V.fin (-a)) ((rndB binary64).lit 0)))) = V.fin 360 := by
    rw [hdeg, hturn, hadd]
  refine congrArg Except.ok (Eq.trans ?_ e)
  exact if_neg (by
    intro h
    exact Bool.noConfusion (hle.symm.trans h))

/-- C165 for `get_azimuth` at every place on earth: by `C115_pole_to_pole`, a number is returned. -/
theorem C165_azimuth_everywhere (d : DateTime) (c : Civil) (h : UtcFields d c) (lat lon elev : ℝ) (hlat : |lat| ≤ 90)
    (hlon : |lon| ≤ 360) (helev : |elev| ≤ 50000) :
    ∃ a, get_azimuth (rndB binary64) (flt binary64 lat) (flt binary64 lon) (.dt d) (flt binary64 elev) = .ok (flt binary64 a) ∧
      0 ≤ a ∧ a < 360 := by
  obtain ⟨_, _, a, _, _, -, ha, -⟩ := C115_pole_to_pole d c h lat lon elev hlat hlon helev
  rcases C165_azimuth_partial _ _ _ _ _ ha with e | ⟨z, e, hz⟩
  · cases e
  · have : a = z := V.fin.inj e
    subst this
    exact ⟨a, ha, hz⟩

example : ∃ a, get_azimuth (rndB binary64) (flt binary64 42.2) (flt binary64 (-71.1)) (.dt sampleDT) (flt binary64 0)
    = .ok (flt binary64 a) ∧ 0 ≤ a ∧ a < 360 :=
  C165_azimuth_everywhere _ _ sample_utc _ _ _ (by rw [abs_of_pos] <;> norm_num) (by norm_num [abs_of_neg]) (by norm_num)

end Verif.Props
