import Verif.Props.Incidence
import Verif.Props.FloatFast

/-!
# C163: the fast altitude of a sun overhead

`get_altitude_fast` passes a sum of products to `math.asin`. With the sun at the zenith the sum can round to
1.0000000000000002, and `math.asin` raises ValueError. A case with coordinates of seven decimals: 17.5164952° north,
0.9204892° west, on 10 May 2007 at 12:00 UTC. The proof follows every rounding of the computation in IEEE double precision.
-/

namespace Verif.Props

open Verif Verif.Spec Pysolar Pysolar.Solar Pysolar.Constants Chain

/-! ## The declination on the 130th day of a year -/

theorem ov_two_pi : b64 (2 * (7074237752028440 / 2 ^ 51)) = 7074237752028440 / 2 ^ 50 := by
  have := b64_near (x := 2 * (7074237752028440 / 2 ^ 51)) 7074237752028440 50 (by norm_num) (by norm_num) (by norm_num) (by rw [abs_lt]; constructor <;> norm_num)
  push_cast at this
  exact this

theorem ov_step : b64 (7074237752028440 / 2 ^ 50 / 365) = 4961657163066522 / 2 ^ 58 := by
  have := b64_near (x := 7074237752028440 / 2 ^ 50 / 365) 4961657163066522 58 (by norm_num) (by norm_num) (by norm_num) (by rw [abs_lt]; constructor <;> norm_num)
  push_cast at this
  exact this

theorem ov_angle : b64 (4961657163066522 / 2 ^ 58 * 49) = 7597537530945612 / 2 ^ 53 := by
  have := b64_near (x := 4961657163066522 / 2 ^ 58 * 49) 7597537530945612 53 (by norm_num) (by norm_num) (by norm_num) (by rw [abs_lt]; constructor <;> norm_num)
  push_cast at this
  exact this

theorem ov_sin_iv : Iv.trig (.mk 15559756863376613376 15559756863376613376)
    = some (.mk 12264417372271507567 12264417372271507823, .mk 13779202931942881659 13779202931942881915) := by decide +kernel

theorem ov_sin : b64 (Real.sin (7597537530945612 / 2 ^ 53)) = 6728126431612735 / 2 ^ 53 := by
  obtain ⟨x, hx, hc, hs⟩ := Iv.trig_ok ov_sin_iv (v := .fin (7597537530945612 / 2 ^ 53)) ⟨_, rfl, by norm_num [Iv.one], by norm_num [Iv.one]⟩
  cases hx
  obtain ⟨c, hc0, hc1, hc2⟩ := hc
  obtain ⟨s, hs0, hs1, hs2⟩ := hs
  cases hc0
  cases hs0
  generalize Real.cos (7597537530945612 / 2 ^ 53) = c at *
  generalize Real.sin (7597537530945612 / 2 ^ 53) = s at *
  norm_num [Iv.one] at hc1 hc2 hs1 hs2
  have := b64_near (x := s) 6728126431612735 53 (by norm_num) (by norm_num; linarith) (by norm_num)
    (by rw [abs_lt]; constructor <;> norm_num <;> linarith)
  push_cast at this
  exact this

theorem ov_incl : b64 (23.45) = 6600588203864883 / 2 ^ 48 := by
  have := b64_near (x := 23.45) 6600588203864883 48 (by norm_num) (by norm_num) (by norm_num) (by rw [abs_lt]; constructor <;> norm_num)
  push_cast at this
  exact this

theorem ov_decl : b64 (6600588203864883 / 2 ^ 48 * (6728126431612735 / 2 ^ 53)) = 4930455150666207 / 2 ^ 48 := by
  have := b64_near (x := 6600588203864883 / 2 ^ 48 * (6728126431612735 / 2 ^ 53)) 4930455150666207 48 (by norm_num) (by norm_num) (by norm_num) (by rw [abs_lt]; constructor <;> norm_num)
  push_cast at this
  exact this

theorem ov_decl_rad : b64 (4930455150666207 / 2 ^ 48 * (5030569068109113 / 2 ^ 58)) = 5507371264066458 / 2 ^ 54 := by
  have := b64_near (x := 4930455150666207 / 2 ^ 48 * (5030569068109113 / 2 ^ 58)) 5507371264066458 54 (by norm_num) (by norm_num) (by norm_num) (by rw [abs_lt]; constructor <;> norm_num)
  push_cast at this
  exact this

/-! ## The latitude -/

theorem ov_lat : b64 (17.5164952) = 4930455078472318 / 2 ^ 48 := by
  have := b64_near (x := 17.5164952) 4930455078472318 48 (by norm_num) (by norm_num) (by norm_num) (by rw [abs_lt]; constructor <;> norm_num)
  push_cast at this
  exact this

theorem ov_lat_rad : b64 (4930455078472318 / 2 ^ 48 * (5030569068109113 / 2 ^ 58)) = 5507371183425110 / 2 ^ 54 := by
  have := b64_near (x := 4930455078472318 / 2 ^ 48 * (5030569068109113 / 2 ^ 58)) 5507371183425110 54 (by norm_num) (by norm_num) (by norm_num) (by rw [abs_lt]; constructor <;> norm_num)
  push_cast at this
  exact this

/-! ## The sum -/

theorem ov_trig_decl_iv : Iv.trig (.mk 5639548174404052992 5639548174404052992)
    = some (.mk 17591374786314609741 17591374786314609997, .mk 5552107712243439178 5552107712243439434) := by decide +kernel

theorem ov_trig_decl : b64 (Real.cos (5507371264066458 / 2 ^ 54)) = 8589538469880181 / 2 ^ 53 ∧
    b64 (Real.sin (5507371264066458 / 2 ^ 54)) = 5421980187737734 / 2 ^ 54 := by
  obtain ⟨x, hx, hc, hs⟩ := Iv.trig_ok ov_trig_decl_iv (v := .fin (5507371264066458 / 2 ^ 54)) ⟨_, rfl, by norm_num [Iv.one], by norm_num [Iv.one]⟩
  cases hx
  obtain ⟨c, hc0, hc1, hc2⟩ := hc
  obtain ⟨s, hs0, hs1, hs2⟩ := hs
  cases hc0
  cases hs0
  generalize Real.cos (5507371264066458 / 2 ^ 54) = c at *
  generalize Real.sin (5507371264066458 / 2 ^ 54) = s at *
  norm_num [Iv.one] at hc1 hc2 hs1 hs2
  constructor
  · have := b64_near (x := c) 8589538469880181 53 (by norm_num) (by norm_num; linarith) (by norm_num)
      (by rw [abs_lt]; constructor <;> norm_num <;> linarith)
    push_cast at this
    exact this
  · have := b64_near (x := s) 5421980187737734 54 (by norm_num) (by norm_num; linarith) (by norm_num)
      (by rw [abs_lt]; constructor <;> norm_num <;> linarith)
    push_cast at this
    exact this

theorem ov_trig_lat_iv : Iv.trig (.mk 5639548091827312640 5639548091827312640)
    = some (.mk 17591374811168586784 17591374811168587040, .mk 5552107633495754308 5552107633495754564) := by decide +kernel

theorem ov_trig_lat : b64 (Real.cos (5507371183425110 / 2 ^ 54)) = 8589538482015912 / 2 ^ 53 ∧
    b64 (Real.sin (5507371183425110 / 2 ^ 54)) = 5421980110835698 / 2 ^ 54 := by
  obtain ⟨x, hx, hc, hs⟩ := Iv.trig_ok ov_trig_lat_iv (v := .fin (5507371183425110 / 2 ^ 54)) ⟨_, rfl, by norm_num [Iv.one], by norm_num [Iv.one]⟩
  cases hx
  obtain ⟨c, hc0, hc1, hc2⟩ := hc
  obtain ⟨s, hs0, hs1, hs2⟩ := hs
  cases hc0
  cases hs0
  generalize Real.cos (5507371183425110 / 2 ^ 54) = c at *
  generalize Real.sin (5507371183425110 / 2 ^ 54) = s at *
  norm_num [Iv.one] at hc1 hc2 hs1 hs2
  constructor
  · have := b64_near (x := c) 8589538482015912 53 (by norm_num) (by norm_num; linarith) (by norm_num)
      (by rw [abs_lt]; constructor <;> norm_num <;> linarith)
    push_cast at this
    exact this
  · have := b64_near (x := s) 5421980110835698 54 (by norm_num) (by norm_num; linarith) (by norm_num)
      (by rw [abs_lt]; constructor <;> norm_num <;> linarith)
    push_cast at this
    exact this

theorem ov_cc : b64 (8589538482015912 / 2 ^ 53 * (8589538469880181 / 2 ^ 53)) = 8191244486010151 / 2 ^ 53 := by
  have := b64_near (x := 8589538482015912 / 2 ^ 53 * (8589538469880181 / 2 ^ 53)) 8191244486010151 53 (by norm_num) (by norm_num) (by norm_num) (by rw [abs_lt]; constructor <;> norm_num)
  push_cast at this
  exact this

theorem ov_cc1 : b64 (8191244486010151 / 2 ^ 53 * 1) = 8191244486010151 / 2 ^ 53 := by
  have := b64_near (x := 8191244486010151 / 2 ^ 53 * 1) 8191244486010151 53 (by norm_num) (by norm_num) (by norm_num) (by rw [abs_lt]; constructor <;> norm_num)
  push_cast at this
  exact this

theorem ov_ss : b64 (5421980110835698 / 2 ^ 54 * (5421980187737734 / 2 ^ 54)) = 6527638149846737 / 2 ^ 56 := by
  have := b64_near (x := 5421980110835698 / 2 ^ 54 * (5421980187737734 / 2 ^ 54)) 6527638149846737 56 (by norm_num) (by norm_num) (by norm_num) (by rw [abs_lt]; constructor <;> norm_num)
  push_cast at this
  exact this

theorem ov_sum : b64 (8191244486010151 / 2 ^ 53 + 6527638149846737 / 2 ^ 56) = 4503599627370497 / 2 ^ 52 := by
  have := b64_near (x := 8191244486010151 / 2 ^ 53 + 6527638149846737 / 2 ^ 56) 4503599627370497 52 (by norm_num) (by norm_num) (by norm_num) (by rw [abs_lt]; constructor <;> norm_num)
  push_cast at this
  exact this

/-- The cosine of a tiny angle rounds to 1. -/
theorem b64_cos_tiny {x : ℝ} (h : |x| ≤ 1 / 10 ^ 8) : b64 (Real.cos x) = 1 := by
  have h1 := Real.one_sub_sq_div_two_le_cos (x := x)
  have h2 : x ^ 2 ≤ (1 / 10 ^ 8) ^ 2 := sq_le_sq' (abs_le.1 h).1 (abs_le.1 h).2
  rcases (Real.cos_le_one x).lt_or_eq with hlt | heq
  · have := b64_near' (x := Real.cos x) (2 ^ 53) 53 (by norm_num) (by norm_num at *; linarith) (by norm_num at *; linarith)
      (by rw [abs_lt]; constructor <;> norm_num at * <;> linarith)
    rw [this]
    norm_num
  · rw [heq]
    exact b64_one

def overhead : Civil := ⟨2007, 5, 10, 12, 0, 0, 0⟩

theorem overhead_valid : overhead.Valid := civil_valid_of_check (by decide)

/-- The longitude, 0.9204892° west, as a double. -/
theorem ov_lon : |b64 (-0.9204892) - -0.9204892| ≤ 1 / 10 ^ 15 := by
  refine (F64.err binary64 _).trans ?_
  have := tiny_le
  rw [abs_of_neg (by norm_num)]
  norm_num at *
  linarith

theorem ov_ha_iv : Iv.within (get_hour_angle ivB (.dt (utcDT overhead)) (.mk (-16980028695013680000) (-16980028695013610000)))
    (-1 / 10 ^ 7) (1 / 10 ^ 7) = true := by
  decide +kernel

theorem ov_decl_eval : get_declination (rndB binary64) ((rndB binary64).lit (yday overhead.date))
    = .ok (V.fin (4930455150666207 / 2 ^ 48)) := by
  have hy : yday overhead.date = 130 := by decide
  have l : ∀ n : ℤ, |n| ≤ 2 ^ 53 → (rndB binary64).lit n = V.fin n := fun n hn => by
    show V.fin (b64 ((n : ℚ) : ℝ)) = _
    rw [show ((n : ℚ) : ℝ) = (n : ℝ) by push_cast; rfl, b64_int n hn]
  have l2 : (rndB binary64).lit 2 = V.fin 2 := by simpa using l 2 (by norm_num)
  have l81 : (rndB binary64).lit 81 = V.fin 81 := by simpa using l 81 (by norm_num)
  have l130 : (rndB binary64).lit 130 = V.fin 130 := by simpa using l 130 (by norm_num)
  have li : (rndB binary64).lit earth_axis_inclination = V.fin (6600588203864883 / 2 ^ 48) := by
    show V.fin (b64 ((earth_axis_inclination : ℚ) : ℝ)) = _
    rw [← ov_incl]
    norm_num [earth_axis_inclination]
  have lp : (rndB binary64).pi = V.fin (7074237752028440 / 2 ^ 51) := congrArg V.fin b64_pi
  have a1 : (rndB binary64).mul (V.fin 2) (V.fin (7074237752028440 / 2 ^ 51)) = V.fin (7074237752028440 / 2 ^ 50) :=
    vrnd64 (by norm_num) ov_two_pi
  have a2 : (rndB binary64).divq (V.fin (7074237752028440 / 2 ^ 50)) 365.0 = V.fin (4961657163066522 / 2 ^ 58) := by
    have e : b64 ((365.0 : ℚ) : ℝ) = 365 := by
      have := b64_int 365 (by norm_num)
      norm_num at this ⊢
      exact this
    show V.rnd binary64 (V.divNZ (.fin (7074237752028440 / 2 ^ 50)) (.fin (b64 ((365.0 : ℚ) : ℝ)))) = _
    rw [e]
    exact vrnd64 (by norm_num) ov_step
  have a3 : (rndB binary64).sub (V.fin 130) (V.fin 81) = V.fin 49 := by
    refine vrnd64 (z := 130 + -81) (by norm_num) ?_
    have := b64_int 49 (by norm_num)
    norm_num at this ⊢
    exact this
  have a4 : (rndB binary64).mul (V.fin (4961657163066522 / 2 ^ 58)) (V.fin 49) = V.fin (7597537530945612 / 2 ^ 53) :=
    vrnd64 (by norm_num) ov_angle
  have a5 : (rndB binary64).mul (V.fin (6600588203864883 / 2 ^ 48)) (V.fin (6728126431612735 / 2 ^ 53))
      = V.fin (4930455150666207 / 2 ^ 48) := vrnd64 (by norm_num) ov_decl
  rw [hy]
  have e : (rndB binary64).mul ((rndB binary64).divq ((rndB binary64).mul ((rndB binary64).lit 2) (rndB binary64).pi) 365.0)
      ((rndB binary64).sub ((rndB binary64).lit 130) ((rndB binary64).lit 81)) = V.fin (7597537530945612 / 2 ^ 53) := by
    rw [l2, lp, a1, a2, l130, l81, a3, a4]
  unfold get_declination
  refine bind_of_ok ((congrArg (rndB binary64).sin e).trans (sin64 _ _ ov_sin)) ?_
  have e2 : (rndB binary64).mul ((rndB binary64).lit earth_axis_inclination) (V.fin (6728126431612735 / 2 ^ 53))
      = V.fin (4930455150666207 / 2 ^ 48) := by rw [li, a5]
  exact congrArg Except.ok e2

theorem ov_ha : ∃ H : ℝ, get_hour_angle (rndB binary64) (.dt (utcDT overhead)) (V.fin (b64 (-0.9204892))) = .ok (V.fin H) ∧
    |H| ≤ 2 / 10 ^ 7 := by
  have hl := abs_le.1 ov_lon
  have k : Iv.rel (.mk (-16980028695013680000) (-16980028695013610000)) (.fin (b64 (-0.9204892))) := by
    refine ⟨_, rfl, ?_, ?_⟩ <;> norm_num [Iv.one] at * <;> linarith
  have k2 : (ivSim 0).r (.mk (-16980028695013680000) (-16980028695013610000)) (V.fin (b64 (-0.9204892))) := k
  have hw : (ivSim 0).rW (.dt (utcDT overhead)) (.dt (utcDT overhead)) := ⟨_, rfl, rfl⟩
  obtain ⟨H, hH, h1, h2⟩ := Iv.within_ok ((ivSim 0).toSim.get_hour_angle hw k2) ov_ha_iv
  obtain ⟨_, H0, _, _, H', -, a, -, -, b, -, c, -⟩ := C103_fast_altitude binary64 0 (utcDT overhead) overhead
    (utcDT_fields overhead_valid) 0 (b64 (-0.9204892)) (by norm_num) (by rw [abs_le]; constructor <;> norm_num at * <;> linarith)
  have e : H0 = H := num_injective (Except.ok.inj (a.symm.trans hH))
  subst e
  refine ⟨H', b, ?_⟩
  have c' := abs_le.1 c
  rw [abs_le]
  constructor <;> norm_num at * <;> linarith

theorem ov_arg {H : ℝ} (hH : |H| ≤ 2 / 10 ^ 7) :
    fastArg (rndB binary64) (V.fin (b64 17.5164952)) (V.fin (4930455150666207 / 2 ^ 48)) (V.fin H)
      = .ok (V.fin (4503599627370497 / 2 ^ 52)) := by
  have r1 := rad64 (x := b64 17.5164952) (w := 5507371183425110 / 2 ^ 54) (by rw [ov_lat]; norm_num) (by rw [ov_lat]; exact ov_lat_rad)
  have r2 := rad64 (x := 4930455150666207 / 2 ^ 48) (by norm_num) ov_decl_rad
  have r3 := rad64 (x := H) (hH.trans (by norm_num)) rfl
  have hsmall : |b64 (H * (5030569068109113 / 2 ^ 58))| ≤ 1 / 10 ^ 8 := by
    have h1 : |H * (5030569068109113 / 2 ^ 58)| ≤ 4 / 10 ^ 9 := by
      rw [abs_mul]
      calc |H| * _ ≤ 2 / 10 ^ 7 * (2 / 100) := by
            refine mul_le_mul hH ?_ (abs_nonneg _) (by norm_num)
            rw [abs_of_nonneg (by positivity)]
            norm_num
        _ = 4 / 10 ^ 9 := by norm_num
    refine (F64.rnd_abs binary64 _ h1).trans ?_
    have := tiny_le
    norm_num at *
    linarith
  set t := b64 (H * (5030569068109113 / 2 ^ 58))
  unfold fastArg
  rw [r1, r2, r3]
  refine bind_of_ok (cos64 _ _ ov_trig_lat.1) (bind_of_ok (cos64 _ _ ov_trig_decl.1) (bind_of_ok
    (cos64 _ _ (b64_cos_tiny hsmall)) (bind_of_ok (sin64 _ _ ov_trig_lat.2) (bind_of_ok (sin64 _ _ ov_trig_decl.2) ?_))))
  have m1 : (rndB binary64).mul (V.fin (8589538482015912 / 2 ^ 53)) (V.fin (8589538469880181 / 2 ^ 53))
      = V.fin (8191244486010151 / 2 ^ 53) := vrnd64 (by norm_num) ov_cc
  have m2 : (rndB binary64).mul (V.fin (8191244486010151 / 2 ^ 53)) (V.fin 1)
      = V.fin (8191244486010151 / 2 ^ 53) := vrnd64 (by norm_num) ov_cc1
  have m3 : (rndB binary64).mul (V.fin (5421980110835698 / 2 ^ 54)) (V.fin (5421980187737734 / 2 ^ 54))
      = V.fin (6527638149846737 / 2 ^ 56) := vrnd64 (by norm_num) ov_ss
  have m4 : (rndB binary64).add (V.fin (8191244486010151 / 2 ^ 53)) (V.fin (6527638149846737 / 2 ^ 56))
      = V.fin (4503599627370497 / 2 ^ 52) := vrnd64 (by norm_num) ov_sum
  have e : (rndB binary64).add ((rndB binary64).mul ((rndB binary64).mul (V.fin (8589538482015912 / 2 ^ 53))
      (V.fin (8589538469880181 / 2 ^ 53))) (V.fin 1))
      ((rndB binary64).mul (V.fin (5421980110835698 / 2 ^ 54)) (V.fin (5421980187737734 / 2 ^ 54)))
        = V.fin (4503599627370497 / 2 ^ 52) := by rw [m1, m2, m3, m4]
  exact congrArg Except.ok e

/-- C163 is false: at 17.5164952° north, 0.9204892° west, on 10 May 2007 at 12:00 UTC, `get_altitude_fast` raises ValueError in
IEEE double precision. -/
theorem C163_refuted :
    get_altitude_fast (rndB binary64) ((rndB binary64).lit 17.5164952) ((rndB binary64).lit (-0.9204892)) (.dt (utcDT overhead))
      = .error .valueError := by
  have e1 : (rndB binary64).lit 17.5164952 = V.fin (b64 17.5164952) := by
    show V.fin (b64 ((17.5164952 : ℚ) : ℝ)) = _
    norm_num
  have e2 : (rndB binary64).lit (-0.9204892) = V.fin (b64 (-0.9204892)) := by
    show V.fin (b64 ((-0.9204892 : ℚ) : ℝ)) = _
    norm_num
  obtain ⟨H, hH, hs⟩ := ov_ha
  rw [e1, e2]
  refine (alt_split _ rfl (utcDT_fields overhead_valid) _ _).trans ?_
  refine bind_of_ok ov_decl_eval (bind_of_ok hH (bind_of_ok (ov_arg hs) (bind_of_error ?_)))
  exact if_neg (by norm_num)

/-- `get_azimuth_fast`, which computes the altitude on the way, raises as well. -/
theorem C163_azimuth_refuted :
    get_azimuth_fast (rndB binary64) ((rndB binary64).lit 17.5164952) ((rndB binary64).lit (-0.9204892)) (.dt (utcDT overhead))
      = .error .valueError := by
  have e2 : (rndB binary64).lit (-0.9204892) = V.fin (b64 (-0.9204892)) := by
    show V.fin (b64 ((-0.9204892 : ℚ) : ℝ)) = _
    norm_num
  obtain ⟨H, hH, -⟩ := ov_ha
  rw [← e2] at hH
  unfold get_azimuth_fast
  exact bind_of_ok (tm_yday_eq (rndB binary64) rfl (utcDT_fields overhead_valid)) (bind_of_ok ov_decl_eval (bind_of_ok hH
    (bind_of_error C163_refuted)))

/-- With numpy the altitude is not a number, provided that numpy's library computes the hour angle as small as it is. -/
theorem C163_numpy {H : ℝ} (hs : |H| ≤ 2 / 10 ^ 7) :
    (fastArg (nprB binary64) (V.fin (b64 17.5164952)) (V.fin (4930455150666207 / 2 ^ 48)) (V.fin H) >>= fun s =>
      (nprB binary64).asin s) = .ok V.nan := by
  obtain ⟨q, hq, he⟩ := RelM.of_ok (fastArg_sim (rndNp binary64).toSim (x := V.fin (b64 17.5164952)) (x' := V.fin (b64 17.5164952)) rfl
    (y := V.fin (4930455150666207 / 2 ^ 48)) (y' := V.fin (4930455150666207 / 2 ^ 48)) rfl (z := V.fin H) (z' := V.fin H) rfl)
    (ov_arg hs)
  refine bind_of_ok hq ?_
  have he' : V.fin (4503599627370497 / 2 ^ 52) = q := he
  rw [← he']
  exact if_neg (by norm_num)

/-- The exact altitude there is within 0.00002° of the zenith. -/
theorem ov_exact (tp : ℝ) : ∃ alt : ℝ, get_altitude_fast (mathB tp) (num (b64 17.5164952)) (num (b64 (-0.9204892)))
    (.dt (utcDT overhead)) = .ok (num alt) ∧ 90 - 14 / 10 ^ 6 ≤ |alt| := by
  have hl := abs_le.1 ov_lon
  obtain ⟨_, _, alt, _, _, -, -, h, -, -, -, -, h' | h'⟩ := C103_fast_altitude binary64 tp (utcDT overhead) overhead
    (utcDT_fields overhead_valid) (b64 17.5164952) (b64 (-0.9204892)) (by rw [ov_lat, abs_of_nonneg] <;> norm_num)
    (by rw [abs_le]; constructor <;> norm_num at * <;> linarith)
  · exfalso
    obtain ⟨a, ha, -⟩ := h'
    have e1 : (rndB binary64).lit 17.5164952 = V.fin (b64 17.5164952) := by
      show V.fin (b64 ((17.5164952 : ℚ) : ℝ)) = _
      norm_num
    have e2 : (rndB binary64).lit (-0.9204892) = V.fin (b64 (-0.9204892)) := by
      show V.fin (b64 ((-0.9204892 : ℚ) : ℝ)) = _
      norm_num
    have := C163_refuted
    rw [e1, e2] at this
    rw [this] at ha
    cases ha
  · exact ⟨alt, h, h'.2⟩

/-- C163, what holds for every floating-point arithmetic: `get_altitude_fast` returns an altitude within 0.000014° of the exact one
wherever the exact altitude is at least 0.000014° away from zenith and nadir. Missing: the sun closer to the zenith or the nadir,
where `C163_refuted` shows that the call can fail. -/
theorem C163_fast_altitude_partial (F : F64) (tp : ℝ) (d : DateTime) (c : Civil) (h : UtcFields d c) (lat lon : ℝ)
    (hlat : |lat| ≤ 90) (hlon : |lon| ≤ 360) :
    ∃ alt, get_altitude_fast (mathB tp) (num lat) (num lon) (.dt d) = .ok (num alt) ∧
      (|alt| < 90 - 14 / 10 ^ 6 → ∃ alt', get_altitude_fast (rndB F) (flt F lat) (flt F lon) (.dt d) = .ok (flt F alt') ∧
        |alt' - alt| ≤ 14 / 10 ^ 6) := by
  obtain ⟨_, _, alt, _, _, -, -, ha, -, -, -, -, h'⟩ := C103_fast_altitude F tp d c h lat lon hlat hlon
  refine ⟨alt, ha, fun hlt => ?_⟩
  rcases h' with ⟨alt', h1, h2, -⟩ | ⟨-, h2⟩
  · exact ⟨alt', h1, h2⟩
  · exact absurd h2 (not_le.2 hlt)

/-- At the latitude of Boston the sun never comes near the zenith: the hypothesis holds on every day. -/
example (F : F64) (d : DateTime) (c : Civil) (h : UtcFields d c) : ∃ alt', get_altitude_fast (rndB F) (flt F 42.4) (flt F (-71)) (.dt d)
    = .ok (flt F alt') := by
  obtain ⟨alt, ha, hb⟩ := C163_fast_altitude_partial F 0 d c h 42.4 (-71) (by rw [abs_of_pos] <;> norm_num) (by norm_num [abs_of_neg])
  obtain ⟨alt2, ha2, hc⟩ := C104_outside_tropics 0 d c h 42.4 (-71) (by rw [abs_of_pos] <;> norm_num) (by rw [abs_of_pos] <;> norm_num)
  have e : alt2 = alt := num_injective (Except.ok.inj (ha2.symm.trans ha))
  subst e
  have hr : |alt2| ≤ 90 := by
    have e : alt2 = altF 42.4 (-71) c := num_injective (Except.ok.inj (ha2.symm.trans (altF_eval h 42.4 (-71))))
    have e' : altF 42.4 (-71) c = deg (Real.arcsin (sunENU 42.4 (haF (-71) c) (decF (yday c.date))).z) := rfl
    rw [e, e', abs_le]
    exact deg_arcsin_bounds _
  have hlt : |alt2| < 90 - 14 / 10 ^ 6 := by
    by_contra hn
    push Not at hn
    have e : Real.cos (rad alt2) = Real.sin (rad (90 - |alt2|)) := by
      rw [rad_sub, rad_90, Real.sin_pi_div_two_sub, ← Real.cos_abs (rad alt2)]
      congr 1
      unfold rad
      rw [abs_div, abs_mul, abs_of_pos Real.pi_pos, abs_of_pos (by norm_num : (0 : ℝ) < 180)]
    have hs := Real.sin_le (x := rad (90 - |alt2|)) (by
      have : rad 0 ≤ rad (90 - |alt2|) := by rw [rad_le_rad]; linarith
      rwa [rad_zero] at this)
    have hm : rad (90 - |alt2|) ≤ rad (14 / 10 ^ 6) := by rw [rad_le_rad]; linarith
    have hv : rad (14 / 10 ^ 6) < 1 / 1000 := by
      unfold rad
      have := Real.pi_lt_d2
      norm_num at *
      linarith
    linarith
  obtain ⟨alt', h1, -⟩ := hb hlt
  exact ⟨alt', h1⟩

/-- `get_topocentric_elevation_angle` has the same flaw: latitude and declination 8°, hour angle 0. -/
theorem C163_elevation_refuted :
    get_topocentric_elevation_angle (rndB binary64) (V.fin 8) (V.fin 8) (V.fin 0) = .error .valueError := by
  have r8 := rad64 (x := 8) (by norm_num) rad_8
  have r0 := rad64 (x := 0) (w := 0) (by norm_num) (by rw [zero_mul]; exact b64_zero)
  have cc1 : b64 (8832737443003841 / 2 ^ 53 * 1) = 8832737443003841 / 2 ^ 53 := by
    have := b64_near (x := 8832737443003841 / 2 ^ 53 * 1) 8832737443003841 53 (by norm_num) (by norm_num) (by norm_num)
      (by rw [abs_lt]; constructor <;> norm_num)
    push_cast at this
    exact this
  have m1 : (rndB binary64).mul (V.fin (8919541810762874 / 2 ^ 53)) (V.fin (8919541810762874 / 2 ^ 53))
      = V.fin (8832737443003841 / 2 ^ 53) := vrnd64 (by norm_num) cc_8
  have m2 : (rndB binary64).mul (V.fin (5014239404989977 / 2 ^ 55)) (V.fin (5014239404989977 / 2 ^ 55))
      = V.fin (5582777975588868 / 2 ^ 58) := vrnd64 (by norm_num) ss_8
  have m3 : (rndB binary64).mul (V.fin (8832737443003841 / 2 ^ 53)) (V.fin 1)
      = V.fin (8832737443003841 / 2 ^ 53) := vrnd64 (by norm_num) cc1
  have m4 : (rndB binary64).add (V.fin (5582777975588868 / 2 ^ 58)) (V.fin (8832737443003841 / 2 ^ 53))
      = V.fin (4503599627370497 / 2 ^ 52) := vrnd64 (by norm_num) (by rw [add_comm]; exact sum_8)
  have e : (rndB binary64).add
      ((rndB binary64).mul (V.fin (5014239404989977 / 2 ^ 55)) (V.fin (5014239404989977 / 2 ^ 55)))
      ((rndB binary64).mul ((rndB binary64).mul (V.fin (8919541810762874 / 2 ^ 53)) (V.fin (8919541810762874 / 2 ^ 53)))
        (V.fin 1)) = V.fin (4503599627370497 / 2 ^ 52) := by rw [m1, m2, m3, m4]
  unfold get_topocentric_elevation_angle
  rw [r8, r0]
  refine bind_of_ok (sin64 _ _ cos_sin_8.2) (bind_of_ok (sin64 _ _ cos_sin_8.2) (bind_of_ok (cos64 _ _ cos_sin_8.1)
    (bind_of_ok (cos64 _ _ cos_sin_8.1) (bind_of_ok (cos64 _ 1 (by rw [Real.cos_zero]; exact b64_one)) (bind_of_error ?_)))))
  refine (congrArg (rndB binary64).asin e).trans ?_
  exact if_neg (by norm_num)

end Verif.Props
