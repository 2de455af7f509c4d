import Verif.Props.Apparent
import Verif.Props.DayCourse
import Verif.Props.FastAccuracy

/-!
# C141: the computed sun climbs all morning and sinks all afternoon
-/

namespace Verif

open Verif.Spec Real

/-- The cosine grows at least at the rate `sin δ` between half a turn plus `δ` and a turn minus `δ`. -/
theorem cos_climb {δ x y : ℝ} (hδ0 : 0 ≤ δ) (hx : 180 + δ ≤ x) (hxy : x < y) (hy : y ≤ 360 - δ) :
    sin (rad δ) * rad (y - x) ≤ cos (rad y) - cos (rad x) := by
  obtain ⟨t, ⟨t1, t2⟩, ht⟩ := exists_hasDerivAt_eq_slope cos (fun t => -sin t) (rad_lt_rad.mpr hxy)
    continuous_cos.continuousOn (fun t _ => hasDerivAt_cos t)
  have hd : 0 < rad y - rad x := sub_pos.mpr (rad_lt_rad.mpr hxy)
  rw [eq_div_iff hd.ne'] at ht
  rw [rad_sub, ← ht]
  refine mul_le_mul_of_nonneg_right ?_ hd.le
  have a1 : rad (180 + δ) ≤ t := (rad_le_rad.mpr hx).trans t1.le
  have a2 : t ≤ rad (360 - δ) := t2.le.trans (rad_le_rad.mpr hy)
  have e360 : rad 360 = 2 * π := by unfold rad; ring
  rw [rad_add, rad_180] at a1
  rw [rad_sub, e360] at a2
  have h0 : 0 ≤ rad δ := by rw [← rad_zero, rad_le_rad]; exact hδ0
  have e : -sin t = cos (t - π - π / 2) := by rw [cos_sub_pi_div_two, sin_sub_pi]
  have e' : sin (rad δ) = cos (π / 2 - rad δ) := by rw [cos_pi_div_two_sub]
  rw [e, e', ← cos_abs (t - π - π / 2)]
  refine cos_le_cos_of_nonneg_of_le_pi (abs_nonneg _) (by linarith [pi_pos]) ?_
  rw [abs_le]
  constructor <;> linarith

/-- The sine of the elevation angle moves by at most the change of the declination, for one hour angle. -/
theorem up_dec (lat H d d' : ℝ) : |(sunENU lat H d').z - (sunENU lat H d).z| ≤ rad |d' - d| := by
  rw [← up_eq, ← up_eq]
  have e : sin (rad lat) * sin (rad d') + cos (rad lat) * cos (rad d') * cos (rad H)
      - (sin (rad lat) * sin (rad d) + cos (rad lat) * cos (rad d) * cos (rad H))
      = 2 * sin ((rad d' - rad d) / 2) * (sin (rad lat) * cos ((rad d' + rad d) / 2)
        - cos (rad lat) * cos (rad H) * sin ((rad d' + rad d) / 2)) := by
    have s := sin_sub_sin (rad d') (rad d)
    have c := cos_sub_cos (rad d') (rad d)
    linear_combination sin (rad lat) * s + cos (rad lat) * cos (rad H) * c
  rw [e, abs_mul, abs_mul, abs_of_pos (by norm_num : (0 : ℝ) < 2)]
  have h1 : |sin ((rad d' - rad d) / 2)| ≤ |(rad d' - rad d) / 2| := abs_sin_le_abs
  have h2 : |sin (rad lat) * cos ((rad d' + rad d) / 2) - cos (rad lat) * cos (rad H) * sin ((rad d' + rad d) / 2)|
      ≤ 1 := by
    rw [abs_le_one_iff_mul_self_le_one]
    have a := sin_sq_add_cos_sq (rad lat)
    have b := sin_sq_add_cos_sq (rad H)
    have c := sin_sq_add_cos_sq ((rad d' + rad d) / 2)
    generalize sin (rad lat) = s at *
    generalize cos (rad lat) = k at *
    generalize cos ((rad d' + rad d) / 2) = u at *
    generalize sin ((rad d' + rad d) / 2) = v at *
    generalize cos (rad H) = w at *
    generalize sin (rad H) = w' at *
    have : (s * u - k * w * v) * (s * u - k * w * v) + (s * v + k * w * u) ^ 2 + (k * w') ^ 2 = 1 := by
      linear_combination (s ^ 2 + k ^ 2 * w ^ 2) * c + k ^ 2 * b + a
    nlinarith [sq_nonneg (s * v + k * w * u), sq_nonneg (k * w')]
  have e2 : rad |d' - d| = |rad d' - rad d| := by
    rw [← rad_sub]
    unfold rad
    rw [abs_div, abs_mul, abs_of_pos pi_pos, abs_of_pos (by norm_num : (0 : ℝ) < 180)]
  rw [e2]
  calc 2 * |sin ((rad d' - rad d) / 2)| * _ ≤ 2 * |(rad d' - rad d) / 2| * 1 := by gcongr
    _ = |rad d' - rad d| := by
      rw [abs_div, abs_of_pos (by norm_num : (0 : ℝ) < 2)]; ring

/-- The change of the cosine of the hour angle outweighs that of the declination. -/
theorem climb_rate {lat δ H H' d d' h g m : ℝ} (hm : 0 ≤ m) (hl : m ≤ cos (rad lat) * sin (rad δ))
    (hl0 : 0 < cos (rad lat)) (hd : |d'| ≤ 24.2) (h0 : 0 < h) (hH : sin (rad δ) * rad (14.99 * h) ≤ g)
    (hg : g = cos (rad H') - cos (rad H)) (hdd : |d' - d| ≤ 0.075 * h) :
    (m * 0.9107 * 14.99 - 0.075) * rad h ≤ (sunENU lat H' d').z - (sunENU lat H d).z := by
  have c1 : 0.9107 ≤ cos (rad d') := by
    have hp := pi_lt_d4
    have hp0 := pi_pos
    have a : |rad d'| ≤ 0.4224 := by
      unfold rad
      rw [abs_div, abs_mul, abs_of_pos pi_pos, abs_of_pos (by norm_num : (0 : ℝ) < 180), div_le_iff₀ (by norm_num)]
      calc |d'| * π ≤ 24.2 * 3.1416 := by gcongr
        _ ≤ _ := by norm_num
    have b := one_sub_sq_div_two_le_cos (x := rad d')
    have c : rad d' ^ 2 ≤ 0.4224 ^ 2 := by rw [← sq_abs]; gcongr
    norm_num at *
    linarith
  have k := (abs_le.mp (up_dec lat H d d')).1
  have e : (sunENU lat H' d').z - (sunENU lat H d').z = cos (rad lat) * cos (rad d') * g := by
    rw [← up_eq, ← up_eq, hg]; ring
  have r1 : rad |d' - d| ≤ rad (0.075 * h) := rad_le_rad.mpr hdd
  have hr : 0 < rad h := by rw [← rad_zero, rad_lt_rad]; exact h0
  have r2 : rad (0.075 * h) = 0.075 * rad h := by unfold rad; ring
  have r3 : rad (14.99 * h) = 14.99 * rad h := by unfold rad; ring
  rw [r3] at hH
  have q : m * 0.9107 * (14.99 * rad h) ≤ cos (rad lat) * cos (rad d') * g := by
    calc m * 0.9107 * (14.99 * rad h) ≤ (cos (rad lat) * sin (rad δ)) * cos (rad d') * (14.99 * rad h) := by
          gcongr
          exact hm.trans hl
      _ = cos (rad lat) * cos (rad d') * (sin (rad δ) * (14.99 * rad h)) := by ring
      _ ≤ _ := by
        refine mul_le_mul_of_nonneg_left hH (mul_nonneg hl0.le (le_trans (by norm_num) c1))
  have : (m * 0.9107 * 14.99 - 0.075) * rad h = m * 0.9107 * (14.99 * rad h) - 0.075 * rad h := by ring
  rw [this]
  linarith

/-- A sine grows at most as fast as its angle. -/
theorem arcsin_grows {x y : ℝ} (hx : -1 ≤ x) (hy : y ≤ 1) (hx1 : x ≤ 1) (hy1 : -1 ≤ y) {g : ℝ} (hg : 0 ≤ g)
    (h : rad g ≤ y - x) : g ≤ deg (arcsin y) - deg (arcsin x) := by
  have h0 : 0 ≤ rad g := by rw [← rad_zero, rad_le_rad]; exact hg
  have hle : arcsin x ≤ arcsin y := monotone_arcsin (by linarith)
  have e : y - x = 2 * sin ((arcsin y - arcsin x) / 2) * cos ((arcsin y + arcsin x) / 2) := by
    rw [← sin_sub_sin, sin_arcsin hy1 hy, sin_arcsin hx hx1]
  have s1 : sin ((arcsin y - arcsin x) / 2) ≤ (arcsin y - arcsin x) / 2 := sin_le (by linarith)
  have s0 : 0 ≤ sin ((arcsin y - arcsin x) / 2) :=
    sin_nonneg_of_nonneg_of_le_pi (by linarith) (by
      have := arcsin_le_pi_div_two y
      have := neg_pi_div_two_le_arcsin x
      linarith [pi_pos])
  have c1 := cos_le_one ((arcsin y + arcsin x) / 2)
  have : y - x ≤ arcsin y - arcsin x := by
    rw [e]
    nlinarith
  have h2 := h.trans this
  have e2 : deg (arcsin y) - deg (arcsin x) = deg (arcsin y - arcsin x) := by unfold deg; ring
  rw [e2, ← rad_le_rad, rad_deg]
  exact h2

end Verif

namespace Verif.Props

open Verif.Spec Pysolar Pysolar.Solar Pysolar.Solartime Pysolar.Constants Real

/-- C141: take two datetimes at most twelve hours apart in one UTC month, and a margin `δ` of hour angle with
`cos lat * sin δ ≥ 0.0056`. If both hour angles lie between half a turn plus `δ` and a whole turn minus `δ` (up to
turns), the later elevation angle is higher, by at least `13.65 * cos lat * sin δ - 0.075` degrees per hour; if both
lie between `δ` and half a turn minus `δ`, it is lower by at least as much. -/
theorem C141_climb (tp : ℝ) (d d' : DateTime) (c c' : Civil) (h : UtcFields d c) (h' : UtcFields d' c')
    (hy : c'.year = c.year) (hm : c'.month = c.month) (hlt : c.micros < c'.micros)
    (h12 : c'.micros - c.micros ≤ 12 * 3600000000)
    (lat lon elev δ : ℝ) (h1 : -90 < lat) (h2 : lat < 90) (he : |elev| ≤ 50000) (hδ : 0.1 ≤ δ)
    (hl : 0.0056 ≤ cos (rad lat) * sin (rad δ)) (hours : ℝ)
    (hhd : hours = ((c'.micros - c.micros : ℤ) : ℝ) / 3600000000) :
    ∃ dec H e dec' H' e',
      get_topocentric_position (mathB tp) (num lat) (num lon) (.dt d) (num elev) = .ok (num dec, num H) ∧
      get_topocentric_elevation_angle (mathB tp) (num lat) (num dec) (num H) = .ok (num e) ∧
      get_topocentric_position (mathB tp) (num lat) (num lon) (.dt d') (num elev) = .ok (num dec', num H') ∧
      get_topocentric_elevation_angle (mathB tp) (num lat) (num dec') (num H') = .ok (num e') ∧
      0 < (13.65 * (cos (rad lat) * sin (rad δ)) - 0.075) * hours ∧
      (∀ k k' : ℤ, 180 + δ ≤ H + 360 * k → H + 360 * k ≤ 360 - δ → 180 + δ ≤ H' + 360 * k' →
        H' + 360 * k' ≤ 360 - δ → e + (13.65 * (cos (rad lat) * sin (rad δ)) - 0.075) * hours ≤ e') ∧
      (∀ k k' : ℤ, δ ≤ H + 360 * k → H + 360 * k ≤ 180 - δ → δ ≤ H' + 360 * k' →
        H' + 360 * k' ≤ 180 - δ → e' + (13.65 * (cos (rad lat) * sin (rad δ)) - 0.075) * hours ≤ e) := by
  obtain ⟨dec, H, e, a, dec', H', e', a', p1, p2, -, p1', p2', -, ⟨j, j1, j2⟩, hdd, -, -⟩ :=
    C139_steady tp d d' c c' h h' hy hm hlt.le lat lon elev h1 h2 he hours hhd
  refine ⟨dec, H, e, dec', H', e', p1, p2, p1', p2', ?_⟩
  have hh : 0 < hours := by
    have : (0 : ℝ) < ((c'.micros - c.micros : ℤ) : ℝ) := by exact_mod_cast sub_pos.mpr hlt
    rw [hhd]
    positivity
  have hh' : hours ≤ 12 := by
    rw [hhd, div_le_iff₀ (by norm_num)]
    exact_mod_cast h12
  have bd : ∀ {d : DateTime} {c : Civil} {dec H : ℝ}, UtcFields d c →
      get_topocentric_position (mathB tp) (num lat) (num lon) (.dt d) (num elev) = .ok (num dec, num H) →
      |dec| ≤ 24.2 := by
    intro d c dec H h q
    rw [topo_eval h] at q
    rw [← num_injective (Prod.mk.inj (Except.ok.inj q)).1]
    have a := abs_le.mp (topo_small tp h.1 (lon := lon) h1 h2 he).1
    have b := abs_le.mp (decOf_bound h.1)
    rw [abs_le]
    norm_num at *
    constructor <;> linarith
  have b := bd h p1
  have b' := bd h' p1'
  clear bd hhd
  have hl0 := cos_rad_pos h1 h2
  have hs : 0 < sin (rad δ) := by
    by_contra hn
    have := mul_nonpos_of_nonneg_of_nonpos hl0.le (not_lt.mp hn)
    norm_num at *
    linarith
  have adv : ∀ k k' : ℤ, |H' + 360 * k' - (H + 360 * k)| ≤ 179.8 →
      H' + 360 * k' - (H + 360 * k) = H' - H + 360 * j := by
    intro k k' ha
    have ha := abs_le.mp ha
    have e1 : (-1 : ℝ) < ((j - k' + k : ℤ) : ℝ) := by push_cast; norm_num at *; linarith
    have e2 : ((j - k' + k : ℤ) : ℝ) < 1 := by push_cast; norm_num at *; linarith
    have e1' : -1 < j - k' + k := by exact_mod_cast e1
    have e2' : j - k' + k < 1 := by exact_mod_cast e2
    have : k' - k = j := by omega
    rw [← this]
    push_cast
    ring
  rw [tea_eval] at p2 p2'
  rw [← num_injective (Except.ok.inj p2), ← num_injective (Except.ok.inj p2')]
  have hz := unit_z (sunENU_unit lat H dec)
  have hz' := unit_z (sunENU_unit lat H' dec')
  have hM : (0 : ℝ) < 13.65 * (cos (rad lat) * sin (rad δ)) - 0.075 := by norm_num at *; linarith
  have hg := mul_pos hM hh
  have hrad : rad ((13.65 * (cos (rad lat) * sin (rad δ)) - 0.075) * hours)
      ≤ (cos (rad lat) * sin (rad δ) * 0.9107 * 14.99 - 0.075) * rad hours := by
    have e : rad ((13.65 * (cos (rad lat) * sin (rad δ)) - 0.075) * hours)
        = (13.65 * (cos (rad lat) * sin (rad δ)) - 0.075) * rad hours := by unfold rad; ring
    have hr : 0 ≤ rad hours := by rw [← rad_zero, rad_le_rad]; exact hh.le
    rw [e]
    refine mul_le_mul_of_nonneg_right ?_ hr
    have := mul_pos hl0 hs
    generalize cos (rad lat) * sin (rad δ) = m at *
    norm_num at *
    linarith
  refine ⟨hg, ?_, ?_⟩
  · intro k k' u1 u2 u3 u4
    have ad := adv k k' (by rw [abs_le]; norm_num at *; constructor <;> linarith)
    have hxy : H + 360 * k < H' + 360 * k' := by norm_num at *; linarith
    have m := cos_climb (by norm_num at *; linarith) u1 hxy u4
    rw [cos_rad_add_turns, cos_rad_add_turns, ad] at m
    have r := climb_rate (mul_pos hl0 hs).le le_rfl hl0 b' hh
      ((mul_le_mul_of_nonneg_left (rad_le_rad.mpr j1) hs.le).trans m) rfl hdd
    have := arcsin_grows hz.1 hz'.2 hz.2 hz'.1 hg.le (hrad.trans r)
    linarith
  · intro k k' u1 u2 u3 u4
    have ad := adv k k' (by rw [abs_le]; norm_num at *; constructor <;> linarith)
    have m := cos_climb (δ := δ) (x := H + 360 * k + 180) (y := H' + 360 * k' + 180) (by norm_num at *; linarith)
      (by linarith) (by norm_num at *; linarith) (by linarith)
    rw [rad_add _ 180, rad_add _ 180, rad_180, cos_add_pi, cos_add_pi, cos_rad_add_turns, cos_rad_add_turns,
      add_sub_add_right_eq_sub, ad] at m
    have r := climb_rate (d := dec') (d' := dec) (H := H') (H' := H) (mul_pos hl0 hs).le le_rfl hl0 b hh
      ((mul_le_mul_of_nonneg_left (rad_le_rad.mpr j1) hs.le).trans m) (by ring) (by rw [abs_sub_comm]; exact hdd)
    have := arcsin_grows hz'.1 hz.2 hz'.2 hz.1 hg.le (hrad.trans r)
    linarith

/-- The margin is 1 degree (4 minutes of time) up to 66 degrees of latitude. -/
theorem margin_66 {lat : ℝ} (h : |lat| ≤ 66) : 0.00696 ≤ cos (rad lat) * sin (rad 1) := by
  have hp := pi_gt_d4
  have hp' := pi_lt_d4
  have s : 0.0174 ≤ sin (rad 1) := by
    have h0 : 0 < rad 1 := by unfold rad; positivity
    have h1 : rad 1 ≤ 0.01746 := by unfold rad; norm_num at *; linarith
    have h2 : 0.01745 ≤ rad 1 := by unfold rad; norm_num at *; linarith
    have := sin_gt_sub_cube h0
    have h3 : rad 1 ^ 3 ≤ 0.01746 ^ 3 := by gcongr
    norm_num at *
    linarith
  have c : 0.4 ≤ cos (rad lat) := by
    have h1 : |rad lat| ≤ π / 2 - rad 24 := by
      have e : π / 2 - rad 24 = rad 66 := by rw [← rad_90, ← rad_sub]; norm_num
      rw [e]
      unfold rad
      rw [abs_div, abs_mul, abs_of_pos pi_pos, abs_of_pos (by norm_num : (0 : ℝ) < 180)]
      have := pi_pos
      gcongr
    have h2 : cos (π / 2 - rad 24) ≤ cos (rad lat) := by
      rw [← cos_abs (rad lat)]
      exact cos_le_cos_of_nonneg_of_le_pi (abs_nonneg _) (by
        have : 0 < rad 24 := by unfold rad; positivity
        linarith [pi_pos]) h1
    rw [cos_pi_div_two_sub] at h2
    refine le_trans ?_ h2
    have h0 : 0 < rad 24 := by unfold rad; positivity
    have h1 : rad 24 ≤ 0.4189 := by unfold rad; norm_num at *; linarith
    have h2 : 0.4188 ≤ rad 24 := by unfold rad; norm_num at *; linarith
    have := sin_gt_sub_cube h0
    have h3 : rad 24 ^ 3 ≤ 0.4189 ^ 3 := by gcongr
    norm_num at *
    linarith
  calc (0.00696 : ℝ) ≤ 0.4 * 0.0174 := by norm_num
    _ ≤ _ := by gcongr

/-- C141: the altitude returned by `get_altitude` at standard conditions grows all morning and falls all afternoon,
up to 66 degrees of latitude, more than four minutes of hour angle from noon and midnight. -/
theorem C141_altitude (tp : ℝ) (htp : tp ≠ 0) (d d' : DateTime) (c c' : Civil) (h : UtcFields d c)
    (h' : UtcFields d' c') (hy : c'.year = c.year) (hm : c'.month = c.month) (hlt : c.micros < c'.micros)
    (h12 : c'.micros - c.micros ≤ 12 * 3600000000)
    (lat lon elev : ℝ) (hlat : |lat| ≤ 66) (he : |elev| ≤ 50000) (alt alt' : ℝ)
    (ha : get_altitude (mathB tp) (num lat) (num lon) (.dt d) (num elev) (num standard_temperature)
      (num standard_pressure) = .ok (num alt))
    (ha' : get_altitude (mathB tp) (num lat) (num lon) (.dt d') (num elev) (num standard_temperature)
      (num standard_pressure) = .ok (num alt')) :
    ∃ dec H e dec' H' e',
      get_topocentric_position (mathB tp) (num lat) (num lon) (.dt d) (num elev) = .ok (num dec, num H) ∧
      get_topocentric_elevation_angle (mathB tp) (num lat) (num dec) (num H) = .ok (num e) ∧
      get_topocentric_position (mathB tp) (num lat) (num lon) (.dt d') (num elev) = .ok (num dec', num H') ∧
      get_topocentric_elevation_angle (mathB tp) (num lat) (num dec') (num H') = .ok (num e') ∧
      (e + 10.3 / (e + 5.11) ≠ 90 → e' + 10.3 / (e' + 5.11) ≠ 90 →
        (∀ k k' : ℤ, 181 ≤ H + 360 * k → H + 360 * k ≤ 359 → 181 ≤ H' + 360 * k' → H' + 360 * k' ≤ 359 → alt < alt') ∧
        (∀ k k' : ℤ, 1 ≤ H + 360 * k → H + 360 * k ≤ 179 → 1 ≤ H' + 360 * k' → H' + 360 * k' ≤ 179 → alt' < alt)) := by
  have hl := abs_le.mp hlat
  obtain ⟨dec, H, e, dec', H', e', p1, p2, p1', p2', g, q, q'⟩ := C141_climb tp d d' c c' h h' hy hm hlt h12 lat lon elev 1
    (by linarith) (by linarith) he (by norm_num) (le_trans (by norm_num) (margin_66 hlat)) _ rfl
  refine ⟨dec, H, e, dec', H', e', p1, p2, p1', p2', fun n n' => ?_⟩
  obtain ⟨b, r, hr, hv⟩ := altitude_parts h p1 p2 ha
  obtain ⟨b', r', hr', hv'⟩ := altitude_parts h' p1' p2' ha'
  rw [hv, hv']
  constructor
  · intro k k' u1 u2 u3 u4
    exact C66_order tp e e' r r' htp
      (lt_of_lt_of_le (by linarith) (q k k' (by linarith) (by linarith) (by linarith) (by linarith))) b' n n' hr hr'
  · intro k k' u1 u2 u3 u4
    exact C66_order tp e' e r' r htp
      (lt_of_lt_of_le (by linarith) (q' k k' (by linarith) (by linarith) (by linarith) (by linarith))) b n' n hr' hr

/-- The order of apparent altitudes below 89.5 degrees, without conditions on the pole. -/
theorem order_any {tp a b r s : ℝ} (htp : tp ≠ 0) (hab : a < b) (hb : b ≤ 89.5)
    (hr : get_refraction_correction (mathB tp) (num standard_pressure) (num standard_temperature) (num a)
      = .ok (num r))
    (hs : get_refraction_correction (mathB tp) (num standard_pressure) (num standard_temperature) (num b)
      = .ok (num s)) : a + r < b + s := by
  have np : ∀ {x : ℝ}, -0.83337 ≤ x → x ≤ 89.5 → x + 10.3 / (x + 5.11) ≠ 90 := fun h1 h2 =>
    ((C30_zenith_zero _ h1).1 (by norm_num at *; linarith)).ne
  have hb' : b ≤ 90 := by norm_num at *; linarith
  rcases lt_or_ge a (-0.83337) with h1 | h1
  · rw [num_injective (C30_zero_below _ _ _ _ h1 _ hr)]
    rcases lt_or_ge b (-0.83337) with h2 | h2
    · rw [num_injective (C30_zero_below _ _ _ _ h2 _ hs)]
      linarith
    · obtain ⟨r0, hr0, h0⟩ := refr_threshold htp
      rcases h2.eq_or_lt with h3 | h3
      · rw [← h3] at hs ⊢
        rw [← num_injective (Except.ok.inj (hr0.symm.trans hs))]
        norm_num at *
        linarith
      · have := C66_order tp (-0.83337) b r0 s htp h3 hb' (by norm_num) (np h2 hb) hr0 hs
        norm_num at *
        linarith
  · exact C66_order tp a b r s htp hab hb' (np h1 (hab.le.trans hb)) (np (h1.trans hab.le) hb) hr hs

/-- A sun more than a degree of hour angle away from the meridian is below 89.5 degrees. -/
theorem off_meridian_le {lat H dec : ℝ} (hd : |dec| ≤ 24.2) (hs : 0.0174 ≤ |sin (rad H)|) :
    deg (arcsin (sunENU lat H dec).z) ≤ 89.5 := by
  have hp := pi_lt_d4
  have hp0 := pi_pos
  have c1 : 0.91 ≤ cos (rad dec) := by
    have a : |rad dec| ≤ 0.4224 := by
      unfold rad
      rw [abs_div, abs_mul, abs_of_pos pi_pos, abs_of_pos (by norm_num : (0 : ℝ) < 180), div_le_iff₀ (by norm_num)]
      calc |dec| * π ≤ 24.2 * 3.1416 := by gcongr
        _ ≤ _ := by norm_num
    have b := one_sub_sq_div_two_le_cos (x := rad dec)
    have c : rad dec ^ 2 ≤ 0.4224 ^ 2 := by rw [← sq_abs]; gcongr
    norm_num at *
    linarith
  have hz := unit_z (sunENU_unit lat H dec)
  have key : (sunENU lat H dec).z ^ 2 ≤ 1 - (cos (rad dec) * sin (rad H)) ^ 2 := by
    rw [← up_eq]
    have a := sin_sq_add_cos_sq (rad lat)
    have b := sin_sq_add_cos_sq (rad H)
    have c := sin_sq_add_cos_sq (rad dec)
    generalize sin (rad lat) = s at *
    generalize cos (rad lat) = k at *
    generalize cos (rad dec) = u at *
    generalize sin (rad dec) = v at *
    generalize cos (rad H) = w at *
    generalize sin (rad H) = w' at *
    have : (s * v + k * u * w) ^ 2 + (k * v - s * u * w) ^ 2 = 1 - (u * w') ^ 2 := by
      linear_combination (v ^ 2 + u ^ 2 * w ^ 2) * a + u ^ 2 * b + c
    nlinarith [sq_nonneg (k * v - s * u * w)]
  have e2 : 0.0158 ^ 2 ≤ (cos (rad dec) * sin (rad H)) ^ 2 := by
    rw [← sq_abs (cos (rad dec) * sin (rad H)), abs_mul, abs_of_pos (lt_of_lt_of_le (by norm_num) c1)]
    refine pow_le_pow_left₀ (by norm_num) ?_ 2
    calc (0.0158 : ℝ) ≤ 0.91 * 0.0174 := by norm_num
      _ ≤ _ := by gcongr
  by_contra hn
  have h1 : rad 89.5 < arcsin (sunENU lat H dec).z := by
    have := rad_lt_rad.mpr (not_le.mp hn)
    rwa [rad_deg] at this
  have h2 := sin_lt_sin_of_lt_of_le_pi_div_two (by
    have : 0 ≤ rad 89.5 := by unfold rad; positivity
    linarith) (arcsin_le_pi_div_two _) h1
  rw [sin_arcsin hz.1 hz.2] at h2
  have h3 : 0.9999 ≤ sin (rad 89.5) := by
    have e : rad 89.5 = π / 2 - rad 0.5 := by rw [← rad_90, ← rad_sub]; norm_num
    rw [e, sin_pi_div_two_sub]
    have b := one_sub_sq_div_two_le_cos (x := rad 0.5)
    have h0 : 0 ≤ rad 0.5 := by unfold rad; positivity
    have h1 : rad 0.5 ≤ 0.0088 := by unfold rad; norm_num at *; linarith
    have c : rad 0.5 ^ 2 ≤ 0.0088 ^ 2 := by gcongr
    norm_num at *
    linarith
  have h4 : 0.9999 ^ 2 ≤ (sunENU lat H dec).z ^ 2 := by
    refine pow_le_pow_left₀ (by norm_num) (h3.trans h2.le) 2
  norm_num at *
  linarith

theorem off_meridian {lat H dec : ℝ} (hd : |dec| ≤ 24.2) (hs : 0.0174 ≤ |sin (rad H)|) :
    |deg (arcsin (sunENU lat H dec).z)| ≤ 89.5 := by
  rw [abs_le]
  refine ⟨?_, off_meridian_le hd hs⟩
  have h := off_meridian_le (lat := lat) (H := H + 180) (dec := -dec) (by rwa [abs_neg])
    (by rw [rad_add, rad_180, sin_add_pi, abs_neg]; exact hs)
  have e : (sunENU lat (H + 180) (-dec)).z = -(sunENU lat H dec).z := by
    rw [← up_eq, ← up_eq, rad_add, rad_180, cos_add_pi, rad_neg, sin_neg, cos_neg]
    ring
  rw [e, arcsin_neg, deg_neg] at h
  linarith

/-- Local mean solar time in hours at the longitude `lon`, counted from midnight of some day. -/
noncomputable def meanSolar (lon : ℝ) (c : Civil) : ℝ := (c.micros : ℝ) / 3600000000 + lon / 15

/-- The hour angle against local mean solar time. -/
theorem hour_mean {tp lat lon elev : ℝ} {d : DateTime} {c : Civil} (h : UtcFields d c) (hy1 : 1901 ≤ c.year)
    (hy2 : c.year ≤ 2099) (h1 : -90 < lat) (h2 : lat < 90) (he : |elev| ≤ 50000) {dec H : ℝ}
    (hp : get_topocentric_position (mathB tp) (num lat) (num lon) (.dt d) (num elev) = .ok (num dec, num H)) :
    ∃ k : ℤ, |H + 360 * k - 15 * (meanSolar lon c - 12)| ≤ 5.97 := by
  obtain ⟨dec', H', x, y, q1, -, q3, -, k, hk⟩ := C87_fast_angles tp d c h hy1 hy2 lat lon elev h1 h2 he
  rw [hp] at q1
  rw [← num_injective (Prod.mk.inj (Except.ok.inj q1)).2, ha_eval h] at *
  rw [← num_injective (Except.ok.inj q3)] at hk
  obtain ⟨z, z1, z2⟩ := C35_equation_of_time tp (yday c.date)
  rw [eot_eval] at z1
  rw [← num_injective (Except.ok.inj z1)] at z2
  obtain ⟨-, -, -, -, -, -, -, b1, b2, b3, b4⟩ := h.1
  refine ⟨k + ymd2ord c.year c.month c.day, ?_⟩
  have e : 15 * (meanSolar lon c - 12) = haF lon c - eotF (yday c.date) / 4 + 15 * ((c.second : ℝ) / 3600
      + (c.micro : ℝ) / 3600000000) + 360 * (ymd2ord c.year c.month c.day : ℤ) := by
    unfold meanSolar haF solF Civil.micros
    push_cast
    ring
  have s0 : (0 : ℝ) ≤ c.second := by exact_mod_cast b1
  have s1 : (c.second : ℝ) ≤ 59 := by exact_mod_cast (by omega : c.second ≤ 59)
  have u0 : (0 : ℝ) ≤ c.micro := by exact_mod_cast b3
  have u1 : (c.micro : ℝ) ≤ 999999 := by exact_mod_cast (by omega : c.micro ≤ 999999)
  have z2 := abs_le.mp z2
  have hk := abs_le.mp hk
  rw [e, abs_le]
  push_cast
  clear e h hp z1 q3 b1 b2 b3 b4
  generalize (c.second : ℝ) = u at *
  generalize (c.micro : ℝ) = v at *
  norm_num at *
  constructor <;> linarith

/-- The elevation angles against local mean solar time. -/
theorem clock_elev {tp : ℝ} {d d' : DateTime} {c c' : Civil} (h : UtcFields d c)
    (h' : UtcFields d' c') (hy : c'.year = c.year) (hm : c'.month = c.month) (hlt : c.micros < c'.micros)
    (hy1 : 1901 ≤ c.year) (hy2 : c.year ≤ 2099)
    {lat lon elev : ℝ} (hlat : |lat| ≤ 66) (he : |elev| ≤ 50000) (day : ℤ) :
    ∃ dec H e dec' H' e',
      get_topocentric_position (mathB tp) (num lat) (num lon) (.dt d) (num elev) = .ok (num dec, num H) ∧
      get_topocentric_elevation_angle (mathB tp) (num lat) (num dec) (num H) = .ok (num e) ∧
      get_topocentric_position (mathB tp) (num lat) (num lon) (.dt d') (num elev) = .ok (num dec', num H') ∧
      get_topocentric_elevation_angle (mathB tp) (num lat) (num dec') (num H') = .ok (num e') ∧
      (24 * day + 0.5 ≤ meanSolar lon c → meanSolar lon c' ≤ 24 * day + 11.5 →
        |e| ≤ 89.5 ∧ |e'| ≤ 89.5 ∧ e + 0.02 * (((c'.micros - c.micros : ℤ) : ℝ) / 3600000000) ≤ e') ∧
      (24 * day + 12.5 ≤ meanSolar lon c → meanSolar lon c' ≤ 24 * day + 23.5 →
        |e| ≤ 89.5 ∧ |e'| ≤ 89.5 ∧ e' + 0.02 * (((c'.micros - c.micros : ℤ) : ℝ) / 3600000000) ≤ e) := by
  have hl := abs_le.mp hlat
  have l1 : -90 < lat := by linarith
  have l2 : lat < 90 := by linarith
  have hms : meanSolar lon c < meanSolar lon c' := by
    unfold meanSolar
    have : (c.micros : ℝ) < c'.micros := by exact_mod_cast hlt
    linarith [(div_lt_div_iff_of_pos_right (by norm_num : (0 : ℝ) < 3600000000)).mpr this]
  by_cases h12 : c'.micros - c.micros ≤ 12 * 3600000000
  swap
  · have : (12 * 3600000000 : ℝ) < (c'.micros : ℝ) - c.micros := by
      have h12 := not_le.mp h12
      exact_mod_cast h12
    have : 12 < meanSolar lon c' - meanSolar lon c := by
      unfold meanSolar
      rw [add_sub_add_right_eq_sub, ← sub_div, lt_div_iff₀ (by norm_num)]
      linarith
    refine ⟨_, _, _, _, _, _, topo_eval h lat lon elev, tea_eval _ _ _, topo_eval h' lat lon elev, tea_eval _ _ _,
      fun a b => ?_, fun a b => ?_⟩
    · exfalso
      norm_num at a b
      linarith
    · exfalso
      norm_num at a b
      linarith
  obtain ⟨dec, H, e, dec', H', e', p1, p2, p1', p2', g, q, q'⟩ := C141_climb tp d d' c c' h h' hy hm hlt h12 lat lon elev 1
    l1 l2 he (by norm_num) (le_trans (by norm_num) (margin_66 hlat)) _ rfl
  refine ⟨dec, H, e, dec', H', e', p1, p2, p1', p2', ?_⟩
  have hrate : 0.02 * (((c'.micros - c.micros : ℤ) : ℝ) / 3600000000)
      ≤ (13.65 * (cos (rad lat) * sin (rad 1)) - 0.075) * (((c'.micros - c.micros : ℤ) : ℝ) / 3600000000) := by
    have m := margin_66 hlat
    have h0 : (0 : ℝ) ≤ ((c'.micros - c.micros : ℤ) : ℝ) / 3600000000 := by
      have : (0 : ℝ) < ((c'.micros - c.micros : ℤ) : ℝ) := by exact_mod_cast sub_pos.mpr hlt
      positivity
    refine mul_le_mul_of_nonneg_right ?_ h0
    norm_num at *
    linarith
  obtain ⟨k, hk⟩ := hour_mean h hy1 hy2 l1 l2 he p1
  obtain ⟨k', hk'⟩ := hour_mean h' (by omega) (by omega) l1 l2 he p1'
  have sb : ∀ {d : DateTime} {c : Civil} {dec H e : ℝ}, UtcFields d c →
      get_topocentric_position (mathB tp) (num lat) (num lon) (.dt d) (num elev) = .ok (num dec, num H) →
      get_topocentric_elevation_angle (mathB tp) (num lat) (num dec) (num H) = .ok (num e) →
      (∃ k : ℤ, 181 ≤ H + 360 * k ∧ H + 360 * k ≤ 359 ∨ 1 ≤ H + 360 * k ∧ H + 360 * k ≤ 179) → |e| ≤ 89.5 := by
    intro d c dec H e h q1 q2 hk
    rw [topo_eval h] at q1
    have a := abs_le.mp (topo_small tp h.1 (lon := lon) l1 l2 he).1
    have b := abs_le.mp (decOf_bound h.1)
    have hd : |dec| ≤ 24.2 := by
      rw [← num_injective (Prod.mk.inj (Except.ok.inj q1)).1, abs_le]
      norm_num at *
      constructor <;> linarith
    rw [tea_eval] at q2
    rw [← num_injective (Except.ok.inj q2)]
    refine off_meridian hd ?_
    obtain ⟨k, hk⟩ := hk
    have s1 : 0.0174 ≤ sin (rad 1) := by
      have hp := pi_gt_d4
      have hp' := pi_lt_d4
      have h0 : 0 < rad 1 := by unfold rad; positivity
      have h1 : rad 1 ≤ 0.01746 := by unfold rad; norm_num at *; linarith
      have h2 : 0.01745 ≤ rad 1 := by unfold rad; norm_num at *; linarith
      have := sin_gt_sub_cube h0
      have h3 : rad 1 ^ 3 ≤ 0.01746 ^ 3 := by gcongr
      norm_num at *
      linarith
    have s2 : ∀ x : ℝ, 1 ≤ x → x ≤ 179 → 0.0174 ≤ sin (rad x) := by
      intro x x1 x2
      refine s1.trans ?_
      rcases le_total x 90 with hx | hx
      · refine sin_le_sin_of_le_of_le_pi_div_two ?_ ?_ (rad_le_rad.mpr x1)
        · have : 0 ≤ rad 1 := by unfold rad; positivity
          linarith [pi_pos]
        · rw [← rad_90, rad_le_rad]; exact hx
      · rw [← sin_pi_sub (rad x), ← rad_180, ← rad_sub]
        refine sin_le_sin_of_le_of_le_pi_div_two ?_ ?_ (rad_le_rad.mpr (by linarith))
        · have : 0 ≤ rad 1 := by unfold rad; positivity
          linarith [pi_pos]
        · rw [← rad_90, rad_le_rad]; linarith
    rw [← sin_rad_add_turns H k]
    rcases hk with hk | hk
    · have := s2 (H + 360 * k - 180) (by linarith) (by linarith)
      rw [rad_sub, rad_180, sin_sub_pi] at this
      exact this.trans (neg_le_abs _)
    · exact (s2 _ hk.1 hk.2).trans (le_abs_self _)
  have hk := abs_le.mp hk
  have hk' := abs_le.mp hk'
  constructor
  · intro u1 u2
    have f : 181 ≤ H + 360 * ((k - day + 1 : ℤ) : ℝ) ∧ H + 360 * ((k - day + 1 : ℤ) : ℝ) ≤ 359 := by
      push_cast; norm_num at *; constructor <;> linarith
    have f' : 181 ≤ H' + 360 * ((k' - day + 1 : ℤ) : ℝ) ∧ H' + 360 * ((k' - day + 1 : ℤ) : ℝ) ≤ 359 := by
      push_cast; norm_num at *; constructor <;> linarith
    refine ⟨sb h p1 p2 ⟨_, .inl f⟩, sb h' p1' p2' ⟨_, .inl f'⟩, ?_⟩
    have := q (k - day + 1) (k' - day + 1) (by linarith [f.1]) (by linarith [f.2]) (by linarith [f'.1])
      (by linarith [f'.2])
    linarith
  · intro u1 u2
    have f : 1 ≤ H + 360 * ((k - day : ℤ) : ℝ) ∧ H + 360 * ((k - day : ℤ) : ℝ) ≤ 179 := by
      push_cast; norm_num at *; constructor <;> linarith
    have f' : 1 ≤ H' + 360 * ((k' - day : ℤ) : ℝ) ∧ H' + 360 * ((k' - day : ℤ) : ℝ) ≤ 179 := by
      push_cast; norm_num at *; constructor <;> linarith
    refine ⟨sb h p1 p2 ⟨_, .inr f⟩, sb h' p1' p2' ⟨_, .inr f'⟩, ?_⟩
    have := q' (k - day) (k' - day) (by linarith [f.1]) (by linarith [f.2]) (by linarith [f'.1])
      (by linarith [f'.2])
    linarith

/-- C141: for the years 1901 to 2099, up to 66 degrees of latitude and at standard conditions: from half past
midnight to half past eleven in local mean solar time the altitude returned by `get_altitude` grows, and from half
past twelve to half past eleven at night it falls. -/
theorem C141_clock (tp : ℝ) (htp : tp ≠ 0) (d d' : DateTime) (c c' : Civil) (h : UtcFields d c)
    (h' : UtcFields d' c') (hy : c'.year = c.year) (hm : c'.month = c.month) (hlt : c.micros < c'.micros)
    (hy1 : 1901 ≤ c.year) (hy2 : c.year ≤ 2099)
    (lat lon elev : ℝ) (hlat : |lat| ≤ 66) (he : |elev| ≤ 50000) (alt alt' : ℝ) (day : ℤ)
    (ha : get_altitude (mathB tp) (num lat) (num lon) (.dt d) (num elev) (num standard_temperature)
      (num standard_pressure) = .ok (num alt))
    (ha' : get_altitude (mathB tp) (num lat) (num lon) (.dt d') (num elev) (num standard_temperature)
      (num standard_pressure) = .ok (num alt')) :
    (24 * day + 0.5 ≤ meanSolar lon c → meanSolar lon c' ≤ 24 * day + 11.5 → alt < alt') ∧
    (24 * day + 12.5 ≤ meanSolar lon c → meanSolar lon c' ≤ 24 * day + 23.5 → alt' < alt) := by
  have hh : (0 : ℝ) < 0.02 * (((c'.micros - c.micros : ℤ) : ℝ) / 3600000000) := by
    have : (0 : ℝ) < ((c'.micros - c.micros : ℤ) : ℝ) := by exact_mod_cast sub_pos.mpr hlt
    positivity
  obtain ⟨dec, H, e, dec', H', e', p1, p2, p1', p2', q, q'⟩ := clock_elev (tp := tp) (lon := lon) h h' hy hm hlt hy1 hy2
    hlat he day
  obtain ⟨-, r, hr, hv⟩ := altitude_parts h p1 p2 ha
  obtain ⟨-, r', hr', hv'⟩ := altitude_parts h' p1' p2' ha'
  rw [hv, hv']
  refine ⟨fun u1 u2 => ?_, fun u1 u2 => ?_⟩
  · obtain ⟨-, x, y⟩ := q u1 u2
    exact order_any htp (by linarith) (abs_le.mp x).2 hr hr'
  · obtain ⟨x, -, y⟩ := q' u1 u2
    exact order_any htp (by linarith) (abs_le.mp x).2 hr' hr

/-- At Greenwich on 21 June 2000, 6 and 9 o'clock are in the morning range. -/
example : UtcFields (utcDT ⟨2000, 6, 21, 6, 0, 0, 0⟩) ⟨2000, 6, 21, 6, 0, 0, 0⟩ ∧
    UtcFields (utcDT ⟨2000, 6, 21, 9, 0, 0, 0⟩) ⟨2000, 6, 21, 9, 0, 0, 0⟩ ∧
    24 * ((ymd2ord 2000 6 21 : ℤ) : ℝ) + 0.5 ≤ meanSolar 0 ⟨2000, 6, 21, 6, 0, 0, 0⟩ ∧
    meanSolar 0 ⟨2000, 6, 21, 9, 0, 0, 0⟩ ≤ 24 * ((ymd2ord 2000 6 21 : ℤ) : ℝ) + 11.5 := by
  refine ⟨utcDT_fields (civil_valid_of_check (by decide)), utcDT_fields (civil_valid_of_check (by decide)), ?_, ?_⟩
  · unfold meanSolar Civil.micros
    push_cast
    norm_num
    linarith
  · unfold meanSolar Civil.micros
    push_cast
    norm_num
    linarith

end Verif.Props
