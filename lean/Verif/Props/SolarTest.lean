import Verif.Model.SolarTest
import Verif.Props.FloatAltitude
import Verif.Props.FloatRadiation
import Verif.Props.Horizon
import Verif.Proofs.Interval

/-!
# C123, C124: `solar_test` and `simulate_span` around sunrise and sunset
-/

namespace Verif.Props

open Verif.Spec Pysolar Pysolar.Solar Pysolar.Radiation Pysolar.Simulate Pysolar.Constants

/-! ## The loop -/

theorem loop_ok {B : Backend} {n : ℕ} {d d' : DateTime} {line : Option (Line B)} (hs : solarTestStep B d = .ok line)
    (ha : d.add 1800000000 = .ok d') :
    solarTestLoop B (n + 1) d = ⟨line.toList ++ (solarTestLoop B n d').printed, (solarTestLoop B n d').err⟩ := by
  have e : solarTestLoop B (n + 1) d = Run.andThen (solarTestStep B d) (d.add 1800000000) (solarTestLoop B n) := rfl
  rw [e, hs, ha]
  rfl

theorem loop_error {B : Backend} {n : ℕ} {d : DateTime} {e : PyErr} (hs : solarTestStep B d = .error e) :
    solarTestLoop B (n + 1) d = ⟨[], some e⟩ := by
  have e' : solarTestLoop B (n + 1) d = Run.andThen (solarTestStep B d) (d.add 1800000000) (solarTestLoop B n) := rfl
  rw [e', hs]
  rfl

theorem loop_eval {B : Backend} (n : ℕ) : ∀ (d : ℕ → DateTime) (line : ℕ → Option (Line B)),
    (∀ k < n, solarTestStep B (d k) = .ok (line k)) → (∀ k < n, (d k).add 1800000000 = .ok (d (k + 1))) →
    solarTestLoop B n (d 0) = ⟨(List.range n).filterMap line, none⟩ := by
  induction n with
  | zero => intro d line _ _; rfl
  | succ n ih =>
    intro d line hs ha
    have ih' := ih (fun k => d (k + 1)) (fun k => line (k + 1)) (fun k hk => hs _ (by omega)) (fun k hk => ha _ (by omega))
    rw [loop_ok (hs 0 (by omega)) (ha 0 (by omega)), ih', List.range_succ_eq_map, List.filterMap_cons, List.filterMap_map]
    cases line 0 <;> rfl

theorem loop_stop {B : Backend} {e : PyErr} (m : ℕ) : ∀ (n : ℕ) (d : ℕ → DateTime) (line : ℕ → Option (Line B)), m < n →
    (∀ k < m, solarTestStep B (d k) = .ok (line k)) → (∀ k < m, (d k).add 1800000000 = .ok (d (k + 1))) →
    solarTestStep B (d m) = .error e →
    solarTestLoop B n (d 0) = ⟨(List.range m).filterMap line, some e⟩ := by
  induction m with
  | zero =>
    intro n d line hn _ _ he
    obtain ⟨n, rfl⟩ := Nat.exists_eq_add_of_lt hn
    rw [Nat.zero_add, loop_error he]
    rfl
  | succ m ih =>
    intro n d line hn hs ha he
    obtain ⟨n, rfl⟩ : ∃ k, n = k + 1 := ⟨n - 1, by omega⟩
    have ih' := ih n (fun k => d (k + 1)) (fun k => line (k + 1)) (by omega) (fun k hk => hs _ (by omega))
      (fun k hk => ha _ (by omega)) he
    rw [loop_ok (hs 0 (by omega)) (ha 0 (by omega)), ih', List.range_succ_eq_map, List.filterMap_cons, List.filterMap_map]
    cases line 0 <;> rfl

/-- Half-hourly instants over a day. -/
def HalfHours (t : ℕ → Civil) : Prop := ∀ k ≤ 48, (t k).Valid ∧ (t k).micros = (t 0).micros + 1800000000 * k

theorem HalfHours.add {t : ℕ → Civil} (h : HalfHours t) {k : ℕ} (hk : k < 48) :
    (utcDT (t k)).add 1800000000 = .ok (utcDT (t (k + 1))) := by
  obtain ⟨v1, e1⟩ := h k hk.le
  obtain ⟨v2, e2⟩ := h (k + 1) hk
  have e : (t k).micros + 1800000000 = (t (k + 1)).micros := by rw [e1, e2]; push_cast; ring
  unfold DateTime.add civilChecked
  dsimp only [utcDT]
  rw [e, civilOfMicros_micros v2.2.2, if_pos ⟨v2.1, v2.2.1⟩]
  rfl

/-- Half-hourly instants from a given one, a day or more before the end of year 9999. -/
theorem halfHours_from {c : Civil} (h : c.Valid) (hy : c.year ≤ 9998) :
    HalfHours fun k => civilOfMicros (c.micros + 1800000000 * k) := by
  have last : Civil.Valid ⟨9999, 12, 31, 23, 59, 59, 999999⟩ := civil_valid_of_check (by decide)
  have h' : Civil.Valid ⟨9998, 12, 31, 23, 59, 59, 999999⟩ := civil_valid_of_check (by decide)
  have hl : c.micros + 1800000000 * 48 ≤ (⟨9999, 12, 31, 23, 59, 59, 999999⟩ : Civil).micros := by
    have d1 := micros_div h.2.2
    have o := ymd2ord_eq c.date
    have y := yday_bounds (c := c.date) h.2.2.1
    have s := daysBeforeYear_succ c.year
    have m := daysBeforeYear_mono (y := c.year + 1) (y' := 9999) (by omega)
    have e1 : daysBeforeYear 9999 = 3651694 := by decide
    have e2 : (⟨9999, 12, 31, 23, 59, 59, 999999⟩ : Civil).micros = 315537983999999999 := by decide
    simp only [Civil.date, usPerDay] at *
    omega
  intro k hk
  have hy := year_between h last (t := c.micros + 1800000000 * k) (by omega) (by omega)
  refine ⟨⟨hy.1, hy.2, civilOfMicros_valid _⟩, ?_⟩
  dsimp only
  rw [micros_civilOfMicros, micros_civilOfMicros]
  push_cast
  ring

/-! ## One pass in real arithmetic -/

variable {tp : ℝ}

theorem altitude_range (htp : 1 ≤ |tp|) {d : DateTime} {c : Civil} (h : UtcFields d c) {lat lon alt : ℝ}
    (ha : get_altitude (mathB tp) (num lat) (num lon) (.dt d) = .ok (num alt)) : -90 ≤ alt ∧ alt < 91 := by
  have htp0 : tp ≠ 0 := by rintro rfl; norm_num at htp
  rw [m_zero, altitude_eval h] at ha
  set e := teaOf tp lat lon 0 c with hed
  obtain ⟨he1, he2⟩ : -90 ≤ e ∧ e ≤ 90 := deg_arcsin_bounds _
  cases hr : get_refraction_correction (mathB tp) ((mathB tp).lit standard_pressure) ((mathB tp).lit standard_temperature)
      (num e) with
  | error x => rw [hr] at ha; cases ha
  | ok v =>
    rw [hr] at ha
    rcases lt_or_ge e (-0.83337) with h1 | h1
    · obtain rfl := C30_zero_below _ _ _ _ h1 _ hr
      obtain rfl : e + 0 = alt := num_injective (Except.ok.inj ha)
      constructor <;> linarith
    · have hT : ((standard_temperature : ℚ) : ℝ) ≠ 0 := by norm_num [standard_temperature]
      have hs := sin_bennett h1 he2
      have hs0 : 0 < Real.sin (refrArg e) := lt_trans (by norm_num) hs
      have hr2 := refr_eval (tp := tp) (P := standard_pressure) (T := standard_temperature) (tea := e)
        (by norm_num at h1 ⊢; intro h; rw [h] at h1; norm_num at h1) hT (tanP_ne_of_sin htp0 hs0.ne')
      obtain rfl := Except.ok.inj (hr.symm.trans hr2)
      obtain rfl := num_injective (Except.ok.inj ha)
      have hub := C30_bound tp e _ htp he2 hr2
      refine ⟨?_, by norm_num at *; linarith⟩
      rw [if_pos h1]
      set K : ℝ := (standard_pressure : ℝ) * 2.830 * 1.02 / (1010 * (standard_temperature : ℝ) * 60) with hKd
      have hK : K ≤ 0.61 := by
        rw [hKd]; norm_num [standard_temperature, standard_pressure]
      have hK0 : 0 ≤ K := by
        rw [hKd]; norm_num [standard_temperature, standard_pressure]
      have hlow : -40 ≤ (tanP tp (refrArg e))⁻¹ := by
        unfold tanP
        split_ifs with hc
        · have : |tp⁻¹| ≤ 1 := by rw [abs_inv]; exact inv_le_one_of_one_le₀ htp
          linarith [(abs_le.1 this).1]
        · rw [Real.tan_eq_sin_div_cos, inv_div, le_div_iff₀ hs0]
          have := Real.neg_one_le_cos (refrArg e)
          norm_num at *
          linarith
      rw [div_mul_eq_div_div, ← hKd, div_eq_mul_inv]
      norm_num at *
      nlinarith

/-- Above the horizon the direct radiation is a positive number. -/
theorem direct_above {d : DateTime} {c : Civil} (h : UtcFields d c) {alt : ℝ} (h1 : 0 < alt) (h2 : alt < 91) :
    ∃ r, get_radiation_direct (mathB tp) (.dt d) (num alt) = .ok (num r) ∧ 0 < r := by
  have hs : 0 < Real.sin (rad alt) := sin_rad_pos h1 (by linarith)
  have hd : 0 < depthF (yday c.date) := lt_of_lt_of_le (by norm_num) (depthF_bounds (yday c.date)).1
  have hf : 0 < fluxF (yday c.date) := lt_of_lt_of_le (by norm_num) (fluxF_bounds (yday c.date)).1
  refine ⟨_, direct_eval h hs.ne' (exp_small (neg_nonpos.2 (div_pos hd hs).le)), ?_⟩
  rw [if_pos h1]
  exact mul_pos hf (Real.exp_pos _)

/-- Just below the horizon `math.exp` overflows. -/
theorem direct_below {d : DateTime} {c : Civil} (h : UtcFields d c) {alt : ℝ} (h1 : -0.011 ≤ alt) (h2 : alt < 0) :
    get_radiation_direct (mathB tp) (.dt d) (num alt) = .error .overflow := by
  have hneg : 0 < -alt := by linarith
  have hp := Real.pi_lt_d4
  have hp0 := Real.pi_pos
  have h0 : 0 < rad (-alt) := by unfold rad; positivity
  have hup : rad (-alt) ≤ 0.000192 := by unfold rad; norm_num at *; nlinarith
  have hs1 := Real.sin_le h0.le
  have hs0 : 0 < Real.sin (rad (-alt)) := sin_rad_pos hneg (by norm_num at *; linarith)
  have e : Real.sin (rad alt) = -Real.sin (rad (-alt)) := by rw [rad_neg, Real.sin_neg, neg_neg]
  have hd := (depthF_bounds (yday c.date)).1
  refine direct_eval_overflow h (by rw [e]; linarith) ?_
  rw [e, div_neg, neg_neg, Chain.pow2_exp, Real.exp_le_exp, le_div_iff₀ hs0]
  have := Real.log_two_lt_d9
  push_cast
  norm_num at *
  nlinarith

theorem step_lat (tp : ℝ) : (42.364908 : (mathB tp).α) = num 42.364908 := by
  rw [m_sci]

theorem step_lon (tp : ℝ) : (-71.112828 : (mathB tp).α) = num (-71.112828) := by
  rw [m_sci, m_neg]

/-- One pass of the loop. -/
theorem step_eval {c : Civil} {alt r : ℝ}
    (ha : get_altitude (mathB tp) (num 42.364908) (num (-71.112828)) (.dt (utcDT c)) = .ok (num alt)) {azi : ℝ}
    (hz : get_azimuth (mathB tp) (num 42.364908) (num (-71.112828)) (.dt (utcDT c)) = .ok (num azi))
    (hr : get_radiation_direct (mathB tp) (.dt (utcDT c)) (num alt) = .ok (num r)) :
    solarTestStep (mathB tp) (utcDT c) = .ok (if 0 < alt then some ⟨ctime c, "UTC".toList, num alt, num azi, num r⟩ else none) := by
  unfold solarTestStep
  dsimp only
  rw [step_lat, step_lon, ha, ok_bind, hz, ok_bind, hr, ok_bind, m_zero, m_lt, m_truth, ok_bind]
  by_cases hp : 0 < alt
  · simp [hp, utcDT]
  · simp [hp]

/-- C123, what holds: if at none of the 48 half-hours the altitude is between -0.0171 and 0 degrees, the run ends
normally, having printed, for exactly the half-hours with the sun above the horizon and in order, the time, `UTC`, and the
values of `get_altitude`, `get_azimuth` and `get_radiation_direct`; the power is positive. Missing from the full statement:
the runs in which a half-hour falls on an altitude just below 0. -/
theorem C123_completes_partial (tp : ℝ) (htp : 1 ≤ |tp|) (t : ℕ → Civil) (ht : HalfHours t) (alt : ℕ → ℝ)
    (halt : ∀ k < 48, get_altitude (mathB tp) (num 42.364908) (num (-71.112828)) (.dt (utcDT (t k))) = .ok (num (alt k)))
    (hband : ∀ k < 48, alt k ≤ -0.0171 ∨ 0 ≤ alt k) :
    ∃ azi pow : ℕ → ℝ,
      (∀ k < 48, get_azimuth (mathB tp) (num 42.364908) (num (-71.112828)) (.dt (utcDT (t k))) = .ok (num (azi k)) ∧
        get_radiation_direct (mathB tp) (.dt (utcDT (t k))) (num (alt k)) = .ok (num (pow k)) ∧ (0 < alt k → 0 < pow k)) ∧
      (solar_test (mathB tp) (utcDT (t 0))).err = none ∧
      (solar_test (mathB tp) (utcDT (t 0))).printed =
        ((List.range 48).filter fun k => 0 < alt k).map fun k =>
          ⟨ctime (t k), "UTC".toList, num (alt k), num (azi k), num (pow k)⟩ := by
  have hpow : ∀ k, ∃ r, k < 48 → get_radiation_direct (mathB tp) (.dt (utcDT (t k))) (num (alt k)) = .ok (num r) ∧
      (0 < alt k → 0 < r) := by
    intro k
    by_cases hk : k < 48
    · have hu := utcDT_fields (ht k hk.le).1
      obtain ⟨r1, r2⟩ := altitude_range htp hu (halt k hk)
      by_cases hp : 0 < alt k
      · obtain ⟨r, h1, h2⟩ := direct_above (tp := tp) hu hp r2
        exact ⟨r, fun _ => ⟨h1, fun _ => h2⟩⟩
      · refine ⟨0, fun _ => ⟨C41_zero_partial tp _ _ hu _ r1 ?_, fun h => absurd h hp⟩⟩
        rcases hband k hk with h | h
        · exact .inl h
        · exact .inr (le_antisymm (not_lt.1 hp) h)
    · exact ⟨0, fun h => absurd h hk⟩
  choose pow hpow using hpow
  have hazi : ∀ k, ∃ a, k < 48 →
      get_azimuth (mathB tp) (num 42.364908) (num (-71.112828)) (.dt (utcDT (t k))) = .ok (num a) := by
    intro k
    by_cases hk : k < 48
    · obtain ⟨a, h1, -⟩ := C17_azimuth_bearing tp _ _ (utcDT_fields (ht k hk.le).1) 42.364908 (-71.112828) 0
      exact ⟨a, fun _ => by rw [m_zero]; exact h1⟩
    · exact ⟨0, fun h => absurd h hk⟩
  choose azi hazi using hazi
  have hrun := loop_eval 48 (fun k => utcDT (t k)) _
    (fun k hk => step_eval (halt k hk) (hazi k hk) (hpow k hk).1) (fun k hk => ht.add hk)
  refine ⟨azi, pow, fun k hk => ⟨hazi k hk, hpow k hk⟩, ?_, ?_⟩
  · unfold solar_test
    rw [hrun]
  · unfold solar_test
    rw [hrun]
    dsimp only
    rw [← List.filterMap_eq_filter, List.map_filterMap]
    congr 1
    funext k
    by_cases hk : 0 < alt k <;> simp [hk, Option.guard]

/-- C123: and if at the `m`-th half-hour the altitude is from -0.011 to just below 0 degrees, the run ends there with
`OverflowError`: only the lines of earlier half-hours are printed. -/
theorem C123_stops_partial (tp : ℝ) (htp : 1 ≤ |tp|) (t : ℕ → Civil) (ht : HalfHours t) (alt : ℕ → ℝ) (m : ℕ) (hm : m < 48)
    (halt : ∀ k ≤ m, get_altitude (mathB tp) (num 42.364908) (num (-71.112828)) (.dt (utcDT (t k))) = .ok (num (alt k)))
    (hband : ∀ k < m, alt k ≤ -0.0171 ∨ 0 ≤ alt k) (h1 : -0.011 ≤ alt m) (h2 : alt m < 0) :
    (solar_test (mathB tp) (utcDT (t 0))).err = some .overflow ∧
      (solar_test (mathB tp) (utcDT (t 0))).printed.map Line.timestamp =
        ((List.range m).filter fun k => 0 < alt k).map fun k => ctime (t k) := by
  have hazi : ∀ k, ∃ a, k ≤ m →
      get_azimuth (mathB tp) (num 42.364908) (num (-71.112828)) (.dt (utcDT (t k))) = .ok (num a) := by
    intro k
    by_cases hk : k ≤ m
    · obtain ⟨a, h1, -⟩ := C17_azimuth_bearing tp _ _ (utcDT_fields (ht k (by omega)).1) 42.364908 (-71.112828) 0
      exact ⟨a, fun _ => by rw [m_zero]; exact h1⟩
    · exact ⟨0, fun h => absurd h hk⟩
  choose azi hazi using hazi
  have hpow : ∀ k, ∃ r, k < m → get_radiation_direct (mathB tp) (.dt (utcDT (t k))) (num (alt k)) = .ok (num r) := by
    intro k
    by_cases hk : k < m
    · have hu := utcDT_fields (ht k (by omega)).1
      obtain ⟨r1, r2⟩ := altitude_range htp hu (halt k hk.le)
      by_cases hp : 0 < alt k
      · obtain ⟨r, h1, h2⟩ := direct_above (tp := tp) hu hp r2
        exact ⟨r, fun _ => h1⟩
      · refine ⟨0, fun _ => C41_zero_partial tp _ _ hu _ r1 ?_⟩
        rcases hband k hk with h | h
        · exact .inl h
        · exact .inr (le_antisymm (not_lt.1 hp) h)
    · exact ⟨0, fun h => absurd h hk⟩
  choose pow hpow using hpow
  have hstop : solarTestStep (mathB tp) (utcDT (t m)) = .error .overflow := by
    unfold solarTestStep
    dsimp only
    rw [step_lat, step_lon, halt m le_rfl, ok_bind, hazi m le_rfl, ok_bind,
      direct_below (utcDT_fields (ht m hm.le).1) h1 h2]
    rfl
  have hrun := loop_stop m 48 (fun k => utcDT (t k)) _ hm
    (fun k hk => step_eval (halt k hk.le) (hazi k hk.le) (hpow k hk)) (fun k hk => ht.add (by omega)) hstop
  unfold solar_test
  rw [hrun]
  refine ⟨rfl, ?_⟩
  dsimp only
  rw [← List.filterMap_eq_filter, List.map_filterMap, List.map_filterMap]
  congr 1
  funext k
  by_cases hk : 0 < alt k <;> simp [hk, Option.guard]

/-! ## Sunrise on 1 June 2020 -/

/-- 2020-06-01 09:11:37 UTC: 05:11:37 in the morning in Cambridge. -/
def sunriseC : Civil := ⟨2020, 6, 1, 9, 11, 37, 0⟩

theorem sunriseC_valid : sunriseC.Valid := civil_valid_of_check (by decide)

/-- Intervals of width 4e-13 around the coordinates of `solar_test`. -/
def latI : ivB.α := Iv.mk (781494615582250372933 - 4000000) (781494615582250372933 + 4000000)
def lonI : ivB.α := Iv.mk (-1311800138473726666025 - 4000000) (-1311800138473726666025 + 4000000)

theorem latI_rel {x : ℝ} (h : |x - 42.364908| ≤ 1 / 10 ^ 13) : Iv.rel latI (.fin x) := by
  have := abs_le.1 h
  refine ⟨x, rfl, ?_, ?_⟩ <;> unfold Iv.one <;> push_cast <;> norm_num at * <;> linarith

theorem lonI_rel {x : ℝ} (h : |x + 71.112828| ≤ 1 / 10 ^ 13) : Iv.rel lonI (.fin x) := by
  have := abs_le.1 h
  refine ⟨x, rfl, ?_, ?_⟩ <;> unfold Iv.one <;> push_cast <;> norm_num at * <;> linarith

set_option maxRecDepth 100000 in
theorem iv_alt : Iv.within (get_altitude ivB latI lonI (.dt (utcDT sunriseC)) (ivB.lit 0)
    (ivB.lit standard_temperature) (ivB.lit standard_pressure)) (-0.0053) (-0.0052) = true := by
  decide +kernel

set_option maxRecDepth 100000 in
theorem iv_tea : Iv.within (do
    let p ← get_topocentric_position ivB latI lonI (.dt (utcDT sunriseC)) (ivB.lit 0)
    get_topocentric_elevation_angle ivB latI p.1 p.2) (-0.8) (-0.2) = true := by
  decide +kernel

/-- At that second the sun, at the place of `solar_test` and within 1e-13 degrees of it, is 0.005 degrees below the
horizon. -/
theorem sunrise_alt (tp : ℝ) {lat lon : ℝ} (h1 : |lat - 42.364908| ≤ 1 / 10 ^ 13) (h2 : |lon + 71.112828| ≤ 1 / 10 ^ 13) :
    ∃ alt, get_altitude (mathB tp) (num lat) (num lon) (.dt (utcDT sunriseC)) = .ok (num alt) ∧
      -0.0053 ≤ alt ∧ alt ≤ -0.0052 := by
  obtain ⟨x, hx, h3, h4⟩ := iv_altitude_within tp (utcDT sunriseC) (latI_rel h1) (lonI_rel h2) iv_alt
  refine ⟨x, ?_, by norm_num at *; linarith, by norm_num at *; linarith⟩
  rw [m_zero]
  exact hx

theorem sunrise_halfHours : HalfHours fun k => civilOfMicros (sunriseC.micros + 1800000000 * k) :=
  halfHours_from sunriseC_valid (by decide)

theorem sunrise_start : civilOfMicros (sunriseC.micros + 1800000000 * ((0 : ℕ) : ℤ)) = sunriseC := by
  rw [Nat.cast_zero, mul_zero, add_zero, civilOfMicros_micros sunriseC_valid.2.2]

/-- C123 is false: started at 2020-06-01 09:11:37 UTC, `solar_test` prints nothing and ends with `OverflowError`, though
the sun is above the horizon for most of the 48 half-hours. -/
theorem C123_refuted (tp : ℝ) : ¬ ∀ t, HalfHours t → (solar_test (mathB tp) (utcDT (t 0))).err = none := by
  intro hall
  have h := hall _ sunrise_halfHours
  rw [sunrise_start] at h
  obtain ⟨alt, ha, h1, h2⟩ := sunrise_alt tp (lat := 42.364908) (lon := -71.112828) (by norm_num) (by norm_num)
  obtain ⟨azi, hz, -⟩ := C17_azimuth_bearing tp _ _ (utcDT_fields sunriseC_valid) 42.364908 (-71.112828) 0
  rw [← m_zero (tp := tp)] at hz
  have hstop : solarTestStep (mathB tp) (utcDT sunriseC) = .error .overflow := by
    unfold solarTestStep
    dsimp only
    rw [step_lat, step_lon, ha, ok_bind, hz, ok_bind,
      direct_below (utcDT_fields sunriseC_valid) (by norm_num at *; linarith) (by norm_num at *; linarith)]
    rfl
  unfold solar_test at h
  rw [loop_error hstop] at h
  cases h

/-! ## The same in double precision -/

theorem rnd_near (F : F64) {x : ℝ} (hx : |x| ≤ 72) : |F.rnd x - x| ≤ 1 / 10 ^ 13 := by
  have := F.rnd_err x
  have ht : (1 : ℝ) / 2 ^ 1075 ≤ 1 / 2 ^ 60 :=
    one_div_le_one_div_of_le (by positivity) (pow_le_pow_right₀ (by norm_num) (by norm_num))
  generalize (1 : ℝ) / 2 ^ 1075 = y at *
  norm_num at *
  linarith

theorem rlit_zero (F : F64) : (0 : (rndB F).α) = flt F 0 := by
  show V.fin (F.rnd _) = V.fin 0
  congr 1
  simpa using F.rnd_int 0 (by norm_num)

/-- At that second `get_altitude` in double precision gives about -0.005 degrees. -/
theorem sunrise_alt_double (F : F64) :
    ∃ alt, get_altitude (rndB F) (42.364908 : (rndB F).α) (-71.112828 : (rndB F).α) (.dt (utcDT sunriseC)) = .ok (flt F alt) ∧
      -0.006 ≤ alt ∧ alt ≤ -0.005 := by
  set lat := F.rnd 42.364908 with hlat
  set lon := -F.rnd 71.112828 with hlon
  have e1 : (42.364908 : (rndB F).α) = flt F lat := by
    show V.fin (F.rnd _) = V.fin (F.rnd _)
    congr 2
  have e2 : (-71.112828 : (rndB F).α) = flt F lon := by
    show V.fin (-(F.rnd _)) = V.fin (-(F.rnd _))
    congr 3
  have r1 : |lat - 42.364908| ≤ 1 / 10 ^ 13 := rnd_near F (by rw [abs_of_pos] <;> norm_num)
  have r2 : |lon + 71.112828| ≤ 1 / 10 ^ 13 := by
    rw [hlon, ← abs_neg, neg_add, neg_neg, ← sub_eq_add_neg]
    exact rnd_near F (by rw [abs_of_pos] <;> norm_num)
  have r1' := abs_le.1 r1
  have r2' := abs_le.1 r2
  have hL : LatOk F (10 ^ 6) lat := .inl (by rw [abs_le]; constructor <;> norm_num at * <;> linarith)
  have hlon360 : |lon| ≤ 360 := by rw [abs_le]; constructor <;> norm_num at * <;> linarith
  obtain ⟨dec, H, e, hp, he, hk⟩ := C86_default F (10 ^ 6) (by norm_num) _ _ (utcDT_fields sunriseC_valid) lat lon 0 hL
    hlon360 (by norm_num)
  obtain ⟨x, hx, x1, x2⟩ := iv_elevation_within (10 ^ 6) (utcDT sunriseC) (latI_rel r1) (lonI_rel r2) iv_tea
  have hp' : get_topocentric_position (mathB (10 ^ 6)) (V.fin lat) (V.fin lon) (.dt (utcDT sunriseC)) (V.fin 0)
      = .ok (num dec, num H) := hp
  rw [hp', ok_bind] at hx
  obtain rfl : e = x := num_injective (Except.ok.inj (he.symm.trans hx))
  obtain ⟨alt', alt, ha', ha, hd⟩ := hk (by rw [abs_lt]; constructor <;> norm_num at * <;> linarith)
    (.inr (.inr (by norm_num at *; linarith)))
  obtain ⟨y, hy, y1, y2⟩ := sunrise_alt (10 ^ 6) r1 r2
  rw [m_zero] at hy
  obtain rfl : alt = y := num_injective (Except.ok.inj (ha.symm.trans hy))
  have hd' := abs_le.1 hd
  refine ⟨alt', ?_, by norm_num at *; linarith, by norm_num at *; linarith⟩
  rw [e1, e2, rlit_zero]
  exact ha'

/-- C123 is false in double precision too, with the same witness. -/
theorem C123_refuted_double (F : F64) : ¬ ∀ t, HalfHours t → (solar_test (rndB F) (utcDT (t 0))).err = none := by
  intro hall
  have h := hall _ sunrise_halfHours
  rw [sunrise_start] at h
  obtain ⟨alt, ha, h1, h2⟩ := sunrise_alt_double F
  have r1' := abs_le.1 (rnd_near F (x := 42.364908) (by rw [abs_of_pos] <;> norm_num))
  have r2' := abs_le.1 (rnd_near F (x := 71.112828) (by rw [abs_of_pos] <;> norm_num))
  have e1 : (42.364908 : (rndB F).α) = flt F (F.rnd 42.364908) := by
    show V.fin (F.rnd _) = V.fin (F.rnd _)
    congr 2
  have e2 : (-71.112828 : (rndB F).α) = flt F (-F.rnd 71.112828) := by
    show V.fin (-(F.rnd _)) = V.fin (-(F.rnd _))
    congr 3
  obtain ⟨dec', H', azi, -, -, -, -, -, -, -, hz, -⟩ := C85_direction F (10 ^ 6) _ _ (utcDT_fields sunriseC_valid)
    (F.rnd 42.364908) (-F.rnd 71.112828) 0 (.inl (by rw [abs_le]; constructor <;> norm_num at * <;> linarith))
    (by rw [abs_le]; constructor <;> norm_num at * <;> linarith) (by norm_num)
  rw [← e1, ← e2, ← rlit_zero] at hz
  have hstop : solarTestStep (rndB F) (utcDT sunriseC) = .error .overflow := by
    unfold solarTestStep
    dsimp only
    rw [ha, ok_bind, hz, ok_bind, C106_overflow_partial F _ _ (utcDT_fields sunriseC_valid) alt
      (by norm_num at *; linarith) (by norm_num at *; linarith)]
    rfl
  unfold solar_test at h
  rw [loop_error hstop] at h
  cases h

/-! ## C124: `simulate_span` -/

/-- A row of `simulate_span`, when the altitude is not just below the horizon. -/
theorem row_ok (htp : 1 ≤ |tp|) {d : DateTime} {c : Civil} (h : UtcFields d c) {lat lon alt : ℝ}
    (horizon : List (mathB tp).α) (hl : 361 ≤ horizon.length)
    (ha : get_altitude (mathB tp) (num lat) (num lon) (.dt d) = .ok (num alt)) (hband : alt ≤ -0.0171 ∨ 0 ≤ alt) :
    ∃ r, simulateRow (mathB tp) (num lat) (num lon) horizon (0 : (mathB tp).α) ((mathB tp).lit standard_temperature)
      ((mathB tp).lit standard_pressure) d = .ok r := by
  obtain ⟨a1, a2⟩ := altitude_range htp h ha
  have hrad : ∃ r, get_radiation_direct (mathB tp) (.dt d) (num alt) = .ok r := by
    by_cases hp : 0 < alt
    · obtain ⟨r, hr, -⟩ := direct_above (tp := tp) h hp a2
      exact ⟨_, hr⟩
    · refine ⟨_, C41_zero_partial tp _ _ h _ a1 ?_⟩
      rcases hband with h | h
      · exact .inl h
      · exact .inr (le_antisymm (not_lt.1 hp) h)
  obtain ⟨r, hr⟩ := hrad
  obtain ⟨azi, hz, z0, z1⟩ := C17_azimuth_bearing tp _ _ h lat lon 0
  rw [← m_zero (tp := tp)] at hz
  obtain ⟨i0, i1, -⟩ := C56_index _ z0 z1
  have hidx : pyIndexInt horizon (roundHalfEven azi) = .ok (horizon[(roundHalfEven azi).toNat]'(by omega)) := by
    unfold pyIndexInt
    rw [if_pos i0, pyIndex_lt]
  unfold simulateRow
  rw [ha, ok_bind, hz]
  simp only [ok_bind, m_round, hidx, m_radians, m_sin, m_lit, m_mul]
  cases ht : (mathB tp).truth ((mathB tp).lt (horizon[(roundHalfEven azi).toNat]'(by omega))
      (num (((380 - roundHalfEven (((380 : ℤ) : ℚ) * Real.sin (rad alt)) : ℤ) : ℚ) : ℝ))) with
  | error e => exact absurd ht (by intro h; cases h)
  | ok b =>
    cases b with
    | true => exact ⟨_, rfl⟩
    | false => exact ⟨_, by simp only [ok_bind, Bool.false_eq_true, if_false, hr]; rfl⟩

/-- C124, what holds: whatever the horizon (of at least 361 entries), if at no time of the range the altitude is between
-0.0171 and 0 degrees, `simulate_span` yields a row for each time and ends normally. Missing from the full statement: the
spans with a time at which the sun is just below the horizon. -/
theorem C124_completes_partial (tp : ℝ) (htp : 1 ≤ |tp|) (lat lon : ℝ) (horizon : List (mathB tp).α)
    (hl : 361 ≤ horizon.length) (s e : DateTime) (k : ℤ) (hr : (datetime_range s e k).err = none)
    (hband : ∀ d ∈ (datetime_range s e k).yields, ∃ c alt, UtcFields d c ∧
      get_altitude (mathB tp) (num lat) (num lon) (.dt d) = .ok (num alt) ∧ (alt ≤ -0.0171 ∨ 0 ≤ alt)) :
    (simulate_span (mathB tp) (num lat) (num lon) horizon s e k).err = none ∧
    (simulate_span (mathB tp) (num lat) (num lon) horizon s e k).yields.length = (datetime_range s e k).yields.length := by
  have hok : (simulate_span (mathB tp) (num lat) (num lon) horizon s e k).err = none := by
    have := ofLoop_ok (f := simulateRow (mathB tp) (num lat) (num lon) horizon (0 : (mathB tp).α)
      ((mathB tp).lit standard_temperature) ((mathB tp).lit standard_pressure)) (xs := (datetime_range s e k).yields)
      fun d hd => by
        obtain ⟨c, alt, h, ha, hb⟩ := hband d hd
        exact row_ok htp h horizon hl ha hb
    unfold simulate_span Gen.bindLoop
    dsimp only
    rw [this]
    exact hr
  exact ⟨hok, (C55_row_count _ _ _ _ _ _ _ _ _ _ hok).2⟩

/-- A level horizon: every entry is 380, the level of altitude 0. -/
def levelHorizon (B : Backend) : List B.α := List.replicate 361 380

/-- An hour after `sunriseC`. -/
def sunriseEnd : Civil := ⟨2020, 6, 1, 10, 11, 37, 0⟩

theorem sunriseEnd_valid : sunriseEnd.Valid := civil_valid_of_check (by decide)

theorem sunrise_range : (datetime_range (utcDT sunriseC) (utcDT sunriseEnd) 60).yields = [utcDT sunriseC] := by
  have h : rangeCount (utcDT sunriseC) (utcDT sunriseEnd) 60 = .ok 1 := by decide +kernel
  unfold datetime_range
  rw [h]
  have h' : (do
      let off ← timedeltaChecked (60 * 60 * usPerSecond * ((0 : ℕ) : ℤ))
      (utcDT sunriseC).add off) = .ok (utcDT sunriseC) := by
    have e : civilOfMicros (sunriseC.micros + 0) = sunriseC := by
      rw [add_zero, civilOfMicros_micros sunriseC_valid.2.2]
    show (utcDT sunriseC).add 0 = _
    unfold DateTime.add civilChecked
    dsimp only [utcDT]
    rw [e, if_pos ⟨sunriseC_valid.1, sunriseC_valid.2.1⟩]
    rfl
  show (Gen.ofLoop _ [0]).yields = _
  unfold Gen.ofLoop
  rw [h']
  rfl

theorem sin_just_below {alt : ℝ} (h1 : -0.0053 ≤ alt) (h2 : alt ≤ -0.0052) : -0.001 ≤ Real.sin (rad alt) := by
  have e : Real.sin (rad alt) = -Real.sin (rad (-alt)) := by rw [rad_neg, Real.sin_neg, neg_neg]
  have hp := Real.pi_lt_d4
  have hp0 := Real.pi_pos
  have h0 : 0 ≤ rad (-alt) := by unfold rad; norm_num at h1 h2 hp ⊢; nlinarith
  have hup : rad (-alt) ≤ 0.0002 := by unfold rad; norm_num at h1 h2 hp ⊢; nlinarith
  have := Real.sin_le h0
  rw [e]
  norm_num at hup ⊢
  linarith

/-- C124 is false: over a level horizon `simulate_span`, from 2020-06-01 09:11:37 to 10:11:37 UTC in steps of an hour at
the place of `solar_test`, yields no row for its one time and ends with `OverflowError`. -/
theorem C124_refuted (tp : ℝ) : ¬ ∀ (lat lon : ℝ) (a b : Civil) (k : ℤ), a.Valid → b.Valid → 0 < k →
    |lat| ≤ 90 → |lon| ≤ 180 →
    (simulate_span (mathB tp) (num lat) (num lon) (levelHorizon (mathB tp)) (utcDT a) (utcDT b) k).err = none := by
  intro hall
  have h := hall 42.364908 (-71.112828) sunriseC sunriseEnd 60 sunriseC_valid sunriseEnd_valid (by norm_num)
    (by rw [abs_of_pos] <;> norm_num) (by rw [abs_of_neg] <;> norm_num)
  obtain ⟨alt, ha, h1, h2⟩ := sunrise_alt tp (lat := 42.364908) (lon := -71.112828) (by norm_num) (by norm_num)
  have hu := utcDT_fields sunriseC_valid
  obtain ⟨azi, hz, z0, z1⟩ := C17_azimuth_bearing tp _ _ hu 42.364908 (-71.112828) 0
  rw [← m_zero (tp := tp)] at hz
  obtain ⟨i0, i1, -⟩ := C56_index _ z0 z1
  have hlen : (levelHorizon (mathB tp)).length = 361 := List.length_replicate
  have hidx : pyIndexInt (levelHorizon (mathB tp)) (roundHalfEven azi) = .ok (num 380) := by
    unfold pyIndexInt
    rw [if_pos i0, pyIndex_lt (by omega)]
    congr 1
    unfold levelHorizon
    rw [List.getElem_replicate, m_ofNat]
    norm_num
  have hs0 : Real.sin (rad alt) ≤ 0 := by
    have := sin_rad_lt (a := alt) (b := 0) (by norm_num at h1 h2 ⊢; linarith) (by norm_num at h1 h2 ⊢; linarith) (by norm_num)
    rw [rad_zero, Real.sin_zero] at this
    exact this.le
  have hs1 := sin_just_below h1 h2
  have hround : roundHalfEven (((380 : ℤ) : ℚ) * Real.sin (rad alt)) = 0 := by
    have hb := abs_le.1 (roundHalfEven_bounds (((380 : ℤ) : ℚ) * Real.sin (rad alt)))
    have l1 : ((roundHalfEven (((380 : ℤ) : ℚ) * Real.sin (rad alt)) : ℤ) : ℝ) < 1 := by
      norm_num at hb hs1 ⊢; linarith [hb.1, hb.2]
    have l2 : (-1 : ℝ) < ((roundHalfEven (((380 : ℤ) : ℚ) * Real.sin (rad alt)) : ℤ) : ℝ) := by
      norm_num at hb hs1 ⊢; linarith [hb.1, hb.2]
    have l1' : roundHalfEven (((380 : ℤ) : ℚ) * Real.sin (rad alt)) < 1 := by exact_mod_cast l1
    have l2' : -1 < roundHalfEven (((380 : ℤ) : ℚ) * Real.sin (rad alt)) := by exact_mod_cast l2
    omega
  have hrow : simulateRow (mathB tp) (num 42.364908) (num (-71.112828)) (levelHorizon (mathB tp)) (0 : (mathB tp).α)
      ((mathB tp).lit standard_temperature) ((mathB tp).lit standard_pressure) (utcDT sunriseC) = .error .overflow := by
    have hrad : get_radiation_direct (mathB tp) (.dt (utcDT sunriseC)) (num alt) = .error .overflow :=
      direct_below hu (by norm_num at h1 h2 ⊢; linarith) (by norm_num at h1 h2 ⊢; linarith)
    unfold simulateRow
    rw [ha, ok_bind, hz]
    simp only [ok_bind, m_round, hidx, m_radians, m_sin, m_lit, m_mul, hround, m_lt, m_truth, hrad]
    norm_num
  unfold simulate_span Gen.bindLoop at h
  dsimp only at h
  rw [sunrise_range] at h
  unfold Gen.ofLoop at h
  rw [hrow] at h
  cases h

end Verif.Props
