import Verif.Py.Switching
import Verif.Props.Backends
import Verif.Props.FloatAltitude

/-!
# C143 switching between math and numpy in the middle of a call

Whatever the moments at which `use_math()` and `use_numpy()` are called by another thread while a function runs, and
however far an interrupted switch got: where the call returns with `math`, it returns the same value. In double
precision the two modules need not agree to the last bit; the accuracy of the position is the same for every mixture.
-/

namespace Verif.Props

open Pysolar Verif.Spec

/-- If the first call returns, the second returns the same number (with some history). -/
def Same (m : Py V) (m' : Py (V × Hist)) : Prop := ∀ v, m = .ok v → ∃ k, m' = .ok (v, k)

theorem same_of {m : Py V} {m' : Py (V × Hist)} (h : RelM False (fun (x : V) (y : V × Hist) => x = y.1) m m') :
    Same m m' := by
  intro v hv
  obtain ⟨⟨w, k⟩, h1, h2⟩ := RelM.of_ok h hv
  cases h2
  exact ⟨k, h1⟩

theorem same_of2 {m : Py (V × V)} {m' : Py ((V × Hist) × (V × Hist))}
    (h : RelM False (fun (x : V × V) (y : (V × Hist) × (V × Hist)) => x.1 = y.1.1 ∧ x.2 = y.2.1) m m') {res : V × V}
    (hm : m = .ok res) : ∃ k1 k2, m' = .ok ((res.1, k1), (res.2, k2)) := by
  obtain ⟨⟨⟨w1, k1⟩, ⟨w2, k2⟩⟩, h1, h2, h3⟩ := RelM.of_ok h hm
  obtain ⟨r1, r2⟩ := res
  cases h2
  cases h3
  exact ⟨k1, k2, h1⟩

section

variable (tp : ℝ) (s : Schedule)

theorem sw_r (v : V) (k : Hist) : (mathSw tp s).r v (v, k) := rfl

theorem C143_topocentric_position (d : DateTime) (lat lon el : V) (h1 h2 h3 : Hist) (res : V × V)
    (h : Solar.get_topocentric_position (mathB tp) lat lon (.dt d) el = .ok res) :
    ∃ k1 k2, Solar.get_topocentric_position (swB tp s) (lat, h1) (lon, h2) (.dt d) (el, h3) = .ok ((res.1, k1), (res.2, k2)) :=
  same_of2 ((mathSw tp s).toSim.get_topocentric_position (sw_r tp s lat h1) (sw_r tp s lon h2) ⟨d, rfl, rfl⟩ (sw_r tp s el h3)) h

theorem C143_position (d : DateTime) (lat lon el t p : V) (h1 h2 h3 h4 h5 : Hist) (res : V × V)
    (h : Solar.get_position (mathB tp) lat lon (.dt d) el t p = .ok res) :
    ∃ k1 k2, Solar.get_position (swB tp s) (lat, h1) (lon, h2) (.dt d) (el, h3) (t, h4) (p, h5) = .ok ((res.1, k1), (res.2, k2)) :=
  same_of2 ((mathSw tp s).toSim.get_position (sw_r tp s lat h1) (sw_r tp s lon h2) ⟨d, rfl, rfl⟩ (sw_r tp s el h3) (sw_r tp s t h4) (sw_r tp s p h5)) h

theorem C143_altitude (d : DateTime) (lat lon el t p : V) (h1 h2 h3 h4 h5 : Hist) :
    Same (Solar.get_altitude (mathB tp) lat lon (.dt d) el t p) (Solar.get_altitude (swB tp s) (lat, h1) (lon, h2) (.dt d) (el, h3) (t, h4) (p, h5)) :=
  same_of ((mathSw tp s).toSim.get_altitude (sw_r tp s lat h1) (sw_r tp s lon h2) ⟨d, rfl, rfl⟩ (sw_r tp s el h3) (sw_r tp s t h4) (sw_r tp s p h5))

theorem C143_azimuth (d : DateTime) (lat lon el : V) (h1 h2 h3 : Hist) :
    Same (Solar.get_azimuth (mathB tp) lat lon (.dt d) el) (Solar.get_azimuth (swB tp s) (lat, h1) (lon, h2) (.dt d) (el, h3)) :=
  same_of ((mathSw tp s).toSim.get_azimuth (sw_r tp s lat h1) (sw_r tp s lon h2) ⟨d, rfl, rfl⟩ (sw_r tp s el h3))

theorem C143_altitude_fast (d : DateTime) (lat lon : V) (h1 h2 : Hist) :
    Same (Solar.get_altitude_fast (mathB tp) lat lon (.dt d)) (Solar.get_altitude_fast (swB tp s) (lat, h1) (lon, h2) (.dt d)) :=
  same_of ((mathSw tp s).toSim.get_altitude_fast (sw_r tp s lat h1) (sw_r tp s lon h2) ⟨d, rfl, rfl⟩)

theorem C143_azimuth_fast (d : DateTime) (lat lon : V) (h1 h2 : Hist) :
    Same (Solar.get_azimuth_fast (mathB tp) lat lon (.dt d)) (Solar.get_azimuth_fast (swB tp s) (lat, h1) (lon, h2) (.dt d)) :=
  same_of ((mathSw tp s).toSim.get_azimuth_fast (sw_r tp s lat h1) (sw_r tp s lon h2) ⟨d, rfl, rfl⟩)

theorem C143_solar_time (d : DateTime) (lon : V) (h1 : Hist) :
    Same (Solar.get_solar_time (mathB tp) lon (.dt d)) (Solar.get_solar_time (swB tp s) (lon, h1) (.dt d)) :=
  same_of ((mathSw tp s).toSim.get_solar_time (sw_r tp s lon h1) ⟨d, rfl, rfl⟩)

theorem C143_hour_angle (d : DateTime) (lon : V) (h1 : Hist) :
    Same (Solar.get_hour_angle (mathB tp) (.dt d) lon) (Solar.get_hour_angle (swB tp s) (.dt d) (lon, h1)) :=
  same_of ((mathSw tp s).toSim.get_hour_angle ⟨d, rfl, rfl⟩ (sw_r tp s lon h1))

theorem C143_radiation_direct (d : DateTime) (alt : V) (h1 : Hist) :
    Same (Radiation.get_radiation_direct (mathB tp) (.dt d) alt) (Radiation.get_radiation_direct (swB tp s) (.dt d) (alt, h1)) :=
  same_of ((mathSw tp s).toSim.get_radiation_direct ⟨d, rfl, rfl⟩ (sw_r tp s alt h1))

theorem C143_sunrise_sunset_transit (d : DateTime) (lat lon : V) (h1 h2 : Hist) (res : DateTime × DateTime × DateTime)
    (h : Util.get_sunrise_sunset_transit (mathB tp) lat lon (.dt d) = .ok res) :
    Util.get_sunrise_sunset_transit (swB tp s) (lat, h1) (lon, h2) (.dt d) = .ok res :=
  same_of_eq ((mathSw tp s).get_sunrise_sunset_transit (sw_r tp s lat h1) (sw_r tp s lon h2) ⟨d, rfl, rfl⟩) h

theorem C143_sunrise_sunset (d : DateTime) (lat lon : V) (h1 h2 : Hist) (res : DateTime × DateTime)
    (h : Util.get_sunrise_sunset (mathB tp) lat lon (.dt d) = .ok res) :
    Util.get_sunrise_sunset (swB tp s) (lat, h1) (lon, h2) (.dt d) = .ok res :=
  same_of_eq ((mathSw tp s).get_sunrise_sunset (sw_r tp s lat h1) (sw_r tp s lon h2) ⟨d, rfl, rfl⟩) h

theorem C143_extraterrestrial_irrad (d : DateTime) (lat lon SC : V) (h1 h2 h3 : Hist) :
    Same (Util.extraterrestrial_irrad (mathB tp) lat lon (.dt d) SC) (Util.extraterrestrial_irrad (swB tp s) (lat, h1) (lon, h2) (.dt d) (SC, h3)) :=
  same_of ((mathSw tp s).extraterrestrial_irrad (sw_r tp s lat h1) (sw_r tp s lon h2) ⟨d, rfl, rfl⟩ (sw_r tp s SC h3))

theorem C143_clear_index (d : DateTime) (ghi lat lon : V) (h1 h2 h3 : Hist) :
    Same (Util.clear_index (mathB tp) ghi lat lon (.dt d)) (Util.clear_index (swB tp s) (ghi, h1) (lat, h2) (lon, h3) (.dt d)) :=
  same_of ((mathSw tp s).clear_index (sw_r tp s ghi h1) (sw_r tp s lat h2) (sw_r tp s lon h3) ⟨d, rfl, rfl⟩)

theorem C143_global_irradiance_clear (d : DateTime) (lat lon TY AM TL el t p : V) (h1 h2 h3 h4 h5 h6 h7 h8 : Hist) :
    Same (Util.global_irradiance_clear (mathB tp) lat lon (.dt d) TY AM TL el t p) (Util.global_irradiance_clear (swB tp s) (lat, h1) (lon, h2) (.dt d) (TY, h3) (AM, h4) (TL, h5) (el, h6) (t, h7) (p, h8)) :=
  same_of ((mathSw tp s).toSim.global_irradiance_clear (sw_r tp s lat h1) (sw_r tp s lon h2) ⟨d, rfl, rfl⟩ (sw_r tp s TY h3) (sw_r tp s AM h4) (sw_r tp s TL h5) (sw_r tp s el h6) (sw_r tp s t h7) (sw_r tp s p h8))

theorem C143_global_irradiance_overcast (d : DateTime) (lat lon el t p : V) (h1 h2 h3 h4 h5 : Hist) :
    Same (Util.global_irradiance_overcast (mathB tp) lat lon (.dt d) el t p) (Util.global_irradiance_overcast (swB tp s) (lat, h1) (lon, h2) (.dt d) (el, h3) (t, h4) (p, h5)) :=
  same_of ((mathSw tp s).toSim.global_irradiance_overcast (sw_r tp s lat h1) (sw_r tp s lon h2) ⟨d, rfl, rfl⟩ (sw_r tp s el h3) (sw_r tp s t h4) (sw_r tp s p h5))

theorem C143_diffuse_underclear (d : DateTime) (lat lon el t p TL : V) (h1 h2 h3 h4 h5 h6 : Hist) :
    Same (Util.diffuse_underclear (mathB tp) lat lon (.dt d) el t p TL) (Util.diffuse_underclear (swB tp s) (lat, h1) (lon, h2) (.dt d) (el, h3) (t, h4) (p, h5) (TL, h6)) :=
  same_of ((mathSw tp s).toSim.diffuse_underclear (sw_r tp s lat h1) (sw_r tp s lon h2) ⟨d, rfl, rfl⟩ (sw_r tp s el h3) (sw_r tp s t h4) (sw_r tp s p h5) (sw_r tp s TL h6))

theorem C143_direct_underclear (d : DateTime) (lat lon TY AM TL el t p : V) (h1 h2 h3 h4 h5 h6 h7 h8 : Hist) :
    Same (Util.direct_underclear (mathB tp) lat lon (.dt d) TY AM TL el t p) (Util.direct_underclear (swB tp s) (lat, h1) (lon, h2) (.dt d) (TY, h3) (AM, h4) (TL, h5) (el, h6) (t, h7) (p, h8)) :=
  same_of ((mathSw tp s).toSim.direct_underclear (sw_r tp s lat h1) (sw_r tp s lon h2) ⟨d, rfl, rfl⟩ (sw_r tp s TY h3) (sw_r tp s AM h4) (sw_r tp s TL h5) (sw_r tp s el h6) (sw_r tp s t h7) (sw_r tp s p h8))

theorem C143_pressure_with_elevation (hh Ps Ts Tl Hb R g M : V) (h1 h2 h3 h4 h5 h6 h7 h8 : Hist) :
    Same (Elevation.get_pressure_with_elevation (mathB tp) hh Ps Ts Tl Hb R g M) (Elevation.get_pressure_with_elevation (swB tp s) (hh, h1) (Ps, h2) (Ts, h3) (Tl, h4) (Hb, h5) (R, h6) (g, h7) (M, h8)) :=
  same_of ((mathSw tp s).get_pressure_with_elevation (sw_r tp s hh h1) (sw_r tp s Ps h2) (sw_r tp s Ts h3) (sw_r tp s Tl h4) (sw_r tp s Hb h5) (sw_r tp s R h6) (sw_r tp s g h7) (sw_r tp s M h8))

/-- C143: so `get_azimuth` returns for every schedule, at every instant and every place, and its result does not depend
on the schedule. -/
theorem C143_azimuth_returns (d : DateTime) (c : Civil) (h : UtcFields d c) (lat lon el : ℝ) :
    ∃ a, ∀ (s : Schedule) (h1 h2 h3 : Hist), ∃ k,
      Solar.get_azimuth (swB tp s) (V.fin lat, h1) (V.fin lon, h2) (.dt d) (V.fin el, h3) = .ok (V.fin a, k) :=
  ⟨_, fun s h1 h2 h3 => C143_azimuth tp s d (V.fin lat) (V.fin lon) (V.fin el) h1 h2 h3 _ (azimuth_eval h lat lon el)⟩

/-- C143: the schedule matters where `math` raises: the declination for an infinite day is a `ValueError` if `math`
answers and nan if numpy does. -/
theorem C143_infinite_day (t : Bool) (k : Hist) :
    Solar.get_declination (swB tp ⟨fun _ _ _ => false, t⟩) (V.pinf, k) = .error .valueError ∧
    ∃ k', Solar.get_declination (swB tp ⟨fun _ _ _ => true, t⟩) (V.pinf, k) = .ok (V.nan, k') := by
  have h1 : ∀ s, (((swB tp s).divq (2 * (swB tp s).pi) 365.0 * ((show (swB tp s).α from (V.pinf, k)) - 81) :
      (swB tp s).α) : V × Hist).1 = V.pinf := by
    intro s
    show V.infMul ((((2 : ℕ) : ℚ) : ℝ) * Real.pi / ((365.0 : ℚ) : ℝ)) V.pinf = _
    unfold V.infMul
    rw [if_pos]
    have := Real.pi_pos
    push_cast
    norm_num
    positivity
  constructor
  · have key : ∀ x : V × Hist, x.1 = V.pinf →
        ((swB tp ⟨fun _ _ _ => false, t⟩).sin x >>= fun v => pure ((swB tp ⟨fun _ _ _ => false, t⟩).lit
          Constants.earth_axis_inclination * v)) = .error .valueError := by
      rintro ⟨_, k⟩ rfl
      rfl
    exact key _ (h1 _)
  · have key : ∀ x : V × Hist, x.1 = V.pinf →
        ∃ k', ((swB tp ⟨fun _ _ _ => true, t⟩).sin x >>= fun v => pure ((swB tp ⟨fun _ _ _ => true, t⟩).lit
          Constants.earth_axis_inclination * v)) = .ok (V.nan, k') := by
      rintro ⟨_, k⟩ rfl
      exact ⟨_, rfl⟩
    exact key _ (h1 _)

end

/-! ## Double precision -/

open scoped Classical in
/-- The two libraries of a double precision system that share the arithmetic (`rnd`): at each argument the function of
`F` or that of `G` answers, as `np` says (by the number of the function). -/
noncomputable def mixLib (F G : F64) (np : ℕ → ℝ → ℝ → Bool) : F64 where
  rnd := F.rnd
  rnd_mono := F.rnd_mono
  rnd_err := F.rnd_err
  rnd_int := F.rnd_int
  sin x := bif np 0 x x then G.sin x else F.sin x
  cos x := bif np 1 x x then G.cos x else F.cos x
  tan x := bif np 2 x x then G.tan x else F.tan x
  asin x := bif np 3 x x then G.asin x else F.asin x
  acos x := bif np 4 x x then G.acos x else F.acos x
  atan x := bif np 5 x x then G.atan x else F.atan x
  atan2 y x := bif np 6 y x then G.atan2 y x else F.atan2 y x
  exp x := bif np 7 x x then G.exp x else F.exp x
  pow x y := bif np 8 x y then G.pow x y else F.pow x y
  sin_err x := by cases np 0 x x; exacts [F.sin_err x, G.sin_err x]
  cos_err x := by cases np 1 x x; exacts [F.cos_err x, G.cos_err x]
  sin_le x := by cases np 0 x x; exacts [F.sin_le x, G.sin_le x]
  cos_le x := by cases np 1 x x; exacts [F.cos_le x, G.cos_le x]
  tan_err x h := by cases np 2 x x; exacts [F.tan_err x h, G.tan_err x h]
  tan_pole x h := by cases np 2 x x; exacts [F.tan_pole x h, G.tan_pole x h]
  asin_err x h := by cases np 3 x x; exacts [F.asin_err x h, G.asin_err x h]
  acos_err x h := by cases np 4 x x; exacts [F.acos_err x h, G.acos_err x h]
  atan_err x := by cases np 5 x x; exacts [F.atan_err x, G.atan_err x]
  atan2_err y x := by cases np 6 y x; exacts [F.atan2_err y x, G.atan2_err y x]
  exp_err x := by cases np 7 x x; exacts [F.exp_err x, G.exp_err x]
  pow_err x y h := by cases np 8 x y; exacts [F.pow_err x y h, G.pow_err x y h]
  powN_err x n := by cases np 8 x (n : ℝ); exacts [F.powN_err x n, G.powN_err x n]

/-- C143: in double precision, whichever library answers each call, `get_altitude` is within 2e-5 degrees of the exact
computation wherever C86 says so of a single library; so two runs with different switches differ by at most 4e-5
degrees. -/
theorem C143_altitude_double (F G : F64) (tp : ℝ) (htp : 10 ^ 6 ≤ |tp|) (d : DateTime) (c : Civil) (h : UtcFields d c)
    (lat lon elev : ℝ) (hlat : |lat| ≤ 90 - 1 / 10 ^ 9) (hlon : |lon| ≤ 360) (helev : |elev| ≤ 50000) :
    ∃ dec H e,
      Solar.get_topocentric_position (mathB tp) (num lat) (num lon) (.dt d) (num elev) = .ok (num dec, num H) ∧
      Solar.get_topocentric_elevation_angle (mathB tp) (num lat) (num dec) (num H) = .ok (num e) ∧
      (|e| < 90 - 1 / 10 ^ 5 → (e ≤ -5.31 ∨ (-4.89 ≤ e ∧ e ≤ -0.83341) ∨ -0.83333 ≤ e) →
        ∃ alt, Solar.get_altitude (mathB tp) (num lat) (num lon) (.dt d) (num elev) = .ok (num alt) ∧
          ∀ np, ∃ alt', Solar.get_altitude (rndB (mixLib F G np)) (flt (mixLib F G np) lat) (flt (mixLib F G np) lon) (.dt d)
              (flt (mixLib F G np) elev) = .ok (flt (mixLib F G np) alt') ∧ |alt' - alt| ≤ 2 / 10 ^ 5) := by
  obtain ⟨dec, H, e, h1, h2, h3⟩ := C86_default F tp htp d c h lat lon elev (.inl hlat) hlon helev
  refine ⟨dec, H, e, h1, h2, fun he hr => ?_⟩
  obtain ⟨_, alt, -, h4, -⟩ := h3 he hr
  refine ⟨alt, h4, fun np => ?_⟩
  obtain ⟨dec2, H2, e2, g1, g2, g3⟩ := C86_default (mixLib F G np) tp htp d c h lat lon elev (.inl hlat) hlon helev
  have hp := Except.ok.inj (g1.symm.trans h1)
  obtain rfl : dec2 = dec := num_injective (congrArg Prod.fst hp)
  obtain rfl : H2 = H := num_injective (congrArg Prod.snd hp)
  obtain rfl : e2 = e := num_injective (Except.ok.inj (g2.symm.trans h2))
  obtain ⟨alt', alt2, g4, g5, g6⟩ := g3 he hr
  obtain rfl : alt2 = alt := num_injective (Except.ok.inj (g5.symm.trans h4))
  exact ⟨alt', g4, g6⟩

/-- The azimuth on the sample instant, with any schedule. -/
example (s : Schedule) : ∃ a k, Solar.get_azimuth (swB 0 s) (V.fin 45, .start 1) (V.fin 10, .start 2) (.dt sampleDT)
    (V.fin 0, .start 3) = .ok (V.fin a, k) := by
  obtain ⟨a, ha⟩ := C143_azimuth_returns 0 sampleDT sampleUTC sample_utc 45 10 0
  obtain ⟨k, hk⟩ := ha s (.start 1) (.start 2) (.start 3)
  exact ⟨a, k, hk⟩

/-- A mixture of a library with itself is that library. -/
example (F : F64) (np : ℕ → ℝ → ℝ → Bool) (x : ℝ) : (mixLib F F np).sin x = F.sin x := by
  show (bif np 0 x x then F.sin x else F.sin x) = F.sin x
  cases np 0 x x <;> rfl

end Verif.Props
