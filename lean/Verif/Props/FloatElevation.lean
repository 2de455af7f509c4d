import Verif.Proofs.FloatElev
import Verif.Props.FloatAltitude

/-!
# C118: the standard atmosphere in double precision, and the altitude computed with it
-/

namespace Verif.Props

open Verif.Spec Verif.Chain Pysolar Pysolar.Solar Pysolar.Elevation Pysolar.Numeric

/-- C118: temperature and pressure at a height from 500 m below to 11000 m above sea level. -/
theorem C118_atmosphere (F : F64) (tp h : ℝ) (h1 : -500 ≤ h) (h2 : h ≤ 11000) :
    ∃ T T' P P', get_temperature_with_elevation (mathB tp) (num h) = num T ∧
      get_temperature_with_elevation (rndB F) (flt F h) = flt F T' ∧
      get_pressure_with_elevation (mathB tp) (num h) = .ok (num P) ∧
      get_pressure_with_elevation (rndB F) (flt F h) = .ok (flt F P') ∧
      |T' - T| ≤ 81 / 10 ^ 15 ∧ |P' - P| ≤ 1 / 10 ^ 9 := by
  obtain ⟨T', g1, g2⟩ := temp_float F h1 h2
  obtain ⟨P', P, g3, g4, -, -, g5⟩ := pressure_float F tp h1 h2
  exact ⟨_, T', P, P', (C116_standard_atmosphere tp h (by linarith)).2, g1, g4, g3, g2, g5⟩

/-- C118: the altitude of the sun computed with the temperature and pressure of the place's own height, in double
precision from beginning to end, is within 2e-5 degrees of the exact value (outside the intervals of C86). -/
theorem C118_altitude (F : F64) (tp : ℝ) (htp : 10 ^ 6 ≤ |tp|) (d : DateTime) (c : Civil) (h : UtcFields d c)
    (lat lon elev : ℝ) (hlat : LatOk F tp lat) (hlon : |lon| ≤ 360) (h1 : -500 ≤ elev) (h2 : elev ≤ 11000) :
    ∃ dec H e, get_topocentric_position (mathB tp) (num lat) (num lon) (.dt d) (num elev) = .ok (num dec, num H) ∧
      get_topocentric_elevation_angle (mathB tp) (num lat) (num dec) (num H) = .ok (num e) ∧
      (|e| < 90 - 1 / 10 ^ 5 → (e ≤ -5.31 ∨ (-4.89 ≤ e ∧ e ≤ -0.83341) ∨ -0.83333 ≤ e) →
        ∃ alt' alt,
          (do let P ← get_pressure_with_elevation (rndB F) (flt F elev)
              get_altitude (rndB F) (flt F lat) (flt F lon) (.dt d) (flt F elev)
                (get_temperature_with_elevation (rndB F) (flt F elev)) P) = .ok (flt F alt') ∧
          (do let P ← get_pressure_with_elevation (mathB tp) (num elev)
              get_altitude (mathB tp) (num lat) (num lon) (.dt d) (num elev)
                (get_temperature_with_elevation (mathB tp) (num elev)) P) = .ok (num alt) ∧
          |alt' - alt| ≤ 2 / 10 ^ 5) := by
  obtain ⟨T', g1, g2⟩ := temp_float F h1 h2
  obtain ⟨P', P, g3, g4, l, u, g5⟩ := pressure_float F tp h1 h2
  have e := (C116_standard_atmosphere tp elev (by linarith)).2
  obtain ⟨dec, H, e0, k1, k2, k3⟩ := C86_altitude F tp htp d c h lat lon elev P P' (288.15 - 0.0065 * elev) T' hlat hlon
    (by rw [abs_le]; constructor <;> linarith) (by linarith) (by linarith) g5 (by norm_num; linarith)
    (by norm_num; linarith) (g2.trans (by norm_num))
  refine ⟨dec, H, e0, k1, k2, fun m1 m2 => ?_⟩
  obtain ⟨alt', alt, n1, n2, n3⟩ := k3 m1 m2
  refine ⟨alt', alt, ?_, ?_, n3⟩
  · refine bind_of_ok g3 ?_
    exact (congrArg (fun v => get_altitude (rndB F) (flt F lat) (flt F lon) (.dt d) (flt F elev) v (V.fin P')) g1).trans n1
  · rw [g4, ok_bind, e]
    exact n2

/-- The hypotheses are met at every time: at latitude -45 some longitude has the sun well above the horizon. -/
theorem C118_applies (F : F64) (d : DateTime) (c : Civil) (h : UtcFields d c) :
    ∃ lon alt' : ℝ, (do
      let P ← get_pressure_with_elevation (rndB F) (flt F 0)
      get_altitude (rndB F) (flt F (-45)) (flt F lon) (.dt d) (flt F 0)
        (get_temperature_with_elevation (rndB F) (flt F 0)) P) = .ok (flt F alt') := by
  have htp : (10 : ℝ) ^ 6 ≤ |10 ^ 6| := le_abs_self _
  obtain ⟨-, h1, h2⟩ := afternoon_south (10 ^ 6) h.1
  set l := raOf (10 ^ 6) c - astOf c + 0.1 with hl
  have hmod : mod360 l = l + 360 * ((-⌊l / 360⌋ : ℤ) : ℝ) := by
    unfold mod360
    push_cast
    ring
  obtain ⟨p1, p2⟩ := topo_periodic (10 ^ 6) (-45) l 0 c (-⌊l / 360⌋)
  rw [← hmod] at p1 p2
  have hm : 0 ≤ mod360 l ∧ mod360 l < 360 := ⟨mod360_nonneg l, mod360_lt l⟩
  obtain ⟨dec, H, e, q1, q2, q3⟩ := C118_altitude F (10 ^ 6) htp d c h (-45) (mod360 l) 0
    (.inl (by rw [abs_neg, abs_of_pos] <;> norm_num)) (by rw [abs_of_nonneg hm.1]; exact hm.2.le) (by norm_num) (by norm_num)
  rw [topo_eval h, p1, p2] at q1
  have hp := Except.ok.inj q1
  have r1 := num_injective (congrArg Prod.fst hp)
  have r2 := num_injective (congrArg Prod.snd hp)
  rw [← r1, ← r2, tea_eval] at q2
  have he : teaOf (10 ^ 6) (-45) l 0 c = e := num_injective (Except.ok.inj q2)
  rw [he] at h1 h2
  obtain ⟨alt', alt, a1, -⟩ := q3 (by rw [abs_of_pos h1]; norm_num at *; linarith)
    (.inr (.inr (by norm_num at *; linarith)))
  exact ⟨_, alt', a1⟩

/-- At 3000 m in binary64 arithmetic. -/
example : ∃ P', get_pressure_with_elevation (rndB binary64) (flt binary64 3000) = .ok (flt binary64 P') := by
  obtain ⟨_, _, _, P', -, -, -, h, -⟩ := C118_atmosphere binary64 1 3000 (by norm_num) (by norm_num)
  exact ⟨P', h⟩

end Verif.Props
