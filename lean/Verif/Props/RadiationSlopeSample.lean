import Verif.Props.RadiationSlope
import Verif.Proofs.Interval

/-!
# C161: a sample

Massachusetts on 18 February 2007, ten minutes or half a degree apart: the hypotheses of `C161_time` and `C161_place` hold.
-/

namespace Verif.Props

open Verif Verif.Spec Pysolar Pysolar.Numeric Pysolar.Radiation Pysolar.Solar Pysolar.Constants

def slopeA : Civil := ⟨2007, 2, 18, 16, 0, 0, 0⟩
def slopeB : Civil := ⟨2007, 2, 18, 16, 10, 0, 0⟩

theorem slopeA_valid : slopeA.Valid := civil_valid_of_check (by decide)
theorem slopeB_valid : slopeB.Valid := civil_valid_of_check (by decide)

set_option maxRecDepth 100000 in
theorem slope_alt : Iv.within (get_altitude ivB (ivB.lit 42) (ivB.lit (-71)) (.dt (utcDT slopeA)) (ivB.lit 0)
      (ivB.lit standard_temperature) (ivB.lit standard_pressure)) 30 40 = true ∧
    Iv.within (get_altitude ivB (ivB.lit 42) (ivB.lit (-71)) (.dt (utcDT slopeB)) (ivB.lit 0)
      (ivB.lit standard_temperature) (ivB.lit standard_pressure)) 30 40 = true ∧
    Iv.within (get_altitude ivB (ivB.lit 42.5) (ivB.lit (-71)) (.dt (utcDT slopeA)) (ivB.lit 0)
      (ivB.lit standard_temperature) (ivB.lit standard_pressure)) 30 40 = true := by
  decide +kernel

set_option maxRecDepth 100000 in
theorem slope_el : Iv.within (do
      let p ← get_topocentric_position ivB (ivB.lit 42) (ivB.lit (-71)) (.dt (utcDT slopeA)) (ivB.lit 0)
      get_topocentric_elevation_angle ivB (ivB.lit 42) p.1 p.2) 30 40 = true ∧
    Iv.within (do
      let p ← get_topocentric_position ivB (ivB.lit 42) (ivB.lit (-71)) (.dt (utcDT slopeB)) (ivB.lit 0)
      get_topocentric_elevation_angle ivB (ivB.lit 42) p.1 p.2) 30 40 = true ∧
    Iv.within (do
      let p ← get_topocentric_position ivB (ivB.lit 42.5) (ivB.lit (-71)) (.dt (utcDT slopeA)) (ivB.lit 0)
      get_topocentric_elevation_angle ivB (ivB.lit 42.5) p.1 p.2) 30 40 = true := by
  decide +kernel

/-- What the interval evaluations say about the real numbers. -/
theorem slope_point (tp : ℝ) {lat : ℚ} (c : Civil) (hc : c.Valid)
    (h1 : Iv.within (get_altitude ivB (ivB.lit lat) (ivB.lit (-71)) (.dt (utcDT c)) (ivB.lit 0)
      (ivB.lit standard_temperature) (ivB.lit standard_pressure)) 30 40 = true)
    (h2 : Iv.within (do
      let p ← get_topocentric_position ivB (ivB.lit lat) (ivB.lit (-71)) (.dt (utcDT c)) (ivB.lit 0)
      get_topocentric_elevation_angle ivB (ivB.lit lat) p.1 p.2) 30 40 = true) :
    ∃ alt r : ℝ, get_altitude (mathB tp) (num (lat : ℝ)) (num (-71)) (.dt (utcDT c)) (num 0) (num standard_temperature)
        (num standard_pressure) = .ok (num alt) ∧ |alt| ≤ 90 ∧
      get_radiation_direct (mathB tp) (.dt (utcDT c)) (num alt) = .ok (num r) ∧
      ∀ dec H e : ℝ, get_topocentric_position (mathB tp) (num (lat : ℝ)) (num (-71)) (.dt (utcDT c)) (num 0) = .ok (num dec, num H) →
        get_topocentric_elevation_angle (mathB tp) (num (lat : ℝ)) (num dec) (num H) = .ok (num e) →
        -0.83337 ≤ e ∧ e + 10.3 / (e + 5.11) ≠ 90 := by
  have r2 : Iv.rel (ivB.lit (-71)) (.fin (-71)) := by
    have := iv_lit (-71)
    push_cast at this
    exact this
  obtain ⟨alt, ha, a1, a2⟩ := iv_altitude_within tp (utcDT c) (iv_lit lat) r2 h1
  obtain ⟨x, hx, x1, x2⟩ := iv_elevation_within tp (utcDT c) (iv_lit lat) r2 h2
  norm_num at a1 a2 x1 x2
  obtain ⟨_, _, r, -, -, hr, -⟩ := C40_range tp (utcDT c) c (utcDT_fields hc) alt (by linarith) (by linarith)
  refine ⟨alt, r, ha, by rw [abs_le]; constructor <;> linarith, hr, fun dec H e h3 h4 => ?_⟩
  have e1 : e = x := num_injective (Except.ok.inj ((bind_of_ok h3 h4).symm.trans hx))
  rw [e1]
  refine ⟨by norm_num; linarith, ne_of_lt ?_⟩
  have : 10.3 / (x + 5.11) ≤ 1 := by
    rw [div_le_one (by linarith)]
    norm_num
    linarith
  norm_num at *
  linarith

/-- `C161_time` at the sample: ten minutes change the radiation by at most 212 W/m². -/
example : ∃ r r' : ℝ,
    (get_altitude (mathB 1) (num 42) (num (-71)) (.dt (utcDT slopeA)) (num 0) (num standard_temperature) (num standard_pressure) >>=
      get_radiation_direct (mathB 1) (.dt (utcDT slopeA))) = .ok (num r) ∧
    (get_altitude (mathB 1) (num 42) (num (-71)) (.dt (utcDT slopeB)) (num 0) (num standard_temperature) (num standard_pressure) >>=
      get_radiation_direct (mathB 1) (.dt (utcDT slopeB))) = .ok (num r') ∧ |r' - r| ≤ 212 := by
  obtain ⟨alt, r, ha, b, hr, he⟩ := slope_point 1 slopeA slopeA_valid slope_alt.1 slope_el.1
  obtain ⟨alt', r', ha', b', hr', he'⟩ := slope_point 1 slopeB slopeB_valid slope_alt.2.1 slope_el.2.1
  push_cast at ha ha' he he'
  obtain ⟨dec, H, e, dec', H', e', p1, p2, p3, p4, q⟩ := C161_time 1 one_ne_zero (utcDT slopeA) (utcDT slopeB) slopeA slopeB
    (utcDT_fields slopeA_valid) (utcDT_fields slopeB_valid) rfl (by decide) 42 (-71) 0 (by norm_num) (by norm_num) (by norm_num) (1 / 6)
    (by rw [show slopeB.micros - slopeA.micros = 600000000 by decide]; norm_num) alt alt' r r' ha ha' b b' hr hr'
  have k := he dec H e p1 p2
  have k' := he' dec' H' e' p3 p4
  refine ⟨r, r', bind_of_ok ha hr, bind_of_ok ha' hr', (q (.inl ⟨k.1, k'.1, k.2, k'.2⟩)).trans (by norm_num)⟩

/-- `C161_place` at the sample: half a degree of latitude changes the radiation by at most 43 W/m². -/
example : ∃ r r' : ℝ,
    (get_altitude (mathB 1) (num 42) (num (-71)) (.dt (utcDT slopeA)) (num 0) (num standard_temperature) (num standard_pressure) >>=
      get_radiation_direct (mathB 1) (.dt (utcDT slopeA))) = .ok (num r) ∧
    (get_altitude (mathB 1) (num 42.5) (num (-71)) (.dt (utcDT slopeA)) (num 0) (num standard_temperature) (num standard_pressure) >>=
      get_radiation_direct (mathB 1) (.dt (utcDT slopeA))) = .ok (num r') ∧ |r' - r| ≤ 43 := by
  obtain ⟨alt, r, ha, b, hr, he⟩ := slope_point 1 slopeA slopeA_valid slope_alt.1 slope_el.1
  obtain ⟨alt', r', ha', b', hr', he'⟩ := slope_point 1 slopeA slopeA_valid slope_alt.2.2 slope_el.2.2
  rw [show (((42.5 : ℚ) : ℚ) : ℝ) = 42.5 by norm_num] at ha' he'
  push_cast at ha he
  obtain ⟨dec, H, e, dec', H', e', p1, p2, p3, p4, q⟩ := C161_place 1 one_ne_zero (utcDT slopeA) slopeA
    (utcDT_fields slopeA_valid) 42 (-71) 0 42.5 (-71) 0 (by norm_num) (by norm_num) (by norm_num) (by norm_num) (by norm_num)
    (by norm_num) 0 alt alt' r r' ha ha' b b' hr hr'
  have k := he dec H e p1 p2
  have k' := he' dec' H' e' p3 p4
  refine ⟨r, r', bind_of_ok ha hr, bind_of_ok ha' hr', (q (.inl ⟨k.1, k'.1, k.2, k'.2⟩)).trans ?_⟩
  norm_num

end Verif.Props
