import Verif.Proofs.SkyMotion
import Verif.Props.Elevation

/-!
# C91: how fast the computed direction of the sun can change
-/

namespace Verif.Props

open Verif.Spec Pysolar Pysolar.Solar Pysolar.Solartime Pysolar.Constants Real

/-- C91: for any two aware datetimes of the years 1 to 9999, in any time zones, and any place between the
poles, the directions given by `get_azimuth` and by the elevation angle before refraction are no further apart
than 15.09 degrees per elapsed hour, plus 0.093 degrees.  The elevation angles differ by no more. -/
theorem C91_speed_limit (tp : ℝ) (d d' : DateTime) (c c' : Civil) (h : UtcFields d c) (h' : UtcFields d' c')
    (lat lon elev : ℝ) (h1 : -90 < lat) (h2 : lat < 90) (he : |elev| ≤ 50000) :
    ∃ dec H e a dec' H' e' a',
      get_topocentric_position (mathB tp) (num lat) (num lon) (.dt d) (num elev) = .ok (num dec, num H) ∧
      get_topocentric_elevation_angle (mathB tp) (num lat) (num dec) (num H) = .ok (num e) ∧
      get_azimuth (mathB tp) (num lat) (num lon) (.dt d) (num elev) = .ok (num a) ∧
      get_topocentric_position (mathB tp) (num lat) (num lon) (.dt d') (num elev) = .ok (num dec', num H') ∧
      get_topocentric_elevation_angle (mathB tp) (num lat) (num dec') (num H') = .ok (num e') ∧
      get_azimuth (mathB tp) (num lat) (num lon) (.dt d') (num elev) = .ok (num a') ∧
      angleBetween (horizontal e' a') (horizontal e a)
        ≤ 15.09 * (|((c'.micros - c.micros : ℤ) : ℝ)| / 3600000000) + 0.093 ∧
      |e' - e| ≤ 15.09 * (|((c'.micros - c.micros : ℤ) : ℝ)| / 3600000000) + 0.093 := by
  refine ⟨_, _, _, _, _, _, _, _, topo_eval h lat lon elev, tea_eval _ _ _, azimuth_eval h lat lon elev,
    topo_eval h' lat lon elev, tea_eval _ _ _, azimuth_eval h' lat lon elev, ?_⟩
  have key := topocentric_motion tp h.1 h'.1 (lon := lon) h1 h2 he rfl
  have hdir : ∀ {c : Civil}, c.Valid → horizontal
      (deg (arcsin (sunENU lat (topoH tp lat lon elev c) (topoDec tp lat lon elev c)).z)) (aziOf tp lat lon elev c)
        = sunENU lat (topoH tp lat lon elev c) (topoDec tp lat lon elev c) := by
    intro c h
    have a := abs_le.mp (topo_small tp h (lon := lon) h1 h2 he).1
    have b := abs_le.mp (decOf_bound h)
    exact azimuth_direction tp lat _ _ (by norm_num at *; linarith) (by norm_num at *; linarith)
  have bound := key.trans (c := 15.09 * (|((c'.micros - c.micros : ℤ) : ℝ)| / 3600000000) + 0.093) (by
    have hm := abs_nonneg ((c'.micros - c.micros : ℤ) : ℝ)
    generalize |((c'.micros - c.micros : ℤ) : ℝ)| = M at *
    norm_num
    linarith)
  refine ⟨?_, (altitude_diff (sunENU_unit _ _ _) (sunENU_unit _ _ _)).trans bound⟩
  rw [hdir h.1, hdir h'.1]
  exact bound

/-- Two datetimes one hour apart: the bound is 15.183 degrees. -/
example : UtcFields (utcDT ⟨2000, 6, 21, 3, 0, 0, 0⟩) ⟨2000, 6, 21, 3, 0, 0, 0⟩ ∧
    UtcFields (utcDT ⟨2000, 6, 21, 4, 0, 0, 0⟩) ⟨2000, 6, 21, 4, 0, 0, 0⟩ ∧
    15.09 * (|(((⟨2000, 6, 21, 4, 0, 0, 0⟩ : Civil).micros - (⟨2000, 6, 21, 3, 0, 0, 0⟩ : Civil).micros : ℤ) : ℝ)|
      / 3600000000) + 0.093 = 15.183 := by
  refine ⟨utcDT_fields (civil_valid_of_check (by decide)), utcDT_fields (civil_valid_of_check (by decide)), ?_⟩
  have : (⟨2000, 6, 21, 4, 0, 0, 0⟩ : Civil).micros - (⟨2000, 6, 21, 3, 0, 0, 0⟩ : Civil).micros = 3600000000 := by
    decide
  rw [this]
  norm_num

end Verif.Props
