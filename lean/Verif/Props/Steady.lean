import Verif.Proofs.Steady
import Verif.Props.SkyMotion

/-!
# C139: the computed sun moves steadily
-/

namespace Verif

open Verif.Spec Pysolar Pysolar.Solartime Real

/-- Within one month (UTC) both Julian days advance with the clock. -/
theorem julian_same_month {c c' : Civil} (hy : c'.year = c.year) (hm : c'.month = c.month) :
    jdOf c' - jdOf c = ((c'.micros - c.micros : ℤ) : ℝ) / 86400000000 ∧
      jdeOf c' - jdeOf c = ((c'.micros - c.micros : ℤ) : ℝ) / 86400000000 := by
  unfold jdOf jdeOf
  rw [hy, hm]
  push_cast
  constructor <;> ring

theorem topo_rate_month (tp : ℝ) {lat lon elev : ℝ} (h1 : -90 < lat) (h2 : lat < 90) (he : |elev| ≤ 50000) (n : ℕ) :
    ∀ {c c' : Civil}, c.Valid → c'.Valid → c'.year = c.year → c'.month = c.month → c.micros ≤ c'.micros →
      c'.day - c.day ≤ n → ∀ {E : ℝ}, E = ((c'.micros - c.micros : ℤ) : ℝ) / 86400000000 →
      ∃ k : ℤ, 359.76 * E ≤ topoH tp lat lon elev c' - topoH tp lat lon elev c - 360 * k ∧
        topoH tp lat lon elev c' - topoH tp lat lon elev c - 360 * k ≤ 360.17 * E ∧
        |topoDec tp lat lon elev c' - topoDec tp lat lon elev c| ≤ 1.8 * E := by
  induction n with
  | zero =>
    intro c c' h h' hy hm hle hn E hE
    obtain ⟨j1, j2⟩ := julian_same_month hy hm
    have h0 : ((c'.micros - c.micros : ℤ) : ℝ) ≤ 86400000000 := by
      obtain ⟨-, -, -, a⟩ := h
      obtain ⟨-, -, -, b⟩ := h'
      have : c'.micros - c.micros ≤ 86400000000 := by
        unfold Civil.micros ymd2ord
        rw [hy, hm]
        push_cast at hn
        omega
      exact_mod_cast this
    have h3 : (0 : ℝ) ≤ ((c'.micros - c.micros : ℤ) : ℝ) := by exact_mod_cast sub_nonneg.mpr hle
    exact topo_rate tp h h' h1 h2 he (j2.trans hE.symm) (j1.trans hE.symm) (by rw [hE]; positivity)
      (by rw [hE, div_le_one (by norm_num)]; exact h0)
  | succ n ih =>
    intro c c' h h' hy hm hle hn E hE
    by_cases hd : c'.micros ≤ c.micros + 86400000000
    · obtain ⟨j1, j2⟩ := julian_same_month hy hm
      have h0 : ((c'.micros - c.micros : ℤ) : ℝ) ≤ 86400000000 := by
        have : c'.micros - c.micros ≤ 86400000000 := by omega
        exact_mod_cast this
      have h3 : (0 : ℝ) ≤ ((c'.micros - c.micros : ℤ) : ℝ) := by exact_mod_cast sub_nonneg.mpr hle
      exact topo_rate tp h h' h1 h2 he (j2.trans hE.symm) (j1.trans hE.symm) (by rw [hE]; positivity)
        (by rw [hE, div_le_one (by norm_num)]; exact h0)
    · have hday : c.day + 1 ≤ c'.day := by
        obtain ⟨-, -, -, a⟩ := h
        obtain ⟨-, -, -, b⟩ := h'
        unfold Civil.micros ymd2ord at hd
        rw [hy, hm] at hd
        omega
      set c1 : Civil := { c with day := c.day + 1 } with hc1
      have hv : c1.Valid := by
        obtain ⟨a1, a2, ⟨a3, a4, a5, a6⟩, a7⟩ := h
        obtain ⟨-, -, ⟨-, -, b5, b6⟩, -⟩ := h'
        refine ⟨a1, a2, ⟨a3, a4, ?_, ?_⟩, a7⟩
        · simp only [hc1] at *; omega
        · simp only [hc1, hy, hm] at *; omega
      have hm1 : c1.micros = c.micros + 86400000000 := by
        simp only [hc1, Civil.micros, ymd2ord]; ring
      obtain ⟨j1, j2⟩ := julian_same_month (c := c) (c' := c1) rfl rfl
      have hs : ((c1.micros - c.micros : ℤ) : ℝ) / 86400000000 = 1 := by
        rw [hm1]; norm_num
      rw [hs] at j1 j2
      obtain ⟨k, a1, a2, a3⟩ := topo_rate tp h hv (lon := lon) h1 h2 he j2 j1 (by norm_num) (by norm_num)
      obtain ⟨l, b1, b2, b3⟩ := ih hv h' hy hm (by omega) (by simp only [hc1]; push_cast at hn; omega) (E := E - 1)
        (by rw [hE, hm1]; push_cast; ring)
      refine ⟨k + l, ?_, ?_, ?_⟩
      · push_cast; norm_num at *; linarith
      · push_cast; norm_num at *; linarith
      · have := abs_le.mp a3
        have := abs_le.mp b3
        rw [abs_le]
        norm_num at *
        constructor <;> linarith

end Verif

namespace Verif.Props

open Verif.Spec Pysolar Pysolar.Solar Pysolar.Solartime Pysolar.Constants Real

/-- C139: for two aware datetimes in one month (UTC), in any time zones, `hours` apart, and any place between the
poles: the hour angle of the second is that of the first advanced by 14.99 to 15.01 degrees per hour (up to whole
turns), the declination differs by at most 0.075 degrees per hour, and the direction and the elevation angle
before refraction by at most 15.09 degrees per hour, however close the two are. -/
theorem C139_steady (tp : ℝ) (d d' : DateTime) (c c' : Civil) (h : UtcFields d c) (h' : UtcFields d' c')
    (hy : c'.year = c.year) (hm : c'.month = c.month) (hle : c.micros ≤ c'.micros)
    (lat lon elev : ℝ) (h1 : -90 < lat) (h2 : lat < 90) (he : |elev| ≤ 50000) (hours : ℝ)
    (hh : hours = ((c'.micros - c.micros : ℤ) : ℝ) / 3600000000) :
    ∃ dec H e a dec' H' e' a',
      get_topocentric_position (mathB tp) (num lat) (num lon) (.dt d) (num elev) = .ok (num dec, num H) ∧
      get_topocentric_elevation_angle (mathB tp) (num lat) (num dec) (num H) = .ok (num e) ∧
      get_azimuth (mathB tp) (num lat) (num lon) (.dt d) (num elev) = .ok (num a) ∧
      get_topocentric_position (mathB tp) (num lat) (num lon) (.dt d') (num elev) = .ok (num dec', num H') ∧
      get_topocentric_elevation_angle (mathB tp) (num lat) (num dec') (num H') = .ok (num e') ∧
      get_azimuth (mathB tp) (num lat) (num lon) (.dt d') (num elev) = .ok (num a') ∧
      (∃ k : ℤ, 14.99 * hours ≤ H' - H + 360 * k ∧ H' - H + 360 * k ≤ 15.01 * hours) ∧
      |dec' - dec| ≤ 0.075 * hours ∧
      angleBetween (horizontal e' a') (horizontal e a) ≤ 15.09 * hours ∧
      |e' - e| ≤ 15.09 * hours := by
  refine ⟨_, _, _, _, _, _, _, _, topo_eval h lat lon elev, tea_eval _ _ _, azimuth_eval h lat lon elev,
    topo_eval h' lat lon elev, tea_eval _ _ _, azimuth_eval h' lat lon elev, ?_⟩
  obtain ⟨k, k1, k2, k3⟩ := topo_rate_month tp h1 h2 he (c'.day - c.day).toNat h.1 h'.1 hy hm hle (by omega) (lon := lon)
    (E := hours / 24) (by rw [hh]; ring)
  have h0 : 0 ≤ hours := by
    have : (0 : ℝ) ≤ ((c'.micros - c.micros : ℤ) : ℝ) := by exact_mod_cast sub_nonneg.mpr hle
    rw [hh]; positivity
  have hdir : ∀ {c : Civil}, c.Valid → horizontal
      (deg (arcsin (sunENU lat (topoH tp lat lon elev c) (topoDec tp lat lon elev c)).z)) (aziOf tp lat lon elev c)
        = sunENU lat (topoH tp lat lon elev c) (topoDec tp lat lon elev c) := by
    intro c h
    have a := abs_le.mp (topo_small tp h (lon := lon) h1 h2 he).1
    have b := abs_le.mp (decOf_bound h)
    exact azimuth_direction tp lat _ _ (by norm_num at *; linarith) (by norm_num at *; linarith)
  have key := angleBetween_sunENU lat (H := topoH tp lat lon elev c) (H' := topoH tp lat lon elev c')
    (δ := topoDec tp lat lon elev c) (δ' := topoDec tp lat lon elev c') k
  have kk : |topoH tp lat lon elev c' - topoH tp lat lon elev c - 360 * k| ≤ 360.17 * (hours / 24) := by
    rw [abs_of_nonneg (k1.trans' (by positivity))]
    exact k2
  have bound := key.trans (c := 15.09 * hours) (by norm_num at *; linarith)
  refine ⟨⟨-k, ?_, ?_⟩, ?_, ?_, (altitude_diff (sunENU_unit _ _ _) (sunENU_unit _ _ _)).trans bound⟩
  · push_cast; norm_num at *; linarith
  · push_cast; norm_num at *; linarith
  · norm_num at *; linarith
  · rw [hdir h.1, hdir h'.1]
    exact bound

/-- C139: different datetimes of one month, less than 23.98 hours apart, have different hour angles: the
difference is not a whole number of turns. -/
theorem C139_no_repeat (tp : ℝ) (d d' : DateTime) (c c' : Civil) (h : UtcFields d c) (h' : UtcFields d' c')
    (hy : c'.year = c.year) (hm : c'.month = c.month) (hlt : c.micros < c'.micros)
    (hday : ((c'.micros - c.micros : ℤ) : ℝ) / 3600000000 ≤ 23.98)
    (lat lon elev : ℝ) (h1 : -90 < lat) (h2 : lat < 90) (he : |elev| ≤ 50000) :
    ∃ dec H dec' H', get_topocentric_position (mathB tp) (num lat) (num lon) (.dt d) (num elev) = .ok (num dec, num H) ∧
      get_topocentric_position (mathB tp) (num lat) (num lon) (.dt d') (num elev) = .ok (num dec', num H') ∧
      ∀ k : ℤ, H' - H ≠ 360 * k := by
  obtain ⟨dec, H, e, a, dec', H', e', a', p, -, -, p', -, -, ⟨k, k1, k2⟩, -⟩ :=
    C139_steady tp d d' c c' h h' hy hm hlt.le lat lon elev h1 h2 he _ rfl
  refine ⟨dec, H, dec', H', p, p', fun j hj => ?_⟩
  have h0 : (0 : ℝ) < ((c'.micros - c.micros : ℤ) : ℝ) / 3600000000 := by
    have : (0 : ℝ) < ((c'.micros - c.micros : ℤ) : ℝ) := by exact_mod_cast sub_pos.mpr hlt
    positivity
  generalize ((c'.micros - c.micros : ℤ) : ℝ) / 3600000000 = t at *
  have e1 : (0 : ℝ) < ((j + k : ℤ) : ℝ) := by
    push_cast; norm_num at *; linarith
  have e2 : ((j + k : ℤ) : ℝ) < 1 := by
    push_cast; norm_num at *; linarith
  have e1' : 0 < j + k := by exact_mod_cast e1
  have e2' : j + k < 1 := by exact_mod_cast e2
  omega

/-- One second: the hour angle advances by 0.00416 to 0.00417 degrees. -/
example : UtcFields (utcDT ⟨2000, 6, 21, 3, 0, 0, 0⟩) ⟨2000, 6, 21, 3, 0, 0, 0⟩ ∧
    UtcFields (utcDT ⟨2000, 6, 21, 3, 0, 1, 0⟩) ⟨2000, 6, 21, 3, 0, 1, 0⟩ ∧
    (0.00416 : ℝ) ≤ 14.99 * ((((⟨2000, 6, 21, 3, 0, 1, 0⟩ : Civil).micros - (⟨2000, 6, 21, 3, 0, 0, 0⟩ : Civil).micros : ℤ) : ℝ)
      / 3600000000) ∧
    15.01 * ((((⟨2000, 6, 21, 3, 0, 1, 0⟩ : Civil).micros - (⟨2000, 6, 21, 3, 0, 0, 0⟩ : Civil).micros : ℤ) : ℝ)
      / 3600000000) ≤ 0.00417 := by
  refine ⟨utcDT_fields (civil_valid_of_check (by decide)), utcDT_fields (civil_valid_of_check (by decide)), ?_⟩
  have : (⟨2000, 6, 21, 3, 0, 1, 0⟩ : Civil).micros - (⟨2000, 6, 21, 3, 0, 0, 0⟩ : Civil).micros = 1000000 := by
    decide
  rw [this]
  norm_num

end Verif.Props
