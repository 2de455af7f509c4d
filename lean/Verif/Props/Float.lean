import Verif.Proofs.FloatDir
import Verif.Proofs.Binary64

/-!
# C84, C85: the position of the sun in double precision

`F : F64` is any rounding and mathematics library within the error bounds of `Py/Rounded.lean`; `rndB F` computes with
it, `mathB tp` exactly.
-/

namespace Verif.Props

open Verif.Spec Verif.Chain Pysolar Pysolar.Solar Pysolar.Solartime

/-- A number in the rounded computation. -/
@[reducible] def flt (F : F64) (x : ℝ) : (rndB F).α := V.fin x

theorem _root_.Verif.LatOk.poleTan {F : F64} {tp φ : ℝ} (h : LatOk F tp φ) : PoleTan tp φ := by
  rcases h with h | ⟨-, -, h1, h2⟩
  · have h' := abs_le.1 h
    constructor <;> intro e <;> rw [e] at h' <;> norm_num at h'
  · exact ⟨fun e => le_trans (by norm_num) (h1 e), fun e => (h2 e).trans (by norm_num)⟩

/-- C84: `get_topocentric_position` in double precision: it raises no exception, the declination is within 6e-8 degrees
and the hour angle within 2.32e-6 degrees (up to turns) of the exact values. -/
theorem C84_topocentric_position (F : F64) (tp : ℝ) (d : DateTime) (c : Civil) (h : UtcFields d c)
    (lat lon elev : ℝ) (hlat : LatOk F tp lat) (hlon : |lon| ≤ 360) (helev : |elev| ≤ 50000) :
    ∃ dec' H' dec H,
      get_topocentric_position (rndB F) (flt F lat) (flt F lon) (.dt d) (flt F elev) = .ok (flt F dec', flt F H') ∧
      get_topocentric_position (mathB tp) (num lat) (num lon) (.dt d) (num elev) = .ok (num dec, num H) ∧
      |dec'| ≤ 57 ∧ |H'| ≤ 362 ∧
      |dec' - dec| ≤ 6 / 10 ^ 8 ∧ ∃ k : ℤ, |H' - H - 360 * k| ≤ 232 / 10 ^ 8 := by
  obtain ⟨⟨p, q⟩, hp, hr1, hr2⟩ := topo_rel F tp h hlat hlon helev
  obtain ⟨x, hx, hx1, hx2⟩ := RelM.of_ok ((pairFst (rndB F) (mathB tp) rfl).toSim.get_topocentric_position
    (x := dup F tp lat) (x' := V.fin lat) rfl (y := dup F tp lon) (y' := V.fin lon) rfl (w := .dt d) (w' := .dt d)
    ⟨d, rfl, rfl⟩ (z := dup F tp elev) (z' := V.fin elev) rfl) hp
  obtain ⟨y, hy, hy1, hy2⟩ := RelM.of_ok ((pairSnd (rndB F) (mathB tp) rfl).toSim.get_topocentric_position
    (x := dup F tp lat) (x' := V.fin lat) rfl (y := dup F tp lon) (y' := V.fin lon) rfl (w := .dt d) (w' := .dt d)
    ⟨d, rfl, rfl⟩ (z := dup F tp elev) (z' := V.fin elev) rfl) hp
  obtain ⟨a, a', ha, h1, h2, h3⟩ := hr1
  obtain ⟨b, b', hb, h4, k, h5⟩ := hr2
  subst ha hb
  obtain ⟨x1, x2⟩ := x
  obtain ⟨y1, y2⟩ := y
  change V.fin a = x1 at hx1
  change V.fin b = x2 at hx2
  change V.fin a' = y1 at hy1
  change V.fin b' = y2 at hy2
  subst hx1 hx2 hy1 hy2
  push_cast at h1 h2 h3 h4 h5
  refine ⟨a, b, a', b', hx, hy, ?_, h4, h3, k, h5⟩
  have h6 := abs_le.1 h3
  rw [abs_le]
  constructor <;> norm_num at h6 ⊢ <;> linarith

/-- The hypotheses hold for the sample datetime at a place in Massachusetts. -/
example : UtcFields sampleDT sampleUTC ∧ LatOk binary64 0 42.2 ∧ |(-71.1 : ℝ)| ≤ 360 ∧ |(62 : ℝ)| ≤ 50000 :=
  ⟨sample_utc, .inl (by rw [abs_of_pos] <;> norm_num), by rw [abs_of_neg] <;> norm_num, by norm_num⟩

/-- C85: `get_azimuth` in double precision raises no exception and returns an azimuth from 0 to 360. The elevation angle
is within 1e-5 degrees of the exact one unless `asin` raises `ValueError`, which happens only with the sun within 1e-5
degrees of the zenith or the nadir. Azimuth and elevation angle together give a direction within 1e-5 degrees of the
exact computation and within 0.0321 degrees of the sun. -/
theorem C85_direction (F : F64) (tp : ℝ) (d : DateTime) (c : Civil) (h : UtcFields d c)
    (lat lon elev : ℝ) (hlat : LatOk F tp lat) (hlon : |lon| ≤ 360) (helev : |elev| ≤ 50000) :
    ∃ dec' H' a' jd jde dec H a e,
      get_topocentric_position (rndB F) (flt F lat) (flt F lon) (.dt d) (flt F elev) = .ok (flt F dec', flt F H') ∧
      get_azimuth (rndB F) (flt F lat) (flt F lon) (.dt d) (flt F elev) = .ok (flt F a') ∧
      0 ≤ a' ∧ a' ≤ 360 ∧
      get_julian_solar_day (mathB tp) (.dt d) = .ok (num jd) ∧
      get_julian_ephemeris_day (mathB tp) (.dt d) = .ok (num jde) ∧
      get_topocentric_position (mathB tp) (num lat) (num lon) (.dt d) (num elev) = .ok (num dec, num H) ∧
      get_azimuth (mathB tp) (num lat) (num lon) (.dt d) (num elev) = .ok (num a) ∧
      get_topocentric_elevation_angle (mathB tp) (num lat) (num dec) (num H) = .ok (num e) ∧
      ((∃ e', get_topocentric_elevation_angle (rndB F) (flt F lat) (flt F dec') (flt F H') = .ok (flt F e') ∧
          |e' - e| ≤ 1 / 10 ^ 5 ∧ angleBetween (horizontal e' a') (horizontal e a) ≤ 1 / 10 ^ 5 ∧
          angleBetween (horizontal e' a') (sunDirection lat lon elev jd jde) ≤ 0.0321) ∨
        (get_topocentric_elevation_angle (rndB F) (flt F lat) (flt F dec') (flt F H') = .error .valueError ∧
          90 - 1 / 10 ^ 5 ≤ |e|)) := by
  obtain ⟨dec', H', dec, H, hf, hm, hd57, hH362, hde, k, hHe⟩ := C84_topocentric_position F tp d c h lat lon elev hlat hlon helev
  have hlat90 : |lat| ≤ 90 := hlat.le
  obtain ⟨jd, jde, dec2, H2, a, e, j1, j2, t1, a1, e1, hang⟩ := C71_direction_poles tp d c h lat lon elev
    hlat90 hlat.poleTan helev
  have hpair := Except.ok.inj (t1.symm.trans hm)
  obtain rfl : dec2 = dec := num_injective (congrArg Prod.fst hpair)
  obtain rfl : H2 = H := num_injective (congrArg Prod.snd hpair)
  have hd90 : |dec2| < 90 := by
    have := abs_sub_abs_le_abs_sub dec2 dec'
    rw [abs_sub_comm] at this
    norm_num at hde ⊢
    linarith
  have hd90' := abs_lt.1 hd90
  have hd57' := abs_le.1 hd57
  -- exact directions
  have a1' : get_topocentric_azimuth_angle (mathB tp) (num H2) (num lat) (num dec2) = .ok (num a) := by
    rw [← a1]
    unfold get_azimuth
    rw [guard_denotes h.2, t1]
    rfl
  obtain ⟨alt0, azi0, q1, q2, q3⟩ := C19_direction tp lat H2 dec2 hd90'.1 hd90'.2
  obtain rfl : alt0 = e := num_injective (Except.ok.inj (q1.symm.trans e1))
  obtain rfl : azi0 = a := num_injective (Except.ok.inj (q2.symm.trans a1'))
  have hE : alt0 = Spec.deg (Real.arcsin (sunENU lat H2 dec2).z) :=
    num_injective (Except.ok.inj (q1.symm.trans (tea_eval lat dec2 H2)))
  -- exact direction for the computed declination and hour angle
  obtain ⟨a', A, ha', hA, h0, h360, i, hi⟩ := taa_float F tp (φ := lat) (δ := dec') (H := H') hlat90 hd57 hH362
  obtain ⟨alt1, azi1, r1, r2, r3⟩ := C19_direction tp lat H' dec' (by linarith) (by linarith)
  obtain rfl : azi1 = A := num_injective (Except.ok.inj (r2.symm.trans hA))
  have hE1 : alt1 = Spec.deg (Real.arcsin (sunENU lat H' dec').z) :=
    num_injective (Except.ok.inj (r1.symm.trans (tea_eval lat dec' H')))
  rw [← hE1] at hi
  have hmove := angleBetween_sunENU lat (H := H2) (H' := H') (δ := dec2) (δ' := dec') k
  have hmove' : angleBetween (sunENU lat H' dec') (sunENU lat H2 dec2) ≤ 238 / 10 ^ 8 := by
    refine hmove.trans ?_
    norm_num at hde hHe ⊢
    linarith
  have hEE : |alt1 - alt0| ≤ 238 / 10 ^ 8 := by
    rw [hE1, hE]
    exact (altitude_diff (sunENU_unit _ _ _) (sunENU_unit _ _ _)).trans hmove'
  refine ⟨dec', H', a', jd, jde, dec2, H2, azi0, alt0, hf, ?_, h0, h360, j1, j2, t1, a1, e1, ?_⟩
  · unfold get_azimuth
    refine bind_of_ok (guard_denotes h.2) (bind_of_ok hf ha')
  rcases tea_float F (φ := lat) (δ := dec') (H := H') hlat90 hd57 hH362 with ⟨e', he', hee⟩ | ⟨hv, hee⟩
  · left
    rw [← hE1] at hee
    have hdir : angleBetween (horizontal e' a') (horizontal alt0 azi0) ≤ 1 / 10 ^ 5 := by
      have s1 : angleBetween (horizontal e' a') (horizontal alt1 a') ≤ 73 / 10 ^ 7 := by
        rw [horizontal_eq_sph, horizontal_eq_sph]
        exact (angleBetween_sph_lat _ _ _).trans hee
      have s2 := angleBetween_azimuth alt1 a' azi1 i
      have s3 := angleBetween_triangle (horizontal e' a') (horizontal alt1 a') (horizontal alt1 azi1)
      have s4 := angleBetween_triangle (horizontal e' a') (horizontal alt1 azi1) (horizontal alt0 azi0)
      rw [r3, q3] at s4
      rw [q3]
      rw [r3] at s2 s3
      rw [mul_assoc] at s2
      norm_num at s1 s2 hi hmove' ⊢
      linarith
    refine ⟨e', he', ?_, hdir, ?_⟩
    · have : e' - alt0 = (e' - alt1) + (alt1 - alt0) := by ring
      rw [this]
      refine (abs_add_le _ _).trans ?_
      norm_num at hee hEE ⊢
      linarith
    · have := angleBetween_triangle (horizontal e' a') (horizontal alt0 azi0) (sunDirection lat lon elev jd jde)
      norm_num at hdir hang this ⊢
      linarith
  · right
    refine ⟨hv, ?_⟩
    rw [← hE1] at hee
    have := abs_sub_abs_le_abs_sub alt1 alt0
    norm_num at hee hEE ⊢
    linarith

/-- C85 for IEEE binary64 with round-to-nearest-even, at the sample instant in Massachusetts. -/
example : ∃ a', get_azimuth (rndB binary64) (flt binary64 42.2) (flt binary64 (-71.1)) (.dt sampleDT) (flt binary64 62)
    = .ok (flt binary64 a') ∧ 0 ≤ a' ∧ a' ≤ 360 := by
  obtain ⟨_, _, a', _, _, _, _, _, _, _, h, h0, h1, _⟩ := C85_direction binary64 0 sampleDT sampleUTC sample_utc
    42.2 (-71.1) 62 (.inl (by rw [abs_of_pos] <;> norm_num)) (by rw [abs_of_neg] <;> norm_num) (by norm_num)
  exact ⟨a', h, h0, h1⟩

end Verif.Props
