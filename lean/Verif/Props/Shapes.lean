import Verif.Proofs.Shapes
import Verif.Model.Radiation
import Verif.Model.Util
import Verif.Model.Elevation

/-!
# C126, C127: shapes of arrays

With numpy, latitude, longitude, elevation, temperature, pressure and (for the fast functions) the time can be arrays. The
functions of position combine all of them by broadcasting; some functions need single values.
-/

namespace Verif.Props

open Verif.Spec Pysolar Pysolar.Solar Pysolar.Radiation Pysolar.Numeric Pysolar.Elevation Pysolar.Util

variable {b : Bool} {k : ℤ}

theorem sh_prd (elev lat : Option Shape) : get_projected_radial_distance (shapeB b k) (sh elev) (sh lat) = .ok (sh (bc elev lat)) := by
  unfold get_projected_radial_distance get_flattened_latitude
  shapes
  congr 2
  ac_rfl

theorem sh_pad (elev lat : Option Shape) : get_projected_axial_distance (shapeB b k) (sh elev) (sh lat) = .ok (sh (bc elev lat)) := by
  unfold get_projected_axial_distance get_flattened_latitude
  shapes
  congr 2
  ac_rfl

theorem sh_psra (prd ehp lha gsd : Option Shape) :
    get_parallax_sun_right_ascension (shapeB b k) (sh prd) (sh ehp) (sh lha) (sh gsd) = .ok (sh (bc (bc prd ehp) (bc lha gsd))) := by
  unfold get_parallax_sun_right_ascension
  shapes
  congr 2
  ac_rfl

theorem sh_tsd (gsd pad ehp psra lha : Option Shape) :
    get_topocentric_sun_declination (shapeB b k) (sh gsd) (sh pad) (sh ehp) (sh psra) (sh lha) = .ok (sh (bc (bc gsd pad) (bc ehp (bc psra lha)))) := by
  unfold get_topocentric_sun_declination
  shapes
  congr 2
  ac_rfl

theorem sh_tea (lat dec H : Option Shape) :
    get_topocentric_elevation_angle (shapeB b k) (sh lat) (sh dec) (sh H) = .ok (sh (bc lat (bc dec H))) := by
  unfold get_topocentric_elevation_angle
  shapes
  congr 2
  ac_rfl

theorem sh_taa (H lat dec : Option Shape) :
    get_topocentric_azimuth_angle (shapeB b k) (sh H) (sh lat) (sh dec) = .ok (sh (bc lat (bc dec H))) := by
  unfold get_topocentric_azimuth_angle
  shapes
  congr 2
  ac_rfl

theorem sh_refr (P T tea : Option Shape) :
    get_refraction_correction (shapeB b k) (sh P) (sh T) (sh tea) = .ok (sh (bc P (bc T tea))) := by
  unfold get_refraction_correction
  shapes
  congr 2
  ac_rfl

/-! ## What depends on the time only -/

theorem sh_jd {d : DateTime} {c : Civil} (h : UtcFields d c) :
    Solartime.get_julian_solar_day (shapeB b k) (.dt d) = .ok (sh (some [])) :=
  sh_of ((shScal 1 b k).get_julian_solar_day ⟨d, rfl, rfl⟩) (jd_eq h)

theorem sh_jde {d : DateTime} {c : Civil} (h : UtcFields d c) :
    Solartime.get_julian_ephemeris_day (shapeB b k) (.dt d) = .ok (sh (some [])) :=
  sh_of ((shScal 1 b k).get_julian_ephemeris_day ⟨d, rfl, rfl⟩) (jde_eq h)

theorem sh_jce (x : Option Shape) : Solartime.get_julian_ephemeris_century (shapeB b k) (sh x) = sh x := by
  unfold Solartime.get_julian_ephemeris_century
  shapes

theorem sh_jme (x : Option Shape) : Solartime.get_julian_ephemeris_millennium (shapeB b k) (sh x) = sh x := by
  unfold Solartime.get_julian_ephemeris_millennium
  shapes

theorem sh_glat : get_geocentric_latitude (shapeB b k) (sh (some [])) = .ok (sh (some [])) :=
  sh_of ((shScal 1 b k).get_geocentric_latitude rfl) (glat_eval 0)

theorem sh_glon : get_geocentric_longitude (shapeB b k) (sh (some [])) = .ok (sh (some [])) :=
  sh_of ((shScal 1 b k).get_geocentric_longitude rfl) (glon_eval 0)

theorem sh_dist : get_sun_earth_distance (shapeB b k) (sh (some [])) = .ok (sh (some [])) :=
  sh_of ((shScal 1 b k).get_sun_earth_distance rfl) (dist_eval 0)

theorem sh_aberr (x : Option Shape) : get_aberration_correction (shapeB b k) (sh x) = .ok (sh x) := by
  unfold get_aberration_correction
  shapes

theorem sh_ehp (x : Option Shape) : get_equatorial_horizontal_parallax (shapeB b k) (sh x) = .ok (sh x) := by
  unfold get_equatorial_horizontal_parallax
  shapes

theorem sh_of_nut {tp : ℝ} {m : Py (Nutation (mathB tp))} {m' : Py (Nutation (shapeB b k))}
    (h : RelM False (shScal tp b k).rN m m') {v : Nutation (mathB tp)} (hm : m = .ok v) :
    m' = .ok ⟨sh (some []), sh (some [])⟩ := by
  obtain ⟨⟨x, y⟩, h1, h2, h3⟩ := h.of_ok hm
  cases h2
  cases h3
  exact h1

theorem sh_nut : get_nutation (shapeB b k) (sh (some [])) = .ok ⟨sh (some []), sh (some [])⟩ :=
  sh_of_nut ((shScal 1 b k).get_nutation rfl) (nutation_eval 0)

theorem sh_ast : get_apparent_sidereal_time (shapeB b k) (sh (some [])) (sh (some [])) ⟨sh (some []), sh (some [])⟩
    = .ok (sh (some [])) := by
  unfold get_apparent_sidereal_time get_true_ecliptic_obliquity get_mean_sidereal_time Solartime.get_julian_century
  shapes

theorem sh_teo : get_true_ecliptic_obliquity (shapeB b k) (sh (some [])) ⟨sh (some []), sh (some [])⟩ = sh (some []) := by
  unfold get_true_ecliptic_obliquity
  shapes

theorem sh_asl : get_apparent_sun_longitude (shapeB b k) (sh (some [])) ⟨sh (some []), sh (some [])⟩ (sh (some []))
    = sh (some []) := by
  unfold get_apparent_sun_longitude
  shapes

theorem sh_gsra : get_geocentric_sun_right_ascension (shapeB b k) (sh (some [])) (sh (some [])) (sh (some []))
    = .ok (sh (some [])) := by
  unfold get_geocentric_sun_right_ascension
  shapes

theorem sh_gsd : get_geocentric_sun_declination (shapeB b k) (sh (some [])) (sh (some [])) (sh (some []))
    = .ok (sh (some [])) := by
  unfold get_geocentric_sun_declination
  shapes

theorem sh_lha (lon : Option Shape) : get_local_hour_angle (shapeB b k) (sh (some [])) (sh lon) (sh (some [])) = sh lon := by
  unfold get_local_hour_angle
  shapes

theorem sh_tlha (x y : Option Shape) : get_topocentric_local_hour_angle (shapeB b k) (sh x) (sh y) = sh (bc x y) := by
  unfold get_topocentric_local_hour_angle
  shapes

/-! ## C126 -/

/-- `s` is the common shape of several arrays, by numpy's rules: it has the axes of the longest shape, and along each axis,
counted from the last, every array has its size or size 1 (or no axis), and its size occurs unless it is 1. -/
def CommonShape (l : List Shape) (s : Shape) : Prop :=
  s.length = (l.map List.length).foldr max 0 ∧
    ∀ i, (∀ x ∈ l, axis x i = 1 ∨ axis x i = axis s i) ∧ (axis s i = 1 ∨ ∃ x ∈ l, axis x i = axis s i)

/-- Two of the arrays do not fit: along an axis they have different sizes other than 1. -/
def Clash (l : List Shape) : Prop := ∃ x ∈ l, ∃ y ∈ l, ∃ i, axis x i ≠ axis y i ∧ axis x i ≠ 1 ∧ axis y i ≠ 1

/-- The shape of an operation on several arguments. -/
def bcAll (l : List Shape) : Option Shape := l.foldr (fun s r => bc (some s) r) (some [])

/-- The outcome of a call that combines all its arguments. -/
def outcome (l : List Shape) : Py Shape := shapeOf (.ok (bcAll l))

theorem bcShape_eq_none : ∀ x y : Shape, bcShape x y = none → ∃ i, axis x i ≠ axis y i ∧ axis x i ≠ 1 ∧ axis y i ≠ 1
  | [], y, h => by rw [bcShape_nil_left] at h; cases h
  | a :: x, [], h => by rw [bcShape_nil_right] at h; cases h
  | a :: x, b :: y, h => by
    rw [bcShape_cons, Option.map₂_eq_none_iff] at h
    rcases h with h | h
    · refine ⟨0, ?_⟩
      show a ≠ b ∧ a ≠ 1 ∧ b ≠ 1
      unfold bcAxis at h
      split_ifs at h
      tauto
    · obtain ⟨i, hi⟩ := bcShape_eq_none x y h
      exact ⟨i + 1, hi⟩

theorem bcAll_cons (x : Shape) (l : List Shape) : bcAll (x :: l) = bc (some x) (bcAll l) := rfl

theorem common_of_bcAll : ∀ (l : List Shape) (s : Shape), bcAll l = some s → CommonShape l s
  | [], s, h => by
    cases h
    exact ⟨rfl, fun i => ⟨by simp, .inl rfl⟩⟩
  | x :: l, s, h => by
    rw [bcAll_cons] at h
    cases ht : bcAll l with
    | none => rw [ht] at h; cases h
    | some t =>
      rw [ht] at h
      obtain ⟨hl, ha⟩ := (bcShape_eq_some x t s).1 h
      obtain ⟨hl', ha'⟩ := common_of_bcAll l t ht
      refine ⟨by rw [hl, hl']; rfl, fun i => ?_⟩
      obtain ⟨c, e⟩ := ha i
      obtain ⟨c1, c2⟩ := ha' i
      constructor
      · intro y hy
        rcases List.mem_cons.1 hy with rfl | hy
        · rw [e]
          split_ifs with h1
          · exact .inl h1
          · exact .inr rfl
        · rcases c1 y hy with h1 | h1
          · exact .inl h1
          · rw [e]
            split_ifs with h2
            · exact .inr h1
            · rcases c with c | c | c
              · exact .inr (h1.trans c.symm)
              · exact absurd c h2
              · exact .inl (h1.trans c)
      · rw [e]
        split_ifs with h1
        · rcases c2 with c2 | ⟨y, hy, c2⟩
          · exact .inl c2
          · exact .inr ⟨y, List.mem_cons_of_mem _ hy, c2⟩
        · exact .inr ⟨x, List.mem_cons_self, rfl⟩

theorem clash_of_bcAll : ∀ l : List Shape, bcAll l = none → Clash l
  | [], h => by cases h
  | x :: l, h => by
    rw [bcAll_cons] at h
    cases ht : bcAll l with
    | none =>
      obtain ⟨y, hy, z, hz, i, hi⟩ := clash_of_bcAll l ht
      exact ⟨y, List.mem_cons_of_mem _ hy, z, List.mem_cons_of_mem _ hz, i, hi⟩
    | some t =>
      rw [ht] at h
      obtain ⟨i, h1, h2, h3⟩ := bcShape_eq_none x t h
      rcases ((common_of_bcAll l t ht).2 i).2 with h4 | ⟨y, hy, h4⟩
      · exact absurd h4 h3
      · exact ⟨x, List.mem_cons_self, y, List.mem_cons_of_mem _ hy, i, by rw [h4]; exact h1, h2, by rw [h4]; exact h3⟩

theorem not_clash {l : List Shape} {s : Shape} (h : CommonShape l s) : ¬ Clash l := by
  rintro ⟨x, hx, y, hy, i, h1, h2, h3⟩
  have a := ((h.2 i).1 x hx).resolve_left h2
  have b := ((h.2 i).1 y hy).resolve_left h3
  exact h1 (a.trans b.symm)

theorem common_unique {l : List Shape} {s t : Shape} (hs : CommonShape l s) (ht : CommonShape l t) : s = t := by
  have key : ∀ {u v : Shape}, CommonShape l u → CommonShape l v → ∀ i, axis u i ≠ 1 → axis u i = axis v i := by
    intro u v hu hv i h
    obtain ⟨x, hx, e⟩ := ((hu.2 i).2).resolve_left h
    rw [← e]
    exact ((hv.2 i).1 x hx).resolve_left (by rw [e]; exact h)
  refine List.ext_getElem (by rw [hs.1, ht.1]) fun i h1 h2 => ?_
  have e : axis s i = axis t i := by
    by_cases h : axis s i = 1
    · by_cases h' : axis t i = 1
      · rw [h, h']
      · exact (key ht hs i h').symm
    · exact key hs ht i h
  unfold axis at e
  rw [List.getD_eq_getElem?_getD, List.getD_eq_getElem?_getD, List.getElem?_eq_getElem h1, List.getElem?_eq_getElem h2] at e
  exact e

/-- C126: the outcome of combining several arguments is their common shape, or `ValueError` if two of them do not fit. -/
theorem C126_outcome (l : List Shape) :
    (∀ s, outcome l = .ok s ↔ CommonShape l s) ∧ (outcome l = .error .valueError ↔ Clash l) := by
  unfold outcome
  cases h : bcAll l with
  | none =>
    have hc := clash_of_bcAll l h
    refine ⟨fun s => ⟨fun h => (by cases h), fun h => absurd hc (not_clash h)⟩, fun _ => hc, fun _ => rfl⟩
  | some t =>
    have hc := common_of_bcAll l t h
    refine ⟨fun s => ⟨fun h => ?_, fun h => ?_⟩, fun h => (by cases h), fun h => absurd h (not_clash hc)⟩
    · cases h; exact hc
    · rw [common_unique h hc]; rfl

theorem position_shape {d : DateTime} {c : Civil} (h : UtcFields d c) (lat lon elev : Option Shape) :
    get_topocentric_position (shapeB b k) (sh lat) (sh lon) (.dt d) (sh elev)
      = .ok (sh (bc lat (bc lon elev)), sh (bc lat (bc lon elev))) := by
  unfold get_topocentric_position
  rw [guard_denotes h.2]
  simp -implicitDefEqProofs only [ok_bind, sh_prd, sh_pad, sh_jd h, sh_jde h, sh_jce, sh_jme, sh_glat, sh_glon, sh_dist, sh_aberr, sh_ehp,
    sh_nut, sh_ast, sh_teo, sh_asl, sh_gsra, sh_gsd, sh_lha, sh_psra, sh_tlha, sh_tsd, pure_eq_ok, bc_nil_left, bc_nil_right]
  congr 2
  · congr 1
    ac_rfl
  · congr 1
    ac_rfl

/-- The shape of `when`: a datetime, or an array of `datetime64`. -/
def whenShape : When (shapeB b k) → Shape
  | .arr t => t
  | _ => []

/-- A datetime of known offset, or an array of `datetime64`. -/
def Accepted (w : When (shapeB b k)) : Prop := (∃ d c, UtcFields d c ∧ w = .dt d) ∨ ∃ t, w = .arr t

theorem guard_accepted {w : When (shapeB b k)} (h : Accepted w) : TzCheck.guard w = .ok () := by
  rcases h with ⟨d, c, h, rfl⟩ | ⟨t, rfl⟩
  · exact guard_denotes h.2
  · rfl

theorem sh_yday {w : When (shapeB b k)} (h : Accepted w) : tm_yday (shapeB b k) w = .ok (sh (some (whenShape w))) := by
  rcases h with ⟨d, c, h, rfl⟩ | ⟨t, rfl⟩ <;> rfl

theorem sh_hour {w : When (shapeB b k)} (h : Accepted w) : tm_hour (shapeB b k) w = .ok (sh (some (whenShape w))) := by
  rcases h with ⟨d, c, h, rfl⟩ | ⟨t, rfl⟩ <;> rfl

theorem sh_min {w : When (shapeB b k)} (h : Accepted w) : tm_min (shapeB b k) w = .ok (sh (some (whenShape w))) := by
  rcases h with ⟨d, c, h, rfl⟩ | ⟨t, rfl⟩ <;> rfl

theorem sh_eot (x : Option Shape) : equation_of_time (shapeB b k) (sh x) = .ok (sh x) := by
  unfold equation_of_time
  shapes
  simp only [bc_self]

theorem sh_decl (x : Option Shape) : get_declination (shapeB b k) (sh x) = .ok (sh x) := by
  unfold get_declination
  shapes

theorem sh_st {w : When (shapeB b k)} (h : Accepted w) (lon : Option Shape) :
    get_solar_time (shapeB b k) (sh lon) w = .ok (sh (bc lon (some (whenShape w)))) := by
  unfold get_solar_time
  rw [guard_accepted h, sh_yday h, sh_hour h, sh_min h]
  simp -implicitDefEqProofs only [ok_bind, sh_eot]
  shapes
  congr 2
  ac_rfl

theorem sh_ha {w : When (shapeB b k)} (h : Accepted w) (lon : Option Shape) :
    get_hour_angle (shapeB b k) w (sh lon) = .ok (sh (bc lon (some (whenShape w)))) := by
  unfold get_hour_angle
  rw [guard_accepted h, sh_st h]
  shapes

theorem sh_fast {w : When (shapeB b k)} (h : Accepted w) (lat lon : Option Shape) :
    get_altitude_fast (shapeB b k) (sh lat) (sh lon) w = .ok (sh (bc lat (bc lon (some (whenShape w))))) := by
  unfold get_altitude_fast
  rw [guard_accepted h, sh_yday h, sh_ha h]
  simp -implicitDefEqProofs only [ok_bind, sh_decl]
  shapes
  congr 2
  ac_rfl

theorem sh_azfast {w : When (shapeB b k)} (h : Accepted w) (lat lon : Option Shape) :
    get_azimuth_fast (shapeB b k) (sh lat) (sh lon) w = .ok (sh (bc lat (bc lon (some (whenShape w))))) := by
  unfold get_azimuth_fast
  rw [sh_yday h, sh_ha h, sh_fast h]
  simp -implicitDefEqProofs only [ok_bind, sh_decl]
  shapes
  congr 2
  ac_rfl

theorem sh_amr (alt : Option Shape) : get_air_mass_ratio (shapeB b k) (sh alt) = .ok (sh alt) := by
  unfold get_air_mass_ratio
  shapes

/-- C126: the functions of `when`, which can be an array of `datetime64`, and of arrays. -/
theorem C126_fast {w : When (shapeB b k)} (h : Accepted w) (lat lon : Shape) :
    shapeOf (get_solar_time (shapeB b k) (sh (some lon)) w) = outcome [lon, whenShape w] ∧
    shapeOf (get_hour_angle (shapeB b k) w (sh (some lon))) = outcome [lon, whenShape w] ∧
    shapeOf (get_altitude_fast (shapeB b k) (sh (some lat)) (sh (some lon)) w) = outcome [lat, lon, whenShape w] ∧
    shapeOf (get_azimuth_fast (shapeB b k) (sh (some lat)) (sh (some lon)) w) = outcome [lat, lon, whenShape w] := by
  rw [sh_st h, sh_ha h, sh_fast h, sh_azfast h]
  unfold outcome bcAll sh
  simp only [List.foldr, bc_nil_right]
  exact ⟨rfl, rfl, rfl, rfl⟩

/-- C126: `get_radiation_direct`. -/
theorem C126_radiation_direct {w : When (shapeB b k)} (h : Accepted w) (alt : Shape) :
    shapeOf (get_radiation_direct (shapeB b k) w (sh (some alt))) = outcome [alt, whenShape w] := by
  unfold get_radiation_direct get_apparent_extraterrestrial_flux get_optical_depth
  rw [sh_yday h]
  simp -implicitDefEqProofs only [ok_bind, sh_amr]
  shapes
  unfold outcome bcAll sh
  simp only [List.foldr, bc_nil_right]
  congr 2
  ac_rfl

/-- C126: `get_air_mass_ratio` and `get_temperature_with_elevation`. -/
theorem C126_elementwise (alt h Ts Tl : Shape) :
    shapeOf (get_air_mass_ratio (shapeB b k) (sh (some alt))) = .ok alt ∧
    shapeOf (.ok (get_temperature_with_elevation (shapeB b k) (sh (some h)) (sh (some Ts)) (sh (some Tl)))) = outcome [h, Ts, Tl] := by
  refine ⟨by rw [sh_amr]; rfl, ?_⟩
  unfold get_temperature_with_elevation
  shapes
  unfold outcome bcAll sh
  simp only [List.foldr, bc_nil_right]
  congr 2
  ac_rfl

/-! ## C127 -/

theorem outcome_two (lat lon : Shape) : outcome [lat, lon] = shapeOf (.ok (bc (some lat) (some lon))) := by
  unfold outcome bcAll
  simp only [List.foldr, bc_nil_right]

/-- Shapes of more than one entry, and shapes that do not fit. -/
theorem truth_many {x : Option Shape} {s : Py Shape} (hx : shapeOf (.ok x) = s) (hs : ∀ t, s = .ok t → 1 < t.prod) :
    (shapeB b k).truth (shC x) = .error .valueError := by
  cases x with
  | none => rfl
  | some t =>
    have := hs t hx.symm
    show (if t.prod = 1 then _ else _) = _
    rw [if_neg (by omega)]

/-- C127: `get_pressure_with_elevation` raises `ValueError` for an array of several elevations. -/
theorem C127_pressure (h Ps Ts Tl Hb R g M : Shape) (hh : 1 < h.prod) :
    get_pressure_with_elevation (shapeB b k) (sh (some h)) (sh (some Ps)) (sh (some Ts)) (sh (some Tl)) (sh (some Hb)) (sh (some R))
      (sh (some g)) (sh (some M)) = .error .valueError := by
  unfold get_pressure_with_elevation get_pressure_with_elevation_warn
  have : (shapeB b k).truth ((shapeB b k).lt 11000.0 (sh (some h))) = .error .valueError := by
    shapes
    exact truth_many rfl (by rintro t ⟨⟩; exact hh)
  rw [this]
  rfl

/-- C127: `extraterrestrial_irrad` raises `ValueError` unless latitude and longitude combine to one value. -/
theorem C127_extraterrestrial {d : DateTime} {c : Civil} (h : UtcFields d c) (lat lon SC : Shape)
    (hs : ∀ t, outcome [lat, lon] = .ok t → 1 < t.prod) :
    extraterrestrial_irrad (shapeB b k) (sh (some lat)) (sh (some lon)) (.dt d) (sh (some SC)) = .error .valueError := by
  have hw : Accepted (b := b) (k := k) (.dt d) := .inl ⟨d, c, h, rfl⟩
  have hu : utcYday (B := shapeB b k) (.dt d) = .ok (sh (some [])) := by
    unfold utcYday
    rw [utctimetuple_dt, utctimetuple_of_utcFields h]
    rfl
  have hz : (shapeB b k).truth (shC (bc (some lat) (some lon))) = .error .valueError :=
    truth_many (outcome_two lat lon).symm hs
  have hn : whenShape (.dt d : When (shapeB b k)) = [] := rfl
  unfold extraterrestrial_irrad
  rw [guard_accepted hw, hu, sh_ha hw]
  simp -implicitDefEqProofs only [ok_bind, sh_decl]
  shapes
  rw [hn, bc_nil_right, bc_left_self, hz]
  rfl

/-- C127: and so does `clear_index`. -/
theorem C127_clear_index {d : DateTime} {c : Civil} (h : UtcFields d c) (ghi lat lon : Shape)
    (hs : ∀ t, outcome [lat, lon] = .ok t → 1 < t.prod) :
    clear_index (shapeB b k) (sh (some ghi)) (sh (some lat)) (sh (some lon)) (.dt d) = .error .valueError := by
  unfold clear_index
  rw [guard_denotes h.2, sh_lit, C127_extraterrestrial h lat lon [] hs]
  rfl

theorem sh_sunriseDecl (x : Option Shape) : sunriseDecl (shapeB b k) (sh x) = .ok (sh x) := by
  unfold sunriseDecl
  shapes
  simp only [bc_self]

theorem sh_timeAdst (x : Option Shape) : timeAdst (shapeB b k) (sh x) = .ok (sh x) := by
  unfold timeAdst
  shapes
  simp only [bc_self]

theorem sh_sunriseHa (lat x : Option Shape) : sunriseHa (shapeB b k) (sh lat) (sh x) = .ok (sh (bc lat x)) := by
  unfold sunriseHa
  shapes
  simp only [bc_self]

theorem sh_tdHours (x : Option Shape) : (shapeB b k).tdHours (sh x) = match x with
    | some [] => .ok k
    | some _ => .error .typeError
    | none => .error .valueError := rfl

theorem sunrise_shape {d : DateTime} {c : Civil} (h : UtcFields d c) (lat lon : Shape) (e : PyErr)
    (he : (shapeB b k).tdHours (sh (bc (some lon) (some lat))) = .error e) :
    get_sunrise_sunset_transit (shapeB b k) (sh (some lat)) (sh (some lon)) (.dt d) = .error e := by
  unfold get_sunrise_sunset_transit
  rw [guard_denotes h.2]
  simp -implicitDefEqProofs only [ok_bind, asDatetime, sh_lit, sh_sunriseDecl, sh_timeAdst, sh_sunriseHa]
  shapes
  rw [he]
  rfl

/-- C127: the times of sunrise, sunset and transit cannot be computed for arrays, not even of one entry. -/
theorem C127_sunrise {d : DateTime} {c : Civil} (h : UtcFields d c) (lat lon : Shape) (hs : lat ≠ [] ∨ lon ≠ []) :
    (¬ Clash [lat, lon] → get_sunrise_sunset_transit (shapeB b k) (sh (some lat)) (sh (some lon)) (.dt d) = .error .typeError) ∧
    (Clash [lat, lon] → get_sunrise_sunset_transit (shapeB b k) (sh (some lat)) (sh (some lon)) (.dt d) = .error .valueError) := by
  rw [← (C126_outcome [lat, lon]).2, outcome_two, bc_comm]
  refine ⟨fun hc => sunrise_shape h _ _ _ ?_, fun hc => sunrise_shape h _ _ _ ?_⟩
  · rw [sh_tdHours]
    cases hx : bc (some lon) (some lat) with
    | none => rw [hx] at hc; exact absurd rfl hc
    | some s =>
      cases s with
      | cons _ _ => rfl
      | nil =>
        have := ((bcShape_eq_some lon lat []).1 hx).1
        rcases hs with hs | hs
        · have := List.length_pos_of_ne_nil hs
          simp only [List.length_nil] at *
          omega
        · have := List.length_pos_of_ne_nil hs
          simp only [List.length_nil] at *
          omega
  · rw [sh_tdHours]
    cases hx : bc (some lon) (some lat) with
    | none => rfl
    | some s => rw [hx] at hc; cases hc

/-- C127: likewise the functions that return one or two of these times. -/
theorem C127_sunrise_wrappers {d : DateTime} {c : Civil} (h : UtcFields d c) (lat lon : Shape) (hs : lat ≠ [] ∨ lon ≠ []) :
    ∃ e, (e = .typeError ∨ e = .valueError) ∧
      get_sunrise_sunset (shapeB b k) (sh (some lat)) (sh (some lon)) (.dt d) = .error e ∧
      get_sunrise_time (shapeB b k) (sh (some lat)) (sh (some lon)) (.dt d) = .error e ∧
      get_sunset_time (shapeB b k) (sh (some lat)) (sh (some lon)) (.dt d) = .error e ∧
      get_transit_time (shapeB b k) (sh (some lat)) (sh (some lon)) (.dt d) = .error e := by
  have key : ∀ e, get_sunrise_sunset_transit (shapeB b k) (sh (some lat)) (sh (some lon)) (.dt d) = .error e →
      get_sunrise_sunset (shapeB b k) (sh (some lat)) (sh (some lon)) (.dt d) = .error e ∧
      get_sunrise_time (shapeB b k) (sh (some lat)) (sh (some lon)) (.dt d) = .error e ∧
      get_sunset_time (shapeB b k) (sh (some lat)) (sh (some lon)) (.dt d) = .error e ∧
      get_transit_time (shapeB b k) (sh (some lat)) (sh (some lon)) (.dt d) = .error e := by
    intro e he
    unfold get_sunrise_sunset get_sunrise_time get_sunset_time get_transit_time
    rw [guard_denotes h.2, he]
    exact ⟨rfl, rfl, rfl, rfl⟩
  by_cases hc : Clash [lat, lon]
  · exact ⟨_, .inr rfl, key _ ((C127_sunrise h lat lon hs).2 hc)⟩
  · exact ⟨_, .inl rfl, key _ ((C127_sunrise h lat lon hs).1 hc)⟩

/-! ## C126, continued -/

variable {d : DateTime} {c : Civil} (h : UtcFields d c) (lat lon elev T P : Shape)

include h

/-- C126: `get_topocentric_position`: both results have the common shape. -/
theorem C126_topocentric_position :
    ∃ r : Option Shape × Option Shape,
      get_topocentric_position (shapeB b k) (sh (some lat)) (sh (some lon)) (.dt d) (sh (some elev)) = .ok r ∧
      shapeOf (.ok r.1) = outcome [lat, lon, elev] ∧ shapeOf (.ok r.2) = outcome [lat, lon, elev] := by
  refine ⟨_, position_shape h _ _ _, ?_, ?_⟩ <;>
  · unfold outcome bcAll sh
    simp only [List.foldr, bc_nil_right]

/-- C126: `get_altitude`. -/
theorem C126_altitude :
    shapeOf (get_altitude (shapeB b k) (sh (some lat)) (sh (some lon)) (.dt d) (sh (some elev)) (sh (some T)) (sh (some P)))
      = outcome [lat, lon, elev, T, P] := by
  unfold get_altitude
  rw [guard_denotes h.2, ok_bind, position_shape h]
  simp -implicitDefEqProofs only [ok_bind, sh_tea, sh_refr, sh_add, pure_eq_ok]
  unfold outcome bcAll sh
  simp only [List.foldr, bc_nil_right]
  congr 2
  ac_rfl

/-- C126: `get_azimuth`. -/
theorem C126_azimuth :
    shapeOf (get_azimuth (shapeB b k) (sh (some lat)) (sh (some lon)) (.dt d) (sh (some elev))) = outcome [lat, lon, elev] := by
  unfold get_azimuth
  rw [guard_denotes h.2, ok_bind, position_shape h]
  simp -implicitDefEqProofs only [ok_bind, sh_taa]
  unfold outcome bcAll sh
  simp only [List.foldr, bc_nil_right]
  congr 2
  ac_rfl

/-- C126: `get_position`: azimuth and altitude can have different shapes, the first does not depend on temperature and
pressure. -/
theorem C126_position :
    ∃ r : Option Shape × Option Shape,
      get_position (shapeB b k) (sh (some lat)) (sh (some lon)) (.dt d) (sh (some elev)) (sh (some T)) (sh (some P)) = .ok r ∧
      shapeOf (.ok r.1) = outcome [lat, lon, elev] ∧ shapeOf (.ok r.2) = outcome [lat, lon, elev, T, P] := by
  unfold get_position
  rw [guard_denotes h.2, ok_bind, position_shape h]
  simp -implicitDefEqProofs only [ok_bind, sh_tea, sh_taa, sh_refr, sh_add, pure_eq_ok]
  refine ⟨_, rfl, ?_, ?_⟩ <;>
  · unfold outcome bcAll sh
    simp only [List.foldr, bc_nil_right]
    congr 2
    ac_rfl

theorem sh_alt (lat lon elev T P : Option Shape) :
    get_altitude (shapeB b k) (sh lat) (sh lon) (.dt d) (sh elev) (sh T) (sh P)
      = .ok (sh (bc lat (bc lon (bc elev (bc T P))))) := by
  unfold get_altitude
  rw [guard_denotes h.2, ok_bind, position_shape h]
  simp -implicitDefEqProofs only [ok_bind, sh_tea, sh_refr, sh_add, pure_eq_ok]
  congr 2
  ac_rfl

theorem sh_utcYday : utcYday (B := shapeB b k) (.dt d) = .ok (sh (some [])) := by
  unfold utcYday
  rw [utctimetuple_dt, utctimetuple_of_utcFields h]
  rfl

theorem sh_mesd : mean_earth_sun_distance (shapeB b k) (.dt d) = .ok (sh (some [])) := by
  unfold mean_earth_sun_distance
  rw [guard_denotes h.2, sh_utcYday h]
  shapes

theorem sh_decldeg (TY : Option Shape) : declination_degree (shapeB b k) (.dt d) (sh TY) = .ok (sh TY) := by
  unfold declination_degree
  rw [guard_denotes h.2, sh_utcYday h]
  shapes

theorem sh_dirc (lat lon TY AM TL elev T P : Option Shape) :
    direct_underclear (shapeB b k) (sh lat) (sh lon) (.dt d) (sh TY) (sh AM) (sh TL) (sh elev) (sh T) (sh P)
      = .ok (sh (bc lat (bc lon (bc TY (bc AM (bc TL (bc elev (bc T P)))))))) := by
  unfold direct_underclear
  rw [guard_denotes h.2, sh_mesd h, sh_decldeg h, sh_alt h]
  shapes
  congr 2
  ac_rfl

theorem sh_diffc (lat lon elev T P TL : Option Shape) :
    diffuse_underclear (shapeB b k) (sh lat) (sh lon) (.dt d) (sh elev) (sh T) (sh P) (sh TL)
      = .ok (sh (bc lat (bc lon (bc elev (bc T (bc P TL)))))) := by
  unfold diffuse_underclear
  rw [guard_denotes h.2, sh_mesd h, sh_alt h]
  shapes
  congr 2
  ac_rfl

/-- C126: the irradiance functions that accept arrays. -/
theorem C126_irradiance (TY AM TL : Shape) :
    shapeOf (solarelevation_function_clear (shapeB b k) (sh (some lat)) (sh (some lon)) (.dt d) (sh (some T)) (sh (some P)) (sh (some elev)))
      = outcome [lat, lon, elev, T, P] ∧
    shapeOf (solarelevation_function_overcast (shapeB b k) (sh (some lat)) (sh (some lon)) (.dt d) (sh (some elev)) (sh (some T)) (sh (some P)))
      = outcome [lat, lon, elev, T, P] ∧
    shapeOf (diffuse_underclear (shapeB b k) (sh (some lat)) (sh (some lon)) (.dt d) (sh (some elev)) (sh (some T)) (sh (some P)) (sh (some TL)))
      = outcome [lat, lon, elev, T, P, TL] ∧
    shapeOf (diffuse_underovercast (shapeB b k) (sh (some lat)) (sh (some lon)) (.dt d) (sh (some elev)) (sh (some T)) (sh (some P)) (sh (some TL)))
      = outcome [lat, lon, elev, T, P, TL] ∧
    shapeOf (direct_underclear (shapeB b k) (sh (some lat)) (sh (some lon)) (.dt d) (sh (some TY)) (sh (some AM)) (sh (some TL)) (sh (some elev))
        (sh (some T)) (sh (some P)))
      = outcome [lat, lon, TY, AM, TL, elev, T, P] ∧
    shapeOf (global_irradiance_overcast (shapeB b k) (sh (some lat)) (sh (some lon)) (.dt d) (sh (some elev)) (sh (some T)) (sh (some P)))
      = outcome [lat, lon, elev, T, P] := by
  have key : ∀ x : Option Shape, ∀ l, x = bcAll l → shapeOf (.ok (sh (b := b) (k := k) x)) = outcome l := fun x l hx => by rw [hx]; rfl
  refine ⟨?_, ?_, ?_, ?_, ?_, ?_⟩
  · unfold solarelevation_function_clear
    rw [guard_denotes h.2, sh_alt h]
    shapes
    exact key _ _ (by unfold bcAll; simp only [List.foldr, bc_nil_right, bc_self])
  · unfold solarelevation_function_overcast
    rw [guard_denotes h.2, sh_alt h]
    shapes
    exact key _ _ (by unfold bcAll; simp only [List.foldr, bc_nil_right, bc_self])
  · rw [sh_diffc h]
    exact key _ _ (by unfold bcAll; simp only [List.foldr, bc_nil_right])
  · unfold diffuse_underovercast
    rw [guard_denotes h.2, sh_mesd h, sh_alt h]
    shapes
    exact key _ _ (by unfold bcAll; simp only [List.foldr, bc_nil_right]; ac_rfl)
  · rw [sh_dirc h]
    exact key _ _ (by unfold bcAll; simp only [List.foldr, bc_nil_right])
  · unfold global_irradiance_overcast
    rw [guard_denotes h.2, sh_alt h]
    shapes
    exact key _ _ (by unfold bcAll; simp only [List.foldr, bc_nil_right])

/-- C126: `global_irradiance_clear` does not pass on temperature and pressure, so that their shapes play no role. -/
theorem C126_global_clear (TY AM TL : Shape) :
    shapeOf (global_irradiance_clear (shapeB b k) (sh (some lat)) (sh (some lon)) (.dt d) (sh (some TY)) (sh (some AM)) (sh (some TL))
        (sh (some elev)) (sh (some T)) (sh (some P)))
      = outcome [lat, lon, TY, AM, TL, elev] := by
  have key : ∀ x : Option Shape, ∀ l, x = bcAll l → shapeOf (.ok (sh (b := b) (k := k) x)) = outcome l := fun x l hx => by rw [hx]; rfl
  unfold global_irradiance_clear
  rw [guard_denotes h.2]
  simp -implicitDefEqProofs only [sh_lit, ok_bind, sh_dirc h, sh_diffc h]
  shapes
  exact key _ _ (by unfold bcAll; simp only [List.foldr, bc_assoc, bc_comm (some elev), bc_left_comm, bc_self, bc_left_self, bc_nil_left])

omit h

/-! A concrete case: latitudes of shape (3, 1) and longitudes of shape (4,) give a table of shape (3, 4); latitudes of shape
(3,) and longitudes of shape (4,) do not fit. -/

example : outcome [[1, 3], [4], []] = .ok [4, 3] := rfl
example : outcome [[3], [4], []] = .error .valueError := rfl
example : Clash [[3], [4], []] := ⟨[3], by simp, [4], by simp, 0, by decide⟩
example : CommonShape [[1, 3], [4], []] [4, 3] := ((C126_outcome _).1 _).1 rfl
example : Accepted (b := b) (k := k) (.arr [5]) := .inr ⟨_, rfl⟩
example (t : Shape) (h : outcome [[3], []] = .ok t) : 1 < t.prod := by cases h; decide

end Verif.Props
