import Verif.Proofs.FloatNumpy
import Verif.Props.FloatAltitude
import Verif.Props.Instant
import Verif.Props.FloatFast
import Verif.Props.FloatRadiation

/-!
# C111 to C113: arrays in double precision

`arrF F ι` are numpy arrays of any shape `ι` with the rounding and library functions of `F`. `lat`, `lon`, ... are arrays
of floats, which may contain infinities and nans: a theorem about one entry makes assumptions about that entry only.
-/

namespace Verif.Props

open Verif.Spec Pysolar Pysolar.Solar Pysolar.Solartime Pysolar.Radiation Pysolar.Numeric Chain

set_option maxRecDepth 100000 in
theorem unit_topo {d : DateTime} {c : Civil} (h : UtcFields d c) :
    get_topocentric_position unitB () () (.dt d) () = .ok ((), ()) := by
  have g := guard_denotes (B := unitB) h.2
  have hts : timestamp (B := unitB) (.dt d) = .ok _ := timestamp_of_denotes h.2
  have hj : get_julian_solar_day unitB (.dt d) = .ok () := by
    unfold get_julian_solar_day
    rw [g, hts, get_leap_seconds_eq h, get_delta_t_eq h]
    rfl
  have hj' : get_julian_ephemeris_day unitB (.dt d) = .ok () := by
    unfold get_julian_ephemeris_day
    rw [g, hts, get_leap_seconds_eq h]
    rfl
  unfold get_topocentric_position
  rw [g, hj, hj']
  rfl

section

variable (F : F64) {ι : Type} (lat lon elev : ι → V)

/-- C111: for every aware datetime and every three arrays, azimuth and topocentric position are arrays, and the elevation
angle computed from them is one: nothing raises. In every entry whose latitude, longitude and elevation lie in the stated
ranges the azimuth is between 0 and 360, and either the direction is within 0.00001 degrees of the one computed exactly and
within 0.0321 degrees of the reference direction, or the elevation angle is nan and the sun is within 0.00001 degrees of the
zenith or the nadir. -/
theorem C111_direction_arrays (tp : ℝ) (d : DateTime) (c : Civil) (h : UtcFields d c) :
    ∃ decs Hs azs els : ι → V,
      get_topocentric_position (arrF F ι) lat lon (.dt d) elev = .ok (decs, Hs) ∧
      get_azimuth (arrF F ι) lat lon (.dt d) elev = .ok azs ∧
      get_topocentric_elevation_angle (arrF F ι) lat decs Hs = .ok els ∧
      ∀ (i : ι) (la lo el : ℝ), lat i = .fin la → lon i = .fin lo → elev i = .fin el →
        LatOk F tp la → |lo| ≤ 360 → |el| ≤ 50000 →
        ∃ a' jd jde dec H a e,
          azs i = .fin a' ∧ 0 ≤ a' ∧ a' ≤ 360 ∧
          get_julian_solar_day (mathB tp) (.dt d) = .ok (num jd) ∧
          get_julian_ephemeris_day (mathB tp) (.dt d) = .ok (num jde) ∧
          get_topocentric_position (mathB tp) (num la) (num lo) (.dt d) (num el) = .ok (num dec, num H) ∧
          get_azimuth (mathB tp) (num la) (num lo) (.dt d) (num el) = .ok (num a) ∧
          get_topocentric_elevation_angle (mathB tp) (num la) (num dec) (num H) = .ok (num e) ∧
          ((∃ e', els i = .fin e' ∧ |e' - e| ≤ 1 / 10 ^ 5 ∧
              angleBetween (horizontal e' a') (horizontal e a) ≤ 1 / 10 ^ 5 ∧
              angleBetween (horizontal e' a') (sunDirection la lo el jd jde) ≤ 0.0321) ∨
            (els i = .nan ∧ 90 - 1 / 10 ^ 5 ≤ |e|)) := by
  have ut := unit_topo h
  have g := guard_denotes (B := unitB) h.2
  obtain ⟨⟨decs, Hs⟩, h1⟩ := ok_of_total ((vecTotal (npr_noRaise F) rfl ι).get_topocentric_position (x := ()) (x' := lat) trivial
    (y := ()) (y' := lon) trivial (w := .dt d) (w' := .dt d) (.inl ⟨_, rfl, rfl⟩) (z := ()) (z' := elev) trivial) ⟨_, ut⟩
  obtain ⟨azs, h2⟩ := ok_of_total ((vecTotal (npr_noRaise F) rfl ι).get_azimuth (x := ()) (x' := lat) trivial
    (y := ()) (y' := lon) trivial (w := .dt d) (w' := .dt d) (.inl ⟨_, rfl, rfl⟩) (z := ()) (z' := elev) trivial)
    ⟨(), by unfold get_azimuth; rw [g, ut]; rfl⟩
  obtain ⟨els, h3⟩ := ok_of_total ((vecTotal (npr_noRaise F) rfl ι).get_topocentric_elevation_angle (x := ()) (x' := lat) trivial
    (y := ()) (y' := decs) trivial (z := ()) (z' := Hs) trivial) ⟨(), rfl⟩
  refine ⟨decs, Hs, azs, els, h1, h2, h3, fun i la lo el ela elo eel bla blo bel => ?_⟩
  obtain ⟨dec', H', a', jd, jde, dec, H, a, e, f1, f2, fa, fb, m1, m2, m3, m4, m5, hor⟩ :=
    C85_direction F tp d c h la lo el bla blo bel
  obtain ⟨dec2, H2, dec3, H3, f1', m3', hd57, hH, -⟩ := C84_topocentric_position F tp d c h la lo el bla blo bel
  have hp := Except.ok.inj (f1'.symm.trans f1)
  obtain rfl : dec2 = dec' := V.fin.inj (congrArg Prod.fst hp)
  obtain rfl : H2 = H' := V.fin.inj (congrArg Prod.snd hp)
  -- the entries of the arrays
  obtain ⟨p, e1, e1a, e1b⟩ := RelM.of_ok ((vecEntry (npr_noRaise F) rfl i).get_topocentric_position (x := lat) (x' := .fin la) ela
    (y := lon) (y' := .fin lo) elo (w := .dt d) (w' := .dt d) rfl (z := elev) (z' := .fin el) eel) h1
  obtain ⟨q, e2, e2a⟩ := RelM.of_ok ((vecEntry (npr_noRaise F) rfl i).get_azimuth (x := lat) (x' := .fin la) ela
    (y := lon) (y' := .fin lo) elo (w := .dt d) (w' := .dt d) rfl (z := elev) (z' := .fin el) eel) h2
  obtain ⟨p', n1, n1a, n1b⟩ := RelM.of_ok ((rndNp F).toSim.get_topocentric_position (x := .fin la) (x' := .fin la) rfl
    (y := .fin lo) (y' := .fin lo) rfl (w := .dt d) (w' := .dt d) ⟨d, rfl, rfl⟩ (z := .fin el) (z' := .fin el) rfl) f1
  obtain ⟨q', n2, n2a⟩ := RelM.of_ok ((rndNp F).toSim.get_azimuth (x := .fin la) (x' := .fin la) rfl
    (y := .fin lo) (y' := .fin lo) rfl (w := .dt d) (w' := .dt d) ⟨d, rfl, rfl⟩ (z := .fin el) (z' := .fin el) rfl) f2
  have hpp := Except.ok.inj (e1.symm.trans n1)
  have hqq := Except.ok.inj (e2.symm.trans n2)
  have d1 : decs i = .fin dec2 := e1a.trans ((congrArg Prod.fst hpp).trans n1a.symm)
  have d2 : Hs i = .fin H2 := e1b.trans ((congrArg Prod.snd hpp).trans n1b.symm)
  have d3 : azs i = .fin a' := e2a.trans (hqq.trans n2a.symm)
  obtain ⟨r, e3, e3a⟩ := RelM.of_ok ((vecEntry (npr_noRaise F) rfl i).get_topocentric_elevation_angle (x := lat) (x' := .fin la) ela
    (y := decs) (y' := .fin dec2) d1 (z := Hs) (z' := .fin H2) d2) h3
  refine ⟨a', jd, jde, dec, H, a, e, d3, fa, fb, m1, m2, m3, m4, m5, ?_⟩
  rcases hor with ⟨e', g1, g2, g3, g4⟩ | ⟨g1, g2⟩
  · obtain ⟨r', n3, n3a⟩ := RelM.of_ok ((rndNp F).toSim.get_topocentric_elevation_angle (x := .fin la) (x' := .fin la) rfl
      (y := .fin dec2) (y' := .fin dec2) rfl (z := .fin H2) (z' := .fin H2) rfl) g1
    exact .inl ⟨e', e3a.trans ((Except.ok.inj (e3.symm.trans n3)).trans n3a.symm), g2, g3, g4⟩
  · have hn := tea_nan F (radians_fin F (bla.le.trans (by norm_num))) (radians_fin F (hd57.trans (by norm_num)))
      (radians_fin F (hH.trans (by norm_num))) g1
    exact .inr ⟨e3a.trans (Except.ok.inj (e3.symm.trans hn)), g2⟩

/-- C111: altitude arrays. Nothing raises, and in every entry in the stated ranges (refraction as in C86) the altitude is
within 0.00002 degrees of the exact one. -/
theorem C111_altitude_arrays (tp : ℝ) (htp : 10 ^ 6 ≤ |tp|) (d : DateTime) (c : Civil) (h : UtcFields d c) (T P : ι → V) :
    ∃ alts : ι → V, get_altitude (arrF F ι) lat lon (.dt d) elev T P = .ok alts ∧
      ∀ (i : ι) (la lo el T₀ P₀ : ℝ), lat i = .fin la → lon i = .fin lo → elev i = .fin el → T i = .fin T₀ → P i = .fin P₀ →
        LatOk F tp la → |lo| ≤ 360 → |el| ≤ 50000 → 180 ≤ T₀ → T₀ ≤ 340 → 1 ≤ P₀ → P₀ ≤ 120000 →
        ∃ dec H e,
          get_topocentric_position (mathB tp) (num la) (num lo) (.dt d) (num el) = .ok (num dec, num H) ∧
          get_topocentric_elevation_angle (mathB tp) (num la) (num dec) (num H) = .ok (num e) ∧
          (|e| < 90 - 1 / 10 ^ 5 → (e ≤ -5.31 ∨ (-4.89 ≤ e ∧ e ≤ -0.83341) ∨ -0.83333 ≤ e) →
            ∃ alt' alt, alts i = .fin alt' ∧
              get_altitude (mathB tp) (num la) (num lo) (.dt d) (num el) (num T₀) (num P₀) = .ok (num alt) ∧
              |alt' - alt| ≤ 2 / 10 ^ 5) := by
  have ut := unit_topo h
  have g := guard_denotes (B := unitB) h.2
  obtain ⟨alts, h1⟩ := ok_of_total ((vecTotal (npr_noRaise F) rfl ι).get_altitude (x := ()) (x' := lat) trivial
    (y := ()) (y' := lon) trivial (w := .dt d) (w' := .dt d) (.inl ⟨_, rfl, rfl⟩) (z := ()) (z' := elev) trivial
    (t := ()) (t' := T) trivial (p := ()) (p' := P) trivial) ⟨(), by unfold get_altitude; rw [g, ut]; rfl⟩
  refine ⟨alts, h1, fun i la lo el T₀ P₀ ela elo eel eT eP bla blo bel bT1 bT2 bP1 bP2 => ?_⟩
  obtain ⟨dec, H, e, m1, m2, m3⟩ := C86_altitude F tp htp d c h la lo el P₀ P₀ T₀ T₀ bla blo bel bP1 bP2 (by norm_num) bT1 bT2
    (by norm_num)
  refine ⟨dec, H, e, m1, m2, fun k1 k2 => ?_⟩
  obtain ⟨alt', alt, f1, m4, hb⟩ := m3 k1 k2
  obtain ⟨q, e2, e2a⟩ := RelM.of_ok ((vecEntry (npr_noRaise F) rfl i).get_altitude (x := lat) (x' := .fin la) ela
    (y := lon) (y' := .fin lo) elo (w := .dt d) (w' := .dt d) rfl (z := elev) (z' := .fin el) eel (t := T) (t' := .fin T₀) eT
    (p := P) (p' := .fin P₀) eP) h1
  obtain ⟨q', n2, n2a⟩ := RelM.of_ok ((rndNp F).toSim.get_altitude (x := .fin la) (x' := .fin la) rfl
    (y := .fin lo) (y' := .fin lo) rfl (w := .dt d) (w' := .dt d) ⟨d, rfl, rfl⟩ (z := .fin el) (z' := .fin el) rfl
    (t := .fin T₀) (t' := .fin T₀) rfl (p := .fin P₀) (p' := .fin P₀) rfl) f1
  exact ⟨alt', alt, e2a.trans ((Except.ok.inj (e2.symm.trans n2)).trans n2a.symm), m4, hb⟩

/-- C111: `get_position` returns the arrays of `get_azimuth` and `get_altitude`. -/
theorem C111_position_arrays (d : DateTime) (c : Civil) (h : UtcFields d c) (T P : ι → V) :
    ∃ azs alts : ι → V, get_position (arrF F ι) lat lon (.dt d) elev T P = .ok (azs, alts) ∧
      get_azimuth (arrF F ι) lat lon (.dt d) elev = .ok azs ∧
      get_altitude (arrF F ι) lat lon (.dt d) elev T P = .ok alts := by
  obtain ⟨-, -, azs, -, -, h1, -⟩ := C111_direction_arrays F lat lon elev 0 d c h
  obtain ⟨alts, h2, -⟩ := C111_altitude_arrays F lat lon elev (10 ^ 6) (le_abs_self _) d c h T P
  refine ⟨azs, alts, ?_, h1, h2⟩
  exact (C16_position_is_pair (arrF F ι) lat lon (.dt d) elev T P).trans (bind_of_ok h2 (bind_of_ok h1 rfl))

end

/-! ## C112 -/

/-- Where the fast altitude raises, numpy returns nan. -/
theorem altF_nan (F : F64) {d : DateTime} {c : Civil} (h : UtcFields d c) {lat lon : ℝ} (hlat : |lat| ≤ 90)
    (hlon : |lon| ≤ 360) {e : PyErr} (he : get_altitude_fast (rndB F) (V.fin lat) (V.fin lon) (.dt d) = .error e) :
    get_altitude_fast (nprB F) (V.fin lat) (V.fin lon) (.dt d) = .ok V.nan := by
  obtain ⟨x, hx, rx⟩ := decF_rel F 0 h.1
  obtain ⟨y, hy, ry⟩ := haF_rel F 0 h hlon
  obtain ⟨s, hs, -⟩ := fastArg_rel F hlat rx ry
  obtain ⟨x', nx, nxa⟩ := RelM.of_ok ((rndNp F).toSim.get_declination (x := (rndB F).lit (yday c.date))
    (x' := (nprB F).lit (yday c.date)) rfl) hx
  obtain ⟨y', ny, nya⟩ := RelM.of_ok ((rndNp F).toSim.get_hour_angle (w := .dt d) (w' := .dt d) ⟨d, rfl, rfl⟩
    (x := .fin lon) (x' := .fin lon) rfl) hy
  obtain ⟨s', ns, nsa⟩ := RelM.of_ok (fastArg_sim (rndNp F).toSim (x := .fin lat) (x' := .fin lat) rfl (y := .fin x) (y' := x') nxa
    (z := .fin y) (z' := y') nya) hs
  have hsp := (alt_split (rndB F) rfl h (V.fin lat) (V.fin lon)).symm.trans he
  have hsp' : ((rndB F).asin (V.fin s) >>= fun t => (.ok ((rndB F).degrees t) : Py V)) = .error e := by
    refine Eq.trans ?_ hsp
    exact (bind_of_ok hx (bind_of_ok hy (bind_of_ok hs rfl))).symm
  refine (alt_split_of (nprB F) h (tm_yday_npr F h) (V.fin lat) (V.fin lon)).trans
    (bind_of_ok nx (bind_of_ok ny (bind_of_ok ns ?_)))
  rcases ok_or_error ((rndB F).asin (V.fin s)) with ⟨w, hw⟩ | ⟨e', he'⟩
  · exact absurd (hsp'.symm.trans (bind_of_ok hw rfl)) (by simp)
  · have := asin_error F he'
    subst this
    have hs' : s' = V.fin s := nsa.symm
    exact bind_of_ok ((congrArg (nprB F).asin hs').trans (asin_nan F he')) rfl

/-- `faz_split` for the numpy backend, which has its own `tm_yday`. -/
theorem faz_split_of (B : Backend) {d : DateTime} {c : Civil}
    (hy : tm_yday B (.dt d) = .ok (B.lit (yday c.date))) (x y : B.α) :
    get_azimuth_fast B x y (.dt d)
      = get_declination B (B.lit (yday c.date)) >>= fun dec => get_hour_angle B (.dt d) y >>= fun ha =>
        get_altitude_fast B x y (.dt d) >>= fun alt => fazN B dec ha >>= fun n => cosD B alt >>= fun c =>
        B.div n c >>= fun q => B.asin q >>= fun A => tanD B dec >>= fun t1 => cosD B ha >>= fun ch =>
        tanD B x >>= fun tl => .ok (fazW B A t1 ch tl) := by
  unfold get_azimuth_fast
  rw [hy]
  simp only [ok_bind]
  cases get_declination B (B.lit (yday c.date)) with
  | error e => rfl
  | ok dec =>
  cases get_hour_angle B (.dt d) y with
  | error e => rfl
  | ok ha =>
  cases get_altitude_fast B x y (.dt d) with
  | error e => rfl
  | ok alt =>
  simp only [ok_bind, fazN, cosD, tanD]
  cases B.cos (B.radians dec) with
  | error e => rfl
  | ok a =>
  cases B.sin (B.radians ha) with
  | error e => rfl
  | ok b => rfl

/-- A nan for the arcsine is a nan for the azimuth. -/
theorem fazW_nan (F : F64) (t1 ch tl : (nprB F).α) : fazW (nprB F) V.nan t1 ch tl = V.nan := by
  have h1 : ∀ (b : Bool) (x y : V), (nprB F).where_ b x y = if b then x else y := fun b x y => by cases b <;> rfl
  refine (h1 _ _ _).trans ?_
  by_cases hb : (nprB F).le t1 (ch * tl) = true
  · exact (if_pos hb).trans rfl
  · exact (if_neg hb).trans rfl

theorem div_nan (F : F64) (x : V) : (nprB F).div x V.nan = .ok V.nan := by
  cases x <;> rfl

theorem cosD_nan (F : F64) : cosD (nprB F) V.nan = .ok V.nan := rfl

theorem cosD_cases (F : F64) (x : V) : cosD (nprB F) x = cosD (rndB F) x ∨ cosD (nprB F) x = .ok V.nan := by
  show (nprB F).cos ((rndB F).radians x) = (rndB F).cos ((rndB F).radians x) ∨
    (nprB F).cos ((rndB F).radians x) = .ok V.nan
  cases (rndB F).radians x with
  | fin a => exact .inl rfl
  | _ => exact .inr rfl

theorem div_cases (F : F64) (x y : V) :
    (nprB F).div x y = (rndB F).div x y ∨ (rndB F).div x y = .error .zeroDivision := by
  cases y with
  | fin b =>
    by_cases hb : b = 0
    · exact .inr (if_pos hb)
    · exact .inl ((if_neg hb).trans (if_neg hb).symm)
  | _ => exact .inl rfl

theorem asin_cases (F : F64) (x : V) : (∃ a, (rndB F).asin x = .ok a) ∨ (nprB F).asin x = .ok V.nan := by
  rcases ok_or_error ((rndB F).asin x) with ⟨w, hw⟩ | ⟨e', he'⟩
  · exact .inl ⟨w, hw⟩
  · have := asin_error F he'
    subst this
    exact .inr (asin_nan F he')

/-- Where the fast azimuth raises `ValueError`, numpy returns nan. -/
theorem aziF_nan (F : F64) {d : DateTime} {c : Civil} (h : UtcFields d c) {lat lon : ℝ} (hlat : |lat| ≤ 89.9)
    (hlon : |lon| ≤ 360) (he : get_azimuth_fast (rndB F) (V.fin lat) (V.fin lon) (.dt d) = .error .valueError) :
    get_azimuth_fast (nprB F) (V.fin lat) (V.fin lon) (.dt d) = .ok V.nan := by
  have hlat90 : |lat| ≤ 90 := hlat.trans (by norm_num)
  obtain ⟨x, hx, rx⟩ := decF_rel F 0 h.1
  obtain ⟨y, hy, ry⟩ := haF_rel F 0 h hlon
  obtain ⟨n, hn, -⟩ := fazN_rel F rx ry
  obtain ⟨t1, ht1, -⟩ := tanDec_rel F rx
  obtain ⟨ch, hch, -⟩ := cosD_rel F (b := haFb) (out := cosHab) ry rfl cosHa_ok
  obtain ⟨tl, htl, -⟩ := tanLat_rel F hlat
  obtain ⟨x', nx, nxa⟩ := RelM.of_ok ((rndNp F).toSim.get_declination (x := (rndB F).lit (yday c.date))
    (x' := (nprB F).lit (yday c.date)) rfl) hx
  obtain ⟨y', ny, nya⟩ := RelM.of_ok ((rndNp F).toSim.get_hour_angle (w := .dt d) (w' := .dt d) ⟨d, rfl, rfl⟩
    (x := .fin lon) (x' := .fin lon) rfl) hy
  have hx' : V.fin x = x' := nxa
  have hy' : V.fin y = y' := nya
  subst hx' hy'
  obtain ⟨n', nn, nna⟩ := RelM.of_ok (fazN_sim (rndNp F).toSim (x := V.fin x) (x' := V.fin x) rfl
    (y := V.fin y) (y' := V.fin y) rfl) hn
  obtain ⟨t', nt, nta⟩ := RelM.of_ok (tanD_sim (rndNp F).toSim (x := V.fin x) (x' := V.fin x) rfl) ht1
  obtain ⟨c', nc, nca⟩ := RelM.of_ok (cosD_sim (rndNp F).toSim (x := V.fin y) (x' := V.fin y) rfl) hch
  obtain ⟨l', nl, nla⟩ := RelM.of_ok (tanD_sim (rndNp F).toSim (x := V.fin lat) (x' := V.fin lat) rfl) htl
  -- a nan for the arcsine is a nan for the azimuth
  have tail : ∀ {alt co q : V}, get_altitude_fast (nprB F) (V.fin lat) (V.fin lon) (.dt d) = .ok alt →
      cosD (nprB F) alt = .ok co → (nprB F).div n' co = .ok q → (nprB F).asin q = .ok V.nan →
      get_azimuth_fast (nprB F) (V.fin lat) (V.fin lon) (.dt d) = .ok V.nan := by
    intro alt co q h1 h2 h3 h4
    exact (faz_split_of (nprB F) (tm_yday_npr F h) (V.fin lat) (V.fin lon)).trans (bind_of_ok nx (bind_of_ok ny
      (bind_of_ok h1 (bind_of_ok nn (bind_of_ok h2 (bind_of_ok h3 (bind_of_ok h4 (bind_of_ok nt (bind_of_ok nc
      (bind_of_ok nl (congrArg Except.ok (fazW_nan F _ _ _))))))))))))
  have hsp := (faz_split (rndB F) rfl h (V.fin lat) (V.fin lon)).symm.trans he
  rcases ok_or_error (get_altitude_fast (rndB F) (V.fin lat) (V.fin lon) (.dt d)) with ⟨alt, ha⟩ | ⟨e, ha⟩
  swap
  · exact tail (altF_nan F h hlat90 hlon ha) (cosD_nan F) (div_nan F _) rfl
  obtain ⟨alt', na, naa⟩ := RelM.of_ok ((rndNp F).toSim.get_altitude_fast (x := .fin lat) (x' := .fin lat) rfl
      (y := .fin lon) (y' := .fin lon) rfl (w := .dt d) (w' := .dt d) ⟨d, rfl, rfl⟩) ha
  have hal : alt = alt' := naa
  subst hal
  have hn1 : V.fin n = n' := nna
  subst hn1
  rcases cosD_cases F alt with hc | hc
  swap
  · exact tail na hc (div_nan F _) rfl
  rcases ok_or_error (cosD (rndB F) alt) with ⟨co, hco⟩ | ⟨e, hco⟩
  swap
  · exact absurd (hc.trans hco) (by
      have : ∃ v, cosD (nprB F) alt = .ok v := by
        unfold cosD
        cases (nprB F).radians alt with
        | fin a => exact ⟨_, rfl⟩
        | _ => exact ⟨_, rfl⟩
      obtain ⟨v, hv⟩ := this
      intro hh
      cases hv.symm.trans hh)
  rcases div_cases F (V.fin n) co with hd | hd
  swap
  · cases hsp.symm.trans (bind_of_ok hx (bind_of_ok hy (bind_of_ok ha (bind_of_ok hn (bind_of_ok hco (bind_of_error hd))))))
  rcases ok_or_error ((rndB F).div (V.fin n) co) with ⟨q, hq⟩ | ⟨e, hq⟩
  swap
  · have : ∃ v, (nprB F).div (V.fin n) co = .ok v := by
      cases co with
      | fin b => by_cases hb : b = 0 <;> exact ⟨_, by first | exact if_pos hb | exact if_neg hb⟩
      | _ => exact ⟨_, rfl⟩
    obtain ⟨v, hv⟩ := this
    cases hv.symm.trans (hd.trans hq)
  rcases asin_cases F q with ⟨A, hA⟩ | hA
  · cases hsp.symm.trans (bind_of_ok hx (bind_of_ok hy (bind_of_ok ha (bind_of_ok hn (bind_of_ok hco (bind_of_ok hq
      (bind_of_ok hA (bind_of_ok ht1 (bind_of_ok hch (bind_of_ok htl rfl))))))))))
  · exact tail na (hc.trans hco) (hd.trans hq) hA

section

variable (F : F64) {ι : Type} (lat lon : ι → V) (t : ι → ℤ)

/-- C112: the fast altitude of an array of `datetime64` is an array; nothing raises. In every entry whose instant, latitude
and longitude lie in the stated ranges it is within 0.000014 degrees of the exact value, or nan with the sun that close to
the zenith or the nadir. -/
theorem C112_fast_altitude_arrays (tp : ℝ) :
    ∃ alts : ι → V, get_altitude_fast (arrF F ι) lat lon (.arr t) = .ok alts ∧
      ∀ (i : ι) (d : DateTime) (c : Civil) (la lo : ℝ), UtcFields d c → t i = c.micros → lat i = .fin la → lon i = .fin lo →
        |la| ≤ 90 → |lo| ≤ 360 →
        ∃ alt, get_altitude_fast (mathB tp) (num la) (num lo) (.dt d) = .ok (num alt) ∧
          ((∃ alt', alts i = .fin alt' ∧ |alt' - alt| ≤ 14 / 10 ^ 6 ∧ Real.cos (rad alt) * |alt' - alt| ≤ 5 / 10 ^ 12) ∨
            (alts i = .nan ∧ 90 - 14 / 10 ^ 6 ≤ |alt|)) := by
  obtain ⟨alts, h1⟩ := ok_of_total ((vecTotal (npr_noRaise F) rfl ι).get_altitude_fast (x := ()) (x' := lat) trivial
    (y := ()) (y' := lon) trivial (w := .arr ()) (w' := .arr t) (.inr ⟨_, _, rfl, rfl⟩)) ⟨(), rfl⟩
  refine ⟨alts, h1, fun i d c la lo h et ela elo bla blo => ?_⟩
  obtain ⟨_, _, alt, _, _, -, -, m1, -, -, -, -, hor⟩ := C103_fast_altitude F tp d c h la lo bla blo
  obtain ⟨q, e1, e1a⟩ := RelM.of_ok ((vecEntry (npr_noRaise F) rfl i).get_altitude_fast (x := lat) (x' := .fin la) ela
    (y := lon) (y' := .fin lo) elo (w := .arr t) (w' := .arr (t i)) rfl) h1
  obtain ⟨q', e2, e2a⟩ := RelM.of_ok ((nprInstant F).get_altitude_fast (x := .fin la) (x' := .fin la) rfl
    (y := .fin lo) (y' := .fin lo) rfl (w := .arr (t i)) (w' := .dt d) ⟨d, t i, et ▸ h.2, rfl, rfl⟩) e1
  have hq : alts i = q' := e1a.trans e2a
  refine ⟨alt, m1, ?_⟩
  rcases hor with ⟨alt', g1, g2, g3⟩ | ⟨g1, g2⟩
  · obtain ⟨r', n3, n3a⟩ := RelM.of_ok ((rndNp F).toSim.get_altitude_fast (x := .fin la) (x' := .fin la) rfl
      (y := .fin lo) (y' := .fin lo) rfl (w := .dt d) (w' := .dt d) ⟨d, rfl, rfl⟩) g1
    exact .inl ⟨alt', hq.trans ((Except.ok.inj (e2.symm.trans n3)).trans n3a.symm), g2, g3⟩
  · exact .inr ⟨hq.trans (Except.ok.inj (e2.symm.trans (altF_nan F h bla blo g1))), g2⟩

/-- C112: the fast azimuth of an array of `datetime64` is an array; nothing raises. In every entry in the stated ranges, the
sun being away from the zenith and the nadir, the azimuth times the cosine of the altitude is within 0.00003 degrees of
the exact value up to turns, or nan with the sun that close to due east or west. -/
theorem C112_fast_azimuth_arrays (tp : ℝ) :
    ∃ azs : ι → V, get_azimuth_fast (arrF F ι) lat lon (.arr t) = .ok azs ∧
      ∀ (i : ι) (d : DateTime) (c : Civil) (la lo alt : ℝ), UtcFields d c → t i = c.micros → lat i = .fin la →
        lon i = .fin lo → |la| ≤ 89.9 → |lo| ≤ 360 →
        get_altitude_fast (mathB tp) (num la) (num lo) (.dt d) = .ok (num alt) → 1 / 1000 ≤ Real.cos (rad alt) →
        ∃ az, get_azimuth_fast (mathB tp) (num la) (num lo) (.dt d) = .ok (num az) ∧
          ((∃ az', azs i = .fin az' ∧ ∃ k : ℤ, Real.cos (rad alt) * |az' - az - 360 * k| ≤ 3 / 10 ^ 5) ∨
            (azs i = .nan ∧ ∃ k : ℤ, Real.cos (rad alt) * |az - 90 - 180 * k| ≤ 3 / 10 ^ 5)) := by
  obtain ⟨azs, h1⟩ := ok_of_total ((vecTotal (npr_noRaise F) rfl ι).get_azimuth_fast (x := ()) (x' := lat) trivial
    (y := ()) (y' := lon) trivial (w := .arr ()) (w' := .arr t) (.inr ⟨_, _, rfl, rfl⟩)) ⟨(), rfl⟩
  refine ⟨azs, h1, fun i d c la lo alt h et ela elo bla blo halt hcos => ?_⟩
  obtain ⟨az, m1, hor⟩ := C104_fast_azimuth F tp d c h la lo bla blo alt halt hcos
  obtain ⟨q, e1, e1a⟩ := RelM.of_ok ((vecEntry (npr_noRaise F) rfl i).get_azimuth_fast (x := lat) (x' := .fin la) ela
    (y := lon) (y' := .fin lo) elo (w := .arr t) (w' := .arr (t i)) rfl) h1
  obtain ⟨q', e2, e2a⟩ := RelM.of_ok ((nprInstant F).get_azimuth_fast (x := .fin la) (x' := .fin la) rfl
    (y := .fin lo) (y' := .fin lo) rfl (w := .arr (t i)) (w' := .dt d) ⟨d, t i, et ▸ h.2, rfl, rfl⟩) e1
  refine ⟨az, m1, ?_⟩
  rcases hor with ⟨az', g1, g2⟩ | ⟨g1, g2⟩
  · obtain ⟨r', n3, n3a⟩ := RelM.of_ok ((rndNp F).toSim.get_azimuth_fast (x := .fin la) (x' := .fin la) rfl
      (y := .fin lo) (y' := .fin lo) rfl (w := .dt d) (w' := .dt d) ⟨d, rfl, rfl⟩) g1
    exact .inl ⟨az', (e1a.trans e2a).trans ((Except.ok.inj (e2.symm.trans n3)).trans n3a.symm), g2⟩
  · exact .inr ⟨(e1a.trans e2a).trans (Except.ok.inj (e2.symm.trans (aziF_nan F h bla blo g1))), g2⟩

end

/-! ## C113 -/

/-- From an exponent of 703.6 on, numpy's product of flux, exponential and `False` is nan. -/
theorem direct_night_np (F : F64) {d : DateTime} {c : Civil} (h : UtcFields d c) {alt : ℝ} (h1 : -90 ≤ alt)
    (h2 : alt ≤ 0) (hx : 703.6 ≤ depthF (yday c.date) / -Real.sin (rad alt)) (hs : 1 / 10 ^ 8 ≤ -Real.sin (rad alt)) :
    get_radiation_direct (nprB F) (.dt d) (V.fin alt) = .ok V.nan := by
  obtain ⟨k', m, q, hk', hm, hq, hqe⟩ := exponent_night F h.1 h1 h2 hs
  obtain ⟨fl', hfl', hfl⟩ := flux_float F h.1
  have hfb := fluxF_bounds (yday c.date)
  have hq1 : 703.5 ≤ q := by
    have := abs_le.1 hqe
    norm_num at *
    linarith
  have hE1 : 2 ^ 1014 ≤ Real.exp q := by
    rw [pow2_exp]
    refine Real.exp_le_exp.2 ?_
    have := Real.log_two_lt_d9
    push_cast
    norm_num at *
    linarith
  have hFe := abs_le.1 (F.exp_err q)
  have ht := tiny1074
  have ht5 := tiny1075
  have hP1 : (2 : ℝ) ^ 100 ≤ 2 ^ 1014 := pow_le_pow_right₀ (by norm_num) (by norm_num)
  have h24 : (2 : ℝ) ^ 1024 = 1024 * 2 ^ 1014 := by
    rw [show (1024 : ℕ) = 10 + 1014 by norm_num, pow_add]
    norm_num
  have hflb : 1084 ≤ fl' := by
    have := abs_le.1 hfl
    have := hfb.1
    norm_num at *
    linarith
  have hex1 : 0.999 * 2 ^ 1014 ≤ F.exp q := by
    have g := hFe.1
    clear h24 hFe
    generalize (2 : ℝ) ^ 1014 = P at *
    generalize (1 : ℝ) / 2 ^ 1074 = t at *
    norm_num at g hP1 ⊢
    linarith only [g, hE1, ht, hP1]
  have hprod : 1082 * 2 ^ 1014 ≤ fl' * F.exp q := by
    calc (1082 : ℝ) * 2 ^ 1014 ≤ 1084 * (0.999 * 2 ^ 1014) := by
          clear h24
          generalize (2 : ℝ) ^ 1014 = P at *
          norm_num at hP1 ⊢
          linarith only [hP1]
      _ ≤ _ := mul_le_mul hflb hex1 (by positivity) (by linarith)
  have hrnd : 2 ^ 1024 ≤ F.rnd (fl' * F.exp q) := by
    have g := (abs_le.1 (F.rnd_err (fl' * F.exp q))).1
    have hpos : 0 ≤ fl' * F.exp q := le_trans (by positivity) hprod
    rw [abs_of_nonneg hpos] at g
    rw [h24]
    clear h24
    generalize (2 : ℝ) ^ 1014 = P at *
    generalize (1 : ℝ) / 2 ^ 1075 = t at *
    norm_num at g hP1 ⊢
    linarith only [g, hprod, ht5, hP1]
  -- the steps in numpy
  obtain ⟨fl2, nf, nfa⟩ := RelM.of_ok ((rndNp F).toSim.get_apparent_extraterrestrial_flux (x := (rndB F).lit (yday c.date))
    (x' := (nprB F).lit (yday c.date)) rfl) hfl'
  obtain ⟨k2, nk, nka⟩ := RelM.of_ok ((rndNp F).toSim.get_optical_depth (x := (rndB F).lit (yday c.date))
    (x' := (nprB F).lit (yday c.date)) rfl) hk'
  obtain ⟨m2, nm, nma⟩ := RelM.of_ok ((rndNp F).toSim.get_air_mass_ratio (x := V.fin alt) (x' := V.fin alt) rfl) hm
  have hq2 : (nprB F).mul ((nprB F).mul ((nprB F).neg ((nprB F).lit 1)) k2) m2 = V.fin q := by
    have e1 : k2 = V.fin k' := nka.symm
    have e2 : m2 = V.fin m := nma.symm
    rw [e1, e2]
    exact hq
  obtain ⟨E, hE, hEm⟩ : ∃ E, (nprB F).exp (V.fin q) = .ok E ∧ (nprB F).mul (V.fin fl') E = V.pinf := by
    by_cases hov : (2 : ℝ) ^ 1024 ≤ F.exp q
    · refine ⟨V.pinf, if_pos hov, ?_⟩
      show V.rnd F (V.infMul fl' V.pinf) = V.pinf
      have hfp : 0 < fl' := by linarith
      unfold V.infMul
      rw [if_pos hfp]
      rfl
    · exact ⟨V.fin (F.exp q), if_neg hov, if_pos hrnd⟩
  refine (direct_split_of (nprB F) (tm_yday_npr F h) _).trans (bind_of_ok nf (bind_of_ok nk (bind_of_ok nm
    (bind_of_ok ((congrArg (nprB F).exp hq2).trans hE) (congrArg Except.ok ?_)))))
  have e3 : fl2 = V.fin fl' := nfa.symm
  rw [e3]
  refine (congrArg₂ (nprB F).mul hEm (ofC_night F h2)).trans ?_
  show V.rnd F (V.infMul 0 V.pinf) = _
  simp [V.infMul, V.rnd]

section

variable (F : F64) {ι : Type} (alts : ι → V)

/-- The entries of an array of direct radiation. -/
theorem direct_entries (w : When (arrF F ι)) (hw : (∃ d, w = .dt d) ∨ ∃ t, w = .arr t) :
    ∃ rs : ι → V, get_radiation_direct (arrF F ι) w alts = .ok rs ∧
      ∀ (i : ι) (d : DateTime) (c : Civil), UtcFields d c → (w = .dt d ∨ ∃ t, w = .arr t ∧ t i = c.micros) →
        get_radiation_direct (nprB F) (.dt d) (alts i) = .ok (rs i) := by
  have hex : ∃ rs : ι → V, get_radiation_direct (arrF F ι) w alts = .ok rs := by
    rcases hw with ⟨d, rfl⟩ | ⟨t, rfl⟩
    · exact ok_of_total ((vecTotal (npr_noRaise F) rfl ι).get_radiation_direct (w := .dt d) (w' := .dt d) (.inl ⟨_, rfl, rfl⟩)
        (x := ()) (x' := alts) trivial) ⟨(), rfl⟩
    · exact ok_of_total ((vecTotal (npr_noRaise F) rfl ι).get_radiation_direct (w := .arr ()) (w' := .arr t)
        (.inr ⟨_, _, rfl, rfl⟩) (x := ()) (x' := alts) trivial) ⟨(), rfl⟩
  obtain ⟨rs, h1⟩ := hex
  refine ⟨rs, h1, fun i d c h hwt => ?_⟩
  obtain ⟨q, e1, e1a⟩ := RelM.of_ok ((vecEntry (npr_noRaise F) rfl i).get_radiation_direct (w := w) (w' := entryWB i w) rfl
    (x := alts) (x' := alts i) rfl) h1
  have hq : rs i = q := e1a
  rcases hwt with rfl | ⟨t, rfl, et⟩
  · rw [hq]
    exact e1
  · obtain ⟨q', e2, e2a⟩ := RelM.of_ok ((nprInstant F).get_radiation_direct (w := .arr (t i)) (w' := .dt d)
      ⟨d, t i, et ▸ h.2, rfl, rfl⟩ (x := alts i) (x' := alts i) rfl) e1
    have : q = q' := e2a
    rw [hq, this]
    exact e2

/-- C113 is false as stated: with numpy, direct radiation just below the horizon is nan. -/
theorem C113_refuted : ¬ ∀ (d : DateTime) (c : Civil) (alt : ℝ), UtcFields d c → -90 ≤ alt → alt < 0 →
    ∀ rs : Unit → V, get_radiation_direct (arrF F Unit) (.dt d) (fun _ => .fin alt) = .ok rs → rs () = .fin 0 := by
  intro hall
  obtain ⟨rs, h1, h2⟩ := direct_entries F (fun _ : Unit => V.fin (-0.011)) (.dt sampleDT) (.inl ⟨_, rfl⟩)
  have h3 := h2 () sampleDT sampleUTC sample_utc (.inl rfl)
  have hz := hall sampleDT sampleUTC (-0.011) sample_utc (by norm_num) (by norm_num) rs h1
  have hsin := sin_small (x := 0.011) (y := 0.00019) (z := 0.000192) (by norm_num) (by norm_num) (by norm_num) (by norm_num)
  have e : -Real.sin (rad (-0.011)) = Real.sin (rad 0.011) := by rw [rad_neg, Real.sin_neg, neg_neg]
  have hk := (depthF_bounds (yday sampleUTC.date)).1
  have hpos : 0 < Real.sin (rad 0.011) := lt_of_lt_of_le (by norm_num) hsin.1
  have hn := direct_night_np F sample_utc (alt := -0.011) (by norm_num) (by norm_num)
    (by rw [e, le_div_iff₀ hpos]; norm_num at *; linarith) (by rw [e]; norm_num at *; linarith)
  have := Except.ok.inj (h3.symm.trans hn)
  rw [hz] at this
  cases this

/-- C113, what holds: direct radiation of an array of altitudes, for one datetime or an array of `datetime64`, is an array;
nothing raises. An entry is within 1e-11 of the exact value for an altitude from a millionth of a degree to 90 degrees, zero
for an altitude from -90 to -0.0171 degrees, and nan for one from -0.011 degrees to minus a millionth of a degree. -/
theorem C113_direct_radiation_arrays_partial (tp : ℝ) (w : When (arrF F ι)) (hw : (∃ d, w = .dt d) ∨ ∃ t, w = .arr t) :
    ∃ rs : ι → V, get_radiation_direct (arrF F ι) w alts = .ok rs ∧
      ∀ (i : ι) (d : DateTime) (c : Civil) (alt : ℝ), UtcFields d c → (w = .dt d ∨ ∃ t, w = .arr t ∧ t i = c.micros) →
        alts i = .fin alt →
        (1 / 10 ^ 6 ≤ alt → alt ≤ 90 → ∃ r r', get_radiation_direct (mathB tp) (.dt d) (num alt) = .ok (num r) ∧
          rs i = .fin r' ∧ |r' - r| ≤ 1 / 10 ^ 11) ∧
        (-90 ≤ alt → alt ≤ -0.0171 → rs i = .fin 0) ∧
        (-0.011 ≤ alt → alt ≤ -(1 / 10 ^ 6) → rs i = .nan) := by
  obtain ⟨rs, h1, h2⟩ := direct_entries F alts w hw
  refine ⟨rs, h1, fun i d c alt h hwt ea => ?_⟩
  have e1 := h2 i d c h hwt
  rw [ea] at e1
  refine ⟨fun b1 b2 => ?_, fun b1 b2 => ?_, fun b1 b2 => ?_⟩
  · obtain ⟨r, r', m1, f1, hb⟩ := C105_direct_radiation F tp d c h alt b1 b2
    obtain ⟨v, n1, n1a⟩ := RelM.of_ok ((rndNp F).toSim.get_radiation_direct (w := .dt d) (w' := .dt d) ⟨d, rfl, rfl⟩
      (x := .fin alt) (x' := .fin alt) rfl) f1
    exact ⟨r, r', m1, (Except.ok.inj (e1.symm.trans n1)).trans n1a.symm, hb⟩
  · obtain ⟨v, n1, n1a⟩ := RelM.of_ok ((rndNp F).toSim.get_radiation_direct (w := .dt d) (w' := .dt d) ⟨d, rfl, rfl⟩
      (x := .fin alt) (x' := .fin alt) rfl) (C106_zero_partial F d c h alt b1 b2)
    exact (Except.ok.inj (e1.symm.trans n1)).trans n1a.symm
  · have hp := Real.pi_gt_d4
    have hp' := Real.pi_lt_d4
    have hneg : 0 < -alt := by norm_num at *; linarith
    have h0 : 0 < rad (-alt) := by unfold rad; positivity
    have hup : rad (-alt) ≤ 0.0001921 := by unfold rad; norm_num at *; nlinarith
    have hlo : 1.7 / 10 ^ 8 ≤ rad (-alt) := by unfold rad; norm_num at *; nlinarith
    have e : -Real.sin (rad alt) = Real.sin (rad (-alt)) := by rw [rad_neg, Real.sin_neg]
    have hsin1 := Real.sin_le h0.le
    have hsin2 := Real.mul_le_sin h0.le (by norm_num at *; linarith)
    have h4 : (0.63 : ℝ) ≤ 2 / Real.pi := by
      rw [le_div_iff₀ Real.pi_pos]
      norm_num at *
      linarith
    have h5 : 0.63 * rad (-alt) ≤ 2 / Real.pi * rad (-alt) := mul_le_mul_of_nonneg_right h4 h0.le
    have hlo2 : 1 / 10 ^ 8 ≤ Real.sin (rad (-alt)) := by norm_num at *; linarith
    have hpos : 0 < Real.sin (rad (-alt)) := lt_of_lt_of_le (by norm_num) hlo2
    have hk := (depthF_bounds (yday c.date)).1
    have hn := direct_night_np F h (alt := alt) (by norm_num at *; linarith) (by linarith)
      (by
        rw [e, le_div_iff₀ hpos]
        norm_num at *
        linarith) (by rw [e]; exact hlo2)
    exact Except.ok.inj (e1.symm.trans hn)

end

/-! ## Examples: three places, one of them a nan -/

/-- Two good places and a nan at the sample instant: the azimuths of the good places are numbers. -/
example : ∃ azs : Fin 3 → V, get_azimuth (arrF binary64 (Fin 3)) (fun i => if i = 2 then .nan else .fin (42 * i))
    (fun _ => .fin (-71)) (.dt sampleDT) (fun _ => .fin 0) = .ok azs ∧ ∃ a, azs 1 = .fin a := by
  obtain ⟨_, _, azs, _, _, h2, _, h⟩ := C111_direction_arrays binary64
    (fun i : Fin 3 => if i = 2 then V.nan else V.fin (42 * i)) (fun _ => .fin (-71)) (fun _ => .fin 0) 0 sampleDT sampleUTC sample_utc
  obtain ⟨a, _, _, _, _, _, _, ha, _⟩ := h 1 (42 * (1 : Fin 3)) (-71) 0 rfl rfl rfl
    (.inl (by simp; norm_num)) (by rw [abs_of_neg] <;> norm_num) (by norm_num)
  exact ⟨azs, h2, a, ha⟩

/-- Day, night and the moment after sunset. -/
example : ∃ rs : Fin 2 → V, get_radiation_direct (arrF binary64 (Fin 2)) (.dt sampleDT)
    (fun i => .fin (if i = 0 then -10 else -0.005)) = .ok rs ∧ rs 0 = .fin 0 ∧ rs 1 = .nan := by
  obtain ⟨rs, h, hr⟩ := C113_direct_radiation_arrays_partial binary64 (fun i : Fin 2 => V.fin (if i = 0 then -10 else -0.005)) 0
    (.dt sampleDT) (.inl ⟨_, rfl⟩)
  exact ⟨rs, h, (hr 0 _ _ _ sample_utc (.inl rfl) rfl).2.1 (by norm_num) (by norm_num),
    (hr 1 _ _ _ sample_utc (.inl rfl) rfl).2.2 (by norm_num) (by norm_num)⟩

end Verif.Props
