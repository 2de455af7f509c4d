import Verif.Proofs.NonFinite
import Verif.Props.Formulas
import Verif.Props.Exceptions
import Verif.Props.Simulate

/-!
# C155, C156: coordinates that are not finite numbers
-/

namespace Verif.Props

open Verif.Spec Pysolar Pysolar.Solar Pysolar.Radiation Pysolar.Util Pysolar.Numeric Pysolar.TzCheck

/-! ## C155 -/

/-- What it means that no position and no irradiance is made up for an undefined place. `nan x`: `x` is nan; `nf x`: `x`
is nan or infinite. The arguments not named are arbitrary, and so is the time. -/
def NothingMadeUp (B : Backend) (nan nf : B.α → Prop) : Prop :=
  ∀ (lat lon elevation temperature pressure : B.α) (w : When B), nf lat ∨ nf lon ∨ nan elevation →
    (∀ r, get_altitude B lat lon w elevation temperature pressure = .ok r → nan r) ∧
    (∀ r, get_azimuth B lat lon w elevation = .ok r → nan r) ∧
    (∀ r, get_position B lat lon w elevation temperature pressure = .ok r → nan r.1 ∧ nan r.2) ∧
    (∀ r, solarelevation_function_clear B lat lon w temperature pressure elevation = .ok r → nan r) ∧
    (∀ r, solarelevation_function_overcast B lat lon w elevation temperature pressure = .ok r → nan r) ∧
    (∀ TL r, diffuse_underclear B lat lon w elevation temperature pressure TL = .ok r → nan r) ∧
    (∀ TL r, diffuse_underovercast B lat lon w elevation temperature pressure TL = .ok r → nan r) ∧
    (∀ TY AM TL r, direct_underclear B lat lon w TY AM TL elevation temperature pressure = .ok r → nan r) ∧
    (∀ TY AM TL r, global_irradiance_clear B lat lon w TY AM TL elevation temperature pressure = .ok r → nan r) ∧
    (∀ r, global_irradiance_overcast B lat lon w elevation temperature pressure = .ok r → nan r)

/-- The same for the functions that have no elevation. -/
def NothingMadeUpFast (B : Backend) (nan nf : B.α → Prop) : Prop :=
  ∀ (lat lon : B.α) (w : When B), nf lat ∨ nf lon →
    (∀ r, get_altitude_fast B lat lon w = .ok r → nan r) ∧
    (∀ r, get_azimuth_fast B lat lon w = .ok r → nan r) ∧
    (∀ r, get_sunrise_sunset_transit B lat lon w ≠ .ok r) ∧
    (∀ r, get_sunrise_sunset B lat lon w ≠ .ok r) ∧
    (∀ r, get_sunrise_time B lat lon w ≠ .ok r) ∧
    (∀ r, get_sunset_time B lat lon w ≠ .ok r) ∧
    (∀ r, get_transit_time B lat lon w ≠ .ok r)

/-- The same for `get_radiation_direct`, of an altitude that is not finite. -/
def NothingMadeUpDirect (B : Backend) (nan nf : B.α → Prop) : Prop :=
  ∀ (alt : B.α) (w : When B), nf alt → ∀ r, get_radiation_direct B w alt = .ok r → nan r

section

variable {B : Backend} (S : Strict B)

theorem nothingMadeUp : NothingMadeUp B S.nan S.nf := fun _ _ _ _ _ _ h =>
  ⟨S.altitude h, S.azimuth h, S.position h, S.function_clear h, S.function_overcast h, fun _ => S.diffuse_clear h,
    fun _ => S.diffuse_overcast h, fun _ _ _ => S.direct_clear h, fun _ _ _ => S.global_clear h, S.global_overcast h⟩

theorem nothingMadeUpFast : NothingMadeUpFast B S.nan S.nf := by
  intro lat lon w h
  have hs := S.sunrise (w := w) h
  have never : ∀ {β : Type} {f : DateTime × DateTime × DateTime → Py β} (r : β),
      (do guard w; f (← get_sunrise_sunset_transit B lat lon w)) ≠ .ok r := fun r hr =>
    Ret.any (Q := fun _ => False) (fun _ => Ret.bind hs fun _ h => h.elim) r hr
  exact ⟨S.altitude_fast h, S.azimuth_fast h, fun r hr => hs r hr, never, never, never, never⟩

theorem nothingMadeUpDirect : NothingMadeUpDirect B S.nan S.nf := fun _ _ h => S.radiation_direct h

end

/-- C155, exact arithmetic, `math` functions: for a latitude or longitude that is nan or infinite, or an elevation that
is nan, a position, clear-sky or overcast function either raises or returns nan; a sunrise function never returns. -/
theorem C155_math (tp : ℝ) : NothingMadeUp (mathB tp) (fun x => x = V.nan) V.NonFin ∧
    NothingMadeUpFast (mathB tp) (fun x => x = V.nan) V.NonFin ∧
    NothingMadeUpDirect (mathB tp) (fun x => x = V.nan) V.NonFin :=
  ⟨nothingMadeUp (strictMath tp), nothingMadeUpFast (strictMath tp), nothingMadeUpDirect (strictMath tp)⟩

/-- C155, exact arithmetic, numpy functions. -/
theorem C155_numpy (tp : ℝ) : NothingMadeUp (npB tp) (fun x => x = V.nan) V.NonFin ∧
    NothingMadeUpFast (npB tp) (fun x => x = V.nan) V.NonFin ∧
    NothingMadeUpDirect (npB tp) (fun x => x = V.nan) V.NonFin :=
  ⟨nothingMadeUp (strictNp tp), nothingMadeUpFast (strictNp tp), nothingMadeUpDirect (strictNp tp)⟩

/-- C155, double precision, `math` functions. -/
theorem C155_float (F : F64) : NothingMadeUp (rndB F) (fun x => x = V.nan) V.NonFin ∧
    NothingMadeUpFast (rndB F) (fun x => x = V.nan) V.NonFin ∧
    NothingMadeUpDirect (rndB F) (fun x => x = V.nan) V.NonFin :=
  ⟨nothingMadeUp (strictRnd F), nothingMadeUpFast (strictRnd F), nothingMadeUpDirect (strictRnd F)⟩

/-- C155, double precision, numpy functions. -/
theorem C155_float_numpy (F : F64) : NothingMadeUp (nprB F) (fun x => x = V.nan) V.NonFin ∧
    NothingMadeUpFast (nprB F) (fun x => x = V.nan) V.NonFin ∧
    NothingMadeUpDirect (nprB F) (fun x => x = V.nan) V.NonFin :=
  ⟨nothingMadeUp (strictNpr F), nothingMadeUpFast (strictNpr F), nothingMadeUpDirect (strictNpr F)⟩

variable {tp : ℝ} {d : DateTime} {c : Civil}

theorem ha_nan (h : UtcFields d c) : get_hour_angle (mathB tp) (.dt d) V.nan = .ok V.nan := by
  unfold get_hour_angle get_solar_time
  rw [guard_denotes h.2, hour_eval h, min_eval h, yday_eval h]
  simp only [ok_bind, eot_eval, pure_eq_ok]
  refine congrArg Except.ok (a₂ := V.nan) ?_
  have hn : (strictMath tp).nan V.nan := rfl
  show (strictMath tp).nan _
  nans (strictMath tp)

theorem no_rows {B : Backend} (S : Strict B) (hr : ∀ x, S.nan x → Ret (fun _ => False) (B.round x))
    {lat lon elevation : B.α} (h : S.Nowhere lat lon elevation) (horizon : List B.α) (s e : DateTime) (k : ℤ)
    (temperature pressure : B.α) :
    (Simulate.simulate_span B lat lon horizon s e k elevation temperature pressure).yields = [] := by
  cases hy : (Simulate.simulate_span B lat lon horizon s e k elevation temperature pressure).yields with
  | nil => rfl
  | cons r rs =>
    obtain ⟨-, -, ha, ⟨i, hi, -⟩, -⟩ := C55_rows B lat lon horizon s e k elevation temperature pressure 0 r (by rw [hy]; rfl)
    exact (hr _ (S.azimuth h _ ha) i hi).elim

/-- C155: `simulate_span` yields no row for an undefined place. -/
theorem C155_simulate (tp : ℝ) (F : F64) (lat lon elevation temperature pressure : V) (horizon : List V) (s e : DateTime)
    (k : ℤ) (hn : V.NonFin lat ∨ V.NonFin lon ∨ elevation = V.nan) :
    (Simulate.simulate_span (mathB tp) lat lon horizon s e k elevation temperature pressure).yields = [] ∧
    (Simulate.simulate_span (npB tp) lat lon horizon s e k elevation temperature pressure).yields = [] ∧
    (Simulate.simulate_span (rndB F) lat lon horizon s e k elevation temperature pressure).yields = [] ∧
    (Simulate.simulate_span (nprB F) lat lon horizon s e k elevation temperature pressure).yields = [] := by
  have r : ∀ x, x = V.nan → Ret (fun _ => False) (roundV x) := by rintro _ rfl _ ⟨⟩
  exact ⟨no_rows (strictMath tp) r hn _ _ _ _ _ _, no_rows (strictNp tp) r hn _ _ _ _ _ _,
    no_rows (strictRnd F) r hn _ _ _ _ _ _, no_rows (strictNpr F) r hn _ _ _ _ _ _⟩

/-- C155: with numpy nothing is raised, so that the position of an undefined place is always nan, in exact and in double
precision. -/
theorem C155_numpy_returns (tp : ℝ) (F : F64) (h : UtcFields d c) (lat lon elevation temperature pressure : V)
    (hn : V.NonFin lat ∨ V.NonFin lon ∨ elevation = V.nan) :
    (get_altitude (npB tp) lat lon (.dt d) elevation temperature pressure = .ok V.nan ∧
      get_azimuth (npB tp) lat lon (.dt d) elevation = .ok V.nan ∧
      get_position (npB tp) lat lon (.dt d) elevation temperature pressure = .ok (V.nan, V.nan)) ∧
    (get_altitude (nprB F) lat lon (.dt d) elevation temperature pressure = .ok V.nan ∧
      get_azimuth (nprB F) lat lon (.dt d) elevation = .ok V.nan ∧
      get_position (nprB F) lat lon (.dt d) elevation temperature pressure = .ok (V.nan, V.nan)) := by
  obtain ⟨⟨a, -⟩, ⟨b, -⟩, -⟩ := C138_numpy tp F Unit h
  constructor
  · obtain ⟨-, ⟨p, hp⟩, ⟨x, hx⟩, ⟨y, hy⟩, -⟩ := a.2.2.2.2.2 lat lon elevation temperature pressure V.nan V.nan V.nan
    obtain ⟨k1, k2, k3, -⟩ := (C155_numpy tp).1 lat lon elevation temperature pressure (.dt d) hn
    rw [hx, hy, hp, k1 x hx, k2 y hy, show p = (V.nan, V.nan) from Prod.ext (k3 p hp).1 (k3 p hp).2]
    exact ⟨rfl, rfl, rfl⟩
  · obtain ⟨-, ⟨p, hp⟩, ⟨x, hx⟩, ⟨y, hy⟩, -⟩ := b.2.2.2.2.2 lat lon elevation temperature pressure V.nan V.nan V.nan
    obtain ⟨k1, k2, k3, -⟩ := (C155_float_numpy F).1 lat lon elevation temperature pressure (.dt d) hn
    rw [hx, hy, hp, k1 x hx, k2 y hy, show p = (V.nan, V.nan) from Prod.ext (k3 p hp).1 (k3 p hp).2]
    exact ⟨rfl, rfl, rfl⟩

/-- C155: `get_altitude_fast` of a nan latitude does return, and so returns nan; of an infinite latitude it raises
`ValueError`. -/
theorem C155_altitude_fast (tp : ℝ) (h : UtcFields d c) (lon : ℝ) :
    get_altitude_fast (mathB tp) V.nan (num lon) (.dt d) = .ok V.nan ∧
    get_altitude_fast (mathB tp) V.pinf (num lon) (.dt d) = .error .valueError := by
  constructor <;>
  · unfold get_altitude_fast
    rw [guard_denotes h.2, yday_eval h]
    simp only [ok_bind, decl_eval, ha_eval h, m_radians, m_cos, m_sin]
    rfl

/-- C155: with `math`, an infinite latitude is rejected by the position functions with `ValueError`. -/
theorem C155_infinite_latitude (tp : ℝ) (h : UtcFields d c) (lat lon elevation temperature pressure : V)
    (hl : lat = V.pinf ∨ lat = V.ninf) :
    get_altitude (mathB tp) lat lon (.dt d) elevation temperature pressure = .error .valueError ∧
    get_azimuth (mathB tp) lat lon (.dt d) elevation = .error .valueError ∧
    get_position (mathB tp) lat lon (.dt d) elevation temperature pressure = .error .valueError := by
  have ht : get_topocentric_position (mathB tp) lat lon (.dt d) elevation = .error .valueError := by
    unfold get_topocentric_position
    rw [guard_denotes h.2]
    rcases hl with rfl | rfl <;> rfl
  refine ⟨?_, ?_, ?_⟩
  · unfold get_altitude
    rw [guard_denotes h.2, ht]
    rfl
  · unfold get_azimuth
    rw [guard_denotes h.2, ht]
    rfl
  · unfold get_position
    rw [guard_denotes h.2, ht]
    rfl

example : V.NonFin V.nan ∧ V.NonFin V.pinf ∧ V.NonFin V.ninf ∧ ¬ V.NonFin (V.fin 42.2) ∧
    get_altitude_fast (mathB tp) V.nan (num 62) (.dt sampleDT) = .ok V.nan :=
  ⟨trivial, trivial, trivial, id, (C155_altitude_fast tp sample_utc 62).1⟩

/-! ## C156 -/

/-- C156 is false: `extraterrestrial_irrad` of the latitude nan, or of the longitude nan, is 0.0, as if it were night, at
every time; and `clear_index` then divides by zero. -/
theorem C156_refuted (tp : ℝ) (h : UtcFields d c) (lat lon SC ghi : ℝ) :
    extraterrestrial_irrad (mathB tp) V.nan (num lon) (.dt d) (num SC) = .ok (num 0) ∧
    extraterrestrial_irrad (mathB tp) (num lat) V.nan (.dt d) (num SC) = .ok (num 0) ∧
    clear_index (mathB tp) (num ghi) V.nan (num lon) (.dt d) = .error .zeroDivision := by
  have hy : utcYday (B := mathB tp) (.dt d) = .ok (num (yday c.date)) := by
    simp [utcYday, utctimetuple_dt, utctimetuple_of_utcFields h]
  have z : ∀ r : V, r = (mathB tp).lit 0 → (.ok r : Py V) = .ok (V.fin 0) := by
    rintro _ rfl
    show (.ok (V.fin ((0 : ℚ) : ℝ)) : Py V) = _
    rw [Rat.cast_zero]
  have h1 : ∀ SC : ℝ, extraterrestrial_irrad (mathB tp) V.nan (num lon) (.dt d) (num SC) = .ok (num 0) := by
    intro SC
    have hret : ∃ r, extraterrestrial_irrad (mathB tp) V.nan (num lon) (.dt d) (num SC) = .ok r := by
      unfold extraterrestrial_irrad
      rw [guard_denotes h.2, hy]
      simp only [ok_bind, m_ofNat, m_sci, m_pi, m_mul, m_sub, m_divq, m_cos, m_sin, decl_eval, ha_eval h, m_radians]
      exact ⟨_, rfl⟩
    obtain ⟨r, hr⟩ := hret
    exact hr.trans (z r ((strictMath tp).extraterrestrial (lat := V.nan) (.inl (show V.NonFin V.nan from trivial)) r hr))
  have h2 : extraterrestrial_irrad (mathB tp) (num lat) V.nan (.dt d) (num SC) = .ok (num 0) := by
    have hret : ∃ r, extraterrestrial_irrad (mathB tp) (num lat) V.nan (.dt d) (num SC) = .ok r := by
      unfold extraterrestrial_irrad
      rw [guard_denotes h.2, hy]
      simp only [ok_bind, m_ofNat, m_sci, m_pi, m_mul, m_sub, m_divq, m_cos, m_sin, decl_eval, ha_nan h, m_radians]
      exact ⟨_, rfl⟩
    obtain ⟨r, hr⟩ := hret
    exact hr.trans (z r ((strictMath tp).extraterrestrial (lon := V.nan) (.inr (show V.NonFin V.nan from trivial)) r hr))
  refine ⟨h1 SC, h2, ?_⟩
  unfold clear_index
  rw [guard_denotes h.2]
  refine (congrArg (fun m => m >>= fun e => (mathB tp).div (num ghi) e) (h1 (SC_default : ℚ))).trans ?_
  exact m_div_zero _

/-- C156, partial: for a latitude or longitude that is not finite the functions never return anything but 0.0, in exact
and in double precision, with `math` and with numpy; and with `math` an infinite latitude raises `ValueError`. What is
missing: for nan the result is a number, 0.0. -/
theorem C156_partial (tp : ℝ) (F : F64) (lat lon SC : V) (hl : V.NonFin lat ∨ V.NonFin lon) (d : DateTime) :
    (∀ r, extraterrestrial_irrad (mathB tp) lat lon (.dt d) SC = .ok r → r = (mathB tp).lit 0) ∧
    (∀ r, extraterrestrial_irrad (npB tp) lat lon (.dt d) SC = .ok r → r = (npB tp).lit 0) ∧
    (∀ r, extraterrestrial_irrad (rndB F) lat lon (.dt d) SC = .ok r → r = (rndB F).lit 0) ∧
    (∀ r, extraterrestrial_irrad (nprB F) lat lon (.dt d) SC = .ok r → r = (nprB F).lit 0) ∧
    (∀ c, UtcFields d c → (lat = V.pinf ∨ lat = V.ninf) → ∀ x,
      extraterrestrial_irrad (mathB tp) lat (num x) (.dt d) SC = .error .valueError) := by
  refine ⟨(strictMath tp).extraterrestrial hl, (strictNp tp).extraterrestrial hl, (strictRnd F).extraterrestrial hl,
    (strictNpr F).extraterrestrial hl, fun c h hi x => ?_⟩
  have hy : utcYday (B := mathB tp) (.dt d) = .ok (num (yday c.date)) := by
    simp [utcYday, utctimetuple_dt, utctimetuple_of_utcFields h]
  unfold extraterrestrial_irrad
  rw [guard_denotes h.2, hy]
  simp only [ok_bind, m_ofNat, m_sci, m_pi, m_mul, m_sub, m_divq, m_cos, m_sin, decl_eval, ha_eval h, m_radians]
  rcases hi with rfl | rfl <;> rfl

example : UtcFields sampleDT sampleUTC ∧ V.NonFin V.nan ∧
    extraterrestrial_irrad (mathB tp) V.nan (num 62) (.dt sampleDT) (num 1367) = .ok (num 0) :=
  ⟨sample_utc, trivial, (C156_refuted tp sample_utc 0 62 1367 1).1⟩

end Verif.Props
