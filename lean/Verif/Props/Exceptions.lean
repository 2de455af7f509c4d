import Verif.Proofs.Raises
import Verif.Proofs.Time
import Verif.Props.Naive
import Verif.Props.Time
import Verif.Py.RoundedNumpy

/-!
# C137, C138: which exceptions a call can raise
-/

namespace Verif.Props

open Pysolar Pysolar.Numeric Pysolar.TzCheck Spec

/-- `Q` holds of the outcome of every call of a public function that carries the decorator
`@check_aware_dt('when')` and acts elementwise, with `when = w` and any values of the other arguments. -/
def Elementwise (B : Backend) (w : When B) (Q : ∀ β : Type, Py β → Prop) : Prop :=
  Q _ (Solartime.get_leap_seconds w) ∧ Q _ (Solartime.get_delta_t w) ∧
  Q _ (Solartime.get_julian_solar_day B w) ∧ Q _ (Solartime.get_julian_ephemeris_day B w) ∧
  Q _ (Util.mean_earth_sun_distance B w) ∧
  ∀ lat lon elev temp press TY AM TL : B.α,
    Q _ (Solar.get_topocentric_position B lat lon w elev) ∧
    Q _ (Solar.get_position B lat lon w elev temp press) ∧
    Q _ (Solar.get_altitude B lat lon w elev temp press) ∧
    Q _ (Solar.get_azimuth B lat lon w elev) ∧
    Q _ (Solar.get_altitude_fast B lat lon w) ∧
    Q _ (Solar.get_hour_angle B w lon) ∧
    Q _ (Solar.get_solar_time B lon w) ∧
    Q _ (Util.declination_degree B w TY) ∧
    Q _ (Util.solarelevation_function_clear B lat lon w temp press elev) ∧
    Q _ (Util.solarelevation_function_overcast B lat lon w elev temp press) ∧
    Q _ (Util.diffuse_underclear B lat lon w elev temp press TL) ∧
    Q _ (Util.diffuse_underovercast B lat lon w elev temp press TL) ∧
    Q _ (Util.direct_underclear B lat lon w TY AM TL elev temp press) ∧
    Q _ (Util.global_irradiance_clear B lat lon w TY AM TL elev temp press) ∧
    Q _ (Util.global_irradiance_overcast B lat lon w elev temp press)

/-- The other functions with the decorator: they need single numbers. -/
def Scalar (B : Backend) (w : When B) (Q : ∀ β : Type, Py β → Prop) : Prop :=
  ∀ lat lon SC ghi : B.α,
    Q _ (Util.get_sunrise_sunset_transit B lat lon w) ∧
    Q _ (Util.get_sunrise_sunset B lat lon w) ∧
    Q _ (Util.get_sunrise_time B lat lon w) ∧
    Q _ (Util.get_sunset_time B lat lon w) ∧
    Q _ (Util.get_transit_time B lat lon w) ∧
    Q _ (Util.extraterrestrial_irrad B lat lon w SC) ∧
    Q _ (Util.clear_index B ghi lat lon w)

/-- The functions that take `when` without a decorator of their own. -/
def Undecorated (B : Backend) (w : When B) (Q : ∀ β : Type, Py β → Prop) : Prop :=
  ∀ lat lon alt : B.α,
    Q _ (Solar.get_azimuth_fast B lat lon w) ∧ Q _ (Radiation.get_radiation_direct B w alt)

theorem elementwise_raises {P : PyErr → Prop} {B : Backend} (hB : Elem P B) {w : When B} (hw : At P w) :
    Elementwise B w (fun _ m => Raises P m) := by
  refine ⟨hw.get_leap_seconds, hw.get_delta_t, hB.get_julian_solar_day hw, hB.get_julian_ephemeris_day hw,
    hB.mean_earth_sun_distance hw, fun lat lon elev temp press TY AM TL => ?_⟩
  exact ⟨hB.get_topocentric_position _ _ hw _, hB.get_position _ _ hw _ _ _, hB.get_altitude _ _ hw _ _ _,
    hB.get_azimuth _ _ hw _, hB.get_altitude_fast _ _ hw, hB.get_hour_angle hw _, hB.get_solar_time _ hw,
    hB.declination_degree hw _, hB.solarelevation_function_clear _ _ hw _ _ _,
    hB.solarelevation_function_overcast _ _ hw _ _ _, hB.diffuse_underclear _ _ hw _ _ _ _,
    hB.diffuse_underovercast _ _ hw _ _ _ _, hB.direct_underclear _ _ hw _ _ _ _ _ _,
    hB.global_irradiance_clear _ _ hw _ _ _ _ _ _, hB.global_irradiance_overcast _ _ hw _ _ _⟩

theorem scalar_raises {P : PyErr → Prop} {B : Backend} (hB : Scal P B) (ho : P .overflow) {w : When B} (hw : At P w) :
    Scalar B w (fun _ m => Raises P m) := fun _ _ _ _ =>
  ⟨hB.get_sunrise_sunset_transit ho _ _ hw, hB.get_sunrise_sunset ho _ _ hw, hB.get_sunrise_time ho _ _ hw,
    hB.get_sunset_time ho _ _ hw, hB.get_transit_time ho _ _ hw, hB.extraterrestrial_irrad _ _ hw _,
    hB.clear_index _ _ _ hw⟩

theorem undecorated_raises {P : PyErr → Prop} {B : Backend} (hB : Elem P B) {w : When B} (hw : At P w) :
    Undecorated B w (fun _ m => Raises P m) := fun _ _ _ =>
  ⟨hB.get_azimuth_fast _ _ hw, hB.get_radiation_direct hw _⟩

/-- An aware datetime whose UTC time is in the years 1 to 9999 can be looked at without any exception. -/
theorem at_aware {P : PyErr → Prop} {B : Backend} {d : DateTime} {c : Civil} (h : UtcFields d c) :
    At P (.dt d : When B) := by
  have hu := utctimetuple_of_utcFields h
  have e : ∀ {β : Type} {m : Py β} {y : β}, m = .ok y → Raises P m := fun hm => hm ▸ Raises.ok _
  have ut : Raises P (utctimetuple (.dt d : When B)) := e hu
  have np : ∀ {b : Bool} {m m' : Py B.α}, Raises P m → Raises P m' → Raises P (if b then m else m') :=
    fun h1 h2 => Raises.ite h1 h2
  refine ⟨e (guard_denotes h.2), ut, e (timestamp_of_denotes h.2), ?_, ?_, ?_, Raises.ok _,
    e (get_leap_seconds_eq h), e (get_delta_t_eq h)⟩
  · exact np (Raises.ok _) (Raises.bind (Raises.bind ut fun _ => Raises.pure _) fun _ => Raises.pure _)
  · exact np (Raises.ok _) (Raises.bind (Raises.bind ut fun _ => Raises.pure _) fun _ => Raises.pure _)
  · exact np (Raises.ok _) (Raises.bind (Raises.bind ut fun _ => Raises.pure _) fun _ => Raises.pure _)

/-! ## C137: NoTimeZoneInfoError -/

/-- Any exception but `NoTimeZoneInfoError`. -/
def Other (e : PyErr) : Prop := ∀ n, e ≠ .noTimeZoneInfo n

/-- The argument is a datetime whose `tzinfo` is `None`. -/
def IsNaive {B : Backend} (w : When B) : Prop := ∃ d, w = .dt d ∧ d.tz = none

theorem guard_other {B : Backend} {w : When B} (h : ¬ IsNaive w) : Raises Other (TzCheck.guard w) := by
  cases w with
  | dt d =>
    have ht : d.tz.isNone = false := by
      cases hd : d.tz with
      | none => exact absurd ⟨d, rfl, hd⟩ h
      | some z => rfl
    have : TzCheck.guard (.dt d : When B) = .ok () := by simp [TzCheck.guard, checkValue, whenView, ht]
    rw [this]
    exact Raises.ok _
  | arr t => exact Raises.ok _
  | other => exact Raises.error fun n h => by cases h

theorem utctimetuple_other {B : Backend} (w : When B) : Raises Other (utctimetuple w) := by
  cases w with
  | dt d => exact civilChecked_raises (fun n h => by cases h) _
  | arr t => exact Raises.error fun n h => by cases h
  | other => exact Raises.error fun n h => by cases h

theorem timestamp_other {B : Backend} (w : When B) : Raises Other (Solartime.timestamp w) := by
  cases w with
  | dt d =>
    show Raises Other d.timestamp
    unfold DateTime.timestamp
    split
    · exact Raises.error fun n h => by cases h
    · exact Raises.ok _
  | arr t => exact Raises.error fun n h => by cases h
  | other => exact Raises.error fun n h => by cases h

theorem tm_other {B : Backend} (w : When B) :
    Raises Other (tm_yday B w) ∧ Raises Other (tm_hour B w) ∧ Raises Other (tm_min B w) := by
  have hu := utctimetuple_other w
  have hv : Raises Other (.error .valueError : Py B.α) := Raises.error fun n h => by cases h
  refine ⟨Raises.ite ?_ ?_, Raises.ite ?_ ?_, Raises.ite ?_ ?_⟩
  · cases w <;> first | exact Raises.ok _ | exact hv
  · exact Raises.bind (Raises.bind hu fun _ => Raises.pure _) fun _ => Raises.pure _
  · cases w <;> first | exact Raises.ok _ | exact hv
  · exact Raises.bind (Raises.bind hu fun _ => Raises.pure _) fun _ => Raises.pure _
  · cases w <;> first | exact Raises.ok _ | exact hv
  · exact Raises.bind (Raises.bind hu fun _ => Raises.pure _) fun _ => Raises.pure _

theorem at_other {B : Backend} {w : When B} (h : ¬ IsNaive w) : At Other w where
  guard := guard_other h
  utctimetuple := utctimetuple_other w
  timestamp := timestamp_other w
  tm_yday := (tm_other w).1
  tm_hour := (tm_other w).2.1
  tm_min := (tm_other w).2.2
  asDatetime := by
    cases w with
    | dt d => exact Raises.ok _
    | arr t => exact Raises.error fun n h => by cases h
    | other => exact Raises.error fun n h => by cases h
  get_leap_seconds := Raises.bind (Raises.bind (guard_other h) fun _ => Raises.bind (utctimetuple_other w) fun _ =>
    leapLoop_raises (fun n h => by cases h) _ _ _ _ _) fun _ => Raises.pure _
  get_delta_t := Raises.bind (guard_other h) fun _ => Raises.bind (utctimetuple_other w) fun _ =>
    deltaTLookup_raises (fun n h => by cases h) _ _ _ _ _

/-- The outcome is `NoTimeZoneInfoError`, naming the argument `when`, exactly if `w` is a datetime without `tzinfo`. -/
def TzExact {B : Backend} (w : When B) (β : Type) (m : Py β) : Prop :=
  ∀ n, m = .error (.noTimeZoneInfo n) ↔ n = "when" ∧ IsNaive w

theorem exact_of_error {B : Backend} {w : When B} {β : Type} {m : Py β} (h : IsNaive w) (hm : m = .error naiveError) :
    TzExact w β m := fun n => by
  rw [hm]
  constructor
  · intro he
    cases he
    exact ⟨rfl, h⟩
  · rintro ⟨rfl, _⟩
    rfl

theorem exact_of_other {B : Backend} {w : When B} {β : Type} {m : Py β} (h : ¬ IsNaive w) (hm : Raises Other m) :
    TzExact w β m := fun n => by
  constructor
  · intro he
    exact absurd rfl (hm _ he n)
  · rintro ⟨_, h'⟩
    exact absurd h' h

theorem Elementwise.mono {B : Backend} {w : When B} {Q Q' : ∀ β : Type, Py β → Prop} (h : Elementwise B w Q)
    (hQ : ∀ β m, Q β m → Q' β m) : Elementwise B w Q' := by
  obtain ⟨a1, a2, a3, a4, a5, a6⟩ := h
  refine ⟨hQ _ _ a1, hQ _ _ a2, hQ _ _ a3, hQ _ _ a4, hQ _ _ a5, fun lat lon elev temp press TY AM TL => ?_⟩
  obtain ⟨b1, b2, b3, b4, b5, b6, b7, b8, b9, b10, b11, b12, b13, b14, b15⟩ := a6 lat lon elev temp press TY AM TL
  exact ⟨hQ _ _ b1, hQ _ _ b2, hQ _ _ b3, hQ _ _ b4, hQ _ _ b5, hQ _ _ b6, hQ _ _ b7, hQ _ _ b8, hQ _ _ b9,
    hQ _ _ b10, hQ _ _ b11, hQ _ _ b12, hQ _ _ b13, hQ _ _ b14, hQ _ _ b15⟩

theorem Scalar.mono {B : Backend} {w : When B} {Q Q' : ∀ β : Type, Py β → Prop} (h : Scalar B w Q)
    (hQ : ∀ β m, Q β m → Q' β m) : Scalar B w Q' := fun lat lon SC ghi => by
  obtain ⟨b1, b2, b3, b4, b5, b6, b7⟩ := h lat lon SC ghi
  exact ⟨hQ _ _ b1, hQ _ _ b2, hQ _ _ b3, hQ _ _ b4, hQ _ _ b5, hQ _ _ b6, hQ _ _ b7⟩

/-- C137: for every argument `when` whatever (datetime, array, another object), in every arithmetic whose operations do not
themselves raise it, `NoTimeZoneInfoError` is the outcome exactly if `when` is a datetime without `tzinfo`. -/
theorem C137_exact (B : Backend) (hB : Scal Other B) (w : When B) :
    Elementwise B w (TzExact w) ∧ Scalar B w (TzExact w) := by
  by_cases h : IsNaive w
  · obtain ⟨d, rfl, hd⟩ := h
    have h : IsNaive (.dt d : When B) := ⟨d, rfl, hd⟩
    have hn : d.Naive := hd
    obtain ⟨-, s2, s3, s4, s5⟩ := C01_solartime B d hn
    constructor
    · refine ⟨exact_of_error h s2, exact_of_error h s3, exact_of_error h s4, exact_of_error h s5,
        exact_of_error h (C01_util B d hn 0 0 0 0 0 0 0 0 0 0).2.2.2.2.2.1, fun lat lon elev temp press TY AM TL => ?_⟩
      obtain ⟨b1, b2, b3, b4, b5, b6, b7⟩ := C01_solar B d hn lat lon elev temp press
      obtain ⟨-, -, -, -, -, -, -, c8, c9, c10, c11, c12, c13, c14, c15, -⟩ :=
        C01_util B d hn lat lon elev temp press TY AM TL 0 0
      exact ⟨exact_of_error h b1, exact_of_error h b2, exact_of_error h b3, exact_of_error h b4, exact_of_error h b5,
        exact_of_error h b6, exact_of_error h b7, exact_of_error h c8, exact_of_error h c9, exact_of_error h c10,
        exact_of_error h c11, exact_of_error h c12, exact_of_error h c13, exact_of_error h c14, exact_of_error h c15⟩
    · intro lat lon SC ghi
      obtain ⟨c1, c2, c3, c4, c5, -, c7, -, -, -, -, -, -, -, -, c16⟩ := C01_util B d hn lat lon 0 0 0 0 0 0 SC ghi
      exact ⟨exact_of_error h c1, exact_of_error h c2, exact_of_error h c3, exact_of_error h c4, exact_of_error h c5,
        exact_of_error h c7, exact_of_error h c16⟩
  · exact ⟨(elementwise_raises hB.toElem (at_other h)).mono fun _ _ => exact_of_other h,
      (scalar_raises hB (fun n h => by cases h) (at_other h)).mono fun _ _ => exact_of_other h⟩

/-- C137, the functions without a decorator: `get_azimuth_fast` raises `NoTimeZoneInfoError` for no other argument than a
datetime without `tzinfo`, and `get_radiation_direct` never does. -/
theorem C137_undecorated (B : Backend) (hB : Elem Other B) (w : When B) (lat lon alt : B.α) (n : String) :
    (Solar.get_azimuth_fast B lat lon w = .error (.noTimeZoneInfo n) → IsNaive w) ∧
    Radiation.get_radiation_direct B w alt ≠ .error (.noTimeZoneInfo n) := by
  constructor
  · intro he
    by_contra h
    exact hB.get_azimuth_fast lat lon (at_other h) _ he n rfl
  · intro he
    have h1 : Raises Other (Radiation.get_radiation_direct B w alt) := by
      have ht := (tm_other w).1
      unfold Radiation.get_radiation_direct
      refine Raises.bind ht fun _ => ?_
      raises
    exact h1 _ he n rfl

/-! ## C138: the exceptions of calls with an aware datetime -/

/-- The exceptions of Python's `math` functions and division. -/
def MathError (e : PyErr) : Prop := e = .valueError ∨ e = .zeroDivision ∨ e = .overflow

theorem elem_math (tp : ℝ) : Elem MathError (mathB tp) where
  div x y := by
    cases y <;> first | exact Raises.ok _ | exact Raises.ite (Raises.error (.inr (.inl rfl))) (Raises.ok _)
  sin x := by cases x <;> first | exact Raises.ok _ | exact Raises.error (.inl rfl)
  cos x := by cases x <;> first | exact Raises.ok _ | exact Raises.error (.inl rfl)
  tan x := by cases x <;> first | exact Raises.ok _ | exact Raises.error (.inl rfl)
  asin x := by cases x <;> first | exact Raises.ok _ | exact Raises.error (.inl rfl) | exact Raises.ite (Raises.ok _) (Raises.error (.inl rfl))
  acos x := by cases x <;> first | exact Raises.ok _ | exact Raises.error (.inl rfl) | exact Raises.ite (Raises.ok _) (Raises.error (.inl rfl))
  atan _ := Raises.ok _
  atan2 _ _ := Raises.ok _
  exp x := by cases x <;> first | exact Raises.ok _ | exact Raises.ite (Raises.error (.inr (.inr rfl))) (Raises.ok _)

theorem elem_rnd (F : F64) : Elem MathError (rndB F) where
  div x y := by
    cases y <;> first | exact Raises.ok _ | exact Raises.ite (Raises.error (.inr (.inl rfl))) (Raises.ok _)
  sin x := by cases x <;> first | exact Raises.ok _ | exact Raises.error (.inl rfl)
  cos x := by cases x <;> first | exact Raises.ok _ | exact Raises.error (.inl rfl)
  tan x := by cases x <;> first | exact Raises.ok _ | exact Raises.error (.inl rfl)
  asin x := by cases x <;> first | exact Raises.ok _ | exact Raises.error (.inl rfl) | exact Raises.ite (Raises.ok _) (Raises.error (.inl rfl))
  acos x := by cases x <;> first | exact Raises.ok _ | exact Raises.error (.inl rfl) | exact Raises.ite (Raises.ok _) (Raises.error (.inl rfl))
  atan x := by cases x <;> exact Raises.ok _
  atan2 y x := by cases y <;> cases x <;> exact Raises.ok _
  exp x := by cases x <;> first | exact Raises.ok _ | exact Raises.ite (Raises.error (.inr (.inr rfl))) (Raises.ok _)

theorem elem_np (tp : ℝ) : Elem (fun _ => False) (npB tp) where
  div x y := by cases y <;> first | exact Raises.ok _ | exact Raises.ite (Raises.ok _) (Raises.ok _)
  sin x := by cases x <;> exact Raises.ok _
  cos x := by cases x <;> exact Raises.ok _
  tan x := by cases x <;> exact Raises.ok _
  asin x := by cases x <;> first | exact Raises.ok _ | exact Raises.ite (Raises.ok _) (Raises.ok _)
  acos x := by cases x <;> first | exact Raises.ok _ | exact Raises.ite (Raises.ok _) (Raises.ok _)
  atan _ := Raises.ok _
  atan2 _ _ := Raises.ok _
  exp x := by cases x <;> first | exact Raises.ok _ | exact Raises.ite (Raises.ok _) (Raises.ok _)

theorem elem_npr (F : F64) : Elem (fun _ => False) (nprB F) where
  div x y := by cases y <;> first | exact Raises.ok _ | exact Raises.ite (Raises.ok _) (Raises.ok _)
  sin x := by cases x <;> exact Raises.ok _
  cos x := by cases x <;> exact Raises.ok _
  tan x := by cases x <;> exact Raises.ok _
  asin x := by cases x <;> first | exact Raises.ok _ | exact Raises.ite (Raises.ok _) (Raises.ok _)
  acos x := by cases x <;> first | exact Raises.ok _ | exact Raises.ite (Raises.ok _) (Raises.ok _)
  atan x := by cases x <;> exact Raises.ok _
  atan2 y x := by cases y <;> cases x <;> exact Raises.ok _
  exp x := by cases x <;> first | exact Raises.ok _ | exact Raises.ite (Raises.ok _) (Raises.ok _)

theorem seqV_raises {P : PyErr → Prop} {ι α : Type} {f : ι → Py α} (h : ∀ i, Raises P (f i)) : Raises P (seqV f) := by
  unfold seqV
  split_ifs with hf
  · exact Raises.ok _
  · have hi := (not_forall.mp hf).choose_spec
    have hr := h (not_forall.mp hf).choose
    generalize f (not_forall.mp hf).choose = m at hi hr
    cases m with
    | error e => exact Raises.error (hr e rfl)
    | ok y => exact absurd ⟨y, rfl⟩ hi

theorem tdHoursV_raises (x : V) : Raises MathError (tdHoursV x) := by
  cases x <;> first
    | exact Raises.ite (Raises.ok _) (Raises.error (.inr (.inr rfl)))
    | exact Raises.error (.inr (.inr rfl))
    | exact Raises.error (.inl rfl)

theorem tdHoursF_raises (F : F64) (x : V) : Raises MathError (tdHoursF F x) := by
  cases x <;> first
    | exact Raises.ite (Raises.ok _) (Raises.error (.inr (.inr rfl)))
    | exact Raises.error (.inr (.inr rfl))
    | exact Raises.error (.inl rfl)

theorem _root_.Verif.Elem.mono {P P' : PyErr → Prop} {B : Backend} (h : Elem P B) (hP : ∀ e, P e → P' e) : Elem P' B where
  div x y e he := hP e (h.div x y e he)
  sin x e he := hP e (h.sin x e he)
  cos x e he := hP e (h.cos x e he)
  tan x e he := hP e (h.tan x e he)
  asin x e he := hP e (h.asin x e he)
  acos x e he := hP e (h.acos x e he)
  atan x e he := hP e (h.atan x e he)
  atan2 x y e he := hP e (h.atan2 x y e he)
  exp x e he := hP e (h.exp x e he)

theorem scal_math (tp : ℝ) : Scal MathError (mathB tp) where
  toElem := elem_math tp
  truth _ := Raises.ok _
  tdHours := tdHoursV_raises

theorem scal_rnd (F : F64) : Scal MathError (rndB F) where
  toElem := elem_rnd F
  truth _ := Raises.ok _
  tdHours := tdHoursF_raises F

theorem scal_np (tp : ℝ) : Scal MathError (npB tp) where
  toElem := (elem_np tp).mono fun _ h => h.elim
  truth _ := Raises.ok _
  tdHours := tdHoursV_raises

theorem scal_npr (F : F64) : Scal MathError (nprB F) where
  toElem := (elem_npr F).mono fun _ h => h.elim
  truth _ := Raises.ok _
  tdHours := tdHoursF_raises F

/-- Arrays: the exceptions of their entries. -/
theorem elem_vec {P : PyErr → Prop} {B : Backend} (hB : Elem P B) (ι : Type) : Elem P (vecB B ι) where
  div _ _ := seqV_raises fun _ => hB.div _ _
  sin _ := seqV_raises fun _ => hB.sin _
  cos _ := seqV_raises fun _ => hB.cos _
  tan _ := seqV_raises fun _ => hB.tan _
  asin _ := seqV_raises fun _ => hB.asin _
  acos _ := seqV_raises fun _ => hB.acos _
  atan _ := seqV_raises fun _ => hB.atan _
  atan2 _ _ := seqV_raises fun _ => hB.atan2 _ _
  exp _ := seqV_raises fun _ => hB.exp _

theorem scal_vec {P : PyErr → Prop} {B : Backend} (hB : Scal P B) (hv : P .valueError) (ht : P .typeError) (ι : Type) :
    Scal P (vecB B ι) where
  toElem := elem_vec hB.toElem ι
  truth c := by
    unfold vecB
    dsimp only
    split_ifs
    · exact hB.truth _
    · exact Raises.error hv
  tdHours _ := Raises.error ht

theorem _root_.Verif.Scal.mono {P P' : PyErr → Prop} {B : Backend} (h : Scal P B) (hP : ∀ e, P e → P' e) : Scal P' B where
  toElem := h.toElem.mono hP
  truth c e he := hP e (h.truth c e he)
  tdHours x e he := hP e (h.tdHours x e he)

theorem other_of_math {e : PyErr} (h : MathError e) : Other e := by
  rintro n rfl
  rcases h with h | h | h <;> cases h

theorem Undecorated.mono {B : Backend} {w : When B} {Q Q' : ∀ β : Type, Py β → Prop} (h : Undecorated B w Q)
    (hQ : ∀ β m, Q β m → Q' β m) : Undecorated B w Q' := fun lat lon alt =>
  ⟨hQ _ _ (h lat lon alt).1, hQ _ _ (h lat lon alt).2⟩

/-- The call returns a value. -/
def HasValue (β : Type) (m : Py β) : Prop := ∃ y, m = .ok y

theorem hasValue_of_raises {β : Type} {m : Py β} (h : Raises (fun _ => False) m) : HasValue β m := by
  cases m with
  | ok y => exact ⟨y, rfl⟩
  | error e => exact (h e rfl).elim

/-- C138, general form: with an aware datetime (of the years 1 to 9999 in UTC) every exception comes from an operation of
the arithmetic, whatever the numbers passed. -/
theorem C138_sources (B : Backend) (P : PyErr → Prop) (hB : Elem P B) {d : DateTime} {c : Civil} (h : UtcFields d c) :
    Elementwise B (.dt d) (fun _ m => Raises P m) ∧ Undecorated B (.dt d) (fun _ m => Raises P m) :=
  ⟨elementwise_raises hB (at_aware h), undecorated_raises hB (at_aware h)⟩

/-- C138, Python's `math`: only `ValueError`, `ZeroDivisionError` and `OverflowError`, whatever the numbers passed,
infinities and NaN included; exact arithmetic and double precision. -/
theorem C138_math (tp : ℝ) (F : F64) {d : DateTime} {c : Civil} (h : UtcFields d c) :
    (Elementwise (mathB tp) (.dt d) (fun _ m => Raises MathError m) ∧
      Undecorated (mathB tp) (.dt d) (fun _ m => Raises MathError m)) ∧
    (Elementwise (rndB F) (.dt d) (fun _ m => Raises MathError m) ∧
      Undecorated (rndB F) (.dt d) (fun _ m => Raises MathError m)) :=
  ⟨C138_sources _ _ (elem_math tp) h, C138_sources _ _ (elem_rnd F) h⟩

/-- C138, the functions that need single numbers (sunrise, sunset, transit, extraterrestrial irradiance, clear index):
only `ValueError`, `ZeroDivisionError` and `OverflowError`, with `math` and with numpy, in exact arithmetic and in double
precision. -/
theorem C138_scalar (tp : ℝ) (F : F64) {d : DateTime} {c : Civil} (h : UtcFields d c) :
    Scalar (mathB tp) (.dt d) (fun _ m => Raises MathError m) ∧ Scalar (rndB F) (.dt d) (fun _ m => Raises MathError m) ∧
    Scalar (npB tp) (.dt d) (fun _ m => Raises MathError m) ∧ Scalar (nprB F) (.dt d) (fun _ m => Raises MathError m) :=
  ⟨scalar_raises (scal_math tp) (.inr (.inr rfl)) (at_aware h), scalar_raises (scal_rnd F) (.inr (.inr rfl)) (at_aware h),
    scalar_raises (scal_np tp) (.inr (.inr rfl)) (at_aware h), scalar_raises (scal_npr F) (.inr (.inr rfl)) (at_aware h)⟩

/-- C138, numpy: every call returns, whatever the numbers or arrays passed, infinities and NaN included; exact arithmetic and
double precision, single numbers and arrays of every shape. -/
theorem C138_numpy (tp : ℝ) (F : F64) (ι : Type) {d : DateTime} {c : Civil} (h : UtcFields d c) :
    (Elementwise (npB tp) (.dt d) HasValue ∧ Undecorated (npB tp) (.dt d) HasValue) ∧
    (Elementwise (nprB F) (.dt d) HasValue ∧ Undecorated (nprB F) (.dt d) HasValue) ∧
    (Elementwise (vecB (npB tp) ι) (.dt d) HasValue ∧ Undecorated (vecB (npB tp) ι) (.dt d) HasValue) ∧
    (Elementwise (arrF F ι) (.dt d) HasValue ∧ Undecorated (arrF F ι) (.dt d) HasValue) := by
  have key : ∀ B : Backend, Elem (fun _ => False) B →
      Elementwise B (.dt d) HasValue ∧ Undecorated B (.dt d) HasValue := fun B hB =>
    ⟨(C138_sources B _ hB h).1.mono fun _ _ => hasValue_of_raises, (C138_sources B _ hB h).2.mono fun _ _ => hasValue_of_raises⟩
  exact ⟨key _ (elem_np tp), key _ (elem_npr F), key _ (elem_vec (elem_np tp) ι), key _ (elem_vec (elem_npr F) ι)⟩

/-- C137 holds in particular for `math`, for numpy and for arrays, in exact arithmetic and in double precision. -/
theorem C137_backends (tp : ℝ) (F : F64) (ι : Type) :
    Scal Other (mathB tp) ∧ Scal Other (rndB F) ∧ Scal Other (npB tp) ∧ Scal Other (nprB F) ∧
    Scal Other (vecB (npB tp) ι) ∧ Scal Other (arrF F ι) := by
  have h := fun (B : Backend) (hB : Scal MathError B) => hB.mono fun _ he => other_of_math he
  have a := fun (B : Backend) (hB : Scal Other B) =>
    scal_vec hB (fun n he => by cases he) (fun n he => by cases he) ι
  exact ⟨h _ (scal_math tp), h _ (scal_rnd F), h _ (scal_np tp), h _ (scal_npr F), a _ (h _ (scal_np tp)),
    a _ (h _ (scal_npr F))⟩

/-! Non-vacuity: an aware datetime; an exception; a naive datetime, an array and another object. -/
example : UtcFields (utcDT dt2026) dt2026 := utcDT_fields (civil_valid_of_check (by decide))
example (tp : ℝ) : Util.declination_degree (mathB tp) (.dt (utcDT dt2026)) (.fin 0) = .error .zeroDivision := by
  have h : UtcFields (utcDT dt2026) dt2026 := utcDT_fields (civil_valid_of_check (by decide))
  unfold Util.declination_degree
  rw [guard_denotes h.2]
  show (mathB tp).div _ (.fin 0) >>= _ = _
  rw [show (mathB tp).div (2 * (mathB tp).pi) (.fin 0) = .error .zeroDivision from if_pos rfl]
  rfl
example (tp : ℝ) : IsNaive (.dt ⟨⟨2007, 2, 18, 15, 13, 1, 130320⟩, false, none⟩ : When (mathB tp)) := ⟨_, rfl, rfl⟩
example (tp : ℝ) : ¬ IsNaive (.arr (0 : ℤ) : When (npB tp)) := by rintro ⟨d, h, _⟩; cases h
example (tp : ℝ) : ¬ IsNaive (.other : When (npB tp)) := by rintro ⟨d, h, _⟩; cases h

end Verif.Props
