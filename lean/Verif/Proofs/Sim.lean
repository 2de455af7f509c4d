import Verif.Model.Solar
import Verif.Model.Radiation
import Verif.Model.Elevation
import Verif.Model.Util
import Verif.Model.Simulate
import Verif.Model.Rest

/-!
# Simulations between numeric backends

A simulation relates the values of two backends so that every primitive operation preserves the relation.
Then every model function preserves it: the lemmas below, one for each function. In a strict simulation the
second backend also raises whenever the first does, with the same exception.
-/

namespace Verif

open Pysolar Pysolar.TzCheck Pysolar.Numeric Pysolar.Solartime Pysolar.Constants

/-- Related outcomes: a value is matched by a related value, and (if `s`) an exception by the same one. -/
def RelM (s : Prop) {β β' : Type} (R : β → β' → Prop) : Py β → Py β' → Prop
  | .ok y, .ok y' => R y y'
  | .ok _, .error _ => False
  | .error e, m' => s → m' = .error e

namespace RelM

variable {s : Prop} {β β' γ γ' : Type} {R : β → β' → Prop} {Q : γ → γ' → Prop}

theorem ok {y : β} {y' : β'} (h : R y y') : RelM s R (.ok y) (.ok y') := h

theorem pure {y : β} {y' : β'} (h : R y y') : RelM s R (Pure.pure y) (Pure.pure y') := h

theorem error (e : PyErr) : RelM s R (.error e) (.error e) := fun _ => rfl

theorem bind {m : Py β} {m' : Py β'} {f : β → Py γ} {f' : β' → Py γ'} (h : RelM s R m m')
    (hf : ∀ y y', R y y' → RelM s Q (f y) (f' y')) : RelM s Q (m >>= f) (m' >>= f') := by
  cases m with
  | error e => intro hs; rw [h hs]; rfl
  | ok y =>
    cases m' with
    | error e => exact h.elim
    | ok y' => exact hf y y' h

theorem refl {m : Py β} : RelM s Eq m m := by
  cases m with
  | error e => exact fun _ => rfl
  | ok y => rfl

theorem of_ok {m : Py β} {m' : Py β'} (h : RelM s R m m') {y : β} (hm : m = .ok y) :
    ∃ y', m' = .ok y' ∧ R y y' := by
  subst hm
  cases m' with
  | error e => exact h.elim
  | ok y' => exact ⟨y', rfl, h⟩

theorem mono {R' : β → β' → Prop} {m : Py β} {m' : Py β'} (h : RelM s R m m') (hR : ∀ y y', R y y' → R' y y') :
    RelM s R' m m' := by
  cases m with
  | error e => exact h
  | ok y =>
    cases m' with
    | error e => exact h.elim
    | ok y' => exact hR _ _ h

theorem pyIndex {xs : List β} {ys : List β'} (h : List.Forall₂ R xs ys) (i : ℕ) :
    RelM s R (Verif.pyIndex xs i) (Verif.pyIndex ys i) := by
  induction h generalizing i with
  | nil => exact RelM.error _
  | cons hx _ ih =>
    cases i with
    | zero => exact hx
    | succ i => exact ih i

theorem pyIndexInt {xs : List β} {ys : List β'} (h : List.Forall₂ R xs ys) (i : ℤ) :
    RelM s R (Verif.pyIndexInt xs i) (Verif.pyIndexInt ys i) := by
  have hl : xs.length = ys.length := by
    induction h with
    | nil => rfl
    | cons _ _ ih => rw [List.length_cons, List.length_cons, ih]
  unfold Verif.pyIndexInt
  rw [hl]
  split_ifs
  · exact RelM.pyIndex h _
  · exact RelM.pyIndex h _
  · exact RelM.error _

end RelM

/-- A simulation of the operations that act elementwise. -/
structure Sim (B B' : Backend) where
  strict : Prop
  r : B.α → B'.α → Prop
  rC : B.C → B'.C → Prop
  rW : When B → When B' → Prop
  lit : ∀ q, r (B.lit q) (B'.lit q)
  pi : r B.pi B'.pi
  e : r B.e B'.e
  inf : r B.inf B'.inf
  add : ∀ {x x' y y'}, r x x' → r y y' → r (x + y) (x' + y')
  sub : ∀ {x x' y y'}, r x x' → r y y' → r (x - y) (x' - y')
  mul : ∀ {x x' y y'}, r x x' → r y y' → r (x * y) (x' * y')
  neg : ∀ {x x'}, r x x' → r (-x) (-x')
  divq : ∀ {x x'} (q : ℚ), r x x' → r (B.divq x q) (B'.divq x' q)
  modq : ∀ {x x'} (q : ℚ), r x x' → r (B.modq x q) (B'.modq x' q)
  powN : ∀ {x x'} (n : ℕ), r x x' → r (x ^ n) (x' ^ n)
  div : ∀ {x x' y y'}, r x x' → r y y' → RelM strict r (B.div x y) (B'.div x' y')
  sin : ∀ {x x'}, r x x' → RelM strict r (B.sin x) (B'.sin x')
  cos : ∀ {x x'}, r x x' → RelM strict r (B.cos x) (B'.cos x')
  tan : ∀ {x x'}, r x x' → RelM strict r (B.tan x) (B'.tan x')
  asin : ∀ {x x'}, r x x' → RelM strict r (B.asin x) (B'.asin x')
  acos : ∀ {x x'}, r x x' → RelM strict r (B.acos x) (B'.acos x')
  atan : ∀ {x x'}, r x x' → RelM strict r (B.atan x) (B'.atan x')
  atan2 : ∀ {x x' y y'}, r x x' → r y y' → RelM strict r (B.atan2 x y) (B'.atan2 x' y')
  exp : ∀ {x x'}, r x x' → RelM strict r (B.exp x) (B'.exp x')
  radians : ∀ {x x'}, r x x' → r (B.radians x) (B'.radians x')
  degrees : ∀ {x x'}, r x x' → r (B.degrees x) (B'.degrees x')
  lt : ∀ {x x' y y'}, r x x' → r y y' → rC (B.lt x y) (B'.lt x' y')
  le : ∀ {x x' y y'}, r x x' → r y y' → rC (B.le x y) (B'.le x' y')
  where_ : ∀ {c c' x x' y y'}, rC c c' → r x x' → r y y' → r (B.where_ c x y) (B'.where_ c' x' y')
  ofC : ∀ {c c'}, rC c c' → r (B.ofC c) (B'.ofC c')
  /-- where `1 / x` raises `ZeroDivisionError` in the first backend, it is `inf` or raises the same in the second -/
  recip_zero : ∀ {x x'}, r x x' → B.div 1 x = .error .zeroDivision →
    B'.div 1 x' = .error .zeroDivision ∨ ∃ y', B'.div 1 x' = .ok y' ∧ r B.inf y'
  sin_zero : ∀ x, B.sin x ≠ .error .zeroDivision
  guard : ∀ {w w'}, rW w w' → RelM strict (fun _ _ => True) (guard w) (guard w')
  utctimetuple : ∀ {w w'}, rW w w' → RelM strict Eq (utctimetuple w) (utctimetuple w')
  timestamp : ∀ {w w'}, rW w w' → RelM strict Eq (timestamp w) (timestamp w')
  tm_yday : ∀ {w w'}, rW w w' → RelM strict r (tm_yday B w) (tm_yday B' w')
  tm_hour : ∀ {w w'}, rW w w' → RelM strict r (tm_hour B w) (tm_hour B' w')
  tm_min : ∀ {w w'}, rW w w' → RelM strict r (tm_min B w) (tm_min B' w')

/-- A simulation that also preserves the operations that need a single value. -/
structure ScalarSim (B B' : Backend) extends Sim B B' where
  rpow : ∀ {x x' y y'}, r x x' → r y y' → RelM strict r (B.rpow x y) (B'.rpow x' y')
  truth : ∀ {c c'}, rC c c' → RelM strict Eq (B.truth c) (B'.truth c')
  tdHours : ∀ {x x'}, r x x' → RelM strict Eq (B.tdHours x) (B'.tdHours x')
  round : ∀ {x x'}, r x x' → RelM strict Eq (B.round x) (B'.round x')
  asDatetime : ∀ {w w'}, rW w w' → RelM strict Eq (Util.asDatetime w) (Util.asDatetime w')
  rW_dt : ∀ d, rW (.dt d) (.dt d)

namespace Sim

variable {B B' : Backend} (S : Sim B B')

theorem ofNat (n : ℕ) : S.r (OfNat.ofNat n) (OfNat.ofNat n) := S.lit _

theorem ofSci (m : ℕ) (s : Bool) (e : ℕ) : S.r (OfScientific.ofScientific m s e) (OfScientific.ofScientific m s e) :=
  S.lit _

/-- Related pairs. -/
def rP (p : B.α × B.α) (p' : B'.α × B'.α) : Prop := S.r p.1 p'.1 ∧ S.r p.2 p'.2

/-- Related nutations. -/
def rN (p : Solar.Nutation B) (p' : Solar.Nutation B') : Prop := S.r p.longitude p'.longitude ∧ S.r p.obliquity p'.obliquity

end Sim

open Lean Elab Tactic Meta in
/-- One step of a proof that a model expression preserves a simulation: a hypothesis, or the lemma for its outermost
operation (found by its name in the namespaces `RelM`, `Sim` and `ScalarSim`). -/
elab "sim_step" : tactic => withMainContext do
  let t := (← instantiateMVars (← (← getMainGoal).getType)).consumeMData
  let args := t.getAppArgs
  let some pos := (match t.getAppFn.constName? with
    | some ``Sim.r => some 3
    | some ``Sim.rC => some 3
    | some ``RelM => some 5
    | _ => none) | throwError "not a simulation goal"
  let some op := args[pos]? | throwError "not a simulation goal"
  let op := op.consumeMData
  if op.isLet || op.getAppFn.isLambda then
    evalTactic (← `(tactic| dsimp only))
  else if op.getAppFn.isFVar then
    evalTactic (← `(tactic| with_reducible assumption))
  else
    let some n := op.getAppFn.constName? | throwError "no constant"
    let base : Name := match n with
      | ``HAdd.hAdd => `add
      | ``HSub.hSub => `sub
      | ``HMul.hMul => `mul
      | ``HPow.hPow => `powN
      | ``Neg.neg => `neg
      | ``OfScientific.ofScientific => `ofSci
      | ``Bind.bind => `bind
      | ``Pure.pure => `pure
      | _ => .mkSimple n.getString!
    for ns in [`Verif.RelM, `Verif.Sim, `Verif.ScalarSim] do
      if (← getEnv).contains (ns ++ base) then
        try
          let id := mkCIdent (ns ++ base)
          evalTactic (← `(tactic| with_reducible apply $id))
          return
        catch _ => pure ()
    throwError "no lemma"

/-- All the steps. -/
macro "sim" : tactic =>
  `(tactic| repeat' first | sim_step | with_reducible assumption | (intro _ _ h; subst h) | intro _ _ _)

namespace Sim

variable {B B' : Backend} (S : Sim B B')

/-! ## solartime.py -/

theorem get_leap_seconds {w w'} (h : S.rW w w') :
    RelM S.strict Eq (Solartime.get_leap_seconds w) (Solartime.get_leap_seconds w') := by
  unfold Solartime.get_leap_seconds Solartime.get_leap_seconds_warn
  refine RelM.bind (R := Eq) ?_ ?_
  · sim
    exact RelM.refl
  · rintro y _ rfl
    exact RelM.refl

theorem get_delta_t {w w'} (h : S.rW w w') :
    RelM S.strict Eq (Solartime.get_delta_t w) (Solartime.get_delta_t w') := by
  unfold Solartime.get_delta_t
  sim
  exact RelM.refl

theorem get_julian_solar_day {w w'} (hw : S.rW w w') :
    RelM S.strict S.r (Solartime.get_julian_solar_day B w) (Solartime.get_julian_solar_day B' w') := by
  unfold Solartime.get_julian_solar_day
  sim

theorem get_julian_ephemeris_day {w w'} (hw : S.rW w w') :
    RelM S.strict S.r (Solartime.get_julian_ephemeris_day B w) (Solartime.get_julian_ephemeris_day B' w') := by
  unfold Solartime.get_julian_ephemeris_day
  sim

theorem get_julian_century {x x'} (hx : S.r x x') :
    S.r (Solartime.get_julian_century B x) (Solartime.get_julian_century B' x') := by
  unfold Solartime.get_julian_century
  sim

theorem get_julian_ephemeris_century {x x'} (hx : S.r x x') :
    S.r (Solartime.get_julian_ephemeris_century B x) (Solartime.get_julian_ephemeris_century B' x') := by
  unfold Solartime.get_julian_ephemeris_century
  sim

theorem get_julian_ephemeris_millennium {x x'} (hx : S.r x x') :
    S.r (Solartime.get_julian_ephemeris_millennium B x) (Solartime.get_julian_ephemeris_millennium B' x') := by
  unfold Solartime.get_julian_ephemeris_millennium
  sim

/-! ## solar.py -/

theorem equation_of_time {x x'} (hx : S.r x x') :
    RelM S.strict S.r (Solar.equation_of_time B x) (Solar.equation_of_time B' x') := by
  unfold Solar.equation_of_time
  sim

theorem get_aberration_correction {x x'} (hx : S.r x x') :
    RelM S.strict S.r (Solar.get_aberration_correction B x) (Solar.get_aberration_correction B' x') := by
  unfold Solar.get_aberration_correction
  sim

theorem coeffLine {x x'} (hx : S.r x x') (line : List (ℚ × ℚ × ℚ)) : ∀ {c c'}, S.r c c' →
    RelM S.strict S.r (Solar.coeffLine B x c line) (Solar.coeffLine B' x' c' line) := by
  induction line with
  | nil => intro c c' hc; exact hc
  | cons l line ih =>
    intro c c' hc
    unfold Solar.coeffLine
    refine RelM.bind (R := S.r) (by sim) fun y y' hy => ih (by sim)

theorem coeffLoop {x x'} (hx : S.r x x') (rows : List (List (ℚ × ℚ × ℚ))) : ∀ {c c' p p'}, S.r c c' → S.r p p' →
    RelM S.strict S.r (Solar.coeffLoop B x c p rows) (Solar.coeffLoop B' x' c' p' rows) := by
  induction rows with
  | nil => intro c c' p p' hc hp; exact hc
  | cons l line ih =>
    intro c c' p p' hc hp
    unfold Solar.coeffLoop
    refine RelM.bind (S.coeffLine hx l (by sim)) fun y y' hy => ih (by sim) (by sim)

theorem get_coeff {x x'} (hx : S.r x x') (rows : List (List (ℚ × ℚ × ℚ))) :
    RelM S.strict S.r (Solar.get_coeff B x rows) (Solar.get_coeff B' x' rows) :=
  S.coeffLoop hx rows (by sim) (by sim)

theorem get_declination {x x'} (hx : S.r x x') :
    RelM S.strict S.r (Solar.get_declination B x) (Solar.get_declination B' x') := by
  unfold Solar.get_declination
  sim

theorem get_equatorial_horizontal_parallax {x x'} (hx : S.r x x') :
    RelM S.strict S.r (Solar.get_equatorial_horizontal_parallax B x) (Solar.get_equatorial_horizontal_parallax B' x') := by
  unfold Solar.get_equatorial_horizontal_parallax
  sim

theorem get_flattened_latitude {x x'} (hx : S.r x x') :
    RelM S.strict S.r (Solar.get_flattened_latitude B x) (Solar.get_flattened_latitude B' x') := by
  unfold Solar.get_flattened_latitude
  sim

theorem get_heliocentric_latitude {x x'} (hx : S.r x x') :
    RelM S.strict S.r (Solar.get_heliocentric_latitude B x) (Solar.get_heliocentric_latitude B' x') := by
  unfold Solar.get_heliocentric_latitude
  sim

theorem get_heliocentric_longitude {x x'} (hx : S.r x x') :
    RelM S.strict S.r (Solar.get_heliocentric_longitude B x) (Solar.get_heliocentric_longitude B' x') := by
  unfold Solar.get_heliocentric_longitude
  sim

theorem get_geocentric_latitude {x x'} (hx : S.r x x') :
    RelM S.strict S.r (Solar.get_geocentric_latitude B x) (Solar.get_geocentric_latitude B' x') := by
  unfold Solar.get_geocentric_latitude
  sim

theorem get_geocentric_longitude {x x'} (hx : S.r x x') :
    RelM S.strict S.r (Solar.get_geocentric_longitude B x) (Solar.get_geocentric_longitude B' x') := by
  unfold Solar.get_geocentric_longitude
  sim

theorem get_geocentric_sun_declination {x x'} (hx : S.r x x') {y y'} (hy : S.r y y') {z z'} (hz : S.r z z') :
    RelM S.strict S.r (Solar.get_geocentric_sun_declination B x y z) (Solar.get_geocentric_sun_declination B' x' y' z') := by
  unfold Solar.get_geocentric_sun_declination
  sim

theorem get_geocentric_sun_right_ascension {x x'} (hx : S.r x x') {y y'} (hy : S.r y y') {z z'} (hz : S.r z z') :
    RelM S.strict S.r (Solar.get_geocentric_sun_right_ascension B x y z) (Solar.get_geocentric_sun_right_ascension B' x' y' z') := by
  unfold Solar.get_geocentric_sun_right_ascension
  sim

theorem get_local_hour_angle {x x'} (hx : S.r x x') {y y'} (hy : S.r y y') {z z'} (hz : S.r z z') :
    S.r (Solar.get_local_hour_angle B x y z) (Solar.get_local_hour_angle B' x' y' z') := by
  unfold Solar.get_local_hour_angle
  sim

theorem get_mean_sidereal_time {x x'} (hx : S.r x x') :
    S.r (Solar.get_mean_sidereal_time B x) (Solar.get_mean_sidereal_time B' x') := by
  unfold Solar.get_mean_sidereal_time
  sim

theorem sigmaxyLoop {xs xs'} (hx : List.Forall₂ S.r xs xs') (yi : List ℚ) (js : List ℕ) : ∀ {c c'}, S.r c c' →
    RelM S.strict S.r (Solar.sigmaxyLoop B xs yi c js) (Solar.sigmaxyLoop B' xs' yi c' js) := by
  induction js with
  | nil => intro c c' hc; exact hc
  | cons j js ih =>
    intro c c' hc
    unfold Solar.sigmaxyLoop
    refine RelM.bind (RelM.pyIndex hx j) fun y y' hy => RelM.bind RelM.refl ?_
    rintro q _ rfl
    exact ih (by sim)

theorem nutationLoop {x x'} (hx : S.r x x') (abcd : List (ℚ × ℚ × ℚ × ℚ)) {xs xs'} (hxs : List.Forall₂ S.r xs xs')
    (y : List (List ℚ)) (is : List ℕ) :
    RelM S.strict (fun p p' => List.Forall₂ S.r p.1 p'.1 ∧ List.Forall₂ S.r p.2 p'.2)
      (Solar.nutationLoop B x abcd xs y is) (Solar.nutationLoop B' x' abcd xs' y is) := by
  have hl : xs.length = xs'.length := by
    clear hx
    induction hxs with
    | nil => rfl
    | cons _ _ ih => rw [List.length_cons, List.length_cons, ih]
  induction is with
  | nil => exact ⟨List.Forall₂.nil, List.Forall₂.nil⟩
  | cons i is ih =>
    unfold Solar.nutationLoop
    refine RelM.bind RelM.refl ?_
    rintro yi _ rfl
    rw [hl]
    refine RelM.bind (S.sigmaxyLoop hxs yi _ (by sim)) fun s s' hs => ?_
    refine RelM.bind RelM.refl ?_
    rintro q _ rfl
    refine RelM.bind (R := S.r) (by sim) fun a a' ha => ?_
    refine RelM.bind (R := S.r) (by sim) fun b b' hb => ?_
    refine RelM.bind ih fun p p' hp => ?_
    exact RelM.pure ⟨List.Forall₂.cons (by sim) hp.1, List.Forall₂.cons (by sim) hp.2⟩

theorem pySum_from {xs xs'} (hxs : List.Forall₂ S.r xs xs') : ∀ {c c'}, S.r c c' →
    S.r (xs.foldl (fun s x => s + x) c) (xs'.foldl (fun s x => s + x) c') := by
  induction hxs with
  | nil => intro c c' hc; exact hc
  | cons h _ ih => intro c c' hc; exact ih (S.add hc h)

theorem pySum {xs xs'} (hxs : List.Forall₂ S.r xs xs') : S.r (Solar.pySum B xs) (Solar.pySum B' xs') :=
  S.pySum_from hxs (by sim)

theorem polynomials (rows : List (String × (ℚ × ℚ × ℚ × ℚ))) (k : String) :
    RelM S.strict (fun f f' => ∀ x x', S.r x x' → S.r (f x) (f' x'))
      (pyLookup (rows.map fun (name, (a, b, c, d)) => (name, aberrationPoly B a b c d)) k)
      (pyLookup (rows.map fun (name, (a, b, c, d)) => (name, aberrationPoly B' a b c d)) k) := by
  induction rows with
  | nil => exact RelM.error _
  | cons row rows ih =>
    obtain ⟨name, a, b, c, d⟩ := row
    simp only [List.map_cons, pyLookup, List.lookup_cons] at ih ⊢
    by_cases hk : (k == name) = true
    · simp only [hk]
      intro x x' hx
      unfold aberrationPoly
      sim
    · simp only [Bool.not_eq_true] at hk
      simp only [hk]
      exact ih

theorem nutationX {x x'} (hx : S.r x x') (ks : List String) :
    RelM S.strict (List.Forall₂ S.r)
      (Solar.nutationX B (get_aberration_coeffs B (aberration_coeffs0 B)).1 x ks)
      (Solar.nutationX B' (get_aberration_coeffs B' (aberration_coeffs0 B')).1 x' ks) := by
  induction ks with
  | nil => exact List.Forall₂.nil
  | cons k ks ih =>
    unfold Solar.nutationX
    refine RelM.bind (S.polynomials aberrationRows k) fun f f' hf => ?_
    exact RelM.bind ih fun l l' hl => RelM.pure (List.Forall₂.cons (hf _ _ hx) hl)

theorem get_nutation {x x'} (hx : S.r x x') :
    RelM S.strict S.rN (Solar.get_nutation B x) (Solar.get_nutation B' x') := by
  unfold Solar.get_nutation
  refine RelM.bind (S.nutationX hx _) fun xs xs' hxs => ?_
  refine RelM.bind (S.nutationLoop hx _ hxs _ _) fun p p' hp => ?_
  exact RelM.pure ⟨S.divq _ (S.pySum hp.1), S.divq _ (S.pySum hp.2)⟩

theorem get_parallax_sun_right_ascension {x x'} (hx : S.r x x') {y y'} (hy : S.r y y') {z z'} (hz : S.r z z') {u u'} (hu : S.r u u') :
    RelM S.strict S.r (Solar.get_parallax_sun_right_ascension B x y z u) (Solar.get_parallax_sun_right_ascension B' x' y' z' u') := by
  unfold Solar.get_parallax_sun_right_ascension
  sim

theorem get_projected_radial_distance {x x'} (hx : S.r x x') {y y'} (hy : S.r y y') :
    RelM S.strict S.r (Solar.get_projected_radial_distance B x y) (Solar.get_projected_radial_distance B' x' y') := by
  unfold Solar.get_projected_radial_distance
  sim

theorem get_projected_axial_distance {x x'} (hx : S.r x x') {y y'} (hy : S.r y y') :
    RelM S.strict S.r (Solar.get_projected_axial_distance B x y) (Solar.get_projected_axial_distance B' x' y') := by
  unfold Solar.get_projected_axial_distance
  sim

theorem get_sun_earth_distance {x x'} (hx : S.r x x') :
    RelM S.strict S.r (Solar.get_sun_earth_distance B x) (Solar.get_sun_earth_distance B' x') := by
  unfold Solar.get_sun_earth_distance
  sim

theorem get_refraction_correction {x x'} (hx : S.r x x') {y y'} (hy : S.r y y') {z z'} (hz : S.r z z') :
    RelM S.strict S.r (Solar.get_refraction_correction B x y z) (Solar.get_refraction_correction B' x' y' z') := by
  unfold Solar.get_refraction_correction
  sim

theorem get_true_ecliptic_obliquity {x x'} (hx : S.r x x') {n n'} (hn : S.rN n n') :
    S.r (Solar.get_true_ecliptic_obliquity B x n) (Solar.get_true_ecliptic_obliquity B' x' n') := by
  have hl := hn.1
  have ho := hn.2
  unfold Solar.get_true_ecliptic_obliquity
  sim

theorem get_apparent_sidereal_time {x x'} (hx : S.r x x') {y y'} (hy : S.r y y') {n n'} (hn : S.rN n n') :
    RelM S.strict S.r (Solar.get_apparent_sidereal_time B x y n) (Solar.get_apparent_sidereal_time B' x' y' n') := by
  have hl := hn.1
  have ho := hn.2
  unfold Solar.get_apparent_sidereal_time
  sim

theorem get_apparent_sun_longitude {x x'} (hx : S.r x x') {n n'} (hn : S.rN n n') {y y'} (hy : S.r y y') :
    S.r (Solar.get_apparent_sun_longitude B x n y) (Solar.get_apparent_sun_longitude B' x' n' y') := by
  have hl := hn.1
  have ho := hn.2
  unfold Solar.get_apparent_sun_longitude
  sim

theorem get_topocentric_azimuth_angle {x x'} (hx : S.r x x') {y y'} (hy : S.r y y') {z z'} (hz : S.r z z') :
    RelM S.strict S.r (Solar.get_topocentric_azimuth_angle B x y z) (Solar.get_topocentric_azimuth_angle B' x' y' z') := by
  unfold Solar.get_topocentric_azimuth_angle
  sim

theorem get_topocentric_elevation_angle {x x'} (hx : S.r x x') {y y'} (hy : S.r y y') {z z'} (hz : S.r z z') :
    RelM S.strict S.r (Solar.get_topocentric_elevation_angle B x y z) (Solar.get_topocentric_elevation_angle B' x' y' z') := by
  unfold Solar.get_topocentric_elevation_angle
  sim

theorem get_topocentric_local_hour_angle {x x'} (hx : S.r x x') {y y'} (hy : S.r y y') :
    S.r (Solar.get_topocentric_local_hour_angle B x y) (Solar.get_topocentric_local_hour_angle B' x' y') := by
  unfold Solar.get_topocentric_local_hour_angle
  sim

theorem get_topocentric_sun_declination {x x'} (hx : S.r x x') {y y'} (hy : S.r y y') {z z'} (hz : S.r z z') {u u'} (hu : S.r u u') {v v'} (hv : S.r v v') :
    RelM S.strict S.r (Solar.get_topocentric_sun_declination B x y z u v) (Solar.get_topocentric_sun_declination B' x' y' z' u' v') := by
  unfold Solar.get_topocentric_sun_declination
  sim

theorem get_topocentric_sun_right_ascension {x x'} (hx : S.r x x') {y y'} (hy : S.r y y') {z z'} (hz : S.r z z') {u u'} (hu : S.r u u') {v v'} (hv : S.r v v') {t t'} (ht : S.r t t') :
    RelM S.strict S.r (Solar.get_topocentric_sun_right_ascension B x y z u v t) (Solar.get_topocentric_sun_right_ascension B' x' y' z' u' v' t') := by
  unfold Solar.get_topocentric_sun_right_ascension
  sim

theorem get_topocentric_zenith_angle {x x'} (hx : S.r x x') {y y'} (hy : S.r y y') {z z'} (hz : S.r z z') {u u'} (hu : S.r u u') {v v'} (hv : S.r v v') :
    RelM S.strict S.r (Solar.get_topocentric_zenith_angle B x y z u v) (Solar.get_topocentric_zenith_angle B' x' y' z' u' v') := by
  unfold Solar.get_topocentric_zenith_angle
  sim

theorem get_incidence_angle {x x'} (hx : S.r x x') {y y'} (hy : S.r y y') {z z'} (hz : S.r z z') {u u'} (hu : S.r u u') :
    RelM S.strict S.r (Solar.get_incidence_angle B x y z u) (Solar.get_incidence_angle B' x' y' z' u') := by
  unfold Solar.get_incidence_angle
  sim

theorem get_solar_time {x x'} (hx : S.r x x') {w w'} (hw : S.rW w w') :
    RelM S.strict S.r (Solar.get_solar_time B x w) (Solar.get_solar_time B' x' w') := by
  unfold Solar.get_solar_time
  sim

theorem get_hour_angle {w w'} (hw : S.rW w w') {x x'} (hx : S.r x x') :
    RelM S.strict S.r (Solar.get_hour_angle B w x) (Solar.get_hour_angle B' w' x') := by
  unfold Solar.get_hour_angle
  sim

theorem get_altitude_fast {x x'} (hx : S.r x x') {y y'} (hy : S.r y y') {w w'} (hw : S.rW w w') :
    RelM S.strict S.r (Solar.get_altitude_fast B x y w) (Solar.get_altitude_fast B' x' y' w') := by
  unfold Solar.get_altitude_fast
  sim

theorem get_azimuth_fast {x x'} (hx : S.r x x') {y y'} (hy : S.r y y') {w w'} (hw : S.rW w w') :
    RelM S.strict S.r (Solar.get_azimuth_fast B x y w) (Solar.get_azimuth_fast B' x' y' w') := by
  unfold Solar.get_azimuth_fast
  sim

theorem get_topocentric_position {x x'} (hx : S.r x x') {y y'} (hy : S.r y y') {w w'} (hw : S.rW w w')
    {z z'} (hz : S.r z z') :
    RelM S.strict S.rP (Solar.get_topocentric_position B x y w z) (Solar.get_topocentric_position B' x' y' w' z') := by
  unfold Solar.get_topocentric_position
  sim
  exact ⟨by dsimp only; sim, by dsimp only; sim⟩

theorem get_position {x x'} (hx : S.r x x') {y y'} (hy : S.r y y') {w w'} (hw : S.rW w w')
    {z z'} (hz : S.r z z') {t t'} (ht : S.r t t') {p p'} (hp : S.r p p') :
    RelM S.strict S.rP (Solar.get_position B x y w z t p) (Solar.get_position B' x' y' w' z' t' p') := by
  unfold Solar.get_position
  refine RelM.bind (S.guard hw) fun _ _ _ => RelM.bind (S.get_topocentric_position hx hy hw hz) ?_
  rintro ⟨a, b⟩ ⟨a', b'⟩ ⟨ha, hb⟩
  dsimp only at ha hb ⊢
  sim
  exact ⟨by dsimp only; sim, by dsimp only; sim⟩

theorem get_altitude {x x'} (hx : S.r x x') {y y'} (hy : S.r y y') {w w'} (hw : S.rW w w')
    {z z'} (hz : S.r z z') {t t'} (ht : S.r t t') {p p'} (hp : S.r p p') :
    RelM S.strict S.r (Solar.get_altitude B x y w z t p) (Solar.get_altitude B' x' y' w' z' t' p') := by
  unfold Solar.get_altitude
  refine RelM.bind (S.guard hw) fun _ _ _ => RelM.bind (S.get_topocentric_position hx hy hw hz) ?_
  rintro ⟨a, b⟩ ⟨a', b'⟩ ⟨ha, hb⟩
  dsimp only at ha hb ⊢
  sim

theorem get_azimuth {x x'} (hx : S.r x x') {y y'} (hy : S.r y y') {w w'} (hw : S.rW w w')
    {z z'} (hz : S.r z z') :
    RelM S.strict S.r (Solar.get_azimuth B x y w z) (Solar.get_azimuth B' x' y' w' z') := by
  unfold Solar.get_azimuth
  refine RelM.bind (S.guard hw) fun _ _ _ => RelM.bind (S.get_topocentric_position hx hy hw hz) ?_
  rintro ⟨a, b⟩ ⟨a', b'⟩ ⟨ha, hb⟩
  dsimp only at ha hb ⊢
  sim

/-! ## radiation.py -/

theorem get_air_mass_ratio {x x'} (hx : S.r x x') :
    RelM S.strict S.r (Radiation.get_air_mass_ratio B x) (Radiation.get_air_mass_ratio B' x') := by
  unfold Radiation.get_air_mass_ratio
  have h1 := S.sin (S.radians hx)
  have h0 := S.sin_zero (B.radians x)
  cases hs : B.sin (B.radians x) with
  | error e =>
    rw [hs] at h1 h0
    have hne : e ≠ .zeroDivision := fun h => h0 (by rw [h])
    show RelM S.strict S.r (match (Except.error e : Py B.α) with | .error .zeroDivision => .ok B.inf | result => result) _
    rw [show (match (Except.error e : Py B.α) with | .error .zeroDivision => .ok B.inf | result => result)
      = (.error e : Py B.α) by cases e <;> first | rfl | exact absurd rfl hne]
    intro hst
    rw [h1 hst]
    cases e <;> first | rfl | exact absurd rfl hne
  | ok y =>
    rw [hs] at h1
    obtain ⟨y', hs', hy⟩ := RelM.of_ok h1 rfl
    rw [hs']
    have h2 := S.div (S.ofNat 1) hy
    show RelM S.strict S.r (match B.div 1 y with | .error .zeroDivision => .ok B.inf | result => result)
      (match B'.div 1 y' with | .error .zeroDivision => .ok B'.inf | result => result)
    cases hd : B.div 1 y with
    | ok z =>
      rw [hd] at h2
      obtain ⟨z', hd', hz⟩ := RelM.of_ok h2 rfl
      rw [hd']
      exact hz
    | error e =>
      by_cases he : e = .zeroDivision
      · subst he
        rcases S.recip_zero hy hd with h | ⟨z', h, hz⟩
        · rw [h]; exact S.inf
        · rw [h]; exact hz
      · rw [hd] at h2
        cases e <;> first
          | exact absurd rfl he
          | exact fun hst => by rw [h2 hst]

theorem get_apparent_extraterrestrial_flux {x x'} (hx : S.r x x') :
    RelM S.strict S.r (Radiation.get_apparent_extraterrestrial_flux B x) (Radiation.get_apparent_extraterrestrial_flux B' x') := by
  unfold Radiation.get_apparent_extraterrestrial_flux
  sim

theorem get_optical_depth {x x'} (hx : S.r x x') :
    RelM S.strict S.r (Radiation.get_optical_depth B x) (Radiation.get_optical_depth B' x') := by
  unfold Radiation.get_optical_depth
  sim

theorem get_radiation_direct {w w'} (hw : S.rW w w') {x x'} (hx : S.r x x') :
    RelM S.strict S.r (Radiation.get_radiation_direct B w x) (Radiation.get_radiation_direct B' w' x') := by
  unfold Radiation.get_radiation_direct
  sim

end Sim

end Verif
