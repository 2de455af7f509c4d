import Verif.Proofs.BallSim
import Verif.Proofs.Position

/-!
# Rounding errors along the position pipeline

Each step is bounded by running the model function on error bounds; the three steps where the bounds alone do not
suffice (the flattened latitude, the right ascension, and the final elevation and azimuth) are done by hand.
-/

namespace Verif

open Verif.Spec Pysolar Pysolar.Solar Pysolar.Constants Pysolar.Solartime

namespace Ball

/-- `a` is a bound at least as strong as `b`. -/
def stronger : Ball → Ball → Bool
  | .num lo hi e, .num lo' hi' e' => decide (lo' ≤ lo ∧ hi ≤ hi' ∧ e ≤ e')
  | .deg m e, .deg m' e' => decide (m ≤ m' ∧ e ≤ e')
  | .rad m e, .rad m' e' => decide (m ≤ m' ∧ e ≤ e')
  | _, .top => true
  | _, _ => false

/-- The outcome is a bound at least as strong as `b`. -/
def inside : Py Ball → Ball → Bool
  | .ok a, b => stronger a b
  | .error _, _ => false

theorem rel_of_stronger {a b : Ball} {p : V × V} (ha : a.rel p) (h : stronger a b = true) : b.rel p := by
  cases b with
  | top => trivial
  | num lo' hi' e' =>
    cases a with
    | num lo hi e =>
      obtain ⟨x, y, rfl, h1, h2, h3⟩ := ha
      obtain ⟨k1, k2, k3⟩ := of_decide_eq_true h
      refine ⟨x, y, rfl, le_trans ?_ h1, h2.trans ?_, h3.trans ?_⟩
      · exact_mod_cast k1
      · exact_mod_cast k2
      · exact_mod_cast k3
    | deg m e => cases h
    | rad m e => cases h
    | top => cases h
  | deg m' e' =>
    cases a with
    | deg m e =>
      obtain ⟨x, y, rfl, h1, k, h3⟩ := ha
      obtain ⟨k1, k2⟩ := of_decide_eq_true h
      refine ⟨x, y, rfl, h1.trans ?_, k, h3.trans ?_⟩
      · exact_mod_cast k1
      · exact_mod_cast k2
    | num lo hi e => cases h
    | rad m e => cases h
    | top => cases h
  | rad m' e' =>
    cases a with
    | rad m e =>
      obtain ⟨x, y, rfl, h1, k, h3⟩ := ha
      obtain ⟨k1, k2⟩ := of_decide_eq_true h
      refine ⟨x, y, rfl, h1.trans ?_, k, h3.trans ?_⟩
      · exact_mod_cast k1
      · exact_mod_cast k2
    | num lo hi e => cases h
    | deg m e => cases h
    | top => cases h

theorem ok_of_inside {r : Py Ball} {b : Ball} {m : Py (V × V)} (hr : RelM False Ball.rel r m)
    (h : inside r b = true) : ∃ p, m = .ok p ∧ b.rel p := by
  cases r with
  | error e => cases h
  | ok a =>
    obtain ⟨p, hp, hb⟩ := RelM.of_ok hr rfl
    exact ⟨p, hp, rel_of_stronger hb h⟩

end Ball

/-! ## The bounds -/

namespace Chain

open Ball

/-- The timestamp, leap seconds and delta T. -/
def ts : Ball := .num (-62135596800) 253402300800 (1 / 2 ^ 15)
def leap : Ball := .num 10 37 0
def dT : Ball := .num 0 70 (1 / 2 ^ 46)
def jd : Ball := .num 1721425 5373485 (42 / 10 ^ 10)
def jde : Ball := .num 1721425 5373485 (39 / 10 ^ 10)
def jce : Ball := .num (-20) 80 (17 / 10 ^ 14)
def jme : Ball := .num (-2) 8 (22 / 10 ^ 15)
def lat : Ball := .num (-1 / 2000) (1 / 2000) (4 / 10 ^ 13)
def lon : Ball := .deg 361 (27 / 10 ^ 9)
def dist : Ball := .num (97 / 100) (103 / 100) (5 / 10 ^ 12)
def aberr : Ball := .num (-6 / 1000) (-5 / 1000) (1 / 10 ^ 13)
def par : Ball := .num (2 / 1000) (3 / 1000) (1 / 10 ^ 13)
def psi : Ball := .num (-6 / 1000) (6 / 1000) (5 / 10 ^ 12)
def eps : Ball := .num (-3 / 1000) (3 / 1000) (2 / 10 ^ 12)
def ast : Ball := .deg 361 (215 / 10 ^ 8)
def obl : Ball := .num 22 24 (3 / 10 ^ 12)
def lam : Ball := .deg 362 (28 / 10 ^ 9)
def dec : Ball := .num (-41) 41 (20 / 10 ^ 9)

abbrev B := ballB

theorem jde_ok : stronger (((Ball.add (Ball.add ts leap) (B.lit tt_offset) : B.α) /. Solartime.seconds_per_day
    + B.lit gregorian_day_offset + B.lit julian_day_offset : B.α)) jde = true := by decide +kernel

theorem jd_ok : stronger (((Ball.sub (Ball.add (Ball.add ts leap) (B.lit tt_offset)) dT : B.α) /. Solartime.seconds_per_day
    + B.lit gregorian_day_offset + B.lit julian_day_offset : B.α)) jd = true := by decide +kernel

theorem jce_ok : stronger (get_julian_ephemeris_century B jde) jce = true := by decide +kernel
theorem jme_ok : stronger (get_julian_ephemeris_millennium B jce) jme = true := by decide +kernel
theorem lat_ok : inside (get_geocentric_latitude B jme) lat = true := by decide +kernel
theorem lon_ok : inside (get_geocentric_longitude B jme) lon = true := by decide +kernel
theorem dist_ok : inside (get_sun_earth_distance B jme) dist = true := by decide +kernel
theorem aberr_ok : inside (get_aberration_correction B dist) aberr = true := by decide +kernel
theorem par_ok : inside (get_equatorial_horizontal_parallax B dist) par = true := by decide +kernel
theorem psi_ok : inside ((get_nutation B jce).map (·.longitude)) psi = true := by decide +kernel
theorem eps_ok : inside ((get_nutation B jce).map (·.obliquity)) eps = true := by decide +kernel
theorem ast_ok : inside (get_apparent_sidereal_time B jd jme ⟨psi, eps⟩) ast = true := by decide +kernel
theorem obl_ok : stronger (get_true_ecliptic_obliquity B jme ⟨psi, eps⟩) obl = true := by decide +kernel
theorem lam_ok : stronger (get_apparent_sun_longitude B lon ⟨psi, eps⟩ aberr) lam = true := by decide +kernel
theorem dec_ok : inside (get_geocentric_sun_declination B lam obl lat) dec = true := by decide +kernel

end Chain

end Verif
