import Verif.Props.FloatClimb
import Verif.Props.FloatRadiation
import Verif.Props.NightRadiation
import Verif.Props.SolarTest

/-!
# C147, C148: the direct radiation through the day

The direct radiation for the altitude of the same instant rises all morning and falls all afternoon as long as the day of
the year stays the same. The day of the year is that of UTC: where midnight UTC falls into the morning, there the
radiation jumps, at most seasons downwards or upwards by a watt or two.
-/

namespace Verif.Props

open Verif.Spec Pysolar Pysolar.Solar Pysolar.Radiation Pysolar.Constants Real

/-- What C147 claims: from half past midnight to half past eleven in local mean solar time, the sun being up, the later call
of `get_radiation_direct`, with the altitude of its instant, returns more. -/
def C147Claim (tp : ℝ) : Prop :=
  ∀ (d d' : DateTime) (c c' : Civil), UtcFields d c → UtcFields d' c' → c'.year = c.year → c'.month = c.month →
    c.micros < c'.micros → 1901 ≤ c.year → c.year ≤ 2099 →
  ∀ (lat lon elev alt alt' r r' : ℝ) (day : ℤ), |lat| ≤ 66 → |elev| ≤ 50000 →
    get_altitude (mathB tp) (num lat) (num lon) (.dt d) (num elev) (num standard_temperature) (num standard_pressure)
      = .ok (num alt) →
    get_altitude (mathB tp) (num lat) (num lon) (.dt d') (num elev) (num standard_temperature) (num standard_pressure)
      = .ok (num alt') →
    24 * day + 0.5 ≤ meanSolar lon c → meanSolar lon c' ≤ 24 * day + 11.5 → 0 < alt →
    get_radiation_direct (mathB tp) (.dt d) (num alt) = .ok (num r) →
    get_radiation_direct (mathB tp) (.dt d') (num alt') = .ok (num r') → r < r'

/-- The two altitudes of C141, ordered and below 89.9 degrees. -/
theorem clock_below (tp : ℝ) (htp : tp ≠ 0) {d d' : DateTime} {c c' : Civil} (h : UtcFields d c)
    (h' : UtcFields d' c') (hy : c'.year = c.year) (hm : c'.month = c.month) (hlt : c.micros < c'.micros)
    (hy1 : 1901 ≤ c.year) (hy2 : c.year ≤ 2099)
    {lat lon elev : ℝ} (hlat : |lat| ≤ 66) (he : |elev| ≤ 50000) {alt alt' : ℝ} (day : ℤ)
    (ha : get_altitude (mathB tp) (num lat) (num lon) (.dt d) (num elev) (num standard_temperature)
      (num standard_pressure) = .ok (num alt))
    (ha' : get_altitude (mathB tp) (num lat) (num lon) (.dt d') (num elev) (num standard_temperature)
      (num standard_pressure) = .ok (num alt')) :
    (24 * day + 0.5 ≤ meanSolar lon c → meanSolar lon c' ≤ 24 * day + 11.5 → alt < alt' ∧ alt' ≤ 90) ∧
    (24 * day + 12.5 ≤ meanSolar lon c → meanSolar lon c' ≤ 24 * day + 23.5 → alt' < alt ∧ alt ≤ 90) := by
  obtain ⟨k1, k2⟩ := C141_clock tp htp d d' c c' h h' hy hm hlt hy1 hy2 lat lon elev hlat he alt alt' day ha ha'
  obtain ⟨dec, H, e, dec', H', e', p1, p2, p1', p2', q, q'⟩ := clock_elev (tp := tp) (lon := lon) h h' hy hm hlt hy1 hy2
    hlat he day
  obtain ⟨-, r, hr, hv⟩ := altitude_parts h p1 p2 ha
  obtain ⟨-, r', hr', hv'⟩ := altitude_parts h' p1' p2' ha'
  refine ⟨fun u1 u2 => ⟨k1 u1 u2, ?_⟩, fun u1 u2 => ⟨k2 u1 u2, ?_⟩⟩
  · obtain ⟨-, x, -⟩ := q u1 u2
    have := lifted_below htp (abs_le.mp x).2 hr'
    rw [hv']
    norm_num at *
    linarith
  · obtain ⟨x, -, -⟩ := q' u1 u2
    have := lifted_below htp (abs_le.mp x).2 hr
    rw [hv]
    norm_num at *
    linarith

/-- The radiation of two datetimes of one UTC date, in the order of the altitudes. -/
theorem same_day {tp : ℝ} {d d' : DateTime} {c c' : Civil} (h : UtcFields d c) (h' : UtcFields d' c') (hd : c'.date = c.date)
    {a b : ℝ} (h1 : 0 < a) (hab : a < b) (h2 : b ≤ 90) :
    ∃ r s, get_radiation_direct (mathB tp) (.dt d) (num a) = .ok (num r) ∧
      get_radiation_direct (mathB tp) (.dt d') (num b) = .ok (num s) ∧ r < s := by
  obtain ⟨r, s, hr, hs, hlt⟩ := C40_increasing tp d c h a b h1 hab h2
  have h0 : 0 < sin (rad b) := sin_rad_pos' (h1.trans hab) h2
  have hk : 0 < depthF (yday c.date) := lt_of_lt_of_le (by norm_num) (depthF_bounds _).1
  have hx : exp (-(depthF (yday c.date) / sin (rad b))) < 2 ^ 1024 := exp_small (neg_nonpos.mpr (div_pos hk h0).le)
  refine ⟨r, s, hr, ?_, hlt⟩
  rw [direct_eval h' h0.ne' (by rw [hd]; exact hx), hd, ← direct_eval h h0.ne' hx]
  exact hs

/-- C147, what holds: within one UTC date the direct radiation rises all morning and falls all afternoon, down to datetimes a
microsecond apart. -/
theorem C147_same_date_partial (tp : ℝ) (htp : tp ≠ 0) (d d' : DateTime) (c c' : Civil) (h : UtcFields d c)
    (h' : UtcFields d' c') (hdate : c'.date = c.date) (hlt : c.micros < c'.micros)
    (hy1 : 1901 ≤ c.year) (hy2 : c.year ≤ 2099)
    (lat lon elev : ℝ) (hlat : |lat| ≤ 66) (he : |elev| ≤ 50000) (alt alt' : ℝ) (day : ℤ)
    (ha : get_altitude (mathB tp) (num lat) (num lon) (.dt d) (num elev) (num standard_temperature)
      (num standard_pressure) = .ok (num alt))
    (ha' : get_altitude (mathB tp) (num lat) (num lon) (.dt d') (num elev) (num standard_temperature)
      (num standard_pressure) = .ok (num alt')) :
    (24 * day + 0.5 ≤ meanSolar lon c → meanSolar lon c' ≤ 24 * day + 11.5 → 0 < alt →
      ∃ r r', get_radiation_direct (mathB tp) (.dt d) (num alt) = .ok (num r) ∧
        get_radiation_direct (mathB tp) (.dt d') (num alt') = .ok (num r') ∧ r < r') ∧
    (24 * day + 12.5 ≤ meanSolar lon c → meanSolar lon c' ≤ 24 * day + 23.5 → 0 < alt' →
      ∃ r r', get_radiation_direct (mathB tp) (.dt d) (num alt) = .ok (num r) ∧
        get_radiation_direct (mathB tp) (.dt d') (num alt') = .ok (num r') ∧ r' < r) := by
  obtain ⟨k1, k2⟩ := clock_below tp htp h h' (congrArg YMD.year hdate) (congrArg YMD.month hdate) hlt hy1 hy2 hlat he day ha ha'
  refine ⟨fun u1 u2 h0 => ?_, fun u1 u2 h0 => ?_⟩
  · obtain ⟨x, y⟩ := k1 u1 u2
    exact same_day h h' hdate h0 x y
  · obtain ⟨x, y⟩ := k2 u1 u2
    obtain ⟨r, s, hr, hs, hlt⟩ := same_day (tp := tp) h' h hdate.symm h0 x y
    exact ⟨s, r, hs, hr, hlt⟩

/-- Flux and optical depth of two days next to each other. -/
theorem day_step {m n : ℝ} (h : |m - n| ≤ 1) : |fluxF m - fluxF n| ≤ 1.2912 ∧ |depthF m - depthF n| ≤ 0.000603 := by
  have hp := pi_lt_d4
  have key : ∀ a : ℝ, |sin (2 * π / 365 * (m - a)) - sin (2 * π / 365 * (n - a))| ≤ 0.017215 := by
    intro a
    refine (abs_sin_sub_sin_le _ _).trans ?_
    rw [← mul_sub, sub_sub_sub_cancel_right, abs_mul, abs_of_pos (by positivity)]
    calc 2 * π / 365 * |m - n| ≤ 2 * 3.1416 / 365 * 1 := by gcongr
      _ ≤ _ := by norm_num
  unfold fluxF depthF
  constructor
  · rw [add_sub_add_left_eq_sub, ← mul_sub, abs_mul, abs_of_pos (by norm_num)]
    have := key 275
    norm_num at *
    linarith
  · rw [add_sub_add_left_eq_sub, ← mul_sub, abs_mul, abs_of_pos (by norm_num)]
    have := key 100
    norm_num at *
    linarith

/-- The loss of radiation by a step of the day of the year, the altitude growing. -/
theorem step_loss {f f' k k' s s' : ℝ} (hf : |f' - f| ≤ 1.2912) (hk : |k' - k| ≤ 0.000603) (hf1 : 0 < f) (hf2 : f' ≤ 1235)
    (hf3 : 0 < f') (hk1 : 0.139 ≤ k) (hs : 0 < s) (hss : s ≤ s') :
    f * exp (-(k / s)) - 3.3 < f' * exp (-(k' / s')) := by
  have hs' : 0 < s' := hs.trans_le hss
  have hk0 : 0 < k := lt_of_lt_of_le (by norm_num) hk1
  set x := 1 / s' with hx
  have hx0 : 0 < x := by positivity
  have e1 : k / s' = k * x := by rw [hx]; ring
  have e2 : k' / s' = k' * x := by rw [hx]; ring
  have hE : exp (-(k / s)) ≤ exp (-(k * x)) := by
    rw [exp_le_exp, neg_le_neg_iff, ← e1]
    gcongr
  set E := exp (-(k * x)) with hEd
  have hE0 : 0 < E := exp_pos _
  have hE1 : E ≤ 1 := exp_le_one_iff.mpr (by nlinarith)
  have hxE : x * E ≤ 2.65 := by
    have h1 := add_one_le_exp (k * x - 1)
    have h2 : (k * x) * E ≤ exp (-1) := by
      calc (k * x) * E ≤ exp (k * x - 1) * E := by gcongr; linarith
        _ = exp (-1) := by rw [hEd, ← exp_add]; ring_nf
    have h3 := exp_neg_one_lt_d9
    have h4 : 0.139 * (x * E) ≤ k * (x * E) := by gcongr
    norm_num at *
    nlinarith
  have hdk := (abs_le.mp hk).2
  have hdf := (abs_le.mp hf).1
  have h5 : E * (1 - 0.000603 * x) ≤ exp (-(k' * x)) := by
    have h6 := add_one_le_exp (-((k' - k) * x))
    have h7 : exp (-(k' * x)) = E * exp (-((k' - k) * x)) := by rw [hEd, ← exp_add]; ring_nf
    rw [h7]
    refine mul_le_mul_of_nonneg_left (le_trans ?_ h6) hE0.le
    have : (k' - k) * x ≤ 0.000603 * x := by gcongr
    linarith
  rw [e2]
  calc f * exp (-(k / s)) - 3.3 ≤ f * E - 3.3 := by gcongr
    _ < f' * (E * (1 - 0.000603 * x)) := by
      have h8 : f * E - 1.2912 ≤ f' * E := by norm_num at *; nlinarith
      have h9 : f' * (x * E) ≤ 1235 * 2.65 := by gcongr
      norm_num at *
      nlinarith
    _ ≤ _ := by gcongr

/-- Two datetimes of one month less than a day apart are on the same day or on two days next to each other. -/
theorem yday_step {c c' : Civil} (h : c.Valid) (h' : c'.Valid) (hy : c'.year = c.year) (hm : c'.month = c.month)
    (hlt : c.micros < c'.micros) (h24 : c'.micros - c.micros < 24 * 3600000000) :
    |((yday c'.date : ℤ) : ℝ) - ((yday c.date : ℤ) : ℝ)| ≤ 1 := by
  have v := h.2
  have v' := h'.2
  have e : yday c'.date - yday c.date = c'.day - c.day := by
    unfold yday Civil.date
    dsimp only
    rw [hy, hm]
    ring
  have ho : ymd2ord c'.year c'.month c'.day - ymd2ord c.year c.month c.day = c'.day - c.day := by
    unfold ymd2ord
    rw [hy, hm]
    ring
  unfold Civil.micros at hlt h24
  have : |yday c'.date - yday c.date| ≤ 1 := by
    rw [e, abs_le]
    obtain ⟨-, a1, a2, a3, a4⟩ := v
    obtain ⟨-, b1, b2, b3, b4⟩ := v'
    constructor <;> omega
  exact_mod_cast this

theorem up_value {tp : ℝ} {d : DateTime} {c : Civil} (h : UtcFields d c) {a : ℝ} (h1 : 0 < a) (h2 : a ≤ 90) :
    get_radiation_direct (mathB tp) (.dt d) (num a)
      = .ok (num (fluxF (yday c.date) * exp (-(depthF (yday c.date) / sin (rad a))))) := by
  have h0 : 0 < sin (rad a) := sin_rad_pos' h1 h2
  have hk : 0 < depthF (yday c.date) := lt_of_lt_of_le (by norm_num) (depthF_bounds _).1
  rw [direct_eval h h0.ne' (exp_small (neg_nonpos.mpr (div_pos hk h0).le)), if_pos h1]

theorem next_day {tp : ℝ} {d d' : DateTime} {c c' : Civil} (h : UtcFields d c) (h' : UtcFields d' c')
    (hn : |((yday c'.date : ℤ) : ℝ) - ((yday c.date : ℤ) : ℝ)| ≤ 1)
    {a b : ℝ} (h1 : 0 < a) (hab : a < b) (h2 : b ≤ 90) :
    ∃ r s, get_radiation_direct (mathB tp) (.dt d) (num a) = .ok (num r) ∧
      get_radiation_direct (mathB tp) (.dt d') (num b) = .ok (num s) ∧ r - 3.3 < s := by
  refine ⟨_, _, up_value h h1 (hab.le.trans h2), up_value h' (h1.trans hab) h2, ?_⟩
  obtain ⟨x, y⟩ := day_step hn
  have f := fluxF_bounds (yday c.date)
  have f' := fluxF_bounds (yday c'.date)
  exact step_loss x y (by linarith) f'.2 (by linarith) (depthF_bounds _).1 (sin_rad_pos' h1 (hab.le.trans h2))
    (sin_rad_lt (by linarith) hab h2).le

/-- C147, what holds across midnight UTC: a later call in the morning returns at most 3.3 W/m2 less, in the afternoon at most
3.3 W/m2 more. -/
theorem C147_step_partial (tp : ℝ) (htp : tp ≠ 0) (d d' : DateTime) (c c' : Civil) (h : UtcFields d c)
    (h' : UtcFields d' c') (hy : c'.year = c.year) (hm : c'.month = c.month) (hlt : c.micros < c'.micros)
    (hy1 : 1901 ≤ c.year) (hy2 : c.year ≤ 2099)
    (lat lon elev : ℝ) (hlat : |lat| ≤ 66) (he : |elev| ≤ 50000) (alt alt' : ℝ) (day : ℤ)
    (ha : get_altitude (mathB tp) (num lat) (num lon) (.dt d) (num elev) (num standard_temperature)
      (num standard_pressure) = .ok (num alt))
    (ha' : get_altitude (mathB tp) (num lat) (num lon) (.dt d') (num elev) (num standard_temperature)
      (num standard_pressure) = .ok (num alt')) :
    (24 * day + 0.5 ≤ meanSolar lon c → meanSolar lon c' ≤ 24 * day + 11.5 → 0 < alt →
      ∃ r r', get_radiation_direct (mathB tp) (.dt d) (num alt) = .ok (num r) ∧
        get_radiation_direct (mathB tp) (.dt d') (num alt') = .ok (num r') ∧ r - 3.3 < r') ∧
    (24 * day + 12.5 ≤ meanSolar lon c → meanSolar lon c' ≤ 24 * day + 23.5 → 0 < alt' →
      ∃ r r', get_radiation_direct (mathB tp) (.dt d) (num alt) = .ok (num r) ∧
        get_radiation_direct (mathB tp) (.dt d') (num alt') = .ok (num r') ∧ r' < r + 3.3) := by
  obtain ⟨k1, k2⟩ := clock_below tp htp h h' hy hm hlt hy1 hy2 hlat he day ha ha'
  have near : ∀ m : ℝ, m ≤ meanSolar lon c → meanSolar lon c' ≤ m + 11 →
      |((yday c'.date : ℤ) : ℝ) - ((yday c.date : ℤ) : ℝ)| ≤ 1 := by
    intro m u1 u2
    refine yday_step h.1 h'.1 hy hm hlt ?_
    unfold meanSolar at u1 u2
    have : (c'.micros : ℝ) - c.micros < 24 * 3600000000 := by linarith
    exact_mod_cast this
  refine ⟨fun u1 u2 h0 => ?_, fun u1 u2 h0 => ?_⟩
  · obtain ⟨x, y⟩ := k1 u1 u2
    exact next_day h h' (near _ u1 (by norm_num at *; linarith)) h0 x y
  · obtain ⟨x, y⟩ := k2 u1 u2
    obtain ⟨r, s, hr, hs, hlt⟩ := next_day (tp := tp) h' h (by rw [abs_sub_comm]; exact near _ u1 (by norm_num at *; linarith)) h0 x y
    exact ⟨s, r, hs, hr, by linarith⟩

/-! ## The witness: 150 degrees east, ten in the morning -/

/-- The last second of 9 March 2020 UTC, and midnight. -/
def eveC : Civil := ⟨2020, 3, 9, 23, 59, 59, 0⟩
def midC : Civil := ⟨2020, 3, 10, 0, 0, 0, 0⟩

theorem eveC_valid : eveC.Valid := civil_valid_of_check (by decide)
theorem midC_valid : midC.Valid := civil_valid_of_check (by decide)

/-- The radiation at such an instant, on intervals. -/
def ivDirect (c : Civil) : Py Iv :=
  get_altitude ivB (ivB.lit 0) (ivB.lit 150) (.dt (utcDT c)) (ivB.lit 0) (ivB.lit standard_temperature)
    (ivB.lit standard_pressure) >>= fun a => get_radiation_direct ivB (.dt (utcDT c)) a

set_option maxRecDepth 100000 in
theorem iv_eve : Iv.within (ivDirect eveC) 987.86 987.87 = true := by decide +kernel

set_option maxRecDepth 100000 in
theorem iv_mid : Iv.within (ivDirect midC) 986.26 986.27 = true := by decide +kernel

set_option maxRecDepth 100000 in
theorem iv_eve_alt : Iv.within (get_altitude ivB (ivB.lit 0) (ivB.lit 150) (.dt (utcDT eveC)) (ivB.lit 0)
    (ivB.lit standard_temperature) (ivB.lit standard_pressure)) 57 58 = true := by
  decide +kernel

theorem iv_direct_within (tp : ℝ) {latI lonI : ivB.α} {lat lon : V} (d : DateTime) (k1 : Iv.rel latI lat)
    (k2 : Iv.rel lonI lon) {lo hi : ℚ} (h : Iv.within (get_altitude ivB latI lonI (.dt d) (ivB.lit 0)
      (ivB.lit standard_temperature) (ivB.lit standard_pressure) >>= fun a => get_radiation_direct ivB (.dt d) a) lo hi = true) :
    ∃ x : ℝ, (get_altitude (mathB tp) lat lon (.dt d) (.fin 0)
      ((mathB tp).lit standard_temperature) ((mathB tp).lit standard_pressure) >>= fun a => get_radiation_direct (mathB tp) (.dt d) a)
        = .ok (.fin x) ∧ (lo : ℝ) ≤ x ∧ x ≤ hi := by
  refine Iv.within_ok (RelM.bind (iv_altitude tp d k1 k2 iv_lit0 (iv_lit _) (iv_lit _)) fun a b hab => ?_) h
  have h1 : (ivSim tp).r a b := hab
  have h2 : (ivSim tp).rW (.dt d) (.dt d) := ⟨_, rfl, rfl⟩
  have h3 := (ivSim tp).toSim.get_radiation_direct h2 h1
  exact h3

theorem iv_lit150 : Iv.rel (ivB.lit 150) (.fin 150) := by
  have h := iv_lit 150
  rwa [show ((150 : ℚ) : ℝ) = 150 by norm_num] at h

theorem iv_direct (tp : ℝ) {c : Civil} (hc : c.Valid) {lo hi : ℚ} (h : Iv.within (ivDirect c) lo hi = true) :
    ∃ alt r, get_altitude (mathB tp) (num 0) (num 150) (.dt (utcDT c)) (num 0) (num standard_temperature)
        (num standard_pressure) = .ok (num alt) ∧
      get_radiation_direct (mathB tp) (.dt (utcDT c)) (num alt) = .ok (num r) ∧ (lo : ℝ) ≤ r ∧ r ≤ hi := by
  obtain ⟨r, hr, r1, r2⟩ := iv_direct_within tp (utcDT c) iv_lit0 iv_lit150 h
  obtain ⟨a, ha, hr⟩ := bind_ok_inv hr
  obtain ⟨dec, H, e, -, -, x3, x4⟩ := C31_exceptions tp _ c (utcDT_fields hc) 0 150 0 standard_temperature standard_pressure
  obtain ⟨q, -, hq⟩ := x4 (fun hx => by
    rw [show get_altitude (mathB tp) (.fin 0) (.fin 150) (.dt (utcDT c)) (.fin 0) ((mathB tp).lit standard_temperature)
      ((mathB tp).lit standard_pressure) = .error .zeroDivision from x3.mpr hx] at ha
    cases ha)
  obtain rfl : num (e + q) = a := Except.ok.inj (hq.symm.trans ha)
  exact ⟨_, r, ha, hr, r1, r2⟩

/-- C147 is false: at the equator, 150 degrees east, at ten in the morning on 10 March 2020, the radiation falls from 987.86
to 986.27 W/m2 within the second of midnight UTC. -/
theorem C147_refuted (tp : ℝ) : ¬ C147Claim tp := by
  intro hc
  obtain ⟨alt, r, ha, hr, r1, -⟩ := iv_direct tp eveC_valid iv_eve
  obtain ⟨alt', r', ha', hr', -, r2⟩ := iv_direct tp midC_valid iv_mid
  obtain ⟨x, hx, x1, -⟩ := iv_altitude_within tp (utcDT eveC) iv_lit0 iv_lit150 iv_eve_alt
  obtain rfl : alt = x := num_injective (Except.ok.inj (ha.symm.trans hx))
  have := hc _ _ _ _ (utcDT_fields eveC_valid) (utcDT_fields midC_valid) rfl rfl (by decide) (by decide) (by decide) 0 150 0 alt alt'
    r r' (ymd2ord 2020 3 10) (by norm_num) (by norm_num) ha ha' ?_ ?_ (by norm_num at x1; linarith) hr hr'
  · norm_num at *
    linarith
  · have : eveC.micros = ymd2ord 2020 3 10 * 86400000000 - 1000000 := by decide
    unfold meanSolar
    rw [this]
    push_cast
    norm_num
    linarith
  · have : midC.micros = ymd2ord 2020 3 10 * 86400000000 := by decide
    unfold meanSolar
    rw [this]
    push_cast
    norm_num
    linarith

/-! ## C148: double precision -/

/-- The exact radiation of two altitudes from 1.99 to 89.91 degrees that differ by 9e-6 degrees. -/
theorem gap_radiation {n a b : ℝ} (h1 : 1.99 ≤ a) (hab : a + 9 / 10 ^ 6 ≤ b) (h2 : b ≤ 89.91) :
    fluxF n * exp (-(depthF n / sin (rad a))) + 3 / 10 ^ 11 ≤ fluxF n * exp (-(depthF n / sin (rad b))) := by
  have hp := pi_gt_d4
  have hp' := pi_lt_d4
  have hf := (fluxF_bounds n).1
  obtain ⟨hk1, hk2⟩ := depthF_bounds n
  set f := fluxF n
  set k := depthF n
  have hk0 : 0 < k := lt_of_lt_of_le (by norm_num) hk1
  have hb90 : b ≤ 90 := by norm_num at *; linarith
  have hlt : a < b := by norm_num at *; linarith
  have hs : 0.0346 ≤ sin (rad a) := by
    have h3 : sin (rad 1.99) ≤ sin (rad a) := by
      rcases h1.eq_or_lt with h | h
      · rw [h]
      · exact (sin_rad_lt (by norm_num) h (by norm_num at *; linarith)).le
    have h4 : 0.0347 < rad 1.99 := by unfold rad; norm_num at *; linarith
    have h5 : rad 1.99 < 0.035 := by unfold rad; norm_num at *; linarith
    have h6 := sin_gt_sub_cube (x := rad 1.99) (by norm_num at *; linarith)
    have h7 : rad 1.99 ^ 3 ≤ 0.035 ^ 3 := pow_le_pow_left₀ (by norm_num at *; linarith) h5.le 3
    norm_num at *
    linarith
  have hs0 : 0 < sin (rad a) := lt_of_lt_of_le (by norm_num) hs
  have hs' : 0 < sin (rad b) := sin_rad_pos' (by norm_num at *; linarith) hb90
  have hs1 : sin (rad b) ≤ 1 := sin_le_one _
  have hs2 : sin (rad a) ≤ 1 := sin_le_one _
  -- the difference of the sines
  have hd : 1.5 / 10 ^ 10 ≤ sin (rad b) - sin (rad a) := by
    have hx1 : 1.57 / 10 ^ 7 ≤ rad b - rad a := by
      rw [← rad_sub]
      unfold rad
      rw [le_div_iff₀ (by norm_num)]
      calc (1.57 / 10 ^ 7 * 180 : ℝ) ≤ 9 / 10 ^ 6 * 3.1415 := by norm_num
        _ ≤ (b - a) * π := by gcongr; linarith
    have hx2 : rad b - rad a ≤ π / 2 := by
      rw [← rad_sub, ← rad_90, rad_le_rad]
      linarith
    have e := sin_sub_sin (rad b) (rad a)
    have h3 : 2 / π * ((rad b - rad a) / 2) ≤ sin ((rad b - rad a) / 2) :=
      mul_le_sin (by norm_num at *; linarith) (by linarith [pi_pos])
    have h4 : 0.63 ≤ 2 / π := by
      rw [le_div_iff₀ pi_pos]
      norm_num at *
      linarith
    have h5 : 0.63 * (1.57 / 10 ^ 7 / 2) ≤ sin ((rad b - rad a) / 2) := by
      refine le_trans ?_ h3
      gcongr
    have h6 : cos (rad b) ≤ cos ((rad b + rad a) / 2) := by
      apply cos_le_cos_of_nonneg_of_le_pi
      · have : 0 < rad a := by rw [← rad_zero, rad_lt_rad]; norm_num at *; linarith
        have : 0 < rad b := by rw [← rad_zero, rad_lt_rad]; norm_num at *; linarith
        linarith
      · have : rad b ≤ π / 2 := by rw [← rad_90, rad_le_rad]; exact hb90
        linarith [pi_pos]
      · have : rad a ≤ rad b := by rw [rad_le_rad]; exact hlt.le
        linarith
    have h7 : 0.00156 ≤ cos (rad b) := by
      have e : cos (rad b) = sin (rad (90 - b)) := by rw [rad_sub, rad_90, sin_pi_div_two_sub]
      rw [e]
      have h8 : sin (rad 0.09) ≤ sin (rad (90 - b)) := by
        rcases (show (0.09 : ℝ) ≤ 90 - b by norm_num at *; linarith).eq_or_lt with h | h
        · rw [h]
        · exact (sin_rad_lt (by norm_num) h (by linarith)).le
      have h9 : 0.00157 < rad 0.09 := by unfold rad; norm_num at *; linarith
      have h10 : rad 0.09 < 0.00158 := by unfold rad; norm_num at *; linarith
      have h11 := sin_gt_sub_cube (x := rad 0.09) (by norm_num at *; linarith)
      have h12 : rad 0.09 ^ 3 ≤ 0.00158 ^ 3 := pow_le_pow_left₀ (by norm_num at *; linarith) h10.le 3
      norm_num at *
      linarith
    rw [e]
    calc (1.5 / 10 ^ 10 : ℝ) ≤ 2 * (0.63 * (1.57 / 10 ^ 7 / 2)) * 0.00156 := by norm_num
      _ ≤ 2 * sin ((rad b - rad a) / 2) * cos ((rad b + rad a) / 2) := by
        have := h7.trans h6
        have h0 : (0 : ℝ) ≤ 2 * (0.63 * (1.57 / 10 ^ 7 / 2)) := by norm_num
        exact mul_le_mul (by linarith) this (by norm_num) (by linarith)
  -- the exponents
  have hq : 0.139 * (1.5 / 10 ^ 10) ≤ k / sin (rad a) - k / sin (rad b) := by
    have e : k / sin (rad a) - k / sin (rad b) = k * (sin (rad b) - sin (rad a)) / (sin (rad a) * sin (rad b)) := by
      field_simp
    rw [e, le_div_iff₀ (by positivity)]
    have h3 : sin (rad a) * sin (rad b) ≤ 1 := mul_le_one₀ hs2 hs'.le hs1
    calc 0.139 * (1.5 / 10 ^ 10) * (sin (rad a) * sin (rad b)) ≤ 0.139 * (1.5 / 10 ^ 10) * 1 := by gcongr
      _ ≤ _ := by rw [mul_one]; gcongr
  have hE : 0.0023 ≤ exp (-(k / sin (rad a))) := by
    have h3 : k / sin (rad a) ≤ 6.05 := by
      rw [div_le_iff₀ hs0]
      norm_num at *
      linarith
    have h4 : exp (-6.05) ≤ exp (-(k / sin (rad a))) := exp_le_exp.mpr (by linarith)
    refine le_trans ?_ h4
    rw [exp_neg, le_inv_comm₀ (by norm_num) (exp_pos _)]
    have h5 : exp 6.05 ≤ 2.7182818286 ^ 6 * (1 / (1 - 0.05)) := by
      rw [show (6.05 : ℝ) = ((6 : ℕ) : ℝ) * 1 + 0.05 by norm_num, exp_add, exp_nat_mul]
      have h6 := exp_one_lt_d9.le
      have h7 : exp 0.05 ≤ 1 / (1 - 0.05) := exp_bound_div_one_sub_of_interval (by norm_num) (by norm_num)
      have h8 : exp 1 ^ 6 ≤ 2.7182818286 ^ 6 := pow_le_pow_left₀ (exp_pos _).le h6 6
      exact mul_le_mul h8 h7 (exp_pos _).le (by norm_num)
    refine h5.trans ?_
    norm_num
  have hb' : exp (-(k / sin (rad b))) = exp (-(k / sin (rad a))) * exp (k / sin (rad a) - k / sin (rad b)) := by
    rw [← exp_add]
    ring_nf
  have h3 := add_one_le_exp (k / sin (rad a) - k / sin (rad b))
  have h4 : 0.0023 * (0.139 * (1.5 / 10 ^ 10)) ≤ exp (-(k / sin (rad b))) - exp (-(k / sin (rad a))) := by
    rw [hb', ← mul_sub_one]
    exact mul_le_mul hE (by linarith) (by norm_num) (exp_pos _).le
  have h5 : 1085 * (0.0023 * (0.139 * (1.5 / 10 ^ 10))) ≤ f * (exp (-(k / sin (rad b))) - exp (-(k / sin (rad a)))) :=
    mul_le_mul hf h4 (by norm_num) (by linarith)
  norm_num at *
  linarith

theorem float_day (F : F64) {d d' : DateTime} {c c' : Civil} (h : UtcFields d c) (h' : UtcFields d' c') (hd : c'.date = c.date)
    {a b : ℝ} (h1 : 1.99 ≤ a) (hab : a + 9 / 10 ^ 6 ≤ b) (h2 : b ≤ 89.91) :
    ∃ r s, get_radiation_direct (rndB F) (.dt d) (flt F a) = .ok (flt F r) ∧
      get_radiation_direct (rndB F) (.dt d') (flt F b) = .ok (flt F s) ∧ r < s := by
  have hb90 : b ≤ 90 := by norm_num at *; linarith
  have hlt : a < b := by norm_num at *; linarith
  obtain ⟨x, x', hx, hx', ex⟩ := C105_direct_radiation F 0 d c h a (by norm_num at *; linarith) (hlt.le.trans hb90)
  obtain ⟨y, y', hy, hy', ey⟩ := C105_direct_radiation F 0 d' c' h' b (by norm_num at *; linarith) hb90
  refine ⟨x', y', hx', hy', ?_⟩
  have e1 := num_injective (Except.ok.inj (hx.symm.trans (up_value h (by norm_num at *; linarith) (hlt.le.trans hb90))))
  have e2 := num_injective (Except.ok.inj (hy.symm.trans (up_value h' (by norm_num at *; linarith) hb90)))
  rw [hd] at e2
  have k := gap_radiation (n := yday c.date) h1 hab h2
  rw [← e1, ← e2] at k
  have ex := abs_le.mp ex
  have ey := abs_le.mp ey
  norm_num at *
  linarith

/-- C148: computed in double precision with the default pressure and temperature, within one UTC date, for datetimes at least 15
seconds apart and elevation angles of at least 2 degrees: the direct radiation rises all morning and falls all afternoon. -/
theorem C148_double (F : F64) (tp : ℝ) (htp : 10 ^ 6 ≤ |tp|) (d d' : DateTime) (c c' : Civil) (h : UtcFields d c)
    (h' : UtcFields d' c') (hdate : c'.date = c.date) (hlt : c.micros + 15000000 ≤ c'.micros)
    (hy1 : 1901 ≤ c.year) (hy2 : c.year ≤ 2099)
    (lat lon elev : ℝ) (hlat : |lat| ≤ 66) (hlon : |lon| ≤ 360) (he : |elev| ≤ 50000) (day : ℤ) :
    ∃ dec H e dec' H' e',
      get_topocentric_position (mathB tp) (num lat) (num lon) (.dt d) (num elev) = .ok (num dec, num H) ∧
      get_topocentric_elevation_angle (mathB tp) (num lat) (num dec) (num H) = .ok (num e) ∧
      get_topocentric_position (mathB tp) (num lat) (num lon) (.dt d') (num elev) = .ok (num dec', num H') ∧
      get_topocentric_elevation_angle (mathB tp) (num lat) (num dec') (num H') = .ok (num e') ∧
      (2 ≤ e → 2 ≤ e' →
        (24 * day + 0.5 ≤ meanSolar lon c → meanSolar lon c' ≤ 24 * day + 11.5 → ∃ alt alt' r r',
          get_altitude (rndB F) (flt F lat) (flt F lon) (.dt d) (flt F elev) = .ok (flt F alt) ∧
          get_altitude (rndB F) (flt F lat) (flt F lon) (.dt d') (flt F elev) = .ok (flt F alt') ∧
          get_radiation_direct (rndB F) (.dt d) (flt F alt) = .ok (flt F r) ∧
          get_radiation_direct (rndB F) (.dt d') (flt F alt') = .ok (flt F r') ∧ r < r') ∧
        (24 * day + 12.5 ≤ meanSolar lon c → meanSolar lon c' ≤ 24 * day + 23.5 → ∃ alt alt' r r',
          get_altitude (rndB F) (flt F lat) (flt F lon) (.dt d) (flt F elev) = .ok (flt F alt) ∧
          get_altitude (rndB F) (flt F lat) (flt F lon) (.dt d') (flt F elev) = .ok (flt F alt') ∧
          get_radiation_direct (rndB F) (.dt d) (flt F alt) = .ok (flt F r) ∧
          get_radiation_direct (rndB F) (.dt d') (flt F alt') = .ok (flt F r') ∧ r' < r)) := by
  obtain ⟨dec, H, e, dec', H', e', p1, p2, p1', p2', k⟩ := climb_double F tp htp d d' c c' h h' (congrArg YMD.year hdate)
    (congrArg YMD.month hdate) hlt hy1 hy2 lat lon elev hlat hlon he day
  refine ⟨dec, H, e, dec', H', e', p1, p2, p1', p2', fun z z' => ?_⟩
  obtain ⟨k1, k2⟩ := k (.inr (.inr (by norm_num at *; linarith))) (.inr (.inr (by norm_num at *; linarith)))
  refine ⟨fun u v => ?_, fun u v => ?_⟩
  · obtain ⟨alt, alt', x, y, l1, l2, l3⟩ := k1 u v
    obtain ⟨r, s, hr, hs, hlt⟩ := float_day F h h' hdate (by norm_num at *; linarith) l2 l3
    exact ⟨alt, alt', r, s, x, y, hr, hs, hlt⟩
  · obtain ⟨alt, alt', x, y, l1, l2, l3⟩ := k2 u v
    obtain ⟨r, s, hr, hs, hlt⟩ := float_day F h' h hdate.symm (by norm_num at *; linarith) l2 l3
    exact ⟨alt, alt', s, r, x, y, hs, hr, hlt⟩

/-! ## The same place, two hours earlier and a second before midnight UTC -/

def earlyC : Civil := ⟨2020, 3, 9, 22, 0, 0, 0⟩

theorem earlyC_valid : earlyC.Valid := civil_valid_of_check (by decide)

set_option maxRecDepth 100000 in
theorem iv_early_alt : Iv.within (get_altitude ivB (ivB.lit 0) (ivB.lit 150) (.dt (utcDT earlyC)) (ivB.lit 0)
    (ivB.lit standard_temperature) (ivB.lit standard_pressure)) 20 40 = true := by
  decide +kernel

set_option maxRecDepth 100000 in
theorem iv_early_tea : Iv.within (do
    let p ← get_topocentric_position ivB (ivB.lit 0) (ivB.lit 150) (.dt (utcDT earlyC)) (ivB.lit 0)
    get_topocentric_elevation_angle ivB (ivB.lit 0) p.1 p.2) 20 40 = true := by
  decide +kernel

set_option maxRecDepth 100000 in
theorem iv_eve_tea : Iv.within (do
    let p ← get_topocentric_position ivB (ivB.lit 0) (ivB.lit 150) (.dt (utcDT eveC)) (ivB.lit 0)
    get_topocentric_elevation_angle ivB (ivB.lit 0) p.1 p.2) 57 58 = true := by
  decide +kernel

theorem early_eve : 24 * ((ymd2ord 2020 3 10 : ℤ) : ℝ) + 0.5 ≤ meanSolar 150 earlyC ∧
    meanSolar 150 eveC ≤ 24 * ((ymd2ord 2020 3 10 : ℤ) : ℝ) + 11.5 := by
  have e1 : earlyC.micros = ymd2ord 2020 3 10 * 86400000000 - 7200000000 := by decide
  have e2 : eveC.micros = ymd2ord 2020 3 10 * 86400000000 - 1000000 := by decide
  unfold meanSolar
  rw [e1, e2]
  push_cast
  constructor <;> norm_num <;> linarith

/-- C147 there: the radiation rises from eight to ten o'clock. -/
example (tp : ℝ) (htp : tp ≠ 0) : ∃ alt alt' r r',
    get_altitude (mathB tp) (num 0) (num 150) (.dt (utcDT earlyC)) (num 0) (num standard_temperature) (num standard_pressure)
      = .ok (num alt) ∧
    get_altitude (mathB tp) (num 0) (num 150) (.dt (utcDT eveC)) (num 0) (num standard_temperature) (num standard_pressure)
      = .ok (num alt') ∧
    get_radiation_direct (mathB tp) (.dt (utcDT earlyC)) (num alt) = .ok (num r) ∧
    get_radiation_direct (mathB tp) (.dt (utcDT eveC)) (num alt') = .ok (num r') ∧ r < r' := by
  obtain ⟨alt, ha, x1, -⟩ := iv_altitude_within tp (utcDT earlyC) iv_lit0 iv_lit150 iv_early_alt
  obtain ⟨alt', ha', -, -⟩ := iv_altitude_within tp (utcDT eveC) iv_lit0 iv_lit150 iv_eve_alt
  obtain ⟨r, r', hr, hr', hlt⟩ := (C147_same_date_partial tp htp _ _ _ _ (utcDT_fields earlyC_valid) (utcDT_fields eveC_valid) rfl
    (by decide) (by decide) (by decide) 0 150 0 (by norm_num) (by norm_num) alt alt' (ymd2ord 2020 3 10) ha ha').1 early_eve.1
    early_eve.2 (by norm_num at x1; linarith)
  exact ⟨alt, alt', r, r', ha, ha', hr, hr', hlt⟩

/-- C148 there. -/
example (F : F64) : ∃ alt alt' r r',
    get_altitude (rndB F) (flt F 0) (flt F 150) (.dt (utcDT earlyC)) (flt F 0) = .ok (flt F alt) ∧
    get_altitude (rndB F) (flt F 0) (flt F 150) (.dt (utcDT eveC)) (flt F 0) = .ok (flt F alt') ∧
    get_radiation_direct (rndB F) (.dt (utcDT earlyC)) (flt F alt) = .ok (flt F r) ∧
    get_radiation_direct (rndB F) (.dt (utcDT eveC)) (flt F alt') = .ok (flt F r') ∧ r < r' := by
  obtain ⟨dec, H, e, dec', H', e', p1, p2, p1', p2', k⟩ := C148_double F (10 ^ 6) (by norm_num) _ _ _ _ (utcDT_fields earlyC_valid)
    (utcDT_fields eveC_valid) rfl (by decide) (by decide) (by decide) 0 150 0 (by norm_num) (by norm_num [abs_of_pos]) (by norm_num)
    (ymd2ord 2020 3 10)
  obtain ⟨x, hx, x1, -⟩ := iv_elevation_within (10 ^ 6) (utcDT earlyC) iv_lit0 iv_lit150 iv_early_tea
  obtain ⟨y, hy, y1, -⟩ := iv_elevation_within (10 ^ 6) (utcDT eveC) iv_lit0 iv_lit150 iv_eve_tea
  have q1 : get_topocentric_position (mathB (10 ^ 6)) (.fin 0) (.fin 150) (.dt (utcDT earlyC)) (.fin 0)
      = .ok (num dec, num H) := p1
  have q1' : get_topocentric_position (mathB (10 ^ 6)) (.fin 0) (.fin 150) (.dt (utcDT eveC)) (.fin 0)
      = .ok (num dec', num H') := p1'
  rw [q1, ok_bind] at hx
  rw [q1', ok_bind] at hy
  obtain rfl : e = x := num_injective (Except.ok.inj (p2.symm.trans hx))
  obtain rfl : e' = y := num_injective (Except.ok.inj (p2'.symm.trans hy))
  exact (k (by norm_num at x1; linarith) (by norm_num at y1; linarith)).1 early_eve.1 early_eve.2

end Verif.Props
