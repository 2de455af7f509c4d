import Verif.Props.SolarTestLines
import Verif.Props.FastAccuracy

/-!
# C123: a whole run of `solar_test`

The hypotheses of `C123_completes_partial` hold for the run started at 2020-06-01 12:05:00 UTC. Away from the horizon the
side on which the sun is follows from `get_altitude_fast`, which is cheap to enclose, and C88; the four half-hours near
sunset and sunrise are enclosed with the precise functions.
-/

namespace Verif.Props

open Verif.Spec Pysolar Pysolar.Solar Pysolar.Radiation Pysolar.Constants Real

theorem iv_fast_within (tp : ℝ) {latI lonI : ivB.α} {lat lon : V} (d : DateTime) (k1 : Iv.rel latI lat)
    (k2 : Iv.rel lonI lon) {lo hi : ℚ} (h : Iv.within (get_altitude_fast ivB latI lonI (.dt d)) lo hi = true) :
    ∃ x : ℝ, get_altitude_fast (mathB tp) lat lon (.dt d) = .ok (.fin x) ∧ (lo : ℝ) ≤ x ∧ x ≤ hi := by
  have h1 : (ivSim tp).r latI lat := k1
  have h2 : (ivSim tp).r lonI lon := k2
  have hw : (ivSim tp).rW (.dt d) (.dt d) := ⟨d, rfl, rfl⟩
  have key := (ivSim tp).toSim.get_altitude_fast h1 h2 hw
  exact Iv.within_ok key h

theorem sin_refr_below {a : ℝ} (h1 : -90 ≤ a) (h2 : a ≤ -5.2) : sin (refrArg a) < 0 := by
  have hu : a + 5.11 < 0 := by norm_num at *; linarith
  have q : 10.3 / (a + 5.11) < 0 := div_neg_of_pos_of_neg (by norm_num) hu
  have q2 : -150 ≤ 10.3 / (a + 5.11) + a := by
    have : 10.3 / (a + 5.11) + a + 150 = (10.3 + (a + 150) * (a + 5.11)) / (a + 5.11) := by
      rw [add_div, mul_div_cancel_right₀ _ hu.ne]; ring
    have h3 : 0 ≤ (10.3 + (a + 150) * (a + 5.11)) / (a + 5.11) := by
      refine div_nonneg_of_nonpos ?_ hu.le
      norm_num at *
      nlinarith [mul_nonneg (by linarith : 0 ≤ a + 90) (by linarith : 0 ≤ -26 / 5 - a)]
    linarith
  have e : refrArg a = (a + 10.3 / (a + 5.11)) / 180 * π := by rw [refrArg_eq]; unfold rad bennett; ring
  have hp := pi_pos
  rw [e]
  refine sin_neg_of_neg_of_neg_pi_lt ?_ ?_
  · norm_num at *
    nlinarith
  · norm_num at *
    nlinarith

/-- The fast altitude decides the side of the horizon, away from it. -/
theorem fast_side {tp : ℝ} (htp : 1 ≤ |tp|) {d : DateTime} {c : Civil} (h : UtcFields d c) (hy1 : 1901 ≤ c.year)
    (hy2 : c.year ≤ 2099) {lat lon f : ℝ} (h1 : -90 < lat) (h2 : lat < 90)
    (hf : get_altitude_fast (mathB tp) (num lat) (num lon) (.dt d) = .ok (num f)) :
    (2.4 ≤ f → f ≤ 80 → ∃ alt, get_altitude (mathB tp) (num lat) (num lon) (.dt d) = .ok (num alt) ∧ 0 < alt) ∧
    (f ≤ -7.6 → ∃ alt, get_altitude (mathB tp) (num lat) (num lon) (.dt d) = .ok (num alt) ∧ alt ≤ -0.0171) := by
  have htp0 : tp ≠ 0 := by rintro rfl; norm_num at htp
  have hT : (standard_temperature : ℝ) ≠ 0 := by norm_num [standard_temperature]
  obtain ⟨dec, H, e, f', e1, e2, e3, hd⟩ := C88_fast_altitude tp d c h hy1 hy2 lat lon 0 h1 h2 (by norm_num)
  obtain rfl := num_injective (Except.ok.inj (hf.symm.trans e3))
  obtain ⟨dec', H', e', e1', e2', -, hok⟩ := C31_exceptions tp d c h lat lon 0 standard_temperature standard_pressure
  have ee := e1.symm.trans e1'
  injection ee with ee
  obtain rfl := num_injective (congrArg Prod.fst ee)
  obtain rfl := num_injective (congrArg Prod.snd ee)
  obtain rfl := num_injective (Except.ok.inj (e2.symm.trans e2'))
  have hb : -90 ≤ e ∧ e ≤ 90 := by
    rw [tea_eval] at e2
    rw [← num_injective (Except.ok.inj e2)]
    exact deg_arcsin_bounds _
  have hd' := abs_le.1 hd
  constructor
  · intro a b
    have he : 0.1 ≤ e ∧ e ≤ 82.3 := by constructor <;> norm_num at * <;> linarith
    have hge : -0.83337 ≤ e := by norm_num at *; linarith
    have hz : e ≤ 89.891 := by norm_num at *; linarith
    have hs := sin_bennett hge hb.2
    obtain ⟨r, hr, ha⟩ := hok (by
      push Not
      refine ⟨hT, by intro x; norm_num at *; linarith, tanP_ne_of_sin htp0 ?_⟩
      exact (lt_trans (by norm_num) hs).ne')
    obtain ⟨r', hr', hp, -⟩ := C30_sign tp standard_pressure standard_temperature e htp0 (by norm_num [standard_pressure])
      (by norm_num [standard_temperature]) hge hb.2 ((C30_zenith_zero e hge).1 hz).ne
    obtain rfl := num_injective (Except.ok.inj (hr.symm.trans hr'))
    have := hp ((C30_zenith_zero e hge).1 hz)
    refine ⟨e + r, by rw [m_zero]; exact ha, ?_⟩
    norm_num at *
    linarith
  · intro a
    have he : e ≤ -5.2 := by norm_num at *; linarith
    obtain ⟨r, hr, ha⟩ := hok (by
      push Not
      refine ⟨hT, by intro x; norm_num at *; linarith, tanP_ne_of_sin htp0 (sin_refr_below hb.1 he).ne⟩)
    have hr0 := num_injective (C30_zero_below _ _ _ _ (by norm_num at *; linarith) _ hr)
    refine ⟨e + r, by rw [m_zero]; exact ha, ?_⟩
    rw [hr0]
    norm_num at *
    linarith

/-! ## Exactly when the run completes -/

/-- The direct radiation for this day and altitude overflows. -/
def Overflows (tp : ℝ) (c : Civil) (alt : ℝ) : Prop :=
  alt < 0 ∧ ∃ depth, get_optical_depth (mathB tp) (num (yday c.date)) = .ok (num depth) ∧
    2 ^ 1024 ≤ exp (depth / |sin (rad alt)|)

theorem direct_cases {tp : ℝ} {d : DateTime} {c : Civil} (h : UtcFields d c) {alt : ℝ} (h1 : -90 ≤ alt) (h2 : alt < 91) :
    (¬ Overflows tp c alt → ∃ r, get_radiation_direct (mathB tp) (.dt d) (num alt) = .ok (num r)) ∧
    (Overflows tp c alt → get_radiation_direct (mathB tp) (.dt d) (num alt) = .error .overflow) := by
  rcases lt_trichotomy alt 0 with hn | rfl | hp
  · obtain ⟨depth, hd, ok, bad⟩ := C41_band_partial tp d c h alt h1 hn
    refine ⟨fun hno => ⟨0, ok (not_le.1 fun hx => hno ⟨hn, depth, hd, hx⟩)⟩, ?_⟩
    rintro ⟨-, depth', hd', hx⟩
    obtain rfl := num_injective (Except.ok.inj (hd.symm.trans hd'))
    exact bad hx
  · exact ⟨fun _ => ⟨0, C41_zero_partial tp d c h 0 (by norm_num) (.inr rfl)⟩, fun hx => absurd hx.1 (lt_irrefl _)⟩
  · obtain ⟨r, hr, -⟩ := direct_above (tp := tp) h hp h2
    exact ⟨fun _ => ⟨r, hr⟩, fun hx => absurd hx.1 hp.not_gt⟩

/-- C123, exactly: as long as the altitudes exist, the run completes if and only if at none of the 48 half-hours the sun is
below the horizon with `exp(depth / |sin altitude|)` at least 2^1024; otherwise it ends with `OverflowError` at the first
such half-hour. -/
theorem C123_exact_partial (tp : ℝ) (htp : 1 ≤ |tp|) (t : ℕ → Civil) (ht : HalfHours t) (alt : ℕ → ℝ)
    (halt : ∀ k < 48, get_altitude (mathB tp) (num 42.364908) (num (-71.112828)) (.dt (utcDT (t k))) = .ok (num (alt k))) :
    ((solar_test (mathB tp) (utcDT (t 0))).err = none ↔ ∀ k < 48, ¬ Overflows tp (t k) (alt k)) ∧
    (∀ m < 48, Overflows tp (t m) (alt m) → (∀ k < m, ¬ Overflows tp (t k) (alt k)) →
      (solar_test (mathB tp) (utcDT (t 0))).err = some .overflow ∧
      (solar_test (mathB tp) (utcDT (t 0))).printed.map Line.timestamp =
        ((List.range m).filter fun k => 0 < alt k).map fun k => ctime (t k)) := by
  have hpow : ∀ k, ∃ r, k < 48 → ¬ Overflows tp (t k) (alt k) →
      get_radiation_direct (mathB tp) (.dt (utcDT (t k))) (num (alt k)) = .ok (num r) := by
    intro k
    by_cases hk : k < 48 ∧ ¬ Overflows tp (t k) (alt k)
    · have hu := utcDT_fields (ht k hk.1.le).1
      obtain ⟨r1, r2⟩ := altitude_range htp hu (halt k hk.1)
      obtain ⟨r, hr⟩ := (direct_cases (tp := tp) hu r1 r2).1 hk.2
      exact ⟨r, fun _ _ => hr⟩
    · exact ⟨0, fun h h' => absurd ⟨h, h'⟩ hk⟩
  choose pow hpow using hpow
  have hazi : ∀ k, ∃ a, k < 48 →
      get_azimuth (mathB tp) (num 42.364908) (num (-71.112828)) (.dt (utcDT (t k))) = .ok (num a) := by
    intro k
    by_cases hk : k < 48
    · obtain ⟨a, h1, -⟩ := C17_azimuth_bearing tp _ _ (utcDT_fields (ht k hk.le).1) 42.364908 (-71.112828) 0
      exact ⟨a, fun _ => by rw [m_zero]; exact h1⟩
    · exact ⟨0, fun h => absurd h hk⟩
  choose azi hazi using hazi
  have hstop : ∀ m < 48, Overflows tp (t m) (alt m) → (∀ k < m, ¬ Overflows tp (t k) (alt k)) →
      (solar_test (mathB tp) (utcDT (t 0))).err = some .overflow ∧
      (solar_test (mathB tp) (utcDT (t 0))).printed.map Line.timestamp =
        ((List.range m).filter fun k => 0 < alt k).map fun k => ctime (t k) := by
    intro m hm ho hfirst
    have hu := utcDT_fields (ht m hm.le).1
    obtain ⟨r1, r2⟩ := altitude_range htp hu (halt m hm)
    have hs : solarTestStep (mathB tp) (utcDT (t m)) = .error .overflow := by
      unfold solarTestStep
      dsimp only
      rw [step_lat, step_lon, halt m hm, ok_bind, hazi m hm, ok_bind, (direct_cases (tp := tp) hu r1 r2).2 ho]
      rfl
    have hrun := loop_stop m 48 (fun k => utcDT (t k)) _ hm
      (fun k hk => step_eval (halt k (by omega)) (hazi k (by omega)) (hpow k (by omega) (hfirst k hk)))
      (fun k hk => ht.add (by omega)) hs
    unfold solar_test
    rw [hrun]
    refine ⟨rfl, ?_⟩
    rw [List.map_filterMap, ← List.filterMap_eq_filter, List.map_filterMap]
    congr 1
    funext k
    by_cases hk : 0 < alt k <;> simp [hk, Option.guard]
  refine ⟨⟨?_, ?_⟩, hstop⟩
  · intro he
    by_contra hex
    push Not at hex
    classical
    obtain ⟨h1, h2⟩ := Nat.find_spec hex
    have := (hstop _ h1 h2 fun k hk hx => Nat.find_min hex hk ⟨by omega, hx⟩).1
    rw [he] at this
    cases this
  · intro hall
    have hrun := loop_eval 48 (fun k => utcDT (t k)) _
      (fun k hk => step_eval (halt k hk) (hazi k hk) (hpow k hk (hall k hk))) (fun k hk => ht.add (by omega))
    unfold solar_test
    rw [hrun]

/-! ## 2020-06-01 12:05:00 UTC -/

def morning : Civil := ⟨2020, 6, 1, 12, 5, 0, 0⟩

theorem morning_valid : morning.Valid := civil_valid_of_check (by decide)

/-- The half-hours of the run. -/
def runT (k : ℕ) : Civil := civilOfMicros (morning.micros + 1800000000 * k)

theorem runT_halfHours : HalfHours runT := halfHours_from morning_valid (by decide)

/-- Half-hours at which the sun is up. -/
def upAt (k : ℕ) : Bool := k ≤ 24 || 43 ≤ k

set_option maxRecDepth 100000 in
theorem run_fast : ∀ k ∈ List.range 48, k ∈ [24, 25, 41, 42] ∨ Iv.within (get_altitude_fast ivB latI lonI (.dt (utcDT (runT k))))
    (if upAt k then 2.4 else -80) (if upAt k then 80 else -7.6) = true := by
  decide +kernel

theorem run_year : ∀ k ∈ List.range 48, (runT k).year = 2020 := by decide +kernel

set_option maxRecDepth 100000 in
theorem run_24 : Iv.within (get_altitude ivB latI lonI (.dt (utcDT (runT 24))) (ivB.lit 0)
    (ivB.lit standard_temperature) (ivB.lit standard_pressure)) 0.1 2 = true := by
  decide +kernel

set_option maxRecDepth 100000 in
theorem run_25 : Iv.within (get_altitude ivB latI lonI (.dt (utcDT (runT 25))) (ivB.lit 0)
    (ivB.lit standard_temperature) (ivB.lit standard_pressure)) (-5) (-2) = true := by
  decide +kernel

set_option maxRecDepth 100000 in
theorem run_41 : Iv.within (get_altitude ivB latI lonI (.dt (utcDT (runT 41))) (ivB.lit 0)
    (ivB.lit standard_temperature) (ivB.lit standard_pressure)) (-8) (-4) = true := by
  decide +kernel

set_option maxRecDepth 100000 in
theorem run_42 : Iv.within (get_altitude ivB latI lonI (.dt (utcDT (runT 42))) (ivB.lit 0)
    (ivB.lit standard_temperature) (ivB.lit standard_pressure)) (-3) (-0.1) = true := by
  decide +kernel

theorem run_alt (tp : ℝ) (htp : 1 ≤ |tp|) (k : ℕ) (hk : k < 48) :
    ∃ alt, get_altitude (mathB tp) (num 42.364908) (num (-71.112828)) (.dt (utcDT (runT k))) = .ok (num alt) ∧
      (alt ≤ -0.0171 ∨ 0 ≤ alt) ∧ (0 < alt ↔ upAt k) := by
  have r1 := latI_rel (x := 42.364908) (by norm_num)
  have r2 := lonI_rel (x := -71.112828) (by norm_num)
  have full : ∀ {lo hi : ℚ}, Iv.within (get_altitude ivB latI lonI (.dt (utcDT (runT k))) (ivB.lit 0)
      (ivB.lit standard_temperature) (ivB.lit standard_pressure)) lo hi = true →
      ∃ alt, get_altitude (mathB tp) (num 42.364908) (num (-71.112828)) (.dt (utcDT (runT k))) = .ok (num alt) ∧
        lo ≤ alt ∧ alt ≤ hi := by
    intro lo hi h
    obtain ⟨x, hx, h3, h4⟩ := iv_altitude_within tp (utcDT (runT k)) r1 r2 h
    exact ⟨x, by rw [m_zero]; exact hx, h3, h4⟩
  have above : ∀ alt : ℝ, upAt k = true → 0 < alt → (alt ≤ -0.0171 ∨ 0 ≤ alt) ∧ (0 < alt ↔ upAt k) :=
    fun alt h h' => ⟨.inr h'.le, by simp [h, h']⟩
  have below : ∀ alt : ℝ, upAt k = false → alt ≤ -0.0171 → (alt ≤ -0.0171 ∨ 0 ≤ alt) ∧ (0 < alt ↔ upAt k) :=
    fun alt h h' => ⟨.inl h', by
      have : ¬ 0 < alt := by norm_num at *; linarith
      simp [h, this]⟩
  rcases run_fast k (List.mem_range.2 hk) with hm | hf
  · simp only [List.mem_cons, List.not_mem_nil, or_false] at hm
    rcases hm with rfl | rfl | rfl | rfl
    · obtain ⟨alt, ha, h1, -⟩ := full run_24
      exact ⟨alt, ha, above alt rfl (by norm_num at h1; linarith)⟩
    · obtain ⟨alt, ha, -, h1⟩ := full run_25
      exact ⟨alt, ha, below alt rfl (by norm_num at h1 ⊢; linarith)⟩
    · obtain ⟨alt, ha, -, h1⟩ := full run_41
      exact ⟨alt, ha, below alt rfl (by norm_num at h1 ⊢; linarith)⟩
    · obtain ⟨alt, ha, -, h1⟩ := full run_42
      exact ⟨alt, ha, below alt rfl (by norm_num at h1 ⊢; linarith)⟩
  · obtain ⟨f, hf, h3, h4⟩ := iv_fast_within tp (utcDT (runT k)) r1 r2 hf
    have hy := run_year k (List.mem_range.2 hk)
    obtain ⟨s1, s2⟩ := fast_side htp (utcDT_fields (runT_halfHours k hk.le).1) (by omega) (by omega) (by norm_num) (by norm_num) hf
    rcases Bool.eq_false_or_eq_true (upAt k) with hu | hu
    · rw [hu] at h3 h4
      obtain ⟨alt, ha, h⟩ := s1 (by norm_num at h3 ⊢; linarith) (by norm_num at h4 ⊢; linarith)
      exact ⟨alt, ha, above alt hu h⟩
    · rw [hu] at h4
      obtain ⟨alt, ha, h⟩ := s2 (by norm_num at h4 ⊢; linarith)
      exact ⟨alt, ha, below alt hu h⟩

/-- A run that meets the hypotheses of `C123_completes_partial`: started at 2020-06-01 12:05:00 UTC, `solar_test` ends
normally, having printed 30 lines, for the half-hours until 00:05 and from 09:35. -/
theorem C123_whole_day_partial (tp : ℝ) (htp : 1 ≤ |tp|) :
    (solar_test (mathB tp) (utcDT morning)).err = none ∧
    (solar_test (mathB tp) (utcDT morning)).printed.map Line.timestamp =
      ((List.range 48).filter fun k => k ≤ 24 || 43 ≤ k).map fun k => ctime (runT k) := by
  choose! alt halt using fun k hk => run_alt tp htp k hk
  have h0 : runT 0 = morning := by
    unfold runT
    rw [Nat.cast_zero, mul_zero, add_zero, civilOfMicros_micros morning_valid.2.2]
  obtain ⟨azi, pow, -, he, hp⟩ := C123_completes_partial tp htp runT runT_halfHours alt (fun k hk => (halt k hk).1)
    (fun k hk => (halt k hk).2.1)
  rw [h0] at he hp
  refine ⟨he, ?_⟩
  rw [hp, List.map_map]
  have hfil : ((List.range 48).filter fun k => decide (0 < alt k)) = (List.range 48).filter fun k => k ≤ 24 || 43 ≤ k :=
    List.filter_congr fun k hk => by
      have := (halt k (List.mem_range.1 hk)).2.2
      rw [Bool.eq_iff_iff, decide_eq_true_iff, this]
      rfl
  rw [hfil]
  rfl

example : ((List.range 48).filter fun k => k ≤ 24 || 43 ≤ k).length = 30 := by decide
example : ctime (runT 24) = "Tue Jun  2 00:05:00 2020".toList := by decide +kernel
example : ctime (runT 43) = "Tue Jun  2 09:35:00 2020".toList := by decide +kernel

/-- This run meets the hypothesis of `C125_complete`. -/
example (tp : ℝ) (htp : 1 ≤ |tp|) : ∃ l : List ℕ, l.Sublist (List.range 48) ∧
    List.Forall₂ (LineFor (mathB tp) (utcDT morning)) l (solar_test (mathB tp) (utcDT morning)).printed ∧
    ∀ k < 48, k ∉ l → NoLine (mathB tp) (utcDT morning) k :=
  C125_complete _ _ morning_valid (C123_whole_day_partial tp htp).1

end Verif.Props
