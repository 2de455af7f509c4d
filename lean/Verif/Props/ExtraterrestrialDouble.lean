import Verif.Props.YearlyRange
import Verif.Props.EphemerisDouble
import Verif.Props.FloatIrradiance

/-!
# C175: extraterrestrial irradiance in double precision

Whatever latitude, longitude and time are passed, even an infinity or nan, what `extraterrestrial_irrad` returns in IEEE double
precision with the default solar constant is nan or a number from 0 to 1417: the rounding of the sines, the cosines, the products
and the sums never makes it negative, nor more than the solar constant at the nearest approach to the sun.
-/

namespace Verif.Props

open Verif Verif.Spec Pysolar Pysolar.Util Chain

/-- The sine and the cosine of one angle, each rounded or nan. -/
def SinCos (s c : V) : Prop := s = .nan ∨ ∃ a : ℝ, s = .fin (b64 (Real.sin a)) ∧ c = .fin (b64 (Real.cos a))

theorem sin_cos {x s c : V} (h : (rndB binary64).sin x = .ok s) (h' : (rndB binary64).cos x = .ok c) : SinCos s c := by
  cases x with
  | fin a => exact .inr ⟨a, (Except.ok.inj h).symm, (Except.ok.inj h').symm⟩
  | nan => exact .inl (Except.ok.inj h).symm
  | _ => cases h

theorem sin_cos_numpy {x s c : V} (h : (nprB binary64).sin x = .ok s) (h' : (nprB binary64).cos x = .ok c) : SinCos s c := by
  cases x with
  | fin a => exact .inr ⟨a, (Except.ok.inj h).symm, (Except.ok.inj h').symm⟩
  | _ => exact .inl (Except.ok.inj h).symm

/-- Rounding barely changes the sum of the squares of a sine and a cosine. -/
theorem squares (a : ℝ) : b64 (Real.sin a) ^ 2 + b64 (Real.cos a) ^ 2 ≤ 1 + 1 / 10 ^ 9 := by
  have h := Real.sin_sq_add_cos_sq a
  have s := abs_le.1 (Real.abs_sin_le_one a)
  have c := abs_le.1 (Real.abs_cos_le_one a)
  have es := abs_le.1 (size64 (Real.abs_sin_le_one a))
  have ec := abs_le.1 (size64 (Real.abs_cos_le_one a))
  norm_num at es ec ⊢
  nlinarith

theorem round_ge {x : ℝ} {m : ℝ} (h : |x| ≤ m) (hm : m ≤ 10000) : V.rnd binary64 (.fin x) = .fin (b64 x) ∧ |b64 x - x| ≤ 1 / 10 ^ 9 := by
  refine ⟨vrnd64 (h.trans (hm.trans (by norm_num))) rfl, (size64 (h.trans hm)).trans (by norm_num)⟩

/-- The sine of the altitude as computed. -/
noncomputable def zenith64 (s1 s2 c1 c2 c3 : V) : V :=
  V.rnd binary64 (V.add (V.rnd binary64 (V.mul s1 s2)) (V.rnd binary64 (V.mul (V.rnd binary64 (V.mul c1 c2)) c3)))

theorem zenith_le {s1 s2 c1 c2 c3 : V} (h1 : SinCos s1 c1) (h2 : SinCos s2 c2) (h3 : Sine c3) :
    Within (-2) (1 + 1 / 10 ^ 8) (zenith64 s1 s2 c1 c2 c3) := by
  unfold zenith64
  rcases h1 with rfl | ⟨a, rfl, rfl⟩
  · exact .inl rfl
  rcases h2 with rfl | ⟨b, rfl, rfl⟩
  · exact .inl rfl
  rcases h3 with rfl | ⟨t, rfl, ht⟩
  · refine .inl ?_
    rcases V.rnd binary64 (V.mul (.fin (b64 (Real.cos a))) (.fin (b64 (Real.cos b)))) with _ | _ | _ | _ <;>
      rcases V.rnd binary64 (V.mul (.fin (b64 (Real.sin a))) (.fin (b64 (Real.sin b)))) with _ | _ | _ | _ <;> rfl
  have qa := squares a
  have qb := squares b
  have sa := b64_abs_le_one (Real.abs_sin_le_one a)
  have ca := b64_abs_le_one (Real.abs_cos_le_one a)
  have sb := b64_abs_le_one (Real.abs_sin_le_one b)
  have cb := b64_abs_le_one (Real.abs_cos_le_one b)
  generalize b64 (Real.sin a) = s1 at *
  generalize b64 (Real.cos a) = c1 at *
  generalize b64 (Real.sin b) = s2 at *
  generalize b64 (Real.cos b) = c2 at *
  have m1 : |s1 * s2| ≤ 1 := by rw [abs_mul]; exact mul_le_one₀ sa (abs_nonneg _) sb
  have m2 : |c1 * c2| ≤ 1 := by rw [abs_mul]; exact mul_le_one₀ ca (abs_nonneg _) cb
  have k2 := b64_abs_le_one m2
  have m3 : |b64 (c1 * c2) * t| ≤ 1 := by rw [abs_mul]; exact mul_le_one₀ k2 (abs_nonneg _) ht
  have k1 := b64_abs_le_one m1
  have k3 := b64_abs_le_one m3
  obtain ⟨r1, e1⟩ := round_ge m1 (by norm_num)
  obtain ⟨r2, e2⟩ := round_ge m2 (by norm_num)
  obtain ⟨r3, e3⟩ := round_ge m3 (by norm_num)
  have m4 : |b64 (s1 * s2) + b64 (b64 (c1 * c2) * t)| ≤ 2 := (abs_add_le _ _).trans (by linarith)
  obtain ⟨r4, e4⟩ := round_ge m4 (by norm_num)
  refine .inr ⟨b64 (b64 (s1 * s2) + b64 (b64 (c1 * c2) * t)), ?_, ?_, ?_⟩
  · simp only [V.mul, V.add, r1, r2, r3, r4]
  · have := b64_mono (show ((-2 : ℤ) : ℝ) ≤ b64 (s1 * s2) + b64 (b64 (c1 * c2) * t) by push_cast; linarith [(abs_le.1 m4).1])
    rw [b64_int _ (by norm_num)] at this
    exact_mod_cast this
  · have w : b64 (c1 * c2) * t ≤ |b64 (c1 * c2)| := by
      refine (le_abs_self _).trans ?_
      rw [abs_mul]
      exact mul_le_of_le_one_right (abs_nonneg _) ht
    have w' : |b64 (c1 * c2)| ≤ |c1 * c2| + 1 / 10 ^ 9 := by
      have := abs_add_le (c1 * c2) (b64 (c1 * c2) - c1 * c2)
      rw [add_sub_cancel] at this
      linarith
    have y1 : s1 * s2 ≤ (s1 ^ 2 + s2 ^ 2) / 2 := by nlinarith [sq_nonneg (s1 - s2)]
    have y2 : |c1 * c2| ≤ (c1 ^ 2 + c2 ^ 2) / 2 := abs_le.2 ⟨by nlinarith [sq_nonneg (c1 + c2)], by nlinarith [sq_nonneg (c1 - c2)]⟩
    have := (abs_le.1 e1).2
    have := (abs_le.1 e3).2
    have := (abs_le.1 e4).2
    norm_num at *
    linarith

/-- The correction for the distance of the sun as computed. -/
noncomputable def eccentricity64 (ab bc cd df : V) : V :=
  V.rnd binary64 (V.add (V.rnd binary64 (V.add (V.rnd binary64 (V.add (V.rnd binary64 (V.add (.fin (b64 ((1.00010 : ℚ) : ℝ)))
    (V.rnd binary64 (V.mul (.fin (b64 ((0.034221 : ℚ) : ℝ))) ab)))) (V.rnd binary64 (V.mul (.fin (b64 ((0.001280 : ℚ) : ℝ))) bc))))
    (V.rnd binary64 (V.mul (.fin (b64 ((0.000719 : ℚ) : ℝ))) cd)))) (V.rnd binary64 (V.mul (.fin (b64 ((0.000077 : ℚ) : ℝ))) df)))

theorem term {q : ℚ} (q0 : 0 ≤ q) (q1 : q ≤ 1) {s : V} (h : Sine s) :
    Within (-(q + 1 / 10 ^ 9)) (q + 1 / 10 ^ 9) (V.rnd binary64 (V.mul (.fin (b64 q)) s)) := by
  have c0 : (0 : ℝ) ≤ q := by exact_mod_cast q0
  have c1 : (q : ℝ) ≤ 1 := by exact_mod_cast q1
  have := (abs_le.1 (round_ge (abs_le.2 ⟨by linarith, c1⟩) (by norm_num)).2).2
  exact within_weaken (by linarith) (by linarith) (times_sine q0 (q1.trans (by norm_num)) h)

theorem sum_within {a b c d : ℝ} (h0 : -100 ≤ a + c) (h1 : b + d ≤ 100) {x y : V} (hx : Within a b x) (hy : Within c d y) :
    Within (a + c - 1 / 10 ^ 9) (b + d + 1 / 10 ^ 9) (V.rnd binary64 (V.add x y)) := by
  rcases hx with rfl | ⟨x, rfl, x0, x1⟩
  · exact .inl rfl
  rcases hy with rfl | ⟨y, rfl, y0, y1⟩
  · exact .inl rfl
  obtain ⟨r, e⟩ := round_ge (x := x + y) (m := 100) (abs_le.2 ⟨by linarith, by linarith⟩) (by norm_num)
  have := abs_le.1 e
  exact .inr ⟨_, r, by linarith, by linarith⟩

theorem eccentricity_range {ab bc cd df : V} (h1 : Sine ab) (h2 : Sine bc) (h3 : Sine cd) (h4 : Sine df) :
    Within 0.9638 1.0364 (eccentricity64 ab bc cd df) := by
  have k := abs_le.1 (round_ge (x := ((1.00010 : ℚ) : ℝ)) (m := 2) (by norm_num) (by norm_num)).2
  have t0 : Within (1.00010 - 1 / 10 ^ 9) (1.00010 + 1 / 10 ^ 9) (.fin (b64 ((1.00010 : ℚ) : ℝ))) :=
    .inr ⟨_, rfl, by norm_num at k ⊢; linarith, by norm_num at k ⊢; linarith⟩
  have t1 := sum_within (by norm_num) (by norm_num) t0 (term (q := 0.034221) (by norm_num) (by norm_num) h1)
  have t2 := sum_within (by norm_num) (by norm_num) t1 (term (q := 0.001280) (by norm_num) (by norm_num) h2)
  have t3 := sum_within (by norm_num) (by norm_num) t2 (term (q := 0.000719) (by norm_num) (by norm_num) h3)
  have t4 := sum_within (by norm_num) (by norm_num) t3 (term (q := 0.000077) (by norm_num) (by norm_num) h4)
  exact within_weaken (by norm_num) (by norm_num) t4

/-- Product of two non-negative ranges. -/
theorem prod_within {a b c d : ℝ} (a0 : 0 ≤ a) (c0 : 0 ≤ c) (hb : b * d ≤ 10000) {x y : V} (hx : Within a b x) (hy : Within c d y) :
    Within 0 (b * d + 1 / 10 ^ 9) (V.rnd binary64 (V.mul x y)) := by
  rcases hx with rfl | ⟨x, rfl, x0, x1⟩
  · exact .inl rfl
  rcases hy with rfl | ⟨y, rfl, y0, y1⟩
  · exact .inl rfl
  have p0 : 0 ≤ x * y := mul_nonneg (by linarith) (by linarith)
  have p1 : x * y ≤ b * d := mul_le_mul x1 y1 (by linarith) (by linarith)
  obtain ⟨r, e⟩ := round_ge (x := x * y) (m := 10000) (abs_le.2 ⟨by linarith, by linarith⟩) (by norm_num)
  exact .inr ⟨_, r, b64_nonneg p0, by linarith [(abs_le.1 e).2]⟩

/-- The result as computed. -/
theorem irradiance_range {s1 s2 c1 c2 c3 ab bc cd df : V} (h1 : SinCos s1 c1) (h2 : SinCos s2 c2) (h3 : Sine c3)
    (h4 : Sine ab) (h5 : Sine bc) (h6 : Sine cd) (h7 : Sine df)
    (hz : V.lt (.fin (b64 ((0 : ℚ) : ℝ))) (zenith64 s1 s2 c1 c2 c3) = true) :
    Within 0 1417 (V.rnd binary64 (V.mul (V.rnd binary64 (V.mul (.fin (b64 ((SC_default : ℚ) : ℝ))) (zenith64 s1 s2 c1 c2 c3)))
      (eccentricity64 ab bc cd df))) := by
  have sc : b64 ((SC_default : ℚ) : ℝ) = 1367 := by
    have := b64_int 1367 (by norm_num)
    push_cast at this
    rw [show ((SC_default : ℚ) : ℝ) = 1367 by norm_num [SC_default]]
    exact this
  have z0 : Within 0 (1 + 1 / 10 ^ 8) (zenith64 s1 s2 c1 c2 c3) := by
    rcases zenith_le h1 h2 h3 with h | ⟨z, h, _, z1⟩
    · exact .inl h
    · rw [h, Rat.cast_zero, b64_zero] at hz
      exact .inr ⟨z, h, (of_decide_eq_true hz).le, z1⟩
  rw [sc]
  have p := prod_within (by norm_num) le_rfl (by norm_num) (.inr ⟨1367, rfl, le_rfl, le_rfl⟩ : Within 1367 1367 (.fin 1367)) z0
  have q := prod_within le_rfl (by norm_num) (by norm_num) p (eccentricity_range h4 h5 h6 h7)
  exact within_weaken le_rfl (by norm_num) q

theorem night_zero : Within 0 1417 (.fin (b64 ((0.0 : ℚ) : ℝ))) := by
  refine .inr ⟨_, rfl, ?_⟩
  norm_num [b64_zero]

/-- C175: extraterrestrial irradiance in double precision is from 0 to 1417 (or nan), whatever the arguments. -/
theorem C175_range :
    (∀ lat lon w v, extraterrestrial_irrad (rndB binary64) lat lon w = .ok v → Within 0 1417 v) ∧
    (∀ lat lon w v, extraterrestrial_irrad (nprB binary64) lat lon w = .ok v → Within 0 1417 v) := by
  refine ⟨fun lat lon w v h => ?_, fun lat lon w v h => ?_⟩
  · obtain ⟨_, _, h⟩ := bind_ok_inv h
    obtain ⟨day, _, h⟩ := bind_ok_inv h
    obtain ⟨ab, h1, h⟩ := bind_ok_inv h
    obtain ⟨bc, h2, h⟩ := bind_ok_inv h
    obtain ⟨cd, h3, h⟩ := bind_ok_inv h
    obtain ⟨df, h4, h⟩ := bind_ok_inv h
    obtain ⟨dec, _, h⟩ := bind_ok_inv h
    obtain ⟨ha, _, h⟩ := bind_ok_inv h
    obtain ⟨s1, h5, h⟩ := bind_ok_inv h
    obtain ⟨s2, h6, h⟩ := bind_ok_inv h
    obtain ⟨c1, h7, h⟩ := bind_ok_inv h
    obtain ⟨c2, h8, h⟩ := bind_ok_inv h
    obtain ⟨c3, h9, h⟩ := bind_ok_inv h
    obtain ⟨b, hb, h⟩ := bind_ok_inv h
    have hb : V.lt (.fin (b64 ((0 : ℚ) : ℝ))) (zenith64 s1 s2 c1 c2 c3) = b := Except.ok.inj hb
    cases b with
    | true =>
      exact (Except.ok.inj h) ▸ irradiance_range (sin_cos h5 h7) (sin_cos h6 h8) (cosine h9) (cosine h1) (sine h2) (cosine h3) (sine h4) hb
    | false => exact (Except.ok.inj h) ▸ night_zero
  · obtain ⟨_, _, h⟩ := bind_ok_inv h
    obtain ⟨day, _, h⟩ := bind_ok_inv h
    obtain ⟨ab, h1, h⟩ := bind_ok_inv h
    obtain ⟨bc, h2, h⟩ := bind_ok_inv h
    obtain ⟨cd, h3, h⟩ := bind_ok_inv h
    obtain ⟨df, h4, h⟩ := bind_ok_inv h
    obtain ⟨dec, _, h⟩ := bind_ok_inv h
    obtain ⟨ha, _, h⟩ := bind_ok_inv h
    obtain ⟨s1, h5, h⟩ := bind_ok_inv h
    obtain ⟨s2, h6, h⟩ := bind_ok_inv h
    obtain ⟨c1, h7, h⟩ := bind_ok_inv h
    obtain ⟨c2, h8, h⟩ := bind_ok_inv h
    obtain ⟨c3, h9, h⟩ := bind_ok_inv h
    obtain ⟨b, hb, h⟩ := bind_ok_inv h
    have hb : V.lt (.fin (b64 ((0 : ℚ) : ℝ))) (zenith64 s1 s2 c1 c2 c3) = b := Except.ok.inj hb
    cases b with
    | true =>
      exact (Except.ok.inj h) ▸ irradiance_range (sin_cos_numpy h5 h7) (sin_cos_numpy h6 h8) (cosine_numpy h9) (cosine_numpy h1)
        (sine_numpy h2) (cosine_numpy h3) (sine_numpy h4) hb
    | false => exact (Except.ok.inj h) ▸ night_zero

theorem rnd_ne_nan {x : V} (h : x ≠ .nan) : V.rnd binary64 x ≠ .nan := by
  cases x with
  | fin a => simp only [V.rnd]; split_ifs <;> simp
  | nan => exact absurd rfl h
  | _ => exact h

theorem mul_ne_nan {x : V} {y : ℝ} (h : x ≠ .nan) (hy : 0 < y) : V.mul x (.fin y) ≠ .nan ∧ V.mul (.fin y) x ≠ .nan := by
  cases x with
  | nan => exact absurd rfl h
  | _ => simp [V.mul, V.infMul, hy]

/-- The distance factor is a positive number. -/
theorem factor_number {d : DateTime} {c : Civil} (h : UtcFields d c) :
    ∃ y, facOf (rndB binary64) ((rndB binary64).lit (yday c.date)) = .ok (.fin y) ∧
      facOf (nprB binary64) ((nprB binary64).lit (yday c.date)) = .ok (.fin y) ∧ 0 < y := by
  obtain ⟨e, r⟩ := yday_ball binary64 h.1
  obtain ⟨y, _, h1, -, -⟩ := ball_unary facOf_sim fac_ok binary64 (10 ^ 6) r
  rw [← e] at h1
  obtain ⟨y', h2, e2⟩ := RelM.of_ok (facOf_sim (rndNp binary64).toSim (x := (rndB binary64).lit (yday c.date))
    (x' := (nprB binary64).lit (yday c.date)) rfl) h1
  have e2 : V.fin y = y' := e2
  subst e2
  refine ⟨y, h1, h2, ?_⟩
  obtain ⟨ab, k1, k⟩ := bind_ok_inv h1
  obtain ⟨bc, k2, k⟩ := bind_ok_inv k
  obtain ⟨cd, k3, k⟩ := bind_ok_inv k
  obtain ⟨df, k4, k⟩ := bind_ok_inv k
  have w := eccentricity_range (cosine k1) (sine k2) (cosine k3) (sine k4)
  have k : eccentricity64 ab bc cd df = .fin y := Except.ok.inj k
  rcases w with w | ⟨z, w, z0, -⟩
  · cases w.symm.trans k
  · rw [← V.fin.inj (w.symm.trans k)]
    norm_num at z0
    linarith

/-- C175: at an aware datetime it is a number, even for a latitude or longitude that is infinite or nan. -/
theorem C175_number (d : DateTime) (c : Civil) (h : UtcFields d c) (lat lon v : V) :
    (extraterrestrial_irrad (rndB binary64) lat lon (.dt d) = .ok v → ∃ r, v = .fin r ∧ 0 ≤ r ∧ r ≤ 1417) ∧
    (extraterrestrial_irrad (nprB binary64) lat lon (.dt d) = .ok v → ∃ r, v = .fin r ∧ 0 ≤ r ∧ r ≤ 1417) := by
  obtain ⟨y, f1, f2, y0⟩ := factor_number h
  have sc : 0 < b64 ((SC_default : ℚ) : ℝ) := by
    have := b64_int 1367 (by norm_num)
    push_cast at this
    rw [show ((SC_default : ℚ) : ℝ) = 1367 by norm_num [SC_default], this]
    norm_num
  have ne : ∀ za : V, V.lt (.fin (b64 ((0 : ℚ) : ℝ))) za = true →
      V.rnd binary64 (V.mul (V.rnd binary64 (V.mul (.fin (b64 ((SC_default : ℚ) : ℝ))) za)) (.fin y)) ≠ .nan := fun za hz => by
    have hn : za ≠ .nan := fun e => by
      rw [e] at hz
      cases hz
    exact rnd_ne_nan (mul_ne_nan (rnd_ne_nan (mul_ne_nan hn sc).2) y0).1
  constructor
  · intro k
    have w := C175_range.1 _ _ _ _ k
    replace k := (extra_split (rndB binary64) h lat lon _).symm.trans k
    obtain ⟨fac, kf, k⟩ := bind_ok_inv k
    obtain rfl : V.fin y = fac := Except.ok.inj (f1.symm.trans kf)
    obtain ⟨dec, _, k⟩ := bind_ok_inv k
    obtain ⟨ha, _, k⟩ := bind_ok_inv k
    obtain ⟨za, _, k⟩ := bind_ok_inv k
    obtain ⟨b, hb, k⟩ := bind_ok_inv k
    have hv : v ≠ .nan := by
      have hb : V.lt (.fin (b64 ((0 : ℚ) : ℝ))) za = b := Except.ok.inj hb
      cases b with
      | true => exact (Except.ok.inj k) ▸ ne za hb
      | false => exact (Except.ok.inj k) ▸ (by intro e; cases e)
    exact w.resolve_left hv
  · intro k
    have w := C175_range.2 _ _ _ _ k
    replace k := (extra_split (nprB binary64) h lat lon _).symm.trans k
    obtain ⟨fac, kf, k⟩ := bind_ok_inv k
    obtain rfl : V.fin y = fac := Except.ok.inj (f2.symm.trans kf)
    obtain ⟨dec, _, k⟩ := bind_ok_inv k
    obtain ⟨ha, _, k⟩ := bind_ok_inv k
    obtain ⟨za, _, k⟩ := bind_ok_inv k
    obtain ⟨b, hb, k⟩ := bind_ok_inv k
    have hv : v ≠ .nan := by
      have hb : V.lt (.fin (b64 ((0 : ℚ) : ℝ))) za = b := Except.ok.inj hb
      cases b with
      | true => exact (Except.ok.inj k) ▸ ne za hb
      | false => exact (Except.ok.inj k) ▸ (by intro e; cases e)
    exact w.resolve_left hv

/-- A concrete case: Denver, 18 February 2007. -/
example : ∃ r, extraterrestrial_irrad (rndB binary64) (flt binary64 39.7) (flt binary64 (-105)) (.dt sampleDT) = .ok (.fin r) ∧
    0 ≤ r ∧ r ≤ 1417 := by
  obtain ⟨_, _, r, -, -, h, -⟩ := C117_extraterrestrial binary64 (2 * Real.pi) sampleDT sampleUTC sample_utc 39.7 (-105) 1367
    (by norm_num [abs_le]) (by norm_num [abs_le]) (by norm_num) (by norm_num)
  have e : (rndB binary64).lit SC_default = flt binary64 1367 := by
    have := lit_fin binary64 1367 (by norm_num)
    rw [show (SC_default : ℚ) = 1367 by norm_num [SC_default]]
    push_cast at this
    exact this
  have k : extraterrestrial_irrad (rndB binary64) (flt binary64 39.7) (flt binary64 (-105)) (.dt sampleDT) = .ok (flt binary64 r) :=
    (congrArg (fun v => extraterrestrial_irrad (rndB binary64) (flt binary64 39.7) (flt binary64 (-105)) (.dt sampleDT) v) e).trans h
  rcases C175_range.1 _ _ _ _ k with h | ⟨z, h, h0, h1⟩
  · cases h
  · exact ⟨z, k.trans (congrArg Except.ok h), h0, h1⟩

end Verif.Props
