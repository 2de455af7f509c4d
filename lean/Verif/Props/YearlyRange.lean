import Verif.Props.Underflow

/-!
# C169: the yearly formulas stay in range in double precision

Whatever day is passed to `get_declination`, `equation_of_time`, `get_apparent_extraterrestrial_flux` and `get_optical_depth`, even an
infinity or nan, in IEEE double precision what they return is nan or a number in the range of the formula.
-/

namespace Verif.Props

open Verif Verif.Spec Pysolar Pysolar.Numeric Pysolar.Radiation Pysolar.Solar Chain

theorem cosine {x v : V} (h : (rndB binary64).cos x = .ok v) : Sine v := by
  cases x with
  | fin a => exact .inr ⟨_, (Except.ok.inj h).symm, b64_abs_le_one (Real.abs_cos_le_one a)⟩
  | nan => exact .inl (Except.ok.inj h).symm
  | _ => cases h

theorem cosine_numpy {x v : V} (h : (nprB binary64).cos x = .ok v) : Sine v := by
  cases x with
  | fin a => exact .inr ⟨_, (Except.ok.inj h).symm, b64_abs_le_one (Real.abs_cos_le_one a)⟩
  | _ => exact .inl (Except.ok.inj h).symm

/-- A literal times a sine: no larger than the literal as a double. -/
theorem times_sine {q : ℚ} (q0 : 0 ≤ q) (q1 : q ≤ 100) {s : V} (h : Sine s) :
    Within (-b64 q) (b64 q) (V.rnd binary64 (V.mul (.fin (b64 q)) s)) := by
  have c0 : (0 : ℝ) ≤ q := by exact_mod_cast q0
  have c1 : (q : ℝ) ≤ ((100 : ℤ) : ℝ) := by exact_mod_cast q1
  have p0 := b64_nonneg c0
  have p1 := b64_mono c1
  rw [b64_int _ (by norm_num)] at p1
  push_cast at p1
  rcases h with rfl | ⟨t, rfl, ht⟩
  · exact .inl rfl
  · have hm : |b64 q * t| ≤ b64 q := by
      rw [abs_mul, abs_of_nonneg p0]
      exact mul_le_of_le_one_right p0 ht
    have m := abs_le.1 hm
    have m1 := b64_mono m.1
    have m2 := b64_mono m.2
    rw [b64_neg, b64_idem] at m1
    rw [b64_idem] at m2
    exact .inr ⟨b64 (b64 q * t), vrnd64 (hm.trans (p1.trans (by norm_num))) rfl, m1, m2⟩

/-- Difference of two bounded numbers, rounded. -/
theorem within_sub {n m : ℕ} (hn : n + m ≤ 1000) {x y : V} (hx : Within (-n) n x) (hy : Within (-m) m y) :
    Within (-(n + m : ℕ)) (n + m : ℕ) (V.rnd binary64 (V.sub x y)) := by
  rcases hx with rfl | ⟨x, rfl, x0, x1⟩
  · exact .inl rfl
  rcases hy with rfl | ⟨y, rfl, y0, y1⟩
  · exact .inl rfl
  have hb : ((n + m : ℕ) : ℝ) ≤ 1000 := by exact_mod_cast hn
  have h1 : x - y ≤ (((n + m : ℕ) : ℤ) : ℝ) := by push_cast; linarith
  have h2 : ((-((n + m : ℕ) : ℤ) : ℤ) : ℝ) ≤ x - y := by push_cast; linarith
  have m1 := b64_mono h1
  have m2 := b64_mono h2
  rw [b64_int _ (by rw [abs_of_nonneg (by positivity)]; omega)] at m1
  rw [b64_int _ (by rw [abs_neg, abs_of_nonneg (by positivity)]; omega)] at m2
  refine .inr ⟨b64 (x - y), vrnd64 (z := x - y) ?_ rfl, ?_, ?_⟩
  · refine (abs_le.2 ⟨?_, ?_⟩ : |x - y| ≤ 1000).trans (by norm_num)
    · push_cast at h2 hb; linarith
    · push_cast at h1 hb; linarith
  · push_cast at m2 ⊢; linarith
  · push_cast at m1 ⊢; linarith

theorem within_weaken {a b a' b' : ℝ} (h1 : a' ≤ a) (h2 : b ≤ b') {v : V} (h : Within a b v) : Within a' b' v := by
  rcases h with h | ⟨r, h, h3, h4⟩
  · exact .inl h
  · exact .inr ⟨r, h, h1.trans h3, h4.trans h2⟩

/-- C169: the declination of the fast algorithm is at most the double 23.45 in absolute value. -/
theorem C169_declination :
    (∀ day v, get_declination (rndB binary64) day = .ok v → Within (-b64 23.45) (b64 23.45) v) ∧
    (∀ day v, get_declination (nprB binary64) day = .ok v → Within (-b64 23.45) (b64 23.45) v) := by
  have e : (((23.45 : ℚ) : ℚ) : ℝ) = 23.45 := by norm_num
  refine ⟨fun day v h => ?_, fun day v h => ?_⟩
  · obtain ⟨s, hs, h⟩ := bind_ok_inv h
    have := times_sine (q := 23.45) (by norm_num) (by norm_num) (sine hs)
    rw [e] at this
    have hv : V.rnd binary64 (V.mul (.fin (b64 ((23.45 : ℚ) : ℝ))) s) = v := Except.ok.inj h
    rw [e] at hv
    exact hv ▸ this
  · obtain ⟨s, hs, h⟩ := bind_ok_inv h
    have := times_sine (q := 23.45) (by norm_num) (by norm_num) (sine_numpy hs)
    rw [e] at this
    have hv : V.rnd binary64 (V.mul (.fin (b64 ((23.45 : ℚ) : ℝ))) s) = v := Except.ok.inj h
    rw [e] at hv
    exact hv ▸ this

theorem eot_range {s c s' : V} (hs : Sine s) (hc : Sine c) (hs' : Sine s') :
    Within (-20) 20 (V.rnd binary64 (V.sub (V.rnd binary64 (V.sub (V.rnd binary64 (V.mul (.fin (b64 ((9.87 : ℚ) : ℝ))) s))
      (V.rnd binary64 (V.mul (.fin (b64 ((7.53 : ℚ) : ℝ))) c)))) (V.rnd binary64 (V.mul (.fin (b64 ((1.5 : ℚ) : ℝ))) s')))) := by
  have bnd : ∀ (q : ℚ) (n : ℕ), q ≤ n → n ≤ 1000 → b64 (q : ℝ) ≤ n := fun q n h hn => by
    have := b64_mono (show (q : ℝ) ≤ ((n : ℤ) : ℝ) by push_cast; exact_mod_cast h)
    rw [b64_int _ (by rw [abs_of_nonneg (by positivity)]; omega)] at this
    exact_mod_cast this
  have w : ∀ (q : ℚ) (n : ℕ) (x : V), 0 ≤ q → q ≤ 100 → q ≤ n → n ≤ 1000 → Sine x →
      Within (-n) n (V.rnd binary64 (V.mul (.fin (b64 q)) x)) := fun q n x h0 h1 h2 h3 hx =>
    within_weaken (neg_le_neg (bnd q n h2 h3)) (bnd q n h2 h3) (times_sine h0 h1 hx)
  have h1 := within_sub (by norm_num) (w 9.87 10 s (by norm_num) (by norm_num) (by norm_num) (by norm_num) hs)
    (w 7.53 8 c (by norm_num) (by norm_num) (by norm_num) (by norm_num) hc)
  have h2 := within_sub (by norm_num) h1 (w 1.5 2 s' (by norm_num) (by norm_num) (by norm_num) (by norm_num) hs')
  exact within_weaken (by norm_num) (by norm_num) h2

/-- C169: the equation of time is less than twenty minutes either way. -/
theorem C169_equation_of_time :
    (∀ day v, equation_of_time (rndB binary64) day = .ok v → Within (-20) 20 v) ∧
    (∀ day v, equation_of_time (nprB binary64) day = .ok v → Within (-20) 20 v) := by
  refine ⟨fun day v h => ?_, fun day v h => ?_⟩
  · obtain ⟨s, hs, h⟩ := bind_ok_inv h
    obtain ⟨c, hc, h⟩ := bind_ok_inv h
    obtain ⟨s', hs', h⟩ := bind_ok_inv h
    exact (Except.ok.inj h) ▸ eot_range (sine hs) (cosine hc) (sine hs')
  · obtain ⟨s, hs, h⟩ := bind_ok_inv h
    obtain ⟨c, hc, h⟩ := bind_ok_inv h
    obtain ⟨s', hs', h⟩ := bind_ok_inv h
    exact (Except.ok.inj h) ▸ eot_range (sine_numpy hs) (cosine_numpy hc) (sine_numpy hs')

/-- C169: the extraterrestrial flux is from 1085 to 1235. -/
theorem C169_flux :
    (∀ day v, get_apparent_extraterrestrial_flux (rndB binary64) day = .ok v → Within 1085 1235 v) ∧
    (∀ day v, get_apparent_extraterrestrial_flux (nprB binary64) day = .ok v → Within 1085 1235 v) := by
  refine ⟨fun day v h => ?_, fun day v h => ?_⟩
  · obtain ⟨s, hs, h⟩ := bind_ok_inv h
    have hv : lin 1160 75 s = v := Except.ok.inj h
    exact hv ▸ lin_flux (sine hs)
  · obtain ⟨s, hs, h⟩ := bind_ok_inv h
    have hv : lin 1160 75 s = v := Except.ok.inj h
    exact hv ▸ lin_flux (sine_numpy hs)

/-- C169: the optical depth is from 0.138 to 0.21. -/
theorem C169_optical_depth :
    (∀ day v, get_optical_depth (rndB binary64) day = .ok v → Within 0.138 0.21 v) ∧
    (∀ day v, get_optical_depth (nprB binary64) day = .ok v → Within 0.138 0.21 v) := by
  refine ⟨fun day v h => ?_, fun day v h => ?_⟩
  · obtain ⟨s, hs, h⟩ := bind_ok_inv h
    have hv : lin 0.174 0.035 s = v := Except.ok.inj h
    exact hv ▸ depth_range (sine hs)
  · obtain ⟨s, hs, h⟩ := bind_ok_inv h
    have hv : lin 0.174 0.035 s = v := Except.ok.inj h
    exact hv ▸ depth_range (sine_numpy hs)

/-- The hypotheses hold on the day of the equinox, where the declination is 0.0. -/
example : get_declination (rndB binary64) ((rndB binary64).lit (yday equinox.date)) = .ok (V.fin 0) := eq_decl

/-- And the flux and the optical depth of that day are numbers in the ranges. -/
example : ∃ f k : ℝ, get_apparent_extraterrestrial_flux (rndB binary64) ((rndB binary64).lit (yday sampleUTC.date)) = .ok (V.fin f) ∧
    get_optical_depth (rndB binary64) ((rndB binary64).lit (yday sampleUTC.date)) = .ok (V.fin k) ∧ 1085 ≤ f ∧ 0.138 ≤ k := by
  obtain ⟨_, f, _, k, _, hf, _, hk, _⟩ := C105_flux_depth binary64 0 sampleUTC sample_utc.1
  refine ⟨f, k, hf, hk, ?_, ?_⟩
  · rcases C169_flux.1 _ _ hf with h | ⟨r, h, h1, -⟩
    · cases h
    · have e : f = r := by injection h
      exact e ▸ h1
  · rcases C169_optical_depth.1 _ _ hk with h | ⟨r, h, h1, -⟩
    · cases h
    · have e : k = r := by injection h
      exact e ▸ h1

end Verif.Props
