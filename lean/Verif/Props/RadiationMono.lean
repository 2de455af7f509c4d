import Verif.Props.Underflow

/-!
# C172: the direct radiation never falls as the sun climbs, in double precision

In real arithmetic `get_radiation_direct` is increasing in the altitude (C40). In IEEE double precision, with rounding in every
step, a higher sun on the same day never has the smaller direct radiation, and never the greater air mass.
-/

namespace Verif.Props

open Verif Verif.Spec Pysolar Pysolar.Numeric Pysolar.Radiation Chain

/-- The computed sine of an altitude. -/
noncomputable def sinAlt (a : ℝ) : ℝ := b64 (Real.sin (b64 (a * (5030569068109113 / 2 ^ 58))))

theorem rad_range {a : ℝ} (h0 : 0 < a) (h1 : a ≤ 90) :
    0 ≤ b64 (a * (5030569068109113 / 2 ^ 58)) ∧ b64 (a * (5030569068109113 / 2 ^ 58)) ≤ Real.pi / 2 := by
  refine ⟨b64_nonneg (by positivity), ?_⟩
  have r1 : b64 (a * (5030569068109113 / 2 ^ 58)) ≤ 7074237752028440 / 2 ^ 52 := by
    have := b64_near (x := 90 * (5030569068109113 / 2 ^ 58)) 7074237752028440 52 (by norm_num) (by norm_num) (by norm_num)
      (by rw [abs_lt]; constructor <;> norm_num)
    push_cast at this
    rw [← this]
    exact b64_mono (mul_le_mul_of_nonneg_right h1 (by positivity))
  have hpi := Real.pi_gt_d20
  exact r1.trans (by norm_num at *; linarith)

theorem sinAlt_ok {a : ℝ} (h0 : 0 < a) (h1 : a ≤ 90) :
    0 ≤ sinAlt a ∧ (rndB binary64).sin ((rndB binary64).radians (V.fin a)) = .ok (V.fin (sinAlt a)) ∧
      (nprB binary64).sin ((nprB binary64).radians (V.fin a)) = .ok (V.fin (sinAlt a)) := by
  have hr := rad64 (x := a) (by rw [abs_of_pos h0]; linarith) rfl
  obtain ⟨r0, r1⟩ := rad_range h0 h1
  exact ⟨b64_nonneg (Real.sin_nonneg_of_nonneg_of_le_pi r0 (by linarith [Real.pi_pos])), (congrArg (rndB binary64).sin hr).trans rfl,
    (congrArg (nprB binary64).sin (show (nprB binary64).radians (V.fin a) = V.fin _ from hr)).trans rfl⟩

theorem sinAlt_mono {a a' : ℝ} (h0 : 0 < a) (hle : a ≤ a') (h1 : a' ≤ 90) : sinAlt a ≤ sinAlt a' := by
  refine b64_mono (Real.sin_le_sin_of_le_of_le_pi_div_two ?_ (rad_range (h0.trans_le hle) h1).2
    (b64_mono (mul_le_mul_of_nonneg_right hle (by positivity))))
  have := (rad_range h0 (hle.trans h1)).1
  linarith [Real.pi_pos]

/-- `m` is an air mass at least `m'`. -/
def MassGe (m m' : V) : Prop := m = V.pinf ∨ ∃ r r' : ℝ, m = V.fin r ∧ m' = V.fin r' ∧ 0 ≤ r' ∧ r' ≤ r

theorem mass_mono {s s' : ℝ} (hle : s ≤ s') {m m' : V}
    (h : m = V.pinf ∧ s = 0 ∨ 0 < s ∧ m = V.rnd binary64 (.fin (1 / s)))
    (h' : m' = V.pinf ∧ s' = 0 ∨ 0 < s' ∧ m' = V.rnd binary64 (.fin (1 / s'))) : MassGe m m' := by
  rcases h with ⟨h, -⟩ | ⟨hp, h⟩
  · exact .inl h
  rcases h' with ⟨-, hz⟩ | ⟨hp', h'⟩
  · linarith
  have e : ∀ z : ℝ, V.rnd binary64 (.fin z) = if (2 : ℝ) ^ 1024 ≤ b64 z then V.pinf else if b64 z ≤ -2 ^ 1024 then V.ninf
        else V.fin (b64 z) := fun _ => rfl
  have hm : b64 (1 / s') ≤ b64 (1 / s) := b64_mono (one_div_le_one_div_of_le hp hle)
  by_cases hb : (2 : ℝ) ^ 1024 ≤ b64 (1 / s)
  · rw [e, if_pos hb] at h
    exact .inl h
  have hn : ∀ t : ℝ, 0 < t → ¬b64 (1 / t) ≤ -2 ^ 1024 := fun t ht => by
    have : (0 : ℝ) < 2 ^ 1024 := by positivity
    exact not_le.2 (lt_of_lt_of_le (neg_neg_of_pos this) (b64_nonneg (by positivity)))
  rw [e, if_neg hb, if_neg (hn s hp)] at h
  rw [e, if_neg (fun k => hb (k.trans hm)), if_neg (hn s' hp')] at h'
  exact .inr ⟨_, _, h, h', b64_nonneg (by positivity), hm⟩

/-- `x` is an exponent at most `x'`. -/
def ExpoLe (x x' : V) : Prop := x = V.ninf ∨ ∃ a a' : ℝ, x = V.fin a ∧ x' = V.fin a' ∧ a ≤ a' ∧ a' ≤ 0

theorem expo_mono {d : ℝ} (hd : 0 < d) {m m' : V} (h : MassGe m m') :
    ExpoLe (V.rnd binary64 (V.mul (.fin (-d)) m)) (V.rnd binary64 (V.mul (.fin (-d)) m')) := by
  rcases h with rfl | ⟨r, r', rfl, rfl, r0, hle⟩
  · left
    have : V.mul (.fin (-d)) .pinf = V.ninf := by
      show V.infMul (-d) .pinf = _
      unfold V.infMul
      rw [if_neg (by linarith), if_pos (by linarith)]
      rfl
    rw [this]
    rfl
  · have e : ∀ r : ℝ, V.rnd binary64 (V.mul (.fin (-d)) (.fin r)) = if (2 : ℝ) ^ 1024 ≤ b64 (-d * r) then V.pinf
        else if b64 (-d * r) ≤ -2 ^ 1024 then V.ninf else V.fin (b64 (-d * r)) := fun _ => rfl
    have hm : b64 (-d * r) ≤ b64 (-d * r') := b64_mono (by nlinarith)
    have h0 : b64 (-d * r') ≤ 0 := by
      have := b64_mono (show -d * r' ≤ 0 by nlinarith)
      rwa [b64_zero] at this
    have hb : ∀ t : ℝ, t ≤ 0 → ¬(2 : ℝ) ^ 1024 ≤ t := fun t ht => not_le.2 (lt_of_le_of_lt ht (by positivity))
    rw [e, e, if_neg (hb _ (hm.trans h0)), if_neg (hb _ h0)]
    by_cases hl : b64 (-d * r) ≤ -2 ^ 1024
    · exact .inl (if_pos hl)
    · exact .inr ⟨_, _, if_neg hl, if_neg fun k => hl (hm.trans k), hm, h0⟩

/-- Two numbers in order, or nan. -/
def Rises (v v' : V) : Prop := v = V.nan ∨ v' = V.nan ∨ ∃ r r' : ℝ, v = V.fin r ∧ v' = V.fin r' ∧ r ≤ r'

/-- Two exponentials: numbers from 0 to 1 in order. -/
def FracRises (v v' : V) : Prop := v' = V.nan ∨ ∃ r r' : ℝ, v = V.fin r ∧ v' = V.fin r' ∧ 0 ≤ r ∧ r ≤ r' ∧ r' ≤ 1

theorem exp_fin {a : ℝ} (ha : a ≤ 0) {v : V} (h : (rndB binary64).exp (V.fin a) = .ok v ∨ (nprB binary64).exp (V.fin a) = .ok v) :
    v = V.fin (b64 (Real.exp a)) ∧ 0 ≤ b64 (Real.exp a) ∧ b64 (Real.exp a) ≤ 1 := by
  have h1 : b64 (Real.exp a) ≤ 1 := by
    rw [← b64_one]
    exact b64_mono (Real.exp_le_one_iff.2 ha)
  have hb : ¬(2 : ℝ) ^ 1024 ≤ b64 (Real.exp a) := not_le.2 (h1.trans_lt (one_lt_pow₀ one_lt_two (by norm_num)))
  refine ⟨?_, b64_nonneg (Real.exp_pos a).le, h1⟩
  rcases h with h | h
  · have e : (rndB binary64).exp (V.fin a) = .ok (V.fin (b64 (Real.exp a))) := if_neg hb
    exact Except.ok.inj (h.symm.trans e)
  · have e : (nprB binary64).exp (V.fin a) = .ok (V.fin (b64 (Real.exp a))) := if_neg hb
    exact Except.ok.inj (h.symm.trans e)

theorem exp_mono {x x' v v' : V} (hx : ExpoLe x x') (hx' : x' = V.nan ∨ x' = V.ninf ∨ ∃ a : ℝ, x' = V.fin a ∧ a ≤ 0)
    (h : (rndB binary64).exp x = .ok v ∨ (nprB binary64).exp x = .ok v)
    (h' : (rndB binary64).exp x' = .ok v' ∨ (nprB binary64).exp x' = .ok v') : FracRises v v' := by
  rcases hx with rfl | ⟨a, a', rfl, rfl, hle, h0⟩
  · have e : v = V.fin 0 := by rcases h with h | h <;> exact (Except.ok.inj h).symm
    rcases exp_le_one hx' h' with k | ⟨r, k, r0, r1⟩
    · exact .inl k
    · exact .inr ⟨0, r, e, k, le_rfl, r0, r1⟩
  · obtain ⟨e1, p1, -⟩ := exp_fin (hle.trans h0) h
    obtain ⟨e2, -, q2⟩ := exp_fin h0 h'
    exact .inr ⟨_, _, e1, e2, p1, b64_mono (Real.exp_le_exp.2 hle), q2⟩

theorem product_mono {f e e' : V} (hf : Within 1085 1235 f) (he : FracRises e e') {c c' : Bool} (hc : c = true) (hc' : c' = true) :
    Rises (V.rnd binary64 (V.mul (V.rnd binary64 (V.mul f e)) (if c then V.fin 1 else V.fin 0)))
      (V.rnd binary64 (V.mul (V.rnd binary64 (V.mul f e')) (if c' then V.fin 1 else V.fin 0))) := by
  subst hc
  subst hc'
  rcases hf with rfl | ⟨f, rfl, f0, f1⟩
  · exact .inl rfl
  rcases he with rfl | ⟨r, r', rfl, rfl, r0, hle, r1⟩
  · exact .inr (.inl rfl)
  have key : ∀ r : ℝ, 0 ≤ r → r ≤ 1 →
      V.rnd binary64 (V.mul (V.rnd binary64 (V.mul (.fin f) (.fin r))) (if true then V.fin 1 else V.fin 0)) = V.fin (b64 (f * r)) := by
    intro r r0 r1
    have p0 : 0 ≤ f * r := mul_nonneg (by linarith) r0
    have p1 : f * r ≤ ((1235 : ℤ) : ℝ) := by push_cast; nlinarith
    have q1 := b64_mono p1
    rw [b64_int _ (by norm_num)] at q1
    push_cast at p1 q1
    have hp : V.rnd binary64 (V.mul (.fin f) (.fin r)) = V.fin (b64 (f * r)) :=
      vrnd64 (by rw [abs_of_nonneg p0]; norm_num; linarith) rfl
    rw [hp]
    exact vrnd64 (z := b64 (f * r) * 1) (by rw [mul_one, abs_of_nonneg (b64_nonneg p0)]; norm_num; linarith) (by rw [mul_one, b64_idem])
  exact .inr (.inr ⟨_, _, key r r0 (hle.trans r1), key r' (r0.trans hle) r1, b64_mono (mul_le_mul_of_nonneg_left hle (by linarith))⟩)

/-- C172, air mass. -/
theorem C172_air_mass (a a' : ℝ) (h0 : 0 < a) (hle : a ≤ a') (h1 : a' ≤ 90) (m m' : V) :
    (get_air_mass_ratio (rndB binary64) (V.fin a) = .ok m → get_air_mass_ratio (rndB binary64) (V.fin a') = .ok m' → MassGe m m') ∧
    (get_air_mass_ratio (nprB binary64) (V.fin a) = .ok m → get_air_mass_ratio (nprB binary64) (V.fin a') = .ok m' → MassGe m m') := by
  obtain ⟨s0, e1, e2⟩ := sinAlt_ok h0 (hle.trans h1)
  obtain ⟨s0', e1', e2'⟩ := sinAlt_ok (h0.trans_le hle) h1
  have hs := sinAlt_mono h0 hle h1
  exact ⟨fun h h' => mass_mono hs (mass_exact s0 m (.inl ⟨e1, h⟩)) (mass_exact s0' m' (.inl ⟨e1', h'⟩)),
    fun h h' => mass_mono hs (mass_exact s0 m (.inr ⟨e2, h⟩)) (mass_exact s0' m' (.inr ⟨e2', h'⟩))⟩

theorem chain {flux d m m' e e' : V} (hf : Within 1085 1235 flux) (hd : Within 0.138 0.21 d) (hm : MassGe m m')
    (hm' : m' = V.pinf ∨ ∃ r : ℝ, m' = V.fin r ∧ 0 ≤ r)
    (he : (rndB binary64).exp (V.rnd binary64 (V.mul (V.rnd binary64 (V.mul (V.neg (.fin (b64 ((1 : ℚ) : ℝ)))) d)) m)) = .ok e ∨
      (nprB binary64).exp (V.rnd binary64 (V.mul (V.rnd binary64 (V.mul (V.neg (.fin (b64 ((1 : ℚ) : ℝ)))) d)) m)) = .ok e)
    (he' : (rndB binary64).exp (V.rnd binary64 (V.mul (V.rnd binary64 (V.mul (V.neg (.fin (b64 ((1 : ℚ) : ℝ)))) d)) m')) = .ok e' ∨
      (nprB binary64).exp (V.rnd binary64 (V.mul (V.rnd binary64 (V.mul (V.neg (.fin (b64 ((1 : ℚ) : ℝ)))) d)) m')) = .ok e')
    {c c' : Bool} (hc : c = true) (hc' : c' = true) :
    Rises (V.rnd binary64 (V.mul (V.rnd binary64 (V.mul flux e)) (if c then V.fin 1 else V.fin 0)))
      (V.rnd binary64 (V.mul (V.rnd binary64 (V.mul flux e')) (if c' then V.fin 1 else V.fin 0))) := by
  refine product_mono hf ?_ hc hc'
  have hx' := exponent (d := d) (m := m') (by
    rcases hd with h | ⟨r, h, r0, r1⟩
    · exact .inl h
    · exact .inr ⟨r, h, by norm_num at *; linarith, by norm_num at *; linarith⟩) hm'
  rcases hd with rfl | ⟨d, rfl, d0, d1⟩
  · left
    rw [minus_one] at he'
    rcases he' with h | h <;> exact (Except.ok.inj h).symm
  · obtain ⟨hx, b0, -⟩ := minus_depth d0 d1
    refine exp_mono ?_ hx' he he'
    rw [hx]
    exact expo_mono (by norm_num at *; linarith) hm

/-- C172: at the same time, the higher sun has at least the same direct radiation (or a day number that is nan gave nan). -/
theorem C172_rises (w : When (rndB binary64)) (a a' : ℝ) (h0 : 0 < a) (hle : a ≤ a') (h1 : a' ≤ 90) (v v' : V)
    (h : get_radiation_direct (rndB binary64) w (V.fin a) = .ok v) (h' : get_radiation_direct (rndB binary64) w (V.fin a') = .ok v') :
    Rises v v' := by
  have l0 : ((0 : (rndB binary64).α) : V) = V.fin 0 := by
    have := lit64 0 (by norm_num)
    push_cast at this
    exact this
  have hc : ∀ a : ℝ, 0 < a → (rndB binary64).lt (0 : (rndB binary64).α) (V.fin a) = true := fun a ha => by
    rw [l0]
    exact decide_eq_true ha
  unfold get_radiation_direct at h h'
  obtain ⟨day, hy, h⟩ := bind_ok_inv h
  obtain ⟨day', hy', h'⟩ := bind_ok_inv h'
  obtain rfl := Except.ok.inj (hy.symm.trans hy')
  obtain ⟨flux, hf, h⟩ := bind_ok_inv h
  obtain ⟨flux', hf', h'⟩ := bind_ok_inv h'
  obtain rfl := Except.ok.inj (hf.symm.trans hf')
  obtain ⟨depth, hd, h⟩ := bind_ok_inv h
  obtain ⟨depth', hd', h'⟩ := bind_ok_inv h'
  obtain rfl := Except.ok.inj (hd.symm.trans hd')
  obtain ⟨m, hm, h⟩ := bind_ok_inv h
  obtain ⟨m', hm', h'⟩ := bind_ok_inv h'
  obtain ⟨e, he, h⟩ := bind_ok_inv h
  obtain ⟨e', he', h'⟩ := bind_ok_inv h'
  obtain ⟨s, hs, hf⟩ := bind_ok_inv hf
  obtain ⟨t, ht, hd⟩ := bind_ok_inv hd
  have kf : lin 1160 75 s = flux := Except.ok.inj hf
  have kd : lin 0.174 0.035 t = depth := Except.ok.inj hd
  have h2 := (C172_air_mass a a' h0 hle h1 m m').1 hm hm'
  exact (Except.ok.inj h) ▸ (Except.ok.inj h') ▸ chain (kf ▸ lin_flux (sine hs)) (kd ▸ depth_range (sine ht)) h2
    (mass_alt (h0.trans_le hle) (h1.trans (by norm_num)) hm') (.inl he) (.inl he') (hc a h0) (hc a' (h0.trans_le hle))

/-- C172 with numpy. -/
theorem C172_rises_numpy (w : When (nprB binary64)) (a a' : ℝ) (h0 : 0 < a) (hle : a ≤ a') (h1 : a' ≤ 90) (v v' : V)
    (h : get_radiation_direct (nprB binary64) w (V.fin a) = .ok v) (h' : get_radiation_direct (nprB binary64) w (V.fin a') = .ok v') :
    Rises v v' := by
  have l0 : ((0 : (nprB binary64).α) : V) = V.fin 0 := by
    have := lit64 0 (by norm_num)
    push_cast at this
    exact this
  have hc : ∀ a : ℝ, 0 < a → (nprB binary64).lt (0 : (nprB binary64).α) (V.fin a) = true := fun a ha => by
    rw [l0]
    exact decide_eq_true ha
  unfold get_radiation_direct at h h'
  obtain ⟨day, hy, h⟩ := bind_ok_inv h
  obtain ⟨day', hy', h'⟩ := bind_ok_inv h'
  obtain rfl := Except.ok.inj (hy.symm.trans hy')
  obtain ⟨flux, hf, h⟩ := bind_ok_inv h
  obtain ⟨flux', hf', h'⟩ := bind_ok_inv h'
  obtain rfl := Except.ok.inj (hf.symm.trans hf')
  obtain ⟨depth, hd, h⟩ := bind_ok_inv h
  obtain ⟨depth', hd', h'⟩ := bind_ok_inv h'
  obtain rfl := Except.ok.inj (hd.symm.trans hd')
  obtain ⟨m, hm, h⟩ := bind_ok_inv h
  obtain ⟨m', hm', h'⟩ := bind_ok_inv h'
  obtain ⟨e, he, h⟩ := bind_ok_inv h
  obtain ⟨e', he', h'⟩ := bind_ok_inv h'
  obtain ⟨s, hs, hf⟩ := bind_ok_inv hf
  obtain ⟨t, ht, hd⟩ := bind_ok_inv hd
  have kf : lin 1160 75 s = flux := Except.ok.inj hf
  have kd : lin 0.174 0.035 t = depth := Except.ok.inj hd
  have h2 := (C172_air_mass a a' h0 hle h1 m m').2 hm hm'
  exact (Except.ok.inj h) ▸ (Except.ok.inj h') ▸ chain (kf ▸ lin_flux (sine_numpy hs)) (kd ▸ depth_range (sine_numpy ht)) h2
    (mass_alt_numpy (h0.trans_le hle) (h1.trans (by norm_num)) hm') (.inr he) (.inr he') (hc a h0) (hc a' (h0.trans_le hle))

/-- The result for a datetime is a number. -/
theorem direct_number (d : DateTime) (c : Civil) (hu : UtcFields d c) (a : ℝ) (h0 : 0 < a) (h1 : a ≤ 90) :
    ∃ r : ℝ, get_radiation_direct (rndB binary64) (.dt d) (V.fin a) = .ok (V.fin r) := by
  by_cases ha : a ≤ 1 / 100
  · exact ⟨0, C168_underflow d c hu a h0 ha⟩
  · obtain ⟨_, r', _, h, _⟩ := C105_direct_radiation binary64 0 d c hu a (by norm_num at *; linarith) h1
    exact ⟨r', h⟩

/-- C172: at any instant and for any two altitudes above the horizon, two numbers in order. -/
theorem C172_datetime (d : DateTime) (c : Civil) (hu : UtcFields d c) (a a' : ℝ) (h0 : 0 < a) (hle : a ≤ a') (h1 : a' ≤ 90) :
    ∃ r r' : ℝ, get_radiation_direct (rndB binary64) (.dt d) (V.fin a) = .ok (V.fin r) ∧
      get_radiation_direct (rndB binary64) (.dt d) (V.fin a') = .ok (V.fin r') ∧ r ≤ r' := by
  obtain ⟨r, hr⟩ := direct_number d c hu a h0 (hle.trans h1)
  obtain ⟨r', hr'⟩ := direct_number d c hu a' (h0.trans_le hle) h1
  rcases C172_rises (.dt d) a a' h0 hle h1 _ _ hr hr' with h | h | ⟨x, x', h, h', hx⟩
  · cases h
  · cases h
  · injection h with h
    injection h' with h'
    exact ⟨r, r', hr, hr', h ▸ h' ▸ hx⟩

/-- The sun at 30 and at 31 degrees at the sample instant. -/
example : ∃ r r' : ℝ, get_radiation_direct (rndB binary64) (.dt sampleDT) (V.fin 30) = .ok (V.fin r) ∧
      get_radiation_direct (rndB binary64) (.dt sampleDT) (V.fin 31) = .ok (V.fin r') ∧ r ≤ r' :=
  C172_datetime sampleDT sampleUTC sample_utc 30 31 (by norm_num) (by norm_num) (by norm_num)

end Verif.Props
