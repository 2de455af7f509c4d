import Verif.Props.TransmittanceDouble
import Verif.Props.DirectExcess

/-!
# C184: diffuse and overcast irradiance in double precision

In IEEE double precision, with rounding in every step: the overcast irradiance never falls as the altitude rises, at whatever places
and times; the diffuse irradiance of one moment never falls as the altitude or the turbidity rises, and has the sign of the altitude.
-/

namespace Verif.Props

open Verif Verif.Spec Pysolar Pysolar.Util Chain

theorem rnd_fin {x r : ℝ} (h : V.rnd binary64 (.fin x) = .fin r) : r = b64 x := by
  simp only [V.rnd] at h
  split_ifs at h
  exact (V.fin.inj h).symm

/-- What the functions do with a computed altitude. -/
theorem overcast_form {lat lon : V} {e T P : V} {d : DateTime} {a r : ℝ} :
    (Solar.get_altitude (rndB binary64) lat lon (.dt d) e T P = .ok (.fin a) →
      global_irradiance_overcast (rndB binary64) lat lon (.dt d) e T P = .ok (.fin r) → r = b64 (b64 ((572 : ℚ) : ℝ) * a)) ∧
    (Solar.get_altitude (nprB binary64) lat lon (.dt d) e T P = .ok (.fin a) →
      global_irradiance_overcast (nprB binary64) lat lon (.dt d) e T P = .ok (.fin r) → r = b64 (b64 ((572 : ℚ) : ℝ) * a)) := by
  constructor
  · intro ha h
    obtain ⟨_, _, h⟩ := bind_ok_inv h
    obtain ⟨a', ha', h⟩ := bind_ok_inv h
    obtain rfl := Except.ok.inj (ha.symm.trans ha')
    exact rnd_fin (Except.ok.inj h)
  · intro ha h
    obtain ⟨_, _, h⟩ := bind_ok_inv h
    obtain ⟨a', ha', h⟩ := bind_ok_inv h
    obtain rfl := Except.ok.inj (ha.symm.trans ha')
    exact rnd_fin (Except.ok.inj h)

/-- C184: the overcast irradiance never falls as the altitude rises. -/
theorem C184_overcast (lat lon e T P lat' lon' e' T' P' : V) (d d' : DateTime) (a a' r r' : ℝ) (h : a ≤ a') :
    (Solar.get_altitude (rndB binary64) lat lon (.dt d) e T P = .ok (.fin a) →
      Solar.get_altitude (rndB binary64) lat' lon' (.dt d') e' T' P' = .ok (.fin a') →
      global_irradiance_overcast (rndB binary64) lat lon (.dt d) e T P = .ok (.fin r) →
      global_irradiance_overcast (rndB binary64) lat' lon' (.dt d') e' T' P' = .ok (.fin r') → r ≤ r') ∧
    (Solar.get_altitude (nprB binary64) lat lon (.dt d) e T P = .ok (.fin a) →
      Solar.get_altitude (nprB binary64) lat' lon' (.dt d') e' T' P' = .ok (.fin a') →
      global_irradiance_overcast (nprB binary64) lat lon (.dt d) e T P = .ok (.fin r) →
      global_irradiance_overcast (nprB binary64) lat' lon' (.dt d') e' T' P' = .ok (.fin r') → r ≤ r') := by
  have m : b64 (b64 ((572 : ℚ) : ℝ) * a) ≤ b64 (b64 ((572 : ℚ) : ℝ) * a') :=
    b64_mono (mul_le_mul_of_nonneg_left h (b64_nonneg (by norm_num)))
  constructor
  · intro h1 h2 h3 h4
    rw [overcast_form.1 h1 h3, overcast_form.1 h2 h4]
    exact m
  · intro h1 h2 h3 h4
    rw [overcast_form.2 h1 h3, overcast_form.2 h2 h4]
    exact m

theorem diffuse_product_form {k : V} (hk : Within 0.9999 1.0001 k) {t a r : ℝ} (h0 : 0 ≤ t) (h1 : t ≤ 100)
    (h : V.rnd binary64 (V.mul (V.rnd binary64 (V.mul k (.fin (trans64 t)))) (.fin a)) = .fin r) :
    ∃ κ, k = .fin κ ∧ 0 ≤ κ ∧ r = b64 (b64 (κ * trans64 t) * a) := by
  rcases hk with rfl | ⟨κ, rfl, k0, k1⟩
  · exact absurd h nofun
  refine ⟨κ, rfl, by norm_num at *; linarith, ?_⟩
  have b := abs_le.1 (trans_eval h0 h1).2.2
  have q : t ^ 2 ≤ 10000 := by nlinarith
  have q0 := sq_nonneg t
  norm_num at b k0 k1
  have s : |κ * trans64 t| ≤ 10000 := by
    rw [abs_mul, abs_of_nonneg (by linarith : 0 ≤ κ)]
    have : |trans64 t| ≤ 9500 := abs_le.2 ⟨by linarith, by linarith⟩
    calc κ * |trans64 t| ≤ 1.0001 * 9500 := mul_le_mul (by norm_num; linarith) this (abs_nonneg _) (by norm_num)
      _ ≤ 10000 := by norm_num
  have e : V.mul (.fin κ) (.fin (trans64 t)) = .fin (κ * trans64 t) := rfl
  rw [e, (step_near s).1] at h
  exact rnd_fin h

/-- The diffuse irradiance from a computed altitude. -/
theorem diffuse_form {lat lon e T P : V} {d : DateTime} {t a r : ℝ} (h0 : 0 ≤ t) (h1 : t ≤ 100) :
    (Solar.get_altitude (rndB binary64) lat lon (.dt d) e T P = .ok (.fin a) →
      diffuse_underclear (rndB binary64) lat lon (.dt d) e T P (.fin t) = .ok (.fin r) →
      ∃ κ, mean_earth_sun_distance (rndB binary64) (.dt d) = .ok (.fin κ) ∧ 0 ≤ κ ∧ r = b64 (b64 (κ * trans64 t) * a)) ∧
    (Solar.get_altitude (nprB binary64) lat lon (.dt d) e T P = .ok (.fin a) →
      diffuse_underclear (nprB binary64) lat lon (.dt d) e T P (.fin t) = .ok (.fin r) →
      ∃ κ, mean_earth_sun_distance (nprB binary64) (.dt d) = .ok (.fin κ) ∧ 0 ≤ κ ∧ r = b64 (b64 (κ * trans64 t) * a)) := by
  obtain ⟨t1, t2, -⟩ := trans_eval h0 h1
  constructor
  · intro ha h
    obtain ⟨_, _, h⟩ := bind_ok_inv h
    obtain ⟨a', ha', h⟩ := bind_ok_inv h
    obtain rfl := Except.ok.inj (ha.symm.trans ha')
    obtain ⟨k, hk, h⟩ := bind_ok_inv h
    have h := Except.ok.inj h
    have h : V.rnd binary64 (V.mul (V.rnd binary64 (V.mul k (diffuse_transmittance (rndB binary64) (.fin t)))) (.fin a)) = .fin r := h
    rw [t1] at h
    obtain ⟨κ, rfl, k0, k1⟩ := diffuse_product_form (C176_distance.1 _ _ hk) h0 h1 h
    exact ⟨κ, hk, k0, k1⟩
  · intro ha h
    obtain ⟨_, _, h⟩ := bind_ok_inv h
    obtain ⟨a', ha', h⟩ := bind_ok_inv h
    obtain rfl := Except.ok.inj (ha.symm.trans ha')
    obtain ⟨k, hk, h⟩ := bind_ok_inv h
    have h := Except.ok.inj h
    have h : V.rnd binary64 (V.mul (V.rnd binary64 (V.mul k (diffuse_transmittance (nprB binary64) (.fin t)))) (.fin a)) = .fin r := h
    rw [t2] at h
    obtain ⟨κ, rfl, k0, k1⟩ := diffuse_product_form (C176_distance.2 _ _ hk) h0 h1 h
    exact ⟨κ, hk, k0, k1⟩

theorem diffuse_product_mono {κ t t' a a' : ℝ} (k0 : 0 ≤ κ) (ht : 0.6 ≤ t) (htt : t ≤ t') (h1 : t' ≤ 100) (ha : 0 ≤ a) (h : a ≤ a') :
    b64 (b64 (κ * trans64 t) * a) ≤ b64 (b64 (κ * trans64 t') * a') := by
  have p : 0 ≤ t := by norm_num at ht; linarith
  have m := trans_mono p htt
  have q : 0 ≤ trans64 t' := by
    obtain ⟨r, h1, -, -, h4⟩ := C183_value t' (p.trans htt) h1
    have := h4 (ht.trans htt)
    rw [← V.fin.inj ((trans_eval (p.trans htt) ‹t' ≤ 100›).1.symm.trans h1)] at this
    linarith
  exact b64_mono (mul_le_mul (b64_mono (mul_le_mul_of_nonneg_left m k0)) h ha (b64_nonneg (mul_nonneg k0 q)))

/-- C184: the diffuse irradiance of one moment never falls as the altitude or the turbidity rises. -/
theorem C184_diffuse (lat lon e T P lat' lon' e' T' P' : V) (d : DateTime) (t t' a a' r r' : ℝ) (ht : 0.6 ≤ t) (htt : t ≤ t')
    (h1 : t' ≤ 100) (ha : 0 ≤ a) (h : a ≤ a') :
    (Solar.get_altitude (rndB binary64) lat lon (.dt d) e T P = .ok (.fin a) →
      Solar.get_altitude (rndB binary64) lat' lon' (.dt d) e' T' P' = .ok (.fin a') →
      diffuse_underclear (rndB binary64) lat lon (.dt d) e T P (.fin t) = .ok (.fin r) →
      diffuse_underclear (rndB binary64) lat' lon' (.dt d) e' T' P' (.fin t') = .ok (.fin r') → 0 ≤ r ∧ r ≤ r') ∧
    (Solar.get_altitude (nprB binary64) lat lon (.dt d) e T P = .ok (.fin a) →
      Solar.get_altitude (nprB binary64) lat' lon' (.dt d) e' T' P' = .ok (.fin a') →
      diffuse_underclear (nprB binary64) lat lon (.dt d) e T P (.fin t) = .ok (.fin r) →
      diffuse_underclear (nprB binary64) lat' lon' (.dt d) e' T' P' (.fin t') = .ok (.fin r') → 0 ≤ r ∧ r ≤ r') := by
  have p : 0 ≤ t := by norm_num at ht; linarith
  have z : b64 0 = 0 := by simpa using b64_int 0 (by norm_num)
  have low : ∀ {κ : ℝ}, 0 ≤ κ → 0 ≤ b64 (b64 (κ * trans64 t) * a) := by
    intro κ k0
    have := diffuse_product_mono k0 ht le_rfl (htt.trans h1) le_rfl ha
    rwa [mul_zero, z] at this
  constructor
  · intro h2 h3 h4 h5
    obtain ⟨κ, m1, k0, rfl⟩ := (diffuse_form p (htt.trans h1)).1 h2 h4
    obtain ⟨κ', m2, -, rfl⟩ := (diffuse_form (p.trans htt) h1).1 h3 h5
    obtain rfl := V.fin.inj (Except.ok.inj (m1.symm.trans m2))
    exact ⟨low k0, diffuse_product_mono k0 ht htt h1 ha h⟩
  · intro h2 h3 h4 h5
    obtain ⟨κ, m1, k0, rfl⟩ := (diffuse_form p (htt.trans h1)).2 h2 h4
    obtain ⟨κ', m2, -, rfl⟩ := (diffuse_form (p.trans htt) h1).2 h3 h5
    obtain rfl := V.fin.inj (Except.ok.inj (m1.symm.trans m2))
    exact ⟨low k0, diffuse_product_mono k0 ht htt h1 ha h⟩

set_option maxRecDepth 100000 in
theorem iv_doc_elevation : Iv.within (Solar.get_topocentric_position ivB (ivB.lit 42.206) (ivB.lit (-71.382)) (.dt (utcDT docMorning))
    (ivB.lit 0) >>= fun p => Solar.get_topocentric_elevation_angle ivB (ivB.lit 42.206) p.1 p.2) 26 28 = true := by
  decide +kernel

/-- The altitude at the place of the documentation's examples on the morning of their date, exact and in double precision. -/
theorem doc_altitude64 : ∃ a' a, Solar.get_altitude (rndB binary64) (flt binary64 ((42.206 : ℚ) : ℝ)) (flt binary64 ((-71.382 : ℚ) : ℝ))
      (.dt (utcDT docMorning)) (flt binary64 0) = .ok (flt binary64 a') ∧
    Solar.get_altitude (mathB (10 ^ 6)) (num ((42.206 : ℚ) : ℝ)) (num ((-71.382 : ℚ) : ℝ)) (.dt (utcDT docMorning)) (num 0) = .ok (num a) ∧
    26 ≤ a ∧ a ≤ 28 ∧ |a' - a| ≤ 2 / 10 ^ 5 := by
  have hw : (ivSim (10 ^ 6)).rW (.dt (utcDT docMorning)) (.dt (utcDT docMorning)) := ⟨_, rfl, rfl⟩
  have hl : ∀ q : ℚ, (ivSim (10 ^ 6)).r (ivB.lit q) ((mathB (10 ^ 6)).lit q) := fun q => iv_lit q
  obtain ⟨e, k1, k2, k3⟩ := Iv.within_ok (RelM.bind ((ivSim (10 ^ 6)).toSim.get_topocentric_position (hl 42.206) (hl (-71.382)) hw (hl 0))
    fun _ _ h => (ivSim (10 ^ 6)).toSim.get_topocentric_elevation_angle (hl 42.206) h.1 h.2) iv_doc_elevation
  obtain ⟨p, k4, k5⟩ := bind_ok_inv k1
  have z : (mathB (10 ^ 6)).lit 0 = num 0 := by rw [m_lit]; norm_num
  rw [z] at k4
  obtain ⟨dec, H, e', m1, m2, m3⟩ := C86_default binary64 (10 ^ 6) (le_abs_self _) _ _ (utcDT_fields docMorning_valid) ((42.206 : ℚ) : ℝ)
    ((-71.382 : ℚ) : ℝ) 0 (.inl (by norm_num [abs_le])) (by norm_num [abs_le]) (by norm_num)
  obtain rfl := Except.ok.inj (k4.symm.trans m1)
  obtain rfl : e = e' := V.fin.inj (Except.ok.inj (k5.symm.trans m2))
  have e0 : (26 : ℝ) ≤ e := by exact_mod_cast k2
  have e1 : e ≤ (28 : ℝ) := by exact_mod_cast k3
  obtain ⟨a', a, n1, n2, n3⟩ := m3 (by rw [abs_of_nonneg (by linarith)]; norm_num; linarith) (.inr (.inr (by norm_num; linarith)))
  obtain ⟨x, -, o1, o2, o3, -⟩ := C178_documented_partial (10 ^ 6)
  obtain rfl : a = x := V.fin.inj (Except.ok.inj (n2.symm.trans o1))
  exact ⟨a', a, n1, n2, o2, o3, n3⟩

/-- A concrete case: the place of the documentation's examples on the morning of their date, turbidity 1 against 2. -/
example : ∃ a r r', Solar.get_altitude (rndB binary64) (flt binary64 ((42.206 : ℚ) : ℝ)) (flt binary64 ((-71.382 : ℚ) : ℝ))
      (.dt (utcDT docMorning)) (flt binary64 0) = .ok (.fin a) ∧
    diffuse_underclear (rndB binary64) (flt binary64 ((42.206 : ℚ) : ℝ)) (flt binary64 ((-71.382 : ℚ) : ℝ))
      (.dt (utcDT docMorning)) (flt binary64 0) (TL := .fin 1) = .ok (.fin r) ∧
    diffuse_underclear (rndB binary64) (flt binary64 ((42.206 : ℚ) : ℝ)) (flt binary64 ((-71.382 : ℚ) : ℝ))
      (.dt (utcDT docMorning)) (flt binary64 0) (TL := .fin 2) = .ok (.fin r') ∧ 25 ≤ a ∧ 0 ≤ r ∧ r ≤ r' := by
  obtain ⟨a', a, n1, -, o2, o3, n3⟩ := doc_altitude64
  have b := abs_le.1 n3
  norm_num at b
  obtain ⟨r, q1, -⟩ := C117_diffuse binary64 _ _ (utcDT_fields docMorning_valid) _ _ _ _ _ 1 a' a (by norm_num) (by norm_num) n1
    (abs_le.2 ⟨by linarith, by linarith⟩) n3
  obtain ⟨r', q2, -⟩ := C117_diffuse binary64 _ _ (utcDT_fields docMorning_valid) _ _ _ _ _ 2 a' a (by norm_num) (by norm_num) n1
    (abs_le.2 ⟨by linarith, by linarith⟩) n3
  have f := (C184_diffuse _ _ _ _ _ _ _ _ _ _ _ 1 2 a' a' r r' (by norm_num) (by norm_num) (by norm_num) (by linarith) le_rfl).1 n1 n1 q1 q2
  exact ⟨a', r, r', n1, q1, q2, by linarith, f⟩

end Verif.Props
