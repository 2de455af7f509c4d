import Verif.Props.Default
import Verif.Proofs.FloatIrr
import Verif.Proofs.FloatSunrise
import Verif.Proofs.FloatElev

/-!
# C135: exceptions with Python numbers and the functions of numpy

Operators on Python numbers raise `ZeroDivisionError` also while the functions are those of numpy.
-/

namespace Verif.Props

open Pysolar Pysolar.Numeric Pysolar.Solar Pysolar.Solartime Pysolar.Util Verif.Spec
open Chain (rnd_zero dd_split direct_uc_split extra_split clear_index_split ddOf facOf zaOf prodOf expoOf scaleOf facOf_sim zaOf_sim
  cosD tanD cosD_sim tanD_sim srHours srNoon srTimes srHa_split sr_split pressure_split ratioE powE)

/-- Python's division of the numbers of `N`: it raises `ZeroDivisionError` exactly for the divisor 0. -/
structure PyDiv (N : Backend) (pd : N.α → N.α → Py N.α) : Prop where
  zero : ∀ x, pd x (N.lit 0) = .error .zeroDivision
  other : ∀ x y, y ≠ N.lit 0 → ∃ z, pd x y = .ok z
  pi : N.pi ≠ N.lit 0
  year : N.lit TY_default ≠ N.lit 0
  truth : ∀ c, ∃ b, N.truth c = .ok b

theorem pyDiv_exact (tp : ℝ) : PyDiv (npB tp) (mathB tp).div where
  zero x := by
    show (if (((0 : ℚ) : ℝ)) = 0 then (Except.error PyErr.zeroDivision : Py V) else _) = _
    exact if_pos (by norm_num)
  other x y h := by
    cases y with
    | fin b =>
      by_cases hb : b = 0
      · exact absurd (by rw [hb]; show V.fin 0 = V.fin ((0 : ℚ) : ℝ); norm_num) h
      · exact ⟨_, if_neg hb⟩
    | _ => exact ⟨_, rfl⟩
  pi h := by
    have : V.fin Real.pi = V.fin ((0 : ℚ) : ℝ) := h
    simp [Real.pi_ne_zero] at this
  year h := by
    have : V.fin ((TY_default : ℚ) : ℝ) = V.fin ((0 : ℚ) : ℝ) := h
    simp [TY_default] at this
  truth c := ⟨_, rfl⟩

theorem pyDiv_double (F : F64) : PyDiv (nprB F) (rndB F).div where
  zero x := by
    show (if F.rnd ((0 : ℚ) : ℝ) = 0 then (Except.error PyErr.zeroDivision : Py V) else _) = _
    exact if_pos (by rw [Rat.cast_zero]; exact rnd_zero F)
  other x y h := by
    cases y with
    | fin b =>
      by_cases hb : b = 0
      · refine absurd ?_ h
        show V.fin b = V.fin (F.rnd ((0 : ℚ) : ℝ))
        rw [hb, Rat.cast_zero, rnd_zero F]
      · exact ⟨_, if_neg hb⟩
    | _ => exact ⟨_, rfl⟩
  pi h := by
    have : V.fin (F.rnd Real.pi) = V.fin (F.rnd ((0 : ℚ) : ℝ)) := h
    rw [Rat.cast_zero, rnd_zero F] at this
    have h1 : F.rnd (1 : ℝ) ≤ F.rnd Real.pi := F.rnd_mono (by linarith [Real.pi_gt_three])
    have h2 : F.rnd (1 : ℝ) = 1 := by simpa using F.rnd_int 1 (by norm_num)
    have h3 := V.fin.inj this
    linarith
  year h := by
    have : V.fin (F.rnd ((TY_default : ℚ) : ℝ)) = V.fin (F.rnd ((0 : ℚ) : ℝ)) := h
    rw [Rat.cast_zero, rnd_zero F] at this
    have h2 : F.rnd ((TY_default : ℚ) : ℝ) = 365 := by simpa [TY_default] using F.rnd_int 365 (by norm_num)
    rw [h2] at this
    have h3 := V.fin.inj this
    norm_num at h3
  truth c := ⟨_, rfl⟩

section

variable {N : Backend} {pd pp : N.α → N.α → Py N.α} (D : Config N pd pp) (Z : PyDiv N pd)

include D Z

/-- A division returns unless it divides a Python number by the Python number 0. -/
theorem tag_div (x y : N.α × Bool) (h : x.2 = true ∨ y.2 = true ∨ y.1 ≠ N.lit 0) :
    ∃ v, (tagB N pd pp).div x y = .ok (v, x.2 || y.2) ∧ N.div x.1 y.1 = .ok v := by
  obtain ⟨v, hv⟩ := D.noRaise.div x.1 y.1
  show ∃ v, tagOp (x.2 || y.2) (N.div x.1 y.1) (pd x.1 y.1) = _ ∧ _
  by_cases hb : (x.2 || y.2) = true
  · refine ⟨v, ?_, hv⟩
    rw [tagOp, if_pos hb, hv]
    rfl
  · have hy : y.1 ≠ N.lit 0 := by
      rcases h with h | h | h
      · simp [h] at hb
      · simp [h] at hb
      · exact h
    obtain ⟨u, hu⟩ := Z.other x.1 y.1 hy
    have h2 := D.div x.1 y.1
    rw [hu, hv] at h2
    refine ⟨v, ?_, hv⟩
    rw [tagOp, if_neg hb, hu, show u = v from h2, Bool.eq_false_iff.2 hb]
    rfl

omit D in
theorem tag_div_zero (x : N.α) : (tagB N pd pp).div (x, false) (N.lit 0, false) = .error .zeroDivision := by
  show tagOp false (N.div x (N.lit 0)) (pd x (N.lit 0)) = _
  rw [tagOp, if_neg (by simp), Z.zero]
  rfl

/-- C135: the diffuse ratio. -/
theorem C135_diffuse_ratio (x y : N.α) :
    (diffuse_ratio (tagB N pd pp) (x, false) (y, false) = .error .zeroDivision ↔ y = N.lit 0) ∧
    (y ≠ N.lit 0 → ∃ v, diffuse_ratio (tagB N pd pp) (x, false) (y, false) = .ok (v, false) ∧ diffuse_ratio N x y = .ok v) ∧
    ∀ b, Returns (N := N) (diffuse_ratio (tagB N pd pp) (x, true) (y, b)) (diffuse_ratio N x y) ∧
      Returns (N := N) (diffuse_ratio (tagB N pd pp) (x, b) (y, true)) (diffuse_ratio N x y) := by
  refine ⟨⟨fun he => ?_, fun hy => ?_⟩, fun hy => ?_, fun b => ⟨?_, ?_⟩⟩
  · by_contra hy
    obtain ⟨v, hv, -⟩ := tag_div (pp := pp) D Z (x, false) (y, false) (.inr (.inr hy))
    have := he.symm.trans hv
    cases this
  · rw [hy]
    exact tag_div_zero Z x
  · exact tag_div D Z (x, false) (y, false) (.inr (.inr hy))
  · obtain ⟨v, hv, hn⟩ := tag_div (pp := pp) D Z (x, true) (y, b) (.inl rfl)
    exact ⟨v, hv, hn⟩
  · obtain ⟨v, hv, hn⟩ := tag_div (pp := pp) D Z (x, b) (y, true) (.inr (.inl rfl))
    rw [show (b || true) = true by simp] at hv
    exact ⟨v, hv, hn⟩

variable {d : DateTime} {c : Civil} (h : UtcFields d c) (lat lon el T P TY AM TL : N.α × Bool)

include h

/-- C135: the declination raises only for the Python number 0 as the length of the year. -/
theorem C135_declination :
    (TY = (N.lit 0, false) → declination_degree (tagB N pd pp) (.dt d) TY = .error .zeroDivision) ∧
    (TY ≠ (N.lit 0, false) → Returns (N := N) (declination_degree (tagB N pd pp) (.dt d) TY)
      (declination_degree N (.dt d) TY.1)) := by
  constructor
  · rintro rfl
    refine (dd_split (tagB N pd pp) h _).trans ?_
    exact bind_of_error (tag_div_zero Z _)
  · intro hTY
    have hne : TY.2 = true ∨ TY.1 ≠ N.lit 0 := by
      by_contra hc
      push Not at hc
      refine hTY (Prod.ext hc.2 ?_)
      simpa using hc.1
    obtain ⟨v, hv, hn⟩ := tag_div (pp := pp) D Z ((tagB N pd pp).mul 2 (tagB N pd pp).pi) TY (.inr hne)
    obtain ⟨s, hs⟩ := D.noRaise.sin (v * (N.lit (yday c.date) - 81))
    refine ⟨N.lit Constants.earth_axis_inclination * s, ?_, ?_⟩
    · refine (dd_split (tagB N pd pp) h _).trans ?_
      refine bind_of_ok hv ?_
      refine bind_of_ok (a := ((s, true) : N.α × Bool)) ?_ rfl
      show (N.sin (v * (N.lit (yday c.date) - 81)) >>= fun z => (pure (z, true) : Py (N.α × Bool))) = _
      rw [hs]
      rfl
    · rw [dd_split _ h]
      unfold ddOf
      refine bind_of_ok hn ?_
      refine bind_of_ok hs rfl

/-- C135: the clear-sky direct irradiance raises only for the Python number 0 as the length of the year. -/
theorem C135_direct :
    (TY = (N.lit 0, false) → direct_underclear (tagB N pd pp) lat lon (.dt d) TY AM TL el T P = .error .zeroDivision) ∧
    (TY ≠ (N.lit 0, false) → Returns (N := N) (direct_underclear (tagB N pd pp) lat lon (.dt d) TY AM TL el T P)
      (direct_underclear N lat.1 lon.1 (.dt d) TY.1 AM.1 TL.1 el.1 T.1 P.1)) := by
  obtain ⟨k, hk, hkn⟩ := C134_mean_distance D h
  obtain ⟨h0, h1⟩ := C135_declination D Z h TY
  constructor
  · intro hz
    refine (direct_uc_split (tagB N pd pp) h _ _ _ _ _ _ _ _).trans ?_
    exact bind_of_ok hk (bind_of_error (h0 hz))
  · intro hz
    obtain ⟨v, hv, hvn⟩ := h1 hz
    obtain ⟨a, ha, han⟩ := C134_altitude D h lat lon el T P
    obtain ⟨e, he⟩ := D.noRaise.exp (-0.8662 * AM.1 * TL.1 * v)
    obtain ⟨s, hs⟩ := D.noRaise.sin a
    refine ⟨1367 * k * e * s, ?_, ?_⟩
    · refine (direct_uc_split (tagB N pd pp) h _ _ _ _ _ _ _ _).trans ?_
      refine bind_of_ok hk (bind_of_ok hv (bind_of_ok rfl ?_))
      refine bind_of_ok (a := ((e, true) : N.α × Bool)) ?_ (bind_of_ok ha (bind_of_ok (a := ((s, true) : N.α × Bool)) ?_ ?_))
      · show (N.exp (-0.8662 * AM.1 * TL.1 * v) >>= fun z => (pure (z, true) : Py (N.α × Bool))) = _
        rw [he]
        rfl
      · show (N.sin a >>= fun z => (pure (z, true) : Py (N.α × Bool))) = _
        rw [hs]
        rfl
      · rfl
    · rw [direct_uc_split _ h]
      exact bind_of_ok hkn (bind_of_ok hvn (bind_of_ok rfl (bind_of_ok he (bind_of_ok han (bind_of_ok hs rfl)))))

/-- C135: the same for the global irradiance. -/
theorem C135_global :
    (TY = (N.lit 0, false) → global_irradiance_clear (tagB N pd pp) lat lon (.dt d) TY AM TL el T P = .error .zeroDivision) ∧
    (TY ≠ (N.lit 0, false) → Returns (N := N) (global_irradiance_clear (tagB N pd pp) lat lon (.dt d) TY AM TL el T P)
      (global_irradiance_clear N lat.1 lon.1 (.dt d) TY.1 AM.1 TL.1 el.1 T.1 P.1)) := by
  obtain ⟨h0, h1⟩ := C135_direct (pp := pp) D Z h lat lon el (N.lit Constants.standard_temperature, false)
    (N.lit Constants.standard_pressure, false) TY AM TL
  constructor
  · intro hz
    unfold global_irradiance_clear
    rw [guard_denotes h.2]
    exact bind_of_ok rfl (bind_of_error (h0 hz))
  · intro hz
    obtain ⟨v, hv, hvn⟩ := h1 hz
    obtain ⟨s, hs, hsn⟩ := C134_diffuse_clear (pp := pp) D h lat lon el (N.lit Constants.standard_temperature, false)
      (N.lit Constants.standard_pressure, false) (N.lit TL_default, false)
    refine ⟨v + s, ?_, ?_⟩
    · unfold global_irradiance_clear
      rw [guard_denotes h.2]
      exact bind_of_ok rfl (bind_of_ok hv (bind_of_ok hs rfl))
    · unfold global_irradiance_clear
      rw [guard_denotes h.2]
      exact bind_of_ok rfl (bind_of_ok hvn (bind_of_ok hsn rfl))

end

/-! ## Irradiation outside the atmosphere -/

section

variable {N : Backend} {pd pp : N.α → N.α → Py N.α} (D : Config N pd pp) (Z : PyDiv N pd)
  {d : DateTime} {c : Civil} (h : UtcFields d c) (lat lon : N.α × Bool)

include D Z h

/-- The result of `extraterrestrial_irrad` and its kind. -/
theorem extra_kinds (SC : N.α × Bool) : ∃ v b,
    extraterrestrial_irrad (tagB N pd pp) lat lon (.dt d) SC = .ok (v, b) ∧
    extraterrestrial_irrad N lat.1 lon.1 (.dt d) SC.1 = .ok v ∧
    (b = false → v = N.lit 0) ∧ (b = true → ∃ de ha z, Solar.get_declination N (N.lit (yday c.date)) = .ok de ∧
      Solar.get_hour_angle N (.dt d) lon.1 = .ok ha ∧ zaOf N lat.1 de ha = .ok z ∧ N.truth (N.lt (N.lit 0) z) = .ok true) := by
  obtain ⟨f, hf, hfn⟩ := returns_of (N := N) (k := facOf kindB false) rfl
    (facOf_sim D.kind (x' := (N.lit (yday c.date), false)) (kind_any _))
    (facOf_sim D.np.toSim (x' := N.lit (yday c.date)) rfl)
  obtain ⟨de, hde, hden⟩ := returns_of (N := N) (k := Solar.get_declination kindB false) rfl
    (D.kind.get_declination (x' := (N.lit (yday c.date), false)) (kind_any _))
    (D.np.toSim.get_declination (x' := N.lit (yday c.date)) rfl)
  obtain ⟨ha, hha, hhan⟩ := C134_hour_angle (pp := pp) D lon (w := .dt d) (.inl ⟨d, c, h, rfl⟩)
  obtain ⟨z, hz, hzn⟩ := returns_of (N := N) (k := zaOf kindB false false false) rfl
    (zaOf_sim D.kind (kind_any lat) (kind_any (de, true)) (kind_any (ha, true)))
    (zaOf_sim D.np.toSim rfl rfl rfl)
  obtain ⟨t, ht⟩ := Z.truth (N.lt (N.lit 0) z)
  cases t with
  | true =>
    refine ⟨N.mul (N.mul SC.1 z) f, true, ?_, ?_, by simp, fun _ => ⟨de, ha, z, hden, hhan, hzn, ht⟩⟩
    · refine (extra_split (tagB N pd pp) h _ _ _).trans ?_
      refine bind_of_ok hf (bind_of_ok hde (bind_of_ok hha (bind_of_ok hz (bind_of_ok (a := true) ht ?_))))
      show Except.ok (_, (SC.2 || true) || true) = _
      simp
      rfl
    · refine (extra_split N h _ _ _).trans ?_
      exact bind_of_ok hfn (bind_of_ok hden (bind_of_ok hhan (bind_of_ok hzn (bind_of_ok (a := true) ht rfl))))
  | false =>
    refine ⟨N.lit 0.0, false, ?_, ?_, ?_, by simp⟩
    · refine (extra_split (tagB N pd pp) h _ _ _).trans ?_
      exact bind_of_ok hf (bind_of_ok hde (bind_of_ok hha (bind_of_ok hz (bind_of_ok (a := false) ht rfl))))
    · refine (extra_split N h _ _ _).trans ?_
      exact bind_of_ok hfn (bind_of_ok hden (bind_of_ok hhan (bind_of_ok hzn (bind_of_ok (a := false) ht rfl))))
    · intro _
      norm_num

/-- C135: by day `extraterrestrial_irrad` returns a numpy scalar; at night it returns the Python number 0.0. -/
theorem C135_extraterrestrial (SC : N.α × Bool) : ∃ v b,
    extraterrestrial_irrad (tagB N pd pp) lat lon (.dt d) SC = .ok (v, b) ∧
    extraterrestrial_irrad N lat.1 lon.1 (.dt d) SC.1 = .ok v ∧ (b = false → v = N.lit 0) := by
  obtain ⟨v, b, e1, e2, e3, -⟩ := extra_kinds (pp := pp) D Z h lat lon SC
  exact ⟨v, b, e1, e2, e3⟩

/-- C135: `clear_index` of a Python number raises `ZeroDivisionError` exactly where `extraterrestrial_irrad` returns the
Python number 0.0; of a numpy scalar it returns. -/
theorem C135_clear_index (g : N.α) :
    (clear_index (tagB N pd pp) (g, false) lat lon (.dt d) = .error .zeroDivision ↔
      extraterrestrial_irrad (tagB N pd pp) lat lon (.dt d) = .ok (N.lit 0, false)) ∧
    (extraterrestrial_irrad (tagB N pd pp) lat lon (.dt d) ≠ .ok (N.lit 0, false) →
      Returns (N := N) (clear_index (tagB N pd pp) (g, false) lat lon (.dt d)) (clear_index N g lat.1 lon.1 (.dt d))) ∧
    Returns (N := N) (clear_index (tagB N pd pp) (g, true) lat lon (.dt d)) (clear_index N g lat.1 lon.1 (.dt d)) := by
  obtain ⟨v, b, e1, e2, e3⟩ := C135_extraterrestrial D Z h lat lon ((tagB N pd pp).lit SC_default)
  have key : ∀ t : Bool, (t = true ∨ b = true) →
      Returns (N := N) (clear_index (tagB N pd pp) (g, t) lat lon (.dt d)) (clear_index N g lat.1 lon.1 (.dt d)) := by
    intro t htb
    obtain ⟨q, hq, hqn⟩ := tag_div (pp := pp) D Z (g, t) (v, b) (by tauto)
    refine ⟨q, ?_, ?_⟩
    · refine (clear_index_split (tagB N pd pp) h _ _ _).trans (bind_of_ok e1 ?_)
      refine hq.trans ?_
      rcases htb with rfl | rfl <;> simp <;> rfl
    · exact (clear_index_split N h _ _ _).trans (bind_of_ok e2 hqn)
  cases b with
  | true =>
    have hne : extraterrestrial_irrad (tagB N pd pp) lat lon (.dt d) ≠ .ok (N.lit 0, false) := by
      intro he
      have := e1.symm.trans he
      injection this with this
      injection this with _ this
      cases this
    refine ⟨⟨fun he => ?_, fun he => absurd he hne⟩, fun _ => key false (.inr rfl), key true (.inr rfl)⟩
    obtain ⟨u, hu, -⟩ := key false (.inr rfl)
    have := he.symm.trans hu
    cases this
  | false =>
    have hv := e3 rfl
    subst hv
    refine ⟨⟨fun _ => e1, fun _ => ?_⟩, fun hne => absurd e1 hne, key true (.inl rfl)⟩
    refine (clear_index_split (tagB N pd pp) h _ _ _).trans (bind_of_ok e1 ?_)
    exact tag_div_zero Z g

/-! ## Sunrise and sunset -/

omit h in
/-- C135: sunrise, sunset and transit do not depend on the kinds of numbers, nor do the exceptions. -/
theorem C135_sunrise (hd : d.tz.isSome) : get_sunrise_sunset_transit (tagB N pd pp) lat lon (.dt d)
    = get_sunrise_sunset_transit N lat.1 lon.1 (.dt d) := by
  obtain ⟨de, hde, hden⟩ := returns_of (N := N) (k := sunriseDecl kindB false) rfl
    (D.kind.sunriseDecl (x' := (N.lit (yday d.civil.date), false)) (kind_any _))
    (D.np.toSim.sunriseDecl (x' := N.lit (yday d.civil.date)) rfl)
  obtain ⟨e, he, hen⟩ := returns_of (N := N) (k := timeAdst kindB false) rfl
    (D.kind.timeAdst (x' := (N.lit (yday d.civil.date), false)) (kind_any _))
    (D.np.toSim.timeAdst (x' := N.lit (yday d.civil.date)) rfl)
  have hcos : ∀ x : N.α × Bool, Returns (N := N) (cosD (tagB N pd pp) x) (cosD N x.1) := fun x =>
    returns_of (k := cosD kindB false) rfl (cosD_sim D.kind (kind_any x)) (cosD_sim D.np.toSim rfl)
  have htan : ∀ x : N.α × Bool, Returns (N := N) (tanD (tagB N pd pp) x) (tanD N x.1) := fun x =>
    returns_of (k := tanD kindB false) rfl (tanD_sim D.kind (kind_any x)) (tanD_sim D.np.toSim rfl)
  obtain ⟨c1, hc1, hc1n⟩ := hcos (N.lit 90.833, false)
  obtain ⟨cl, hcl, hcln⟩ := hcos lat
  obtain ⟨cd, hcd, hcdn⟩ := hcos (de, true)
  obtain ⟨q, hq, hqn⟩ := tag_div (pp := pp) D Z (c1, true) (N.mul cl cd, true) (.inl rfl)
  obtain ⟨tl, htl, htln⟩ := htan lat
  obtain ⟨td, htd, htdn⟩ := htan (de, true)
  obtain ⟨A, hA⟩ := D.noRaise.acos (N.sub q (N.mul tl td))
  obtain ⟨k, hk, hkn⟩ := tag_div (pp := pp) D Z (N.lit 12, false) (N.pi, false) (.inr (.inr Z.pi))
  have h1 : sunriseHa (tagB N pd pp) lat (de, true) = .ok (N.mul A k, true) := by
    refine (srHa_split (tagB N pd pp) _ _).trans ?_
    refine bind_of_ok hc1 (bind_of_ok hcl (bind_of_ok hcd (bind_of_ok hq (bind_of_ok htl (bind_of_ok htd
      (bind_of_ok (a := ((A, true) : N.α × Bool)) ?_ ?_))))))
    · show (N.acos (N.sub q (N.mul tl td)) >>= fun z => (pure (z, true) : Py (N.α × Bool))) = _
      rw [hA]
      rfl
    · exact bind_of_ok hk rfl
  have h2 : sunriseHa N lat.1 de = .ok (N.mul A k) := by
    refine (srHa_split N _ _).trans ?_
    exact bind_of_ok hc1n (bind_of_ok hcln (bind_of_ok hcdn (bind_of_ok hqn (bind_of_ok htln (bind_of_ok htdn
      (bind_of_ok hA (bind_of_ok hkn rfl)))))))
  refine (sr_split (tagB N pd pp) hd _ _).trans (.trans ?_ (sr_split N hd _ _).symm)
  refine (bind_of_ok hde (bind_of_ok he (bind_of_ok h1 (bind_of_ok rfl rfl)))).trans ?_
  exact (bind_of_ok hden (bind_of_ok hen (bind_of_ok h2 (bind_of_ok rfl rfl)))).symm

end

/-! ## Exact arithmetic -/

/-- A number with its kind, in the default configuration. -/
noncomputable abbrev mk (tp x : ℝ) (b : Bool) : (dflB tp).α := (V.fin x, b)

/-- C135: in exact arithmetic `clear_index` of Python numbers raises exactly while `get_altitude_fast` is not positive,
in the default configuration as after `use_math()` (C45). -/
theorem C135_clear_index_night (tp : ℝ) {d : DateTime} {c : Civil} (h : UtcFields d c) (lat lon ghi : ℝ) (b b' : Bool) :
    ∃ alt, get_altitude_fast (dflB tp) (mk tp lat b) (mk tp lon b') (.dt d) = .ok (mk tp alt true) ∧
      (clear_index (dflB tp) (mk tp ghi false) (mk tp lat b) (mk tp lon b') (.dt d) = .error .zeroDivision ↔ alt ≤ 0) := by
  obtain ⟨alt, e, ha, he, h0, h1⟩ := C42_extraterrestrial tp d c h lat lon (SC_default : ℚ) (by norm_num [SC_default])
  obtain ⟨a, ha1, ha2⟩ := C134_altitude_fast (config_exact tp) (mk tp lat b) (mk tp lon b') (w := .dt d) (.inl ⟨d, c, h, rfl⟩)
  obtain ⟨_, ha3, rfl⟩ := RelM.of_ok ((mathNp tp).get_altitude_fast (x := num lat) (y := num lon) rfl rfl ⟨d, rfl, rfl⟩) ha
  have haa : a = V.fin alt := Except.ok.inj (ha2.symm.trans ha3)
  subst haa
  refine ⟨alt, ha1, ?_⟩
  obtain ⟨v, k, e1, e2, e3, e4⟩ := extra_kinds (config_exact tp) (pyDiv_exact tp) h (mk tp lat b) (mk tp lon b')
    ((dflB tp).lit SC_default)
  obtain ⟨_, he3, rfl⟩ := RelM.of_ok ((mathNp tp).extraterrestrial_irrad (x := num lat) (y := num lon) (z := num (SC_default : ℚ))
    rfl rfl ⟨d, rfl, rfl⟩ rfl) he
  have hv : v = V.fin e := Except.ok.inj (e2.symm.trans he3)
  refine ((C135_clear_index (config_exact tp) (pyDiv_exact tp) h (mk tp lat b) (mk tp lon b') (V.fin ghi)).1).trans ?_
  rw [show extraterrestrial_irrad (dflB tp) (mk tp lat b) (mk tp lon b') (.dt d) = .ok (v, k) from e1]
  constructor
  · intro hx
    by_contra hn
    injection hx with hx
    injection hx with hx _
    have h2 : V.fin e = V.fin ((0 : ℚ) : ℝ) := hv.symm.trans hx
    have h3 := V.fin.inj h2
    have := (h1 (not_le.1 hn)).1
    rw [h3] at this
    simp at this
  · intro hx
    have hk : k = false := by
      cases k with
      | false => rfl
      | true =>
        obtain ⟨de, ha', z, g1, g2, g3, g4⟩ := e4 rfl
        obtain ⟨_, m1, rfl⟩ := RelM.of_ok ((mathNp tp).toSim.get_declination (x := num (yday c.date)) (x' := (npB tp).lit (yday c.date))
          (by show V.fin _ = V.fin _; simp)) (decl_eval ..)
        obtain ⟨_, m2, rfl⟩ := RelM.of_ok ((mathNp tp).get_hour_angle (w := .dt d) (w' := .dt d) ⟨d, rfl, rfl⟩ (x := num lon) rfl)
          (ha_eval h lon)
        have q1 := Except.ok.inj (g1.symm.trans m1)
        have q2 := Except.ok.inj (g2.symm.trans m2)
        have m3 : zaOf (mathB tp) (num lat) (num (decF (yday c.date))) (num (haF lon c))
            = .ok (num (sunENU lat (haF lon c) (decF (yday c.date))).z) := by
          rw [← up_eq]
          simp only [zaOf, m_radians, m_cos, m_sin, m_mul, m_add, ok_bind, pure_eq_ok]
        obtain ⟨_, m4, rfl⟩ := RelM.of_ok (zaOf_sim (mathNp tp).toSim (x := num lat) rfl (y := num (decF (yday c.date))) rfl
          (z := num (haF lon c)) rfl) m3
        have q3 : z = V.fin (sunENU lat (haF lon c) (decF (yday c.date))).z := by
          refine Except.ok.inj (g3.symm.trans ?_)
          rw [q1, q2]
          exact m4
        rw [q3] at g4
        have hz : ((0 : ℚ) : ℝ) < (sunENU lat (haF lon c) (decF (yday c.date))).z := by
          have := Except.ok.inj g4
          exact of_decide_eq_true this
        have h5 := num_injective (Except.ok.inj (he.symm.trans (extra_eval h lat lon _)))
        rw [h0 hx, if_pos (by simpa using hz)] at h5
        have h6 := (eccF_bounds (yday c.date)).1
        have h7 : (0 : ℝ) < eccF (yday c.date) := lt_of_lt_of_le (by norm_num) h6
        have h8 : (0 : ℝ) < ((SC_default : ℚ) : ℝ) := by norm_num [SC_default]
        have h9 : (0 : ℝ) < (sunENU lat (haF lon c) (decF (yday c.date))).z := by simpa using hz
        have := mul_pos (mul_pos h8 h9) h7
        rw [← h5] at this
        exact absurd this (lt_irrefl _)
    rw [hk, hv, h0 hx]
    show Except.ok (V.fin 0, false) = Except.ok (V.fin ((0 : ℚ) : ℝ), false)
    rw [Rat.cast_zero]

/-- The same outcome, with the kind of a Python number. -/
def asPy {γ : Type} (m : Py γ) : Py (γ × Bool) := m >>= fun v => .ok (v, false)

theorem asPy_bind {β γ : Type} (m : Py β) (f : β × Bool → Py (γ × Bool)) (g : β → Py γ) (hfg : ∀ v, f (v, false) = asPy (g v)) :
    asPy m >>= f = asPy (m >>= g) := by
  cases m with
  | error e => rfl
  | ok v => exact hfg v

/-- C135: the pressure at a height given as a Python number follows Python's rules. -/
theorem C135_pressure (tp : ℝ) (x : V) : Elevation.get_pressure_with_elevation (dflB tp) (x, false)
    = asPy (Elevation.get_pressure_with_elevation (mathB tp) x) := by
  refine (pressure_split (dflB tp) _).trans (.trans ?_ (congrArg asPy (pressure_split (mathB tp) x).symm))
  show (asPy (ratioE (mathB tp) x) >>= fun q => asPy (powE (mathB tp) x) >>= fun k => (dflB tp).rpow q k >>= fun p =>
    .ok ((dflB tp).mul ((dflB tp).lit Constants.standard_pressure) p)) = asPy (ratioE (mathB tp) x >>= fun q =>
      powE (mathB tp) x >>= fun k => (mathB tp).rpow q k >>= fun p =>
        .ok ((mathB tp).mul ((mathB tp).lit Constants.standard_pressure) p))
  refine asPy_bind _ _ _ fun q => asPy_bind _ _ _ fun k => ?_
  exact asPy_bind ((mathB tp).rpow q k) _ _ fun p => rfl

theorem C135_pressure_double (F : F64) (x : V) : Elevation.get_pressure_with_elevation (dflF F) (x, false)
    = asPy (Elevation.get_pressure_with_elevation (rndB F) x) := by
  refine (pressure_split (dflF F) _).trans (.trans ?_ (congrArg asPy (pressure_split (rndB F) x).symm))
  show (asPy (ratioE (rndB F) x) >>= fun q => asPy (powE (rndB F) x) >>= fun k => (dflF F).rpow q k >>= fun p =>
    .ok ((dflF F).mul ((dflF F).lit Constants.standard_pressure) p)) = asPy (ratioE (rndB F) x >>= fun q =>
      powE (rndB F) x >>= fun k => (rndB F).rpow q k >>= fun p =>
        .ok ((rndB F).mul ((rndB F).lit Constants.standard_pressure) p))
  refine asPy_bind _ _ _ fun q => asPy_bind _ _ _ fun k => ?_
  exact asPy_bind ((rndB F).rpow q k) _ _ fun p => rfl

/-! ## Where the functions of `math` return -/

/-- C134: whenever the call returns after `use_math()`, the call in the default configuration returns the same value. -/
theorem C134_math (tp : ℝ) {d : DateTime} {c : Civil} (h : UtcFields d c) (lat lon el T P : V) (b1 b2 b3 b4 b5 : Bool) :
    (∀ v, get_altitude (mathB tp) lat lon (.dt d) el T P = .ok v →
      get_altitude (dflB tp) (lat, b1) (lon, b2) (.dt d) (el, b3) (T, b4) (P, b5) = .ok (v, true)) ∧
    (∀ v, get_azimuth (mathB tp) lat lon (.dt d) el = .ok v →
      get_azimuth (dflB tp) (lat, b1) (lon, b2) (.dt d) (el, b3) = .ok (v, true)) ∧
    (∀ v, get_altitude_fast (mathB tp) lat lon (.dt d) = .ok v →
      get_altitude_fast (dflB tp) (lat, b1) (lon, b2) (.dt d) = .ok (v, true)) ∧
    (∀ v, get_azimuth_fast (mathB tp) lat lon (.dt d) = .ok v →
      get_azimuth_fast (dflB tp) (lat, b1) (lon, b2) (.dt d) = .ok (v, true)) ∧
    (∀ v, Radiation.get_radiation_direct (mathB tp) (.dt d) el = .ok v →
      Radiation.get_radiation_direct (dflB tp) (.dt d) (el, b3) = .ok (v, true)) := by
  refine ⟨fun v hv => ?_, fun v hv => ?_, fun v hv => ?_, fun v hv => ?_, fun v hv => ?_⟩
  · obtain ⟨_, e, rfl⟩ := RelM.of_ok ((mathNp tp).get_altitude rfl rfl ⟨d, rfl, rfl⟩ rfl rfl rfl) hv
    obtain ⟨u, hu, hun⟩ := C134_altitude (config_exact tp) h (lat, b1) (lon, b2) (el, b3) (T, b4) (P, b5)
    rw [← Except.ok.inj (hun.symm.trans e)]
    exact hu
  · obtain ⟨_, e, rfl⟩ := RelM.of_ok ((mathNp tp).get_azimuth rfl rfl ⟨d, rfl, rfl⟩ rfl) hv
    obtain ⟨u, hu, hun⟩ := C134_azimuth (config_exact tp) h (lat, b1) (lon, b2) (el, b3)
    rw [← Except.ok.inj (hun.symm.trans e)]
    exact hu
  · obtain ⟨_, e, rfl⟩ := RelM.of_ok ((mathNp tp).get_altitude_fast rfl rfl ⟨d, rfl, rfl⟩) hv
    obtain ⟨u, hu, hun⟩ := C134_altitude_fast (config_exact tp) (lat, b1) (lon, b2) (w := .dt d) (.inl ⟨d, c, h, rfl⟩)
    rw [← Except.ok.inj (hun.symm.trans e)]
    exact hu
  · obtain ⟨_, e, rfl⟩ := RelM.of_ok ((mathNp tp).get_azimuth_fast rfl rfl ⟨d, rfl, rfl⟩) hv
    obtain ⟨u, hu, hun⟩ := C134_azimuth_fast (config_exact tp) (lat, b1) (lon, b2) (w := .dt d) (.inl ⟨d, c, h, rfl⟩)
    rw [← Except.ok.inj (hun.symm.trans e)]
    exact hu
  · obtain ⟨_, e, rfl⟩ := RelM.of_ok ((mathNp tp).get_radiation_direct ⟨d, rfl, rfl⟩ rfl) hv
    obtain ⟨u, hu, hun⟩ := C134_direct_radiation (config_exact tp) (w := .dt d) (.inl ⟨d, c, h, rfl⟩) (el, b3)
    rw [← Except.ok.inj (hun.symm.trans e)]
    exact hu

/-- C134, in double precision. -/
theorem C134_math_double (F : F64) {d : DateTime} {c : Civil} (h : UtcFields d c) (lat lon el T P : V) (b1 b2 b3 b4 b5 : Bool) :
    (∀ v, get_altitude (rndB F) lat lon (.dt d) el T P = .ok v →
      get_altitude (dflF F) (lat, b1) (lon, b2) (.dt d) (el, b3) (T, b4) (P, b5) = .ok (v, true)) ∧
    (∀ v, get_azimuth (rndB F) lat lon (.dt d) el = .ok v →
      get_azimuth (dflF F) (lat, b1) (lon, b2) (.dt d) (el, b3) = .ok (v, true)) ∧
    (∀ v, get_altitude_fast (rndB F) lat lon (.dt d) = .ok v →
      get_altitude_fast (dflF F) (lat, b1) (lon, b2) (.dt d) = .ok (v, true)) ∧
    (∀ v, get_azimuth_fast (rndB F) lat lon (.dt d) = .ok v →
      get_azimuth_fast (dflF F) (lat, b1) (lon, b2) (.dt d) = .ok (v, true)) ∧
    (∀ v, Radiation.get_radiation_direct (rndB F) (.dt d) el = .ok v →
      Radiation.get_radiation_direct (dflF F) (.dt d) (el, b3) = .ok (v, true)) := by
  refine ⟨fun v hv => ?_, fun v hv => ?_, fun v hv => ?_, fun v hv => ?_, fun v hv => ?_⟩
  · obtain ⟨_, e, rfl⟩ := RelM.of_ok ((rndNp F).get_altitude rfl rfl ⟨d, rfl, rfl⟩ rfl rfl rfl) hv
    obtain ⟨u, hu, hun⟩ := C134_altitude (config_double F) h (lat, b1) (lon, b2) (el, b3) (T, b4) (P, b5)
    rw [← Except.ok.inj (hun.symm.trans e)]
    exact hu
  · obtain ⟨_, e, rfl⟩ := RelM.of_ok ((rndNp F).get_azimuth rfl rfl ⟨d, rfl, rfl⟩ rfl) hv
    obtain ⟨u, hu, hun⟩ := C134_azimuth (config_double F) h (lat, b1) (lon, b2) (el, b3)
    rw [← Except.ok.inj (hun.symm.trans e)]
    exact hu
  · obtain ⟨_, e, rfl⟩ := RelM.of_ok ((rndNp F).get_altitude_fast rfl rfl ⟨d, rfl, rfl⟩) hv
    obtain ⟨u, hu, hun⟩ := C134_altitude_fast (config_double F) (lat, b1) (lon, b2) (w := .dt d) (.inl ⟨d, c, h, rfl⟩)
    rw [← Except.ok.inj (hun.symm.trans e)]
    exact hu
  · obtain ⟨_, e, rfl⟩ := RelM.of_ok ((rndNp F).get_azimuth_fast rfl rfl ⟨d, rfl, rfl⟩) hv
    obtain ⟨u, hu, hun⟩ := C134_azimuth_fast (config_double F) (lat, b1) (lon, b2) (w := .dt d) (.inl ⟨d, c, h, rfl⟩)
    rw [← Except.ok.inj (hun.symm.trans e)]
    exact hu
  · obtain ⟨_, e, rfl⟩ := RelM.of_ok ((rndNp F).get_radiation_direct ⟨d, rfl, rfl⟩ rfl) hv
    obtain ⟨u, hu, hun⟩ := C134_direct_radiation (config_double F) (w := .dt d) (.inl ⟨d, c, h, rfl⟩) (el, b3)
    rw [← Except.ok.inj (hun.symm.trans e)]
    exact hu

/-! ## Temperature 0 -/

/-- C135: with the temperature 0 and a positive pressure, where `get_altitude` raises `ZeroDivisionError` after
`use_math()` (C31), it returns `inf` in the default configuration if the elevation angle is from -0.83337 to 89 degrees,
and the elevation angle if that is below. -/
theorem C135_zero_temperature (tp : ℝ) {d : DateTime} {c : Civil} (h : UtcFields d c) (lat lon elev P : ℝ) (hP : 0 < P)
    (b1 b2 b3 b4 b5 : Bool) : ∃ dec H tea,
    get_topocentric_position (mathB tp) (num lat) (num lon) (.dt d) (num elev) = .ok (num dec, num H) ∧
    get_topocentric_elevation_angle (mathB tp) (num lat) (num dec) (num H) = .ok (num tea) ∧
    get_altitude (mathB tp) (num lat) (num lon) (.dt d) (num elev) (num 0) (num P) = .error .zeroDivision ∧
    (-0.83337 ≤ tea → tea ≤ 89 → get_altitude (dflB tp) (mk tp lat b1) (mk tp lon b2) (.dt d) (mk tp elev b3) (mk tp 0 b4)
      (mk tp P b5) = .ok (V.pinf, true)) ∧
    (tea < -0.83337 → get_altitude (dflB tp) (mk tp lat b1) (mk tp lon b2) (.dt d) (mk tp elev b3) (mk tp 0 b4)
      (mk tp P b5) = .ok (mk tp tea true)) := by
  obtain ⟨dec, H, tea, h1, h2, h3, -⟩ := C31_exceptions tp d c h lat lon elev 0 P
  refine ⟨dec, H, tea, h1, h2, h3.2 (.inl rfl), ?_⟩
  obtain ⟨v, hv, hvn⟩ := C134_altitude (config_exact tp) h (mk tp lat b1) (mk tp lon b2) (mk tp elev b3) (mk tp 0 b4) (mk tp P b5)
  obtain ⟨⟨_, _⟩, n1, rfl, rfl⟩ := RelM.of_ok ((mathNp tp).get_topocentric_position (x := num lat) (y := num lon) rfl rfl
    ⟨d, rfl, rfl⟩ (z := num elev) rfl) h1
  obtain ⟨_, n2, rfl⟩ := RelM.of_ok ((mathNp tp).toSim.get_topocentric_elevation_angle (x := num lat) (y := num dec) (z := num H)
    rfl rfl rfl) h2
  have hs : get_altitude (npB tp) (V.fin lat) (V.fin lon) (.dt d) (V.fin elev) (V.fin 0) (V.fin P)
      = get_refraction_correction (npB tp) (V.fin P) (V.fin 0) (V.fin tea) >>= fun r => .ok (V.add (V.fin tea) r) := by
    unfold get_altitude
    rw [guard_denotes h.2]
    exact bind_of_ok rfl (bind_of_ok n1 (bind_of_ok n2 rfl))
  obtain ⟨w, hw⟩ := (np_noRaise tp).div ((npB tp).lit 10.3) ((npB tp).add (V.fin tea) ((npB tp).lit 5.11))
  obtain ⟨t, ht⟩ := (np_noRaise tp).tan ((npB tp).radians ((npB tp).add (V.fin tea) w))
  obtain ⟨q, hq⟩ := (np_noRaise tp).div ((npB tp).mul ((npB tp).mul (V.fin P) ((npB tp).lit 2.830)) ((npB tp).lit 1.02))
    ((npB tp).mul ((npB tp).mul ((npB tp).mul ((npB tp).lit 1010.0) (V.fin 0)) ((npB tp).lit 60.0)) t)
  have hr : get_refraction_correction (npB tp) (V.fin P) (V.fin 0) (V.fin tea) = .ok ((npB tp).where_
      ((npB tp).le ((npB tp).mul ((npB tp).neg ((npB tp).lit 1.0)) ((npB tp).add ((npB tp).lit 0.26667) ((npB tp).lit 0.5667)))
        (V.fin tea)) q ((npB tp).lit 0.0)) :=
    bind_of_ok hw (bind_of_ok ht (bind_of_ok hq rfl))
  have hle : (npB tp).le ((npB tp).mul ((npB tp).neg ((npB tp).lit 1.0)) ((npB tp).add ((npB tp).lit 0.26667) ((npB tp).lit 0.5667)))
      (V.fin tea) = decide (-0.83337 ≤ tea) := by
    have : -((1.0 : ℚ) : ℝ) * (((0.26667 : ℚ) : ℝ) + ((0.5667 : ℚ) : ℝ)) = -0.83337 := by norm_num
    show decide (-((1.0 : ℚ) : ℝ) * (((0.26667 : ℚ) : ℝ) + ((0.5667 : ℚ) : ℝ)) ≤ tea) = _
    simp only [this]
  constructor
  · intro hge _
    have hne : tea + ((5.11 : ℚ) : ℝ) ≠ 0 := by
      norm_num at hge ⊢
      linarith
    have hw' : w = V.fin (((10.3 : ℚ) : ℝ) / (tea + ((5.11 : ℚ) : ℝ))) :=
      Except.ok.inj (hw.symm.trans (if_neg hne))
    rw [hw'] at ht
    obtain ⟨t', rfl⟩ : ∃ t', t = V.fin t' := ⟨_, Except.ok.inj (ht.symm.trans rfl)⟩
    have hq' : q = V.pinf := by
      refine Except.ok.inj (hq.symm.trans ((if_pos (by norm_num)).trans ?_))
      refine congrArg Except.ok (if_pos ?_)
      norm_num
      linarith
    have hk : (npB tp).where_ ((npB tp).le ((npB tp).mul ((npB tp).neg ((npB tp).lit 1.0))
        ((npB tp).add ((npB tp).lit 0.26667) ((npB tp).lit 0.5667))) (V.fin tea)) q ((npB tp).lit 0.0) = V.pinf := by
      rw [hle, decide_eq_true hge]
      exact hq'
    have hv' : v = V.pinf := Except.ok.inj (hvn.symm.trans (hs.trans (bind_of_ok (hr.trans (congrArg Except.ok hk)) rfl)))
    rw [hv'] at hv
    exact hv
  · intro hlt
    have hk : (npB tp).where_ ((npB tp).le ((npB tp).mul ((npB tp).neg ((npB tp).lit 1.0))
        ((npB tp).add ((npB tp).lit 0.26667) ((npB tp).lit 0.5667))) (V.fin tea)) q ((npB tp).lit 0.0) = V.fin 0 := by
      rw [hle, decide_eq_false (not_le.2 hlt)]
      show V.fin ((0.0 : ℚ) : ℝ) = _
      norm_num
    have hv' : v = V.fin (tea + 0) :=
      Except.ok.inj (hvn.symm.trans (hs.trans (bind_of_ok (hr.trans (congrArg Except.ok hk)) rfl)))
    rw [hv', add_zero] at hv
    exact hv

/-! ## Examples -/

section

open Constants

/-- Python numbers as arguments: `get_altitude(42.206, -71.382, d)`. -/
example : ∃ v, get_altitude (dflB 1) (mk 1 42.206 false) (mk 1 (-71.382) false) (.dt sampleDT) = .ok (v, true) := by
  obtain ⟨v, hv, -⟩ := C134_altitude (config_exact 1) sample_utc (mk 1 42.206 false) (mk 1 (-71.382) false)
    ((dflB 1).lit 0) ((dflB 1).lit standard_temperature) ((dflB 1).lit standard_pressure)
  exact ⟨v, hv⟩

/-- A length of the year given as a Python number. -/
example : declination_degree (dflB 1) (.dt sampleDT) (mk 1 0 false) = .error .zeroDivision ∧
    ∃ v, declination_degree (dflB 1) (.dt sampleDT) = .ok (v, true) := by
  obtain ⟨h0, -⟩ := C135_declination (config_exact 1) (pyDiv_exact 1) sample_utc (mk 1 0 false)
  obtain ⟨-, h1⟩ := C135_declination (config_exact 1) (pyDiv_exact 1) sample_utc ((dflB 1).lit TY_default)
  refine ⟨h0 (by show (V.fin 0, false) = (V.fin ((0 : ℚ) : ℝ), false); rw [Rat.cast_zero]), ?_⟩
  obtain ⟨v, hv, -⟩ := h1 fun he => (pyDiv_exact 1).year (congrArg Prod.fst he)
  exact ⟨v, hv⟩

/-- `diffuse_ratio(100.0, 0.0)` raises, `diffuse_ratio(100.0, 400.0)` returns. -/
example : diffuse_ratio (dflB 1) (mk 1 100 false) (mk 1 0 false) = .error .zeroDivision ∧
    ∃ v, diffuse_ratio (dflB 1) (mk 1 100 false) (mk 1 400 false) = .ok (v, false) := by
  refine ⟨((C135_diffuse_ratio (config_exact 1) (pyDiv_exact 1) _ _).1).2 ?_, ?_⟩
  · show V.fin 0 = V.fin ((0 : ℚ) : ℝ)
    rw [Rat.cast_zero]
  · obtain ⟨v, hv, -⟩ := (C135_diffuse_ratio (config_exact 1) (pyDiv_exact 1) (V.fin 100) (V.fin 400)).2.1 (by
      show V.fin 400 ≠ V.fin ((0 : ℚ) : ℝ)
      simp)
    exact ⟨v, hv⟩

end

end Verif.Props
