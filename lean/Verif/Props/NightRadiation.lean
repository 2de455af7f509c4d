import Verif.Props.FloatNumpy

/-!
# C106, C113: what direct radiation can be at night

Every altitude from -90 to 0 degrees, including those within a millionth of a degree of the horizon.
-/

namespace Verif.Props

open Verif.Spec Verif.Chain Pysolar Pysolar.Radiation Pysolar.Numeric

theorem bind_ok_inv {β γ : Type} {m : Py β} {f : β → Py γ} {r : γ} (h : m >>= f = .ok r) : ∃ a, m = .ok a ∧ f a = .ok r := by
  cases m with
  | error e => cases h
  | ok a => exact ⟨a, rfl, h⟩

/-- A float times `False`. -/
theorem mul_false (F : F64) (x : V) : V.rnd F (V.mul x (.fin 0)) = .fin 0 ∨ V.rnd F (V.mul x (.fin 0)) = .nan := by
  cases x with
  | fin a =>
    left
    show V.rnd F (V.fin (a * 0)) = _
    rw [mul_zero, V.rnd_fin F (by rw [abs_zero]; positivity), rnd_zero]
  | pinf => right; simp [V.mul, V.infMul, V.rnd]
  | ninf => right; simp [V.mul, V.infMul, V.rnd]
  | nan => right; rfl

/-- The exponential in double precision raises nothing but `OverflowError`. -/
theorem exp_outcome (F : F64) (x : V) : (∃ e, (rndB F).exp x = .ok e) ∨ (rndB F).exp x = .error .overflow := by
  cases x with
  | fin a =>
    by_cases h : (2 : ℝ) ^ 1024 ≤ F.exp a
    · exact .inr (if_pos h)
    · exact .inl ⟨_, if_neg h⟩
  | pinf => exact .inl ⟨_, rfl⟩
  | ninf => exact .inl ⟨_, rfl⟩
  | nan => exact .inl ⟨_, rfl⟩

/-- The air mass ratio of an altitude is always a float, possibly infinite. -/
theorem air_mass_ok (F : F64) {alt : ℝ} (h1 : |alt| ≤ 90) : ∃ m, get_air_mass_ratio (rndB F) (flt F alt) = .ok m := by
  have hp := Real.pi_gt_d4
  have hp' := Real.pi_lt_d4
  have r1 := F.rnd_err Real.pi
  have r2 := F.rnd_err (F.rnd Real.pi / 180)
  have ht5 := tiny1075
  rw [abs_of_pos Real.pi_pos] at r1
  have b1 : |F.rnd Real.pi| ≤ 10 := by
    have := abs_sub_abs_le_abs_sub (F.rnd Real.pi) Real.pi
    rw [abs_of_pos Real.pi_pos] at this
    generalize (1 : ℝ) / 2 ^ 1075 = t at *
    norm_num at *
    linarith
  have b2 : |F.rnd Real.pi / 180| ≤ 1 := by rw [abs_div, abs_of_pos (by norm_num : (0 : ℝ) < 180)]; norm_num at *; linarith
  have b3 : |F.rnd (F.rnd Real.pi / 180)| ≤ 10 := by
    have := abs_sub_abs_le_abs_sub (F.rnd (F.rnd Real.pi / 180)) (F.rnd Real.pi / 180)
    generalize (1 : ℝ) / 2 ^ 1075 = t at *
    norm_num at *
    linarith
  have hrad : (rndB F).radians (flt F alt) = V.fin (F.rnd (alt * F.rnd (F.rnd Real.pi / 180))) := by
    refine V.rnd_fin F ?_
    rw [abs_mul]
    calc |alt| * |F.rnd (F.rnd Real.pi / 180)| ≤ 90 * 10 := mul_le_mul h1 b3 (abs_nonneg _) (by norm_num)
      _ ≤ _ := by norm_num
  have hsin : (rndB F).sin ((rndB F).radians (flt F alt)) = .ok (V.fin (F.sin (F.rnd (alt * F.rnd (F.rnd Real.pi / 180))))) := by
    rw [hrad]
    rfl
  set s := F.sin (F.rnd (alt * F.rnd (F.rnd Real.pi / 180)))
  unfold get_air_mass_ratio
  by_cases hz : s = 0
  · have hd : (rndB F).div 1 (V.fin s) = .error .zeroDivision := if_pos hz
    rw [bind_of_ok hsin hd]
    exact ⟨_, rfl⟩
  · have hd : (rndB F).div 1 (V.fin s) = .ok (V.rnd F (V.divNZ (1 : (rndB F).α) (V.fin s))) := if_neg hz
    rw [bind_of_ok hsin hd]
    exact ⟨_, rfl⟩

/-- C106, what the result can be at all: for every altitude from -90 to 0 degrees `get_radiation_direct` in double
precision returns 0, or nan, or raises `OverflowError`; it never returns any other number and never raises anything else.
More than 0.0171 degrees below the horizon it returns 0. -/
theorem C106_outcomes_partial (F : F64) (d : DateTime) (c : Civil) (h : UtcFields d c) (alt : ℝ) (h1 : -90 ≤ alt) (h2 : alt ≤ 0) :
    (get_radiation_direct (rndB F) (.dt d) (flt F alt) = .ok (flt F 0) ∨
      get_radiation_direct (rndB F) (.dt d) (flt F alt) = .ok V.nan ∨
      get_radiation_direct (rndB F) (.dt d) (flt F alt) = .error .overflow) ∧
    (get_radiation_direct (rndB F) (.dt d) (flt F alt) ≠ .ok (flt F 0) → -0.0171 < alt) := by
  constructor
  · obtain ⟨fl, hfl, -⟩ := flux_float F h.1
    obtain ⟨k, hk, -⟩ := depth_float F h.1
    obtain ⟨m, hm⟩ := air_mass_ok F (alt := alt) (by rw [abs_le]; constructor <;> linarith)
    have hsplit := direct_split (rndB F) rfl h (flt F alt)
    rcases exp_outcome F ((rndB F).mul ((rndB F).mul ((rndB F).neg ((rndB F).lit 1)) (V.fin k)) m) with ⟨e, he⟩ | he
    · have : get_radiation_direct (rndB F) (.dt d) (flt F alt) = .ok (V.rnd F (V.mul ((rndB F).mul (V.fin fl) e) (.fin 0))) :=
        hsplit.trans (bind_of_ok hfl (bind_of_ok hk (bind_of_ok hm (bind_of_ok he (congrArg Except.ok
          (congrArg ((rndB F).mul ((rndB F).mul (V.fin fl) e)) (ofC_night F h2)))))))
      rw [this]
      rcases mul_false F ((rndB F).mul (V.fin fl) e) with hx | hx
      · exact .inl (congrArg Except.ok hx)
      · exact .inr (.inl (congrArg Except.ok hx))
    · exact .inr (.inr (hsplit.trans (bind_of_ok hfl (bind_of_ok hk (bind_of_ok hm (bind_of_error he))))))
  · intro hne
    by_contra hx
    exact hne (C106_zero_partial F d c h alt h1 (not_lt.1 hx))

/-- However close to the horizon: at -1e-200 degrees the result is not 1. -/
example : get_radiation_direct (rndB binary64) (.dt sampleDT) (flt binary64 (-1 / 10 ^ 200)) ≠ .ok (flt binary64 1) := by
  have := (C106_outcomes_partial binary64 sampleDT sampleUTC sample_utc (-1 / 10 ^ 200) (by norm_num) (by norm_num)).1
  rintro hx
  rw [hx] at this
  rcases this with h | h | h
  · have := V.fin.inj (Except.ok.inj h)
    norm_num at this
  · cases Except.ok.inj h
  · cases h

/-- C113, what an entry can be at all: whatever the array of altitudes contains (numbers, infinities, nans) and for one
datetime or an array of `datetime64`, nothing raises and every entry whose altitude is not above 0 is 0 or nan. -/
theorem C113_night_entries_partial (F : F64) {ι : Type} (alts : ι → V) (w : When (arrF F ι))
    (hw : (∃ d, w = .dt d) ∨ ∃ t, w = .arr t) :
    ∃ rs : ι → V, get_radiation_direct (arrF F ι) w alts = .ok rs ∧
      ∀ (i : ι) (d : DateTime) (c : Civil), UtcFields d c → (w = .dt d ∨ ∃ t, w = .arr t ∧ t i = c.micros) →
        V.lt (.fin 0) (alts i) = false → rs i = .fin 0 ∨ rs i = .nan := by
  obtain ⟨rs, h1, h2⟩ := direct_entries F alts w hw
  refine ⟨rs, h1, fun i d c h hwt hn => ?_⟩
  have e1 := h2 i d c h hwt
  rw [direct_split_of (nprB F) (tm_yday_npr F h) (alts i)] at e1
  obtain ⟨fl, -, e1⟩ := bind_ok_inv e1
  obtain ⟨k, -, e1⟩ := bind_ok_inv e1
  obtain ⟨m, -, e1⟩ := bind_ok_inv e1
  obtain ⟨e, -, e1⟩ := bind_ok_inv e1
  have hz : (nprB F).ofC ((nprB F).lt ((nprB F).lit 0) (alts i)) = V.fin 0 := by
    show (if V.lt (V.fin (F.rnd ((0 : ℚ) : ℝ))) (alts i) = true then V.fin 1 else V.fin 0) = _
    rw [lit_zero, hn]
    rfl
  rw [hz] at e1
  have e2 : V.rnd F (V.mul ((nprB F).mul fl e) (.fin 0)) = rs i := Except.ok.inj e1
  rw [← e2]
  exact mul_false F _

/-- An array with a nan, an altitude below the horizon and one of exactly 0. -/
example : ∃ rs : Fin 3 → V, get_radiation_direct (arrF binary64 (Fin 3)) (.dt sampleDT) ![.nan, .fin (-1 / 10 ^ 9), .fin 0] = .ok rs ∧
    ∀ i, rs i = .fin 0 ∨ rs i = .nan := by
  obtain ⟨rs, h, hr⟩ := C113_night_entries_partial binary64 ![.nan, .fin (-1 / 10 ^ 9), .fin 0] (.dt sampleDT) (.inl ⟨_, rfl⟩)
  refine ⟨rs, h, fun i => hr i sampleDT sampleUTC sample_utc (.inl rfl) ?_⟩
  fin_cases i
  · rfl
  · show decide ((0 : ℝ) < -1 / 10 ^ 9) = false
    rw [decide_eq_false_iff_not]
    norm_num
  · show decide ((0 : ℝ) < 0) = false
    rw [decide_eq_false_iff_not]
    norm_num

end Verif.Props
