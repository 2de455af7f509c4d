import Verif.Proofs.RestBall

/-!
# C154: the formulas of rest.py in double precision

For the ranges of the arguments that occur in the atmosphere, each function of rest.py returns a number in
floating-point arithmetic as it does in exact arithmetic, and the two differ by at most the stated bound.
-/

namespace Verif.Props

open Verif Verif.Spec Verif.Chain Pysolar Pysolar.Rest

variable (F : F64) (tp : ℝ)

section
set_option maxRecDepth 100000

theorem mass_ozone_ok : 
    (([0, 5, 10, 15, 20, 25, 30, 35, 40, 45, 50, 55, 60, 65, 70, 75, 80, 85, 89] : List ℚ).zip [5, 10, 15, 20, 25, 30, 35, 40, 45, 50, 55, 60, 65, 70, 75, 80, 85, 89]).all (fun c => errLe (get_optical_mass_ozone ballX (.num c.1 c.2 0)) (1 / 10 ^ 8)) = true := by
  decide +kernel

theorem mass_water_ok : 
    (([0, 5, 10, 15, 20, 25, 30, 35, 40, 45, 50, 55, 60, 65, 70, 75, 80, 85, 89] : List ℚ).zip [5, 10, 15, 20, 25, 30, 35, 40, 45, 50, 55, 60, 65, 70, 75, 80, 85, 89]).all (fun c => errLe (get_optical_mass_water ballX (.num c.1 c.2 0)) (1 / 10 ^ 8)) = true := by
  decide +kernel

theorem mass_aerosol_ok : 
    (([0, 5, 10, 15, 20, 25, 30, 35, 40, 45, 50, 55, 60, 65, 70, 75, 80, 85, 89] : List ℚ).zip [5, 10, 15, 20, 25, 30, 35, 40, 45, 50, 55, 60, 65, 70, 75, 80, 85, 89]).all (fun c => errLe (get_optical_mass_aerosol ballX (.num c.1 c.2 0)) (1 / 10 ^ 8)) = true := by
  decide +kernel

theorem mass_rayleigh_ok : 
    (([0, 5, 10, 15, 20, 25, 30, 35, 40, 45, 50, 55, 60, 65, 70, 75, 80, 85, 89] : List ℚ).zip [5, 10, 15, 20, 25, 30, 35, 40, 45, 50, 55, 60, 65, 70, 75, 80, 85, 89]).all (fun c =>
      (([300, 1100] : List ℚ).zip [1100]).all fun d =>
        errLe (get_optical_mass_rayleigh ballX (.num c.1 c.2 0) (.num d.1 d.2 0)) (1 / 10 ^ 8)) = true := by
  decide +kernel

end

/-- The transmittance of Rayleigh scattering. -/
theorem C154_rayleigh {band : String} (hb : band ∈ bands) {m : ℝ} (h1 : 0 ≤ m) (h2 : m ≤ 90) :
    Agree (1 / 10 ^ 13) (get_rayleigh_transmittance (rndB F) band (V.fin m))
      (get_rayleigh_transmittance (mathB tp) band (V.fin m)) := by
  have := agree1 (f := fun B => get_rayleigh_transmittance B band) (fun S _ _ h => S.get_rayleigh_transmittance band h)
    (rayleigh_ok band hb) (by decide) F tp (x := m) (by push_cast; linarith) (by norm_num; linarith)
  exact this.mono (by norm_num)

/-- The transmittance of the mixed gases. -/
theorem C154_gas {band : String} (hb : band ∈ bands) {m : ℝ} (h1 : 0 ≤ m) (h2 : m ≤ 90) :
    Agree (1 / 10 ^ 13) (get_gas_transmittance (rndB F) band (V.fin m))
      (get_gas_transmittance (mathB tp) band (V.fin m)) := by
  have := agree1 (f := fun B => get_gas_transmittance B band) (fun S _ _ h => S.get_gas_transmittance band h)
    (gas_ok band hb) (by decide) F tp (x := m) (by push_cast; linarith) (by norm_num; linarith)
  exact this.mono (by norm_num)

/-- The fraction scattered forward. -/
theorem C154_forward_fraction {band : String} (hb : band ∈ bands) {m : ℝ} (h1 : 0 ≤ m) (h2 : m ≤ 90) :
    Agree (1 / 10 ^ 13) (.ok (get_rayleigh_extinction_forward_scattering_fraction (rndB F) band (V.fin m)))
      (.ok (get_rayleigh_extinction_forward_scattering_fraction (mathB tp) band (V.fin m))) := by
  have := agree1 (f := fun B x => .ok (get_rayleigh_extinction_forward_scattering_fraction B band x)) (fun S _ _ h => S.get_rayleigh_extinction_forward_scattering_fraction band h)
    (forward_fraction_ok band hb) (by decide) F tp (x := m) (by push_cast; linarith) (by norm_num; linarith)
  exact this.mono (by norm_num)

/-- The forward scatterance of the aerosol, for any altitude. -/
theorem C154_forward_scatterance {m : ℝ} (h1 : -90 ≤ m) (h2 : m ≤ 90) :
    Agree (1 / 10 ^ 13) (get_aerosol_forward_scatterance_factor (rndB F) (V.fin m))
      (get_aerosol_forward_scatterance_factor (mathB tp) (V.fin m)) := by
  have := agree1 (f := fun B => get_aerosol_forward_scatterance_factor B) (fun S _ _ h => S.get_aerosol_forward_scatterance_factor h)
    (forward_scatterance_ok) (by decide) F tp (x := m) (by push_cast; linarith) (by norm_num; linarith)
  exact this.mono (by norm_num)

/-- The optical mass of ozone. -/
theorem C154_mass_ozone {m : ℝ} (h1 : 0 ≤ m) (h2 : m ≤ 89) :
    Agree (1 / 10 ^ 8) (get_optical_mass_ozone (rndB F) (V.fin m))
      (get_optical_mass_ozone (mathB tp) (V.fin m)) := by
  have := agree1 (f := fun B => get_optical_mass_ozone B) (fun S _ _ h => S.get_optical_mass_ozone h)
    (mass_ozone_ok) (by decide) F tp (x := m) (by push_cast; linarith) (by norm_num; linarith)
  exact this.mono (by norm_num)

/-- The optical mass of water vapour. -/
theorem C154_mass_water {m : ℝ} (h1 : 0 ≤ m) (h2 : m ≤ 89) :
    Agree (1 / 10 ^ 8) (get_optical_mass_water (rndB F) (V.fin m))
      (get_optical_mass_water (mathB tp) (V.fin m)) := by
  have := agree1 (f := fun B => get_optical_mass_water B) (fun S _ _ h => S.get_optical_mass_water h)
    (mass_water_ok) (by decide) F tp (x := m) (by push_cast; linarith) (by norm_num; linarith)
  exact this.mono (by norm_num)

/-- The optical mass of the aerosol. -/
theorem C154_mass_aerosol {m : ℝ} (h1 : 0 ≤ m) (h2 : m ≤ 89) :
    Agree (1 / 10 ^ 8) (get_optical_mass_aerosol (rndB F) (V.fin m))
      (get_optical_mass_aerosol (mathB tp) (V.fin m)) := by
  have := agree1 (f := fun B => get_optical_mass_aerosol B) (fun S _ _ h => S.get_optical_mass_aerosol h)
    (mass_aerosol_ok) (by decide) F tp (x := m) (by push_cast; linarith) (by norm_num; linarith)
  exact this.mono (by norm_num)

/-- The optical mass of the air. -/
theorem C154_mass_rayleigh {h p : ℝ} (h1 : 0 ≤ h) (h2 : h ≤ 89)
    (h3 : 300 ≤ p) (h4 : p ≤ 1100) :
    Agree (1 / 10 ^ 8) (get_optical_mass_rayleigh (rndB F) (V.fin h) (V.fin p))
      (get_optical_mass_rayleigh (mathB tp) (V.fin h) (V.fin p)) := by
  have := agree2 (f := fun B => get_optical_mass_rayleigh B)
    (fun S _ _ h _ _ h' => S.get_optical_mass_rayleigh h h') (mass_rayleigh_ok) (by decide) (by decide) F tp
    (x := h) (y := p) (by push_cast; linarith) (by norm_num; linarith) (by push_cast; linarith) (by norm_num; linarith)
  exact this.mono (by norm_num)

/-- The transmittance of ozone. -/
theorem C154_ozone {band : String} (hb : band ∈ bands) {m u : ℝ} (h1 : 0 ≤ m) (h2 : m ≤ 40)
    (h3 : 0 ≤ u) (h4 : u ≤ 6 / 10) :
    Agree (1 / 10 ^ 12) (get_ozone_transmittance (rndB F) band (V.fin m) (V.fin u))
      (get_ozone_transmittance (mathB tp) band (V.fin m) (V.fin u)) := by
  have := agree2 (f := fun B => get_ozone_transmittance B band)
    (fun S _ _ h _ _ h' => S.get_ozone_transmittance band h h') (ozone_ok band hb) (by decide) (by decide) F tp
    (x := m) (y := u) (by push_cast; linarith) (by norm_num; linarith) (by push_cast; linarith) (by norm_num; linarith)
  exact this.mono (by norm_num)

/-- The transmittance of water vapour. -/
theorem C154_water {band : String} (hb : band ∈ bands) {m w : ℝ} (h1 : 0 ≤ m) (h2 : m ≤ 90)
    (h3 : 0 ≤ w) (h4 : w ≤ 10) :
    Agree (1 / 10 ^ 11) (get_water_vapor_transmittance (rndB F) band (V.fin m) (V.fin w))
      (get_water_vapor_transmittance (mathB tp) band (V.fin m) (V.fin w)) := by
  have := agree2 (f := fun B => get_water_vapor_transmittance B band)
    (fun S _ _ h _ _ h' => S.get_water_vapor_transmittance band h h') (water_ok band hb) (by decide) (by decide) F tp
    (x := m) (y := w) (by push_cast; linarith) (by norm_num; linarith) (by push_cast; linarith) (by norm_num; linarith)
  exact this.mono (by norm_num)

/-- The transmittance of the aerosol. -/
theorem C154_aerosol {band : String} (hb : band ∈ bands) {m t : ℝ} (h1 : 0 ≤ m) (h2 : m ≤ 40)
    (h3 : 0 ≤ t) (h4 : t ≤ 5) :
    Agree (1 / 10 ^ 13) (get_aerosol_transmittance (rndB F) band (V.fin m) (V.fin t))
      (get_aerosol_transmittance (mathB tp) band (V.fin m) (V.fin t)) := by
  have := agree2 (f := fun B => get_aerosol_transmittance B band)
    (fun S _ _ h _ _ h' => S.get_aerosol_transmittance band h h') (aerosol_ok band hb) (by decide) (by decide) F tp
    (x := m) (y := t) (by push_cast; linarith) (by norm_num; linarith) (by push_cast; linarith) (by norm_num; linarith)
  exact this.mono (by norm_num)

/-- The transmittance of scattering by the aerosol. -/
theorem C154_aerosol_scattering {band : String} (hb : band ∈ bands) {m t : ℝ} (h1 : 0 ≤ m) (h2 : m ≤ 40)
    (h3 : 0 ≤ t) (h4 : t ≤ 5) :
    Agree (1 / 10 ^ 13) (get_aerosol_scattering_transmittance (rndB F) band (V.fin m) (V.fin t))
      (get_aerosol_scattering_transmittance (mathB tp) band (V.fin m) (V.fin t)) := by
  have := agree2 (f := fun B => get_aerosol_scattering_transmittance B band)
    (fun S _ _ h _ _ h' => S.get_aerosol_scattering_transmittance band h h') (aerosol_scattering_ok band hb) (by decide) (by decide) F tp
    (x := m) (y := t) (by push_cast; linarith) (by norm_num; linarith) (by push_cast; linarith) (by norm_num; linarith)
  exact this.mono (by norm_num)

/-- The correction for scattering by the aerosol. -/
theorem C154_correction {band : String} (hb : band ∈ bands) {m t : ℝ} (h1 : 1 ≤ m) (h2 : m ≤ 40)
    (h3 : 0 ≤ t) (h4 : t ≤ 5) :
    Agree (1 / 10 ^ 9) (get_aerosol_scattering_correction_factor (rndB F) band (V.fin m) (V.fin t))
      (get_aerosol_scattering_correction_factor (mathB tp) band (V.fin m) (V.fin t)) := by
  have := agree2 (f := fun B => get_aerosol_scattering_correction_factor B band)
    (fun S _ _ h _ _ h' => S.get_aerosol_scattering_correction_factor band h h') (correction_ok band hb) (by decide) (by decide) F tp
    (x := m) (y := t) (by push_cast; linarith) (by norm_num; linarith) (by push_cast; linarith) (by norm_num; linarith)
  exact this.mono (by norm_num)

/-- The albedo of the sky. -/
theorem C154_sky_albedo {band : String} (hb : band ∈ bands) {a b : ℝ} (h1 : 0 ≤ a) (h2 : a ≤ 5 / 2)
    (h3 : 0 ≤ b) (h4 : b ≤ 2) :
    Agree (1 / 10 ^ 13) (get_sky_albedo (rndB F) band (V.fin a) (V.fin b))
      (get_sky_albedo (mathB tp) band (V.fin a) (V.fin b)) := by
  have := agree2 (f := fun B => get_sky_albedo B band)
    (fun S _ _ h _ _ h' => S.get_sky_albedo band h h') (sky_albedo_ok band hb) (by decide) (by decide) F tp
    (x := a) (y := b) (by push_cast; linarith) (by norm_num; linarith) (by push_cast; linarith) (by norm_num; linarith)
  exact this.mono (by norm_num)


theorem optical_depth_ok :
    errLe (get_aerosol_optical_depth ballX (.num 0 2 0) (.num (3 / 10) 2 0) (.num 0 (5 / 2) 0)) (1 / 10 ^ 13) = true := by
  decide +kernel

/-- The optical depth of the aerosol. -/
theorem C154_optical_depth {b l a : ℝ} (h1 : 0 ≤ b) (h2 : b ≤ 2) (h3 : 3 / 10 ≤ l) (h4 : l ≤ 2) (h5 : 0 ≤ a)
    (h6 : a ≤ 5 / 2) :
    Agree (1 / 10 ^ 13) (get_aerosol_optical_depth (rndB F) (V.fin b) (V.fin l) (V.fin a))
      (get_aerosol_optical_depth (mathB tp) (V.fin b) (V.fin l) (V.fin a)) := by
  have := agree3 (f := fun B => get_aerosol_optical_depth B) (a := (0, 2)) (b := (3 / 10, 2)) (c := (0, 5 / 2))
    (fun S _ _ h _ _ h' _ _ h'' => S.get_aerosol_optical_depth h h' h'') optical_depth_ok F tp
    (x := b) (y := l) (z := a) (by push_cast; linarith) (by push_cast; linarith) (by push_cast; linarith)
    (by push_cast; linarith) (by push_cast; linarith) (by push_cast; linarith)
  exact this.mono (by norm_num)

/-- The diffuse irradiance scattered back by the ground and the sky. -/
theorem C154_backscattered {band : String} (hb : band ∈ bands) {u v a b : ℝ} (h1 : 0 ≤ u) (h2 : u ≤ 2000) (h3 : 0 ≤ v)
    (h4 : v ≤ 2000) (h5 : 0 ≤ a) (h6 : a ≤ 5 / 2) (h7 : 0 ≤ b) (h8 : b ≤ 2) :
    Agree (1 / 10 ^ 10)
      (get_backscattered_diffuse_irradiance_by_band (rndB F) band (V.fin u) (V.fin v) (V.fin a) (V.fin b))
      (get_backscattered_diffuse_irradiance_by_band (mathB tp) band (V.fin u) (V.fin v) (V.fin a) (V.fin b)) := by
  have := agree4 (f := fun B x y z w => get_backscattered_diffuse_irradiance_by_band B band x y z w) (a := (0, 2000))
    (b := (0, 2000)) (c := (0, 5 / 2)) (d := (0, 2))
    (fun S _ _ h _ _ i _ _ j _ _ k => S.get_backscattered_diffuse_irradiance_by_band band h i j k)
    (backscattered_ok band hb) F tp (x := u) (y := v) (z := a) (w := b) (by push_cast; linarith) (by push_cast; linarith)
    (by push_cast; linarith) (by push_cast; linarith) (by push_cast; linarith) (by push_cast; linarith)
    (by push_cast; linarith) (by push_cast; linarith)
  exact this.mono (by norm_num)

/-- The quotient in `get_nitrogen_transmittance`. -/
def nitrogenOf (B : Backend) (mw : B.α) : Py B.α := do
  let un : B.α := B.lit un
  let g1 ← B.div (0.17499 + 41.654 * un - 2146.4 * un ^ 2) (1 + 22295.0 * un ^ 2)
  let g2 ← B.div (un * (-1.2134 + 59.324 * un)) (1 + 8847.8 * un ^ 2)
  let g3 ← B.div (0.17499 + 61.658 * un + 9196.4 * un ^ 2) (1 + 74109.0 * un ^ 2)
  B.div (1 + g1 * mw + g2 * mw ^ 2) (1 + g3 * mw)

theorem nitrogenOf_sim {B B' : Backend} (S : ScalarSim B B') {x x'} (hx : S.r x x') :
    RelM S.strict S.r (nitrogenOf B x) (nitrogenOf B' x') := by
  unfold nitrogenOf
  sim

theorem nitrogenOf_ok :
    (([0, 1, 2, 4, 8, 16, 40, 90] : List ℚ).zip [1, 2, 4, 8, 16, 40, 90]).all
      (fun c => errLe (nitrogenOf ballX (.num c.1 c.2 0)) (1 / 10 ^ 13)) = true := by
  decide +kernel

theorem nitrogen_split (B : Backend) (mw n : B.α) :
    get_nitrogen_transmittance B "high-frequency" mw n = (do pyMin B 1 (← nitrogenOf B mw)) := by
  unfold get_nitrogen_transmittance nitrogenOf
  simp only [if_true, bind_assoc]

theorem min_close {x y e : ℝ} (h : |x - y| ≤ e) : |min 1 x - min 1 y| ≤ e := by
  have := abs_min_sub_min_le_max (1 : ℝ) x 1 y
  simp only [sub_self, abs_zero] at this
  exact this.trans (max_le ((abs_nonneg _).trans h) h)

theorem min_rnd (x : ℝ) : pyMin (rndB F) (1 : (rndB F).α) (V.fin x) = .ok (V.fin (min 1 x)) := by
  have r1 : F.rnd ((1 : ℚ) : ℝ) = 1 := by simpa using F.rnd_int 1 (by norm_num)
  have e1 : (1 : (rndB F).α) = V.fin 1 := congrArg V.fin r1
  have ht : (rndB F).truth ((rndB F).lt (V.fin x) (1 : (rndB F).α)) = .ok (decide (x < 1)) := by
    rw [e1]; rfl
  unfold pyMin
  refine bind_of_ok ht ?_
  by_cases h : x < 1
  · rw [decide_eq_true h, min_eq_right h.le]
    rfl
  · rw [decide_eq_false h, min_eq_left (not_lt.1 h), e1]
    rfl

theorem min_math (x : ℝ) : pyMin (mathB tp) (1 : (mathB tp).α) (V.fin x) = .ok (V.fin (min 1 x)) := by
  have e1 : (1 : (mathB tp).α) = V.fin 1 := congrArg V.fin (by norm_num)
  have ht : (mathB tp).truth ((mathB tp).lt (V.fin x) (1 : (mathB tp).α)) = .ok (decide (x < 1)) := by
    rw [e1]; rfl
  unfold pyMin
  refine bind_of_ok ht ?_
  by_cases h : x < 1
  · rw [decide_eq_true h, min_eq_right h.le]
    rfl
  · rw [decide_eq_false h, min_eq_left (not_lt.1 h), e1]
    rfl

/-- The transmittance of nitrogen dioxide. -/
theorem C154_nitrogen {band : String} (hb : band ∈ bands) {m n : ℝ} (h1 : 0 ≤ m) (h2 : m ≤ 90) :
    Agree (1 / 10 ^ 13) (get_nitrogen_transmittance (rndB F) band (V.fin m) (V.fin n))
      (get_nitrogen_transmittance (mathB tp) band (V.fin m) (V.fin n)) := by
  have r1 : F.rnd 1 = 1 := by simpa using F.rnd_int 1 (by norm_num)
  have hb' : band = "high-frequency" ∨ band = "low-frequency" := by simpa [bands] using hb
  rcases hb' with rfl | rfl
  · obtain ⟨x, y, k1, k2, k3⟩ := agree1 (f := nitrogenOf) nitrogenOf_sim nitrogenOf_ok (by decide) F tp (x := m)
      (by push_cast; linarith) (by norm_num; linarith)
    have k3' : |x - y| ≤ 1 / 10 ^ 13 := k3.trans (by norm_num)
    refine ⟨min 1 x, min 1 y, ?_, ?_, min_close k3'⟩
    · exact (nitrogen_split _ _ _).trans (bind_of_ok k1 (min_rnd F x))
    · exact (nitrogen_split _ _ _).trans (bind_of_ok k2 (min_math tp y))
  · refine ⟨1, 1, ?_, ?_, by norm_num⟩
    · show Except.ok (V.fin (F.rnd ((1.0 : ℚ) : ℝ))) = _
      rw [show ((1.0 : ℚ) : ℝ) = 1 by norm_num, r1]
    · show Except.ok (V.fin ((1.0 : ℚ) : ℝ)) = _
      norm_num

/-- The case of one air mass, with the sun in the zenith. -/
example : Agree (1 / 10 ^ 13) (get_rayleigh_transmittance (rndB F) "high-frequency" (V.fin 1))
    (get_rayleigh_transmittance (mathB tp) "high-frequency" (V.fin 1)) :=
  C154_rayleigh F tp (by decide) (by norm_num) (by norm_num)

/-- Three centimetres of water along twice the vertical path. -/
example : Agree (1 / 10 ^ 11) (get_water_vapor_transmittance (rndB F) "low-frequency" (V.fin 2) (V.fin 3))
    (get_water_vapor_transmittance (mathB tp) "low-frequency" (V.fin 2) (V.fin 3)) :=
  C154_water F tp (by decide) (by norm_num) (by norm_num) (by norm_num) (by norm_num)

end Verif.Props
