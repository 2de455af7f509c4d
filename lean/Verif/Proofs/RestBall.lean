import Verif.Proofs.BallExp
import Verif.Proofs.Sim2

/-!
# Rounding errors of the formulas of rest.py, by evaluation of the error bounds
-/

namespace Verif.Props

open Verif Verif.Spec Verif.Chain Pysolar Pysolar.Rest

/-- Both computations return, and the numbers differ by at most `e`. -/
def Agree (e : ℝ) (p' p : Py V) : Prop := ∃ r' r : ℝ, p' = .ok (.fin r') ∧ p = .ok (.fin r) ∧ |r' - r| ≤ e

/-- The ball has error at most `e`. -/
def errLe (p : Py Ball) (e : ℚ) : Bool :=
  match p with
  | .ok (.num _ _ e') => decide (e' ≤ e)
  | _ => false

theorem agree_of {r : Py Ball} {e : ℚ} (h : errLe r e = true) {m : Py (V × V)} (hr : RelM False Ball.rel r m)
    {p' : Py V} {p : Py V} (h1 : ∀ u, m = .ok u → p' = .ok u.1) (h2 : ∀ u, m = .ok u → p = .ok u.2) : Agree e p' p := by
  match r, h with
  | .ok (.num lo hi e'), h =>
    obtain ⟨u, hu, x, y, rfl, k1, k2, k3⟩ := RelM.of_ok hr rfl
    have : e' ≤ e := of_decide_eq_true h
    have : (e' : ℝ) ≤ e := by exact_mod_cast this
    exact ⟨x, y, h1 _ hu, h2 _ hu, k3.trans this⟩

/-- The cell of a list of break points in which a number lies. -/
theorem mem_cell : ∀ (bs : List ℚ) (a : ℚ) (x : ℝ), (a : ℝ) ≤ x → x ≤ (((a :: bs).getLast (by simp) : ℚ) : ℝ) → bs ≠ [] →
    ∃ c ∈ (a :: bs).zip bs, (c.1 : ℝ) ≤ x ∧ x ≤ c.2
  | [], _, _, _, _, h => absurd rfl h
  | b :: bs, a, x, h1, h2, _ => by
    by_cases hb : x ≤ b
    · exact ⟨(a, b), by simp, h1, hb⟩
    · rcases eq_or_ne bs [] with rfl | hne
      · exact absurd (by simpa using h2) hb
      · obtain ⟨c, hc, k⟩ := mem_cell bs b x (not_le.1 hb).le (by simpa using h2) hne
        exact ⟨c, by simpa using Or.inr hc, k⟩

theorem rel_in {c : ℚ × ℚ} {x : ℝ} (h1 : (c.1 : ℝ) ≤ x) (h2 : x ≤ c.2) : (Ball.num c.1 c.2 0).rel (V.fin x, V.fin x) :=
  ⟨x, x, rfl, h1, h2, by simp⟩

theorem agree1 {f : ∀ B : Backend, B.α → Py B.α}
    (hf : ∀ {B B' : Backend} (S : ScalarSim B B') {x x'}, S.r x x' → RelM S.strict S.r (f B x) (f B' x'))
    {a : ℚ} {bs : List ℚ} {e : ℚ} (hin : ((a :: bs).zip bs).all (fun c => errLe (f ballX (.num c.1 c.2 0)) e) = true)
    (hne : bs ≠ [] := by decide) (F : F64) (tp : ℝ) {x : ℝ} (h1 : (a : ℝ) ≤ x) (h2 : x ≤ (((a :: bs).getLast (by simp) : ℚ) : ℝ)) :
    Agree e (f (rndB F) (V.fin x)) (f (mathB tp) (V.fin x)) := by
  obtain ⟨c, hc, k1, k2⟩ := mem_cell bs a x h1 h2 hne
  refine agree_of (List.all_eq_true.1 hin c hc)
    (hf (ballXSim F tp) (x := Ball.num c.1 c.2 0) (x' := (V.fin x, V.fin x)) (rel_in k1 k2)) ?_ ?_
  · intro u hu
    obtain ⟨v, hv, hvr⟩ := RelM.of_ok (hf (pairFst (rndB F) (mathB tp) rfl) (x := (V.fin x, V.fin x))
      (x' := V.fin x) rfl) hu
    exact hv.trans (congrArg Except.ok hvr.symm)
  · intro u hu
    obtain ⟨v, hv, hvr⟩ := RelM.of_ok (hf (pairSnd (rndB F) (mathB tp) rfl) (x := (V.fin x, V.fin x))
      (x' := V.fin x) rfl) hu
    exact hv.trans (congrArg Except.ok hvr.symm)

theorem agree2 {f : ∀ B : Backend, B.α → B.α → Py B.α}
    (hf : ∀ {B B' : Backend} (S : ScalarSim B B') {x x'}, S.r x x' → ∀ {y y'}, S.r y y' → RelM S.strict S.r (f B x y) (f B' x' y'))
    {a b : ℚ} {as bs : List ℚ} {e : ℚ}
    (hin : ((a :: as).zip as).all (fun c => ((b :: bs).zip bs).all fun d =>
      errLe (f ballX (.num c.1 c.2 0) (.num d.1 d.2 0)) e) = true)
    (hne : as ≠ [] := by decide) (hne' : bs ≠ [] := by decide) (F : F64) (tp : ℝ) {x y : ℝ}
    (h1 : (a : ℝ) ≤ x) (h2 : x ≤ (((a :: as).getLast (by simp) : ℚ) : ℝ))
    (h3 : (b : ℝ) ≤ y) (h4 : y ≤ (((b :: bs).getLast (by simp) : ℚ) : ℝ)) :
    Agree e (f (rndB F) (V.fin x) (V.fin y)) (f (mathB tp) (V.fin x) (V.fin y)) := by
  obtain ⟨c, hc, k1, k2⟩ := mem_cell as a x h1 h2 hne
  obtain ⟨d, hd, k3, k4⟩ := mem_cell bs b y h3 h4 hne'
  refine agree_of (List.all_eq_true.1 (List.all_eq_true.1 hin c hc) d hd)
    (hf (ballXSim F tp) (x := Ball.num c.1 c.2 0) (x' := (V.fin x, V.fin x)) (rel_in k1 k2)
      (y := Ball.num d.1 d.2 0) (y' := (V.fin y, V.fin y)) (rel_in k3 k4)) ?_ ?_
  · intro u hu
    obtain ⟨v, hv, hvr⟩ := RelM.of_ok (hf (pairFst (rndB F) (mathB tp) rfl) (x := (V.fin x, V.fin x))
      (x' := V.fin x) rfl (y := (V.fin y, V.fin y)) (y' := V.fin y) rfl) hu
    exact hv.trans (congrArg Except.ok hvr.symm)
  · intro u hu
    obtain ⟨v, hv, hvr⟩ := RelM.of_ok (hf (pairSnd (rndB F) (mathB tp) rfl) (x := (V.fin x, V.fin x))
      (x' := V.fin x) rfl (y := (V.fin y, V.fin y)) (y' := V.fin y) rfl) hu
    exact hv.trans (congrArg Except.ok hvr.symm)

theorem agree3 {f : ∀ B : Backend, B.α → B.α → B.α → Py B.α}
    (hf : ∀ {B B' : Backend} (S : ScalarSim B B') {x x'}, S.r x x' → ∀ {y y'}, S.r y y' → ∀ {z z'}, S.r z z' →
      RelM S.strict S.r (f B x y z) (f B' x' y' z'))
    {a b c : ℚ × ℚ} {e : ℚ}
    (hin : errLe (f ballX (.num a.1 a.2 0) (.num b.1 b.2 0) (.num c.1 c.2 0)) e = true)
    (F : F64) (tp : ℝ) {x y z : ℝ} (h1 : (a.1 : ℝ) ≤ x) (h2 : x ≤ a.2) (h3 : (b.1 : ℝ) ≤ y) (h4 : y ≤ b.2)
    (h5 : (c.1 : ℝ) ≤ z) (h6 : z ≤ c.2) :
    Agree e (f (rndB F) (V.fin x) (V.fin y) (V.fin z)) (f (mathB tp) (V.fin x) (V.fin y) (V.fin z)) := by
  refine agree_of hin
    (hf (ballXSim F tp) (x := Ball.num a.1 a.2 0) (x' := (V.fin x, V.fin x)) (rel_in h1 h2)
      (y := Ball.num b.1 b.2 0) (y' := (V.fin y, V.fin y)) (rel_in h3 h4)
      (z := Ball.num c.1 c.2 0) (z' := (V.fin z, V.fin z)) (rel_in h5 h6)) ?_ ?_
  · intro u hu
    obtain ⟨v, hv, hvr⟩ := RelM.of_ok (hf (pairFst (rndB F) (mathB tp) rfl) (x := (V.fin x, V.fin x))
      (x' := V.fin x) rfl (y := (V.fin y, V.fin y)) (y' := V.fin y) rfl (z := (V.fin z, V.fin z)) (z' := V.fin z) rfl) hu
    exact hv.trans (congrArg Except.ok hvr.symm)
  · intro u hu
    obtain ⟨v, hv, hvr⟩ := RelM.of_ok (hf (pairSnd (rndB F) (mathB tp) rfl) (x := (V.fin x, V.fin x))
      (x' := V.fin x) rfl (y := (V.fin y, V.fin y)) (y' := V.fin y) rfl (z := (V.fin z, V.fin z)) (z' := V.fin z) rfl) hu
    exact hv.trans (congrArg Except.ok hvr.symm)

theorem agree4 {f : ∀ B : Backend, B.α → B.α → B.α → B.α → Py B.α}
    (hf : ∀ {B B' : Backend} (S : ScalarSim B B') {x x'}, S.r x x' → ∀ {y y'}, S.r y y' → ∀ {z z'}, S.r z z' → ∀ {w w'}, S.r w w' →
      RelM S.strict S.r (f B x y z w) (f B' x' y' z' w'))
    {a b c d : ℚ × ℚ} {e : ℚ}
    (hin : errLe (f ballX (.num a.1 a.2 0) (.num b.1 b.2 0) (.num c.1 c.2 0) (.num d.1 d.2 0)) e = true)
    (F : F64) (tp : ℝ) {x y z w : ℝ} (h1 : (a.1 : ℝ) ≤ x) (h2 : x ≤ a.2) (h3 : (b.1 : ℝ) ≤ y) (h4 : y ≤ b.2)
    (h5 : (c.1 : ℝ) ≤ z) (h6 : z ≤ c.2) (h7 : (d.1 : ℝ) ≤ w) (h8 : w ≤ d.2) :
    Agree e (f (rndB F) (V.fin x) (V.fin y) (V.fin z) (V.fin w)) (f (mathB tp) (V.fin x) (V.fin y) (V.fin z) (V.fin w)) := by
  refine agree_of hin
    (hf (ballXSim F tp) (x := Ball.num a.1 a.2 0) (x' := (V.fin x, V.fin x)) (rel_in h1 h2)
      (y := Ball.num b.1 b.2 0) (y' := (V.fin y, V.fin y)) (rel_in h3 h4)
      (z := Ball.num c.1 c.2 0) (z' := (V.fin z, V.fin z)) (rel_in h5 h6)
      (w := Ball.num d.1 d.2 0) (w' := (V.fin w, V.fin w)) (rel_in h7 h8)) ?_ ?_
  · intro u hu
    obtain ⟨v, hv, hvr⟩ := RelM.of_ok (hf (pairFst (rndB F) (mathB tp) rfl) (x := (V.fin x, V.fin x))
      (x' := V.fin x) rfl (y := (V.fin y, V.fin y)) (y' := V.fin y) rfl (z := (V.fin z, V.fin z)) (z' := V.fin z) rfl
      (w := (V.fin w, V.fin w)) (w' := V.fin w) rfl) hu
    exact hv.trans (congrArg Except.ok hvr.symm)
  · intro u hu
    obtain ⟨v, hv, hvr⟩ := RelM.of_ok (hf (pairSnd (rndB F) (mathB tp) rfl) (x := (V.fin x, V.fin x))
      (x' := V.fin x) rfl (y := (V.fin y, V.fin y)) (y' := V.fin y) rfl (z := (V.fin z, V.fin z)) (z' := V.fin z) rfl
      (w := (V.fin w, V.fin w)) (w' := V.fin w) rfl) hu
    exact hv.trans (congrArg Except.ok hvr.symm)

theorem Agree.mono {e e' : ℝ} {p' p : Py V} (h : Agree e p' p) (he : e ≤ e') : Agree e' p' p := by
  obtain ⟨r', r, h1, h2, h3⟩ := h
  exact ⟨r', r, h1, h2, h3.trans he⟩

/-- The two bands. -/
abbrev bands : List String := ["high-frequency", "low-frequency"]

section
set_option maxRecDepth 100000

theorem rayleigh_ok : ∀ b ∈ bands,
    (([0, 1, 2, 3, 5, 8, 12, 20, 40, 60, 80, 90] : List ℚ).zip [1, 2, 3, 5, 8, 12, 20, 40, 60, 80, 90]).all (fun c => errLe (get_rayleigh_transmittance ballX b (.num c.1 c.2 0)) (1 / 10 ^ 13)) = true := by
  decide +kernel

theorem gas_ok : ∀ b ∈ bands,
    (([0, 1, 2, 3, 5, 8, 12, 20, 40, 60, 80, 90] : List ℚ).zip [1, 2, 3, 5, 8, 12, 20, 40, 60, 80, 90]).all (fun c => errLe (get_gas_transmittance ballX b (.num c.1 c.2 0)) (1 / 10 ^ 13)) = true := by
  decide +kernel

theorem forward_fraction_ok : ∀ b ∈ bands,
    (([0, 1, 2, 3, 5, 8, 12, 20, 40, 60, 80, 90] : List ℚ).zip [1, 2, 3, 5, 8, 12, 20, 40, 60, 80, 90]).all (fun c => errLe (.ok (get_rayleigh_extinction_forward_scattering_fraction ballX b (.num c.1 c.2 0))) (1 / 10 ^ 13)) = true := by
  decide +kernel

theorem forward_scatterance_ok : 
    (([-90, -60, -30, 0, 30, 60, 90] : List ℚ).zip [-60, -30, 0, 30, 60, 90]).all (fun c => errLe (get_aerosol_forward_scatterance_factor ballX (.num c.1 c.2 0)) (1 / 10 ^ 13)) = true := by
  decide +kernel

theorem ozone_ok : ∀ b ∈ bands,
    (([0, 10, 20, 40] : List ℚ).zip [10, 20, 40]).all (fun c =>
      (([0, 1 / 50, 1 / 20, 1 / 10, 2 / 10, 3 / 10, 4 / 10, 5 / 10, 6 / 10] : List ℚ).zip [1 / 50, 1 / 20, 1 / 10, 2 / 10, 3 / 10, 4 / 10, 5 / 10, 6 / 10]).all fun d =>
        errLe (get_ozone_transmittance ballX b (.num c.1 c.2 0) (.num d.1 d.2 0)) (1 / 10 ^ 12)) = true := by
  decide +kernel

theorem water_ok : ∀ b ∈ bands,
    (([0, 1, 3, 8, 20, 50, 90] : List ℚ).zip [1, 3, 8, 20, 50, 90]).all (fun c =>
      (([0, 1 / 100, 1 / 10, 1 / 2, 1, 3 / 2, 2, 3, 4, 6, 8, 10] : List ℚ).zip
        [1 / 100, 1 / 10, 1 / 2, 1, 3 / 2, 2, 3, 4, 6, 8, 10]).all fun d =>
        errLe (get_water_vapor_transmittance ballX b (.num c.1 c.2 0) (.num d.1 d.2 0)) (1 / 10 ^ 11)) = true := by
  decide +kernel

theorem aerosol_ok : ∀ b ∈ bands,
    (([0, 40] : List ℚ).zip [40]).all (fun c =>
      (([0, 5] : List ℚ).zip [5]).all fun d =>
        errLe (get_aerosol_transmittance ballX b (.num c.1 c.2 0) (.num d.1 d.2 0)) (1 / 10 ^ 13)) = true := by
  decide +kernel

theorem aerosol_scattering_ok : ∀ b ∈ bands,
    (([0, 40] : List ℚ).zip [40]).all (fun c =>
      (([0, 5] : List ℚ).zip [5]).all fun d =>
        errLe (get_aerosol_scattering_transmittance ballX b (.num c.1 c.2 0) (.num d.1 d.2 0)) (1 / 10 ^ 13)) = true := by
  decide +kernel

theorem correction_ok : ∀ b ∈ bands,
    (([1, 2, 3, 4, 5, 6, 8, 12, 20, 30, 40] : List ℚ).zip [2, 3, 4, 5, 6, 8, 12, 20, 30, 40]).all (fun c =>
      (([0, 5] : List ℚ).zip [5]).all fun d =>
        errLe (get_aerosol_scattering_correction_factor ballX b (.num c.1 c.2 0) (.num d.1 d.2 0)) (1 / 10 ^ 9)) = true := by
  decide +kernel

theorem sky_albedo_ok : ∀ b ∈ bands,
    (([0, 1, 2, 5 / 2] : List ℚ).zip [1, 2, 5 / 2]).all (fun c =>
      (([0, 1, 2] : List ℚ).zip [1, 2]).all fun d =>
        errLe (get_sky_albedo ballX b (.num c.1 c.2 0) (.num d.1 d.2 0)) (1 / 10 ^ 13)) = true := by
  decide +kernel

theorem backscattered_ok : ∀ b ∈ bands,
    errLe (get_backscattered_diffuse_irradiance_by_band ballX b (.num 0 2000 0) (.num 0 2000 0) (.num 0 (5 / 2) 0)
      (.num 0 2 0)) (1 / 10 ^ 10) = true := by
  decide +kernel

end

end Verif.Props
