import Verif.Proofs.SolarEval
import Verif.Spec.Series
import Verif.Model.Tables

/-!
# The periodic series over the exact `math` backend
-/

namespace Verif

open Verif.Spec Pysolar Pysolar.Solar Pysolar.Constants Real

variable {tp : ℝ}

/-! ## get_coeff -/

theorem coeffLine_eval (jme c : ℝ) (line : List (ℚ × ℚ × ℚ)) :
    coeffLine (mathB tp) (num jme) (num c) line = .ok (num (c + rowSum jme line)) := by
  induction line generalizing c with
  | nil => simp [coeffLine, rowSum]
  | cons l line ih =>
    simp only [coeffLine, m_lit, m_mul, m_add, m_cos, ok_bind, ih]
    simp [rowSum, add_assoc]

theorem sum_mapIdx_succ {β : Type} (x : ℝ) (f : β → ℝ) (l : List β) :
    (l.mapIdx fun i r => x ^ (i + 1) * f r).sum = x * (l.mapIdx fun i r => x ^ i * f r).sum := by
  have h : ∀ (l : List β) (k : ℕ), (l.mapIdx fun i r => x ^ (i + k + 1) * f r).sum
      = x * (l.mapIdx fun i r => x ^ (i + k) * f r).sum := by
    intro l
    induction l with
    | nil => simp
    | cons a l ih =>
      intro k
      rw [List.mapIdx_cons, List.mapIdx_cons, List.sum_cons, List.sum_cons, mul_add]
      have := ih (k + 1)
      congr 1
      · ring
      · rw [show (fun i (r : β) => x ^ (i + 1 + k + 1) * f r) = fun i r => x ^ (i + (k + 1) + 1) * f r by
            funext i r; ring,
          show (fun i (r : β) => x ^ (i + 1 + k) * f r) = fun i r => x ^ (i + (k + 1)) * f r by
            funext i r; ring]
        exact this
  exact h l 0

theorem vsop_cons (t : ℝ) (row : List (ℚ × ℚ × ℚ)) (table : List (List (ℚ × ℚ × ℚ))) :
    vsop t (row :: table) = rowSum t row + t * vsop t table := by
  unfold vsop
  rw [List.mapIdx_cons, List.sum_cons, pow_zero, one_mul, sum_mapIdx_succ]

theorem vsopBound_cons (t : ℝ) (row : List (ℚ × ℚ × ℚ)) (table : List (List (ℚ × ℚ × ℚ))) :
    vsopBound t (row :: table) = (row.map fun l => |(l.1 : ℝ)|).sum + |t| * vsopBound t table := by
  unfold vsopBound
  rw [List.mapIdx_cons, List.sum_cons, pow_zero, one_mul, sum_mapIdx_succ]

theorem coeffLoop_eval (jme r x : ℝ) (table : List (List (ℚ × ℚ × ℚ))) :
    coeffLoop (mathB tp) (num jme) (num r) (num x) table = .ok (num (r + x * vsop jme table)) := by
  induction table generalizing r x with
  | nil => simp [coeffLoop, vsop]
  | cons row table ih =>
    have h0 : (0.0 : ℝ) = 0 := by norm_num
    simp only [coeffLoop, m_sci, coeffLine_eval, ok_bind, m_mul, m_add, ih, vsop_cons, h0]
    congr 2
    ring

theorem coeff_eval (jme : ℝ) (table : List (List (ℚ × ℚ × ℚ))) :
    get_coeff (mathB tp) (num jme) table = .ok (num (vsop jme table)) := by
  have h0 : (0.0 : ℝ) = 0 := by norm_num
  have h1 : (1.0 : ℝ) = 1 := by norm_num
  simp only [get_coeff, m_sci, coeffLoop_eval, h0, h1]
  congr 2
  ring

theorem abs_rowSum_le (t : ℝ) (row : List (ℚ × ℚ × ℚ)) :
    |rowSum t row| ≤ (row.map fun l => |(l.1 : ℝ)|).sum := by
  induction row with
  | nil => simp [rowSum]
  | cons l row ih =>
    have : rowSum t (l :: row) = (l.1 : ℝ) * cos ((l.2.1 : ℝ) + (l.2.2 : ℝ) * t) + rowSum t row := by
      simp [rowSum]
    rw [this, List.map_cons, List.sum_cons]
    refine (abs_add_le _ _).trans (add_le_add ?_ ih)
    rw [abs_mul]
    exact mul_le_of_le_one_right (abs_nonneg _) (abs_cos_le_one _)

theorem abs_vsop_le (t : ℝ) (table : List (List (ℚ × ℚ × ℚ))) : |vsop t table| ≤ vsopBound t table := by
  induction table with
  | nil => simp [vsop, vsopBound]
  | cons row table ih =>
    rw [vsop_cons, vsopBound_cons]
    refine (abs_add_le _ _).trans (add_le_add (abs_rowSum_le t row) ?_)
    rw [abs_mul]
    exact mul_le_mul_of_nonneg_left ih (abs_nonneg _)

/-- The amplitude bound for `|t| ≤ c`, computable. -/
def ampl (c : ℚ) : List (List (ℚ × ℚ × ℚ)) → ℚ
  | [] => 0
  | row :: table => (row.map fun l => |l.1|).sum + c * ampl c table

theorem ampl_nonneg {c : ℚ} (hc : 0 ≤ c) (table : List (List (ℚ × ℚ × ℚ))) : 0 ≤ ampl c table := by
  induction table with
  | nil => exact le_refl _
  | cons row table ih =>
    have : 0 ≤ (row.map fun l => |l.1|).sum := by
      apply List.sum_nonneg
      simp only [List.mem_map]
      rintro x ⟨l, -, rfl⟩
      exact abs_nonneg _
    unfold ampl
    positivity

theorem vsopBound_le {t : ℝ} {c : ℚ} (h : |t| ≤ c) (table : List (List (ℚ × ℚ × ℚ))) :
    vsopBound t table ≤ (ampl c table : ℝ) := by
  have hc : (0 : ℚ) ≤ c := by exact_mod_cast (abs_nonneg t).trans h
  induction table with
  | nil => simp [vsopBound, ampl]
  | cons row table ih =>
    rw [vsopBound_cons, ampl]
    push_cast
    apply add_le_add
    · rw [List.map_map]
      apply le_of_eq
      congr 2
      funext l
      simp
    · exact mul_le_mul h ih (by
        unfold vsopBound
        apply List.sum_nonneg
        intro x hx
        rw [List.mem_mapIdx] at hx
        obtain ⟨i, hi, rfl⟩ := hx
        apply mul_nonneg (by positivity)
        apply List.sum_nonneg
        simp only [List.mem_map]
        rintro x ⟨l, -, rfl⟩
        exact abs_nonneg _) (by exact_mod_cast hc)

/-! ## get_nutation -/

theorem sin_terms_length : aberration_sin_terms.length = 63 := by decide +kernel
theorem nutation_length : nutation_coefficients.length = 63 := by decide +kernel
theorem sin_terms_width : ∀ r ∈ aberration_sin_terms, r.length = 5 := by decide +kernel

theorem pyIndex_of_lt {α : Type} {xs : List α} {i : ℕ} (h : i < xs.length) : pyIndex xs i = .ok xs[i] := by
  simp [pyIndex, List.getElem?_eq_getElem h]

theorem nutationX_eval (T : ℝ) :
    nutationX (mathB tp) (get_aberration_coeffs (mathB tp) (aberration_coeffs0 (mathB tp))).1 (num T)
      nutationArgs = .ok ((fundamental T).map num) := by
  have hl : ∀ k, (buildAberrationDict (mathB tp)).lookup k =
      (aberrationRows.lookup k).map fun (a, b, c, d) => aberrationPoly (mathB tp) a b c d := by
    intro k
    unfold buildAberrationDict
    generalize aberrationRows = rows
    induction rows with
    | nil => rfl
    | cons r rows ih =>
      obtain ⟨n, a, b, c, d⟩ := r
      simp only [List.map_cons, List.lookup_cons, ih]
      split <;> rfl
  have e1 : aberrationRows.lookup "MeanElongationOfMoon"
    = some (297.85036, 445267.111480, -0.0019142, 189474.0) := by decide +kernel
  have e2 : aberrationRows.lookup "MeanAnomalyOfSun"
    = some (357.52772, 35999.050340, -0.0001603, -300000.0) := by decide +kernel
  have e3 : aberrationRows.lookup "MeanAnomalyOfMoon"
    = some (134.96298, 477198.867398, 0.0086972, 56250.0) := by decide +kernel
  have e4 : aberrationRows.lookup "ArgumentOfLatitudeOfMoon"
    = some (93.27191, 483202.017538, -0.0036825, 327270.0) := by decide +kernel
  have e5 : aberrationRows.lookup "LongitudeOfAscendingNode"
    = some (125.04452, -1934.136261, 0.0020708, 450000.0) := by decide +kernel
  simp only [get_aberration_coeffs, aberration_coeffs0, nutationArgs, nutationX, pyLookup, hl, e1, e2, e3,
    e4, e5, Option.map_some, ok_bind, pure_eq_ok, aberrationPoly, m_lit, m_mul, m_pow, m_add, m_divq,
    fundamental, List.map_cons, List.map_nil, moonElongation, sunAnomaly, moonAnomaly, moonLatitudeArg,
    moonNode]
  congr 1
  have a1 : ((297.85036 : ℚ) : ℝ) + ((445267.111480 : ℚ) : ℝ) * T + ((-0.0019142 : ℚ) : ℝ) * T ^ 2
      + T ^ 3 / ((189474.0 : ℚ) : ℝ)
    = 297.85036 + 445267.111480 * T - 0.0019142 * T ^ 2 + T ^ 3 / 189474 := by push_cast; norm_num; ring
  have a2 : ((357.52772 : ℚ) : ℝ) + ((35999.050340 : ℚ) : ℝ) * T + ((-0.0001603 : ℚ) : ℝ) * T ^ 2
      + T ^ 3 / ((-300000.0 : ℚ) : ℝ)
    = 357.52772 + 35999.050340 * T - 0.0001603 * T ^ 2 - T ^ 3 / 300000 := by push_cast; norm_num; ring
  have a3 : ((134.96298 : ℚ) : ℝ) + ((477198.867398 : ℚ) : ℝ) * T + ((0.0086972 : ℚ) : ℝ) * T ^ 2
      + T ^ 3 / ((56250.0 : ℚ) : ℝ)
    = 134.96298 + 477198.867398 * T + 0.0086972 * T ^ 2 + T ^ 3 / 56250 := by push_cast; norm_num
  have a4 : ((93.27191 : ℚ) : ℝ) + ((483202.017538 : ℚ) : ℝ) * T + ((-0.0036825 : ℚ) : ℝ) * T ^ 2
      + T ^ 3 / ((327270.0 : ℚ) : ℝ)
    = 93.27191 + 483202.017538 * T - 0.0036825 * T ^ 2 + T ^ 3 / 327270 := by push_cast; norm_num; ring
  have a5 : ((125.04452 : ℚ) : ℝ) + ((-1934.136261 : ℚ) : ℝ) * T + ((0.0020708 : ℚ) : ℝ) * T ^ 2
      + T ^ 3 / ((450000.0 : ℚ) : ℝ)
    = 125.04452 - 1934.136261 * T + 0.0020708 * T ^ 2 + T ^ 3 / 450000 := by push_cast; norm_num; ring
  rw [a1, a2, a3, a4, a5]

theorem sigmaxy_eval (T : ℝ) {y : List ℚ} (hy : y.length = 5) :
    sigmaxyLoop (mathB tp) ((fundamental T).map num) y (num 0) (List.range ((fundamental T).map
      (num : ℝ → (mathB tp).α)).length) = .ok (num (combine T y)) := by
  match y, hy with
  | [a, b, c, d, e], _ =>
    simp [fundamental, combine, List.range, List.range.loop, sigmaxyLoop, pyIndex]
    ring

/-- The i-th term of the nutation series. -/
noncomputable def nutL (T : ℝ) (c : ℚ × ℚ × ℚ × ℚ) (r : List ℚ) : ℝ :=
  ((c.1 : ℝ) + (c.2.1 : ℝ) * T) * sin (rad (combine T r))
noncomputable def nutO (T : ℝ) (c : ℚ × ℚ × ℚ × ℚ) (r : List ℚ) : ℝ :=
  ((c.2.2.1 : ℝ) + (c.2.2.2 : ℝ) * T) * cos (rad (combine T r))

theorem nutationLoop_eval (T : ℝ) (abcd : List (ℚ × ℚ × ℚ × ℚ)) (y : List (List ℚ))
    (hy : ∀ r ∈ y, r.length = 5) (is : List ℕ) (h : ∀ i ∈ is, i < abcd.length ∧ i < y.length) :
    nutationLoop (mathB tp) (num T) abcd ((fundamental T).map num) y is
      = .ok (is.map fun i => num (nutL T (abcd.getD i 0) (y.getD i [])),
          is.map fun i => num (nutO T (abcd.getD i 0) (y.getD i []))) := by
  have h0 : (0.0 : ℝ) = 0 := by norm_num
  induction is with
  | nil => rfl
  | cons i is ih =>
    obtain ⟨h1, h2⟩ := h i (by simp)
    have hy5 := hy _ (List.getElem_mem h2)
    have g1 : abcd.getD i 0 = abcd[i] := by simp [List.getD, List.getElem?_eq_getElem h1]
    have g2 : y.getD i [] = y[i] := by simp [List.getD, List.getElem?_eq_getElem h2]
    rw [nutationLoop, pyIndex_of_lt h2, pyIndex_of_lt h1, ih fun j hj => h j (by simp [hj])]
    simp only [ok_bind, m_sci, h0, sigmaxy_eval T hy5, m_lit, m_mul, m_add, m_radians, m_sin, m_cos,
      pure_eq_ok, List.map_cons, nutL, nutO, g1, g2]

theorem pySum_eval (xs : List ℝ) : pySum (mathB tp) (xs.map num) = num xs.sum := by
  have : ∀ (xs : List ℝ) (s : ℝ), (xs.map (num : ℝ → (mathB tp).α)).foldl (fun s x => s + x) (num s)
      = num (s + xs.sum) := by
    intro xs
    induction xs with
    | nil => simp
    | cons x xs ih => intro s; simp [ih, add_assoc]
  unfold pySum
  have h0 : (0 : (mathB tp).α) = num 0 := by
    rw [m_ofNat]; norm_num
  rw [h0, this, zero_add]

theorem map_range_eq_zipWith {β γ δ : Type} (f : β → γ → δ) (l : List β) (m : List γ) (a : β) (b : γ)
    (h : l.length = m.length) :
    (List.range l.length).map (fun i => f (l.getD i a) (m.getD i b)) = List.zipWith f l m := by
  apply List.ext_getElem
  · simp [h]
  · intro i h1 h2
    simp at h1
    simp [List.getElem?_eq_getElem h1, List.getElem?_eq_getElem (h ▸ h1)]

theorem nutation_eval (T : ℝ) :
    get_nutation (mathB tp) (num T)
      = .ok ⟨num (nutationLongitude T nutation_coefficients aberration_sin_terms),
          num (nutationObliquity T nutation_coefficients aberration_sin_terms)⟩ := by
  have hlen : nutation_coefficients.length = aberration_sin_terms.length := by
    rw [nutation_length, sin_terms_length]
  have hrange : ∀ i ∈ List.range nutation_coefficients.length,
      i < nutation_coefficients.length ∧ i < aberration_sin_terms.length := by
    intro i hi
    rw [List.mem_range] at hi
    exact ⟨hi, hlen ▸ hi⟩
  have e := nutationLoop_eval (tp := tp) T nutation_coefficients aberration_sin_terms sin_terms_width
    (List.range nutation_coefficients.length) hrange
  have e1 := map_range_eq_zipWith (nutL T) nutation_coefficients aberration_sin_terms 0 [] hlen
  have e2 := map_range_eq_zipWith (nutO T) nutation_coefficients aberration_sin_terms 0 [] hlen
  have f1 := congrArg (List.map (num : ℝ → (mathB tp).α)) e1
  have f2 := congrArg (List.map (num : ℝ → (mathB tp).α)) e2
  rw [List.map_map] at f1 f2
  have hq : ((36000000.0 : ℚ) : ℝ) = 36000000 := by norm_num
  unfold get_nutation
  dsimp only
  rw [nutationX_eval, ok_bind, e]
  simp only [ok_bind, pure_eq_ok]
  have g1 : pySum (mathB tp) ((List.range nutation_coefficients.length).map fun i =>
      num (nutL T (nutation_coefficients.getD i 0) (aberration_sin_terms.getD i [])))
      = num (List.zipWith (nutL T) nutation_coefficients aberration_sin_terms).sum := by
    rw [← pySum_eval, ← f1]
    rfl
  have g2 : pySum (mathB tp) ((List.range nutation_coefficients.length).map fun i =>
      num (nutO T (nutation_coefficients.getD i 0) (aberration_sin_terms.getD i [])))
      = num (List.zipWith (nutO T) nutation_coefficients aberration_sin_terms).sum := by
    rw [← pySum_eval, ← f2]
    rfl
  rw [g1, g2, m_divq, m_divq, hq]
  rfl

/-- Amplitude of the series: `∑ |a| + |b| c`. -/
def nutAmpl (c : ℚ) (sel : ℚ × ℚ × ℚ × ℚ → ℚ × ℚ) : List (ℚ × ℚ × ℚ × ℚ) → ℚ
  | [] => 0
  | r :: rs => |(sel r).1| + |(sel r).2| * c + nutAmpl c sel rs

theorem abs_zipWith_sum_le {T : ℝ} {c : ℚ} (hT : |T| ≤ c) (sel : ℚ × ℚ × ℚ × ℚ → ℚ × ℚ)
    (g : List ℚ → ℝ) (hg : ∀ r, |g r| ≤ 1) (l : List (ℚ × ℚ × ℚ × ℚ)) (m : List (List ℚ)) :
    |(List.zipWith (fun r y => (((sel r).1 : ℝ) + ((sel r).2 : ℝ) * T) * g y) l m).sum|
      ≤ (nutAmpl c sel l : ℝ) := by
  have hc : (0 : ℝ) ≤ c := (abs_nonneg T).trans hT
  induction l generalizing m with
  | nil => simp [nutAmpl]
  | cons r l ih =>
    have hb : |((sel r).1 : ℝ) + ((sel r).2 : ℝ) * T| ≤ |((sel r).1 : ℝ)| + |((sel r).2 : ℝ)| * c := by
      refine (abs_add_le _ _).trans (add_le_add le_rfl ?_)
      rw [abs_mul]
      exact mul_le_mul_of_nonneg_left hT (abs_nonneg _)
    have h0 : 0 ≤ |((sel r).1 : ℝ)| + |((sel r).2 : ℝ)| * c := by positivity
    cases m with
    | nil =>
      have := ih []
      simp only [List.zipWith_nil_right, List.sum_nil, abs_zero] at this ⊢
      unfold nutAmpl
      push_cast
      linarith
    | cons y m =>
      rw [List.zipWith_cons_cons, List.sum_cons, nutAmpl]
      push_cast
      refine (abs_add_le _ _).trans (add_le_add ?_ (ih m))
      rw [abs_mul]
      calc _ ≤ (|((sel r).1 : ℝ)| + |((sel r).2 : ℝ)| * c) * 1 :=
            mul_le_mul hb (hg y) (abs_nonneg _) h0
        _ = _ := mul_one _

theorem abs_nutationLongitude_le {T : ℝ} {c : ℚ} (hT : |T| ≤ c) (l : List (ℚ × ℚ × ℚ × ℚ))
    (m : List (List ℚ)) :
    |nutationLongitude T l m| ≤ (nutAmpl c (fun r => (r.1, r.2.1)) l : ℝ) / 36000000 := by
  unfold nutationLongitude
  rw [abs_div, abs_of_pos (by norm_num : (0 : ℝ) < 36000000)]
  exact div_le_div_of_nonneg_right (abs_zipWith_sum_le hT (fun r => (r.1, r.2.1))
    (fun y => sin (rad (combine T y))) (fun _ => abs_sin_le_one _) l m) (by norm_num)

theorem abs_nutationObliquity_le {T : ℝ} {c : ℚ} (hT : |T| ≤ c) (l : List (ℚ × ℚ × ℚ × ℚ))
    (m : List (List ℚ)) :
    |nutationObliquity T l m| ≤ (nutAmpl c (fun r => (r.2.2.1, r.2.2.2)) l : ℝ) / 36000000 := by
  unfold nutationObliquity
  rw [abs_div, abs_of_pos (by norm_num : (0 : ℝ) < 36000000)]
  exact div_le_div_of_nonneg_right (abs_zipWith_sum_le hT (fun r => (r.2.2.1, r.2.2.2))
    (fun y => cos (rad (combine T y))) (fun _ => abs_cos_le_one _) l m) (by norm_num)

theorem nutAmpl_long : nutAmpl 80 (fun r => (r.1, r.2.1)) nutation_coefficients ≤ 208900 := by
  decide +kernel
theorem nutAmpl_obl : nutAmpl 80 (fun r => (r.2.2.1, r.2.2.2)) nutation_coefficients ≤ 101900 := by
  decide +kernel

/-! ## Bounds of the series -/

theorem dist_head : sun_earth_distance_coeffs
    = ((100013989, 0, 0) :: (sun_earth_distance_coeffs.head!).tail) :: sun_earth_distance_coeffs.tail := by
  decide +kernel

theorem dist_ampl : ampl 8 ((sun_earth_distance_coeffs.head!).tail :: sun_earth_distance_coeffs.tail)
    ≤ 2930000 := by decide +kernel

theorem lat_ampl : ampl 8 heliocentric_latitude_coeffs ≤ 660 := by decide +kernel

theorem abs_dist_le {t : ℝ} (h : |t| ≤ 8) :
    |vsop t sun_earth_distance_coeffs - 100013989| ≤ 2930000 := by
  have e : vsop t sun_earth_distance_coeffs - 100013989
      = vsop t ((sun_earth_distance_coeffs.head!).tail :: sun_earth_distance_coeffs.tail) := by
    conv_lhs => rw [dist_head]
    rw [vsop_cons, vsop_cons]
    have : rowSum t ((100013989, 0, 0) :: (sun_earth_distance_coeffs.head!).tail)
        = 100013989 + rowSum t (sun_earth_distance_coeffs.head!).tail := by
      rw [rowSum, List.map_cons, List.sum_cons, rowSum]
      simp
    rw [this]
    ring
  rw [e]
  refine (abs_vsop_le _ _).trans ((vsopBound_le (c := 8) (by exact_mod_cast h) _).trans ?_)
  exact_mod_cast dist_ampl

theorem abs_lat_le {t : ℝ} (h : |t| ≤ 8) : |vsop t heliocentric_latitude_coeffs| ≤ 660 := by
  refine (abs_vsop_le _ _).trans ((vsopBound_le (c := 8) (by exact_mod_cast h) _).trans ?_)
  exact_mod_cast lat_ampl

end Verif
