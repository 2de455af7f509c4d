import Verif.Py.Interval
import Verif.Proofs.NumTrig
import Verif.Proofs.SimInst
import Verif.Proofs.FloatLemmas

/-!
# The backend of intervals encloses the exact results
-/

namespace Verif

open Pysolar Pysolar.Numeric

namespace Iv

/-- The relation of an interval to a value. -/
def rel : Iv → V → Prop
  | mk lo hi, v => ∃ x : ℝ, v = .fin x ∧ (lo : ℝ) ≤ x * one ∧ x * one ≤ hi
  | top, _ => True

theorem one_pos : (0 : ℝ) < (one : ℝ) := by norm_num [one]
theorem one_posZ : (0 : ℤ) < one := by norm_num [one]

theorem rel_top (v : V) : top.rel v := trivial

/-! ## Division of integers -/

theorem fdiv_le {a b : ℤ} (hb : 0 < b) : ((a / b : ℤ) : ℝ) ≤ (a : ℝ) / b := by
  rw [le_div_iff₀ (by exact_mod_cast hb)]
  exact_mod_cast Int.ediv_mul_le a hb.ne'

theorem le_cdiv {a b : ℤ} (hb : 0 < b) : (a : ℝ) / b ≤ ((cdiv a b : ℤ) : ℝ) := by
  have h := fdiv_le (a := -a) hb
  unfold cdiv
  push_cast at h ⊢
  rw [neg_div] at h
  linarith

/-! ## Cosine and sine -/

theorem hor_err {x : ℤ} (hx : |(x : ℝ)| ≤ 4 * one) (m k : ℕ) (hk : 0 < k) :
    ‖((hor x m k).1 : ℂ) + (hor x m k).2 * Complex.I - one * ser ((x / one : ℝ) * Complex.I) m k‖ ≤ horErr m k := by
  induction m generalizing k with
  | zero => simp [hor, ser, horErr]
  | succ m ih =>
    have h := ih (k + 1) k.succ_pos
    set p := hor x m (k + 1) with hp
    have hS := one_pos
    have hSi := one_posZ
    have hk' : (0 : ℝ) < (k : ℝ) := by exact_mod_cast hk
    have hb : (0 : ℤ) < k * one := by positivity
    have d1 := fp_div (x * p.2) hb
    have d2 := fp_div (x * p.1) hb
    have e : ((hor x (m + 1) k).1 : ℂ) + (hor x (m + 1) k).2 * Complex.I
        - one * ser ((x / one : ℝ) * Complex.I) (m + 1) k
        = ((-(((x * p.2 / (k * one) : ℤ) : ℝ) - ((x * p.2 : ℤ) : ℝ) / ((k * one : ℤ) : ℝ)) : ℝ) : ℂ)
          + ((((x * p.1 / (k * one) : ℤ) : ℝ) - ((x * p.1 : ℤ) : ℝ) / ((k * one : ℤ) : ℝ) : ℝ) : ℂ) * Complex.I
          + ((x / one : ℝ) * Complex.I) / k * ((p.1 : ℂ) + p.2 * Complex.I
            - one * ser ((x / one : ℝ) * Complex.I) m (k + 1)) := by
      have hc1 : (one : ℂ) ≠ 0 := by exact_mod_cast hS.ne'
      have hc2 : (k : ℂ) ≠ 0 := by exact_mod_cast hk'.ne'
      simp only [hor, ser, ← hp]
      push_cast
      have hI := Complex.I_sq
      field_simp
      ring_nf
      rw [hI]
      ring
    rw [e]
    refine (norm_add_le _ _).trans ?_
    have n1 : ‖((-(((x * p.2 / (k * one) : ℤ) : ℝ) - ((x * p.2 : ℤ) : ℝ) / ((k * one : ℤ) : ℝ)) : ℝ) : ℂ)
          + ((((x * p.1 / (k * one) : ℤ) : ℝ) - ((x * p.1 : ℤ) : ℝ) / ((k * one : ℤ) : ℝ) : ℝ) : ℂ) * Complex.I‖
          ≤ 2 := by
      refine (norm_add_le _ _).trans ?_
      rw [norm_mul, Complex.norm_I, mul_one, Complex.norm_real, Complex.norm_real, Real.norm_eq_abs, Real.norm_eq_abs,
        abs_neg]
      linarith
    have n2 : ‖((x / one : ℝ) * Complex.I : ℂ) / k * ((p.1 : ℂ) + p.2 * Complex.I
            - one * ser ((x / one : ℝ) * Complex.I) m (k + 1))‖ ≤ 4 / k * horErr m (k + 1) := by
      rw [norm_mul, norm_div, norm_mul, Complex.norm_I, mul_one, Complex.norm_real, Real.norm_eq_abs, Complex.norm_natCast,
        abs_div, abs_of_pos hS]
      have : |(x : ℝ)| / one ≤ 4 := by rw [div_le_iff₀ hS]; exact hx
      gcongr
    rw [horErr]
    push_cast at n1 n2 ⊢
    linarith

theorem hor_ok {x : ℤ} (hx : |(x : ℝ)| ≤ 4 * one) :
    |Real.cos (x / one) * one - (hor x 36 1).1| ≤ 127 ∧ |Real.sin (x / one) * one - (hor x 36 1).2| ≤ 127 := by
  have hS := one_pos
  set y : ℝ := x / one with hy
  have hy4 : |y| ≤ 4 := by rw [hy, abs_div, abs_of_pos hS, div_le_iff₀ hS]; exact hx
  have h1 := hor_err hx 36 1 Nat.one_pos
  have h2 : ser ((y : ℝ) * Complex.I) 36 1 = ∑ i ∈ Finset.range 37, ((y : ℂ) * Complex.I) ^ i / (i.factorial : ℂ) := by
    have := ser_sum ((y : ℝ) * Complex.I) 36 0
    simpa using this
  have hn : ‖(y : ℂ) * Complex.I‖ = |y| := by
    rw [norm_mul, Complex.norm_I, mul_one, Complex.norm_real, Real.norm_eq_abs]
  have h3 := Complex.exp_bound' (x := (y : ℂ) * Complex.I) (n := 37) (by rw [hn]; norm_num; linarith)
  rw [← h2, hn] at h3
  have h4 : |y| ^ 37 / (Nat.factorial 37 : ℕ) * 2 * one ≤ 1 := by
    have : |y| ^ 37 ≤ 4 ^ 37 := by gcongr
    have hf : ((Nat.factorial 37 : ℕ) : ℝ) = 13763753091226345046315979581580902400000000 := by norm_num [Nat.factorial]
    rw [hf]
    norm_num [one] at *
    linarith
  have hE : horErr 36 1 ≤ 126 := by norm_num [horErr]
  have hE' : (horErr 36 1 : ℝ) ≤ 126 := by exact_mod_cast hE
  have h6 : ‖Complex.exp ((y : ℂ) * Complex.I) * one - (((hor x 36 1).1 : ℂ) + (hor x 36 1).2 * Complex.I)‖ ≤ 127 := by
    have e : Complex.exp ((y : ℂ) * Complex.I) * one - (((hor x 36 1).1 : ℂ) + (hor x 36 1).2 * Complex.I)
        = (Complex.exp ((y : ℂ) * Complex.I) - ser ((y : ℝ) * Complex.I) 36 1) * one
          - (((hor x 36 1).1 : ℂ) + (hor x 36 1).2 * Complex.I - one * ser ((y : ℝ) * Complex.I) 36 1) := by ring
    rw [e]
    refine (norm_sub_le _ _).trans ?_
    rw [norm_mul]
    have ho : ‖(one : ℂ)‖ = one := by norm_num [one]
    rw [ho]
    have := mul_le_mul_of_nonneg_right h3 hS.le
    linarith
  have hz : Complex.exp ((y : ℂ) * Complex.I) * one - (((hor x 36 1).1 : ℂ) + (hor x 36 1).2 * Complex.I)
      = ((Real.cos y * one - (hor x 36 1).1 : ℝ) : ℂ) + ((Real.sin y * one - (hor x 36 1).2 : ℝ) : ℂ) * Complex.I := by
    rw [Complex.exp_mul_I]
    push_cast
    ring
  rw [hz] at h6
  constructor
  · refine le_trans ?_ h6
    have := Complex.abs_re_le_norm (((Real.cos y * one - (hor x 36 1).1 : ℝ) : ℂ)
      + ((Real.sin y * one - (hor x 36 1).2 : ℝ) : ℂ) * Complex.I)
    rwa [Complex.add_re, Complex.re_ofReal_mul, Complex.I_re, mul_zero, add_zero, Complex.ofReal_re] at this
  · refine le_trans ?_ h6
    have := Complex.abs_im_le_norm (((Real.cos y * one - (hor x 36 1).1 : ℝ) : ℂ)
      + ((Real.sin y * one - (hor x 36 1).2 : ℝ) : ℂ) * Complex.I)
    rwa [Complex.add_im, Complex.im_ofReal_mul, Complex.I_im, mul_one, Complex.ofReal_im, zero_add] at this

theorem pi_bounds : (piZ : ℝ) ≤ Real.pi * one ∧ Real.pi * one ≤ piZ + 1 := by
  have h1 := Real.pi_gt_d20
  have h2 := Real.pi_lt_d20
  norm_num [piZ, one] at *
  constructor <;> linarith

theorem cosSin_ok {x : ℤ} {c s e : ℤ} (h : cosSin x = some (c, s, e)) :
    |Real.cos (x / one) * one - c| ≤ e ∧ |Real.sin (x / one) * one - s| ≤ e := by
  unfold cosSin at h
  dsimp only at h
  split_ifs at h with hy
  simp only [Option.some.injEq, Prod.mk.injEq] at h
  obtain ⟨rfl, rfl, rfl⟩ := h
  set k := (x + piZ) / (2 * piZ)
  set y := x - 2 * k * piZ with hyd
  have hS := one_pos
  have hy' : |(y : ℝ)| ≤ 4 * one := by
    rw [abs_le]
    exact ⟨by exact_mod_cast hy.1, by exact_mod_cast hy.2⟩
  obtain ⟨h1, h2⟩ := hor_ok hy'
  obtain ⟨p1, p2⟩ := pi_bounds
  have hk : |(x : ℝ) / one - k * (2 * Real.pi) - y / one| * one ≤ 2 * |(k : ℝ)| := by
    have e1 : (x : ℝ) = y + 2 * k * piZ := by rw [hyd]; push_cast; ring
    have e2 : (x : ℝ) / one - k * (2 * Real.pi) - y / one = 2 * k * (piZ - Real.pi * one) / one := by
      rw [e1]
      field_simp
      ring
    rw [e2, abs_div, abs_mul, abs_mul, abs_of_pos hS, div_mul_cancel₀ _ hS.ne', abs_of_pos (by norm_num : (0 : ℝ) < 2)]
    have : |(piZ : ℝ) - Real.pi * one| ≤ 1 := by rw [abs_le]; constructor <;> linarith
    have := mul_le_mul_of_nonneg_left this (by positivity : (0 : ℝ) ≤ 2 * |(k : ℝ)|)
    linarith
  have hkn : ((k.natAbs : ℤ) : ℝ) = |(k : ℝ)| := by rw [Int.natCast_natAbs]; push_cast; rfl
  have ec : Real.cos (x / one) = Real.cos (x / one - k * (2 * Real.pi)) := (Real.cos_sub_int_mul_two_pi _ _).symm
  have es : Real.sin (x / one) = Real.sin (x / one - k * (2 * Real.pi)) := (Real.sin_sub_int_mul_two_pi _ _).symm
  have c1 := mul_le_mul_of_nonneg_right (Real.abs_cos_sub_cos_le (x / one - k * (2 * Real.pi)) (y / one)) hS.le
  have s1 := mul_le_mul_of_nonneg_right (Real.abs_sin_sub_sin_le (x / one - k * (2 * Real.pi)) (y / one)) hS.le
  rw [← ec, ← abs_of_pos hS, ← abs_mul, abs_of_pos hS] at c1
  rw [← es, ← abs_of_pos hS, ← abs_mul, abs_of_pos hS] at s1
  push_cast at hkn ⊢
  rw [hkn]
  constructor
  · have := abs_le.1 (c1.trans hk)
    have := abs_le.1 h1
    rw [abs_le]
    constructor <;> linarith
  · have := abs_le.1 (s1.trans hk)
    have := abs_le.1 h2
    rw [abs_le]
    constructor <;> linarith

theorem trig_ok {i : Iv} {p : Iv × Iv} (h : trig i = some p) {v : V} (hv : i.rel v) :
    ∃ x, v = .fin x ∧ p.1.rel (.fin (Real.cos x)) ∧ p.2.rel (.fin (Real.sin x)) := by
  cases i with
  | top => cases h
  | mk a b =>
    obtain ⟨x, rfl, h1, h2⟩ := hv
    unfold trig at h
    dsimp only at h
    cases hc : cosSin ((a + b) / 2) with
    | none => rw [hc] at h; cases h
    | some q =>
      obtain ⟨c, s, e⟩ := q
      rw [hc] at h
      simp only [Option.some.injEq] at h
      subst h
      obtain ⟨k1, k2⟩ := cosSin_ok hc
      set m := (a + b) / 2
      set r := max (b - m) (m - a) with hr
      have hS := one_pos
      have hxm : |x - m / one| * one ≤ r := by
        have e1 : |x - m / one| * one = |x * one - m| := by
          rw [← abs_of_pos hS, ← abs_mul, abs_of_pos hS]
          congr 1
          field_simp
        have r1 : ((b - m : ℤ) : ℝ) ≤ r := by exact_mod_cast le_max_left _ _
        have r2 : ((m - a : ℤ) : ℝ) ≤ r := by exact_mod_cast le_max_right _ _
        push_cast at r1 r2
        rw [e1, abs_le]
        constructor <;> linarith
      have c1 := mul_le_mul_of_nonneg_right (Real.abs_cos_sub_cos_le x (m / one)) hS.le
      have s1 := mul_le_mul_of_nonneg_right (Real.abs_sin_sub_sin_le x (m / one)) hS.le
      rw [← abs_of_pos hS, ← abs_mul, abs_of_pos hS] at c1
      rw [← abs_of_pos hS, ← abs_mul, abs_of_pos hS] at s1
      have c2 := abs_le.1 (c1.trans hxm)
      have s2 := abs_le.1 (s1.trans hxm)
      have c3 := abs_le.1 k1
      have s3 := abs_le.1 k2
      refine ⟨x, rfl, ⟨_, rfl, ?_, ?_⟩, ⟨_, rfl, ?_, ?_⟩⟩ <;> push_cast <;> linarith

/-! ## Arithmetic -/

variable (tp : ℝ)

theorem lit_rel (q : ℚ) : (lit q).rel ((mathB tp).lit q) := by
  have hd : (0 : ℤ) < (q.den : ℤ) := by exact_mod_cast q.den_pos
  have e : (q : ℝ) * one = ((q.num * one : ℤ) : ℝ) / ((q.den : ℤ) : ℝ) := by
    have : (q : ℝ) = (q.num : ℝ) / (q.den : ℝ) := by exact_mod_cast (Rat.num_div_den q).symm
    rw [this]
    push_cast
    ring
  refine ⟨q, rfl, ?_, ?_⟩
  · rw [e]; exact fdiv_le hd
  · rw [e]; exact le_cdiv hd

theorem pi_rel : pi.rel (.fin Real.pi) := by
  obtain ⟨h1, h2⟩ := pi_bounds
  exact ⟨_, rfl, h1, by push_cast; exact h2⟩

theorem add_rel {i j : Iv} {v w : V} (h : i.rel v) (h' : j.rel w) : (add i j).rel (V.add v w) := by
  cases i with
  | top => exact trivial
  | mk a b =>
    cases j with
    | top => exact trivial
    | mk c d =>
      obtain ⟨x, rfl, h1, h2⟩ := h
      obtain ⟨y, rfl, h3, h4⟩ := h'
      refine ⟨x + y, rfl, ?_, ?_⟩ <;> push_cast <;> linarith

theorem neg_rel {i : Iv} {v : V} (h : i.rel v) : (neg i).rel (V.neg v) := by
  cases i with
  | top => exact trivial
  | mk a b =>
    obtain ⟨x, rfl, h1, h2⟩ := h
    refine ⟨-x, rfl, ?_, ?_⟩ <;> push_cast <;> linarith

theorem sub_rel {i j : Iv} {v w : V} (h : i.rel v) (h' : j.rel w) : (sub i j).rel (V.sub v w) := by
  have key := add_rel h (neg_rel h')
  cases i with
  | top => exact trivial
  | mk a b =>
    cases j with
    | top => exact trivial
    | mk c d =>
      obtain ⟨x, rfl, h1, h2⟩ := h
      obtain ⟨y, rfl, h3, h4⟩ := h'
      have e : V.sub (.fin x) (.fin y) = V.add (.fin x) (V.neg (.fin y)) := by
        show V.fin (x - y) = V.fin (x + -y)
        rw [sub_eq_add_neg]
      rw [e]
      exact key

theorem mul_rel {i j : Iv} {v w : V} (h : i.rel v) (h' : j.rel w) : (mul i j).rel (V.mul v w) := by
  cases i with
  | top => exact trivial
  | mk a b =>
    cases j with
    | top => exact trivial
    | mk c d =>
      obtain ⟨x, rfl, h1, h2⟩ := h
      obtain ⟨y, rfl, h3, h4⟩ := h'
      have hS := one_pos
      have key := Verif.mul_mem (a := (a : ℝ)) (b := b) (c := c) (d := d) h1 h2 h3 h4
      have e : x * y * one = x * one * (y * one) / one := by field_simp
      refine ⟨x * y, rfl, ?_, ?_⟩
      · rw [e]
        refine (fdiv_le one_posZ).trans ?_
        gcongr
        push_cast
        exact key.1
      · rw [e]
        refine le_trans ?_ (le_cdiv one_posZ)
        gcongr
        push_cast
        exact key.2

theorem divq_rel {i : Iv} {v : V} (q : ℚ) (h : i.rel v) : (divq i q).rel (V.divq v q) := by
  cases i with
  | top => exact trivial
  | mk a b =>
    obtain ⟨x, rfl, h1, h2⟩ := h
    have hd : (0 : ℝ) < (q.den : ℝ) := by exact_mod_cast q.den_pos
    have hq : (q : ℝ) = (q.num : ℝ) / (q.den : ℝ) := by exact_mod_cast (Rat.num_div_den q).symm
    unfold divq
    dsimp only
    split_ifs with hp hn
    · have hp' : (0 : ℝ) < (q.num : ℝ) := by exact_mod_cast hp
      have e : x / (q : ℝ) * one = x * one * q.den / q.num := by
        rw [hq]; field_simp
      refine ⟨_, rfl, ?_, ?_⟩
      · rw [e]
        refine (fdiv_le hp).trans ?_
        push_cast
        gcongr
      · rw [e]
        refine le_trans ?_ (le_cdiv hp)
        push_cast
        gcongr
    · have hn' : 0 < -q.num := by omega
      have hp' : (0 : ℝ) < -(q.num : ℝ) := by exact_mod_cast hn'
      have e : x / (q : ℝ) * one = -(x * one) * q.den / -q.num := by
        rw [hq, neg_mul, neg_div_neg_eq]
        have : (q.num : ℝ) ≠ 0 := by linarith
        field_simp
      refine ⟨_, rfl, ?_, ?_⟩
      · rw [e]
        refine (fdiv_le hn').trans ?_
        push_cast
        gcongr
      · rw [e]
        refine le_trans ?_ (le_cdiv hn')
        push_cast
        gcongr
    · trivial

theorem modq_rel {i : Iv} {v : V} (q : ℚ) (h : i.rel v) : (modq i q).rel (V.modq v q) := by
  cases i with
  | top => exact trivial
  | mk a b =>
    obtain ⟨x, rfl, h1, h2⟩ := h
    unfold modq
    dsimp only
    split_ifs with hc
    · obtain ⟨hd, hp, he⟩ := hc
      have hq : (q : ℝ) = (q.num : ℝ) := by
        have : (q : ℝ) = (q.num : ℝ) / (q.den : ℝ) := by exact_mod_cast (Rat.num_div_den q).symm
        rw [this, hd]; simp
      have hS := one_pos
      have hp' : (0 : ℝ) < (q.num : ℝ) := by exact_mod_cast hp
      have hm : 0 < q.num * one := mul_pos hp one_posZ
      have hfl : ⌊x / (q : ℝ)⌋ = a / (q.num * one) := by
        rw [Int.floor_eq_iff, hq]
        constructor
        · rw [le_div_iff₀ hp']
          have t : ((a / (q.num * one) * (q.num * one) : ℤ) : ℝ) ≤ x * one :=
            le_trans (by exact_mod_cast Int.ediv_mul_le a hm.ne') h1
          push_cast at t
          have : ((a / (q.num * one) : ℤ) : ℝ) * q.num * one ≤ x * one := by linarith
          exact le_of_mul_le_mul_right this hS
        · rw [div_lt_iff₀ hp', he]
          have t : x * one < (((b / (q.num * one) + 1) * (q.num * one) : ℤ) : ℝ) :=
            lt_of_le_of_lt h2 (by exact_mod_cast Int.lt_ediv_add_one_mul_self b hm)
          push_cast at t
          have : x * one < (((b / (q.num * one) : ℤ) : ℝ) + 1) * q.num * one := by linarith
          exact lt_of_mul_lt_mul_right this hS.le
      refine ⟨_, rfl, ?_, ?_⟩ <;> rw [hfl, hq] <;> push_cast <;> linarith
    · trivial

theorem powN_rel {i : Iv} {v : V} (n : ℕ) (h : i.rel v) : (powN i n).rel (V.powN v n) := by
  induction n with
  | zero => exact ⟨1, by cases v <;> rfl, by linarith, by linarith⟩
  | succ n ih =>
    cases i with
    | top => unfold powN mul; split <;> trivial
    | mk a b =>
      have h0 := h
      obtain ⟨x, rfl, h1, h2⟩ := h
      have e : V.powN (.fin x) (n + 1) = V.mul (V.powN (.fin x) n) (.fin x) := by
        cases n with
        | zero => show V.fin (x ^ 1) = V.fin (1 * x); rw [pow_one, one_mul]
        | succ n => rfl
      rw [e]
      exact mul_rel ih h0

theorem recip_rel {i j : Iv} {v : V} (h : i.rel v) (hj : recip i = some j) :
    ∃ x, v = .fin x ∧ x ≠ 0 ∧ j.rel (.fin (1 / x)) := by
  cases i with
  | top => cases hj
  | mk a b =>
    obtain ⟨x, rfl, h1, h2⟩ := h
    have hS := one_pos
    unfold recip at hj
    dsimp only at hj
    split_ifs at hj with hp hn
    · cases hj
      have ha : (0 : ℝ) < (a : ℝ) := by exact_mod_cast hp
      have hx : 0 < x * one := by linarith
      have hb : (0 : ℝ) < b := by linarith
      have hx' : 0 < x := pos_of_mul_pos_left hx hS.le
      have e : 1 / x * one = one * one / (x * one) := by field_simp
      refine ⟨x, rfl, hx'.ne', _, rfl, ?_, ?_⟩
      · rw [e]
        refine (fdiv_le (by exact_mod_cast hb)).trans ?_
        push_cast
        gcongr
      · rw [e]
        refine le_trans ?_ (le_cdiv hp)
        push_cast
        gcongr
    · cases hj
      have hb : (b : ℝ) < 0 := by exact_mod_cast hn
      have hx : x * one < 0 := by linarith
      have ha : (a : ℝ) < 0 := by linarith
      have hx' : x < 0 := neg_of_mul_neg_left hx hS.le
      have hn' : 0 < -b := by omega
      have ha' : 0 < -a := by have : a < 0 := by exact_mod_cast ha
                              omega
      have e : 1 / x * one = -(one * one / -(x * one)) := by field_simp
      have p1 : (0 : ℝ) < -(b : ℝ) := by linarith
      have p2 : (0 : ℝ) < -(x * one) := by linarith
      refine ⟨x, rfl, hx'.ne, _, rfl, ?_, ?_⟩
      · rw [e]
        push_cast
        rw [neg_le_neg_iff]
        refine le_trans ?_ (le_cdiv hn')
        push_cast
        gcongr
      · rw [e]
        push_cast
        rw [neg_le_neg_iff]
        refine (fdiv_le ha').trans ?_
        push_cast
        gcongr

theorem unmodelled {β β' : Type} {R : β → β' → Prop} (e : PyErr) (m : Py β') : RelM False R (.error e) m := fun h => h.elim

theorem div_rel {i j : Iv} {v w : V} (h : i.rel v) (h' : j.rel w) :
    RelM False rel (div i j) ((mathB tp).div v w) := by
  unfold div
  cases hr : recip j with
  | none => exact unmodelled _ _
  | some k =>
    obtain ⟨y, rfl, hy, hk⟩ := recip_rel h' hr
    have e : (mathB tp).div v (.fin y) = .ok (V.divNZ v (.fin y)) := by
      exact if_neg hy
    rw [e]
    show (mul i k).rel _
    have key := mul_rel h hk
    cases i with
    | top => exact trivial
    | mk a b =>
      obtain ⟨x, rfl, -, -⟩ := h
      have e2 : V.divNZ (.fin x) (.fin y) = V.mul (.fin x) (.fin (1 / y)) := by
        show V.fin (x / y) = V.fin (x * (1 / y))
        rw [mul_one_div]
      rw [e2]
      exact key

/-! ## Trigonometric functions -/

theorem cos_rel {i : Iv} {v : V} (h : i.rel v) : RelM False rel (cos i) ((mathB tp).cos v) := by
  unfold cos
  cases ht : trig i with
  | none => exact unmodelled _ _
  | some p => obtain ⟨x, rfl, hc, -⟩ := trig_ok ht h; exact hc

theorem sin_rel {i : Iv} {v : V} (h : i.rel v) : RelM False rel (sin i) ((mathB tp).sin v) := by
  unfold sin
  cases ht : trig i with
  | none => exact unmodelled _ _
  | some p => obtain ⟨x, rfl, -, hs⟩ := trig_ok ht h; exact hs

theorem tan_rel {i : Iv} {v : V} (h : i.rel v) : RelM False rel (tan i) ((mathB tp).tan v) := by
  unfold tan
  cases ht : trig i with
  | none => exact unmodelled _ _
  | some p =>
    obtain ⟨x, rfl, hc, hs⟩ := trig_ok ht h
    dsimp only
    unfold div
    cases hr : recip p.1 with
    | none => exact unmodelled _ _
    | some k =>
      obtain ⟨y, hy, hy0, hk⟩ := recip_rel hc hr
      obtain rfl : Real.cos x = y := by cases hy; rfl
      have e : (mathB tp).tan (.fin x) = .ok (V.mul (.fin (Real.sin x)) (.fin (1 / Real.cos x))) := by
        show Except.ok (V.fin (if Real.cos x = 0 then tp else Real.tan x)) = _
        rw [if_neg hy0, Real.tan_eq_sin_div_cos]
        show _ = Except.ok (V.fin (Real.sin x * (1 / Real.cos x)))
        rw [mul_one_div]
      rw [e]
      exact mul_rel hs hk

theorem asinLo_ok {a y : ℤ} (h : asinLo a = some y) {x : ℝ} (hx : (a : ℝ) ≤ x * one) :
    -1 ≤ x ∧ (y : ℝ) ≤ Real.arcsin x * one := by
  unfold asinLo at h
  dsimp only at h
  generalize asinGuess a 8 - 16384 = g at h
  have hS := one_pos
  have hg : (mk g g).rel (.fin ((g : ℝ) / one)) := ⟨_, rfl, by field_simp; rfl, by field_simp; rfl⟩
  cases ht : trig (mk g g) with
  | none => rw [ht] at h; cases h
  | some p =>
    obtain ⟨c, s⟩ := p
    obtain ⟨z, hz, -, hs⟩ := trig_ok ht hg
    obtain rfl : (g : ℝ) / one = z := by cases hz; rfl
    rw [ht] at h
    cases s with
    | top => cases h
    | mk s1 s2 =>
      dsimp only at h
      split_ifs at h with hc
      obtain rfl : g = y := Option.some.inj h
      obtain ⟨k1, k2, k3⟩ := hc
      obtain ⟨w, hw, -, hs2⟩ := hs
      obtain rfl : Real.sin ((g : ℝ) / one) = w := by cases hw; rfl
      have k1' : (s2 : ℝ) ≤ a := by exact_mod_cast k1
      have k2' : -(2 * (g : ℝ)) < piZ := by exact_mod_cast k2
      have k3' : 2 * (g : ℝ) ≤ piZ := by exact_mod_cast k3
      have hpi := pi_bounds.1
      have hsx : Real.sin ((g : ℝ) / one) ≤ x := le_of_mul_le_mul_right (by linarith) hS
      refine ⟨(Real.neg_one_le_sin _).trans hsx, ?_⟩
      rw [← div_le_iff₀ hS]
      refine (Real.le_arcsin_iff_sin_le' ⟨?_, ?_⟩).2 hsx
      · rw [lt_div_iff₀ hS]; linarith
      · rw [div_le_iff₀ hS]; linarith

theorem asin_ok {i j : Iv} {v : V} (h : i.rel v) (hj : asin i = .ok j) :
    ∃ x, v = .fin x ∧ -1 ≤ x ∧ x ≤ 1 ∧ j.rel (.fin (Real.arcsin x)) := by
  cases i with
  | top => cases hj
  | mk a b =>
    obtain ⟨x, rfl, h1, h2⟩ := h
    unfold asin at hj
    dsimp only at hj
    cases ha : asinLo a with
    | none => rw [ha] at hj; cases hj
    | some y =>
      cases hb : asinLo (-b) with
      | none => rw [ha, hb] at hj; cases hj
      | some z =>
        rw [ha, hb] at hj
        cases hj
        obtain ⟨l1, l2⟩ := asinLo_ok ha h1
        obtain ⟨m1, m2⟩ := asinLo_ok hb (x := -x) (by push_cast; linarith)
        rw [Real.arcsin_neg] at m2
        refine ⟨x, rfl, l1, by linarith, _, rfl, l2, ?_⟩
        push_cast
        linarith

theorem asin_rel {i : Iv} {v : V} (h : i.rel v) : RelM False rel (asin i) ((mathB tp).asin v) := by
  cases hj : asin i with
  | error e => exact unmodelled _ _
  | ok j =>
    obtain ⟨x, rfl, l1, l2, hr⟩ := asin_ok h hj
    have e : (mathB tp).asin (.fin x) = .ok (.fin (Real.arcsin x)) := if_pos ⟨l1, l2⟩
    rw [e]
    exact hr

theorem acos_rel {i : Iv} {v : V} (h : i.rel v) : RelM False rel (acos i) ((mathB tp).acos v) := by
  unfold acos
  cases hj : asin i with
  | error e => exact unmodelled _ _
  | ok j =>
    obtain ⟨x, rfl, l1, l2, hr⟩ := asin_ok h hj
    have e : (mathB tp).acos (.fin x) = .ok (.fin (Real.arccos x)) := if_pos ⟨l1, l2⟩
    rw [e]
    have key := sub_rel (divq_rel 2 pi_rel) hr
    have e2 : V.sub (V.divq (.fin Real.pi) 2) (.fin (Real.arcsin x)) = .fin (Real.arccos x) := by
      show V.fin (Real.pi / ((2 : ℚ) : ℝ) - Real.arcsin x) = _
      rw [Real.arccos]
      norm_num
    rw [e2] at key
    exact key

/-- A vector turned back by an angle `g` near its own direction. -/
theorem arg_turn {x y g t : ℝ} (hu : 0 < x * Real.cos g + y * Real.sin g)
    (ht : |y * Real.cos g - x * Real.sin g| ≤ t * (x * Real.cos g + y * Real.sin g))
    (h1 : -Real.pi < g - t) (h2 : g + t < Real.pi) :
    g - t ≤ Complex.arg ⟨x, y⟩ ∧ Complex.arg ⟨x, y⟩ ≤ g + t := by
  set u := x * Real.cos g + y * Real.sin g with hud
  set w := y * Real.cos g - x * Real.sin g with hwd
  set δ := Real.arctan (w / u) with hδ
  have hw : |w / u| ≤ t := by rw [abs_div, abs_of_pos hu, div_le_iff₀ hu]; exact ht
  have hd : |δ| ≤ t := (abs_arctan_le _).trans hw
  have hd' := abs_le.1 hd
  have hs := Real.sin_arctan (w / u)
  have hc := Real.cos_arctan (w / u)
  have hR : 0 < √(1 + (w / u) ^ 2) := by positivity
  have hpy := Real.sin_sq_add_cos_sq g
  have e : (⟨x, y⟩ : ℂ) = ((u * √(1 + (w / u) ^ 2) : ℝ) : ℂ)
      * (Complex.cos ((g + δ : ℝ) : ℂ) + Complex.sin ((g + δ : ℝ) : ℂ) * Complex.I) := by
    rw [← Complex.ofReal_cos, ← Complex.ofReal_sin]
    apply Complex.ext
    · simp only [Complex.mul_re, Complex.ofReal_re, Complex.ofReal_im, Complex.add_re, Complex.I_re, Complex.I_im,
        Complex.add_im, Complex.mul_im, zero_mul, mul_zero, mul_one, sub_zero, add_zero]
      rw [Real.cos_add, hδ, hs, hc]
      field_simp
      rw [hud, hwd]
      linear_combination -x * hpy
    · simp only [Complex.mul_re, Complex.ofReal_re, Complex.ofReal_im, Complex.add_re, Complex.I_re, Complex.I_im,
        Complex.add_im, Complex.mul_im, zero_mul, mul_zero, mul_one, sub_zero, add_zero, zero_add]
      rw [Real.sin_add, hδ, hs, hc]
      field_simp
      rw [hud, hwd]
      linear_combination -y * hpy
  rw [e, Complex.arg_mul_cos_add_sin_mul_I (by positivity) ⟨by linarith [hd'.1], by linarith [hd'.2]⟩]
  constructor <;> linarith [hd'.1, hd'.2]

theorem atan2_ok {i j k : Iv} {v w : V} (h : i.rel v) (h' : j.rel w) (hk : atan2 i j = .ok k) :
    ∃ x y, v = .fin y ∧ w = .fin x ∧ k.rel (.fin (Complex.arg ⟨x, y⟩)) := by
  cases i with
  | top => cases hk
  | mk c d =>
    cases j with
    | top => cases hk
    | mk a b =>
      have hi := h
      have hj := h'
      obtain ⟨y, rfl, h1, h2⟩ := h
      obtain ⟨x, rfl, h3, h4⟩ := h'
      refine ⟨x, y, rfl, rfl, ?_⟩
      unfold atan2 at hk
      dsimp only at hk
      generalize argGuess ((c + d) / 2) ((a + b) / 2) 4 = g at hk
      have hS := one_pos
      have hg : (mk g g).rel (.fin ((g : ℝ) / one)) := ⟨_, rfl, by field_simp; rfl, by field_simp; rfl⟩
      cases ht : trig (mk g g) with
      | none => rw [ht] at hk; cases hk
      | some pq =>
        obtain ⟨p, q⟩ := pq
        obtain ⟨z, hz, hp, hq⟩ := trig_ok ht hg
        obtain rfl : (g : ℝ) / one = z := by cases hz; rfl
        rw [ht] at hk
        dsimp only at hk
        have hu := add_rel (mul_rel hj hp) (mul_rel hi hq)
        have hw := sub_rel (mul_rel hi hp) (mul_rel hj hq)
        cases hU : add (mul (mk a b) p) (mul (mk c d) q) with
        | top => rw [hU] at hk; cases hk
        | mk u u' =>
          cases hW : sub (mul (mk c d) p) (mul (mk a b) q) with
          | top => rw [hU, hW] at hk; cases hk
          | mk vv ww =>
            rw [hU, hW] at hk
            rw [hU] at hu
            rw [hW] at hw
            dsimp only at hk
            split_ifs at hk with hc
            cases hk
            obtain ⟨c1, c2, c3, c4⟩ := hc
            set t := cdiv (max (-vv) ww * one) u with htd
            obtain ⟨U, eU, u1, u2⟩ := hu
            obtain ⟨W, eW, w1, w2⟩ := hw
            have eU' : x * Real.cos (g / one) + y * Real.sin (g / one) = U := by cases eU; rfl
            have eW' : y * Real.cos (g / one) - x * Real.sin (g / one) = W := by cases eW; rfl
            have c1' : (0 : ℝ) < u := by exact_mod_cast c1
            have hUpos : 0 < U := pos_of_mul_pos_left (lt_of_lt_of_le c1' u1) hS.le
            have htge : ((max (-vv) ww * one : ℤ) : ℝ) / u ≤ t := le_cdiv c1
            have c2' : (0 : ℝ) ≤ t := by exact_mod_cast c2
            have c3' : -(piZ : ℝ) < g - t := by exact_mod_cast c3
            have c4' : (g : ℝ) + t < piZ := by exact_mod_cast c4
            have hpi := pi_bounds.1
            have hM : |W| * one ≤ ((max (-vv) ww : ℤ) : ℝ) := by
              have e1 : ((-vv : ℤ) : ℝ) ≤ ((max (-vv) ww : ℤ) : ℝ) := by exact_mod_cast le_max_left _ _
              have e2 : ((ww : ℤ) : ℝ) ≤ ((max (-vv) ww : ℤ) : ℝ) := by exact_mod_cast le_max_right _ _
              rw [Int.cast_neg] at e1
              rcases abs_choice W with h | h <;> rw [h] <;> linarith
            have hWt : |W| ≤ t / one * U := by
              rw [div_le_iff₀ c1'] at htge
              rw [Int.cast_mul] at htge
              have s1 : |W| * one * one ≤ t * u := (mul_le_mul_of_nonneg_right hM hS.le).trans htge
              have s2 : (t : ℝ) * u ≤ t * (U * one) := mul_le_mul_of_nonneg_left u1 c2'
              have s3 : |W| * one ≤ t * U := by
                refine le_of_mul_le_mul_right ?_ hS
                linarith
              rw [div_mul_eq_mul_div, le_div_iff₀ hS]
              exact s3
            have key := arg_turn (x := x) (y := y) (g := g / one) (t := t / one) (by rw [eU']; exact hUpos)
              (by rw [eU', eW']; exact hWt)
              (by rw [← sub_div, lt_div_iff₀ hS]; linarith) (by rw [← add_div, div_lt_iff₀ hS]; linarith)
            rw [← sub_div, ← add_div, div_le_iff₀ hS, le_div_iff₀ hS] at key
            exact ⟨_, rfl, by push_cast; exact key.1, by push_cast; exact key.2⟩

theorem atan2_rel {i j : Iv} {v w : V} (h : i.rel v) (h' : j.rel w) :
    RelM False rel (atan2 i j) ((mathB tp).atan2 v w) := by
  cases hk : atan2 i j with
  | error e => exact unmodelled _ _
  | ok k =>
    obtain ⟨x, y, rfl, rfl, hr⟩ := atan2_ok h h' hk
    exact hr

theorem arg_one (y : ℝ) : Complex.arg ⟨1, y⟩ = Real.arctan y := by
  have hs := Real.sin_arctan y
  have hc := Real.cos_arctan y
  have hR : 0 < √(1 + y ^ 2) := by positivity
  have e : (⟨1, y⟩ : ℂ) = ((√(1 + y ^ 2) : ℝ) : ℂ)
      * (Complex.cos ((Real.arctan y : ℝ) : ℂ) + Complex.sin ((Real.arctan y : ℝ) : ℂ) * Complex.I) := by
    rw [← Complex.ofReal_cos, ← Complex.ofReal_sin, hs, hc]
    apply Complex.ext
    · simp only [Complex.mul_re, Complex.ofReal_re, Complex.ofReal_im, Complex.add_re, Complex.I_re, Complex.I_im,
        Complex.add_im, Complex.mul_im, zero_mul, mul_zero, mul_one, sub_zero, add_zero]
      field_simp
    · simp only [Complex.mul_re, Complex.ofReal_re, Complex.ofReal_im, Complex.add_re, Complex.I_re, Complex.I_im,
        Complex.add_im, Complex.mul_im, zero_mul, mul_zero, mul_one, sub_zero, add_zero, zero_add]
      field_simp
  have := Real.neg_pi_div_two_lt_arctan y
  have := Real.arctan_lt_pi_div_two y
  have := Real.pi_pos
  rw [e, Complex.arg_mul_cos_add_sin_mul_I hR ⟨by linarith, by linarith⟩]

theorem atan_rel {i : Iv} {v : V} (h : i.rel v) : RelM False rel (atan i) ((mathB tp).atan v) := by
  unfold atan
  cases hk : atan2 i (mk one one) with
  | error e => exact unmodelled _ _
  | ok k =>
    have h1 : (mk one one).rel (.fin 1) := ⟨1, rfl, by linarith, by linarith⟩
    obtain ⟨x, y, rfl, hx, hr⟩ := atan2_ok h h1 hk
    obtain rfl : (1 : ℝ) = x := by cases hx; rfl
    rw [arg_one] at hr
    exact hr

theorem invPi_rel : invPi.rel (.fin (1 / Real.pi)) := by
  have hr : recip pi = some invPi := by decide +kernel
  obtain ⟨x, hx, -, h⟩ := recip_rel pi_rel hr
  obtain rfl : Real.pi = x := by cases hx; rfl
  exact h

theorem radians_rel {i : Iv} {v : V} (h : i.rel v) : (radians i).rel (V.radians v) := by
  have key := divq_rel 180 (mul_rel h pi_rel)
  cases i with
  | top => exact trivial
  | mk a b =>
    obtain ⟨x, rfl, -, -⟩ := h
    have e : V.radians (.fin x) = V.divq (V.mul (.fin x) (.fin Real.pi)) 180 := by
      show V.fin (x * Real.pi / 180) = V.fin (x * Real.pi / ((180 : ℚ) : ℝ))
      norm_num
    rw [e]
    exact key

theorem degrees_rel {i : Iv} {v : V} (h : i.rel v) : (degrees i).rel (V.degrees v) := by
  have key := mul_rel (mul_rel h (lit_rel 0 180)) invPi_rel
  cases i with
  | top => exact trivial
  | mk a b =>
    obtain ⟨x, rfl, -, -⟩ := h
    have e : V.degrees (.fin x) = V.mul (V.mul (.fin x) ((mathB 0).lit 180)) (.fin (1 / Real.pi)) := by
      show V.fin (x * 180 / Real.pi) = V.fin (x * ((180 : ℚ) : ℝ) * (1 / Real.pi))
      norm_num
      ring
    rw [e]
    exact key

/-! ## Comparisons -/

/-- A known comparison holds. -/
def relC (c : Option Bool) (p : Bool) : Prop := ∀ b, c = some b → p = b

theorem lt_rel {i j : Iv} {v w : V} (h : i.rel v) (h' : j.rel w) : relC (lt i j) (V.lt v w) := by
  cases i with
  | top => intro t ht; cases ht
  | mk a b =>
    cases j with
    | top => intro t ht; cases ht
    | mk c d =>
      obtain ⟨x, rfl, h1, h2⟩ := h
      obtain ⟨y, rfl, h3, h4⟩ := h'
      have hS := one_pos
      intro t ht
      show decide (x < y) = t
      unfold lt at ht
      dsimp only at ht
      split_ifs at ht with hc hc2
      · cases ht
        have hc' : (b : ℝ) < c := by exact_mod_cast hc
        exact decide_eq_true (lt_of_mul_lt_mul_right (by linarith : x * one < y * one) hS.le)
      · cases ht
        have hc' : (d : ℝ) ≤ a := by exact_mod_cast hc2
        exact decide_eq_false (not_lt.2 (le_of_mul_le_mul_right (by linarith : y * one ≤ x * one) hS))

theorem le_rel {i j : Iv} {v w : V} (h : i.rel v) (h' : j.rel w) : relC (le i j) (V.le v w) := by
  cases i with
  | top => intro t ht; cases ht
  | mk a b =>
    cases j with
    | top => intro t ht; cases ht
    | mk c d =>
      obtain ⟨x, rfl, h1, h2⟩ := h
      obtain ⟨y, rfl, h3, h4⟩ := h'
      have hS := one_pos
      intro t ht
      show decide (x ≤ y) = t
      unfold le at ht
      dsimp only at ht
      split_ifs at ht with hc hc2
      · cases ht
        have hc' : (b : ℝ) ≤ c := by exact_mod_cast hc
        exact decide_eq_true (le_of_mul_le_mul_right (by linarith : x * one ≤ y * one) hS)
      · cases ht
        have hc' : (d : ℝ) < a := by exact_mod_cast hc2
        exact decide_eq_false (not_le.2 (lt_of_mul_lt_mul_right (by linarith : y * one < x * one) hS.le))

/-! ## Exponential and powers -/

theorem horE_err {x : ℤ} (hx : |(x : ℝ)| ≤ 4 * one) (m k : ℕ) (hk : 0 < k) :
    ‖((horE x m k : ℝ) : ℂ) - one * ser ((x / one : ℝ)) m k‖ ≤ horErr m k := by
  induction m generalizing k with
  | zero => simp [horE, ser, horErr]
  | succ m ih =>
    have h := ih (k + 1) k.succ_pos
    set p := horE x m (k + 1) with hp
    have hS := one_pos
    have hSi := one_posZ
    have hk' : (0 : ℝ) < (k : ℝ) := by exact_mod_cast hk
    have hb : (0 : ℤ) < k * one := by positivity
    have d := fp_div (x * p) hb
    have e : ((horE x (m + 1) k : ℝ) : ℂ) - one * ser ((x / one : ℝ)) (m + 1) k
        = (((((x * p / (k * one) : ℤ) : ℝ) - ((x * p : ℤ) : ℝ) / ((k * one : ℤ) : ℝ) : ℝ)) : ℂ)
          + ((x / one : ℝ) : ℂ) / k * (((p : ℝ) : ℂ) - one * ser ((x / one : ℝ)) m (k + 1)) := by
      have hc1 : (one : ℂ) ≠ 0 := by exact_mod_cast hS.ne'
      have hc2 : (k : ℂ) ≠ 0 := by exact_mod_cast hk'.ne'
      simp only [horE, ser, ← hp]
      push_cast
      field_simp
      ring
    rw [e]
    refine (norm_add_le _ _).trans ?_
    have n1 : ‖(((((x * p / (k * one) : ℤ) : ℝ) - ((x * p : ℤ) : ℝ) / ((k * one : ℤ) : ℝ) : ℝ)) : ℂ)‖ ≤ 1 := by
      rw [Complex.norm_real, Real.norm_eq_abs]
      exact d
    have n2 : ‖((x / one : ℝ) : ℂ) / k * (((p : ℝ) : ℂ) - one * ser ((x / one : ℝ)) m (k + 1))‖
        ≤ 4 / k * horErr m (k + 1) := by
      rw [norm_mul, norm_div, Complex.norm_real, Real.norm_eq_abs, Complex.norm_natCast, abs_div, abs_of_pos hS]
      have : |(x : ℝ)| / one ≤ 4 := by rw [div_le_iff₀ hS]; exact hx
      gcongr
    rw [horErr]
    push_cast at n1 n2 ⊢
    linarith

theorem expPt_ok {x u : ℤ} (h : expPt x = some u) : |Real.exp (x / one) * one - u| ≤ 128 := by
  unfold expPt at h
  split_ifs at h with hb
  cases h
  have hx : |(x : ℝ)| ≤ 4 * one := by
    have h1 : (-(4 * one) : ℝ) ≤ x := by exact_mod_cast hb.1
    have h2 : (x : ℝ) ≤ 4 * one := by exact_mod_cast hb.2
    exact abs_le.2 ⟨h1, h2⟩
  have hS := one_pos
  set y : ℝ := x / one with hy
  have hy4 : |y| ≤ 4 := by rw [hy, abs_div, abs_of_pos hS, div_le_iff₀ hS]; exact hx
  have h1 := horE_err hx 36 1 Nat.one_pos
  rw [← hy] at h1
  have h2 : ser (y : ℂ) 36 1 = ∑ i ∈ Finset.range 37, (y : ℂ) ^ i / (i.factorial : ℂ) := by
    have := ser_sum (y : ℂ) 36 0
    simpa using this
  have hn : ‖(y : ℂ)‖ = |y| := by rw [Complex.norm_real, Real.norm_eq_abs]
  have h3 := Complex.exp_bound' (x := (y : ℂ)) (n := 37) (by rw [hn]; norm_num; linarith)
  rw [← h2, hn] at h3
  have h4 : |y| ^ 37 / (Nat.factorial 37 : ℕ) * 2 * one ≤ 1 := by
    have : |y| ^ 37 ≤ 4 ^ 37 := by gcongr
    have hf : ((Nat.factorial 37 : ℕ) : ℝ) = 13763753091226345046315979581580902400000000 := by norm_num [Nat.factorial]
    rw [hf]
    norm_num [one] at *
    linarith
  have hE : horErr 36 1 ≤ 126 := by norm_num [horErr]
  have hE' : (horErr 36 1 : ℝ) ≤ 126 := by exact_mod_cast hE
  have e : ((Real.exp y * one - horE x 36 1 : ℝ) : ℂ)
      = (Complex.exp (y : ℂ) - ser (y : ℂ) 36 1) * one
        - (((horE x 36 1 : ℝ) : ℂ) - one * ser (y : ℂ) 36 1) := by
    push_cast
    ring
  rw [← Real.norm_eq_abs, ← Complex.norm_real, e]
  refine (norm_sub_le _ _).trans ?_
  rw [norm_mul]
  have ho : ‖(one : ℂ)‖ = one := by norm_num [one]
  rw [ho]
  have := mul_le_mul_of_nonneg_right h3 hS.le
  linarith

theorem expPt_le {x u : ℤ} (h : expPt x = some u) : x ≤ 4 * one := by
  unfold expPt at h
  split_ifs at h with hb
  exact hb.2

theorem exp_rel {i : Iv} {v : V} (h : i.rel v) : RelM False rel (exp i) ((mathB tp).exp v) := by
  cases i with
  | top => exact unmodelled _ _
  | mk a b =>
    cases hu : expPt a with
    | none =>
      have he : exp (mk a b) = .error .unmodelled := by simp [exp, hu]
      rw [he]
      exact unmodelled _ _
    | some u =>
      cases hw : expPt b with
      | none =>
        have he : exp (mk a b) = .error .unmodelled := by simp [exp, hw]
        rw [he]
        exact unmodelled _ _
      | some w =>
        have he : exp (mk a b) = .ok (mk (u - 128) (w + 128)) := by simp [exp, hu, hw]
        rw [he]
        obtain ⟨x, rfl, h1, h2⟩ := h
        have hS := one_pos
        have k1 := abs_le.1 (expPt_ok hu)
        have k2 := abs_le.1 (expPt_ok hw)
        have m1 : Real.exp (a / one) ≤ Real.exp x := Real.exp_le_exp.2 ((div_le_iff₀ hS).2 h1)
        have m2 : Real.exp x ≤ Real.exp (b / one) := Real.exp_le_exp.2 ((le_div_iff₀ hS).2 h2)
        have hb : (b : ℝ) ≤ 4 * one := by exact_mod_cast expPt_le hw
        have hx : x ≤ 4 := le_of_mul_le_mul_right (by linarith) hS
        have hlt : ¬ (2 : ℝ) ^ 1024 ≤ Real.exp x := by
          have e1 : Real.exp x ≤ Real.exp 1 ^ 4 := by
            rw [← Real.exp_nat_mul]
            exact Real.exp_le_exp.2 (by push_cast; linarith)
          have e2 : Real.exp 1 ≤ 4 := by linarith [Real.exp_one_lt_d9]
          have e3 : Real.exp 1 ^ 4 ≤ 4 ^ 4 := by gcongr
          have e4 : (2 : ℝ) ^ 9 ≤ 2 ^ 1024 := pow_le_pow_right₀ (by norm_num) (by norm_num)
          have e5 : Real.exp x ≤ 256 := (e1.trans e3).trans (by norm_num)
          exact fun hc => absurd ((e4.trans hc).trans e5) (by norm_num)
        have hv : (mathB tp).exp (.fin x) = .ok (.fin (Real.exp x)) := if_neg hlt
        rw [hv]
        refine ⟨Real.exp x, rfl, ?_, ?_⟩
        · push_cast
          have := mul_le_mul_of_nonneg_right m1 hS.le
          linarith
        · push_cast
          have := mul_le_mul_of_nonneg_right m2 hS.le
          linarith

theorem log_rel {i j : Iv} {v : V} (h : i.rel v) (hj : log i = some j) :
    ∃ x : ℝ, v = .fin x ∧ 0 < x ∧ j.rel (.fin (Real.log x)) := by
  cases i with
  | top => cases hj
  | mk a b =>
    obtain ⟨x, rfl, h1, h2⟩ := h
    have hS := one_pos
    unfold log at hj
    dsimp only at hj
    split_ifs at hj with ha
    cases hu : expPt (logGuess a 8 - 4096) with
    | none => rw [hu] at hj; cases hj
    | some u =>
      cases hw : expPt (logGuess b 8 + 4096) with
      | none => rw [hu, hw] at hj; cases hj
      | some w =>
        rw [hu, hw] at hj
        dsimp only at hj
        split_ifs at hj with hc
        cases hj
        have ha' : (0 : ℝ) < a := by exact_mod_cast ha
        have hx : 0 < x := by
          by_contra hn
          have := mul_nonneg_of_nonpos_of_nonpos (not_lt.1 hn) (neg_nonpos.2 hS.le)
          linarith
        have c1 : (u : ℝ) + 128 ≤ a := by exact_mod_cast hc.1
        have c2 : (b : ℝ) ≤ w - 128 := by exact_mod_cast hc.2
        have k1 := abs_le.1 (expPt_ok hu)
        have k2 := abs_le.1 (expPt_ok hw)
        refine ⟨x, rfl, hx, Real.log x, rfl, ?_, ?_⟩
        · rw [← div_le_iff₀ hS, Real.le_log_iff_exp_le hx]
          exact le_of_mul_le_mul_right (by linarith) hS
        · rw [← le_div_iff₀ hS, Real.log_le_iff_le_exp hx]
          exact le_of_mul_le_mul_right (by linarith) hS

theorem rpow_rel {i j : Iv} {v w : V} (h : i.rel v) (h' : j.rel w) :
    RelM False rel (rpow i j) ((mathB tp).rpow v w) := by
  unfold rpow
  cases hl : log i with
  | none => exact unmodelled _ _
  | some l =>
    obtain ⟨x, rfl, hx, hr⟩ := log_rel h hl
    have hm := mul_rel h' hr
    have he := exp_rel tp hm
    dsimp only
    cases hz : mul j l with
    | top => exact unmodelled _ _
    | mk a b =>
      cases j with
      | top => cases hz
      | mk c d =>
        obtain ⟨y, rfl, -, -⟩ := h'
        rw [hz] at hm he
        cases hq : exp (mk a b) with
        | error e => exact unmodelled _ _
        | ok q =>
          rw [hq] at he
          obtain ⟨r, hr1, hr2⟩ := he.of_ok rfl
          have hv : (mathB tp).rpow (.fin x) (.fin y) = .ok (.fin (x ^ y)) := if_pos hx
          have hr' : r = .fin (Real.exp (y * Real.log x)) := by
            change (if (2 : ℝ) ^ 1024 ≤ Real.exp (y * Real.log x) then (Except.error PyErr.overflow : Py V)
              else .ok (.fin (Real.exp (y * Real.log x)))) = .ok r at hr1
            split_ifs at hr1
            exact (Except.ok.inj hr1).symm
          rw [hv, Real.rpow_def_of_pos hx, mul_comm (Real.log x) y]
          rw [hr'] at hr2
          exact hr2

theorem div_ne (i j : Iv) : div i j ≠ .error .zeroDivision := by
  unfold div
  cases recip j <;> intro h <;> cases h

end Iv

open Iv in
/-- Running a model function on intervals encloses its exact result. -/
def ivSim (tp : ℝ) : ScalarSim ivB (mathB tp) where
  strict := False
  r := Iv.rel
  rC := relC
  rW := fun w w' => ∃ d, w = .dt d ∧ w' = .dt d
  lit := lit_rel tp
  pi := pi_rel
  e := trivial
  inf := trivial
  add := add_rel
  sub := sub_rel
  mul := mul_rel
  neg := neg_rel
  divq := divq_rel
  modq := modq_rel
  powN := powN_rel
  div := div_rel tp
  sin := sin_rel tp
  cos := cos_rel tp
  tan := tan_rel tp
  asin := asin_rel tp
  acos := acos_rel tp
  atan := atan_rel tp
  atan2 := atan2_rel tp
  exp := exp_rel tp
  radians := radians_rel
  degrees := degrees_rel
  lt := lt_rel
  le := le_rel
  where_ := by
    intro c c' x x' y y' hc hx hy
    match c, hc with
    | some true, hc => rw [hc true rfl]; exact hx
    | some false, hc => rw [hc false rfl]; exact hy
    | none, _ => exact trivial
  ofC := by
    intro c c' hc
    match c, hc with
    | some true, hc => rw [hc true rfl]; exact ⟨1, rfl, by linarith, by linarith⟩
    | some false, hc => rw [hc false rfl]; exact ⟨0, rfl, by norm_num, by norm_num⟩
    | none, _ => exact trivial
  recip_zero := by
    intro x x' _ h
    exact absurd h (div_ne _ x)
  sin_zero := by
    intro x h
    change Iv.sin x = _ at h
    unfold Iv.sin at h
    split at h <;> cases h
  guard := by
    rintro _ _ ⟨d, rfl, rfl⟩
    exact RelM.mono (R := Eq) RelM.refl fun _ _ _ => trivial
  utctimetuple := by rintro _ _ ⟨d, rfl, rfl⟩; exact RelM.refl
  timestamp := by rintro _ _ ⟨d, rfl, rfl⟩; exact RelM.refl
  tm_yday := by
    rintro _ _ ⟨d, rfl, rfl⟩
    exact RelM.bind (R := Eq) RelM.refl (by rintro n _ rfl; exact lit_rel tp _)
  tm_hour := by
    rintro _ _ ⟨d, rfl, rfl⟩
    exact RelM.bind (R := Eq) RelM.refl (by rintro n _ rfl; exact lit_rel tp _)
  tm_min := by
    rintro _ _ ⟨d, rfl, rfl⟩
    exact RelM.bind (R := Eq) RelM.refl (by rintro n _ rfl; exact lit_rel tp _)
  rpow := rpow_rel tp
  truth := by
    intro c c' hc
    match c, hc with
    | some b, hc => rw [hc b rfl]; rfl
    | none, _ => exact unmodelled _ _
  tdHours := fun _ => unmodelled _ _
  round := fun _ => unmodelled _ _
  asDatetime := by rintro _ _ ⟨d, rfl, rfl⟩; exact RelM.refl
  rW_dt d := ⟨d, rfl, rfl⟩

/-- An outcome enclosed between two rationals. -/
def Iv.within (m : Py Iv) (lo hi : ℚ) : Bool :=
  match m with
  | .ok (.mk a b) => decide (lo * Iv.one ≤ a) && decide ((b : ℚ) ≤ hi * Iv.one)
  | _ => false

theorem Iv.within_ok {m : Py Iv} {m' : Py V} (h : RelM False Iv.rel m m') {lo hi : ℚ}
    (hw : Iv.within m lo hi = true) : ∃ x : ℝ, m' = .ok (.fin x) ∧ (lo : ℝ) ≤ x ∧ x ≤ hi := by
  cases m with
  | error e => cases hw
  | ok i =>
    cases i with
    | top => cases hw
    | mk a b =>
      obtain ⟨v, rfl, x, rfl, h1, h2⟩ := h.of_ok rfl
      have hw' : (lo * Iv.one ≤ a) ∧ ((b : ℚ) ≤ hi * Iv.one) := by simpa [Iv.within] using hw
      have hS := Iv.one_pos
      have w1 : (lo : ℝ) * Iv.one ≤ a := by exact_mod_cast hw'.1
      have w2 : (b : ℝ) ≤ hi * Iv.one := by exact_mod_cast hw'.2
      exact ⟨x, rfl, le_of_mul_le_mul_right (by linarith) hS, le_of_mul_le_mul_right (by linarith) hS⟩

/-! ## The position functions -/

section

variable (tp : ℝ) {latI lonI zI tI pI : ivB.α} {lat lon z t p : V} (d : DateTime) (k1 : Iv.rel latI lat)
  (k2 : Iv.rel lonI lon) (k3 : Iv.rel zI z)

include k1 k2 k3

theorem iv_position : RelM False (fun (i : Iv × Iv) (v : V × V) => i.1.rel v.1 ∧ i.2.rel v.2)
    (Pysolar.Solar.get_topocentric_position ivB latI lonI (.dt d) zI)
    (Pysolar.Solar.get_topocentric_position (mathB tp) lat lon (.dt d) z) := by
  have h1 : (ivSim tp).r latI lat := k1
  have h2 : (ivSim tp).r lonI lon := k2
  have h3 : (ivSim tp).r zI z := k3
  have hw : (ivSim tp).rW (.dt d) (.dt d) := ⟨d, rfl, rfl⟩
  have key := (ivSim tp).toSim.get_topocentric_position h1 h2 hw h3
  exact key

theorem iv_azimuth : RelM False Iv.rel (Pysolar.Solar.get_azimuth ivB latI lonI (.dt d) zI)
    (Pysolar.Solar.get_azimuth (mathB tp) lat lon (.dt d) z) := by
  have h1 : (ivSim tp).r latI lat := k1
  have h2 : (ivSim tp).r lonI lon := k2
  have h3 : (ivSim tp).r zI z := k3
  have hw : (ivSim tp).rW (.dt d) (.dt d) := ⟨d, rfl, rfl⟩
  have key := (ivSim tp).toSim.get_azimuth h1 h2 hw h3
  exact key

theorem iv_altitude (k4 : Iv.rel tI t) (k5 : Iv.rel pI p) :
    RelM False Iv.rel (Pysolar.Solar.get_altitude ivB latI lonI (.dt d) zI tI pI)
      (Pysolar.Solar.get_altitude (mathB tp) lat lon (.dt d) z t p) := by
  have h1 : (ivSim tp).r latI lat := k1
  have h2 : (ivSim tp).r lonI lon := k2
  have h3 : (ivSim tp).r zI z := k3
  have h4 : (ivSim tp).r tI t := k4
  have h5 : (ivSim tp).r pI p := k5
  have hw : (ivSim tp).rW (.dt d) (.dt d) := ⟨d, rfl, rfl⟩
  have key := (ivSim tp).toSim.get_altitude h1 h2 hw h3 h4 h5
  exact key

end

theorem iv_elevation (tp : ℝ) {latI : ivB.α} {lat : V} (k : Iv.rel latI lat) {m : Py (Iv × Iv)} {m' : Py (V × V)}
    (h : RelM False (fun (i : Iv × Iv) (v : V × V) => i.1.rel v.1 ∧ i.2.rel v.2) m m') :
    RelM False Iv.rel (m >>= fun p => Pysolar.Solar.get_topocentric_elevation_angle ivB latI p.1 p.2)
      (m' >>= fun p => Pysolar.Solar.get_topocentric_elevation_angle (mathB tp) lat p.1 p.2) := by
  refine RelM.bind h fun a b hab => ?_
  have h1 : (ivSim tp).r latI lat := k
  have h2 : (ivSim tp).r a.1 b.1 := hab.1
  have h3 : (ivSim tp).r a.2 b.2 := hab.2
  have key := (ivSim tp).toSim.get_topocentric_elevation_angle h1 h2 h3
  exact key

theorem iv_lit (q : ℚ) : Iv.rel (ivB.lit q) (.fin q) := Iv.lit_rel 0 q

theorem iv_lit0 : Iv.rel (ivB.lit 0) (.fin 0) := by
  have h := iv_lit 0
  rwa [Rat.cast_zero] at h

/-- An altitude at sea level and under standard conditions, from an evaluation on intervals. -/
theorem iv_altitude_within (tp : ℝ) {latI lonI : ivB.α} {lat lon : V} (d : DateTime) (k1 : Iv.rel latI lat)
    (k2 : Iv.rel lonI lon) {lo hi : ℚ} (h : Iv.within (Pysolar.Solar.get_altitude ivB latI lonI (.dt d) (ivB.lit 0)
      (ivB.lit Pysolar.Constants.standard_temperature) (ivB.lit Pysolar.Constants.standard_pressure)) lo hi = true) :
    ∃ x : ℝ, Pysolar.Solar.get_altitude (mathB tp) lat lon (.dt d) (.fin 0)
      ((mathB tp).lit Pysolar.Constants.standard_temperature) ((mathB tp).lit Pysolar.Constants.standard_pressure)
        = .ok (.fin x) ∧ (lo : ℝ) ≤ x ∧ x ≤ hi :=
  Iv.within_ok (iv_altitude tp d k1 k2 iv_lit0 (iv_lit _) (iv_lit _)) h

/-- The same for the elevation angle without refraction. -/
theorem iv_elevation_within (tp : ℝ) {latI lonI : ivB.α} {lat lon : V} (d : DateTime) (k1 : Iv.rel latI lat)
    (k2 : Iv.rel lonI lon) {lo hi : ℚ} (h : Iv.within (do
      let p ← Pysolar.Solar.get_topocentric_position ivB latI lonI (.dt d) (ivB.lit 0)
      Pysolar.Solar.get_topocentric_elevation_angle ivB latI p.1 p.2) lo hi = true) :
    ∃ x : ℝ, (do
      let p ← Pysolar.Solar.get_topocentric_position (mathB tp) lat lon (.dt d) (.fin 0)
      Pysolar.Solar.get_topocentric_elevation_angle (mathB tp) lat p.1 p.2) = .ok (.fin x) ∧ (lo : ℝ) ≤ x ∧ x ≤ hi :=
  Iv.within_ok (iv_elevation tp k1 (iv_position tp d k1 k2 iv_lit0)) h

end Verif
