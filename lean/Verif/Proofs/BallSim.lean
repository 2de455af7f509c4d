import Verif.Proofs.Ball

/-!
# The calculus of rounding errors is sound
-/

namespace Verif

open Pysolar Pysolar.Numeric

namespace Ball

variable (F : F64) (tp : ℝ)

theorem lit_rel (q : ℚ) : (lit q).rel ((fxB F tp).lit q) := by
  unfold lit
  split_ifs with h
  · refine ⟨F.rnd q, q, rfl, le_rfl, le_rfl, ?_⟩
    obtain ⟨h1, h2⟩ := h
    have h3 : q = (q.num : ℚ) := (Rat.den_eq_one_iff q).1 h1 |>.symm
    rw [h3] at h2 ⊢
    have h4 : |q.num| ≤ 2 ^ 53 := by exact_mod_cast h2
    have := F.rnd_int q.num h4
    simp [this]
  · refine ⟨F.rnd q, q, rfl, le_rfl, le_rfl, ?_⟩
    push_cast
    rw [tinyQ_cast]
    exact F.err q

theorem pi_rel : ballB.pi.rel (fxB F tp).pi := by
  have h1 := Real.pi_gt_d20
  have h2 := Real.pi_lt_d20
  refine ⟨F.rnd Real.pi, Real.pi, rfl, ?_, ?_, ?_⟩
  · push_cast; norm_num at h1 ⊢; linarith
  · push_cast; norm_num at h2 ⊢; linarith
  · have h := F.err Real.pi
    rw [abs_of_pos Real.pi_pos] at h
    have ht := tiny_le
    push_cast
    norm_num at h ht ⊢
    linarith

theorem e_rel : ballB.e.rel (fxB F tp).e := by
  have h1 := Real.exp_one_gt_d9
  have h2 := Real.exp_one_lt_d9
  refine ⟨F.rnd (Real.exp 1), Real.exp 1, rfl, ?_, ?_, ?_⟩
  · push_cast; norm_num at h1 ⊢; linarith
  · push_cast; norm_num at h2 ⊢; linarith
  · have h := F.err (Real.exp 1)
    rw [abs_of_pos (Real.exp_pos 1)] at h
    have ht := tiny_le
    push_cast
    norm_num at h ht ⊢
    linarith

theorem add_deg {a b : Ball} {p q : V × V} (h : a.rel p) (h' : b.rel q) :
    (match a.toDeg, b.toDeg with
      | some (m, e), some (m', e') => mkDeg (m + m') (e + e')
      | _, _ => top).rel ((fxB F tp).add p q) := by
  cases ha : a.toDeg with
  | none => exact trivial
  | some me =>
    obtain ⟨m, e⟩ := me
    cases hb : b.toDeg with
    | none => exact trivial
    | some me' =>
      obtain ⟨m', e'⟩ := me'
      obtain ⟨x, y, rfl, h1, k, h2⟩ := toDeg_rel h ha
      obtain ⟨x', y', rfl, h1', k', h2'⟩ := toDeg_rel h' hb
      refine mkDeg_rel F (z := x + x') (y := y + y') ?_ (k + k') ?_
      · push_cast
        exact (abs_add_le _ _).trans (add_le_add h1 h1')
      · push_cast
        calc |x + x' - (y + y') - 360 * ((k : ℝ) + k')| = |(x - y - 360 * k) + (x' - y' - 360 * k')| := by ring_nf
          _ ≤ _ := abs_add_le _ _
          _ ≤ _ := add_le_add h2 h2'

theorem add_rel {a b : Ball} {p q : V × V} (h : a.rel p) (h' : b.rel q) : (add a b).rel ((fxB F tp).add p q) := by
  by_cases hn : (∃ lo hi e, a = num lo hi e) ∧ ∃ lo hi e, b = num lo hi e
  · obtain ⟨⟨lo, hi, e, rfl⟩, lo', hi', e', rfl⟩ := hn
    obtain ⟨x, y, rfl, h1, h2, h3⟩ := h
    obtain ⟨x', y', rfl, h1', h2', h3'⟩ := h'
    refine mkNum_rel F (z := x + x') (y := y + y') ?_ ?_ ?_
    · push_cast; linarith
    · push_cast; linarith
    · push_cast
      calc |x + x' - (y + y')| = |(x - y) + (x' - y')| := by ring_nf
        _ ≤ _ := abs_add_le _ _
        _ ≤ _ := add_le_add h3 h3'
  · have := add_deg F tp h h'
    cases a <;> cases b <;> first | exact this | exact absurd ⟨⟨_, _, _, rfl⟩, _, _, _, rfl⟩ hn

theorem neg_rel {a : Ball} {p : V × V} (h : a.rel p) : (neg a).rel ((fxB F tp).neg p) := by
  cases a with
  | num lo hi e =>
    obtain ⟨x, y, rfl, h1, h2, h3⟩ := h
    refine ⟨-x, -y, rfl, ?_, ?_, ?_⟩
    · push_cast; linarith
    · push_cast; linarith
    · rw [show -x - -y = -(x - y) by ring, abs_neg]; exact h3
  | deg m e =>
    obtain ⟨x, y, rfl, h1, k, h3⟩ := h
    refine ⟨-x, -y, rfl, by rwa [abs_neg], -k, ?_⟩
    push_cast
    rw [show -x - -y - 360 * -(k : ℝ) = -(x - y - 360 * k) by ring, abs_neg]; exact h3
  | rad m e =>
    obtain ⟨x, y, rfl, h1, k, h3⟩ := h
    refine ⟨-x, -y, rfl, by rwa [abs_neg], -k, ?_⟩
    push_cast
    rw [show -x - -y - 2 * Real.pi * -(k : ℝ) = -(x - y - 2 * Real.pi * k) by ring, abs_neg]; exact h3
  | top => trivial

theorem sub_rel {a b : Ball} {p q : V × V} (h : a.rel p) (h' : b.rel q) : (sub a b).rel ((fxB F tp).sub p q) := by
  have h1 := add_rel F tp h (neg_rel F tp h')
  have h2 : (fxB F tp).sub p q = (fxB F tp).add p ((fxB F tp).neg q) := by
    obtain ⟨p1, p2⟩ := p
    obtain ⟨q1, q2⟩ := q
    refine Prod.ext ?_ ?_
    · show V.rnd F (V.sub p1 q1) = V.rnd F (V.add p1 (V.neg q1))
      cases p1 <;> cases q1 <;> rfl
    · show V.sub p2 q2 = V.add p2 (V.neg q2)
      cases p2 <;> cases q2 <;> rfl
  rw [h2]
  exact h1

theorem mul_rel {a b : Ball} {p q : V × V} (h : a.rel p) (h' : b.rel q) : (mul a b).rel ((fxB F tp).mul p q) := by
  by_cases hn : (∃ lo hi e, a = num lo hi e) ∧ ∃ lo hi e, b = num lo hi e
  · obtain ⟨⟨lo, hi, e, rfl⟩, lo', hi', e', rfl⟩ := hn
    obtain ⟨x, y, rfl, h1, h2, h3⟩ := h
    obtain ⟨x', y', rfl, h1', h2', h3'⟩ := h'
    obtain ⟨h4, h5⟩ := mul_mem' h1 h2 h1' h2'
    refine mkNum_rel F (z := x * x') (y := y * y') h4 h5 ?_
    push_cast
    exact mul_err h3 h3' (abs_le_of h1 h2 h3).1 (abs_le_of h1' h2' h3').1
  · cases a <;> cases b <;> first | exact trivial | exact absurd ⟨⟨_, _, _, rfl⟩, _, _, _, rfl⟩ hn

theorem divq_rel {a : Ball} {p : V × V} (q : ℚ) (h : a.rel p) : (divq a q).rel ((fxB F tp).divq p q) := by
  cases a with
  | num lo hi e =>
    obtain ⟨x, y, rfl, h1, h2, h3⟩ := h
    unfold divq
    dsimp only
    split_ifs with hq
    · have hq' : (1 : ℝ) / 2 ^ 50 ≤ |(q : ℝ)| := by
        have : ((1 / 2 ^ 50 : ℚ) : ℝ) ≤ ((|q| : ℚ) : ℝ) := by exact_mod_cast hq
        push_cast at this
        exact this
      obtain ⟨-, h6⟩ := divq_err F hq' h3 (abs_le_of h1 h2 h3).1
      have h7 : ((1 / q : ℚ) : ℝ) = 1 / (q : ℝ) := by push_cast; rfl
      obtain ⟨h4, h5⟩ := mul_mem' (y := 1 / (q : ℝ)) h1 h2 h7.le h7.ge
      refine mkNum_rel F (z := x / F.rnd q) (y := y / q) ?_ ?_ ?_
      · rw [div_eq_mul_one_div y]; exact h4
      · rw [div_eq_mul_one_div y]; exact h5
      · push_cast
        exact h6
    · trivial
  | deg m e => trivial
  | rad m e => trivial
  | top => trivial

theorem modq_rel {a : Ball} {p : V × V} (q : ℚ) (h : a.rel p) : (modq a q).rel ((fxB F tp).modq p q) := by
  unfold modq
  split_ifs with hq
  · subst hq
    cases ha : a.toDeg with
    | none => exact trivial
    | some me =>
      obtain ⟨m, e⟩ := me
      obtain ⟨x, y, rfl, h1, k, h2⟩ := toDeg_rel h ha
      have h0 : ((360 : ℚ) : ℝ) = 360 := by norm_num
      refine mkDeg_rel F (z := x - ((360 : ℚ) : ℝ) * ⌊x / ((360 : ℚ) : ℝ)⌋)
        (y := y - ((360 : ℚ) : ℝ) * ⌊y / ((360 : ℚ) : ℝ)⌋)
        ?_ (k - ⌊x / ((360 : ℚ) : ℝ)⌋ + ⌊y / ((360 : ℚ) : ℝ)⌋) ?_
      · rw [h0]
        have h3 := Int.floor_le (x / 360)
        have h4 := Int.lt_floor_add_one (x / 360)
        rw [le_div_iff₀ (by norm_num)] at h3
        rw [div_lt_iff₀ (by norm_num)] at h4
        rw [abs_le]
        constructor <;> linarith
      · rw [h0]
        push_cast
        refine le_of_eq_of_le ?_ h2
        congr 1
        ring
  · trivial

theorem powN_rel {a : Ball} {p : V × V} (n : ℕ) (h : a.rel p) : (powN a n).rel ((fxB F tp).powN p n) := by
  cases a with
  | num lo hi e =>
    obtain ⟨x, y, rfl, h1, h2, h3⟩ := h
    unfold powN
    dsimp only
    by_cases hn : n = 0
    · rw [if_pos hn]; trivial
    rw [if_neg hn]
    obtain ⟨n, rfl⟩ := Nat.exists_eq_succ_of_ne_zero hn
    have hM := (abs_le_of h1 h2 h3).1
    have h4 := powN_err' F h3 hM (n + 1)
    refine mkRaw_ovf (x := F.pow x ((n + 1 : ℕ) : ℝ)) (y := y ^ (n + 1)) ?_ ?_ ?_
    · by_cases he : Even (n + 1)
      · rw [if_pos he]; push_cast; exact he.pow_nonneg y
      · rw [if_neg he]; push_cast
        exact (Nat.not_even_iff_odd.1 he).strictMono_pow.monotone h1
    · by_cases he : Even (n + 1)
      · rw [if_pos he]; push_cast
        rw [← he.pow_abs]
        gcongr
      · rw [if_neg he]; push_cast
        exact (Nat.not_even_iff_odd.1 he).strictMono_pow.monotone h2
    · push_cast at h4 ⊢
      rw [tinyQ_cast]
      exact h4
  | deg m e => trivial
  | rad m e => trivial
  | top => trivial

/-- No claim about computations that raise. -/
theorem unmodelled {β γ : Type} (R : β → γ → Prop) (x : Py γ) : RelM False R (.error .unmodelled) x :=
  fun h => h.elim

theorem relM_of_eq {β γ : Type} {R : β → γ → Prop} {x : Py γ} {a : β} {c : γ} (h : x = .ok c) (hR : R a c) :
    RelM False R (.ok a) x := by
  rw [h]
  exact hR

theorem gap_pos {lo hi : ℚ} {y : ℝ} (h1 : (lo : ℝ) ≤ y) (h2 : y ≤ hi) :
    ((gap lo hi : ℚ) : ℝ) ≤ |y| := by
  unfold gap
  split_ifs with h0
  · exact h1.trans (le_abs_self y)
  · push_cast
    have := neg_abs_le y
    linarith [neg_le_abs y]

theorem div_rel {a b : Ball} {p q : V × V} (h : a.rel p) (h' : b.rel q) :
    RelM False Ball.rel (div a b) ((fxB F tp).div p q) := by
  by_cases hn : (∃ lo hi e, a = num lo hi e) ∧ ∃ lo hi e, b = num lo hi e
  · obtain ⟨⟨lo, hi, e, rfl⟩, lo', hi', e', rfl⟩ := hn
    obtain ⟨x, y, rfl, h1, h2, h3⟩ := h
    obtain ⟨x', y', rfl, h1', h2', h3'⟩ := h'
    unfold div
    dsimp only
    split_ifs with hc
    · obtain ⟨h0, hg⟩ := hc
      have hg1 := gap_pos h1' h2'
      have hg2 : (e' : ℝ) < gap lo' hi' := by exact_mod_cast hg
      have he0 : (0 : ℝ) ≤ e' := (abs_nonneg _).trans h3'
      have hy' : y' ≠ 0 := abs_pos.1 (lt_of_lt_of_le (lt_of_le_of_lt he0 hg2) hg1)
      have hx' : x' ≠ 0 := by
        rintro rfl
        rw [zero_sub, abs_neg] at h3'
        linarith
      have h00 : (0 : ℝ) < lo' ∨ (hi' : ℝ) < 0 := by exact_mod_cast h0
      obtain ⟨h6, h7⟩ := inv_mem h00 h1' h2'
      obtain ⟨h4, h5⟩ := mul_mem' (y := 1 / y') (c := 1 / hi') (d := 1 / lo') h1 h2 (by push_cast; exact h6)
        (by push_cast; exact h7)
      have hd : (fxB F tp).div (.fin x, .fin y) (.fin x', .fin y') = .ok (V.rnd F (.fin (x / x')), .fin (y / y')) := by
        show both ((rndB F).div (.fin x) (.fin x')) ((mathB tp).div (.fin y) (.fin y')) = _
        simp only [rndB, mathB, if_neg hx', if_neg hy', V.divNZ, both]
        rfl
      refine relM_of_eq hd (mkNum_rel F ?_ ?_ ?_)
      · rw [div_eq_mul_one_div y]; exact h4
      · rw [div_eq_mul_one_div y]; exact h5
      · push_cast
        exact div_err h3 h3' (abs_le_of h1 h2 h3).1 hg1 hg2
    · exact unmodelled _ _
  · cases a <;> cases b <;> first | exact unmodelled _ _ | exact absurd ⟨⟨_, _, _, rfl⟩, _, _, _, rfl⟩ hn

theorem sin_rel {a : Ball} {p : V × V} (h : a.rel p) : RelM False Ball.rel (sin a) ((fxB F tp).sin p) := by
  cases a with
  | num lo hi e =>
    obtain ⟨x, y, rfl, h1, h2, h3⟩ := h
    show (mkRaw _ _ _).rel (.fin (F.sin x), .fin (Real.sin y))
    have h4 : |Real.sin y| ≤ ((min 1 (mag lo hi) : ℚ) : ℝ) := by
      push_cast
      exact le_min (Real.abs_sin_le_one y) ((abs_sin_le y).trans (abs_le_of h1 h2 h3).1)
    refine mkRaw_rel ?_ (abs_le.1 h4).2 ?_
    · have := (abs_le.1 h4).1
      push_cast at this ⊢
      exact this
    · push_cast
      calc |F.sin x - Real.sin y| = |(Real.sin x - Real.sin y) + (F.sin x - Real.sin x)| := by ring_nf
        _ ≤ _ := abs_add_le _ _
        _ ≤ _ := add_le_add ((lip_sin x y).trans h3) (F.sin_err x)
  | rad m e =>
    obtain ⟨x, y, rfl, h1, k, h3⟩ := h
    show (mkRaw _ _ _).rel (.fin (F.sin x), .fin (Real.sin y))
    have h5 : Real.sin y = Real.sin (y + 2 * Real.pi * k) := by
      rw [show y + 2 * Real.pi * k = y + k * (2 * Real.pi) by ring, Real.sin_add_int_mul_two_pi]
    refine mkRaw_rel ?_ ?_ ?_
    · push_cast; exact Real.neg_one_le_sin y
    · push_cast; exact Real.sin_le_one y
    · push_cast
      rw [h5]
      have h6 := lip_sin x (y + 2 * Real.pi * k)
      rw [show x - (y + 2 * Real.pi * k) = x - y - 2 * Real.pi * k by ring] at h6
      calc |F.sin x - Real.sin (y + 2 * Real.pi * k)|
          = |(Real.sin x - Real.sin (y + 2 * Real.pi * k)) + (F.sin x - Real.sin x)| := by ring_nf
        _ ≤ _ := abs_add_le _ _
        _ ≤ _ := add_le_add (h6.trans h3) (F.sin_err x)
  | deg m e => exact unmodelled _ _
  | top => exact unmodelled _ _

theorem cos_rel {a : Ball} {p : V × V} (h : a.rel p) : RelM False Ball.rel (cos a) ((fxB F tp).cos p) := by
  cases a with
  | num lo hi e =>
    obtain ⟨x, y, rfl, h1, h2, h3⟩ := h
    show (mkRaw _ _ _).rel (.fin (F.cos x), .fin (Real.cos y))
    refine mkRaw_rel ?_ ?_ ?_
    · push_cast
      refine max_le (Real.neg_one_le_cos y) (le_trans ?_ (Real.one_sub_sq_div_two_le_cos (x := y)))
      have h4 := (abs_le_of h1 h2 h3).1
      have h5 : y ^ 2 ≤ (mag lo hi : ℝ) ^ 2 := by
        rw [← sq_abs y]
        gcongr
      linarith
    · push_cast; exact Real.cos_le_one y
    · push_cast
      calc |F.cos x - Real.cos y| = |(Real.cos x - Real.cos y) + (F.cos x - Real.cos x)| := by ring_nf
        _ ≤ _ := abs_add_le _ _
        _ ≤ _ := add_le_add ((lip_cos x y).trans h3) (F.cos_err x)
  | rad m e =>
    obtain ⟨x, y, rfl, h1, k, h3⟩ := h
    show (mkRaw _ _ _).rel (.fin (F.cos x), .fin (Real.cos y))
    have h5 : Real.cos y = Real.cos (y + 2 * Real.pi * k) := by
      rw [show y + 2 * Real.pi * k = y + k * (2 * Real.pi) by ring, Real.cos_add_int_mul_two_pi]
    refine mkRaw_rel ?_ ?_ ?_
    · push_cast; exact Real.neg_one_le_cos y
    · push_cast; exact Real.cos_le_one y
    · push_cast
      rw [h5]
      have h6 := lip_cos x (y + 2 * Real.pi * k)
      rw [show x - (y + 2 * Real.pi * k) = x - y - 2 * Real.pi * k by ring] at h6
      calc |F.cos x - Real.cos (y + 2 * Real.pi * k)|
          = |(Real.cos x - Real.cos (y + 2 * Real.pi * k)) + (F.cos x - Real.cos x)| := by ring_nf
        _ ≤ _ := abs_add_le _ _
        _ ≤ _ := add_le_add (h6.trans h3) (F.cos_err x)
  | deg m e => exact unmodelled _ _
  | top => exact unmodelled _ _

theorem cos_ne_of_abs_le_one {x : ℝ} (h : |x| ≤ 1) : Real.cos x ≠ 0 := by
  have h1 := Real.one_sub_sq_div_two_le_cos (x := x)
  have h2 : x ^ 2 ≤ 1 := by rw [← sq_abs]; nlinarith [abs_nonneg x]
  intro h3
  linarith

theorem tan_rel {a : Ball} {p : V × V} (h : a.rel p) : RelM False Ball.rel (tan a) ((fxB F tp).tan p) := by
  cases a with
  | num lo hi e =>
    obtain ⟨x, y, rfl, h1, h2, h3⟩ := h
    unfold tan
    dsimp only
    split_ifs with hc
    · obtain ⟨hy, hx⟩ := abs_le_of h1 h2 h3
      have hc' : ((mag lo hi : ℚ) : ℝ) + e ≤ 1 := by exact_mod_cast hc
      have he : (0 : ℝ) ≤ e := (abs_nonneg _).trans h3
      have hy1 : |y| ≤ 1 := by linarith
      have hx1 : |x| ≤ 1 := by linarith
      have hcy := cos_ne_of_abs_le_one hy1
      have ht : (fxB F tp).tan (.fin x, .fin y) = .ok (.fin (F.tan x), .fin (Real.tan y)) := by
        show both ((rndB F).tan (.fin x)) ((mathB tp).tan (.fin y)) = _
        simp only [rndB, mathB, if_neg hcy, both]
        rfl
      refine relM_of_eq ht ?_
      have h4 := abs_tan_le hy1
      refine mkRaw_rel (x := F.tan x) (y := Real.tan y) ?_ ?_ ?_
      · push_cast; linarith [(abs_le.1 h4).1]
      · push_cast; linarith [(abs_le.1 h4).2]
      · have h5 := (F.tan_err x (cos_ne_of_abs_le_one hx1)).trans (add_le_add le_rfl two_1074)
        have h6 := abs_tan_le hx1
        have h7 : |Real.tan x| / 2 ^ 51 ≤ 4 * (mag lo hi + e) / 2 ^ 51 := by
          gcongr
          linarith
        have h8 := lip_tan hx1 hy1
        push_cast
        rw [tinyQ_cast]
        calc |F.tan x - Real.tan y| = |(Real.tan x - Real.tan y) + (F.tan x - Real.tan x)| := by ring_nf
          _ ≤ _ := abs_add_le _ _
          _ ≤ _ := by linarith
    · exact unmodelled _ _
  | rad m e => exact unmodelled _ _
  | deg m e => exact unmodelled _ _
  | top => exact unmodelled _ _

theorem asin_rel {a : Ball} {p : V × V} (h : a.rel p) : RelM False Ball.rel (asin a) ((fxB F tp).asin p) := by
  cases a with
  | num lo hi e =>
    obtain ⟨x, y, rfl, h1, h2, h3⟩ := h
    unfold asin
    dsimp only
    split_ifs with hc
    · obtain ⟨hy, hx⟩ := abs_le_of h1 h2 h3
      have hc' : ((mag lo hi : ℚ) : ℝ) + e ≤ 4 / 5 := by
        have : ((mag lo hi + e : ℚ) : ℝ) ≤ ((4 / 5 : ℚ) : ℝ) := by exact_mod_cast hc
        push_cast at this
        exact this
      have he : (0 : ℝ) ≤ e := (abs_nonneg _).trans h3
      have hy1 : |y| ≤ 4 / 5 := by linarith
      have hx1 : |x| ≤ 4 / 5 := by linarith
      have hcx : -1 ≤ x ∧ x ≤ 1 := by have := abs_le.1 hx1; constructor <;> linarith
      have hcy : -1 ≤ y ∧ y ≤ 1 := by have := abs_le.1 hy1; constructor <;> linarith
      have ht : (fxB F tp).asin (.fin x, .fin y) = .ok (.fin (F.asin x), .fin (Real.arcsin y)) := by
        show both ((rndB F).asin (.fin x)) ((mathB tp).asin (.fin y)) = _
        simp only [rndB, mathB, if_pos hcx, if_pos hcy, both]
        rfl
      refine relM_of_eq ht ?_
      have h4 := abs_arcsin_le hy1
      refine mkRaw_rel (x := F.asin x) (y := Real.arcsin y) ?_ ?_ ?_
      · push_cast; linarith [(abs_le.1 h4).1]
      · push_cast; linarith [(abs_le.1 h4).2]
      · have h5 := F.asin_err x (by linarith)
        have h8 := lip_arcsin hx1 hy1
        push_cast
        calc |F.asin x - Real.arcsin y| = |(Real.arcsin x - Real.arcsin y) + (F.asin x - Real.arcsin x)| := by ring_nf
          _ ≤ _ := abs_add_le _ _
          _ ≤ _ := by linarith
    · exact unmodelled _ _
  | rad m e => exact unmodelled _ _
  | deg m e => exact unmodelled _ _
  | top => exact unmodelled _ _

theorem acos_rel {a : Ball} {p : V × V} (h : a.rel p) : RelM False Ball.rel (acos a) ((fxB F tp).acos p) := by
  cases a with
  | num lo hi e =>
    obtain ⟨x, y, rfl, h1, h2, h3⟩ := h
    unfold acos
    dsimp only
    split_ifs with hc
    · obtain ⟨hy, hx⟩ := abs_le_of h1 h2 h3
      have hc' : ((mag lo hi : ℚ) : ℝ) + e ≤ 4 / 5 := by
        have : ((mag lo hi + e : ℚ) : ℝ) ≤ ((4 / 5 : ℚ) : ℝ) := by exact_mod_cast hc
        push_cast at this
        exact this
      have he : (0 : ℝ) ≤ e := (abs_nonneg _).trans h3
      have hy1 : |y| ≤ 4 / 5 := by linarith
      have hx1 : |x| ≤ 4 / 5 := by linarith
      have hcx : -1 ≤ x ∧ x ≤ 1 := by have := abs_le.1 hx1; constructor <;> linarith
      have hcy : -1 ≤ y ∧ y ≤ 1 := by have := abs_le.1 hy1; constructor <;> linarith
      have ht : (fxB F tp).acos (.fin x, .fin y) = .ok (.fin (F.acos x), .fin (Real.arccos y)) := by
        show both ((rndB F).acos (.fin x)) ((mathB tp).acos (.fin y)) = _
        simp only [rndB, mathB, if_pos hcx, if_pos hcy, both]
        rfl
      refine relM_of_eq ht ?_
      refine mkRaw_rel (x := F.acos x) (y := Real.arccos y) ?_ ?_ ?_
      · push_cast; exact Real.arccos_nonneg y
      · push_cast
        have := Real.arccos_le_pi y
        have := Real.pi_lt_d2
        norm_num at this ⊢
        linarith
      · have h5 := F.acos_err x (by linarith)
        have h8 := lip_arcsin hx1 hy1
        push_cast
        have h9 : Real.arccos x - Real.arccos y = -(Real.arcsin x - Real.arcsin y) := by
          rw [Real.arccos, Real.arccos]; ring
        have h10 : |Real.arccos x - Real.arccos y| ≤ 5 / 3 * |x - y| := by rw [h9, abs_neg]; exact h8
        calc |F.acos x - Real.arccos y| = |(Real.arccos x - Real.arccos y) + (F.acos x - Real.arccos x)| := by ring_nf
          _ ≤ _ := abs_add_le _ _
          _ ≤ _ := by linarith
    · exact unmodelled _ _
  | rad m e => exact unmodelled _ _
  | deg m e => exact unmodelled _ _
  | top => exact unmodelled _ _

theorem abs_arctan_le' (y : ℝ) : |Real.arctan y| ≤ 8 / 5 := by
  have h1 := Real.arctan_lt_pi_div_two y
  have h2 := Real.neg_pi_div_two_lt_arctan y
  have h3 := Real.pi_lt_d2
  rw [abs_le]
  norm_num at h3
  constructor <;> linarith

theorem atan_rel {a : Ball} {p : V × V} (h : a.rel p) : RelM False Ball.rel (atan a) ((fxB F tp).atan p) := by
  cases a with
  | num lo hi e =>
    obtain ⟨x, y, rfl, h1, h2, h3⟩ := h
    show (mkRaw _ _ _).rel (.fin (F.atan x), .fin (Real.arctan y))
    have h4 : |Real.arctan y| ≤ ((min (8 / 5) (mag lo hi) : ℚ) : ℝ) := by
      push_cast
      exact le_min (abs_arctan_le' y) ((abs_arctan_le y).trans (abs_le_of h1 h2 h3).1)
    refine mkRaw_rel ?_ (abs_le.1 h4).2 ?_
    · have := (abs_le.1 h4).1
      push_cast at this ⊢
      exact this
    · push_cast
      calc |F.atan x - Real.arctan y| = |(Real.arctan x - Real.arctan y) + (F.atan x - Real.arctan x)| := by ring_nf
        _ ≤ _ := abs_add_le _ _
        _ ≤ _ := add_le_add ((lip_arctan x y).trans h3) (F.atan_err x)
  | rad m e => exact unmodelled _ _
  | deg m e => exact unmodelled _ _
  | top => exact unmodelled _ _

theorem atan2_rel {a b : Ball} {p q : V × V} (h : a.rel p) (h' : b.rel q) :
    RelM False Ball.rel (atan2 a b) ((fxB F tp).atan2 p q) := by
  by_cases hn : (∃ lo hi e, a = num lo hi e) ∧ ∃ lo hi e, b = num lo hi e
  · obtain ⟨⟨lo, hi, e, rfl⟩, lo', hi', e', rfl⟩ := hn
    obtain ⟨x, y, rfl, h1, h2, h3⟩ := h
    obtain ⟨x', y', rfl, h1', h2', h3'⟩ := h'
    unfold atan2
    dsimp only
    split_ifs with hc
    · obtain ⟨h0, hg⟩ := hc
      have h00 : (0 : ℝ) < lo' := by exact_mod_cast h0
      have hg2 : (e' : ℝ) < lo' := by exact_mod_cast hg
      have hy' : 0 < y' := h00.trans_le h1'
      have hx' : 0 < x' := by have := (abs_le.1 h3').1; linarith
      have hM := (abs_le_of h1 h2 h3).1
      show (mkRaw _ _ _).rel (.fin (F.atan2 x x'), .fin (Complex.arg ⟨y', y⟩))
      rw [arg_eq_arctan hy']
      have h5 : |y / y'| ≤ mag lo hi / lo' := by
        rw [abs_div, abs_of_pos hy']
        exact div_le_div₀ ((abs_nonneg _).trans hM) hM h00 h1'
      have h4 : |Real.arctan (y / y')| ≤ ((min (8 / 5) (mag lo hi / lo') : ℚ) : ℝ) := by
        push_cast
        exact le_min (abs_arctan_le' _) ((abs_arctan_le _).trans h5)
      refine mkRaw_rel ?_ (abs_le.1 h4).2 ?_
      · have := (abs_le.1 h4).1
        push_cast at this ⊢
        exact this
      · have h6 := F.atan2_err x x'
        rw [arg_eq_arctan hx'] at h6
        have h7 := div_err h3 h3' hM (h1'.trans (le_abs_self y')) hg2
        have h8 := (lip_arctan (x / x') (y / y')).trans h7
        push_cast
        calc |F.atan2 x x' - Real.arctan (y / y')|
            = |(Real.arctan (x / x') - Real.arctan (y / y')) + (F.atan2 x x' - Real.arctan (x / x'))| := by ring_nf
          _ ≤ _ := abs_add_le _ _
          _ ≤ _ := add_le_add h8 h6
    · exact unmodelled _ _
  · cases a <;> cases b <;> first | exact unmodelled _ _ | exact absurd ⟨⟨_, _, _, rfl⟩, _, _, _, rfl⟩ hn

theorem radians_rel {a : Ball} {p : V × V} (h : a.rel p) : (radians a).rel ((fxB F tp).radians p) := by
  have hc := rad_factor F
  have hp := pi180
  have hlo : ((radLo : ℚ) : ℝ) = 0.017453292519943 := by unfold radLo; norm_num
  have hhi : ((radHi : ℚ) : ℝ) = 0.017453292519944 := by unfold radHi; norm_num
  have hpos : 0 < Real.pi / 180 := by have := Real.pi_pos; positivity
  cases a with
  | num lo hi e =>
    obtain ⟨x, y, rfl, h1, h2, h3⟩ := h
    obtain ⟨h4, h5⟩ := mul_mem' (c := radLo) (d := radHi) (y := Real.pi / 180) h1 h2 (by rw [hlo]; exact hp.1.le)
      (by rw [hhi]; exact hp.2.le)
    show (mkNum _ _ _).rel (V.rnd F (.fin (x * F.rnd (F.rnd Real.pi / 180))), .fin (y * Real.pi / 180))
    refine mkNum_rel F ?_ ?_ ?_
    · rw [mul_div_assoc]; exact h4
    · rw [mul_div_assoc]; exact h5
    · rw [mul_div_assoc]
      have h6 := mul_err h3 hc (abs_le_of h1 h2 h3).1 (M' := radHi) (by rw [abs_of_pos hpos, hhi]; exact hp.2.le)
      push_cast at h6 ⊢
      exact h6
  | deg m e =>
    obtain ⟨x, y, rfl, h1, k, h3⟩ := h
    show (mkRad _ _).rel (V.rnd F (.fin (x * F.rnd (F.rnd Real.pi / 180))), .fin (y * Real.pi / 180))
    refine mkRad_rel F ?_ k ?_
    · push_cast
      rw [abs_mul]
      refine mul_le_mul h1 ?_ (abs_nonneg _) ((abs_nonneg _).trans h1)
      rw [abs_le]
      have := abs_le.1 hc
      have h7 := hp.2
      norm_num at this h7 ⊢
      constructor <;> linarith
    · have h4 : x * F.rnd (F.rnd Real.pi / 180) - y * Real.pi / 180 - 2 * Real.pi * k
          = x * (F.rnd (F.rnd Real.pi / 180) - Real.pi / 180) + (x - y - 360 * k) * (Real.pi / 180) := by ring
      rw [h4]
      push_cast
      refine (abs_add_le _ _).trans (add_le_add ?_ ?_)
      · rw [abs_mul]; exact mul_le_mul h1 hc (abs_nonneg _) ((abs_nonneg _).trans h1)
      · rw [abs_mul, abs_of_pos hpos, hhi]
        exact mul_le_mul h3 hp.2.le hpos.le ((abs_nonneg _).trans h3)
  | rad m e => trivial
  | top => trivial

theorem degrees_rel {a : Ball} {p : V × V} (h : a.rel p) : (degrees a).rel ((fxB F tp).degrees p) := by
  have hc := deg_factor F
  have hp := pi57
  have hlo : ((degLo : ℚ) : ℝ) = 57.295779513082 := by unfold degLo; norm_num
  have hhi : ((degHi : ℚ) : ℝ) = 57.295779513083 := by unfold degHi; norm_num
  have hpos : 0 < 180 / Real.pi := by have := Real.pi_pos; positivity
  cases a with
  | num lo hi e =>
    obtain ⟨x, y, rfl, h1, h2, h3⟩ := h
    obtain ⟨h4, h5⟩ := mul_mem' (c := degLo) (d := degHi) (y := 180 / Real.pi) h1 h2 (by rw [hlo]; exact hp.1.le)
      (by rw [hhi]; exact hp.2.le)
    show (mkNum _ _ _).rel (V.rnd F (.fin (x * F.rnd (180 / F.rnd Real.pi))), .fin (y * 180 / Real.pi))
    refine mkNum_rel F ?_ ?_ ?_
    · rw [mul_div_assoc]; exact h4
    · rw [mul_div_assoc]; exact h5
    · rw [mul_div_assoc]
      have h6 := mul_err h3 hc (abs_le_of h1 h2 h3).1 (M' := degHi) (by rw [abs_of_pos hpos, hhi]; exact hp.2.le)
      push_cast at h6 ⊢
      exact h6
  | deg m e => trivial
  | rad m e =>
    obtain ⟨x, y, rfl, h1, k, h3⟩ := h
    show (mkDeg _ _).rel (V.rnd F (.fin (x * F.rnd (180 / F.rnd Real.pi))), .fin (y * 180 / Real.pi))
    refine mkDeg_rel F ?_ k ?_
    · push_cast
      rw [abs_mul]
      refine mul_le_mul h1 ?_ (abs_nonneg _) ((abs_nonneg _).trans h1)
      rw [abs_le]
      have := abs_le.1 hc
      have h7 := hp.2
      norm_num at this h7 ⊢
      constructor <;> linarith
    · have hpi := Real.pi_ne_zero
      have h4 : x * F.rnd (180 / F.rnd Real.pi) - y * 180 / Real.pi - 360 * k
          = x * (F.rnd (180 / F.rnd Real.pi) - 180 / Real.pi) + (x - y - 2 * Real.pi * k) * (180 / Real.pi) := by
        field_simp
        ring
      rw [h4]
      push_cast
      refine (abs_add_le _ _).trans (add_le_add ?_ ?_)
      · rw [abs_mul]; exact mul_le_mul h1 hc (abs_nonneg _) ((abs_nonneg _).trans h1)
      · rw [abs_mul, abs_of_pos hpos, hhi]
        exact mul_le_mul h3 hp.2.le hpos.le ((abs_nonneg _).trans h3)
  | top => trivial

/-- A known comparison holds of both values. -/
def relC (c : Option Bool) (p : Bool × Bool) : Prop := ∀ b, c = some b → p = (b, b)

theorem lt_rel {a b : Ball} {p q : V × V} (h : a.rel p) (h' : b.rel q) : relC (lt a b) ((fxB F tp).lt p q) := by
  by_cases hn : (∃ lo hi e, a = num lo hi e) ∧ ∃ lo hi e, b = num lo hi e
  · obtain ⟨⟨lo, hi, e, rfl⟩, lo', hi', e', rfl⟩ := hn
    obtain ⟨x, y, rfl, h1, h2, h3⟩ := h
    obtain ⟨x', y', rfl, h1', h2', h3'⟩ := h'
    have he : (0 : ℝ) ≤ e := (abs_nonneg _).trans h3
    have he' : (0 : ℝ) ≤ e' := (abs_nonneg _).trans h3'
    rw [abs_le] at h3 h3'
    intro t ht
    show (decide (x < x'), decide (y < y')) = (t, t)
    unfold lt at ht
    dsimp only at ht
    split_ifs at ht with hc hc2
    · cases ht
      have hc' : (hi : ℝ) + e + e' < lo' := by exact_mod_cast hc
      rw [decide_eq_true (by linarith [h3.2, h3'.1] : x < x'), decide_eq_true (by linarith : y < y')]
    · cases ht
      have hc' : (hi' : ℝ) + e + e' ≤ lo := by exact_mod_cast hc2
      rw [decide_eq_false (by linarith [h3.1, h3'.2] : ¬x < x'), decide_eq_false (by linarith : ¬y < y')]
  · cases a <;> cases b <;> first | (intro t ht; cases ht) | exact absurd ⟨⟨_, _, _, rfl⟩, _, _, _, rfl⟩ hn

theorem le_rel {a b : Ball} {p q : V × V} (h : a.rel p) (h' : b.rel q) : relC (le a b) ((fxB F tp).le p q) := by
  by_cases hn : (∃ lo hi e, a = num lo hi e) ∧ ∃ lo hi e, b = num lo hi e
  · obtain ⟨⟨lo, hi, e, rfl⟩, lo', hi', e', rfl⟩ := hn
    obtain ⟨x, y, rfl, h1, h2, h3⟩ := h
    obtain ⟨x', y', rfl, h1', h2', h3'⟩ := h'
    have he : (0 : ℝ) ≤ e := (abs_nonneg _).trans h3
    have he' : (0 : ℝ) ≤ e' := (abs_nonneg _).trans h3'
    rw [abs_le] at h3 h3'
    intro t ht
    show (decide (x ≤ x'), decide (y ≤ y')) = (t, t)
    unfold le at ht
    dsimp only at ht
    split_ifs at ht with hc hc2
    · cases ht
      have hc' : (hi : ℝ) + e + e' ≤ lo' := by exact_mod_cast hc
      rw [decide_eq_true (by linarith [h3.2, h3'.1] : x ≤ x'), decide_eq_true (by linarith : y ≤ y')]
    · cases ht
      have hc' : (hi' : ℝ) + e + e' < lo := by exact_mod_cast hc2
      rw [decide_eq_false (by linarith [h3.1, h3'.2] : ¬x ≤ x'), decide_eq_false (by linarith : ¬y ≤ y')]
  · cases a <;> cases b <;> first | (intro t ht; cases ht) | exact absurd ⟨⟨_, _, _, rfl⟩, _, _, _, rfl⟩ hn

theorem div_ne (a b : Ball) : div a b ≠ .error .zeroDivision := by
  cases a <;> cases b <;> unfold div <;> dsimp only <;> try split_ifs
  all_goals intro h; cases h

end Ball

open Ball in
/-- Running a model function on error bounds bounds its rounding errors. -/
def ballSim (F : F64) (tp : ℝ) : ScalarSim ballB (fxB F tp) where
  strict := False
  r := Ball.rel
  rC := relC
  rW := fun w w' => ∃ d, w = .dt d ∧ w' = .dt d
  lit := lit_rel F tp
  pi := pi_rel F tp
  e := e_rel F tp
  inf := trivial
  add := add_rel F tp
  sub := sub_rel F tp
  mul := mul_rel F tp
  neg := neg_rel F tp
  divq := divq_rel F tp
  modq := modq_rel F tp
  powN := powN_rel F tp
  div := div_rel F tp
  sin := sin_rel F tp
  cos := cos_rel F tp
  tan := tan_rel F tp
  asin := asin_rel F tp
  acos := acos_rel F tp
  atan := atan_rel F tp
  atan2 := atan2_rel F tp
  exp := fun _ => unmodelled _ _
  radians := radians_rel F tp
  degrees := degrees_rel F tp
  lt := lt_rel F tp
  le := le_rel F tp
  where_ := by
    intro c c' x x' y y' hc hx hy
    match c, hc with
    | some true, hc => rw [hc true rfl]; exact hx
    | some false, hc => rw [hc false rfl]; exact hy
    | none, _ => exact trivial
  ofC := by
    intro c c' hc
    match c, hc with
    | some true, hc =>
      rw [hc true rfl]
      exact ⟨1, 1, rfl, by norm_num, by norm_num, by norm_num⟩
    | some false, hc =>
      rw [hc false rfl]
      exact ⟨0, 0, rfl, by norm_num, by norm_num, by norm_num⟩
    | none, _ => exact trivial
  recip_zero := by
    intro x x' _ h
    exfalso
    exact div_ne _ x h
  sin_zero := by
    intro x h
    cases x <;> cases h
  guard := by
    rintro _ _ ⟨d, rfl, rfl⟩
    exact RelM.mono (R := Eq) RelM.refl fun _ _ _ => trivial
  utctimetuple := by rintro _ _ ⟨d, rfl, rfl⟩; exact RelM.refl
  timestamp := by rintro _ _ ⟨d, rfl, rfl⟩; exact RelM.refl
  tm_yday := by
    rintro _ _ ⟨d, rfl, rfl⟩
    exact RelM.bind (R := Eq) RelM.refl (by rintro n _ rfl; exact lit_rel F tp _)
  tm_hour := by
    rintro _ _ ⟨d, rfl, rfl⟩
    exact RelM.bind (R := Eq) RelM.refl (by rintro n _ rfl; exact lit_rel F tp _)
  tm_min := by
    rintro _ _ ⟨d, rfl, rfl⟩
    exact RelM.bind (R := Eq) RelM.refl (by rintro n _ rfl; exact lit_rel F tp _)
  rpow := fun _ _ => unmodelled _ _
  truth := by
    intro c c' hc
    match c, hc with
    | some b, hc =>
      rw [hc b rfl]
      show RelM False Eq (.ok b) (same (.ok b) (.ok b))
      rw [same, if_pos rfl]
      rfl
    | none, _ => exact unmodelled _ _
  tdHours := fun _ => unmodelled _ _
  round := fun _ => unmodelled _ _
  asDatetime := by rintro _ _ ⟨d, rfl, rfl⟩; exact RelM.refl
  rW_dt d := ⟨d, rfl, rfl⟩

end Verif
