import Verif.Proofs.FloatIrr
import Verif.Proofs.FloatElev
import Verif.Proofs.Interval

/-!
# Error bounds for exponentials and powers

`ballX` is `ballB` with a sharper lower bound for squares and with bounds for `exp` and `**`.
-/

namespace Verif

open Verif.Spec Verif.Props Pysolar

namespace Ball

def powX : Ball → ℕ → Ball
  | num lo hi e, n =>
    if n = 0 then top
    else if 0 ≤ lo then
      mkRaw (lo ^ n) (hi ^ n) (n * (mag lo hi + e) ^ (n - 1) * e + (mag lo hi + e) ^ n / 2 ^ 51 + tinyQ)
    else powN (num lo hi e) n
  | b, n => powN b n

/-- Squaring, rounded up. -/
def sqUp : ℕ → ℚ → ℚ
  | 0, u => u
  | n + 1, u => sqUp n (upI (u * u))

/-- Squaring, rounded down. -/
def sqDn : ℕ → ℚ → ℚ
  | 0, u => u
  | n + 1, u => sqDn n (dnI (u * u))

/-- An upper bound of the exponential, for arguments below 1024. -/
def expHi (x : ℚ) : ℚ := sqUp 10 (upI (1 / (1 - x / 1024)))

/-- A lower bound of the exponential, for arguments above -1024. -/
def expLo (x : ℚ) : ℚ := sqDn 10 (dnI (1 + x / 1024))

def expX : Ball → Py Ball
  | num lo hi e =>
    if hi ≤ 40 ∧ -1000 ≤ lo ∧ e ≤ 1 / 100 then
      .ok (mkRaw (expLo lo) (expHi hi) (expHi hi * (1.01 * e + 1.02 / 2 ^ 51) + tinyQ))
    else .error .unmodelled
  | _ => .error .unmodelled

/-- Bisection for a sixteenth root. -/
def bisect (x : ℚ) : ℕ → ℚ → ℚ → ℚ × ℚ
  | 0, l, u => (l, u)
  | n + 1, l, u => if ((l + u) / 2) ^ 16 ≤ x then bisect x n ((l + u) / 2) u else bisect x n l ((l + u) / 2)

def rootDn (x : ℚ) : ℚ := (bisect x 24 0 (upI (x / 16 + 1))).1
def rootUp (x : ℚ) : ℚ := (bisect x 24 0 (upI (x / 16 + 1))).2

/-- Bounds of a power with exponent between the integers `n` and `m`. -/
def powLo (lo hi : ℚ) (n m : ℤ) : ℚ := min (min (lo ^ n) (hi ^ n)) (min (lo ^ m) (hi ^ m))
def powHi (lo hi : ℚ) (n m : ℤ) : ℚ := max (max (lo ^ n) (hi ^ n)) (max (lo ^ m) (hi ^ m))

/-- Bound of the error of the logarithm of a power. -/
def powErr (lo hi e lo' hi' e' : ℚ) : ℚ :=
  (mag lo' hi' + e') * (1.01 * e / lo) + e' * max (hi - 1) (1 / lo - 1)

/-- The same through sixteenth roots. -/
def pLo (lo hi lo' hi' : ℚ) : ℚ := powLo (rootDn lo) (rootUp hi) ⌊lo' * 16⌋ ⌈hi' * 16⌉
def pHi (lo hi lo' hi' : ℚ) : ℚ := powHi (rootDn lo) (rootUp hi) ⌊lo' * 16⌋ ⌈hi' * 16⌉

def rpowX : Ball → Ball → Py Ball
  | num lo hi e, num lo' hi' e' =>
    if 0 < lo ∧ e ≤ lo / 200 ∧ powErr lo hi e lo' hi' e' ≤ 1 / 100 ∧ pHi lo hi lo' hi' ≤ 2 ^ 90 ∧
        0 < rootDn lo ∧ 0 < rootUp hi ∧ rootDn lo ^ 16 ≤ lo ∧ hi ≤ rootUp hi ^ 16 then
      .ok (mkRaw (pLo lo hi lo' hi') (pHi lo hi lo' hi')
        (pHi lo hi lo' hi' * (1.01 * powErr lo hi e lo' hi' e' + 1.02 / 2 ^ 51) + tinyQ))
    else .error .unmodelled
  | _, _ => .error .unmodelled

def cosX : Ball → Py Ball
  | num lo hi e =>
    match Iv.trig (.mk ⌊lo * Iv.one⌋ ⌈hi * Iv.one⌉) with
    | some (.mk c d, _) => .ok (mkRaw (c / Iv.one) (d / Iv.one) (e + 1 / 2 ^ 52))
    | _ => cos (num lo hi e)
  | b => cos b

end Ball

open Ball in
def ballX : Backend := { ballB with powN := powX, cos := cosX, exp := expX, rpow := rpowX }

namespace Ball

theorem sqUp_le {u : ℚ} {x : ℝ} (n : ℕ) (h0 : 0 ≤ x) (h : x ≤ u) : x ^ (2 ^ n) ≤ sqUp n u := by
  induction n generalizing u x with
  | zero => simpa [sqUp] using h
  | succ n ih =>
    have h1 : x ^ 2 ≤ ((upI (u * u) : ℚ) : ℝ) := by
      have : ((u * u : ℚ) : ℝ) ≤ ((upI (u * u) : ℚ) : ℝ) := by exact_mod_cast le_upI _
      push_cast at this
      nlinarith
    have := ih (by positivity) h1
    rwa [← pow_mul, ← pow_succ'] at this

theorem sqDn_le {u : ℚ} {x : ℝ} (n : ℕ) (h0 : 0 ≤ u) (h : (u : ℝ) ≤ x) : (sqDn n u : ℝ) ≤ x ^ (2 ^ n) := by
  induction n generalizing u x with
  | zero => simpa [sqDn] using h
  | succ n ih =>
    have hu : (0 : ℝ) ≤ u := by exact_mod_cast h0
    have h2 : 0 ≤ dnI (u * u) := by
      unfold dnI
      have : (0 : ℤ) ≤ ⌊u * u * 2 ^ 60⌋ := Int.floor_nonneg.2 (by positivity)
      have : (0 : ℚ) ≤ (⌊u * u * 2 ^ 60⌋ : ℤ) := by exact_mod_cast this
      positivity
    have h1 : ((dnI (u * u) : ℚ) : ℝ) ≤ x ^ 2 := by
      have : ((dnI (u * u) : ℚ) : ℝ) ≤ ((u * u : ℚ) : ℝ) := by exact_mod_cast dnI_le _
      push_cast at this
      nlinarith
    have := ih h2 h1
    rwa [← pow_mul, ← pow_succ'] at this

theorem le_expHi {x : ℚ} (h : x ≤ 40) : Real.exp x ≤ expHi x := by
  unfold expHi
  have hx : (x : ℝ) ≤ 40 := by exact_mod_cast h
  have e : Real.exp x = Real.exp (x / 1024) ^ (2 ^ 10) := by
    rw [← Real.exp_nat_mul]; congr 1; push_cast; ring
  rw [e]
  refine sqUp_le 10 (Real.exp_pos _).le ?_
  have h1 : Real.exp (x / 1024) ≤ ((1 / (1 - x / 1024) : ℚ) : ℝ) := by
    push_cast
    have h2 := Real.add_one_le_exp (-(x / 1024 : ℝ))
    rw [Real.exp_neg] at h2
    have h3 : (0 : ℝ) < 1 - x / 1024 := by linarith
    rw [le_div_iff₀ h3]
    have h4 := Real.exp_pos (x / 1024 : ℝ)
    calc Real.exp (x / 1024) * (1 - x / 1024) ≤ Real.exp (x / 1024) * (Real.exp (x / 1024))⁻¹ := by
          gcongr; linarith
      _ = 1 := mul_inv_cancel₀ h4.ne'
  exact h1.trans (by exact_mod_cast le_upI _)

theorem expLo_le {x : ℚ} (h : -1000 ≤ x) : (expLo x : ℝ) ≤ Real.exp x := by
  unfold expLo
  have hx : (-1000 : ℝ) ≤ x := by exact_mod_cast h
  have e : Real.exp x = Real.exp (x / 1024) ^ (2 ^ 10) := by
    rw [← Real.exp_nat_mul]; congr 1; push_cast; ring
  rw [e]
  refine sqDn_le 10 ?_ ?_
  · unfold dnI
    have h1 : (0 : ℚ) ≤ 1 + x / 1024 := by linarith
    have : (0 : ℤ) ≤ ⌊(1 + x / 1024) * 2 ^ 60⌋ := Int.floor_nonneg.2 (by positivity)
    have : (0 : ℚ) ≤ (⌊(1 + x / 1024) * 2 ^ 60⌋ : ℤ) := by exact_mod_cast this
    positivity
  · have h1 : ((dnI (1 + x / 1024) : ℚ) : ℝ) ≤ ((1 + x / 1024 : ℚ) : ℝ) := by exact_mod_cast dnI_le _
    push_cast at h1
    have h2 := Real.add_one_le_exp (x / 1024 : ℝ)
    linarith

/-- The error of a computed exponential. -/
theorem exp_total {f x y e M : ℝ} (h : |x - y| ≤ e) (he : e ≤ 1 / 100) (hM : Real.exp y ≤ M)
    (hf : |f - Real.exp x| ≤ Real.exp x / 2 ^ 51 + 1 / 2 ^ 1074) :
    |f - Real.exp y| ≤ M * (1.01 * e + 1.02 / 2 ^ 51) + tiny := by
  have h1 := Chain.exp_close' h he
  have he0 := (abs_nonneg _).trans h
  have hy := Real.exp_pos y
  have h2 : Real.exp x ≤ 1.02 * Real.exp y := by
    have := (abs_le.1 h1).2
    nlinarith
  have h3 := two_1074
  calc |f - Real.exp y| = |(f - Real.exp x) + (Real.exp x - Real.exp y)| := by ring_nf
    _ ≤ |f - Real.exp x| + |Real.exp x - Real.exp y| := abs_add_le _ _
    _ ≤ (Real.exp x / 2 ^ 51 + 1 / 2 ^ 1074) + 1.01 * e * Real.exp y := add_le_add hf h1
    _ ≤ (1.02 * Real.exp y / 2 ^ 51 + tiny) + 1.01 * e * Real.exp y := by gcongr
    _ = Real.exp y * (1.01 * e + 1.02 / 2 ^ 51) + tiny := by ring
    _ ≤ _ := by gcongr

theorem powX_rel (F : F64) (tp : ℝ) {a : Ball} {p : V × V} (n : ℕ) (h : a.rel p) : (powX a n).rel ((fxB F tp).powN p n) := by
  cases a with
  | num lo hi e =>
    by_cases hlo : 0 ≤ lo
    · obtain ⟨x, y, rfl, h1, h2, h3⟩ := h
      unfold powX
      dsimp only
      by_cases hn : n = 0
      · rw [if_pos hn]; trivial
      rw [if_neg hn, if_pos hlo]
      obtain ⟨n, rfl⟩ := Nat.exists_eq_succ_of_ne_zero hn
      have hM := (abs_le_of h1 h2 h3).1
      have h4 := powN_err' F h3 hM (n + 1)
      have hlo' : (0 : ℝ) ≤ lo := by exact_mod_cast hlo
      refine mkRaw_ovf (x := F.pow x ((n + 1 : ℕ) : ℝ)) (y := y ^ (n + 1)) ?_ ?_ ?_
      · push_cast; gcongr
      · push_cast; have : 0 ≤ y := hlo'.trans h1; gcongr
      · push_cast at h4 ⊢
        rw [tinyQ_cast]
        exact h4
    · have := powN_rel F tp n h
      unfold powX
      dsimp only
      by_cases hn : n = 0
      · rw [if_pos hn]; trivial
      · rw [if_neg hn, if_neg hlo]; exact this
  | deg m e => exact powN_rel F tp n h
  | rad m e => exact powN_rel F tp n h
  | top => exact powN_rel F tp n h

theorem expX_rel (F : F64) (tp : ℝ) {a : Ball} {p : V × V} (h : a.rel p) :
    RelM False Ball.rel (expX a) ((fxB F tp).exp p) := by
  cases a with
  | num lo hi e =>
    obtain ⟨x, y, rfl, h1, h2, h3⟩ := h
    unfold expX
    dsimp only
    split_ifs with hc
    · obtain ⟨c1, c2, c3⟩ := hc
      have c1' : (hi : ℝ) ≤ 40 := by exact_mod_cast c1
      have c3' : (e : ℝ) ≤ 1 / 100 := by
        have : ((e : ℚ) : ℝ) ≤ ((1 / 100 : ℚ) : ℝ) := by exact_mod_cast c3
        push_cast at this; exact this
      have hM : Real.exp y ≤ expHi hi := (Real.exp_le_exp.2 h2).trans (le_expHi c1)
      have big : Real.exp 41 < 2 ^ 1023 := by
        have : Real.exp 41 = Real.exp 1 ^ 41 := by rw [← Real.exp_nat_mul]; norm_num
        rw [this]
        calc Real.exp 1 ^ 41 ≤ 3 ^ 41 := by
              gcongr; exact (Real.exp_one_lt_d9.trans (by norm_num)).le
          _ < 2 ^ 100 := by norm_num
          _ ≤ 2 ^ 1023 := pow_le_pow_right₀ (by norm_num) (by norm_num)
      have hx : x ≤ 41 := by have := (abs_le.1 h3).2; linarith
      have hex : Real.exp x < 2 ^ 1023 := (Real.exp_le_exp.2 hx).trans_lt big
      have hey : Real.exp y < 2 ^ 1024 := (Real.exp_le_exp.2 (h2.trans (by linarith : (hi : ℝ) ≤ 41))).trans_lt
        (big.trans (pow_lt_pow_right₀ (by norm_num) (by norm_num)))
      have hF : ¬ (2 : ℝ) ^ 1024 ≤ F.exp x := by
        rw [not_le]
        have := (abs_le.1 (F.exp_err x)).2
        have e0 := Real.exp_pos x
        calc F.exp x ≤ Real.exp x + (Real.exp x / 2 ^ 51 + 1 / 2 ^ 1074) := by linarith
          _ ≤ 2 ^ 1023 + (2 ^ 1023 / 2 ^ 51 + tiny) := by gcongr; exact two_1074
          _ < 2 ^ 1024 := by
            have b : (1 : ℝ) ≤ 2 ^ 1023 := one_le_pow₀ (by norm_num)
            have t := tiny_le
            rw [show (2 : ℝ) ^ 1024 = 2 * 2 ^ 1023 from pow_succ' 2 1023]
            generalize (2 : ℝ) ^ 1023 = z at *
            norm_num at t ⊢
            linarith
      have ht : (fxB F tp).exp (.fin x, .fin y) = .ok (.fin (F.exp x), .fin (Real.exp y)) := by
        show both ((rndB F).exp (.fin x)) ((mathB tp).exp (.fin y)) = _
        have e1 : (rndB F).exp (.fin x) = .ok (.fin (F.exp x)) := if_neg hF
        have e2 : (mathB tp).exp (.fin y) = .ok (.fin (Real.exp y)) := m_exp hey
        rw [e1, e2]
        rfl
      refine relM_of_eq ht (mkRaw_rel (x := F.exp x) (y := Real.exp y) ?_ hM ?_)
      · exact (expLo_le c2).trans (Real.exp_le_exp.2 h1)
      · have := exp_total h3 c3' hM (F.exp_err x)
        push_cast
        rw [tinyQ_cast]
        exact this
    · exact unmodelled _ _
  | deg m e => exact unmodelled _ _
  | rad m e => exact unmodelled _ _
  | top => exact unmodelled _ _

theorem cosX_rel (F : F64) (tp : ℝ) {a : Ball} {p : V × V} (h : a.rel p) :
    RelM False Ball.rel (cosX a) ((fxB F tp).cos p) := by
  cases a with
  | num lo hi e =>
    have gen := cos_rel F tp h
    unfold cosX
    dsimp only
    split
    · rename_i c d s ht
      obtain ⟨x, y, rfl, h1, h2, h3⟩ := h
      have ho := Iv.one_pos
      have hi' : (Iv.mk ⌊lo * Iv.one⌋ ⌈hi * Iv.one⌉).rel (.fin y) := by
        refine ⟨y, rfl, ?_, ?_⟩
        · have : ((⌊lo * Iv.one⌋ : ℤ) : ℚ) ≤ lo * Iv.one := Int.floor_le _
          have : ((⌊lo * Iv.one⌋ : ℤ) : ℝ) ≤ lo * Iv.one := by exact_mod_cast this
          nlinarith
        · have : hi * Iv.one ≤ ((⌈hi * Iv.one⌉ : ℤ) : ℚ) := Int.le_ceil _
          have : (hi * Iv.one : ℝ) ≤ ((⌈hi * Iv.one⌉ : ℤ) : ℝ) := by exact_mod_cast this
          nlinarith
      obtain ⟨y', e', ⟨z, ez, k1, k2⟩, -⟩ := Iv.trig_ok ht hi'
      cases e'
      cases ez
      show (mkRaw _ _ _).rel (.fin (F.cos x), .fin (Real.cos y))
      refine mkRaw_rel ?_ ?_ ?_
      · push_cast
        rw [div_le_iff₀ ho]
        exact k1
      · push_cast
        rw [le_div_iff₀ ho]
        exact k2
      · push_cast
        calc |F.cos x - Real.cos y| = |(Real.cos x - Real.cos y) + (F.cos x - Real.cos x)| := by ring_nf
          _ ≤ _ := abs_add_le _ _
          _ ≤ _ := add_le_add ((lip_cos x y).trans h3) (F.cos_err x)
    · exact gen
  | deg m e => exact cos_rel F tp h
  | rad m e => exact cos_rel F tp h
  | top => exact cos_rel F tp h

theorem zpow_range {lo hi x : ℝ} (h0 : 0 < lo) (h1 : lo ≤ x) (h2 : x ≤ hi) (n : ℤ) :
    min (lo ^ n) (hi ^ n) ≤ x ^ n ∧ x ^ n ≤ max (lo ^ n) (hi ^ n) := by
  have hx : 0 < x := h0.trans_le h1
  rcases le_total 0 n with hn | hn
  · exact ⟨(min_le_left _ _).trans (zpow_le_zpow_left₀ hn h0.le h1),
      (zpow_le_zpow_left₀ hn hx.le h2).trans (le_max_right _ _)⟩
  · obtain ⟨m, rfl⟩ : ∃ m : ℕ, n = -m := ⟨n.natAbs, by omega⟩
    simp only [zpow_neg, zpow_natCast]
    refine ⟨(min_le_right _ _).trans ?_, le_trans ?_ (le_max_left _ _)⟩
    · gcongr
    · gcongr

theorem rpow_range {lo hi : ℚ} {x y : ℝ} (h0 : 0 < lo) (h1 : (lo : ℝ) ≤ x) (h2 : x ≤ hi) {n m : ℤ} (hn : (n : ℝ) ≤ y)
    (hm : y ≤ m) : ((powLo lo hi n m : ℚ) : ℝ) ≤ x ^ y ∧ x ^ y ≤ ((powHi lo hi n m : ℚ) : ℝ) := by
  have h0' : (0 : ℝ) < lo := by exact_mod_cast h0
  have hx : 0 < x := h0'.trans_le h1
  have rn := zpow_range h0' h1 h2 n
  have rm := zpow_range h0' h1 h2 m
  rw [← Real.rpow_intCast x] at rn rm
  unfold powLo powHi
  push_cast
  rcases le_total 1 x with h | h
  · have a := Real.rpow_le_rpow_of_exponent_le h hn
    have b := Real.rpow_le_rpow_of_exponent_le h hm
    exact ⟨(min_le_left _ _).trans (rn.1.trans a), (b.trans rm.2).trans (le_max_right _ _)⟩
  · have a := Real.rpow_le_rpow_of_exponent_ge hx h hn
    have b := Real.rpow_le_rpow_of_exponent_ge hx h hm
    exact ⟨(min_le_right _ _).trans (rm.1.trans b), (a.trans rn.2).trans (le_max_left _ _)⟩

theorem root_range {lo hi lo' hi' : ℚ} {x y : ℝ} (h0 : 0 < rootDn lo) (h0' : 0 < rootUp hi) (hl : rootDn lo ^ 16 ≤ lo)
    (hu : hi ≤ rootUp hi ^ 16) (hlo : (0 : ℝ) < lo) (h1 : (lo : ℝ) ≤ x) (h2 : x ≤ hi) (h1' : (lo' : ℝ) ≤ y) (h2' : y ≤ hi') :
    ((pLo lo hi lo' hi' : ℚ) : ℝ) ≤ x ^ y ∧ x ^ y ≤ ((pHi lo hi lo' hi' : ℚ) : ℝ) := by
  have hx : 0 < x := hlo.trans_le h1
  have e : x ^ y = (x ^ (1 / 16 : ℝ)) ^ (y * 16) := by
    rw [← Real.rpow_mul hx.le]; congr 1; ring
  have g : (x ^ (1 / 16 : ℝ)) ^ 16 = x := by
    rw [← Real.rpow_natCast, ← Real.rpow_mul hx.le]; norm_num
  have gp : 0 < x ^ (1 / 16 : ℝ) := Real.rpow_pos_of_pos hx _
  have k1 : (rootDn lo : ℝ) ≤ x ^ (1 / 16 : ℝ) := by
    refine le_of_pow_le_pow_left₀ (n := 16) (by norm_num) gp.le ?_
    rw [g]
    have : ((rootDn lo ^ 16 : ℚ) : ℝ) ≤ lo := by exact_mod_cast hl
    push_cast at this
    linarith
  have k2 : x ^ (1 / 16 : ℝ) ≤ rootUp hi := by
    refine le_of_pow_le_pow_left₀ (n := 16) (by norm_num) (by exact_mod_cast h0'.le) ?_
    rw [g]
    have : (hi : ℝ) ≤ ((rootUp hi ^ 16 : ℚ) : ℝ) := by exact_mod_cast hu
    push_cast at this
    linarith
  rw [e]
  refine rpow_range h0 k1 k2 ?_ ?_
  · have : ((⌊lo' * 16⌋ : ℤ) : ℚ) ≤ lo' * 16 := Int.floor_le _
    have : ((⌊lo' * 16⌋ : ℤ) : ℝ) ≤ lo' * 16 := by exact_mod_cast this
    linarith
  · have : hi' * 16 ≤ ((⌈hi' * 16⌉ : ℤ) : ℚ) := Int.le_ceil _
    have : (hi' * 16 : ℝ) ≤ ((⌈hi' * 16⌉ : ℤ) : ℝ) := by exact_mod_cast this
    linarith

theorem log_abs_le {lo hi x : ℝ} (h0 : 0 < lo) (h1 : lo ≤ x) (h2 : x ≤ hi) : |Real.log x| ≤ max (hi - 1) (1 / lo - 1) := by
  have hx : 0 < x := h0.trans_le h1
  refine abs_le.2 ⟨?_, ?_⟩
  · have a := Real.log_le_sub_one_of_pos (inv_pos.2 hx)
    rw [Real.log_inv] at a
    have b : x⁻¹ ≤ 1 / lo := by rw [inv_eq_one_div]; gcongr
    have := le_max_right (hi - 1) (1 / lo - 1)
    linarith
  · have a := Real.log_le_sub_one_of_pos hx
    have := le_max_left (hi - 1) (1 / lo - 1)
    linarith

theorem rpowX_rel (F : F64) (tp : ℝ) {a b : Ball} {p q : V × V} (h : a.rel p) (h' : b.rel q) :
    RelM False Ball.rel (rpowX a b) ((fxB F tp).rpow p q) := by
  cases a with
  | num lo hi e =>
    cases b with
    | num lo' hi' e' =>
      obtain ⟨x, y, rfl, h1, h2, h3⟩ := h
      obtain ⟨x', y', rfl, h1', h2', h3'⟩ := h'
      unfold rpowX
      dsimp only
      split_ifs with hc
      · obtain ⟨c1, c2, c3, c4, c5, c6, c7, c8⟩ := hc
        have d1 : (0 : ℝ) < lo := by exact_mod_cast c1
        have d2 : (e : ℝ) ≤ lo / 200 := by
          have : ((e : ℚ) : ℝ) ≤ ((lo / 200 : ℚ) : ℝ) := by exact_mod_cast c2
          push_cast at this; exact this
        have d3 : ((powErr lo hi e lo' hi' e' : ℚ) : ℝ) ≤ 1 / 100 := by
          have : ((powErr lo hi e lo' hi' e' : ℚ) : ℝ) ≤ ((1 / 100 : ℚ) : ℝ) := by exact_mod_cast c3
          push_cast at this ⊢; exact this
        have d4 : ((pHi lo hi lo' hi' : ℚ) : ℝ) ≤ 2 ^ 90 := by
          have : ((pHi lo hi lo' hi' : ℚ) : ℝ) ≤ ((2 ^ 90 : ℚ) : ℝ) := by exact_mod_cast c4
          push_cast at this ⊢; exact this
        have hy : 0 < y := d1.trans_le h1
        have hx1 : 199 / 200 * (lo : ℝ) ≤ x := by have := (abs_le.1 h3).1; linarith
        have hx : 0 < x := lt_of_lt_of_le (by positivity) hx1
        have he : (0 : ℝ) ≤ e := (abs_nonneg _).trans h3
        have he' : (0 : ℝ) ≤ e' := (abs_nonneg _).trans h3'
        obtain ⟨r1, r2⟩ := root_range c5 c6 c7 c8 d1 h1 h2 h1' h2'
        have lg : |Real.log x * x' - Real.log y * y'| ≤ ((powErr lo hi e lo' hi' e' : ℚ) : ℝ) := by
          have a1 := Chain.log_close hx hy h3
          have a2 : (e : ℝ) / min x y ≤ 1.01 * e / lo := by
            have : 199 / 200 * (lo : ℝ) ≤ min x y := le_min hx1 (by linarith)
            calc (e : ℝ) / min x y ≤ e / (199 / 200 * lo) := div_le_div_of_nonneg_left he (by positivity) this
              _ = (200 / 199 * e) / lo := by field_simp
              _ ≤ _ := by gcongr; norm_num
          have a3 := log_abs_le d1 h1 h2
          have a4 := (abs_le_of h1' h2' h3').2
          unfold powErr
          push_cast at a4 ⊢
          calc |Real.log x * x' - Real.log y * y'| = |x' * (Real.log x - Real.log y) + (x' - y') * Real.log y| := by ring_nf
            _ ≤ |x' * (Real.log x - Real.log y)| + |(x' - y') * Real.log y| := abs_add_le _ _
            _ = |x'| * |Real.log x - Real.log y| + |x' - y'| * |Real.log y| := by rw [abs_mul, abs_mul]
            _ ≤ _ := by
              have : 0 ≤ (1.01 : ℝ) * e / lo := by positivity
              gcongr
              · exact (abs_nonneg _).trans a4
              · exact a1.trans a2
        have ex : x ^ x' = Real.exp (Real.log x * x') := Real.rpow_def_of_pos hx _
        have ey : y ^ y' = Real.exp (Real.log y * y') := Real.rpow_def_of_pos hy _
        have tot := exp_total (f := F.pow x x') lg d3 (ey ▸ r2) (ex ▸ F.pow_err x x' hx)
        rw [← ey] at tot
        have hF : ¬ (2 : ℝ) ^ 1024 ≤ F.pow x x' := by
          rw [not_le]
          have b1 := (abs_le.1 tot).2
          have t := tiny_le
          have p0 : (0 : ℝ) ≤ ((pHi lo hi lo' hi' : ℚ) : ℝ) := (Real.rpow_nonneg hy.le _).trans r2
          have b2 : ((pHi lo hi lo' hi' : ℚ) : ℝ) * (1.01 * ((powErr lo hi e lo' hi' e' : ℚ) : ℝ) + 1.02 / 2 ^ 51) ≤ 2 ^ 90 * 1 := by
            refine mul_le_mul d4 ?_ ?_ (by positivity)
            · norm_num; linarith
            · have := (abs_nonneg _).trans lg; positivity
          calc F.pow x x' ≤ 2 ^ 90 * 1 + 1 / 2 ^ 110 + 2 ^ 90 := by linarith
            _ < 2 ^ 100 := by norm_num
            _ ≤ 2 ^ 1024 := pow_le_pow_right₀ (by norm_num) (by norm_num)
        have ht : (fxB F tp).rpow (.fin x, .fin y) (.fin x', .fin y') = .ok (.fin (F.pow x x'), .fin (y ^ y')) := by
          show both ((rndB F).rpow (.fin x) (.fin x')) ((mathB tp).rpow (.fin y) (.fin y')) = _
          have e1 : (rndB F).rpow (.fin x) (.fin x') = .ok (.fin (F.pow x x')) := (if_pos hx).trans (if_neg hF)
          have e2 : (mathB tp).rpow (.fin y) (.fin y') = .ok (.fin (y ^ y')) := m_rpow hy y'
          rw [e1, e2]
          rfl
        refine relM_of_eq ht (mkRaw_rel (x := F.pow x x') (y := y ^ y') r1 r2 ?_)
        push_cast at tot ⊢
        rw [tinyQ_cast]
        exact tot
      · exact unmodelled _ _
    | deg m e => exact unmodelled _ _
    | rad m e => exact unmodelled _ _
    | top => exact unmodelled _ _
  | deg m e => exact unmodelled _ _
  | rad m e => exact unmodelled _ _
  | top => exact unmodelled _ _

end Ball

/-- The calculus with exponentials and powers is sound. -/
def ballXSim (F : F64) (tp : ℝ) : ScalarSim ballX (fxB F tp) :=
  { ballSim F tp with
    rW := fun w w' => ∃ d, w = .dt d ∧ w' = .dt d
    guard := by
      rintro _ _ ⟨d, rfl, rfl⟩
      exact RelM.mono (R := Eq) RelM.refl fun _ _ _ => trivial
    utctimetuple := by rintro _ _ ⟨d, rfl, rfl⟩; exact RelM.refl
    timestamp := by rintro _ _ ⟨d, rfl, rfl⟩; exact RelM.refl
    tm_yday := by
      rintro _ _ ⟨d, rfl, rfl⟩
      exact RelM.bind (R := Eq) RelM.refl (by rintro n _ rfl; exact Ball.lit_rel F tp _)
    tm_hour := by
      rintro _ _ ⟨d, rfl, rfl⟩
      exact RelM.bind (R := Eq) RelM.refl (by rintro n _ rfl; exact Ball.lit_rel F tp _)
    tm_min := by
      rintro _ _ ⟨d, rfl, rfl⟩
      exact RelM.bind (R := Eq) RelM.refl (by rintro n _ rfl; exact Ball.lit_rel F tp _)
    asDatetime := by rintro _ _ ⟨d, rfl, rfl⟩; exact RelM.refl
    rW_dt d := ⟨d, rfl, rfl⟩
    powN := Ball.powX_rel F tp
    cos := Ball.cosX_rel F tp
    exp := Ball.expX_rel F tp
    rpow := Ball.rpowX_rel F tp }

end Verif
