import Verif.Py.Real
import Verif.Model.Util
import Verif.Model.Radiation
import Verif.Model.Elevation
import Verif.Spec.Geometry

/-!
# Evaluation lemmas: the `math` backend on finite reals
-/

namespace Verif

open Verif.Spec (rad deg mod360)

@[simp] theorem ok_bind {α β : Type} (x : α) (f : α → Py β) :
    (Except.ok x >>= f : Py β) = f x := rfl

@[simp] theorem error_bind {α β : Type} (e : PyErr) (f : α → Py β) :
    ((Except.error e : Py α) >>= f : Py β) = Except.error e := rfl

@[simp] theorem pure_eq_ok {α : Type} (x : α) : (pure x : Py α) = Except.ok x := rfl

section

variable {tp : ℝ}

/-- A finite float of the `math` backend. -/
def num (x : ℝ) : (mathB tp).α := V.fin x

/-- A boolean of the `math` backend. -/
noncomputable def mb (c : Prop) : (mathB tp).C := @decide c (Classical.propDecidable c)

theorem num_injective : Function.Injective (num : ℝ → (mathB tp).α) := fun _ _ h => V.fin.inj h

@[simp] theorem num_inj {a b : ℝ} : (num a : (mathB tp).α) = num b ↔ a = b := num_injective.eq_iff

@[simp] theorem m_ofNat (n : ℕ) :
    (@OfNat.ofNat (mathB tp).α n (Backend.instOfNatα n)) = num ((OfNat.ofNat n : ℕ) : ℝ) := by
  show V.fin _ = V.fin _
  congr 1

@[simp] theorem m_sci (m : ℕ) (s : Bool) (e : ℕ) :
    (@OfScientific.ofScientific (mathB tp).α Backend.instOfScientificα m s e) =
      num (OfScientific.ofScientific m s e : ℝ) := by
  show V.fin _ = V.fin _
  congr 1

@[simp] theorem m_lit (q : ℚ) : (mathB tp).lit q = num (q : ℝ) := rfl
@[simp] theorem m_pi : (mathB tp).pi = num Real.pi := rfl
@[simp] theorem m_e : (mathB tp).e = num (Real.exp 1) := rfl
@[simp] theorem m_add (a b : ℝ) : (num a + num b : (mathB tp).α) = num (a + b) := rfl
@[simp] theorem m_sub (a b : ℝ) : (num a - num b : (mathB tp).α) = num (a - b) := rfl
@[simp] theorem m_mul (a b : ℝ) : (num a * num b : (mathB tp).α) = num (a * b) := rfl
@[simp] theorem m_neg (a : ℝ) : (-num a : (mathB tp).α) = num (-a) := rfl
@[simp] theorem m_divq (a : ℝ) (q : ℚ) : (mathB tp).divq (num a) q = num (a / (q : ℝ)) := rfl
theorem m_modq (a : ℝ) (q : ℚ) :
    (mathB tp).modq (num a) q = num (a - (q : ℝ) * ⌊a / (q : ℝ)⌋) := rfl
@[simp] theorem m_pow (a : ℝ) (n : ℕ) : ((num a : (mathB tp).α) ^ n : (mathB tp).α) = num (a ^ n) := by
  show V.powN (V.fin a) n = V.fin (a ^ n)
  cases n <;> simp [V.powN]
@[simp] theorem m_sin (a : ℝ) : (mathB tp).sin (num a) = .ok (num (Real.sin a)) := rfl
@[simp] theorem m_cos (a : ℝ) : (mathB tp).cos (num a) = .ok (num (Real.cos a)) := rfl
open scoped Classical in
/-- The idealised tangent: `tp` at the poles. -/
noncomputable def tanP (tp a : ℝ) : ℝ := if Real.cos a = 0 then tp else Real.tan a
theorem tanP_of_ne {a : ℝ} (h : Real.cos a ≠ 0) : tanP tp a = Real.tan a := if_neg h
@[simp] theorem m_tan (a : ℝ) : (mathB tp).tan (num a) = .ok (num (tanP tp a)) := rfl
@[simp] theorem m_atan (a : ℝ) : (mathB tp).atan (num a) = .ok (num (Real.arctan a)) := rfl
@[simp] theorem m_atan2 (y x : ℝ) :
    (mathB tp).atan2 (num y) (num x) = .ok (num (Complex.arg ⟨x, y⟩)) := rfl
@[simp] theorem m_radians (a : ℝ) : (mathB tp).radians (num a) = num (rad a) := rfl
@[simp] theorem m_degrees (a : ℝ) : (mathB tp).degrees (num a) = num (deg a) := rfl
@[simp] theorem m_mod360 (a : ℝ) : (mathB tp).modq (num a) 360 = num (mod360 a) := by
  show V.fin _ = V.fin _
  simp [mod360]
@[simp] theorem m_lt (a b : ℝ) : (mathB tp).lt (num a) (num b) = mb (a < b) := rfl
@[simp] theorem m_le (a b : ℝ) : (mathB tp).le (num a) (num b) = mb (a ≤ b) := rfl
open scoped Classical in
@[simp] theorem m_where (c : Prop) (x y : (mathB tp).α) :
    (mathB tp).where_ (mb c) x y = if c then x else y := by
  show (if (decide c : Bool) then x else y) = _
  by_cases h : c <;> simp [h]
open scoped Classical in
@[simp] theorem m_ofC (c : Prop) : (mathB tp).ofC (mb c) = if c then num 1 else num 0 := by
  show (if (decide c : Bool) then V.fin 1 else V.fin 0) = if c then V.fin 1 else V.fin 0
  by_cases h : c <;> simp [h]
open scoped Classical in
@[simp] theorem m_truth (c : Prop) : (mathB tp).truth (mb c) = .ok (decide c) := rfl
@[simp] theorem m_round (a : ℝ) : (mathB tp).round (num a) = .ok (roundHalfEven a) := rfl
@[simp] theorem m_tdHours (a : ℝ) : (mathB tp).tdHours (num a) = tdHoursV (.fin a) := rfl
@[simp] theorem m_npTime : (mathB tp).npTime = false := rfl

theorem m_div (a : ℝ) {b : ℝ} (h : b ≠ 0) :
    (mathB tp).div (num a) (num b) = .ok (num (a / b)) := if_neg h
theorem m_div_zero (x : (mathB tp).α) : (mathB tp).div x (num 0) = .error .zeroDivision := if_pos rfl
theorem m_asin {a : ℝ} (h : -1 ≤ a ∧ a ≤ 1) :
    (mathB tp).asin (num a) = .ok (num (Real.arcsin a)) := if_pos h
theorem m_asin_err {a : ℝ} (h : ¬ (-1 ≤ a ∧ a ≤ 1)) :
    (mathB tp).asin (num a) = .error .valueError := if_neg h
theorem m_acos {a : ℝ} (h : -1 ≤ a ∧ a ≤ 1) :
    (mathB tp).acos (num a) = .ok (num (Real.arccos a)) := if_pos h
theorem m_acos_err {a : ℝ} (h : ¬ (-1 ≤ a ∧ a ≤ 1)) :
    (mathB tp).acos (num a) = .error .valueError := if_neg h
theorem m_exp {a : ℝ} (h : Real.exp a < 2 ^ 1024) :
    (mathB tp).exp (num a) = .ok (num (Real.exp a)) := if_neg (not_le.mpr h)
theorem m_exp_err {a : ℝ} (h : 2 ^ 1024 ≤ Real.exp a) :
    (mathB tp).exp (num a) = .error .overflow := if_pos h
theorem m_rpow {a : ℝ} (h : 0 < a) (b : ℝ) :
    (mathB tp).rpow (num a) (num b) = .ok (num (a ^ b)) := if_pos h

end

end Verif
