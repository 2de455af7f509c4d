import Verif.Py.Shapes
import Verif.Proofs.Sim2
import Verif.Proofs.Position
import Verif.Proofs.FastEval

/-!
# Broadcasting of shapes
-/

namespace Verif

open Pysolar Pysolar.Numeric

theorem bcAxis_comm (a b : ℕ) : bcAxis a b = bcAxis b a := by
  unfold bcAxis
  split_ifs <;> simp_all

theorem bcAxis_self (a : ℕ) : bcAxis a a = some a := if_pos rfl

theorem bcAxis_assoc (a b c : ℕ) : ((bcAxis a b).bind fun p => bcAxis p c) = (bcAxis b c).bind fun q => bcAxis a q := by
  unfold bcAxis
  by_cases h1 : a = b <;> by_cases h2 : a = 1 <;> by_cases h3 : b = 1 <;> by_cases h4 : b = c <;> by_cases h5 : c = 1 <;>
    by_cases h6 : a = c <;> simp_all

theorem bcShape_nil_left (x : Shape) : bcShape [] x = some x := by cases x <;> rfl

theorem bcShape_nil_right (x : Shape) : bcShape x [] = some x := by cases x <;> rfl

theorem bcShape_cons (a b : ℕ) (x y : Shape) :
    bcShape (a :: x) (b :: y) = Option.map₂ List.cons (bcAxis a b) (bcShape x y) := rfl

theorem bcShape_comm : ∀ x y : Shape, bcShape x y = bcShape y x
  | [], y => by rw [bcShape_nil_left, bcShape_nil_right]
  | a :: x, [] => by rw [bcShape_nil_left, bcShape_nil_right]
  | a :: x, b :: y => by rw [bcShape_cons, bcShape_cons, bcAxis_comm, bcShape_comm x y]

theorem bcShape_self : ∀ x : Shape, bcShape x x = some x
  | [] => rfl
  | a :: x => by rw [bcShape_cons, bcAxis_self, bcShape_self x]; rfl

theorem bcShape_assoc : ∀ x y z : Shape,
    ((bcShape x y).bind fun p => bcShape p z) = (bcShape y z).bind fun q => bcShape x q
  | [], y, z => by simp [bcShape_nil_left]
  | a :: x, [], z => by simp [bcShape_nil_left, bcShape_nil_right]
  | a :: x, b :: y, [] => by
    rw [bcShape_nil_right]
    cases h : bcShape (a :: x) (b :: y) <;> simp [bcShape_nil_right, h]
  | a :: x, b :: y, c :: z => by
    rw [bcShape_cons, bcShape_cons]
    have e1 : ((Option.map₂ List.cons (bcAxis a b) (bcShape x y)).bind fun p => bcShape p (c :: z)) =
        Option.map₂ List.cons ((bcAxis a b).bind fun p => bcAxis p c) ((bcShape x y).bind fun p => bcShape p z) := by
      cases bcAxis a b <;> cases bcShape x y <;> simp [bcShape_cons]
    have e2 : ((Option.map₂ List.cons (bcAxis b c) (bcShape y z)).bind fun q => bcShape (a :: x) q) =
        Option.map₂ List.cons ((bcAxis b c).bind fun q => bcAxis a q) ((bcShape y z).bind fun q => bcShape x q) := by
      cases bcAxis b c <;> cases bcShape y z <;> simp [bcShape_cons]
    rw [e1, e2, bcAxis_assoc, bcShape_assoc x y z]

theorem bc_comm (x y : Option Shape) : bc x y = bc y x := by
  cases x <;> cases y <;> simp [bc, bcShape_comm]

theorem bc_self (x : Option Shape) : bc x x = x := by
  cases x <;> simp [bc, bcShape_self]

theorem bc_assoc (x y z : Option Shape) : bc (bc x y) z = bc x (bc y z) := by
  cases x with
  | none => rfl
  | some x =>
    cases y with
    | none => rfl
    | some y =>
      cases z with
      | none => simp [bc]
      | some z => simpa [bc] using bcShape_assoc x y z

theorem bc_nil_left (x : Option Shape) : bc (some []) x = x := by
  cases x <;> simp [bc, bcShape_nil_left]

theorem bc_nil_right (x : Option Shape) : bc x (some []) = x := by rw [bc_comm, bc_nil_left]

theorem bc_none_left (x : Option Shape) : bc none x = none := rfl

theorem bc_left_self (x y : Option Shape) : bc x (bc x y) = bc x y := by rw [← bc_assoc, bc_self]

theorem bc_left_comm (x y z : Option Shape) : bc x (bc y z) = bc y (bc x z) := by
  rw [← bc_assoc, bc_comm x y, bc_assoc]

instance : Std.Commutative bc := ⟨bc_comm⟩
instance : Std.Associative bc := ⟨bc_assoc⟩
instance : Std.IdempotentOp bc := ⟨bc_self⟩
instance : Std.LawfulIdentity bc (some []) where
  left_id := bc_nil_left
  right_id := bc_nil_right

/-- The size of an axis, counted from the last; missing axes count as 1. -/
def axis (x : Shape) (i : ℕ) : ℕ := x.getD i 1

theorem bcAxis_eq_some {a b c : ℕ} : bcAxis a b = some c ↔ (a = b ∨ a = 1 ∨ b = 1) ∧ c = if a = 1 then b else a := by
  unfold bcAxis
  split_ifs <;> simp_all [eq_comm]

/-- The rule of numpy's documentation, axis by axis. -/
theorem bcShape_eq_some : ∀ x y z : Shape, bcShape x y = some z ↔
    z.length = max x.length y.length ∧
      ∀ i, (axis x i = axis y i ∨ axis x i = 1 ∨ axis y i = 1) ∧ axis z i = if axis x i = 1 then axis y i else axis x i
  | [], y, z => by
    rw [bcShape_nil_left, Option.some_inj]
    constructor
    · rintro rfl
      exact ⟨by simp, fun i => by simp [axis]⟩
    · rintro ⟨hl, h⟩
      refine List.ext_getElem (by simpa using hl.symm) fun i h1 h2 => ?_
      have := (h i).2
      simpa [axis, h1, h2] using this.symm
  | a :: x, [], z => by
    rw [bcShape_nil_right, Option.some_inj]
    constructor
    · rintro rfl
      refine ⟨by simp, fun i => ?_⟩
      have : axis [] i = 1 := rfl
      rw [this]
      refine ⟨.inr (.inr rfl), ?_⟩
      split_ifs with h <;> simp [h]
    · rintro ⟨hl, h⟩
      refine List.ext_getElem (by simpa using hl.symm) fun i h1 h2 => ?_
      have e := (h i).2
      have : axis [] i = 1 := rfl
      rw [this] at e
      have e' : axis z i = axis (a :: x) i := by
        rw [e]; split_ifs with h <;> simp [h]
      unfold axis at e'
      rw [List.getD_eq_getElem?_getD, List.getD_eq_getElem?_getD, List.getElem?_eq_getElem h1, List.getElem?_eq_getElem h2] at e'
      exact e'.symm
  | a :: x, b :: y, z => by
    rw [bcShape_cons, Option.map₂_eq_some_iff]
    constructor
    · rintro ⟨c, w, hc, hw, rfl⟩
      obtain ⟨hl, h⟩ := (bcShape_eq_some x y w).1 hw
      refine ⟨by simp [hl], fun i => ?_⟩
      cases i with
      | zero => exact bcAxis_eq_some.1 hc
      | succ i => exact h i
    · rintro ⟨hl, h⟩
      cases z with
      | nil => simp at hl
      | cons c w =>
        refine ⟨c, w, bcAxis_eq_some.2 (h 0), (bcShape_eq_some x y w).2 ⟨?_, fun i => h (i + 1)⟩, rfl⟩
        simpa using hl

/-! ## The model functions on shapes -/

variable {b : Bool} {k : ℤ} {tp : ℝ}

/-- A value of a shape. -/
def sh (x : Option Shape) : (shapeB b k).α := x

/-- A comparison of a shape. -/
def shC (x : Option Shape) : (shapeB b k).C := x

theorem sh_add (x y : Option Shape) : (sh x + sh y : (shapeB b k).α) = sh (bc x y) := rfl
theorem sh_sub (x y : Option Shape) : (sh x - sh y : (shapeB b k).α) = sh (bc x y) := rfl
theorem sh_mul (x y : Option Shape) : (sh x * sh y : (shapeB b k).α) = sh (bc x y) := rfl
theorem sh_neg (x : Option Shape) : (-sh x : (shapeB b k).α) = sh x := rfl
theorem sh_pow (x : Option Shape) (n : ℕ) : (sh x : (shapeB b k).α) ^ n = sh x := rfl
theorem sh_ofNat (n : ℕ) [n.AtLeastTwo] : (OfNat.ofNat n : (shapeB b k).α) = sh (some []) := rfl
theorem sh_zero : (0 : (shapeB b k).α) = sh (some []) := rfl
theorem sh_one : (1 : (shapeB b k).α) = sh (some []) := rfl
theorem sh_sci (m : ℕ) (s : Bool) (e : ℕ) : (OfScientific.ofScientific m s e : (shapeB b k).α) = sh (some []) := rfl
theorem sh_lit (q : ℚ) : (shapeB b k).lit q = sh (some []) := rfl
theorem sh_pi : (shapeB b k).pi = sh (some []) := rfl
theorem sh_inf : (shapeB b k).inf = sh (some []) := rfl
theorem sh_sin (x : Option Shape) : (shapeB b k).sin (sh x) = .ok (sh x) := rfl
theorem sh_cos (x : Option Shape) : (shapeB b k).cos (sh x) = .ok (sh x) := rfl
theorem sh_tan (x : Option Shape) : (shapeB b k).tan (sh x) = .ok (sh x) := rfl
theorem sh_asin (x : Option Shape) : (shapeB b k).asin (sh x) = .ok (sh x) := rfl
theorem sh_acos (x : Option Shape) : (shapeB b k).acos (sh x) = .ok (sh x) := rfl
theorem sh_atan (x : Option Shape) : (shapeB b k).atan (sh x) = .ok (sh x) := rfl
theorem sh_exp (x : Option Shape) : (shapeB b k).exp (sh x) = .ok (sh x) := rfl
theorem sh_div (x y : Option Shape) : (shapeB b k).div (sh x) (sh y) = .ok (sh (bc x y)) := rfl
theorem sh_rpow (x y : Option Shape) : (shapeB b k).rpow (sh x) (sh y) = .ok (sh (bc x y)) := rfl
theorem sh_atan2 (x y : Option Shape) : (shapeB b k).atan2 (sh x) (sh y) = .ok (sh (bc x y)) := rfl
theorem sh_radians (x : Option Shape) : (shapeB b k).radians (sh x) = sh x := rfl
theorem sh_degrees (x : Option Shape) : (shapeB b k).degrees (sh x) = sh x := rfl
theorem sh_divq (x : Option Shape) (q : ℚ) : (shapeB b k).divq (sh x) q = sh x := rfl
theorem sh_modq (x : Option Shape) (q : ℚ) : (shapeB b k).modq (sh x) q = sh x := rfl
theorem sh_lt (x y : Option Shape) : (shapeB b k).lt (sh x) (sh y) = shC (bc x y) := rfl
theorem sh_le (x y : Option Shape) : (shapeB b k).le (sh x) (sh y) = shC (bc x y) := rfl
theorem sh_where (c x y : Option Shape) : (shapeB b k).where_ (shC c) (sh x) (sh y) = sh (bc c (bc x y)) := rfl
theorem sh_ofC (c : Option Shape) : (shapeB b k).ofC (shC c) = sh c := rfl

/-- Shapes of the operations of a formula. -/
macro "shapes" : tactic => `(tactic| simp -implicitDefEqProofs only [sh_add, sh_sub, sh_mul, sh_neg, sh_pow, sh_ofNat, sh_zero, sh_one, sh_sci,
  sh_lit, sh_pi, sh_sin, sh_cos, sh_tan, sh_asin, sh_acos, sh_atan, sh_exp, sh_div, sh_rpow, sh_atan2, sh_radians, sh_degrees,
  sh_divq, sh_modq, sh_lt, sh_le, sh_where, sh_ofC, ok_bind, pure_eq_ok, bc_nil_left, bc_nil_right])

/-- Numbers stay numbers: a simulation of the shapes by the exact reals. -/
def shScal (tp : ℝ) (b : Bool) (k : ℤ) : Sim (mathB tp) (shapeB b k) where
  strict := False
  r := fun _ s => s = some []
  rC := fun _ s => s = some []
  rW := fun w w' => ∃ d, w = .dt d ∧ w' = .dt d
  lit _ := rfl
  pi := rfl
  e := rfl
  inf := rfl
  add := by rintro _ _ _ _ rfl rfl; rfl
  sub := by rintro _ _ _ _ rfl rfl; rfl
  mul := by rintro _ _ _ _ rfl rfl; rfl
  neg := by rintro _ _ rfl; rfl
  divq := by rintro _ _ _ rfl; rfl
  modq := by rintro _ _ _ rfl; rfl
  powN := by rintro _ _ _ rfl; rfl
  div := by rintro x _ y _ rfl rfl; cases (mathB tp).div x y <;> first | rfl | exact False.elim
  sin := by rintro x _ rfl; cases (mathB tp).sin x <;> first | rfl | exact False.elim
  cos := by rintro x _ rfl; cases (mathB tp).cos x <;> first | rfl | exact False.elim
  tan := by rintro x _ rfl; cases (mathB tp).tan x <;> first | rfl | exact False.elim
  asin := by rintro x _ rfl; cases (mathB tp).asin x <;> first | rfl | exact False.elim
  acos := by rintro x _ rfl; cases (mathB tp).acos x <;> first | rfl | exact False.elim
  atan := by rintro x _ rfl; cases (mathB tp).atan x <;> first | rfl | exact False.elim
  atan2 := by rintro x _ y _ rfl rfl; cases (mathB tp).atan2 x y <;> first | rfl | exact False.elim
  exp := by rintro x _ rfl; cases (mathB tp).exp x <;> first | rfl | exact False.elim
  radians := by rintro _ _ rfl; rfl
  degrees := by rintro _ _ rfl; rfl
  lt := by rintro _ _ _ _ rfl rfl; rfl
  le := by rintro _ _ _ _ rfl rfl; rfl
  where_ := by rintro _ _ _ _ _ _ rfl rfl rfl; rfl
  ofC := by rintro _ _ rfl; rfl
  recip_zero := by rintro x _ rfl _; exact .inr ⟨_, rfl, rfl⟩
  sin_zero := by intro x h; cases x <;> cases h
  guard := by rintro _ _ ⟨d, rfl, rfl⟩; exact RelM.mono RelM.refl fun _ _ _ => trivial
  utctimetuple := by rintro _ _ ⟨d, rfl, rfl⟩; exact RelM.refl
  timestamp := by rintro _ _ ⟨d, rfl, rfl⟩; exact RelM.refl
  tm_yday := by
    rintro _ _ ⟨d, rfl, rfl⟩
    cases tm_yday (mathB tp) (.dt d) <;> first | rfl | exact False.elim
  tm_hour := by
    rintro _ _ ⟨d, rfl, rfl⟩
    cases tm_hour (mathB tp) (.dt d) <;> first | rfl | exact False.elim
  tm_min := by
    rintro _ _ ⟨d, rfl, rfl⟩
    cases tm_min (mathB tp) (.dt d) <;> first | rfl | exact False.elim

/-- A call with numbers that returns gives a number. -/
theorem sh_of {m : Py (mathB tp).α} {m' : Py (shapeB b k).α} (h : RelM False (fun _ s => s = some []) m m') {v : (mathB tp).α}
    (hm : m = .ok v) : m' = .ok (sh (some [])) := by
  obtain ⟨y, h1, rfl⟩ := h.of_ok hm
  exact h1

end Verif
