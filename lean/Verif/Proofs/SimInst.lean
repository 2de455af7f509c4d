import Verif.Proofs.Sim2
import Verif.Proofs.Calendar
import Verif.Spec.Backends
import Verif.Props.Time

/-!
# The simulations used: math by numpy, arrays by their entries, datetime64 by datetime
-/

namespace Verif

open Pysolar Pysolar.Numeric Verif.Spec

theorem tm_math_np {tp : ℝ} {f : Civil → ℤ} {g : DateTime → ℤ} (hfg : ∀ d c, d.utctimetuple = .ok c → f c = g d)
    (d : DateTime) : RelM False (fun (x y : V) => x = y)
      ((utctimetuple (B := mathB tp) (.dt d) >>= fun t => pure (f t)) >>= fun n => pure ((mathB tp).lit (n : ℤ)))
      (.ok ((npB tp).lit (g d))) := by
  show RelM False _ ((d.utctimetuple >>= _) >>= _) _
  cases h : d.utctimetuple with
  | error e => exact fun hf => hf.elim
  | ok c =>
    show (mathB tp).lit (f c) = (npB tp).lit (g d)
    rw [hfg d c h]
    rfl

theorem utctimetuple_ok {d : DateTime} {c : Civil} (h : d.utctimetuple = .ok c) :
    c.FieldsValid ∧ c.micros = d.utcMicros := by
  unfold DateTime.utctimetuple civilChecked at h
  dsimp only at h
  split_ifs at h
  cases h
  exact ⟨civilOfMicros_valid _, micros_civilOfMicros _⟩

/-- Close a goal saying that the outcomes in the math and numpy backends are related. -/
macro "outcomes" : tactic => `(tactic|
  (dsimp only [mathB, npB] <;> first
    | rfl
    | exact fun h => h.elim
    | (split_ifs <;> first | rfl | exact fun h => h.elim)))

section

variable (tp : ℝ)

theorem mathNp_div (x y : V) : RelM False (fun (x y : V) => x = y) ((mathB tp).div x y) ((npB tp).div x y) := by
  cases y <;> outcomes

theorem mathNp_rpow (x y : V) : RelM False (fun (x y : V) => x = y) ((mathB tp).rpow x y) ((npB tp).rpow x y) := by
  cases x <;> cases y <;> outcomes

theorem mathNp_sin (x : V) : RelM False (fun (x y : V) => x = y) ((mathB tp).sin x) ((npB tp).sin x) := by
  cases x <;> outcomes

theorem mathNp_cos (x : V) : RelM False (fun (x y : V) => x = y) ((mathB tp).cos x) ((npB tp).cos x) := by
  cases x <;> outcomes

theorem mathNp_tan (x : V) : RelM False (fun (x y : V) => x = y) ((mathB tp).tan x) ((npB tp).tan x) := by
  cases x <;> outcomes

theorem mathNp_asin (x : V) : RelM False (fun (x y : V) => x = y) ((mathB tp).asin x) ((npB tp).asin x) := by
  cases x <;> outcomes

theorem mathNp_acos (x : V) : RelM False (fun (x y : V) => x = y) ((mathB tp).acos x) ((npB tp).acos x) := by
  cases x <;> outcomes

theorem mathNp_exp (x : V) : RelM False (fun (x y : V) => x = y) ((mathB tp).exp x) ((npB tp).exp x) := by
  cases x <;> outcomes

theorem math_sin_zero (x : V) : (mathB tp).sin x ≠ .error .zeroDivision := by
  cases x <;> simp [mathB]

theorem mathNp_recip (x : V) (h : (mathB tp).div (1 : (mathB tp).α) x = .error .zeroDivision) :
    (npB tp).div (1 : (npB tp).α) x = .ok V.pinf := by
  cases x with
  | fin b =>
    by_cases hb : b = 0
    · subst hb
      show (if (0 : ℝ) = 0 then (Except.ok (V.mul (.fin ((1 : ℕ) : ℚ)) .pinf) : Py V) else _) = _
      rw [if_pos rfl]
      simp [V.mul, V.infMul]
      rfl
    · exfalso
      have : (if b = 0 then (Except.error PyErr.zeroDivision : Py V) else .ok (V.divNZ (.fin ((1 : ℕ) : ℚ)) (.fin b)))
        = .error .zeroDivision := h
      rw [if_neg hb] at this
      cases this
  | pinf => cases h
  | ninf => cases h
  | nan => cases h

end

/-- math results are numpy results. -/
noncomputable def mathNp (tp : ℝ) : ScalarSim (mathB tp) (npB tp) where
  strict := False
  r := fun (x y : V) => x = y
  rC := fun (x y : Bool) => x = y
  rW := fun w w' => ∃ d, w = .dt d ∧ w' = .dt d
  lit _ := rfl
  pi := rfl
  e := rfl
  inf := rfl
  add := by rintro _ _ _ _ rfl rfl; rfl
  sub := by rintro _ _ _ _ rfl rfl; rfl
  mul := by rintro _ _ _ _ rfl rfl; rfl
  neg := by rintro _ _ rfl; rfl
  divq := by rintro _ _ _ rfl; rfl
  modq := by rintro _ _ _ rfl; rfl
  powN := by rintro _ _ _ rfl; rfl
  div := by rintro x _ y _ rfl rfl; exact mathNp_div tp x y
  sin := by rintro x _ rfl; exact mathNp_sin tp x
  cos := by rintro x _ rfl; exact mathNp_cos tp x
  tan := by rintro x _ rfl; exact mathNp_tan tp x
  asin := by rintro x _ rfl; exact mathNp_asin tp x
  acos := by rintro x _ rfl; exact mathNp_acos tp x
  atan := by rintro x _ rfl; rfl
  atan2 := by rintro x _ y _ rfl rfl; rfl
  exp := by rintro x _ rfl; exact mathNp_exp tp x
  radians := by rintro _ _ rfl; rfl
  degrees := by rintro _ _ rfl; rfl
  lt := by rintro _ _ _ _ rfl rfl; rfl
  le := by rintro _ _ _ _ rfl rfl; rfl
  where_ := by rintro _ _ _ _ _ _ rfl rfl rfl; rfl
  ofC := by rintro _ _ rfl; rfl
  recip_zero := by rintro x _ rfl h; exact .inr ⟨_, mathNp_recip tp x h, rfl⟩
  sin_zero := math_sin_zero tp
  guard := by
    rintro _ _ ⟨d, rfl, rfl⟩
    exact RelM.mono (R := Eq) RelM.refl fun _ _ _ => trivial
  utctimetuple := by rintro _ _ ⟨d, rfl, rfl⟩; exact RelM.refl
  timestamp := by rintro _ _ ⟨d, rfl, rfl⟩; exact RelM.refl
  tm_yday := by
    rintro _ _ ⟨d, rfl, rfl⟩
    refine tm_math_np (tp := tp) (f := fun c => yday c.date) (g := tm_yday_numpy) (fun d c h => ?_) d
    obtain ⟨hv, hm⟩ := utctimetuple_ok h
    rw [tm_yday_numpy, ← hm, (Props.utcMicros_parts hv).1]
  tm_hour := by
    rintro _ _ ⟨d, rfl, rfl⟩
    refine tm_math_np (tp := tp) (f := fun c => c.hour) (g := tm_hour_numpy) (fun d c h => ?_) d
    obtain ⟨hv, hm⟩ := utctimetuple_ok h
    rw [tm_hour_numpy, ← hm, (Props.utcMicros_parts hv).2.1]
  tm_min := by
    rintro _ _ ⟨d, rfl, rfl⟩
    refine tm_math_np (tp := tp) (f := fun c => c.minute) (g := tm_min_numpy) (fun d c h => ?_) d
    obtain ⟨hv, hm⟩ := utctimetuple_ok h
    rw [tm_min_numpy, ← hm, (Props.utcMicros_parts hv).2.2]
  rpow := by rintro x _ y _ rfl rfl; exact mathNp_rpow tp x y
  truth := by rintro _ _ rfl; exact RelM.refl
  tdHours := by rintro _ _ rfl; exact RelM.refl
  round := by rintro _ _ rfl; exact RelM.refl
  asDatetime := by rintro _ _ ⟨d, rfl, rfl⟩; exact RelM.refl
  rW_dt d := ⟨d, rfl, rfl⟩

/-! ## Arrays by their entries -/

theorem seqV_total {ι α : Type} {f : ι → Py α} (h : ∀ i, ∃ y, f i = .ok y) (i : ι) :
    RelM True (fun (y : ι → α) y' => y i = y') (seqV f) (f i) := by
  unfold seqV
  rw [dif_pos h]
  have := (h i).choose_spec
  rw [this]
  rfl

section

variable (tp : ℝ)

theorem np_div_ok (x y : V) : ∃ z, (npB tp).div x y = .ok z := by
  cases y with
  | fin b => by_cases hb : b = 0 <;> simp [npB, hb]
  | _ => exact ⟨_, rfl⟩

theorem np_sin_ok (x : V) : ∃ z, (npB tp).sin x = .ok z := by cases x <;> exact ⟨_, rfl⟩
theorem np_cos_ok (x : V) : ∃ z, (npB tp).cos x = .ok z := by cases x <;> exact ⟨_, rfl⟩
theorem np_tan_ok (x : V) : ∃ z, (npB tp).tan x = .ok z := by cases x <;> exact ⟨_, rfl⟩

theorem np_asin_ok (x : V) : ∃ z, (npB tp).asin x = .ok z := by
  cases x with
  | fin b => by_cases hb : -1 ≤ b ∧ b ≤ 1 <;> simp [npB, hb]
  | _ => exact ⟨_, rfl⟩

theorem np_acos_ok (x : V) : ∃ z, (npB tp).acos x = .ok z := by
  cases x with
  | fin b => by_cases hb : -1 ≤ b ∧ b ≤ 1 <;> simp [npB, hb]
  | _ => exact ⟨_, rfl⟩

theorem np_exp_ok (x : V) : ∃ z, (npB tp).exp x = .ok z := by
  cases x with
  | fin b =>
    dsimp only [npB]
    split_ifs <;> exact ⟨_, rfl⟩
  | _ => exact ⟨_, rfl⟩

end

/-- The `i`-th entry of an array computation is the computation on the `i`-th entries. -/
noncomputable def arrEntry (tp : ℝ) {ι : Type} (i : ι) : Sim (arrB tp ι) (npB tp) where
  strict := True
  r := fun (x : ι → V) (x' : V) => x i = x'
  rC := fun (x : ι → Bool) (x' : Bool) => x i = x'
  rW := fun w w' => w' = entryW i w
  lit _ := rfl
  pi := rfl
  e := rfl
  inf := rfl
  add := by rintro _ _ _ _ rfl rfl; rfl
  sub := by rintro _ _ _ _ rfl rfl; rfl
  mul := by rintro _ _ _ _ rfl rfl; rfl
  neg := by rintro _ _ rfl; rfl
  divq := by rintro _ _ _ rfl; rfl
  modq := by rintro _ _ _ rfl; rfl
  powN := by rintro _ _ _ rfl; rfl
  div := by rintro x _ y _ rfl rfl; exact seqV_total (fun j => np_div_ok tp (x j) (y j)) i
  sin := by rintro x _ rfl; exact seqV_total (fun j => np_sin_ok tp (x j)) i
  cos := by rintro x _ rfl; exact seqV_total (fun j => np_cos_ok tp (x j)) i
  tan := by rintro x _ rfl; exact seqV_total (fun j => np_tan_ok tp (x j)) i
  asin := by rintro x _ rfl; exact seqV_total (fun j => np_asin_ok tp (x j)) i
  acos := by rintro x _ rfl; exact seqV_total (fun j => np_acos_ok tp (x j)) i
  atan := by rintro x _ rfl; exact seqV_total (fun j => ⟨_, rfl⟩) i
  atan2 := by rintro x _ y _ rfl rfl; exact seqV_total (fun j => ⟨_, rfl⟩) i
  exp := by rintro x _ rfl; exact seqV_total (fun j => np_exp_ok tp (x j)) i
  radians := by rintro _ _ rfl; rfl
  degrees := by rintro _ _ rfl; rfl
  lt := by rintro _ _ _ _ rfl rfl; rfl
  le := by rintro _ _ _ _ rfl rfl; rfl
  where_ := by rintro _ _ _ _ _ _ rfl rfl rfl; rfl
  ofC := by rintro _ _ rfl; rfl
  recip_zero := by
    rintro x _ rfl h
    exfalso
    have := seqV_total (fun j => np_div_ok tp (.fin ((1 : ℕ) : ℚ)) (x j)) i
    have h' : seqV (fun j => (npB tp).div (.fin ((1 : ℕ) : ℚ)) (x j)) = .error .zeroDivision := h
    rw [h'] at this
    obtain ⟨y, hy⟩ := np_div_ok tp (.fin ((1 : ℕ) : ℚ)) (x i)
    have h2 := this trivial
    rw [hy] at h2
    cases h2
  sin_zero := by
    intro x h
    have h' : seqV (fun j => (npB tp).sin (x j)) = .error .zeroDivision := h
    have := seqV_total (fun j => np_sin_ok tp (x j)) i
    rw [h'] at this
    obtain ⟨y, hy⟩ := np_sin_ok tp (x i)
    have h2 := this trivial
    rw [hy] at h2
    cases h2
  guard := by
    rintro w _ rfl
    cases w <;> exact RelM.mono (R := Eq) RelM.refl fun _ _ _ => trivial
  utctimetuple := by rintro w _ rfl; cases w <;> exact RelM.refl
  timestamp := by rintro w _ rfl; cases w <;> exact RelM.refl
  tm_yday := by
    rintro w _ rfl
    cases w <;> first | rfl | exact fun _ => rfl
  tm_hour := by
    rintro w _ rfl
    cases w <;> first | rfl | exact fun _ => rfl
  tm_min := by
    rintro w _ rfl
    cases w <;> first | rfl | exact fun _ => rfl

theorem entry_of_rel {ι β : Type} {i : ι} {m : Py (ι → β)} {m' : Py β}
    (h : RelM True (fun (y : ι → β) y' => y i = y') m m') : m' = entry i m := by
  cases m with
  | error e => exact h trivial
  | ok y =>
    cases m' with
    | error e => exact h.elim
    | ok y' => exact congrArg _ h.symm

theorem entry2_of_rel {ι β : Type} {i : ι} {m : Py ((ι → β) × (ι → β))} {m' : Py (β × β)}
    (h : RelM True (fun (y : (ι → β) × (ι → β)) y' => y.1 i = y'.1 ∧ y.2 i = y'.2) m m') : m' = entry2 i m := by
  cases m with
  | error e => exact h trivial
  | ok y =>
    cases m' with
    | error e => exact h.elim
    | ok y' =>
      obtain ⟨h1, h2⟩ := (show y.1 i = y'.1 ∧ y.2 i = y'.2 from h)
      show (Except.ok y' : Py (β × β)) = .ok (y.1 i, y.2 i)
      rw [h1, h2]

/-! ## datetime64 by datetime -/

/-- A numpy call with a `datetime64` is the call with the aware datetime of that instant. -/
noncomputable def npInstant (tp : ℝ) : Sim (npB tp) (npB tp) where
  strict := False
  r := Eq
  rC := Eq
  rW := fun w w' => ∃ (d : DateTime) (t : ℤ), Denotes d t ∧ w = .arr t ∧ w' = .dt d
  lit _ := rfl
  pi := rfl
  e := rfl
  inf := rfl
  add := by rintro _ _ _ _ rfl rfl; rfl
  sub := by rintro _ _ _ _ rfl rfl; rfl
  mul := by rintro _ _ _ _ rfl rfl; rfl
  neg := by rintro _ _ rfl; rfl
  divq := by rintro _ _ _ rfl; rfl
  modq := by rintro _ _ _ rfl; rfl
  powN := by rintro _ _ _ rfl; rfl
  div := by rintro x _ y _ rfl rfl; exact RelM.refl
  sin := by rintro x _ rfl; exact RelM.refl
  cos := by rintro x _ rfl; exact RelM.refl
  tan := by rintro x _ rfl; exact RelM.refl
  asin := by rintro x _ rfl; exact RelM.refl
  acos := by rintro x _ rfl; exact RelM.refl
  atan := by rintro x _ rfl; rfl
  atan2 := by rintro x _ y _ rfl rfl; rfl
  exp := by rintro x _ rfl; exact RelM.refl
  radians := by rintro _ _ rfl; rfl
  degrees := by rintro _ _ rfl; rfl
  lt := by rintro _ _ _ _ rfl rfl; rfl
  le := by rintro _ _ _ _ rfl rfl; rfl
  where_ := by rintro _ _ _ _ _ _ rfl rfl rfl; rfl
  ofC := by rintro _ _ rfl; rfl
  recip_zero := by rintro x _ rfl h; exact .inl h
  sin_zero := by
    intro x h
    obtain ⟨y, hy⟩ := np_sin_ok tp x
    have h' : (npB tp).sin x = .error .zeroDivision := h
    rw [hy] at h'
    cases h'
  guard := by
    rintro _ _ ⟨d, t, hd, rfl, rfl⟩
    rw [guard_denotes hd]
    exact RelM.ok trivial
  utctimetuple := by rintro _ _ ⟨d, t, hd, rfl, rfl⟩; exact fun h => h.elim
  timestamp := by rintro _ _ ⟨d, t, hd, rfl, rfl⟩; exact fun h => h.elim
  tm_yday := by
    rintro _ _ ⟨d, t, hd, rfl, rfl⟩
    show (V.fin ((ydayOfMicros t : ℤ) : ℝ)) = V.fin (((ydayOfMicros d.utcMicros : ℤ) : ℚ) : ℝ)
    rw [utcMicros_of_denotes hd, Rat.cast_intCast]
  tm_hour := by
    rintro _ _ ⟨d, t, hd, rfl, rfl⟩
    show (V.fin ((hourOfMicros t : ℤ) : ℝ)) = V.fin (((hourOfMicros d.utcMicros : ℤ) : ℚ) : ℝ)
    rw [utcMicros_of_denotes hd, Rat.cast_intCast]
  tm_min := by
    rintro _ _ ⟨d, t, hd, rfl, rfl⟩
    show (V.fin ((minOfMicros t : ℤ) : ℝ)) = V.fin (((minOfMicros d.utcMicros : ℤ) : ℚ) : ℝ)
    rw [utcMicros_of_denotes hd, Rat.cast_intCast]

end Verif
