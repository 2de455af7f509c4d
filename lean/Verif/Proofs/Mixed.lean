import Verif.Py.Mixed
import Verif.Proofs.Sim2

/-!
# Scalars among scalars and arrays
-/

namespace Verif

open Pysolar Pysolar.Numeric

theorem mix_rel {β : Type} (m : Py β) : RelM True (fun (x : β) (y : Option β) => y = some x) m (some <$> m) := by
  cases m with
  | ok y => rfl
  | error e => exact fun _ => rfl

/-- Scalars behave as they do without arrays. -/
def mixScal (B : Backend) (h0 : ∀ x, B.sin x ≠ .error .zeroDivision) : Sim B (mixB B) where
  strict := True
  r := fun x y => y = some x
  rC := fun x y => y = some x
  rW := fun w w' => w' = mixWhen w
  lit _ := rfl
  pi := rfl
  e := rfl
  inf := rfl
  add := by rintro _ _ _ _ rfl rfl; rfl
  sub := by rintro _ _ _ _ rfl rfl; rfl
  mul := by rintro _ _ _ _ rfl rfl; rfl
  neg := by rintro _ _ rfl; rfl
  divq := by rintro _ _ _ rfl; rfl
  modq := by rintro _ _ _ rfl; rfl
  powN := by rintro _ _ _ rfl; rfl
  div := by rintro x _ y _ rfl rfl; exact mix_rel _
  sin := by rintro x _ rfl; exact mix_rel _
  cos := by rintro x _ rfl; exact mix_rel _
  tan := by rintro x _ rfl; exact mix_rel _
  asin := by rintro x _ rfl; exact mix_rel _
  acos := by rintro x _ rfl; exact mix_rel _
  atan := by rintro x _ rfl; exact mix_rel _
  atan2 := by rintro x _ y _ rfl rfl; exact mix_rel _
  exp := by rintro x _ rfl; exact mix_rel _
  radians := by rintro _ _ rfl; rfl
  degrees := by rintro _ _ rfl; rfl
  lt := by rintro _ _ _ _ rfl rfl; rfl
  le := by rintro _ _ _ _ rfl rfl; rfl
  where_ := by rintro _ _ _ _ _ _ rfl rfl rfl; rfl
  ofC := by rintro _ _ rfl; rfl
  recip_zero := by
    rintro x _ rfl h
    refine .inl ?_
    show some <$> B.div 1 x = _
    rw [h]
    rfl
  sin_zero := h0
  guard := by
    rintro w _ rfl
    refine RelM.mono (R := Eq) ?_ fun _ _ _ => trivial
    cases w <;> exact RelM.refl
  utctimetuple := by rintro w _ rfl; cases w <;> exact RelM.refl
  timestamp := by rintro w _ rfl; cases w <;> exact RelM.refl
  tm_yday := by
    rintro w _ rfl
    unfold Numeric.tm_yday
    show RelM True _ (if B.npTime = true then _ else _) (if B.npTime = true then _ else _)
    split_ifs
    · cases w <;> first | exact fun _ => rfl | rfl
    · refine RelM.bind (R := Eq) ?_ (by rintro _ _ rfl; rfl)
      cases w <;> exact RelM.refl
  tm_hour := by
    rintro w _ rfl
    unfold Numeric.tm_hour
    show RelM True _ (if B.npTime = true then _ else _) (if B.npTime = true then _ else _)
    split_ifs
    · cases w <;> first | exact fun _ => rfl | rfl
    · refine RelM.bind (R := Eq) ?_ (by rintro _ _ rfl; rfl)
      cases w <;> exact RelM.refl
  tm_min := by
    rintro w _ rfl
    unfold Numeric.tm_min
    show RelM True _ (if B.npTime = true then _ else _) (if B.npTime = true then _ else _)
    split_ifs
    · cases w <;> first | exact fun _ => rfl | rfl
    · refine RelM.bind (R := Eq) ?_ (by rintro _ _ rfl; rfl)
      cases w <;> exact RelM.refl

theorem mix_refl {β : Type} {m : Py β} : RelM True Eq m m := RelM.refl

/-- The operations that need a single value behave as before, too. -/
def mixScalS (B : Backend) (h0 : ∀ x, B.sin x ≠ .error .zeroDivision) : ScalarSim B (mixB B) where
  toSim := mixScal B h0
  rpow := by rintro x _ y _ rfl rfl; exact mix_rel _
  truth := by rintro _ _ rfl; exact mix_refl
  tdHours := by rintro _ _ rfl; exact mix_refl
  round := by rintro _ _ rfl; exact mix_refl
  asDatetime := by rintro w _ rfl; cases w <;> exact mix_refl
  rW_dt _ := rfl

/-- One step of a call that succeeds on scalars. -/
theorem mix_step {s : Prop} {β β' γ γ' : Type} {R : β → β' → Prop} {m : Py β} {m' : Py β'} {f : β → Py γ} {f' : β' → Py γ'}
    {v : γ} {out : Py γ'} (h : RelM s R m m') (hok : m >>= f = .ok v)
    (k : ∀ y y', R y y' → f y = .ok v → f' y' = out) : m' >>= f' = out := by
  cases m with
  | error e => cases hok
  | ok y =>
    cases m' with
    | error e => exact h.elim
    | ok y' => exact k y y' h hok

end Verif
