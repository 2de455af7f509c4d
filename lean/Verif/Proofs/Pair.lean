import Verif.Proofs.Sim2
import Verif.Py.Rounded

/-!
# Running two backends side by side
-/

namespace Verif

open Pysolar Pysolar.Numeric

/-- Both outcomes, if both are values. -/
def both {β γ : Type} : Py β → Py γ → Py (β × γ)
  | .ok x, .ok y => .ok (x, y)
  | _, _ => .error .unmodelled

/-- The common outcome. -/
def same {β : Type} [DecidableEq β] : Py β → Py β → Py β
  | .ok x, .ok y => if x = y then .ok x else .error .unmodelled
  | _, _ => .error .unmodelled

/-- Two backends side by side, on scalars; defined as long as neither raises and both branch alike. -/
def pairB (B B' : Backend) : Backend where
  α := B.α × B'.α
  C := B.C × B'.C
  T := Empty
  lit q := (B.lit q, B'.lit q)
  pi := (B.pi, B'.pi)
  e := (B.e, B'.e)
  inf := (B.inf, B'.inf)
  add x y := (B.add x.1 y.1, B'.add x.2 y.2)
  sub x y := (B.sub x.1 y.1, B'.sub x.2 y.2)
  mul x y := (B.mul x.1 y.1, B'.mul x.2 y.2)
  neg x := (B.neg x.1, B'.neg x.2)
  divq x q := (B.divq x.1 q, B'.divq x.2 q)
  modq x q := (B.modq x.1 q, B'.modq x.2 q)
  powN x n := (B.powN x.1 n, B'.powN x.2 n)
  div x y := both (B.div x.1 y.1) (B'.div x.2 y.2)
  rpow x y := both (B.rpow x.1 y.1) (B'.rpow x.2 y.2)
  sin x := both (B.sin x.1) (B'.sin x.2)
  cos x := both (B.cos x.1) (B'.cos x.2)
  tan x := both (B.tan x.1) (B'.tan x.2)
  asin x := both (B.asin x.1) (B'.asin x.2)
  acos x := both (B.acos x.1) (B'.acos x.2)
  atan x := both (B.atan x.1) (B'.atan x.2)
  atan2 x y := both (B.atan2 x.1 y.1) (B'.atan2 x.2 y.2)
  exp x := both (B.exp x.1) (B'.exp x.2)
  radians x := (B.radians x.1, B'.radians x.2)
  degrees x := (B.degrees x.1, B'.degrees x.2)
  lt x y := (B.lt x.1 y.1, B'.lt x.2 y.2)
  le x y := (B.le x.1 y.1, B'.le x.2 y.2)
  where_ c x y := (B.where_ c.1 x.1 y.1, B'.where_ c.2 x.2 y.2)
  ofC c := (B.ofC c.1, B'.ofC c.2)
  truth c := same (B.truth c.1) (B'.truth c.2)
  tdHours x := same (B.tdHours x.1) (B'.tdHours x.2)
  round x := same (B.round x.1) (B'.round x.2)
  npTime := false
  arrYday := Empty.elim
  arrHour := Empty.elim
  arrMin := Empty.elim

theorem both_fst {β γ : Type} (x : Py β) (y : Py γ) : RelM False (fun (p : β × γ) (a : β) => p.1 = a) (both x y) x := by
  cases x <;> cases y <;> first | rfl | exact fun h => h.elim

theorem both_snd {β γ : Type} (x : Py β) (y : Py γ) : RelM False (fun (p : β × γ) (b : γ) => p.2 = b) (both x y) y := by
  cases x <;> cases y <;> first | rfl | exact fun h => h.elim

theorem same_fst {β : Type} [DecidableEq β] (x y : Py β) : RelM False Eq (same x y) x := by
  cases x with
  | error e => exact fun h => h.elim
  | ok a =>
    cases y with
    | error e => exact fun h => h.elim
    | ok b =>
      unfold same
      dsimp only
      split_ifs
      · rfl
      · exact fun h => h.elim

theorem same_snd {β : Type} [DecidableEq β] (x y : Py β) : RelM False Eq (same x y) y := by
  cases x with
  | error e => cases y <;> exact fun h => h.elim
  | ok a =>
    cases y with
    | error e => exact fun h => h.elim
    | ok b =>
      unfold same
      dsimp only
      split_ifs with h
      · exact h
      · exact fun h => h.elim

theorem both_ne {β γ : Type} (x : Py β) (y : Py γ) : both x y ≠ .error .zeroDivision := by
  cases x <;> cases y <;> intro h <;> cases h

/-- The first component of a run of the pair is the run of the first backend. -/
def pairFst (B B' : Backend) (h : B.npTime = false) : ScalarSim (pairB B B') B where
  strict := False
  r := fun p x => p.1 = x
  rC := fun p x => p.1 = x
  rW := fun w w' => ∃ d, w = .dt d ∧ w' = .dt d
  lit _ := rfl
  pi := rfl
  e := rfl
  inf := rfl
  add := by rintro _ _ _ _ rfl rfl; rfl
  sub := by rintro _ _ _ _ rfl rfl; rfl
  mul := by rintro _ _ _ _ rfl rfl; rfl
  neg := by rintro _ _ rfl; rfl
  divq := by rintro _ _ _ rfl; rfl
  modq := by rintro _ _ _ rfl; rfl
  powN := by rintro _ _ _ rfl; rfl
  div := by rintro x _ y _ rfl rfl; exact both_fst _ _
  sin := by rintro x _ rfl; exact both_fst _ _
  cos := by rintro x _ rfl; exact both_fst _ _
  tan := by rintro x _ rfl; exact both_fst _ _
  asin := by rintro x _ rfl; exact both_fst _ _
  acos := by rintro x _ rfl; exact both_fst _ _
  atan := by rintro x _ rfl; exact both_fst _ _
  atan2 := by rintro x _ y _ rfl rfl; exact both_fst _ _
  exp := by rintro x _ rfl; exact both_fst _ _
  radians := by rintro _ _ rfl; rfl
  degrees := by rintro _ _ rfl; rfl
  lt := by rintro _ _ _ _ rfl rfl; rfl
  le := by rintro _ _ _ _ rfl rfl; rfl
  where_ := by rintro _ _ _ _ _ _ rfl rfl rfl; rfl
  ofC := by rintro _ _ rfl; rfl
  recip_zero := by rintro x _ rfl h; exact (both_ne _ _ h).elim
  sin_zero := fun x => both_ne _ _
  guard := by
    rintro _ _ ⟨d, rfl, rfl⟩
    exact RelM.mono (R := Eq) RelM.refl fun _ _ _ => trivial
  utctimetuple := by rintro _ _ ⟨d, rfl, rfl⟩; exact RelM.refl
  timestamp := by rintro _ _ ⟨d, rfl, rfl⟩; exact RelM.refl
  tm_yday := by
    rintro _ _ ⟨d, rfl, rfl⟩
    unfold Numeric.tm_yday
    rw [h]
    exact RelM.bind (R := Eq) RelM.refl (by rintro _ _ rfl; rfl)
  tm_hour := by
    rintro _ _ ⟨d, rfl, rfl⟩
    unfold Numeric.tm_hour
    rw [h]
    exact RelM.bind (R := Eq) RelM.refl (by rintro _ _ rfl; rfl)
  tm_min := by
    rintro _ _ ⟨d, rfl, rfl⟩
    unfold Numeric.tm_min
    rw [h]
    exact RelM.bind (R := Eq) RelM.refl (by rintro _ _ rfl; rfl)
  rpow := by rintro x _ y _ rfl rfl; exact both_fst _ _
  truth := by rintro _ _ rfl; exact same_fst _ _
  tdHours := by rintro _ _ rfl; exact same_fst _ _
  round := by rintro _ _ rfl; exact same_fst _ _
  asDatetime := by rintro _ _ ⟨d, rfl, rfl⟩; exact RelM.refl
  rW_dt d := ⟨d, rfl, rfl⟩

/-- The second component of a run of the pair is the run of the second backend. -/
def pairSnd (B B' : Backend) (h : B'.npTime = false) : ScalarSim (pairB B B') B' where
  strict := False
  r := fun p x => p.2 = x
  rC := fun p x => p.2 = x
  rW := fun w w' => ∃ d, w = .dt d ∧ w' = .dt d
  lit _ := rfl
  pi := rfl
  e := rfl
  inf := rfl
  add := by rintro _ _ _ _ rfl rfl; rfl
  sub := by rintro _ _ _ _ rfl rfl; rfl
  mul := by rintro _ _ _ _ rfl rfl; rfl
  neg := by rintro _ _ rfl; rfl
  divq := by rintro _ _ _ rfl; rfl
  modq := by rintro _ _ _ rfl; rfl
  powN := by rintro _ _ _ rfl; rfl
  div := by rintro x _ y _ rfl rfl; exact both_snd _ _
  sin := by rintro x _ rfl; exact both_snd _ _
  cos := by rintro x _ rfl; exact both_snd _ _
  tan := by rintro x _ rfl; exact both_snd _ _
  asin := by rintro x _ rfl; exact both_snd _ _
  acos := by rintro x _ rfl; exact both_snd _ _
  atan := by rintro x _ rfl; exact both_snd _ _
  atan2 := by rintro x _ y _ rfl rfl; exact both_snd _ _
  exp := by rintro x _ rfl; exact both_snd _ _
  radians := by rintro _ _ rfl; rfl
  degrees := by rintro _ _ rfl; rfl
  lt := by rintro _ _ _ _ rfl rfl; rfl
  le := by rintro _ _ _ _ rfl rfl; rfl
  where_ := by rintro _ _ _ _ _ _ rfl rfl rfl; rfl
  ofC := by rintro _ _ rfl; rfl
  recip_zero := by rintro x _ rfl h; exact (both_ne _ _ h).elim
  sin_zero := fun x => both_ne _ _
  guard := by
    rintro _ _ ⟨d, rfl, rfl⟩
    exact RelM.mono (R := Eq) RelM.refl fun _ _ _ => trivial
  utctimetuple := by rintro _ _ ⟨d, rfl, rfl⟩; exact RelM.refl
  timestamp := by rintro _ _ ⟨d, rfl, rfl⟩; exact RelM.refl
  tm_yday := by
    rintro _ _ ⟨d, rfl, rfl⟩
    unfold Numeric.tm_yday
    rw [h]
    exact RelM.bind (R := Eq) RelM.refl (by rintro _ _ rfl; rfl)
  tm_hour := by
    rintro _ _ ⟨d, rfl, rfl⟩
    unfold Numeric.tm_hour
    rw [h]
    exact RelM.bind (R := Eq) RelM.refl (by rintro _ _ rfl; rfl)
  tm_min := by
    rintro _ _ ⟨d, rfl, rfl⟩
    unfold Numeric.tm_min
    rw [h]
    exact RelM.bind (R := Eq) RelM.refl (by rintro _ _ rfl; rfl)
  rpow := by rintro x _ y _ rfl rfl; exact both_snd _ _
  truth := by rintro _ _ rfl; exact same_snd _ _
  tdHours := by rintro _ _ rfl; exact same_snd _ _
  round := by rintro _ _ rfl; exact same_snd _ _
  asDatetime := by rintro _ _ ⟨d, rfl, rfl⟩; exact RelM.refl
  rW_dt d := ⟨d, rfl, rfl⟩

end Verif
