import Verif.Proofs.SimInst

/-!
# Switching between `math` and numpy in the middle of a computation

`use_math()` and `use_numpy()` rebind the global names of numeric.py one after the other (numeric.py:91-134). The
functions of pysolar look a name up at every call, so a switch made by another thread while a function runs, or an
exception in the middle of a switch, lets one computation call functions of both modules.

`swB tp s` is such a computation: every value carries the history of the calls that produced it, and a schedule `s`
decides at every call, from the function called and the histories of its arguments, which module answers. Simplification:
two calls of the same function on arguments with the same histories are answered by the same module. `tm_yday`, `tm_hour` and `tm_min` all come from one module. `asin`, `acos`, `sin`,
`cos`, `tan`, `exp`, division and powers differ between the modules; the other operations do not.
-/

namespace Verif

open Pysolar Pysolar.Numeric Verif.Spec

/-- The functions that answer differently in the two modules. -/
inductive SwOp where
  | div | rpow | sin | cos | tan | asin | acos | exp

/-- How a value was computed. -/
inductive Hist where
  /-- an argument of the call, or a constant -/
  | start (n : ℕ)
  /-- an operation of one argument that both modules compute alike -/
  | un (h : Hist)
  /-- an operation of two arguments that both modules compute alike -/
  | bin (h k : Hist)
  /-- a call that the schedule decides -/
  | call (o : SwOp) (h k : Hist)

/-- `true` where numpy answers the call; and whether the functions of time are those of numpy. -/
structure Schedule where
  np : SwOp → Hist → Hist → Bool
  time : Bool

noncomputable section

/-- The outcome of a decided call. -/
def swCall (s : Schedule) (o : SwOp) (h k : Hist) (m n : Py V) : Py (V × Hist) :=
  (fun v => (v, Hist.call o h k)) <$> (bif s.np o h k then n else m)

/-- numeric.py:91-134, with the names rebound between the calls as the schedule says. -/
def swB (tp : ℝ) (s : Schedule) : Backend where
  α := V × Hist
  C := Bool
  T := ℤ
  lit q := ((mathB tp).lit q, .start 0)
  pi := ((mathB tp).pi, .start 0)
  e := ((mathB tp).e, .start 0)
  inf := ((mathB tp).inf, .start 0)
  add x y := ((mathB tp).add x.1 y.1, .bin x.2 y.2)
  sub x y := ((mathB tp).sub x.1 y.1, .bin x.2 y.2)
  mul x y := ((mathB tp).mul x.1 y.1, .bin x.2 y.2)
  neg x := ((mathB tp).neg x.1, .un x.2)
  divq x q := ((mathB tp).divq x.1 q, .un x.2)
  modq x q := ((mathB tp).modq x.1 q, .un x.2)
  powN x n := ((mathB tp).powN x.1 n, .un x.2)
  div x y := swCall s .div x.2 y.2 ((mathB tp).div x.1 y.1) ((npB tp).div x.1 y.1)
  rpow x y := swCall s .rpow x.2 y.2 ((mathB tp).rpow x.1 y.1) ((npB tp).rpow x.1 y.1)
  sin x := swCall s .sin x.2 x.2 ((mathB tp).sin x.1) ((npB tp).sin x.1)
  cos x := swCall s .cos x.2 x.2 ((mathB tp).cos x.1) ((npB tp).cos x.1)
  tan x := swCall s .tan x.2 x.2 ((mathB tp).tan x.1) ((npB tp).tan x.1)
  asin x := swCall s .asin x.2 x.2 ((mathB tp).asin x.1) ((npB tp).asin x.1)
  acos x := swCall s .acos x.2 x.2 ((mathB tp).acos x.1) ((npB tp).acos x.1)
  atan x := (fun v => (v, Hist.un x.2)) <$> ((mathB tp).atan x.1 : Py V)
  atan2 y x := (fun v => (v, Hist.bin y.2 x.2)) <$> ((mathB tp).atan2 y.1 x.1 : Py V)
  exp x := swCall s .exp x.2 x.2 ((mathB tp).exp x.1) ((npB tp).exp x.1)
  radians x := ((mathB tp).radians x.1, .un x.2)
  degrees x := ((mathB tp).degrees x.1, .un x.2)
  lt x y := (mathB tp).lt x.1 y.1
  le x y := (mathB tp).le x.1 y.1
  where_ c x y := ((mathB tp).where_ c x.1 y.1, .bin x.2 y.2)
  ofC c := ((mathB tp).ofC c, .start 0)
  truth c := (mathB tp).truth c
  tdHours x := (mathB tp).tdHours x.1
  round x := (mathB tp).round x.1
  npTime := s.time
  arrYday t := ((npB tp).arrYday t, .start 0)
  arrHour t := ((npB tp).arrHour t, .start 0)
  arrMin t := ((npB tp).arrMin t, .start 0)

theorem swCall_rel (s : Schedule) (o : SwOp) (h k : Hist) {m n : Py V} (hmn : RelM False (fun (x y : V) => x = y) m n) :
    RelM False (fun (x : V) (y : V × Hist) => x = y.1) m (swCall s o h k m n) := by
  unfold swCall
  cases s.np o h k with
  | false => cases m with
    | error e => exact fun hf => hf.elim
    | ok v => exact (rfl : v = v)
  | true => cases m with
    | error e => exact fun hf => hf.elim
    | ok v => cases n with
      | error e => exact hmn.elim
      | ok w => exact (show v = w from hmn)

theorem swCall_alike (h : Hist) (m : Py V) :
    RelM False (fun (x : V) (y : V × Hist) => x = y.1) m ((fun v => (v, h)) <$> m) := by
  cases m with
  | error e => exact fun hf => hf.elim
  | ok v => exact (rfl : v = v)

theorem tm_math_sw {tp : ℝ} {s : Schedule} {f : Civil → ℤ} {g : DateTime → ℤ}
    (hfg : ∀ d c, d.utctimetuple = .ok c → f c = g d) (d : DateTime) :
    RelM False (fun (x : V) (y : V × Hist) => x = y.1)
      ((utctimetuple (B := mathB tp) (.dt d) >>= fun t => pure (f t)) >>= fun n => pure ((mathB tp).lit (n : ℤ)))
      (if s.time then .ok ((swB tp s).lit (g d))
        else (utctimetuple (B := swB tp s) (.dt d) >>= fun t => pure (f t)) >>= fun n => pure ((swB tp s).lit (n : ℤ))) := by
  show RelM False _ ((d.utctimetuple >>= _) >>= _) (if s.time then _ else ((d.utctimetuple >>= _) >>= _))
  cases h : d.utctimetuple with
  | error e => exact fun hf => hf.elim
  | ok c =>
    cases s.time with
    | false => exact (rfl : (mathB tp).lit (f c) = _)
    | true =>
      show (mathB tp).lit (f c) = (mathB tp).lit (g d)
      rw [hfg d c h]

/-- Where `math` returns, every schedule returns the same. -/
def mathSw (tp : ℝ) (s : Schedule) : ScalarSim (mathB tp) (swB tp s) where
  strict := False
  r := fun (x : V) (y : V × Hist) => x = y.1
  rC := fun (x y : Bool) => x = y
  rW := fun w w' => ∃ d, w = .dt d ∧ w' = .dt d
  lit _ := rfl
  pi := rfl
  e := rfl
  inf := rfl
  add := by rintro _ _ _ _ rfl rfl; rfl
  sub := by rintro _ _ _ _ rfl rfl; rfl
  mul := by rintro _ _ _ _ rfl rfl; rfl
  neg := by rintro _ _ rfl; rfl
  divq := by rintro _ _ _ rfl; rfl
  modq := by rintro _ _ _ rfl; rfl
  powN := by rintro _ _ _ rfl; rfl
  div := by rintro _ x _ y rfl rfl; exact swCall_rel s _ _ _ (mathNp_div tp x.1 y.1)
  sin := by rintro _ x rfl; exact swCall_rel s _ _ _ (mathNp_sin tp x.1)
  cos := by rintro _ x rfl; exact swCall_rel s _ _ _ (mathNp_cos tp x.1)
  tan := by rintro _ x rfl; exact swCall_rel s _ _ _ (mathNp_tan tp x.1)
  asin := by rintro _ x rfl; exact swCall_rel s _ _ _ (mathNp_asin tp x.1)
  acos := by rintro _ x rfl; exact swCall_rel s _ _ _ (mathNp_acos tp x.1)
  atan := by rintro _ x rfl; exact swCall_alike _ _
  atan2 := by rintro _ x _ y rfl rfl; exact swCall_alike _ _
  exp := by rintro _ x rfl; exact swCall_rel s _ _ _ (mathNp_exp tp x.1)
  radians := by rintro _ _ rfl; rfl
  degrees := by rintro _ _ rfl; rfl
  lt := by rintro _ _ _ _ rfl rfl; rfl
  le := by rintro _ _ _ _ rfl rfl; rfl
  where_ := by rintro _ _ _ _ _ _ rfl rfl rfl; rfl
  ofC := by rintro _ _ rfl; rfl
  recip_zero := by
    rintro _ x rfl h
    have h' : (mathB tp).div ((mathB tp).lit (1 : ℕ)) x.1 = .error .zeroDivision := h
    have h2 : (npB tp).div ((npB tp).lit (1 : ℕ)) x.1 = .ok V.pinf := mathNp_recip tp x.1 h
    show swCall s .div (.start 0) x.2 ((mathB tp).div ((mathB tp).lit (1 : ℕ)) x.1)
        ((npB tp).div ((npB tp).lit (1 : ℕ)) x.1) = _ ∨
      ∃ y', swCall s .div (.start 0) x.2 ((mathB tp).div ((mathB tp).lit (1 : ℕ)) x.1)
        ((npB tp).div ((npB tp).lit (1 : ℕ)) x.1) = _ ∧ _
    rw [h', h2]
    unfold swCall
    cases s.np .div (Hist.start 0) x.2 with
    | false => exact .inl rfl
    | true => exact .inr ⟨_, rfl, rfl⟩
  sin_zero := math_sin_zero tp
  guard := by
    rintro _ _ ⟨d, rfl, rfl⟩
    exact RelM.mono (R := Eq) RelM.refl fun _ _ _ => trivial
  utctimetuple := by rintro _ _ ⟨d, rfl, rfl⟩; exact RelM.refl
  timestamp := by rintro _ _ ⟨d, rfl, rfl⟩; exact RelM.refl
  tm_yday := by
    rintro _ _ ⟨d, rfl, rfl⟩
    refine tm_math_sw (tp := tp) (s := s) (f := fun c => yday c.date) (g := tm_yday_numpy) (fun d c h => ?_) d
    obtain ⟨hv, hm⟩ := utctimetuple_ok h
    rw [tm_yday_numpy, ← hm, (Props.utcMicros_parts hv).1]
  tm_hour := by
    rintro _ _ ⟨d, rfl, rfl⟩
    refine tm_math_sw (tp := tp) (s := s) (f := fun c => c.hour) (g := tm_hour_numpy) (fun d c h => ?_) d
    obtain ⟨hv, hm⟩ := utctimetuple_ok h
    rw [tm_hour_numpy, ← hm, (Props.utcMicros_parts hv).2.1]
  tm_min := by
    rintro _ _ ⟨d, rfl, rfl⟩
    refine tm_math_sw (tp := tp) (s := s) (f := fun c => c.minute) (g := tm_min_numpy) (fun d c h => ?_) d
    obtain ⟨hv, hm⟩ := utctimetuple_ok h
    rw [tm_min_numpy, ← hm, (Props.utcMicros_parts hv).2.2]
  rpow := by rintro _ x _ y rfl rfl; exact swCall_rel s _ _ _ (mathNp_rpow tp x.1 y.1)
  truth := by rintro _ _ rfl; exact RelM.refl
  tdHours := by rintro _ _ rfl; exact RelM.refl
  round := by rintro _ _ rfl; exact RelM.refl
  asDatetime := by rintro _ _ ⟨d, rfl, rfl⟩; exact RelM.refl
  rW_dt d := ⟨d, rfl, rfl⟩

end

end Verif
