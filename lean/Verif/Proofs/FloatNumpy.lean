import Verif.Proofs.SimInst
import Verif.Py.RoundedNumpy
import Verif.Props.Backends
import Verif.Props.Float
import Verif.Proofs.FloatRad

/-!
# Simulations for numpy in double precision

`rndNp`: what the `math` module returns in double precision, numpy returns (with the same library). `vecEntry`: array
computations over a backend that never raises are computed entry by entry. `nprInstant`: a `datetime64` gives what the
aware datetime of the same instant gives. `vecTotal`: array computations do not raise.
-/

namespace Verif

open Pysolar Pysolar.Numeric Verif.Spec

theorem tm_rnd_np {F : F64} {f : Civil → ℤ} {g : DateTime → ℤ} (hfg : ∀ d c, d.utctimetuple = .ok c → f c = g d)
    (d : DateTime) : RelM False (fun (x y : V) => x = y)
      ((utctimetuple (B := rndB F) (.dt d) >>= fun t => pure (f t)) >>= fun n => pure ((rndB F).lit (n : ℤ)))
      (.ok ((nprB F).lit (g d))) := by
  show RelM False _ ((d.utctimetuple >>= _) >>= _) _
  cases h : d.utctimetuple with
  | error e => exact fun hf => hf.elim
  | ok c =>
    show (rndB F).lit (f c) = (nprB F).lit (g d)
    rw [hfg d c h]
    rfl

/-- Close a goal saying that the outcomes in the two rounded backends are related. -/
macro "outcomesF" : tactic => `(tactic|
  (dsimp only [rndB, nprB] <;> first
    | rfl
    | exact fun h => h.elim
    | (split_ifs <;> first | rfl | exact fun h => h.elim)))

section

variable (F : F64)

theorem rndNp_div (x y : V) : RelM False (fun (x y : V) => x = y) ((rndB F).div x y) ((nprB F).div x y) := by
  cases y <;> outcomesF

theorem pow_not_ninf {a b : ℝ} (ha : 0 < a) : ¬ F.pow a b ≤ -2 ^ 1024 := by
  intro h
  have h1 := abs_le.1 (F.pow_err a b ha)
  have h2 : 0 < a ^ b := Real.rpow_pos_of_pos ha b
  have h3 : a ^ b / 2 ^ 51 ≤ a ^ b := div_le_self h2.le (one_le_pow₀ (by norm_num))
  have h4 : (1 : ℝ) / 2 ^ 1074 ≤ 1 := by
    rw [div_le_one (by positivity)]
    exact one_le_pow₀ (by norm_num)
  have h5 : (2 : ℝ) ≤ 2 ^ 1024 := le_self_pow₀ (by norm_num) (by norm_num)
  generalize (1 : ℝ) / 2 ^ 1074 = t at *
  generalize (2 : ℝ) ^ 1024 = u at *
  generalize a ^ b / 2 ^ 51 = v at *
  linarith [h1.1]

theorem rndNp_rpow (x y : V) : RelM False (fun (x y : V) => x = y) ((rndB F).rpow x y) ((nprB F).rpow x y) := by
  cases x with
  | fin a =>
    cases y with
    | fin b =>
      dsimp only [rndB, nprB]
      by_cases ha : 0 < a
      · rw [if_pos ha, if_pos ha]
        by_cases hb : 2 ^ 1024 ≤ F.pow a b
        · rw [if_pos hb]
          exact fun h => h.elim
        · rw [if_neg hb]
          show V.fin (F.pow a b) = V.ovf (F.pow a b)
          unfold V.ovf
          rw [if_neg hb, if_neg (pow_not_ninf F ha)]
      · rw [if_neg ha, if_neg ha]
        split_ifs <;> first | rfl | exact fun h => h.elim
    | _ => exact fun h => h.elim
  | _ => cases y <;> exact fun h => h.elim

theorem rndNp_sin (x : V) : RelM False (fun (x y : V) => x = y) ((rndB F).sin x) ((nprB F).sin x) := by
  cases x <;> outcomesF

theorem rndNp_cos (x : V) : RelM False (fun (x y : V) => x = y) ((rndB F).cos x) ((nprB F).cos x) := by
  cases x <;> outcomesF

theorem rndNp_tan (x : V) : RelM False (fun (x y : V) => x = y) ((rndB F).tan x) ((nprB F).tan x) := by
  cases x <;> outcomesF

theorem rndNp_asin (x : V) : RelM False (fun (x y : V) => x = y) ((rndB F).asin x) ((nprB F).asin x) := by
  cases x <;> outcomesF

theorem rndNp_acos (x : V) : RelM False (fun (x y : V) => x = y) ((rndB F).acos x) ((nprB F).acos x) := by
  cases x <;> outcomesF

theorem rndNp_exp (x : V) : RelM False (fun (x y : V) => x = y) ((rndB F).exp x) ((nprB F).exp x) := by
  cases x <;> outcomesF

theorem rndNp_atan2 (x y : V) : (rndB F).atan2 x y = (nprB F).atan2 x y := by
  cases x <;> cases y <;> rfl

theorem rnd_sin_zero (x : V) : (rndB F).sin x ≠ .error .zeroDivision := by
  cases x <;> simp [rndB]

theorem rndNp_recip (x : V) (h : (rndB F).div (1 : (rndB F).α) x = .error .zeroDivision) :
    (nprB F).div (1 : (nprB F).α) x = .ok V.pinf := by
  cases x with
  | fin b =>
    by_cases hb : b = 0
    · subst hb
      show (if (0 : ℝ) = 0 then (Except.ok (V.mul (.fin (F.rnd ((1 : ℕ) : ℚ))) .pinf) : Py V) else _) = _
      have h1 : F.rnd ((((1 : ℕ) : ℚ)) : ℝ) = 1 := by
        have := F.rnd_int 1 (by norm_num)
        push_cast at this ⊢
        exact this
      rw [if_pos rfl, h1]
      simp [V.mul, V.infMul]
      rfl
    · exfalso
      have : (if b = 0 then (Except.error PyErr.zeroDivision : Py V) else .ok _) = .error .zeroDivision := h
      rw [if_neg hb] at this
      cases this
  | pinf => cases h
  | ninf => cases h
  | nan => cases h

end

/-- What the math module returns in double precision, numpy returns. -/
noncomputable def rndNp (F : F64) : ScalarSim (rndB F) (nprB F) where
  strict := False
  r := fun (x y : V) => x = y
  rC := fun (x y : Bool) => x = y
  rW := fun w w' => ∃ d, w = .dt d ∧ w' = .dt d
  lit _ := rfl
  pi := rfl
  e := rfl
  inf := rfl
  add := by rintro _ _ _ _ rfl rfl; rfl
  sub := by rintro _ _ _ _ rfl rfl; rfl
  mul := by rintro _ _ _ _ rfl rfl; rfl
  neg := by rintro _ _ rfl; rfl
  divq := by rintro _ _ _ rfl; rfl
  modq := by rintro _ _ _ rfl; rfl
  powN := by rintro _ _ _ rfl; rfl
  div := by rintro x _ y _ rfl rfl; exact rndNp_div F x y
  sin := by rintro x _ rfl; exact rndNp_sin F x
  cos := by rintro x _ rfl; exact rndNp_cos F x
  tan := by rintro x _ rfl; exact rndNp_tan F x
  asin := by rintro x _ rfl; exact rndNp_asin F x
  acos := by rintro x _ rfl; exact rndNp_acos F x
  atan := by rintro x _ rfl; cases x <;> rfl
  atan2 := by rintro x _ y _ rfl rfl; cases x <;> cases y <;> rfl
  exp := by rintro x _ rfl; exact rndNp_exp F x
  radians := by rintro _ _ rfl; rfl
  degrees := by rintro _ _ rfl; rfl
  lt := by rintro _ _ _ _ rfl rfl; rfl
  le := by rintro _ _ _ _ rfl rfl; rfl
  where_ := by rintro _ _ _ _ _ _ rfl rfl rfl; rfl
  ofC := by rintro _ _ rfl; rfl
  recip_zero := by rintro x _ rfl h; exact .inr ⟨_, rndNp_recip F x h, rfl⟩
  sin_zero := rnd_sin_zero F
  guard := by
    rintro _ _ ⟨d, rfl, rfl⟩
    exact RelM.mono (R := Eq) RelM.refl fun _ _ _ => trivial
  utctimetuple := by rintro _ _ ⟨d, rfl, rfl⟩; exact RelM.refl
  timestamp := by rintro _ _ ⟨d, rfl, rfl⟩; exact RelM.refl
  tm_yday := by
    rintro _ _ ⟨d, rfl, rfl⟩
    refine tm_rnd_np (F := F) (f := fun c => yday c.date) (g := tm_yday_numpy) (fun d c h => ?_) d
    obtain ⟨hv, hm⟩ := utctimetuple_ok h
    rw [tm_yday_numpy, ← hm, (Props.utcMicros_parts hv).1]
  tm_hour := by
    rintro _ _ ⟨d, rfl, rfl⟩
    refine tm_rnd_np (F := F) (f := fun c => c.hour) (g := tm_hour_numpy) (fun d c h => ?_) d
    obtain ⟨hv, hm⟩ := utctimetuple_ok h
    rw [tm_hour_numpy, ← hm, (Props.utcMicros_parts hv).2.1]
  tm_min := by
    rintro _ _ ⟨d, rfl, rfl⟩
    refine tm_rnd_np (F := F) (f := fun c => c.minute) (g := tm_min_numpy) (fun d c h => ?_) d
    obtain ⟨hv, hm⟩ := utctimetuple_ok h
    rw [tm_min_numpy, ← hm, (Props.utcMicros_parts hv).2.2]
  rpow := by rintro x _ y _ rfl rfl; exact rndNp_rpow F x y
  truth := by rintro _ _ rfl; exact RelM.refl
  tdHours := by rintro _ _ rfl; exact RelM.refl
  round := by rintro _ _ rfl; exact RelM.refl
  asDatetime := by rintro _ _ ⟨d, rfl, rfl⟩; exact RelM.refl
  rW_dt d := ⟨d, rfl, rfl⟩

/-! ## Arrays by their entries -/

/-- The operations of the backend (all but `**` with a float exponent) never raise. -/
structure NoRaise (B : Backend) : Prop where
  div : ∀ x y, ∃ z, B.div x y = .ok z
  sin : ∀ x, ∃ z, B.sin x = .ok z
  cos : ∀ x, ∃ z, B.cos x = .ok z
  tan : ∀ x, ∃ z, B.tan x = .ok z
  asin : ∀ x, ∃ z, B.asin x = .ok z
  acos : ∀ x, ∃ z, B.acos x = .ok z
  atan : ∀ x, ∃ z, B.atan x = .ok z
  atan2 : ∀ x y, ∃ z, B.atan2 x y = .ok z
  exp : ∀ x, ∃ z, B.exp x = .ok z

theorem npr_noRaise (F : F64) : NoRaise (nprB F) where
  div x y := by
    cases y with
    | fin b => by_cases hb : b = 0 <;> simp [nprB, hb]
    | _ => exact ⟨_, rfl⟩
  sin x := by cases x <;> exact ⟨_, rfl⟩
  cos x := by cases x <;> exact ⟨_, rfl⟩
  tan x := by cases x <;> exact ⟨_, rfl⟩
  asin x := by
    cases x with
    | fin b => by_cases hb : -1 ≤ b ∧ b ≤ 1 <;> simp [nprB, hb]
    | _ => exact ⟨_, rfl⟩
  acos x := by
    cases x with
    | fin b => by_cases hb : -1 ≤ b ∧ b ≤ 1 <;> simp [nprB, hb]
    | _ => exact ⟨_, rfl⟩
  atan x := by cases x <;> exact ⟨_, rfl⟩
  atan2 x y := by cases x <;> cases y <;> exact ⟨_, rfl⟩
  exp x := by
    cases x with
    | fin b =>
      dsimp only [nprB]
      split_ifs <;> exact ⟨_, rfl⟩
    | _ => exact ⟨_, rfl⟩

/-- The `i`-th entry of the time argument: a single datetime serves for all entries. -/
def entryWB {B : Backend} {ι : Type} (i : ι) : When (vecB B ι) → When B
  | .dt d => .dt d
  | .arr t => .arr (t i)
  | .other => .other

/-- The `i`-th entry of an array computation is the computation on the `i`-th entries. -/
noncomputable def vecEntry {B : Backend} (hB : NoRaise B) (hn : B.npTime = true) {ι : Type} (i : ι) : Sim (vecB B ι) B where
  strict := True
  r := fun (x : ι → B.α) (x' : B.α) => x i = x'
  rC := fun (x : ι → B.C) (x' : B.C) => x i = x'
  rW := fun w w' => w' = entryWB i w
  lit _ := rfl
  pi := rfl
  e := rfl
  inf := rfl
  add := by rintro _ _ _ _ rfl rfl; rfl
  sub := by rintro _ _ _ _ rfl rfl; rfl
  mul := by rintro _ _ _ _ rfl rfl; rfl
  neg := by rintro _ _ rfl; rfl
  divq := by rintro _ _ _ rfl; rfl
  modq := by rintro _ _ _ rfl; rfl
  powN := by rintro _ _ _ rfl; rfl
  div := by rintro x _ y _ rfl rfl; exact seqV_total (fun j => hB.div (x j) (y j)) i
  sin := by rintro x _ rfl; exact seqV_total (fun j => hB.sin (x j)) i
  cos := by rintro x _ rfl; exact seqV_total (fun j => hB.cos (x j)) i
  tan := by rintro x _ rfl; exact seqV_total (fun j => hB.tan (x j)) i
  asin := by rintro x _ rfl; exact seqV_total (fun j => hB.asin (x j)) i
  acos := by rintro x _ rfl; exact seqV_total (fun j => hB.acos (x j)) i
  atan := by rintro x _ rfl; exact seqV_total (fun j => hB.atan (x j)) i
  atan2 := by rintro x _ y _ rfl rfl; exact seqV_total (fun j => hB.atan2 (x j) (y j)) i
  exp := by rintro x _ rfl; exact seqV_total (fun j => hB.exp (x j)) i
  radians := by rintro _ _ rfl; rfl
  degrees := by rintro _ _ rfl; rfl
  lt := by rintro _ _ _ _ rfl rfl; rfl
  le := by rintro _ _ _ _ rfl rfl; rfl
  where_ := by rintro _ _ _ _ _ _ rfl rfl rfl; rfl
  ofC := by rintro _ _ rfl; rfl
  recip_zero := by
    rintro x _ rfl h
    exfalso
    have := seqV_total (fun j => hB.div (1 : B.α) (x j)) i
    have h' : seqV (fun j => B.div (1 : B.α) (x j)) = .error .zeroDivision := h
    rw [h'] at this
    obtain ⟨y, hy⟩ := hB.div (1 : B.α) (x i)
    have h2 := this trivial
    rw [hy] at h2
    cases h2
  sin_zero := by
    intro x h
    have h' : seqV (fun j => B.sin (x j)) = .error .zeroDivision := h
    have := seqV_total (fun j => hB.sin (x j)) i
    rw [h'] at this
    obtain ⟨y, hy⟩ := hB.sin (x i)
    have h2 := this trivial
    rw [hy] at h2
    cases h2
  guard := by
    rintro w _ rfl
    cases w <;> exact RelM.mono (R := Eq) RelM.refl fun _ _ _ => trivial
  utctimetuple := by rintro w _ rfl; cases w <;> exact RelM.refl
  timestamp := by rintro w _ rfl; cases w <;> exact RelM.refl
  tm_yday := by
    rintro w _ rfl
    have hv : (vecB B ι).npTime = true := hn
    cases w <;> simp only [entryWB, tm_yday, hn, hv] <;> first | rfl | exact fun _ => rfl
  tm_hour := by
    rintro w _ rfl
    have hv : (vecB B ι).npTime = true := hn
    cases w <;> simp only [entryWB, tm_hour, hn, hv] <;> first | rfl | exact fun _ => rfl
  tm_min := by
    rintro w _ rfl
    have hv : (vecB B ι).npTime = true := hn
    cases w <;> simp only [entryWB, tm_min, hn, hv] <;> first | rfl | exact fun _ => rfl

/-- Nothing raises in array computations but what raises in `unitB`. -/
noncomputable def vecTotal {B : Backend} (hB : NoRaise B) (hn : B.npTime = true) (ι : Type) : Sim Props.unitB (vecB B ι) where
  strict := False
  r := fun _ _ => True
  rC := fun _ _ => True
  rW := fun w w' => (∃ d, w = .dt d ∧ w' = .dt d) ∨ ∃ t t', w = .arr t ∧ w' = .arr t'
  lit _ := trivial
  pi := trivial
  e := trivial
  inf := trivial
  add _ _ := trivial
  sub _ _ := trivial
  mul _ _ := trivial
  neg _ := trivial
  divq _ _ := trivial
  modq _ _ := trivial
  powN _ _ := trivial
  div _ _ := Props.rel_true fun _ => hB.div _ _
  sin _ := Props.rel_true fun _ => hB.sin _
  cos _ := Props.rel_true fun _ => hB.cos _
  tan _ := Props.rel_true fun _ => hB.tan _
  asin _ := Props.rel_true fun _ => hB.asin _
  acos _ := Props.rel_true fun _ => hB.acos _
  atan _ := Props.rel_true fun _ => hB.atan _
  atan2 _ _ := Props.rel_true fun _ => hB.atan2 _ _
  exp _ := Props.rel_true fun _ => hB.exp _
  radians _ := trivial
  degrees _ := trivial
  lt _ _ := trivial
  le _ _ := trivial
  where_ _ _ _ := trivial
  ofC _ := trivial
  recip_zero := by intro _ _ _ h; cases h
  sin_zero := by intro _ h; cases h
  guard := by
    rintro _ _ (⟨d, rfl, rfl⟩ | ⟨t, t', rfl, rfl⟩)
    · exact RelM.mono (R := Eq) RelM.refl fun _ _ _ => trivial
    · trivial
  utctimetuple := by rintro _ _ (⟨d, rfl, rfl⟩ | ⟨t, t', rfl, rfl⟩) <;> exact RelM.refl
  timestamp := by rintro _ _ (⟨d, rfl, rfl⟩ | ⟨t, t', rfl, rfl⟩) <;> exact RelM.refl
  tm_yday := by
    have hv : (vecB B ι).npTime = true := hn
    rintro _ _ (⟨d, rfl, rfl⟩ | ⟨t, t', rfl, rfl⟩) <;> simp only [tm_yday, hv] <;> trivial
  tm_hour := by
    have hv : (vecB B ι).npTime = true := hn
    rintro _ _ (⟨d, rfl, rfl⟩ | ⟨t, t', rfl, rfl⟩) <;> simp only [tm_hour, hv] <;> trivial
  tm_min := by
    have hv : (vecB B ι).npTime = true := hn
    rintro _ _ (⟨d, rfl, rfl⟩ | ⟨t, t', rfl, rfl⟩) <;> simp only [tm_min, hv] <;> trivial

/-! ## datetime64 by datetime -/

theorem parts_small (t : ℤ) : |ydayOfMicros t| ≤ 2 ^ 53 ∧ |hourOfMicros t| ≤ 2 ^ 53 ∧ |minOfMicros t| ≤ 2 ^ 53 := by
  have hv := civilOfMicros_valid t
  have hm := micros_civilOfMicros t
  obtain ⟨h1, h2, h3⟩ := Props.utcMicros_parts hv
  rw [hm] at h1 h2 h3
  rw [h1, h2, h3]
  have hy := yday_bounds hv.1
  have hl : yearLen (civilOfMicros t).year ≤ 366 := by
    unfold yearLen
    split_ifs <;> norm_num
  obtain ⟨-, a1, a2, a3, a4, -⟩ := hv
  refine ⟨?_, ?_, ?_⟩ <;> rw [abs_le] <;> constructor <;> first | omega | (have := hy.1; have := hy.2; simp only [Civil.date] at *; omega)

theorem lit_int (F : F64) {n : ℤ} (h : |n| ≤ 2 ^ 53) : (nprB F).lit (n : ℚ) = V.fin (n : ℝ) := by
  show V.fin (F.rnd (((n : ℤ) : ℚ) : ℝ)) = _
  rw [Rat.cast_intCast, F.rnd_int n h]

/-- A numpy call with a `datetime64` is the call with the aware datetime of that instant. -/
noncomputable def nprInstant (F : F64) : Sim (nprB F) (nprB F) where
  strict := False
  r := Eq
  rC := Eq
  rW := fun w w' => ∃ (d : DateTime) (t : ℤ), Denotes d t ∧ w = .arr t ∧ w' = .dt d
  lit _ := rfl
  pi := rfl
  e := rfl
  inf := rfl
  add := by rintro _ _ _ _ rfl rfl; rfl
  sub := by rintro _ _ _ _ rfl rfl; rfl
  mul := by rintro _ _ _ _ rfl rfl; rfl
  neg := by rintro _ _ rfl; rfl
  divq := by rintro _ _ _ rfl; rfl
  modq := by rintro _ _ _ rfl; rfl
  powN := by rintro _ _ _ rfl; rfl
  div := by rintro x _ y _ rfl rfl; exact RelM.refl
  sin := by rintro x _ rfl; exact RelM.refl
  cos := by rintro x _ rfl; exact RelM.refl
  tan := by rintro x _ rfl; exact RelM.refl
  asin := by rintro x _ rfl; exact RelM.refl
  acos := by rintro x _ rfl; exact RelM.refl
  atan := by rintro x _ rfl; exact RelM.refl
  atan2 := by rintro x _ y _ rfl rfl; exact RelM.refl
  exp := by rintro x _ rfl; exact RelM.refl
  radians := by rintro _ _ rfl; rfl
  degrees := by rintro _ _ rfl; rfl
  lt := by rintro _ _ _ _ rfl rfl; rfl
  le := by rintro _ _ _ _ rfl rfl; rfl
  where_ := by rintro _ _ _ _ _ _ rfl rfl rfl; rfl
  ofC := by rintro _ _ rfl; rfl
  recip_zero := by rintro x _ rfl h; exact .inl h
  sin_zero := by
    intro x h
    obtain ⟨y, hy⟩ := (npr_noRaise F).sin x
    rw [hy] at h
    cases h
  guard := by
    rintro _ _ ⟨d, t, hd, rfl, rfl⟩
    rw [guard_denotes hd]
    exact RelM.ok trivial
  utctimetuple := by rintro _ _ ⟨d, t, hd, rfl, rfl⟩; exact fun h => h.elim
  timestamp := by rintro _ _ ⟨d, t, hd, rfl, rfl⟩; exact fun h => h.elim
  tm_yday := by
    rintro _ _ ⟨d, t, hd, rfl, rfl⟩
    show (V.fin ((ydayOfMicros t : ℤ) : ℝ)) = (nprB F).lit (ydayOfMicros d.utcMicros : ℤ)
    rw [utcMicros_of_denotes hd, lit_int F (parts_small t).1]
  tm_hour := by
    rintro _ _ ⟨d, t, hd, rfl, rfl⟩
    show (V.fin ((hourOfMicros t : ℤ) : ℝ)) = (nprB F).lit (hourOfMicros d.utcMicros : ℤ)
    rw [utcMicros_of_denotes hd, lit_int F (parts_small t).2.1]
  tm_min := by
    rintro _ _ ⟨d, t, hd, rfl, rfl⟩
    show (V.fin ((minOfMicros t : ℤ) : ℝ)) = (nprB F).lit (minOfMicros d.utcMicros : ℤ)
    rw [utcMicros_of_denotes hd, lit_int F (parts_small t).2.2]

theorem tm_yday_npr (F : F64) {d : DateTime} {c : Civil} (h : UtcFields d c) :
    tm_yday (nprB F) (.dt d) = .ok ((nprB F).lit (yday c.date)) := by
  show (Except.ok ((nprB F).lit (ydayOfMicros d.utcMicros : ℤ)) : Py V) = _
  rw [utcMicros_of_denotes h.2, (Props.utcMicros_parts h.1.2.2).1]
  rfl

/-! ## Where `math` raises -/

/-- Where the arcsine raises, numpy returns nan. -/
theorem asin_nan (F : F64) {x : V} (h : (rndB F).asin x = .error .valueError) : (nprB F).asin x = .ok V.nan := by
  cases x with
  | fin a =>
    by_cases ha : -1 ≤ a ∧ a ≤ 1
    · have h' : (if -1 ≤ a ∧ a ≤ 1 then (Except.ok (V.fin (F.asin a)) : Py V) else _) = _ := h
      rw [if_pos ha] at h'
      cases h'
    · exact if_neg ha
  | _ => rfl

theorem degrees_nan (F : F64) : (nprB F).degrees V.nan = V.nan := rfl

theorem ok_or_error {β : Type} (m : Py β) : (∃ x, m = .ok x) ∨ ∃ e, m = .error e := by
  cases m with
  | ok x => exact .inl ⟨x, rfl⟩
  | error e => exact .inr ⟨e, rfl⟩

theorem asin_error (F : F64) {x : V} {e : PyErr} (h : (rndB F).asin x = .error e) : e = .valueError := by
  cases x with
  | fin a =>
    have h' : (if -1 ≤ a ∧ a ≤ 1 then (Except.ok (V.fin (F.asin a)) : Py V) else .error .valueError) = .error e := h
    split_ifs at h'
    cases h'
    rfl
  | nan => cases h
  | _ =>
    have h' : (Except.error PyErr.valueError : Py V) = .error e := h
    cases h'
    rfl

theorem radians_fin (F : F64) {a : ℝ} (ha : |a| ≤ 1000) : ∃ x, (rndB F).radians (V.fin a) = V.fin x := by
  have i0 := F.rnd_int 0 (by norm_num)
  have i1 := F.rnd_int 1 (by norm_num)
  have i4 := F.rnd_int 4 (by norm_num)
  have j1 := F.rnd_int 1000 (by norm_num)
  have j2 := F.rnd_int (-1000) (by norm_num)
  push_cast at i0 i1 i4 j1 j2
  have p1 : F.rnd Real.pi ≤ 4 := i4 ▸ F.rnd_mono (by have := Real.pi_lt_four; linarith)
  have p0 : 0 ≤ F.rnd Real.pi := i0 ▸ F.rnd_mono Real.pi_pos.le
  have q1 : F.rnd (F.rnd Real.pi / 180) ≤ 1 := i1 ▸ F.rnd_mono (by linarith)
  have q0 : 0 ≤ F.rnd (F.rnd Real.pi / 180) := i0 ▸ F.rnd_mono (by positivity)
  have hp : |a * F.rnd (F.rnd Real.pi / 180)| ≤ 1000 := by
    rw [abs_mul, abs_of_nonneg q0]
    calc _ ≤ |a| * 1 := mul_le_mul_of_nonneg_left q1 (abs_nonneg a)
      _ ≤ _ := by linarith
  obtain ⟨l, r⟩ := abs_le.1 hp
  have s1 : F.rnd (a * F.rnd (F.rnd Real.pi / 180)) ≤ 1000 := j1 ▸ F.rnd_mono r
  have s2 : -1000 ≤ F.rnd (a * F.rnd (F.rnd Real.pi / 180)) := j2 ▸ F.rnd_mono l
  have hb : (1000 : ℝ) < 2 ^ 1024 := by
    calc (1000 : ℝ) < 2 ^ 10 := by norm_num
      _ ≤ _ := pow_le_pow_right₀ (by norm_num) (by norm_num)
  refine ⟨F.rnd (a * F.rnd (F.rnd Real.pi / 180)), ?_⟩
  have n1 : ¬ (2 : ℝ) ^ 1024 ≤ F.rnd (a * F.rnd (F.rnd Real.pi / 180)) := by
    generalize (2 : ℝ) ^ 1024 = P at *
    linarith
  have n2 : ¬ F.rnd (a * F.rnd (F.rnd Real.pi / 180)) ≤ -2 ^ 1024 := by
    generalize (2 : ℝ) ^ 1024 = P at *
    linarith
  exact (if_neg n1).trans (if_neg n2)

/-- The elevation angle: nan where the math module raises. -/
theorem tea_nan (F : F64) {a b c : ℝ} {e : PyErr}
    (h1 : ∃ x, (rndB F).radians (V.fin a) = V.fin x) (h2 : ∃ x, (rndB F).radians (V.fin b) = V.fin x)
    (h3 : ∃ x, (rndB F).radians (V.fin c) = V.fin x)
    (h : Solar.get_topocentric_elevation_angle (rndB F) (V.fin a) (V.fin b) (V.fin c) = .error e) :
    Solar.get_topocentric_elevation_angle (nprB F) (V.fin a) (V.fin b) (V.fin c) = .ok V.nan := by
  obtain ⟨x, hx⟩ := h1
  obtain ⟨y, hy⟩ := h2
  obtain ⟨z, hz⟩ := h3
  have hsplit (B : Backend) (x y z : B.α) (s t c1 c2 c3 : B.α) (e1 : B.sin (B.radians x) = .ok s)
      (e2 : B.sin (B.radians y) = .ok t) (e3 : B.cos (B.radians x) = .ok c1) (e4 : B.cos (B.radians y) = .ok c2)
      (e5 : B.cos (B.radians z) = .ok c3) : Solar.get_topocentric_elevation_angle B x y z
        = B.asin (s * t + c1 * c2 * c3) >>= fun r => .ok (B.degrees r) := by
    unfold Solar.get_topocentric_elevation_angle
    dsimp only
    rw [e1, e2, e3, e4, e5]
    rfl
  have r1 := hsplit (rndB F) (V.fin a) (V.fin b) (V.fin c) (V.fin (F.sin x)) (V.fin (F.sin y)) (V.fin (F.cos x))
    (V.fin (F.cos y)) (V.fin (F.cos z)) (by rw [hx]; rfl) (by rw [hy]; rfl) (by rw [hx]; rfl) (by rw [hy]; rfl) (by rw [hz]; rfl)
  have n1 := hsplit (nprB F) (V.fin a) (V.fin b) (V.fin c) (V.fin (F.sin x)) (V.fin (F.sin y)) (V.fin (F.cos x))
    (V.fin (F.cos y)) (V.fin (F.cos z)) ((congrArg (nprB F).sin hx :)) ((congrArg (nprB F).sin hy :))
    ((congrArg (nprB F).cos hx :)) ((congrArg (nprB F).cos hy :)) ((congrArg (nprB F).cos hz :))
  rcases ok_or_error ((rndB F).asin _) with ⟨w, hw⟩ | ⟨e', he⟩
  · rw [r1] at h
    exact absurd (h.symm.trans (bind_of_ok hw rfl)) (by simp)
  · have := asin_error F he
    subst this
    exact n1.trans (bind_of_ok (asin_nan F he) rfl)

end Verif
