import Verif.Model.Util
import Verif.Model.Radiation
import Verif.Py.Real
import Verif.Py.RoundedNumpy

/-!
# What becomes of nan and infinities

`Strict B` collects how the operations of a backend treat values that are not finite numbers. The lemmas below follow
such values through the model functions.
-/

namespace Verif

open Pysolar Pysolar.Numeric Pysolar.TzCheck

/-- If `m` returns, its result satisfies `P`. -/
def Ret {β : Type} (P : β → Prop) (m : Py β) : Prop := ∀ y, m = .ok y → P y

namespace Ret

variable {β γ : Type} {P : β → Prop} {Q : γ → Prop}

theorem pure {y : β} (h : P y) : Ret P (Pure.pure y : Py β) := by
  rintro _ ⟨⟩
  exact h

theorem bind {m : Py β} {f : β → Py γ} (h : Ret P m) (hf : ∀ y, P y → Ret Q (f y)) : Ret Q (m >>= f) := by
  cases m with
  | error e => rintro _ ⟨⟩
  | ok y => exact hf y (h y rfl)

/-- Nothing is known about the first result. -/
theorem any {m : Py β} {f : β → Py γ} (hf : ∀ y, Ret Q (f y)) : Ret Q (m >>= f) :=
  bind (P := fun _ => True) (fun _ _ => trivial) fun y _ => hf y

theorem mono {P' : β → Prop} {m : Py β} (h : Ret P m) (hp : ∀ y, P y → P' y) : Ret P' m := fun y hy => hp y (h y hy)

end Ret

/-- The treatment of values that are not finite (`nf`), among them nan. -/
structure Strict (B : Backend) where
  nan : B.α → Prop
  nf : B.α → Prop
  of_nan : ∀ {x}, nan x → nf x
  add : ∀ {x y : B.α}, nf x ∨ nf y → nf (x + y)
  sub : ∀ {x y : B.α}, nf x ∨ nf y → nf (x - y)
  mul : ∀ {x y : B.α}, nf x ∨ nf y → nf (x * y)
  add_nan : ∀ {x y : B.α}, nan x ∨ nan y → nan (x + y)
  sub_nan : ∀ {x y : B.α}, nan x ∨ nan y → nan (x - y)
  mul_nan : ∀ {x y : B.α}, nan x ∨ nan y → nan (x * y)
  divq : ∀ {x : B.α} (q : ℚ), nf x → nf (x /. q)
  divq_nan : ∀ {x : B.α} (q : ℚ), nan x → nan (x /. q)
  modq : ∀ {x : B.α} (q : ℚ), nf x → nan (x %. q)
  radians : ∀ {x}, nf x → nf (B.radians x)
  radians_nan : ∀ {x}, nan x → nan (B.radians x)
  degrees_nan : ∀ {x}, nan x → nan (B.degrees x)
  sin : ∀ {x}, nf x → Ret nan (B.sin x)
  cos : ∀ {x}, nf x → Ret nan (B.cos x)
  tan : ∀ {x}, nf x → Ret nan (B.tan x)
  asin : ∀ {x}, nf x → Ret nan (B.asin x)
  acos : ∀ {x}, nf x → Ret nan (B.acos x)
  exp : ∀ {x}, nan x → Ret nan (B.exp x)
  atan2 : ∀ {x y}, nan x ∨ nan y → Ret nan (B.atan2 x y)
  div : ∀ {x y}, nan x ∨ nan y → Ret nan (B.div x y)
  /-- division by nan does not raise `ZeroDivisionError` -/
  div_ne : ∀ {x y}, nan y → B.div x y ≠ .error .zeroDivision
  sin_ne : ∀ x, B.sin x ≠ .error .zeroDivision
  where_ : ∀ {c x y}, nan x → nan y → nan (B.where_ c x y)
  tdHours : ∀ {x}, nf x → Ret (fun _ => False) (B.tdHours x)
  /-- nan is not positive -/
  positive : ∀ {x : B.α}, nan x → Ret (fun b => b = false) (B.truth (B.lt 0 x))

namespace V

/-- Not a finite number. -/
def NonFin : V → Prop
  | fin _ => False
  | _ => True

theorem infMul_nf {a : ℝ} {x : V} (h : NonFin x) : NonFin (infMul a x) := by
  unfold infMul
  split_ifs <;> cases x <;> simp_all [NonFin, V.neg]

theorem add_nf {x y : V} (h : NonFin x ∨ NonFin y) : NonFin (V.add x y) := by
  cases x <;> cases y <;> simp_all [NonFin, V.add]

theorem sub_nf {x y : V} (h : NonFin x ∨ NonFin y) : NonFin (V.sub x y) := by
  cases x <;> cases y <;> simp_all [NonFin, V.sub, V.add, V.neg]

theorem mul_nf {x y : V} (h : NonFin x ∨ NonFin y) : NonFin (V.mul x y) := by
  cases x <;> cases y <;> first | exact infMul_nf trivial | simp_all [NonFin, V.mul, V.neg]

theorem add_nan {x y : V} (h : x = nan ∨ y = nan) : V.add x y = nan := by
  cases x <;> cases y <;> simp_all [V.add]

theorem sub_nan {x y : V} (h : x = nan ∨ y = nan) : V.sub x y = nan := by
  cases x <;> cases y <;> simp_all [V.sub, V.add, V.neg]

theorem mul_nan {x y : V} (h : x = nan ∨ y = nan) : V.mul x y = nan := by
  cases x <;> cases y <;> simp_all [V.mul]

theorem divNZ_nan {x y : V} (h : x = nan ∨ y = nan) : V.divNZ x y = nan := by
  cases x <;> cases y <;> simp_all [V.divNZ]

theorem divNZ_nf {x : V} {b : ℝ} (h : NonFin x) : NonFin (V.divNZ x (fin b)) := by
  cases x <;> first | exact infMul_nf trivial | simp_all [NonFin, V.divNZ]

theorem divq_nf {x : V} (q : ℚ) (h : NonFin x) : NonFin (V.divq x q) := by
  cases x with
  | fin a => exact h.elim
  | _ => exact infMul_nf trivial

theorem infMul_nan (a : ℝ) : infMul a nan = nan := by
  unfold infMul
  split_ifs <;> rfl

theorem atan2_nan {x y : V} (h : x = nan ∨ y = nan) : V.atan2 x y = nan := by
  cases x <;> cases y <;> simp_all [V.atan2]

theorem modq_nan {x : V} (q : ℚ) (h : NonFin x) : V.modq x q = nan := by
  cases x with
  | fin a => exact h.elim
  | _ => rfl

theorem rnd_nf {F : F64} {x : V} (h : NonFin x) : NonFin (V.rnd F x) := by
  cases x with
  | fin a => exact h.elim
  | _ => trivial

theorem rnd_nan {F : F64} {x : V} (h : x = nan) : V.rnd F x = nan := by
  subst h
  rfl

theorem radians_nf {x : V} (h : NonFin x) : NonFin (V.radians x) := by
  cases x with
  | fin a => exact h.elim
  | _ => trivial

theorem tdHours_nf {x : V} (h : NonFin x) : Ret (fun _ => False) (tdHoursV x) := by
  cases x with
  | fin a => exact h.elim
  | _ => rintro _ ⟨⟩

theorem tdHoursF_nf {F : F64} {x : V} (h : NonFin x) : Ret (fun _ => False) (tdHoursF F x) := by
  cases x with
  | fin a => exact h.elim
  | _ => rintro _ ⟨⟩

end V

/-! ## Through the model functions -/

syntax "nans" term:max : tactic
syntax "nfs" term:max : tactic
syntax "rets" term:max : tactic

macro_rules
  | `(tactic| nans $S) => `(tactic| first
      | assumption
      | (refine Strict.modq $S _ ?_; nfs $S)
      | (refine Strict.radians_nan $S ?_; nans $S)
      | (refine Strict.degrees_nan $S ?_; nans $S)
      | (refine Strict.divq_nan $S _ ?_; nans $S)
      | (refine Strict.mul_nan $S (.inl ?_); nans $S)
      | (refine Strict.mul_nan $S (.inr ?_); nans $S)
      | (refine Strict.sub_nan $S (.inl ?_); nans $S)
      | (refine Strict.sub_nan $S (.inr ?_); nans $S)
      | (refine Strict.add_nan $S (.inl ?_); nans $S)
      | (refine Strict.add_nan $S (.inr ?_); nans $S)
      | (refine Strict.where_ $S ?_ ?_ <;> nans $S))

macro_rules
  | `(tactic| nfs $S) => `(tactic| first
      | assumption
      | (refine Strict.of_nan $S ?_; nans $S)
      | (refine Strict.radians $S ?_; nfs $S)
      | (refine Strict.divq $S _ ?_; nfs $S)
      | (refine Strict.mul $S (.inl ?_); nfs $S)
      | (refine Strict.mul $S (.inr ?_); nfs $S)
      | (refine Strict.sub $S (.inl ?_); nfs $S)
      | (refine Strict.sub $S (.inr ?_); nfs $S)
      | (refine Strict.add $S (.inl ?_); nfs $S)
      | (refine Strict.add $S (.inr ?_); nfs $S))

macro_rules
  | `(tactic| rets $S) => `(tactic| repeat first
      | (refine Ret.bind (Strict.sin $S ?_) fun _ _ => ?_; (· nfs $S))
      | (refine Ret.bind (Strict.cos $S ?_) fun _ _ => ?_; (· nfs $S))
      | (refine Ret.bind (Strict.tan $S ?_) fun _ _ => ?_; (· nfs $S))
      | (refine Ret.bind (Strict.asin $S ?_) fun _ _ => ?_; (· nfs $S))
      | (refine Ret.bind (Strict.acos $S ?_) fun _ _ => ?_; (· nfs $S))
      | (refine Ret.bind (Strict.exp $S ?_) fun _ _ => ?_; (· nans $S))
      | (refine Ret.bind (Strict.atan2 $S (.inl ?_)) fun _ _ => ?_; (· nans $S))
      | (refine Ret.bind (Strict.atan2 $S (.inr ?_)) fun _ _ => ?_; (· nans $S))
      | (refine Ret.bind (Strict.div $S (.inl ?_)) fun _ _ => ?_; (· nans $S))
      | (refine Ret.bind (Strict.div $S (.inr ?_)) fun _ _ => ?_; (· nans $S))
      | (refine Ret.any fun _ => ?_)
      | (refine Ret.pure ?_; nans $S))

namespace Strict

variable {B : Backend} (S : Strict B)

open Pysolar.Solar Pysolar.Util Pysolar.Radiation

theorem elevation_angle {lat dec ha : B.α} (h : S.nf lat ∨ S.nf ha) :
    Ret S.nan (get_topocentric_elevation_angle B lat dec ha) := by
  unfold get_topocentric_elevation_angle
  dsimp only
  rcases h with h | h <;> rets S

theorem azimuth_angle {ha lat dec : B.α} (h : S.nf lat ∨ S.nf ha) :
    Ret S.nan (get_topocentric_azimuth_angle B ha lat dec) := by
  unfold get_topocentric_azimuth_angle
  dsimp only
  rcases h with h | h <;> rets S

theorem parallax {prd ehp lha dec : B.α} (h : S.nf lha ∨ S.nan prd) :
    Ret S.nan (get_parallax_sun_right_ascension B prd ehp lha dec) := by
  unfold get_parallax_sun_right_ascension
  dsimp only
  rcases h with h | h <;> rets S

theorem radial {elevation lat : B.α} (h : S.nf lat ∨ S.nan elevation) :
    Ret S.nan (get_projected_radial_distance B elevation lat) := by
  unfold get_projected_radial_distance
  dsimp only
  rcases h with h | h <;> rets S

/-- Nowhere: the coordinates are not finite, or the elevation is nan. -/
def Nowhere (lat lon elevation : B.α) : Prop := S.nf lat ∨ S.nf lon ∨ S.nan elevation

theorem topocentric {lat lon elevation : B.α} {w : When B} (h : S.Nowhere lat lon elevation) :
    Ret (fun p => S.nan p.2) (get_topocentric_position B lat lon w elevation) := by
  unfold get_topocentric_position
  dsimp only
  refine Ret.any fun _ => ?_
  rcases h with h | h | h
  · refine Ret.bind (S.radial (.inl h)) fun prd hp => ?_
    iterate 12 refine Ret.any fun _ => ?_
    refine Ret.bind (S.parallax (.inr hp)) fun _ _ => ?_
    refine Ret.any fun _ => Ret.pure (S.sub_nan (.inr ?_))
    assumption
  · iterate 13 refine Ret.any fun _ => ?_
    refine Ret.any fun _ => ?_
    refine Ret.any fun _ => Ret.pure (S.sub_nan (.inl ?_))
    unfold get_local_hour_angle
    nans S
  · refine Ret.bind (S.radial (.inr h)) fun prd hp => ?_
    iterate 12 refine Ret.any fun _ => ?_
    refine Ret.bind (S.parallax (.inr hp)) fun _ _ => ?_
    refine Ret.any fun _ => Ret.pure (S.sub_nan (.inr ?_))
    assumption

theorem altitude {lat lon elevation temperature pressure : B.α} {w : When B} (h : S.Nowhere lat lon elevation) :
    Ret S.nan (get_altitude B lat lon w elevation temperature pressure) := by
  unfold get_altitude
  refine Ret.any fun _ => Ret.bind (S.topocentric h) ?_
  rintro ⟨d, ha⟩ hh
  refine Ret.bind (S.elevation_angle (.inr (S.of_nan hh))) fun _ _ => ?_
  rets S

theorem azimuth {lat lon elevation : B.α} {w : When B} (h : S.Nowhere lat lon elevation) :
    Ret S.nan (get_azimuth B lat lon w elevation) := by
  unfold get_azimuth
  refine Ret.any fun _ => Ret.bind (S.topocentric h) ?_
  rintro ⟨d, ha⟩ hh
  exact S.azimuth_angle (.inr (S.of_nan hh))

theorem position {lat lon elevation temperature pressure : B.α} {w : When B} (h : S.Nowhere lat lon elevation) :
    Ret (fun p => S.nan p.1 ∧ S.nan p.2) (get_position B lat lon w elevation temperature pressure) := by
  unfold get_position
  refine Ret.any fun _ => Ret.bind (S.topocentric h) ?_
  rintro ⟨d, ha⟩ hh
  refine Ret.bind (S.elevation_angle (.inr (S.of_nan hh))) fun _ h1 => ?_
  refine Ret.any fun _ => ?_
  refine Ret.bind (S.azimuth_angle (.inr (S.of_nan hh))) fun _ h2 => ?_
  exact Ret.pure ⟨h2, S.add_nan (.inl h1)⟩

theorem solar_time {lon : B.α} {w : When B} (h : S.nf lon) : Ret S.nf (get_solar_time B lon w) := by
  unfold get_solar_time
  iterate 5 refine Ret.any fun _ => ?_
  refine Ret.pure ?_
  nfs S

theorem hour_angle {lon : B.α} {w : When B} (h : S.nf lon) : Ret S.nf (get_hour_angle B w lon) := by
  unfold get_hour_angle
  refine Ret.any fun _ => Ret.bind (S.solar_time h) fun _ _ => Ret.pure ?_
  nfs S

theorem altitude_fast {lat lon : B.α} {w : When B} (h : S.nf lat ∨ S.nf lon) :
    Ret S.nan (get_altitude_fast B lat lon w) := by
  unfold get_altitude_fast
  dsimp only
  iterate 3 refine Ret.any fun _ => ?_
  rcases h with h | h
  · refine Ret.any fun _ => ?_
    rets S
  · refine Ret.bind (S.hour_angle h) fun _ _ => ?_
    rets S

theorem azimuth_fast {lat lon : B.α} {w : When B} (h : S.nf lat ∨ S.nf lon) :
    Ret S.nan (get_azimuth_fast B lat lon w) := by
  unfold get_azimuth_fast
  dsimp only
  iterate 3 refine Ret.any fun _ => ?_
  refine Ret.bind (S.altitude_fast h) fun _ _ => ?_
  rets S

theorem air_mass {a : B.α} (h : S.nf a) : Ret S.nan (get_air_mass_ratio B a) := by
  unfold get_air_mass_ratio
  have hs := S.sin (S.radians h)
  cases e : B.sin (B.radians a) with
  | error er =>
    have := S.sin_ne (B.radians a)
    rw [e] at this
    cases er <;> first | exact absurd rfl this | rintro _ ⟨⟩
  | ok y =>
    have hy := hs y e
    have hd := S.div (x := 1) (.inr hy)
    have hn := S.div_ne (x := 1) hy
    show Ret S.nan (match B.div 1 y with
      | .error .zeroDivision => .ok B.inf
      | result => result)
    cases e2 : B.div 1 y with
    | error er =>
      rw [e2] at hn
      cases er <;> first | exact absurd rfl hn | rintro _ ⟨⟩
    | ok z =>
      rintro _ ⟨⟩
      exact hd z e2

theorem radiation_direct {a : B.α} {w : When B} (h : S.nf a) : Ret S.nan (get_radiation_direct B w a) := by
  unfold get_radiation_direct
  dsimp only
  iterate 3 refine Ret.any fun _ => ?_
  refine Ret.bind (S.air_mass h) fun _ _ => ?_
  rets S

theorem function_clear {lat lon elevation temperature pressure : B.α} {w : When B} (h : S.Nowhere lat lon elevation) :
    Ret S.nan (solarelevation_function_clear B lat lon w temperature pressure elevation) := by
  unfold solarelevation_function_clear
  refine Ret.any fun _ => Ret.bind (S.altitude h) fun _ _ => ?_
  rets S

theorem function_overcast {lat lon elevation temperature pressure : B.α} {w : When B}
    (h : S.Nowhere lat lon elevation) :
    Ret S.nan (solarelevation_function_overcast B lat lon w elevation temperature pressure) := by
  unfold solarelevation_function_overcast
  refine Ret.any fun _ => Ret.bind (S.altitude h) fun _ _ => ?_
  rets S

theorem diffuse_clear {lat lon elevation temperature pressure TL : B.α} {w : When B}
    (h : S.Nowhere lat lon elevation) :
    Ret S.nan (diffuse_underclear B lat lon w elevation temperature pressure TL) := by
  unfold diffuse_underclear
  refine Ret.any fun _ => Ret.bind (S.altitude h) fun _ _ => ?_
  rets S

theorem diffuse_overcast {lat lon elevation temperature pressure TL : B.α} {w : When B}
    (h : S.Nowhere lat lon elevation) :
    Ret S.nan (diffuse_underovercast B lat lon w elevation temperature pressure TL) := by
  unfold diffuse_underovercast
  refine Ret.any fun _ => Ret.any fun _ => Ret.bind (S.altitude h) fun _ _ => ?_
  rets S

theorem direct_clear {lat lon TY AM TL elevation temperature pressure : B.α} {w : When B}
    (h : S.Nowhere lat lon elevation) :
    Ret S.nan (direct_underclear B lat lon w TY AM TL elevation temperature pressure) := by
  unfold direct_underclear
  refine Ret.any fun _ => Ret.any fun _ => Ret.any fun _ => Ret.any fun _ => Ret.bind (S.altitude h) fun _ _ => ?_
  rets S

theorem global_clear {lat lon TY AM TL elevation temperature pressure : B.α} {w : When B}
    (h : S.Nowhere lat lon elevation) :
    Ret S.nan (global_irradiance_clear B lat lon w TY AM TL elevation temperature pressure) := by
  unfold global_irradiance_clear
  refine Ret.any fun _ => Ret.bind (S.direct_clear h) fun _ _ => ?_
  rets S

theorem global_overcast {lat lon elevation temperature pressure : B.α} {w : When B}
    (h : S.Nowhere lat lon elevation) :
    Ret S.nan (global_irradiance_overcast B lat lon w elevation temperature pressure) := by
  unfold global_irradiance_overcast
  refine Ret.any fun _ => Ret.bind (S.altitude h) fun _ _ => ?_
  rets S

/-- `extraterrestrial_irrad` takes nan for night. -/
theorem extraterrestrial {lat lon SC : B.α} {w : When B} (h : S.nf lat ∨ S.nf lon) :
    Ret (fun r => r = B.lit 0) (extraterrestrial_irrad B lat lon w SC) := by
  unfold extraterrestrial_irrad
  dsimp only
  iterate 7 refine Ret.any fun _ => ?_
  have fin : ∀ {x r : B.α}, S.nan x → Ret (fun r => r = B.lit 0)
      (do if ← B.truth (B.lt 0 x) then return r else return 0.0) := by
    intro x r hx
    refine Ret.bind (S.positive hx) ?_
    rintro _ rfl
    rintro _ ⟨⟩
    show B.lit _ = B.lit 0
    norm_num
  rcases h with h | h
  · refine Ret.any fun _ => ?_
    refine Ret.bind (S.sin (S.radians h)) fun _ _ => ?_
    iterate 4 refine Ret.any fun _ => ?_
    refine fin ?_
    nans S
  · refine Ret.bind (S.hour_angle h) fun _ _ => ?_
    iterate 4 refine Ret.any fun _ => ?_
    refine Ret.bind (S.cos ?_) fun _ _ => ?_
    · nfs S
    refine fin ?_
    nans S

theorem half_arc {lat dec : B.α} (h : S.nf lat) : Ret S.nan (sunriseHa B lat dec) := by
  unfold sunriseHa
  rets S

theorem sunrise {lat lon : B.α} {w : When B} (h : S.nf lat ∨ S.nf lon) :
    Ret (fun _ => False) (get_sunrise_sunset_transit B lat lon w) := by
  unfold get_sunrise_sunset_transit
  dsimp only
  iterate 4 refine Ret.any fun _ => ?_
  rcases h with h | h
  · refine Ret.bind (S.half_arc h) fun _ _ => ?_
    exact Ret.bind (S.tdHours (S.of_nan (S.sub_nan (.inr ‹_›)))) fun _ h => h.elim
  · refine Ret.any fun _ => ?_
    refine Ret.bind (S.tdHours ?_) fun _ h => h.elim
    nfs S

end Strict

noncomputable section

/-! ## The four backends -/

def strictMath (tp : ℝ) : Strict (mathB tp) where
  nan x := x = V.nan
  nf := V.NonFin
  of_nan h := by subst h; trivial
  add h := V.add_nf h
  add_nan h := V.add_nan h
  sub h := V.sub_nf h
  sub_nan h := V.sub_nan h
  mul h := V.mul_nf h
  mul_nan h := V.mul_nan h
  divq q h := V.divq_nf q h
  divq_nan q h := by subst h; exact V.infMul_nan _
  modq q h := V.modq_nan q h
  radians h := V.radians_nf h
  radians_nan h := by subst h; rfl
  degrees_nan h := by subst h; rfl
  sin := by
    intro x h y hy
    cases x with
    | fin a => exact h.elim
    | _ => first | exact (Except.ok.inj hy).symm | cases hy
  cos := by
    intro x h y hy
    cases x with
    | fin a => exact h.elim
    | _ => first | exact (Except.ok.inj hy).symm | cases hy
  tan := by
    intro x h y hy
    cases x with
    | fin a => exact h.elim
    | _ => first | exact (Except.ok.inj hy).symm | cases hy
  asin := by
    intro x h y hy
    cases x with
    | fin a => exact h.elim
    | _ => first | exact (Except.ok.inj hy).symm | cases hy
  acos := by
    intro x h y hy
    cases x with
    | fin a => exact h.elim
    | _ => first | exact (Except.ok.inj hy).symm | cases hy
  exp h := by subst h; rintro _ ⟨⟩; rfl
  atan2 h y hy := (Except.ok.inj hy).symm.trans (V.atan2_nan h)
  div := by
    rintro x y h z hz
    have e := V.divNZ_nan h
    cases y with
    | fin b =>
      by_cases hb : b = 0
      · exact absurd ((if_pos hb).symm.trans hz) (by simp)
      · refine (Except.ok.inj ((if_neg hb).symm.trans hz)).symm.trans ?_
        exact e
    | _ => refine (Except.ok.inj hz).symm.trans ?_; exact e
  div_ne h := by subst h; rintro ⟨⟩
  sin_ne x := by cases x <;> rintro ⟨⟩
  where_ := by
    intro c x y hx hy
    subst hx hy
    cases c <;> rfl
  tdHours h := V.tdHours_nf h
  positive h := by subst h; rintro _ ⟨⟩; rfl

def strictNp (tp : ℝ) : Strict (npB tp) where
  nan x := x = V.nan
  nf := V.NonFin
  of_nan h := by subst h; trivial
  add h := V.add_nf h
  add_nan h := V.add_nan h
  sub h := V.sub_nf h
  sub_nan h := V.sub_nan h
  mul h := V.mul_nf h
  mul_nan h := V.mul_nan h
  divq q h := V.divq_nf q h
  divq_nan q h := by subst h; exact V.infMul_nan _
  modq q h := V.modq_nan q h
  radians h := V.radians_nf h
  radians_nan h := by subst h; rfl
  degrees_nan h := by subst h; rfl
  sin := by
    intro x h y hy
    cases x with
    | fin a => exact h.elim
    | _ => exact (Except.ok.inj hy).symm
  cos := by
    intro x h y hy
    cases x with
    | fin a => exact h.elim
    | _ => exact (Except.ok.inj hy).symm
  tan := by
    intro x h y hy
    cases x with
    | fin a => exact h.elim
    | _ => exact (Except.ok.inj hy).symm
  asin := by
    intro x h y hy
    cases x with
    | fin a => exact h.elim
    | _ => exact (Except.ok.inj hy).symm
  acos := by
    intro x h y hy
    cases x with
    | fin a => exact h.elim
    | _ => exact (Except.ok.inj hy).symm
  exp h := by subst h; rintro _ ⟨⟩; rfl
  atan2 h y hy := (Except.ok.inj hy).symm.trans (V.atan2_nan h)
  div := by
    rintro x y h z hz
    have e := V.divNZ_nan h
    cases y with
    | fin b =>
      have hx : x = V.nan := by rcases h with h | h; exact h; cases h
      subst hx
      by_cases hb : b = 0
      · exact (Except.ok.inj ((if_pos hb).symm.trans hz)).symm
      · refine (Except.ok.inj ((if_neg hb).symm.trans hz)).symm.trans ?_
        exact e
    | _ => refine (Except.ok.inj hz).symm.trans ?_; exact e
  div_ne h := by subst h; rintro ⟨⟩
  sin_ne x := by cases x <;> rintro ⟨⟩
  where_ := by
    intro c x y hx hy
    subst hx hy
    cases c <;> rfl
  tdHours h := V.tdHours_nf h
  positive h := by subst h; rintro _ ⟨⟩; rfl

def strictRnd (F : F64) : Strict (rndB F) where
  nan x := x = V.nan
  nf := V.NonFin
  of_nan h := by subst h; trivial
  add h := V.rnd_nf (V.add_nf h)
  add_nan h := V.rnd_nan (V.add_nan h)
  sub h := V.rnd_nf (V.sub_nf h)
  sub_nan h := V.rnd_nan (V.sub_nan h)
  mul h := V.rnd_nf (V.mul_nf h)
  mul_nan h := V.rnd_nan (V.mul_nan h)
  divq q h := V.rnd_nf (V.divNZ_nf h)
  divq_nan q h := V.rnd_nan (V.divNZ_nan (.inl h))
  modq q h := V.rnd_nan (V.modq_nan q h)
  radians h := V.rnd_nf (V.mul_nf (.inl h))
  radians_nan h := V.rnd_nan (V.mul_nan (.inl h))
  degrees_nan h := V.rnd_nan (V.mul_nan (.inl h))
  sin := by
    intro x h y hy
    cases x with
    | fin a => exact h.elim
    | _ => first | exact (Except.ok.inj hy).symm | cases hy
  cos := by
    intro x h y hy
    cases x with
    | fin a => exact h.elim
    | _ => first | exact (Except.ok.inj hy).symm | cases hy
  tan := by
    intro x h y hy
    cases x with
    | fin a => exact h.elim
    | _ => first | exact (Except.ok.inj hy).symm | cases hy
  asin := by
    intro x h y hy
    cases x with
    | fin a => exact h.elim
    | _ => first | exact (Except.ok.inj hy).symm | cases hy
  acos := by
    intro x h y hy
    cases x with
    | fin a => exact h.elim
    | _ => first | exact (Except.ok.inj hy).symm | cases hy
  exp h := by subst h; rintro _ ⟨⟩; rfl
  atan2 := by
    rintro x y h z hz
    have e := V.atan2_nan h
    cases x <;> cases y <;> first
      | exact (Except.ok.inj hz).symm.trans (V.rnd_nan e)
      | exact absurd h (by rintro (⟨⟨⟩⟩ | ⟨⟨⟩⟩))
  div := by
    rintro x y h z hz
    have e := V.divNZ_nan h
    cases y with
    | fin b =>
      by_cases hb : b = 0
      · exact absurd ((if_pos hb).symm.trans hz) (by simp)
      · refine (Except.ok.inj ((if_neg hb).symm.trans hz)).symm.trans ?_
        exact V.rnd_nan e
    | _ => refine (Except.ok.inj hz).symm.trans ?_; exact V.rnd_nan e
  div_ne h := by subst h; rintro ⟨⟩
  sin_ne x := by cases x <;> rintro ⟨⟩
  where_ := by
    intro c x y hx hy
    subst hx hy
    cases c <;> rfl
  tdHours h := V.tdHoursF_nf h
  positive h := by subst h; rintro _ ⟨⟩; rfl

def strictNpr (F : F64) : Strict (nprB F) where
  nan x := x = V.nan
  nf := V.NonFin
  of_nan h := by subst h; trivial
  add h := V.rnd_nf (V.add_nf h)
  add_nan h := V.rnd_nan (V.add_nan h)
  sub h := V.rnd_nf (V.sub_nf h)
  sub_nan h := V.rnd_nan (V.sub_nan h)
  mul h := V.rnd_nf (V.mul_nf h)
  mul_nan h := V.rnd_nan (V.mul_nan h)
  divq q h := V.rnd_nf (V.divNZ_nf h)
  divq_nan q h := V.rnd_nan (V.divNZ_nan (.inl h))
  modq q h := V.rnd_nan (V.modq_nan q h)
  radians h := V.rnd_nf (V.mul_nf (.inl h))
  radians_nan h := V.rnd_nan (V.mul_nan (.inl h))
  degrees_nan h := V.rnd_nan (V.mul_nan (.inl h))
  sin := by
    intro x h y hy
    cases x with
    | fin a => exact h.elim
    | _ => exact (Except.ok.inj hy).symm
  cos := by
    intro x h y hy
    cases x with
    | fin a => exact h.elim
    | _ => exact (Except.ok.inj hy).symm
  tan := by
    intro x h y hy
    cases x with
    | fin a => exact h.elim
    | _ => exact (Except.ok.inj hy).symm
  asin := by
    intro x h y hy
    cases x with
    | fin a => exact h.elim
    | _ => exact (Except.ok.inj hy).symm
  acos := by
    intro x h y hy
    cases x with
    | fin a => exact h.elim
    | _ => exact (Except.ok.inj hy).symm
  exp h := by subst h; rintro _ ⟨⟩; rfl
  atan2 := by
    rintro x y h z hz
    have e := V.atan2_nan h
    cases x <;> cases y <;> first
      | exact (Except.ok.inj hz).symm.trans (V.rnd_nan e)
      | exact absurd h (by rintro (⟨⟨⟩⟩ | ⟨⟨⟩⟩))
  div := by
    rintro x y h z hz
    have e := V.divNZ_nan h
    cases y with
    | fin b =>
      have hx : x = V.nan := by rcases h with h | h; exact h; cases h
      subst hx
      by_cases hb : b = 0
      · exact (Except.ok.inj ((if_pos hb).symm.trans hz)).symm
      · refine (Except.ok.inj ((if_neg hb).symm.trans hz)).symm.trans ?_
        exact V.rnd_nan e
    | _ => refine (Except.ok.inj hz).symm.trans ?_; exact V.rnd_nan e
  div_ne h := by subst h; rintro ⟨⟩
  sin_ne x := by cases x <;> rintro ⟨⟩
  where_ := by
    intro c x y hx hy
    subst hx hy
    cases c <;> rfl
  tdHours h := V.tdHoursF_nf h
  positive h := by subst h; rintro _ ⟨⟩; rfl

end

end Verif
