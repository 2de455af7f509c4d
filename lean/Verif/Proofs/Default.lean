import Verif.Py.Default
import Verif.Proofs.FloatNumpy

/-!
# Python numbers with the functions of numpy: simulations
-/

namespace Verif

open Pysolar Pysolar.Numeric

/-- The same time argument for the scalars of `N`. -/
def plainW {N : Backend} {pd pp : N.α → N.α → Py N.α} : When (tagB N pd pp) → When N
  | .dt d => .dt d
  | .arr t => .arr t
  | .other => .other

theorem RelM.weaken {s : Prop} {β β' : Type} {R : β → β' → Prop} {m : Py β} {m' : Py β'} (h : RelM s R m m') :
    RelM False R m m' := by
  cases m with
  | error e => exact fun hf => hf.elim
  | ok y =>
    cases m' with
    | error e => exact h.elim
    | ok z => exact h

theorem rel_tag {s : Prop} {β γ : Type} {R : β → γ → Prop} {m : Py γ} {m' : Py β} {b : Bool} (h : RelM s R m' m) :
    RelM s (fun x (y : γ × Bool) => R x y.1) m' (m >>= fun z => pure (z, b)) := by
  cases m' with
  | error e => intro hs; rw [h hs]; rfl
  | ok y =>
    cases m with
    | error e => exact h.elim
    | ok z => exact h

theorem rel_untag {γ : Type} {m m' : Py γ} {b : Bool} (h : RelM False Eq m m') :
    RelM False (fun (x : γ × Bool) y => x.1 = y) (m >>= fun z => pure (z, b)) m' := by
  cases m with
  | error e => exact fun hf => hf.elim
  | ok y =>
    cases m' with
    | error e => exact h.elim
    | ok z => exact h

section

variable {N : Backend} {pd pp : N.α → N.α → Py N.α}

/-- What mixed numbers return, numpy scalars return: Python's operators return only what numpy's return. -/
def tagNp (hd : ∀ x y, RelM False Eq (pd x y) (N.div x y)) (hp : ∀ x y, RelM False Eq (pp x y) (N.rpow x y))
    (hN : NoRaise N) (hinf : ∀ x, pd 1 x = .error .zeroDivision → N.div 1 x = .ok N.inf) (hn : N.npTime = true) :
    ScalarSim (tagB N pd pp) N where
  strict := False
  r := fun (x : N.α × Bool) (y : N.α) => x.1 = y
  rC := fun (x : N.C × Bool) (y : N.C) => x.1 = y
  rW := fun w w' => w' = plainW w
  lit _ := rfl
  pi := rfl
  e := rfl
  inf := rfl
  add := by rintro _ _ _ _ rfl rfl; rfl
  sub := by rintro _ _ _ _ rfl rfl; rfl
  mul := by rintro _ _ _ _ rfl rfl; rfl
  neg := by rintro _ _ rfl; rfl
  divq := by rintro _ _ _ rfl; rfl
  modq := by rintro _ _ _ rfl; rfl
  powN := by rintro _ _ _ rfl; rfl
  div := by
    rintro ⟨x, b⟩ _ ⟨y, c⟩ _ rfl rfl
    refine rel_untag ?_
    show RelM False Eq (if (b || c) = true then N.div x y else pd x y) (N.div x y)
    by_cases h : (b || c) = true
    · rw [if_pos h]; exact RelM.refl
    · rw [if_neg h]; exact hd x y
  sin := by rintro x _ rfl; exact rel_untag RelM.refl
  cos := by rintro x _ rfl; exact rel_untag RelM.refl
  tan := by rintro x _ rfl; exact rel_untag RelM.refl
  asin := by rintro x _ rfl; exact rel_untag RelM.refl
  acos := by rintro x _ rfl; exact rel_untag RelM.refl
  atan := by rintro x _ rfl; exact rel_untag RelM.refl
  atan2 := by rintro x _ y _ rfl rfl; exact rel_untag RelM.refl
  exp := by rintro x _ rfl; exact rel_untag RelM.refl
  radians := by rintro _ _ rfl; rfl
  degrees := by rintro _ _ rfl; rfl
  lt := by rintro _ _ _ _ rfl rfl; rfl
  le := by rintro _ _ _ _ rfl rfl; rfl
  where_ := by rintro _ _ _ _ _ _ rfl rfl rfl; rfl
  ofC := by rintro _ _ rfl; rfl
  recip_zero := by
    rintro ⟨x, b⟩ _ rfl h
    right
    refine ⟨_, ?_, rfl⟩
    have h' : ((if (false || b) = true then N.div 1 x else pd 1 x) >>= fun z => (pure (z, false || b) : Py (N.α × Bool)))
      = .error .zeroDivision := h
    by_cases hb : (false || b) = true
    · rw [if_pos hb] at h'
      obtain ⟨z, hz⟩ := hN.div 1 x
      rw [hz] at h'
      cases h'
    · rw [if_neg hb] at h'
      refine hinf x ?_
      cases hx : pd 1 x with
      | error e =>
        rw [hx] at h'
        cases h'
        rfl
      | ok z =>
        rw [hx] at h'
        cases h'
  sin_zero := by
    rintro ⟨x, b⟩ h
    have h' : (N.sin x >>= fun z => (pure (z, true) : Py (N.α × Bool))) = .error .zeroDivision := h
    obtain ⟨z, hz⟩ := hN.sin x
    rw [hz] at h'
    cases h'
  guard := by
    rintro w _ rfl
    cases w <;> exact RelM.mono (R := Eq) RelM.refl fun _ _ _ => trivial
  utctimetuple := by rintro w _ rfl; cases w <;> exact RelM.refl
  timestamp := by rintro w _ rfl; cases w <;> exact RelM.refl
  tm_yday := by
    rintro w _ rfl
    have hv : (tagB N pd pp).npTime = true := hn
    cases w <;> simp only [plainW, tm_yday, hn, hv] <;> first | rfl | exact fun _ => rfl
  tm_hour := by
    rintro w _ rfl
    have hv : (tagB N pd pp).npTime = true := hn
    cases w <;> simp only [plainW, tm_hour, hn, hv] <;> first | rfl | exact fun _ => rfl
  tm_min := by
    rintro w _ rfl
    have hv : (tagB N pd pp).npTime = true := hn
    cases w <;> simp only [plainW, tm_min, hn, hv] <;> first | rfl | exact fun _ => rfl
  rpow := by
    rintro ⟨x, b⟩ _ ⟨y, c⟩ _ rfl rfl
    refine rel_untag ?_
    show RelM False Eq (if (b || c) = true then N.rpow x y else pp x y) (N.rpow x y)
    by_cases h : (b || c) = true
    · rw [if_pos h]; exact RelM.refl
    · rw [if_neg h]; exact hp x y
  truth := by rintro _ _ rfl; exact RelM.refl
  tdHours := by rintro _ _ rfl; exact RelM.refl
  round := by rintro _ _ rfl; exact RelM.refl
  asDatetime := by rintro w _ rfl; cases w <;> exact RelM.refl
  rW_dt _ := rfl

/-- Where a backend `M` returns only what `N` returns, it returns only what mixed numbers return, if that holds for
Python's operators. -/
def toTag {M : Backend} (S : ScalarSim M N) (hn : N.npTime = true)
    (hd : ∀ {x x' y y'}, S.r x x' → S.r y y' → RelM False S.r (M.div x y) (pd x' y'))
    (hz : ∀ {x x'}, S.r x x' → M.div 1 x = .error .zeroDivision → pd 1 x' = .error .zeroDivision)
    (hp : ∀ {x x' y y'}, S.r x x' → S.r y y' → RelM False S.r (M.rpow x y) (pp x' y')) :
    ScalarSim M (tagB N pd pp) where
  strict := False
  r := fun x (y : N.α × Bool) => S.r x y.1
  rC := fun x (y : N.C × Bool) => S.rC x y.1
  rW := fun w w' => ∃ d, w = .dt d ∧ w' = .dt d
  lit _ := S.lit _
  pi := S.pi
  e := S.e
  inf := S.inf
  add h1 h2 := S.add h1 h2
  sub h1 h2 := S.sub h1 h2
  mul h1 h2 := S.mul h1 h2
  neg h := S.neg h
  divq q h := S.divq q h
  modq q h := S.modq q h
  powN n h := S.powN n h
  div := by
    rintro x ⟨x', b⟩ y ⟨y', c⟩ hx hy
    refine rel_tag ?_
    show RelM False S.r (M.div x y) (if (b || c) = true then N.div x' y' else pd x' y')
    by_cases h : (b || c) = true
    · rw [if_pos h]; exact (S.div hx hy).weaken
    · rw [if_neg h]; exact hd hx hy
  sin h := rel_tag (S.sin h).weaken
  cos h := rel_tag (S.cos h).weaken
  tan h := rel_tag (S.tan h).weaken
  asin h := rel_tag (S.asin h).weaken
  acos h := rel_tag (S.acos h).weaken
  atan h := rel_tag (S.atan h).weaken
  atan2 h1 h2 := rel_tag (S.atan2 h1 h2).weaken
  exp h := rel_tag (S.exp h).weaken
  radians h := S.radians h
  degrees h := S.degrees h
  lt h1 h2 := S.lt h1 h2
  le h1 h2 := S.le h1 h2
  where_ h1 h2 h3 := S.where_ h1 h2 h3
  ofC h := S.ofC h
  recip_zero := by
    rintro x ⟨x', b⟩ hx h
    have e : ∀ m, (tagB N pd pp).div 1 (x', b) = (m >>= fun z => (pure (z, false || b) : Py (N.α × Bool))) ↔
      ((if (false || b) = true then N.div 1 x' else pd 1 x') >>= fun z => (pure (z, false || b) : Py (N.α × Bool))) =
        (m >>= fun z => pure (z, false || b)) := fun _ => Iff.rfl
    by_cases hb : (false || b) = true
    · rcases S.recip_zero hx h with h1 | ⟨y', h1, h2⟩
      · left
        refine (e (.error .zeroDivision)).2 ?_
        rw [if_pos hb, h1]
      · right
        refine ⟨(y', false || b), (e (.ok y')).2 ?_, h2⟩
        rw [if_pos hb, h1]
    · left
      refine (e (.error .zeroDivision)).2 ?_
      rw [if_neg hb, hz hx h]
  sin_zero := S.sin_zero
  guard := by rintro _ _ ⟨d, rfl, rfl⟩; exact RelM.mono (R := Eq) RelM.refl fun _ _ _ => trivial
  utctimetuple := by rintro _ _ ⟨d, rfl, rfl⟩; exact RelM.refl
  timestamp := by rintro _ _ ⟨d, rfl, rfl⟩; exact RelM.refl
  tm_yday := by
    rintro _ _ ⟨d, rfl, rfl⟩
    have h := (S.tm_yday (S.rW_dt d)).weaken
    have e1 : tm_yday N (.dt d) = .ok (N.lit (tm_yday_numpy d)) := by simp only [tm_yday, hn]; rfl
    have e2 : tm_yday (tagB N pd pp) (.dt d) = .ok (N.lit (tm_yday_numpy d), false) := by
      have hv : (tagB N pd pp).npTime = true := hn
      simp only [tm_yday, hv]; rfl
    rw [e1] at h
    rw [e2]
    exact rel_tag (m := .ok _) h
  tm_hour := by
    rintro _ _ ⟨d, rfl, rfl⟩
    have h := (S.tm_hour (S.rW_dt d)).weaken
    have e1 : tm_hour N (.dt d) = .ok (N.lit (tm_hour_numpy d)) := by simp only [tm_hour, hn]; rfl
    have e2 : tm_hour (tagB N pd pp) (.dt d) = .ok (N.lit (tm_hour_numpy d), false) := by
      have hv : (tagB N pd pp).npTime = true := hn
      simp only [tm_hour, hv]; rfl
    rw [e1] at h
    rw [e2]
    exact rel_tag (m := .ok _) h
  tm_min := by
    rintro _ _ ⟨d, rfl, rfl⟩
    have h := (S.tm_min (S.rW_dt d)).weaken
    have e1 : tm_min N (.dt d) = .ok (N.lit (tm_min_numpy d)) := by simp only [tm_min, hn]; rfl
    have e2 : tm_min (tagB N pd pp) (.dt d) = .ok (N.lit (tm_min_numpy d), false) := by
      have hv : (tagB N pd pp).npTime = true := hn
      simp only [tm_min, hv]; rfl
    rw [e1] at h
    rw [e2]
    exact rel_tag (m := .ok _) h
  rpow := by
    rintro x ⟨x', b⟩ y ⟨y', c⟩ hx hy
    refine rel_tag ?_
    show RelM False S.r (M.rpow x y) (if (b || c) = true then N.rpow x' y' else pp x' y')
    by_cases h : (b || c) = true
    · rw [if_pos h]; exact (S.rpow hx hy).weaken
    · rw [if_neg h]; exact hp hx hy
  truth h := (S.truth h).weaken
  tdHours h := (S.tdHours h).weaken
  round h := (S.round h).weaken
  asDatetime := by rintro _ _ ⟨d, rfl, rfl⟩; exact RelM.refl
  rW_dt d := ⟨d, rfl, rfl⟩

/-- Where the kinds of numbers exclude a division of Python numbers, mixed numbers return. -/
def kindTag (hN : NoRaise N) (hn : N.npTime = true) : Sim kindB (tagB N pd pp) where
  strict := False
  r := fun (x : Bool) (y : N.α × Bool) => x = true → y.2 = true
  rC := fun (x : Bool) (y : N.C × Bool) => x = true → y.2 = true
  rW := fun w w' => (∃ d, w = .dt d ∧ w' = .dt d) ∨ ∃ t t', w = .arr t ∧ w' = .arr t'
  lit _ := fun h => nomatch h
  pi := fun h => nomatch h
  e := fun h => nomatch h
  inf := fun h => nomatch h
  add := by rintro x ⟨x', b⟩ y ⟨y', c⟩ hx hy h; exact or_tag hx hy h
  sub := by rintro x ⟨x', b⟩ y ⟨y', c⟩ hx hy h; exact or_tag hx hy h
  mul := by rintro x ⟨x', b⟩ y ⟨y', c⟩ hx hy h; exact or_tag hx hy h
  neg h := h
  divq _ h := h
  modq _ h := h
  powN _ h := h
  div := by
    rintro x ⟨x', b⟩ y ⟨y', c⟩ hx hy
    show RelM False _ (if (x || y) = true then (.ok true : Py Bool) else .error .typeError)
      ((if (b || c) = true then N.div x' y' else pd x' y') >>= fun z => (pure (z, b || c) : Py (N.α × Bool)))
    by_cases h : (x || y) = true
    · have hb : (b || c) = true := or_tag hx hy h
      rw [if_pos h, if_pos hb]
      obtain ⟨z, hz⟩ := hN.div x' y'
      rw [hz]
      exact fun _ => hb
    · rw [if_neg h]
      exact fun hf => hf.elim
  sin _ := ok_tag (hN.sin _)
  cos _ := ok_tag (hN.cos _)
  tan _ := ok_tag (hN.tan _)
  asin _ := ok_tag (hN.asin _)
  acos _ := ok_tag (hN.acos _)
  atan _ := ok_tag (hN.atan _)
  atan2 _ _ := ok_tag (hN.atan2 _ _)
  exp _ := ok_tag (hN.exp _)
  radians _ := fun _ => rfl
  degrees _ := fun _ => rfl
  lt := by rintro x ⟨x', b⟩ y ⟨y', c⟩ hx hy h; exact or_tag hx hy h
  le := by rintro x ⟨x', b⟩ y ⟨y', c⟩ hx hy h; exact or_tag hx hy h
  where_ _ _ _ := fun _ => rfl
  ofC h := h
  recip_zero := by rintro (_ | _) _ _ h <;> cases h
  sin_zero := by intro x h; cases h
  guard := by
    rintro _ _ (⟨d, rfl, rfl⟩ | ⟨t, t', rfl, rfl⟩)
    · exact RelM.mono (R := Eq) RelM.refl fun _ _ _ => trivial
    · exact trivial
  utctimetuple := by
    rintro _ _ (⟨d, rfl, rfl⟩ | ⟨t, t', rfl, rfl⟩)
    · exact RelM.refl
    · exact fun hf => hf.elim
  timestamp := by
    rintro _ _ (⟨d, rfl, rfl⟩ | ⟨t, t', rfl, rfl⟩)
    · exact RelM.refl
    · exact fun hf => hf.elim
  tm_yday := by
    have hv : (tagB N pd pp).npTime = true := hn
    rintro _ _ (⟨d, rfl, rfl⟩ | ⟨t, t', rfl, rfl⟩) <;> simp only [tm_yday, hv]
    · exact fun h => nomatch h
    · exact fun _ => rfl
  tm_hour := by
    have hv : (tagB N pd pp).npTime = true := hn
    rintro _ _ (⟨d, rfl, rfl⟩ | ⟨t, t', rfl, rfl⟩) <;> simp only [tm_hour, hv]
    · exact fun h => nomatch h
    · exact fun _ => rfl
  tm_min := by
    have hv : (tagB N pd pp).npTime = true := hn
    rintro _ _ (⟨d, rfl, rfl⟩ | ⟨t, t', rfl, rfl⟩) <;> simp only [tm_min, hv]
    · exact fun h => nomatch h
    · exact fun _ => rfl
where
  or_tag {x y b c : Bool} (hx : x = true → b = true) (hy : y = true → c = true) (h : (x || y) = true) : (b || c) = true := by
    cases x <;> cases y <;> simp_all
  ok_tag {m : Py N.α} (h : ∃ z, m = .ok z) :
      RelM False (fun (x : Bool) (y : N.α × Bool) => x = true → y.2 = true) (.ok true) (m >>= fun z => pure (z, true)) := by
    obtain ⟨z, rfl⟩ := h
    exact fun _ => rfl

end

theorem np_noRaise (tp : ℝ) : NoRaise (npB tp) where
  div := np_div_ok tp
  sin := np_sin_ok tp
  cos := np_cos_ok tp
  tan := np_tan_ok tp
  asin := np_asin_ok tp
  acos := np_acos_ok tp
  atan _ := ⟨_, rfl⟩
  atan2 _ _ := ⟨_, rfl⟩
  exp := np_exp_ok tp

/-- Exact arithmetic: mixed numbers by numpy scalars. -/
noncomputable def dflNp (tp : ℝ) : ScalarSim (dflB tp) (npB tp) :=
  tagNp (mathNp_div tp) (mathNp_rpow tp) (np_noRaise tp) (mathNp_recip tp) rfl

/-- Exact arithmetic: the math module by mixed numbers. -/
noncomputable def mathDfl (tp : ℝ) : ScalarSim (mathB tp) (dflB tp) :=
  toTag (mathNp tp) rfl (by rintro x _ y _ rfl rfl; exact RelM.refl) (by rintro x _ rfl h; exact h)
    (by rintro x _ y _ rfl rfl; exact RelM.refl)

/-- Double precision: mixed numbers by numpy scalars. -/
noncomputable def dflNpF (F : F64) : ScalarSim (dflF F) (nprB F) :=
  tagNp (rndNp_div F) (rndNp_rpow F) (npr_noRaise F) (rndNp_recip F) rfl

/-- Double precision: the math module by mixed numbers. -/
noncomputable def mathDflF (F : F64) : ScalarSim (rndB F) (dflF F) :=
  toTag (rndNp F) rfl (by rintro x _ y _ rfl rfl; exact RelM.refl) (by rintro x _ rfl h; exact h)
    (by rintro x _ y _ rfl rfl; exact RelM.refl)

end Verif
