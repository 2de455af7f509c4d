import Verif.Spec.Guard
import Verif.Model.Util
import Mathlib.Data.List.Nodup

/-!
# C01, C02, C03: the timezone guard
-/

namespace Verif.Props

open Pysolar Pysolar.TzCheck Verif.Spec

variable {O β : Type}

theorem lookup_eq_some_of_mem {kw : List (String × O)} (hnd : (kw.map Prod.fst).Nodup)
    {k : String} {v : O} (h : (k, v) ∈ kw) : kw.lookup k = some v := by
  induction kw with
  | nil => simp at h
  | cons p kw ih =>
    obtain ⟨k', v'⟩ := p
    simp only [List.map_cons, List.nodup_cons] at hnd
    rcases List.mem_cons.mp h with h' | h'
    · simp only [Prod.mk.injEq] at h'
      obtain ⟨rfl, rfl⟩ := h'
      simp [List.lookup]
    · have hne : k ≠ k' := by
        intro hk
        subst hk
        exact hnd.1 (List.mem_map.mpr ⟨(k, v), h', rfl⟩)
      have : (k == k') = false := by simpa using hne
      simp [List.lookup, this, ih hnd.2 h']

theorem mem_of_lookup_eq_some {kw : List (String × O)} {k : String} {v : O}
    (h : kw.lookup k = some v) : (k, v) ∈ kw := by
  induction kw with
  | nil => simp at h
  | cons p kw ih =>
    obtain ⟨k', v'⟩ := p
    by_cases hk : k = k'
    · subst hk
      simp [List.lookup] at h
      simp [h]
    · have : (k == k') = false := by simpa using hk
      simp [List.lookup, this] at h
      exact List.mem_cons_of_mem _ (ih h)

theorem fetch_eq_ok_iff {sig : Signature} {args : List O} {kwargs : List (String × O)}
    (wf : WellFormed sig kwargs) (name : String) (dt : O) :
    fetch sig name args kwargs = .ok dt ↔ Supplied sig args kwargs name dt := by
  have uniq : ∀ i j : ℕ, sig.args[i]? = some name → sig.args[j]? = some name → i = j := by
    intro i j hi hj
    obtain ⟨hi', hi⟩ := List.getElem?_eq_some_iff.mp hi
    obtain ⟨hj', hj⟩ := List.getElem?_eq_some_iff.mp hj
    exact (List.Nodup.getElem_inj_iff wf.args).mp (hi.trans hj.symm)
  have kwok : pyLookup kwargs name = .ok dt ↔ (name, dt) ∈ kwargs := by
    unfold pyLookup
    constructor
    · intro h
      split at h
      · rename_i x hx
        cases h
        exact mem_of_lookup_eq_some hx
      · cases h
    · intro h
      rw [lookup_eq_some_of_mem wf.keys h]
  unfold fetch Supplied
  cases hidx : sig.args.idxOf? name with
  | none =>
    have hnot : name ∉ sig.args := by
      rwa [List.idxOf?_eq_none_iff] at hidx
    have hnone : ∀ i : ℕ, sig.args[i]? ≠ some name := fun i hi => hnot (List.mem_of_getElem? hi)
    simp only [kwok]
    constructor
    · intro h; exact Or.inr ⟨fun i hi => absurd hi (hnone i), h⟩
    · rintro (⟨i, hi, -⟩ | ⟨-, h⟩)
      · exact absurd hi (hnone i)
      · exact h
  | some i =>
    have hi : sig.args[i]? = some name := by
      have := List.idxOf?_eq_some_iff.mp hidx
      obtain ⟨h, he, -⟩ := this
      rw [List.getElem?_eq_some_iff]
      exact ⟨h, by simpa using he⟩
    simp only []
    cases hargs : args[i]? with
    | some x =>
      constructor
      · intro h; cases h; exact Or.inl ⟨i, hi, hargs⟩
      · rintro (⟨j, hj, hx⟩ | ⟨h, -⟩)
        · obtain rfl := uniq i j hi hj
          rw [hargs] at hx; cases hx; rfl
        · have := h i hi
          have := (List.getElem?_eq_some_iff.mp hargs).1
          omega
    | none =>
      simp only [kwok]
      have hlen : args.length ≤ i := by simpa using hargs
      constructor
      · intro h
        refine Or.inr ⟨fun j hj => ?_, h⟩
        obtain rfl := uniq i j hi hj
        exact hlen
      · rintro (⟨j, hj, hx⟩ | ⟨-, h⟩)
        · obtain rfl := uniq i j hi hj
          rw [hargs] at hx; cases hx
        · exact h

theorem fetch_error {sig : Signature} {args : List O} {kwargs : List (String × O)}
    (name : String) {e : PyErr} (h : fetch sig name args kwargs = .error e) : e = .keyError := by
  have kw : ∀ {e}, pyLookup kwargs name = .error e → e = .keyError := by
    intro e h
    unfold pyLookup at h
    split at h <;> cases h
    rfl
  unfold fetch at h
  split at h
  · split at h
    · cases h
    · exact kw h
  · exact kw h

theorem checkAll_cons (V : ObjView O) (sig : Signature) (args : List O)
    (kwargs : List (String × O)) (name : String) (rest : List String) :
    checkAll V sig args kwargs (name :: rest) =
      (if name ∈ sig.args ∨ name ∈ sig.kwonlyargs then
        (fetch sig name args kwargs).bind fun dt =>
          (checkValue V name dt).bind fun _ => checkAll V sig args kwargs rest
      else checkAll V sig args kwargs rest) := by
  rw [checkAll]
  split
  · cases fetch sig name args kwargs <;> rfl
  · rfl

theorem checkAll_fine (V : ObjView O) {sig : Signature} {args : List O}
    {kwargs : List (String × O)} (wf : WellFormed sig kwargs) {name : String}
    (h : Fine V sig args kwargs name) (rest : List String) :
    checkAll V sig args kwargs (name :: rest) = checkAll V sig args kwargs rest := by
  rw [checkAll_cons]
  split
  · rename_i hp
    obtain ⟨dt, hs, ha⟩ := h hp
    rw [(fetch_eq_ok_iff wf name dt).mpr hs]
    have : checkValue V name dt = .ok () := by
      unfold checkValue
      rcases ha with ha | ⟨ha, hb⟩ <;> simp [ha]
      simp [hb]
    simp [Except.bind, this]
  · rfl

theorem checkAll_offends (V : ObjView O) {sig : Signature} {args : List O}
    {kwargs : List (String × O)} (wf : WellFormed sig kwargs) {name : String} {e : PyErr}
    (h : Offends V sig args kwargs name e) (rest : List String) :
    checkAll V sig args kwargs (name :: rest) = .error e := by
  rw [checkAll_cons]
  have hp : name ∈ sig.args ∨ name ∈ sig.kwonlyargs := by cases h <;> assumption
  rw [if_pos hp]
  cases h with
  | missing _ hm =>
    cases hf : fetch sig name args kwargs with
    | ok dt => exact absurd ((fetch_eq_ok_iff wf name dt).mp hf) (hm dt)
    | error e => rw [fetch_error name hf]; rfl
  | notDatetime _ dt hs h1 h2 =>
    rw [(fetch_eq_ok_iff wf name dt).mpr hs]
    simp [Except.bind, checkValue, h1, h2]
  | naive _ dt hs h1 h2 h3 =>
    rw [(fetch_eq_ok_iff wf name dt).mpr hs]
    simp [Except.bind, checkValue, h1, h2, h3]

/-- C02: if every guarded name of the call is fine, the decorated function returns or raises exactly what
the undecorated function does on the same arguments. -/
theorem C02_guard_transparent (V : ObjView O) (argnames : List String) (sig : Signature)
    (func : List O → List (String × O) → Py β) (args : List O) (kwargs : List (String × O))
    (wf : WellFormed sig kwargs) (h : ∀ name ∈ argnames, Fine V sig args kwargs name) :
    check_aware_dt V argnames sig func args kwargs = func args kwargs := by
  have : checkAll V sig args kwargs argnames = .ok () := by
    induction argnames with
    | nil => rfl
    | cons n rest ih =>
      rw [checkAll_fine V wf (h n (by simp))]
      exact ih fun m hm => h m (by simp [hm])
  simp [check_aware_dt, this, bind, Except.bind]

/-- C03 (first offender decides): the error is the one of the first offending name in decorator order,
whatever comes after it and whatever the wrapped function is (which is therefore not run). -/
theorem C03_first_offender (V : ObjView O) (pre : List String) (name : String) (post : List String)
    (sig : Signature) (func : List O → List (String × O) → Py β) (args : List O)
    (kwargs : List (String × O)) (wf : WellFormed sig kwargs) (e : PyErr)
    (hpre : ∀ n ∈ pre, Fine V sig args kwargs n) (hname : Offends V sig args kwargs name e) :
    check_aware_dt V (pre ++ name :: post) sig func args kwargs = .error e := by
  have : checkAll V sig args kwargs (pre ++ name :: post) = .error e := by
    induction pre with
    | nil => exact checkAll_offends V wf hname post
    | cons n rest ih =>
      rw [List.cons_append, checkAll_fine V wf (hpre n (by simp))]
      exact ih fun m hm => hpre m (by simp [hm])
  simp [check_aware_dt, this, bind, Except.bind]

/-- C03 (completeness): every name is either fine or offends with exactly one error. -/
theorem C03_complete (V : ObjView O) (sig : Signature) (args : List O)
    (kwargs : List (String × O)) (wf : WellFormed sig kwargs) (name : String) :
    (Fine V sig args kwargs name ∧ ∀ e, ¬ Offends V sig args kwargs name e) ∨
    (¬ Fine V sig args kwargs name ∧ ∃! e, Offends V sig args kwargs name e) := by
  have uniq : ∀ a b, Supplied sig args kwargs name a → Supplied sig args kwargs name b → a = b := by
    intro a b ha hb
    have ha := (fetch_eq_ok_iff wf name a).mpr ha
    have hb := (fetch_eq_ok_iff wf name b).mpr hb
    rw [ha] at hb
    exact Except.ok.inj hb
  have excl : Fine V sig args kwargs name → ∀ e, ¬ Offends V sig args kwargs name e := by
    rintro hf e (⟨hp, hm⟩ | ⟨hp, dt, hs, h1, h2⟩ | ⟨hp, dt, hs, h1, h2, h3⟩)
    · obtain ⟨dt, hs, -⟩ := hf hp
      exact hm dt hs
    · obtain ⟨dt', hs', ha⟩ := hf hp
      obtain rfl := uniq _ _ hs hs'
      rcases ha with ha | ⟨ha, -⟩ <;> simp_all
    · obtain ⟨dt', hs', ha⟩ := hf hp
      obtain rfl := uniq _ _ hs hs'
      rcases ha with ha | ⟨ha, hb⟩ <;> simp_all
  have one : ∀ e e', Offends V sig args kwargs name e → Offends V sig args kwargs name e' → e' = e := by
    rintro e e' he he'
    have h1 := checkAll_offends V wf he []
    have h2 := checkAll_offends V wf he' []
    rw [h1] at h2
    exact (Except.error.inj h2).symm
  by_cases hf : Fine V sig args kwargs name
  · exact Or.inl ⟨hf, excl hf⟩
  · refine Or.inr ⟨hf, ?_⟩
    have hp : Param sig name := by
      by_contra hp
      exact hf fun h => absurd h hp
    suffices ∃ e, Offends V sig args kwargs name e by
      obtain ⟨e, he⟩ := this
      exact ⟨e, he, fun e' he' => one e e' he he'⟩
    by_cases hs : ∃ dt, Supplied sig args kwargs name dt
    · obtain ⟨dt, hs⟩ := hs
      have hna : ¬ Acceptable V dt := fun ha => hf fun _ => ⟨dt, hs, ha⟩
      unfold Acceptable at hna
      cases h1 : V.hasShape dt
      · cases h2 : V.hasTzinfo dt
        · exact ⟨_, .notDatetime hp dt hs h1 h2⟩
        · cases h3 : V.tzinfoIsNone dt
          · simp_all
          · exact ⟨_, .naive hp dt hs h1 h2 h3⟩
      · simp_all
    · exact ⟨_, .missing hp fun dt h => hs ⟨dt, h⟩⟩

/-- C03 for one guarded name `when` which has been supplied: exactly the three outcomes. -/
theorem C03_when (B : Backend) (w : When B) :
    TzCheck.guard w =
      match w with
      | .arr _ => .ok ()
      | .other => .error .valueError
      | .dt d => if d.tz.isNone then .error (.noTimeZoneInfo "when") else .ok () := by
  cases w <;> simp [TzCheck.guard, checkValue, whenView]

/-- The general decorator with the single guarded name `when`, in a call that supplies it, is `guard`
followed by the body: this is how every model function is written. -/
theorem C02_guard_eq_decorator (B : Backend) (sig : Signature)
    (func : List (When B) → List (String × When B) → Py β) (args : List (When B))
    (kwargs : List (String × When B)) (wf : WellFormed sig kwargs) (w : When B)
    (hp : Param sig "when") (hs : Supplied sig args kwargs "when" w) :
    check_aware_dt (whenView B) ["when"] sig func args kwargs =
      (TzCheck.guard w).bind fun _ => func args kwargs := by
  have hf := (fetch_eq_ok_iff wf "when" w).mpr hs
  have : checkAll (whenView B) sig args kwargs ["when"] = TzCheck.guard w := by
    rw [checkAll_cons, if_pos (show _ ∨ _ from hp), hf]
    simp only [Except.bind, checkAll, TzCheck.guard]
    cases checkValue (whenView B) "when" w <;> rfl
  simp only [check_aware_dt, this]
  rfl

/-! Non-vacuity: the signature of `get_altitude(latitude_deg, longitude_deg, when, elevation, ...)`,
`when` passed positionally and by keyword; objects are aware, naive datetimes, arrays or numbers. -/

section Example

/-- Toy objects: `0` a number, `1` a naive datetime, `2` an aware one, `3` an array. -/
def toyView : ObjView ℕ := ⟨(· == 3), fun n => n == 1 || n == 2, (· == 1)⟩
def altSig : Signature := ⟨["latitude_deg", "longitude_deg", "when", "elevation"], []⟩

example : WellFormed altSig [("when", 2)] := ⟨by decide, by decide⟩
example : Fine toyView altSig [0, 0] [("when", 2)] "when" := fun _ =>
  ⟨2, Or.inr ⟨by
    intro i hi
    match i with
    | 0 => simp [altSig] at hi
    | 1 => simp [altSig] at hi
    | i + 2 => simp, by simp⟩, Or.inr ⟨by decide, by decide⟩⟩
example : Offends toyView altSig [0, 0, 1] [] "when" (.noTimeZoneInfo "when") :=
  .naive (Or.inl (by decide)) 1 (Or.inl ⟨2, by decide, by decide⟩) (by decide) (by decide) (by decide)
example : Offends toyView altSig [0, 0, 0] [] "when" .valueError :=
  .notDatetime (Or.inl (by decide)) 0 (Or.inl ⟨2, by decide, by decide⟩) (by decide) (by decide)
example : check_aware_dt toyView ["when"] altSig (fun _ _ => Except.ok 7) [0, 0] [] =
    Except.error .keyError := by decide
example : check_aware_dt toyView ["when"] altSig (fun _ _ => Except.ok 7) [0, 0, 2] [] =
    Except.ok 7 := by decide

end Example

end Verif.Props
