import Verif.Spec.Switch
import Mathlib.Data.List.Induction

/-!
# C57: switching between `math` and numpy
-/

namespace Verif.Props

open Verif.Spec Pysolar Pysolar.Numeric

/-- The names of one set, as a function. -/
def table (c : Chosen) : Globals := fun k =>
  if k ∈ sharedNames then some (match c with | .math => ⟨.math, k⟩ | .numpy => ⟨.numpy, k⟩)
  else match renamed.lookup k with
    | some k' => some (match c with | .math => ⟨.math, k⟩ | .numpy => ⟨.numpy, k'⟩)
    | none => match dateNames.lookup k with
      | some (m, n) => some (match c with | .math => ⟨.ownMath, m⟩ | .numpy => ⟨.ownNumpy, n⟩)
      | none => none

/-- All the switched names. -/
def allNames : List String := sharedNames ++ renamed.map (·.1) ++ dateNames.map (·.1)

def GoodState (c : Chosen) (s : State) : Prop :=
  (∀ k ∈ allNames, s.g k = table c k) ∧ s.current_mod = match c with | .math => "math" | .numpy => "numpy"

theorem good_init0 : GoodState .math init0 := by
  refine ⟨?_, rfl⟩
  simp only [allNames, sharedNames, renamed, dateNames, List.map, List.cons_append, List.nil_append,
    List.forall_mem_cons]
  repeat' constructor
  simp

theorem good_use_numpy (s : State) : GoodState .numpy (use_numpy s) := by
  refine ⟨?_, rfl⟩
  simp only [allNames, sharedNames, renamed, dateNames, List.map, List.cons_append, List.nil_append,
    List.forall_mem_cons]
  repeat' constructor
  simp

theorem good_use_math (s : State) : GoodState .math (use_math s) := by
  refine ⟨?_, rfl⟩
  simp only [allNames, sharedNames, renamed, dateNames, List.map, List.cons_append, List.nil_append,
    List.forall_mem_cons]
  repeat' constructor
  simp

theorem run_append (np : Bool) (ops : List Op) (o : Op) : run np (ops ++ [o]) = step np (run np ops) o := by
  simp [run]

theorem good_run (np : Bool) (ops : List Op) : GoodState (selected np ops) (run np ops) := by
  induction ops using List.reverseRecOn with
  | nil =>
    cases np
    · exact good_init0
    · exact good_use_numpy _
  | append_singleton ops o ih =>
    rw [run_append]
    cases np <;> cases o
    · simpa [step, selected] using ih
    · simpa [step, selected] using good_use_math _
    · simpa [step, selected] using good_use_numpy _
    · simpa [step, selected] using good_use_math _

theorem table_denoted (c : Chosen) : ∀ k ∈ allNames, ∀ b, table c k = some b ↔ Denoted c k b := by
  simp only [allNames, sharedNames, renamed, dateNames, List.map, List.cons_append, List.nil_append,
    List.forall_mem_cons]
  cases c <;>
  · refine ⟨?_, ?_, ?_, ?_, ?_, ?_, ?_, ?_, ?_, ?_, ?_, ?_, ?_, ?_, ?_, by simp⟩ <;>
    · intro b
      simp [table, Denoted, sharedNames, renamed, dateNames, List.lookup, eq_comm]

/-- C57, what holds: after any history of calls every switched name except `where` denotes the object of the set
selected last, and `current_mod` is its name.  Missing: `where`. -/
theorem C57_all_but_where_partial (np : Bool) (ops : List Op) :
    (∀ k b, (k ∈ sharedNames ∨ k ∈ renamed.map (·.1) ∨ k ∈ dateNames.map (·.1)) →
      ((run np ops).g k = some b ↔ Denoted (selected np ops) k b)) ∧
    (run np ops).current_mod = (match selected np ops with | .math => "math" | .numpy => "numpy") := by
  obtain ⟨h1, h2⟩ := good_run np ops
  refine ⟨fun k b hk => ?_, h2⟩
  have hk : k ∈ allNames := by
    simp only [allNames, List.mem_append]
    tauto
  rw [h1 k hk]
  exact table_denoted _ k hk b

/-- `where` never changes after the import of the module. -/
theorem C57_where_partial (np : Bool) (ops : List Op) :
    (run np ops).g "where" = some (whereDenoted (if np then .numpy else .math)) := by
  induction ops using List.reverseRecOn with
  | nil => cases np <;> rfl
  | append_singleton ops o ih =>
    rw [run_append]
    cases np <;> cases o
    · exact ih
    · exact ih
    · rfl
    · exact ih

/-- C57 in full, where numpy is not installed. -/
theorem C57_without_numpy (ops : List Op) :
    selected false ops = .math ∧ (run false ops).g "where" = some (whereDenoted (selected false ops)) ∧
    ∀ k b, (k ∈ sharedNames ∨ k ∈ renamed.map (·.1) ∨ k ∈ dateNames.map (·.1)) →
      ((run false ops).g k = some b ↔ Denoted (selected false ops) k b) :=
  ⟨rfl, C57_where_partial false ops, (C57_all_but_where_partial false ops).1⟩

/-- What C57 claims. -/
def C57Claim : Prop := ∀ (np : Bool) (ops : List Op),
  (run np ops).g "where" = some (whereDenoted (selected np ops)) ∧
  ∀ k b, (k ∈ sharedNames ∨ k ∈ renamed.map (·.1) ∨ k ∈ dateNames.map (·.1)) →
      ((run np ops).g k = some b ↔ Denoted (selected np ops) k b)

/-- C57 is false: with numpy installed, `use_math()` leaves numpy's `where` in place. -/
theorem C57_refuted : ¬ C57Claim := by
  intro h
  have := (h true [.use_math]).1
  rw [C57_where_partial] at this
  simp [selected, whereDenoted] at this

/-- With numpy installed, `where` is wrong exactly when `use_math()` was called last. -/
theorem C57_where_iff_partial (ops : List Op) :
    (run true ops).g "where" = some (whereDenoted (selected true ops)) ↔ ops.getLast? ≠ some .use_math := by
  rw [C57_where_partial]
  simp only [if_true, selected]
  cases h : ops.getLast? with
  | none => simp
  | some o => cases o <;> simp [whereDenoted]

example : selected true [.use_math, .use_numpy, .use_math] = .math := rfl
example : (run true [.use_math]).g "atan2" = some ⟨.math, "atan2"⟩ := by decide
example : (run true [.use_math, .use_numpy]).g "atan2" = some ⟨.numpy, "arctan2"⟩ := by decide

end Verif.Props
