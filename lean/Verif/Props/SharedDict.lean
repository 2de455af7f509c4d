import Verif.Model.SharedDict
import Verif.Proofs.Series
import Verif.Props.Cache

/-!
# C60, C83: the shared dictionary of nutation polynomials
-/

namespace Verif.Props

open Pysolar Pysolar.Constants Pysolar.Solar

/-- The steps that leave the five polynomials alone: calls, reads, and writes under other names. -/
def Harmless {B : Backend} : DictOp B → Prop
  | .nutation _ => True
  | .read => True
  | .set k _ => k ∉ fundamentalArguments.map (·.1)
  | .pop k => k ∉ fundamentalArguments.map (·.1)

/-- The claim: whatever a program has done with the dictionary, `get_nutation` returns the same as at the start. -/
def nutation_undisturbed (B : Backend) : Prop :=
  ∀ (ops : List (DictOp B)) (jce : B.α), (get_nutation_st B (runDict B ops) jce).1 = get_nutation B jce

/-- A dictionary in which the five names have their own polynomials. -/
private def Intact (B : Backend) (g : Shared B) : Prop :=
  ∀ k ∈ fundamentalArguments.map (·.1),
    (get_aberration_coeffs B g).1.lookup k = (buildAberrationDict B).lookup k

private theorem lookup_filter {β : Type} (d : List (String × β)) {k k' : String} (h : k ≠ k') :
    (d.filter (fun e => e.1 != k)).lookup k' = d.lookup k' := by
  induction d with
  | nil => rfl
  | cons e d ih =>
    obtain ⟨a, b⟩ := e
    rw [List.filter_cons]
    by_cases ha : a = k
    · subst ha
      have : (k' == a) = false := by simpa using fun h' => h h'.symm
      simp [List.lookup, this, ih]
    · have : ((a, b).1 != k) = true := by simpa using ha
      rw [if_pos this, List.lookup, List.lookup]
      split
      · rfl
      · exact ih

private theorem intact_step (B : Backend) (g : Shared B) (o : DictOp B) (ho : Harmless o) (h : Intact B g) :
    Intact B (o.run B g) := by
  cases o with
  | nutation jce =>
    intro k hk
    rw [← h k hk]
    cases g <;> rfl
  | read =>
    intro k hk
    rw [← h k hk]
    cases g <;> rfl
  | set n f =>
    intro k hk
    have hne : n ≠ k := fun e => ho (e ▸ hk)
    have hb : (k == n) = false := by simpa using fun h' => hne h'.symm
    rw [← h k hk]
    show (dictSet (get_aberration_coeffs B g).1 n f).lookup k = _
    rw [dictSet, List.lookup, hb]
    exact lookup_filter _ hne
  | pop n =>
    intro k hk
    have hne : n ≠ k := fun e => ho (e ▸ hk)
    rw [← h k hk]
    exact lookup_filter _ hne

private theorem intact_run (B : Backend) (ops : List (DictOp B)) (hops : ∀ o ∈ ops, Harmless o) :
    ∀ g, Intact B g → Intact B (ops.foldl (DictOp.run B) g) := by
  induction ops with
  | nil => exact fun g h => h
  | cons o os ih =>
    intro g h
    exact ih (fun o' ho' => hops o' (List.mem_cons_of_mem _ ho')) _
      (intact_step B g o (hops o List.mem_cons_self) h)

private theorem nutationX_congr (B : Backend) (p q : AberrationDict B) (jce : B.α) (ks : List String)
    (h : ∀ k ∈ ks, p.lookup k = q.lookup k) : nutationX B p jce ks = nutationX B q jce ks := by
  induction ks with
  | nil => rfl
  | cons k ks ih =>
    rw [nutationX, nutationX, ih fun k' hk' => h k' (List.mem_cons_of_mem _ hk'), pyLookup, pyLookup,
      h k List.mem_cons_self]

/-- C83: calls and reads in any number, and writes under names other than the five, leave every later `get_nutation`
as it was. -/
theorem C83_harmless_partial (B : Backend) (ops : List (DictOp B)) (hops : ∀ o ∈ ops, Harmless o) (jce : B.α) :
    (get_nutation_st B (runDict B ops) jce).1 = get_nutation B jce := by
  have h : Intact B (runDict B ops) := intact_run B ops hops _ fun _ _ => rfl
  unfold get_nutation get_nutation_st
  simp only []
  rw [nutationX_congr B (get_aberration_coeffs B (runDict B ops)).1
    (get_aberration_coeffs B (aberration_coeffs0 B)).1 jce nutationArgs]
  intro k hk
  refine h k ?_
  simp only [nutationArgs, List.mem_cons, List.not_mem_nil, or_false] at hk
  rcases hk with rfl | rfl | rfl | rfl | rfl <;> simp [fundamentalArguments]

/-- C83: after `get_aberration_coeffs().pop(k)` for one of the five names, every later `get_nutation` raises `KeyError`
until the entry is written again. -/
theorem C83_pop_partial (B : Backend) (ops ops' : List (DictOp B)) (k : String)
    (hk : k ∈ fundamentalArguments.map (·.1)) (hops' : ∀ o ∈ ops', Harmless o) (jce : B.α) :
    (get_nutation_st B (runDict B (ops ++ .pop k :: ops')) jce).1 = .error .keyError := by
  -- the entry stays missing
  have key : ∀ (os : List (DictOp B)), (∀ o ∈ os, Harmless o) → ∀ g : Shared B,
      (get_aberration_coeffs B g).1.lookup k = none →
      (get_aberration_coeffs B (os.foldl (DictOp.run B) g)).1.lookup k = none := by
    intro os
    induction os with
    | nil => exact fun _ g h => h
    | cons o os ih =>
      intro hos g h
      refine ih (fun o' ho' => hos o' (List.mem_cons_of_mem _ ho')) _ ?_
      have ho := hos o List.mem_cons_self
      cases o with
      | nutation jce => rw [← h]; cases g <;> rfl
      | read => rw [← h]; cases g <;> rfl
      | set n f =>
        have hne : n ≠ k := fun e => ho (e ▸ hk)
        have hb : (k == n) = false := by simpa using fun h' => hne h'.symm
        rw [← h]
        show (dictSet (get_aberration_coeffs B g).1 n f).lookup k = _
        rw [dictSet, List.lookup, hb]
        exact lookup_filter _ hne
      | pop n =>
        have hne : n ≠ k := fun e => ho (e ▸ hk)
        rw [← h]
        exact lookup_filter _ hne
  have h0 : (get_aberration_coeffs B (runDict B (ops ++ .pop k :: ops'))).1.lookup k = none := by
    unfold runDict
    rw [List.foldl_append, List.foldl_cons]
    refine key ops' hops' _ ?_
    show (dictPop _ k).lookup k = none
    generalize (get_aberration_coeffs B _).1 = d
    unfold dictPop
    induction d with
    | nil => rfl
    | cons e d ih =>
      rw [List.filter_cons]
      split
      · rename_i hne
        have : (k == e.1) = false := by simpa using fun h' => (by simpa using hne : ¬ e.1 = k) h'.symm
        rw [List.lookup]
        simp only [this]
        exact ih
      · exact ih
  have hx : ∀ (p : AberrationDict B), p.lookup k = none → ∀ ks, k ∈ ks →
      nutationX B p jce ks = .error .keyError := by
    intro p hp ks
    induction ks with
    | nil => intro h; simp at h
    | cons a as ih =>
      intro h
      rw [nutationX]
      by_cases ha : a = k
      · rw [ha, pyLookup, hp]; rfl
      · rw [ih (by simpa [Ne.symm ha] using h)]
        unfold pyLookup
        cases p.lookup a <;> rfl
  show (nutationX B _ jce nutationArgs >>= _) = _
  rw [hx _ h0 nutationArgs (by
    simp only [fundamentalArguments, List.map, List.mem_cons, List.not_mem_nil, or_false] at hk
    rcases hk with rfl | rfl | rfl | rfl | rfl <;> simp [nutationArgs])]
  rfl

/-- C83 is false of the code: one caller can make `get_nutation` fail for all others. -/
theorem C83_refuted : ¬ ∀ B, nutation_undisturbed B := by
  intro h
  have h1 := h (mathB 0) [.pop "MeanAnomalyOfSun"] (num 0)
  have h2 := C83_pop_partial (mathB 0) [] [] "MeanAnomalyOfSun" (by simp [fundamentalArguments]) (by simp) (num 0)
  have h3 := C83_harmless_partial (mathB 0) [] (by simp) (num 0)
  rw [← h1] at h3
  rw [List.nil_append] at h2
  rw [h2] at h3
  have h4 : ∃ n, get_nutation (mathB 0) (num 0) = .ok n := ⟨_, nutation_eval 0⟩
  obtain ⟨n, hn⟩ := h4
  rw [h1, hn] at h2
  exact nomatch h2

/-- The steps that only use the dictionary. -/
def OnlyUses {B : Backend} : DictOp B → Prop
  | .nutation _ => True
  | .read => True
  | .set _ _ => False
  | .pop _ => False

/-- C60: the dictionary is built by the first use, be it a direct call or a call of `get_nutation`, and kept: it is the
global after every further use, and what every further call returns. -/
theorem C60_built_once (B : Backend) (ops : List (DictOp B)) (hne : ops ≠ []) (hops : ∀ o ∈ ops, OnlyUses o) :
    runDict B ops = some (buildAberrationDict B) := by
  have step : ∀ (g : Shared B) (o : DictOp B), OnlyUses o → (g = none ∨ g = some (buildAberrationDict B)) →
      o.run B g = some (buildAberrationDict B) := by
    intro g o ho hg
    cases o with
    | nutation jce => rcases hg with rfl | rfl <;> rfl
    | read => rcases hg with rfl | rfl <;> rfl
    | set k f => exact ho.elim
    | pop k => exact ho.elim
  have key : ∀ (os : List (DictOp B)), (∀ o ∈ os, OnlyUses o) →
      os.foldl (DictOp.run B) (some (buildAberrationDict B)) = some (buildAberrationDict B) := by
    intro os
    induction os with
    | nil => exact fun _ => rfl
    | cons o os ih =>
      intro h
      rw [List.foldl_cons, step _ o (h o List.mem_cons_self) (.inr rfl)]
      exact ih fun o' ho' => h o' (List.mem_cons_of_mem _ ho')
  cases ops with
  | nil => exact absurd rfl hne
  | cons o os =>
    unfold runDict
    rw [List.foldl_cons, step (aberration_coeffs0 B) o (hops o List.mem_cons_self) (.inl rfl)]
    exact key os fun o' ho' => hops o' (List.mem_cons_of_mem _ ho')

/-- C60: a use leaves a dictionary that has been built as it is, whatever has been written to it. -/
theorem C60_kept (B : Backend) (d : AberrationDict B) (o : DictOp B) (ho : OnlyUses o) :
    o.run B (some d) = some d := by
  cases o with
  | nutation jce => rfl
  | read => rfl
  | set k f => exact ho.elim
  | pop k => exact ho.elim

/-- A history of uses. -/
example (B : Backend) (x : B.α) : runDict B [.nutation x, .read, .nutation x] = some (buildAberrationDict B) :=
  C60_built_once B _ (by simp) (by simp [OnlyUses])

/-- Writes under another name: the hypotheses are met by a history with calls, reads and a write. -/
example (B : Backend) (x : B.α) : ∀ o ∈ [DictOp.nutation x, .read, .set "Other" id, .nutation x], Harmless o := by
  simp [Harmless, fundamentalArguments]

end Verif.Props
