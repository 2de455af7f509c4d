import Verif.Model.Signatures
import Verif.Model.TzCheck
import Verif.Proofs.Eval
import Mathlib.Data.List.Infix
import Mathlib.Data.List.Nodup

/-!
# C131: the type stubs
-/

namespace Verif.Props

open Pysolar Pysolar.Stubs

/-- Every call that the stub allows is accepted by the code, and its arguments reach the parameters of the same names. -/
def StubFaithful (stub code : Sig) : Prop :=
  ∀ (α : Type) (args : List α) (kwargs : List (String × α)) (m : List (String × α)), (kwargs.map Prod.fst).Nodup →
    bindArgs stub args kwargs = .ok m → bindArgs code args kwargs = .ok m

/-- C131, the full claim. -/
def C131Claim : Prop := ∀ f ∈ functions, StubFaithful f.stub f.code

/-! ## When a stub is faithful -/

/-- When a call is accepted, and what it binds. -/
theorem bindArgs_ok {α : Type} {s : Sig} {args : List α} {kwargs : List (String × α)} {m : List (String × α)} :
    bindArgs s args kwargs = .ok m ↔ args.length ≤ s.length ∧ (∀ k ∈ kwargs, k.1 ∈ s.map Prod.fst) ∧
      (∀ k ∈ kwargs, k.1 ∉ ((s.map Prod.fst).zip args).map Prod.fst) ∧
      (∀ p ∈ s, p.2 = false → p.1 ∈ ((s.map Prod.fst).zip args ++ kwargs).map Prod.fst) ∧ m = (s.map Prod.fst).zip args ++ kwargs := by
  unfold bindArgs
  dsimp only
  split_ifs with h1 h2 h3 h4
  · simp only [false_iff]
    rintro ⟨h, -⟩
    omega
  · simp only [false_iff]
    rintro ⟨-, h, -⟩
    obtain ⟨k, hk, hn⟩ := h2
    exact hn (h k hk)
  · simp only [false_iff]
    rintro ⟨-, -, h, -⟩
    obtain ⟨k, hk, hn⟩ := h3
    exact h k hk hn
  · simp only [false_iff]
    rintro ⟨-, -, -, h, -⟩
    obtain ⟨p, hp, hr, hn⟩ := h4
    exact hn (h p hp hr)
  · push Not at h1 h2 h3 h4
    constructor
    · rintro h
      cases h
      exact ⟨h1, h2, h3, h4, rfl⟩
    · rintro ⟨-, -, -, -, rfl⟩
      rfl

theorem zip_prefix {α : Type} {a b : List String} (h : a <+: b) {args : List α} (hl : args.length ≤ a.length) : b.zip args = a.zip args := by
  obtain ⟨t, rfl⟩ := h
  have := List.zip_append (l₁ := a.take args.length) (r₁ := a.drop args.length ++ t) (l₂ := args) (r₂ := []) (by simp [hl])
  have h2 := List.zip_append (l₁ := a.take args.length) (r₁ := a.drop args.length) (l₂ := args) (r₂ := []) (by simp [hl])
  rw [← List.append_assoc, List.take_append_drop, List.append_nil, List.zip_nil_right, List.append_nil] at this
  rw [List.take_append_drop, List.append_nil, List.zip_nil_right, List.append_nil] at h2
  rw [this, h2]

/-- A stub is faithful exactly if its parameters are the first ones of the code, in the same order, and every parameter that
the code requires is required by the stub. -/
theorem C131_criterion_partial (stub code : Sig) :
    StubFaithful stub code ↔ stub.map Prod.fst <+: code.map Prod.fst ∧ ∀ p ∈ code, p.2 = false → (p.1, false) ∈ stub := by
  constructor
  · intro h
    constructor
    · have e : bindArgs stub (List.range stub.length) [] = .ok ((stub.map Prod.fst).zip (List.range stub.length)) := by
        rw [bindArgs_ok]
        refine ⟨by simp, by simp, by simp, ?_, by simp⟩
        intro p hp _
        rw [List.append_nil, List.map_fst_zip (by simp)]
        exact List.mem_map_of_mem hp
      obtain ⟨h1, -, -, -, h2⟩ := bindArgs_ok.1 (h ℕ _ [] _ List.nodup_nil e)
      have h3 := congrArg (List.map Prod.fst) h2
      rw [List.append_nil, List.map_fst_zip (by simp)] at h3
      rw [h3]
      rw [List.length_range] at h1
      have h4 : ∀ (l : List String) (n : ℕ), ((l.zip (List.range n)).map Prod.fst) <+: l := by
        intro l n
        rw [show (l.zip (List.range n)).map Prod.fst = l.take n from ?_]
        · exact List.take_prefix _ _
        · apply List.ext_getElem
          · simp [Nat.min_comm]
          · intro i _ _
            simp
      exact h4 _ _
    · intro p hp hr
      let kw : List (String × Unit) := ((stub.filter fun q => !q.2).map fun q => q.1).dedup.map fun n => (n, ())
      have hkw : ∀ n, n ∈ kw.map Prod.fst ↔ (n, false) ∈ stub := by
        intro n
        simp only [kw, List.map_map, Function.comp_def, List.map_id', List.mem_dedup, List.mem_map, List.mem_filter, Bool.not_eq_true']
        constructor
        · rintro ⟨⟨a, b⟩, ⟨h1, h2⟩, rfl⟩
          cases h2
          exact h1
        · intro h1
          exact ⟨(n, false), ⟨h1, rfl⟩, rfl⟩
      have e : bindArgs stub [] kw = .ok kw := by
        rw [bindArgs_ok]
        refine ⟨by simp, ?_, by simp, ?_, by simp⟩
        · intro k hk
          have := (hkw k.1).1 (List.mem_map_of_mem hk)
          exact List.mem_map_of_mem (f := Prod.fst) this
        · rintro ⟨n, b⟩ hp hb
          dsimp only at hb
          subst hb
          rw [List.zip_nil_right, List.nil_append]
          exact (hkw n).2 hp
      have hnd : (kw.map Prod.fst).Nodup := by
        simp only [kw, List.map_map, Function.comp_def, List.map_id']
        exact List.nodup_dedup _
      obtain ⟨-, -, -, h4, -⟩ := bindArgs_ok.1 (h Unit [] kw kw hnd e)
      have := h4 p hp hr
      rw [List.zip_nil_right, List.nil_append] at this
      exact (hkw _).1 this
  · rintro ⟨hp, hr⟩ α args kwargs m - h
    obtain ⟨h1, h2, h3, h4, rfl⟩ := bindArgs_ok.1 h
    have hz : (code.map Prod.fst).zip args = (stub.map Prod.fst).zip args := zip_prefix hp (by simpa using h1)
    rw [bindArgs_ok, hz]
    refine ⟨?_, fun k hk => hp.subset (h2 k hk), h3, fun p hp' hf => ?_, rfl⟩
    · have := hp.length_le
      simp only [List.length_map] at this
      omega
    · exact h4 (p.1, false) (hr p hp' hf) rfl

/-! ## The stubs of the package -/

/-- The functions whose stubs differ from the code. -/
def unfaithful : List (String × String) :=
  [("solar", "get_apparent_sidereal_time"), ("util", "extraterrestrial_irrad"), ("util", "direct_underclear"),
    ("util", "global_irradiance_clear"), ("util", "clear_index")]

/-- C131: which stubs are faithful, for all calls. -/
theorem C131_exact_partial : ∀ f ∈ functions, StubFaithful f.stub f.code ↔ (f.file, f.name) ∉ unfaithful := by
  have key : ∀ f ∈ functions, (f.stub.map Prod.fst <+: f.code.map Prod.fst ∧ ∀ p ∈ f.code, p.2 = false → (p.1, false) ∈ f.stub) ↔
      (f.file, f.name) ∉ unfaithful := by decide +kernel
  intro f hf
  exact (C131_criterion_partial _ _).trans (key f hf)

/-- There are 73 functions with stubs, among them the five. -/
example : functions.length = 73 ∧ ∀ u ∈ unfaithful, u ∈ functions.map fun f => (f.file, f.name) := by decide +kernel

/-- C131 is false. -/
theorem C131_refuted : ¬ C131Claim := by
  intro h
  have e : ∃ f ∈ functions, (f.file, f.name) ∈ unfaithful := by decide +kernel
  obtain ⟨f, hf, hu⟩ := e
  exact (C131_exact_partial f hf).1 (h f hf) hu

/-! ## What happens in the five cases -/

/-- The signatures of a function. -/
def sigOf (file name : String) : Option (Sig × Sig) :=
  (functions.find? fun f => f.file = file && f.name = name).map fun f => (f.stub, f.code)

/-- `direct_underclear(lat, lon, when, t, p)`: the stub announces temperature and pressure, the code takes them for the days of
the year and the air mass, without any error. -/
theorem C131_direct_underclear_partial {α : Type} (lat lon w t p : α) : ∃ stub code, sigOf "util" "direct_underclear" = some (stub, code) ∧
    bindArgs stub [lat, lon, w, t, p] []
      = .ok [("latitude_deg", lat), ("longitude_deg", lon), ("when", w), ("temperature", t), ("pressure", p)] ∧
    bindArgs code [lat, lon, w, t, p] []
      = .ok [("latitude_deg", lat), ("longitude_deg", lon), ("when", w), ("TY", t), ("AM", p)] := by
  refine ⟨_, _, rfl, ?_, ?_⟩ <;> · rw [bindArgs_ok]; simp

/-- `get_apparent_sidereal_time(jd, jme, nutation_float=x)`, which the stub asks for, is a TypeError. -/
theorem C131_sidereal_partial {α : Type} (jd jme x : α) : ∃ stub code, sigOf "solar" "get_apparent_sidereal_time" = some (stub, code) ∧
    bindArgs stub [jd, jme] [("nutation_float", x)] = .ok [("jd", jd), ("jme", jme), ("nutation_float", x)] ∧
    bindArgs code [jd, jme] [("nutation_float", x)] = .error .typeError := by
  refine ⟨_, _, rfl, ?_, ?_⟩
  · rw [bindArgs_ok]; simp
  · simp [bindArgs]

/-- A call of a function decorated with `@check_aware_dt('when')`. -/
def guarded {O β : Type} (V : TzCheck.ObjView O) (code : Sig) (body : List (String × O) → Py β) (args : List O)
    (kwargs : List (String × O)) : Py β :=
  TzCheck.check_aware_dt V ["when"] ⟨code.map Prod.fst, []⟩ (fun a k => bindArgs code a k >>= body) args kwargs

/-- The three functions whose stubs have the time at another place: called with positional arguments as the stub says, they
take a coordinate (a number: neither an array nor an object with a time zone) for the time and raise ValueError. -/
theorem C131_positional_partial {O β : Type} (V : TzCheck.ObjView O) (body : List (String × O) → Py β) (w lat lon x y : O)
    (hlat : V.hasShape lat = false ∧ V.hasTzinfo lat = false) (hlon : V.hasShape lon = false ∧ V.hasTzinfo lon = false) :
    (∃ stub code, sigOf "util" "extraterrestrial_irrad" = some (stub, code) ∧
      bindArgs stub [w, lat, lon] [] = .ok [("when", w), ("latitude_deg", lat), ("longitude_deg", lon)] ∧
      guarded V code body [w, lat, lon] [] = .error .valueError) ∧
    (∃ stub code, sigOf "util" "clear_index" = some (stub, code) ∧
      bindArgs stub [x, w, lat, lon] [] = .ok [("ghi_data", x), ("when", w), ("latitude_deg", lat), ("longitude_deg", lon)] ∧
      guarded V code body [x, w, lat, lon] [] = .error .valueError) ∧
    (∃ stub code, sigOf "util" "global_irradiance_clear" = some (stub, code) ∧
      bindArgs stub [x, y, lat, lon, w] []
        = .ok [("DIRC", x), ("DIFFC", y), ("latitude_deg", lat), ("longitude_deg", lon), ("when", w)] ∧
      guarded V code body [x, y, lat, lon, w] [] = .error .valueError) := by
  have c : ∀ o, (V.hasShape o = false ∧ V.hasTzinfo o = false) → TzCheck.checkValue V "when" o = .error .valueError := by
    rintro o ⟨h1, h2⟩
    simp [TzCheck.checkValue, h1, h2]
  refine ⟨⟨_, _, rfl, ?_, ?_⟩, ⟨_, _, rfl, ?_, ?_⟩, ⟨_, _, rfl, ?_, ?_⟩⟩
  · rw [bindArgs_ok]; simp
  · have f : TzCheck.fetch ⟨["latitude_deg", "longitude_deg", "when", "SC"], []⟩ "when" [w, lat, lon] [] = .ok lon := rfl
    simp [guarded, TzCheck.check_aware_dt, TzCheck.checkAll, f, c lon hlon]
  · rw [bindArgs_ok]; simp
  · have f : TzCheck.fetch ⟨["ghi_data", "latitude_deg", "longitude_deg", "when"], []⟩ "when" [x, w, lat, lon] [] = .ok lon := rfl
    simp [guarded, TzCheck.check_aware_dt, TzCheck.checkAll, f, c lon hlon]
  · rw [bindArgs_ok]; simp
  · have f : TzCheck.fetch ⟨["latitude_deg", "longitude_deg", "when", "TY", "AM", "TL", "elevation", "temperature", "pressure"], []⟩ "when"
        [x, y, lat, lon, w] [] = .ok lat := rfl
    simp [guarded, TzCheck.check_aware_dt, TzCheck.checkAll, f, c lat hlat]

end Verif.Props
