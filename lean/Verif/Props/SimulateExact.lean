import Verif.Props.SolarTestDay

/-!
# C124: the exact outcome of `simulate_span`
-/

namespace Verif.Props

open Verif.Spec Pysolar Pysolar.Solar Pysolar.Radiation Pysolar.Constants Pysolar.Simulate Real

/-- The horizon hides the sun: its entry for the azimuth, rounded, is below the level of the altitude. (Levels count
downwards from 380.) -/
def Shaded (hz : List ℝ) (azi alt : ℝ) : Prop :=
  ∃ z, hz[(roundHalfEven azi).toNat]? = some z ∧ z < 380 - roundHalfEven (380 * sin (rad alt))

/-- A time at which `simulate_span` fails: the sun is not hidden and its direct radiation overflows. -/
def Fails (tp : ℝ) (hz : List ℝ) (lat lon : ℝ) (d : DateTime) : Prop :=
  ∃ c alt azi, UtcFields d c ∧ get_altitude (mathB tp) (num lat) (num lon) (.dt d) = .ok (num alt) ∧
    get_azimuth (mathB tp) (num lat) (num lon) (.dt d) = .ok (num azi) ∧ Overflows tp c alt ∧ ¬ Shaded hz azi alt

theorem utcFields_unique {d : DateTime} {c c' : Civil} (h : UtcFields d c) (h' : UtcFields d c') : c = c' := by
  obtain ⟨v, o, -, ho, e⟩ := h
  obtain ⟨v', o', -, ho', e'⟩ := h'
  have : o = o' := Option.some.inj (ho.symm.trans ho')
  exact micros_injective v.2.2 v'.2.2 (by rw [e, e', this])

open Classical in
/-- One row of `simulate_span`. -/
theorem row_cases {tp : ℝ} (htp : 1 ≤ |tp|) {d : DateTime} {c : Civil} (h : UtcFields d c) {lat lon alt : ℝ} (hz : List ℝ)
    (hl : 361 ≤ hz.length) (ha : get_altitude (mathB tp) (num lat) (num lon) (.dt d) = .ok (num alt)) :
    (¬ Fails tp hz lat lon d → ∃ r, simulateRow (mathB tp) (num lat) (num lon) (hz.map num) (0 : (mathB tp).α)
      ((mathB tp).lit standard_temperature) ((mathB tp).lit standard_pressure) d = .ok r ∧ r.time = d) ∧
    (Fails tp hz lat lon d → simulateRow (mathB tp) (num lat) (num lon) (hz.map num) (0 : (mathB tp).α)
      ((mathB tp).lit standard_temperature) ((mathB tp).lit standard_pressure) d = .error .overflow) := by
  obtain ⟨a1, a2⟩ := altitude_range htp h ha
  obtain ⟨azi, hzi, z0, z1⟩ := C17_azimuth_bearing tp _ _ h lat lon 0
  rw [← m_zero (tp := tp)] at hzi
  obtain ⟨i0, i1, -⟩ := C56_index _ z0 z1
  have hidx : pyIndexInt (hz.map (num (tp := tp))) (roundHalfEven azi) = .ok (num (hz[(roundHalfEven azi).toNat]'(by omega))) := by
    unfold pyIndexInt
    rw [if_pos i0, pyIndex_lt (by simp; omega), List.getElem_map]
  have hsh : Shaded hz azi alt ↔ hz[(roundHalfEven azi).toNat]'(by omega) < 380 - roundHalfEven (380 * sin (rad alt)) := by
    unfold Shaded
    rw [List.getElem?_eq_getElem (by omega)]
    simp
  have hfail : Fails tp hz lat lon d ↔ Overflows tp c alt ∧ ¬ Shaded hz azi alt := by
    constructor
    · rintro ⟨c', alt', azi', h', e1, e2, e3, e4⟩
      obtain rfl := utcFields_unique h h'
      obtain rfl := num_injective (Except.ok.inj (ha.symm.trans e1))
      obtain rfl := num_injective (Except.ok.inj (hzi.symm.trans e2))
      exact ⟨e3, e4⟩
    · rintro ⟨h1, h2⟩
      exact ⟨c, alt, azi, h, ha, hzi, h1, h2⟩
  have e380 : (((380 : ℤ) : ℚ) : ℝ) = 380 := by norm_num
  have hrow : simulateRow (mathB tp) (num lat) (num lon) (hz.map num) (0 : (mathB tp).α)
      ((mathB tp).lit standard_temperature) ((mathB tp).lit standard_pressure) d
      = if Shaded hz azi alt then .ok ⟨d, num alt, num azi, 0, num (hz[(roundHalfEven azi).toNat]'(by omega))⟩
        else (get_radiation_direct (mathB tp) (.dt d) (num alt)) >>= fun rad =>
          .ok ⟨d, num alt, num azi, rad, num (hz[(roundHalfEven azi).toNat]'(by omega))⟩ := by
    unfold simulateRow
    rw [ha, ok_bind, hzi]
    simp only [ok_bind, m_round, hidx, m_radians, m_sin, m_lit, m_mul, e380, m_lt, m_truth]
    have hc : (((380 - roundHalfEven (380 * sin (rad alt)) : ℤ) : ℚ) : ℝ) = 380 - roundHalfEven (380 * sin (rad alt)) := by push_cast; ring
    rw [hc]
    by_cases hs : Shaded hz azi alt
    · rw [if_pos hs]
      have := hsh.1 hs
      simp only [this, decide_true, if_true, pure_eq_ok]
    · rw [if_neg hs]
      have := mt hsh.2 hs
      simp only [this, decide_false, Bool.false_eq_true, if_false, pure_eq_ok]
  rw [hrow, hfail]
  obtain ⟨d1, d2⟩ := direct_cases (tp := tp) h a1 a2
  constructor
  · intro hn
    by_cases hs : Shaded hz azi alt
    · exact ⟨_, by rw [if_pos hs], rfl⟩
    · obtain ⟨r, hr⟩ := d1 fun ho => hn ⟨ho, hs⟩
      exact ⟨_, by rw [if_neg hs, hr, ok_bind], rfl⟩
  · rintro ⟨ho, hs⟩
    rw [if_neg hs, d2 ho]
    rfl

/-- A loop whose first elements succeed and the next one fails. -/
theorem ofLoop_stop {α β γ : Type} (f : α → Py β) (g : β → γ) (key : α → γ) (e : PyErr) (x : α) (post : List α) (hx : f x = .error e) :
    ∀ pre : List α, (∀ y ∈ pre, ∃ r, f y = .ok r ∧ g r = key y) →
      (Gen.ofLoop f (pre ++ x :: post)).err = some e ∧ (Gen.ofLoop f (pre ++ x :: post)).yields.map g = pre.map key
  | [], _ => by
    rw [List.nil_append, Gen.ofLoop, hx]
    exact ⟨rfl, rfl⟩
  | y :: pre, h => by
    obtain ⟨r, hr, hk⟩ := h y List.mem_cons_self
    obtain ⟨h1, h2⟩ := ofLoop_stop f g key e x post hx pre fun z hz => h z (List.mem_cons_of_mem _ hz)
    rw [List.cons_append, Gen.ofLoop, hr]
    exact ⟨h1, by rw [List.map_cons, List.map_cons, hk, h2]⟩

/-- A loop whose elements all succeed. -/
theorem ofLoop_all {α β γ : Type} (f : α → Py β) (g : β → γ) (key : α → γ) :
    ∀ xs : List α, (∀ y ∈ xs, ∃ r, f y = .ok r ∧ g r = key y) →
      (Gen.ofLoop f xs).err = none ∧ (Gen.ofLoop f xs).yields.map g = xs.map key
  | [], _ => ⟨rfl, rfl⟩
  | y :: xs, h => by
    obtain ⟨r, hr, hk⟩ := h y List.mem_cons_self
    obtain ⟨h1, h2⟩ := ofLoop_all f g key xs fun z hz => h z (List.mem_cons_of_mem _ hz)
    rw [Gen.ofLoop, hr]
    exact ⟨h1, by rw [List.map_cons, List.map_cons, hk, h2]⟩

/-- C124, exactly: over any horizon of at least 361 numbers, as long as the altitudes exist, `simulate_span` yields a row for
every time of its range if and only if it fails at none of them; otherwise it yields the rows before the first such time
and ends with `OverflowError`. -/
theorem C124_exact_partial (tp : ℝ) (htp : 1 ≤ |tp|) (lat lon : ℝ) (hz : List ℝ) (hl : 361 ≤ hz.length) (s e : DateTime) (k : ℤ)
    (hr : (datetime_range s e k).err = none)
    (halt : ∀ d ∈ (datetime_range s e k).yields, ∃ c alt, UtcFields d c ∧
      get_altitude (mathB tp) (num lat) (num lon) (.dt d) = .ok (num alt)) :
    ((∀ d ∈ (datetime_range s e k).yields, ¬ Fails tp hz lat lon d) →
      (simulate_span (mathB tp) (num lat) (num lon) (hz.map num) s e k).err = none ∧
      (simulate_span (mathB tp) (num lat) (num lon) (hz.map num) s e k).yields.map Row.time = (datetime_range s e k).yields) ∧
    (∀ pre d post, (datetime_range s e k).yields = pre ++ d :: post → Fails tp hz lat lon d → (∀ x ∈ pre, ¬ Fails tp hz lat lon x) →
      (simulate_span (mathB tp) (num lat) (num lon) (hz.map num) s e k).err = some .overflow ∧
      (simulate_span (mathB tp) (num lat) (num lon) (hz.map num) s e k).yields.map Row.time = pre) := by
  set f := simulateRow (mathB tp) (num lat) (num lon) (hz.map num) (0 : (mathB tp).α) ((mathB tp).lit standard_temperature)
    ((mathB tp).lit standard_pressure) with hf
  have hrow : ∀ d ∈ (datetime_range s e k).yields, (¬ Fails tp hz lat lon d → ∃ r, f d = .ok r ∧ Row.time r = id d) ∧
      (Fails tp hz lat lon d → f d = .error .overflow) := by
    intro d hd
    obtain ⟨c, alt, h, ha⟩ := halt d hd
    exact row_cases htp h hz hl ha
  have hspan : simulate_span (mathB tp) (num lat) (num lon) (hz.map num) s e k = Gen.bindLoop f (datetime_range s e k) := rfl
  constructor
  · intro hno
    obtain ⟨h1, h2⟩ := ofLoop_all f Row.time id _ fun y hy => (hrow y hy).1 (hno y hy)
    rw [hspan]
    unfold Gen.bindLoop
    dsimp only
    rw [h1]
    exact ⟨hr, by rw [h2, List.map_id]⟩
  · intro pre d post he hd hpre
    obtain ⟨h1, h2⟩ := ofLoop_stop f Row.time id .overflow d post ((hrow d (by rw [he]; simp)).2 hd) pre
      fun y hy => (hrow y (by rw [he]; simp [hy])).1 (hpre y hy)
    rw [hspan]
    unfold Gen.bindLoop
    dsimp only
    rw [he, h1]
    exact ⟨rfl, by rw [h2, List.map_id]⟩

/-- Both cases together: `simulate_span` ends normally if and only if it fails at none of its times. -/
theorem C124_completes_iff_partial (tp : ℝ) (htp : 1 ≤ |tp|) (lat lon : ℝ) (hz : List ℝ) (hl : 361 ≤ hz.length) (s e : DateTime) (k : ℤ)
    (hr : (datetime_range s e k).err = none)
    (halt : ∀ d ∈ (datetime_range s e k).yields, ∃ c alt, UtcFields d c ∧
      get_altitude (mathB tp) (num lat) (num lon) (.dt d) = .ok (num alt)) :
    (simulate_span (mathB tp) (num lat) (num lon) (hz.map num) s e k).err = none ↔
      ∀ d ∈ (datetime_range s e k).yields, ¬ Fails tp hz lat lon d := by
  obtain ⟨h1, h2⟩ := C124_exact_partial tp htp lat lon hz hl s e k hr halt
  refine ⟨fun hn => ?_, fun h => (h1 h).1⟩
  by_contra hex
  push Not at hex
  classical
  have key : ∀ l : List DateTime, (∃ d ∈ l, Fails tp hz lat lon d) →
      ∃ pre d post, l = pre ++ d :: post ∧ Fails tp hz lat lon d ∧ ∀ x ∈ pre, ¬ Fails tp hz lat lon x := by
    intro l
    induction l with
    | nil => rintro ⟨d, hd, -⟩; cases hd
    | cons y l ih =>
      rintro ⟨d, hd, hx⟩
      by_cases hy : Fails tp hz lat lon y
      · exact ⟨[], y, l, rfl, hy, by simp⟩
      · rcases List.mem_cons.1 hd with rfl | hd
        · exact absurd hx hy
        · obtain ⟨pre, d', post, e1, e2, e3⟩ := ih ⟨d, hd, hx⟩
          exact ⟨y :: pre, d', post, by rw [e1]; rfl, e2, by
            intro z hz'
            rcases List.mem_cons.1 hz' with rfl | hz'
            · exact hy
            · exact e3 z hz'⟩
  obtain ⟨pre, d, post, e1, e2, e3⟩ := key _ hex
  rw [(h2 pre d post e1 e2 e3).1] at hn
  cases hn

theorem sunrise_range_err : (datetime_range (utcDT sunriseC) (utcDT sunriseEnd) 60).err = none := by
  have h : rangeCount (utcDT sunriseC) (utcDT sunriseEnd) 60 = .ok 1 := by decide +kernel
  unfold datetime_range
  rw [h]
  have h' : (do
      let off ← timedeltaChecked (60 * 60 * usPerSecond * ((0 : ℕ) : ℤ))
      (utcDT sunriseC).add off) = .ok (utcDT sunriseC) := by
    have e : civilOfMicros (sunriseC.micros + 0) = sunriseC := by
      rw [add_zero, civilOfMicros_micros sunriseC_valid.2.2]
    show (utcDT sunriseC).add 0 = _
    unfold DateTime.add civilChecked
    dsimp only [utcDT]
    rw [e, if_pos ⟨sunriseC_valid.1, sunriseC_valid.2.1⟩]
    rfl
  show (Gen.ofLoop _ [0]).err = _
  unfold Gen.ofLoop
  rw [h']
  rfl

/-- A case of each kind: just before sunrise on 2020-06-01, below a horizon of one height all round, the run completes if
that height is above the level of altitude 0 and overflows if it is not. -/
theorem C124_sunrise_partial (tp : ℝ) (htp : 1 ≤ |tp|) (z : ℝ) :
    (z < 380 → (simulate_span (mathB tp) (num 42.364908) (num (-71.112828)) ((List.replicate 361 z).map num) (utcDT sunriseC)
      (utcDT sunriseEnd) 60).err = none) ∧
    (380 ≤ z → (simulate_span (mathB tp) (num 42.364908) (num (-71.112828)) ((List.replicate 361 z).map num) (utcDT sunriseC)
      (utcDT sunriseEnd) 60).err = some .overflow) := by
  obtain ⟨alt, ha, h1, h2⟩ := sunrise_alt tp (lat := 42.364908) (lon := -71.112828) (by norm_num) (by norm_num)
  have hu := utcDT_fields sunriseC_valid
  obtain ⟨azi, hzi, z0, z1⟩ := C17_azimuth_bearing tp _ _ hu 42.364908 (-71.112828) 0
  rw [← m_zero (tp := tp)] at hzi
  obtain ⟨i0, i1, -⟩ := C56_index _ z0 z1
  have hs0 : Real.sin (rad alt) ≤ 0 := by
    have := sin_rad_lt (a := alt) (b := 0) (by norm_num at h1 h2 ⊢; linarith) (by norm_num at h1 h2 ⊢; linarith) (by norm_num)
    rw [rad_zero, Real.sin_zero] at this
    exact this.le
  have hs1 := sin_just_below h1 h2
  have hround : roundHalfEven (380 * Real.sin (rad alt)) = 0 := by
    have hb := abs_le.1 (roundHalfEven_bounds (380 * Real.sin (rad alt)))
    have l1 : ((roundHalfEven (380 * Real.sin (rad alt)) : ℤ) : ℝ) < 1 := by
      norm_num at hb hs1 ⊢; linarith [hb.1, hb.2]
    have l2 : (-1 : ℝ) < ((roundHalfEven (380 * Real.sin (rad alt)) : ℤ) : ℝ) := by
      norm_num at hb hs1 ⊢; linarith [hb.1, hb.2]
    have l1' : roundHalfEven (380 * Real.sin (rad alt)) < 1 := by exact_mod_cast l1
    have l2' : -1 < roundHalfEven (380 * Real.sin (rad alt)) := by exact_mod_cast l2
    omega
  have hsh : Shaded (List.replicate 361 z) azi alt ↔ z < 380 := by
    unfold Shaded
    rw [List.getElem?_eq_getElem (by rw [List.length_replicate]; omega), hround, List.getElem_replicate]
    constructor
    · rintro ⟨y, hy, hlt⟩
      rw [Option.some.inj hy]
      norm_num at hlt
      exact hlt
    · exact fun hz => ⟨z, rfl, by norm_num; exact hz⟩
  have hex := C124_exact_partial tp htp 42.364908 (-71.112828) (List.replicate 361 z)
    List.length_replicate.ge (utcDT sunriseC) (utcDT sunriseEnd) 60
    sunrise_range_err (by
      rw [sunrise_range]
      intro d hd
      rw [List.mem_singleton] at hd
      subst hd
      exact ⟨_, _, hu, ha⟩)
  obtain ⟨c1, c2⟩ := hex
  constructor
  · intro hz
    refine (c1 ?_).1
    rw [sunrise_range]
    intro d hd
    rw [List.mem_singleton] at hd
    subst hd
    rintro ⟨c, alt', azi', -, e1, e2, -, e4⟩
    obtain rfl := num_injective (Except.ok.inj (ha.symm.trans e1))
    obtain rfl := num_injective (Except.ok.inj (hzi.symm.trans e2))
    exact e4 (hsh.2 hz)
  · intro hz
    refine (c2 [] (utcDT sunriseC) [] sunrise_range ⟨_, alt, azi, hu, ha, hzi, ?_, fun hx => absurd (hsh.1 hx) hz.not_gt⟩
      (fun _ hx => absurd hx List.not_mem_nil)).1
    by_contra hno
    obtain ⟨r, hr⟩ := (direct_cases (tp := tp) hu (by norm_num at h1 h2 ⊢; linarith) (by norm_num at h1 h2 ⊢; linarith)).1 hno
    rw [direct_below hu (by norm_num at h1 h2 ⊢; linarith) (by norm_num at h1 h2 ⊢; linarith)] at hr
    cases hr

/-! ## Double precision -/

/-- A result of moderate size does not overflow when it is rounded. -/
theorem vrnd_fin (F : F64) {x : ℝ} (hx : |x| ≤ 72) : V.rnd F (V.fin x) = V.fin (F.rnd x) := by
  have h := abs_le.1 (rnd_near F hx)
  have h' := abs_le.1 hx
  have hP : (100 : ℝ) ≤ 2 ^ 1024 := by
    calc (100 : ℝ) ≤ 2 ^ 7 := by norm_num
      _ ≤ _ := pow_le_pow_right₀ (by norm_num) (by norm_num)
  unfold V.rnd
  generalize (2 : ℝ) ^ 1024 = P at *
  dsimp only
  rw [if_neg (by norm_num at h; push Not; linarith), if_neg (by norm_num at h; push Not; linarith)]

/-- The level of an altitude just below 0 is that of 0, in double precision too. -/
theorem level_double (F : F64) {alt : ℝ} (h1 : -0.006 ≤ alt) (h2 : alt ≤ -0.005) :
    ∃ s, (rndB F).sin ((rndB F).radians (flt F alt)) = .ok (flt F s) ∧
      (rndB F).round ((rndB F).lit ((380 : ℤ) : ℚ) * flt F s) = .ok 0 := by
  have hp := Real.pi_gt_d4
  have hp' := Real.pi_lt_d4
  have r1 := abs_le.1 (rnd_near F (x := π) (by rw [abs_of_pos Real.pi_pos]; norm_num at *; linarith))
  have r2 := abs_le.1 (rnd_near F (x := F.rnd π / 180) (by rw [abs_le]; constructor <;> norm_num at * <;> linarith))
  set p := F.rnd (F.rnd π / 180) with hpd
  have hp0 : 0 ≤ p ∧ p ≤ 0.02 := by constructor <;> norm_num at * <;> linarith
  have hm : |alt * p| ≤ 0.00012 := by
    rw [abs_le]
    obtain ⟨p1, p2⟩ := hp0
    constructor
    · norm_num at *; nlinarith
    · have : alt * p ≤ 0 := mul_nonpos_of_nonpos_of_nonneg (by norm_num at *; linarith) p1
      norm_num at *; linarith
  have r3 := abs_le.1 (rnd_near F (x := alt * p) (le_trans hm (by norm_num)))
  have e3 := vrnd_fin F (x := alt * p) (le_trans hm (by norm_num))
  set x := F.rnd (alt * p) with hx
  have hxa : |x| ≤ 0.0002 := by
    have := abs_le.1 hm
    rw [abs_le]; constructor <;> norm_num at * <;> linarith
  have hsx : |Real.sin x| ≤ 0.0002 := le_trans Real.abs_sin_le_abs hxa
  have hs := abs_le.1 (F.sin_err x)
  set s := F.sin x with hsd
  have hsa : |380 * s| ≤ 0.1 := by
    have := abs_le.1 hsx
    rw [abs_le]; constructor <;> norm_num at * <;> linarith
  have r4 := abs_le.1 (rnd_near F (x := 380 * s) (le_trans hsa (by norm_num)))
  have e4 := vrnd_fin F (x := 380 * s) (le_trans hsa (by norm_num))
  have hround : roundHalfEven (F.rnd (380 * s)) = 0 := by
    have hb := abs_le.1 (roundHalfEven_bounds (F.rnd (380 * s)))
    have hsa' := abs_le.1 hsa
    have l1 : ((roundHalfEven (F.rnd (380 * s)) : ℤ) : ℝ) < 1 := by norm_num at hb r4 hsa' ⊢; linarith [hb.1, hb.2]
    have l2 : (-1 : ℝ) < ((roundHalfEven (F.rnd (380 * s)) : ℤ) : ℝ) := by norm_num at hb r4 hsa' ⊢; linarith [hb.1, hb.2]
    have l1' : roundHalfEven (F.rnd (380 * s)) < 1 := by exact_mod_cast l1
    have l2' : -1 < roundHalfEven (F.rnd (380 * s)) := by exact_mod_cast l2
    omega
  refine ⟨s, ?_, ?_⟩
  · show (rndB F).sin (V.rnd F (V.fin (alt * p))) = _
    rw [e3]
    rfl
  · have e380 : F.rnd (((380 : ℤ) : ℚ) : ℝ) = 380 := by
      have := F.rnd_int 380 (by norm_num)
      push_cast at this ⊢
      exact this
    show roundV (V.rnd F (V.fin (F.rnd (((380 : ℤ) : ℚ) : ℝ) * s))) = _
    rw [e380, e4]
    show Except.ok (roundHalfEven _) = _
    rw [hround]

/-- C124 is false in double precision too, with the same witness. -/
theorem C124_refuted_double (F : F64) : ¬ ∀ (a b : Civil) (k : ℤ), a.Valid → b.Valid → 0 < k →
    (simulate_span (rndB F) (42.364908 : (rndB F).α) (-71.112828 : (rndB F).α) (levelHorizon (rndB F)) (utcDT a) (utcDT b) k).err
      = none := by
  intro hall
  have h := hall sunriseC sunriseEnd 60 sunriseC_valid sunriseEnd_valid (by norm_num)
  obtain ⟨alt, ha, h1, h2⟩ := sunrise_alt_double F
  have r1' := abs_le.1 (rnd_near F (x := 42.364908) (by rw [abs_of_pos] <;> norm_num))
  have r2' := abs_le.1 (rnd_near F (x := 71.112828) (by rw [abs_of_pos] <;> norm_num))
  have e1 : (42.364908 : (rndB F).α) = flt F (F.rnd 42.364908) := by
    show V.fin (F.rnd _) = V.fin (F.rnd _)
    congr 2
  have e2 : (-71.112828 : (rndB F).α) = flt F (-F.rnd 71.112828) := by
    show V.fin (-(F.rnd _)) = V.fin (-(F.rnd _))
    congr 3
  obtain ⟨dec', H', azi, -, -, -, -, -, -, -, hz, z0, z1, -⟩ := C85_direction F (10 ^ 6) _ _ (utcDT_fields sunriseC_valid)
    (F.rnd 42.364908) (-F.rnd 71.112828) 0 (.inl (by rw [abs_le]; constructor <;> norm_num at * <;> linarith))
    (by rw [abs_le]; constructor <;> norm_num at * <;> linarith) (by norm_num)
  rw [← e1, ← e2, ← rlit_zero] at hz
  have hr : 0 ≤ roundHalfEven azi ∧ roundHalfEven azi ≤ 360 := by
    have hb := abs_le.1 (roundHalfEven_bounds azi)
    have l1 : ((roundHalfEven azi : ℤ) : ℝ) < 361 := by norm_num at hb ⊢; linarith [hb.1, hb.2]
    have l2 : (-1 : ℝ) < ((roundHalfEven azi : ℤ) : ℝ) := by norm_num at hb ⊢; linarith [hb.1, hb.2]
    have l1' : roundHalfEven azi < 361 := by exact_mod_cast l1
    have l2' : -1 < roundHalfEven azi := by exact_mod_cast l2
    omega
  have hlen : (levelHorizon (rndB F)).length = 361 := List.length_replicate
  have h380 : F.rnd 380 = 380 := by
    have := F.rnd_int 380 (by norm_num)
    push_cast at this
    exact this
  have hidx : pyIndexInt (levelHorizon (rndB F)) (roundHalfEven azi) = .ok (380 : (rndB F).α) := by
    unfold pyIndexInt
    rw [if_pos hr.1, pyIndex_lt (by omega)]
    congr 1
    unfold levelHorizon
    rw [List.getElem_replicate]
  obtain ⟨s, hs1, hs2⟩ := level_double F h1 h2
  have hrad := C106_overflow_partial F _ _ (utcDT_fields sunriseC_valid) alt (by norm_num at *; linarith) (by norm_num at *; linarith)
  have hrnd : (rndB F).round (flt F azi) = .ok (roundHalfEven azi) := rfl
  have hlt : (rndB F).truth ((rndB F).lt (380 : (rndB F).α) ((rndB F).lit (((380 - 0 : ℤ) : ℚ)))) = .ok false := by
    show Except.ok (V.lt (V.fin (F.rnd _)) (V.fin (F.rnd _))) = _
    congr 1
    unfold V.lt
    norm_num
  have hrow : simulateRow (rndB F) (42.364908 : (rndB F).α) (-71.112828 : (rndB F).α) (levelHorizon (rndB F)) (0 : (rndB F).α)
      ((rndB F).lit standard_temperature) ((rndB F).lit standard_pressure) (utcDT sunriseC) = .error .overflow := by
    unfold simulateRow
    rw [ha, ok_bind, hz]
    simp only [ok_bind, hrnd, hidx, hs1, hs2, hlt, hrad]
    rfl
  unfold simulate_span Gen.bindLoop at h
  dsimp only at h
  rw [sunrise_range] at h
  unfold Gen.ofLoop at h
  rw [hrow] at h
  cases h

end Verif.Props
