import Verif.Model.QueryUsnoGather
import Verif.Props.QueryUsnoMain

/-!
# C145, C146: random entries and statistics of test/query_usno.py
-/

namespace Verif.Props

open Verif.Spec Pysolar Pysolar.Solar Pysolar.QueryUsno

/-! ## C145 -/

theorem strInt_eq (n : ℤ) : strInt n = (toString n).toList := by
  cases n with
  | ofNat n =>
    rw [strInt, if_neg (by simp)]
    exact Nat.toList_repr.symm
  | negSucc n =>
    rw [strInt, if_pos (Int.negSucc_lt_zero n)]
    show _ = ("-" ++ Nat.repr (n + 1)).toList
    rw [String.toList_append, Nat.toList_repr]
    rfl

theorem strInt_no {x : Char} (h : x.isDigit = false) (h' : x ≠ '-') (n : ℤ) : x ∉ strInt n := by
  have hd : x ∉ Nat.toDigits 10 n.natAbs := fun hm => by
    rw [Nat.isDigit_of_mem_toDigits (by norm_num) (by norm_num) hm] at h
    cases h
  unfold strInt
  split_ifs
  · simp [h', hd]
  · exact hd

/-- The time of a draw. -/
def drawTime (q : Draw) : Civil := ⟨q.year, q.month, q.day, q.hour, q.minute, q.second, 0⟩

theorem draw_valid {q : Draw} (h : q.InRange) : (drawTime q).Valid := by
  obtain ⟨-, -, hy, hm, hd, hh, hmi, hs⟩ := h
  refine ⟨?_, ?_, ⟨?_, ?_, ?_, ?_⟩, ?_, ?_, ?_, ?_, ?_, ?_, ?_, ?_⟩ <;> simp only [drawTime]
  all_goals first | omega | skip
  unfold daysInMonth daysInMonthTable
  split_ifs <;> omega

/-- C145: what the tool asks for is what it drew: a place on earth in whole degrees, a moment that exists, at sea level. -/
theorem C145_request (q : Draw) (h : q.InRange) :
    (drawTime q).Valid ∧ |q.latitude| ≤ 90 ∧
      Sexagesimal.value (EncodeRequest q.latitude q.longitude q.time 0).latitude = q.latitude ∧
      Sexagesimal.value (EncodeRequest q.latitude q.longitude q.time 0).longitude = q.longitude ∧
      (EncodeRequest q.latitude q.longitude q.time 0).height = 0 ∧
      (⟨(EncodeRequest q.latitude q.longitude q.time 0).year, (EncodeRequest q.latitude q.longitude q.time 0).month,
        (EncodeRequest q.latitude q.longitude q.time 0).day, (EncodeRequest q.latitude q.longitude q.time 0).hour,
        (EncodeRequest q.latitude q.longitude q.time 0).minute, (EncodeRequest q.latitude q.longitude q.time 0).second, 0⟩ : Civil)
        = (drawTime q) := by
  refine ⟨draw_valid h, ?_, int_value _, int_value _, rfl, rfl⟩
  have := h.latitude
  rw [abs_le]
  omega

/-- A sky: zenith distance and azimuth of the sun for latitude, longitude, height and time in UTC. -/
abbrev SkyMap := ℝ → ℝ → ℝ → Civil → ℝ × ℝ

/-- The server answers a request from its sky: line 22 contains the angles in degrees, minutes and seconds. -/
def Answers {tp : ℝ} (F : FloatText (mathB tp).α) (sky : SkyMap) (r : Request) (lines : List Txt) : Prop :=
  ∃ (ws : List (ℕ × Txt)) (n : ℕ) (zd zm zs ad am as : ℝ), Words ws ∧ lines[21]? = some (spaced ws n) ∧
    fields F ws = [some (num zd), some (num zm), some (num zs), some (num ad), some (num am), some (num as)] ∧
    sky (Sexagesimal.value r.latitude) (Sexagesimal.value r.longitude) r.height ⟨r.year, r.month, r.day, r.hour, r.minute, r.second, 0⟩
      = (zd + zm / 60 + zs / 3600, ad + am / 60 + as / 3600)

/-- The entry wanted for a draw. -/
noncomputable def entryOf (tp : ℝ) (sky : SkyMap) (q : Draw) : Ephemeris (mathB tp) :=
  ⟨utcDT (drawTime q), (toString q.latitude).toList, (toString q.longitude).toList, num 0, num (sky q.latitude q.longitude 0 (drawTime q)).2,
    num (sky q.latitude q.longitude 0 (drawTime q)).1⟩

/-- C145: one round. -/
theorem C145_gather (tp : ℝ) (F : FloatText (mathB tp).α) (sky : SkyMap) (server : Request → List Txt)
    (hs : ∀ r, Answers F sky r (server r)) (log : List Txt) (data : List (Ephemeris (mathB tp)))
    (hl : ReadEphemeridesLog (mathB tp) F log = .ok data) (q : Draw) (hq : q.InRange) (hF : Faithful F (entryOf tp sky q)) :
    ∃ line, GatherRandomEphemeris (mathB tp) F server q log = .ok (log ++ [line]) ∧
      ReadEphemeridesLog (mathB tp) F (log ++ [line]) = .ok (data ++ [entryOf tp sky q]) := by
  obtain ⟨hv, -, h1, h2, h3, h4⟩ := C145_request q hq
  obtain ⟨ws, n, zd, zm, zs, ad, am, as, w1, w2, w3, w4⟩ := hs (EncodeRequest q.latitude q.longitude q.time 0)
  rw [h1, h2, h3, h4] at w4
  have hd := C129_response tp F ⟨q.time, strInt q.latitude, strInt q.longitude, 0.0, 0, 0⟩ _ ws n w1 w2 zd zm zs ad am as w3
  have e0 : (0.0 : (mathB tp).α) = num 0 := by rw [m_sci]; norm_num
  set e : Ephemeris (mathB tp) := ⟨q.time, strInt q.latitude, strInt q.longitude, num 0, num (ad + am / 60 + as / 3600),
    num (zd + zm / 60 + zs / 3600)⟩ with he
  have he2 : { e with timestamp := utcDT e.timestamp.civil } = entryOf tp sky q := by
    rw [he, entryOf, w4, strInt_eq, strInt_eq]
    rfl
  refine ⟨logLine (mathB tp) F e, ?_, ?_⟩
  · unfold GatherRandomEphemeris
    rw [e0] at hd
    simp only [e0, hd, ok_bind]
    rfl
  · have hF' : Faithful F e := by
      rw [← he2] at hF
      exact hF
    rw [← he2]
    exact C102_round_trip_partial (mathB tp) F log data hl e hF' (strInt_no (by decide) (by decide) _)
      (strInt_no (by decide) (by decide) _) hv rfl rfl

theorem gatherLoop_eval {tp : ℝ} (F : FloatText (mathB tp).α) (sky : SkyMap) (server : Request → List Txt)
    (hs : ∀ r, Answers F sky r (server r)) (qs : List Draw) : ∀ (log : List Txt) (data : List (Ephemeris (mathB tp))),
    ReadEphemeridesLog (mathB tp) F log = .ok data → (∀ q ∈ qs, q.InRange ∧ Faithful F (entryOf tp sky q)) →
    ∃ lines, lines.length = qs.length ∧
      gatherLoop (mathB tp) F server qs log data = .ok (log ++ lines, data ++ qs.map (entryOf tp sky)) ∧
      ReadEphemeridesLog (mathB tp) F (log ++ lines) = .ok (data ++ qs.map (entryOf tp sky)) := by
  induction qs with
  | nil =>
    intro log data hl _
    refine ⟨[], rfl, ?_, ?_⟩
    · simp [gatherLoop]
    · simpa using hl
  | cons q qs ih =>
    intro log data hl h
    obtain ⟨line, g1, g2⟩ := C145_gather tp F sky server hs log data hl q (h q (by simp)).1 (h q (by simp)).2
    obtain ⟨lines, l1, l2, l3⟩ := ih _ _ g2 fun x hx => h x (List.mem_cons_of_mem _ hx)
    refine ⟨line :: lines, by simp [l1], ?_, ?_⟩
    · rw [gatherLoop, g1, ok_bind, g2, ok_bind, l2]
      simp
    · rw [← List.singleton_append, ← List.append_assoc, l3]
      simp

/-- C145: the loop keeps the old entries of the log, adds one for each draw, in order, and reading the log gives them all:
for each draw the values of the sky for just this place and this moment, whatever the spacing of the answers. -/
theorem C145_loop (tp : ℝ) (F : FloatText (mathB tp).α) (sky : SkyMap) (server : Request → List Txt)
    (hs : ∀ r, Answers F sky r (server r)) (qs : List Draw) (hne : qs ≠ []) (log : List Txt) (data old : List (Ephemeris (mathB tp)))
    (hl : ReadEphemeridesLog (mathB tp) F log = .ok data) (h : ∀ q ∈ qs, q.InRange ∧ Faithful F (entryOf tp sky q)) :
    ∃ lines, lines.length = qs.length ∧
      gatherLoop (mathB tp) F server qs log old = .ok (log ++ lines, data ++ qs.map (entryOf tp sky)) ∧
      ReadEphemeridesLog (mathB tp) F (log ++ lines) = .ok (data ++ qs.map (entryOf tp sky)) := by
  obtain ⟨q, qs, rfl⟩ := List.exists_cons_of_ne_nil hne
  exact gatherLoop_eval F sky server hs (q :: qs) log data hl h

/-- A log that cannot be read stops the program in its first round, after the server was asked and the line written. -/
theorem C145_bad_log (B : Backend) (F : FloatText B.α) (server : Request → List Txt) (q : Draw) (qs : List Draw)
    (log log' : List Txt) (old : List (Ephemeris B)) (err : PyErr) (h : ReadEphemeridesLog B F log = .error err)
    (hg : GatherRandomEphemeris B F server q log = .ok log') :
    gatherLoop B F server (q :: qs) log old = .error err := by
  have hl : ∃ line, log' = log ++ [line] := by
    unfold GatherRandomEphemeris at hg
    simp only at hg
    generalize decodeResponse B F _ _ = m at hg
    cases m with
    | error x => cases hg
    | ok d => exact ⟨_, (Except.ok.inj hg).symm⟩
  obtain ⟨line, rfl⟩ := hl
  have : ReadEphemeridesLog B F (log ++ [line]) = .error err := by
    unfold ReadEphemeridesLog at *
    rw [List.mapM_append, h]
    rfl
  rw [gatherLoop, hg, ok_bind, this]
  rfl

/-! ## C146 -/

/-- The four statistics of a list of numbers, as they should be. -/
structure IsStats (xs : List ℝ) (mean std lo hi : ℝ) : Prop where
  mean_eq : mean * xs.length = xs.sum
  std_sq : std ^ 2 * xs.length = (xs.map fun x => (x - mean) ^ 2).sum
  std_nonneg : 0 ≤ std
  lo_mem : lo ∈ xs
  hi_mem : hi ∈ xs
  bounds : ∀ x ∈ xs, lo ≤ x ∧ x ≤ hi

theorem foldl_add_num {tp : ℝ} (xs : List ℝ) : ∀ a : ℝ,
    (xs.map (num (tp := tp))).foldl (fun a b => a + b) (num a) = num (a + xs.sum) := by
  induction xs with
  | nil => intro a; simp
  | cons x xs ih =>
    intro a
    simp only [List.map_cons, List.foldl_cons, m_add, List.sum_cons]
    rw [ih, add_assoc]

theorem npMean_eval {tp : ℝ} (xs : List ℝ) : npMean (mathB tp) (xs.map num) = num (xs.sum / xs.length) := by
  have h := foldl_add_num (tp := tp) xs 0
  have e0 : (0 : (mathB tp).α) = num 0 := by rw [m_ofNat]; norm_num
  unfold npMean
  rw [e0, h, m_divq, zero_add, List.length_map]
  norm_num

theorem foldl_min {tp : ℝ} (xs : List ℝ) : ∀ x : ℝ, ∃ m,
    (xs.map (num (tp := tp))).foldl (fun m y => (mathB tp).where_ ((mathB tp).lt y m) y m) (num x) = num m ∧ m ∈ x :: xs ∧
      ∀ y ∈ x :: xs, m ≤ y := by
  induction xs with
  | nil => intro x; exact ⟨x, rfl, by simp, by simp⟩
  | cons y xs ih =>
    intro x
    simp only [List.map_cons, List.foldl_cons, m_lt, m_where]
    split_ifs with h
    · obtain ⟨m, h1, h2, h3⟩ := ih y
      refine ⟨m, h1, List.mem_cons_of_mem _ h2, ?_⟩
      intro z hz
      rcases List.mem_cons.1 hz with rfl | hz
      · exact (h3 y (by simp)).trans (by simpa using h : y < z).le
      · exact h3 z hz
    · obtain ⟨m, h1, h2, h3⟩ := ih x
      have hxy : x ≤ y := not_lt.1 (by simpa using h)
      refine ⟨m, h1, ?_, ?_⟩
      · rcases List.mem_cons.1 h2 with rfl | h2
        · simp
        · simp [h2]
      · intro z hz
        rcases List.mem_cons.1 hz with rfl | hz
        · exact h3 z (by simp)
        · rcases List.mem_cons.1 hz with rfl | hz
          · exact (h3 x (by simp)).trans hxy
          · exact h3 z (by simp [hz])

theorem foldl_max {tp : ℝ} (xs : List ℝ) : ∀ x : ℝ, ∃ m,
    (xs.map (num (tp := tp))).foldl (fun m y => (mathB tp).where_ ((mathB tp).lt m y) y m) (num x) = num m ∧ m ∈ x :: xs ∧
      ∀ y ∈ x :: xs, y ≤ m := by
  induction xs with
  | nil => intro x; exact ⟨x, rfl, by simp, by simp⟩
  | cons y xs ih =>
    intro x
    simp only [List.map_cons, List.foldl_cons, m_lt, m_where]
    split_ifs with h
    · obtain ⟨m, h1, h2, h3⟩ := ih y
      refine ⟨m, h1, List.mem_cons_of_mem _ h2, ?_⟩
      intro z hz
      rcases List.mem_cons.1 hz with rfl | hz
      · exact (by simpa using h : z < y).le.trans (h3 y (by simp))
      · exact h3 z hz
    · obtain ⟨m, h1, h2, h3⟩ := ih x
      have hxy : y ≤ x := not_lt.1 (by simpa using h)
      refine ⟨m, h1, ?_, ?_⟩
      · rcases List.mem_cons.1 h2 with rfl | h2
        · simp
        · simp [h2]
      · intro z hz
        rcases List.mem_cons.1 hz with rfl | hz
        · exact h3 z (by simp)
        · rcases List.mem_cons.1 hz with rfl | hz
          · exact hxy.trans (h3 x (by simp))
          · exact h3 z (by simp [hz])

theorem sum_sq_nonneg (xs : List ℝ) (m : ℝ) : 0 ≤ (xs.map fun x => (x - m) ^ 2).sum :=
  List.sum_nonneg (by simp only [List.mem_map]; rintro _ ⟨x, -, rfl⟩; positivity)

theorem sqrt_eval {tp a : ℝ} (h : 0 ≤ a) : (mathB tp).rpow (num a) (0.5 : (mathB tp).α) = .ok (num (√a)) := by
  have e : (0.5 : (mathB tp).α) = num (1 / 2) := by rw [m_sci]; norm_num
  rw [e, Real.sqrt_eq_rpow]
  rcases h.lt_or_eq with h | rfl
  · exact m_rpow h _
  · exact (if_neg (lt_irrefl _)).trans ((if_pos rfl).trans (if_neg (by norm_num)))

/-- C146: the statistics printed for a nonempty list of finite errors. -/
theorem C146_stats (tp : ℝ) (xs : List ℝ) (hne : xs ≠ []) :
    ∃ mean std lo hi, errorStats (mathB tp) (xs.map num) = .ok ⟨num mean, num std, num lo, num hi⟩ ∧ IsStats xs mean std lo hi := by
  obtain ⟨x, ys, rfl⟩ := List.exists_cons_of_ne_nil hne
  set xs := x :: ys with hxs
  have hn : (0 : ℝ) < xs.length := by rw [hxs]; simp; positivity
  obtain ⟨lo, a1, a2, a3⟩ := foldl_min (tp := tp) ys x
  obtain ⟨hi, b1, b2, b3⟩ := foldl_max (tp := tp) ys x
  set m := xs.sum / xs.length with hm
  set v : ℝ := (xs.map fun x => (x - m) ^ 2).sum / (xs.length : ℝ) with hv
  have hv0 : 0 ≤ v := div_nonneg (sum_sq_nonneg xs m) hn.le
  have hstd : npStd (mathB tp) (xs.map num) = .ok (num (√v)) := by
    unfold npStd
    rw [npMean_eval, ← hm]
    have e : (xs.map ((fun y : (mathB tp).α => (y - num m) ^ 2) ∘ num)) = (xs.map fun x => (x - m) ^ 2).map num := by
      rw [List.map_map]
      refine List.map_congr_left fun y _ => ?_
      simp only [Function.comp, m_sub, m_pow]
    show (mathB tp).rpow (npMean (mathB tp) ((xs.map num).map fun y : (mathB tp).α => (y - num m) ^ 2)) _ = _
    rw [List.map_map, e, npMean_eval, List.length_map, ← hv, sqrt_eval hv0]
  refine ⟨m, √v, lo, hi, ?_, ?_, ?_, Real.sqrt_nonneg _, a2, b2, fun y hy => ⟨a3 y hy, b3 y hy⟩⟩
  · unfold errorStats
    rw [hstd, ok_bind, npMean_eval, ← hm]
    simp only [hxs, List.map_cons, tmin, tmax, a1, b1, ok_bind]
    rfl
  · rw [hm]
    exact div_mul_cancel₀ _ hn.ne'
  · rw [Real.sq_sqrt hv0, hv]
    exact div_mul_cancel₀ _ hn.ne'

/-- Without errors (an empty log) there are no statistics. -/
theorem C146_empty (tp : ℝ) : ∃ e, errorStats (mathB tp) [] = .error e := by
  unfold errorStats
  cases npStd (mathB tp) ([] : List (mathB tp).α) with
  | error e => exact ⟨e, rfl⟩
  | ok s => exact ⟨.valueError, rfl⟩

theorem sum_le_mul (xs : List ℝ) (b : ℝ) (h : ∀ x ∈ xs, x ≤ b) : xs.sum ≤ b * xs.length := by
  have := List.sum_le_card_nsmul xs b h
  rw [nsmul_eq_mul] at this
  linarith

theorem mul_le_sum (xs : List ℝ) (b : ℝ) (h : ∀ x ∈ xs, b ≤ x) : b * xs.length ≤ xs.sum := by
  have := List.card_nsmul_le_sum xs b h
  rw [nsmul_eq_mul] at this
  linarith

/-- The numbers fit together: minimum ≤ mean ≤ maximum, and the deviation is at most what these three allow (so at most half
of the range). -/
theorem C146_order (xs : List ℝ) (mean std lo hi : ℝ) (h : IsStats xs mean std lo hi) :
    lo ≤ mean ∧ mean ≤ hi ∧ std ^ 2 ≤ (hi - mean) * (mean - lo) ∧ std ≤ (hi - lo) / 2 := by
  obtain ⟨h1, h2, h3, h4, h5, h6⟩ := h
  have hn : (0 : ℝ) < xs.length := by exact_mod_cast List.length_pos_of_mem h4
  have a1 := mul_le_sum xs lo fun x hx => (h6 x hx).1
  have a2 := sum_le_mul xs hi fun x hx => (h6 x hx).2
  have b1 : lo ≤ mean := le_of_mul_le_mul_right (by linarith) hn
  have b2 : mean ≤ hi := le_of_mul_le_mul_right (by linarith) hn
  have key : (xs.map fun x => (x - mean) ^ 2).sum ≤ (hi - mean) * (mean - lo) * xs.length := by
    have e : ∀ l : List ℝ, (∀ x ∈ l, lo ≤ x ∧ x ≤ hi) →
        (l.map fun x => (x - mean) ^ 2).sum ≤ (hi + lo - 2 * mean) * l.sum + (mean ^ 2 - hi * lo) * l.length := by
      intro l hl
      induction l with
      | nil => simp
      | cons x l ih =>
        have := ih fun y hy => hl y (by simp [hy])
        obtain ⟨c1, c2⟩ := hl x (by simp)
        simp only [List.map_cons, List.sum_cons, List.length_cons]
        push_cast
        nlinarith [mul_nonneg (sub_nonneg.2 c1) (sub_nonneg.2 c2)]
    have := e xs h6
    rw [← h1] at this
    linarith
  have c : std ^ 2 ≤ (hi - mean) * (mean - lo) := le_of_mul_le_mul_right (by linarith) hn
  refine ⟨b1, b2, c, ?_⟩
  refine abs_le_of_sq_le_sq' ?_ (by linarith) |>.2
  nlinarith [sq_nonneg (hi - mean - (mean - lo))]

/-- For errors that are not negative: the mean is zero exactly if each error is zero, exactly if the maximum is; the deviation
is zero exactly if all errors are equal. -/
theorem C146_zero (xs : List ℝ) (mean std lo hi : ℝ) (h : IsStats xs mean std lo hi) (h0 : ∀ x ∈ xs, 0 ≤ x) :
    (mean = 0 ↔ ∀ x ∈ xs, x = 0) ∧ (hi = 0 ↔ ∀ x ∈ xs, x = 0) ∧ (std = 0 ↔ ∀ x ∈ xs, x = mean) := by
  obtain ⟨h1, h2, h3, h4, h5, h6⟩ := h
  have hn : (0 : ℝ) < xs.length := by exact_mod_cast List.length_pos_of_mem h4
  have zero : ∀ l : List ℝ, (∀ x ∈ l, 0 ≤ x) → (l.sum = 0 ↔ ∀ x ∈ l, x = 0) := by
    intro l hl
    induction l with
    | nil => simp
    | cons x l ih =>
      have i := ih fun y hy => hl y (by simp [hy])
      have s0 : 0 ≤ l.sum := List.sum_nonneg fun y hy => hl y (by simp [hy])
      have x0 := hl x (by simp)
      rw [List.sum_cons, add_eq_zero_iff_of_nonneg x0 s0, i]
      simp
  refine ⟨?_, ?_, ?_⟩
  · rw [← zero xs h0, ← h1, mul_eq_zero, or_iff_left hn.ne']
  · constructor
    · rintro rfl x hx
      exact le_antisymm (h6 x hx).2 (h0 x hx)
    · exact fun hx => hx hi h5
  · have z := zero (xs.map fun x => (x - mean) ^ 2) (by simp only [List.mem_map]; rintro _ ⟨x, -, rfl⟩; positivity)
    rw [← h2, mul_eq_zero, or_iff_left hn.ne', pow_eq_zero_iff two_ne_zero] at z
    rw [z]
    simp [sub_eq_zero]

/-- The place, the time and both directions of an entry read from the log are known: pysolar's `alt` and `az`, and the server's
zenith distance `zd` and azimuth `a`. -/
structure Known {tp : ℝ} (F : FloatText (mathB tp).α) (e : Ephemeris (mathB tp)) (lat lon alt az zd a : ℝ) : Prop where
  latitude : F.float e.latitude = some (num lat)
  longitude : F.float e.longitude = some (num lon)
  alt_eq : get_altitude (mathB tp) (num lat) (num lon) (.dt e.timestamp) e.elevation = .ok (num alt)
  az_eq : get_azimuth (mathB tp) (num lat) (num lon) (.dt e.timestamp) e.elevation = .ok (num az)
  zd_eq : e.altitude = num zd
  a_eq : e.azimuth = num a

/-- The errors wanted for an entry. -/
def Errors {tp : ℝ} (F : FloatText (mathB tp).α) (e : Ephemeris (mathB tp)) (p : ℝ × ℝ) : Prop :=
  ∃ lat lon alt az zd a : ℝ, Known F e lat lon alt az zd a ∧ p = (|mod360 (180 - az) - a|, |90 - alt - zd|)

theorem comps_eval {tp : ℝ} (F : FloatText (mathB tp).α) (data : List (Ephemeris (mathB tp)))
    (h : ∀ e ∈ data, ∃ p, Errors F e p) :
    ∃ comps errs, data.mapM (ComparePysolarToUSNO (mathB tp) F) = .ok comps ∧ List.Forall₂ (Errors F) data errs ∧
      comps.map EphemerisComparison.az_error = (errs.map Prod.fst).map num ∧
      comps.map EphemerisComparison.alt_error = (errs.map Prod.snd).map num := by
  induction data with
  | nil => exact ⟨[], [], rfl, .nil, rfl, rfl⟩
  | cons e data ih =>
    obtain ⟨comps, errs, h1, h2, h3, h4⟩ := ih fun x hx => h x (List.mem_cons_of_mem _ hx)
    obtain ⟨p, hp⟩ := h e List.mem_cons_self
    have hp' := hp
    obtain ⟨lat, lon, alt, az, zd, a, hk, rfl⟩ := hp
    have hc := compare_eval F e lat lon alt az zd a hk.1 hk.2 hk.3 hk.4 hk.5 hk.6
    refine ⟨⟨e.timestamp, e.latitude, e.longitude, e.elevation, num (90 - alt), num (mod360 (180 - az)), num zd, num a,
      num |90 - alt - zd|, num |mod360 (180 - az) - a|⟩ :: comps, (|mod360 (180 - az) - a|, |90 - alt - zd|) :: errs, ?_, .cons hp' h2,
      ?_, ?_⟩
    · rw [List.mapM_cons, hc, ok_bind, h1]
      rfl
    · simp only [List.map_cons, h3]
    · simp only [List.map_cons, h4]

/-- C146: for a nonempty list of entries the program prints the statistics of the two lists of errors, in which nothing is
negative, and writes the CSV file; run again on the log it read, it writes the same file. -/
theorem C146_report (tp : ℝ) (F : FloatText (mathB tp).α) (data : List (Ephemeris (mathB tp))) (hne : data ≠ [])
    (h : ∀ e ∈ data, ∃ p, Errors F e p) :
    ∃ r errs m1 s1 l1 u1 m2 s2 l2 u2, report (mathB tp) F data = .ok r ∧ List.Forall₂ (Errors F) data errs ∧
      r.azimuth = ⟨num m1, num s1, num l1, num u1⟩ ∧ IsStats (errs.map Prod.fst) m1 s1 l1 u1 ∧
      r.altitude = ⟨num m2, num s2, num l2, num u2⟩ ∧ IsStats (errs.map Prod.snd) m2 s2 l2 u2 ∧
      (∀ p ∈ errs, 0 ≤ p.1 ∧ 0 ≤ p.2) ∧
      ∀ log, ReadEphemeridesLog (mathB tp) F log = .ok data → main (mathB tp) F log = .ok r.csv := by
  obtain ⟨comps, errs, h1, h2, h3, h4⟩ := comps_eval F data h
  have hne' : errs ≠ [] := by
    rintro rfl
    cases h2
    exact hne rfl
  obtain ⟨m1, s1, l1, u1, a1, a2⟩ := C146_stats tp (errs.map Prod.fst) (by simpa using hne')
  obtain ⟨m2, s2, l2, u2, b1, b2⟩ := C146_stats tp (errs.map Prod.snd) (by simpa using hne')
  refine ⟨⟨⟨num m1, num s1, num l1, num u1⟩, ⟨num m2, num s2, num l2, num u2⟩, WriteComparisonsToCSV (mathB tp) F comps⟩, errs, m1, s1,
    l1, u1, m2, s2, l2, u2, ?_, h2, rfl, a2, rfl, b2, ?_, ?_⟩
  · unfold report
    rw [h1, ok_bind, h3, a1, ok_bind, h4, b1, ok_bind]
    rfl
  · intro p hp
    obtain ⟨e, he⟩ : ∃ e, Errors F e p := by
      clear * - h2 hp
      induction h2 with
      | nil => cases hp
      | cons h _ ih =>
        rcases List.mem_cons.1 hp with rfl | hp
        · exact ⟨_, h⟩
        · exact ih hp
    obtain ⟨lat, lon, alt, az, zd, a, -, rfl⟩ := he
    exact ⟨abs_nonneg _, abs_nonneg _⟩
  · intro log hl
    unfold main
    rw [hl, ok_bind, h1]
    rfl

/-- C145, the whole program without argument: the log keeps its entries and gains those of the draws, and the CSV file is the
one that the program called with this log would write. -/
theorem C145_main (tp : ℝ) (F : FloatText (mathB tp).α) (sky : SkyMap) (server : Request → List Txt)
    (hs : ∀ r, Answers F sky r (server r)) (qs : List Draw) (hne : qs ≠ []) (log : List Txt) (data : List (Ephemeris (mathB tp)))
    (hl : ReadEphemeridesLog (mathB tp) F log = .ok data) (h : ∀ q ∈ qs, q.InRange ∧ Faithful F (entryOf tp sky q))
    (hd : ∀ e ∈ data ++ qs.map (entryOf tp sky), ∃ p, Errors F e p) :
    ∃ lines r, lines.length = qs.length ∧ mainGather (mathB tp) F server qs log = .ok (log ++ lines, r) ∧
      ReadEphemeridesLog (mathB tp) F (log ++ lines) = .ok (data ++ qs.map (entryOf tp sky)) ∧
      report (mathB tp) F (data ++ qs.map (entryOf tp sky)) = .ok r ∧ main (mathB tp) F (log ++ lines) = .ok r.csv := by
  obtain ⟨lines, l1, l2, l3⟩ := C145_loop tp F sky server hs qs hne log data [] hl h
  obtain ⟨r, errs, m1, s1, u1, v1, m2, s2, u2, v2, r1, -, -, -, -, -, -, r2⟩ :=
    C146_report tp F (data ++ qs.map (entryOf tp sky)) (by simp [hne]) hd
  refine ⟨lines, r, l1, ?_, l3, r1, r2 _ l3⟩
  unfold mainGather
  rw [l2, ok_bind]
  show (report (mathB tp) F _ >>= fun r => pure (log ++ lines, r)) = _
  rw [r1]
  rfl

/-! ## Cases meeting the hypotheses -/

/-- A draw in range. -/
def sampleDraw : Draw := ⟨-90, 359, 2013, 2, 27, 23, 59, 59⟩

theorem sampleDraw_ok : sampleDraw.InRange := by
  constructor <;> decide

/-- Words of a server that answers everything with zenith distance 2 degrees and azimuth 11 degrees, numbers in unary. -/
def unaryWords : List (ℕ × Txt) :=
  [(0, "2013".toList), (1, "Jun".toList), (1, "15".toList), (1, "12:00:00.0".toList), (4, "11".toList), (1, "0".toList), (2, "0".toList),
    (5, "1x1111111111".toList), (1, "0".toList), (1, "0".toList), (3, "1.015".toList)]

example (tp : ℝ) : ∀ r, Answers (unary tp) (fun _ _ _ _ => (2, 11)) r (List.replicate 21 [] ++ [spaced unaryWords 2]) := by
  intro r
  refine ⟨unaryWords, 2, 2, 0, 0, 11, 0, 0, ⟨by decide, by decide, by decide⟩, by simp, ?_, by norm_num⟩
  simp [fields, unaryWords, unary]

example (tp : ℝ) : Faithful (unary tp) (entryOf tp (fun _ _ _ _ => (2, 11)) sampleDraw) := by
  refine ⟨?_, ?_, ?_⟩
  · simpa [entryOf] using unary_faithful tp 0
  · simpa [entryOf] using unary_faithful tp 11
  · simpa [entryOf] using unary_faithful tp 2

/-- An entry for 80 degrees north with known errors. -/
example (tp : ℝ) (htp : tp ≠ 0) : ∃ e p, Errors (textOf tp 80 0) e p := by
  have hcv : (⟨2013, 6, 15, 12, 0, 0, 0⟩ : Civil).Valid := civil_valid_of_check (by decide)
  have hu := utcDT_fields hcv
  obtain ⟨az, haz, -⟩ := june_azimuth tp
  obtain ⟨alt, halt, -⟩ := C90_polar_day tp htp _ _ hu (by decide) (by decide) 80 0 0 Constants.standard_temperature
    Constants.standard_pressure (by norm_num [Constants.standard_temperature]) (by norm_num [Constants.standard_pressure]) (by norm_num)
    (.inl ⟨by decide, by decide, by norm_num, by norm_num⟩)
  exact ⟨⟨utcDT ⟨2013, 6, 15, 12, 0, 0, 0⟩, ['a'], ['b'], num 0, num 179, num 60⟩, _, 80, 0, alt, az, 60, 179,
    ⟨by simp [textOf], by simp [textOf], halt, haz, rfl, rfl⟩, rfl⟩

/-- Two errors of 1 and 3. -/
example : IsStats [1, 3] 2 1 1 3 := by
  refine ⟨?_, ?_, ?_, ?_, ?_, ?_⟩ <;> norm_num

end Verif.Props
