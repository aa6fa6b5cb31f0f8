import Verif.Lemmas.F64Mono
import Verif.Props.MoreParts

/-!
# C96: the fields of values sort like the values

Compared field by field, from the largest unit to the smallest, two values stand in the order of the values
themselves; and the fields that count from a fixed origin never go back.
-/

namespace Spec
open Pg

/-- The values of the units `us` are the whole numbers `ks`. -/
def Reads (f : DateUnit → Res F64) (us : List DateUnit) (ks : List Int) : Prop :=
  us.map f = ks.map fun k : Int => .ok (.fin k)

/-- Order by the first number that differs. -/
def Before : List Int → List Int → Prop
  | x :: xs, y :: ys => x < y ∨ x = y ∧ Before xs ys
  | _, _ => False

end Spec

namespace Props
open Pg Spec

/-- Clock fields of a timestamp or time. -/
theorem clock_before {v v' h m us h' m' us' : Int} (e : h * 3600000000 + m * 60000000 + us = v)
    (e' : h' * 3600000000 + m' * 60000000 + us' = v') (hm : 0 ≤ m) (hm2 : m < 60) (hu : 0 ≤ us) (hu2 : us < 60000000)
    (hm' : 0 ≤ m') (hm2' : m' < 60) (hu' : 0 ≤ us') (hu2' : us' < 60000000) :
    v < v' ↔ Before [h, m, us] [h', m', us'] := by
  simp only [Before, and_false, or_false]
  omega

theorem ymd_lt_iff (c c' : YMD) (k k' : Int) (hk : YearField c.y k) (hk' : YearField c'.y k') (xs ys : List Int) :
    (c.lt c' ∨ c = c' ∧ Before xs ys) ↔ Before (k :: c.m :: c.d :: xs) (k' :: c'.m :: c'.d :: ys) := by
  obtain ⟨y, m, d⟩ := c
  obtain ⟨y', m', d'⟩ := c'
  simp only [Before, YMD.lt, YMD.mk.injEq]
  unfold YearField at hk hk'
  simp only at hk hk'
  have e1 : k < k' ↔ y < y' := by omega
  have e2 : k = k' ↔ y = y' := by omega
  rw [e1, e2]
  tauto

theorem ts_lt_iff {v v' n n' : Int} (h : n = v / 86400000000) (h' : n' = v' / 86400000000) :
    v < v' ↔ n < n' ∨ n = n' ∧ v % 86400000000 < v' % 86400000000 := by omega

/-- **C96 (timestamps).** Year, month, day, hour, minute and microseconds sort like the timestamps. -/
theorem C96_timestamp (p p' : Profile) (s t : Timestamp) (hs : TsRange s.v) (ht : TsRange t.v) :
    ∃ a b, Reads (s.datePart p .unit) [.year, .month, .day, .hour, .minute, .microsec] a ∧
      Reads (t.datePart p' .unit) [.year, .month, .day, .hour, .minute, .microsec] b ∧
      (s.v < t.v ↔ Before a b) := by
  obtain ⟨c, hc, hd, -, -, -⟩ := datePart_eq p hs .year
  obtain ⟨c', hc', hd', -, -, -⟩ := datePart_eq p' ht .year
  obtain ⟨⟨h, m, us, -, -, e1, e2, e3, -, -, e4, m1, m2, u1, u2, -, -⟩, e5, e6, -⟩ := C54_timestamp p s hs c hc hd
  obtain ⟨⟨h', m', us', -, -, f1, f2, f3, -, -, f4, m1', m2', u1', u2', -, -⟩, f5, f6, -⟩ :=
    C54_timestamp p' t ht c' hc' hd'
  obtain ⟨-, ⟨k, e7, hk⟩, -⟩ := C29_fields p s hs c hc hd
  obtain ⟨-, ⟨k', f7, hk'⟩, -⟩ := C29_fields p' t ht c' hc' hd'
  refine ⟨[k, c.m, c.d, h, m, us], [k', c'.m, c'.d, h', m', us'], ?_, ?_, ?_⟩
  · simp only [Reads, List.map_cons, List.map_nil, e1, e2, e3, e5, e6, e7]
  · simp only [Reads, List.map_cons, List.map_nil, f1, f2, f3, f5, f6, f7]
  · rw [← ymd_lt_iff c c' k k' hk hk', ← clock_before e4 f4 m1 m2 u1 u2 m1' m2' u1' u2', ts_lt_iff hd hd',
      dayNumber_lt_iff hc hc']
    have : dayNumber c = dayNumber c' ↔ c = c' := ⟨dayNumber_inj hc hc', fun e => by rw [e]⟩
    rw [this]
    rfl

/-- Two neighbouring microseconds across the beginning of our era. -/
example : TsRange (-63082281600000001) ∧ TsRange (-63082281600000000) ∧
    Reads ((⟨-63082281600000001⟩ : Timestamp).datePart .debug .unit) [.year, .month, .day, .hour, .minute, .microsec]
      [-1, 12, 31, 23, 59, 59999999] ∧
    Reads ((⟨-63082281600000000⟩ : Timestamp).datePart .debug .unit) [.year, .month, .day, .hour, .minute, .microsec]
      [1, 1, 1, 0, 0, 0] := by
  unfold Reads; decide +kernel

/-- **C96 (day of the year).** So do year, day of the year, hour, minute and microseconds. -/
theorem C96_doy (p p' : Profile) (s t : Timestamp) (hs : TsRange s.v) (ht : TsRange t.v) :
    ∃ a b, Reads (s.datePart p .unit) [.year, .doy, .hour, .minute, .microsec] a ∧
      Reads (t.datePart p' .unit) [.year, .doy, .hour, .minute, .microsec] b ∧
      (s.v < t.v ↔ Before a b) := by
  obtain ⟨c, hc, hd, -, -, -⟩ := datePart_eq p hs .year
  obtain ⟨c', hc', hd', -, -, -⟩ := datePart_eq p' ht .year
  obtain ⟨⟨h, m, us, -, -, e1, e2, e3, -, -, e4, m1, m2, u1, u2, -, -⟩, -⟩ := C54_timestamp p s hs c hc hd
  obtain ⟨⟨h', m', us', -, -, f1, f2, f3, -, -, f4, m1', m2', u1', u2', -, -⟩, -⟩ :=
    C54_timestamp p' t ht c' hc' hd'
  obtain ⟨-, ⟨k, e7, hk⟩, -⟩ := C29_fields p s hs c hc hd
  obtain ⟨-, ⟨k', f7, hk'⟩, -⟩ := C29_fields p' t ht c' hc' hd'
  obtain ⟨n, e8, en, -⟩ := C28_doy p s hs c hc hd
  obtain ⟨n', f8, fn, -⟩ := C28_doy p' t ht c' hc' hd'
  refine ⟨[k, n, h, m, us], [k', n', h', m', us'], ?_, ?_, ?_⟩
  · simp only [Reads, List.map_cons, List.map_nil, e1, e2, e3, e7, e8]
  · simp only [Reads, List.map_cons, List.map_nil, f1, f2, f3, f7, f8]
  · have hcl := clock_before e4 f4 m1 m2 u1 u2 m1' m2' u1' u2'
    unfold Before; unfold Before
    rw [← hcl, ts_lt_iff hd hd']
    unfold YearField at hk hk'
    have g1 : c.y < c'.y → dayNumber c < dayNumber c' := fun g => (dayNumber_lt_iff hc hc').2 (Or.inl g)
    have g2 : c'.y < c.y → dayNumber c' < dayNumber c := fun g => (dayNumber_lt_iff hc' hc).2 (Or.inl g)
    have e1 : k < k' ↔ c.y < c'.y := by omega
    have e2 : k = k' ↔ c.y = c'.y := by omega
    rw [e1, e2]
    unfold dayMicros
    rcases Int.lt_trichotomy c.y c'.y with g | g | g
    · have := g1 g; omega
    · rw [g] at en; omega
    · have := g2 g; omega

/-- **C96 (ISO weeks).** So do ISO year, week, ISO weekday, hour, minute and microseconds. -/
theorem C96_iso (p p' : Profile) (s t : Timestamp) (hs : TsRange s.v) (ht : TsRange t.v) :
    ∃ a b, Reads (s.datePart p .unit) [.isoYear, .week, .isoDow, .hour, .minute, .microsec] a ∧
      Reads (t.datePart p' .unit) [.isoYear, .week, .isoDow, .hour, .minute, .microsec] b ∧
      (s.v < t.v ↔ Before a b) := by
  obtain ⟨c, hc, hd, -, -, -⟩ := datePart_eq p hs .year
  obtain ⟨c', hc', hd', -, -, -⟩ := datePart_eq p' ht .year
  obtain ⟨⟨h, m, us, -, -, e1, e2, e3, -, -, e4, m1, m2, u1, u2, -, -⟩, -⟩ := C54_timestamp p s hs c hc hd
  obtain ⟨⟨h', m', us', -, -, f1, f2, f3, -, -, f4, m1', m2', u1', u2', -, -⟩, -⟩ :=
    C54_timestamp p' t ht c' hc' hd'
  obtain ⟨y, w, d, e5, e6, e7, ⟨⟨i1, i2⟩, i3, i4⟩, w1, w2, d1, d2⟩ := C27_iso_week_date p s hs
  obtain ⟨y', w', d', f5, f6, f7, ⟨⟨j1, j2⟩, j3, j4⟩, w1', w2', d1', d2'⟩ := C27_iso_week_date p' t ht
  refine ⟨[y, w, d, h, m, us], [y', w', d', h', m', us'], ?_, ?_, ?_⟩
  · simp only [Reads, List.map_cons, List.map_nil, e1, e2, e3, e5, e6, e7]
  · simp only [Reads, List.map_cons, List.map_nil, f1, f2, f3, f5, f6, f7]
  · have hcl := clock_before e4 f4 m1 m2 u1 u2 m1' m2' u1' u2'
    unfold Before; unfold Before; unfold Before
    rw [← hcl, ts_lt_iff rfl rfl]
    have jan : ∀ x x' : Int, x < x' → dayNumber ⟨x + 1, 1, 1⟩ ≤ dayNumber ⟨x', 1, 1⟩ := by
      intro x x' g
      rcases Int.lt_or_eq_of_le (show x + 1 ≤ x' by omega) with g | g
      · exact ((dayNumber_lt_iff (by unfold YMD.Real; dsimp only; unfold monthDays; omega)
          (by unfold YMD.Real; dsimp only; unfold monthDays; omega)).2 (Or.inl g)).le
      · rw [g]
    unfold weekMonday weekday dayMicros at *
    rcases Int.lt_trichotomy y y' with g | g | g
    · have := jan _ _ g; omega
    · subst g
      generalize dayNumber ⟨y, 1, 4⟩ = z at *
      omega
    · have := jan _ _ g; omega

example : Reads ((⟨762480000000000⟩ : Timestamp).datePart .debug .unit) [.isoYear, .week, .isoDow, .hour, .minute, .microsec]
      [2024, 9, 4, 0, 0, 0] := by
  unfold Reads; decide +kernel

/-- **C96 (times).** Hour, minute and microseconds sort like the times. -/
theorem C96_time (p p' : Profile) (s t : Time) (hs : 0 ≤ s.v ∧ s.v ≤ dayMicros) (ht : 0 ≤ t.v ∧ t.v ≤ dayMicros) :
    ∃ a b, Reads (s.datePart p .unit) [.hour, .minute, .microsec] a ∧
      Reads (t.datePart p' .unit) [.hour, .minute, .microsec] b ∧ (s.v < t.v ↔ Before a b) := by
  obtain ⟨⟨h, m, us, -, -, e1, e2, e3, -, -, e4, m1, m2, u1, u2, -, -⟩, -⟩ := C54_time p s hs.1 hs.2
  obtain ⟨⟨h', m', us', -, -, f1, f2, f3, -, -, f4, m1', m2', u1', u2', -, -⟩, -⟩ := C54_time p' t ht.1 ht.2
  refine ⟨[h, m, us], [h', m', us'], ?_, ?_, clock_before e4 f4 m1 m2 u1 u2 m1' m2' u1' u2'⟩
  · simp only [Reads, List.map_cons, List.map_nil, e1, e2, e3]
  · simp only [Reads, List.map_cons, List.map_nil, f1, f2, f3]

example : Reads ((⟨86400000000⟩ : Time).datePart .debug .unit) [.hour, .minute, .microsec] [24, 0, 0] := by
  unfold Reads; decide +kernel

theorem one_sign {v h m us : Int} (e : h * 3600000000 + m * 60000000 + us = v) (s1 : SameSign h v) (s2 : SameSign m v)
    (s3 : SameSign us v) (m1 : -60 < m) (m2 : m < 60) (u1 : -60000000 < us) (u2 : us < 60000000) :
    0 ≤ h ∧ 0 ≤ m ∧ 0 ≤ us ∨ h ≤ 0 ∧ m ≤ 0 ∧ us ≤ 0 := by
  unfold SameSign at *
  omega

theorem signed_before {v v' h m us h' m' us' : Int} (e : h * 3600000000 + m * 60000000 + us = v)
    (e' : h' * 3600000000 + m' * 60000000 + us' = v')
    (s : 0 ≤ h ∧ 0 ≤ m ∧ 0 ≤ us ∨ h ≤ 0 ∧ m ≤ 0 ∧ us ≤ 0) (s' : 0 ≤ h' ∧ 0 ≤ m' ∧ 0 ≤ us' ∨ h' ≤ 0 ∧ m' ≤ 0 ∧ us' ≤ 0)
    (m1 : -60 < m) (m2 : m < 60) (u1 : -60000000 < us) (u2 : us < 60000000)
    (m1' : -60 < m') (m2' : m' < 60) (u1' : -60000000 < us') (u2' : us' < 60000000) :
    v < v' ↔ h < h' ∨ h = h' ∧ (m < m' ∨ m = m' ∧ us < us') := by
  rcases s with s | s <;> rcases s' with s' | s' <;> omega

theorem months_before {v v' y m y' m' : Int} (e : y * 12 + m = v) (e' : y' * 12 + m' = v') (s1 : SameSign y v)
    (s2 : SameSign m v) (s1' : SameSign y' v') (s2' : SameSign m' v') (m1 : -12 < m) (m2 : m < 12) (m1' : -12 < m')
    (m2' : m' < 12) : (v < v' ↔ y < y' ∨ y = y' ∧ m < m') ∧ (v = v' ↔ y = y' ∧ m = m') := by
  have a : 0 ≤ y ∧ 0 ≤ m ∨ y ≤ 0 ∧ m ≤ 0 := by unfold SameSign at *; omega
  have b : 0 ≤ y' ∧ 0 ≤ m' ∨ y' ≤ 0 ∧ m' ≤ 0 := by unfold SameSign at *; omega
  clear s1 s2 s1' s2'
  rcases a with a | a <;> rcases b with b | b <;> omega

theorem span_before {m d t m' d' t' : Int} (ht : -86400000000 < t ∧ t < 86400000000 ∧ -30 < d ∧ d < 30 ∧ SameSign3 m d t)
    (ht' : -86400000000 < t' ∧ t' < 86400000000 ∧ -30 < d' ∧ d' < 30 ∧ SameSign3 m' d' t') :
    spanMicros m d t < spanMicros m' d' t' ↔ m < m' ∨ m = m' ∧ (d < d' ∨ d = d' ∧ t < t') := by
  unfold spanMicros dayMicros SameSign3 at *
  obtain ⟨a1, a2, a3, a4, s⟩ := ht
  obtain ⟨b1, b2, b3, b4, s'⟩ := ht'
  rcases s with s | s <;> rcases s' with s' | s' <;> omega

/-- **C96 (intervals).** Among intervals with fewer than 30 days, less than a day of time and all parts of one
sign (the results of `justify_interval`) the fields sort like the intervals. -/
theorem C96_interval (p p' : Profile) (a b : Interval) (ha : a.WF) (hb : b.WF)
    (ta : -dayMicros < a.time ∧ a.time < dayMicros ∧ -30 < a.day ∧ a.day < 30 ∧ SameSign3 a.month a.day a.time)
    (tb : -dayMicros < b.time ∧ b.time < dayMicros ∧ -30 < b.day ∧ b.day < 30 ∧ SameSign3 b.month b.day b.time) :
    ∃ x y, Reads (a.datePart p .unit) [.year, .month, .day, .hour, .minute, .microsec] x ∧
      Reads (b.datePart p' .unit) [.year, .month, .day, .hour, .minute, .microsec] y ∧
      (a.cmp b = .lt ↔ Before x y) := by
  have fit : ∀ c : Interval, -dayMicros < c.time → c.time < dayMicros → HoursFit c.time := by
    intro c h1 h2
    unfold dayMicros at h1 h2
    unfold HoursFit
    omega
  obtain ⟨y, mo, h, mi, us, -, e1, e2, e3, e4, e5, e6, -, g1, g2, s1, s2, s3, s4, s5, m1, m2, n1, n2, u1, u2, -⟩ :=
    C48_fields p a ha (fit a ta.1 ta.2.1)
  obtain ⟨y', mo', h', mi', us', -, e1', e2', e3', e4', e5', e6', -, g1', g2', s1', s2', s3', s4', s5', m1', m2', n1',
    n2', u1', u2', -⟩ := C48_fields p' b hb (fit b tb.1 tb.2.1)
  refine ⟨[y, mo, a.day, h, mi, us], [y', mo', b.day, h', mi', us'], ?_, ?_, ?_⟩
  · simp only [Reads, List.map_cons, List.map_nil, e1, e2, e3, e4, e5, e6]
  · simp only [Reads, List.map_cons, List.map_nil, e1', e2', e3', e4', e5', e6']
  · rw [(C19_partial a b a).1, Int.compare_eq_lt]
    simp only [Before, and_false, or_false]
    have c1 := signed_before g2 g2' (one_sign g2 s3 s4 s5 n1 n2 u1 u2) (one_sign g2' s3' s4' s5' n1' n2' u1' u2')
      n1 n2 u1 u2 n1' n2' u1' u2'
    obtain ⟨c2, c3⟩ := months_before g1 g1' s1 s2 s1' s2' m1 m2 m1' m2'
    rw [← c1, span_before ta tb, c2, c3, or_assoc, and_assoc, ← and_or_left]

example : (⟨-14, -2, -3600000001⟩ : Interval).WF ∧ SameSign3 (-14) (-2) (-3600000001) ∧
    Reads ((⟨-14, -2, -3600000001⟩ : Interval).datePart .debug .unit) [.year, .month, .day, .hour, .minute, .microsec]
      [-1, -2, -2, -1, 0, -1] := by
  unfold Reads; decide +kernel

/-- **C96 (counting fields).** Year, decade, century, millennium and ISO year never decrease as time goes on. -/
theorem C96_counts (p p' : Profile) (u : DateUnit)
    (hu : u = .year ∨ u = .decade ∨ u = .century ∨ u = .millennium ∨ u = .isoYear)
    (s t : Timestamp) (hs : TsRange s.v) (ht : TsRange t.v) (hle : s.v ≤ t.v) :
    ∃ k l : Int, s.datePart p .unit u = .ok (.fin k) ∧ t.datePart p' .unit u = .ok (.fin l) ∧ k ≤ l := by
  obtain ⟨c, hc, hd, -, -, -⟩ := datePart_eq p hs .year
  obtain ⟨c', hc', hd', -, -, -⟩ := datePart_eq p' ht .year
  have hy : c.y ≤ c'.y := by
    by_contra g
    have := (dayNumber_lt_iff hc' hc).2 (Or.inl (by omega))
    omega
  obtain ⟨-, ⟨k1, e1, h1⟩, ⟨k2, e2, h2⟩, ⟨k3, e3, h3⟩, ⟨k4, e4, h4⟩⟩ := C29_fields p s hs c hc hd
  obtain ⟨-, ⟨l1, f1, g1⟩, ⟨l2, f2, g2⟩, ⟨l3, f3, g3⟩, ⟨l4, f4, g4⟩⟩ := C29_fields p' t ht c' hc' hd'
  unfold YearField at h1 g1
  unfold DecadeField at h2 g2
  unfold PeriodField at h3 g3 h4 g4
  rcases hu with rfl | rfl | rfl | rfl | rfl
  · exact ⟨_, _, e1, f1, by omega⟩
  · exact ⟨_, _, e2, f2, by omega⟩
  · exact ⟨_, _, e3, f3, by omega⟩
  · exact ⟨_, _, e4, f4, by omega⟩
  · obtain ⟨a, b, ra, rb, hab⟩ := C96_iso p' p t s ht hs
    obtain ⟨y, w, d, e5, -⟩ := C27_iso_week_date p s hs
    obtain ⟨y', w', d', f5, -⟩ := C27_iso_week_date p' t ht
    refine ⟨y, y', e5, f5, ?_⟩
    by_contra g
    have hn : ¬ Before a b := fun hb => by have := hab.2 hb; omega
    match a, b, ra, rb, hn with
    | x :: xs, z :: zs, ra, rb, hn =>
      simp only [Reads, List.map_cons, List.cons.injEq, f5, e5, Res.ok.injEq, F64.fin_int_inj] at ra rb
      exact hn (Or.inl (by omega))
    | [], _, ra, _, _ => simp [Reads] at ra
    | _ :: _, [], _, rb, _ => simp [Reads] at rb

/-- **C96 (Julian day).** Nor does the Julian day with its fraction, in spite of rounding. -/
theorem C96_julian (p p' : Profile) (s t : Timestamp) (hs : TsRange s.v) (ht : TsRange t.v) (hle : s.v ≤ t.v) :
    ∃ k l : Rat, s.datePart p .unit .julian = .ok (.fin k) ∧ t.datePart p' .unit .julian = .ok (.fin l) ∧ k ≤ l := by
  have key : ∀ (p : Profile) (t : Timestamp), TsRange t.v → ∃ x y z w : Rat,
      t.datePart p .unit .julian = .ok (.fin w) ∧
      F64.rnd ((t.v % 1000000 : Int) / 1000000) = .fin x ∧
      F64.rnd ((t.v % 86400000000 / 1000000 : Int) + x) = .fin y ∧
      F64.rnd (y / 86400) = .fin z ∧ F64.rnd ((t.v / 86400000000 + 2451545 : Int) + z) = .fin w := by
    intro p t h
    obtain ⟨c, hc, hd, hy1, hy2, e⟩ := datePart_eq p h .julian
    have hb := real_bounds hc
    have hr := (tsRange_iff _).1 h
    have ec := jdn_eq c
    have b1 : (0 : Rat) ≤ (t.v % 1000000 : Int) := by exact_mod_cast (by omega : 0 ≤ t.v % 1000000)
    have b2 : ((t.v % 1000000 : Int) : Rat) ≤ 999999 := by exact_mod_cast (by omega : t.v % 1000000 ≤ 999999)
    have a1 : (0 : Rat) ≤ (t.v % 86400000000 / 1000000 : Int) := by
      exact_mod_cast (by omega : 0 ≤ t.v % 86400000000 / 1000000)
    have a2 : ((t.v % 86400000000 / 1000000 : Int) : Rat) ≤ 86399 := by
      exact_mod_cast (by omega : t.v % 86400000000 / 1000000 ≤ 86399)
    have j1 : (0 : Rat) ≤ (t.v / 86400000000 + 2451545 : Int) := by
      exact_mod_cast (by omega : 0 ≤ t.v / 86400000000 + 2451545)
    have j2 : ((t.v / 86400000000 + 2451545 : Int) : Rat) ≤ 120000000 := by
      exact_mod_cast (by omega : t.v / 86400000000 + 2451545 ≤ 120000000)
    obtain ⟨x, x1, x2⟩ := F64.rnd_within (q := ((t.v % 1000000 : Int) : Rat) / 1000000) (b := 1)
      (by rw [abs_le]; constructor <;> linarith) (by norm_num)
    norm_num at x2
    rw [abs_le] at x2
    obtain ⟨y, y1, y2⟩ := F64.rnd_within (q := ((t.v % 86400000000 / 1000000 : Int) : Rat) + x) (b := 86401)
      (by rw [abs_le]; constructor <;> linarith) (by norm_num)
    norm_num at y2
    rw [abs_le] at y2
    obtain ⟨z, z1, z2⟩ := F64.rnd_within (q := y / 86400) (b := 2)
      (by rw [abs_le]; constructor <;> linarith) (by norm_num)
    norm_num at z2
    rw [abs_le] at z2
    obtain ⟨w, w1, w2⟩ := F64.rnd_within (q := ((t.v / 86400000000 + 2451545 : Int) : Rat) + z) (b := 120000003)
      (by rw [abs_le]; constructor <;> linarith) (by norm_num)
    refine ⟨x, y, z, w, ?_, x1, y1, z1, w1⟩
    rw [e]
    simp only [Timestamp.fieldPart, Timestamp.partJulian, tmOf, clockOf]
    rw [date2julian_eq p _ _ _ (by omega) (by omega) (by omega) (by omega) (by omega) (by omega)
      (by omega), Res.bind_ok, chk64_ok (by omega), Res.bind_ok, chk64_ok (by omega), Res.bind_ok,
      chk64_ok (by omega), Res.bind_ok]
    rw [F64.ofInt_ok (n := jdn c.y c.m c.d) (by omega),
      F64.ofInt_ok (n := (t.v % 86400000000 / 3600000000 * 60 + t.v % 3600000000 / 60000000) * 60) (by omega),
      F64.ofInt_ok (n := t.v % 60000000 / 1000000) (by omega), F64.ofInt_ok (n := t.v % 1000000) (by omega),
      F64.ofInt_ok (n := 86400) (by omega), F64.fin_add, F64.fin_div (by norm_num),
      F64.rnd_of_int (t.v % 86400000000 / 1000000) (by
        have : t.v % 86400000000 / 1000000 = (t.v % 86400000000 / 3600000000 * 60 + t.v % 3600000000 / 60000000) * 60 +
          t.v % 60000000 / 1000000 := by omega
        rw [this]; push_cast; rfl) (by omega), x1, F64.fin_add, y1, F64.fin_div (by norm_num)]
    rw [show y / ((86400 : Int) : Rat) = y / 86400 by norm_cast, z1, F64.fin_add,
      show jdn c.y c.m c.d = t.v / 86400000000 + 2451545 by omega, w1]
    rfl
  obtain ⟨x, y, z, w, e, r1, r2, r3, r4⟩ := key p s hs
  obtain ⟨x', y', z', w', e', r1', r2', r3', r4'⟩ := key p' t ht
  refine ⟨w, w', e, e', ?_⟩
  have one : F64.rnd 1 = .fin 1 := by
    have := F64.rnd_int (n := 1) (by norm_num)
    exact_mod_cast this
  have x0 : ∀ {v : Int} {x : Rat}, F64.rnd ((v % 1000000 : Int) / 1000000) = .fin x → 0 ≤ x ∧ x ≤ 1 := by
    intro v x r
    have b1 : (0 : Rat) ≤ (v % 1000000 : Int) := by exact_mod_cast (by omega : 0 ≤ v % 1000000)
    have b2 : ((v % 1000000 : Int) : Rat) ≤ 1000000 := by exact_mod_cast (by omega : v % 1000000 ≤ 1000000)
    exact ⟨F64.rnd_mono (q := 0) (by positivity) F64.rnd_zero r,
      F64.rnd_mono (q' := 1) (by rw [div_le_one (by norm_num)]; exact b2) r one⟩
  have hx := x0 r1
  have hx' := x0 r1'
  have z0 : ∀ {v : Int} {x y z : Rat}, 0 ≤ x ∧ x ≤ 1 → F64.rnd ((v % 86400000000 / 1000000 : Int) + x) = .fin y →
      F64.rnd (y / 86400) = .fin z → 0 ≤ z ∧ z ≤ 1 := by
    intro v x y z hx r r'
    have b1 : (0 : Rat) ≤ (v % 86400000000 / 1000000 : Int) := by
      exact_mod_cast (by omega : 0 ≤ v % 86400000000 / 1000000)
    have b2 : ((v % 86400000000 / 1000000 : Int) : Rat) ≤ 86399 := by
      exact_mod_cast (by omega : v % 86400000000 / 1000000 ≤ 86399)
    have y0 : 0 ≤ y := F64.rnd_mono (q := 0) (by linarith) F64.rnd_zero r
    have y1 : y ≤ 86400 := F64.rnd_mono (q' := 86400) (by linarith) r
      (by have := F64.rnd_int (n := 86400) (by norm_num); exact_mod_cast this)
    exact ⟨F64.rnd_mono (q := 0) (by positivity) F64.rnd_zero r',
      F64.rnd_mono (q' := 1) (by rw [div_le_one (by norm_num)]; exact y1) r' one⟩
  have hz := z0 hx r2 r3
  have hz' := z0 hx' r2' r3'
  refine F64.rnd_mono ?_ r4 r4'
  rcases Int.lt_or_eq_of_le (show s.v / 86400000000 ≤ t.v / 86400000000 by omega) with g | g
  · have : ((s.v / 86400000000 + 2451545 : Int) : Rat) + 1 ≤ (t.v / 86400000000 + 2451545 : Int) := by
      exact_mod_cast (by omega : s.v / 86400000000 + 2451545 + 1 ≤ t.v / 86400000000 + 2451545)
    linarith
  · rw [g]
    refine add_le_add (le_refl _) (F64.rnd_mono (div_le_div_of_nonneg_right ?_ (by norm_num)) r3 r3')
    refine F64.rnd_mono ?_ r2 r2'
    rcases Int.lt_or_eq_of_le (show s.v % 86400000000 / 1000000 ≤ t.v % 86400000000 / 1000000 by omega) with g' | g'
    · have : ((s.v % 86400000000 / 1000000 : Int) : Rat) + 1 ≤ (t.v % 86400000000 / 1000000 : Int) := by
        exact_mod_cast g'
      linarith
    · rw [g']
      refine add_le_add (le_refl _) (F64.rnd_mono (div_le_div_of_nonneg_right ?_ (by norm_num)) r1 r1')
      exact_mod_cast (by omega : s.v % 1000000 ≤ t.v % 1000000)

/-- Two timestamps a microsecond apart at the end of the range have the same Julian day. -/
example : TsRange 9223371331199999998 ∧ TsRange 9223371331199999999 ∧
    (⟨9223371331199999998⟩ : Timestamp).datePart .debug .unit .julian =
      (⟨9223371331199999999⟩ : Timestamp).datePart .debug .unit .julian := by decide +kernel

end Props
