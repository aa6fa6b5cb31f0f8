import Verif.Lemmas.Exchange
import Verif.Props.Agree

/-!
# Property C85: a text read with the orders month-day and day-month

`c` is the state of the thread's keyword caches, `u` the uninitialised type of a lone sign.
-/

namespace Spec

/-- The days with these numbers differ by the exchange of month and day. -/
def Exchanged (a b : Int) : Prop :=
  ∃ y m d : Int, 1 ≤ m ∧ m ≤ 12 ∧ 1 ≤ d ∧ d ≤ 12 ∧ a = dayNumber ⟨y, m, d⟩ ∧ b = dayNumber ⟨y, d, m⟩

/-- What a single number `m` from 1 to 12 is read as beside a time of day: month `m` with the day zero, that is the day before the first
of that month; or day `m` of the month zero, that is of the December before. -/
def OneNumber (a b : Int) : Prop := ∃ y m : Int, 1 ≤ m ∧ m ≤ 12 ∧ a = dayNumber ⟨y, m, 1⟩ - 1 ∧ b = dayNumber ⟨y - 1, 12, m⟩

end Spec

namespace Pg
open Spec

theorem date2julian_day0 (p : Profile) (y m d : Int) (hy1 : -4713 ≤ y) (hy2 : y ≤ 5874898)
    (h1 : 1 ≤ m) (h2 : m ≤ 12) (hd1 : 0 ≤ d) (hd2 : d ≤ 31) (hmax : y = 5874898 → m < 6) :
    date2julian p y m d = .ok (jdn y m d) := by
  rw [jdn_closed y m d h1 h2]
  unfold date2julian
  by_cases hm : m > 2
  · simp only [hm, if_true]
    simp (disch := omega) only [tdiv_nn, chk32_ok, Res.bind_ok, Res.pure_eq]
  · simp only [hm, if_false]
    simp (disch := omega) only [tdiv_nn, chk32_ok, Res.bind_ok, Res.pure_eq]

theorem date2julian_month0 (p : Profile) (y d : Int) (hy1 : -4712 ≤ y) (hy2 : y ≤ 5874898) (hd1 : 0 ≤ d) (hd2 : d ≤ 31) :
    date2julian p y 0 d = .ok (jdn (y - 1) 12 d) := by
  rw [jdn_closed (y - 1) 12 d (by omega) (by omega)]
  unfold date2julian
  simp only [show ¬ (0 : Int) > 2 by omega, if_false, show (12 : Int) > 2 by omega, if_true, show y - 1 + 4800 = y + 4799 by omega]
  simp (disch := omega) only [tdiv_nn, chk32_ok, Res.bind_ok, Res.pure_eq]
  congr 1

/-- The days of two runs. -/
theorem days_two {p : Profile} {a b : Dec} (h : FinEx a b) {x y : Int} (hx : a.day p = .ok x) (hy : b.day p = .ok y) :
    x = y ∨ Exchanged x y ∨ OneNumber x y := by
  unfold Dec.day at hx hy
  rcases h.day with ⟨e1, e2⟩ | ⟨e1, e2, m1, m2, d1, d2⟩
  · rw [h.year, e1, e2, hx] at hy
    cases hy; exact Or.inl rfl
  · rw [h.year, e1, e2] at hy
    generalize a.tm.year = Y at *
    generalize a.tm.mon = M at *
    generalize a.tm.mday = D at *
    split at hx
    · cases hx
    · rename_i v1
      split at hy
      · cases hy
      · rename_i v2
        simp only [isValidJulian, Bool.and_eq_true, Bool.or_eq_true, decide_eq_true_eq, Decidable.not_not] at v1 v2
        obtain ⟨j, hj, hx⟩ := Res.bind_eq_ok.1 hx
        obtain ⟨j', hj', hy⟩ := Res.bind_eq_ok.1 hy
        have sub : ∀ (y m d : Int), -4713 ≤ y → y ≤ 5874898 → 1 ≤ m → m ≤ 12 → 0 ≤ d → d ≤ 31 → (y = 5874898 → m < 6) →
            chk32 p (jdn y m d - POSTGRES_EPOCH_JDATE) = .ok (dayNumber ⟨y, m, d⟩) := by
          intro y m d h1 h2 h3 h4 h5 h6 h7
          rw [chk32_ok]
          · unfold jdn; congr 1; omega
          · rw [jdn_closed y m d h3 h4]; split <;> omega
        rw [date2julian_day0 p Y M D (by omega) (by omega) m1 m2 d1 (by omega) (by omega)] at hj
        cases hj
        rw [sub Y M D (by omega) (by omega) m1 m2 d1 (by omega) (by omega)] at hx
        cases hx
        by_cases hD : D = 0
        · subst hD
          rw [date2julian_month0 p Y M (by omega) (by omega) (by omega) (by omega)] at hj'
          cases hj'
          rw [sub (Y - 1) 12 M (by omega) (by omega) (by omega) (by omega) (by omega) (by omega) (by omega)] at hy
          cases hy
          refine Or.inr (Or.inr ⟨Y, M, m1, m2, ?_, rfl⟩)
          unfold dayNumber
          dsimp only
          omega
        · rw [date2julian_day0 p Y D M (by omega) (by omega) (by omega) d2 (by omega) (by omega) (by omega)] at hj'
          cases hj'
          rw [sub Y D M (by omega) (by omega) (by omega) d2 (by omega) (by omega) (by omega)] at hy
          cases hy
          exact Or.inr (Or.inl ⟨Y, M, D, m1, m2, by omega, d2, rfl, rfl⟩)

/-- Days that differ in this way are at most a year and a month apart. -/
theorem near {a b : Int} (h : a = b ∨ Exchanged a b ∨ OneNumber a b) : a - b ≤ 400 ∧ b - a ≤ 400 := by
  have e : ∀ y m d, dayNumber ⟨y, m, d⟩ = jdn y m d - 2451545 := fun y m d => by unfold jdn; omega
  rcases h with h | ⟨y, m, d, h1, h2, h3, h4, rfl, rfl⟩ | ⟨y, m, h1, h2, rfl, rfl⟩
  · omega
  · rw [e, e, jdn_closed y m d h1 h2, jdn_closed y d m h3 h4]
    split <;> split <;> omega
  · rw [e, e, jdn_closed y m 1 h1 h2, jdn_closed (y - 1) 12 m (by omega) (by omega)]
    split <;> split <;> omega

end Pg

namespace Props
open Pg Spec

/-- **C85, dates.** A text without the label `m` that names a date with both orders names the same date, or dates that differ by the
exchange of month and day, or has a single number for month and day. In particular the orders never disagree on the year (but in the last
case, by the month zero), and a month or a day above 12 is the same for both. -/
theorem C85_date (p : Profile) (u : TokenField) (c : Caches) (hc : c.Ok) (s : Bytes) (hs : ¬ Says [b!"m"] s) (x y : Date)
    (hx : Date.tryFromStr p u c s .mdy = .ok x) (hy : Date.tryFromStr p u c s .dmy = .ok y) :
    x = y ∨ Exchanged x.v y.v ∨ OneNumber x.v y.v := by
  obtain ⟨l, a, h1, h2, h3⟩ := date_decoded hc hx
  obtain ⟨l', b, g1, g2, g3⟩ := date_decoded hc hy
  rw [h1] at g1
  cases g1
  have hf := decode_two (scan_noMonth h1 hs) h2 g2
  by_cases hd : a.dType = .date
  · rw [dateOfDec_day hd] at h3
    rw [dateOfDec_day (hf.dType.trans hd)] at g3
    obtain ⟨m, h4, h3⟩ := Res.bind_eq_ok.1 h3
    obtain ⟨n, g4, g3⟩ := Res.bind_eq_ok.1 g3
    have key := days_two hf h4 g4
    split at h3
    · split at g3
      · cases h3; cases g3
        rcases key with h | h | h
        · rw [h]; exact Or.inl rfl
        · exact Or.inr (Or.inl h)
        · exact Or.inr (Or.inr h)
      · cases g3
    · cases h3
  · left
    unfold Date.ofDec at h3 g3
    rw [hf.dType] at g3
    split at h3
    · contradiction
    · cases h3; rename_i e; rw [e] at g3; cases g3; rfl
    · cases h3; rename_i e; rw [e] at g3; cases g3; rfl
    · cases h3

/-- **C85, timestamps.** A text without the labels of a clock that names a timestamp with both orders names the same timestamp, or the same
time after the start of two days as in `C85_date`. -/
theorem C85_timestamp (p : Profile) (u : TokenField) (c : Caches) (hc : c.Ok) (s : Bytes) (hs : ¬ Says clockLabels s) (x y : Timestamp)
    (hx : Timestamp.tryFromStr p u c s (-1) .mdy = .ok x) (hy : Timestamp.tryFromStr p u c s (-1) .dmy = .ok y) :
    x = y ∨ ∃ a b k : Int, (Exchanged a b ∨ OneNumber a b) ∧ 0 ≤ k ∧ k ≤ 362440000000 ∧ x.v = a * 86400000000 + k ∧ y.v = b * 86400000000 + k := by
  obtain ⟨l, a, x', h1, h2, h3, h3'⟩ := timestamp_decoded hc hx
  obtain ⟨l', b, y', g1, g2, g3, g3'⟩ := timestamp_decoded hc hy
  rw [timestamp_noTypmod] at h3' g3'
  cases h3'; cases g3'
  rw [h1] at g1
  cases g1
  have hm : ¬ Says [b!"m"] s := by
    rintro ⟨w, hw, v, hv, e⟩
    exact hs ⟨w, hw, v, by rw [List.mem_singleton.1 hv]; decide +kernel, e⟩
  have hf := decode_two (scan_noMonth h1 hm) h2 g2
  have hin := decode_in (N := 99) (by omega) (by omega) (scan_good h1 fun _ => hs) h2
  by_cases hd : a.dType = .date
  · rw [timestampOfDec_day hd] at h3
    rw [timestampOfDec_day (hf.dType.trans hd), hf.hour, hf.min, hf.sec, hf.fSec] at g3
    obtain ⟨m, h4, h3⟩ := Res.bind_eq_ok.1 h3
    obtain ⟨n, g4, g3⟩ := Res.bind_eq_ok.1 g3
    have key := days_two hf h4 g4
    obtain ⟨i1, i2, i3, i4⟩ := hin
    rw [time2t_eq p _ _ _ _ (by omega) (by omega) (by omega) (by omega)] at h3 g3
    simp only [Res.bind_ok] at h3 g3
    have hb : 0 ≤ (⟨a.tm.hour, a.tm.min, a.tm.sec, a.fSec⟩ : Clock).micros ∧
        (⟨a.tm.hour, a.tm.min, a.tm.sec, a.fSec⟩ : Clock).micros ≤ 362440000000 := by
      unfold Clock.micros; dsimp only; omega
    generalize (⟨a.tm.hour, a.tm.min, a.tm.sec, a.fSec⟩ : Clock).micros = k at *
    have s1 := timestamp_sum m k hb.1 (by omega)
    have s2 := timestamp_sum n k hb.1 (by omega)
    rw [h3] at s1
    rw [g3] at s2
    split at s1
    · split at s2
      · cases s1; cases s2
        rcases key with h | h | h
        · rw [h]; exact Or.inl rfl
        · exact Or.inr ⟨m, n, k, Or.inl h, hb.1, hb.2, rfl, rfl⟩
        · exact Or.inr ⟨m, n, k, Or.inr h, hb.1, hb.2, rfl, rfl⟩
      · obtain ⟨_, s2⟩ := s2; cases s2
    · obtain ⟨_, s1⟩ := s1; cases s1
  · left
    unfold Timestamp.ofDec at h3 g3
    rw [hf.dType] at g3
    split at h3
    · contradiction
    · cases h3; rename_i e; rw [e] at g3; cases g3; rfl
    · cases h3; rename_i e; rw [e] at g3; cases g3; rfl
    · cases h3

/-- **C85, violated for the label of a month.** After an hour, `m` is the label of the minutes if a month has been read, else of the
month. The first date is 8 May of the year 1 BC, the second 5 July 2008. -/
theorem C85_violated (p : Profile) (u : TokenField) (c : Caches) (hc : c.Ok) :
    Date.tryFromStr p u c b!"h10 5 m7 8 s3.5" .mdy = .ok ⟨dayNumber ⟨0, 5, 8⟩⟩ ∧
    Date.tryFromStr p u c b!"h10 5 m7 8 s3.5" .dmy = .ok ⟨dayNumber ⟨2008, 7, 5⟩⟩ ∧
    ¬ (dayNumber ⟨0, 5, 8⟩ = dayNumber ⟨2008, 7, 5⟩ ∨ Exchanged (dayNumber ⟨0, 5, 8⟩) (dayNumber ⟨2008, 7, 5⟩) ∨
      OneNumber (dayNumber ⟨0, 5, 8⟩) (dayNumber ⟨2008, 7, 5⟩)) := by
  have hs : scan u b!"h10 5 m7 8 s3.5" = .ok [(.string, b!"h"), (.number, b!"10"), (.number, b!"5"), (.string, b!"m"), (.number, b!"7"),
      (.number, b!"8"), (.string, b!"s"), (.number, b!"3.5")] := by cases u <;> decide +kernel
  exact ⟨date_eval p u hc .mdy hs (by cases p <;> decide +kernel), date_eval p u hc .dmy hs (by cases p <;> decide +kernel),
    fun h => absurd (near h) (by decide +kernel)⟩

/-! ## Cases -/

/-- The three cases of `C85_date` arise. -/
example (p : Profile) (u : TokenField) (c : Caches) (hc : c.Ok) :
    (Date.tryFromStr p u c b!"1999-01-08" .mdy = .ok ⟨-358⟩ ∧ Date.tryFromStr p u c b!"1999-01-08" .dmy = .ok ⟨-358⟩) ∧
    (Date.tryFromStr p u c b!"1/8/1999" .mdy = .ok ⟨dayNumber ⟨1999, 1, 8⟩⟩ ∧
      Date.tryFromStr p u c b!"1/8/1999" .dmy = .ok ⟨dayNumber ⟨1999, 8, 1⟩⟩) ∧
    (Date.tryFromStr p u c b!"5 10:20" .mdy = .ok ⟨dayNumber ⟨0, 5, 1⟩ - 1⟩ ∧
      Date.tryFromStr p u c b!"5 10:20" .dmy = .ok ⟨dayNumber ⟨-1, 12, 5⟩⟩) := by
  have s1 : scan u b!"1999-01-08" = .ok [(.date, b!"1999-01-08")] := by cases u <;> decide +kernel
  have s2 : scan u b!"1/8/1999" = .ok [(.date, b!"1/8/1999")] := by cases u <;> decide +kernel
  have s3 : scan u b!"5 10:20" = .ok [(.number, b!"5"), (.time, b!"10:20")] := by cases u <;> decide +kernel
  exact ⟨⟨date_eval p u hc .mdy s1 (by cases p <;> decide +kernel), date_eval p u hc .dmy s1 (by cases p <;> decide +kernel)⟩,
    ⟨date_eval p u hc .mdy s2 (by cases p <;> decide +kernel), date_eval p u hc .dmy s2 (by cases p <;> decide +kernel)⟩,
    ⟨date_eval p u hc .mdy s3 (by cases p <;> decide +kernel), date_eval p u hc .dmy s3 (by cases p <;> decide +kernel)⟩⟩

example : ¬ Says [b!"m"] b!"1/8/1999" ∧ ¬ Says clockLabels b!"1/8/1999 10:20 pm" := by
  refine ⟨fun h => absurd (says_at h) ?_, fun h => absurd (says_at h) ?_⟩ <;> unfold Letter Known SameButCase <;> decide +kernel

example : Exchanged (dayNumber ⟨1999, 1, 8⟩) (dayNumber ⟨1999, 8, 1⟩) ∧ OneNumber (dayNumber ⟨0, 5, 1⟩ - 1) (dayNumber ⟨-1, 12, 5⟩) :=
  ⟨⟨1999, 1, 8, by decide, by decide, by decide, by decide, rfl, rfl⟩, ⟨0, 5, by decide, by decide, rfl, rfl⟩⟩

end Props
