import Verif.Props.NoPanicCalc
import Verif.Lemmas.FormatPrints

/-!
# C87: exactly which truncations and printings of intervals panic
-/

namespace Pg
open Spec Props

theorem fromPgtime_release (tm : PgTime) (fsec : Int) : Interval.fromPgtime .release tm fsec ≠ .panic := by
  unfold Interval.fromPgtime
  calmly

theorem intervalTruncate_release (a : Interval) (ha : a.WF) (ty : FieldType) (u : DateUnit) :
    a.truncate .release ty u ≠ .panic := by
  by_cases hu : FineUnit u
  · cases ty
    · unfold Interval.truncate
      dsimp only
      rw [toPgtime_eq .release ha.2.2]
      split
      · rw [Res.bind_ok]
        refine Res.safe_bind_post ?_ fun s _ => fromPgtime_release _ _
        unfold FineUnit at hu
        cases u <;> first | exact Res.safe_ok _ | exact Res.safe_err _
      · exact Res.safe_err _
    · exact Res.safe_err _
  · exact intervalTruncate_safe .release ha ty u fun hf => absurd hf hu

theorem chk32_bad {x : Int} (h : ¬ In32 x) : chk32 .debug x = .panic := by unfold chk32; rw [if_neg h]

/-- Putting an interval together panics when its minutes do not fit 32 bits. -/
theorem fromPgtime_bad {tm : PgTime} {fsec : Int} (h1 : In32 (tm.year * 12 + tm.mon))
    (h : ¬ In32 (tm.hour * 60) ∨ ¬ In32 (tm.hour * 60 + tm.min)) : Interval.fromPgtime .debug tm fsec = .panic := by
  unfold Interval.fromPgtime
  dsimp only
  unfold In32 at h1
  rw [if_neg (by omega)]
  by_cases h2 : In32 (tm.hour * 60)
  · have e : chk32 .debug (tm.hour * 60) = .ok (tm.hour * 60) := by unfold chk32; rw [if_pos h2]
    rw [e, Res.bind_ok, chk32_bad (h.resolve_left (not_not.2 h2))]
    rfl
  · rw [chk32_bad h2]; rfl

end Pg

namespace Props
open Pg Spec

/-- The whole minutes left when a time part is cut to a unit of an hour or less. -/
def cutMinutes (u : DateUnit) (t : Int) : Int :=
  if u = .hour then Int.tdiv t 3600000000 * 60 else Int.tdiv t 60000000

/-- **C87, violation.** `Interval::truncate` panics for exactly the intervals of so many minutes that the minutes do not
fit 32 bits though the hours do, cut to an hour or a smaller unit, in a debug build. -/
theorem C87_truncate_panics (p : Profile) (a : Interval) (ha : a.WF) (ty : FieldType) (u : DateUnit) :
    a.truncate p ty u = .panic ↔
      p = .debug ∧ ty = .unit ∧ FineUnit u ∧ HoursFit a.time ∧ ¬ In32 (cutMinutes u a.time) := by
  have q1 := tdiv_or a.time 3600000000
  have q2 := tdiv_or a.time 60000000
  have q3 := tmod_or a.time 3600000000
  have q4 := tdiv_or (Int.tmod a.time 3600000000) 60000000
  have q5 := tmod_or a.time 60000000
  have q6 := tdiv_or (Int.tmod a.time 60000000) 1000000
  have q7 := tmod_or a.time 1000000
  have q8 := tdiv_or (Int.tmod a.time 1000000) 1000
  have hm := ha.1
  have e12 : Int.tdiv a.month 12 * 12 + Int.tmod a.month 12 = a.month := by
    have := tdiv_or a.month 12
    have := tmod_or a.month 12
    omega
  rw [hoursFit_iff]
  constructor
  · intro hp
    cases p
    swap
    · exact absurd hp (intervalTruncate_release a ha ty u)
    refine ⟨rfl, ?_⟩
    cases ty
    swap
    · cases hp
    refine ⟨rfl, ?_⟩
    by_cases hu : FineUnit u
    swap
    · exact absurd hp (intervalTruncate_safe .debug ha .unit u fun hf => absurd hf hu)
    refine ⟨hu, ?_⟩
    by_cases hh : In32 (Int.tdiv a.time 3600000000)
    swap
    · unfold Interval.truncate at hp
      dsimp only at hp
      rw [toPgtime_eq .debug ha.2.2, if_neg hh] at hp
      cases hp
    refine ⟨hh, fun hc => ?_⟩
    by_cases hr : u = .hour
    · subst hr
      unfold Interval.truncate at hp
      dsimp only at hp
      rw [toPgtime_eq .debug ha.2.2, if_pos hh, Res.bind_ok] at hp
      have e : Interval.truncUnit (ivTm a, Int.tmod a.time 1000000) .hour =
          .ok ({ ivTm a with min := 0, sec := 0 }, 0) := rfl
      rw [e, Res.bind_ok] at hp
      unfold cutMinutes at hc
      rw [if_pos rfl] at hc
      unfold Interval.fromPgtime at hp
      unfold ivTm at hp
      dsimp only at hp
      rw [e12] at hp
      unfold In32 at hm hc
      rw [if_neg (by omega), chk32_ok (by omega), Res.bind_ok, chk32_ok (by omega), Res.bind_ok, chk64_ok (by omega),
        Res.bind_ok, chk64_ok (by omega), Res.bind_ok, chk64_ok (by omega), Res.bind_ok, chk64_ok (by omega)] at hp
      cases hp
    · exact intervalTruncate_safe .debug ha .unit u (fun _ _ => by
        unfold cutMinutes at hc; rw [if_neg hr] at hc; exact hc) hp
  · rintro ⟨rfl, rfl, hu, hh, hc⟩
    unfold Interval.truncate
    dsimp only
    rw [toPgtime_eq .debug ha.2.2, if_pos hh, Res.bind_ok]
    have hs : ∃ s : PgTime × Int, Interval.truncUnit (ivTm a, Int.tmod a.time 1000000) u = .ok s ∧
        s.1.year = Int.tdiv a.month 12 ∧ s.1.mon = Int.tmod a.month 12 ∧ s.1.hour = Int.tdiv a.time 3600000000 ∧
        (s.1.hour * 60 + s.1.min = cutMinutes u a.time) := by
      have em : Int.tdiv a.time 3600000000 * 60 + Int.tdiv (Int.tmod a.time 3600000000) 60000000 =
          Int.tdiv a.time 60000000 := by omega
      have em' : Int.tdiv a.time 3600000000 * 60 + 0 = Int.tdiv a.time 3600000000 * 60 := by omega
      unfold FineUnit at hu
      cases u <;> first
        | exact absurd hu (by decide)
        | exact ⟨_, rfl, rfl, rfl, rfl, em⟩
        | exact ⟨_, rfl, rfl, rfl, rfl, em'⟩
    obtain ⟨s, e, h1, h2, h3, h4⟩ := hs
    rw [e, Res.bind_ok]
    refine fromPgtime_bad (by rw [h1, h2, e12]; exact hm) (.inr ?_)
    rw [h4]; exact hc

/-- 2147483648 minutes, and 1 month 35791395 hours; one hour less does not panic. -/
example : (⟨0, 0, 2147483648 * 60000000⟩ : Interval).WF ∧ HoursFit (2147483648 * 60000000) ∧
    ¬ In32 (cutMinutes .second (2147483648 * 60000000)) ∧ In32 (cutMinutes .hour (2147483648 * 60000000)) ∧
    (⟨1, 0, 35791395 * 3600000000⟩ : Interval).truncate .debug .unit .hour = .panic ∧
    (⟨1, 0, 35791394 * 3600000000⟩ : Interval).truncate .debug .unit .hour = .ok ⟨1, 0, 35791394 * 3600000000⟩ := by
  decide +kernel

/-- A negative count of days or hours has to be printed without its sign, which does not fit 32 bits. -/
def PrintOverflows (a : Interval) (st : IntervalStyle) : Prop :=
  (a.day = -2147483648 ∧ (st = .sqlStandard ∨ (st = .verbose ∧ a.month ≤ 0))) ∨
  (a.time ≤ -2147483648 * 3600000000 ∧ (st = .sqlStandard ∨ st = .postgres ∨
    (st = .verbose ∧ (a.month < 0 ∨ (a.month = 0 ∧ a.day ≤ 0)))))

instance (a : Interval) (st : IntervalStyle) : Decidable (PrintOverflows a st) := inferInstanceAs (Decidable (_ ∨ _))

/-- **C87, violation.** `Interval::format` panics for exactly the intervals of -2^31 days or hours that have to be printed
without the sign of the days or hours, in a debug build. -/
theorem C87_format_panics (p : Profile) (a : Interval) (ha : a.WF) (junk : Bytes) (hj : junk.length = 128)
    (st : IntervalStyle) :
    a.format p junk st = .panic ↔ p = .debug ∧ HoursFit a.time ∧ PrintOverflows a st := by
  by_cases hf : HoursFit a.time
  swap
  · unfold Interval.format
    rw [toPgtime_eq p ha.2.2, if_neg fun hx => hf ((hoursFit_iff _).2 hx)]
    exact ⟨nofun, fun h => absurd h.2.1 hf⟩
  have hh := (hoursFit_iff _).1 hf
  have hmin : ivHour a.time = -2147483648 ↔ a.time ≤ -2147483648 * 3600000000 := by
    have := tdiv_or a.time 3600000000
    unfold HoursFit at hf
    unfold ivHour; omega
  by_cases hok : a.day ≠ -2147483648 ∧ -2147483648 * 3600000000 < a.time
  · rw [C52_text p a ha hf hok.1 hok.2 st junk hj]
    refine ⟨nofun, fun h => ?_⟩
    obtain ⟨-, -, h⟩ := h
    unfold PrintOverflows at h
    omega
  have e : a.format p junk st = runFormat junk (formatInterval p (ivx a.month a.day a.time) st) := by
    unfold Interval.format
    rw [toPgtime_eq p ha.2.2, if_pos hh, Res.bind_ok, ivTm_ivx]
  have fit : Prints 128 (formatInterval p (ivx a.month a.day a.time) st) → a.format p junk st ≠ .panic := by
    intro h
    obtain ⟨b', eb, -⟩ := h (junk, 0) hj (by simp)
    rw [e, runFormat, eb, Res.bind_ok]
    exact Res.safe_pure _
  have brk : Breaks 128 (formatInterval p (ivx a.month a.day a.time) st) → a.format p junk st = .panic := by
    intro h
    rw [e, runFormat, h (junk, 0) hj (by simp)]
    rfl
  have hneg : a.month < 0 ∨ a.day < 0 ∨ a.time < 0 := by omega
  have hb : a.day = -2147483648 ∨ ivHour a.time = -2147483648 := by rw [hmin]; omega
  cases st
  · -- Postgres
    by_cases hc : p = .debug ∧ a.time ≤ -2147483648 * 3600000000
    · obtain ⟨rfl, hc⟩ := hc
      exact ⟨fun _ => ⟨rfl, hf, .inr ⟨hc, .inr (.inl rfl)⟩⟩, fun _ => brk (pg_breaks ha.1 ha.2.1 (hmin.2 hc))⟩
    · refine ⟨fun hp => absurd hp (fit (pg_fits ha.1 ha.2.1 hh ?_)), fun h => ?_⟩
      · cases p
        · exact .inr fun hx => hc ⟨rfl, hmin.1 hx⟩
        · exact .inl rfl
      · obtain ⟨h1, -, ⟨-, h2 | ⟨h2, -⟩⟩ | ⟨h2, -⟩⟩ := h
        · cases h2
        · cases h2
        · exact absurd ⟨h1, h2⟩ hc
  · -- verbose
    by_cases hc : p = .debug ∧ (DayBreaks a.month a.day ∨ HourBreaks a.month a.day a.time)
    · obtain ⟨rfl, hc⟩ := hc
      refine ⟨fun _ => ⟨rfl, hf, ?_⟩, fun _ => brk (verbose_breaks ha.1 ha.2.1 hc)⟩
      rcases hc with hc | hc
      · exact .inl ⟨hc.1, .inr ⟨rfl, hc.2⟩⟩
      · exact .inr ⟨hmin.1 hc.1, .inr (.inr ⟨rfl, hc.2⟩)⟩
    · refine ⟨fun hp => absurd hp (fit (verbose_fits ha.1 ha.2.1 hh ?_)), fun h => ?_⟩
      · cases p
        · exact .inr (not_or.1 fun hx => hc ⟨rfl, hx⟩)
        · exact .inl rfl
      · obtain ⟨h1, -, ⟨h2, h3 | ⟨-, h3⟩⟩ | ⟨h2, h3 | h3 | ⟨-, h3⟩⟩⟩ := h
        · cases h3
        · exact absurd ⟨h1, .inl ⟨h2, h3⟩⟩ hc
        · cases h3
        · cases h3
        · exact absurd ⟨h1, .inr ⟨hmin.2 h2, h3⟩⟩ hc
  · -- SQL
    cases p
    · refine ⟨fun _ => ⟨rfl, hf, ?_⟩, fun _ => brk (sql_breaks ha.1 ha.2.1 hb)⟩
      rcases hb with hb | hb
      · exact .inl ⟨hb, .inl rfl⟩
      · exact .inr ⟨hmin.1 hb, .inl rfl⟩
    · exact ⟨fun hp => absurd hp (fit (sql_release ha.1 ha.2.1 hh hneg)), nofun⟩
  · -- ISO 8601
    rw [C52_iso p a ha hf junk hj]
    refine ⟨nofun, fun h => ?_⟩
    obtain ⟨-, -, ⟨-, h | ⟨h, -⟩⟩ | ⟨-, h | h | ⟨h, -⟩⟩⟩ := h <;> cases h

/-- -2^31 days panic in the SQL and the verbose style only, and not in the verbose style after positive months. -/
example : (⟨1, -2147483648, 0⟩ : Interval).WF ∧ HoursFit 0 ∧
    PrintOverflows ⟨1, -2147483648, 0⟩ .sqlStandard ∧ ¬ PrintOverflows ⟨1, -2147483648, 0⟩ .verbose ∧
    PrintOverflows ⟨0, -2147483648, 0⟩ .verbose ∧ ¬ PrintOverflows ⟨0, -2147483648, 0⟩ .postgres ∧
    PrintOverflows ⟨0, 5, -2147483648 * 3600000000⟩ .postgres ∧
    ¬ PrintOverflows ⟨0, 5, -2147483648 * 3600000000⟩ .verbose ∧
    HoursFit (-2147483648 * 3600000000) := by
  decide +kernel

end Props
