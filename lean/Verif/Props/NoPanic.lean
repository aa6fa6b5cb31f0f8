import Verif.Lemmas.NoPanicInterval
import Verif.Props.Scan
import Verif.Props.ParsedRange

/-!
# C44: parsing does not panic

The property as given (every text, every build) is false. It holds in a release build for every text of at
most 128 bytes, except that a date or timestamp text must not have `t` as its last letter or digit; the
`_violated` theorems show that each of the three conditions is needed.
-/

namespace Pg

theorem runLocal_safe {σ C α : Type} {init : σ} {m : St (σ × C) α} {c : C} (h : (m (init, c)).1 ≠ .panic) :
    (runLocal init m c).1 ≠ .panic := by
  unfold runLocal
  split
  · exact Res.safe_ok _
  · exact Res.safe_err _
  · rename_i hm; rw [hm] at h; exact absurd rfl h

theorem St.safe_bind {σ α β : Type} {m : St σ α} {f : α → St σ β} {s : σ} (hm : (m s).1 ≠ .panic)
    (hf : ∀ a s', (f a s').1 ≠ .panic) : ((m >>= f) s).1 ≠ .panic := by
  rw [St.bind_run]
  cases hr : m s with
  | mk r s' =>
    rw [hr] at hm
    cases r with
    | ok a => exact hf a s'
    | err e => exact Res.safe_err _
    | panic => exact absurd rfl hm

theorem St.safe_scan {σ β : Type} {u : TokenField} {t : Bytes} {f : List Field → St σ β} {s : σ}
    (h : scan u t ≠ .panic) (hf : ∀ l, scan u t = .ok l → (f l s).1 ≠ .panic) :
    ((St.lift (scan u t) >>= f) s).1 ≠ .panic := by
  rw [St.bind_run, St.lift_run]
  cases hr : scan u t with
  | ok l => exact hf l hr
  | err e => exact Res.safe_err _
  | panic => exact absurd hr h

theorem lowerB_alnum (b : Nat) : isAlnum (lowerB b) = isAlnum b := by
  unfold lowerB
  split
  · rename_i h
    simp only [isUpper, Bool.and_eq_true, decide_eq_true_eq] at h
    simp only [isAlnum, isAlpha, isUpper, isLower, isDigit]
    rw [Bool.eq_iff_iff]
    simp only [Bool.or_eq_true, Bool.and_eq_true, decide_eq_true_eq]
    omega
  · rfl

/-- If the last field is the word `t` then the last letter or digit of the text is `t` or `T`. -/
theorem last_field {u : TokenField} {s : Bytes} {l : List Field} (h : s.length ≤ 128) (hl : scan u s = .ok l)
    {f : Field} (hf : l.getLast? = some f) (ht : f.2 = b!"t") :
    ∃ b, (s.filter isAlnum).getLast? = some b ∧ (b = 116 ∨ b = 84) := by
  have := ((Props.C43_fields_partial u s h).2 l hl).2.2.2.1
  obtain ⟨pre, hp⟩ := List.getLast?_eq_some_iff.1 hf
  rw [hp, List.flatMap_append, List.flatMap_cons, List.flatMap_nil, List.append_nil, List.map_append,
    List.filter_append, ht, show (List.map lowerB b!"t").filter isAlnum = [116] from by decide] at this
  have hc : (isAlnum ∘ lowerB) = isAlnum := funext lowerB_alnum
  rw [List.filter_map (l := s), hc] at this
  have hg := congrArg List.getLast? this
  rw [List.getLast?_concat, List.getLast?_map] at hg
  cases hb : (s.filter isAlnum).getLast? with
  | none => rw [hb] at hg; cases hg
  | some b =>
    rw [hb] at hg
    refine ⟨b, rfl, ?_⟩
    simp only [Option.map_some, Option.some.injEq] at hg
    unfold lowerB at hg
    split at hg
    · right; omega
    · left; omega

end Pg

namespace Props
open Pg Spec

/-- C44 for times of day: in a release build no text of at most 128 bytes makes `Time::try_from_str` panic,
whatever the thread has parsed before. Missing: longer texts, where it is false (`C44_long_violated`), and
debug builds, where it is false (`C44_time_violated`). -/
theorem C44_time_partial (u : TokenField) (c : Caches) (hc : c.Ok) (s : Bytes) (typmod : Int) (order : DateOrder)
    (h : s.length ≤ 128) : Time.tryFromStr .release u c s typmod order ≠ .panic := by
  unfold Time.tryFromStr
  rw [(same_time .release u typmod order s c hc).1]
  unfold Time.tryFromStrW
  refine St.safe_scan (C43_fields_partial u s h).1 fun l hl => ?_
  refine St.safe_bind (runLocal_safe (decodeTimeOnly_calm _ trivial).1) fun a s' => ?_
  refine St.safe_bind ?_ fun a s' => timeAdjust_release _ _
  show Time.fromPgtime _ _ _ ≠ _
  unfold Time.fromPgtime
  calmly

/-- C44 for intervals: in a release build no text of at most 128 bytes makes `Interval::try_from_str` panic.
Missing: longer texts (`C44_long_violated`) and debug builds (`C44_interval_violated`). -/
theorem C44_interval_partial (u : TokenField) (c : Caches) (hc : c.Ok) (s : Bytes) (typmod : Int)
    (style : IntervalStyle) (h : s.length ≤ 128) : Interval.tryFromStr .release u c s typmod style ≠ .panic := by
  unfold Interval.tryFromStr
  rw [(same_interval .release u typmod style s c hc).1]
  unfold Interval.tryFromStrW
  refine St.safe_scan (C43_fields_partial u s h).1 fun l hl => ?_
  refine St.safe_bind (runLocal_safe ?_) fun a s' => ivOfDec_release _ _
  have h1 := decodeInterval_keep (r := parseRange typmod) (style := style) (C43_fields_partial u s h |>.2 l hl).2.1
  unfold St.orElse
  split
  · exact (Keeps.calm_noLook (decodeIsoInterval_calm s) _ trivial).1
  · exact h1

/-- C44 for dates: in a release build no text of at most 128 bytes whose last letter or digit is not `t`
makes `Date::try_from_str` panic. Missing: the other texts (`C44_long_violated`, `C44_t_violated`) and debug
builds (`C44_date_violated`). -/
theorem C44_date_partial (u : TokenField) (c : Caches) (hc : c.Ok) (s : Bytes) (order : DateOrder)
    (h : s.length ≤ 128) (ht : ∀ b, (s.filter isAlnum).getLast? = some b → b ≠ 116 ∧ b ≠ 84) :
    Date.tryFromStr .release u c s order ≠ .panic := by
  unfold Date.tryFromStr
  rw [(same_date .release u order s c hc).1]
  unfold Date.tryFromStrW
  refine St.safe_scan (C43_fields_partial u s h).1 fun l hl => ?_
  refine St.safe_bind (runLocal_safe ?_) fun a s' => ?_
  · refine (decodeDateTime_calm (fun f hf hw => ?_) _ trivial).1
    obtain ⟨b, hb, hv⟩ := last_field h hl hf hw
    have := ht b hb
    omega
  · show Date.ofDec _ _ ≠ _
    unfold Date.ofDec
    have h1 := date2julian_release
    split
    · split
      · exact Res.safe_err _
      · refine Res.safe_bind (h1 _ _ _) fun _ => ?_
        calmly
    all_goals calmly

/-- C44 for timestamps: in a release build no text of at most 128 bytes whose last letter or digit is not `t`
makes `Timestamp::try_from_str` panic. Missing: the other texts (`C44_long_violated`, `C44_t_violated`) and
debug builds (`C44_timestamp_violated`). -/
theorem C44_timestamp_partial (u : TokenField) (c : Caches) (hc : c.Ok) (s : Bytes) (typmod : Int)
    (order : DateOrder) (h : s.length ≤ 128)
    (ht : ∀ b, (s.filter isAlnum).getLast? = some b → b ≠ 116 ∧ b ≠ 84) :
    Timestamp.tryFromStr .release u c s typmod order ≠ .panic := by
  unfold Timestamp.tryFromStr
  rw [(same_timestamp .release u typmod order s c hc).1]
  unfold Timestamp.tryFromStrW
  refine St.safe_scan (C43_fields_partial u s h).1 fun l hl => ?_
  refine St.safe_bind (runLocal_safe ?_) fun a s' => St.safe_bind ?_ fun _ _ => tsAdjust_release _ _
  · refine (decodeDateTime_calm (fun f hf hw => ?_) _ trivial).1
    obtain ⟨b, hb, hv⟩ := last_field h hl hf hw
    have := ht b hb
    omega
  · show Timestamp.ofDec _ _ ≠ _
    unfold Timestamp.ofDec
    have h1 := toTimestamp_release
    split
    · refine Res.safe_bind (h1 _ _) fun _ => Res.safe_ok _
    all_goals calmly

/-- Texts that meet the hypotheses. -/
example : ∀ b, ((b!"Tue 2024-02-29 T 12:30 AD").filter isAlnum).getLast? = some b → b ≠ 116 ∧ b ≠ 84 := by
  intro b hb
  have : ((b!"Tue 2024-02-29 T 12:30 AD").filter isAlnum).getLast? = some 68 := by decide +kernel
  rw [this] at hb
  cases hb
  decide
example : Date.tryFromStr .release .string Caches.new b!"T?, 2024 x" .ymd = .err .invalid ∧
    Interval.tryFromStr .release .string Caches.new b!"2147483647 hours" (-1) .postgres = .ok ⟨0, 0, -3600000000⟩ := by
  decide +kernel

/-- **C44 is violated (length):** more than 128 digits make every parser panic, in every build. -/
theorem C44_long_violated (p : Profile) (u : TokenField) (c : Caches) (s : Bytes) (typmod : Int) (order : DateOrder)
    (style : IntervalStyle) (hd : ∀ b ∈ s, isDigit b = true) (h : 128 < s.length) :
    Date.tryFromStr p u c s order = .panic ∧ Time.tryFromStr p u c s typmod order = .panic ∧
    Timestamp.tryFromStr p u c s typmod order = .panic ∧ Interval.tryFromStr p u c s typmod style = .panic := by
  have := C43_long_text u s hd h
  simp only [Date.tryFromStr, Time.tryFromStr, Timestamp.tryFromStr, Interval.tryFromStr, Date.tryFromStrW,
    Time.tryFromStrW, Timestamp.tryFromStrW, Interval.tryFromStrW, this]
  exact ⟨rfl, rfl, rfl, rfl⟩

example : (∀ b ∈ List.replicate 129 48, isDigit b = true) ∧ 128 < (List.replicate 129 48).length := by decide +kernel

/-- **C44 is violated (the word t):** a date followed by `t` and nothing else makes the date and timestamp
parsers panic, in every build. -/
theorem C44_t_violated (p : Profile) (u : TokenField) (c : Caches) (hc : c.Ok) (typmod : Int) (order : DateOrder) :
    Date.tryFromStr p u c b!"2000-01-01 t" order = .panic ∧
    Timestamp.tryFromStr p u c b!"2000-01-01 t" typmod order = .panic := by
  have hs : scan u b!"2000-01-01 t" = .ok [(.date, b!"2000-01-01"), (.string, b!"t")] := by
    cases u <;> decide +kernel
  have hr : decodeDateTime p plainLook order [(.date, b!"2000-01-01"), (.string, b!"t")] ({}, ()) =
      (.panic, ({ tm := { year := 2000, mon := 1, mday := 1 }, fMask := 14, tMask := 0 }, ())) := by
    cases p <;> cases order <;> decide +kernel
  constructor
  · rw [date_run p u hc order hs (r := .panic) (w := ()) hr]; rfl
  · rw [timestamp_run p u hc typmod order hs (r := .panic) (w := ()) hr]; rfl

/-- **C44 is violated (debug, dates):** a day of the year of a far year. -/
theorem C44_date_violated (u : TokenField) (c : Caches) (hc : c.Ok) (order : DateOrder) :
    Date.tryFromStr .debug u c b!"11767000-123" order = .panic := (C45_wrapped_year u c hc order).2

/-- **C44 is violated (debug, times):** a day of the year of a far year before the time. -/
theorem C44_time_violated (u : TokenField) (c : Caches) (hc : c.Ok) (typmod : Int) (order : DateOrder) :
    Time.tryFromStr .debug u c b!"11767000-123 12:00" typmod order = .panic := by
  have hs : scan u b!"11767000-123 12:00" = .ok [(.date, b!"11767000-123"), (.time, b!"12:00")] := by
    cases u <;> decide +kernel
  rw [time_run .debug u hc typmod order hs (r := .panic) (w := ())
    (d := { tm := { year := 11767000, yday := 123, hour := 12 }, fMask := 64526, tMask := 31744 })
    (by cases order <;> decide +kernel)]
  rfl

/-- **C44 is violated (debug, timestamps):** an hour given after the label `h` is not bounded. A release build
returns an instant 68 years before the day named. -/
theorem C44_timestamp_violated (u : TokenField) (c : Caches) (hc : c.Ok) (order : DateOrder) :
    Timestamp.tryFromStr .debug u c b!"2000-01-01 h 596524" (-1) order = .panic ∧
    Timestamp.tryFromStr .release u c b!"2000-01-01 h 596524" (-1) order = .ok ⟨-2147480896000000⟩ := by
  have hs : scan u b!"2000-01-01 h 596524" =
      .ok [(.date, b!"2000-01-01"), (.string, b!"h"), (.number, b!"596524")] := by cases u <;> decide +kernel
  have hr : ∀ p, decodeDateTime p plainLook order [(.date, b!"2000-01-01"), (.string, b!"h"), (.number, b!"596524")]
      ({}, ()) = (.ok (), ({ tm := { year := 2000, mon := 1, mday := 1, hour := 596524 }, fMask := 1038, tMask := 1024 }, ())) := by
    intro p; cases p <;> cases order <;> decide +kernel
  constructor
  · rw [timestamp_run .debug u hc (-1) order hs (r := .ok ()) (w := ()) (hr _)]; decide +kernel
  · rw [timestamp_run .release u hc (-1) order hs (r := .ok ()) (w := ()) (hr _)]; decide +kernel

/-- **C44 is violated (debug, intervals):** a number of hours that does not fit a 32 bit number of minutes. A
release build returns an interval of minus one hour. -/
theorem C44_interval_violated (u : TokenField) (c : Caches) (hc : c.Ok) (style : IntervalStyle) :
    Interval.tryFromStr .debug u c b!"2147483647 hours" (-1) style = .panic ∧
    Interval.tryFromStr .release u c b!"2147483647 hours" (-1) style = .ok ⟨0, 0, -3600000000⟩ := by
  have hs : scan u b!"2147483647 hours" = .ok [(.number, b!"2147483647"), (.string, b!"hours")] := by
    cases u <;> decide +kernel
  have hr : ∀ p, St.orElse (decodeInterval p plainLook (parseRange (-1)) style
      [(.number, b!"2147483647"), (.string, b!"hours")]) (noLook (decodeIsoInterval p b!"2147483647 hours"))
      ({}, ()) = (.ok (), ({ t := ({ hour := 2147483647 }, 0), fMask := 1024, tMask := 1024, ty := 21 }, ())) := by
    intro p; cases p <;> cases style <;> decide +kernel
  constructor
  · rw [interval_run .debug u hc (-1) style hs (r := .ok ()) (w := ()) (hr _)]; decide +kernel
  · rw [interval_run .release u hc (-1) style hs (r := .ok ()) (w := ()) (hr _)]; decide +kernel

end Props
