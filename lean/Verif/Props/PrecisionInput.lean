import Verif.Props.ParsedRange

/-!
# Property C67: precision and field range on input

`c` is the state of the thread's keyword caches, `u` the uninitialised type of a lone sign. The statements hold for
every text.
-/

namespace Props
open Pg Spec

/-- Reading a time with a type modifier. -/
theorem time_typmod (p : Profile) (u : TokenField) (c : Caches) (s : Bytes) (typmod : Int) (order : DateOrder) :
    Time.tryFromStr p u c s typmod order =
      (Time.tryFromStr p u c s (-1) order >>= fun t => t.adjustByTypmod p typmod) := by
  have h : ∀ t : Time, t.adjustByTypmod p (-1) = .ok t := by
    intro t; unfold Time.adjustByTypmod; rw [if_neg (by omega)]
  unfold Time.tryFromStr Time.tryFromStrW
  rw [St.bind_run, St.bind_run]
  cases scan u s with
  | err e => rfl
  | panic => rfl
  | ok l =>
    rw [St.lift_run]
    simp only
    rw [St.bind_run, St.bind_run]
    split
    · rw [St.bind_run, St.bind_run, St.lift_run]
      cases Time.fromPgtime p _ _ with
      | err e => rfl
      | panic => rfl
      | ok t => simp only [St.lift_run, h]; rfl
    · rfl
    · rfl

theorem timestamp_typmod (p : Profile) (u : TokenField) (c : Caches) (s : Bytes) (typmod : Int) (order : DateOrder) :
    Timestamp.tryFromStr p u c s typmod order =
      (Timestamp.tryFromStr p u c s (-1) order >>= fun t => t.adjustByTypmod p typmod) := by
  have h : ∀ t : Timestamp, t.adjustByTypmod p (-1) = .ok t := by
    intro t; unfold Timestamp.adjustByTypmod; rw [if_neg (by simp)]
  unfold Timestamp.tryFromStr Timestamp.tryFromStrW
  rw [St.bind_run, St.bind_run]
  cases scan u s with
  | err e => rfl
  | panic => rfl
  | ok l =>
    rw [St.lift_run]
    simp only
    rw [St.bind_run, St.bind_run]
    split
    · rw [St.bind_run, St.bind_run, St.lift_run]
      cases Timestamp.ofDec p _ with
      | err e => rfl
      | panic => rfl
      | ok t => simp only [St.lift_run, h]; rfl
    · rfl
    · rfl

/-- A type modifier that does not restrict the fields. -/
theorem interval_typmod (p : Profile) (u : TokenField) (c : Caches) (s : Bytes) (typmod : Int) (style : IntervalStyle)
    (hr : parseRange typmod = parseRange (-1)) :
    Interval.tryFromStr p u c s typmod style =
      (Interval.tryFromStr p u c s (-1) style >>= fun t => t.adjustByTypmod p typmod) := by
  have h : ∀ t : Interval, t.adjustByTypmod p (-1) = .ok t := by
    intro t; unfold Interval.adjustByTypmod; rw [if_neg (by omega)]
  unfold Interval.tryFromStr Interval.tryFromStrW
  rw [hr, St.bind_run, St.bind_run]
  cases scan u s with
  | err e => rfl
  | panic => rfl
  | ok l =>
    rw [St.lift_run]
    simp only
    rw [St.bind_run, St.bind_run]
    split
    · simp only [St.lift_run, Interval.ofDec]
      split
      · cases Interval.fromPgtime p _ _ with
        | err e => rfl
        | panic => rfl
        | ok t => simp only [Res.bind_ok, h]
      · rfl
    · rfl
    · rfl

/-- **C67, times.** Reading any text with precision `n` gives the time read without precision, rounded to `n` digits;
the errors are the same. -/
theorem C67_time (p : Profile) (u : TokenField) (c : Caches) (s : Bytes) (order : DateOrder) (n : Nat) (hn : n ≤ 6) :
    match Time.tryFromStr p u c s (-1) order with
    | .ok t => ∃ r, Time.tryFromStr p u c s n order = .ok r ∧ Nearest (precisionUnit n) t.v r.v
    | .err e => Time.tryFromStr p u c s n order = .err e
    | .panic => Time.tryFromStr p u c s n order = .panic := by
  rw [time_typmod p u c s n order]
  split
  next t ht =>
    rw [ht, Res.bind_ok]
    have hb := C45_time_partial p u c s (-1) order t ht
    exact (C22_time p t n hn (by omega)).1
  next e he => rw [he]; rfl
  next he => rw [he]; rfl

/-- **C67, timestamps.** The same for timestamps; the infinities are kept. -/
theorem C67_timestamp (p : Profile) (u : TokenField) (c : Caches) (s : Bytes) (order : DateOrder) (n : Nat) (hn : n ≤ 6) :
    match Timestamp.tryFromStr p u c s (-1) order with
    | .ok t => ∃ r, Timestamp.tryFromStr p u c s n order = .ok r ∧
        if t.v = i64Max ∨ t.v = i64Min then r = t else Nearest (precisionUnit n) t.v r.v
    | .err e => Timestamp.tryFromStr p u c s n order = .err e
    | .panic => Timestamp.tryFromStr p u c s n order = .panic := by
  rw [timestamp_typmod p u c s n order]
  split
  next t ht =>
    rw [ht, Res.bind_ok]
    have hb := C45_timestamp_partial p u c s (-1) order t ht
    have hcase : (t.v = i64Max ∨ t.v = i64Min) ∨ TsRange t.v := by
      rcases hb with h | h | h | h
      · exact Or.inr h
      · exact Or.inl (Or.inl h)
      · exact Or.inl (Or.inr h)
      · omega
    rcases hcase with h | h
    · refine ⟨t, ?_, by rw [if_pos h]⟩
      unfold Timestamp.adjustByTypmod
      rw [if_neg]
      rintro ⟨h1, -⟩
      apply h1
      unfold Timestamp.isInfinite
      rcases h with h | h <;> rw [h] <;> decide
    · obtain ⟨⟨r, e, hr, -⟩, -⟩ := C22_timestamp_partial p t n hn h
      refine ⟨r, e, ?_⟩
      rw [if_neg]
      · exact hr
      · rw [tsRange_iff] at h
        omega
  next e he => rw [he]; rfl
  next he => rw [he]; rfl

/-- **C67, intervals.** Reading any text with precision `n` and no field range rounds the time part to `n` digits and
keeps months and days. -/
theorem C67_interval (p : Profile) (u : TokenField) (c : Caches) (s : Bytes) (style : IntervalStyle) (n : Nat)
    (hn : n ≤ 6) :
    match Interval.tryFromStr p u c s (-1) style with
    | .ok a => -9223372036853775807 ≤ a.time → a.time ≤ 9223372036853775807 →
        ∃ r, Interval.tryFromStr p u c s (intervalTypmod 0x7FFF n) style = .ok r ∧ r.month = a.month ∧ r.day = a.day ∧
          Nearest (precisionUnit n) a.time r.time
    | .err e => Interval.tryFromStr p u c s (intervalTypmod 0x7FFF n) style = .err e
    | .panic => Interval.tryFromStr p u c s (intervalTypmod 0x7FFF n) style = .panic := by
  have hr : parseRange (intervalTypmod 0x7FFF n) = parseRange (-1) := by
    unfold parseRange
    rw [if_pos (by unfold intervalTypmod; omega), (intervalRange_typmod (by omega) (by omega)).1]
    rfl
  rw [interval_typmod p u c s _ style hr]
  split
  next a ht =>
    rw [ht, Res.bind_ok]
    intro h1 h2
    exact (C22_interval p a n hn ⟨h1, h2⟩).1
  next e he => rw [he]; rfl
  next he => rw [he]; rfl

example : Time.tryFromStr .debug .date Caches.new b!"12:34:56.789" 1 .ymd = .ok ⟨45296800000⟩ ∧
    Time.tryFromStr .debug .date Caches.new b!"12:34:56.789" (-1) .ymd = .ok ⟨45296789000⟩ ∧
    Timestamp.tryFromStr .debug .date Caches.new b!"2024-01-02 12:34:56.789" 0 .ymd = .ok ⟨757514097000000⟩ ∧
    Timestamp.tryFromStr .debug .date Caches.new b!"infinity" 3 .ymd = .ok ⟨9223372036854775807⟩ ∧
    Interval.tryFromStr .debug .date Caches.new b!"1 day 1.26 s" (intervalTypmod 0x7FFF 1) .postgres =
      .ok ⟨0, 1, 1300000⟩ := by
  decide +kernel

end Props
