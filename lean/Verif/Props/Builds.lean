import Verif.Lemmas.Builds
import Verif.Lemmas.Asserts

/-!
# C93: a debug build and a release build agree wherever the debug build does not panic

The only thing a debug build does that a release build does not is to stop at an arithmetic
overflow. So whatever a debug build returns, value or error, the release build returns as well, for
every public operation and every argument, valid or not.
-/

namespace Props

open Pg

/-- What the debug build of `f` returns, its release build returns too. -/
def SameBuilds {α : Type} (f : Profile → Res α) : Prop := f .debug ≠ .panic → f .release = f .debug

theorem same_of_le {α : Type} {f : Profile → Res α} (h : Res.Le (f .debug) (f .release)) : SameBuilds f := by
  intro hp
  rcases h.out with h | h
  · exact absurd h hp
  · exact h.symm

/-- C93 for the constructors. -/
theorem C93_constructors (y m d h mi : Int) (s : F64) :
    SameBuilds (fun p => Date.tryFromYmd p y m d) ∧ SameBuilds (fun p => Time.tryFromHms p h mi s) ∧
      SameBuilds (fun p => Timestamp.tryFromYmdHms p y m d h mi s) := by
  refine ⟨?_, ?_, ?_⟩ <;> exact same_of_le inferInstance

/-- C93 for parsing: the result and the caches left behind. -/
theorem C93_parse (u : TokenField) (c : Caches) (s : Bytes) (typmod : Int) (order : DateOrder)
    (style : IntervalStyle) :
    (Date.tryFromStr .debug u c s order ≠ .panic →
      Date.tryFromStrW .release cachedLook u order s c = Date.tryFromStrW .debug cachedLook u order s c) ∧
    (Time.tryFromStr .debug u c s typmod order ≠ .panic →
      Time.tryFromStrW .release cachedLook u typmod order s c = Time.tryFromStrW .debug cachedLook u typmod order s c) ∧
    (Timestamp.tryFromStr .debug u c s typmod order ≠ .panic →
      Timestamp.tryFromStrW .release cachedLook u typmod order s c =
        Timestamp.tryFromStrW .debug cachedLook u typmod order s c) ∧
    (Interval.tryFromStr .debug u c s typmod style ≠ .panic →
      Interval.tryFromStrW .release cachedLook u typmod style s c =
        Interval.tryFromStrW .debug cachedLook u typmod style s c) := by
  refine ⟨fun h => ?_, fun h => ?_, fun h => ?_, fun h => ?_⟩
  · rcases (Date_tryFromStrW_le cachedLook u order s).out c with h' | h'
    · exact absurd h' h
    · exact h'.symm
  · rcases (Time_tryFromStrW_le cachedLook u typmod order s).out c with h' | h'
    · exact absurd h' h
    · exact h'.symm
  · rcases (Timestamp_tryFromStrW_le cachedLook u typmod order s).out c with h' | h'
    · exact absurd h' h
    · exact h'.symm
  · rcases (Interval_tryFromStrW_le cachedLook u typmod style s).out c with h' | h'
    · exact absurd h' h
    · exact h'.symm

/-- C93 for the texts of values, whatever was in the buffer before. -/
theorem C93_format (junk : Bytes) (d : Date) (t : Time) (ts : Timestamp) (a : Interval) (style : DateStyle)
    (order : DateOrder) (istyle : IntervalStyle) :
    SameBuilds (fun p => d.format p junk style order) ∧ SameBuilds (fun p => t.format p junk style) ∧
      SameBuilds (fun p => ts.format p junk style order) ∧ SameBuilds (fun p => a.format p junk istyle) := by
  refine ⟨?_, ?_, ?_, ?_⟩ <;> exact same_of_le inferInstance

/-- C93 for dates. -/
theorem C93_date (d e : Date) (a : Interval) (t : Time) (ts : Timestamp) (ty : FieldType) (u : DateUnit) :
    SameBuilds (fun p => d.subDate p e) ∧ SameBuilds (fun p => d.addInterval p a) ∧
      SameBuilds (fun p => d.subInterval p a) ∧ SameBuilds (fun p => d.addTime p t) ∧
      SameBuilds (fun p => d.truncate p ty u) ∧ SameBuilds (fun p => d.datePart p ty u) ∧
      SameBuilds (fun p => Date.ofTimestamp p ts) := by
  refine ⟨?_, ?_, ?_, ?_, ?_, ?_, ?_⟩ <;> exact same_of_le inferInstance

/-- C93 for times. -/
theorem C93_time (t : Time) (a : Interval) (ts : Timestamp) (n : Int) (ty : FieldType) (u : DateUnit) :
    SameBuilds (fun p => t.addInterval p a) ∧ SameBuilds (fun p => t.subInterval p a) ∧
      SameBuilds (fun p => t.adjustByTypmod p n) ∧ SameBuilds (fun p => t.truncate p ty u) ∧
      SameBuilds (fun p => t.datePart p ty u) ∧ SameBuilds (fun p => Time.ofInterval p a) ∧
      SameBuilds (fun p => Time.ofTimestamp p ts) := by
  refine ⟨?_, ?_, ?_, ?_, ?_, ?_, ?_⟩ <;> exact same_of_le inferInstance

/-- C93 for timestamps. -/
theorem C93_timestamp (t s : Timestamp) (a : Interval) (d : Date) (k : Time) (n : Int) (ty : FieldType)
    (u : DateUnit) :
    SameBuilds (fun p => t.addInterval p a) ∧ SameBuilds (fun p => t.subInterval p a) ∧
      SameBuilds (fun p => t.addTime p k) ∧ SameBuilds (fun p => t.subTime p k) ∧
      SameBuilds (fun p => t.subTimestamp p s) ∧ SameBuilds (fun p => t.subDate p d) ∧
      SameBuilds (fun p => t.age p s) ∧ SameBuilds (fun p => t.adjustByTypmod p n) ∧
      SameBuilds (fun p => t.truncate p ty u) ∧ SameBuilds (fun p => t.datePart p ty u) ∧
      SameBuilds (fun p => Timestamp.ofDate p d) := by
  refine ⟨?_, ?_, ?_, ?_, ?_, ?_, ?_, ?_, ?_, ?_, ?_⟩ <;> exact same_of_le inferInstance

/-- C93 for intervals. -/
theorem C93_interval (a : Interval) (f : F64) (n : Int) (ty : FieldType) (u : DateUnit) :
    SameBuilds (fun p => a.justifyHours p) ∧ SameBuilds (fun p => a.justifyDays p) ∧
      SameBuilds (fun p => a.justifyInterval p) ∧ SameBuilds (fun p => a.adjustByTypmod p n) ∧
      SameBuilds (fun p => a.mulF64 p f) ∧ SameBuilds (fun p => a.divF64 p f) ∧
      SameBuilds (fun p => a.truncate p ty u) ∧ SameBuilds (fun p => a.datePart p ty u) := by
  refine ⟨?_, ?_, ?_, ?_, ?_, ?_, ?_, ?_⟩ <;> exact same_of_le inferInstance

/-- C93 for serialisation and deserialisation. -/
theorem C93_serde (junk : Bytes) (d : Date) (t : Time) (ts : Timestamp) (a : Interval) (u : TokenField)
    (c : Caches) (v : DeVal) :
    SameBuilds (fun p => d.serText p junk) ∧ SameBuilds (fun p => t.serText p junk) ∧
      SameBuilds (fun p => ts.serText p junk) ∧ SameBuilds (fun p => a.serText p junk) ∧
      (Date.visit .debug u c v ≠ .panic → Date.visit .release u c v = Date.visit .debug u c v) ∧
      (Time.visit .debug u c v ≠ .panic → Time.visit .release u c v = Time.visit .debug u c v) ∧
      (Timestamp.visit .debug u c v ≠ .panic → Timestamp.visit .release u c v = Timestamp.visit .debug u c v) ∧
      (Interval.visit .debug u c v ≠ .panic → Interval.visit .release u c v = Interval.visit .debug u c v) := by
  refine ⟨?_, ?_, ?_, ?_, fun h => ?_, fun h => ?_, fun h => ?_, fun h => ?_⟩
  iterate 4 exact same_of_le inferInstance
  · exact ((Date_visit_le u c v).out.resolve_left h).symm
  · exact ((Time_visit_le u c v).out.resolve_left h).symm
  · exact ((Timestamp_visit_le u c v).out.resolve_left h).symm
  · exact ((Interval_visit_le u c v).out.resolve_left h).symm

/-- **C93.** The conditions a debug build asserts besides the overflow checks hold, so that leaving the assertions out of the
model does not hide a difference: the text of a signed field starts with its sign (src/parse.rs:2729), and the month of
what is printed is one of twelve, for every value, valid or not (src/date.rs:303, src/timestamp.rs:571). The other
assertions are about a byte just looked at, literal arguments, or repeat the check of a slice. -/
theorem C93_assertions (p : Profile) :
    (∀ (u : TokenField) (s : Bytes) (l : List Field), scan u s = .ok l → ∀ f ∈ l, f.1 = .tz →
      ∃ r, f.2 = b!"+" ++ r ∨ f.2 = b!"-" ++ r) ∧
    (∀ (d : Date) (y m dd : Int), d.fields p = .ok (y, m, dd) → 1 ≤ m ∧ m ≤ 12) ∧
    (∀ (t : Timestamp) (tm : PgTime) (fsec : Int), timestamp2time p t.v = .ok (tm, fsec) → 1 ≤ tm.mon ∧ tm.mon ≤ 12) := by
  refine ⟨fun u s l h f hf ht => ?_, fun d y m dd h => ?_, fun t tm fsec h => timestamp2time_month h⟩
  · unfold scan at h
    split at h
    · cases h
    · exact scanLoop_signed _ _ _ _ _ _ h f hf ht
  · unfold Date.fields at h
    simp only [Res.bind_eq_ok] at h
    obtain ⟨j, -, h⟩ := h
    exact julian2date_month h

example : scan .date b!"- 5 days" = .ok [(.tz, b!"-5"), (.string, b!"days")] ∧
    Date.fields .release ⟨2000000000⟩ = .ok (5477814, 1, 6) := by decide +kernel

/-- The condition is needed: this text stops a debug build, while a release build goes on with a wrapped
number of days; and a timestamp on the first day stepped back by a day stops a debug build and is
refused by a release build. -/
theorem C93_condition_needed :
    (Interval.tryFromStr .debug .date Caches.new b!"2147483647 days 1 week" (-1) .postgres = .panic ∧
      Interval.tryFromStr .release .date Caches.new b!"2147483647 days 1 week" (-1) .postgres =
        .ok ⟨0, -2147483642, 0⟩) ∧
    (Timestamp.addInterval .debug ⟨-211813488000000000⟩ ⟨0, -1, 0⟩ = .panic ∧
      Timestamp.addInterval .release ⟨-211813488000000000⟩ ⟨0, -1, 0⟩ = .err .invalid) := by
  decide +kernel

/-- Debug builds do return: values and errors. -/
example :
    Date.tryFromYmd .debug 2024 2 29 = .ok ⟨8825⟩ ∧ Date.tryFromYmd .debug 2024 2 30 = .err .overflow ∧
    Interval.tryFromStr .debug .date Caches.new b!"1 week 2 days" (-1) .postgres = .ok ⟨0, 9, 0⟩ ∧
    Timestamp.addInterval .debug ⟨-211813488000000000⟩ ⟨0, 1, 0⟩ = .ok ⟨-211813401600000000⟩ ∧
    Timestamp.age .debug ⟨86400000000⟩ ⟨0⟩ = .ok ⟨0, 1, 0⟩ ∧
    Time.format .debug (List.replicate 128 0) ⟨3600000000⟩ .iso = .ok b!"01:00:00" := by decide +kernel

end Props
