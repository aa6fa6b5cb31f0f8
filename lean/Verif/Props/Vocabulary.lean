import Verif.Lemmas.Vocabulary
import Verif.Lemmas.CacheSim

/-!
# Property C74: only known words are accepted

A text with a word that is not in the vocabulary of its type is not accepted, whatever else it contains. In particular dates,
timestamps and times take neither names of time zones nor differences from universal time, and no `now`, `today`, `tomorrow`,
`yesterday`. `c` is the state of the thread's keyword caches, `u` the uninitialised type of a lone sign.
-/

namespace Pg
open Spec

/-- A decoder that never succeeds on the scanned fields. -/
theorem never_ok_of {σ α : Type} {s0 : σ} {u : TokenField} {s : Bytes} {m : List Field → St (σ × Unit) Unit} {f : σ → St Unit α}
    (h : ∀ l, scan u s = .ok l → Post (m l) (fun _ _ => False) (s0, ())) (v : α) :
    ((do let l ← St.lift (scan u s); let (_, d) ← runLocal s0 (m l); f d : St Unit α) ()).1 ≠ .ok v := by
  intro e
  obtain ⟨w, hw⟩ : ∃ w, (do let l ← St.lift (scan u s); let (_, d) ← runLocal s0 (m l); f d : St Unit α) () = (.ok v, w) :=
    ⟨_, Prod.ext e rfl⟩
  have : Post (do let l ← St.lift (scan u s); let (_, d) ← runLocal s0 (m l); f d : St Unit α) (fun _ _ => False) () := by
    rw [Post.bind, Post.lift]
    intro l hl
    rw [Post.bind]
    intro a s' ha
    have := h l hl
    unfold runLocal at ha
    split at ha
    · rename_i hm
      exact (this _ _ hm).elim
    · cases ha
    · cases ha
  exact this _ _ hw

theorem Post.orElse_never {σ α : Type} {m h : St σ α} {s : σ} (hm : Post m (fun _ _ => False) s)
    (hh : ∀ s, Post h (fun _ _ => False) s) : Post (St.orElse m h) (fun _ _ => False) s := by
  intro a s' e
  unfold St.orElse at e
  split at e
  · exact hh _ _ _ e
  · exact hm _ _ e

theorem iso_never {p : Profile} {s : Bytes} (hs : s.head? ≠ some 80) (t : IvS × Unit) :
    Post (noLook (decodeIsoInterval p s) : St (IvS × Unit) Unit) (fun _ _ => False) t := by
  unfold decodeIsoInterval
  rw [Post.noLook, Post.bind, Post.mod, if_pos (Or.inr hs)]
  wp

end Pg

namespace Props
open Pg Spec

/-- **C74, dates and timestamps.** -/
theorem C74_date (p : Profile) (u : TokenField) (c : Caches) (hc : c.Ok) (typmod : Int) (order : DateOrder) (s : Bytes)
    (h : HasWord (UnknownWord dateWords) s ∨ HasWord ZoneOffset s) :
    (∀ v, Date.tryFromStr p u c s order ≠ .ok v) ∧ ∀ v, Timestamp.tryFromStr p u c s typmod order ≠ .ok v := by
  have key : ∀ l, scan u s = .ok l → Post (decodeDateTime p plainLook order l) (fun _ _ => False) ({}, ()) := by
    intro l hl
    rcases h with h | h
    · obtain ⟨l1, f, l2, rfl, w, rfl, h1, h2⟩ := scan_unknown h hl
      exact decode_never (fun _ _ s => unknown_refused h1 h2 s) l1 l2 ()
    · obtain ⟨l1, f, l2, rfl, h1⟩ := scan_zone h hl
      exact decode_never (fun _ _ s => zone_refused h1 s) l1 l2 ()
  refine ⟨fun v => ?_, fun v => ?_⟩
  · unfold Date.tryFromStr
    rw [(same_date p u order s c hc).1]
    exact never_ok_of (m := decodeDateTime p plainLook order) (f := fun d => St.lift (Date.ofDec p d)) key v
  · unfold Timestamp.tryFromStr
    rw [(same_timestamp p u typmod order s c hc).1]
    exact never_ok_of (m := decodeDateTime p plainLook order)
      (f := fun d => do let t ← St.lift (Timestamp.ofDec p d); St.lift (t.adjustByTypmod p typmod)) key v

/-- **C74, times.** -/
theorem C74_time (p : Profile) (u : TokenField) (c : Caches) (hc : c.Ok) (typmod : Int) (order : DateOrder) (s : Bytes)
    (h : HasWord (UnknownWord timeWords) s ∨ HasWord ZoneOffset s) (v : Time) : Time.tryFromStr p u c s typmod order ≠ .ok v := by
  unfold Time.tryFromStr
  rw [(same_time p u typmod order s c hc).1]
  refine never_ok_of (m := decodeTimeOnly p plainLook order)
    (f := fun d => do let t ← St.lift (Time.fromPgtime p d.tm d.fSec); St.lift (t.adjustByTypmod p typmod)) (fun l hl => ?_) v
  rcases h with h | h
  · obtain ⟨l1, f, l2, rfl, w, rfl, h1, h2⟩ := scan_unknown h hl
    exact decode_neverT (fun _ _ s => unknown_refusedT h1 h2 s) l1 l2 ()
  · obtain ⟨l1, f, l2, rfl, h1⟩ := scan_zone h hl
    exact decode_neverT (fun _ _ s => zone_refusedT h1 s) l1 l2 ()

/-- **C74, intervals.** A text that starts with `P` may be an ISO 8601 interval, whose letters are not words. -/
theorem C74_interval (p : Profile) (u : TokenField) (c : Caches) (hc : c.Ok) (typmod : Int) (style : IntervalStyle) (s : Bytes)
    (h : HasWord (UnknownWord intervalWords) s) (hP : s.head? ≠ some 80) (v : Interval) :
    Interval.tryFromStr p u c s typmod style ≠ .ok v := by
  unfold Interval.tryFromStr
  rw [(same_interval p u typmod style s c hc).1]
  refine never_ok_of (m := fun l => St.orElse (decodeInterval p plainLook (parseRange typmod) style l) (noLook (decodeIsoInterval p s)))
    (f := fun d => St.lift (Interval.ofDec p d typmod)) (fun l hl => ?_) v
  obtain ⟨l1, f, l2, rfl, w, rfl, h1, h2⟩ := scan_unknown h hl
  exact Post.orElse_never (decode_neverI (fun _ s => unknown_refusedI h1 h2 _ s) style l1 l2 _) fun s => iso_never hP s

/-! ## Cases -/

/-- A time zone after a clock time, and without it. -/
example : HasWord (UnknownWord dateWords) b!"2024-01-02 10:00 pst" :=
  ⟨[b!"2024-01-02", b!"10:00"], b!"pst", [], by decide,
    ⟨[], b!"pst", rfl, Or.inl rfl, by decide, by unfold Letter; decide, by unfold Known SameButCase; decide +kernel⟩,
    by unfold EndsInSign; decide⟩
/-- Attached to the clock time. -/
example : HasWord (UnknownWord dateWords) b!"2024-01-02 10:00Z" :=
  ⟨[b!"2024-01-02"], b!"10:00Z", [], by decide,
    ⟨b!"10:00", b!"Z", rfl, Or.inr (Or.inr ⟨b!"10", b!"00", rfl, by decide, by unfold Digits; decide, by unfold Digit; decide⟩), by decide,
      by unfold Letter; decide, by unfold Known SameButCase; decide +kernel⟩,
    by unfold EndsInSign; decide⟩
example : HasWord ZoneOffset b!"2024-01-02 10:00+05:30" :=
  ⟨[b!"2024-01-02"], b!"10:00+05:30", [], by decide,
    ⟨b!"10:00", 43, 48, b!"5:30", rfl, Or.inr ⟨b!"10", b!"00", rfl, by decide, by unfold Digits; decide, by unfold Digit; decide⟩,
      Or.inl rfl, by unfold Digit; decide⟩,
    by unfold EndsInSign; decide⟩
example : Timestamp.tryFromStr .debug .number Caches.new b!"2024-01-02 10:00" (-1) .mdy = .ok ⟨757504800000000⟩ := by
  decide +kernel

/-- A month name in a time. -/
example : HasWord (UnknownWord timeWords) b!"10:00 January" :=
  ⟨[b!"10:00"], b!"January", [], by decide,
    ⟨[], b!"January", rfl, Or.inl rfl, by decide, by unfold Letter; decide, by unfold Known SameButCase; decide +kernel⟩,
    by unfold EndsInSign; decide⟩
example : Time.tryFromStr .debug .number Caches.new b!"10:00 pm" (-1) .mdy = .ok ⟨79200000000⟩ := by decide +kernel

/-- An unknown unit. -/
example : HasWord (UnknownWord intervalWords) b!"3 days 2fortnights" :=
  ⟨[b!"3", b!"days"], b!"2fortnights", [], by decide,
    ⟨b!"2", b!"fortnights", rfl, Or.inr (Or.inl ⟨by decide, by unfold Digits; decide⟩), by decide, by unfold Letter; decide,
      by unfold Known SameButCase; decide +kernel⟩,
    by unfold EndsInSign; decide⟩
example : Interval.tryFromStr .debug .number Caches.new b!"3 days 2weeks" (-1) .postgres = .ok ⟨0, 17, 0⟩ := by decide +kernel

/-- A known word is not always meaningful: a label that nothing follows is ignored, -/
theorem C74_dangling : Date.tryFromStr .release .number Caches.new b!"2024-01-02 dow" .mdy =
    Date.tryFromStr .release .number Caches.new b!"2024-01-02" .mdy := by decide +kernel
/-- and a word for a value that is not a date is overruled by what follows. -/
theorem C74_overruled : Date.tryFromStr .release .number Caches.new b!"undefined y2024 m1 d2" .mdy =
    Date.tryFromStr .release .number Caches.new b!"2024-01-02" .mdy := by decide +kernel
example : Date.tryFromStr .release .number Caches.new b!"2024-01-02" .mdy = .ok ⟨8767⟩ := by decide +kernel

end Props
