import Verif.Lemmas.CacheSim

/-! # Parsing reduced to the run of the decoder without caches -/

namespace Pg

theorem runLocal_eq {σ α : Type} {init d : σ} {m : St (σ × Unit) α} {r : Res α} {w : Unit}
    (h : m (init, ()) = (r, (d, w))) :
    runLocal init m () = (r >>= fun a => .ok (a, d), ()) := by
  simp only [runLocal, h]
  cases r <;> rfl

theorem time_run (p : Profile) (u : TokenField) {c : Caches} (hc : c.Ok) {s : Bytes} (typmod : Int)
    (order : DateOrder) {l : List Field} (hs : scan u s = .ok l) {r : Res Unit} {d : Dec} {w : Unit}
    (h : decodeTimeOnly p plainLook order l ({}, ()) = (r, (d, w))) :
    Time.tryFromStr p u c s typmod order = (r >>= fun _ => Time.fromPgtime p d.tm d.fSec >>= fun t =>
      t.adjustByTypmod p typmod) := by
  rw [Time.tryFromStr, (same_time p u typmod order s c hc).1, Time.tryFromStrW, hs, St.lift_ok_bind,
    St.bind_run, runLocal_eq h]
  cases r <;> try rfl
  simp only [Res.bind_ok]
  rw [St.bind_run, St.lift_run]
  cases Time.fromPgtime p d.tm d.fSec <;> rfl

theorem date_run (p : Profile) (u : TokenField) {c : Caches} (hc : c.Ok) {s : Bytes}
    (order : DateOrder) {l : List Field} (hs : scan u s = .ok l) {r : Res Unit} {d : Dec} {w : Unit}
    (h : decodeDateTime p plainLook order l ({}, ()) = (r, (d, w))) :
    Date.tryFromStr p u c s order = (r >>= fun _ => Date.ofDec p d) := by
  rw [Date.tryFromStr, (same_date p u order s c hc).1, Date.tryFromStrW, hs, St.lift_ok_bind,
    St.bind_run, runLocal_eq h]
  cases r <;> rfl

theorem timestamp_run (p : Profile) (u : TokenField) {c : Caches} (hc : c.Ok) {s : Bytes} (typmod : Int)
    (order : DateOrder) {l : List Field} (hs : scan u s = .ok l) {r : Res Unit} {d : Dec} {w : Unit}
    (h : decodeDateTime p plainLook order l ({}, ()) = (r, (d, w))) :
    Timestamp.tryFromStr p u c s typmod order = (r >>= fun _ => Timestamp.ofDec p d >>= fun t =>
      t.adjustByTypmod p typmod) := by
  rw [Timestamp.tryFromStr, (same_timestamp p u typmod order s c hc).1, Timestamp.tryFromStrW, hs,
    St.lift_ok_bind, St.bind_run, runLocal_eq h]
  cases r <;> try rfl
  simp only [Res.bind_ok]
  rw [St.bind_run, St.lift_run]
  cases Timestamp.ofDec p d <;> rfl

theorem interval_run (p : Profile) (u : TokenField) {c : Caches} (hc : c.Ok) {s : Bytes} (typmod : Int)
    (style : IntervalStyle) {l : List Field} (hs : scan u s = .ok l) {r : Res Unit} {d : IvS} {w : Unit}
    (h : St.orElse (decodeInterval p plainLook (parseRange typmod) style l)
      (noLook (decodeIsoInterval p s)) ({}, ()) = (r, (d, w))) :
    Interval.tryFromStr p u c s typmod style = (r >>= fun _ => Interval.ofDec p d typmod) := by
  rw [Interval.tryFromStr, (same_interval p u typmod style s c hc).1, Interval.tryFromStrW, hs,
    St.lift_ok_bind, St.bind_run, runLocal_eq h]
  cases r <;> rfl

/-- The same with the result of the decoder left to evaluate. -/
theorem date_eval (p : Profile) (u : TokenField) {c : Caches} (hc : c.Ok) {s : Bytes} (order : DateOrder)
    {l : List Field} (hs : scan u s = .ok l) {x : Res Date}
    (h : ((decodeDateTime p plainLook order l ({}, ())).1 >>= fun _ =>
      Date.ofDec p (decodeDateTime p plainLook order l ({}, ())).2.1) = x) :
    Date.tryFromStr p u c s order = x := by
  rw [← h]; exact date_run p u hc order hs rfl

theorem time_eval (p : Profile) (u : TokenField) {c : Caches} (hc : c.Ok) {s : Bytes} (typmod : Int)
    (order : DateOrder) {l : List Field} (hs : scan u s = .ok l) {x : Res Time}
    (h : ((decodeTimeOnly p plainLook order l ({}, ())).1 >>= fun _ =>
      Time.fromPgtime p (decodeTimeOnly p plainLook order l ({}, ())).2.1.tm
        (decodeTimeOnly p plainLook order l ({}, ())).2.1.fSec >>= fun t => t.adjustByTypmod p typmod) = x) :
    Time.tryFromStr p u c s typmod order = x := by
  rw [← h]; exact time_run p u hc typmod order hs rfl

theorem timestamp_eval (p : Profile) (u : TokenField) {c : Caches} (hc : c.Ok) {s : Bytes} (typmod : Int)
    (order : DateOrder) {l : List Field} (hs : scan u s = .ok l) {x : Res Timestamp}
    (h : ((decodeDateTime p plainLook order l ({}, ())).1 >>= fun _ =>
      Timestamp.ofDec p (decodeDateTime p plainLook order l ({}, ())).2.1 >>= fun t =>
        t.adjustByTypmod p typmod) = x) :
    Timestamp.tryFromStr p u c s typmod order = x := by
  rw [← h]; exact timestamp_run p u hc typmod order hs rfl

theorem interval_eval (p : Profile) (u : TokenField) {c : Caches} (hc : c.Ok) {s : Bytes} (typmod : Int)
    (style : IntervalStyle) {l : List Field} (hs : scan u s = .ok l) {x : Res Interval}
    (h : ((St.orElse (decodeInterval p plainLook (parseRange typmod) style l)
        (noLook (decodeIsoInterval p s)) ({}, ())).1 >>= fun _ =>
      Interval.ofDec p (St.orElse (decodeInterval p plainLook (parseRange typmod) style l)
        (noLook (decodeIsoInterval p s)) ({}, ())).2.1 typmod) = x) :
    Interval.tryFromStr p u c s typmod style = x := by
  rw [← h]; exact interval_run p u hc typmod style hs rfl

end Pg
