import Verif.Lemmas.Era
import Verif.Props.Vocabulary

/-!
# Property C98: a numeric date at the beginning decides the day

`c0` is the state of the thread's keyword caches, `u` the uninitialised type of a lone sign.
-/

namespace Pg
open Spec

theorem era_said {p : Profile} {order : DateOrder} {u : TokenField} {s : Bytes} {b : Bool} {l : List Field} (h : HasEra b s) (hs : scan u s = .ok l) :
    Post (decodeDateTime p plainLook order l) (fun _ s' => s'.1.bc = b) ({}, ()) := by
  obtain ⟨w, h1, h2⟩ := era_field h hs
  exact decode_eraIs h2 h1

end Pg

namespace Props
open Pg Spec

/-- **C98, dates.** If a text that starts with a numeric date is accepted, the three numbers name a day, BC only if the text says
so and always if one of its words is `bc`, and the result is this day unless the text says infinity. -/
theorem C98_date (p : Profile) (u : TokenField) (c0 : Caches) (hc : c0.Ok) (order : DateOrder) (a b c s : Bytes)
    (h : StartsWithDate a b c s) (v : Date) (hv : Date.tryFromStr p u c0 s order = .ok v) :
    ∃ bc day, (bc = true → Says [b!"bc"] s) ∧ (∀ e, HasEra e s → bc = e) ∧ inputDay order a b c bc = some day ∧
      (v.v = dayNumber day ∨ v.v = 2147483647 ∧ Says [b!"infinity"] s ∨
        v.v = -2147483648 ∧ ∃ w, MinusRun w s ∧ SameButCase w b!"infinity") := by
  obtain ⟨l, d, hs, hd, ho⟩ := date_decoded hc hv
  obtain ⟨bc, day, k0, k1, k2, k3, k4, k5⟩ := decode_first h hs _ _ hd
  have hk := decode_kind (P := fun t => NamedKind s { dType := t })
    (loop_all (I := fun d => NamedKind s { dType := d.dType }) (G := WordAt s) (fun _ _ _ t hf hI => field_named hf t hI) l _ 0 ({}, ()) (scan_wordAt hs)
      ⟨fun h => (by cases h), fun h => (by cases h)⟩) hd
  refine ⟨bc, day, k1, fun e he => k0.trans (era_said he hs _ _ hd), k2, ?_⟩
  have hreal : day.Real := by
    unfold inputDay namedDay at k2
    dsimp only at k2
    split at k2
    · cases k2
    · split at k2
      · rename_i hr; cases k2; exact hr
      · cases k2
  rcases date_kind ho with ⟨e, -⟩ | ⟨e, e'⟩ | ⟨e, e'⟩
  · rw [date_ofDec p e k3 k4 k5 hreal] at ho
    split at ho
    · cases ho; exact Or.inl rfl
    · cases ho
  · obtain ⟨w, hw, hi⟩ := hk.1 e
    refine Or.inr (Or.inl ⟨e', w, hw, b!"infinity", by simp, ?_⟩)
    unfold SameButCase at hi ⊢
    rw [List.map_take, hi]
    decide
  · exact Or.inr (Or.inr ⟨e', hk.2 e⟩)

/-- **C98, timestamps.** -/
theorem C98_timestamp (p : Profile) (u : TokenField) (c0 : Caches) (hc : c0.Ok) (typmod : Int) (order : DateOrder) (a b c s : Bytes)
    (h : StartsWithDate a b c s) (v : Timestamp) (hv : Timestamp.tryFromStr p u c0 s typmod order = .ok v) :
    ∃ bc day, (bc = true → Says [b!"bc"] s) ∧ (∀ e, HasEra e s → bc = e) ∧ inputDay order a b c bc = some day := by
  obtain ⟨l, d, t, hs, hd, -, -⟩ := timestamp_decoded hc hv
  obtain ⟨bc, day, k0, k1, k2, -⟩ := decode_first h hs _ _ hd
  exact ⟨bc, day, k1, fun e he => k0.trans (era_said he hs _ _ hd), k2⟩

/-- **C98, timestamps: the value.** Unless hours, minutes or seconds have labels, a finite result is the start of this day and at
most 99 hours, 99 minutes and 100 seconds, which is what numbers of two digits can say. -/
theorem C98_timestamp_value (p : Profile) (u : TokenField) (c0 : Caches) (hc : c0.Ok) (order : DateOrder) (a b c s : Bytes)
    (h : StartsWithDate a b c s) (hl : ¬ Says clockLabels s) (v : Timestamp) (hv : Timestamp.tryFromStr p u c0 s (-1) order = .ok v)
    (hf : v.v ≠ 9223372036854775807 ∧ v.v ≠ -9223372036854775808) :
    ∃ bc day, (bc = true → Says [b!"bc"] s) ∧ (∀ e, HasEra e s → bc = e) ∧ inputDay order a b c bc = some day ∧
      dayNumber day * 86400000000 ≤ v.v ∧ v.v ≤ dayNumber day * 86400000000 + 362440000000 := by
  obtain ⟨l, d, t, hs, hd, h3, h4⟩ := timestamp_decoded hc hv
  obtain ⟨bc, day, k0, k1, k2, k3, k4, k5⟩ := decode_first h hs _ _ hd
  refine ⟨bc, day, k1, fun e he => k0.trans (era_said he hs _ _ hd), k2, ?_⟩
  have kind := timestamp_kind h3 h4
  have e : t.adjustByTypmod p (-1) = .ok t := by unfold Timestamp.adjustByTypmod; split <;> simp_all
  rw [e] at h4
  cases h4
  obtain ⟨c1, c2, c3, c4⟩ := decode_in (N := 99) (by omega) (by omega) (scan_good hs (fun _ => hl)) hd
  have hreal : day.Real := by
    unfold inputDay namedDay at k2
    dsimp only at k2
    split at k2
    · cases k2
    · split at k2
      · rename_i hr; cases k2; exact hr
      · cases k2
  rcases kind with ⟨e, -, -⟩ | ⟨-, e⟩ | ⟨-, e⟩
  · have o := timestamp_ofDec p (t := ⟨d.tm.hour, d.tm.min, d.tm.sec, d.fSec⟩) e k3 k4 k5 rfl rfl rfl rfl hreal c1 c2 c3 c4
    rw [h3] at o
    split at o
    · cases o
      unfold instant dayMicros Clock.micros
      dsimp only
      omega
    · obtain ⟨_, o⟩ := o
      cases o
  · exact absurd e hf.1
  · exact absurd e hf.2

/-- **C98, times.** -/
theorem C98_time (p : Profile) (u : TokenField) (c0 : Caches) (hc : c0.Ok) (typmod : Int) (order : DateOrder) (a b c s : Bytes)
    (h : StartsWithDate a b c s) (hn : ∀ bc, inputDay order a b c bc = none) (v : Time) :
    Time.tryFromStr p u c0 s typmod order ≠ .ok v := by
  unfold Time.tryFromStr
  rw [(same_time p u typmod order s c0 hc).1]
  refine never_ok_of (m := decodeTimeOnly p plainLook order)
    (f := fun d => do let t ← St.lift (Time.fromPgtime p d.tm d.fSec); St.lift (t.adjustByTypmod p typmod)) (fun l hl => ?_) v
  refine (decode_firstT h hl).mono fun _ _ k => ?_
  obtain ⟨bc, day, k⟩ := k
  rw [hn bc] at k
  cases k

/-! ## Cases -/

/-- A date, a clock time, a weekday, and an era. -/
example : StartsWithDate b!"31" b!"12" b!"0044" b!" 31/12/0044t10:20 Sat BC" :=
  ⟨b!"31/12/0044t10:20", 47, b!"t10:20", [b!"Sat", b!"BC"], by decide, by decide, by unfold Separator; decide,
    ⟨by unfold Digits; decide, by decide⟩, ⟨by unfold Digits; decide, by decide⟩, ⟨by unfold Digits; decide, by decide⟩, by decide,
    fun y hy => by cases hy; unfold Digit; decide⟩
example : Date.tryFromStr .debug .number Caches.new b!" 31/12/0044t10:20 Sat BC" .dmy = .ok ⟨dayNumber ⟨-43, 12, 31⟩⟩ := by decide +kernel
/-- A day and 99 hours: the clock time without colons is not checked. -/
example : StartsWithDate b!"2024" b!"01" b!"02" b!"2024-01-02 999999" ∧
    Timestamp.tryFromStr .debug .number Caches.new b!"2024-01-02 999999" (-1) .mdy = .ok ⟨dayNumber ⟨2024, 1, 2⟩ * 86400000000 + 362439000000⟩ := by
  refine ⟨⟨b!"2024-01-02", 45, [], [b!"999999"], by decide, by decide, by unfold Separator; decide,
    ⟨by unfold Digits; decide, by decide⟩, ⟨by unfold Digits; decide, by decide⟩, ⟨by unfold Digits; decide, by decide⟩, by decide,
    fun y hy => by cases hy⟩, by decide +kernel⟩
/-- There is no such day, whatever follows. -/
example : StartsWithDate b!"2023" b!"02" b!"29" b!"2023-02-29 infinity" ∧ ∀ bc, inputDay .mdy b!"2023" b!"02" b!"29" bc = none := by
  refine ⟨⟨b!"2023-02-29", 45, [], [b!"infinity"], by decide, by decide, by unfold Separator; decide,
    ⟨by unfold Digits; decide, by decide⟩, ⟨by unfold Digits; decide, by decide⟩, ⟨by unfold Digits; decide, by decide⟩, by decide,
    fun y hy => by cases hy⟩, fun bc => by cases bc <;> decide⟩
/-- A real day followed by the word for infinity is infinity. -/
example : Date.tryFromStr .debug .number Caches.new b!"2023-02-28 infinity" .mdy = .ok ⟨2147483647⟩ := by decide +kernel
example : (∃ v, Time.tryFromStr .debug .number Caches.new b!"2023-02-28 10:00" (-1) .mdy = .ok v) ∧
    (Time.tryFromStr .debug .number Caches.new b!"2023-02-29 10:00" (-1) .mdy).IsErr := by
  refine ⟨⟨⟨36000000000⟩, by decide +kernel⟩, .overflow, by decide +kernel⟩
/-- The words that name the era. -/
example : HasEra true b!" 31/12/0044t10:20 Sat BC" ∧ HasEra false b!"0044-12-31 Ad 10:20" :=
  ⟨⟨[b!"31/12/0044t10:20", b!"Sat"], b!"BC", [], by decide, by unfold SameButCase; decide, by unfold EndsInSign; decide⟩,
    ⟨[b!"0044-12-31"], b!"Ad", [b!"10:20"], by decide, by unfold SameButCase; decide, by unfold EndsInSign; decide⟩⟩

end Props
