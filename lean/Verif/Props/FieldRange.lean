import Verif.Lemmas.LoneNumber
import Verif.Props.Quantities
import Verif.Props.Times

/-!
# Property C68: the field range of an interval type on input

`INTERVAL HOUR TO MINUTE` and the like, `f` to `g`. `c` is the state of the thread's keyword caches, `u` the
uninitialised type of a lone sign.
-/

namespace Props
open Pg Spec

theorem parseRange_field {f g : SqlField} (h : SqlRange f g) :
    parseRange (intervalTypmod (rangeMask f g) 0xFFFF) = rangeMask f g ∧ rangeMask f g < 0x7FFF := by
  have hlt : rangeMask f g < 0x7FFF := by cases f <;> cases g <;> decide
  refine ⟨?_, hlt⟩
  unfold parseRange
  rw [if_pos (by unfold intervalTypmod; omega), (intervalRange_typmod (by omega) (by omega)).1]

/-- **C68, a number without unit.** It counts the last field of the range: `90` is ninety minutes for
`HOUR TO MINUTE`, in every interval style. -/
theorem C68_number (p : Profile) (u : TokenField) (c : Caches) (hc : c.Ok) (style : IntervalStyle) (f g : SqlField)
    (hr : SqlRange f g) (q : Quantity) (hd : DigitsOf 1 10 q.digits) (hu : q.unit = g.unit) (hmod : Moderate [q]) :
    Interval.tryFromStr p u c ((match q.sign with | none => [] | some false => [43] | some true => [45]) ++ q.digits)
      (intervalTypmod (rangeMask f g) 0xFFFF) style =
      .ok ⟨q.number * g.unit.months, q.number * g.unit.days, q.number * g.unit.micros⟩ := by
  obtain ⟨hp, hlt⟩ := parseRange_field hr
  have e : (match q.sign with | none => [] | some false => [43] | some true => [45]) = sgBytes q.sign := by
    rcases q.sign with _ | _ | _ <;> rfl
  rw [e, interval_lone hc hd hmod (by rw [hp, hu]; exact rangeUnit_field hr), hu]
  obtain ⟨r, e1, hcl, -⟩ := (C23_field_range p ⟨q.number * g.unit.months, q.number * g.unit.days,
    q.number * g.unit.micros⟩ _ hlt).1 f g hr rfl
  rw [e1]
  obtain ⟨rm, rd, rt⟩ := r
  simp only [ClearBelow, TruncZero] at hcl
  cases g <;> simp only [SqlField.unit, IvUnit.months, IvUnit.days, IvUnit.micros] at hcl ⊢ <;>
    simp only [Res.ok.injEq, Interval.mk.injEq] <;> omega

/-- A number without unit and without range counts seconds. -/
theorem C68_seconds (p : Profile) (u : TokenField) (c : Caches) (hc : c.Ok) (style : IntervalStyle) (q : Quantity)
    (hd : DigitsOf 1 10 q.digits) (hv : value q.digits ≤ 2147483647) :
    Interval.tryFromStr p u c ((match q.sign with | none => [] | some false => [43] | some true => [45]) ++ q.digits)
      (-1) style = .ok ⟨0, 0, q.number * 1000000⟩ := by
  have e : (match q.sign with | none => [] | some false => [43] | some true => [45]) = sgBytes q.sign := by
    rcases q.sign with _ | _ | _ <;> rfl
  have hmod : Moderate [{ q with unit := .second }] := by
    refine ⟨?_, ?_, ?_, ?_, ?_⟩
    · simp [size, IvUnit.months]
    · simp [size, IvUnit.days]
    · simp [size, wholeMinutes]
    · simp [size, subMinute]; omega
    · simpa using hv
  rw [e, interval_lone (q := { q with unit := .second }) hc hd hmod
      (show TokenField.ofInt (rangeUnit (parseRange (-1))).value = .ok (unitTf .second) by decide +kernel),
    Interval.adjustByTypmod,
    if_neg (by omega)]
  simp [IvUnit.months, IvUnit.days, IvUnit.micros, Quantity.number]

/-- **C68, quantities.** Numbers with units are read as without range, then the fields below the last field of the
range are cleared. -/
theorem C68_quantities (p : Profile) (u : TokenField) (c : Caches) (hc : c.Ok) (style : IntervalStyle) (f g : SqlField)
    (hr : SqlRange f g) (qs : List Quantity) (hok : ∀ q ∈ qs, q.Ok) (hne : qs ≠ []) (hn : qs.length ≤ 12)
    (hmod : Moderate qs) (ago : Option Bytes) (ha : ∀ w ∈ ago, AgoWord w)
    (hl : (quantitiesText qs ago).length ≤ 128) (hs : ¬ OneSignForAll style qs) :
    if (qs.map Quantity.unit).Nodup then
      ∃ r, Interval.tryFromStr p u c (quantitiesText qs ago) (intervalTypmod (rangeMask f g) 0xFFFF) style = .ok r ∧
        ClearBelow g (agoSign ago * total IvUnit.months qs) (agoSign ago * total IvUnit.days qs)
          (agoSign ago * total IvUnit.micros qs) r.month r.day r.time
    else (Interval.tryFromStr p u c (quantitiesText qs ago) (intervalTypmod (rangeMask f g) 0xFFFF) style).IsErr := by
  have h := quantities_typmod p u c hc style qs hok hne hn hmod ago ha hl hs (intervalTypmod (rangeMask f g) 0xFFFF)
  obtain ⟨-, hlt⟩ := parseRange_field hr
  split
  next hnd =>
    rw [if_pos hnd] at h
    obtain ⟨r, e1, hcl, -⟩ := (C23_field_range p _ _ hlt).1 f g hr rfl
    exact ⟨r, h.trans e1, hcl⟩
  next hnd =>
    rw [if_neg hnd] at h
    exact h

example : SqlRange .hour .minute ∧
    Interval.tryFromStr .debug .date Caches.new b!"-90" (intervalTypmod (rangeMask .hour .minute) 0xFFFF) .sqlStandard =
      .ok ⟨0, 0, -5400000000⟩ ∧
    Interval.tryFromStr .debug .date Caches.new b!"90" (-1) .postgres = .ok ⟨0, 0, 90000000⟩ ∧
    Interval.tryFromStr .debug .date Caches.new b!"3 weeks 90 min 7 s"
      (intervalTypmod (rangeMask .day .hour) 0xFFFF) .postgres = .ok ⟨0, 21, 3600000000⟩ := by decide +kernel
example : DigitsOf 1 10 b!"90" ∧ Moderate [⟨some true, b!"90", false, .minute, []⟩] := by
  refine ⟨by decide, ?_⟩
  unfold Moderate; decide +kernel

end Props
