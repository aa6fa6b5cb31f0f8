import Verif.Lemmas.FormatTypes
import Verif.Props.Times
import Verif.Props.Timestamps

/-!
# Properties C31, C32, C33, C40 (output part), C51: text of numbers, dates, times, timestamps

`junk` is the content of the uninitialised 128-byte output buffer.
-/

namespace Props
open Pg Spec

/-! ## C31 -/

/-- **C31.** Every `i32` is printed as its canonical decimal text: the text is written at the
front of the buffer, its length is reported, the rest of the buffer is unchanged, no panic. -/
theorem C31_int (v : Int) (h : In32 v) :
    ∃ t, IsDecimal v t ∧ t.length ≤ 11 ∧
      ∀ s, t.length ≤ s.length → pgLtostr v s = .ok (t ++ s.drop t.length, t.length) := by
  refine ⟨intText v, intText_decimal v, ?_, pgLtostr_writes h⟩
  have := i32_len h
  unfold intText
  split <;> simp <;> omega

/-- **C31.** The canonical text is unique, and a text is canonical for one number only. -/
theorem C31_canonical (v w : Int) (t u : Bytes) (h : IsDecimal v t) (hu : IsDecimal w u) :
    v = w ↔ t = u := by
  obtain ⟨ds, e, hne, hd, hv, hz⟩ := h
  obtain ⟨ds', e', hne', hd', hv', hz'⟩ := hu
  have k := natText_of_digits hne hd hz
  have k' := natText_of_digits hne' hd' hz'
  constructor
  · rintro rfl; rw [e, e', k, k', hv, hv']
  · intro h
    rw [e, e'] at h
    have hneg : ∀ (a b : Bytes), Digits b → 45 :: a ≠ b := by
      intro a b hb he; have := hb 45 (by rw [← he]; simp); omega
    by_cases h1 : v < 0 <;> by_cases h2 : w < 0
    · simp [h1, h2] at h; rw [h] at hv; omega
    · simp [h1, h2] at h; exact absurd h (hneg _ _ hd')
    · simp [h1, h2] at h; exact absurd h.symm (hneg _ _ hd)
    · simp [h1, h2] at h; rw [h] at hv; omega

/-- **C31.** Zero-padded printing of a non-negative value at any width: all digits, at least
`width` of them, nothing written behind the reported end, no panic. -/
theorem C31_padded (p : Profile) (v : Int) (h : In32 v) (hv : 0 ≤ v) (w : Nat) (hw : 1 ≤ w) :
    ∃ t, IsPadded w v t ∧ w ≤ t.length ∧
      ∀ s, t.length ≤ s.length → pgLtostrZeropad p v w s = .ok (t ++ s.drop t.length, t.length) := by
  refine ⟨padText w v.natAbs, ?_, by simp [padText]; omega, zeropad_writes p h hv w hw⟩
  have := padText_padded w hw v.natAbs
  rwa [show (v.natAbs : Int) = v by omega] at this

example : pgLtostr (-2147483648) (List.replicate 12 0) =
    .ok ([45, 50, 49, 52, 55, 52, 56, 51, 54, 52, 56, 0], 11) := by decide
example : pgLtostrZeropad .debug 7 4 [1, 2, 3, 4, 5] = .ok ([48, 48, 48, 55, 5], 4) := by decide
example : pgLtostrZeropad .debug 12345 2 [1, 2, 3, 4, 5, 6] =
    .ok ([49, 50, 51, 52, 53, 6], 5) := by decide
example : IsDecimal (-120) [45, 49, 50, 48] ∧ IsPadded 4 7 [48, 48, 48, 55] := by
  refine ⟨⟨[49, 50, 48], ?_, ?_, ?_, ?_, ?_⟩, ?_, ?_, ?_, ?_⟩ <;> simp [Digits, value]

/-! ## C32 -/

/-- **C32.** The seconds text is the integral seconds (two digits when padding is asked for), then
nothing for a zero fraction, otherwise a dot and at most six digits, the last one not zero, which
denote exactly the microseconds. -/
theorem C32 (p : Profile) (sec us : Int) (fill : Bool) (hs : 0 ≤ sec ∧ sec ≤ 99)
    (hu : 0 ≤ us ∧ us ≤ 999999) :
    ∃ si fr, Digits si ∧ (value si : Int) = sec ∧ (fill = true → si.length = 2) ∧
      (fill = false → IsDecimal sec si) ∧
      (us = 0 → fr = []) ∧
      (us ≠ 0 → ∃ ds, fr = 46 :: ds ∧ Digits ds ∧ 1 ≤ ds.length ∧ ds.length ≤ 6 ∧
        ds.getLast? ≠ some 48 ∧ (value ds * 10 ^ (6 - ds.length) : Int) = us) ∧
      ∀ s, (si ++ fr).length ≤ s.length →
        appendSeconds p sec us fill s =
          .ok (si ++ fr ++ s.drop (si ++ fr).length, (si ++ fr).length) := by
  refine ⟨if fill then padText 2 sec.natAbs else natText sec.natAbs, fracText us.natAbs,
    ?_, ?_, ?_, ?_, ?_, ?_, ?_⟩
  · cases fill
    · exact natText_digits _
    · exact padText_digits _ _
  · cases fill
    · simp only [Bool.false_eq_true, if_false, natText_value]; omega
    · simp only [if_true, padText, value_replicate, natText_value]; omega
  · intro h; rw [if_pos h]; exact two_len hs
  · intro h
    rw [h]
    have := intText_decimal sec
    rwa [intText, if_neg (by omega)] at this
  · intro h; rw [h]; simp [fracText]
  · intro h
    have hpl : (padText 6 us.natAbs).length = 6 :=
      (padText_padded 6 (by omega) us.natAbs).2.2.1 (by omega)
    have hsl := strip_len (padText 6 us.natAbs)
    have hsv := strip_value (padText 6 us.natAbs)
    rw [hpl] at hsl hsv
    rw [padText, value_replicate, natText_value, ← padText] at hsv
    refine ⟨stripZeros (padText 6 us.natAbs), ?_, strip_digits (padText_digits _ _), ?_, hsl,
      strip_last _, ?_⟩
    · rw [fracText, if_neg (by omega)]
    · rcases Nat.eq_zero_or_pos (stripZeros (padText 6 us.natAbs)).length with h0 | h0
      · rw [List.length_eq_zero_iff] at h0
        rw [h0] at hsv; simp [value] at hsv; omega
      · omega
    · have he : ((value (stripZeros (padText 6 us.natAbs)) *
        10 ^ (6 - (stripZeros (padText 6 us.natAbs)).length) : Nat) : Int) = us := by
        rw [hsv]; exact Int.natAbs_of_nonneg hu.1
      exact_mod_cast he
  · have := appendSeconds_writes p (sec := sec) (fsec := us) (by unfold In32; omega) (by omega)
      (by omega) fill
    intro s hs
    exact this s hs

example : appendSeconds .debug 5 120000 true (List.replicate 8 0) =
    .ok ([48, 53, 46, 49, 50, 0, 0, 0], 5) := by decide
example : appendSeconds .debug 59 1 false (List.replicate 9 0) =
    .ok ([53, 57, 46, 48, 48, 48, 48, 48, 49], 9) := by decide

/-! ## C33 -/

/-- Day fields of a date in range. -/
theorem date_fields (p : Profile) (d : Date) (h : DateRange d.v) :
    ∃ c : YMD, c.Real ∧ dayNumber c = d.v ∧ -4713 ≤ c.y ∧ c.y ≤ 5874897 ∧
      d.fields p = .ok (c.y, c.m, c.d) := by
  have h' := (dateRange_iff _).1 h
  obtain ⟨y, m, dd, he, hj, hreal⟩ := julian2date_spec p (d.v + 2451545) (by omega) (by omega)
  have hn : dayNumber ⟨y, m, dd⟩ = d.v := by unfold jdn at hj; omega
  have hv := isValidJulian_of_range hreal (by omega) (by omega)
  rw [isValidJulian_iff] at hv
  refine ⟨⟨y, m, dd⟩, hreal, hn, ?_, ?_, ?_⟩
  · simp only at hv ⊢; omega
  · simp only at hv ⊢
    by_contra hlt
    have hb := real_bounds hreal
    have := (dayNumber_lt_iff (a := lastDay) (b := ⟨y, m, dd⟩) (by decide) hreal).2
      (Or.inl (by simp only [lastDay]; omega))
    rw [show dayNumber lastDay = 2145031948 from by decide] at this
    omega
  · unfold Date.fields; rw [chk32_ok (by omega)]; exact he

theorem date_format_eq (p : Profile) (junk : Bytes) (hj : junk.length = 128) (d : Date)
    (h : DateRange d.v) (st : DateStyle) (o : DateOrder) :
    ∃ c : YMD, c.Real ∧ dayNumber c = d.v ∧ d.format p junk st o = .ok (dateText st o c) := by
  have h' := (dateRange_iff _).1 h
  obtain ⟨c, hr, hn, hy1, hy2, hf⟩ := date_fields p d h
  have hb := real_bounds hr
  refine ⟨c, hr, hn, ?_⟩
  have hi : d.isInfinite = false := by unfold Date.isInfinite; simp; omega
  rw [Date.format, hi, if_neg (by simp), hf, Res.bind_ok]
  refine (formatDate_emits p (tm := PgTime.new.setYmd (c.y, c.m, c.d)) ?_ st o).run ?_
  · exact ⟨by simp [PgTime.setYmd]; omega, by simp [PgTime.setYmd]; omega,
      by simp [PgTime.setYmd]; omega⟩
  · have := dateText_len st o (c := c) (by omega) (by omega) (by omega)
    rw [hj]; exact le_trans this (by omega)

/-- **C33.** Formatting a valid finite date is `Ok` in every style and order; the text is that of
the calendar day with the date's number (`dateText`: year with at least four digits, two-digit
month and day in the order of the style, ` BC` exactly for years before 1 AD). -/
theorem C33_text (p : Profile) (junk : Bytes) (hj : junk.length = 128) (c : YMD) (hr : c.Real)
    (h : DateRange (dayNumber c)) (st : DateStyle) (o : DateOrder) :
    (⟨dayNumber c⟩ : Date).format p junk st o = .ok (dateText st o c) := by
  obtain ⟨c', hr', hn, he⟩ := date_format_eq p junk hj ⟨dayNumber c⟩ h st o
  rw [he, dayNumber_inj hr' hr hn]

/-- **C33.** Within a style and order, different dates have different texts. -/
theorem C33_injective (p : Profile) (junk junk' : Bytes) (hj : junk.length = 128)
    (hj' : junk'.length = 128) (d d' : Date) (h : DateRange d.v) (h' : DateRange d'.v)
    (st : DateStyle) (o : DateOrder) (t : Bytes) (e : d.format p junk st o = .ok t)
    (e' : d'.format p junk' st o = .ok t) : d = d' := by
  obtain ⟨c, hr, hn, he⟩ := date_format_eq p junk hj d h st o
  obtain ⟨c', hr', hn', he'⟩ := date_format_eq p junk' hj' d' h' st o
  rw [he] at e; rw [he'] at e'
  injection e with e; injection e' with e'
  have hb := real_bounds hr
  have hb' := real_bounds hr'
  have := dateText_inj st o (by omega) (by omega) (by omega) (by omega) (e.trans e'.symm)
  subst this
  obtain ⟨v⟩ := d; obtain ⟨v'⟩ := d'
  simp only at hn hn'
  rw [← hn, ← hn']

example : (⟨-730130⟩ : Date).format .debug (List.replicate 128 7) .german .ymd =
    .ok b!"21.12.0001 BC" := by decide +kernel
example : (⟨8825⟩ : Date).format .debug (List.replicate 128 7) .postgres .dmy =
    .ok b!"29-02.2024" := by decide +kernel
example : dateText .german .ymd ⟨0, 12, 21⟩ = b!"21.12.0001 BC" ∧ DateRange (dayNumber ⟨0, 12, 21⟩) ∧
    dayNumber ⟨0, 12, 21⟩ = -730130 := by
  refine ⟨?_, by decide, by decide⟩
  simp [dateText, dayText, two, yearText, eraText, padText, natText]

/-! ## C51: times and timestamps -/

/-- **C51.** A time of day up to 24:00 is printed as `hh:mm:ss[.f]`, the clock reading with that
many microseconds. -/
theorem C51_time (p : Profile) (junk : Bytes) (hj : junk.length = 128) (c : Clock)
    (hc : c.Real ∨ c = ⟨24, 0, 0, 0⟩) (st : DateStyle) :
    (⟨c.micros⟩ : Time).format p junk st = .ok (clockText c) := by
  obtain ⟨h, mi, s, us⟩ := c
  have hc' : 0 ≤ h ∧ h ≤ 24 ∧ 0 ≤ mi ∧ mi ≤ 59 ∧ 0 ≤ s ∧ s ≤ 59 ∧ 0 ≤ us ∧ us ≤ 999999 ∧
      (h = 24 → mi = 0 ∧ s = 0 ∧ us = 0) := by
    rcases hc with hc | hc
    · unfold Clock.Real at hc; simp only at hc; omega
    · simp only [Clock.mk.injEq] at hc; omega
  rw [Time.format, time_toPgtime p ⟨_⟩ (by simp only [Clock.micros]; omega)
    (by simp only [Clock.micros, dayMicros]; omega), Res.bind_ok]
  simp only [Clock.micros]
  have e1 : ((((h * 60 + mi) * 60 + s) * 1000000 + us) / 3600000000) = h := by omega
  have e2 : ((((h * 60 + mi) * 60 + s) * 1000000 + us) % 3600000000 / 60000000) = mi := by omega
  have e3 : ((((h * 60 + mi) * 60 + s) * 1000000 + us) % 60000000 / 1000000) = s := by omega
  have e4 : ((((h * 60 + mi) * 60 + s) * 1000000 + us) % 1000000) = us := by omega
  rw [e1, e2, e3, e4]
  refine (putClock_emits p (tm := { PgTime.new with hour := h, min := mi, sec := s }) (fsec := us)
    ?_ ?_ ?_ ?_).run ?_
  · simp only; omega
  · simp only; omega
  · simp only; omega
  · omega
  · have := clockText_len (t := ⟨h, mi, s, us⟩) (by simp only; omega) (by simp only; omega)
      (by simp only; omega) (by simp only; omega)
    rw [hj]; exact le_trans this (by omega)

/-- **C51.** A valid finite timestamp is printed as the calendar day and clock reading of its
instant, in the layout of the style and order (`timestampText`). -/
theorem C51_timestamp (p : Profile) (junk : Bytes) (hj : junk.length = 128) (c : YMD) (t : Clock)
    (hc : c.Real) (ht : t.Real) (h : TsRange (instant c t)) (st : DateStyle) (o : DateOrder) :
    (⟨instant c t⟩ : Timestamp).format p junk st o = .ok (timestampText st o c t) := by
  have h' := (tsRange_iff _).1 h
  obtain ⟨c', hr, hn, hy1, hy2, hf⟩ := fields_spec p h
  have hm := micros_bounds ht
  have hday : dayNumber c' = dayNumber c := by
    rw [hn]; unfold instant dayMicros; omega
  have hcc : c' = c := dayNumber_inj hr hc hday
  subst hcc
  have hcl : clockOf (instant c' t) = t := by
    have : (clockOf (instant c' t)).micros = t.micros := by
      rw [clockOf_micros]; unfold instant dayMicros; omega
    have h1 := clockOf_real (instant c' t)
    generalize clockOf (instant c' t) = u at this h1
    obtain ⟨a1, a2, a3, a4⟩ := t
    obtain ⟨b1, b2, b3, b4⟩ := u
    simp only [Clock.micros, Clock.Real, Clock.mk.injEq] at *
    omega
  rw [hcl] at hf
  have hi : (⟨instant c' t⟩ : Timestamp).isInfinite = false := by
    unfold Timestamp.isInfinite; simp; omega
  rw [Timestamp.format, hi, if_neg (by simp), hf, Res.bind_ok]
  refine Emits.run (w := timestampText st o c' t) ?_ ?_
  · exact (putDateTime_emits p hc ht ⟨hy1, by omega⟩ (by omega) o st).bind (putEra_emits _)
  · rw [hj]; exact timestampText_len st o hc ht ⟨hy1, by omega⟩

example : (⟨762566400123000⟩ : Timestamp).format .debug (List.replicate 128 7) .postgres .mdy =
    .ok b!"Fri Mar 01 00:00:00.123 2024" := by decide +kernel
example : instant ⟨2024, 3, 1⟩ ⟨0, 0, 0, 123000⟩ = 762566400123000 ∧
    TsRange (instant ⟨2024, 3, 1⟩ ⟨0, 0, 0, 123000⟩) := by decide
example : (⟨86400000000⟩ : Time).format .debug (List.replicate 128 7) .iso = .ok b!"24:00:00" := by
  decide +kernel

/-! ## C40 -/

/-- **C40, output.** The infinities are printed as `infinity` and `-infinity` in every style and
order. -/
theorem C40_output (p : Profile) (junk : Bytes) (st : DateStyle) (o : DateOrder) :
    (⟨i32Max⟩ : Date).format p junk st o = .ok b!"infinity" ∧
    (⟨i32Min⟩ : Date).format p junk st o = .ok b!"-infinity" ∧
    (⟨i64Max⟩ : Timestamp).format p junk st o = .ok b!"infinity" ∧
    (⟨i64Min⟩ : Timestamp).format p junk st o = .ok b!"-infinity" := ⟨rfl, rfl, rfl, rfl⟩

/-- **C40, output.** No finite date or timestamp has the text of an infinity. -/
theorem C40_finite (p : Profile) (junk : Bytes) (hj : junk.length = 128) (st : DateStyle)
    (o : DateOrder) (d : Date) (hd : DateRange d.v) (t : Timestamp) (ht : TsRange t.v) :
    d.format p junk st o ≠ .ok b!"infinity" ∧ d.format p junk st o ≠ .ok b!"-infinity" ∧
    t.format p junk st o ≠ .ok b!"infinity" ∧ t.format p junk st o ≠ .ok b!"-infinity" := by
  obtain ⟨c, hr, hn, he⟩ := date_format_eq p junk hj d hd st o
  have hD : ∀ x : Bytes, x.head? = some 105 ∨ x.head? = some 45 → d.format p junk st o ≠ .ok x := by
    intro x hx e
    rw [he] at e; injection e with e
    obtain ⟨y, hy, h1, h2⟩ := dateText_head st o c (eraText c.y)
    rw [dateText] at e
    rw [e] at hy
    rcases hx with hx | hx <;> (rw [hx] at hy; injection hy with hy; omega)
  have hT : ∀ x : Bytes, x.head? = some 105 ∨ x.head? = some 45 → t.format p junk st o ≠ .ok x := by
    intro x hx e
    obtain ⟨c', hr', hn', -⟩ := fields_spec p ht
    have hi := instant_fields hn'
    have := C51_timestamp p junk hj c' (clockOf t.v) hr' (clockOf_real _) (by rw [hi]; exact ht) st o
    rw [hi] at this
    have e' : t.format p junk st o = .ok (timestampText st o c' (clockOf t.v)) := this
    rw [e'] at e; injection e with e
    have hhead : ∃ y, (timestampText st o c' (clockOf t.v)).head? = some y ∧ 48 ≤ y ∧ y ≤ 90 := by
      have hdt : ∀ (st : DateStyle) (r : Bytes), ∃ y, (dayText st o c' ++ r).head? = some y ∧
          48 ≤ y ∧ y ≤ 90 := by
        intro st r
        obtain ⟨y, hy, h1, h2⟩ := dateText_head st o c' r
        exact ⟨y, hy, h1, by omega⟩
      have hdn : ∀ r : Bytes, ∃ y, (dayNameText c' ++ r).head? = some y ∧ 48 ≤ y ∧ y ≤ 90 := by
        intro r
        unfold dayNameText
        have hw : ∀ w : Int, 0 ≤ w → w < 7 → ∃ y, (dayNames.getD w.toNat [] ++ r).head? = some y ∧
            48 ≤ y ∧ y ≤ 90 := by
          intro w h0 h7
          have : w = 0 ∨ w = 1 ∨ w = 2 ∨ w = 3 ∨ w = 4 ∨ w = 5 ∨ w = 6 := by omega
          rcases this with rfl | rfl | rfl | rfl | rfl | rfl | rfl <;> exact ⟨_, rfl, by omega, by omega⟩
        exact hw _ (by omega) (by omega)
      unfold timestampText instantText
      cases st
      case postgres =>
        cases o <;> (simp only [List.append_assoc]; exact hdn _)
      all_goals
        cases o <;> (simp only [List.append_assoc]; exact hdt _ _)
    obtain ⟨y, hy, h1, h2⟩ := hhead
    rw [e] at hy
    rcases hx with hx | hx <;> (rw [hx] at hy; injection hy with hy; omega)
  exact ⟨hD _ (.inl rfl), hD _ (.inr rfl), hT _ (.inl rfl), hT _ (.inr rfl)⟩

example : DateRange 8825 ∧ TsRange 762566400123000 := by decide

end Props
