import Verif.Lemmas.Redate
import Verif.Props.Replace

/-!
# Property C102: another numeric date at the beginning moves the value by the days between

`c0` is the state of the thread's keyword caches, `u` the uninitialised type of a lone sign.
-/

namespace Pg
open Spec

/-- The fields of the two texts. -/
theorem redated_scan {a b c a' b' c' s t : Bytes} (h : Redated a b c a' b' c' s t) {u : TokenField} {l : List Field} (hs : scan u s = .ok l) :
    ∃ d d' l2, Redate.DateSwap d d' a b c a' b' c' ∧ l = (.date, numericDate d a b c) :: l2 ∧
      scan u t = .ok ((.date, numericDate d' a' b' c') :: l2) := by
  obtain ⟨⟨w, d, d', r, rfl, rfl, hw, hd, hd', hr⟩, old, new, len, mid, small⟩ := h
  have hd : isSep d := hd
  have hd' : isSep d' := hd'
  refine ⟨d, d', ?_⟩
  obtain ⟨⟨ha, na⟩, ⟨hb, nb⟩, ⟨hc, nc⟩⟩ := old
  obtain ⟨⟨ha', na'⟩, ⟨hb', nb'⟩, ⟨hc', nc'⟩⟩ := new
  have nodig : ∀ y, r.head? = some y → isDigit y = false := fun y hy => by
    rw [Bool.eq_false_iff, ne_eq, isDigit_iff]; exact (hr y hy).1
  have st1 : Stops (fun y => y = d || isDigit y) r := fun y hy => by simp [nodig y hy, (hr y hy).2.1]
  have st2 : Stops (fun y => y = d' || isDigit y) r := fun y hy => by simp [nodig y hy, (hr y hy).2.2]
  obtain ⟨y1, z1, e1, s1, f1⟩ := date_scan u hd ha na hb nb hc st1
  obtain ⟨y2, z2, e2, s2, f2⟩ := date_scan u hd' ha' na' hb' nb' hc' st2
  have ll : (numericDate d' a' b' c').length = (numericDate d a b c).length := by
    obtain ⟨l1, l2, l3⟩ := len
    simp [numericDate, l1, l2, l3]
  have sp : ∀ x ∈ w, isSpace x = true := hw
  have drop : ∀ (fuel : Nat) (y : Nat) (z : Bytes), isSpace y = false → scanLoop u fuel (w ++ y :: z) MAX_DATE_LEN 0 = scanLoop u fuel (y :: z) MAX_DATE_LEN 0 := by
    intro fuel y z hy
    cases fuel with
    | zero => rfl
    | succ n =>
      rw [scanLoop, scanLoop, dropWhile_span sp (Stops.cons hy), dropWhile_stop (Stops.cons hy)]
  have ne : ∀ y z, (w ++ y :: z : Bytes).isEmpty = false := by intro y z; cases w <;> rfl
  have t1 : numericDate d a b c ++ r = y1 :: (z1 ++ r) := by rw [e1]; rfl
  have t2 : numericDate d' a' b' c' ++ r = y2 :: (z2 ++ r) := by rw [e2]; rfl
  have tl : (w ++ y2 :: (z2 ++ r)).length = (w ++ y1 :: (z1 ++ r)).length := by
    rw [← t1, ← t2]; simp [ll]
  rw [t1] at f1 hs
  rw [t2] at f2 ⊢
  unfold scan at hs ⊢
  rw [ne] at hs ⊢
  simp only [Bool.false_eq_true, if_false] at hs ⊢
  rw [tl, drop _ _ _ (startB_noSpace s2)]
  rw [drop _ _ _ (startB_noSpace s1)] at hs
  obtain ⟨l', ⟨l2, rfl, rfl, -⟩, k⟩ := scanLoop_oneWord (u := u) s1 s2 f1 f2 ll _ _ _ _ (by simp; omega) hs
  exact ⟨l2, ⟨hd, hd', ⟨⟨ha, na⟩, ⟨hb, nb⟩, ⟨hc, nc⟩⟩, ⟨⟨ha', na'⟩, ⟨hb', nb'⟩, ⟨hc', nc'⟩⟩, len, mid, small⟩, rfl, k⟩

theorem inputDay_real {order : DateOrder} {a b c : Bytes} {bc : Bool} {day : YMD} (h : inputDay order a b c bc = some day) : day.Real := by
  unfold inputDay namedDay at h
  dsimp only at h
  split at h
  · cases h
  · split at h
    · rename_i hr; cases h; exact hr
    · cases h

end Pg

namespace Props
open Pg Spec

/-- **C102, dates.** -/
theorem C102_date (p : Profile) (u : TokenField) (c0 : Caches) (hc : c0.Ok) (order : DateOrder) (a b c a' b' c' s t : Bytes)
    (h : Redated a b c a' b' c' s t) (v : Date) (hv : Date.tryFromStr p u c0 s order = .ok v) :
    ∃ bc day, (bc = true → Says [b!"bc"] s) ∧ inputDay order a b c bc = some day ∧
      match inputDay order a' b' c' bc with
      | none => (Date.tryFromStr p u c0 t order).IsErr
      | some day' =>
        if v.v = 2147483647 ∨ v.v = -2147483648 then Date.tryFromStr p u c0 t order = .ok v
        else v.v = dayNumber day ∧ Date.tryFromStr p u c0 t order = if DateRange (dayNumber day') then .ok ⟨dayNumber day'⟩ else .err .invalid := by
  obtain ⟨l, d, h1, h2, h3⟩ := date_decoded hc hv
  obtain ⟨x, x', l2, w, rfl, k⟩ := redated_scan h h1
  obtain ⟨bc, day, k1, k2, ⟨k3, k4, k5⟩, k6⟩ := Redate.decode w (scan_wordAt h1) h2
  refine ⟨bc, day, k1, k2, ?_⟩
  cases hd : inputDay order a' b' c' bc with
  | none =>
    rw [hd] at k6
    obtain ⟨⟨s', _⟩, k6⟩ := k6
    dsimp only
    rw [date_run p u hc order k k6]
    exact ⟨_, rfl⟩
  | some day' =>
    rw [hd] at k6
    dsimp only at k6 ⊢
    rw [date_run p u hc order k k6, Res.bind_ok]
    rcases date_kind h3 with ⟨e, n1, n2⟩ | ⟨e, e'⟩ | ⟨e, e'⟩
    · rw [if_neg (by omega)]
      rw [date_ofDec p e k3 k4 k5 (inputDay_real k2)] at h3
      refine ⟨?_, date_ofDec p (d := dayD (Redate.ofDay day') d) e rfl rfl rfl (inputDay_real hd)⟩
      split at h3
      · cases h3; rfl
      · cases h3
    · rw [if_pos (Or.inl e'), ← h3]
      unfold Date.ofDec
      simp only [dayD, e]
    · rw [if_pos (Or.inr e'), ← h3]
      unfold Date.ofDec
      simp only [dayD, e]

/-- **C102, timestamps.** -/
theorem C102_timestamp (p : Profile) (u : TokenField) (c0 : Caches) (hc : c0.Ok) (order : DateOrder) (a b c a' b' c' s t : Bytes)
    (h : Redated a b c a' b' c' s t) (hl : ¬ Says clockLabels s) (v : Timestamp) (hv : Timestamp.tryFromStr p u c0 s (-1) order = .ok v) :
    ∃ bc day, (bc = true → Says [b!"bc"] s) ∧ inputDay order a b c bc = some day ∧
      match inputDay order a' b' c' bc with
      | none => (Timestamp.tryFromStr p u c0 t (-1) order).IsErr
      | some day' =>
        if v.v = 9223372036854775807 ∨ v.v = -9223372036854775808 then Timestamp.tryFromStr p u c0 t (-1) order = .ok v
        else if TsRange (v.v + (dayNumber day' - dayNumber day) * 86400000000) then
          Timestamp.tryFromStr p u c0 t (-1) order = .ok ⟨v.v + (dayNumber day' - dayNumber day) * 86400000000⟩
        else (Timestamp.tryFromStr p u c0 t (-1) order).IsErr := by
  obtain ⟨l, d, x, h1, h2, h3, h4⟩ := timestamp_decoded hc hv
  have kind := timestamp_kind h3 h4
  rw [timestamp_noTypmod] at h4
  cases h4
  have hin := decode_in (N := 99) (by omega) (by omega) (scan_good h1 (fun _ => hl)) h2
  obtain ⟨c1, c2, c3, c4⟩ := hin
  obtain ⟨x, x', l2, w, rfl, k⟩ := redated_scan h h1
  obtain ⟨bc, day, k1, k2, ⟨k3, k4, k5⟩, k6⟩ := Redate.decode w (scan_wordAt h1) h2
  refine ⟨bc, day, k1, k2, ?_⟩
  have fin : ∀ r : Res Timestamp, (r >>= fun t => t.adjustByTypmod p (-1)) = r := by
    intro r
    cases r with
    | ok t => exact timestamp_noTypmod p t
    | err e => rfl
    | panic => rfl
  cases hd : inputDay order a' b' c' bc with
  | none =>
    rw [hd] at k6
    obtain ⟨⟨s', _⟩, k6⟩ := k6
    dsimp only
    rw [timestamp_run p u hc (-1) order k k6]
    exact ⟨_, rfl⟩
  | some day' =>
    rw [hd] at k6
    dsimp only at k6 ⊢
    rw [timestamp_run p u hc (-1) order k k6, Res.bind_ok, fin]
    rcases kind with ⟨e, n1, n2⟩ | ⟨e, e'⟩ | ⟨e, e'⟩
    · rw [if_neg (by omega)]
      have o1 := timestamp_ofDec p (t := ⟨d.tm.hour, d.tm.min, d.tm.sec, d.fSec⟩) e k3 k4 k5 rfl rfl rfl rfl (inputDay_real k2) c1 c2 c3 c4
      have o2 := timestamp_ofDec p (d := dayD (Redate.ofDay day') d) (c := day') (t := ⟨d.tm.hour, d.tm.min, d.tm.sec, d.fSec⟩) e rfl rfl rfl rfl rfl rfl rfl (inputDay_real hd) c1 c2 c3 c4
      rw [h3] at o1
      split at o1
      · cases o1
        have e2 : instant day ⟨d.tm.hour, d.tm.min, d.tm.sec, d.fSec⟩ + (dayNumber day' - dayNumber day) * 86400000000 =
            instant day' ⟨d.tm.hour, d.tm.min, d.tm.sec, d.fSec⟩ := by
          unfold instant dayMicros
          omega
        rw [e2]
        exact o2
      · obtain ⟨_, o1⟩ := o1
        cases o1
    · rw [if_pos (Or.inl e'), ← h3]
      unfold Timestamp.ofDec
      simp only [dayD, e]
    · rw [if_pos (Or.inr e'), ← h3]
      unfold Timestamp.ofDec
      simp only [dayD, e]

/-- **C102, times.** -/
theorem C102_time (p : Profile) (u : TokenField) (c0 : Caches) (hc : c0.Ok) (typmod : Int) (order : DateOrder) (a b c a' b' c' s t : Bytes)
    (h : Redated a b c a' b' c' s t) (v : Time) (hv : Time.tryFromStr p u c0 s typmod order = .ok v) :
    ∃ bc day, (bc = true → Says [b!"bc"] s) ∧ inputDay order a b c bc = some day ∧
      match inputDay order a' b' c' bc with
      | none => (Time.tryFromStr p u c0 t typmod order).IsErr
      | some _ => Time.tryFromStr p u c0 t typmod order = .ok v := by
  obtain ⟨l, d, x, h1, h2, h3, h4⟩ := time_decoded hc hv
  obtain ⟨y, y', l2, w, rfl, k⟩ := redated_scan h h1
  obtain ⟨bc, day, k1, k2, k6⟩ := Redate.decodeT w (scan_wordAt h1) h2
  refine ⟨bc, day, k1, k2, ?_⟩
  cases hd : inputDay order a' b' c' bc with
  | none =>
    rw [hd] at k6
    obtain ⟨⟨s', _⟩, k6⟩ := k6
    dsimp only
    rw [time_run p u hc typmod order k k6]
    exact ⟨_, rfl⟩
  | some day' =>
    rw [hd] at k6
    dsimp only at k6 ⊢
    rw [time_run p u hc typmod order k k6, Res.bind_ok]
    have e : Time.fromPgtime p (dayD (Redate.ofDay day') d).tm (dayD (Redate.ofDay day') d).fSec = Time.fromPgtime p d.tm d.fSec := rfl
    rw [e, h3, Res.bind_ok, h4]

/-! ## Cases -/

/-- Another day in an ISO 8601 text; the separators differ. -/
example : Redated b!"2024" b!"02" b!"28" b!"0044" b!"03" b!"15" b!" 2024-02-28T08:30:00 BC" b!" 0044/03/15T08:30:00 BC" := by
  refine ⟨⟨b!" ", 45, 47, b!"T08:30:00 BC", by decide, by decide, by unfold White; decide, by unfold Separator; decide, by unfold Separator; decide, ?_⟩,
    by unfold ThreeNumbers Digits; decide, by unfold ThreeNumbers Digits; decide, by decide, by decide, by decide⟩
  intro y hy; cases hy; unfold Digit; decide
example (p : Profile) :
    Timestamp.tryFromStr p .number Caches.new b!" 2024-02-28T08:30:00 BC" (-1) .mdy = .ok ⟨instant ⟨-2023, 2, 28⟩ ⟨8, 30, 0, 0⟩⟩ ∧
    Timestamp.tryFromStr p .number Caches.new b!" 0044/03/15T08:30:00 BC" (-1) .mdy = .ok ⟨instant ⟨-43, 3, 15⟩ ⟨8, 30, 0, 0⟩⟩ ∧
    instant ⟨-2023, 2, 28⟩ ⟨8, 30, 0, 0⟩ + (dayNumber ⟨-43, 3, 15⟩ - dayNumber ⟨-2023, 2, 28⟩) * 86400000000 = instant ⟨-43, 3, 15⟩ ⟨8, 30, 0, 0⟩ := by
  cases p <;> decide +kernel
/-- A day that does not exist. -/
example : Redated b!"29" b!"2" b!"2024" b!"29" b!"2" b!"2023" b!"29.2.2024 10:00" b!"29.2.2023 10:00" := by
  refine ⟨⟨[], 46, 46, b!" 10:00", by decide, by decide, by unfold White; decide, by unfold Separator; decide, by unfold Separator; decide, ?_⟩,
    by unfold ThreeNumbers Digits; decide, by unfold ThreeNumbers Digits; decide, by decide, by decide, by decide⟩
  intro y hy; cases hy; unfold Digit; decide
example (p : Profile) :
    Time.tryFromStr p .number Caches.new b!"29.2.2024 10:00" (-1) .dmy = .ok ⟨36000000000⟩ ∧
    Time.tryFromStr p .number Caches.new b!"29.2.2023 10:00" (-1) .dmy = .err .overflow ∧
    inputDay .dmy b!"29" b!"2" b!"2023" false = none := by
  cases p <;> decide +kernel
/-- The last day of the year 5874897 is a date, but no timestamp. -/
example (p : Profile) :
    Date.tryFromStr p .number Caches.new b!"0294276-12-31 infinity" .mdy = .ok ⟨2147483647⟩ ∧
    Date.tryFromStr p .number Caches.new b!"5874897-12-31 infinity" .mdy = .ok ⟨2147483647⟩ ∧
    (∃ v, Timestamp.tryFromStr p .number Caches.new b!"0294276-12-31" (-1) .mdy = .ok v) ∧
    (Timestamp.tryFromStr p .number Caches.new b!"5874897-12-31" (-1) .mdy).IsErr := by
  refine ⟨by cases p <;> decide +kernel, by cases p <;> decide +kernel, ⟨⟨instant ⟨294276, 12, 31⟩ ⟨0, 0, 0, 0⟩⟩, by cases p <;> decide +kernel⟩, ?_⟩
  cases p
  · exact ⟨.overflow, by decide +kernel⟩
  · exact ⟨.overflow, by decide +kernel⟩

end Props
