import Verif.Lemmas.TimeDay

/-!
# Property C80: a time of day in a text that also names a day

A day is three numbers with a separator (`2024-01-02`, `1/2/2024`, `2.1.2024`) or a run of digits; 32 is a space, 84 the
letter `T`. `c` is the state of the thread's keyword caches, `u` the uninitialised type of a lone sign.
-/

namespace Props
open Pg Spec

theorem dayFits_iff {order : DateOrder} {x : Nat} {a b c : Bytes} (h : (DayText.numeric x a b c).Ok) :
    (value a ≤ 2147483647 ∧ value b ≤ 2147483647 ∧ value c ≤ 2147483647) ↔ DayFits order (.numeric x a b c) := by
  have hk : DayFits order (.numeric x a b c) ↔ NumOk a ∧ NumOk b ∧ NumOk c := (assign3_all (P := NumOk)).symm
  obtain ⟨-, h1, h2, h3, -⟩ := h
  rw [hk]
  unfold NumOk
  exact ⟨fun q => ⟨⟨h1.2.2, q.1⟩, ⟨h2.2.2, q.2.1⟩, ⟨h3.2.2, q.2.2⟩⟩, fun q => ⟨q.1.2, q.2.1.2, q.2.2.2⟩⟩

/-- `AM` and `PM` do not change whether a clock time is allowed. -/
theorem clockInput_hour {mer : Option Bool} {h k m s : Nat} {us : Int} (hk : hourOf mer h = some k) :
    ClockInput k m s us ↔ ClockInput h m s us := by
  cases mer with
  | none =>
    simp only [hourOf, Option.some.injEq] at hk
    rw [hk]
  | some pm =>
    simp only [hourOf, hour24] at hk
    split at hk
    · simp only [Option.some.injEq] at hk
      have h1 : k ≤ 23 := by cases pm <;> simp at hk <;> omega
      unfold ClockInput
      constructor
      · rintro ⟨-, g1, g2, -⟩
        exact ⟨by omega, g1, g2, by omega⟩
      · rintro ⟨-, g1, g2, -⟩
        exact ⟨by omega, g1, g2, by omega⟩
    · cases hk

/-- **C80, a day and a clock time.** `Time::try_from_str` of a day with separators, a space and a clock time with
colons, optionally with `AM` or `PM` and ` BC`, answers the clock time if the three numbers name a real day (of any
year) and the clock time is allowed, and an error otherwise. -/
theorem C80_time (p : Profile) (u : TokenField) (c : Caches) (hc : c.Ok) (order : DateOrder) (x : Nat) (a b d : Bytes)
    (hD : (DayText.numeric x a b d).Ok) (T : ClockText) (hT : T.Ok) (hcol : T.colons = true) (mer : Option Bool)
    (t : Bytes) (ht : MeridiemText mer t) (bc : Bool) (text : Bytes)
    (he : text = numericDate x a b d ++ [32] ++ T.bytes ++ t ++ bcMark bc) :
    ∃ us, NearestMicros T.frac us ∧
      match inputDay order a b d bc, hourOf mer T.h with
      | some _, some k =>
        if (value a ≤ 2147483647 ∧ value b ≤ 2147483647 ∧ value d ≤ 2147483647) ∧ ClockInput k T.m T.s us then
          Time.tryFromStr p u c text (-1) order = .ok ⟨clockValue k T.m T.s us⟩
        else (Time.tryFromStr p u c text (-1) order).IsErr
      | _, _ => (Time.tryFromStr p u c text (-1) order).IsErr := by
  refine ⟨clockUs T, clockUs_nearest hT, ?_⟩
  have h := time_day p u hc order bc hD hT hcol ht he
  cases hd : inputDay order a b d bc with
  | none => rw [hd] at h; exact h
  | some day =>
    cases hk : hourOf mer T.h with
    | none => rw [hd, hk] at h; exact h
    | some k =>
      rw [hd, hk] at h
      exact ite_of h (and_congr_left fun _ => dayFits_iff hD)

example : (DayText.numeric 45 b!"2024" b!"02" b!"29").Ok ∧ (ClockText.short b!"04" b!"05").Ok ∧
    inputDay .mdy b!"2024" b!"02" b!"29" false = some ⟨2024, 2, 29⟩ ∧
    Time.tryFromStr .debug .date Caches.new b!"2024-02-29 04:05 pm" (-1) .mdy = .ok ⟨clockValue 16 5 0 0⟩ ∧
    Time.tryFromStr .debug .date Caches.new b!"2023-02-29 04:05 pm" (-1) .mdy = .err .overflow ∧
    Time.tryFromStr .debug .date Caches.new b!"2024-02-29 24:05" (-1) .mdy = .err .overflow := by
  refine ⟨?_, ?_, ?_⟩
  · exact ⟨by decide, by decide, by decide, by decide, by decide⟩
  · exact ⟨by decide, by decide⟩
  · decide +kernel

/-- **C80, the sum.** If a text of this form is read as the date `n` and as the time of day `v`, it is read as the
timestamp `v` microseconds after the start of the day `n` if that is supported, and is an error otherwise. -/
theorem C80_sum (p : Profile) (u : TokenField) (c : Caches) (hc : c.Ok) (order : DateOrder) (x : Nat) (a b d : Bytes)
    (hD : (DayText.numeric x a b d).Ok) (T : ClockText) (hT : T.Ok) (hcol : T.colons = true) (mer : Option Bool)
    (t : Bytes) (ht : MeridiemText mer t) (bc : Bool) (text : Bytes)
    (he : text = numericDate x a b d ++ [32] ++ T.bytes ++ t ++ bcMark bc) (n v : Int)
    (hn : Date.tryFromStr p u c text order = .ok ⟨n⟩) (hv : Time.tryFromStr p u c text (-1) order = .ok ⟨v⟩) :
    (TsRange (n * 86400000000 + v) → Timestamp.tryFromStr p u c text (-1) order = .ok ⟨n * 86400000000 + v⟩) ∧
    (¬ TsRange (n * 86400000000 + v) → (Timestamp.tryFromStr p u c text (-1) order).IsErr) := by
  have e : text = (DayText.numeric x a b d).bytes ++ clkBytes (some (.space, T)) ++ t ++ bcMark bc := by
    rw [he]; simp [clkBytes, DateSep.bytes, DayText.bytes]
  have h1 := date_form (clk := some (.space, T)) p u hc order bc hD hT ht e
  have h2 := timestamp_form (clk := some (.space, T)) p u hc order bc hD hT ht e
  have h3 := time_day p u hc order bc hD hT hcol ht he
  have no : ∀ {α} {r : Res α} {y : α}, r = .ok y → r.IsErr → False := by
    rintro α r y rfl ⟨e, h⟩; cases h
  cases hd : (DayText.numeric x a b d).day order bc with
  | none => rw [hd] at h1; exact (no hn h1).elim
  | some day =>
    have hd' : inputDay order a b d bc = some day := hd
    cases hk : hourOf mer T.h with
    | none => rw [hd', hk] at h3; exact (no hv h3).elim
    | some k =>
      rw [hd] at h1 h2
      rw [hd', hk] at h3
      simp only [clkH, hk] at h1 h2 h3
      split at h1
      swap
      · exact (no hn h1).elim
      · rename_i g1
        split at h3
        swap
        · exact (no hv h3).elim
        · have en : n = dayNumber day := by
            have := hn.symm.trans h1
            injection this with this
            exact congrArg Date.v this
          have ev : v = clockValue k T.m T.s (clockUs T) := by
            have := hv.symm.trans h3
            injection this with this
            exact congrArg Time.v this
          have ei : instant day ⟨k, clkM (some (.space, T)), clkS (some (.space, T)), clkUs (some (.space, T))⟩ =
              n * 86400000000 + v := by
            rw [en, ev]; rfl
          rw [ei] at h2
          constructor
          · intro hr
            rwa [if_pos ⟨g1.1, hr⟩] at h2
          · intro hr
            rwa [if_neg (fun q => hr q.2)] at h2

example : Date.tryFromStr .debug .date Caches.new b!"2/1/1999 04:05 pm BC" .dmy = .ok ⟨dayNumber ⟨-1998, 1, 2⟩⟩ ∧
    Time.tryFromStr .debug .date Caches.new b!"2/1/1999 04:05 pm BC" (-1) .dmy = .ok ⟨clockValue 16 5 0 0⟩ ∧
    Timestamp.tryFromStr .debug .date Caches.new b!"2/1/1999 04:05 pm BC" (-1) .dmy =
      .ok ⟨dayNumber ⟨-1998, 1, 2⟩ * 86400000000 + clockValue 16 5 0 0⟩ := by decide +kernel

/-- **C80, the time of a timestamp.** A text of this form that is read as a timestamp is read as a time of day that
differs from it by whole days. -/
theorem C80_timestamp (p : Profile) (u : TokenField) (c : Caches) (hc : c.Ok) (order : DateOrder) (x : Nat)
    (a b d : Bytes) (hD : (DayText.numeric x a b d).Ok) (T : ClockText) (hT : T.Ok) (hcol : T.colons = true)
    (mer : Option Bool) (t : Bytes) (ht : MeridiemText mer t) (bc : Bool) (text : Bytes)
    (he : text = numericDate x a b d ++ [32] ++ T.bytes ++ t ++ bcMark bc) (s : Int)
    (hs : Timestamp.tryFromStr p u c text (-1) order = .ok ⟨s⟩) :
    ∃ n v, s = n * 86400000000 + v ∧ 0 ≤ v ∧ v ≤ 86401000000 ∧
      Time.tryFromStr p u c text (-1) order = .ok ⟨v⟩ := by
  have e : text = (DayText.numeric x a b d).bytes ++ clkBytes (some (.space, T)) ++ t ++ bcMark bc := by
    rw [he]; simp [clkBytes, DateSep.bytes, DayText.bytes]
  have h2 := timestamp_form (clk := some (.space, T)) p u hc order bc hD hT ht e
  have h3 := time_day p u hc order bc hD hT hcol ht he
  have no : ∀ {α} {r : Res α} {y : α}, r = .ok y → r.IsErr → False := by
    rintro α r y rfl ⟨e, h⟩; cases h
  have hb := clockUs_bounds hT
  cases hd : (DayText.numeric x a b d).day order bc with
  | none => rw [hd] at h2; exact (no hs h2).elim
  | some day =>
    have hd' : inputDay order a b d bc = some day := hd
    cases hk : hourOf mer T.h with
    | none => rw [hd] at h2; simp only [clkH, hk] at h2; exact (no hs h2).elim
    | some k =>
      rw [hd] at h2
      rw [hd', hk] at h3
      simp only [clkH, hk] at h2 h3
      split at h2
      swap
      · exact (no hs h2).elim
      · rename_i g1
        have hci : ClockInput T.h T.m T.s (clockUs T) := g1.1 hcol
        have hck := (clockInput_hour hk).2 hci
        obtain ⟨c1, c2, c3, c4⟩ := id hck
        have hr : day.Real := by rw [day_eq] at hd; exact namedDay_real hd
        have hfit : DayFits order (.numeric x a b d) := by
          by_contra hf
          obtain ⟨-, hbig⟩ := day_big hD hf day hd
          have := dateRange_of_tsRange (t := ⟨k, clkM (some (.space, T)), clkS (some (.space, T)),
            clkUs (some (.space, T))⟩) (by simp only [Clock.micros, clkM, clkS, clkUs]; omega) g1.2 hr
          omega
        rw [if_pos ⟨hfit, hck⟩] at h3
        refine ⟨dayNumber day, clockValue k T.m T.s (clockUs T), ?_, ?_, ?_, h3⟩
        · have := hs.symm.trans h2
          injection this with this
          exact congrArg Timestamp.v this
        · unfold clockValue; omega
        · unfold clockValue
          rw [imp_iff_not_or] at c4
          omega

example : Timestamp.tryFromStr .debug .date Caches.new b!"2024-02-29 24:00" (-1) .dmy = .ok ⟨762566400000000⟩ ∧
    Time.tryFromStr .debug .date Caches.new b!"2024-02-29 24:00" (-1) .dmy = .ok ⟨86400000000⟩ ∧
    762566400000000 = 8825 * 86400000000 + 86400000000 := by decide +kernel

/-- **C80, other forms.** `Time::try_from_str` refuses a day followed by the letter `T`, or by a clock time without
colons, and a day without separators: forms that `Timestamp::try_from_str` reads. It refuses a day after the clock time. -/
theorem C80_refused (p : Profile) (u : TokenField) (c : Caches) (hc : c.Ok) (order : DateOrder) (D : DayText) (hD : D.Ok)
    (T : ClockText) (hT : T.Ok) (mer : Option Bool) (t : Bytes) (ht : MeridiemText mer t) (bc : Bool) (text : Bytes)
    (he : (∃ x a b d, D = .numeric x a b d) ∧ text = D.bytes ++ [84] ++ T.bytes ++ t ++ bcMark bc ∨
      (∃ x a b d, D = .numeric x a b d) ∧ T.colons = false ∧ text = D.bytes ++ [32] ++ T.bytes ++ t ++ bcMark bc ∨
      (∃ x a b d, D = .numeric x a b d) ∧ T.colons = true ∧ text = T.bytes ++ [32] ++ D.bytes ++ bcMark bc ∨
      (∃ ys mm dd, D = .compact ys mm dd) ∧ T.colons = true ∧ text = D.bytes ++ [32] ++ T.bytes ++ t ++ bcMark bc) :
    (Time.tryFromStr p u c text (-1) order).IsErr := by
  rcases he with ⟨⟨x, a, b, d, rfl⟩, he⟩ | ⟨⟨x, a, b, d, rfl⟩, h, he⟩ | ⟨⟨x, a, b, d, rfl⟩, h, he⟩ |
    ⟨⟨ys, mm, dd, rfl⟩, h, he⟩
  · exact time_day_refused p u hc order bc hD hT (sep := .letterT) (Or.inl rfl) ht he
  · exact time_day_refused p u hc order bc hD hT (sep := .space) (Or.inr h) ht he
  · exact time_clock_day p u hc order bc hD hT h he
  · exact time_compact_refused p u hc order bc hD hT h ht he

example : Time.tryFromStr .debug .date Caches.new b!"2024-01-02T04:05:06" (-1) .ymd = .err .invalid ∧
    Timestamp.tryFromStr .debug .date Caches.new b!"2024-01-02T04:05:06" (-1) .ymd = .ok ⟨757483506000000⟩ ∧
    Time.tryFromStr .debug .date Caches.new b!"20240102 04:05:06" (-1) .ymd = .err .invalid ∧
    Timestamp.tryFromStr .debug .date Caches.new b!"20240102 04:05:06" (-1) .ymd = .ok ⟨757483506000000⟩ ∧
    Time.tryFromStr .debug .date Caches.new b!"04:05:06 2024-01-02" (-1) .ymd = .err .invalid ∧
    Time.tryFromStr .debug .date Caches.new b!"2024-01-02 040506" (-1) .ymd = .err .invalid ∧
    Timestamp.tryFromStr .debug .date Caches.new b!"2024-01-02 040506" (-1) .ymd = .ok ⟨757483506000000⟩ := by
  decide +kernel

end Props
