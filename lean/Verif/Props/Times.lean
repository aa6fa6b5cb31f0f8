import Verif.Lemmas.Timestamp
import Verif.Spec.Interval

/-!
# Properties C20 – C23 (and the `Time` part of C49): times of day, rounding, interval field ranges
-/

namespace Props
open Pg Spec

/-! ## C20 -/

theorem time_mod_tail (p : Profile) {r : Int} (h : In64 r) :
    (do
      let s ← chk64 p (Int.tdiv r 86400000000 * 86400000000)
      let result ← chk64 p (r - s)
      Time.wrapNegative p result) = .ok ⟨r % 86400000000⟩ := by
  unfold In64 at h
  have := tdiv_or r 86400000000
  rw [chk64_ok (by omega), Res.bind_ok, chk64_ok (by omega), Res.bind_ok]
  unfold Time.wrapNegative
  split
  · rw [chk64_ok (by omega), Res.bind_ok, Res.pure_eq]
    simp only [Res.ok.injEq, Time.mk.injEq]; omega
  · simp only [Res.ok.injEq, Time.mk.injEq]; omega

theorem time_add_eq (p : Profile) (t : Time) (a : Interval) :
    t.addInterval p a = .ok ⟨wrap64 (t.v + a.time) % 86400000000⟩ :=
  time_mod_tail p (wrap64_in _)

theorem time_sub_eq (p : Profile) (t : Time) (a : Interval) :
    t.subInterval p a = .ok ⟨wrap64 (t.v - a.time) % 86400000000⟩ :=
  time_mod_tail p (wrap64_in _)

/-- **C20.** Adding or subtracting an interval never panics and gives a time of day below 24:00. -/
theorem C20_total (p : Profile) (t : Time) (a : Interval) :
    (∃ r, t.addInterval p a = .ok r ∧ 0 ≤ r.v ∧ r.v < dayMicros) ∧
    (∃ r, t.subInterval p a = .ok r ∧ 0 ≤ r.v ∧ r.v < dayMicros) := by
  refine ⟨⟨_, time_add_eq p t a, ?_⟩, ⟨_, time_sub_eq p t a, ?_⟩⟩ <;>
  · unfold dayMicros; simp only; omega

/-- **C20.** The result is the exact sum or difference modulo 24 hours when that fits 64 bits;
months and days are ignored. -/
theorem C20_modular (p : Profile) (t : Time) (a : Interval) :
    (In64 (t.v + a.time) → t.addInterval p a = .ok ⟨(t.v + a.time) % dayMicros⟩) ∧
    (In64 (t.v - a.time) → t.subInterval p a = .ok ⟨(t.v - a.time) % dayMicros⟩) ∧
    (∀ m d, t.addInterval p ⟨m, d, a.time⟩ = t.addInterval p a ∧
      t.subInterval p ⟨m, d, a.time⟩ = t.subInterval p a) := by
  refine ⟨fun h => ?_, fun h => ?_, fun m d => ⟨rfl, rfl⟩⟩
  · rw [time_add_eq, wrap64_of_in h]; rfl
  · rw [time_sub_eq, wrap64_of_in h]; rfl

/-- **C20.** Subtracting undoes adding for a time of day below 24:00. -/
theorem C20_sub_undoes_add (p : Profile) (t r : Time) (a : Interval) (h0 : 0 ≤ t.v)
    (h1 : t.v < dayMicros) (hs : In64 (t.v + a.time)) (hd : In64 (r.v - a.time))
    (h : t.addInterval p a = .ok r) : r.subInterval p a = .ok t := by
  rw [(C20_modular p t a).1 hs] at h
  injection h with h
  rw [(C20_modular p r a).2.1 hd, ← h]
  unfold dayMicros at *
  simp only [show ((t.v + a.time) % 86400000000 - a.time) % 86400000000 = t.v by omega]

example : In64 (82800000000 + 7200000000) ∧
    (⟨82800000000⟩ : Time).addInterval .debug ⟨5, 5, 7200000000⟩ = .ok ⟨3600000000⟩ ∧
    In64 (3600000000 - 7200000000) ∧
    (⟨3600000000⟩ : Time).subInterval .debug ⟨5, 5, 7200000000⟩ = .ok ⟨82800000000⟩ := by decide

/-! ## C21 -/

/-- **C21** (for interval times not within a day of the most negative 64-bit value). `Time::from`
an interval is the time of day congruent to the interval's time modulo 24 hours. Missing: times
below `-(2^63 - 1 - 86400000000)`, where the property is false (see `C21_violated`). -/
theorem C21_partial (p : Profile) (a : Interval) (h : In64 a.time)
    (hlow : -(9223372036854775807 - dayMicros) ≤ a.time) :
    Time.ofInterval p a = .ok ⟨a.time % dayMicros⟩ := by
  unfold In64 at h
  unfold dayMicros at *
  unfold Time.ofInterval
  split
  · have := tdiv_or a.time 86400000000
    rw [chk64_ok (by omega), Res.bind_ok, chk64_ok (by omega)]
    simp only [Res.bind_ok, Res.pure_eq, Res.ok.injEq, Time.mk.injEq]; omega
  · split
    · have := tdiv_or (-a.time + 86400000000 - 1) 86400000000
      rw [chk64_ok (by omega), Res.bind_ok, chk64_ok (by omega), Res.bind_ok, chk64_ok (by omega),
        Res.bind_ok, chk64_ok (by omega), Res.bind_ok, chk64_ok (by omega)]
      simp only [Res.bind_ok, Res.pure_eq, Res.ok.injEq, Time.mk.injEq]; omega
    · simp only [Res.ok.injEq, Time.mk.injEq]; omega

/-- **C21.** Converting a time to an interval and back is the identity below 24:00. -/
theorem C21_round_trip (p : Profile) (t : Time) (h0 : 0 ≤ t.v) (h1 : t.v < dayMicros) :
    (Interval.ofTime t).month = 0 ∧ (Interval.ofTime t).day = 0 ∧ (Interval.ofTime t).time = t.v ∧
    Time.ofInterval p (Interval.ofTime t) = .ok t := by
  refine ⟨rfl, rfl, rfl, ?_⟩
  unfold dayMicros at h1
  rw [C21_partial p _ (by unfold In64 Interval.ofTime; simp only; omega)
    (by unfold Interval.ofTime dayMicros; simp only; omega)]
  unfold Interval.ofTime dayMicros
  simp only [show t.v % 86400000000 = t.v by omega]

/-- **C21 is violated** at the most negative interval time: panic in debug builds, a result
beyond 24:00 (and not the remainder) in release builds. -/
theorem C21_violated :
    Time.ofInterval .debug ⟨0, 0, -9223372036854775808⟩ = .panic ∧
    Time.ofInterval .release ⟨0, 0, -9223372036854775808⟩ = .ok ⟨100854775808⟩ ∧
    -9223372036854775808 % dayMicros = 71945224192 ∧ dayMicros < 100854775808 := by
  decide

example : Time.ofInterval .debug ⟨3, 4, -7200000000⟩ = .ok ⟨79200000000⟩ := by decide

/-! ## C22 -/

/-- Unit of fractional-second precision `n`: `10^(6-n)` microseconds. -/
def precisionUnit (n : Nat) : Int := 10 ^ (6 - n)

theorem roundScale_eq (p : Profile) {v s o : Int} (hs : 1 ≤ s) (hs' : s ≤ 1000000) (ho : o = s / 2)
    (hodd : s = 1 ∨ s % 2 = 0)
    (hv : -9223372036853775807 ≤ v ∧ v ≤ 9223372036853775807)
    (hlit : s = 1 ∨ s = 10 ∨ s = 100 ∨ s = 1000 ∨ s = 10000 ∨ s = 100000 ∨ s = 1000000) :
    ∃ r, Interval.roundScale p v s o = .ok r ∧ Nearest s v r := by
  unfold Interval.roundScale Nearest
  split
  · have hd := tdiv_nn (a := v + o) (b := s) (by omega)
    rw [chk64_ok (by omega), Res.bind_ok, hd]
    rcases hlit with rfl | rfl | rfl | rfl | rfl | rfl | rfl <;>
    · rw [chk64_ok (by omega)]
      refine ⟨_, rfl, ?_⟩
      omega
  · have hd := tdiv_nn (a := -v + o) (b := s) (by omega)
    rw [chk64_ok (by omega), Res.bind_ok, chk64_ok (by omega), Res.bind_ok, hd]
    rcases hlit with rfl | rfl | rfl | rfl | rfl | rfl | rfl <;>
    · rw [chk64_ok (by omega), Res.bind_ok, chk64_ok (by omega)]
      refine ⟨_, rfl, ?_⟩
      omega

theorem roundTo_eq (p : Profile) {v : Int} {n : Nat} (hn : n ≤ 6)
    (hv : -9223372036853775807 ≤ v ∧ v ≤ 9223372036853775807) :
    ∃ r, Interval.roundTo p v n = .ok r ∧ Nearest (precisionUnit n) v r := by
  have hc : n = 0 ∨ n = 1 ∨ n = 2 ∨ n = 3 ∨ n = 4 ∨ n = 5 ∨ n = 6 := by omega
  rcases hc with rfl | rfl | rfl | rfl | rfl | rfl | rfl
  · exact roundScale_eq p (s := 1000000) (o := 500000) (by omega) (by omega) (by omega) (by omega) hv (by omega)
  · exact roundScale_eq p (s := 100000) (o := 50000) (by omega) (by omega) (by omega) (by omega) hv (by omega)
  · exact roundScale_eq p (s := 10000) (o := 5000) (by omega) (by omega) (by omega) (by omega) hv (by omega)
  · exact roundScale_eq p (s := 1000) (o := 500) (by omega) (by omega) (by omega) (by omega) hv (by omega)
  · exact roundScale_eq p (s := 100) (o := 50) (by omega) (by omega) (by omega) (by omega) hv (by omega)
  · exact roundScale_eq p (s := 10) (o := 5) (by omega) (by omega) (by omega) (by omega) hv (by omega)
  · exact roundScale_eq p (s := 1) (o := 0) (by omega) (by omega) (by omega) (by omega) hv (by omega)

/-- Units occurring as precisions. -/
theorem precisionUnit_cases {n : Nat} (hn : n ≤ 6) : precisionUnit n = 1 ∨ precisionUnit n = 10 ∨
    precisionUnit n = 100 ∨ precisionUnit n = 1000 ∨ precisionUnit n = 10000 ∨
    precisionUnit n = 100000 ∨ precisionUnit n = 1000000 := by
  have hc : n = 0 ∨ n = 1 ∨ n = 2 ∨ n = 3 ∨ n = 4 ∨ n = 5 ∨ n = 6 := by omega
  rcases hc with rfl | rfl | rfl | rfl | rfl | rfl | rfl <;> decide

/-- **C22** (specification level). Rounding to the nearest multiple is a well-defined function of
the value, idempotent, monotone and odd. -/
theorem C22_nearest_laws (n : Nat) (hn : n ≤ 6) (v w r s : Int)
    (hv : Nearest (precisionUnit n) v r) (hw : Nearest (precisionUnit n) w s) :
    (v = w → r = s) ∧ (v ≤ w → r ≤ s) ∧ (w = -v → s = -r) ∧ Nearest (precisionUnit n) r r ∧
    (w = r → s = r) := by
  unfold Nearest at *
  have hc := precisionUnit_cases hn
  generalize precisionUnit n = k at *
  rcases hc with rfl | rfl | rfl | rfl | rfl | rfl | rfl <;> omega

/-- **C22** for `Time`. -/
theorem C22_time (p : Profile) (t : Time) (n : Nat) (hn : n ≤ 6)
    (hv : -9223372036853775807 ≤ t.v ∧ t.v ≤ 9223372036853775807) :
    (∃ r, t.adjustByTypmod p n = .ok r ∧ Nearest (precisionUnit n) t.v r.v) ∧
    t.adjustByTypmod p 6 = .ok t ∧ t.adjustByTypmod p (-1) = .ok t := by
  have key : ∀ k : Nat, k ≤ 6 →
      ∃ r, t.adjustByTypmod p k = .ok r ∧ Nearest (precisionUnit k) t.v r.v := by
    intro k hk
    obtain ⟨r, e, h⟩ := roundTo_eq p hk hv
    refine ⟨⟨r⟩, ?_, h⟩
    unfold Time.adjustByTypmod
    rw [if_pos (by omega), e]; rfl
  refine ⟨key n hn, ?_, ?_⟩
  · obtain ⟨r, e, h⟩ := key 6 (by omega)
    change t.adjustByTypmod p 6 = _ at e
    rw [e]
    unfold Nearest at h
    rw [show precisionUnit 6 = 1 from by decide] at h
    obtain ⟨_⟩ := t; obtain ⟨_⟩ := r
    simp only [Res.ok.injEq, Time.mk.injEq]; simp only at h; omega
  · unfold Time.adjustByTypmod; rw [if_neg (by omega)]

/-- **C22** for `Timestamp` (the "stays in range" claim is missing: see `C22_violated`; it does
hold up to the last half unit before the end of the range). -/
theorem C22_timestamp_partial (p : Profile) (t : Timestamp) (n : Nat) (hn : n ≤ 6) (h : TsRange t.v) :
    (∃ r, t.adjustByTypmod p n = .ok r ∧ Nearest (precisionUnit n) t.v r.v ∧
      (t.v + 500000 < 9223371331200000000 → TsRange r.v)) ∧
    t.adjustByTypmod p 6 = .ok t ∧ t.adjustByTypmod p (-1) = .ok t := by
  have h' := (tsRange_iff _).1 h
  have hi : t.isInfinite = false := by unfold Timestamp.isInfinite; simp; omega
  refine ⟨?_, ?_, ?_⟩
  · obtain ⟨r, e, hne⟩ := roundTo_eq p (v := t.v) hn (by omega)
    by_cases h6 : n = 6
    · subst h6
      refine ⟨t, ?_, by rw [show precisionUnit 6 = 1 from by decide]; unfold Nearest; omega, fun _ => h⟩
      unfold Timestamp.adjustByTypmod
      rw [if_neg (by simp)]
    · refine ⟨⟨r⟩, ?_, hne, ?_⟩
      · unfold Timestamp.adjustByTypmod
        rw [hi, if_pos (by refine ⟨by simp, by omega, by omega⟩), if_neg (by omega), e]; rfl
      · intro hlt
        rw [tsRange_iff]
        unfold Nearest at hne
        have := precisionUnit_cases hn
        rcases this with h | h | h | h | h | h | h <;> rw [h] at hne <;> simp only <;> omega
  · unfold Timestamp.adjustByTypmod; rw [if_neg (by simp)]
  · unfold Timestamp.adjustByTypmod; rw [if_neg (by simp)]

/-- **C22 is violated**: the last valid timestamp rounded to whole seconds leaves the range. -/
theorem C22_violated (p : Profile) :
    TsRange 9223371331199999999 ∧
    (⟨9223371331199999999⟩ : Timestamp).adjustByTypmod p 0 = .ok ⟨9223371331200000000⟩ ∧
    ¬ TsRange 9223371331200000000 := by
  refine ⟨by decide, ?_, by decide⟩
  cases p <;> decide

/-- Typmod value with the full field range and precision `n` (`0x7FFF << 16 | n`). -/
def intervalTypmod (range n : Nat) : Int := ((range * 65536 + n : Nat) : Int)

theorem intervalRange_typmod {range n : Nat} (hr : range < 32768) (hn : n < 65536) :
    Interval.intervalRange (intervalTypmod range n) = range ∧
    Interval.intervalPrecision (intervalTypmod range n) = n := by
  unfold Interval.intervalRange Interval.intervalPrecision intervalTypmod
  rw [Int.toNat_natCast, Nat.shiftRight_eq_div_pow,
    show (0x7FFF : Nat) = 2 ^ 15 - 1 from rfl, Nat.and_two_pow_sub_one_eq_mod,
    show (0xFFFF : Nat) = 2 ^ 16 - 1 from rfl, Nat.and_two_pow_sub_one_eq_mod]
  omega

/-- **C22** for `Interval`: the time part is rounded, months and days are kept. -/
theorem C22_interval (p : Profile) (a : Interval) (n : Nat) (hn : n ≤ 6)
    (hv : -9223372036853775807 ≤ a.time ∧ a.time ≤ 9223372036853775807) :
    (∃ r, a.adjustByTypmod p (intervalTypmod 0x7FFF n) = .ok r ∧ r.month = a.month ∧ r.day = a.day ∧
      Nearest (precisionUnit n) a.time r.time) ∧
    a.adjustByTypmod p (intervalTypmod 0x7FFF 0xFFFF) = .ok a ∧ a.adjustByTypmod p (-1) = .ok a := by
  refine ⟨?_, ?_, ?_⟩
  · obtain ⟨r, e, h⟩ := roundTo_eq p hn hv
    refine ⟨⟨a.month, a.day, r⟩, ?_, rfl, rfl, h⟩
    obtain ⟨e1, e2⟩ := intervalRange_typmod (range := 0x7FFF) (n := n) (by omega) (by omega)
    unfold Interval.adjustByTypmod
    rw [if_pos (by unfold intervalTypmod; omega), e1, e2]
    simp only [Interval.adjustRange, if_true, Res.bind_ok]
    rw [if_pos (by omega), if_neg (by omega), e]; rfl
  · obtain ⟨e1, e2⟩ := intervalRange_typmod (range := 0x7FFF) (n := 0xFFFF) (by omega) (by omega)
    unfold Interval.adjustByTypmod
    rw [if_pos (by unfold intervalTypmod; omega), e1, e2]
    rfl
  · unfold Interval.adjustByTypmod; rw [if_neg (by omega)]

/-- Precisions above 6 in an interval typmod are rejected. -/
theorem C22_interval_bad_precision (p : Profile) (a : Interval) (n : Nat) (h6 : 6 < n)
    (hn : n < 65535) : (a.adjustByTypmod p (intervalTypmod 0x7FFF n)).IsErr := by
  obtain ⟨e1, e2⟩ := intervalRange_typmod (range := 0x7FFF) (n := n) (by omega) (by omega)
  unfold Interval.adjustByTypmod
  rw [if_pos (by unfold intervalTypmod; omega), e1, e2]
  simp only [Interval.adjustRange, if_true, Res.bind_ok]
  rw [if_pos (by omega), if_pos (by omega)]
  exact ⟨_, rfl⟩

example : Nearest (precisionUnit 3) (-1500) (-2000) ∧ ¬ Nearest (precisionUnit 3) (-1500) (-1000) ∧
    (⟨1, 2, -1500⟩ : Interval).adjustByTypmod .debug (intervalTypmod 0x7FFF 3) = .ok ⟨1, 2, -2000⟩ ∧
    (⟨1499⟩ : Time).adjustByTypmod .debug 3 = .ok ⟨1000⟩ ∧
    (⟨-2500⟩ : Timestamp).adjustByTypmod .debug 3 = .ok ⟨-3000⟩ := by decide

/-! ## C23 -/

theorem truncZero_tdiv {u : Int} (hu : u = 12 ∨ u = 3600000000 ∨ u = 60000000) (v : Int) :
    TruncZero u v (Int.tdiv v u * u) := by
  unfold TruncZero
  rcases hu with rfl | rfl | rfl
  · have := tdiv_or v 12; omega
  · have := tdiv_or v 3600000000; omega
  · have := tdiv_or v 60000000; omega

/-- Behaviour of the range step on every range code. -/
theorem adjustRange_spec (a : Interval) (range : Nat) (hf : range ≠ 0x7FFF) :
    (∀ f g, SqlRange f g → rangeMask f g = range →
      ∃ r, a.adjustRange range = .ok r ∧ ClearBelow g a.month a.day a.time r.month r.day r.time) ∧
    ((∀ f g, SqlRange f g → rangeMask f g ≠ range) → (a.adjustRange range).IsErr) := by
  constructor
  · intro f g hs he
    subst he
    cases f <;> cases g <;> first
      | (exact absurd hs (by decide))
      | (refine ⟨_, rfl, ?_⟩
         simp only [ClearBelow, truncZero_tdiv, true_or, or_true, and_self])
  · intro h
    have hy := h .year .year (by decide)
    have h2 := h .month .month (by decide)
    have h3 := h .year .month (by decide)
    have h4 := h .day .day (by decide)
    have h5 := h .hour .hour (by decide)
    have h6 := h .minute .minute (by decide)
    have h7 := h .second .second (by decide)
    have h8 := h .day .hour (by decide)
    have h9 := h .day .minute (by decide)
    have h10 := h .day .second (by decide)
    have h11 := h .hour .minute (by decide)
    have h12 := h .hour .second (by decide)
    have h13 := h .minute .second (by decide)
    change 4 ≠ range at hy
    change 2 ≠ range at h2
    change 6 ≠ range at h3
    change 8 ≠ range at h4
    change 1024 ≠ range at h5
    change 2048 ≠ range at h6
    change 4096 ≠ range at h7
    change 1032 ≠ range at h8
    change 3080 ≠ range at h9
    change 7176 ≠ range at h10
    change 3072 ≠ range at h11
    change 7168 ≠ range at h12
    change 6144 ≠ range at h13
    unfold Interval.adjustRange
    simp only [show (4 ||| 2 : Nat) = 6 from rfl, show (8 ||| 1024 : Nat) = 1032 from rfl,
      show (1032 ||| 2048 : Nat) = 3080 from rfl, show (3080 ||| 4096 : Nat) = 7176 from rfl,
      show (1024 ||| 2048 : Nat) = 3072 from rfl, show (3072 ||| 4096 : Nat) = 7168 from rfl,
      show (2048 ||| 4096 : Nat) = 6144 from rfl]
    repeat rw [if_neg (by omega)]
    exact ⟨_, rfl⟩

/-- **C23.** With a field range in the typmod (and full precision): an SQL range clears exactly the
fields below its last field, truncating that field toward zero; any other code is an error. -/
theorem C23_field_range (p : Profile) (a : Interval) (range : Nat) (hr : range < 0x7FFF) :
    (∀ f g, SqlRange f g → rangeMask f g = range →
      ∃ r, a.adjustByTypmod p (intervalTypmod range 0xFFFF) = .ok r ∧
        ClearBelow g a.month a.day a.time r.month r.day r.time ∧
        r.adjustByTypmod p (intervalTypmod range 0xFFFF) = .ok r) ∧
    ((∀ f g, SqlRange f g → rangeMask f g ≠ range) →
      (a.adjustByTypmod p (intervalTypmod range 0xFFFF)).IsErr) := by
  obtain ⟨e1, e2⟩ := intervalRange_typmod (range := range) (n := 0xFFFF) (by omega) (by omega)
  have hadj : ∀ x : Interval, x.adjustByTypmod p (intervalTypmod range 0xFFFF) =
      x.adjustRange range := by
    intro x
    unfold Interval.adjustByTypmod
    rw [if_pos (by unfold intervalTypmod; omega), e1, e2]
    simp only []
    cases hx : x.adjustRange range <;> rfl
  constructor
  · intro f g hs he
    obtain ⟨r, hre, hcl⟩ := (adjustRange_spec a range (by omega)).1 f g hs he
    refine ⟨r, by rw [hadj, hre], hcl, ?_⟩
    obtain ⟨r', hre', hcl'⟩ := (adjustRange_spec r range (by omega)).1 f g hs he
    rw [hadj, hre']
    obtain ⟨_, _, _⟩ := r
    obtain ⟨_, _, _⟩ := r'
    cases g <;> simp only [ClearBelow, TruncZero] at hcl hcl' <;>
      simp only [Res.ok.injEq, Interval.mk.injEq] <;> omega
  · intro h
    rw [hadj]
    exact (adjustRange_spec a range (by omega)).2 h

example : SqlRange .day .minute ∧ rangeMask .day .minute = 3080 ∧
    (⟨14, -3, -5430000001⟩ : Interval).adjustByTypmod .debug (intervalTypmod 3080 0xFFFF) =
      .ok ⟨14, -3, -5400000000⟩ ∧
    (⟨14, -3, -5430000001⟩ : Interval).adjustByTypmod .debug (intervalTypmod 4 0xFFFF) =
      .ok ⟨12, 0, 0⟩ ∧
    (⟨14, -3, -5430000001⟩ : Interval).adjustByTypmod .debug (intervalTypmod 12 0xFFFF) =
      .err .invalid := by decide

/-! ## C49 for `Time` -/

/-- Fields of a time of day up to 24:00. -/
theorem time_toPgtime (p : Profile) (t : Time) (h0 : 0 ≤ t.v) (h1 : t.v ≤ dayMicros) :
    t.toPgtime p = .ok ({ PgTime.new with hour := t.v / 3600000000, min := t.v % 3600000000 / 60000000,
                                          sec := t.v % 60000000 / 1000000 }, t.v % 1000000) := by
  unfold dayMicros at h1
  unfold Time.toPgtime
  simp (disch := omega) only [tdiv_nn, chk64_ok, wrap32_of_in, Res.bind_ok, Res.pure_eq]
  simp only [Res.ok.injEq, Prod.mk.injEq, PgTime.mk.injEq]
  simp only [and_true]
  omega

/-- **C49.** Comparing times of day is comparing clock readings. -/
theorem C49_time_chronological (p : Profile) (s t : Time) (hs : 0 ≤ s.v ∧ s.v ≤ dayMicros)
    (ht : 0 ≤ t.v ∧ t.v ≤ dayMicros) (a b : PgTime) (u v : Int)
    (ha : s.toPgtime p = .ok (a, u)) (hb : t.toPgtime p = .ok (b, v)) :
    (s.cmp t = .lt ↔ (⟨a.hour, a.min, a.sec, u⟩ : Clock).lt ⟨b.hour, b.min, b.sec, v⟩) ∧
    (⟨a.hour, a.min, a.sec, u⟩ : Clock).micros = s.v := by
  rw [time_toPgtime p s hs.1 hs.2] at ha
  rw [time_toPgtime p t ht.1 ht.2] at hb
  injection ha with ha; injection hb with hb
  simp only [Prod.mk.injEq] at ha hb
  obtain ⟨rfl, rfl⟩ := ha
  obtain ⟨rfl, rfl⟩ := hb
  unfold Time.cmp Clock.lt Clock.micros
  rw [Int.compare_eq_lt]
  simp only
  omega

example : (⟨86399999999⟩ : Time).toPgtime .debug =
    .ok ({ PgTime.new with hour := 23, min := 59, sec := 59 }, 999999) := by decide

end Props
