import Verif.Props.Age
import Verif.Props.MixedArith
import Verif.Props.TruncateTypes

/-!
# C103: calculating with the infinities
-/

namespace Props
open Pg Spec

/-- The infinite timestamp of the same sign as an infinite date. -/
def SameInfinity (d : Date) (t : Timestamp) : Prop :=
  (d.v = i32Min ∧ t.v = i64Min) ∨ (d.v = i32Max ∧ t.v = i64Max)

instance (d : Date) (t : Timestamp) : Decidable (SameInfinity d t) := inferInstanceAs (Decidable (_ ∨ _))

theorem Date.infinite_cases {d : Date} (h : d.isInfinite = true) : d = Date.BEGIN ∨ d = Date.END := by
  unfold Date.isInfinite at h
  simp only [Bool.or_eq_true, decide_eq_true_eq] at h
  rcases h with h | h
  · exact .inl (by cases d; simp only at h; rw [h]; rfl)
  · exact .inr (by cases d; simp only at h; rw [h]; rfl)

theorem Timestamp.infinite_cases {t : Timestamp} (h : t.isInfinite = true) : t = Timestamp.BEGIN ∨ t = Timestamp.END := by
  unfold Timestamp.isInfinite at h
  simp only [Bool.or_eq_true, decide_eq_true_eq] at h
  rcases h with h | h
  · exact .inl (by cases t; simp only at h; rw [h]; rfl)
  · exact .inr (by cases t; simp only at h; rw [h]; rfl)

/-- **C103 (timestamps).** An infinite timestamp is left as it is by adding and subtracting intervals and times of day
and by every precision; it converts to the date of the same infinity and to no time of day; subtracting is an error
only where the interval has no negation. -/
theorem C103_timestamp (p : Profile) (t : Timestamp) (ht : t.isInfinite = true) :
    (∀ a : Interval, t.addInterval p a = .ok t) ∧
    (∀ a : Interval, a.WF → t.subInterval p a = .ok t ∨ (a.month = i32Min ∨ a.day = i32Min ∨ a.time = i64Min) ∧
      (t.subInterval p a).IsErr) ∧
    (∀ x : Time, t.addTime p x = .ok t) ∧
    (∀ x : Time, 0 ≤ x.v → x.v ≤ dayMicros → t.subTime p x = .ok t) ∧
    (∀ n : Int, t.adjustByTypmod p n = .ok t) ∧
    (∃ d, Date.ofTimestamp p t = .ok d ∧ SameInfinity d t) ∧
    Time.ofTimestamp p t = .ok none := by
  have hs : ∀ a : Interval, a.WF → t.subInterval p a = .ok t ∨ (a.month = i32Min ∨ a.day = i32Min ∨ a.time = i64Min) ∧
      (t.subInterval p a).IsErr := by
    intro a ⟨wm, wd, wt⟩
    unfold In32 at wm wd
    unfold In64 at wt
    rw [C13_sub_is_add_neg]
    split
    · left; unfold Timestamp.addInterval; rw [if_pos ht]
    · rename_i hn
      right
      refine ⟨?_, ⟨_, rfl⟩⟩
      unfold In32 In64 at hn
      omega
  refine ⟨fun a => ?_, hs, fun x => ?_, fun x h0 h1 => ?_, fun n => ?_, ?_, ?_⟩
  · unfold Timestamp.addInterval; rw [if_pos ht]
  · unfold Timestamp.addTime Timestamp.addInterval; rw [if_pos ht]
  · unfold dayMicros at h1
    rcases hs (Interval.ofTime x) ⟨by unfold In32 Interval.ofTime; simp, by unfold In32 Interval.ofTime; simp,
      by unfold In64 Interval.ofTime; simp only; omega⟩ with h | ⟨h, -⟩
    · exact h
    · unfold Interval.ofTime at h; simp only at h; omega
  · unfold Timestamp.adjustByTypmod; rw [if_neg (by simp [ht])]
  · rcases Timestamp.infinite_cases ht with rfl | rfl
    · exact ⟨Date.BEGIN, rfl, .inl ⟨rfl, rfl⟩⟩
    · exact ⟨Date.END, rfl, .inr ⟨rfl, rfl⟩⟩
  · unfold Time.ofTimestamp; rw [if_pos ht]

example : Timestamp.END.isInfinite = true ∧ Timestamp.BEGIN.subInterval .debug ⟨0, -2147483648, 0⟩ = .err .overflow := by
  decide

/-- **C103 (dates).** An infinite date is left as it is by adding and subtracting days; the timestamp it converts to,
and what adding or subtracting an interval or a time of day makes of it, is the infinity of the same sign. -/
theorem C103_date (p : Profile) (d : Date) (hd : d.isInfinite = true) :
    (∀ n : Int, d.addDays n = .ok d ∧ d.subDays n = .ok d) ∧
    ∃ t, SameInfinity d t ∧ Timestamp.ofDate p d = .ok t ∧
      (∀ a : Interval, d.addInterval p a = .ok t) ∧
      (∀ a : Interval, a.WF → d.subInterval p a = .ok t ∨ (a.month = i32Min ∨ a.day = i32Min ∨ a.time = i64Min) ∧
        (d.subInterval p a).IsErr) ∧
      (∀ x : Time, d.addTime p x = .ok t) := by
  refine ⟨fun n => ⟨by unfold Date.addDays; rw [if_pos hd], by unfold Date.subDays; rw [if_pos hd]⟩, ?_⟩
  rcases Date.infinite_cases hd with rfl | rfl
  · exact ⟨Timestamp.BEGIN, .inl ⟨rfl, rfl⟩, rfl, fun _ => rfl, (C103_timestamp p Timestamp.BEGIN rfl).2.1, fun _ => rfl⟩
  · exact ⟨Timestamp.END, .inr ⟨rfl, rfl⟩, rfl, fun _ => rfl, (C103_timestamp p Timestamp.END rfl).2.1, fun _ => rfl⟩

example : Date.BEGIN.isInfinite = true ∧ Date.BEGIN.addInterval .debug ⟨5, 3, 7⟩ = .ok Timestamp.BEGIN := by decide

/-- **C103 (differences).** Every difference with an infinite operand is an error. -/
theorem C103_difference (p : Profile) (s t : Timestamp) (d e : Date) :
    (s.isInfinite = true ∨ t.isInfinite = true → (s.subTimestamp p t).IsErr) ∧
    (d.isInfinite = true ∨ e.isInfinite = true → (d.subDate p e).IsErr) ∧
    (d.isInfinite = true → (s.subDate p d).IsErr) ∧
    (s.isInfinite = true → DateRange d.v → (s.subDate p d).IsErr) := by
  refine ⟨C14_infinite p s t, fun h => ?_, fun h => ?_, fun h hd => ?_⟩
  · unfold Date.subDate
    rw [if_pos (by simpa using h)]
    exact ⟨_, rfl⟩
  · rcases Date.infinite_cases h with rfl | rfl
    · exact C14_infinite p s Timestamp.BEGIN (.inr rfl)
    · exact C14_infinite p s Timestamp.END (.inr rfl)
  · unfold Timestamp.subDate
    rcases C06_date_to_timestamp p d hd with ⟨e1, e2⟩
    by_cases hc : d.v < dayNumber ⟨294277, 1, 1⟩
    · rw [(e1 hc).1, Res.bind_ok]; exact C14_infinite p s _ (.inl h)
    · obtain ⟨x, hx⟩ := e2 hc; rw [hx]; exact ⟨_, rfl⟩

example : Timestamp.END.subDate .release ⟨0⟩ = .err .invalid ∧ DateRange 0 := by decide

theorem Date.finite_of_range {d : Date} (h : DateRange d.v) : d.isInfinite = false := by
  rw [dateRange_iff] at h
  unfold Date.isInfinite; simp; omega

theorem Date.valid_range {r : Int} (h : Date.isValidDate r = true) : DateRange r := by
  rw [dateRange_iff]
  unfold Date.isValidDate at h
  simp only [Bool.and_eq_true, decide_eq_true_eq] at h
  omega

theorem truncate_valid {p : Profile} {t r : Timestamp} {ty : FieldType} {u : DateUnit}
    (h : t.truncate p ty u = .ok r) : TsRange r.v := by
  cases ty with
  | epoch => cases h
  | unit =>
    unfold Timestamp.truncate at h
    simp only [Res.bind_eq_ok, Res.pure_eq, Res.ok.injEq] at h
    obtain ⟨_, -, _, -, x, hx, rfl⟩ := h
    exact toTimestamp_valid hx

/-- **C103 (finite values).** No method makes an infinity out of finite values. -/
theorem C103_finite (p : Profile) (t : Timestamp) (d : Date) (ht : TsRange t.v) (hd : DateRange d.v) :
    (∀ a r, t.addInterval p a = .ok r → r.isInfinite = false) ∧
    (∀ a r, t.subInterval p a = .ok r → r.isInfinite = false) ∧
    (∀ n r, t.adjustByTypmod p n = .ok r → r.isInfinite = false) ∧
    (∀ ty u r, t.truncate p ty u = .ok r → r.isInfinite = false) ∧
    (∀ r, Date.ofTimestamp p t = .ok r → r.isInfinite = false) ∧
    (∀ n r, d.addDays n = .ok r → r.isInfinite = false) ∧
    (∀ n r, d.subDays n = .ok r → r.isInfinite = false) ∧
    (∀ r, Timestamp.ofDate p d = .ok r → r.isInfinite = false) ∧
    (∀ ty u r, d.truncate p ty u = .ok r → r.isInfinite = false) := by
  have hof : ∀ (s : Timestamp) (r : Date), TsRange s.v → Date.ofTimestamp p s = .ok r → r.isInfinite = false := by
    intro s r hs h
    rw [ofTimestamp_eq p s hs] at h
    injection h with h; subst h
    rw [tsRange_iff] at hs
    unfold Date.isInfinite dayMicros
    simp; omega
  have hdt : ∀ r, Timestamp.ofDate p d = .ok r → TsRange r.v := by
    intro r h
    obtain ⟨e1, e2⟩ := C06_date_to_timestamp p d hd
    by_cases hc : d.v < dayNumber ⟨294277, 1, 1⟩
    · rw [(e1 hc).1] at h
      injection h with h; subst h
      exact (e1 hc).2.1
    · obtain ⟨x, hx⟩ := e2 hc; rw [hx] at h; cases h
  have hi := Date.finite_of_range hd
  refine ⟨fun a r h => ?_, fun a r h => ?_, fun n r h => ?_, fun ty u r h => notInf (truncate_valid h), fun r h => hof t r ht h,
    fun n r h => ?_, fun n r h => ?_, fun r h => notInf (hdt r h), fun ty u r h => ?_⟩
  · rcases C12_ok_valid p t r a h with h | ⟨h, -⟩
    · exact notInf h
    · rw [notInf ht] at h; cases h
  · unfold Timestamp.subInterval at h
    simp only [Res.bind_eq_ok] at h
    obtain ⟨x, -, h⟩ := h
    rcases C12_ok_valid p t r x h with h | ⟨h, -⟩
    · exact notInf h
    · rw [notInf ht] at h; cases h
  · by_cases h6 : 0 ≤ n ∧ n ≤ 6
    · obtain ⟨x, e, hx, -⟩ := (C22_timestamp_partial p t n.toNat (by omega) ht).1
      rw [show ((n.toNat : Nat) : Int) = n by omega] at e
      rw [e] at h
      injection h with h; subst h
      have hc := precisionUnit_cases (n := n.toNat) (by omega)
      unfold Nearest at hx
      rw [tsRange_iff] at ht
      generalize precisionUnit n.toNat = k at hx hc
      unfold Timestamp.isInfinite
      simp only [Bool.or_eq_false_iff, decide_eq_false_iff_not]
      rcases hc with rfl | rfl | rfl | rfl | rfl | rfl | rfl <;> omega
    · unfold Timestamp.adjustByTypmod at h
      split at h
      · rw [if_pos (by omega)] at h; cases h
      · injection h with h; subst h; exact notInf ht
  · unfold Date.addDays at h
    rw [if_neg (by simp [hi])] at h
    split at h
    · cases h
    · split at h
      · rename_i hv
        injection h with h; subst h
        exact Date.finite_of_range (Date.valid_range hv)
      · cases h
  · unfold Date.subDays at h
    rw [if_neg (by simp [hi])] at h
    split at h
    · cases h
    · split at h
      · rename_i hv
        injection h with h; subst h
        exact Date.finite_of_range (Date.valid_range hv)
      · cases h
  · unfold Date.truncate at h
    simp only [Res.bind_eq_ok] at h
    obtain ⟨x, -, y, hy, h⟩ := h
    exact hof y r (truncate_valid hy) h

example : TsRange 0 ∧ DateRange 2145031947 ∧ (⟨2145031947⟩ : Date).addDays 2451700 = .err .overflow := by decide

/-- **C103 is violated** by `truncate`, which takes positive infinity for the last instant of its 64-bit number. -/
theorem C103_truncate_exact (p : Profile) (ty : FieldType) (u : DateUnit) :
    Timestamp.END.truncate p ty u =
      (if ty = .unit ∧ u = .millennium then .ok ⟨instant ⟨294001, 1, 1⟩ ⟨0, 0, 0, 0⟩⟩
       else if ty = .unit ∧ u = .century then .ok ⟨instant ⟨294201, 1, 1⟩ ⟨0, 0, 0, 0⟩⟩
       else if ty = .unit ∧ u = .decade then .ok ⟨instant ⟨294270, 1, 1⟩ ⟨0, 0, 0, 0⟩⟩
       else .err .invalid) ∧
    Date.END.truncate p ty u =
      (if ty = .unit ∧ u = .millennium then .ok ⟨dayNumber ⟨294001, 1, 1⟩⟩
       else if ty = .unit ∧ u = .century then .ok ⟨dayNumber ⟨294201, 1, 1⟩⟩
       else if ty = .unit ∧ u = .decade then .ok ⟨dayNumber ⟨294270, 1, 1⟩⟩
       else .err .invalid) ∧
    (Timestamp.BEGIN.truncate p ty u).IsErr ∧ (Date.BEGIN.truncate p ty u).IsErr := by
  refine ⟨?_, ?_, ?_, ?_⟩
  · cases p <;> cases ty <;> cases u <;> decide +kernel
  · cases p <;> cases ty <;> cases u <;> decide +kernel
  · cases p <;> cases ty <;> first | exact ⟨.overflow, rfl⟩ | exact ⟨.invalid, rfl⟩
  · cases p <;> cases ty <;> first | exact ⟨.overflow, rfl⟩ | exact ⟨.invalid, rfl⟩

/-- **C103 is violated** by `age`, which takes positive infinity for 294277-01-09 04:00:54.775807: the age of infinity
over a finite timestamp, and the other way round, is a finite interval. An age with negative infinity is an error. -/
theorem C103_age_exact (p : Profile) (t : Timestamp) (ht : TsRange t.v) :
    (∃ (c : YMD) (m d us : Int), c.Real ∧ dayNumber c = t.v / 86400000000 ∧ 
      AgeOf ⟨294277, 1, 9⟩ ⟨4, 0, 54, 775807⟩ c (clockOf t.v) m d us ∧
      Timestamp.END.age p t = .ok ⟨m, d, us⟩ ∧ t.age p Timestamp.END = .ok ⟨-m, -d, -us⟩) ∧
    Timestamp.BEGIN.age p t = .err .overflow ∧ t.age p Timestamp.BEGIN = .err .overflow ∧
    Timestamp.BEGIN.age p Timestamp.END = .err .overflow ∧ Timestamp.END.age p Timestamp.BEGIN = .err .overflow ∧
    Timestamp.BEGIN.age p Timestamp.BEGIN = .err .overflow ∧ Timestamp.END.age p Timestamp.END = .ok Interval.zero := by
  rw [tsRange_iff] at ht
  have hb : timestamp2time p Timestamp.BEGIN.v = .err .overflow := by cases p <;> decide
  refine ⟨?_, ?_, ?_, ?_, ?_, ?_, ?_⟩
  · obtain ⟨c1, c2, m, d, us, r1, r2, d1, d2, -, -, -, -, -, -, ag, e1, e2⟩ :=
      age_wide p Timestamp.END t (by decide) (by omega) (by unfold Timestamp.END; simp only; omega)
    have hc : c1 = ⟨294277, 1, 9⟩ := dayNumber_inj r1 (by decide) (by rw [d1]; decide)
    subst hc
    exact ⟨c2, m, d, us, r2, d2, by simpa [Timestamp.END, clockOf] using ag, e1, e2⟩
  · unfold Timestamp.age; rw [hb]; rfl
  · obtain ⟨c, -, -, -, -, e⟩ := fields_wide p (t := t.v) (by omega)
    unfold Timestamp.age; rw [e, hb]; rfl
  all_goals cases p <;> decide +kernel

/-- **C103 is violated**: a decade of infinity is finite, and infinity is 292277 years, 8 days and some hours older
than the first of January 2000. -/
theorem C103_violated (p : Profile) :
    Timestamp.END.truncate p .unit .decade = .ok ⟨instant ⟨294270, 1, 1⟩ ⟨0, 0, 0, 0⟩⟩ ∧
    Timestamp.END.age p ⟨0⟩ = .ok ⟨292277 * 12, 8, 14454775807⟩ := by cases p <;> decide +kernel

end Props
