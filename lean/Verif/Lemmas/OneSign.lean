import Verif.Lemmas.QuantitiesText
import Verif.Spec.OneSign

/-! # One sign for all numbers of an interval -/

namespace Pg
open Spec

variable {p : Profile}

/-- Years of the units kept in the year. -/
def yearsIn : IvUnit → Int
  | .year => 1 | .decade => 10 | .century => 100 | .millennium => 1000
  | _ => 0
def monthsIn : IvUnit → Int
  | .month => 1
  | _ => 0
def hoursIn : IvUnit → Int
  | .hour => 1
  | _ => 0
def minutesIn : IvUnit → Int
  | .minute => 1
  | _ => 0

theorem addAll_total (qs : List Quantity) :
    (addAll qs).1.year = total yearsIn qs ∧ (addAll qs).1.mon = total monthsIn qs ∧ (addAll qs).1.mday = total IvUnit.days qs ∧
      (addAll qs).1.hour = total hoursIn qs ∧ (addAll qs).1.min = total minutesIn qs ∧
      (addAll qs).1.sec * 1000000 + (addAll qs).2 = total subMinute qs := by
  induction qs with
  | nil => simp [addAll, total]
  | cons q qs ih =>
    obtain ⟨h1, h2, h3, h4, h5, h6⟩ := ih
    simp only [total_cons, addAll]
    generalize addAll qs = t at *
    generalize q.number = v
    generalize total yearsIn qs = a1 at *
    generalize total monthsIn qs = a2 at *
    generalize total IvUnit.days qs = a3 at *
    generalize total hoursIn qs = a4 at *
    generalize total minutesIn qs = a5 at *
    generalize total subMinute qs = a6 at *
    cases q.unit <;> simp only [addTo, yearsIn, monthsIn, hoursIn, minutesIn, IvUnit.days, subMinute] <;>
      refine ⟨?_, ?_, ?_, ?_, ?_, ?_⟩ <;> omega

theorem total_unsigned {qs : List Quantity} (h : ∀ q ∈ qs, q.sign = none) (f : IvUnit → Int) : total f qs = size f qs := by
  induction qs with
  | nil => rfl
  | cons q qs ih =>
    rw [total_cons, size_cons, ih fun r hr => h r (List.mem_cons_of_mem _ hr), Quantity.number, h q (by simp)]
    rfl

theorem size_least {f : IvUnit → Int} (hf : ∀ u, 0 ≤ f u) (qs : List Quantity) : 0 ≤ size f qs := by
  induction qs with
  | nil => exact le_refl _
  | cons q qs ih =>
    rw [size_cons]
    have := mul_nonneg (show (0 : Int) ≤ value q.digits by omega) (hf q.unit)
    omega

theorem size_zero {f : IvUnit → Int} {qs : List Quantity} (h : ∀ q ∈ qs, f q.unit = 0) : size f qs = 0 := by
  induction qs with
  | nil => rfl
  | cons q qs ih =>
    rw [size_cons, ih fun r hr => h r (List.mem_cons_of_mem _ hr), h q (by simp), Int.mul_zero]
    rfl

theorem size_add (f g h : IvUnit → Int) (k : Int) (e : ∀ u, h u = f u * k + g u) (qs : List Quantity) :
    size h qs = size f qs * k + size g qs := by
  induction qs with
  | nil => simp [size]
  | cons q qs ih =>
    rw [size_cons, size_cons, size_cons, ih, e]
    ring

theorem addAll_nonneg {qs : List Quantity} (h : ∀ q ∈ qs, q.sign = none) : 0 ≤ (addAll qs).1.sec ∧ 0 ≤ (addAll qs).2 := by
  induction qs with
  | nil => exact ⟨le_refl _, le_refl _⟩
  | cons q qs ih =>
    obtain ⟨h1, h2⟩ := ih fun r hr => h r (List.mem_cons_of_mem _ hr)
    have hv : 0 ≤ q.number := by
      rw [Quantity.number, h q (by simp)]
      simp
    have hq := tdiv_or q.number 1000
    simp only [addAll]
    cases q.unit <;> simp only [addTo] <;> omega

/-- One of two numbers is 0. -/
def Apart (a b : Int) : Prop := a = 0 ∨ b = 0

theorem negPos_apart {a b : Int} (ha : 0 ≤ a) (hb : 0 ≤ b) (h : Apart a b) : negPos (-a + b) = -(a + b) := by
  unfold Apart at h
  unfold negPos
  split <;> omega

/-- A weight that looks at one kind of units only. -/
theorem first_apart {f : IvUnit → Int} {k : IvUnit} (hf : ∀ u, u.kin ≠ k → f u = 0) {q : Quantity} {r : List Quantity}
    (h : FirstAlone (q :: r)) : Apart (value q.digits * f q.unit) (size f r) := by
  by_cases hk : q.unit.kin = k
  · refine Or.inr (size_zero fun q' hq' => hf _ ?_)
    rw [← hk]
    exact h q' hq'
  · exact Or.inl (by rw [hf _ hk, Int.mul_zero])

/-- Making all fields negative, after whole seconds have been carried out of the fraction. -/
theorem forced {qs : List Quantity} (hs : LoneSign qs) (ha : FirstAlone qs) {t : TmF}
    (ht : t = forceNegative ({ (addAll qs).1 with sec := (addAll qs).1.sec + Int.tdiv (addAll qs).2 1000000 },
      (addAll qs).2 - Int.tdiv (addAll qs).2 1000000 * 1000000)) :
    (t.1.year * 12 + t.1.mon = -size IvUnit.months qs ∧ t.1.year ≤ 0 ∧ t.1.mon ≤ 0) ∧
      (t.1.mday = -size IvUnit.days qs ∧ t.1.mday ≤ 0) ∧
      (t.1.hour * 60 + t.1.min = -size wholeMinutes qs ∧ t.1.hour ≤ 0 ∧ t.1.min ≤ 0) ∧
      (t.1.sec * 1000000 + t.2 = -size subMinute qs ∧ t.1.sec ≤ 0 ∧ -1000000 < t.2 ∧ t.2 ≤ 0) := by
  cases qs with
  | nil => exact hs.elim
  | cons q r =>
    obtain ⟨hm, hr⟩ := hs
    obtain ⟨e1, e2, e3, e4, e5, e6⟩ := addAll_total (q :: r)
    have hn : q.number = -(value q.digits : Int) := by rw [Quantity.number, if_pos hm]
    simp only [total_cons, hn, total_unsigned hr, neg_mul] at e1 e2 e3 e4 e5 e6
    have n0 : (0 : Int) ≤ value q.digits := by omega
    have p1 : ∀ u, 0 ≤ yearsIn u := by intro u; cases u <;> decide
    have p2 : ∀ u, 0 ≤ monthsIn u := by intro u; cases u <;> decide
    have p3 : ∀ u, 0 ≤ IvUnit.days u := by intro u; cases u <;> decide
    have p4 : ∀ u, 0 ≤ hoursIn u := by intro u; cases u <;> decide
    have p5 : ∀ u, 0 ≤ minutesIn u := by intro u; cases u <;> decide
    have p6 : ∀ u, 0 ≤ subMinute u := by intro u; cases u <;> decide
    have a1 := first_apart (f := yearsIn) (k := .year) (by intro u; cases u <;> decide) ha
    have a2 := first_apart (f := monthsIn) (k := .month) (by intro u; cases u <;> decide) ha
    have a3 := first_apart (f := IvUnit.days) (k := .day) (by intro u; cases u <;> decide) ha
    have a4 := first_apart (f := hoursIn) (k := .hour) (by intro u; cases u <;> decide) ha
    have a5 := first_apart (f := minutesIn) (k := .minute) (by intro u; cases u <;> decide) ha
    have a6 := first_apart (f := subMinute) (k := .second) (by intro u; cases u <;> decide) ha
    have s1 := size_least p1 r
    have s2 := size_least p2 r
    have s3 := size_least p3 r
    have s4 := size_least p4 r
    have s5 := size_least p5 r
    have s6 := size_least p6 r
    have m1 := mul_nonneg n0 (p1 q.unit)
    have m2 := mul_nonneg n0 (p2 q.unit)
    have m3 := mul_nonneg n0 (p3 q.unit)
    have m4 := mul_nonneg n0 (p4 q.unit)
    have m5 := mul_nonneg n0 (p5 q.unit)
    have m6 := mul_nonneg n0 (p6 q.unit)
    have f1 : t.1.year = negPos (addAll (q :: r)).1.year := by rw [ht]; rfl
    have f2 : t.1.mon = negPos (addAll (q :: r)).1.mon := by rw [ht]; rfl
    have f3 : t.1.mday = negPos (addAll (q :: r)).1.mday := by rw [ht]; rfl
    have f4 : t.1.hour = negPos (addAll (q :: r)).1.hour := by rw [ht]; rfl
    have f5 : t.1.min = negPos (addAll (q :: r)).1.min := by rw [ht]; rfl
    have f6 : t.1.sec = negPos ((addAll (q :: r)).1.sec + Int.tdiv (addAll (q :: r)).2 1000000) := by rw [ht]; rfl
    have f7 : t.2 = negPos ((addAll (q :: r)).2 - Int.tdiv (addAll (q :: r)).2 1000000 * 1000000) := by rw [ht]; rfl
    rw [e1, negPos_apart m1 s1 a1] at f1
    rw [e2, negPos_apart m2 s2 a2] at f2
    rw [e3, negPos_apart m3 s3 a3] at f3
    rw [e4, negPos_apart m4 s4 a4] at f4
    rw [e5, negPos_apart m5 s5 a5] at f5
    have hmon := size_add yearsIn monthsIn IvUnit.months 12 (by intro u; cases u <;> decide) (q :: r)
    have hmin := size_add hoursIn minutesIn wholeMinutes 60 (by intro u; cases u <;> decide) (q :: r)
    rw [size_cons, size_cons yearsIn, size_cons monthsIn] at hmon
    rw [size_cons, size_cons hoursIn, size_cons minutesIn] at hmin
    simp only [size_cons]
    rw [f1, f2, f3, f4, f5]
    refine ⟨⟨by omega, by omega, by omega⟩, ⟨rfl, by omega⟩, ⟨by omega, by omega, by omega⟩, ?_⟩
    -- the seconds and the fraction have the same sign
    have sgn : (0 ≤ (addAll (q :: r)).1.sec ∧ 0 ≤ (addAll (q :: r)).2 ∧ (value q.digits : Int) * subMinute q.unit = 0) ∨
        ((addAll (q :: r)).1.sec ≤ 0 ∧ (addAll (q :: r)).2 ≤ 0 ∧ size subMinute r = 0) := by
      obtain ⟨g1, g2⟩ := addAll_nonneg hr
      obtain ⟨-, -, -, -, -, g3⟩ := addAll_total r
      rw [total_unsigned hr] at g3
      by_cases hk : q.unit.kin = .second
      · right
        have hz : size subMinute r = 0 := by
          refine size_zero fun q' hq' => ?_
          have := ha q' hq'
          rw [hk] at this
          revert this
          cases q'.unit <;> decide
        rw [hz] at g3
        have hq := tdiv_or (-(value q.digits : Int)) 1000
        refine ⟨?_, ?_, hz⟩ <;> simp only [addAll, hn] <;> revert hk <;> cases q.unit <;> simp only [addTo] <;> intro _ <;> omega
      · left
        refine ⟨?_, ?_, ?_⟩
        · simp only [addAll]; revert hk; cases q.unit <;> simp only [addTo] <;> intro hk <;> first | exact g1 | exact absurd rfl hk
        · simp only [addAll]; revert hk; cases q.unit <;> simp only [addTo] <;> intro hk <;> first | exact g2 | exact absurd rfl hk
        · have : subMinute q.unit = 0 := by revert hk; cases q.unit <;> decide
          rw [this, Int.mul_zero]
    generalize addAll (q :: r) = t0 at *
    have hq := tdiv_or t0.2 1000000
    clear ht e1 e2 e3 e4 e5 f1 f2 f3 f4 f5 a1 a2 a3 a4 a5 m1 m2 m3 m4 m5 s1 s2 s3 s4 s5 hmon hmin
    generalize (value q.digits : Int) * subMinute q.unit = x at *
    generalize size subMinute r = y at *
    unfold negPos at f6 f7
    split at f6 <;> split at f7 <;> omega

theorem word_unsigned {w : Bytes} (h : Letters w) (hne : w ≠ []) : hasSign (lower w) = false := by
  obtain ⟨c, r, e⟩ : ∃ c r, w = c :: r := by
    cases w with
    | nil => exact absurd rfl hne
    | cons c r => exact ⟨c, r, rfl⟩
  have hc := h c (by rw [e]; simp)
  rw [isAlpha_iff] at hc
  subst e
  have : lowerB c ≠ 45 ∧ lowerB c ≠ 43 := by
    rw [lowerB_letter]
    unfold smallLetter
    split <;> omega
  simp [lower, hasSign, this.1, this.2]

theorem sqlSign_force {qs : List Quantity} (hok : ∀ q ∈ qs, q.Ok) (hs : LoneSign qs) (ago : Option Bytes) (t : TmF) :
    sqlSign .sqlStandard (qsFields qs (agoF ago)) t = (.ok (), forceNegative t) := by
  cases qs with
  | nil => exact hs.elim
  | cons q r =>
    obtain ⟨hm, hr⟩ := hs
    have efs : qsFields (q :: r) (agoF ago) = numField q.sign q.digits :: (.string, lower q.word) :: qsFields r (agoF ago) := by
      simp [qsFields, qFields]
    rw [efs, sqlSign, if_pos rfl, numField_snd, hm]
    have hany : (((.string, lower q.word) :: qsFields r (agoF ago)).any fun g => hasSign g.2) = false := by
      rw [List.any_eq_false]
      intro g hg
      rw [Bool.not_eq_true]
      rcases List.mem_cons.1 hg with rfl | hg
      · obtain ⟨w1, w2⟩ := word_letters (hok q (by simp))
        exact word_unsigned w1 w2
      rcases List.mem_append.1 hg with hg | hg
      · obtain ⟨l, hl, hg⟩ := List.mem_flatten.1 hg
        obtain ⟨q', hq', rfl⟩ := List.mem_map.1 hl
        have hk := hok q' (List.mem_cons_of_mem _ hq')
        rcases List.mem_cons.1 hg with rfl | hg
        · rw [numField_snd, hr q' hq']
          obtain ⟨x, y, e, hx⟩ := digits_first hk.1.1 (DigitsOf.ne hk.1 (by omega))
          rw [isDigit_iff] at hx
          simp [sgBytes, hasSign, e]
          omega
        · rw [List.mem_singleton] at hg
          subst hg
          obtain ⟨w1, w2⟩ := word_letters hk
          exact word_unsigned w1 w2
      · unfold agoF agoFields at hg
        split at hg
        · rw [List.mem_singleton] at hg; subst hg; decide
        · cases hg
    simp only [sgBytes, if_true, List.cons_append]
    rw [if_pos ⟨trivial, by rw [hany]; decide⟩]
    rfl

end Pg
