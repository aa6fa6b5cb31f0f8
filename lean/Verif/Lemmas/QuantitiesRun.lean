import Verif.Lemmas.Quantities

/-! # Decoding intervals written as quantities -/

namespace Pg
open Spec

variable {p : Profile} {range : Nat}

/-- The decoder, applied to the fields `l`, refuses them. -/
def IvFails (p : Profile) (range : Nat) (l : List Field) (s : IvS) : Prop :=
  ∀ i, ∃ e s', intervalLoop p plainLook range l i (s, ()) = (.err e, s')

theorem IvFails.cons {f : Field} {l : List Field} {s : IvS} (h : IvFails p range l s) : IvFails p range (f :: l) s := by
  intro i
  obtain ⟨e, s', h⟩ := h (i + 1)
  refine ⟨e, s', ?_⟩
  rw [intervalLoop, St.bind_err h]

/-- The bits of the units. -/
def maskOf : List Quantity → Nat
  | [] => 0
  | q :: qs => maskOf qs ||| 2 ^ unitExp q.unit

theorem maskOf_bit (u : IvUnit) (qs : List Quantity) :
    (2 ^ unitExp u) &&& maskOf qs = 0 ↔ u ∉ qs.map Quantity.unit := by
  have key : (maskOf qs).testBit (unitExp u) = true ↔ u ∈ qs.map Quantity.unit := by
    induction qs with
    | nil => simp [maskOf]
    | cons q qs ih =>
      rw [maskOf, Nat.testBit_or, Bool.or_eq_true, ih, Nat.testBit_two_pow, List.map_cons, List.mem_cons, decide_eq_true_iff]
      constructor
      · rintro (h | h)
        · exact Or.inr h
        · exact Or.inl (unitExp_inj h.symm)
      · rintro (h | h)
        · exact Or.inr (by rw [h])
        · exact Or.inl h
  rw [← key]
  constructor
  · intro h ht
    have := congrArg (fun n => n.testBit (unitExp u)) h
    simp [Nat.testBit_and, Nat.testBit_two_pow, ht] at this
  · intro h
    apply Nat.eq_of_testBit_eq
    intro i
    rw [Nat.testBit_and, Nat.testBit_two_pow, Nat.zero_testBit]
    by_cases hi : unitExp u = i
    · subst hi; simpa using h
    · simp [hi]

theorem maskOf_ne {qs : List Quantity} (h : qs ≠ []) : maskOf qs ≠ 0 := by
  cases qs with
  | nil => exact absurd rfl h
  | cons q qs =>
    rw [maskOf]
    intro e
    have := (Nat.or_eq_zero_iff.1 e).2
    exact absurd this (by positivity)

/-- The fields of a quantity. -/
def qFields (q : Quantity) : List Field := [numField q.sign q.digits, (.string, lower q.word)]

/-- The fields of quantities. -/
def qsFields (qs : List Quantity) (l : List Field) : List Field := (qs.map qFields).flatten ++ l

theorem word_unit {q : Quantity} (h : q.Ok) : ∃ e, searchDelta (lower q.word) = .ok (some e) ∧ e.ty = .units ∧
    e.value ≠ 8 ∧ TokenField.ofInt e.value = .ok (unitTf q.unit) := by
  obtain ⟨-, s, hs, hw⟩ := h
  obtain ⟨e, h1, h2, h3, h4⟩ := unit_entry q.unit s hs
  refine ⟨e, ?_, h2, h3, h4⟩
  rw [searchDelta_eq, ← h1]
  unfold lower
  unfold SameButCase at hw
  rw [show lowerB = smallLetter from funext lowerB_letter, hw, (unit_small q.unit s hs).1]

theorem small_alpha {w : Bytes} {s : List Nat} (h : SameButCase w s) (h1 : s.map smallLetter = s)
    (h2 : ∀ b ∈ s, isAlpha b = true) (h3 : s ≠ []) : Letters w ∧ w ≠ [] := by
  unfold SameButCase at h
  rw [h1] at h
  refine ⟨?_, ?_⟩
  · intro b hb
    have hm : smallLetter b ∈ s := by rw [← h]; exact List.mem_map_of_mem hb
    have := h2 _ hm
    rw [isAlpha_iff] at this ⊢
    unfold smallLetter at this
    split at this <;> omega
  · rintro rfl
    exact h3 (by rw [← h]; rfl)

theorem word_letters {q : Quantity} (h : q.Ok) : Letters q.word ∧ q.word ≠ [] := by
  obtain ⟨-, s, hs, hw⟩ := h
  obtain ⟨h1, h2, h3⟩ := unit_small q.unit s hs
  exact small_alpha hw h1 h2 h3

theorem size_cons (f : IvUnit → Int) (q : Quantity) (qs : List Quantity) :
    size f (q :: qs) = value q.digits * f q.unit + size f qs := by simp [size]

theorem total_cons (f : IvUnit → Int) (q : Quantity) (qs : List Quantity) :
    total f (q :: qs) = q.number * f q.unit + total f qs := by simp [total]

theorem number_sg (q : Quantity) : q.number = sgVal q.sign (value q.digits) := rfl

theorem unit_nonneg (u : IvUnit) : 0 ≤ u.months ∧ 0 ≤ u.days ∧ 0 ≤ wholeMinutes u ∧ 0 ≤ subMinute u := by
  cases u <;> decide

theorem moderate_tail {q : Quantity} {qs : List Quantity} (h : Moderate (q :: qs)) : Moderate qs := by
  obtain ⟨h1, h2, h3, h4, h5⟩ := h
  obtain ⟨n1, n2, n3, n4⟩ := unit_nonneg q.unit
  simp only [size_cons] at h1 h2 h3 h4
  have hv : (0 : Int) ≤ value q.digits := by omega
  have m1 := mul_nonneg hv n1
  have m2 := mul_nonneg hv n2
  have m3 := mul_nonneg hv n3
  have m4 := mul_nonneg hv n4
  exact ⟨by omega, by omega, by omega, by omega, fun r hr => h5 r (List.mem_cons_of_mem _ hr)⟩

/-- The state after quantities. -/
def QAt (s : IvS) (qs : List Quantity) (b : Bool) : Prop :=
  QInv s.t (total IvUnit.months qs) (size IvUnit.months qs) (total IvUnit.days qs) (size IvUnit.days qs)
    (total wholeMinutes qs) (size wholeMinutes qs) (total subMinute qs) (size subMinute qs) ∧
  s.fMask = maskOf qs ∧ s.before = b ∧ s.dType = .delta

/-- The fields after quantities. -/
def addAll : List Quantity → TmF
  | [] => ({}, 0)
  | q :: qs => addTo q.unit q.number (addAll qs)

/-- Decoding quantities with different units. -/
theorem qs_runs_exact {l : List Field} {s0 : IvS} {b : Bool} (hl : IvRuns p range l {} s0) (h0 : IvAt s0 ({}, 0) 0 b)
    (qs : List Quantity) : (∀ q ∈ qs, q.Ok) → Moderate qs →
    ((qs.map Quantity.unit).Nodup → ∃ s, IvRuns p range (qsFields qs l) {} s ∧ QAt s qs b ∧ s.t = addAll qs) ∧
    (¬ (qs.map Quantity.unit).Nodup → IvFails p range (qsFields qs l) {}) := by
  induction qs with
  | nil =>
    intro _ _
    refine ⟨fun _ => ⟨s0, by simpa [qsFields] using hl, ⟨?_, h0.2.1, h0.2.2.1, h0.2.2.2⟩, h0.1⟩, fun h => absurd List.nodup_nil h⟩
    rw [h0.1]
    constructor <;> simp [total, size, Abs2]
  | cons q qs ih =>
    intro hok hmod
    obtain ⟨ih1, ih2⟩ := ih (fun r hr => hok r (List.mem_cons_of_mem _ hr)) (moderate_tail hmod)
    have hq := hok q (by simp)
    have efs : qsFields (q :: qs) l = numField q.sign q.digits :: (.string, lower q.word) :: qsFields qs l := by
      simp [qsFields, qFields]
    rw [efs]
    by_cases hnd : (qs.map Quantity.unit).Nodup
    swap
    · refine ⟨fun h => absurd (List.nodup_cons.1 h).2 hnd, fun _ => (ih2 hnd).cons.cons⟩
    obtain ⟨s, hr, ⟨hinv, hmask, hb, hd⟩, hall⟩ := ih1 hnd
    obtain ⟨e, he, ht, hne, hof⟩ := word_unit hq
    have hdig := hq.1
    have hw := hr.cons (step_unit (p := p) (range := range) (s := s) he ht)
    have hval : value q.digits ≤ 2147483647 := hmod.2.2.2.2 q (by simp)
    have hnum := numberParts_sg (p := p) q.sign hdig.1 (DigitsOf.ne hdig (by omega)) hdig.2.2 hval
    have hmod' := hmod
    obtain ⟨m1, m2, m3, m4, -⟩ := hmod'
    simp only [size_cons] at m1 m2 m3 m4
    obtain ⟨ha, hinv'⟩ := addUnit_exact p q.unit (v := q.number) (n := value q.digits) hinv (by omega) (by omega)
      (by
        rw [number_sg]; unfold sgVal
        split
        · exact Or.inr rfl
        · exact Or.inl rfl) (by omega) (by omega) (by omega) (by omega)
    by_cases hu : q.unit ∈ qs.map Quantity.unit
    · refine ⟨fun h => absurd hu (List.nodup_cons.1 h).1, fun _ => ?_⟩
      intro i
      obtain ⟨ty, hi⟩ := intervalNumber_ok (p := p) (range := range) (s := { s with tMask := 0, ty := e.value })
        (u := unitTf q.unit) (m := 2 ^ unitExp q.unit) (t := addTo q.unit q.number s.t) hnum
        (by
          simp only [Bool.false_eq_true, if_false]
          rw [if_neg hne]; exact hof) ha
      refine ⟨.invalid, ({ s with t := addTo q.unit q.number s.t, fVal := .fin 0, tMask := 2 ^ unitExp q.unit, ty := ty }, ()), ?_⟩
      · rw [intervalLoop, St.bind_ok (hw (i + 1))]
        have hmk : ∀ s1 : IvS, s1.fMask = s.fMask → s1.tMask = 2 ^ unitExp q.unit →
            addMaskI s1 = (.err .invalid, s1) := by
          intro s1 e1 e2
          unfold addMaskI
          rw [St.get_bind, St.ite_run, if_pos]
          · rfl
          · rw [e1, e2, hmask]
            intro hz
            exact (maskOf_bit q.unit qs).1 hz hu
        have hfin : (do intervalNumber p (numField q.sign q.digits).2 range; addMaskI)
            ({ s with tMask := 0, ty := e.value } : IvS) =
              (.err .invalid, { s with t := addTo q.unit q.number s.t, fVal := .fin 0, tMask := 2 ^ unitExp q.unit, ty := ty }) := by
          rw [St.bind_ok hi]
          exact hmk _ rfl rfl
        rcases numField_kind q.sign hdig.1 with hk | hk | ⟨hk, hc⟩
        · rw [intervalField, hk]; exact noLook_run hfin
        · rw [intervalField, hk]; exact noLook_run hfin
        · rw [intervalField, hk]
          refine noLook_run ?_
          rw [intervalSigned, if_neg (by rw [hc]; decide)]
          exact hfin
    · refine ⟨fun _ => ?_, fun h => absurd (List.nodup_cons.2 ⟨hu, hnd⟩) h⟩
      obtain ⟨ty, hst⟩ := step_number (p := p) (range := range) (s := { s with tMask := 0, ty := e.value })
        (u := unitTf q.unit) (m := 2 ^ unitExp q.unit) (t := addTo q.unit q.number s.t)
        (numField_kind q.sign hdig.1) hnum
        (by
          simp only [Bool.false_eq_true, if_false]
          rw [if_neg hne]; exact hof) ha
        (by simp only; rw [hmask]; exact (maskOf_bit _ _).2 hu)
      refine ⟨_, hw.cons hst, ⟨?_, ?_, hb, hd⟩, by rw [addAll, ← hall]⟩
      · simp only [total_cons, size_cons]
        have comm : ∀ a b : Int, a + b = b + a := Int.add_comm
        rw [comm (q.number * _), comm (q.number * _), comm (q.number * _), comm (q.number * _),
          comm (_ * q.unit.months), comm (_ * q.unit.days), comm (_ * wholeMinutes q.unit), comm (_ * subMinute q.unit)]
        exact hinv'
      · simp only [hmask, maskOf]

theorem qs_runs {l : List Field} {s0 : IvS} {b : Bool} (hl : IvRuns p range l {} s0) (h0 : IvAt s0 ({}, 0) 0 b)
    (qs : List Quantity) (hok : ∀ q ∈ qs, q.Ok) (hmod : Moderate qs) :
    ((qs.map Quantity.unit).Nodup → ∃ s, IvRuns p range (qsFields qs l) {} s ∧ QAt s qs b) ∧
    (¬ (qs.map Quantity.unit).Nodup → IvFails p range (qsFields qs l) {}) := by
  obtain ⟨h1, h2⟩ := qs_runs_exact hl h0 qs hok hmod
  exact ⟨fun h => (h1 h).imp fun s hs => ⟨hs.1, hs.2.1⟩, h2⟩

end Pg
