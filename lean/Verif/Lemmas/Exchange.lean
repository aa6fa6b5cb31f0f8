import Verif.Lemmas.Clocks

/-! # Two runs of the date decoder, with the orders month-day and day-month -/

namespace Pg
open Spec

/-! ## Exchanging month and day -/

/-- Exchange the bits of month and day. -/
def exM (k : Bool) (m : Nat) : Nat := if k = true ∧ m.testBit 1 ≠ m.testBit 3 then m ^^^ 10 else m

theorem ten_bit (i : Nat) : (10 : Nat).testBit i = decide (i = 1 ∨ i = 3) := by
  by_cases h : i < 4
  · have : i = 0 ∨ i = 1 ∨ i = 2 ∨ i = 3 := by omega
    rcases this with rfl | rfl | rfl | rfl <;> decide
  · rw [Nat.testBit_lt_two_pow (Nat.lt_of_lt_of_le (show 10 < 2 ^ 4 by decide) (Nat.pow_le_pow_right (by omega) (by omega)))]
    symm
    rw [decide_eq_false_iff_not]
    omega

theorem exM_bit (k : Bool) (m i : Nat) :
    (exM k m).testBit i = m.testBit (if k = true then (if i = 1 then 3 else if i = 3 then 1 else i) else i) := by
  unfold exM
  cases k
  · simp
  · simp only [true_and, if_true]
    split
    · rename_i h
      rw [Nat.testBit_xor, ten_bit]
      by_cases h1 : i = 1
      · subst h1
        simp only [if_true]
        cases h2 : m.testBit 1 <;> cases h3 : m.testBit 3 <;> rw [h2, h3] at h <;> simp at h ⊢
      · by_cases h3 : i = 3
        · subst h3
          simp only [if_true]
          cases h2 : m.testBit 1 <;> cases h3 : m.testBit 3 <;> rw [h2, h3] at h <;> simp [h2] at h ⊢
        · simp [h1, h3]
    · rename_i h
      simp only [ne_eq, Decidable.not_not] at h
      by_cases h1 : i = 1
      · subst h1; simp [h]
      · by_cases h3 : i = 3
        · subst h3; simp [h]
        · simp [h1, h3]

theorem exM_or (k : Bool) (a b : Nat) : exM k (a ||| b) = exM k a ||| exM k b := by
  refine Nat.eq_of_testBit_eq fun i => ?_
  simp only [exM_bit, Nat.testBit_or]

theorem exM_date (k : Bool) (a : Nat) : exM k a &&& 14 = exM k (a &&& 14) := by
  refine Nat.eq_of_testBit_eq fun i => ?_
  simp only [exM_bit, Nat.testBit_and]
  congr 1
  cases k
  · rfl
  · simp only [if_true]
    by_cases h1 : i = 1
    · subst h1; decide
    · by_cases h3 : i = 3
      · subst h3; decide
      · simp [h1, h3]

theorem exM_both (k : Bool) (a : Nat) : exM k a &&& 10 = exM k (a &&& 10) := by
  refine Nat.eq_of_testBit_eq fun i => ?_
  simp only [exM_bit, Nat.testBit_and]
  congr 1
  cases k
  · rfl
  · simp only [if_true]
    by_cases h1 : i = 1
    · subst h1; decide
    · by_cases h3 : i = 3
      · subst h3; decide
      · simp [h1, h3]

/-- The other bits stay. -/
theorem exM_other (k : Bool) (a c : Nat) (h1 : c.testBit 1 = false) (h3 : c.testBit 3 = false) : exM k a &&& c = a &&& c := by
  refine Nat.eq_of_testBit_eq fun i => ?_
  simp only [exM_bit, Nat.testBit_and]
  cases k
  · rfl
  · simp only [if_true]
    by_cases e1 : i = 1
    · subst e1; simp [h1]
    · by_cases e3 : i = 3
      · subst e3; simp [h3]
      · simp [e1, e3]

theorem exM_fixed (k : Bool) (c : Nat) (h : c.testBit 1 = c.testBit 3) : exM k c = c := by
  unfold exM; rw [if_neg (by rintro ⟨-, n⟩; exact n h)]

theorem date_bits (a : Nat) : a &&& 14 = 0 ∨ a &&& 14 = 2 ∨ a &&& 14 = 4 ∨ a &&& 14 = 6 ∨ a &&& 14 = 8 ∨ a &&& 14 = 10 ∨ a &&& 14 = 12 ∨
    a &&& 14 = 14 := by
  have h1 : a &&& 14 ≤ 14 := Nat.and_le_right
  have h0 : (a &&& 14).testBit 0 = false := by simp
  generalize a &&& 14 = x at *
  have h0 : x % 2 = 0 := by simpa [Nat.testBit_zero] using h0
  omega

theorem month_bit (a : Nat) : a &&& 2 = (a &&& 14) &&& 2 := by rw [Nat.and_assoc]; rfl
theorem day_bit (a : Nat) : a &&& 8 = (a &&& 14) &&& 8 := by rw [Nat.and_assoc]; rfl
theorem both_bits (a : Nat) : a &&& 10 = (a &&& 14) &&& 10 := by rw [Nat.and_assoc]; rfl

/-- Exchange month and day. -/
def exT (k : Bool) (tm : PgTime) : PgTime := if k then { tm with mon := tm.mday, mday := tm.mon } else tm

/-! ## Digits that are a time of day -/

/-- What the two number decoders have to agree on. -/
structure NumEx (k : Bool) (s t : NumS) : Prop where
  tm : t.tm = exT k s.tm
  fsec : t.fsec = s.fsec
  is2 : t.is2 = s.is2

theorem numberTime_two (k : Bool) (w : Bytes) (len f g : Nat) {s t : NumS} (h : NumEx k s t) :
    Post (numberTime w len f) (fun _ s' => Post (numberTime w len g)
      (fun _ t' => NumEx k s' t' ∧ s'.tMask = DTK_TIME_M ∧ t'.tMask = DTK_TIME_M) t) s := by
  obtain ⟨h1, h2, h3⟩ := h
  unfold numberTime
  wp
  refine ⟨fun c1 a ha b hb d hd => ⟨fun _ a' ha' b' hb' d' hd' => ?_, fun _ c2 => absurd c2.2 (by omega)⟩,
    fun _ c1 a ha b hb => ⟨fun c2 => absurd c2.2 (by omega), fun _ _ a' ha' b' hb' => ?_⟩⟩
  · rw [ha] at ha'; rw [hb] at hb'; rw [hd] at hd'
    cases ha'; cases hb'; cases hd'
    refine ⟨?_, h2, h3⟩
    dsimp only; rw [h1]; cases k <;> rfl
  · rw [ha] at ha'; rw [hb] at hb'
    cases ha'; cases hb'
    refine ⟨?_, h2, h3⟩
    dsimp only; rw [h1]; cases k <;> rfl

/-- Of a run of digits or a number with a point: the same time of day, or a date in both. -/
theorem numberField_two (k : Bool) (w : Bytes) (f : Nat) {s t : NumS} (h : NumEx k s t) :
    Post (decodeNumberField w f) (fun _ s' => Post (decodeNumberField w (exM k f))
      (fun _ t' => (NumEx k s' t' ∧ s'.tMask = DTK_TIME_M ∧ t'.tMask = DTK_TIME_M) ∨
        (s'.tMask = DTK_DATE_M ∧ t'.tMask = DTK_DATE_M ∧ (k = false → NumEx k s' t') ∧ f &&& DTK_DATE_M ≠ DTK_DATE_M)) t) s := by
  have hc : exM k f &&& DTK_DATE_M = DTK_DATE_M ↔ f &&& DTK_DATE_M = DTK_DATE_M := by
    rw [exM_date]
    rcases date_bits f with e | e | e | e | e | e | e | e <;> rw [e] <;> cases k <;> decide
  unfold decodeNumberField
  by_cases c1 : w.length ≠ dotPos w
  · simp only [if_pos c1]
    wp
    intro a ha
    refine (numberTime_two k w _ f (exM k f) (s := { s with fsec := roundMicros a.1 }) (t := { t with fsec := roundMicros a.1 })
      ⟨h.tm, rfl, h.is2⟩).mono fun _ s' h' b hb => ?_
    rw [ha] at hb; cases hb
    exact h'.mono fun _ t' h => Or.inl h
  · simp only [if_neg c1]
    by_cases c2 : f &&& DTK_DATE_M ≠ DTK_DATE_M ∧ w.length ≥ 6
    · rw [if_pos c2, if_pos ⟨fun e => c2.1 (hc.1 e), c2.2⟩]
      unfold numberDate
      wp
      intro a ha b hb d hd a' ha' b' hb' d' hd'
      rw [ha] at ha'; rw [hb] at hb'; rw [hd] at hd'
      cases ha'; cases hb'; cases hd'
      right
      refine ⟨?_, ?_, ?_, c2.1⟩
      · split <;> rfl
      · split <;> rfl
      · rintro rfl
        obtain ⟨h1, h2, h3⟩ := h
        split
        · exact ⟨by dsimp only; rw [h1]; rfl, h2, rfl⟩
        · exact ⟨by dsimp only; rw [h1]; rfl, h2, h3⟩
    · rw [if_neg c2, if_neg (fun e => c2 ⟨fun x => e.1 (hc.2 x), e.2⟩)]
      exact (numberTime_two k w _ f (exM k f) h).mono fun _ s' h' => h'.mono fun _ t' h => Or.inl h

/-! ## Digits whose errors are ignored -/

/-- Exchange month and day. -/
def NumS.ex (k : Bool) (s : NumS) : NumS := { s with tm := exT k s.tm }

theorem numberTime_ex (k : Bool) (w : Bytes) (len : Nat) {f g : Nat} (h : g &&& DTK_TIME_M = f &&& DTK_TIME_M) (s : NumS) :
    numberTime w len g (s.ex k) = ((numberTime w len f s).1, ((numberTime w len f s).2).ex k) := by
  unfold numberTime
  rw [h]
  split
  · generalize str2i32 (w.drop 4) = a
    generalize str2i32 ((w.drop 2).take 2) = b
    generalize str2i32 (w.take 2) = c
    rcases a with ⟨a, _⟩ | _ | _ <;> rcases b with ⟨b, _⟩ | _ | _ <;> rcases c with ⟨c, _⟩ | _ | _ <;> cases k <;> rfl
  · split
    · generalize str2i32 (w.drop 2) = a
      generalize str2i32 (w.take 2) = c
      rcases a with ⟨a, _⟩ | _ | _ <;> rcases c with ⟨c, _⟩ | _ | _ <;> cases k <;> rfl
    · rfl

theorem numberTime_mask (w : Bytes) (len f : Nat) : Stays (fun s : NumS => s.tMask = 0 ∨ s.tMask = DTK_TIME_M) (numberTime w len f) := by
  unfold numberTime
  refine Stays.ite (fun _ => ?_) fun _ => Stays.ite (fun _ => ?_) fun _ => Stays.fail
  · refine Stays.modBind (fun s h => Or.inr rfl) (Stays.liftBind fun _ _ => ?_)
    refine Stays.modBind (fun s h => h) (Stays.liftBind fun _ _ => ?_)
    refine Stays.modBind (fun s h => h) (Stays.liftBind fun _ _ => ?_)
    exact Stays.modBind (fun s h => h) Stays.pure
  · refine Stays.modBind (fun s h => Or.inr rfl) (Stays.liftBind fun _ _ => ?_)
    refine Stays.modBind (fun s h => h) (Stays.liftBind fun _ _ => ?_)
    exact Stays.modBind (fun s h => h) Stays.pure

theorem numberField_ex (k : Bool) (w : Bytes) {f g : Nat} (h : g &&& DTK_TIME_M = f &&& DTK_TIME_M) (hf : f &&& DTK_DATE_M = DTK_DATE_M)
    (hg : g &&& DTK_DATE_M = DTK_DATE_M) (s : NumS) :
    decodeNumberField w g (s.ex k) = ((decodeNumberField w f s).1, ((decodeNumberField w f s).2).ex k) := by
  unfold decodeNumberField
  split
  · generalize str2d (w.drop (dotPos w)) = a
    rcases a with ⟨a, _⟩ | _ | _
    · exact numberTime_ex k w _ h { s with fsec := roundMicros a }
    · rfl
    · rfl
  · rw [if_neg (by rw [hg]; simp), if_neg (by rw [hf]; simp)]
    exact numberTime_ex k w _ h s

theorem numberField_mask (w : Bytes) {f : Nat} (hf : f &&& DTK_DATE_M = DTK_DATE_M) :
    Stays (fun s : NumS => s.tMask = 0 ∨ s.tMask = DTK_TIME_M) (decodeNumberField w f) := by
  unfold decodeNumberField
  refine Stays.ite (fun _ => ?_) fun _ => Stays.ite (fun h => absurd hf h.1) fun _ => numberTime_mask w _ f
  exact Stays.liftBind fun _ _ => Stays.modBind (fun s h => h) (numberTime_mask w _ f)

theorem full_date (f : Nat) : (f ||| DTK_DATE_M) &&& DTK_DATE_M = DTK_DATE_M := by
  rw [Nat.and_or_distrib_right, Nat.and_self]
  have := Nat.and_le_right (n := f) (m := DTK_DATE_M)
  rcases date_bits f with e | e | e | e | e | e | e | e <;> rw [e] <;> decide

theorem full_time (k : Bool) (f : Nat) : (exM k f ||| DTK_DATE_M) &&& DTK_TIME_M = (f ||| DTK_DATE_M) &&& DTK_TIME_M := by
  rw [Nat.and_or_distrib_right, Nat.and_or_distrib_right, exM_other k f DTK_TIME_M (by decide) (by decide)]

theorem ignored_two (k : Bool) (w : Bytes) (f : Nat) {s t : NumS} (h : NumEx k s t) (hs : s.tMask = 0) (ht : t.tMask = 0) :
    Post (St.ignore (decodeNumberField w (f ||| DTK_DATE_M))) (fun _ s' => Post (St.ignore (decodeNumberField w (exM k f ||| DTK_DATE_M)))
      (fun _ t' => NumEx k s' t' ∧ t'.tMask = s'.tMask ∧ (s'.tMask = 0 ∨ s'.tMask = DTK_TIME_M)) t) s := by
  obtain rfl : t = s.ex k := by
    obtain ⟨h1, h2, h3⟩ := h
    cases t; cases s
    simp only [NumS.ex] at *
    rw [h1, h2, h3, ht, hs]
  have key := numberField_ex k w (full_time k f) (full_date f) (full_date _) s
  have hm := numberField_mask w (full_date f) s (Or.inl hs)
  intro a s' e b t' e'
  unfold St.ignore at e e'
  rw [key] at e'
  rcases hr : decodeNumberField w (f ||| DTK_DATE_M) s with ⟨r, s1⟩
  rw [hr] at e e' hm
  cases r with
  | panic => cases e
  | ok x => cases e; cases e'; exact ⟨⟨rfl, rfl, rfl⟩, rfl, hm⟩
  | err x => cases e; cases e'; exact ⟨⟨rfl, rfl, rfl⟩, rfl, hm⟩

/-! ## Numbers -/

theorem numberTime_tie (w : Bytes) (len f : Nat) : Stays (fun s : NumS => s.tm.mon = s.tm.mday) (numberTime w len f) := by
  unfold numberTime
  refine Stays.ite (fun _ => ?_) fun _ => Stays.ite (fun _ => ?_) fun _ => Stays.fail
  · refine Stays.modBind (fun s h => h) (Stays.liftBind fun _ _ => ?_)
    refine Stays.modBind (fun s h => h) (Stays.liftBind fun _ _ => ?_)
    refine Stays.modBind (fun s h => h) (Stays.liftBind fun _ _ => ?_)
    exact Stays.modBind (fun s h => h) Stays.pure
  · refine Stays.modBind (fun s h => h) (Stays.liftBind fun _ _ => ?_)
    refine Stays.modBind (fun s h => h) (Stays.liftBind fun _ _ => ?_)
    exact Stays.modBind (fun s h => h) Stays.pure

/-- Digits that are no date keep month and day. -/
theorem numberField_tie (w : Bytes) (f : Nat) {s : NumS} (hs : s.tm.mon = s.tm.mday) :
    Post (decodeNumberField w f) (fun _ s' => s'.tMask = DTK_DATE_M ∨ s'.tm.mon = s'.tm.mday) s := by
  unfold decodeNumberField
  rw [Post.ite]
  refine ⟨fun _ => ?_, fun _ => ?_⟩
  · rw [Post.bind, Post.lift]
    intro a _
    rw [Post.bind, Post.mod]
    exact ((numberTime_tie w _ f).post (s := { s with fsec := roundMicros a.1 }) hs).mono fun _ s' h => Or.inr h
  · rw [Post.ite]
    refine ⟨fun _ => ?_, fun _ => ((numberTime_tie w _ f).post hs).mono fun _ s' h => Or.inr h⟩
    unfold numberDate
    wp
    intro a _ b _ c _
    left
    split <;> rfl

theorem ignored_tie (w : Bytes) {f : Nat} (hf : f &&& DTK_DATE_M = DTK_DATE_M) :
    Stays (fun s : NumS => s.tm.mon = s.tm.mday) (St.ignore (decodeNumberField w f)) := by
  refine Stays.ignore ?_
  unfold decodeNumberField
  refine Stays.ite (fun _ => ?_) fun _ => Stays.ite (fun h => absurd hf h.1) fun _ => numberTime_tie w _ f
  exact Stays.liftBind fun _ _ => Stays.modBind (fun s h => h) (numberTime_tie w _ f)

/-- What two runs of the number decoder leave behind. -/
structure NumAfter (k : Bool) (f : Nat) (k' : Bool) (s t : NumS) : Prop where
  num : NumEx k' s t
  mask : exM k f ||| t.tMask = exM k' (f ||| s.tMask)
  live : k' = true → (f ||| s.tMask) &&& DTK_MONTH_M ≠ 0
  was : k' = true → k = true ∨ f &&& DTK_DATE_M = 0
  tie : (f ||| s.tMask) &&& DTK_DATE_M = 0 → s.tm.mon = s.tm.mday

theorem or_date_zero {a b : Nat} (h : (a ||| b) &&& DTK_DATE_M = 0) : a &&& DTK_DATE_M = 0 ∧ b &&& DTK_DATE_M = 0 := by
  rw [Nat.and_or_distrib_right] at h
  exact Nat.or_eq_zero_iff.1 h

/-- A mask without month and day. -/
theorem NumAfter.plain {k : Bool} {f c : Nat} {s t : NumS} (h : NumEx k s t) (hs : s.tMask = c) (ht : t.tMask = c)
    (hc : c.testBit 1 = c.testBit 3) (hk : k = true → f &&& DTK_MONTH_M ≠ 0)
    (hm : (f ||| c) &&& DTK_DATE_M = 0 → s.tm.mon = s.tm.mday) : NumAfter k f k s t := by
  refine ⟨h, ?_, fun e => ?_, fun e => Or.inl e, by rw [hs]; exact hm⟩
  · rw [hs, ht, exM_or, exM_fixed k c hc]
  · have := hk e
    rw [Nat.and_or_distrib_right]
    intro n
    exact this (Nat.or_eq_zero_iff.1 n).1

/-- The same run twice. -/
theorem Post.diag {σ α : Type} {m : St σ α} {Q : α → σ → α → σ → Prop} {s : σ} (h : ∀ a s', Q a s' a s') :
    Post m (fun a s' => Post m (fun b t' => Q a s' b t') s) s := by
  intro a s' e b t' e'
  rw [e] at e'
  cases e'
  exact h a s'

theorem NumAfter.same {f : Nat} {s : NumS} (h : (f ||| s.tMask) &&& DTK_DATE_M = 0 → s.tm.mon = s.tm.mday) :
    NumAfter false f false s s := ⟨⟨rfl, rfl, rfl⟩, rfl, by simp, by simp, h⟩

/-- Once a part of the date is known both orders do the same. -/
theorem numberVal_same (w : Bytes) (v : Int) (text : Bool) {f : Nat} (hf : f &&& DTK_DATE_M ≠ 0) :
    decodeNumberVal w v text f .mdy = decodeNumberVal w v text f .dmy := by
  unfold decodeNumberVal numberByMask
  simp only [if_neg hf]
  simp

theorem numberVal_two (k : Bool) (w : Bytes) (v : Int) (text : Bool) (f : Nat) (hk : k = true → f &&& DTK_MONTH_M ≠ 0)
    (ht : k = true → text = false) {s t : NumS} (h : NumEx k s t) (hz : s.tMask = 0 ∧ t.tMask = 0)
    (hm : f &&& DTK_DATE_M = 0 → s.tm.mon = s.tm.mday) :
    Post (decodeNumberVal w v text f .mdy) (fun _ s' => Post (decodeNumberVal w v text (exM k f) .dmy)
      (fun _ t' => ∃ k', NumAfter k f k' s' t') t) s := by
  cases k with
  | false =>
    obtain rfl : t = s := by
      obtain ⟨h1, h2, h3⟩ := h
      cases t; cases s
      simp only [exT] at *
      rw [h1, h2, h3, hz.1, hz.2]
      rfl
    rw [show exM false f = f from rfl]
    by_cases hf : f &&& DTK_DATE_M = 0
    · have hm := hm hf
      have h3 : ¬ (w.length = 3 ∧ f &&& DTK_DATE_M = DTK_YEAR_M ∧ 1 ≤ v ∧ v ≤ 366) := by rw [hf]; omega
      unfold decodeNumberVal numberByMask
      simp only [if_pos hf, if_neg h3]
      by_cases hl : w.length ≥ 3
      · simp only [hl, true_or, if_true]
        wp
        exact ⟨false, .same fun e => absurd (or_date_zero e).2 (by simp)⟩
      · simp only [hl, false_or, reduceCtorEq, if_true, if_false]
        wp
        simp only [Nat.reduceEqDiff, if_false]
        have e1 : f.testBit 1 = false := by
          have := congrArg (fun x => Nat.testBit x 1) hf
          simpa [show Nat.testBit 14 1 = true from rfl] using this
        have e3 : f.testBit 3 = false := by
          have := congrArg (fun x => Nat.testBit x 3) hf
          simpa [show Nat.testBit 14 3 = true from rfl] using this
        refine ⟨true, ⟨?_, rfl, rfl⟩, ?_, ?_, fun _ => Or.inr hf, fun e => absurd (or_date_zero e).2 (by simp)⟩
        · simp [exT, hm]
        · rw [exM_or, exM_fixed true f (by rw [e1, e3]), exM_fixed false f (by rw [e1, e3])]
          dsimp only
          rw [show exM true 2 = 8 from rfl]
        · intro _ n
          rw [Nat.and_or_distrib_right] at n
          exact absurd (Nat.or_eq_zero_iff.1 n).2 (by simp)
    · rw [numberVal_same w v text hf]
      exact Post.diag fun _ s' => ⟨false, .same fun e => absurd (or_date_zero e).1 hf⟩
  | true =>
    obtain rfl := ht rfl
    have hk' := hk rfl
    have hd := exM_date true f
    rw [month_bit] at hk'
    unfold decodeNumberVal numberByMask
    rw [hd]
    have live : ∀ c, ((f ||| c) &&& DTK_MONTH_M ≠ 0) := by
      intro c n
      rw [Nat.and_or_distrib_right] at n
      exact hk rfl (Nat.or_eq_zero_iff.1 n).1
    have nz : f &&& DTK_DATE_M ≠ 0 := by rintro n; rw [n] at hk'; exact hk' rfl
    obtain ⟨h1, h2, h3⟩ := h
    rcases date_bits f with e | e | e | e | e | e | e | e <;> rw [e] at hk' ⊢
    · simp at hk'
    · rw [show exM true 2 = 8 from rfl]
      simp only [Nat.reduceEqDiff, false_and, and_false, if_false, if_true, reduceCtorEq, Bool.false_eq_true]
      wp
      simp only [Nat.reduceEqDiff, if_false]
      refine ⟨true, ⟨by dsimp only; rw [h1]; rfl, h2, h3⟩, ?_, fun _ => live _, fun _ => Or.inl rfl, fun e => absurd (or_date_zero e).1 nz⟩
      dsimp only; rw [exM_or, show exM true 8 = 2 from rfl]
    · simp at hk'
    · rw [show exM true 6 = 12 from rfl]
      simp only [Nat.reduceEqDiff, false_and, and_false, if_false, if_true, reduceCtorEq, Bool.false_eq_true]
      wp
    · simp at hk'
    · rw [show exM true 10 = 10 from rfl]
      simp only [Nat.reduceEqDiff, false_and, and_false, if_false, if_true, reduceCtorEq, Bool.false_eq_true]
      wp
      simp only [if_true]
      refine ⟨true, ⟨by dsimp only; rw [h1]; rfl, h2, rfl⟩, ?_, fun _ => live _, fun _ => Or.inl rfl, fun e => absurd (or_date_zero e).1 nz⟩
      dsimp only; rw [exM_or, show exM true 4 = 4 from rfl]
    · simp at hk'
    · rw [show exM true 14 = 14 from rfl]
      simp only [Nat.reduceEqDiff, false_and, and_false, if_false, if_true, reduceCtorEq, Bool.false_eq_true]
      wp
      refine (numberField_two true w f ⟨h1, h2, h3⟩).mono fun _ s' h' => h'.mono fun _ t' h'' => ⟨true, ?_⟩
      rcases h'' with ⟨a, b, c⟩ | ⟨-, -, -, n⟩
      · simp only [Bool.false_eq_true, false_and, if_false]
        exact .plain a b c (by decide) hk fun e => absurd (or_date_zero e).1 nz
      · exact absurd e n

/-- The number decoder once the digits have been read. -/
def numRest (w : Bytes) (v : Int) (r : Bytes) (text : Bool) (f : Nat) (order : DateOrder) : St NumS Unit :=
  if r = w then St.fail .invalid
  else
    match r with
    | [] => decodeNumberVal w v text f order
    | c :: _ =>
      if c = 46 then
        if w.length - r.length > 2 then St.ignore (decodeNumberField w (f ||| DTK_DATE_M))
        else do
          let x ← St.lift (parseFractionalSecond r)
          St.mod fun t => { t with fsec := x }
          decodeNumberVal w v text f order
      else St.fail .invalid

theorem number_post {w : Bytes} {text : Bool} {f : Nat} {order : DateOrder} {Q : Unit → NumS → Prop} {s : NumS} :
    Post (decodeNumber w text f order) Q s ↔
      ∀ v r, str2i32 w = .ok (v, r) → Post (numRest w v r text f order) Q { s with tMask := 0 } := by
  unfold decodeNumber
  rw [Post.bind, Post.mod, Post.bind, Post.lift]
  exact ⟨fun h v r e => h (v, r) e, fun h a e => h a.1 a.2 e⟩

theorem number_two (k : Bool) (w : Bytes) (text : Bool) (f : Nat) (hk : k = true → f &&& DTK_MONTH_M ≠ 0)
    (ht : k = true → text = false) {s t : NumS} (h : NumEx k s t) (hm : f &&& DTK_DATE_M = 0 → s.tm.mon = s.tm.mday) :
    Post (decodeNumber w text f .mdy) (fun _ s' => Post (decodeNumber w text (exM k f) .dmy)
      (fun _ t' => ∃ k', NumAfter k f k' s' t') t) s := by
  simp only [number_post]
  intro v r ha
  refine Post.mono (Q := fun _ s' => Post (numRest w v r text (exM k f) .dmy) (fun _ t' => ∃ k', NumAfter k f k' s' t') { t with tMask := 0 })
    ?_ fun _ s' h' v' r' hb => by rw [ha] at hb; cases hb; exact h'
  unfold numRest
  by_cases c1 : r = w
  · rw [if_pos c1, Post.fail]; trivial
  · simp only [if_neg c1]
    cases r with
    | nil => exact numberVal_two k w v text f hk ht ⟨h.tm, h.fsec, h.is2⟩ ⟨rfl, rfl⟩ hm
    | cons b r =>
      by_cases c2 : b = 46
      · simp only [if_pos c2]
        by_cases c3 : w.length - (b :: r).length > 2
        · simp only [if_pos c3]
          have tie : Post (St.ignore (decodeNumberField w (f ||| DTK_DATE_M))) (fun _ s' => f &&& DTK_DATE_M = 0 → s'.tm.mon = s'.tm.mday)
              { s with tMask := 0 } := by
            by_cases hf : f &&& DTK_DATE_M = 0
            · exact ((ignored_tie w (full_date f)).post (s := { s with tMask := 0 }) (hm hf)).mono fun _ _ h _ => h
            · exact Post.any fun _ _ n => absurd n hf
          refine ((ignored_two k w f (s := { s with tMask := 0 }) (t := { t with tMask := 0 }) ⟨h.tm, h.fsec, h.is2⟩ rfl rfl).and tie).mono
            fun _ s' h' => h'.1.mono fun _ t' h'' => ⟨k, ?_⟩
          rcases h''.2.2 with e | e
          · exact .plain h''.1 e (h''.2.1.trans e) (by decide) hk fun e => h'.2 (or_date_zero e).1
          · exact .plain h''.1 e (h''.2.1.trans e) (by decide) hk fun e => h'.2 (or_date_zero e).1
        · simp only [if_neg c3]
          rw [Post.bind, Post.lift]
          intro x hx
          rw [Post.bind, Post.mod]
          refine (numberVal_two k w v text f hk ht (s := { s with tMask := 0, fsec := x }) (t := { t with tMask := 0, fsec := x })
            ⟨h.tm, rfl, h.is2⟩ ⟨rfl, rfl⟩ hm).mono fun _ s' h' => ?_
          rw [Post.bind, Post.lift]
          intro y hy
          rw [hx] at hy
          cases hy
          rw [Post.bind, Post.mod]
          exact h'
      · simp only [if_neg c2, Post.fail]

/-! ## Dates -/

/-- What two runs of the date decoder have to agree on; `f`, `g` are the masks at its start. -/
structure DateEx (k : Bool) (f g : Nat) (s t : DateS) : Prop where
  tm : t.tm = exT k s.tm
  is2 : t.is2 = s.is2
  fsec : t.fsec = s.fsec
  fMask : t.fMask = exM k s.fMask
  haveText : t.haveText = s.haveText
  live : k = true → s.fMask &&& DTK_MONTH_M ≠ 0
  noText : k = true → s.haveText = false
  text : s.haveText = true → s.fMask &&& DTK_MONTH_M ≠ 0
  tie : s.fMask &&& DTK_DATE_M = 0 → s.tm.mon = s.tm.mday
  old1 : s.fMask = f ||| s.tMask
  old2 : t.fMask = g ||| t.tMask

theorem or_month_ne {a : Nat} (b : Nat) (h : a &&& DTK_MONTH_M ≠ 0) : (a ||| b) &&& DTK_MONTH_M ≠ 0 := by
  intro n
  rw [Nat.and_or_distrib_right] at n
  exact h (Nat.or_eq_zero_iff.1 n).1

/-- If both computations succeed, then `Q`. -/
def Two {σ τ α β : Type} (m : St σ α) (n : St τ β) (Q : α → σ → β → τ → Prop) (s : σ) (t : τ) : Prop :=
  Post m (fun a s' => Post n (fun b t' => Q a s' b t') t) s

namespace Two
variable {σ τ α β γ δ : Type} {s : σ} {t : τ}

theorem bind {m : St σ α} {n : St τ β} {R : α → σ → β → τ → Prop} {f : α → St σ γ} {g : β → St τ δ} {Q : γ → σ → δ → τ → Prop}
    (h : Two m n R s t) (hf : ∀ a s' b t', R a s' b t' → Two (f a) (g b) Q s' t') : Two (m >>= f) (n >>= g) Q s t := by
  unfold Two at *
  rw [Post.bind]
  intro a s' e c s'' e'
  rw [Post.bind]
  intro b t' e2
  exact hf a s' b t' (h a s' e b t' e2) c s'' e'

theorem mono {m : St σ α} {n : St τ β} {Q R : α → σ → β → τ → Prop} (h : Two m n Q s t) (hQ : ∀ a s' b t', Q a s' b t' → R a s' b t') :
    Two m n R s t := Post.mono h fun a s' h' => h'.mono fun b t' h'' => hQ a s' b t' h''

theorem pure {a : α} {b : β} {Q : α → σ → β → τ → Prop} (h : Q a s b t) : Two (Pure.pure a) (Pure.pure b) Q s t :=
  Post.pure.2 (Post.pure.2 h)

theorem failL {e : Err} {n : St τ β} {Q : α → σ → β → τ → Prop} : Two (St.fail e : St σ α) n Q s t := Post.fail.2 trivial

theorem failR {e : Err} {m : St σ α} {Q : α → σ → β → τ → Prop} : Two m (St.fail e : St τ β) Q s t := Post.any fun _ _ => Post.fail.2 trivial

theorem getBind {f : σ → St σ α} {g : τ → St τ β} {Q : α → σ → β → τ → Prop} (h : Two (f s) (g t) Q s t) :
    Two (St.get >>= f) (St.get >>= g) Q s t := h

theorem modBind {u : σ → σ} {v : τ → τ} {f : Unit → St σ α} {g : Unit → St τ β} {Q : α → σ → β → τ → Prop}
    (h : Two (f ()) (g ()) Q (u s) (v t)) : Two (St.mod u >>= f) (St.mod v >>= g) Q s t := h

theorem mod {u : σ → σ} {v : τ → τ} {Q : Unit → σ → Unit → τ → Prop} (h : Q () (u s) () (v t)) : Two (St.mod u) (St.mod v) Q s t :=
  Post.mod.2 (Post.mod.2 h)

/-- Two calls with the same result. -/
theorem liftBind {r : Res γ} {f : γ → St σ α} {g : γ → St τ β} {Q : α → σ → β → τ → Prop}
    (h : ∀ a, r = .ok a → Two (f a) (g a) Q s t) : Two (St.lift r >>= f) (St.lift r >>= g) Q s t :=
  bind (R := fun a s' b t' => s' = s ∧ t' = t ∧ r = .ok a ∧ r = .ok b)
    (Post.lift.2 fun a ha => Post.lift.2 fun b hb => ⟨rfl, rfl, ha, hb⟩)
    (by rintro a s' b t' ⟨rfl, rfl, ha, hb⟩; rw [ha] at hb; cases hb; exact h a ha)

/-- A condition on which both agree. -/
theorem ite {c d : Prop} [Decidable c] [Decidable d] {m m' : St σ α} {n n' : St τ β} {Q : α → σ → β → τ → Prop} (e : c ↔ d)
    (h : c → Two m n Q s t) (h' : ¬ c → Two m' n' Q s t) : Two (if c then m else m') (if d then n else n') Q s t := by
  by_cases hc : c
  · rw [if_pos hc, if_pos (e.1 hc)]; exact h hc
  · rw [if_neg hc, if_neg fun n => hc (e.2 n)]; exact h' hc

/-- A check after which both have to go on. -/
theorem check {c d : Prop} [Decidable c] [Decidable d] {e e' : Err} {m : St σ α} {n : St τ β} {Q : α → σ → β → τ → Prop}
    (h : ¬ c → ¬ d → Two m n Q s t) : Two (if c then St.fail e else m) (if d then St.fail e' else n) Q s t := by
  by_cases hc : c
  · rw [if_pos hc]; exact failL
  · rw [if_neg hc]
    by_cases hd : d
    · rw [if_pos hd]; exact failR
    · rw [if_neg hd]; exact h hc hd

theorem zoom {σ' τ' : Type} {p : σ' → σ} {q : σ → σ' → σ'} {p' : τ' → τ} {q' : τ → τ' → τ'} {m : St σ α} {n : St τ β} {s : σ'} {t : τ'}
    {Q : α → σ' → β → τ' → Prop} (h : Two m n (fun a s' b t' => Q a (q s' s) b (q' t' t)) (p s) (p' t)) :
    Two (St.zoom p q m) (St.zoom p' q' n) Q s t := by
  unfold Two at *
  rw [Post.zoom]
  exact h.mono fun a s' h' => Post.zoom.2 h'

theorem noLook {C : Type} {m : St σ α} {n : St τ β} {s : σ × C} {t : τ × C} {Q : α → σ × C → β → τ × C → Prop}
    (h : Two m n (fun a s' b t' => Q a (s', s.2) b (t', t.2)) s.1 t.1) : Two (Pg.noLook m) (Pg.noLook n) Q s t := by
  unfold Two at *
  rw [Post.noLook]
  exact h.mono fun a s' h' => Post.noLook.2 h'

end Two

theorem numPass_two (l : List (Option Bytes)) : ∀ (k : Bool) (f g : Nat) (s t : DateS), DateEx k f g s t →
    Two (numPass .mdy l) (numPass .dmy l) (fun _ s' _ t' => ∃ k', DateEx k' f g s' t') s t := by
  induction l with
  | nil => intro k f g s t h; exact .pure ⟨k, h⟩
  | cons x l ih =>
    intro k f g s t h
    cases x with
    | none => exact ih k f g s t h
    | some w =>
      unfold numPass
      refine .check fun _ _ => .getBind ?_
      have key := number_two k w s.haveText s.fMask h.live h.noText (s := ⟨s.dMask, s.tm, s.fsec, s.is2⟩)
        (t := ⟨t.dMask, t.tm, t.fsec, t.is2⟩) ⟨h.tm, h.fsec, h.is2⟩ h.tie
      rw [← h.fMask] at key
      rw [h.haveText]
      refine .bind (R := fun _ s' _ t' => ∃ k' n1 n2, NumAfter k s.fMask k' n1 n2 ∧
        s' = { s with dMask := n1.tMask, tm := n1.tm, fsec := n1.fsec, is2 := n1.is2 } ∧
        t' = { t with dMask := n2.tMask, tm := n2.tm, fsec := n2.fsec, is2 := n2.is2 })
        (.zoom (.mono key fun _ n1 _ n2 ⟨k', hn⟩ => ⟨k', n1, n2, hn, rfl, rfl⟩)) ?_
      rintro _ _ _ _ ⟨k', n1, n2, hn, rfl, rfl⟩
      refine .getBind (.check fun _ _ => .modBind (ih k' f g _ _ ?_))
      refine ⟨hn.num.tm, hn.num.is2, hn.num.fsec, ?_, h.haveText, hn.live, fun e => ?_, fun e => or_month_ne _ (h.text e), hn.tie, ?_, ?_⟩
      · dsimp only; rw [h.fMask]; exact hn.mask
      · rcases hn.was e with e | e
        · exact h.noText e
        · rw [← Bool.not_eq_true]
          intro n
          have := h.text n
          rw [month_bit, e] at this
          exact this rfl
      · dsimp only; rw [h.old1, Nat.or_assoc]
      · dsimp only; rw [h.old2, Nat.or_assoc]

/-- Looking for a month name that may not come. -/
theorem textPass_two (l : List Bytes) : ∀ (i : Nat) (s t : DateS × Unit), s.1.fMask &&& DTK_MONTH_M ≠ 0 →
    Two (textPass plainLook l i) (textPass plainLook l i) (fun r s' r' t' => r' = r ∧ s' = s ∧ t' = t) s t := by
  induction l with
  | nil => intro i s t h; exact .pure ⟨rfl, rfl, rfl⟩
  | cons w l ih =>
    intro i s t h
    have rest : ∀ x : Option Bytes, Two (textPass plainLook l (i + 1) >>= fun r => pure (x :: r))
        (textPass plainLook l (i + 1) >>= fun r => pure (x :: r)) (fun r s' r' t' => r' = r ∧ s' = s ∧ t' = t) s t := by
      intro x
      refine .bind (ih (i + 1) s t h) ?_
      rintro a _ _ _ ⟨rfl, rfl, rfl⟩
      exact .pure ⟨rfl, rfl, rfl⟩
    unfold textPass
    refine .ite Iff.rfl (fun _ => ?_) fun _ => rest _
    refine .bind (R := fun a s' b t' => b = a ∧ s' = s ∧ t' = t) (Post.look.2 (Post.look.2 ⟨rfl, rfl, rfl⟩)) ?_
    rintro ⟨ty, v⟩ _ _ _ ⟨rfl, rfl, rfl⟩
    dsimp only
    refine .ite Iff.rfl (fun _ => rest _) fun _ => .ite Iff.rfl (fun _ => ?_) fun _ => .failL
    refine .bind (R := fun _ s' _ _ => s'.1.fMask &&& DTK_MONTH_M ≠ 0) (.noLook (.mod h)) ?_
    rintro _ s1 _ t1 h1
    refine .bind (R := fun a _ _ _ => a.fMask &&& DTK_MONTH_M ≠ 0) (.noLook (Post.get.2 (Post.get.2 h1))) ?_
    rintro s2 _ t2 _ h2
    exact .check fun n _ => absurd h2 n

/-- What looking for month names keeps. -/
structure TextOk (f : Nat) (s : DateS) : Prop where
  text : s.haveText = true → s.fMask &&& DTK_MONTH_M ≠ 0
  tie : s.fMask &&& DTK_DATE_M = 0 → s.tm.mon = s.tm.mday
  old : s.fMask = f ||| s.tMask

theorem textPass_ok {f : Nat} (l : List Bytes) : ∀ (i : Nat) (s : DateS × Unit), TextOk f s.1 →
    Post (textPass plainLook l i) (fun _ s' => TextOk f s'.1) s := by
  induction l with
  | nil => intro i s h; rw [textPass, Post.pure]; exact h
  | cons w l ih =>
    intro i s h
    have rest : ∀ (x : Option Bytes) (s : DateS × Unit), TextOk f s.1 →
        Post (textPass plainLook l (i + 1) >>= fun r => pure (x :: r)) (fun _ s' => TextOk f s'.1) s := by
      intro x s h
      rw [Post.bind]
      exact (ih (i + 1) s h).mono fun _ s' h' => Post.pure.2 h'
    unfold textPass
    rw [Post.ite]
    refine ⟨fun _ => ?_, fun _ => rest _ s h⟩
    rw [Post.bind, Post.look]
    dsimp only
    rw [Post.ite]
    refine ⟨fun _ => rest _ s h, fun _ => ?_⟩
    rw [Post.ite]
    refine ⟨fun _ => ?_, fun _ => Post.fail.2 trivial⟩
    rw [Post.bind, Post.noLook, Post.mod, Post.bind, Post.noLook, Post.get, Post.ite]
    refine ⟨fun _ => Post.fail.2 trivial, fun _ => ?_⟩
    rw [Post.bind, Post.noLook, Post.mod]
    refine rest _ _ ⟨fun _ => ?_, fun n => ?_, ?_⟩
    · intro n
      rw [Nat.and_or_distrib_right] at n
      exact absurd (Nat.or_eq_zero_iff.1 n).2 (by decide)
    · exact absurd (or_date_zero n).2 (by decide)
    · dsimp only; rw [h.old, Nat.or_assoc]

/-- What the two runs have to agree on between fields. -/
structure DecEx (k : Bool) (a b : Dec) : Prop where
  tm : b.tm = exT k a.tm
  dType : b.dType = a.dType
  fSec : b.fSec = a.fSec
  fMask : b.fMask = exM k a.fMask
  pType : b.pType = a.pType
  isJulian : b.isJulian = a.isJulian
  is2 : b.is2 = a.is2
  bc : b.bc = a.bc
  mer : b.mer = a.mer
  textMonth : b.textMonth = a.textMonth
  live : k = true → a.fMask &&& DTK_MONTH_M ≠ 0
  tie : a.fMask &&& DTK_DATE_M = 0 → a.tm.mon = a.tm.mday
  label : a.pType ≠ .month
  old1 : a.fMask ||| a.tMask = a.fMask
  old2 : b.fMask ||| b.tMask = b.fMask

/-- The same before the mask of the field has been added. -/
structure DecMid (k : Bool) (a b : Dec) : Prop where
  tm : b.tm = exT k a.tm
  dType : b.dType = a.dType
  fSec : b.fSec = a.fSec
  fMask : b.fMask ||| b.tMask = exM k (a.fMask ||| a.tMask)
  pType : b.pType = a.pType
  isJulian : b.isJulian = a.isJulian
  is2 : b.is2 = a.is2
  bc : b.bc = a.bc
  mer : b.mer = a.mer
  textMonth : b.textMonth = a.textMonth
  live : k = true → (a.fMask ||| a.tMask) &&& DTK_MONTH_M ≠ 0
  tie : (a.fMask ||| a.tMask) &&& DTK_DATE_M = 0 → a.tm.mon = a.tm.mday
  label : a.pType ≠ .month

theorem DecEx.mid {k : Bool} {a b : Dec} (h : DecEx k a b) : DecMid k a b where
  tm := h.tm
  dType := h.dType
  fSec := h.fSec
  fMask := by rw [h.old1, h.old2, h.fMask]
  pType := h.pType
  isJulian := h.isJulian
  is2 := h.is2
  bc := h.bc
  mer := h.mer
  textMonth := h.textMonth
  live := by rw [h.old1]; exact h.live
  tie := by rw [h.old1]; exact h.tie
  label := h.label

theorem DecMid.add {k : Bool} {a b : Dec} (h : DecMid k a b) :
    DecEx k { a with fMask := a.fMask ||| a.tMask } { b with fMask := b.fMask ||| b.tMask } where
  tm := h.tm
  dType := h.dType
  fSec := h.fSec
  fMask := h.fMask
  pType := h.pType
  isJulian := h.isJulian
  is2 := h.is2
  bc := h.bc
  mer := h.mer
  textMonth := h.textMonth
  live := h.live
  tie := h.tie
  label := h.label
  old1 := by dsimp only; rw [Nat.or_assoc, Nat.or_self]
  old2 := by dsimp only; rw [Nat.or_assoc, Nat.or_self]

theorem decodeDate_two (k : Bool) (w : Bytes) {a b : Dec × Unit} (h : DecEx k a.1 b.1) :
    Two (decodeDate plainLook w .mdy) (decodeDate plainLook w .dmy) (fun _ a' _ b' => ∃ k', DecMid k' a'.1 b'.1) a b := by
  unfold decodeDate
  refine .zoom ?_
  have body : Two (dateBody plainLook w .mdy) (dateBody plainLook w .dmy)
      (fun _ s' _ t' => ∃ k', DateEx k' a.1.fMask b.1.fMask s'.1 t'.1)
      (({ tm := a.1.tm, is2 := a.1.is2, fMask := a.1.fMask } : DateS), a.2)
      (({ tm := b.1.tm, is2 := b.1.is2, fMask := b.1.fMask } : DateS), b.2) := by
    unfold dateBody
    refine .liftBind fun l _ => ?_
    have text : Two (textPass plainLook l 0) (textPass plainLook l 0)
        (fun r s' r' t' => r' = r ∧ DateEx k a.1.fMask b.1.fMask s'.1 t'.1)
        (({ tm := a.1.tm, is2 := a.1.is2, fMask := a.1.fMask } : DateS), a.2)
        (({ tm := b.1.tm, is2 := b.1.is2, fMask := b.1.fMask } : DateS), b.2) := by
      cases k with
      | true =>
        refine .mono (textPass_two l 0 _ _ (h.live rfl)) ?_
        rintro r _ r' _ ⟨rfl, rfl, rfl⟩
        exact ⟨rfl, h.tm, h.is2, rfl, h.fMask, rfl, h.live, fun _ => rfl, fun e => (by cases e), h.tie, by simp, by simp⟩
      | false =>
        have e1 : b.1.tm = a.1.tm := h.tm
        have e2 : b.1.fMask = a.1.fMask := h.fMask
        rw [e1, e2, h.is2, show b.2 = a.2 from rfl]
        have ok := textPass_ok (f := a.1.fMask) l 0 (({ tm := a.1.tm, is2 := a.1.is2, fMask := a.1.fMask } : DateS), a.2)
          ⟨fun e => (by cases e), h.tie, by simp⟩
        intro r s' e r' t' e'
        have := ok r s' e
        rw [e] at e'
        cases e'
        exact ⟨rfl, rfl, rfl, rfl, rfl, rfl, by simp, by simp, this.text, this.tie, this.old, this.old⟩
    refine .bind text ?_
    rintro r s1 r' t1 ⟨rfl, h1⟩
    refine .bind (R := fun _ s' _ t' => ∃ k', DateEx k' a.1.fMask b.1.fMask s'.1 t'.1) (.noLook (numPass_two r' k _ _ _ _ h1)) ?_
    rintro _ s2 _ t2 h2
    refine .bind (R := fun _ s' _ t' => ∃ k', DateEx k' a.1.fMask b.1.fMask s'.1 t'.1) (.noLook (Post.get.2 (Post.get.2 h2))) ?_
    rintro _ s2 _ t2 h2
    exact .check fun _ _ => .pure h2
  refine .mono body ?_
  rintro _ s1 _ t1 ⟨k', h1⟩
  refine ⟨k', h1.tm, h.dType, h.fSec, ?_, h.pType, h.isJulian, h1.is2, h.bc, h.mer, h.textMonth, ?_, ?_, h.label⟩
  · dsimp only; rw [← h1.old1, ← h1.old2, h1.fMask]
  · dsimp only; rw [← h1.old1]; exact h1.live
  · dsimp only; rw [← h1.old1]; exact h1.tie

/-! ## The tokens -/

/-- What holds after a token: the states correspond, or one of the masks collides. -/
def TokEx (a b : Dec) : Prop := (∃ k, DecMid k a b) ∨ a.tMask &&& a.fMask ≠ 0 ∨ b.tMask &&& b.fMask ≠ 0

theorem addMask_two {a b : Dec} (h : TokEx a b) : Two addMask addMask (fun _ a' _ b' => ∃ k, DecEx k a' b') a b := by
  refine addMask_post.2 fun h1 => addMask_post.2 fun h2 => ?_
  rcases h with ⟨k, h⟩ | h | h
  · exact ⟨k, h.add⟩
  · exact absurd h1 h
  · exact absurd h2 h

theorem dateToken_two (p : Profile) (k : Bool) (w : Bytes) {a b : Dec × Unit} (h : DecEx k a.1 b.1) :
    Two (dateToken p plainLook w .mdy) (dateToken p plainLook w .dmy) (fun _ a' _ b' => TokEx a'.1 b'.1) a b := by
  unfold dateToken
  refine .bind (R := fun x a' y b' => x = a'.1 ∧ y = b'.1 ∧ DecEx k a'.1 b'.1) (.noLook (Post.get.2 (Post.get.2 ⟨rfl, rfl, h⟩))) ?_
  rintro _ a _ b ⟨rfl, rfl, h⟩
  rw [h.pType]
  refine .ite Iff.rfl (fun _ => ?_) fun _ => ?_
  · refine .liftBind fun x _ => .liftBind fun c _ => ?_
    exact .bind (R := fun _ _ _ _ => True) (.noLook (.mod trivial)) fun _ _ _ _ _ => .failL
  · have hm : b.1.fMask &&& DTK_MONTH_DAY_M = DTK_MONTH_DAY_M ↔ a.1.fMask &&& DTK_MONTH_DAY_M = DTK_MONTH_DAY_M := by
      rw [h.fMask, exM_both, both_bits]
      rcases date_bits a.1.fMask with e | e | e | e | e | e | e | e <;> rw [e] <;> cases k <;> decide
    refine .ite (by rw [hm]) (fun _ => ?_) fun _ => (decodeDate_two k w h).mono fun _ _ _ _ h' => Or.inl h'
    cases w with
    | nil => exact .pure (Or.inl ⟨k, h.mid⟩)
    | cons x w => exact .ite Iff.rfl (fun _ => .check fun _ _ => .pure (Or.inl ⟨k, h.mid⟩)) fun _ => .failL

theorem or_date_ne {a c : Nat} (h : c &&& DTK_DATE_M ≠ 0) : (a ||| c) &&& DTK_DATE_M ≠ 0 := fun n => h (or_date_zero n).2

/-- A field that sets neither the month nor the day. -/
theorem DecEx.put {k : Bool} {a b : Dec} (h : DecEx k a b) {tm tm' : PgTime} {x x' : Int} {c : Nat} {y y' : Bool} (ht : tm' = exT k tm) (hx : x' = x)
    (hy : y' = y) (hc : c.testBit 1 = c.testBit 3) (hm : (a.fMask ||| c) &&& DTK_DATE_M = 0 → tm.mon = tm.mday) :
    DecMid k { a with tm := tm, fSec := x, tMask := c, is2 := y } { b with tm := tm', fSec := x', tMask := c, is2 := y' } where
  tm := ht
  dType := h.dType
  fSec := hx
  fMask := by dsimp only; rw [h.fMask, exM_or, exM_fixed k c hc]
  pType := h.pType
  isJulian := h.isJulian
  is2 := hy
  bc := h.bc
  mer := h.mer
  textMonth := h.textMonth
  live := fun e => or_month_ne _ (h.live e)
  tie := hm
  label := h.label

theorem DecMid.done {k : Bool} {a b : Dec} (h : DecMid k a b) :
    DecMid k { a with pType := .number, dType := .date } { b with pType := .number, dType := .date } where
  tm := h.tm
  dType := rfl
  fSec := h.fSec
  fMask := h.fMask
  pType := rfl
  isJulian := h.isJulian
  is2 := h.is2
  bc := h.bc
  mer := h.mer
  textMonth := h.textMonth
  live := h.live
  tie := h.tie
  label := by simp

theorem month_clash {a : Dec} (h : a.fMask &&& DTK_MONTH_M ≠ 0) (c : Nat) (hc : a.tMask &&& c = DTK_MONTH_M) : a.tMask &&& a.fMask ≠ 0 := by
  intro n
  have e : (a.tMask &&& c) &&& a.fMask = 0 := by rw [Nat.and_assoc, Nat.and_comm c, ← Nat.and_assoc, n, Nat.zero_and]
  rw [hc, Nat.and_comm] at e
  exact h e

/-- A Julian day sets the whole date. -/
theorem DecEx.whole {k : Bool} {a b : Dec} (h : DecEx k a b) {tm tm' : PgTime} {x x' : Int} {c : Nat} (ht : k = false → tm' = tm) (hx : x' = x)
    (hc : c &&& DTK_DATE_M = DTK_DATE_M) :
    TokEx { a with tm := tm, fSec := x, tMask := c, isJulian := true } { b with tm := tm', fSec := x', tMask := c, isJulian := true } := by
  cases k with
  | true =>
    refine Or.inr (Or.inl (month_clash (h.live rfl) 2 ?_))
    show c &&& 2 = 2
    rw [show (2 : Nat) = 14 &&& 2 from rfl, ← Nat.and_assoc, hc]
  | false =>
    refine Or.inl ⟨false, ?_⟩
    exact {
      tm := ht rfl
      dType := h.dType
      fSec := hx
      fMask := by show b.fMask ||| c = a.fMask ||| c; rw [h.fMask]; rfl
      pType := h.pType
      isJulian := rfl
      is2 := h.is2
      bc := h.bc
      mer := h.mer
      textMonth := h.textMonth
      live := by simp
      tie := fun n => absurd (or_date_zero n).2 (by show c &&& DTK_DATE_M ≠ 0; rw [hc]; decide)
      label := h.label }

theorem labelJulian_two (p : Profile) (k : Bool) (v : Int) (r : Bytes) {a b : Dec} (h : DecEx k a b) :
    Two (labelJulian p v r) (labelJulian p v r) (fun _ a' _ b' => TokEx a' b') a b := by
  have ht : k = false → b.tm = a.tm := fun e => by rw [h.tm, e]; rfl
  unfold labelJulian
  refine .check fun _ _ => .modBind (.liftBind fun c _ => .modBind (.ite Iff.rfl (fun _ => ?_) fun _ => ?_))
  · refine .liftBind fun x _ => .liftBind fun y _ => .mod ?_
    exact h.whole (c := DTK_DATE_M ||| DTK_TIME_M) (tm := { a.tm.setYmd c with hour := y.1, min := y.2.1, sec := y.2.2.1 })
      (tm' := { b.tm.setYmd c with hour := y.1, min := y.2.1, sec := y.2.2.1 }) (fun e => by rw [ht e]) rfl (by decide)
  · exact .pure (h.whole (c := DTK_DATE_M) (tm := a.tm.setYmd c) (tm' := b.tm.setYmd c) (fun e => by rw [ht e]) h.fSec (by decide))

theorem labelAssign_two (p : Profile) (k : Bool) (g : TokenField) (hg : g ≠ .month) (w : Bytes) (v : Int) (r : Bytes) {a b : Dec} (h : DecEx k a b) :
    Two (labelAssign p g w v r) (labelAssign p g w v r) (fun _ a' _ b' => TokEx a' b') a b := by
  have tie : ∀ {c : Nat}, (a.fMask ||| c) &&& DTK_DATE_M = 0 → a.tm.mon = a.tm.mday := fun n => h.tie (or_date_zero n).1
  have ht := h.tm
  unfold labelAssign
  split
  · exact .mod (Or.inl ⟨k, h.put (c := DTK_YEAR_M) (by rw [ht]; cases k <;> rfl) h.fSec h.is2 (by decide) tie⟩)
  · exact absurd rfl hg
  · refine .mod ?_
    cases k with
    | true =>
      refine Or.inr (Or.inr ?_)
      dsimp only
      have hl := h.live rfl
      rw [month_bit] at hl
      rw [Nat.and_comm, day_bit, h.fMask, exM_date]
      rcases date_bits a.fMask with e | e | e | e | e | e | e | e <;> rw [e] at hl ⊢ <;> first | decide | exact absurd rfl hl
    | false =>
      refine Or.inl ⟨false, ⟨?_, h.dType, h.fSec, ?_, h.pType, h.isJulian, h.is2, h.bc, h.mer, h.textMonth, by simp, fun n => ?_, h.label⟩⟩
      · dsimp only; rw [ht]; rfl
      · dsimp only; rw [h.fMask]; rfl
      · exact absurd (or_date_zero n).2 (by simp)
  · exact .mod (Or.inl ⟨k, h.put (c := HOUR_M) (by rw [ht]; cases k <;> rfl) h.fSec h.is2 (by decide) tie⟩)
  · exact .mod (Or.inl ⟨k, h.put (c := MINUTE_M) (by rw [ht]; cases k <;> rfl) h.fSec h.is2 (by decide) tie⟩)
  · refine .modBind (.ite Iff.rfl (fun _ => .liftBind fun x _ => .mod ?_) fun _ => .pure ?_)
    · exact Or.inl ⟨k, h.put (c := DTK_ALL_SECS_M) (by rw [ht]; cases k <;> rfl) rfl h.is2 (by decide) tie⟩
    · exact Or.inl ⟨k, h.put (c := SECOND_M) (by rw [ht]; cases k <;> rfl) h.fSec h.is2 (by decide) tie⟩
  · exact labelJulian_two p k v r h
  · refine .getBind ?_
    have key := numberField_two k w (a.fMask ||| DTK_DATE_M) (s := ⟨a.tMask, a.tm, a.fSec, a.is2⟩) (t := ⟨b.tMask, b.tm, b.fSec, b.is2⟩)
      ⟨h.tm, h.fSec, h.is2⟩
    rw [exM_or, exM_fixed k DTK_DATE_M (by decide), ← h.fMask] at key
    have key' : Two (onNum (decodeNumberField w (a.fMask ||| DTK_DATE_M))) (onNum (decodeNumberField w (b.fMask ||| DTK_DATE_M)))
        (fun _ a' _ b' => TokEx a' b') a b := by
      refine .zoom ?_
      intro x n1 e y n2 e'
      rcases key x n1 e y n2 e' with ⟨h1, h2, h3⟩ | ⟨-, -, -, n⟩
      · refine Or.inl ⟨k, ?_⟩
        rw [h2, h3]
        refine h.put h1.tm h1.fsec h1.is2 (by decide) fun n => ?_
        have t := (numberField_tie w (a.fMask ||| DTK_DATE_M) (s := ⟨a.tMask, a.tm, a.fSec, a.is2⟩) (tie n)) x n1 e
        rcases t with t | t
        · rw [h2] at t; cases t
        · exact t
      · exact absurd (full_date _) n
    refine .bind key' fun _ _ _ _ h' => .getBind (.check fun _ _ => .pure h')
  · exact .failL

theorem labelled_two (p : Profile) (k : Bool) (w : Bytes) {a b : Dec} (h : DecEx k a b) :
    Two (labelled p w) (labelled p w) (fun _ a' _ b' => TokEx a' b') a b := by
  unfold labelled
  refine .getBind (.liftBind fun x _ => ?_)
  obtain ⟨v, r⟩ := x
  dsimp only
  rw [h.pType]
  refine .check fun _ _ => .check fun _ _ => .bind (labelAssign_two p k a.pType h.label w v r h) ?_
  rintro _ a' _ b' h'
  refine .mod ?_
  rcases h' with ⟨k', h'⟩ | h' | h'
  · exact Or.inl ⟨k', h'.done⟩
  · exact Or.inr (Or.inl h')
  · exact Or.inr (Or.inr h')

theorem numberToken_two (p : Profile) (k : Bool) (w : Bytes) {a b : Dec × Unit} (h : DecEx k a.1 b.1) :
    Two (numberToken p plainLook w .mdy) (numberToken p plainLook w .dmy) (fun _ a' _ b' => TokEx a'.1 b'.1) a b := by
  unfold numberToken
  refine .bind (R := fun x a' y b' => x = a'.1 ∧ y = b'.1 ∧ DecEx k a'.1 b'.1) (.noLook (Post.get.2 (Post.get.2 ⟨rfl, rfl, h⟩))) ?_
  clear h
  rintro _ a _ b ⟨rfl, rfl, h⟩
  have zero : b.1.fMask &&& DTK_DATE_M = 0 ↔ a.1.fMask &&& DTK_DATE_M = 0 := by
    rw [h.fMask, exM_date]
    rcases date_bits a.1.fMask with e | e | e | e | e | e | e | e <;> rw [e] <;> cases k <;> decide
  have time : b.1.fMask &&& DTK_TIME_M = a.1.fMask &&& DTK_TIME_M := by rw [h.fMask, exM_other k _ _ (by decide) (by decide)]
  have digits : Two (noLook (onNum (decodeNumberField w a.1.fMask)) >>= fun _ => pure ())
      (noLook (onNum (decodeNumberField w b.1.fMask)) >>= fun _ => pure ()) (fun _ a' _ b' => TokEx a'.1 b'.1) a b := by
    refine .bind (R := fun _ a' _ b' => TokEx a'.1 b'.1) (.noLook (.zoom ?_)) fun _ _ _ _ h' => .pure h'
    have key := numberField_two k w a.1.fMask (s := ⟨a.1.tMask, a.1.tm, a.1.fSec, a.1.is2⟩) (t := ⟨b.1.tMask, b.1.tm, b.1.fSec, b.1.is2⟩)
      ⟨h.tm, h.fSec, h.is2⟩
    rw [← h.fMask] at key
    intro x n1 e y n2 e'
    rcases key x n1 e y n2 e' with ⟨h1, h2, h3⟩ | ⟨h2, h3, h1, -⟩
    · refine Or.inl ⟨k, ?_⟩
      dsimp only
      rw [h2, h3]
      refine h.put h1.tm h1.fsec h1.is2 (by decide) fun n => ?_
      have t := (numberField_tie w a.1.fMask (s := ⟨a.1.tMask, a.1.tm, a.1.fSec, a.1.is2⟩) (h.tie (or_date_zero n).1)) x n1 e
      rcases t with t | t
      · rw [h2] at t; cases t
      · exact t
    · cases k with
      | true => exact Or.inr (Or.inl (month_clash (h.live rfl) 2 (by dsimp only; rw [h2]; rfl)))
      | false =>
        refine Or.inl ⟨false, ?_⟩
        dsimp only
        rw [h2, h3]
        exact h.put (h1 rfl).tm (h1 rfl).fsec (h1 rfl).is2 (by decide) fun n => absurd (or_date_zero n).2 (by decide)
  refine .ite (by rw [h.pType]) (fun _ => .noLook (labelled_two p k w h)) fun _ => ?_
  refine .ite (by rw [zero]) (fun _ => (decodeDate_two k w h).mono fun _ _ _ _ h' => Or.inl h') fun _ => ?_
  refine .ite Iff.rfl (fun _ => digits) fun _ => ?_
  refine .ite (by rw [zero, time]) (fun _ => digits) fun _ => ?_
  refine .noLook (.zoom ?_)
  have key := number_two k w false a.1.fMask h.live (fun _ => rfl) (s := ⟨a.1.tMask, a.1.tm, a.1.fSec, a.1.is2⟩)
    (t := ⟨b.1.tMask, b.1.tm, b.1.fSec, b.1.is2⟩) ⟨h.tm, h.fSec, h.is2⟩ h.tie
  rw [← h.fMask] at key
  refine .mono key ?_
  rintro _ n1 _ n2 ⟨k', hn⟩
  refine Or.inl ⟨k', hn.num.tm, h.dType, hn.num.fsec, ?_, h.pType, h.isJulian, hn.num.is2, h.bc, h.mer, h.textMonth, hn.live, hn.tie, h.label⟩
  dsimp only
  rw [h.fMask]
  exact hn.mask

/-- Both clocks are the same, and nothing else has changed. -/
theorem decodeTime_two (k : Bool) (w : Bytes) (range : Nat) {s t : TimeS} (h : t.tm = exT k s.tm) :
    Two (decodeTime w range) (decodeTime w range)
      (fun _ s' _ t' => t'.tm = exT k s'.tm ∧ t'.fsec = s'.fsec ∧ s'.tMask = DTK_TIME_M ∧ t'.tMask = DTK_TIME_M ∧
        s'.tm.mon = s.tm.mon ∧ s'.tm.mday = s.tm.mday) s t := by
  have fin : ∀ {s' t' : TimeS}, (t'.tm = exT k s'.tm ∧ t'.fsec = s'.fsec ∧ s'.tMask = DTK_TIME_M ∧ t'.tMask = DTK_TIME_M ∧
        s'.tm.mon = s.tm.mon ∧ s'.tm.mday = s.tm.mday) →
      Two (do let t ← St.get; if badTime t then St.fail .invalid else pure () : St TimeS Unit)
        (do let t ← St.get; if badTime t then St.fail .invalid else pure () : St TimeS Unit)
      (fun _ s' _ t' => t'.tm = exT k s'.tm ∧ t'.fsec = s'.fsec ∧ s'.tMask = DTK_TIME_M ∧ t'.tMask = DTK_TIME_M ∧
        s'.tm.mon = s.tm.mon ∧ s'.tm.mday = s.tm.mday) s' t' := fun h => .getBind (.check fun _ _ => .pure h)
  unfold decodeTime
  refine .modBind (.liftBind fun x _ => ?_)
  obtain ⟨v, r⟩ := x
  dsimp only
  refine .modBind ?_
  split
  · refine .liftBind fun y _ => ?_
    obtain ⟨v2, r2⟩ := y
    dsimp only
    refine .modBind (.bind (R := fun _ s' _ t' => t'.tm = exT k s'.tm ∧ t'.fsec = s'.fsec ∧ s'.tMask = DTK_TIME_M ∧ t'.tMask = DTK_TIME_M ∧
        s'.tm.mon = s.tm.mon ∧ s'.tm.mday = s.tm.mday) ?_ fun _ _ _ _ h' => fin h')
    unfold timeTail
    split
    · refine .modBind (.ite Iff.rfl (fun _ => .mod ?_) fun _ => .pure ?_)
      · refine ⟨?_, rfl, rfl, rfl, rfl, rfl⟩
        dsimp only; rw [h]; cases k <;> rfl
      · refine ⟨?_, rfl, rfl, rfl, rfl, rfl⟩
        dsimp only; rw [h]; cases k <;> rfl
    · refine .ite Iff.rfl (fun _ => .liftBind fun f _ => .mod ?_) fun _ => .ite Iff.rfl (fun _ => ?_) fun _ => .failL
      · refine ⟨?_, rfl, rfl, rfl, rfl, rfl⟩
        dsimp only; rw [h]; cases k <;> rfl
      · unfold timeSeconds
        refine .liftBind fun z _ => ?_
        obtain ⟨v3, r3⟩ := z
        dsimp only
        refine .modBind ?_
        split
        · refine .mod ⟨?_, rfl, rfl, rfl, rfl, rfl⟩
          dsimp only; rw [h]; cases k <;> rfl
        · refine .ite Iff.rfl (fun _ => .liftBind fun f _ => .mod ⟨?_, rfl, rfl, rfl, rfl, rfl⟩) fun _ => .failL
          dsimp only; rw [h]; cases k <;> rfl
  · exact .failL

theorem timeToken_two (k : Bool) (w : Bytes) {a b : Dec} (h : DecEx k a b) :
    Two (timeToken w) (timeToken w) (fun _ a' _ b' => TokEx a' b') a b := by
  unfold timeToken
  refine .getBind (.check fun _ _ => .modBind (.bind (R := fun _ a' _ b' => TokEx a' b') (.zoom ?_) fun _ _ _ _ h' => .getBind (.check fun _ _ => .pure h')))
  refine (decodeTime_two k w INTERVAL_FULL_RANGE (s := ⟨a.tMask, a.tm, a.fSec⟩) (t := ⟨b.tMask, b.tm, b.fSec⟩) h.tm).mono ?_
  rintro _ s' _ t' ⟨h1, h2, h3, h4, h5, h6⟩
  refine Or.inl ⟨k, ?_⟩
  rw [h3, h4]
  have := h.put (c := DTK_TIME_M) h1 h2 h.is2 (by decide) fun n => by rw [h5, h6]; exact h.tie (or_date_zero n).1
  exact { this with pType := rfl, label := by simp }

theorem monthWord_two (k : Bool) (v : Int) {a b : Dec} (h : DecEx k a b) :
    Two (monthWord v) (monthWord v) (fun _ a' _ b' => TokEx a' b') { a with tMask := TokenType.mask .month } { b with tMask := TokenType.mask .month } := by
  unfold monthWord
  refine .mod ?_
  dsimp only
  have hf := h.fMask
  cases k with
  | false =>
    have hf' : b.fMask = a.fMask := hf
    have ht : b.tm = a.tm := h.tm
    rw [hf', ht, h.textMonth]
    refine Or.inl ⟨false, ?_⟩
    split
    · exact ⟨rfl, h.dType, h.fSec, by dsimp only; rfl, h.pType, h.isJulian, h.is2, h.bc, h.mer, rfl, by simp,
        fun n => absurd (or_date_zero n).2 (by simp), h.label⟩
    · exact ⟨rfl, h.dType, h.fSec, by dsimp only; rfl, h.pType, h.isJulian, h.is2, h.bc, h.mer, rfl, by simp,
        fun n => absurd (or_date_zero n).2 (by dsimp only; decide), h.label⟩
  | true =>
    by_cases hc : a.fMask &&& DTK_MONTH_M ≠ 0 ∧ a.textMonth = false ∧ a.fMask &&& DTK_DAY_M = 0 ∧ 1 ≤ a.tm.mon ∧ a.tm.mon ≤ 31
    · rw [if_pos hc]
      have hb : ¬ (b.fMask &&& DTK_MONTH_M ≠ 0) := by
        have hd := hc.2.2.1
        rw [day_bit] at hd
        rw [month_bit, hf, exM_date]
        rcases date_bits a.fMask with e | e | e | e | e | e | e | e <;> rw [e] at hd ⊢ <;> first | decide | exact absurd hd (by decide)
      rw [if_neg fun n => hb n.1]
      refine Or.inl ⟨false, ?_, h.dType, h.fSec, ?_, h.pType, h.isJulian, h.is2, h.bc, h.mer, rfl, by simp,
        fun n => absurd (or_date_zero n).2 (by dsimp only; decide), h.label⟩
      · dsimp only; rw [h.tm]; rfl
      · show b.fMask ||| 2 = a.fMask ||| 8
        rw [hf]
        have h1 : a.fMask.testBit 1 = true := by
          have := hc.1
          by_contra n
          refine this (Nat.eq_of_testBit_eq fun i => ?_)
          rw [Nat.testBit_and, Nat.zero_testBit, show (2 : Nat) = 2 ^ 1 from rfl, Nat.testBit_two_pow]
          by_cases e : 1 = i
          · rw [← e]; simpa using n
          · simp [e]
        refine Nat.eq_of_testBit_eq fun i => ?_
        rw [Nat.testBit_or, Nat.testBit_or, exM_bit, show (2 : Nat) = 2 ^ 1 from rfl, show (8 : Nat) = 2 ^ 3 from rfl, Nat.testBit_two_pow,
          Nat.testBit_two_pow]
        by_cases e1 : i = 1
        · subst e1; simp [h1]
        · by_cases e3 : i = 3
          · subst e3; simp [h1]
          · simp [e1, e3, Ne.symm e1, Ne.symm e3]
    · rw [if_neg hc]
      exact Or.inr (Or.inl (month_clash (h.live rfl) 2 (by dsimp only; decide)))

theorem isoTimeWord_two (k : Bool) (ft : List TokenField) (i : Nat) (v : Int) (hv : ∀ g : TokenField, v = g.value → g ≠ .month) (c : Nat)
    {a b : Dec} (h : DecEx k a b) :
    Two (isoTimeWord ft i v) (isoTimeWord ft i v) (fun _ a' _ b' => TokEx a' b') { a with tMask := c } { b with tMask := c } := by
  unfold isoTimeWord
  refine .modBind (.getBind (.check fun _ _ => ?_))
  split
  · exact Post.panic.2 trivial
  · refine .check fun _ _ => .liftBind fun g hg => .mod (Or.inl ⟨k, ?_⟩)
    have := h.put (c := 0) h.tm h.fSec h.is2 (by decide) fun n => h.tie (or_date_zero n).1
    exact { this with pType := rfl, label := hv g (ofInt_value hg) }

theorem wordAction_two (k : Bool) (ft : List TokenField) (i : Nat) (ty : TokenType) (v : Int)
    (hv : ty = .units ∨ ty = .isotime → ∀ g : TokenField, v = g.value → g ≠ .month) {a b : Dec} (h : DecEx k a b) :
    Two (wordAction ft i ty v) (wordAction ft i ty v) (fun _ a' _ b' => TokEx a' b') a b := by
  have tie : ∀ {c : Nat}, (a.fMask ||| c) &&& DTK_DATE_M = 0 → a.tm.mon = a.tm.mday := fun n => h.tie (or_date_zero n).1
  have plain : ∀ c : Nat, c.testBit 1 = c.testBit 3 → DecMid k { a with tMask := c } { b with tMask := c } :=
    fun c hc => h.put h.tm h.fSec h.is2 hc tie
  unfold wordAction
  refine .modBind ?_
  split
  · unfold reservedWord
    refine .liftBind fun g _ => ?_
    split
    all_goals try exact .failL
    · refine .mod (Or.inl ⟨k, ?_⟩)
      have := h.put (c := DTK_TIME_M ||| TZ_M) (tm := { a.tm with hour := 0, min := 0, sec := 0 }) (tm' := { b.tm with hour := 0, min := 0, sec := 0 })
        (by rw [h.tm]; cases k <;> rfl) h.fSec h.is2 (by decide) tie
      exact { this with dType := rfl }
    · exact .mod (Or.inl ⟨k, { plain (TokenType.mask .reserv) (by decide) with dType := rfl }⟩)
  · exact monthWord_two k v h
  · exact .mod (Or.inl ⟨k, { plain (TokenType.mask .ampm) (by decide) with mer := rfl }⟩)
  · exact .mod (Or.inl ⟨k, { plain (TokenType.mask .adbc) (by decide) with bc := rfl }⟩)
  · exact .mod (Or.inl ⟨k, h.put (c := TokenType.mask .dow) (by rw [h.tm]; cases k <;> rfl) h.fSec h.is2 (by decide) tie⟩)
  · exact .modBind (.liftBind fun g hg => .mod (Or.inl ⟨k, { plain 0 (by decide) with pType := rfl, label := hv (Or.inl rfl) g (ofInt_value hg) }⟩))
  · exact isoTimeWord_two k ft i v (hv (Or.inr rfl)) _ h
  · exact .failL

/-- What is needed of a field: that it is not the label of a month. -/
def NoMonthLabel (f : Field) : Prop := ∀ ty v, Entry f ty v → ty = .units ∨ ty = .isotime → ∀ g : TokenField, v = g.value → g ≠ .month

theorem field_two (p : Profile) (k : Bool) (ft : List TokenField) (i : Nat) {f : Field} (hf : NoMonthLabel f) {a b : Dec × Unit} (h : DecEx k a.1 b.1) :
    Two (dateTimeField p plainLook .mdy ft i f) (dateTimeField p plainLook .dmy ft i f) (fun _ a' _ b' => ∃ k, DecEx k a'.1 b'.1) a b := by
  have step : ∀ {a b : Dec × Unit}, TokEx a.1 b.1 → Two (noLook addMask) (noLook addMask) (fun _ a' _ b' => ∃ k, DecEx k a'.1 b'.1) a b :=
    fun h => .noLook (addMask_two h)
  have word : f.1 = .string ∨ f.1 = .special → Two (do let ignored ← wordToken plainLook ft i f.2; if ignored then pure () else noLook addMask)
      (do let ignored ← wordToken plainLook ft i f.2; if ignored then pure () else noLook addMask) (fun _ a' _ b' => ∃ k, DecEx k a'.1 b'.1) a b := by
    intro hw
    refine .bind (R := fun x a' y b' => x = y ∧ (if x then DecEx k a'.1 b'.1 else TokEx a'.1 b'.1)) ?_ ?_
    · unfold wordToken
      refine .bind (R := fun x a' y b' => x = tokenResult (lookupIn dateTable f.2) ∧ y = x ∧ a' = a ∧ b' = b)
        (Post.look.2 (Post.look.2 ⟨rfl, rfl, rfl, rfl⟩)) ?_
      rintro x a' y b' ⟨hx, rfl, ea, eb⟩
      rw [← ea, ← eb] at h
      clear ea eb
      obtain ⟨ty, v⟩ := y
      dsimp only
      refine .ite Iff.rfl (fun _ => .pure ⟨rfl, ?_⟩) fun _ => ?_
      · rw [if_pos rfl]; exact h
      · refine .bind (R := fun _ a' _ b' => TokEx a'.1 b'.1) (.noLook (wordAction_two k ft i ty v (fun hu => hf ty v ⟨hw, hx.symm, ?_⟩ hu) h)) fun _ _ _ _ h' => .pure ⟨rfl, ?_⟩
        · rintro rfl; rcases hu with hu | hu <;> cases hu
        · rw [if_neg (by simp)]; exact h'
    · rintro x a' y b' ⟨rfl, h'⟩
      cases x with
      | true => exact .pure ⟨k, h'⟩
      | false => exact step h'
  unfold dateTimeField
  split
  · exact .bind (dateToken_two p k f.2 h) fun _ _ _ _ h' => step h'
  · exact .bind (.noLook (timeToken_two k f.2 h)) fun _ _ _ _ h' => step h'
  · exact .bind (numberToken_two p k f.2 h) fun _ _ _ _ h' => step h'
  · rename_i e; exact word (Or.inl e)
  · rename_i e; exact word (Or.inr e)
  · exact .failL

theorem loop_two (p : Profile) : ∀ (l : List Field) (k : Bool) (ft : List TokenField) (i : Nat) (a b : Dec × Unit), (∀ f ∈ l, NoMonthLabel f) →
    DecEx k a.1 b.1 →
    Two (dateTimeLoop p plainLook .mdy ft l i) (dateTimeLoop p plainLook .dmy ft l i) (fun _ a' _ b' => ∃ k, DecEx k a'.1 b'.1) a b := by
  intro l
  induction l with
  | nil => intro k ft i a b _ h; exact .pure ⟨k, h⟩
  | cons f l ih =>
    intro k ft i a b hl h
    refine .bind (field_two p k ft i (hl f (by simp)) h) ?_
    rintro _ a' _ b' ⟨k', h'⟩
    exact ih k' ft _ a' b' (fun g hg => hl g (by simp [hg])) h'

/-! ## The day of the month before it is named -/

theorem numberTime_day (m : Int) (w : Bytes) (len f : Nat) : Stays (fun s : NumS => s.tm.mday = m) (numberTime w len f) := by
  unfold numberTime
  refine Stays.ite (fun _ => ?_) fun _ => Stays.ite (fun _ => ?_) fun _ => Stays.fail
  · refine Stays.modBind (fun s h => h) (Stays.liftBind fun _ _ => ?_)
    refine Stays.modBind (fun s h => h) (Stays.liftBind fun _ _ => ?_)
    refine Stays.modBind (fun s h => h) (Stays.liftBind fun _ _ => ?_)
    exact Stays.modBind (fun s h => h) Stays.pure
  · refine Stays.modBind (fun s h => h) (Stays.liftBind fun _ _ => ?_)
    refine Stays.modBind (fun s h => h) (Stays.liftBind fun _ _ => ?_)
    exact Stays.modBind (fun s h => h) Stays.pure

theorem numberField_day (w : Bytes) (f : Nat) (s : NumS) :
    Post (decodeNumberField w f) (fun _ s' => s'.tMask &&& DTK_DAY_M ≠ 0 ∨ s'.tm.mday = s.tm.mday) s := by
  unfold decodeNumberField
  rw [Post.ite]
  refine ⟨fun _ => ?_, fun _ => ?_⟩
  · rw [Post.bind, Post.lift]
    intro a _
    rw [Post.bind, Post.mod]
    exact ((numberTime_day s.tm.mday w _ f).post (s := { s with fsec := roundMicros a.1 }) rfl).mono fun _ s' h => Or.inr h
  · rw [Post.ite]
    refine ⟨fun _ => ?_, fun _ => ((numberTime_day s.tm.mday w _ f).post rfl).mono fun _ s' h => Or.inr h⟩
    unfold numberDate
    wp
    intro a _ b _ c _
    left
    split <;> simp

theorem ignored_day (m : Int) (w : Bytes) {f : Nat} (hf : f &&& DTK_DATE_M = DTK_DATE_M) :
    Stays (fun s : NumS => s.tm.mday = m) (St.ignore (decodeNumberField w f)) := by
  refine Stays.ignore ?_
  unfold decodeNumberField
  refine Stays.ite (fun _ => ?_) fun _ => Stays.ite (fun h => absurd hf h.1) fun _ => numberTime_day m w _ f
  exact Stays.liftBind fun _ _ => Stays.modBind (fun s h => h) (numberTime_day m w _ f)

theorem numberVal_day (w : Bytes) (v : Int) (text : Bool) (f : Nat) (order : DateOrder) (s : NumS) :
    Post (decodeNumberVal w v text f order) (fun _ s' => s'.tMask &&& DTK_DAY_M ≠ 0 ∨ s'.tm.mday = s.tm.mday) s := by
  have by_mask : Post (numberByMask w v text f order) (fun _ s' => s'.tMask &&& DTK_DAY_M ≠ 0 ∨ s'.tm.mday = s.tm.mday) s := by
    unfold numberByMask
    wp
    simp only [or_true, implies_true, true_and, and_true]
    simp (config := { decide := true }) only [ne_eq, not_false_eq_true, true_or, implies_true, true_and, and_true]
    intro _ _ _ _ _ _ _
    exact numberField_day w f s
  unfold decodeNumberVal
  wp
  refine ⟨fun _ => Or.inl (by decide), fun _ => by_mask.mono fun _ _ h => ?_⟩
  split
  · exact h
  · exact h

theorem number_day (w : Bytes) (text : Bool) (f : Nat) (order : DateOrder) (s : NumS) :
    Post (decodeNumber w text f order) (fun _ s' => s'.tMask &&& DTK_DAY_M ≠ 0 ∨ s'.tm.mday = s.tm.mday) s := by
  rw [number_post]
  intro v r _
  unfold numRest
  rw [Post.ite]
  refine ⟨fun _ => Post.fail.2 trivial, fun _ => ?_⟩
  cases r with
  | nil => exact numberVal_day w v text f order { s with tMask := 0 }
  | cons c r =>
    dsimp only
    rw [Post.ite, Post.ite]
    refine ⟨fun _ => ⟨fun _ => ?_, fun _ => ?_⟩, fun _ => Post.fail.2 trivial⟩
    · exact ((ignored_day s.tm.mday w (full_date f)).post (s := { s with tMask := 0 }) rfl).mono fun _ _ h => Or.inr h
    · rw [Post.bind, Post.lift]
      intro x _
      rw [Post.bind, Post.mod]
      exact numberVal_day w v text f order { s with tMask := 0, fsec := x }

/-- No day of the month has been named, or it is still zero. -/
def DayZ (d : Dec) : Prop := d.fMask &&& DTK_DAY_M = 0 → d.tm.mday = 0

/-- The same before the mask of the field has been added. -/
def MidZ (d : Dec) : Prop := (d.fMask ||| d.tMask) &&& DTK_DAY_M = 0 → d.tm.mday = 0

theorem or_day_zero {a b : Nat} (h : (a ||| b) &&& DTK_DAY_M = 0) : a &&& DTK_DAY_M = 0 ∧ b &&& DTK_DAY_M = 0 := by
  rw [Nat.and_or_distrib_right] at h
  exact Nat.or_eq_zero_iff.1 h

theorem DayZ.put {a d : Dec} (h : DayZ a) (hf : d.fMask = a.fMask) (hd : d.tMask &&& DTK_DAY_M ≠ 0 ∨ d.tm.mday = a.tm.mday) : MidZ d := by
  intro n
  obtain ⟨n1, n2⟩ := or_day_zero n
  rw [hf] at n1
  rcases hd with hd | hd
  · exact absurd n2 hd
  · rw [hd]; exact h n1

variable {order : DateOrder} {ft : List TokenField} {i : Nat} {p : Profile}

theorem date_day (w : Bytes) {s : Dec × Unit} : Post (decodeDate plainLook w order) (fun _ s' => MidZ s'.1) s := by
  have keep : Post (decodeDate plainLook w order) (fun _ s' => s'.1.fMask = s.1.fMask) s := by
    unfold decodeDate
    rw [Post.zoom]
    exact Post.any fun _ _ => rfl
  refine ((date_mask w s).and keep).mono fun _ s' h n => ?_
  obtain ⟨⟨h1, -⟩, h2⟩ := h
  rw [h2, show (8 : Nat) = 14 &&& 8 from rfl, ← Nat.and_assoc, h1] at n
  cases n

theorem onNum_day {α : Type} {m : St NumS α} {d : Dec} (hd : DayZ d)
    (h : ∀ s, Post m (fun _ s' => s'.tMask &&& DTK_DAY_M ≠ 0 ∨ s'.tm.mday = s.tm.mday) s) : Post (onNum m) (fun _ d' => MidZ d') d := by
  unfold onNum
  rw [Post.zoom]
  exact (h _).mono fun _ s' h' => hd.put rfl h'

theorem labelAssign_day {g : TokenField} {w r : Bytes} {v : Int} {d : Dec} (hd : DayZ d) :
    Post (labelAssign p g w v r) (fun _ d' => MidZ d') d := by
  unfold labelAssign
  split <;> wp
  · exact hd.put rfl (Or.inr rfl)
  · split
    · exact hd.put rfl (Or.inr rfl)
    · exact hd.put rfl (Or.inr rfl)
  · exact hd.put rfl (Or.inl (by dsimp only; decide))
  · exact hd.put rfl (Or.inr rfl)
  · exact hd.put rfl (Or.inr rfl)
  · exact ⟨fun _ _ _ => hd.put rfl (Or.inr rfl), fun _ => hd.put rfl (Or.inr rfl)⟩
  · unfold labelJulian
    wp
    exact fun _ _ _ => ⟨fun _ _ _ _ _ => hd.put rfl (Or.inl (by dsimp only; decide)), fun _ => hd.put rfl (Or.inl (by dsimp only; decide))⟩
  · exact (onNum_day hd fun s => numberField_day w _ s).mono fun _ _ h _ => h

theorem labelled_day {w : Bytes} {d : Dec} (hd : DayZ d) : Post (labelled p w) (fun _ d' => MidZ d') d := by
  unfold labelled
  wp
  intro a _ _ _
  exact (labelAssign_day hd).mono fun _ d' h => h

theorem numberToken_day {w : Bytes} {s : Dec × Unit} (hs : DayZ s.1) :
    Post (numberToken p plainLook w order) (fun _ s' => MidZ s'.1) s := by
  unfold numberToken
  wp
  exact ⟨fun _ => labelled_day hs, fun _ => ⟨fun _ => date_day w, fun _ => ⟨fun _ => onNum_day hs fun s => numberField_day w _ s,
    fun _ => ⟨fun _ => onNum_day hs fun s => numberField_day w _ s, fun _ => onNum_day hs fun s => number_day w _ _ _ s⟩⟩⟩⟩

theorem dateToken_day {w : Bytes} {s : Dec × Unit} (hs : DayZ s.1) :
    Post (dateToken p plainLook w order) (fun _ s' => MidZ s'.1) s := by
  have here : MidZ s.1 := hs.put rfl (Or.inr rfl)
  unfold dateToken
  wp
  intro _
  refine ⟨fun _ => ?_, fun _ => date_day w⟩
  split
  · wp; exact here
  · wp; exact fun _ _ => here

theorem timeToken_day {w : Bytes} {d : Dec} (hd : DayZ d) : Post (timeToken w) (fun _ d' => MidZ d') d := by
  have key : ∀ t : TimeS, Post (decodeTime w INTERVAL_FULL_RANGE) (fun _ t' => t'.tm.mday = t.tm.mday) t := by
    intro t
    unfold decodeTime
    wp
    intro a _
    split
    · wp
      intro b _
      unfold timeTail
      split
      · wp
      · wp
        intro _ _
        unfold timeSeconds
        wp
        intro c _
        split
        · wp
        · wp
    · wp
  unfold timeToken onTime
  wp
  intro _
  rw [Post.zoom]
  refine (key _).mono fun _ t ht => ?_
  dsimp only
  intro _
  exact hd.put rfl (Or.inr ht)

theorem action_day {ty : TokenType} {v : Int} {d : Dec} (hd : DayZ d) : Post (wordAction ft i ty v) (fun _ d' => MidZ d') d := by
  unfold wordAction
  rw [Post.bind, Post.mod]
  split
  · unfold reservedWord
    wp
    intro a ha
    split <;> wp
    · exact hd.put rfl (Or.inr rfl)
    · exact hd.put rfl (Or.inr rfl)
  · unfold monthWord
    rw [Post.mod]
    dsimp only
    split
    · exact hd.put rfl (Or.inl (by dsimp only; decide))
    · exact hd.put rfl (Or.inr rfl)
  · rw [Post.mod]; exact hd.put rfl (Or.inr rfl)
  · rw [Post.mod]; exact hd.put rfl (Or.inr rfl)
  · rw [Post.mod]; exact hd.put rfl (Or.inr rfl)
  · wp
    exact fun g hg => hd.put rfl (Or.inr rfl)
  · unfold isoTimeWord
    wp
    intro _
    split
    · rw [Post.panic]; trivial
    · wp
      exact fun _ g hg => hd.put rfl (Or.inr rfl)
  · rw [Post.fail]; trivial

theorem field_dayZ {f : Field} {s : Dec × Unit} (hs : DayZ s.1) :
    Post (dateTimeField p plainLook order ft i f) (fun _ s' => DayZ s'.1) s := by
  have step : ∀ d : Dec, MidZ d → Post addMask (fun _ d' => DayZ d') d := by
    intro d h
    rw [addMask_post]
    exact fun _ => h
  have word : Post (wordToken plainLook ft i f.2) (fun b s' => if b then DayZ s'.1 else MidZ s'.1) s := by
    unfold wordToken
    rw [Post.bind, Post.look]
    dsimp only
    wp
    exact ⟨fun _ => by rw [if_pos trivial]; exact hs, fun _ => (action_day hs).mono fun _ _ h => by rw [if_neg (by simp)]; exact h⟩
  unfold dateTimeField
  split
  · wp; exact (dateToken_day hs).mono fun _ s' h => step s'.1 h
  · wp; exact (timeToken_day hs).mono fun _ d' h => step d' h
  · wp; exact (numberToken_day hs).mono fun _ s' h => step s'.1 h
  · wp; exact word.mono fun b s' h => ⟨fun e => by rw [if_pos e] at h; exact h, fun e => by rw [if_neg e] at h; exact step s'.1 h⟩
  · wp; exact word.mono fun b s' h => ⟨fun e => by rw [if_pos e] at h; exact h, fun e => by rw [if_neg e] at h; exact step s'.1 h⟩
  · wp

/-! ## The end -/

/-- What two runs have in common at the end. -/
structure FinEx (a b : Dec) : Prop where
  dType : b.dType = a.dType
  fSec : b.fSec = a.fSec
  hour : b.tm.hour = a.tm.hour
  min : b.tm.min = a.tm.min
  sec : b.tm.sec = a.tm.sec
  year : b.tm.year = a.tm.year
  day : (b.tm.mon = a.tm.mon ∧ b.tm.mday = a.tm.mday) ∨ (b.tm.mon = a.tm.mday ∧ b.tm.mday = a.tm.mon ∧ 1 ≤ a.tm.mon ∧ a.tm.mon ≤ 12 ∧
    0 ≤ a.tm.mday ∧ a.tm.mday ≤ 12)

theorem exM_has (k : Bool) {a c : Nat} (h1 : c.testBit 1 = false) (h3 : c.testBit 3 = false) : hasBits (exM k a) c = hasBits a c := by
  unfold hasBits; rw [exM_other k a c h1 h3]

theorem validateYear_ex {k : Bool} {tm tm' : PgTime} {f : Nat} {x y z : Bool} (h : tm.validateYear p f x y z = .ok tm') :
    (exT k tm).validateYear p (exM k f) x y z = .ok (exT k tm') := by
  have hy : (exT k tm).year = tm.year := by cases k <;> rfl
  have hu : ∀ v : Int, ({ exT k tm with year := v } : PgTime) = exT k { tm with year := v } := fun v => by cases k <;> rfl
  unfold PgTime.validateYear at h ⊢
  rw [exM_has k (by decide) (by decide), hy]
  simp only [hu]
  repeat' split at h
  all_goals try (cases h; done)
  all_goals simp only [*, if_true, if_false]
  all_goals first
    | (cases h; rfl)
    | (obtain ⟨u, h1, h⟩ := Res.bind_eq_ok.1 h; cases h; rw [h1]; rfl)
    | (obtain ⟨u, h1, h⟩ := Res.bind_eq_ok.1 h; obtain ⟨v, h2, h⟩ := Res.bind_eq_ok.1 h; cases h; rw [h1, Res.bind_ok, h2]; rfl)

theorem validateDoy_ex {k : Bool} {tm tm' : PgTime} {f : Nat} (h : tm.validateDoy p f = .ok tm') :
    (exT k tm).validateDoy p (exM k f) = .ok (if hasBits f M_DOY then tm' else exT k tm') := by
  have hy : (exT k tm).year = tm.year := by cases k <;> rfl
  have hd : (exT k tm).yday = tm.yday := by cases k <;> rfl
  have hu : ∀ c, (exT k tm).setYmd c = tm.setYmd c := fun v => by cases k <;> rfl
  unfold PgTime.validateDoy at h ⊢
  rw [exM_has k (by decide) (by decide), hy, hd]
  simp only [hu]
  split at h
  · rename_i hc
    rw [if_pos hc, h, if_pos hc]
  · rename_i hc
    rw [if_neg hc, if_neg hc]; cases h; rfl

theorem validateMonthDay_same {tm tm' : PgTime} {f : Nat} (h : tm.validateMonthDay f = .ok tm') :
    tm' = tm ∧ (f &&& DTK_MONTH_M ≠ 0 → 1 ≤ tm.mon ∧ tm.mon ≤ 12) := by
  unfold PgTime.validateMonthDay hasBits at h
  split at h
  · cases h
  · rename_i h1
    refine ⟨?_, fun hm => ?_⟩
    · split at h
      · cases h
      · split at h
        · obtain ⟨_, -, h⟩ := Res.bind_eq_ok.1 h
          split at h
          · cases h
          · cases h; rfl
        · cases h; rfl
    · simp only [ne_eq, hm, not_false_eq_true, decide_true, Bool.true_and, Bool.or_eq_true, decide_eq_true_eq, not_or] at h1
      omega

theorem validate_two {k : Bool} {a b : Dec} (h : DecEx k a b) (hz : DayZ a) {x y : PgTime}
    (hx : a.tm.validateDate p a.fMask a.isJulian a.is2 a.bc = .ok x) (hy : b.tm.validateDate p b.fMask b.isJulian b.is2 b.bc = .ok y) :
    y.hour = x.hour ∧ y.min = x.min ∧ y.sec = x.sec ∧ y.year = x.year ∧ ((y.mon = x.mon ∧ y.mday = x.mday) ∨
      (y.mon = x.mday ∧ y.mday = x.mon ∧ 1 ≤ x.mon ∧ x.mon ≤ 12 ∧ 0 ≤ x.mday ∧ x.mday ≤ 12)) := by
  rw [h.tm, h.fMask, h.isJulian, h.is2, h.bc] at hy
  unfold PgTime.validateDate at hx hy
  obtain ⟨t1, h1, hx⟩ := Res.bind_eq_ok.1 hx
  obtain ⟨t2, h2, hx⟩ := Res.bind_eq_ok.1 hx
  rw [validateYear_ex h1, Res.bind_ok, validateDoy_ex h2, Res.bind_ok] at hy
  obtain ⟨rfl, m1⟩ := validateMonthDay_same hx
  obtain ⟨rfl, m2⟩ := validateMonthDay_same hy
  clear hx hy
  by_cases hd : hasBits a.fMask M_DOY = true
  · rw [if_pos hd]; exact ⟨rfl, rfl, rfl, rfl, Or.inl ⟨rfl, rfl⟩⟩
  · rw [if_neg hd] at m2 ⊢
    cases k with
    | false => exact ⟨rfl, rfl, rfl, rfl, Or.inl ⟨rfl, rfl⟩⟩
    | true =>
      refine ⟨rfl, rfl, rfl, rfl, Or.inr ⟨rfl, rfl, (m1 (h.live rfl)).1, (m1 (h.live rfl)).2, ?_⟩⟩
      by_cases hday : a.fMask &&& DTK_DAY_M = 0
      · have e : x.mday = a.tm.mday := by
          have e2 : x = t1 := by
            unfold PgTime.validateDoy at h2
            rw [if_neg hd] at h2
            cases h2; rfl
          rw [e2]
          unfold PgTime.validateYear at h1
          repeat' split at h1
          all_goals first
            | (cases h1; done)
            | (cases h1; rfl)
            | (obtain ⟨_, -, h1⟩ := Res.bind_eq_ok.1 h1; cases h1; rfl)
            | (obtain ⟨_, -, h1⟩ := Res.bind_eq_ok.1 h1; obtain ⟨_, -, h1⟩ := Res.bind_eq_ok.1 h1; cases h1; rfl)
        rw [e, hz hday]
        omega
      · have : exM true a.fMask &&& DTK_MONTH_M ≠ 0 := by
          rw [day_bit] at hday
          rw [month_bit, exM_date]
          rcases date_bits a.fMask with e | e | e | e | e | e | e | e <;> rw [e] at hday ⊢ <;> first | decide | exact absurd (by decide) hday
        have := m2 this
        dsimp only [exT, if_true] at this
        simp only [if_true] at this
        omega

theorem finish_two {k : Bool} {a b : Dec} (h : DecEx k a b) (hz : DayZ a) :
    Two (finishFields p) (finishFields p) (fun _ a' _ b' => FinEx a' b') a b := by
  unfold finishFields
  refine .getBind ?_
  refine .bind (R := fun x a' y b' => a' = a ∧ b' = b ∧ a.tm.validateDate p a.fMask a.isJulian a.is2 a.bc = .ok x ∧
    b.tm.validateDate p b.fMask b.isJulian b.is2 b.bc = .ok y) (Post.lift.2 fun x hx => Post.lift.2 fun y hy => ⟨rfl, rfl, hx, hy⟩) ?_
  rintro x a' y b' ⟨rfl, rfl, hx, hy⟩
  obtain ⟨h1, h2, h3, h4, h5⟩ := validate_two h hz hx hy
  refine .modBind (.getBind ?_)
  dsimp only
  rw [h.mer, h1]
  refine .check fun _ _ => .ite Iff.rfl (fun _ => .mod ?_) fun _ => .ite Iff.rfl (fun _ => .liftBind fun z _ => .mod ?_) fun _ => .pure ?_
  · exact ⟨h.dType, h.fSec, rfl, h2, h3, h4, h5⟩
  · exact ⟨h.dType, h.fSec, rfl, h2, h3, h4, h5⟩
  · exact ⟨h.dType, h.fSec, h1, h2, h3, h4, h5⟩

/-- Two runs of `decode_date_time` that succeed. -/
theorem decode_two {l : List Field} (hl : ∀ f ∈ l, NoMonthLabel f) {a b : Dec}
    (ha : decodeDateTime p plainLook .mdy l ({}, ()) = (.ok (), (a, ()))) (hb : decodeDateTime p plainLook .dmy l ({}, ()) = (.ok (), (b, ()))) :
    FinEx a b := by
  have start : DecEx false ({} : Dec) {} := ⟨rfl, rfl, rfl, rfl, rfl, rfl, rfl, rfl, rfl, rfl, by simp, fun _ => rfl, by simp, rfl, rfl⟩
  have key : Two (decodeDateTime p plainLook .mdy l) (decodeDateTime p plainLook .dmy l) (fun _ a _ b => FinEx a.1 b.1) ({}, ()) ({}, ()) := by
    unfold decodeDateTime
    refine .bind (R := fun _ a _ b => (∃ k, DecEx k a.1 b.1) ∧ DayZ a.1) ?_ ?_
    · have h1 := loop_two p l false (l.map Prod.fst) 0 ({}, ()) ({}, ()) hl start
      have h2 : Post (dateTimeLoop p plainLook .mdy (l.map Prod.fst) l 0) (fun _ s => DayZ s.1) ({}, ()) :=
        loop_all (I := DayZ) (G := fun _ => True) (fun ft i f s _ hs => field_dayZ hs) l _ 0 ({}, ()) (fun _ _ => trivial) fun _ => rfl
      intro x a e y b e'
      exact ⟨h1 x a e y b e', h2 x a e⟩
    · rintro _ a _ b ⟨⟨k, h⟩, hz⟩
      refine .bind (R := fun _ a _ b => FinEx a.1 b.1) (.noLook (finish_two h hz)) fun _ a _ b h' => ?_
      refine .bind (R := fun _ a _ b => FinEx a.1 b.1) (.noLook (Post.get.2 (Post.get.2 h'))) fun _ a _ b h' => .check fun _ _ => .pure h'
  exact key _ _ ha _ _ hb

theorem scan_noMonth {u : TokenField} {s : Bytes} {l : List Field} (h : scan u s = .ok l) (hs : ¬ Says [b!"m"] s) : ∀ f ∈ l, NoMonthLabel f := by
  intro f hf ty v he hu g hg hc
  refine hs ?_
  obtain ⟨e, m, h1, h2, h3, w, h4⟩ := entry_word he (scan_wordAt h f hf)
  have tab : ∀ e ∈ dateTable, (e.ty = .units ∨ e.ty = .isotime) → e.value = TokenField.month.value →
    e.token ∈ [b!"m"] ∧ e.token.head? ≠ some 45 ∧ e.token.map smallLetter = e.token := by decide +kernel
  obtain ⟨ht, hn, hs⟩ := tab e m (by rw [h1]; exact hu) (by rw [h2, hg, hc])
  rcases h4 with ⟨h4, h5⟩ | ⟨h4, h5⟩
  · refine ⟨w, h4, e.token, ht, ?_⟩
    unfold SameButCase
    rw [hs, h3, h5, lower_eq_small, List.map_take]
  · rw [h3, h5] at hn; exact absurd rfl hn

end Pg
