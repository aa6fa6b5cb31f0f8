import Verif.Lemmas.Replace
import Verif.Spec.ClockValue

/-!
# Lemmas: the clock time of a text gives the hour, the minute, the second and the fraction
-/

namespace Pg
open Spec

variable {p : Profile} {order : DateOrder} {ftypes : List TokenField} {i : Nat}

/-! ## Fields of a text without a decimal point -/

theorem lowerB_dot {b : Nat} (h : lowerB b = 46) : b = 46 := by
  unfold lowerB at h
  split at h
  · rename_i hb
    unfold isUpper at hb
    simp only [Bool.and_eq_true, decide_eq_true_eq] at hb
    omega
  · exact h

theorem scanLoop_noDot {u : TokenField} : ∀ (fuel : Nat) (s : Bytes) (cap nf : Nat) (l : List Field), 46 ∉ s →
    scanLoop u fuel s cap nf = .ok l → ∀ f ∈ l, 46 ∉ f.2 := by
  intro fuel
  induction fuel with
  | zero => intro s cap nf l _ h; rw [scanLoop] at h; cases h; simp
  | succ n ih =>
    intro s cap nf l hs h
    have hd : 46 ∉ s.dropWhile isSpace := fun h => hs ((List.dropWhile_suffix _).subset h)
    rw [scanLoop] at h
    split at h
    · cases h; simp
    · rename_i c r e
      rw [e] at hd
      split at h
      · cases h
      · split at h
        · rename_i hst
          split at h
          · cases h
          · rw [Res.bind_eq_ok] at h
            obtain ⟨⟨f, rest⟩, h1, h⟩ := h
            rcases scanField_spec u (c := c) r hst with e | ⟨f', rest', used, e, e2, e3, e4⟩
            · rw [e] at h1; cases h1
            · rw [e] at h1
              cases h1
              dsimp only at h
              split at h
              · cases h
              · rw [Res.bind_eq_ok] at h
                obtain ⟨l', h2, h⟩ := h
                cases h
                rw [e2] at hd
                have h5 : 46 ∉ f.2 := by
                  intro h5
                  have h6 : lowerB 46 ∈ lower f.2 := List.mem_map_of_mem h5
                  rw [e3] at h6
                  obtain ⟨b, h7, h8⟩ := List.mem_map.1 h6
                  have := lowerB_dot (h8.trans (by decide))
                  subst this
                  exact hd (List.mem_append_left _ (List.mem_filter.1 h7).1)
                intro g hg
                rcases List.mem_cons.1 hg with rfl | hg
                · exact h5
                · exact ih _ _ _ _ (fun h => hd (List.mem_append_right _ h)) h2 g hg
        · split at h
          · exact ih _ _ _ _ (fun h => hd ((List.dropWhile_suffix _).subset h)) h
          · cases h

/-! ## The fraction of the seconds -/

theorem dotPos_all {w : Bytes} (h : 46 ∉ w) : dotPos w = w.length := by
  unfold dotPos
  induction w with
  | nil => rfl
  | cons b w ih =>
    rw [List.mem_cons, not_or] at h
    rw [List.takeWhile_cons_of_pos (by simpa using fun e => h.1 e.symm), List.length_cons, ih h.2, List.length_cons]

theorem str2i32_noDot {w r : Bytes} {v : Int} (h : 46 ∉ w) (e : str2i32 w = .ok (v, r)) : r.head? ≠ some 46 := by
  have sub : ∀ b, b ∈ r → b ∈ w := by
    unfold str2i32 at e
    dsimp only at e
    split at e
    · cases e
      exact fun b hb => (List.dropWhile_suffix _).subset hb
    · split at e
      · cases e
      · split at e
        · cases e
          refine fun b hb => (List.dropWhile_suffix isSpace).subset ?_
          have hb := (List.dropWhile_suffix _).subset hb
          revert hb
          unfold extractSign
          split
          all_goals
            rename_i e
            simp +contextual [e]
        · cases e
  intro hr
  cases r with
  | nil => cases hr
  | cons b r => cases hr; exact h (sub _ (by simp))

theorem numberField_fsec {w : Bytes} {m : Nat} (hw : 46 ∉ w) (n : NumS) : Post (decodeNumberField w m) (fun _ n' => n'.fsec = n.fsec) n := by
  have nt : ∀ len, Post (numberTime w len m) (fun _ n' => n'.fsec = n.fsec) n := by
    intro len
    unfold numberTime
    wp
  unfold decodeNumberField
  rw [if_neg (by rw [dotPos_all hw]; simp), Post.ite]
  refine ⟨fun _ => ?_, fun _ => nt _⟩
  unfold numberDate
  wp
  intros
  split <;> rfl

theorem numberVal_fsec {w : Bytes} {v : Int} {b : Bool} {m : Nat} (hw : 46 ∉ w) (n : NumS) :
    Post (decodeNumberVal w v b m order) (fun _ n' => n'.fsec = n.fsec) n := by
  unfold decodeNumberVal
  rw [Post.ite]
  refine ⟨fun _ => by rw [Post.mod], fun _ => ?_⟩
  rw [Post.bind]
  suffices Post (numberByMask w v b m order) (fun _ n' => n'.fsec = n.fsec) n from
    this.mono fun _ n' k => by rw [Post.mod]; split <;> exact k
  unfold numberByMask
  wp
  intros
  exact numberField_fsec hw n

theorem number_fsec {w : Bytes} {b : Bool} {m : Nat} (hw : 46 ∉ w) (n : NumS) :
    Post (decodeNumber w b m order) (fun _ n' => n'.fsec = n.fsec) n := by
  unfold decodeNumber
  wp
  rintro ⟨v, r⟩ e _
  have hr := str2i32_noDot hw e
  dsimp only at hr ⊢
  split
  · exact numberVal_fsec hw _
  · rename_i c r'
    rw [Post.ite]
    refine ⟨fun h => absurd (by rw [h]; rfl) hr, fun _ => by rw [Post.fail]; trivial⟩

theorem onNum_fsec {α : Type} {m : St NumS α} {d : Dec} (h : ∀ n, Post m (fun _ n' => n'.fsec = n.fsec) n) :
    Post (onNum m) (fun _ d' => d'.fMask = d.fMask ∧ d'.fSec = d.fSec) d := by
  unfold onNum
  rw [Post.zoom]
  exact (h _).mono fun _ _ k => ⟨rfl, k⟩

theorem word_fsec {w : Bytes} {s : Dec × Unit} (hm : s.1.fMask &&& 31744 = 31744) :
    Post (do let ignored ← wordToken plainLook ftypes i w; if ignored then pure () else noLook addMask) (fun _ s' => s'.1.fSec = s.1.fSec) s := by
  rw [Post.bind]
  refine Post.mono (Q := fun _ (s' : Dec × Unit) => s'.1.fMask = s.1.fMask ∧ s'.1.fSec = s.1.fSec) ?_ fun ig s' h => ?_
  · unfold wordToken
    rw [Post.bind]
    have look : lookDate plainLook i w s = (.ok (tokenResult (lookupIn dateTable w)), s) := by
      simp only [lookDate, plainLook, searchDate_eq]
    intro a s' e
    rw [look] at e
    cases e
    rw [Post.ite]
    refine ⟨fun _ => by rw [Post.pure]; exact ⟨rfl, rfl⟩, fun _ => ?_⟩
    rw [Post.bind, Post.noLook]
    unfold wordAction
    rw [Post.bind, Post.mod]
    split
    · unfold reservedWord
      wp
      intro f _
      split <;> wp
    · unfold monthWord
      rw [Post.mod]
      dsimp only
      split <;> wp
    · wp
    · wp
    · wp
    · wp
    · unfold isoTimeWord
      wp
      intro _
      split
      · wp
      · wp
    · wp
  · split
    · rw [Post.pure]; exact h.2
    · rw [Post.noLook]
      exact addMask_fsec hm ⟨h.1, .inl h.2⟩

/-- One field without a decimal point, after a clock time. -/
theorem field_fsec {f : Field} {s : Dec × Unit} (hw : 46 ∉ f.2) (hm : s.1.fMask &&& 31744 = 31744) :
    Post (dateTimeField p plainLook order ftypes i f) (fun _ s' => s'.1.fSec = s.1.fSec) s := by
  have add : ∀ {d : Dec}, d.fMask = s.1.fMask ∧ d.fSec = s.1.fSec → Post addMask (fun _ d' => d'.fSec = s.1.fSec) d :=
    fun h => addMask_fsec hm ⟨h.1, .inl h.2⟩
  unfold dateTimeField
  split
  · rw [Post.bind]
    suffices Post (dateToken p plainLook f.2 order) (fun _ s' => s'.1.fMask = s.1.fMask ∧ s'.1.fSec = s.1.fSec) s from
      this.mono fun _ s' k => by rw [Post.noLook]; exact add k
    unfold dateToken
    wp
    intro _
    refine ⟨fun _ => ?_, fun _ => (date_never hm).mono fun _ _ h => h.elim⟩
    split
    · rw [Post.pure]; exact ⟨rfl, rfl⟩
    · wp
  · exact (clock_never hm).mono fun _ _ h => h.elim
  · rw [Post.bind]
    unfold numberToken
    rw [Post.bind, Post.noLook, Post.get, Post.ite, Post.ite, Post.ite, Post.ite]
    have fin : ∀ d', d'.fMask = s.1.fMask ∧ d'.fSec = s.1.fSec → Post (noLook addMask) (fun _ s' => s'.1.fSec = s.1.fSec) (d', s.2) :=
      fun d' h => by rw [Post.noLook]; exact add h
    have nf : Post (do let _ ← noLook (onNum (decodeNumberField f.2 s.1.fMask)); pure ()) (fun _ s' => Post (noLook addMask)
        (fun _ s' => s'.1.fSec = s.1.fSec) s') s := by
      rw [Post.bind, Post.noLook]
      exact (onNum_fsec fun n => numberField_fsec hw n).mono fun _ d' h => by rw [Post.pure]; exact fin d' h
    refine ⟨fun h => ?_, fun _ => ⟨fun h => absurd (dotPos_all hw) h.1, fun _ => ⟨fun _ => nf, fun _ => ⟨fun _ => nf, fun _ => ?_⟩⟩⟩⟩
    · rw [Post.noLook]
      refine (labelled_fsec hm).mono fun _ d' h => ?_
      rw [Post.noLook]
      exact addMask_fsec hm h
    · rw [Post.noLook]
      exact (onNum_fsec fun n => number_fsec hw n).mono fun _ d' h => fin d' h
  · exact word_fsec hm
  · exact word_fsec hm
  · wp

theorem loop_fsec : ∀ (l : List Field) (i : Nat) (s : Dec × Unit), (∀ f ∈ l, 46 ∉ f.2) → s.1.fMask &&& 31744 = 31744 →
    Post (dateTimeLoop p plainLook order ftypes l i) (fun _ s' => s'.1.fSec = s.1.fSec) s := by
  intro l
  induction l with
  | nil => intro i s _ _; unfold dateTimeLoop; wp
  | cons f l ih =>
    intro i s hw hm
    rw [dateTimeLoop, Post.bind]
    refine ((field_fsec (hw f (by simp)) hm).and (field_mask f s)).mono fun a s' h => ?_
    exact (ih (i + 1) s' (fun g hg => hw g (by simp [hg])) (bits_full h.2.1 hm)).mono fun _ _ k => k.trans h.1

/-! ## The clock time itself -/

theorem decodeTime_hms {hh mm ss : Bytes} {f : Option Bytes} (h1 : Digits hh ∧ hh ≠ []) (h2 : Digits mm ∧ mm ≠ []) (h3 : Digits ss ∧ ss ≠ [])
    (hf : Digits (fracDigits f)) {R : Nat} {t t' : TimeS} {a : Unit} (e : decodeTime (hmsBytes hh mm ss f) R t = (.ok a, t')) :
    t' = ⟨DTK_TIME_M, putTm (hmsOf hh mm ss) t.tm, fracMicros f⟩ ∧ NearestMicros (fracDigits f) (fracMicros f) ∧ 0 ≤ fracMicros f ∧ value mm ≤ 59 ∧ value ss ≤ 60 := by
  by_cases hr : Readable hh mm ss f ∧ value hh ≤ 2147483647 ∧ value mm ≤ 59 ∧ value ss ≤ 60
  · rw [decodeTime_ok h1.1 h1.2 h2.1 h2.2 h3.1 h3.2 hf hr.1 hr.2.1 hr.2.2.1 hr.2.2.2] at e
    cases e
    exact ⟨rfl, fracMicros_nearest hf hr.1.2.2.2, (fracMicros_bounds hf hr.1.2.2.2).1, hr.2.2⟩
  · obtain ⟨x, y, h⟩ := decodeTime_err h1.1 h1.2 h2.1 h2.2 h3.1 h3.2 hf hr R t
    rw [h] at e
    cases e

theorem clock_swap {hh mm ss : Bytes} {f : Option Bytes} (h1 : Digits hh ∧ hh ≠ []) (h2 : Digits mm ∧ mm ≠ []) (h3 : Digits ss ∧ ss ≠ [])
    (hf : Digits (fracDigits f)) : ClockSwap hh mm ss b!"0" b!"0" b!"0" f := by
  refine ⟨h1, h2, h3, by unfold Digits; decide, by unfold Digits; decide, by unfold Digits; decide, hf, by decide, fun us _ => ?_⟩
  unfold ClockInput
  simp [value]

/-- The fields of a clock time in the loop of dates and timestamps. -/
theorem loop_clock {hh mm ss : Bytes} {f : Option Bytes} (h1 : Digits hh ∧ hh ≠ []) (h2 : Digits mm ∧ mm ≠ []) (h3 : Digits ss ∧ ss ≠ [])
    (hf : Digits (fracDigits f)) {l2 : List Field} (hl : ∀ g ∈ l2, 46 ∉ g.2) : ∀ (l1 : List Field) (i : Nat) (s s' : Dec × Unit) (a : Unit),
    dateTimeLoop p plainLook order ftypes (l1 ++ (.time, hmsBytes hh mm ss f) :: l2) i s = (.ok a, s') →
    s'.1.fSec = fracMicros f ∧ NearestMicros (fracDigits f) (fracMicros f) ∧ ClockInput (value hh) (value mm) (value ss) (fracMicros f) := by
  intro l1
  induction l1 with
  | nil =>
    intro i s s' a e
    rw [List.nil_append, dateTimeLoop] at e
    obtain ⟨b, t, e1, e2⟩ := St.bind_okInv e
    obtain ⟨k1, k2, k3, k4, k5⟩ := field_swap (clock_swap h1 h2 h3 hf) e1
    have key : t.1.fSec = fracMicros f ∧ NearestMicros (fracDigits f) (fracMicros f) ∧
        ClockInput (value hh) (value mm) (value ss) (fracMicros f) := by
      have : Post (dateTimeField p plainLook order ftypes i (.time, hmsBytes hh mm ss f)) (fun _ t => t.1.fSec = fracMicros f ∧
          NearestMicros (fracDigits f) (fracMicros f) ∧ ClockInput (value hh) (value mm) (value ss) (fracMicros f)) s := by
        unfold dateTimeField
        dsimp only
        unfold timeToken onTime
        wp
        intro _
        rw [Post.zoom]
        intro a t e
        obtain ⟨rfl, hn, hf0, hm, hs⟩ := decodeTime_hms h1 h2 h3 hf e
        dsimp only
        intro hb
        rw [addMask_post]
        refine fun _ => ⟨rfl, hn, ?_⟩
        dsimp only [putTm, hmsOf] at hb
        unfold ClockInput
        omega
      exact this _ _ e1
    exact ⟨(loop_fsec l2 (i + 1) t hl k1 a s' e2).trans key.1, key.2⟩
  | cons g l1 ih =>
    intro i s s' a e
    rw [List.cons_append, dateTimeLoop] at e
    obtain ⟨b, t, e1, e2⟩ := St.bind_okInv e
    exact ih _ _ _ _ e2

/-! ## Before or after noon -/

/-- The half of the day is as the text says. -/
def MerSaid (t : Bytes) (m : Int) : Prop := m = 2 ∨ (m = 0 ∧ Says [b!"am"] t) ∨ (m = 1 ∧ Says [b!"pm"] t)

theorem mer_said {t : Bytes} {f : Field} (hf : WordAt t f) (hw : f.1 = .string ∨ f.1 = .special) {v : Int}
    (he : tokenResult (lookupIn dateTable f.2) = (.ampm, v)) : MerSaid t v := by
  have tab : ∀ e ∈ dateTable, e.ty = .ampm → (e.value = 0 ∨ e.value = 1) ∧ (e.value = 0 → e.token = b!"am") ∧ (e.value = 1 → e.token = b!"pm") := by
    decide +kernel
  obtain ⟨e, h1, h2, h3, -⟩ := entry_word ⟨hw, he, by decide⟩ hf
  rcases (tab e h1 h2).1 with h | h
  · have hv : v = 0 := h3.symm.trans h
    subst hv
    exact Or.inr (Or.inl ⟨rfl, said_word (ty := .ampm) (v := 0) ⟨hw, he, by decide⟩ hf (fun e h1 h2 h3 => (tab e h1 h2).2.1 h3) (by decide) (by decide)⟩)
  · have hv : v = 1 := h3.symm.trans h
    subst hv
    exact Or.inr (Or.inr ⟨rfl, said_word (ty := .ampm) (v := 1) ⟨hw, he, by decide⟩ hf (fun e h1 h2 h3 => (tab e h1 h2).2.2 h3) (by decide) (by decide)⟩)

theorem field_merSaid {t : Bytes} {f : Field} (hf : WordAt t f) (s : Dec × Unit) (hs : MerSaid t s.1.mer) :
    Post (dateTimeField p plainLook order ftypes i f) (fun _ s' => MerSaid t s'.1.mer) s := by
  have add : ∀ d : Dec, MerSaid t d.mer → Post addMask (fun _ d' => MerSaid t d'.mer) d := by
    intro d h
    rw [addMask_post]
    exact fun _ => h
  have date : ∀ w, Post (decodeDate plainLook w order) (fun _ s' => MerSaid t s'.1.mer) s := by
    intro w
    unfold decodeDate
    rw [Post.zoom]
    exact Post.any fun _ _ => hs
  have num : ∀ {α : Type} (m : St NumS α), Post (onNum m) (fun _ d' => MerSaid t d'.mer) s.1 := by
    intro α m
    unfold onNum
    rw [Post.zoom]
    exact Post.any fun _ _ => hs
  have word : f.1 = .string ∨ f.1 = .special → Post (wordToken plainLook ftypes i f.2) (fun b s' => (b = true → MerSaid t s'.1.mer) ∧
      (¬ b = true → Post addMask (fun _ d => MerSaid t d.mer) s'.1)) s := by
    intro hw
    unfold wordToken
    rw [Post.bind, Post.look]
    dsimp only
    rw [Post.ite]
    refine ⟨fun _ => by rw [Post.pure]; exact ⟨fun _ => hs, fun h => absurd rfl h⟩, fun _ => ?_⟩
    rw [Post.bind, Post.noLook]
    suffices ∀ ty v, tokenResult (lookupIn dateTable f.2) = (ty, v) → Post (wordAction ftypes i ty v) (fun _ d' => MerSaid t d'.mer) s.1 from
      (this _ _ rfl).mono fun _ _ k => by rw [Post.pure]; exact ⟨fun e => (by cases e), fun _ => add _ k⟩
    intro ty v he
    unfold wordAction
    rw [Post.bind, Post.mod]
    split
    · unfold reservedWord
      wp
      intro a _
      split <;> wp <;> (intros; exact hs)
    · unfold monthWord
      rw [Post.mod]
      dsimp only
      split <;> exact hs
    · rw [Post.mod]; exact mer_said hf hw he
    · rw [Post.mod]; exact hs
    · rw [Post.mod]; exact hs
    · wp <;> (intros; exact hs)
    · unfold isoTimeWord
      wp
      intro _
      split
      · wp <;> (intros; exact hs)
      · wp <;> (intros; exact hs)
    · wp <;> (intros; exact hs)
  unfold dateTimeField
  split
  · rw [Post.bind]
    suffices Post (dateToken p plainLook f.2 order) (fun _ s' => MerSaid t s'.1.mer) s from
      this.mono fun _ s' k => by rw [Post.noLook]; exact add _ k
    unfold dateToken
    wp
    intro _
    refine ⟨fun _ => ?_, fun _ => date f.2⟩
    split
    · rw [Post.pure]; exact hs
    · wp <;> (intros; exact hs)
  · rw [Post.bind, Post.noLook]
    suffices Post (timeToken f.2) (fun _ d' => MerSaid t d'.mer) s.1 from this.mono fun _ d' k => by rw [Post.noLook]; exact add _ k
    unfold timeToken onTime
    wp
    intro _
    rw [Post.zoom]
    exact Post.any fun _ _ _ => hs
  · rw [Post.bind]
    suffices Post (numberToken p plainLook f.2 order) (fun _ s' => MerSaid t s'.1.mer) s from
      this.mono fun _ s' k => by rw [Post.noLook]; exact add _ k
    unfold numberToken
    wp
    exact ⟨fun _ => (labelled_mer f.2 s.1).mono fun _ _ h => h ▸ hs, fun _ => ⟨fun _ => date f.2, fun _ => ⟨fun _ => num _, fun _ => ⟨fun _ => num _, fun _ => num _⟩⟩⟩⟩
  · rename_i e
    wp
    exact word (Or.inl e)
  · rename_i e
    wp
    exact word (Or.inr e)
  · wp <;> (intros; exact hs)

theorem fieldT_merSaid {t : Bytes} {f : Field} (hf : WordAt t f) (s : Dec × Unit) (hs : MerSaid t s.1.mer) :
    Post (timeOnlyField p plainLook order ftypes i f) (fun _ s' => MerSaid t s'.1.mer) s := by
  have add : ∀ d : Dec, MerSaid t d.mer → Post addMask (fun _ d' => MerSaid t d'.mer) d := by
    intro d h
    rw [addMask_post]
    exact fun _ => h
  have date : ∀ w, Post (decodeDate plainLook w order) (fun _ s' => MerSaid t s'.1.mer) s := by
    intro w
    unfold decodeDate
    rw [Post.zoom]
    exact Post.any fun _ _ => hs
  have num : ∀ {α : Type} (m : St NumS α), Post (onNum m) (fun _ d' => MerSaid t d'.mer) s.1 := by
    intro α m
    unfold onNum
    rw [Post.zoom]
    exact Post.any fun _ _ => hs
  have word : f.1 = .string ∨ f.1 = .special → Post (wordTokenT plainLook ftypes i f.2) (fun b s' => (b = true → MerSaid t s'.1.mer) ∧
      (¬ b = true → Post addMask (fun _ d => MerSaid t d.mer) s'.1)) s := by
    intro hw
    unfold wordTokenT
    rw [Post.bind, Post.look]
    dsimp only
    rw [Post.ite]
    refine ⟨fun _ => by rw [Post.pure]; exact ⟨fun _ => hs, fun h => absurd rfl h⟩, fun _ => ?_⟩
    rw [Post.bind, Post.noLook]
    suffices ∀ ty v, tokenResult (lookupIn dateTable f.2) = (ty, v) → Post (wordActionT ftypes i ty v) (fun _ d' => MerSaid t d'.mer) s.1 from
      (this _ _ rfl).mono fun _ _ k => by rw [Post.pure]; exact ⟨fun e => (by cases e), fun _ => add _ k⟩
    intro ty v he
    unfold wordActionT
    rw [Post.bind, Post.mod]
    split
    · unfold reservedWordT
      wp
      intro a _
      split <;> wp <;> (intros; exact hs)
    · rw [Post.mod]; exact mer_said hf hw he
    · rw [Post.mod]; exact hs
    · wp <;> (intros; exact hs)
    · unfold isoTimeWordT
      wp
      split
      · wp <;> (intros; exact hs)
      · wp <;> (intros; exact hs)
    · wp <;> (intros; exact hs)
  unfold timeOnlyField
  split
  · unfold dateTokenT
    rw [Post.bind, Post.ite]
    exact ⟨fun _ => (date _).mono fun _ s' k => by rw [Post.noLook]; exact add _ k, fun _ => by rw [Post.fail]; trivial⟩
  · wp
    unfold onTime
    rw [Post.zoom]
    exact Post.any fun _ _ => add _ hs
  · rw [Post.bind]
    suffices Post (numberTokenT p plainLook order ftypes i f.2) (fun _ s' => MerSaid t s'.1.mer) s from
      this.mono fun _ s' k => by rw [Post.noLook]; exact add _ k
    unfold numberTokenT
    wp
    exact ⟨fun _ => (labelled_mer _ _).mono fun _ _ h => h ▸ hs, fun _ => ⟨fun _ => ⟨fun _ => date _, fun _ _ => num _⟩, fun _ => ⟨fun _ => num _, fun _ => num _⟩⟩⟩
  · rename_i h
    rw [Post.bind]
    exact (word (.inl h)).mono fun b s' k => by
      rw [Post.ite]
      exact ⟨fun c => by rw [Post.pure]; exact k.1 c, fun c => by rw [Post.noLook]; exact k.2 c⟩
  · rename_i h
    rw [Post.bind]
    exact (word (.inr h)).mono fun b s' k => by
      rw [Post.ite]
      exact ⟨fun c => by rw [Post.pure]; exact k.1 c, fun c => by rw [Post.noLook]; exact k.2 c⟩
  · wp <;> (intros; exact hs)

theorem loopT_merSaid {t : Bytes} : ∀ (l : List Field) (i : Nat) (s : Dec × Unit), (∀ f ∈ l, WordAt t f) → MerSaid t s.1.mer →
    Post (timeOnlyLoop p plainLook order ftypes l i) (fun _ s' => MerSaid t s'.1.mer) s := by
  intro l
  induction l with
  | nil => intro i s _ hs; rw [timeOnlyLoop, Post.pure]; exact hs
  | cons f l ih =>
    intro i s hl hs
    rw [timeOnlyLoop, Post.bind]
    exact (fieldT_merSaid (hl f (by simp)) s hs).mono fun _ s' h => ih _ s' (fun g hg => hl g (by simp [hg])) h

/-- The hour by the half of the day that was given: 0 for `am`, 1 for `pm`, 2 for none. -/
def HourBy (m : Int) (h H : Nat) : Prop := (m = 2 ∧ H = h) ∨ (m = 0 ∧ hour24 false h = some H) ∨ (m = 1 ∧ hour24 true h = some H)

theorem finish_said {t : Bytes} {d e : Dec} {a : Unit} {h : Nat} {m s : Int} (hd : d.tm.hour = h ∧ d.tm.min = m ∧ d.tm.sec = s)
    (hm : MerSaid t d.mer) (run : finishFields p d = (.ok a, e)) :
    ∃ H, HourBy d.mer h H ∧ e.tm.hour = (H : Nat) ∧ e.tm.min = m ∧ e.tm.sec = s ∧ e.fSec = d.fSec := by
  obtain ⟨hh, rfl, rfl⟩ := hd
  have : Post (finishFields p) (fun _ e => ∃ H, HourBy d.mer h H ∧ e.tm.hour = (H : Nat) ∧ e.tm.min = d.tm.min ∧ e.tm.sec = d.tm.sec ∧ e.fSec = d.fSec) d := by
    unfold finishFields
    wp
    intro tm hv
    obtain ⟨c1, c2, c3⟩ := validateDate_clock hv
    have c1 := c1.trans hh
    intro hb
    have hm' : d.mer = 2 ∨ d.mer = 0 ∨ d.mer = 1 := by
      rcases hm with hm | hm | hm
      · exact Or.inl hm
      · exact Or.inr (Or.inl hm.1)
      · exact Or.inr (Or.inr hm.1)
    refine ⟨fun h2 => ⟨0, Or.inr (Or.inl ⟨h2.1, ?_⟩), rfl, c2, c3⟩, fun h2 => ⟨fun h3 => ?_, fun h3 => ⟨h, ?_, c1, c2, c3⟩⟩⟩
    · obtain rfl : h = 12 := by omega
      rfl
    · intro x hx
      rw [chk32_ok (by omega)] at hx
      cases hx
      refine ⟨h + 12, Or.inr (Or.inr ⟨h3.1, ?_⟩), by omega, c2, c3⟩
      have : h < 12 := by omega
      rw [hour24, if_pos (by omega), Nat.mod_eq_of_lt this]
      rfl
    · rcases hm' with hm | hm | hm
      · exact Or.inl ⟨hm, rfl⟩
      · have : h < 12 := by omega
        exact Or.inr (Or.inl ⟨hm, by rw [hour24, if_pos (by omega), Nat.mod_eq_of_lt this]; rfl⟩)
      · obtain rfl : h = 12 := by omega
        exact Or.inr (Or.inr ⟨hm, rfl⟩)
  exact this _ _ run

/-- A second word of this kind is refused. -/
theorem half_again {f : Field} (hw : f.1 = .string ∨ f.1 = .special) (hty : (tokenResult (lookupIn dateTable f.2)).1 = .ampm) (s : Dec × Unit)
    (hs : s.1.fMask.testBit TokenType.ampm.code = true) : Post (dateTimeField p plainLook order ftypes i f) (fun _ _ => False) s := by
  obtain ⟨k, w⟩ := f
  have : Post (dateTimeField p plainLook order ftypes i (.string, w)) (fun _ _ => False) s :=
    (word_claims (Prod.ext hty rfl : tokenResult (lookupIn dateTable w) = (.ampm, _)) (Or.inl rfl) s).mono fun _ _ h => by rw [h.2] at hs; cases hs
  rcases hw with rfl | rfl
  · exact this
  · exact this

theorem half_againT {f : Field} (hw : f.1 = .string ∨ f.1 = .special) (hty : (tokenResult (lookupIn dateTable f.2)).1 = .ampm) (s : Dec × Unit)
    (hs : s.1.fMask.testBit TokenType.ampm.code = true) : Post (timeOnlyField p plainLook order ftypes i f) (fun _ _ => False) s := by
  obtain ⟨k, w⟩ := f
  have : Post (timeOnlyField p plainLook order ftypes i (.string, w)) (fun _ _ => False) s :=
    (word_claimsT (Prod.ext hty rfl : tokenResult (lookupIn dateTable w) = (.ampm, _)) (Or.inl rfl) s).mono fun _ _ h => by rw [h.2] at hs; cases hs
  rcases hw with rfl | rfl
  · exact this
  · exact this

/-- The half of the day has been given. -/
def HalfIs (v : Int) (d : Dec) : Prop := d.fMask.testBit TokenType.ampm.code = true ∧ d.mer = v

theorem field_halfKeeps {v : Int} {f : Field} (s : Dec × Unit) (hs : HalfIs v s.1) :
    Post (dateTimeField p plainLook order ftypes i f) (fun _ s' => HalfIs v s'.1) s := by
  by_cases h : (f.1 = .string ∨ f.1 = .special) ∧ (tokenResult (lookupIn dateTable f.2)).1 = .ampm
  · exact (half_again h.1 h.2 s hs.1).mono fun _ _ h => h.elim
  · exact ((field_mask f s).and (field_merSame (fun h1 h2 => h ⟨h1, h2⟩) s)).mono fun _ _ k => ⟨k.1.1 _ hs.1, k.2.trans hs.2⟩

theorem fieldT_halfKeeps {v : Int} {f : Field} (s : Dec × Unit) (hs : HalfIs v s.1) :
    Post (timeOnlyField p plainLook order ftypes i f) (fun _ s' => HalfIs v s'.1) s := by
  by_cases h : (f.1 = .string ∨ f.1 = .special) ∧ (tokenResult (lookupIn dateTable f.2)).1 = .ampm
  · exact (half_againT h.1 h.2 s hs.1).mono fun _ _ h => h.elim
  · exact ((field_maskT f s).and (fieldT_merSame (fun h1 h2 => h ⟨h1, h2⟩) s)).mono fun _ _ k => ⟨k.1 _ hs.1, k.2.trans hs.2⟩

theorem field_halfSet {v : Int} {w : Bytes} (hw : tokenResult (lookupIn dateTable w) = (.ampm, v)) (s : Dec × Unit) :
    Post (dateTimeField p plainLook order ftypes i (.string, w)) (fun _ s' => HalfIs v s'.1) s := by
  unfold dateTimeField wordToken
  simp only
  rw [Post.bind, Post.bind, Post.look, hw]
  dsimp only
  rw [if_neg (by decide), Post.bind]
  unfold wordAction
  wp
  refine ⟨fun h => (by cases h), fun _ => ?_⟩
  rw [addMask_post]
  exact fun hm => ⟨Bits.right _ _ _ (mask_bit _), rfl⟩

theorem fieldT_halfSet {v : Int} {w : Bytes} (hw : tokenResult (lookupIn dateTable w) = (.ampm, v)) (s : Dec × Unit) :
    Post (timeOnlyField p plainLook order ftypes i (.string, w)) (fun _ s' => HalfIs v s'.1) s := by
  unfold timeOnlyField wordTokenT
  simp only
  rw [Post.bind, Post.bind, Post.look, hw]
  dsimp only
  rw [if_neg (by decide), Post.bind]
  unfold wordActionT
  wp
  refine ⟨fun h => (by cases h), fun _ => ?_⟩
  rw [addMask_post]
  exact fun hm => ⟨Bits.right _ _ _ (mask_bit _), rfl⟩

theorem loop_half {v : Int} {w : Bytes} (hw : tokenResult (lookupIn dateTable w) = (.ampm, v)) : ∀ (l : List Field) (i : Nat) (s : Dec × Unit),
    (.string, w) ∈ l → Post (dateTimeLoop p plainLook order ftypes l i) (fun _ s' => s'.1.mer = v) s := by
  intro l
  induction l with
  | nil => intro i s h; cases h
  | cons f l ih =>
    intro i s h
    rw [dateTimeLoop, Post.bind]
    rcases List.mem_cons.1 h with rfl | h
    · exact (field_halfSet hw s).mono fun _ s' hs => (loop_all (I := HalfIs v) (G := fun _ => True)
        (fun ft i f s _ hs => field_halfKeeps s hs) l ftypes _ s' (fun _ _ => trivial) hs).mono fun _ _ h => h.2
    · exact Post.any fun _ s' => ih _ s' h

theorem loopT_halfKeeps {v : Int} : ∀ (l : List Field) (i : Nat) (s : Dec × Unit), HalfIs v s.1 →
    Post (timeOnlyLoop p plainLook order ftypes l i) (fun _ s' => HalfIs v s'.1) s := by
  intro l
  induction l with
  | nil => intro i s hs; rw [timeOnlyLoop, Post.pure]; exact hs
  | cons f l ih =>
    intro i s hs
    rw [timeOnlyLoop, Post.bind]
    exact (fieldT_halfKeeps s hs).mono fun _ s' h => ih _ s' h

theorem loopT_half {v : Int} {w : Bytes} (hw : tokenResult (lookupIn dateTable w) = (.ampm, v)) : ∀ (l : List Field) (i : Nat) (s : Dec × Unit),
    (.string, w) ∈ l → Post (timeOnlyLoop p plainLook order ftypes l i) (fun _ s' => s'.1.mer = v) s := by
  intro l
  induction l with
  | nil => intro i s h; cases h
  | cons f l ih =>
    intro i s h
    rw [timeOnlyLoop, Post.bind]
    rcases List.mem_cons.1 h with rfl | h
    · exact (fieldT_halfSet hw s).mono fun _ s' hs => (loopT_halfKeeps l _ s' hs).mono fun _ _ h => h.2
    · exact Post.any fun _ s' => ih _ s' h

/-- The hour that the fields say. -/
theorem hour_said {t z : Bytes} {m : Int} {h H : Nat} (hm : MerSaid t m) (hb : HourBy m h H)
    (hh : ∀ pm, HasHalf pm z t → m = if pm then 1 else 0) : HourSaid z t h H := by
  refine ⟨fun pm hp => ?_, fun hn => ?_, ?_⟩
  · have := hh pm hp
    rcases hb with hb | hb | hb
    · cases pm
      · simp only [Bool.false_eq_true, if_false] at this; omega
      · simp only [if_true] at this; omega
    · cases pm
      · exact hb.2
      · simp only [if_true] at this; omega
    · cases pm
      · simp only [Bool.false_eq_true, if_false] at this; omega
      · exact hb.2
  · have wide : ∀ x, x = b!"am" ∨ x = b!"pm" → ¬ Says [x] t := by
      rintro x hx ⟨w, h1, v, h2, h3⟩
      refine hn ⟨w, h1, v, ?_, h3⟩
      rw [List.mem_singleton] at h2
      subst h2
      rcases hx with rfl | rfl <;> decide
    rcases hb with hb | hb | hb
    · exact hb.2
    · rcases hm with hm | hm | hm
      · omega
      · exact absurd hm.2 (wide _ (Or.inl rfl))
      · omega
    · rcases hm with hm | hm | hm
      · omega
      · omega
      · exact absurd hm.2 (wide _ (Or.inr rfl))
  · rcases hb with hb | hb | hb
    · exact Or.inl hb.2
    · refine Or.inr (Or.inr ⟨?_, hb.2⟩)
      rcases hm with hm | hm | hm
      · omega
      · exact hm.2
      · omega
    · refine Or.inr (Or.inl ⟨?_, hb.2⟩)
      rcases hm with hm | hm | hm
      · omega
      · omega
      · exact hm.2

/-- What a clock time gives for dates and timestamps. -/
theorem decode_clock {hh mm ss : Bytes} {f : Option Bytes} (h1 : Digits hh ∧ hh ≠ []) (h2 : Digits mm ∧ mm ≠ []) (h3 : Digits ss ∧ ss ≠ [])
    (hf : Digits (fracDigits f)) {l1 l2 : List Field} (hl : ∀ g ∈ l2, 46 ∉ g.2) {t : Bytes}
    (ht : ∀ g ∈ l1 ++ (.time, hmsBytes hh mm ss f) :: l2, WordAt t g) {z : Bytes}
    (hz : ∀ pm, HasHalf pm z t → ∃ w, (.string, w) ∈ l1 ++ (.time, hmsBytes hh mm ss f) :: l2 ∧
      tokenResult (lookupIn dateTable w) = (.ampm, if pm then 1 else 0)) {a : Unit} {s' : Dec × Unit}
    (e : decodeDateTime p plainLook order (l1 ++ (.time, hmsBytes hh mm ss f) :: l2) ({}, ()) = (.ok a, s')) :
    ∃ H, HourSaid z t (value hh) H ∧ ClockInput (value hh) (value mm) (value ss) (fracMicros f) ∧ NearestMicros (fracDigits f) (fracMicros f) ∧
      s'.1.tm.hour = (H : Nat) ∧ s'.1.tm.min = value mm ∧ s'.1.tm.sec = value ss ∧ s'.1.fSec = fracMicros f := by
  unfold decodeDateTime at e
  obtain ⟨b, s1, e1, e2⟩ := St.bind_okInv e
  have hmer := loop_all (I := fun d => MerSaid t d.mer) (G := WordAt t) (fun ft i f s hg hs => field_merSaid hg s hs) _ _ 0 _ ht (Or.inl rfl) _ _ e1
  obtain ⟨-, k2, -, k4, -⟩ := loop_swap (clock_swap h1 h2 h3 hf) l1 0 _ _ _ e1
  obtain ⟨j1, j2, j3⟩ := loop_clock h1 h2 h3 hf hl l1 0 _ _ _ e1
  obtain ⟨c, s2, e3, e4⟩ := St.bind_okInv e2
  have e3 := noLook_ok e3
  have hk : s1.1.tm.hour = value hh ∧ s1.1.tm.min = value mm ∧ s1.1.tm.sec = value ss := by rw [k2]; exact ⟨rfl, rfl, rfl⟩
  obtain ⟨H, d1, d2, d3, d4, d5⟩ := finish_said hk hmer e3
  have d1 := hour_said hmer d1 fun pm hp => by
    obtain ⟨w, h1, h2⟩ := hz pm hp
    exact loop_half h2 _ 0 _ h1 _ _ e1
  have es : s' = s2 := by
    have : Post (do
        let d ← noLook St.get
        if d.dType = .date ∧ d.fMask &&& DTK_DATE_M ≠ DTK_DATE_M ∧ d.fMask &&& DTK_TIME_M ≠ DTK_TIME_M then St.fail .invalid
        else pure () : St (Dec × Unit) Unit) (fun _ s => s = s2) s2 := by
      wp
    exact this _ _ e4
  subst es
  exact ⟨H, d1, j3, j2, d2, d3, d4, d5.trans j1⟩

theorem loopT_nearest {hh mm ss : Bytes} {f : Option Bytes} (h1 : Digits hh ∧ hh ≠ []) (h2 : Digits mm ∧ mm ≠ []) (h3 : Digits ss ∧ ss ≠ [])
    (hf : Digits (fracDigits f)) {l2 : List Field} : ∀ (l1 : List Field) (i : Nat) (s s' : Dec × Unit) (a : Unit),
    timeOnlyLoop p plainLook order ftypes (l1 ++ (.time, hmsBytes hh mm ss f) :: l2) i s = (.ok a, s') →
    NearestMicros (fracDigits f) (fracMicros f) := by
  intro l1
  induction l1 with
  | nil =>
    intro i s s' a e
    rw [List.nil_append, timeOnlyLoop] at e
    obtain ⟨b, t, e1, e2⟩ := St.bind_okInv e
    have : Post (timeOnlyField p plainLook order ftypes i (.time, hmsBytes hh mm ss f)) (fun _ _ => NearestMicros (fracDigits f) (fracMicros f)) s := by
      unfold timeOnlyField
      dsimp only
      unfold onTime
      wp
      rw [Post.zoom]
      intro a t e
      obtain ⟨rfl, hn, -⟩ := decodeTime_hms h1 h2 h3 hf e
      rw [addMask_post]
      exact fun _ => hn
    exact this _ _ e1
  | cons g l1 ih =>
    intro i s s' a e
    rw [List.cons_append, timeOnlyLoop] at e
    obtain ⟨b, t, e1, e2⟩ := St.bind_okInv e
    exact ih _ _ _ _ e2

/-- What a clock time gives for times of day. -/
theorem decodeT_clock {hh mm ss : Bytes} {f : Option Bytes} (h1 : Digits hh ∧ hh ≠ []) (h2 : Digits mm ∧ mm ≠ []) (h3 : Digits ss ∧ ss ≠ [])
    (hf : Digits (fracDigits f)) {l1 l2 : List Field} {t : Bytes}
    (ht : ∀ g ∈ l1 ++ (.time, hmsBytes hh mm ss f) :: l2, WordAt t g) {z : Bytes}
    (hz : ∀ pm, HasHalf pm z t → ∃ w, (.string, w) ∈ l1 ++ (.time, hmsBytes hh mm ss f) :: l2 ∧
      tokenResult (lookupIn dateTable w) = (.ampm, if pm then 1 else 0)) {a : Unit} {s' : Dec × Unit}
    (e : decodeTimeOnly p plainLook order (l1 ++ (.time, hmsBytes hh mm ss f) :: l2) ({}, ()) = (.ok a, s')) :
    ∃ H, HourSaid z t (value hh) H ∧ NearestMicros (fracDigits f) (fracMicros f) ∧ ¬ badTimeOnly s'.1 ∧
      s'.1.tm.hour = (H : Nat) ∧ s'.1.tm.min = value mm ∧ s'.1.tm.sec = value ss ∧ s'.1.fSec = fracMicros f := by
  unfold decodeTimeOnly at e
  obtain ⟨b, s1, e1, e2⟩ := St.bind_okInv e
  have hmer := loopT_merSaid _ 0 _ ht (Or.inl rfl) _ _ e1
  obtain ⟨k2, k3, -, -⟩ := loopT_swap (clock_swap h1 h2 h3 hf) l1 0 _ _ _ e1
  have j2 := loopT_nearest h1 h2 h3 hf l1 0 _ _ _ e1
  obtain ⟨c, s2, e3, e4⟩ := St.bind_okInv e2
  have e3 := noLook_ok e3
  have hk : s1.1.tm.hour = value hh ∧ s1.1.tm.min = value mm ∧ s1.1.tm.sec = value ss := by rw [k2]; exact ⟨rfl, rfl, rfl⟩
  obtain ⟨H, d1, d2, d3, d4, d5⟩ := finish_said hk hmer e3
  have d1 := hour_said hmer d1 fun pm hp => by
    obtain ⟨w, h1, h2⟩ := hz pm hp
    exact loopT_half h2 _ 0 _ h1 _ _ e1
  have es : s' = s2 ∧ ¬ badTimeOnly s2.1 := by
    have : Post (do
        let d ← noLook St.get
        if badTimeOnly d then St.fail .overflow else pure () : St (Dec × Unit) Unit) (fun _ s => s = s2 ∧ ¬ badTimeOnly s2.1) s2 := by
      wp
      exact id
    exact this _ _ e4
  obtain ⟨rfl, good⟩ := es
  exact ⟨H, d1, j2, good, d2, d3, d4, d5.trans k3⟩

end Pg
