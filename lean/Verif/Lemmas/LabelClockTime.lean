import Verif.Lemmas.LabelClockRun

/-! # Times of day with labels -/

namespace Pg
open Spec

section
variable {p : Profile} {order : DateOrder} {ft : List TokenField} {i : Nat} {d : Dec}

theorem loopT_cons {f : Field} {fs : List Field}
    {s s' : Dec × Unit} (h : timeOnlyField p plainLook order ft i f s = (.ok (), s')) :
    timeOnlyLoop p plainLook order ft (f :: fs) i s = timeOnlyLoop p plainLook order ft fs (i + 1) s' := by
  rw [timeOnlyLoop, St.bind_ok h]

theorem loopT_cons_err {f : Field} {fs : List Field}
    {s s' : Dec × Unit} {e : Err} (h : timeOnlyField p plainLook order ft i f s = (.err e, s')) :
    timeOnlyLoop p plainLook order ft (f :: fs) i s = (.err e, s') := by
  rw [timeOnlyLoop, St.bind_err h]

/-- A unit word in a time of day. -/
theorem fieldT_units {w : Bytes} {e : DateToken} {f : TokenField} (hs : searchDate w = .ok (some e)) (hty : e.ty = .units)
    (hf : TokenField.ofInt e.value = .ok f) :
    timeOnlyField p plainLook order ft i (.string, w) (d, ()) =
      (.ok (), ({ d with tMask := 0, pType := f }, ())) := by
  have hl : lookDate plainLook i w (d, ()) = (.ok (e.ty, e.value), (d, ())) := by
    unfold lookDate plainLook
    simp only [hs]
    rfl
  have ha : wordActionT ft i e.ty e.value d = (.ok (), { d with tMask := 0, pType := f }) := by
    rw [hty]
    unfold wordActionT
    rw [St.mod_bind]
    simp only
    rw [St.mod_bind, hf, St.lift_ok_bind]
    rfl
  have e1 : wordTokenT plainLook ft i w (d, ()) = (.ok false, ({ d with tMask := 0, pType := f }, ())) := by
    unfold wordTokenT
    rw [St.bind_ok hl]
    simp only
    rw [St.ite_run, if_neg (by rw [hty]; decide), St.bind_ok (noLook_run ha)]
    rfl
  unfold timeOnlyField
  simp only
  rw [St.bind_ok e1]
  simp only [Bool.false_eq_true, if_false]
  rw [noLook_run (addMask_run (by simp))]
  simp

theorem numberTokenT_label {f : Bytes} {d d' : Dec} (hp : d.pType ≠ .number)
    (h : labelled p f d = (.ok (), d')) (hm : d'.tMask &&& d'.fMask = 0) :
    timeOnlyField p plainLook order ft i (.number, f) (d, ()) =
      (.ok (), ({ d' with fMask := d'.fMask ||| d'.tMask }, ())) := by
  have hn : numberTokenT p plainLook order ft i f (d, ()) = (.ok (), (d', ())) := by
    unfold numberTokenT
    rw [St.bind_ok (noLook_run (St.get_run _)), St.ite_run, if_pos hp]
    exact noLook_run h
  unfold timeOnlyField
  simp only
  rw [St.bind_ok hn, noLook_run (addMask_run hm)]

theorem numberTokenT_labelErr {f : Bytes} {d : Dec} {e : Err} {s : Dec} (hp : d.pType ≠ .number)
    (h : labelled p f d = (.err e, s)) :
    ∃ e s, timeOnlyField p plainLook order ft i (.number, f) (d, ()) = (.err e, s) := by
  have hn : numberTokenT p plainLook order ft i f (d, ()) = (.err e, (s, ())) := by
    unfold numberTokenT
    rw [St.bind_ok (noLook_run (St.get_run _)), St.ite_run, if_pos hp]
    exact noLook_run h
  unfold timeOnlyField
  simp only
  exact ⟨_, _, by rw [St.bind_err hn]⟩

/-- A labelled number in a time of day. -/
theorem loopT_part {P : ClockPart} (hP : P.Ok false) (hb : d.fMask &&& labelBits P.label = 0) (rest : List Field) :
    if NumOk P.digits then
      timeOnlyLoop p plainLook order ft (clockPartFields P ++ rest) i (d, ()) =
        timeOnlyLoop p plainLook order ft rest (i + 2) (addPart d P, ())
    else ∃ e s, timeOnlyLoop p plainLook order ft (clockPartFields P ++ rest) i (d, ()) = (.err e, s) := by
  obtain ⟨s, f, hu, hw, hf⟩ := part_word hP
  obtain ⟨⟨e, h1, h2, h3⟩, -⟩ := labelUnit_entry hu hw
  have hs := fieldT_units (p := p) (order := order) (ft := ft) (i := i) (d := d) h1 h2 h3
  have step : timeOnlyLoop p plainLook order ft (clockPartFields P ++ rest) i (d, ()) =
      timeOnlyLoop p plainLook order ft ((.number, partNumber P) :: rest) (i + 1)
        ({ d with tMask := 0, pType := f }, ()) := loopT_cons hs
  have hl := labelled_part (p := p) (d := { d with tMask := 0, pType := f }) hP hf rfl (by simp)
  rw [step]
  by_cases hk : NumOk P.digits
  · rw [if_pos hk] at hl ⊢
    exact loopT_cons (numberTokenT_label (order := order) (ft := ft) (i := i + 1) (part_ne_number hf) hl (part_mask hb))
  · rw [if_neg hk] at hl ⊢
    obtain ⟨s, hl⟩ := hl
    obtain ⟨e, s, hl⟩ := numberTokenT_labelErr (order := order) (ft := ft) (i := i + 1) (part_ne_number hf) hl
    exact ⟨_, _, loopT_cons_err hl⟩

/-- A time of day with labels. -/
theorem loopT_parts {parts : List ClockPart} : ∀ {hour : Bool} {d : Dec} {i : Nat}, PartsOk false hour parts →
    MaskFor false hour parts d.fMask → ∀ rest : List Field,
    if ∀ P ∈ parts, NumOk P.digits then
      timeOnlyLoop p plainLook order ft (labelClockFields parts ++ rest) i (d, ()) =
        timeOnlyLoop p plainLook order ft rest (i + (labelClockFields parts).length) (parts.foldl addPart d, ())
    else ∃ e s, timeOnlyLoop p plainLook order ft (labelClockFields parts ++ rest) i (d, ()) = (.err e, s) := by
  induction parts with
  | nil =>
    intro hour d i _ _ rest
    rw [if_pos (by simp)]
    rfl
  | cons P r ih =>
    intro hour d i hok hmask rest
    obtain ⟨hP, hr, hok'⟩ := hok
    have e : labelClockFields (P :: r) ++ rest = clockPartFields P ++ (labelClockFields r ++ rest) := by
      simp [labelClockFields]
    have e2 : (labelClockFields (P :: r)).length = 2 + (labelClockFields r).length := by
      simp [labelClockFields, clockPartFields]; omega
    rw [e, e2]
    have t1 := loopT_part (p := p) (order := order) (ft := ft) (i := i) hP (hmask.1 P (by simp)) (labelClockFields r ++ rest)
    by_cases hk : NumOk P.digits
    · rw [if_pos hk] at t1
      rw [t1]
      have t2 := ih (d := addPart d P) (i := i + 2) hok'
        (mask_next (fun h => by cases h) hmask hr : MaskFor _ _ _ (addPart d P).fMask) rest
      by_cases hk2 : ∀ Q ∈ r, NumOk Q.digits
      · rw [if_pos hk2] at t2
        rw [if_pos (by simpa using ⟨hk, hk2⟩), t2, Nat.add_assoc]
        rfl
      · rw [if_neg hk2] at t2
        rw [if_neg (fun q => hk2 (fun Q hQ => q Q (List.mem_cons_of_mem _ hQ)))]
        exact t2
    · rw [if_neg hk] at t1
      rw [if_neg (fun q => hk (q P (by simp)))]
      exact t1

end

theorem validate_none (p : Profile) (tm : PgTime) {m : Nat} (h : m &&& 32782 = 0) (is2 bc : Bool) :
    tm.validateDate p m false is2 bc = .ok tm := by
  have hb : ∀ k, 32782 &&& k = k → hasBits m k = false := by
    intro k hk
    unfold hasBits
    rw [← hk, ← Nat.and_assoc, h, Nat.zero_and]
    rfl
  unfold PgTime.validateDate PgTime.validateYear PgTime.validateDoy PgTime.validateMonthDay
  simp [hb 4 (by decide), hb 2 (by decide), hb 8 (by decide), hb 32768 (by decide)]
  intro h14
  have : (m &&& 32782) &&& 14 = 14 := by rw [Nat.and_assoc]; exact h14
  rw [h] at this
  simp at this

section
variable {p : Profile} {order : DateOrder} {parts : List ClockPart}

/-- The decoder of times of day on a clock time with labels. -/
theorem timeOnly_labelClock (mer : Option Bool) (hok : PartsOk false false parts) :
    if ∀ P ∈ parts, NumOk P.digits then
      match hourOf mer (clockNumber .hour parts) with
      | some k => ∃ d : Dec, d.tm.hour = k ∧ d.tm.min = clockNumber .minute parts ∧
          d.tm.sec = clockNumber .second parts ∧ d.fSec = labelUs parts ∧
          decodeTimeOnly p plainLook order (labelClockFields parts ++ merFields mer) ({}, ()) =
            (if badTimeOnly d then .err .overflow else .ok (), (d, ()))
      | none => ∃ e s, decodeTimeOnly p plainLook order (labelClockFields parts ++ merFields mer) ({}, ()) = (.err e, s)
    else ∃ e s, decodeTimeOnly p plainLook order (labelClockFields parts ++ merFields mer) ({}, ()) = (.err e, s) := by
  obtain ⟨ft, hft⟩ : ∃ ft, ft = (labelClockFields parts ++ merFields mer).map Prod.fst := ⟨_, rfl⟩
  have hl := loopT_parts (p := p) (order := order) (ft := ft) (d := {}) (i := 0) hok ⟨by simp, by simp⟩ (merFields mer)
  by_cases hk : ∀ P ∈ parts, NumOk P.digits
  swap
  · rw [if_neg hk] at hl ⊢
    obtain ⟨e, s, hl⟩ := hl
    unfold decodeTimeOnly
    rw [← hft, St.bind_err hl]
    exact ⟨_, _, rfl⟩
  rw [if_pos hk] at hl ⊢
  have hst := parts_state (d := {}) hok
  have hck := parts_clock (d := {}) hok rfl rfl rfl rfl
  simp only at hst hck
  obtain ⟨X, hX⟩ : ∃ X, X = parts.foldl addPart {} := ⟨_, rfl⟩
  rw [← hX] at hl hst hck
  obtain ⟨-, -, -, -, a5, a6, a7, a8, a9, -⟩ := hst
  obtain ⟨c1, c2, c3, c4⟩ := hck
  have m0 : X.fMask &&& 32782 = 0 := (a9 _ (by decide)).trans (by simp)
  have m5 : X.fMask &&& 512 = 0 := (a9 _ (by decide)).trans (by simp)
  cases mer with
  | none =>
    simp only [hourOf]
    refine ⟨X, c1, c2, c3, c4, ?_⟩
    have hfin : finishFields p X = (.ok (), X) := by
      obtain ⟨tm0, dType, fSec, fMask, tMask, pType, isJulian, is2, bc', mer', textMonth⟩ := X
      simp only at a6 a8 m0
      subst a6 a8
      unfold finishFields
      rw [St.get_bind]
      simp only
      rw [validate_none p tm0 m0, St.lift_ok_bind, St.mod_bind, St.get_bind]
      simp [St.pure_run]
    have hl' : timeOnlyLoop p plainLook order ft (labelClockFields parts ++ merFields none) 0 ({}, ()) = (.ok (), (X, ())) := by
      rw [hl]; rfl
    unfold decodeTimeOnly
    rw [← hft, St.bind_ok hl', St.bind_ok (noLook_run hfin), St.bind_ok (noLook_run (St.get_run _)), St.ite_run]
    split <;> rfl
  | some pm =>
    have e3 := fieldT_mer (p := p) (order := order) (ft := ft) (i := 0 + (labelClockFields parts).length) pm (d := X) m5
    have hfin := finish_mer p pm (d := { X with mer := merVal pm, tMask := 512, fMask := X.fMask ||| 512 }) (tm := X.tm)
      (by
        rw [a6]
        exact validate_none p X.tm (by
          show (X.fMask ||| 512) &&& 32782 = 0
          rw [Nat.and_or_distrib_right, m0]; rfl) _ _) rfl (h := clockNumber .hour parts) c1
    have hl' : timeOnlyLoop p plainLook order ft (labelClockFields parts ++ merFields (some pm)) 0 ({}, ()) =
        (.ok (), ({ X with mer := merVal pm, tMask := 512, fMask := X.fMask ||| 512 }, ())) := by
      rw [hl]
      simp only [merFields]
      rw [loopT_cons e3]
      rfl
    unfold decodeTimeOnly
    rw [← hft, St.bind_ok hl']
    simp only [hourOf]
    cases hk24 : hour24 pm (clockNumber .hour parts) with
    | none =>
      rw [hk24] at hfin
      obtain ⟨s, hfin⟩ := hfin
      exact ⟨_, _, St.bind_err (noLook_run hfin)⟩
    | some k =>
      rw [hk24] at hfin
      simp only at hfin ⊢
      refine ⟨{ X with mer := merVal pm, tMask := 512, fMask := X.fMask ||| 512, tm := { X.tm with hour := k } },
        rfl, c2, c3, c4, ?_⟩
      rw [St.bind_ok (noLook_run hfin), St.bind_ok (noLook_run (St.get_run _)), St.ite_run]
      split <;> rfl

/-- `Time::try_from_str` on a clock time with labels. -/
theorem time_labelClock (u : TokenField) {cs : Caches} (hcs : cs.Ok) (hok : PartsOk false false parts) (hf : FirstOk parts)
    (hne : parts ≠ []) {mer : Option Bool} {t text : Bytes} (hm : MeridiemText mer t) (ht : text = labelClock parts ++ t) :
    match hourOf mer (clockNumber .hour parts) with
    | some k =>
      if ClockInput k (clockNumber .minute parts) (clockNumber .second parts) (labelUs parts) then
        Time.tryFromStr p u cs text (-1) order =
          .ok ⟨clockValue k (clockNumber .minute parts) (clockNumber .second parts) (labelUs parts)⟩
      else (Time.tryFromStr p u cs text (-1) order).IsErr
    | none => (Time.tryFromStr p u cs text (-1) order).IsErr := by
  have hs : scan u text = .ok (labelClockFields parts ++ merFields mer) := by
    have h1 := scans_labelClock (loose_tail hm false).number (scans_tail u hm false) hok (first_beside hf)
    have e : labelClock parts ++ (t ++ bcMark false) = text := by rw [ht]; simp [bcMark]
    have e2 : merFields mer ++ bcFields false = merFields mer := by simp [bcFields]
    rw [e, e2] at h1
    have := parts_len hok hf
    have := tail_len hm
    refine scan_of h1.2 ?_ (by rw [ht, List.length_append]; omega)
      (by rw [List.length_append]; cases mer <;> simp [merFields] <;> omega)
    obtain ⟨P, r, rfl⟩ := List.exists_cons_of_ne_nil hne
    obtain ⟨e, -, -, k2, -⟩ := part_letters hok.1
    rw [ht]
    intro hc
    have := (List.append_eq_nil_iff.1 hc).1
    simp [labelClock, ClockPart.bytes, k2] at this
  have hrun := timeOnly_labelClock (p := p) (order := order) mer hok
  have herr : ∀ e s, decodeTimeOnly p plainLook order (labelClockFields parts ++ merFields mer) ({}, ()) = (.err e, s) →
      (Time.tryFromStr p u cs text (-1) order).IsErr := by
    rintro e ⟨d, w'⟩ hrun
    rw [time_run p u hcs (-1) order hs hrun]; exact ⟨_, rfl⟩
  have hb := labelUs_bounds hok
  by_cases hv : ∀ P ∈ parts, NumOk P.digits
  · rw [if_pos hv] at hrun
    cases hk : hourOf mer (clockNumber .hour parts) with
    | none =>
      rw [hk] at hrun
      obtain ⟨e, s, hrun⟩ := hrun
      exact herr _ _ hrun
    | some k =>
      rw [hk] at hrun
      obtain ⟨d, e1, e2, e3, e4, hrun⟩ := hrun
      simp only
      rw [time_run p u hcs (-1) order hs hrun]
      have hbad := badTimeOnly_iff e1 e2 e3 e4
      by_cases hci : ClockInput k (clockNumber .minute parts) (clockNumber .second parts) (labelUs parts)
      · obtain ⟨c1, c2, c3, c4⟩ := id hci
        rw [if_pos hci, if_neg]
        · rw [Res.bind_ok, e4, time_fromPgtime p (h := k) (m := clockNumber .minute parts)
            (s := clockNumber .second parts) e1 e2 e3 (by omega) (by omega) (by omega) hb]
          rfl
        · rw [hbad]
          rw [imp_iff_not_or] at c4
          omega
      · rw [if_neg hci, if_pos]
        · exact ⟨_, rfl⟩
        · rw [hbad]
          by_contra hcon
          apply hci
          unfold ClockInput
          rw [imp_iff_not_or]
          omega
  · rw [if_neg hv] at hrun
    obtain ⟨e, s, hrun⟩ := hrun
    have hE := herr _ _ hrun
    cases hk : hourOf mer (clockNumber .hour parts) with
    | none => exact hE
    | some k =>
      simp only
      rw [if_neg]
      · exact hE
      · rintro ⟨c1, c2, c3, -⟩
        apply hv
        apply partsOk_num hok
        intro l
        cases l with
        | hour =>
          cases mer with
          | none => simp only [hourOf, Option.some.injEq] at hk; omega
          | some pm => have := hour24_in hk; omega
        | minute => omega
        | second => omega

end
end Pg
