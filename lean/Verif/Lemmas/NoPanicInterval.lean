import Verif.Lemmas.NoPanic

/-! # Absence of panics in a release build: intervals -/

namespace Pg

theorem adjustFractSeconds_calm (f : F64) (n : Int) : Calm (adjustFractSeconds .release f n) := by
  unfold adjustFractSeconds; quietly
theorem adjustFractDays_calm (f : F64) (n : Int) : Calm (adjustFractDays .release f n) := by
  have := adjustFractSeconds_calm
  unfold adjustFractDays; quietly
  exact this _ _
theorem addFsec_calm (x : Int) : Calm (addFsec .release x) := by unfold addFsec; quietly
theorem addSec_calm (x : Int) : Calm (addSec .release x) := by unfold addSec; quietly
theorem addMin_calm (x : Int) : Calm (addMin .release x) := by unfold addMin; quietly
theorem addHour_calm (x : Int) : Calm (addHour .release x) := by unfold addHour; quietly
theorem addMday_calm (x : Int) : Calm (addMday .release x) := by unfold addMday; quietly
theorem addMon_calm (x : Int) : Calm (addMon .release x) := by unfold addMon; quietly
theorem addYear_calm (x : Int) : Calm (addYear .release x) := by unfold addYear; quietly

/-- Like `quietly`, for the functions that add to fields of an interval. -/
macro "addly" : tactic => `(tactic| repeat' first
  | with_reducible exact adjustFractSeconds_calm _ _
  | with_reducible exact adjustFractDays_calm _ _
  | with_reducible exact addFsec_calm _
  | with_reducible exact addSec_calm _
  | with_reducible exact addMin_calm _
  | with_reducible exact addHour_calm _
  | with_reducible exact addMday_calm _
  | with_reducible exact addMon_calm _
  | with_reducible exact addYear_calm _
  | with_reducible exact Keeps.pure _
  | with_reducible exact Keeps.fail _
  | with_reducible exact Keeps.get
  | with_reducible exact Keeps.mod (fun _ _ => trivial)
  | with_reducible exact Keeps.lift (chk32_release _)
  | with_reducible exact Keeps.lift (chk64_release _)
  | with_reducible assumption
  | with_reducible refine Keeps.bind ?_ (fun _ => ?_)
  | with_reducible refine Keeps.calm_zoom ?_
  | split
  | dsimp only)

theorem scaleYears_release (a b : Int) : scaleYears .release a b ≠ .panic := by unfold scaleYears; calmly

theorem addYears_calm (v : Int) (f : F64) (n : Int) : Calm (addYears .release v f n) := by
  have := fun a b => Keeps.lift (σ := TmF) (I := fun _ => True) (scaleYears_release a b)
  unfold addYears
  refine Keeps.bind (this _ _) fun _ => Keeps.bind (addYear_calm _) fun _ => ?_
  addly

theorem addUnit_calm (t : TokenField) (v : Int) (f : F64) : Calm (addUnit .release t v f) := by
  have := addYears_calm
  unfold addUnit
  split
  all_goals first
    | (with_reducible exact Keeps.bind (this _ _ _) fun _ => Keeps.pure _)
    | addly

theorem signMonths_release (b : Bool) (v : Int) : signMonths .release b v ≠ .panic := by unfold signMonths; calmly

theorem yearMonth_release (b : Bool) (v : Int) (s : Bytes) : yearMonth .release b v s ≠ .panic := by
  unfold yearMonth
  refine Res.safe_bind (str2i32_safe _) fun _ => ?_
  have := signMonths_release
  split
  split
  · exact Res.safe_err _
  · split
    · exact Res.safe_err _
    · refine Res.safe_bind (this _ _) fun _ => ?_
      calmly

theorem numberParts_release (s : Bytes) : numberParts .release s ≠ .panic := by
  unfold numberParts
  refine Res.safe_bind (str2i32_safe _) fun a => ?_
  obtain ⟨v, r⟩ := a
  simp only
  split
  · exact Res.safe_ok _
  · split
    · exact Res.safe_bind (yearMonth_release _ _ _) fun _ => Res.safe_ok _
    · split
      · refine Res.safe_bind (str2d_safe _) fun _ => ?_
        calmly
      · exact Res.safe_err _

/-- The type of the unit in force is a known one. -/
def TyOk (s : IvS) : Prop := 0 ≤ s.ty ∧ s.ty ≤ 37

theorem value_known (t : TokenField) : 0 ≤ t.value ∧ t.value ≤ 37 := by cases t <;> decide

theorem onTm_keep {α : Type} {m : St TmF α} (h : Calm m) : Keeps TyOk (onTm m) :=
  Keeps.zoom h (fun _ _ => trivial) fun _ _ h _ => h

theorem onTimeI_keep {α : Type} {m : St TimeS α} (h : Calm m) : Keeps TyOk (onTimeI m) :=
  Keeps.zoom h (fun _ _ => trivial) fun _ _ h _ => h

theorem intervalNumber_keep (f : Bytes) (r : Nat) : Keeps TyOk (intervalNumber .release f r) := by
  unfold intervalNumber
  refine Keeps.bind (Keeps.mod fun s hs => ?_) fun _ =>
    Keeps.bind (Keeps.lift (numberParts_release _)) fun a => ?_
  · split
    · exact value_known _
    · exact hs
  · obtain ⟨v, fv, m⟩ := a
    simp only
    refine Keeps.bind (Keeps.mod fun s hs => ?_) fun _ => Keeps.get_bind fun s hs =>
      Keeps.bind (Keeps.lift (ofInt_safe hs)) fun _ => Keeps.bind (onTm_keep (addUnit_calm _ _ _)) fun _ =>
      Keeps.mod fun s hs => ?_
    · unfold TyOk
      simp only
      split
      · exact value_known _
      · exact hs
    · unfold TyOk
      simp only
      split
      · exact value_known _
      · exact hs

theorem flipTime_calm : Calm (flipTime .release) := by unfold flipTime; addly

theorem setDay_keep : Keeps TyOk (St.mod fun s : IvS => { s with ty := TokenField.day.value }) :=
  Keeps.mod fun _ _ => value_known .day

theorem intervalSigned_keep (f : Bytes) (r : Nat) : Keeps TyOk (intervalSigned .release f r) := by
  unfold intervalSigned
  by_cases ha : f.any (fun b => b = 58) = true
  · rw [if_pos ha]
    refine Keeps.bind (onTimeI_keep (decodeTime_calm _ _)) fun _ => ?_
    by_cases hc : f.head? = some 45
    · rw [if_pos hc]
      refine Keeps.bind (onTm_keep flipTime_calm) fun _ => Keeps.mod fun _ _ => value_known .day
    · rw [if_neg hc]
      exact Keeps.mod fun _ _ => value_known .day
  · rw [if_neg ha]
    exact intervalNumber_keep _ _

theorem intervalWord_keep {ty : TokenType} {v : Int} (hk : KnownWord (ty, v)) : Keeps TyOk (intervalWord ty v) := by
  unfold intervalWord
  refine Keeps.bind (Keeps.mod fun s hs => hs) fun _ => ?_
  split
  · exact Keeps.mod fun s hs => hk (.inr (.inl rfl))
  · exact Keeps.mod fun s hs => hk (.inr (.inr (.inr rfl)))
  · exact Keeps.bind (Keeps.mod fun s hs => hs) fun _ =>
      Keeps.bind (Keeps.lift (ofInt_safe (hk (.inl rfl)))) fun _ => Keeps.mod fun s hs => hs
  · exact Keeps.fail _

theorem addMaskI_keep : Keeps TyOk addMaskI := by
  unfold addMaskI
  refine Keeps.bind Keeps.get fun _ => ?_
  split
  · exact Keeps.fail _
  · exact Keeps.mod fun s hs => hs

theorem intervalField_keep (r i : Nat) (f : Field) :
    Keeps (fun s : IvS × Unit => TyOk s.1) (intervalField .release plainLook r i f) := by
  have hw : Keeps (fun s : IvS × Unit => TyOk s.1) (do
      let (ty, val) ← lookDelta plainLook i f.2
      if ty = .ignoreDtf then pure ()
      else noLook (do intervalWord ty val; addMaskI) : St (IvS × Unit) Unit) := by
    refine Keeps.bind_post KnownWord (lookDelta_keeps (I := TyOk) _ _) (fun s a s' _ h => lookDelta_known h)
      fun a ha => ?_
    obtain ⟨ty, v⟩ := a
    simp only
    split
    · exact Keeps.pure _
    · exact Keeps.noLook (Keeps.bind (intervalWord_keep ha) fun _ => addMaskI_keep)
  unfold intervalField
  split
  · exact Keeps.noLook (Keeps.bind (onTimeI_keep (decodeTime_calm _ _)) fun _ =>
      Keeps.bind setDay_keep fun _ => addMaskI_keep)
  · exact Keeps.noLook (Keeps.bind (intervalSigned_keep _ _) fun _ => addMaskI_keep)
  · exact Keeps.noLook (Keeps.bind (intervalNumber_keep _ _) fun _ => addMaskI_keep)
  · exact Keeps.noLook (Keeps.bind (intervalNumber_keep _ _) fun _ => addMaskI_keep)
  · exact hw
  · exact hw
  · exact Keeps.fail _

theorem intervalLoop_keep (r : Nat) (fs : List Field) (i : Nat) :
    Keeps (fun s : IvS × Unit => TyOk s.1) (intervalLoop .release plainLook r fs i) := by
  induction fs generalizing i with
  | nil => exact Keeps.pure _
  | cons f fs ih =>
    unfold intervalLoop
    exact Keeps.bind (ih _) fun _ => intervalField_keep _ _ _

theorem carryFsec_calm : Calm (carryFsec .release) := by
  unfold carryFsec
  addly

theorem negateAll_calm : Calm (negateAll .release) := by
  unfold negateAll
  addly

theorem sqlSign_calm {style : IntervalStyle} {fs : List Field} (h1 : fs ≠ []) (h2 : ∀ f ∈ fs, f.2 ≠ []) :
    Calm (sqlSign style fs) := by
  unfold sqlSign
  split
  · exact absurd rfl h1
  · rename_i f fs
    split
    · split
      · rename_i hf
        exact absurd hf (h2 f (List.mem_cons_self ..))
      · quietly
    · quietly

theorem decodeInterval_keep {r : Nat} {style : IntervalStyle} {fs : List Field}
    (h2 : ∀ f ∈ fs, f.2 ≠ []) : (decodeInterval .release plainLook r style fs ({}, ())).1 ≠ .panic := by
  cases fs with
  | nil => intro h; cases h
  | cons f fs =>
    suffices Keeps (fun s : IvS × Unit => TyOk s.1) (decodeInterval .release plainLook r style (f :: fs)) by
      exact (this ({}, ()) (by constructor <;> decide)).1
    unfold decodeInterval
    refine Keeps.bind (intervalLoop_keep _ _ _) fun _ => Keeps.noLook (Keeps.bind Keeps.get fun _ => ?_)
    split
    · exact Keeps.fail _
    · refine Keeps.bind (onTm_keep carryFsec_calm) fun _ =>
        Keeps.bind (onTm_keep (sqlSign_calm (List.cons_ne_nil _ _) h2)) fun _ => Keeps.bind Keeps.get fun _ => ?_
      split
      · exact onTm_keep negateAll_calm
      · exact Keeps.pure _

theorem parseIsoNumber_safe (s : Bytes) : parseIsoNumber s ≠ .panic := by
  unfold parseIsoNumber
  split
  · exact Res.safe_err _
  · split
    · exact Res.safe_err _
    · refine Res.safe_bind (str2d_safe _) fun _ => ?_
      unfold isoSplit
      calmly

/-- Like `addly`, for the ISO 8601 decoder. -/
macro "isoly" : tactic => `(tactic| repeat' first
  | with_reducible exact adjustFractSeconds_calm _ _
  | with_reducible exact adjustFractDays_calm _ _
  | with_reducible exact addFsec_calm _
  | with_reducible exact addSec_calm _
  | with_reducible exact addMin_calm _
  | with_reducible exact addHour_calm _
  | with_reducible exact addMday_calm _
  | with_reducible exact addMon_calm _
  | with_reducible exact addYear_calm _
  | with_reducible exact Keeps.pure _
  | with_reducible exact Keeps.fail _
  | with_reducible exact Keeps.get
  | with_reducible exact Keeps.mod (fun _ _ => trivial)
  | with_reducible exact Keeps.lift (chk32_release _)
  | with_reducible exact Keeps.lift (chk64_release _)
  | with_reducible exact Keeps.lift (parseIsoNumber_safe _)
  | with_reducible assumption
  | with_reducible refine Keeps.bind ?_ (fun _ => ?_)
  | with_reducible refine Keeps.calm_zoom ?_
  | split
  | dsimp only)

theorem isoTimePart_calm : Calm isoTimePart := Keeps.mod fun _ _ => trivial
theorem onTmIso_calm {α : Type} {m : St TmF α} (h : Calm m) : Calm (onTmIso m) := Keeps.calm_zoom h
theorem addYearFrac_calm (f : F64) : Calm (addYearFrac .release f) := addMon_calm _

theorem isoDateLeft_calm (s : Bytes) (u : Nat) (v : Int) (f : F64) : Calm (isoDateLeft .release s u v f) := by
  have h0 := isoTimePart_calm
  have h1 : ∀ s, Calm (isoDatePart3 .release s) := by
    intro s; unfold isoDatePart3 onTmIso; isoly
  have h2 : ∀ s, Calm (isoDatePart2 .release s) := by
    intro s; unfold isoDatePart2 onTmIso; isoly
    all_goals exact h1 _
  unfold isoDateLeft onTmIso addYearFrac; isoly
  all_goals exact h2 _

theorem isoTimeLeft_calm (s : Bytes) (u : Nat) (v : Int) (f : F64) : Calm (isoTimeLeft .release s u v f) := by
  have h1 : ∀ s, Calm (isoTimePart3 .release s) := by
    intro s; unfold isoTimePart3 onTmIso; isoly
  have h2 : ∀ s, Calm (isoTimePart2 .release s) := by
    intro s; unfold isoTimePart2 onTmIso; isoly
    all_goals exact h1 _
  unfold isoTimeLeft onTmIso; isoly
  all_goals exact h2 _

theorem isoNumber_calm (st s : Bytes) (u : Nat) (v : Int) (f : F64) : Calm (isoNumber .release st s u v f) := by
  have h0 := isoTimePart_calm
  have h1 := isoDateLeft_calm
  have h2 := isoTimeLeft_calm
  have h3 : Calm (isoDate .release st s u v f) := by
    unfold isoDate onTmIso addYearFrac; isoly
    all_goals exact h1 _ _ _ _
  have h4 : Calm (isoTime .release st s u v f) := by
    unfold isoTime onTmIso; isoly
    all_goals exact h2 _ _ _ _
  unfold isoNumber
  quietly

theorem isoLoop_calm (fuel : Nat) (s : Bytes) : Calm (isoLoop .release fuel s) := by
  induction fuel generalizing s with
  | zero => exact Keeps.pure _
  | succ n ih =>
    unfold isoLoop
    split
    · exact Keeps.pure _
    · split
      · exact Keeps.bind isoTimePart_calm fun _ => ih _
      · refine Keeps.bind (Keeps.lift (parseIsoNumber_safe _)) fun a => ?_
        obtain ⟨v, f, r⟩ := a
        refine Keeps.bind (isoNumber_calm _ _ _ _ _) fun st => ?_
        cases st with
        | done => exact Keeps.pure _
        | again r => exact ih _
        | field r => exact Keeps.bind (Keeps.mod fun _ _ => trivial) fun _ => ih _

theorem decodeIsoInterval_calm (s : Bytes) : Calm (decodeIsoInterval .release s) := by
  unfold decodeIsoInterval
  refine Keeps.bind (Keeps.mod fun _ _ => trivial) fun _ => ?_
  split
  · exact Keeps.fail _
  · exact Keeps.calm_zoom (isoLoop_calm _ _)

theorem ivOfDec_release (s : IvS) (n : Int) : Interval.ofDec .release s n ≠ .panic := by
  unfold Interval.ofDec
  split
  · refine Res.safe_bind ?_ fun _ => ivAdjust_release _ _
    unfold Interval.fromPgtime
    calmly
  · exact Res.safe_err _

end Pg
