import Verif.Lemmas.ParseRun
import Verif.Lemmas.ScanText
import Verif.Lemmas.ClockParse
import Verif.Lemmas.Format

/-! # Decoding the fields of an interval -/

namespace Pg
open Spec

/-- The decoder, applied to the fields `l` (last first), goes from state `s` to `s'`. -/
def IvRuns (p : Profile) (range : Nat) (l : List Field) (s s' : IvS) : Prop :=
  ∀ i, intervalLoop p plainLook range l i (s, ()) = (.ok (), (s', ()))

/-- One field. -/
def IvStep (p : Profile) (range : Nat) (f : Field) (s s' : IvS) : Prop :=
  ∀ i, intervalField p plainLook range i f (s, ()) = (.ok (), (s', ()))

variable {p : Profile} {range : Nat} {s s' s'' : IvS}

theorem IvRuns.nil : IvRuns p range [] s s := fun _ => rfl

theorem IvRuns.cons {f : Field} {l : List Field} (h : IvRuns p range l s s') (hf : IvStep p range f s' s'') :
    IvRuns p range (f :: l) s s'' := by
  intro i
  rw [intervalLoop, St.bind_ok (h (i + 1))]
  exact hf i

theorem lookDelta_ok {w : Bytes} {e : DateToken} (hs : searchDelta w = .ok (some e)) (i : Nat) (s : IvS) :
    lookDelta plainLook i w (s, ()) = (.ok (e.ty, e.value), (s, ())) := by
  simp only [lookDelta, plainLook, hs]; rfl

/-- A unit. -/
theorem step_unit {w : Bytes} {e : DateToken} (hs : searchDelta w = .ok (some e)) (ht : e.ty = .units) :
    IvStep p range (.string, w) s { s with tMask := 0, ty := e.value } := by
  intro i
  simp only [intervalField]
  rw [St.bind_ok (lookDelta_ok hs i s)]
  simp only [ht]
  rw [if_neg (by decide)]
  refine noLook_run ?_
  rw [St.bind_ok (a := ()) (s' := { s with tMask := 0, ty := e.value }) (by rfl)]
  unfold addMaskI
  rw [St.get_bind, St.ite_run, if_neg (by simp), St.mod_run]
  simp

/-- `ago`. -/
theorem step_ago {w : Bytes} {e : DateToken} (hs : searchDelta w = .ok (some e)) (ht : e.ty = .ago) :
    IvStep p range (.string, w) s { s with tMask := 0, before := true, ty := e.value } := by
  intro i
  simp only [intervalField]
  rw [St.bind_ok (lookDelta_ok hs i s)]
  simp only [ht]
  rw [if_neg (by decide)]
  refine noLook_run ?_
  rw [St.bind_ok (a := ()) (s' := { s with tMask := 0, before := true, ty := e.value }) (by rfl)]
  unfold addMaskI
  rw [St.get_bind, St.ite_run, if_neg (by simp), St.mod_run]
  simp

/-- The mask of the unit of `s` is added. -/
theorem addMaskI_ok {s : IvS} (h : s.tMask &&& s.fMask = 0) :
    addMaskI s = (.ok (), { s with fMask := s.fMask ||| s.tMask }) := by
  unfold addMaskI
  rw [St.get_bind, St.ite_run, if_neg (by simpa using h), St.mod_run]

/-- A call on the clock and calendar fields. -/
theorem onTm_run {α : Type} {m : St TmF α} {s : IvS} {r : Res α} {t : TmF} (h : m s.t = (r, t)) :
    onTm m s = (r, { s with t := t }) := St.zoom_run (proj := IvS.t) h

/-- What a number with unit does to the fields. -/
theorem intervalNumber_ok {field : Bytes} {v : Int} {f : F64} {months : Bool} {s : IvS} {u : TokenField}
    {t : TmF} {m : Nat} (hp : numberParts p field = .ok (v, f, months))
    (hu : TokenField.ofInt (if months then TokenField.month.value else
      if s.ty = 8 then (rangeUnit range).value else s.ty) = .ok u)
    (ha : addUnit p u v f s.t = (.ok m, t)) :
    ∃ ty, intervalNumber p field range s = (.ok (), { s with t := t, fVal := f, tMask := m, ty := ty }) := by
  refine ⟨if u = .hour then TokenField.day.value else if months then TokenField.month.value else
      if s.ty = 8 then (rangeUnit range).value else s.ty, ?_⟩
  unfold intervalNumber
  rw [St.mod_bind, hp, St.lift_ok_bind]
  simp only
  rw [St.mod_bind, St.get_bind]
  by_cases hs : s.ty = 8
  · rw [if_pos hs] at hu ⊢
    simp only
    rw [hu, St.lift_ok_bind]
    refine Eq.trans (St.bind_ok (onTm_run (t := t) (r := .ok m) ?_)) ?_
    · exact ha
    · rw [St.mod_run]; simp only [if_pos hs]
  · rw [if_neg hs] at hu ⊢
    simp only
    rw [hu, St.lift_ok_bind]
    refine Eq.trans (St.bind_ok (onTm_run (t := t) (r := .ok m) ?_)) ?_
    · exact ha
    · rw [St.mod_run]; simp only [if_neg hs]

/-- No colon. -/
def NoColon (b : Bytes) : Prop := (b.any fun x => x = 58) = false

/-- A number with its unit. -/
theorem step_number {k : TokenField} {field : Bytes} {v : Int} {f : F64} {months : Bool} {u : TokenField}
    {t : TmF} {m : Nat} (hk : k = .number ∨ k = .date ∨ k = .tz ∧ NoColon field)
    (hp : numberParts p field = .ok (v, f, months))
    (hu : TokenField.ofInt (if months then TokenField.month.value else
      if s.ty = 8 then (rangeUnit range).value else s.ty) = .ok u)
    (ha : addUnit p u v f s.t = (.ok m, t)) (hm : m &&& s.fMask = 0) :
    ∃ ty, IvStep p range (k, field) s
      { s with t := t, fVal := f, tMask := m, ty := ty, fMask := s.fMask ||| m } := by
  obtain ⟨ty, e⟩ := intervalNumber_ok hp hu ha
  refine ⟨ty, ?_⟩
  intro i
  rcases hk with rfl | rfl | ⟨rfl, hc⟩
  · exact noLook_run ((St.bind_ok e).trans (addMaskI_ok hm))
  · exact noLook_run ((St.bind_ok e).trans (addMaskI_ok hm))
  · refine noLook_run ((St.bind_ok (a := ())
      (s' := { s with t := t, fVal := f, tMask := m, ty := ty }) ?_).trans (addMaskI_ok hm))
    unfold intervalSigned
    rw [if_neg (by rw [hc]; decide)]
    exact e

/-- A clock time without sign. -/
theorem step_time {hh mm ss : Bytes} {f : Option Bytes} (h1 : Digits hh) (n1 : hh ≠ [])
    (h2 : Digits mm) (n2 : mm ≠ []) (h3 : Digits ss) (n3 : ss ≠ []) (hf : Digits (fracDigits f))
    (hr : Readable hh mm ss f) (vh : value hh ≤ 2147483647) (vm : value mm ≤ 59) (vs : value ss ≤ 60)
    (hm : DTK_TIME_M &&& s.fMask = 0) :
    IvStep p range (.time, hmsBytes hh mm ss f) s
      { s with t := ({ s.t.1 with hour := value hh, min := value mm, sec := value ss }, fracMicros f),
               tMask := DTK_TIME_M, ty := TokenField.day.value, fMask := s.fMask ||| DTK_TIME_M } := by
  intro i
  refine noLook_run ?_
  refine Eq.trans (St.bind_ok (a := ()) (St.zoom_run (decodeTime_ok h1 n1 h2 n2 h3 n3 hf hr vh vm vs range _))) ?_
  rw [St.mod_bind]
  exact addMaskI_ok hm

/-- A clock time with a sign. -/
theorem step_signed_time (neg : Bool) {hh mm ss : Bytes} {f : Option Bytes} (h1 : Digits hh) (n1 : hh ≠ [])
    (h2 : Digits mm) (n2 : mm ≠ []) (h3 : Digits ss) (n3 : ss ≠ []) (hf : Digits (fracDigits f))
    (hr : Readable hh mm ss f) (vh : value hh ≤ 2147483647) (vm : value mm ≤ 59) (vs : value ss ≤ 60)
    (hm : DTK_TIME_M &&& s.fMask = 0) :
    IvStep p range (.tz, (if neg then 45 else 43) :: hmsBytes hh mm ss f) s
      { s with t := ({ s.t.1 with hour := if neg then -(value hh : Int) else value hh,
                                  min := if neg then -(value mm : Int) else value mm,
                                  sec := if neg then -(value ss : Int) else value ss },
                     if neg then -fracMicros f else fracMicros f),
               tMask := DTK_TIME_M, ty := TokenField.day.value, fMask := s.fMask ||| DTK_TIME_M } := by
  have hb := fracMicros_bounds hf hr.2.2.2
  intro i
  refine noLook_run ?_
  have hc : (((if neg then 45 else 43) :: hmsBytes hh mm ss f).any fun b => b = 58) = true := by
    simp [hmsBytes]
  refine Eq.trans (St.bind_ok (a := ())
    (s' := { s with t := ({ s.t.1 with hour := if neg then -(value hh : Int) else value hh,
                                       min := if neg then -(value mm : Int) else value mm,
                                       sec := if neg then -(value ss : Int) else value ss },
                     if neg then -fracMicros f else fracMicros f),
                    tMask := DTK_TIME_M, ty := TokenField.day.value }) ?_) (addMaskI_ok hm)
  unfold intervalSigned
  rw [if_pos hc, List.drop_one, List.tail_cons]
  refine Eq.trans (St.bind_ok (a := ()) (St.zoom_run (decodeTime_ok h1 n1 h2 n2 h3 n3 hf hr vh vm vs range _))) ?_
  cases neg with
  | false => rfl
  | true =>
    simp only [if_true, List.head?_cons]
    refine Eq.trans (St.bind_ok (a := ()) (onTm_run (r := .ok ())
      (t := ({ s.t.1 with hour := -(value hh : Int), min := -(value mm : Int), sec := -(value ss : Int) },
        -fracMicros f)) ?_)) rfl
    unfold flipTime
    rw [St.get_bind]
    simp only
    rw [chk32_ok (by omega), St.lift_ok_bind, chk32_ok (by omega), St.lift_ok_bind,
      chk32_ok (by omega), St.lift_ok_bind, chk64_ok (by omega), St.lift_ok_bind]
    rfl

end Pg
