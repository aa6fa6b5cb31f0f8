import Verif.Lemmas.ConcatText
import Verif.Lemmas.IntervalRead

/-!
# `ago` at the end of an interval text

What the decoder does after its loop, in a debug build, and the fields of a text followed by `ago`.
-/

namespace Pg
open Spec
variable {u : TokenField}

def Interval.opposite (a : Interval) : Interval := ⟨-a.month, -a.day, -a.time⟩

theorem negate_debug (t : TmF) : Post (negateAll .debug) (fun _ t' => t'.value = t.value.opposite) t := by
  unfold negateAll
  rw [Post.bind, Post.get]
  simp only [Post.bind, Post.lift, Post.mod]
  intro a ha b hb c hc d hd e he f hf g hg
  have := chk64_exact ha
  have := chk32_exact hb
  have := chk32_exact hc
  have := chk32_exact hd
  have := chk32_exact he
  have := chk32_exact hf
  have := chk32_exact hg
  subst a b c d e f g
  unfold TmF.value Interval.opposite
  simp only [Interval.mk.injEq]
  refine ⟨?_, ?_, ?_⟩ <;> (try dsimp only) <;> omega

/-- What is done to the numbers after the loop, but for `ago`. -/
def closing (p : Profile) (style : IntervalStyle) (l : List Field) : St TmF Unit := do
  carryFsec p
  sqlSign style l

/-- An accepted text: the loop of the decoder and what comes after it. -/
theorem interval_decode {c : Caches} (hc : c.Ok) {x : Bytes} (hP : x.head? ≠ some 80) {style : IntervalStyle} {v : Interval}
    (h : Interval.tryFromStr .debug u c x (-1) style = .ok v) : ∃ l d t, scan u x = .ok l ∧
      intervalLoop .debug plainLook (parseRange (-1)) l 0 ({}, ()) = (.ok (), (d, ())) ∧ d.dType = .delta ∧ In32 v.month ∧
      closing .debug style l d.t = (.ok (), t) ∧ v = if d.before then t.value.opposite else t.value := by
  cases hs : scan u x with
  | panic => rw [interval_noScan hc (-1) style (Or.inl ⟨hs, rfl⟩)] at h; cases h
  | err e => rw [interval_noScan hc (-1) style (Or.inr ⟨e, hs, rfl⟩)] at h; cases h
  | ok l =>
    rcases hr : St.orElse (decodeInterval .debug plainLook (parseRange (-1)) style l) (noLook (decodeIsoInterval .debug x)) ({}, ()) with ⟨r, d, w⟩
    rw [interval_run .debug u hc (-1) style hs hr] at h
    obtain ⟨w', rfl, h⟩ := Res.bind_eq_ok.1 h
    have hdec : decodeInterval .debug plainLook (parseRange (-1)) style l ({}, ()) = (.ok (), (d, ())) := by
      unfold St.orElse at hr
      rcases hd : decodeInterval .debug plainLook (parseRange (-1)) style l ({}, ()) with ⟨r, s'⟩
      rw [hd] at hr
      cases r with
      | ok a => exact hr
      | panic => cases hr
      | err e =>
        cases e with
        | invalid =>
          exfalso
          simp only at hr
          have iso : (noLook (decodeIsoInterval .debug x) : St (IvS × Unit) Unit) s' =
              (.err .invalid, ({ s'.1 with dType := .delta, t := (s'.1.t.1, 0) }, s'.2)) := by
            refine noLook_run ?_
            unfold decodeIsoInterval
            rw [St.mod_bind, if_pos (Or.inr hP)]
            rfl
          rw [iso] at hr
          cases hr
        | _ => cases hr
    unfold decodeInterval at hdec
    rw [St.bind_run] at hdec
    rcases hL : intervalLoop .debug plainLook (parseRange (-1)) l 0 ({}, ()) with ⟨r, e, w2⟩
    rw [hL] at hdec
    cases r with
    | panic => cases hdec
    | err e => cases hdec
    | ok a =>
      simp only at hdec
      have hpost : Post (noLook (do
          let s ← St.get
          if s.fMask = 0 then St.fail .invalid
          else do
            onTm (carryFsec .debug)
            onTm (sqlSign style l)
            let s ← St.get
            if s.before then onTm (negateAll .debug) else pure ()) : St (IvS × Unit) Unit)
          (fun _ d => d.1.dType = e.dType ∧ ∃ t, closing .debug style l e.t = (.ok (), t) ∧
            d.1.t.value = if e.before then t.value.opposite else t.value)
          (e, w2) := by
        rw [Post.noLook, Post.bind, Post.get, Post.ite]
        refine ⟨fun _ => Post.fail.2 trivial, fun _ => ?_⟩
        unfold onTm
        rw [Post.bind, Post.zoom]
        intro _ t1 h1
        rw [Post.bind, Post.zoom]
        intro _ t2 h2
        have h3 : closing .debug style l e.t = (.ok (), t2) := by
          unfold closing
          rw [St.bind_run, h1]
          exact h2
        rw [Post.bind, Post.get, Post.ite]
        refine ⟨fun hb => ?_, fun hb => ?_⟩
        · rw [Post.zoom]
          refine (negate_debug t2).mono fun _ t3 h4 => ⟨rfl, t2, h3, ?_⟩
          dsimp only at hb
          rw [hb]
          exact h4
        · refine Post.pure.2 ⟨rfl, t2, h3, ?_⟩
          dsimp only at hb
          rw [if_neg hb]
      obtain ⟨hd, t, ht, hv⟩ := hpost _ _ hdec
      obtain ⟨h1, h2, h3⟩ := ofDec_debug h
      exact ⟨l, e, t, rfl, by rw [hL], hd ▸ h1, h3, ht, h2.trans hv⟩

theorem sqlSign_last {style : IntervalStyle} {l : List Field} (hl : l ≠ []) {f : Field} (hf : hasSign f.2 = false) :
    sqlSign style (l ++ [f]) = sqlSign style l := by
  cases l with
  | nil => exact absurd rfl hl
  | cons g gs =>
    unfold sqlSign
    simp only [List.cons_append, List.any_append, List.any_cons, hf, List.any_nil, Bool.or_false]

/-- The word `ago`, at the end. -/
theorem ago_field (p : Profile) (range i : Nat) :
    intervalLoop p plainLook range [(.string, b!"ago")] i ({}, ()) = (.ok (), ({ before := true, ty := 0 }, ())) := by
  have h : searchDelta b!"ago" = .ok (some ⟨b!"ago", .ago, 0⟩) := by decide +kernel
  exact (IvRuns.nil.cons (step_ago h rfl)) i

/-- Two records that agree in the fields that count, before and after the end of the decoding. -/
theorem closing_two (style : IntervalStyle) (l : List Field) {s t : TmF} (h : ShT ({}, 0) s t) :
    Two (closing .debug style l) (closing .debug style l) (fun _ s' _ t' => ShT ({}, 0) s' t') s t := by
  unfold closing
  refine Two.bind (R := fun _ s' _ t' => ShT ({}, 0) s' t') ?_ fun _ s' _ t' h => ?_
  · unfold carryFsec
    refine .getBind ?_
    obtain ⟨h1, h2, h3, h4, h5, h6, h7⟩ := h
    have e : t.2 = s.2 := by simpa using h7
    rw [e]
    split
    · refine .modBind (addSec_two ?_)
      constructor <;> first | assumption | simp [e]
    · exact .pure ⟨h1, h2, h3, h4, h5, h6, h7⟩
  · unfold sqlSign
    have hf : ShT ({}, 0) (forceNegative s') (forceNegative t') := by
      obtain ⟨h1, h2, h3, h4, h5, h6, h7⟩ := h
      simp only [add_zero] at h1 h2 h3 h4 h5 h6 h7
      constructor <;> simp only [forceNegative, add_zero] <;> first | rw [h1] | rw [h2] | rw [h3] | rw [h4] | rw [h5] | rw [h6] | rw [h7]
    cases l with
    | nil => exact fun _ _ h => by cases h
    | cons f fs =>
      simp only
      split
      · split
        · exact fun _ _ h => by cases h
        · split
          · exact .mod hf
          · exact .pure h
      · exact .pure h

end Pg
