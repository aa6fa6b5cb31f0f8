import Verif.Lemmas.DebugIso

/-!
# C44: parsing intervals does not panic in debug builds

In a debug build an overflow panics. Intervals whose numbers have at most six digits cannot overflow.
-/

namespace Pg
open Spec F64

variable {p : Profile}

theorem ite_ok {α : Type} {c : Prop} [Decidable c] {x y : Res α} {b : α} (h : (if c then x else y) = .ok b) : x = .ok b ∨ y = .ok b := by
  by_cases hc : c
  · exact .inl (by rwa [if_pos hc] at h)
  · exact .inr (by rwa [if_neg hc] at h)

theorem adjustRange_bound {a b : Interval} {B : Int} (h0 : -B ≤ a.time ∧ a.time ≤ B) {range : Nat} (h : Interval.adjustRange a range = .ok b) :
    -B ≤ b.time ∧ b.time ≤ B := by
  have h1 := tdiv_or a.time 3600000000
  have h2 := tdiv_or a.time 60000000
  unfold Interval.adjustRange at h
  iterate 12 (rcases ite_ok h with h | h; · (injection h with h; subst h; first | exact h0 | (dsimp only; omega)))
  cases h

/-- The interval of bounded fields. -/
theorem ofDec_safe {s : IvS} (h : IsoLim 128 s.t) (typmod : Int) : Interval.ofDec p s typmod ≠ .panic := by
  obtain ⟨a, b, c, d, e, g, i⟩ := h
  unfold Interval.ofDec
  split
  · refine Res.safe_bind_post ?_ fun r hr => ?_
    · unfold Interval.fromPgtime
      dsimp only
      split
      · exact Res.safe_err _
      · simp (disch := omega) only [chk32_ok, chk64_ok, Res.bind_ok]
        exact Res.safe_ok _
    · have hb : -9000000000000000000 ≤ r.time ∧ r.time ≤ 9000000000000000000 := by
        unfold Interval.fromPgtime at hr
        dsimp only at hr
        split at hr
        · cases hr
        · simp (disch := omega) only [chk32_ok, chk64_ok, Res.bind_ok] at hr
          cases hr
          dsimp only
          omega
      unfold Interval.adjustByTypmod
      split
      · refine Res.safe_bind_post ?_ fun r' hr' => ?_
        · unfold Interval.adjustRange; calmly
        · have := adjustRange_bound hb hr'
          split
          · split
            · exact Res.safe_err _
            · exact Res.safe_bind (roundTo_safe p (by omega) (by omega)) fun _ => Res.safe_pure _
          · exact Res.safe_pure _
      · exact Res.safe_ok _
  · exact Res.safe_err _

end Pg

namespace Props
open Pg Spec

/-- C44 for intervals, in debug builds as well: no text of at most 128 bytes makes `Interval::try_from_str` panic if no
number in it has more than six digits. Missing: longer texts (`C44_long_violated`) and longer numbers, for which it is
false (`C44_interval_violated`). -/
theorem C44_interval_debug_partial (p : Profile) (u : TokenField) (c : Caches) (hc : c.Ok) (s : Bytes) (typmod : Int)
    (style : IntervalStyle) (h : s.length ≤ 128) (hn : ShortNumbers 6 s) : Interval.tryFromStr p u c s typmod style ≠ .panic := by
  unfold Interval.tryFromStr
  rw [(same_interval p u typmod style s c hc).1]
  unfold Interval.tryFromStrW
  have hs := short_text hn
  refine St.safe_scan (C43_fields_partial u s h).1 fun l hl => ?_
  obtain ⟨h25, hne, -⟩ := (C43_fields_partial u s h).2 l hl
  have hg : Goes anyEnd (St.orElse (decodeInterval p plainLook (parseRange typmod) style l) (noLook (decodeIsoInterval p s)))
      (fun _ s => IsoLim 128 s.1.t) ({}, ()) := by
    have h1 := decodeInterval_goes (p := p) (range := parseRange typmod) (style := style) h25 hne (scan_short hs hl)
    unfold Goes St.orElse
    unfold Goes at h1
    cases hm : decodeInterval p plainLook (parseRange typmod) style l ({}, ()) with
    | mk r s' =>
      rw [hm] at h1
      cases r with
      | ok a => exact h1
      | err e =>
        cases e with
        | invalid => exact Goes.noLook.2 (decodeIso_goes h hs h1)
        | _ => trivial
      | panic => exact h1.elim
  refine St.safe_bind_post (runLocal_safe hg.safe) fun a s' e => ?_
  have e := runLocal_ok e
  unfold Goes at hg
  rw [e] at hg
  exact ofDec_safe hg typmod

theorem shortNumbers_of {s : Bytes} (h : ∀ i < s.length, ¬ (((s.drop i).take 7).length = 7 ∧ ∀ b ∈ (s.drop i).take 7, Figure b)) : ShortNumbers 6 s := by
  rintro w ⟨a, c, rfl, h1, h2, -⟩
  by_contra hw
  have := List.length_pos_iff.2 h1
  refine h a.length (by simp; omega) ?_
  rw [List.drop_left, List.take_append_of_le_length (by omega)]
  exact ⟨by rw [List.length_take]; omega, fun b hb => h2 b (List.mem_of_mem_take hb)⟩

/-- Long numbers of long units, fractions, a clock time and `ago`; the designators of ISO 8601; a text that is no interval. -/
example : ShortNumbers 6 b!"-999999 years 999999 mons 3.5 days 100000:59:59.999999 ago" ∧ ShortNumbers 6 b!"P999999Y123456M12.5W999999DT999999H" ∧
    ShortNumbers 6 b!"999999 millennia 999999 millennia" := by
  refine ⟨shortNumbers_of ?_, shortNumbers_of ?_, shortNumbers_of ?_⟩ <;> unfold Figure <;> decide +kernel

/-- The text shown to make a debug build panic does not meet the condition. -/
example : ¬ ShortNumbers 6 b!"2147483647 hours" := by
  intro h
  exact absurd (h b!"2147483647" ⟨[], b!" hours", rfl, by decide, by unfold Figure; decide, by rintro l ⟨⟩, by rintro l ⟨⟩; unfold Figure; decide⟩) (by decide)

/-- **C44 is violated (debug, intervals) by seven digits:** so six digits are the most `C44_interval_debug_partial` can allow. A
release build returns an interval of the wrong sign. -/
theorem C44_millennia_violated (u : TokenField) (c : Caches) (hc : c.Ok) (style : IntervalStyle) :
    Interval.tryFromStr .debug u c b!"4294967 millennia" (-1) style = .panic ∧
    Interval.tryFromStr .release u c b!"4294967 millennia" (-1) style = .ok ⟨-3552, 0, 0⟩ := by
  have hs : scan u b!"4294967 millennia" = .ok [(.number, b!"4294967"), (.string, b!"millennia")] := by
    cases u <;> decide +kernel
  have hd : ∃ d, St.orElse (decodeInterval .debug plainLook (parseRange (-1)) style
      [(.number, b!"4294967"), (.string, b!"millennia")]) (noLook (decodeIsoInterval .debug b!"4294967 millennia")) ({}, ()) = (.panic, (d, ())) :=
    ⟨_, Prod.ext (by cases style <;> decide +kernel) rfl⟩
  have hr : St.orElse (decodeInterval .release plainLook (parseRange (-1)) style
      [(.number, b!"4294967"), (.string, b!"millennia")]) (noLook (decodeIsoInterval .release b!"4294967 millennia"))
      ({}, ()) = (.ok (), ({ t := ({ year := -296 }, 0), fMask := 134217728, tMask := 134217728, ty := 28 }, ())) := by
    cases style <;> decide +kernel
  constructor
  · obtain ⟨d, hd⟩ := hd
    rw [interval_run .debug u hc (-1) style hs (r := .panic) (w := ()) hd]; rfl
  · rw [interval_run .release u hc (-1) style hs (r := .ok ()) (w := ()) hr]; decide +kernel

end Props
