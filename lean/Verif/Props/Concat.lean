import Verif.Lemmas.ConcatText
import Verif.Props.NoPanicInterval
import Verif.Props.InputStyle
import Verif.Props.Builds
import Verif.Props.Special

/-!
# Property C104: interval texts one after the other add up

`1 mon 2 days` followed by `-3 hours 1 min` is the sum of the two intervals. The texts are any sequences of bytes. `c` is the state
of the thread's keyword caches, `u` the uninitialised type of a lone sign.
-/

namespace Pg
open Spec

theorem shortNumbers_short {n : Nat} {s : Bytes} (h : Short n s) : ShortNumbers n s := by
  rintro w ⟨a, c, e, -, hd, -⟩
  exact h a w c e fun b hb => (isDigit_iff b).2 (hd b hb)

/-- In a debug build. -/
theorem concat_debug {u : TokenField} {c : Caches} (hc : c.Ok) {style : IntervalStyle} (hst : style ≠ .sqlStandard) {s t : Bytes}
    {x : Nat} (hx : s.getLast? = some x) (hxa : isAlpha x = true) (hP : s.head? ≠ some 80) (hP' : t.head? ≠ some 80)
    (hago : ¬ Says [b!"ago"] s) (hago' : ¬ Says [b!"ago"] t) (hclock : 58 ∉ s ∨ 46 ∉ t) (hnum : Short 6 (s ++ 32 :: t)) {a b v : Interval}
    (ha : Interval.tryFromStr .debug u c s (-1) style = .ok a) (hb : Interval.tryFromStr .debug u c t (-1) style = .ok b)
    (hv : Interval.tryFromStr .debug u c (s ++ 32 :: t) (-1) style = .ok v) :
    v = ⟨a.month + b.month, a.day + b.day, a.time + b.time⟩ ∧ In32 v.month ∧ In32 v.day ∧ In64 v.time := by
  have hs0 : s ≠ [] := by rintro rfl; cases hx
  obtain ⟨l1, d1, e1, r1, k1, -, v1⟩ := interval_loop hc hP hst ha
  obtain ⟨l2, d2, e2, r2, k2, -, v2⟩ := interval_loop hc hP' hst hb
  obtain ⟨l, d, e, r, k, m3, v3⟩ := interval_loop hc (x := s ++ 32 :: t) (by
    cases s with
    | nil => exact absurd rfl hs0
    | cons c s => exact hP) hst hv
  have hxs : isSpace x = false := by
    cases h : isSpace x with
    | false => rfl
    | true => rw [space_notAlpha h] at hxa; cases hxa
  have hcat : l = l1 ++ l2 := scan_cat hx hxs ⟨(by rintro rfl; cases hxa), (by rintro rfl; cases hxa), (by rintro rfl; cases hxa)⟩ e e1 e2
  have sh1 : Short 6 s := Short.left hnum
  have sh2 : Short 6 t := by
    have := Short.infix (x := s ++ [32]) (w := t) (y := []) (n := 6) (by simpa using hnum)
    exact this
  have b1 := (loop_small (scan_length e1) (scan_short sh1 e1) r1).1
  have b2 := (loop_small (scan_length e2) (scan_short sh2 e2) r2).1
  obtain ⟨b3, b4, b5⟩ := loop_small (scan_length e) (scan_short hnum e) r
  have n1 : d1.before = false := by
    have := (loop_keeps .debug (parseRange (-1)) (W := False) l1 0 ({}, ()) fun f hf h1 h2 => hago (ago_word (scan_wordAt e1 f hf) h1 h2)) _ _ r1
    exact this.2.resolve_right id
  have n2 : d2.before = false := by
    have := (loop_keeps .debug (parseRange (-1)) (W := False) l2 0 ({}, ()) fun f hf h1 h2 => hago' (ago_word (scan_wordAt e2 f hf) h1 h2)) _ _ r2
    exact this.2.resolve_right id
  rw [hcat, loop_append, loop_place .debug _ l2 _ 0, St.bind_run, r2] at r
  simp only at r
  obtain ⟨w, hw1, hw2, hw3⟩ := endsIn_letter hx hxa
  obtain ⟨l', f, e', hf⟩ := scan_last hw2 hw3 hw1 e1
  have hword : WordField f := by
    rcases hf with rfl | ⟨h1, h2⟩ | ⟨h1, b, h2, h3⟩
    · refine ⟨Or.inl rfl, ?_⟩
      cases w with
      | nil => exact absurd rfl hw3
      | cons c r =>
        have h1 := lowerB_alpha (hw2 c (by simp))
        simp only [lower, List.map_cons, List.head?_cons]
        intro n
        injection n with n
        rw [n] at h1; cases h1
    · refine ⟨Or.inr h1, ?_⟩
      rcases h2 with h2 | h2 <;> rw [h2] <;> simp
    · exfalso
      rw [e', loop_append, St.bind_run] at r1
      have hfail : ∀ i s, Post (intervalLoop .debug plainLook (parseRange (-1)) [f] i) (fun _ _ => False) s := by
        intro i s
        unfold intervalLoop intervalLoop intervalField
        rw [h1]
        simp only
        rw [Post.bind, Post.pure, Post.noLook, Post.bind]
        unfold intervalNumber
        wp
        intro a ha
        exact absurd ha (numberParts_letter h2 h3 a)
      rcases hr : intervalLoop .debug plainLook (parseRange (-1)) [f] (0 + l'.length) ({}, ()) with ⟨q, z⟩
      cases q with
      | ok a => exact hfail _ _ _ _ hr
      | err e => rw [hr] at r1; cases r1
      | panic => rw [hr] at r1; cases r1
  have hstart : ShI false d2 ({} : IvS) d2 := by
    refine ⟨?_, ?_, (by simp), k2, fun h => by cases h⟩
    · constructor <;> simp
    · simp
  have hclk : ClockFree d2 ∨ ∀ f ∈ l1, 58 ∉ f.2 := by
    rcases hclock with h | h
    · exact Or.inr fun f hf n => scan_without (fun _ => lowerB_without (by omega)) (fun b hb => by rintro rfl; exact h hb) e1 f hf 58 n rfl
    · refine Or.inl ?_
      have h0 : ClockFree ({} : IvS) := fun _ => ⟨rfl, rfl, rfl, rfl⟩
      exact (loop_free .debug (parseRange (-1)) l2 0 ({}, ()) h0 fun f hf n =>
        scan_without (fun _ => lowerB_without (by omega)) (fun b hb => by rintro rfl; exact h hb) e2 f hf 46 n rfl) _ _ r2
  have key := ivLoop_two (parseRange (-1)) l1 false 0 0 ({}, ()) (d2, ()) hstart (Or.inr ⟨l', f, e', hword⟩) hclk _ _ r1 _ _ r
  rcases key with h | h
  · exact absurd k1 h
  · have n3 : d.before = false := by rw [h.before, n2]; exact (Bool.or_false _).trans n1
    rw [v3 n3 b3] at m3
    rw [v1 n1 b1, v2 n2 b2, v3 n3 b3]
    refine ⟨?_, m3, b4, b5⟩
    obtain ⟨⟨h1, h2, h3, h4, h5, h6, h7⟩, -⟩ := h
    dsimp only at h1 h2 h3 h4 h5 h6 h7
    unfold TmF.value
    simp only [Interval.mk.injEq]
    omega

end Pg

namespace Props
open Pg Spec

/-- The conditions of C104 on two texts: the first one ends in a letter (the unit of its last number); neither begins with the `P`
of an ISO 8601 interval or says `ago`; there is no clock time (58 is the colon) in the first if there is a decimal point (46) in the
second; in the SQL style there is no minus sign (45), which there may hold for the whole text; all numbers have at most six
digits, and there are at most 128 bytes. -/
structure Joinable (style : IntervalStyle) (s t : Bytes) : Prop where
  ends : ∃ x, s.getLast? = some x ∧ Letter x
  iso : s.head? ≠ some 80 ∧ t.head? ≠ some 80
  ago : ¬ Says [b!"ago"] s ∧ ¬ Says [b!"ago"] t
  clock : 58 ∉ s ∨ 46 ∉ t
  sql : style = .sqlStandard → 45 ∉ s ∧ 45 ∉ t
  numbers : ShortNumbers 6 (s ++ 32 :: t)
  length : (s ++ 32 :: t).length ≤ 128

/-- With the ranges of the numbers. -/
theorem concat_value (p : Profile) (u : TokenField) (c : Caches) (hc : c.Ok) (style : IntervalStyle) (s t : Bytes)
    (hj : Joinable style s t) (a b v : Interval) (ha : Interval.tryFromStr p u c s (-1) style = .ok a)
    (hb : Interval.tryFromStr p u c t (-1) style = .ok b) (hv : Interval.tryFromStr p u c (s ++ 32 :: t) (-1) style = .ok v) :
    v = ⟨a.month + b.month, a.day + b.day, a.time + b.time⟩ ∧ In32 v.month ∧ In32 v.day ∧ In64 v.time := by
  obtain ⟨⟨x, hx, hxl⟩, ⟨hP, hP'⟩, ⟨hago, hago'⟩, hclock, hsql, hnum, hlen⟩ := hj
  have sh := short_text hnum
  have sh1 : Short 6 s := Short.left sh
  have sh2 : Short 6 t := by
    have := Short.infix (x := s ++ [32]) (w := t) (y := []) (n := 6) (by simpa using sh)
    exact this
  have hlen' : s.length ≤ 128 ∧ t.length ≤ 128 := by
    simp only [List.length_append, List.length_cons] at hlen
    omega
  have debug : ∀ x : Bytes, ShortNumbers 6 x → x.length ≤ 128 → ∀ st, Interval.tryFromStr p u c x (-1) st = Interval.tryFromStr .debug u c x (-1) st := by
    intro x h1 h2 st
    cases p with
    | debug => rfl
    | release =>
      have := (C93_parse u c x (-1) .ymd st).2.2.2 (C44_interval_debug_partial .debug u c hc x (-1) st h2 h1)
      unfold Interval.tryFromStr
      rw [this]
  rw [debug s (shortNumbers_short sh1) hlen'.1] at ha
  rw [debug t (shortNumbers_short sh2) hlen'.2] at hb
  rw [debug _ hnum hlen] at hv
  by_cases hst : style = .sqlStandard
  · obtain ⟨m1, m2⟩ := hsql hst
    rw [C84_noMinus .debug u c hc (-1) s style .postgres fun b h n => m1 (n ▸ h)] at ha
    rw [C84_noMinus .debug u c hc (-1) t style .postgres fun b h n => m2 (n ▸ h)] at hb
    rw [C84_noMinus .debug u c hc (-1) _ style .postgres fun b h n => by
      rcases List.mem_append.1 h with h | h
      · exact m1 (n ▸ h)
      · rcases List.mem_cons.1 h with h | h
        · omega
        · exact m2 (n ▸ h)] at hv
    exact concat_debug hc (by decide) hx ((isAlpha_iff x).2 hxl) hP hP' hago hago' hclock sh ha hb hv
  · exact concat_debug hc hst hx ((isAlpha_iff x).2 hxl) hP hP' hago hago' hclock sh ha hb hv

/-- **C104.** If two texts are read as intervals and the two after each other, separated by a space, as well, then the value of the
whole is the sum of the values of the parts: months, days and time add up, and `add_interval` gives that interval. Missing: the
texts that are not `Joinable`, for some of which it is false (`C104_violated`). -/
theorem C104_sum_partial (p : Profile) (u : TokenField) (c : Caches) (hc : c.Ok) (style : IntervalStyle) (s t : Bytes)
    (hj : Joinable style s t) (a b v : Interval) (ha : Interval.tryFromStr p u c s (-1) style = .ok a)
    (hb : Interval.tryFromStr p u c t (-1) style = .ok b) (hv : Interval.tryFromStr p u c (s ++ 32 :: t) (-1) style = .ok v) :
    v = ⟨a.month + b.month, a.day + b.day, a.time + b.time⟩ :=
  (concat_value p u c hc style s t hj a b v ha hb hv).1

/-- The sum is the one `add_interval` gives. -/
theorem C104_add_partial (p : Profile) (u : TokenField) (c : Caches) (hc : c.Ok) (style : IntervalStyle) (s t : Bytes)
    (hj : Joinable style s t) (a b v : Interval) (ha : Interval.tryFromStr p u c s (-1) style = .ok a)
    (hb : Interval.tryFromStr p u c t (-1) style = .ok b) (hv : Interval.tryFromStr p u c (s ++ 32 :: t) (-1) style = .ok v) :
    a.addInterval b = .ok v := by
  obtain ⟨e, h1, h2, h3⟩ := concat_value p u c hc style s t hj a b v ha hb hv
  subst e
  dsimp only at h1 h2 h3
  unfold Interval.addInterval
  simp only [checked32_some h1, checked32_some h2, checked64_some h3]

/-- The order of the two texts does not matter. -/
theorem C104_swap_partial (p : Profile) (u : TokenField) (c : Caches) (hc : c.Ok) (style : IntervalStyle) (s t : Bytes)
    (hj : Joinable style s t) (hj' : Joinable style t s) (a b v w : Interval) (ha : Interval.tryFromStr p u c s (-1) style = .ok a)
    (hb : Interval.tryFromStr p u c t (-1) style = .ok b) (hv : Interval.tryFromStr p u c (s ++ 32 :: t) (-1) style = .ok v)
    (hw : Interval.tryFromStr p u c (t ++ 32 :: s) (-1) style = .ok w) : v = w := by
  rw [C104_sum_partial p u c hc style s t hj a b v ha hb hv, C104_sum_partial p u c hc style t s hj' b a w hb ha hw]
  simp only [Interval.mk.injEq]
  omega

/-- What is behind a clock time is overwritten by it: the half day of the second text is lost. -/
theorem C104_violated :
    Interval.tryFromStr .release .date Caches.new b!"04:05:06 2 mons" (-1) .postgres = .ok ⟨2, 0, 14706000000⟩ ∧
    Interval.tryFromStr .release .date Caches.new b!"1.5 days" (-1) .postgres = .ok ⟨0, 1, 43200000000⟩ ∧
    Interval.tryFromStr .release .date Caches.new b!"04:05:06 2 mons 1.5 days" (-1) .postgres = .ok ⟨2, 1, 14706000000⟩ := by
  decide +kernel

/-- The other conditions are needed as well. A last number without a unit takes its unit from what follows; `ago` holds for the
whole text; so does, in the SQL style, the minus sign at the beginning. -/
theorem C104_conditions :
    Interval.tryFromStr .release .date Caches.new b!"5" (-1) .postgres = .ok ⟨0, 0, 5000000⟩ ∧
    Interval.tryFromStr .release .date Caches.new b!"01:00" (-1) .postgres = .ok ⟨0, 0, 3600000000⟩ ∧
    Interval.tryFromStr .release .date Caches.new b!"5 01:00" (-1) .postgres = .ok ⟨0, 5, 3600000000⟩ ∧
    Interval.tryFromStr .release .date Caches.new b!"1 day" (-1) .postgres = .ok ⟨0, 1, 0⟩ ∧
    Interval.tryFromStr .release .date Caches.new b!"2 hours ago" (-1) .postgres = .ok ⟨0, 0, -7200000000⟩ ∧
    Interval.tryFromStr .release .date Caches.new b!"1 day 2 hours ago" (-1) .postgres = .ok ⟨0, -1, -7200000000⟩ ∧
    Interval.tryFromStr .release .date Caches.new b!"-1 day" (-1) .sqlStandard = .ok ⟨0, -1, 0⟩ ∧
    Interval.tryFromStr .release .date Caches.new b!"2 hours" (-1) .sqlStandard = .ok ⟨0, 0, 7200000000⟩ ∧
    Interval.tryFromStr .release .date Caches.new b!"-1 day 2 hours" (-1) .sqlStandard = .ok ⟨0, -1, -7200000000⟩ := by
  decide +kernel

theorem joinable_example : Joinable .postgres b!"1 mon 2 days" b!"-3 hours 1.5 mins" ∧ Joinable .postgres b!"-3 hours 1.5 mins" b!"1 mon 2 days" := by
  have h1 : ¬ Says [b!"ago"] b!"1 mon 2 days" := fun h => absurd (says_at h) (by unfold Letter Known SameButCase; decide +kernel)
  have h2 : ¬ Says [b!"ago"] b!"-3 hours 1.5 mins" := fun h => absurd (says_at h) (by unfold Letter Known SameButCase; decide +kernel)
  exact ⟨⟨⟨115, by decide, by unfold Letter; decide⟩, by decide, ⟨h1, h2⟩, by decide, (fun h => by cases h),
      shortNumbers_of (by unfold Figure; decide +kernel), by decide⟩,
    ⟨⟨115, by decide, by unfold Letter; decide⟩, by decide, ⟨h2, h1⟩, by decide, (fun h => by cases h),
      shortNumbers_of (by unfold Figure; decide +kernel), by decide⟩⟩

example (p : Profile) : Joinable .postgres b!"1 mon 2 days" b!"-3 hours 1.5 mins" ∧
    Interval.tryFromStr p .date Caches.new b!"1 mon 2 days" (-1) .postgres = .ok ⟨1, 2, 0⟩ ∧
    Interval.tryFromStr p .date Caches.new b!"-3 hours 1.5 mins" (-1) .postgres = .ok ⟨0, 0, -10710000000⟩ ∧
    Interval.tryFromStr p .date Caches.new b!"1 mon 2 days -3 hours 1.5 mins" (-1) .postgres = .ok ⟨1, 2, -10710000000⟩ ∧
    Interval.tryFromStr p .date Caches.new b!"-3 hours 1.5 mins 1 mon 2 days" (-1) .postgres = .ok ⟨1, 2, -10710000000⟩ :=
  ⟨joinable_example.1, by cases p <;> decide +kernel⟩

end Props
