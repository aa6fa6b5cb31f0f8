import Verif.Lemmas.Ago
import Verif.Props.Concat

/-!
# Property C106: `ago` at the end of a text negates the interval

The texts are any sequences of bytes. `c` is the state of the thread's keyword caches, `u` the uninitialised type of a lone sign.
-/

namespace Pg
open Spec

/-- The last field of a text that ends in a letter is a word, if the loop accepts it. -/
theorem last_word {u : TokenField} {s : Bytes} {x : Nat} (hx : s.getLast? = some x) (hxa : isAlpha x = true) {l : List Field} {d : IvS} {range : Nat}
    (e : scan u s = .ok l) (r : intervalLoop .debug plainLook range l 0 ({}, ()) = (.ok (), (d, ()))) :
    ∃ l' f, l = l' ++ [f] ∧ WordField f := by
  obtain ⟨w, hw1, hw2, hw3⟩ := endsIn_letter hx hxa
  obtain ⟨l', f, e', hf⟩ := scan_last hw2 hw3 hw1 e
  refine ⟨l', f, e', ?_⟩
  rcases hf with rfl | ⟨h1, h2⟩ | ⟨h1, b, h2, h3⟩
  · refine ⟨Or.inl rfl, ?_⟩
    cases w with
    | nil => exact absurd rfl hw3
    | cons c r =>
      have h1 := lowerB_alpha (hw2 c (by simp))
      simp only [lower, List.map_cons, List.head?_cons]
      intro n
      injection n with n
      rw [n] at h1; cases h1
  · refine ⟨Or.inr h1, ?_⟩
    rcases h2 with h2 | h2 <;> rw [h2] <;> simp
  · exfalso
    rw [e', loop_append, St.bind_run] at r
    have hfail : ∀ i s, Post (intervalLoop .debug plainLook range [f] i) (fun _ _ => False) s := by
      intro i s
      unfold intervalLoop intervalLoop intervalField
      rw [h1]
      simp only
      rw [Post.bind, Post.pure, Post.noLook, Post.bind]
      unfold intervalNumber
      wp
      intro a ha
      exact absurd ha (numberParts_letter h2 h3 a)
    rcases hr : intervalLoop .debug plainLook range [f] (0 + l'.length) ({}, ()) with ⟨q, z⟩
    cases q with
    | ok a => exact hfail _ _ _ _ hr
    | err e => rw [hr] at r; cases r
    | panic => rw [hr] at r; cases r

theorem ago_debug {u : TokenField} {c : Caches} (hc : c.Ok) {style : IntervalStyle} {s : Bytes} {x : Nat} (hx : s.getLast? = some x)
    (hxa : isAlpha x = true) (hP : s.head? ≠ some 80) (hago : ¬ Says [b!"ago"] s) {v w : Interval}
    (hv : Interval.tryFromStr .debug u c s (-1) style = .ok v)
    (hw : Interval.tryFromStr .debug u c (s ++ b!" ago") (-1) style = .ok w) : w = v.opposite := by
  have hs0 : s ≠ [] := by rintro rfl; cases hx
  obtain ⟨l1, d1, t1, e1, r1, k1, -, q1, v1⟩ := interval_decode hc hP hv
  obtain ⟨l, d, t, e, r, k, -, q, v2⟩ := interval_decode hc (x := s ++ b!" ago") (by
    cases s with
    | nil => exact absurd rfl hs0
    | cons c s => exact hP) hw
  have hxs : isSpace x = false := by
    cases h : isSpace x with
    | false => rfl
    | true => rw [space_notAlpha h] at hxa; cases hxa
  have e2 : scan u b!"ago" = .ok [(.string, b!"ago")] := by cases u <;> decide +kernel
  have hcat : l = l1 ++ [(.string, b!"ago")] := scan_cat hx hxs ⟨(by rintro rfl; cases hxa), (by rintro rfl; cases hxa), (by rintro rfl; cases hxa)⟩ e e1 e2
  have n1 : d1.before = false := by
    have := (loop_keeps .debug (parseRange (-1)) (W := False) l1 0 ({}, ()) fun f hf h1 h2 => hago (ago_word (scan_wordAt e1 f hf) h1 h2)) _ _ r1
    exact this.2.resolve_right id
  rw [hcat, loop_append, St.bind_run, ago_field] at r
  simp only at r
  obtain ⟨l', f, e', hword⟩ := last_word hx hxa e1 r1
  have hstart : ShI false { before := true, ty := 0 } ({} : IvS) { before := true, ty := 0 } := by
    refine ⟨?_, ?_, rfl, rfl, fun h => by cases h⟩
    · constructor <;> simp
    · simp
  have key := ivLoop_two (parseRange (-1)) l1 false 0 0 ({}, ()) ({ before := true, ty := 0 }, ()) hstart (Or.inr ⟨l', f, e', hword⟩)
    (Or.inl fun _ => ⟨rfl, rfl, rfl, rfl⟩) _ _ r1 _ _ r
  rcases key with h | h
  · exact absurd k1 h
  · have n3 : d.before = true := by rw [h.before]; simp
    have hl1 : l1 ≠ [] := by rw [e']; simp
    have : closing .debug style l = closing .debug style l1 := by
      unfold closing
      rw [hcat, sqlSign_last hl1 rfl]
    rw [this] at q
    have hcl := closing_two style l1 h.sh _ _ q1 _ _ q
    have ev : t.value = t1.value := by
      obtain ⟨h1, h2, h3, h4, h5, h6, h7⟩ := hcl
      simp only [add_zero] at h1 h2 h3 h4 h5 h6 h7
      unfold TmF.value
      rw [h1, h2, h3, h4, h5, h6, h7]
    rw [v2, v1, n1, n3, ev]
    rfl

end Pg

namespace Props
open Pg Spec

/-- **C106**, debug builds: a text that ends in a letter (a unit), is not of the ISO 8601 form and does not say `ago` yet: with ` ago`
behind it, its value is the negative of its value without, in every style, also in the SQL style with its minus sign for the whole
text. -/
theorem C106_debug (u : TokenField) (c : Caches) (hc : c.Ok) (style : IntervalStyle) (s : Bytes)
    (he : ∃ x, s.getLast? = some x ∧ Letter x) (hP : s.head? ≠ some 80) (hago : ¬ Says [b!"ago"] s) (v w : Interval)
    (hv : Interval.tryFromStr .debug u c s (-1) style = .ok v) (hw : Interval.tryFromStr .debug u c (s ++ b!" ago") (-1) style = .ok w) :
    w = ⟨-v.month, -v.day, -v.time⟩ := by
  obtain ⟨x, hx, hxl⟩ := he
  exact ago_debug hc hx ((isAlpha_iff x).2 hxl) hP hago hv hw

/-- **C106**, both builds. Missing: numbers of more than six digits, for which it is false in a release build (`C106_violated`). -/
theorem C106_ago_partial (p : Profile) (u : TokenField) (c : Caches) (hc : c.Ok) (style : IntervalStyle) (s : Bytes)
    (he : ∃ x, s.getLast? = some x ∧ Letter x) (hP : s.head? ≠ some 80) (hago : ¬ Says [b!"ago"] s)
    (hnum : ShortNumbers 6 (s ++ b!" ago")) (hlen : s.length ≤ 124) (v w : Interval) (hv : Interval.tryFromStr p u c s (-1) style = .ok v)
    (hw : Interval.tryFromStr p u c (s ++ b!" ago") (-1) style = .ok w) :
    w = ⟨-v.month, -v.day, -v.time⟩ := by
  obtain ⟨x, hx, hxl⟩ := he
  have sh := short_text hnum
  have debug : ∀ x : Bytes, ShortNumbers 6 x → x.length ≤ 128 → ∀ st, Interval.tryFromStr p u c x (-1) st = Interval.tryFromStr .debug u c x (-1) st := by
    intro x h1 h2 st
    cases p with
    | debug => rfl
    | release =>
      have := (C93_parse u c x (-1) .ymd st).2.2.2 (C44_interval_debug_partial .debug u c hc x (-1) st h2 h1)
      unfold Interval.tryFromStr
      rw [this]
  rw [debug s (shortNumbers_short (Short.left sh)) (by omega)] at hv
  rw [debug _ hnum (by simp; omega)] at hw
  exact ago_debug hc hx ((isAlpha_iff x).2 hxl) hP hago hv hw

/-- In a release build the negative of the smallest number of days wraps around; a debug build panics. -/
theorem C106_violated :
    Interval.tryFromStr .release .date Caches.new b!"-2147483648 days" (-1) .postgres = .ok ⟨0, -2147483648, 0⟩ ∧
    Interval.tryFromStr .release .date Caches.new b!"-2147483648 days ago" (-1) .postgres = .ok ⟨0, -2147483648, 0⟩ ∧
    Interval.tryFromStr .debug .date Caches.new b!"-2147483648 days ago" (-1) .postgres = .panic := by
  decide +kernel

/-- Without a unit at the end the text may not be an interval with `ago`; a second `ago` changes nothing. -/
theorem C106_conditions :
    Interval.tryFromStr .release .date Caches.new b!"5" (-1) .postgres = .ok ⟨0, 0, 5000000⟩ ∧
    Interval.tryFromStr .release .date Caches.new b!"5 ago" (-1) .postgres = .err .invalid ∧
    Interval.tryFromStr .release .date Caches.new b!"1 day ago" (-1) .postgres = .ok ⟨0, -1, 0⟩ ∧
    Interval.tryFromStr .release .date Caches.new b!"1 day ago ago" (-1) .postgres = .ok ⟨0, -1, 0⟩ := by
  decide +kernel

example (p : Profile) : (∃ x, b!"-1 mon 04:05:06.5 3 days".getLast? = some x ∧ Letter x) ∧ ¬ Says [b!"ago"] b!"-1 mon 04:05:06.5 3 days" ∧
    ShortNumbers 6 (b!"-1 mon 04:05:06.5 3 days" ++ b!" ago") ∧
    Interval.tryFromStr p .date Caches.new b!"-1 mon 04:05:06.5 3 days" (-1) .sqlStandard = .ok ⟨-1, -3, -14706500000⟩ ∧
    Interval.tryFromStr p .date Caches.new b!"-1 mon 04:05:06.5 3 days ago" (-1) .sqlStandard = .ok ⟨1, 3, 14706500000⟩ :=
  ⟨⟨115, by decide, by unfold Letter; decide⟩, fun h => absurd (says_at h) (by unfold Letter Known SameButCase; decide +kernel),
    shortNumbers_of (by unfold Figure; decide +kernel), by cases p <;> decide +kernel⟩

end Props
