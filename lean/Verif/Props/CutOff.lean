import Verif.Lemmas.After
import Verif.Props.Ornament

/-!
# C118: a text cut off behind its `t`

The word `t` between a date and a clock time promises a clock time. A text that ends in it is never read; but
instead of an error the caller gets a panic.
-/

namespace Pg
open Spec

variable {p : Profile} {order : DateOrder} {ft ftypes : List TokenField} {i : Nat} {u : TokenField}

theorem isoTime_t : tokenResult (lookupIn dateTable [116]) = (.isotime, 3) := by decide +kernel

theorem look_t (s : Dec × Unit) : lookDate plainLook i [116] s = (.ok (.isotime, 3), s) := by
  simp only [lookDate, plainLook, searchDate_eq, isoTime_t]

/-- Behind a complete date and before nothing, the word `t` makes the code panic. -/
theorem field_t_last {d : Dec} (hm : d.fMask &&& 14 = 14) (hn : ft[i + 1]? = none) :
    dateTimeField p plainLook order ft i (.string, [116]) (d, ()) = (.panic, ({ d with tMask := 0 }, ())) := by
  have ha : wordAction ft i .isotime 3 d = (.panic, { d with tMask := 0 }) := by
    unfold wordAction
    rw [St.mod_bind]
    simp only
    unfold isoTimeWord
    rw [St.mod_bind, St.get_bind, St.ite_run, if_neg (by simpa using hm)]
    simp only [hn]
    rfl
  unfold dateTimeField wordToken
  simp only [St.bind_run, look_t, noLook, St.zoom, ha, if_neg (show ¬ TokenType.isotime = .ignoreDtf by decide)]

/-- The word `t` is accepted only behind a complete date and before something. -/
theorem field_t_needs {d : Dec} : Post (dateTimeField p plainLook order ft i (.string, [116]))
    (fun _ _ => d.fMask &&& 14 = 14 ∧ ft[i + 1]? ≠ none) (d, ()) := by
  unfold dateTimeField wordToken
  simp only
  rw [Post.bind, Post.bind, Post.look, isoTime_t]
  dsimp only
  rw [if_neg (by decide), Post.bind]
  unfold wordAction isoTimeWord
  cases hn : ft[i + 1]? with
  | none => wp
  | some f =>
    wp
    intro h1 _ _ _
    have h := not_not.1 h1
    exact ⟨fun _ => ⟨h, by simp⟩, fun _ _ _ _ => ⟨h, by simp⟩⟩

theorem t_word {w : Bytes} (h : SameButCase w [116]) : Letters w ∧ w ≠ [] ∧ w.length = 1 ∧ lower w = [116] := by
  obtain ⟨k1, k2⟩ := small_alpha h (by decide) (by decide) (by decide)
  exact ⟨k1, k2, by simpa using congrArg List.length h, lower_word h (by decide)⟩

theorem dateTime_panic {l : List Field} {s : Dec × Unit}
    (h : dateTimeLoop p plainLook order (l.map Prod.fst) l 0 ({}, ()) = (.panic, s)) :
    decodeDateTime p plainLook order l ({}, ()) = (.panic, s) := by
  unfold decodeDateTime
  rw [St.bind_run, h]

/-- The fields of a text up to its word `t`, if something is accepted behind it. -/
theorem cut_panics {l l2 : List Field} {s' : Dec × Unit} {a : Unit}
    (h : decodeDateTime p plainLook order (l ++ [(.string, [116])] ++ l2) ({}, ()) = (.ok a, s')) :
    ∃ s, decodeDateTime p plainLook order (l ++ [(.string, [116])]) ({}, ()) = (.panic, s) := by
  unfold decodeDateTime at h
  obtain ⟨⟨⟩, s1, q1, -⟩ := bind_ran h
  rw [List.append_assoc] at q1
  obtain ⟨⟨d, ⟨⟩⟩, q2, q3⟩ := loop_before _ _ _ q1
  rw [List.cons_append, dateTimeLoop] at q3
  obtain ⟨⟨⟩, s3, q4, -⟩ := bind_ran q3
  obtain ⟨m, -⟩ := field_t_needs _ _ q4
  have q5 := loop_types (ftypes := (l ++ [(TokenField.string, [116])] : List Field).map Prod.fst) l 0 (by
    intro j _ hj
    left
    simp only [List.map_append, List.map_cons, List.map_nil, List.nil_append, List.cons_append]
    by_cases e : j + 1 < l.length
    · rw [List.getElem?_append_left (by simpa using e), List.getElem?_append_left (by simpa using e)]
    · have : j + 1 = l.length := by omega
      rw [List.getElem?_append_right (by simp; omega), List.getElem?_append_right (by simp; omega)]
      simp [this]) q2
  have cat : ∀ (ft : List TokenField) (l l' : List Field) (i : Nat) (s s1 : Dec × Unit), dateTimeLoop p plainLook order ft l i s = (.ok (), s1) →
      dateTimeLoop p plainLook order ft (l ++ l') i s = dateTimeLoop p plainLook order ft l' (i + l.length) s1 := by
    intro ft l
    induction l with
    | nil => intro l' i s s1 h; cases h; rfl
    | cons f l ih =>
      intro l' i s s1 h
      rw [dateTimeLoop] at h
      obtain ⟨⟨⟩, s2, h1, h2⟩ := bind_ran h
      rw [List.cons_append, loop_cons h1, ih _ _ _ _ h2, List.length_cons, show i + 1 + l.length = i + (l.length + 1) by omega]
  refine ⟨({ d with tMask := 0 }, ()), dateTime_panic ?_⟩
  rw [cat _ _ _ _ _ _ q5, dateTimeLoop, St.bind_run, field_t_last m (by simp)]

end Pg

namespace Props
open Pg Spec

/-- The fields of a text up to its word `t`. -/
private theorem cut_scan {u : TokenField} {s w r : Bytes} {l : List Field} (hs : EndsPlainly s) (hw : SameButCase w b!"t")
    (h : scan u (s ++ 32 :: w ++ 32 :: r) = .ok l) :
    ∃ l1 l2, scan u (s ++ 32 :: w) = .ok (l1 ++ [(.string, [116])]) ∧ l = l1 ++ [(.string, [116])] ++ l2 := by
  obtain ⟨b, b1, b2, b3⟩ := hs
  obtain ⟨w1, w2, w3, w4⟩ := t_word hw
  obtain ⟨x, rfl⟩ := List.length_eq_one_iff.1 w3
  have hx : (s ++ 32 :: [x]).getLast? = some x := by simp
  have hl : isAlpha x = true := w1 x (by simp)
  have p1 : isSpace x = false := by
    cases e : isSpace x with
    | false => rfl
    | true => rcases space_cases e with rfl | rfl | rfl | rfl | rfl <;> cases hl
  have p2 : x ≠ 43 ∧ x ≠ 45 ∧ x ≠ 46 := by refine ⟨?_, ?_, ?_⟩ <;> (rintro rfl; cases hl)
  obtain ⟨k, k1⟩ := scan_shorter hx p1 p2 h
  obtain ⟨l2, k2⟩ := scan_prefix hx p1 p2 k1 h
  obtain ⟨l1, -, rfl⟩ := scan_more b1 b2 b3 w1 w2 (by omega) k1
  rw [w4] at k1 k2
  exact ⟨l1, l2, k1, k2⟩

/-- **C118, dates with something behind the `t`.** If a text with the word `t` in it is read as a date, then
the text cut off behind that word makes both parsers panic, in every build. -/
theorem C118_cut_date (p : Profile) (u : TokenField) (c : Caches) (hc : c.Ok) (typmod : Int) (order : DateOrder) (s w r : Bytes)
    (hs : EndsPlainly s) (hw : SameButCase w b!"t") (v : Date) (hv : Date.tryFromStr p u c (s ++ 32 :: w ++ 32 :: r) order = .ok v) :
    Date.tryFromStr p u c (s ++ 32 :: w) order = .panic ∧ Timestamp.tryFromStr p u c (s ++ 32 :: w) typmod order = .panic := by
  obtain ⟨l, d, h1, h2, -⟩ := date_decoded hc hv
  obtain ⟨l1, l2, k1, rfl⟩ := cut_scan hs hw h1
  obtain ⟨⟨e, ⟨⟩⟩, k2⟩ := cut_panics h2
  exact ⟨by rw [date_run p u hc order k1 k2]; rfl, by rw [timestamp_run p u hc typmod order k1 k2]; rfl⟩

/-- **C118, timestamps with something behind the `t`.** -/
theorem C118_cut_timestamp (p : Profile) (u : TokenField) (c : Caches) (hc : c.Ok) (typmod typmod' : Int) (order : DateOrder) (s w r : Bytes)
    (hs : EndsPlainly s) (hw : SameButCase w b!"t") (v : Timestamp)
    (hv : Timestamp.tryFromStr p u c (s ++ 32 :: w ++ 32 :: r) typmod' order = .ok v) :
    Date.tryFromStr p u c (s ++ 32 :: w) order = .panic ∧ Timestamp.tryFromStr p u c (s ++ 32 :: w) typmod order = .panic := by
  obtain ⟨l, d, t, h1, h2, -⟩ := timestamp_decoded hc hv
  obtain ⟨l1, l2, k1, rfl⟩ := cut_scan hs hw h1
  obtain ⟨⟨e, ⟨⟩⟩, k2⟩ := cut_panics h2
  exact ⟨by rw [date_run p u hc order k1 k2]; rfl, by rw [timestamp_run p u hc typmod order k1 k2]; rfl⟩

/-- **C118, numeric dates.** A numeric date with a `t` right behind it, or behind a blank, and nothing more
makes both parsers panic in every build, whether or not there is such a day. -/
theorem C118_numeric (p : Profile) (u : TokenField) (cs : Caches) (hcs : cs.Ok) (typmod : Int) (order : DateOrder)
    (x : Nat) (hx : x = 45 ∨ x = 47 ∨ x = 46) (a b c : Bytes) (ha : Digits a) (hb : Digits b) (hc : Digits c)
    (la : 1 ≤ a.length ∧ a.length ≤ 9) (lb : 1 ≤ b.length ∧ b.length ≤ 9) (lc : 1 ≤ c.length ∧ c.length ≤ 9)
    (h3 : b.length ≠ 3) (gap w : Bytes) (hg : gap = [] ∨ gap = [32]) (hw : SameButCase w b!"t") :
    Date.tryFromStr p u cs (numericDate x a b c ++ gap ++ w) order = .panic ∧
    Timestamp.tryFromStr p u cs (numericDate x a b c ++ gap ++ w) typmod order = .panic := by
  have na : a ≠ [] := by rintro rfl; simp at la
  have nb : b ≠ [] := by rintro rfl; simp at lb
  have nc : c ≠ [] := by rintro rfl; simp at lc
  obtain ⟨w1, w2, w3, w4⟩ := t_word hw
  have ok : ∀ {f : Bytes}, Digits f → f.length ≤ 9 → NumOk f := by
    intro f hf hl
    refine ⟨by omega, ?_⟩
    have := value_lt hf
    have : 10 ^ f.length ≤ 10 ^ 9 := Nat.pow_le_pow_right (by decide) hl
    omega
  have sw : Scans u (gap ++ w) [(.string, [116])] := by
    have := Scans.word (u := u) w1 w2 (Stops.nil _) rfl (Scans.nil u)
    rw [List.append_nil, w4] at this
    rcases hg with rfl | rfl
    · exact this
    · exact Scans.space this
  have st : Stops (fun y => y = x || isDigit y) (gap ++ w) := by
    rcases hg with rfl | rfl
    · obtain ⟨y, rfl⟩ := List.length_eq_one_iff.1 w3
      have hl : isAlpha y = true := w1 y (by simp)
      refine Stops.cons ?_
      have h1 : y ≠ x := by rcases hx with rfl | rfl | rfl <;> (rintro rfl; cases hl)
      have h2 : isDigit y = false := by
        cases e : isDigit y with
        | false => rfl
        | true => simp [isDigit, isAlpha, isLower, isUpper] at e hl; omega
      simp [h1, h2]
    · exact Stops.cons (by rcases hx with rfl | rfl | rfl <;> rfl)
  have sc := scan_of (Scans.date (u := u) hx ha na hb nb hc st sw) (by simp) (by
    rcases hg with rfl | rfl <;> simp <;> omega) (by simp)
  have hf := field_date (p := p) (order := order) (ft := [TokenField.date, .string]) (i := 0) (d := {}) hx hx ha na hb nb hc nc (fun _ => h3) rfl rfl
    (n := assign3 order (decide (3 ≤ a.length)) a b c) rfl
  rw [if_pos ⟨ok ha la.2, ok hb lb.2, ok hc lc.2⟩] at hf
  have hr : ∃ s, decodeDateTime p plainLook order [(.date, a ++ x :: (b ++ x :: c)), (.string, [116])] ({}, ()) = (.panic, s) := by
    have last : ∀ d : Dec, d.fMask = 14 → dateTimeLoop p plainLook order [TokenField.date, .string] [(.string, [116])] (0 + 1) (d, ()) =
        (.panic, ({ d with tMask := 0 }, ())) := by
      intro d hd
      rw [dateTimeLoop, St.bind_run, field_t_last (by rw [hd]; rfl) rfl]
    exact ⟨_, dateTime_panic ((loop_cons hf).trans (last _ rfl))⟩
  obtain ⟨⟨e, ⟨⟩⟩, hr⟩ := hr
  have et : numericDate x a b c ++ gap ++ w = a ++ x :: (b ++ x :: (c ++ (gap ++ w))) := by simp [numericDate]
  rw [et]
  exact ⟨by rw [date_run p u hcs order sc hr]; rfl, by rw [timestamp_run p u hcs typmod order sc hr]; rfl⟩

/-- **C118, never read.** No text that ends in the word `t` is read as a date or a timestamp. -/
theorem C118_never (p : Profile) (u : TokenField) (c : Caches) (hc : c.Ok) (typmod : Int) (order : DateOrder) (s w : Bytes)
    (hs : EndsPlainly s) (hw : SameButCase w b!"t") :
    (∀ v, Date.tryFromStr p u c (s ++ 32 :: w) order ≠ .ok v) ∧ (∀ v, Timestamp.tryFromStr p u c (s ++ 32 :: w) typmod order ≠ .ok v) := by
  obtain ⟨b, b1, b2, b3⟩ := hs
  obtain ⟨w1, w2, w3, w4⟩ := t_word hw
  have no : ∀ {l : List Field} {d : Dec}, scan u (s ++ 32 :: w) = .ok l → decodeDateTime p plainLook order l ({}, ()) ≠ (.ok (), (d, ())) := by
    intro l d h1 h2
    obtain ⟨l1, -, rfl⟩ := scan_more b1 b2 b3 w1 w2 (by omega) h1
    rw [w4] at h2
    unfold decodeDateTime at h2
    obtain ⟨⟨⟩, s1, q1, -⟩ := bind_ran h2
    obtain ⟨⟨e, ⟨⟩⟩, -, q3⟩ := loop_before _ _ _ q1
    rw [dateTimeLoop] at q3
    obtain ⟨⟨⟩, s3, q4, -⟩ := bind_ran q3
    exact (field_t_needs _ _ q4).2 (by simp)
  constructor
  · intro v hv
    obtain ⟨l, d, h1, h2, -⟩ := date_decoded hc hv
    exact no h1 h2
  · intro v hv
    obtain ⟨l, d, t, h1, h2, -⟩ := timestamp_decoded hc hv
    exact no h1 h2

/-! ## Cases -/

example (p : Profile) : EndsPlainly b!"Jan 2 2024" ∧ SameButCase b!"T" b!"t" ∧
    Timestamp.tryFromStr p .number Caches.new (b!"Jan 2 2024" ++ 32 :: b!"T" ++ 32 :: b!"10:20:30") (-1) .mdy = .ok ⟨757506030000000⟩ ∧
    Date.tryFromStr p .number Caches.new (b!"Jan 2 2024" ++ 32 :: b!"T" ++ 32 :: b!"10:20:30") .mdy = .ok ⟨8767⟩ := by
  refine ⟨⟨52, by decide⟩, by unfold SameButCase; decide, ?_⟩
  cases p <;> decide +kernel
/-- The start of an ISO 8601 timestamp. -/
example (p : Profile) : Timestamp.tryFromStr p .number Caches.new b!"2024-01-02T10:20:30" (-1) .mdy = .ok ⟨757506030000000⟩ ∧
    Timestamp.tryFromStr p .number Caches.new b!"2024-01-02T" (-1) .mdy = .panic ∧
    Date.tryFromStr p .number Caches.new b!"2024-99-99T" .mdy = .panic := by
  have h := fun m d (hm : Digits m ∧ 1 ≤ m.length ∧ m.length ≤ 9 ∧ m.length ≠ 3) (hd : Digits d ∧ 1 ≤ d.length ∧ d.length ≤ 9) =>
    C118_numeric p .number Caches.new Caches.ok_new (-1) .mdy 45 (Or.inl rfl) b!"2024" m d (by unfold Digits; decide) hm.1 hd.1 (by decide)
      ⟨hm.2.1, hm.2.2.1⟩ hd.2 hm.2.2.2 [] b!"T" (Or.inl rfl) (by unfold SameButCase; decide)
  refine ⟨by cases p <;> decide +kernel, (h b!"01" b!"02" (by unfold Digits; decide) (by unfold Digits; decide)).2,
    (h b!"99" b!"99" (by unfold Digits; decide) (by unfold Digits; decide)).1⟩

end Props
