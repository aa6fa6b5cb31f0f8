import Verif.Lemmas.MonthNames

/-! # Days with a month name in one group -/

namespace Pg
open Spec

section
variable {f : Bytes} {v : Int} {m : Nat} {order : DateOrder} {s : NumS}

theorem nv_text_year (h : m &&& 14 = 2) (hy : 3 ≤ f.length ∨ order = .ymd) :
    decodeNumberVal f v true m order s = (.ok (), ⟨4, { s.tm with year := v }, s.fsec, decide (f.length ≤ 2)⟩) := by
  unfold decodeNumberVal
  rw [St.ite_run, if_neg (by intro hh; omega)]
  unfold numberByMask
  simp only [h, if_true]
  rw [if_neg (by decide), if_neg (by decide), if_pos (by simpa using hy), St.bind_run]
  simp [St.mod_bind, St.pure_run, St.mod_run]

theorem nv_text_day (h : m &&& 14 = 2) (hy : ¬ (3 ≤ f.length ∨ order = .ymd)) :
    decodeNumberVal f v true m order s = (.ok (), ⟨8, { s.tm with mday := v }, s.fsec, s.is2⟩) := by
  unfold decodeNumberVal
  rw [St.ite_run, if_neg (by intro hh; omega)]
  unfold numberByMask
  simp only [h, if_true]
  rw [if_neg (by decide), if_neg (by decide), if_neg (by simpa using hy), St.bind_run]
  simp [St.mod_bind, St.pure_run, St.mod_run]

theorem nv_text_second (h : m &&& 14 = 6) (hy : ¬ (3 ≤ f.length ∧ s.is2 = true)) :
    decodeNumberVal f v true m order s = (.ok (), ⟨8, { s.tm with mday := v }, s.fsec, s.is2⟩) := by
  unfold decodeNumberVal
  rw [St.ite_run, if_neg (by intro hh; omega)]
  unfold numberByMask
  simp only [h, if_true]
  rw [if_neg (by decide), if_neg (by decide), if_neg (by decide), St.bind_run, St.get_bind, St.ite_run,
    if_neg (by simpa using hy)]
  simp [St.mod_bind, St.pure_run, St.mod_run]

theorem nv_text_swap (h : m &&& 14 = 6) (h3 : 3 ≤ f.length) (h2 : s.is2 = true) :
    decodeNumberVal f v true m order s =
      (.ok (), ⟨8, { s.tm with mday := s.tm.year, year := v }, s.fsec, false⟩) := by
  unfold decodeNumberVal
  rw [St.ite_run, if_neg (by intro hh; omega)]
  unfold numberByMask
  simp only [h, if_true]
  rw [if_neg (by decide), if_neg (by decide), if_neg (by decide), St.bind_run, St.get_bind, St.ite_run,
    if_pos ⟨h3, h2⟩]
  simp [St.mod_bind, St.pure_run, St.mod_run]

end

section
variable {f : Bytes} {fs : List (Option Bytes)} {order : DateOrder} {tm : PgTime} {is2 : Bool} {t d m : Nat} {x : Int}

theorem numPass_textYear (hd : Digits f) (hne : f ≠ []) (hk : NumOk f)
    (h : m &&& 14 = 2) (hy : 3 ≤ f.length ∨ order = .ymd) (hm : m &&& 4 = 0) :
    numPass order (some f :: fs) ⟨tm, is2, t, d, m, x, true⟩ = numPass order fs
      ⟨{ tm with year := value f }, decide (f.length ≤ 2), t ||| 4, 4, m ||| 4, x, true⟩ :=
  numPass_step (s := ⟨tm, is2, t, d, m, x, true⟩) hd hne hk (nv_text_year h hy) hm

theorem numPass_textDay (hd : Digits f) (hne : f ≠ []) (hk : NumOk f)
    (h : m &&& 14 = 2) (hy : ¬ (3 ≤ f.length ∨ order = .ymd)) (hm : m &&& 8 = 0) :
    numPass order (some f :: fs) ⟨tm, is2, t, d, m, x, true⟩ = numPass order fs
      ⟨{ tm with mday := value f }, is2, t ||| 8, 8, m ||| 8, x, true⟩ :=
  numPass_step (s := ⟨tm, is2, t, d, m, x, true⟩) hd hne hk (nv_text_day h hy) hm

theorem numPass_textSecond (hd : Digits f) (hne : f ≠ []) (hk : NumOk f)
    (h : m &&& 14 = 6) (hy : ¬ (3 ≤ f.length ∧ is2 = true)) (hm : m &&& 8 = 0) :
    numPass order (some f :: fs) ⟨tm, is2, t, d, m, x, true⟩ = numPass order fs
      ⟨{ tm with mday := value f }, is2, t ||| 8, 8, m ||| 8, x, true⟩ :=
  numPass_step (s := ⟨tm, is2, t, d, m, x, true⟩) hd hne hk (nv_text_second h hy) hm

theorem numPass_textSwap (hd : Digits f) (hne : f ≠ []) (hk : NumOk f)
    (h : m &&& 14 = 6) (h3 : 3 ≤ f.length) (h2 : is2 = true) (hm : m &&& 8 = 0) :
    numPass order (some f :: fs) ⟨tm, is2, t, d, m, x, true⟩ = numPass order fs
      ⟨{ tm with mday := tm.year, year := value f }, false, t ||| 8, 8, m ||| 8, x, true⟩ :=
  numPass_step (s := ⟨tm, is2, t, d, m, x, true⟩) hd hne hk (nv_text_swap h h3 h2) hm

end

/-- Splitting off a word. -/
theorem dateSplit_word {w s : Bytes} {fuel nf : Nat} {l : List Bytes} (hw : Letters w) (nw : w ≠ [])
    (hs : Stops isAlpha s) (hnf : nf < 25) (h : dateSplit fuel s (nf + 1) = .ok l) {pre : Bytes}
    (hpre : ∀ b ∈ pre, isAlnum b = false) :
    dateSplit (fuel + 1) (pre ++ (w ++ s)) nf = .ok (w :: l) := by
  obtain ⟨c, t, rfl⟩ := List.exists_cons_of_ne_nil nw
  have hc := hw c (by simp)
  have hca : isAlnum c = true := by
    rw [isAlpha_iff] at hc; rw [isAlnum_iff]; omega
  have hcd : isDigit c = false := by
    rw [isAlpha_iff] at hc; rw [Bool.eq_false_iff, ne_eq, isDigit_iff]; omega
  have hdrop : (pre ++ ((c :: t) ++ s)).dropWhile (fun b => decide (¬ isAlnum b = true)) = c :: (t ++ s) := by
    rw [dropWhile_span (by intro b hb; simp [hpre b hb])
      (by rw [List.cons_append]; exact Stops.cons (by simp [hca]))]
    rfl
  rw [dateSplit, if_neg (by simp; omega), hdrop]
  simp only [hcd, Bool.false_eq_true, if_false]
  rw [← List.cons_append, dropWhile_span hw hs, takeWhile_span hw hs, h]
  rfl

theorem isSep.notAlpha {x : Nat} (h : isSep x) : isAlpha x = false := by
  rcases h with rfl | rfl | rfl <;> rfl

theorem pre_one {x : Nat} (h : isSep x) : ∀ b ∈ [x], isAlnum b = false := by
  intro y hy; cases hy with | head => exact h.notAlnum | tail _ h => cases h

theorem split_middle {a w b : Bytes} {x : Nat} (hx : isSep x) (ha : Digits a) (na : a ≠ [])
    (hw : Letters w) (nw : w ≠ []) (hb : Digits b) (nb : b ≠ []) (fuel : Nat) (hf : 4 ≤ fuel) :
    dateSplit fuel (a ++ x :: (w ++ x :: b)) 0 = .ok [a, w, b] := by
  obtain ⟨k, rfl⟩ : ∃ k, fuel = k + 4 := ⟨fuel - 4, by omega⟩
  have h4 : dateSplit (k + 1) [] 3 = .ok [] := rfl
  have h3 := dateSplit_number (fuel := k + 1) (nf := 2) (pre := [x]) hb nb (Stops.nil _) (by omega) h4 (pre_one hx)
  rw [List.append_nil] at h3
  have h2 := dateSplit_word (fuel := k + 2) (nf := 1) (pre := [x]) hw nw (Stops.cons hx.notAlpha)
    (by omega) h3 (pre_one hx)
  exact dateSplit_number (fuel := k + 3) (nf := 0) (pre := []) ha na (Stops.cons hx.notDigit)
    (by omega) h2 (by intro x hx; cases hx)

theorem split_first {a w b : Bytes} {x : Nat} (hx : isSep x) (ha : Digits a) (na : a ≠ [])
    (hw : Letters w) (nw : w ≠ []) (hb : Digits b) (nb : b ≠ []) (fuel : Nat) (hf : 4 ≤ fuel) :
    dateSplit fuel (w ++ x :: (a ++ x :: b)) 0 = .ok [w, a, b] := by
  obtain ⟨k, rfl⟩ : ∃ k, fuel = k + 4 := ⟨fuel - 4, by omega⟩
  have h4 : dateSplit (k + 1) [] 3 = .ok [] := rfl
  have h3 := dateSplit_number (fuel := k + 1) (nf := 2) (pre := [x]) hb nb (Stops.nil _) (by omega) h4 (pre_one hx)
  rw [List.append_nil] at h3
  have h2 := dateSplit_number (fuel := k + 2) (nf := 1) (pre := [x]) ha na (Stops.cons hx.notDigit)
    (by omega) h3 (pre_one hx)
  exact dateSplit_word (fuel := k + 3) (nf := 0) (pre := []) hw nw (Stops.cons hx.notAlpha)
    (by omega) h2 (by intro x hx; cases hx)

/-- The state of `decode_date` after the month name. -/
def textS (tm : PgTime) (is2 : Bool) (m : Int) : DateS :=
  { tm := { tm with mon := m }, is2 := is2, tMask := 2, fMask := 2, haveText := true }

theorem textPass_month {w : Bytes} {e : DateToken} {fs : List Bytes} {tm : PgTime} {is2 : Bool} {i : Nat}
    (hs : searchDate w = .ok (some e)) (hty : e.ty = .month) (hw : Letters w) (nw : w ≠ [])
    (hf : ∀ f ∈ fs, Digits f) :
    textPass plainLook (w :: fs) i (({ tm := tm, is2 := is2, fMask := 0 } : DateS), ()) =
      (.ok (none :: fs.map some), (textS tm is2 e.value, ())) := by
  have ha : (w.head?.map isAlpha) = some true := by
    obtain ⟨c, t, rfl⟩ := List.exists_cons_of_ne_nil nw
    simp [hw c (by simp)]
  have hl : ∀ d : DateS, lookDate plainLook i w (d, ()) = (.ok (e.ty, e.value), (d, ())) := by
    intro d
    unfold lookDate plainLook
    simp only [hs]
    rfl
  rw [textPass, St.ite_run, if_pos ha, St.bind_ok (hl _)]
  simp only
  rw [St.ite_run, if_neg (by rw [hty]; decide), St.ite_run, if_pos hty,
    St.bind_ok (noLook_run (St.mod_run _ _)), St.bind_ok (noLook_run (St.get_run _)), St.ite_run, if_neg (by simp),
    St.bind_ok (noLook_run (St.mod_run _ _)), St.bind_ok (textPass_numbers plainLook fs (i + 1) _ hf)]
  simp only [St.pure_run, textS, Nat.zero_or]

theorem textPass_number {a : Bytes} {fs : List Bytes} {i : Nat} {s s' : DateS × Unit} {l : List (Option Bytes)}
    (ha : Digits a) (h : textPass plainLook fs (i + 1) s = (.ok l, s')) :
    textPass plainLook (a :: fs) i s = (.ok (some a :: l), s') := by
  have hnot : ¬ (a.head?.map isAlpha) = some true := by
    cases a with
    | nil => simp
    | cons c t =>
      have := ha c (by simp)
      have hna : isAlpha c = false := by
        rw [Bool.eq_false_iff, ne_eq, isAlpha_iff]; omega
      simp [hna]
  rw [textPass, St.ite_run, if_neg hnot, St.bind_ok h]
  rfl

/-- The numbers beside a month name, year and day. -/
def textParts (order : DateOrder) (a b : Bytes) : Bytes × Bytes := if yearFirst order a b then (a, b) else (b, a)

theorem numPass_text (order : DateOrder) {a b : Bytes} (ha : Digits a) (na : a ≠ []) (hb : Digits b)
    (nb : b ≠ []) (tm : PgTime) (is2 : Bool) (m : Int) {l : List (Option Bytes)}
    (hl : l = [none, some a, some b] ∨ l = [some a, none, some b]) :
    if NumOk a ∧ NumOk b then
      ∃ dm, numPass order l (textS tm is2 m) =
        (.ok (), { tm := { tm with year := value (textParts order a b).1, mon := m,
                                   mday := value (textParts order a b).2 },
                   is2 := decide ((textParts order a b).1.length ≤ 2), tMask := 14, dMask := dm, fMask := 14,
                   haveText := true })
    else ∃ s', numPass order l (textS tm is2 m) = (.err .overflow, s') := by
  by_cases ka : NumOk a
  swap
  · rw [if_neg (fun h => ka h.1)]
    rcases hl with rfl | rfl
    · rw [numPass]; exact numPass_bad ha na ka
    · exact numPass_bad ha na ka
  by_cases hy : 3 ≤ a.length ∨ order = .ymd
  · have h1 : ∀ fs, numPass order (some a :: fs) (textS tm is2 m) = numPass order fs
        ⟨{ tm with mon := m, year := value a }, decide (a.length ≤ 2), 6, 4, 6, 0, true⟩ := by
      intro fs
      exact numPass_textYear ha na ka (by decide) hy (by decide)
    have h2 : numPass order l (textS tm is2 m) = numPass order [some b]
        ⟨{ tm with mon := m, year := value a }, decide (a.length ≤ 2), 6, 4, 6, 0, true⟩ := by
      rcases hl with rfl | rfl
      · rw [numPass, h1]
      · rw [h1, numPass]
    rw [h2]
    by_cases kb : NumOk b
    swap
    · rw [if_neg (fun h => kb h.2)]; exact numPass_bad hb nb kb
    rw [if_pos ⟨ka, kb⟩]
    by_cases hsw : 3 ≤ b.length ∧ a.length ≤ 2
    · have hp : textParts order a b = (b, a) := by
        unfold textParts; rw [if_neg]; unfold yearFirst; omega
      have hb2 : decide (b.length ≤ 2) = false := by simp; omega
      rw [hp]
      simp only [hb2]
      rw [numPass_textSwap hb nb kb (by decide) hsw.1 (by simp; omega) (by decide)]
      exact ⟨8, rfl⟩
    · have hp : textParts order a b = (a, b) := by
        unfold textParts; rw [if_pos]; unfold yearFirst
        by_cases h3 : 3 ≤ a.length
        · exact Or.inl h3
        · exact Or.inr ⟨by tauto, by omega⟩
      rw [hp]
      rw [numPass_textSecond hb nb kb (by decide) (by simp; omega) (by decide)]
      exact ⟨8, rfl⟩
  · have h1 : ∀ fs, numPass order (some a :: fs) (textS tm is2 m) = numPass order fs
        ⟨{ tm with mon := m, mday := value a }, is2, 10, 8, 10, 0, true⟩ := by
      intro fs
      exact numPass_textDay ha na ka (by decide) hy (by decide)
    have h2 : numPass order l (textS tm is2 m) = numPass order [some b]
        ⟨{ tm with mon := m, mday := value a }, is2, 10, 8, 10, 0, true⟩ := by
      rcases hl with rfl | rfl
      · rw [numPass, h1]
      · rw [h1, numPass]
    rw [h2]
    by_cases kb : NumOk b
    swap
    · rw [if_neg (fun h => kb h.2)]; exact numPass_bad hb nb kb
    rw [if_pos ⟨ka, kb⟩]
    have hp : textParts order a b = (b, a) := by
      unfold textParts; rw [if_neg]; unfold yearFirst; tauto
    rw [hp, numPass_year hb nb kb (Or.inr (by decide)) (by decide)]
    exact ⟨4, rfl⟩

/-- A day in one group as a date field. -/
theorem decodeDate_text (order : DateOrder) {str a b : Bytes} (ha : Digits a) (na : a ≠ []) (hb : Digits b)
    (nb : b ≠ []) {m : Int} {s : Dec} (hs : s.fMask = 0) {fields : List Bytes} {l : List (Option Bytes)}
    (h1 : dateSplit (str.length + 1) str 0 = .ok fields)
    (h2 : ∀ tm is2, textPass plainLook fields 0 (({ tm := tm, is2 := is2, fMask := 0 } : DateS), ()) =
      (.ok l, (textS tm is2 m, ())))
    (hl : l = [none, some a, some b] ∨ l = [some a, none, some b]) :
    if NumOk a ∧ NumOk b then
      decodeDate plainLook str order (s, ()) =
        (.ok (), ({ s with tm := { s.tm with year := value (textParts order a b).1, mon := m,
                                             mday := value (textParts order a b).2 },
                           is2 := decide ((textParts order a b).1.length ≤ 2), tMask := 14 }, ()))
    else ∃ s', decodeDate plainLook str order (s, ()) = (.err .overflow, s') := by
  have hnp := numPass_text order ha na hb nb s.tm s.is2 m hl
  by_cases hk : NumOk a ∧ NumOk b
  · rw [if_pos hk] at hnp ⊢
    obtain ⟨dm, hnp⟩ := hnp
    have hbody : dateBody plainLook str order
        (({ tm := s.tm, is2 := s.is2, fMask := s.fMask } : DateS), ()) = (.ok (), (
          { tm := { s.tm with year := value (textParts order a b).1, mon := m,
                              mday := value (textParts order a b).2 },
            is2 := decide ((textParts order a b).1.length ≤ 2), tMask := 14, dMask := dm, fMask := 14,
            haveText := true }, ())) := by
      unfold dateBody
      rw [hs, h1, St.lift_ok_bind, St.bind_ok (h2 _ _), St.bind_ok (noLook_run hnp),
        St.bind_ok (noLook_run (St.get_run _)), St.ite_run, if_neg (by simp)]
      rfl
    exact decodeDate_run hbody
  · rw [if_neg hk] at hnp ⊢
    obtain ⟨s', hnp⟩ := hnp
    have hbody : dateBody plainLook str order
        (({ tm := s.tm, is2 := s.is2, fMask := s.fMask } : DateS), ()) = (.err .overflow, (s', ())) := by
      unfold dateBody
      rw [hs, h1, St.lift_ok_bind, St.bind_ok (h2 _ _), St.bind_err (noLook_run hnp)]
    exact ⟨_, decodeDate_run hbody⟩

theorem textParts_digits {order : DateOrder} {a b : Bytes} {P : Bytes → Prop} (ha : P a) (hb : P b) :
    P (textParts order a b).1 ∧ P (textParts order a b).2 := by
  unfold textParts; split <;> exact ⟨by assumption, by assumption⟩

/-- The state after a day in one group. -/
def joinedDec (n : Bytes × Bytes) (m : Int) : Dec :=
  { tm := { year := value n.1, mon := m, mday := value n.2 }, is2 := decide (n.1.length ≤ 2), tMask := 14,
    fMask := 14 }

/-- A day in one group. -/
theorem reads_joined {p : Profile} {order : DateOrder} {str a b ms : Bytes} {m : Int} {fields : List Bytes}
    {l : List (Option Bytes)} (ha : DigitsOf 1 10 a) (hb : DigitsOf 1 10 b) (hm : m = value ms)
    (h1 : dateSplit (str.length + 1) str 0 = .ok fields)
    (h2 : ∀ tm is2, textPass plainLook fields 0 (({ tm := tm, is2 := is2, fMask := 0 } : DateS), ()) =
      (.ok l, (textS tm is2 m, ())))
    (hl : l = [none, some a, some b] ∨ l = [some a, none, some b]) :
    ReadsDay p order {} [(.date, str)] (NumOk a ∧ NumOk b) (textParts order a b).1 m (value (textParts order a b).2) := by
  have hd := decodeDate_text order ha.1 (DigitsOf.ne ha (by omega)) hb.1 (DigitsOf.ne hb (by omega)) (s := {}) rfl h1 h2 hl
  have e : dateToken p plainLook str order ({}, ()) = decodeDate plainLook str order ({}, ()) := by
    unfold dateToken
    rw [St.bind_ok (noLook_run (St.get_run _)), St.ite_run, if_neg (by decide), St.ite_run,
      if_neg (by decide)]
  refine ⟨fun hk => ⟨joinedDec (textParts order a b) m, ?_, fun ft i rest => ?_⟩,
    fun hk ft i rest => ?_, fun hk bc day hday => ?_, (textParts_digits ha.1 hb.1).1,
    fun hk => (textParts_digits hk.1 hk.2).1⟩
  · constructor <;> first | rfl | simp [joinedDec]
  · rw [if_pos hk] at hd
    refine Eq.trans (loop_cons (s' := (joinedDec (textParts order a b) m, ())) ?_) rfl
    unfold dateTimeField
    simp only
    rw [St.bind_ok (e.trans hd), noLook_run (addMask_run (by simp))]
    simp [joinedDec]
  · rw [if_neg hk] at hd
    obtain ⟨s', hd⟩ := hd
    refine ⟨.overflow, s', loop_cons_err ?_⟩
    unfold dateTimeField
    simp only
    rw [St.bind_err (e.trans hd)]
  · subst hm
    refine namedDay_big (textParts_digits ha.1 hb.1).1 (fun h => hk ?_) day hday
    have e2 := h.1
    have e3 := h.2.2
    have la := ha.2.2
    have lb := hb.2.2
    unfold textParts at e2 e3
    split at e2
    · rename_i hy; rw [if_pos hy] at e3; exact ⟨⟨la, e2⟩, lb, e3⟩
    · rename_i hy; rw [if_neg hy] at e3; exact ⟨⟨la, e3⟩, lb, e2⟩

end Pg
