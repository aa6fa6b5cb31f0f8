import Verif.Lemmas.Ornament
import Verif.Lemmas.ClockParse

/-!
# Lemmas: a clock time at the end of a text
-/

namespace Pg
open Spec

variable {p : Profile} {order : DateOrder} {ftypes : List TokenField} {i : Nat} {u : TokenField}

/-- A field that was decoded at the end of a text is decoded in the same way with another field after it. -/
theorem field_goesOn {ft : List TokenField} {f : Field} {s s' : Dec × Unit} {a : Unit} (hi : ft[i + 1]? = ftypes[i + 1]? ∨ ftypes[i + 1]? = none)
    (h : dateTimeField p plainLook order ftypes i f s = (.ok a, s')) : dateTimeField p plainLook order ft i f s = (.ok a, s') := by
  rcases hi with hi | hi
  · exact field_types (Or.inl hi.symm) h
  · obtain ⟨f1, w⟩ := f
    by_cases hw : f1 = .string ∨ f1 = .special
    · have e : ∀ ft, dateTimeField p plainLook order ft i (f1, w) = dateTimeField p plainLook order ft i (.string, w) := by
        intro ft
        rcases hw with rfl | rfl <;> rfl
      rw [e] at h ⊢
      by_cases hty : (tokenResult (lookupIn dateTable w)).1 = .isotime
      · exfalso
        refine (show Post (dateTimeField p plainLook order ftypes i (.string, w)) (fun _ _ => False) s from ?_) a s' h
        unfold dateTimeField wordToken
        simp only
        rw [Post.bind, Post.bind, Post.look]
        rcases hr : tokenResult (lookupIn dateTable w) with ⟨ty, v⟩
        rw [hr] at hty
        cases hty
        dsimp only
        rw [if_neg (by decide), Post.bind]
        unfold wordAction isoTimeWord
        rw [hi]
        wp
      · rw [← h]
        have : wordAction ft i (tokenResult (lookupIn dateTable w)).1 (tokenResult (lookupIn dateTable w)).2 =
            wordAction ftypes i (tokenResult (lookupIn dateTable w)).1 (tokenResult (lookupIn dateTable w)).2 := by
          generalize (tokenResult (lookupIn dateTable w)).1 = ty at hty ⊢
          unfold wordAction
          cases ty <;> first | rfl | exact absurd rfl hty
        have l : ∀ s : Dec × Unit, lookDate plainLook i w s = (.ok (tokenResult (lookupIn dateTable w)), s) := by
          intro s
          simp only [lookDate, plainLook, searchDate_eq]
        unfold dateTimeField wordToken
        simp only [St.bind_run, l, this]
    · rw [← h]
      unfold dateTimeField
      cases f1 <;> first | exact absurd (Or.inl rfl) hw | exact absurd (Or.inr rfl) hw | rfl

theorem loop_goesOn {ft : List TokenField} : ∀ (l : List Field) (i : Nat) {s s' : Dec × Unit} {a : Unit},
    (∀ j, i ≤ j → j < i + l.length → ft[j + 1]? = ftypes[j + 1]? ∨ ftypes[j + 1]? = none) →
    dateTimeLoop p plainLook order ftypes l i s = (.ok a, s') → dateTimeLoop p plainLook order ft l i s = (.ok a, s') := by
  intro l
  induction l with
  | nil => intro i s s' a _ h; exact h
  | cons f l ih =>
    intro i s s' a hj h
    rw [dateTimeLoop] at h ⊢
    obtain ⟨x, s1, h1, h2⟩ := bind_ran h
    rw [St.bind_run, field_goesOn (hj i (Nat.le_refl _) (by simp)) h1]
    exact ih _ (fun j q1 q2 => hj j (by omega) (by simp only [List.length_cons]; omega)) h2

theorem types_goesOn (l : List Field) (g : Field) (j : Nat) :
    ((l ++ [g]).map Prod.fst)[j + 1]? = (l.map Prod.fst)[j + 1]? ∨ (l.map Prod.fst)[j + 1]? = none := by
  by_cases h : j + 1 < l.length
  · left
    rw [List.map_append, List.getElem?_append_left (by simpa using h)]
  · right
    rw [List.getElem?_eq_none]
    simpa using h

/-- The fields of a clock time at the end. -/
theorem clock_puts {hh mm ss : Bytes} {f : Option Bytes} (h1 : Digits hh ∧ hh ≠ []) (h2 : Digits mm ∧ mm ≠ []) (h3 : Digits ss ∧ ss ≠ [])
    (hf : Digits (fracDigits f)) (s : Dec × Unit) : Post (dateTimeField p plainLook order ftypes i (.time, hmsBytes hh mm ss f))
      (fun _ t => t.1 = { s.1 with pType := .number, tMask := DTK_TIME_M, fMask := s.1.fMask ||| DTK_TIME_M,
                                   tm := putTm (hmsOf hh mm ss) s.1.tm, fSec := fracMicros f }) s := by
  unfold dateTimeField
  dsimp only
  unfold timeToken onTime
  wp
  intro _
  rw [Post.zoom]
  intro a t e
  obtain ⟨rfl, hn, hf0, hm, hs⟩ := decodeTime_hms h1 h2 h3 hf e
  dsimp only
  intro hb
  rw [addMask_post]
  exact fun _ => rfl

/-- The bits of the day. -/
def dayBits : Nat := 32782

theorem validateDate_day {tm : PgTime} {m n : Nat} {a b c : Bool} (h : m &&& dayBits = n &&& dayBits) :
    tm.validateDate p m a b c = tm.validateDate p n a b c := by
  have cut : ∀ {k}, dayBits &&& k = k → m &&& k = n &&& k := fun {k} hk => by
    rw [← hk, ← Nat.and_assoc, ← Nat.and_assoc, h]
  have h1 : hasBits m M_YEAR = hasBits n M_YEAR := by unfold hasBits; rw [cut (by decide)]
  have h2 : hasBits m M_DOY = hasBits n M_DOY := by unfold hasBits; rw [cut (by decide)]
  have h3 : hasBits m M_MONTH = hasBits n M_MONTH := by unfold hasBits; rw [cut (by decide)]
  have h4 : hasBits m M_DAY = hasBits n M_DAY := by unfold hasBits; rw [cut (by decide)]
  have h5 : m &&& DTK_DATE_M = n &&& DTK_DATE_M := cut (by decide)
  unfold PgTime.validateDate PgTime.validateYear PgTime.validateDoy PgTime.validateMonthDay
  simp only [h1, h2, h3, h4, h5]

/-- The fields of a text with a clock time behind it: the date is that of the text. -/
theorem decode_dayClock {l : List Field} {hh mm ss : Bytes} {f : Option Bytes} (h1 : Digits hh ∧ hh ≠ []) (h2 : Digits mm ∧ mm ≠ [])
    (h3 : Digits ss ∧ ss ≠ []) (hf : Digits (fracDigits f)) {d e : Dec}
    (hd : decodeDateTime p plainLook order l ({}, ()) = (.ok (), (d, ())))
    (he : decodeDateTime p plainLook order (l ++ [(.time, hmsBytes hh mm ss f)]) ({}, ()) = (.ok (), (e, ()))) :
    Date.ofDec p e = Date.ofDec p d := by
  unfold decodeDateTime at hd he
  obtain ⟨⟨⟩, ⟨d1, ⟨⟩⟩, d2, hd⟩ := bind_ran hd
  obtain ⟨⟨⟩, ⟨d3, ⟨⟩⟩, d4, hd⟩ := bind_ran hd
  obtain ⟨⟨⟩, ⟨e1, ⟨⟩⟩, e2, he⟩ := bind_ran he
  obtain ⟨⟨⟩, ⟨e3, ⟨⟩⟩, e4, he⟩ := bind_ran he
  have fin : ∀ {s s' : Dec}, noLook (C := Unit) (finishFields p) (s, ()) = (.ok (), (s', ())) → finishFields p s = (.ok (), s') := by
    intro s s' h
    have a1 : (finishFields p s).1 = .ok () := congrArg Prod.fst h
    have a2 : (finishFields p s).2 = s' := congrArg (fun x => x.2.1) h
    rw [← a1, ← a2]
  have d4 := fin d4
  have e4 := fin e4
  have hd' : d = d3 := by
    have hd : (if d3.dType = .date ∧ d3.fMask &&& DTK_DATE_M ≠ DTK_DATE_M ∧ d3.fMask &&& DTK_TIME_M ≠ DTK_TIME_M then St.fail .invalid
      else pure () : St (Dec × Unit) Unit) (d3, ()) = (.ok (), (d, ())) := hd
    split at hd
    · cases hd
    · cases hd; rfl
  have he' : e = e3 := by
    have he : (if e3.dType = .date ∧ e3.fMask &&& DTK_DATE_M ≠ DTK_DATE_M ∧ e3.fMask &&& DTK_TIME_M ≠ DTK_TIME_M then St.fail .invalid
      else pure () : St (Dec × Unit) Unit) (e3, ()) = (.ok (), (e, ())) := he
    split at he
    · cases he
    · cases he; rfl
  subst hd' he'
  obtain ⟨s1, k1, k2⟩ := loop_before _ _ _ e2
  rw [loop_goesOn l 0 (fun j _ _ => types_goesOn l _ j) d2] at k1
  cases k1
  rw [dateTimeLoop] at k2
  obtain ⟨x, t, k2, k3⟩ := bind_ran k2
  cases k3
  have k := clock_puts h1 h2 h3 hf _ _ _ k2
  dsimp only at k
  obtain ⟨tm, h, q1, q2, rfl⟩ := finish_iff.1 d4
  obtain ⟨tm', h', r1, r2, rfl⟩ := finish_iff.1 e4
  rw [k] at r1 r2 ⊢
  dsimp only at r1 r2 ⊢
  have hm : (d1.fMask ||| DTK_TIME_M) &&& dayBits = d1.fMask &&& dayBits := by
    rw [Nat.and_or_distrib_right, show DTK_TIME_M &&& dayBits = 0 by decide, Nat.or_zero]
  rw [validateDate_day hm, validateDate_put q1] at r1
  cases r1
  rfl

/-- The fields have at most as many bytes as the work area. -/
theorem scanLoop_cap : ∀ (fuel : Nat) (s : Bytes) (cap nf : Nat) (l : List Field), scanLoop u fuel s cap nf = .ok l → ∀ f ∈ l, f.2.length ≤ cap := by
  intro fuel
  induction fuel with
  | zero => intro s cap nf l h; rw [scanLoop] at h; cases h; simp
  | succ n ih =>
    intro s cap nf l h
    rw [scanLoop] at h
    split at h
    · cases h; simp
    · split at h
      · cases h
      · split at h
        · split at h
          · cases h
          · rw [Res.bind_eq_ok] at h
            obtain ⟨⟨f, rest⟩, h1, h⟩ := h
            dsimp only at h
            split at h
            · cases h
            · rename_i hf
              rw [Res.bind_eq_ok] at h
              obtain ⟨l', h2, h⟩ := h
              cases h
              intro g hg
              rcases List.mem_cons.1 hg with rfl | hg
              · exact Nat.le_of_not_lt hf
              · exact (ih _ _ _ _ h2 g hg).trans (Nat.sub_le _ _)
        · split at h
          · exact ih _ _ _ _ h
          · cases h

theorem scan_cap {s : Bytes} {l : List Field} (h : scan u s = .ok l) : ∀ f ∈ l, f.2.length ≤ 128 := by
  unfold scan at h
  split at h
  · cases h
  · exact scanLoop_cap _ _ _ _ _ h

theorem scan_endClock {s : Bytes} {hh mm ss : Bytes} {f : Option Bytes} (h1 : Digits hh ∧ hh ≠ []) (h2 : Digits mm ∧ mm ≠ [])
    (h3 : Digits ss ∧ ss ≠ []) (hf : Digits (fracDigits f)) {l : List Field} {b : Nat} (hb : s.getLast? = some b) (hsp : isSpace b = false)
    (hsg : b ≠ 43 ∧ b ≠ 45 ∧ b ≠ 46) (hlen : (hmsBytes hh mm ss f).length ≤ 128) (h : scan u (s ++ 32 :: hmsBytes hh mm ss f) = .ok l) :
    ∃ l1, scan u s = .ok l1 ∧ l = l1 ++ [(.time, hmsBytes hh mm ss f)] := by
  obtain ⟨l1, k1⟩ := scan_shorter hb hsp hsg h
  have k2 : scan u (hmsBytes hh mm ss f) = .ok [(.time, hmsBytes hh mm ss f)] := by
    have e : hmsBytes hh mm ss f = hh ++ 58 :: (mm ++ 58 :: (ss ++ fracBytes f)) := by simp [hmsBytes]
    rw [e] at hlen ⊢
    exact scan_time u h1.1 h1.2 (hms_timeB h2.1 h3.1 hf) hlen
  exact ⟨l1, k1, scan_cat hb hsp hsg h k1 k2⟩

end Pg
