import Verif.Lemmas.ScanText
import Verif.Lemmas.ParseRun
import Verif.Lemmas.Date
import Verif.Spec.DateInput

/-! # Decoding numeric dates -/

namespace Pg
open Spec

/-- `str2i32` can read this run of digits. -/
def NumOk (f : Bytes) : Prop := f.length ≤ 10 ∧ value f ≤ 2147483647

instance (f : Bytes) : Decidable (NumOk f) := by unfold NumOk; infer_instance

theorem decodeNumber_digits {f : Bytes} (hd : Digits f) (hne : f ≠ []) (ht : Bool) (m : Nat)
    (order : DateOrder) (s : NumS) :
    decodeNumber f ht m order s =
      if NumOk f then decodeNumberVal f (value f) ht m order { s with tMask := 0 }
      else (.err .overflow, { s with tMask := 0 }) := by
  unfold decodeNumber
  rw [St.mod_bind, str2i32_all hd hne]
  by_cases h : f.length ≤ 10 ∧ value f ≤ 2147483647
  · rw [if_pos h, if_pos (show NumOk f from h), St.lift_ok_bind]
    simp only
    rw [St.ite_run, if_neg (Ne.symm hne)]
  · rw [if_neg h, if_neg (show ¬ NumOk f from h)]; rfl

theorem nv_year {f : Bytes} {v : Int} {ht : Bool} {m : Nat} {order : DateOrder} (s : NumS)
    (h : (m &&& 14 = 0 ∧ (3 ≤ f.length ∨ order = .ymd)) ∨ m &&& 14 = 10) :
    decodeNumberVal f v ht m order s =
      (.ok (), ⟨4, { s.tm with year := v }, s.fsec, decide (f.length ≤ 2)⟩) := by
  unfold decodeNumberVal
  rw [St.ite_run, if_neg (by intro hh; rcases h with h | h <;> omega)]
  unfold numberByMask
  rcases h with ⟨h1, h2⟩ | h1
  · simp only [h1, if_true]
    rw [if_pos (by simpa using h2), St.bind_run]
    simp only [St.mod_bind, St.pure_run, St.mod_run, true_and, if_true]
  · simp only [h1]
    rw [St.bind_run]
    simp [St.mod_bind, St.pure_run, St.mod_run]

theorem nv_month {f : Bytes} {v : Int} {ht : Bool} {m : Nat} {order : DateOrder} (s : NumS)
    (h : (m &&& 14 = 0 ∧ f.length ≤ 2 ∧ order = .mdy) ∨ (m &&& 14 = 4 ∧ f.length ≠ 3) ∨ m &&& 14 = 8) :
    decodeNumberVal f v ht m order s = (.ok (), ⟨2, { s.tm with mon := v }, s.fsec, s.is2⟩) := by
  unfold decodeNumberVal
  rw [St.ite_run, if_neg (by intro hh; rcases h with h | h | h <;> omega)]
  unfold numberByMask
  rcases h with ⟨h1, h2, h3⟩ | ⟨h1, h2⟩ | h1
  · simp only [h1, if_true]
    rw [if_neg (by rw [h3]; simp; omega), if_neg (by rw [h3]; simp), St.bind_run]
    simp [St.mod_bind, St.pure_run, St.mod_run]
  · simp only [h1]
    rw [St.bind_run]
    simp [St.mod_bind, St.pure_run, St.mod_run]
  · simp only [h1]
    rw [St.bind_run]
    simp [St.mod_bind, St.pure_run, St.mod_run]

theorem nv_day {f : Bytes} {v : Int} {m : Nat} {order : DateOrder} (s : NumS)
    (h : (m &&& 14 = 0 ∧ f.length ≤ 2 ∧ order = .dmy) ∨ m &&& 14 = 2 ∨ m &&& 14 = 6) :
    decodeNumberVal f v false m order s = (.ok (), ⟨8, { s.tm with mday := v }, s.fsec, s.is2⟩) := by
  unfold decodeNumberVal
  rw [St.ite_run, if_neg (by intro hh; rcases h with h | h | h <;> omega)]
  unfold numberByMask
  rcases h with ⟨h1, h2, h3⟩ | h1 | h1
  · simp only [h1, if_true]
    rw [if_neg (by rw [h3]; simp; omega), if_pos h3, St.bind_run]
    simp [St.mod_bind, St.pure_run, St.mod_run]
  · simp only [h1]
    rw [St.bind_run]
    simp [St.mod_bind, St.pure_run, St.mod_run]
  · simp only [h1]
    rw [St.bind_run]
    simp [St.mod_bind, St.pure_run, St.mod_run]

/-- The state after one number. -/
def DateS.after (s : DateS) (n : NumS) : DateS :=
  { s with dMask := n.tMask, tm := n.tm, fsec := n.fsec, is2 := n.is2, fMask := s.fMask ||| n.tMask,
           tMask := s.tMask ||| n.tMask }

theorem numPass_step {f : Bytes} {fs : List (Option Bytes)} {order : DateOrder} {s : DateS} {n : NumS}
    (hd : Digits f) (hne : f ≠ []) (hk : NumOk f)
    (hv : decodeNumberVal f (value f) s.haveText s.fMask order ⟨0, s.tm, s.fsec, s.is2⟩ = (.ok (), n))
    (hm : s.fMask &&& n.tMask = 0) :
    numPass order (some f :: fs) s = numPass order fs (s.after n) := by
  rw [numPass, St.ite_run, if_neg (by simpa using hne), St.get_bind]
  have e : St.zoom (fun s : DateS => (⟨s.dMask, s.tm, s.fsec, s.is2⟩ : NumS))
      (fun n s => { s with dMask := n.tMask, tm := n.tm, fsec := n.fsec, is2 := n.is2 })
      (decodeNumber f s.haveText s.fMask order) s =
      (.ok (), { s with dMask := n.tMask, tm := n.tm, fsec := n.fsec, is2 := n.is2 }) := by
    apply St.zoom_run
    rw [decodeNumber_digits hd hne, if_pos hk]
    exact hv
  rw [St.bind_ok e, St.get_bind, St.ite_run]
  rw [if_neg (by simpa using hm), St.mod_bind]
  rfl

theorem numPass_bad {f : Bytes} {fs : List (Option Bytes)} {order : DateOrder} {s : DateS}
    (hd : Digits f) (hne : f ≠ []) (hk : ¬ NumOk f) :
    ∃ s', numPass order (some f :: fs) s = (.err .overflow, s') := by
  rw [numPass, St.ite_run, if_neg (by simpa using hne), St.get_bind]
  have e : St.zoom (fun s : DateS => (⟨s.dMask, s.tm, s.fsec, s.is2⟩ : NumS))
      (fun n s => { s with dMask := n.tMask, tm := n.tm, fsec := n.fsec, is2 := n.is2 })
      (decodeNumber f s.haveText s.fMask order) s = (.err .overflow, { s with dMask := 0 }) := by
    rw [St.zoom_run (t := ⟨0, s.tm, s.fsec, s.is2⟩) (r := .err .overflow)]
    rw [decodeNumber_digits hd hne, if_neg hk]
  exact ⟨_, St.bind_err e⟩

/-- Splitting three numbers. -/
theorem dateSplit_number {a s : Bytes} {fuel nf : Nat} {l : List Bytes} (ha : Digits a) (na : a ≠ [])
    (hs : Stops isDigit s) (hnf : nf < 25) (h : dateSplit fuel s (nf + 1) = .ok l) {pre : Bytes}
    (hpre : ∀ b ∈ pre, isAlnum b = false) :
    dateSplit (fuel + 1) (pre ++ (a ++ s)) nf = .ok (a :: l) := by
  obtain ⟨c, t, e, hc, -⟩ := digit_head (r := s) ha na
  have hca : isAlnum c = true := by
    rw [isDigit_iff] at hc; rw [isAlnum_iff]; omega
  have hdrop : (pre ++ (a ++ s)).dropWhile (fun b => decide (¬ isAlnum b = true)) = c :: t := by
    rw [dropWhile_span (by intro b hb; simp [hpre b hb]) (by rw [e]; exact Stops.cons (by simp [hca])), e]
  rw [dateSplit, if_neg (by rw [e]; simp; omega), hdrop]
  simp only [hc, if_true]
  rw [← e, dropWhile_span (digits_isDigit ha) hs, takeWhile_span (digits_isDigit ha) hs, h]
  rfl

theorem dateSplit_three {a b c : Bytes} {d e : Nat} (hd : isSep d) (he : isSep e) (ha : Digits a) (na : a ≠ [])
    (hb : Digits b) (nb : b ≠ []) (hc : Digits c) (nc : c ≠ []) (fuel : Nat) (hf : 4 ≤ fuel) :
    dateSplit fuel (a ++ d :: (b ++ e :: c)) 0 = .ok [a, b, c] := by
  obtain ⟨k, rfl⟩ : ∃ k, fuel = k + 4 := ⟨fuel - 4, by omega⟩
  have h4 : dateSplit (k + 1) [] 3 = .ok [] := rfl
  have h3 := dateSplit_number (fuel := k + 1) (nf := 2) (pre := [e]) hc nc (Stops.nil _) (by omega) h4
    (by intro x hx; cases hx with | head => exact he.notAlnum | tail _ h => cases h)
  rw [List.append_nil] at h3
  have h2 := dateSplit_number (fuel := k + 2) (nf := 1) (pre := [d]) hb nb (Stops.cons he.notDigit)
    (by omega) h3 (by intro x hx; cases hx with | head => exact hd.notAlnum | tail _ h => cases h)
  have h1 := dateSplit_number (fuel := k + 3) (nf := 0) (pre := []) ha na (Stops.cons hd.notDigit)
    (by omega) h2 (by intro x hx; cases hx)
  exact h1

theorem textPass_numbers {C : Type} (L : Look C) (fs : List Bytes) (i : Nat) (s : DateS × C)
    (h : ∀ f ∈ fs, Digits f) : textPass L fs i s = (.ok (fs.map some), s) := by
  induction fs generalizing i with
  | nil => rfl
  | cons f fs ih =>
    have hnot : ¬ (f.head?.map isAlpha) = some true := by
      cases f with
      | nil => simp
      | cons c t =>
        have := h (c :: t) (by simp) c (by simp)
        have hna : isAlpha c = false := by
          rw [Bool.eq_false_iff, ne_eq, isAlpha_iff]; omega
        simp [hna]
    rw [textPass, St.ite_run, if_neg hnot, St.bind_ok (ih (i + 1) fun g hg => h g (List.mem_cons_of_mem _ hg))]
    rfl

end Pg

namespace Pg
open Spec

section
variable {f : Bytes} {fs : List (Option Bytes)} {order : DateOrder} {tm : PgTime} {is2 ht : Bool}
  {t d m : Nat} {x : Int}

theorem numPass_year (hd : Digits f) (hne : f ≠ []) (hk : NumOk f)
    (h : (m &&& 14 = 0 ∧ (3 ≤ f.length ∨ order = .ymd)) ∨ m &&& 14 = 10) (hm : m &&& 4 = 0) :
    numPass order (some f :: fs) ⟨tm, is2, t, d, m, x, ht⟩ = numPass order fs
      ⟨{ tm with year := value f }, decide (f.length ≤ 2), t ||| 4, 4, m ||| 4, x, ht⟩ :=
  numPass_step hd hne hk (nv_year _ h) hm

theorem numPass_month (hd : Digits f) (hne : f ≠ []) (hk : NumOk f)
    (h : (m &&& 14 = 0 ∧ f.length ≤ 2 ∧ order = .mdy) ∨ (m &&& 14 = 4 ∧ f.length ≠ 3) ∨ m &&& 14 = 8)
    (hm : m &&& 2 = 0) :
    numPass order (some f :: fs) ⟨tm, is2, t, d, m, x, ht⟩ = numPass order fs
      ⟨{ tm with mon := value f }, is2, t ||| 2, 2, m ||| 2, x, ht⟩ :=
  numPass_step hd hne hk (nv_month _ h) hm

theorem numPass_day (hd : Digits f) (hne : f ≠ []) (hk : NumOk f)
    (h : (m &&& 14 = 0 ∧ f.length ≤ 2 ∧ order = .dmy) ∨ m &&& 14 = 2 ∨ m &&& 14 = 6)
    (hm : m &&& 8 = 0) :
    numPass order (some f :: fs) ⟨tm, is2, t, d, m, x, false⟩ = numPass order fs
      ⟨{ tm with mday := value f }, is2, t ||| 8, 8, m ||| 8, x, false⟩ :=
  numPass_step (s := ⟨tm, is2, t, d, m, x, false⟩) hd hne hk (nv_day _ h) hm

end

/-- The result of reading three numbers. -/
def threeS (tm : PgTime) (n : Bytes × Bytes × Bytes) (dm : Nat) : DateS :=
  { tm := { tm with year := value n.1, mon := value n.2.1, mday := value n.2.2 },
    is2 := decide (n.1.length ≤ 2), tMask := 14, dMask := dm, fMask := 14 }

theorem numPass_three (order : DateOrder) {a b c : Bytes} (ha : Digits a) (na : a ≠ []) (hb : Digits b)
    (nb : b ≠ []) (hc : Digits c) (nc : c ≠ []) (h3 : 3 ≤ a.length ∨ order = .ymd → b.length ≠ 3)
    (tm : PgTime) (is2 : Bool) :
    if NumOk a ∧ NumOk b ∧ NumOk c then
      ∃ dm, numPass order [some a, some b, some c] { tm := tm, is2 := is2, fMask := 0 } =
        (.ok (), threeS tm (assign3 order (decide (3 ≤ a.length)) a b c) dm)
    else ∃ s', numPass order [some a, some b, some c] { tm := tm, is2 := is2, fMask := 0 } =
        (.err .overflow, s') := by
  by_cases ka : NumOk a
  swap
  · rw [if_neg (fun h => ka h.1)]; exact numPass_bad ha na ka
  by_cases h1 : 3 ≤ a.length ∨ order = .ymd
  · -- year first
    rw [numPass_year ha na ka (Or.inl ⟨by decide, h1⟩) (by decide)]
    by_cases kb : NumOk b
    swap
    · rw [if_neg (fun h => kb h.2.1)]; exact numPass_bad hb nb kb
    rw [numPass_month hb nb kb (Or.inr (Or.inl ⟨by decide, h3 h1⟩)) (by decide)]
    by_cases kc : NumOk c
    swap
    · rw [if_neg (fun h => kc h.2.2)]; exact numPass_bad hc nc kc
    rw [if_pos ⟨ka, kb, kc⟩]
    rw [numPass_day hc nc kc (Or.inr (Or.inr (by decide))) (by decide)]
    have : assign3 order (decide (3 ≤ a.length)) a b c = (a, b, c) := by
      unfold assign3
      rcases h1 with h | h
      · simp [h]
      · subst h; simp
    rw [this]
    exact ⟨8, rfl⟩
  · have h2 : a.length ≤ 2 := by omega
    have h1' : ¬ order = .ymd := fun h => h1 (Or.inr h)
    have hdec : decide (3 ≤ a.length) = false := by simp; omega
    rw [hdec]
    cases order with
    | ymd => exact absurd rfl h1'
    | dmy =>
      rw [numPass_day ha na ka (Or.inl ⟨by decide, h2, rfl⟩) (by decide)]
      by_cases kb : NumOk b
      swap
      · rw [if_neg (fun h => kb h.2.1)]; exact numPass_bad hb nb kb
      rw [numPass_month hb nb kb (Or.inr (Or.inr (by decide))) (by decide)]
      by_cases kc : NumOk c
      swap
      · rw [if_neg (fun h => kc h.2.2)]; exact numPass_bad hc nc kc
      rw [if_pos ⟨ka, kb, kc⟩]
      rw [numPass_year hc nc kc (Or.inr (by decide)) (by decide)]
      exact ⟨4, rfl⟩
    | mdy =>
      rw [numPass_month ha na ka (Or.inl ⟨by decide, h2, rfl⟩) (by decide)]
      by_cases kb : NumOk b
      swap
      · rw [if_neg (fun h => kb h.2.1)]; exact numPass_bad hb nb kb
      rw [numPass_day hb nb kb (Or.inr (Or.inl (by decide))) (by decide)]
      by_cases kc : NumOk c
      swap
      · rw [if_neg (fun h => kc h.2.2)]; exact numPass_bad hc nc kc
      rw [if_pos ⟨ka, kb, kc⟩]
      rw [numPass_year hc nc kc (Or.inr (by decide)) (by decide)]
      exact ⟨4, rfl⟩

theorem decodeDate_run {C : Type} {L : Look C} {str : Bytes} {order : DateOrder} {s : Dec} {c c' : C}
    {r : Res Unit} {t : DateS}
    (h : dateBody L str order (({ tm := s.tm, is2 := s.is2, fMask := s.fMask } : DateS), c) = (r, (t, c'))) :
    decodeDate L str order (s, c) = (r, ({ s with tm := t.tm, is2 := t.is2, tMask := t.tMask }, c')) := by
  simp only [decodeDate, St.zoom, h]

/-- Decoding a date field of three numbers. -/
theorem decodeDate_three (order : DateOrder) {a b c : Bytes} {d e : Nat} (hd : isSep d) (he : isSep e)
    (ha : Digits a) (na : a ≠ []) (hb : Digits b)
    (nb : b ≠ []) (hc : Digits c) (nc : c ≠ []) (h3 : 3 ≤ a.length ∨ order = .ymd → b.length ≠ 3)
    (s : Dec) (hs : s.fMask = 0) {n : Bytes × Bytes × Bytes}
    (hn : assign3 order (decide (3 ≤ a.length)) a b c = n) :
    if NumOk a ∧ NumOk b ∧ NumOk c then
      decodeDate plainLook (a ++ d :: (b ++ e :: c)) order (s, ()) =
        (.ok (), ({ s with tm := { s.tm with year := value n.1, mon := value n.2.1, mday := value n.2.2 },
                           is2 := decide (n.1.length ≤ 2), tMask := 14 }, ()))
    else ∃ s', decodeDate plainLook (a ++ d :: (b ++ e :: c)) order (s, ()) = (.err .overflow, s') := by
  subst hn
  have hsp := dateSplit_three hd he ha na hb nb hc nc ((a ++ d :: (b ++ e :: c)).length + 1) (by
    have := List.length_pos_iff.2 na
    have := List.length_pos_iff.2 nb
    have := List.length_pos_iff.2 nc
    simp; omega)
  have htp := textPass_numbers plainLook [a, b, c] 0
    (({ tm := s.tm, is2 := s.is2, fMask := 0 } : DateS), ()) (by
      intro f hf
      simp only [List.mem_cons, List.not_mem_nil, or_false] at hf
      rcases hf with rfl | rfl | rfl <;> assumption)
  have hnp := numPass_three order ha na hb nb hc nc h3 s.tm s.is2
  by_cases hk : NumOk a ∧ NumOk b ∧ NumOk c
  · rw [if_pos hk] at hnp ⊢
    obtain ⟨dm, hnp⟩ := hnp
    have hbody : dateBody plainLook (a ++ d :: (b ++ e :: c)) order
        (({ tm := s.tm, is2 := s.is2, fMask := s.fMask } : DateS), ()) =
        (.ok (), (threeS s.tm (assign3 order (decide (3 ≤ a.length)) a b c) dm, ())) := by
      unfold dateBody
      rw [hs, hsp, St.lift_ok_bind, St.bind_ok htp, List.map_cons, List.map_cons, List.map_cons, List.map_nil,
        St.bind_ok (noLook_run hnp), St.bind_ok (noLook_run (St.get_run _)), St.ite_run, if_neg (by simp [threeS])]
      rfl
    exact decodeDate_run hbody
  · rw [if_neg hk] at hnp ⊢
    obtain ⟨s', hnp⟩ := hnp
    have hbody : dateBody plainLook (a ++ d :: (b ++ e :: c)) order
        (({ tm := s.tm, is2 := s.is2, fMask := s.fMask } : DateS), ()) = (.err .overflow, (s', ())) := by
      unfold dateBody
      rw [hs, hsp, St.lift_ok_bind, St.bind_ok htp, List.map_cons, List.map_cons, List.map_cons, List.map_nil,
        St.bind_err (noLook_run hnp)]
    exact ⟨_, decodeDate_run hbody⟩

end Pg
