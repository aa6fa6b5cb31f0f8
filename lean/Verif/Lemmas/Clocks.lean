import Verif.Lemmas.JulianFrac
import Verif.Lemmas.Special
import Verif.Spec.Agree

/-! # The clock fields stay within bounds -/

namespace Pg
open Spec

variable {σ τ α β C : Type}

/-! ## What holds after a computation, successful or not -/

/-- `m` keeps `Q`, whatever its result. -/
def Stays (Q : σ → Prop) (m : St σ α) : Prop := ∀ s, Q s → Q (m s).2

namespace Stays

variable {Q : σ → Prop}

theorem pure {a : α} : Stays Q (Pure.pure a : St σ α) := fun _ h => h
theorem fail {e : Err} : Stays Q (St.fail e : St σ α) := fun _ h => h
theorem get : Stays Q (St.get : St σ σ) := fun _ h => h
theorem lift {r : Res α} : Stays Q (St.lift r) := fun _ h => h
theorem mod {f : σ → σ} (h : ∀ s, Q s → Q (f s)) : Stays Q (St.mod f) := h

theorem bindOk {m : St σ α} {f : α → St σ β} (h : Stays Q m) (hf : ∀ s a s', m s = (.ok a, s') → Stays Q (f a)) : Stays Q (m >>= f) := by
  intro s hs
  have := h s hs
  rw [St.bind_run]
  rcases hm : m s with ⟨r, s'⟩
  rw [hm] at this
  cases r with
  | ok a => exact hf s a s' hm _ this
  | err => exact this
  | panic => exact this

theorem bind {m : St σ α} {f : α → St σ β} (h : Stays Q m) (hf : ∀ a, Stays Q (f a)) : Stays Q (m >>= f) :=
  h.bindOk fun _ a _ _ => hf a

theorem liftBind {r : Res α} {f : α → St σ β} (hf : ∀ a, r = .ok a → Stays Q (f a)) : Stays Q (St.lift r >>= f) :=
  lift.bindOk fun _ a _ h => hf a (congrArg Prod.fst h)

theorem modBind {g : σ → σ} {f : Unit → St σ β} (h : ∀ s, Q s → Q (g s)) (hf : Stays Q (f ())) : Stays Q (St.mod g >>= f) :=
  (mod h).bind fun _ => hf

theorem ite {c : Prop} [Decidable c] {m n : St σ α} (hm : c → Stays Q m) (hn : ¬ c → Stays Q n) : Stays Q (if c then m else n) := by
  by_cases h : c
  · rw [if_pos h]; exact hm h
  · rw [if_neg h]; exact hn h

theorem ignore {m : St σ α} (h : Stays Q m) : Stays Q (St.ignore m) := by
  intro s hs
  have := h s hs
  unfold St.ignore
  rcases hm : m s with ⟨r, s'⟩
  rw [hm] at this
  cases r <;> exact this

theorem noLook {m : St σ α} (h : Stays Q m) : Stays (fun s : σ × C => Q s.1) (Pg.noLook m) := fun s hs => h s.1 hs

theorem look {L : Look C} {i : Nat} {w : Bytes} : Stays (fun s : σ × C => Q s.1) (lookDate L i w) := fun _ h => h

theorem post {m : St σ α} (h : Stays Q m) {s : σ} (hs : Q s) : Post m (fun _ s' => Q s') s := fun a s' e => by
  have := h s hs
  rw [e] at this
  exact this

end Stays

/-! ## Numbers -/

/-- Letters, digits and points. -/
def Dotted (w : Bytes) : Prop := ∀ b ∈ w, isAlnum b = true ∨ b = 46

theorem Dotted.drop {w : Bytes} (h : Dotted w) (n : Nat) : Dotted (w.drop n) := fun b hb => h b (List.mem_of_mem_drop hb)
theorem Dotted.take {w : Bytes} (h : Dotted w) (n : Nat) : Dotted (w.take n) := fun b hb => h b (List.mem_of_mem_take hb)

theorem dotted_head {b : Nat} (h : isAlnum b = true ∨ b = 46) : isSpace b = false ∧ b ≠ 43 ∧ b ≠ 45 := by
  rcases h with h | rfl
  · have hs : isSpace b = false := by
      rw [Bool.eq_false_iff]
      intro hs
      unfold isAlnum at h
      rw [Bool.or_eq_true] at h
      rcases h with h | h
      · rw [alpha_noSpace b h] at hs; cases hs
      · rw [digit_noSpace b h] at hs; cases hs
    refine ⟨hs, ?_, ?_⟩ <;> (rintro rfl; revert h; decide)
  · decide

theorem digits_take (w : Bytes) : Digits (w.takeWhile isDigit) := fun b hb => (isDigit_iff b).1 (all_take _ _ b hb)

theorem take_le (w : Bytes) : (w.takeWhile isDigit).length ≤ (w.takeWhile fun b => b ≠ 46).length := by
  induction w with
  | nil => simp
  | cons b w ih =>
    rw [List.takeWhile_cons, List.takeWhile_cons]
    by_cases hb : isDigit b = true
    · have : b ≠ 46 := by rintro rfl; cases hb
      rw [if_pos hb, if_pos (by simpa using this), List.length_cons, List.length_cons]
      omega
    · simp [hb]

theorem take_drop_le (w : Bytes) (k : Nat) (hk : k ≤ (w.takeWhile fun b => b ≠ 46).length) :
    ((w.drop k).takeWhile fun b => b ≠ 46).length ≤ (w.takeWhile fun b => b ≠ 46).length - k := by
  induction k generalizing w with
  | zero => simp
  | succ k ih =>
    cases w with
    | nil => simp
    | cons b w =>
      rw [List.takeWhile_cons] at hk ⊢
      by_cases hb : b ≠ 46
      · rw [if_pos (by simpa using hb), List.length_cons] at hk ⊢
        rw [List.drop_succ_cons]
        have := ih w (by omega)
        omega
      · rw [if_neg (by simpa using hb)] at hk
        simp at hk

theorem str2i32_dotted {w : Bytes} (h : Dotted w) {v : Int} {r : Bytes} (e : str2i32 w = .ok (v, r)) :
    0 ≤ v ∧ v ≤ 2147483647 ∧ ((w.takeWhile fun b => b ≠ 46).length ≤ 2 → v ≤ 99) := by
  unfold str2i32 at e
  have hd : w.dropWhile isSpace = w := by
    cases w with
    | nil => rfl
    | cons b w => exact dropWhile_stop (Stops.cons (dotted_head (h b (by simp))).1)
  simp only [hd] at e
  split at e
  · injection e with e
    obtain rfl : (0 : Int) = v := congrArg Prod.fst e
    omega
  · have hs : extractSign w = (1, w) := by
      cases w with
      | nil => rfl
      | cons b w =>
        have := dotted_head (h b (by simp))
        unfold extractSign
        split
        · rename_i e'; injection e' with e' _; omega
        · rename_i e'; injection e' with e' _; omega
        · rfl
    rw [hs] at e
    simp only at e
    split at e
    · cases e
    · split at e
      · rename_i hi
        injection e with e
        have hv : foldDigits 0 (w.takeWhile isDigit) * 1 = v := congrArg Prod.fst e
        rw [foldDigits_eq _ (digits_take w)] at hv
        have := value_lt (digits_take w)
        rw [foldDigits_eq _ (digits_take w)] at hi
        unfold In32 at hi
        refine ⟨by omega, by omega, fun hl => ?_⟩
        have hl := Nat.le_trans (take_le w) hl
        have hp : 10 ^ (w.takeWhile isDigit).length ≤ 10 ^ 2 := Nat.pow_le_pow_right (by omega) hl
        omega
      · cases e

/-- A sign that stands alone. -/
def Lone (w : Bytes) : Prop := w = [43] ∨ w = [45]

theorem str2i32_lone {w : Bytes} (h : Lone w) : str2i32 w = .ok (0, []) := by
  rcases h with rfl | rfl <;> decide

theorem str2d_point {w : Bytes} (h : w.head? = some 46) {v : F64} {r : Bytes} (e : str2d w = .ok (v, r)) :
    ∃ fs, Digits fs ∧ fs.length ≤ 7 ∧ v = fracF64 fs := by
  cases w with
  | nil => cases h
  | cons b t =>
    cases h
    have e0 := List.takeWhile_append_dropWhile (p := isDigit) (l := t)
    rw [← e0, str2d_frac (digits_take t) (stops_drop _ _)] at e
    split at e
    · rename_i hl
      injection e with e
      exact ⟨_, digits_take t, hl, (congrArg Prod.fst e).symm⟩
    · cases e

theorem micros_point {w : Bytes} (h : w.head? = some 46) {v : F64} {r : Bytes} (e : str2d w = .ok (v, r)) :
    0 ≤ roundMicros v ∧ roundMicros v ≤ 1000000 := by
  obtain ⟨fs, h1, h2, rfl⟩ := str2d_point h e
  exact fracMicros_bounds (f := some fs) h1 h2

theorem fraction_point {w : Bytes} (h : w.head? = some 46) {v : Int} (e : parseFractionalSecond w = .ok v) : 0 ≤ v ∧ v ≤ 1000000 := by
  unfold parseFractionalSecond at e
  obtain ⟨⟨x, r⟩, h1, e⟩ := Res.bind_eq_ok.1 e
  simp only at e
  split at e
  · cases e; exact micros_point h h1
  · cases e

/-! ## The clock fields -/

/-- The clock fields are not negative and at most `N`. -/
structure ClockIn (N : Int) (tm : PgTime) (f : Int) : Prop where
  h : 0 ≤ tm.hour ∧ tm.hour ≤ N
  m : 0 ≤ tm.min ∧ tm.min ≤ N
  s : 0 ≤ tm.sec ∧ tm.sec ≤ N
  f : 0 ≤ f ∧ f ≤ 1000000

theorem ClockIn.same {N : Int} {tm tm' : PgTime} {f : Int} (h : ClockIn N tm f) (h1 : tm'.hour = tm.hour) (h2 : tm'.min = tm.min)
    (h3 : tm'.sec = tm.sec) : ClockIn N tm' f := ⟨h1 ▸ h.h, h2 ▸ h.m, h3 ▸ h.s, h.f⟩

/-- The same for the state of the number decoders. -/
abbrev NumIn (N : Int) (s : NumS) : Prop := ClockIn N s.tm s.fsec

variable {N : Int}

theorem numberDate_stays (w : Bytes) : Stays (NumIn N) (numberDate w) := by
  unfold numberDate
  refine Stays.modBind (fun s h => h) (Stays.liftBind fun a _ => ?_)
  refine Stays.modBind (fun s h => h.same rfl rfl rfl) (Stays.liftBind fun a _ => ?_)
  refine Stays.modBind (fun s h => h.same rfl rfl rfl) (Stays.liftBind fun a _ => ?_)
  refine Stays.modBind (fun s h => h.same rfl rfl rfl) (Stays.modBind (fun s h => ?_) Stays.pure)
  split <;> exact h

theorem numberTime_stays (hN : 99 ≤ N) {w : Bytes} (hw : Dotted w ∨ Lone w) {len : Nat} (hl : dotPos w = len) (m : Nat) :
    Stays (NumIn N) (numberTime w len m) := by
  have two : ∀ t : Bytes, t.length ≤ 2 → (t.takeWhile fun b => b ≠ 46).length ≤ 2 := fun t ht =>
    Nat.le_trans (List.Sublist.length_le (List.takeWhile_sublist _)) ht
  unfold dotPos at hl
  have hlone : Lone w → len = 1 := by rintro (rfl | rfl) <;> exact hl.symm
  unfold numberTime
  refine Stays.ite (fun hc => ?_) fun _ => Stays.ite (fun hc => ?_) fun _ => Stays.fail
  · have hw : Dotted w := hw.resolve_right fun h => by have := hlone h; omega
    refine Stays.modBind (fun s h => h) (Stays.liftBind fun a ha => ?_)
    have h1 := str2i32_dotted (hw.drop 4) ha
    have t1 := h1.2.2 (by have := take_drop_le w 4 (by omega); omega)
    refine Stays.modBind (fun s h => ⟨h.h, h.m, ⟨h1.1, by dsimp only; omega⟩, h.f⟩) (Stays.liftBind fun a ha => ?_)
    have h1 := str2i32_dotted ((hw.drop 2).take 2) ha
    have t1 := h1.2.2 (two _ (by simp))
    refine Stays.modBind (fun s h => ⟨h.h, ⟨h1.1, by dsimp only; omega⟩, h.s, h.f⟩) (Stays.liftBind fun a ha => ?_)
    have h1 := str2i32_dotted (hw.take 2) ha
    have t1 := h1.2.2 (two _ (by simp))
    exact Stays.modBind (fun s h => ⟨⟨h1.1, by dsimp only; omega⟩, h.m, h.s, h.f⟩) Stays.pure
  · have hw : Dotted w := hw.resolve_right fun h => by have := hlone h; omega
    refine Stays.modBind (fun s h => ⟨h.h, h.m, ⟨by dsimp only; omega, by dsimp only; omega⟩, h.f⟩) (Stays.liftBind fun a ha => ?_)
    have h1 := str2i32_dotted (hw.drop 2) ha
    have t1 := h1.2.2 (by have := take_drop_le w 2 (by omega); omega)
    refine Stays.modBind (fun s h => ⟨h.h, ⟨h1.1, by dsimp only; omega⟩, h.s, h.f⟩) (Stays.liftBind fun a ha => ?_)
    have h1 := str2i32_dotted (hw.take 2) ha
    have t1 := h1.2.2 (two _ (by simp))
    exact Stays.modBind (fun s h => ⟨⟨h1.1, by dsimp only; omega⟩, h.m, h.s, h.f⟩) Stays.pure

theorem point_head (w : Bytes) (h : w.length ≠ dotPos w) : (w.drop (dotPos w)).head? = some 46 := by
  unfold dotPos at *
  induction w with
  | nil => exact absurd rfl h
  | cons b w ih =>
    rw [List.takeWhile_cons] at h ⊢
    by_cases hb : b ≠ 46
    · rw [if_pos (by simpa using hb)] at h ⊢
      rw [List.length_cons, List.drop_succ_cons]
      exact ih (by simpa using h)
    · rw [if_neg (by simpa using hb)]
      simpa using hb

theorem numberField_stays (hN : 99 ≤ N) {w : Bytes} (hw : Dotted w ∨ Lone w) (m : Nat) :
    Stays (NumIn N) (decodeNumberField w m) := by
  unfold decodeNumberField
  refine Stays.ite (fun hc => ?_) fun hc => Stays.ite (fun _ => numberDate_stays w) fun _ => numberTime_stays hN hw (by omega) m
  refine Stays.liftBind fun a ha => Stays.modBind (fun s h => ⟨h.h, h.m, h.s, micros_point (point_head w hc) ha⟩) ?_
  exact numberTime_stays hN hw rfl m

theorem numberByMask_stays (hN : 99 ≤ N) {w : Bytes} (hw : Dotted w ∨ Lone w) (v : Int) (t : Bool) (m : Nat) (o : DateOrder) :
    Stays (NumIn N) (numberByMask w v t m o) := by
  have put : ∀ f : NumS → NumS, (∀ s, NumIn N s → NumIn N (f s)) → Stays (NumIn N) (St.mod f >>= fun _ => (Pure.pure true : St NumS Bool)) :=
    fun f h => Stays.modBind h Stays.pure
  unfold numberByMask
  dsimp only
  repeat' first
    | refine Stays.ite (fun _ => ?_) (fun _ => ?_)
    | exact put _ fun s h => h.same rfl rfl rfl
    | refine Stays.get.bind fun _ => ?_
    | exact (numberField_stays hN hw _).bind fun _ => Stays.pure

theorem numberVal_stays (hN : 99 ≤ N) {w : Bytes} (hw : Dotted w ∨ Lone w) (v : Int) (t : Bool) (m : Nat) (o : DateOrder) :
    Stays (NumIn N) (decodeNumberVal w v t m o) := by
  unfold decodeNumberVal
  refine Stays.ite (fun _ => Stays.mod fun s h => h.same rfl rfl rfl) fun _ => (numberByMask_stays hN hw v t m o).bind fun _ =>
    Stays.mod fun s h => ?_
  split <;> exact h

theorem number_stays (hN : 99 ≤ N) {w : Bytes} (hw : Dotted w ∨ Lone w) (t : Bool) (m : Nat) (o : DateOrder) :
    Stays (NumIn N) (decodeNumber w t m o) := by
  unfold decodeNumber
  refine Stays.modBind (fun s h => h) (Stays.liftBind fun a _ => ?_)
  obtain ⟨v, r⟩ := a
  dsimp only
  refine Stays.ite (fun _ => Stays.fail) fun _ => ?_
  split
  · exact numberVal_stays hN hw _ _ _ _
  · refine Stays.ite (fun hc => ?_) fun _ => Stays.fail
    refine Stays.ite (fun _ => (numberField_stays hN hw _).ignore) fun _ => Stays.liftBind fun f hf => ?_
    exact Stays.modBind (fun s h => ⟨h.h, h.m, h.s, fraction_point (by rw [hc]; rfl) hf⟩) (numberVal_stays hN hw _ _ _ _)

/-! ## Dates -/

/-- The same for the state of the date decoder. -/
abbrev DateIn (N : Int) (s : DateS) : Prop := ClockIn N s.tm s.fsec

theorem numPass_stays (hN : 99 ≤ N) (o : DateOrder) (l : List (Option Bytes)) (hl : ∀ f, some f ∈ l → Dotted f) :
    Stays (DateIn N) (numPass o l) := by
  induction l with
  | nil => exact Stays.pure
  | cons x l ih =>
    have ih := ih fun f hf => hl f (by simp [hf])
    cases x with
    | none => rw [numPass]; exact ih
    | some f =>
      rw [numPass]
      refine Stays.ite (fun _ => Stays.fail) fun _ => Stays.get.bind fun s => Stays.bind (fun t ht => ?_) fun _ => ?_
      · exact number_stays (N := N) hN (Or.inl (hl f (by simp))) s.haveText s.fMask o ⟨t.dMask, t.tm, t.fsec, t.is2⟩ ht
      · exact Stays.get.bind fun s => Stays.ite (fun _ => Stays.fail) fun _ => Stays.modBind (fun s h => h) ih

theorem textPass_sub {L : Look C} (l : List Bytes) : ∀ (i : Nat) (s : DateS × C),
    Post (textPass L l i) (fun r _ => ∀ f, some f ∈ r → f ∈ l) s := by
  induction l with
  | nil => intro i s; rw [textPass, Post.pure]; simp
  | cons g l ih =>
    intro i s
    have keep : ∀ s : DateS × C, Post (textPass L l (i + 1)) (fun r _ => ∀ f, some f ∈ some g :: r → f ∈ g :: l) s := by
      intro s
      refine (ih (i + 1) s).mono fun r s' h => ?_
      intro f hf
      rcases List.mem_cons.1 hf with hf | hf
      · cases hf; simp
      · exact List.mem_cons_of_mem _ (h f hf)
    rw [textPass]
    wp
    refine ⟨fun _ => fun a s' _ => ?_, fun _ => ?_⟩
    · obtain ⟨ty, v⟩ := a
      wp
      refine ⟨fun _ => ?_, fun _ _ _ => ?_⟩
      · exact keep s'
      · refine (ih (i + 1) _).mono fun r s'' h => ?_
        intro f hf
        rcases List.mem_cons.1 hf with hf | hf
        · cases hf
        · exact List.mem_cons_of_mem _ (h f hf)
    · exact keep s

theorem textPass_stays {L : Look C} (l : List Bytes) : ∀ i : Nat, Stays (fun s : DateS × C => DateIn N s.1) (textPass L l i) := by
  induction l with
  | nil => intro i; exact Stays.pure
  | cons g l ih =>
    intro i
    rw [textPass]
    refine Stays.ite (fun _ => Stays.look.bind fun a => ?_) fun _ => (ih _).bind fun _ => Stays.pure
    obtain ⟨ty, v⟩ := a
    refine Stays.ite (fun _ => (ih _).bind fun _ => Stays.pure) fun _ => Stays.ite (fun _ => ?_) fun _ => Stays.fail
    refine (Stays.noLook (Stays.mod fun s h => h.same rfl rfl rfl)).bind fun _ => (Stays.noLook Stays.get).bind fun s => ?_
    refine Stays.ite (fun _ => Stays.fail) fun _ => (Stays.noLook (Stays.mod fun s h => h.same rfl rfl rfl)).bind fun _ => (ih _).bind fun _ => Stays.pure

theorem dateSplit_plain : ∀ (n : Nat) (w : Bytes) (k : Nat) (l : List Bytes), dateSplit n w k = .ok l → ∀ f ∈ l, Dotted f := by
  intro n
  induction n with
  | zero => intro w k l h; rw [dateSplit] at h; cases h; simp
  | succ n ih =>
    intro w k l h
    rw [dateSplit] at h
    split at h
    · cases h; simp
    · split at h
      · cases h
      · split at h
        · obtain ⟨l', h', e⟩ := Res.bind_eq_ok.1 h
          cases e
          intro f hf
          rcases List.mem_cons.1 hf with rfl | hf
          · intro b hb; left; have := all_take _ _ b hb; simp [isAlnum, this]
          · exact ih _ _ _ h' f hf
        · obtain ⟨l', h', e⟩ := Res.bind_eq_ok.1 h
          cases e
          intro f hf
          rcases List.mem_cons.1 hf with rfl | hf
          · intro b hb; left; have := all_take _ _ b hb; simp [isAlnum, this]
          · exact ih _ _ _ h' f hf

theorem dateBody_stays (hN : 99 ≤ N) {L : Look C} (w : Bytes) (o : DateOrder) :
    Stays (fun s : DateS × C => DateIn N s.1) (dateBody L w o) := by
  unfold dateBody
  refine Stays.liftBind fun l hl => (textPass_stays l 0).bindOk fun s a s' ha => ?_
  have hp := dateSplit_plain _ _ _ _ hl
  refine (Stays.noLook (numPass_stays hN o a fun f hf => hp f (textPass_sub l 0 s a s' ha f hf))).bind fun _ => ?_
  exact (Stays.noLook Stays.get).bind fun s => Stays.ite (fun _ => Stays.fail) fun _ => Stays.pure


/-! ## The fields of a text -/

/-- A label of hours, minutes, seconds or months. -/
def ClockLabel (g : TokenField) : Prop := g = .hour ∨ g = .minute ∨ g = .second ∨ g = .month

/-- The clock fields are within bounds; with the small bound no such label is pending. -/
structure DecIn (N : Int) (d : Dec) : Prop where
  clock : ClockIn N d.tm d.fSec
  label : N < 2147483647 → ¬ ClockLabel d.pType

section
variable {p : Profile} {order : DateOrder} {ftypes : List TokenField} {i : Nat}

theorem onNum_in {m : St NumS α} (h : Stays (NumIn N) m) {d : Dec} (hd : DecIn N d) : Post (onNum m) (fun _ d' => DecIn N d') d := by
  unfold onNum
  rw [Post.zoom]
  exact (h.post (s := ⟨d.tMask, d.tm, d.fSec, d.is2⟩) hd.clock).mono fun _ t ht => ⟨ht, hd.label⟩

theorem date_in (hN : 99 ≤ N) (w : Bytes) {s : Dec × Unit} (hs : DecIn N s.1) :
    Post (decodeDate plainLook w order) (fun _ s' => DecIn N s'.1) s := by
  unfold decodeDate
  rw [Post.zoom]
  refine ((dateBody_stays hN w order).post (s := (({ tm := s.1.tm, is2 := s.1.is2, fMask := s.1.fMask } : DateS), s.2))
    ⟨hs.clock.h, hs.clock.m, hs.clock.s, by dsimp only; omega⟩).mono fun _ t ht => ⟨⟨ht.h, ht.m, ht.s, hs.clock.f⟩, hs.label⟩

theorem dateToken_in (hN : 99 ≤ N) (w : Bytes) {s : Dec × Unit} (hs : DecIn N s.1) :
    Post (dateToken p plainLook w order) (fun _ s' => DecIn N s'.1) s := by
  unfold dateToken
  wp
  intro _
  refine ⟨fun _ => ?_, fun _ => date_in hN w hs⟩
  split
  · rw [Post.pure]; exact hs
  · wp
    exact fun _ _ => hs

theorem julian_in {v : Int} {w : Bytes} (hN : 99 ≤ N) {d : Dec} (hd : DecIn N d) :
    Post (labelJulian p v w) (fun _ d' => DecIn N d') d := by
  unfold labelJulian
  wp
  refine fun _ c _ => ⟨fun hw a ha b hb => ?_, fun _ => ⟨hd.clock.same rfl rfl rfl, hd.label⟩⟩
  obtain ⟨x, r⟩ := a
  obtain ⟨fs, h1, h2, rfl⟩ := str2d_point hw ha
  obtain ⟨n1, n2, n3⟩ := julianMicros_near h1 h2
  have := fracTen_bound h1 h2
  rw [show ((fracF64 fs).mul (F64.ofInt 86400000000)).toI64 = julianMicros fs from rfl,
    date2time_eq p _ n1 (by omega)] at hb
  cases hb
  generalize julianMicros fs = t at *
  unfold clockOf
  refine ⟨⟨?_, ?_, ?_, ?_⟩, hd.label⟩ <;> dsimp only <;> omega

theorem assign_in (hN : 99 ≤ N) (hN2 : N ≤ 2147483647) {g : TokenField} (hg : N < 2147483647 → ¬ ClockLabel g) {w r : Bytes} {v : Int}
    (hw : Dotted w ∨ Lone w) (hv : 0 ≤ v ∧ v ≤ 2147483647) {d : Dec} (hd : DecIn N d) :
    Post (labelAssign p g w v r) (fun _ d' => DecIn N d') d := by
  have big : ClockLabel g → N = 2147483647 := fun h => by
    by_contra hn
    exact hg (by omega) h
  unfold labelAssign
  split <;> wp
  · exact ⟨hd.clock.same rfl rfl rfl, hd.label⟩
  · have := big (by simp [ClockLabel])
    split
    · exact ⟨⟨hd.clock.h, by dsimp only; omega, hd.clock.s, hd.clock.f⟩, hd.label⟩
    · exact ⟨hd.clock.same rfl rfl rfl, hd.label⟩
  · exact ⟨hd.clock.same rfl rfl rfl, hd.label⟩
  · have := big (by simp [ClockLabel])
    exact ⟨⟨by dsimp only; omega, hd.clock.m, hd.clock.s, hd.clock.f⟩, hd.label⟩
  · have := big (by simp [ClockLabel])
    exact ⟨⟨hd.clock.h, by dsimp only; omega, hd.clock.s, hd.clock.f⟩, hd.label⟩
  · have := big (by simp [ClockLabel])
    refine ⟨fun hr f hf => ?_, fun _ => ?_⟩
    · exact ⟨⟨hd.clock.h, hd.clock.m, by dsimp only; omega, fraction_point hr hf⟩, hd.label⟩
    · exact ⟨⟨hd.clock.h, hd.clock.m, by dsimp only; omega, hd.clock.f⟩, hd.label⟩
  · exact julian_in hN hd
  · exact (onNum_in (numberField_stays hN hw _) hd).mono fun _ _ h _ => h

theorem labelled_in (hN : 99 ≤ N) (hN2 : N ≤ 2147483647) {w : Bytes} (hw : Dotted w ∨ Lone w) {d : Dec} (hd : DecIn N d) :
    Post (labelled p w) (fun _ d' => DecIn N d') d := by
  unfold labelled
  wp
  intro a ha _ _
  have hv : 0 ≤ a.1 ∧ a.1 ≤ 2147483647 := by
    rcases hw with hw | hw
    · have := str2i32_dotted hw ha; omega
    · rw [str2i32_lone hw] at ha; cases ha; dsimp only; omega
  exact (assign_in hN hN2 hd.label hw hv hd).mono fun _ d' h => ⟨h.clock, fun _ => by simp [ClockLabel]⟩

theorem number_in (hN : 99 ≤ N) (hN2 : N ≤ 2147483647) {w : Bytes} (hw : Dotted w ∨ Lone w) {s : Dec × Unit} (hs : DecIn N s.1) :
    Post (numberToken p plainLook w order) (fun _ s' => DecIn N s'.1) s := by
  unfold numberToken
  wp
  exact ⟨fun _ => labelled_in hN hN2 hw hs, fun _ => ⟨fun _ => date_in hN w hs, fun _ => ⟨fun _ => onNum_in (numberField_stays hN hw _) hs,
    fun _ => ⟨fun _ => onNum_in (numberField_stays hN hw _) hs, fun _ => onNum_in (number_stays hN hw _ _ _) hs⟩⟩⟩⟩

/-- What `decode_time` guarantees. -/
theorem decodeTime_in (w : Bytes) (range : Nat) (t : TimeS) :
    Post (decodeTime w range) (fun _ t' => 0 ≤ t'.tm.hour ∧ (0 ≤ t'.tm.min ∧ t'.tm.min ≤ 59) ∧ (0 ≤ t'.tm.sec ∧ t'.tm.sec ≤ 60) ∧
      0 ≤ t'.fsec ∧ t'.fsec ≤ 1000000) t := by
  unfold decodeTime
  wp
  intro a _
  split
  · wp
    intro b _
    refine Post.any fun _ t' hb => ?_
    unfold badTime at hb
    simp only [Bool.or_eq_true, decide_eq_true_eq, not_or] at hb
    omega
  · wp

theorem timeToken_in (hN : 99 ≤ N) (w : Bytes) {d : Dec} : Post (timeToken w) (fun _ d' => DecIn N d') d := by
  unfold timeToken onTime
  wp
  intro _
  rw [Post.zoom]
  refine (decodeTime_in w _ _).mono fun _ t ht => ?_
  dsimp only
  intro h
  refine ⟨⟨?_, ?_, ?_, ?_⟩, fun _ => by simp [ClockLabel]⟩ <;> dsimp only <;> omega

theorem action_in (hN : 99 ≤ N) (ty : TokenType) (v : Int)
    (hl : N < 2147483647 → ty = .units ∨ ty = .isotime → ∀ g : TokenField, v = g.value → ¬ ClockLabel g) {d : Dec} (hd : DecIn N d) :
    Post (wordAction ftypes i ty v) (fun _ d' => DecIn N d') d := by
  unfold wordAction
  rw [Post.bind, Post.mod]
  split
  · unfold reservedWord
    wp
    intro a ha
    split <;> wp
    · exact ⟨⟨by dsimp only; omega, by dsimp only; omega, by dsimp only; omega, hd.clock.f⟩, hd.label⟩
    · exact ⟨hd.clock, hd.label⟩
  · unfold monthWord
    rw [Post.mod]
    dsimp only
    split <;> exact ⟨hd.clock.same rfl rfl rfl, hd.label⟩
  · rw [Post.mod]; exact ⟨hd.clock, hd.label⟩
  · rw [Post.mod]; exact ⟨hd.clock, hd.label⟩
  · rw [Post.mod]; exact ⟨hd.clock.same rfl rfl rfl, hd.label⟩
  · wp
    exact fun g hg => ⟨hd.clock, fun h => hl h (Or.inl rfl) g (ofInt_value hg)⟩
  · unfold isoTimeWord
    wp
    intro _
    split
    · rw [Post.panic]; trivial
    · wp
      exact fun _ g hg => ⟨hd.clock, fun h => hl h (Or.inr rfl) g (ofInt_value hg)⟩
  · rw [Post.fail]; trivial

/-- What is needed of the fields of a text. -/
structure GoodField (N : Int) (f : Field) : Prop where
  number : f.1 = .number → Dotted f.2 ∨ Lone f.2
  label : N < 2147483647 → ∀ ty v, Entry f ty v → ty = .units ∨ ty = .isotime → ∀ g : TokenField, v = g.value → ¬ ClockLabel g

theorem field_in (hN : 99 ≤ N) (hN2 : N ≤ 2147483647) {f : Field} (hf : GoodField N f) {s : Dec × Unit} (hs : DecIn N s.1) :
    Post (dateTimeField p plainLook order ftypes i f) (fun _ s' => DecIn N s'.1) s := by
  have step : ∀ d : Dec, DecIn N d → Post addMask (fun _ d' => DecIn N d') d := by
    intro d h
    rw [addMask_post]
    exact fun _ => ⟨h.clock, h.label⟩
  have word : f.1 = .string ∨ f.1 = .special → Post (wordToken plainLook ftypes i f.2) (fun _ s' => DecIn N s'.1) s := by
    intro hw
    unfold wordToken
    rw [Post.bind, Post.look]
    dsimp only
    wp
    refine ⟨fun _ => hs, fun _ => action_in hN _ _ (fun h hu => hf.label h _ _ ⟨hw, rfl, ?_⟩ hu) hs⟩
    rintro hu'
    rw [hu'] at hu
    rcases hu with hu | hu <;> cases hu
  unfold dateTimeField
  split
  · wp; exact (dateToken_in hN f.2 hs).mono fun _ s' h => step s'.1 h
  · wp; exact (timeToken_in hN f.2).mono fun _ d' h => step d' h
  · rename_i e; wp; exact (number_in hN hN2 (hf.number e) hs).mono fun _ s' h => step s'.1 h
  · rename_i e; wp; exact (word (Or.inl e)).mono fun b s' h => ⟨fun _ => h, fun _ => step s'.1 h⟩
  · rename_i e; wp; exact (word (Or.inr e)).mono fun b s' h => ⟨fun _ => h, fun _ => step s'.1 h⟩
  · wp

theorem validateDate_clock {tm tm' : PgTime} {m : Nat} {a b c : Bool} (h : tm.validateDate p m a b c = .ok tm') :
    tm'.hour = tm.hour ∧ tm'.min = tm.min ∧ tm'.sec = tm.sec := by
  unfold PgTime.validateDate at h
  obtain ⟨t1, h1, h⟩ := Res.bind_eq_ok.1 h
  obtain ⟨t2, h2, h⟩ := Res.bind_eq_ok.1 h
  have e1 : t1.hour = tm.hour ∧ t1.min = tm.min ∧ t1.sec = tm.sec := by
    unfold PgTime.validateYear at h1
    repeat' split at h1
    all_goals first
      | (cases h1; done)
      | (cases h1; exact ⟨rfl, rfl, rfl⟩)
      | (obtain ⟨_, -, h1⟩ := Res.bind_eq_ok.1 h1; cases h1; exact ⟨rfl, rfl, rfl⟩)
      | (obtain ⟨_, -, h1⟩ := Res.bind_eq_ok.1 h1; obtain ⟨_, -, h1⟩ := Res.bind_eq_ok.1 h1; cases h1; exact ⟨rfl, rfl, rfl⟩)
  have e2 : t2.hour = t1.hour ∧ t2.min = t1.min ∧ t2.sec = t1.sec := by
    unfold PgTime.validateDoy at h2
    split at h2
    · obtain ⟨_, -, h2⟩ := Res.bind_eq_ok.1 h2
      obtain ⟨_, -, h2⟩ := Res.bind_eq_ok.1 h2
      obtain ⟨_, -, h2⟩ := Res.bind_eq_ok.1 h2
      obtain ⟨_, -, h2⟩ := Res.bind_eq_ok.1 h2
      cases h2
      exact ⟨rfl, rfl, rfl⟩
    · cases h2; exact ⟨rfl, rfl, rfl⟩
  have e3 : tm' = t2 := by
    unfold PgTime.validateMonthDay at h
    split at h
    · cases h
    · split at h
      · cases h
      · split at h
        · obtain ⟨_, -, h⟩ := Res.bind_eq_ok.1 h
          split at h
          · cases h
          · cases h; rfl
        · cases h; rfl
  rw [e3]
  exact ⟨e2.1.trans e1.1, e2.2.1.trans e1.2.1, e2.2.2.trans e1.2.2⟩

theorem finish_in (hN : 99 ≤ N) {d : Dec} (hd : DecIn N d) : Post (finishFields p) (fun _ d' => DecIn N d') d := by
  unfold finishFields
  wp
  intro tm htm h1
  obtain ⟨e1, e2, e3⟩ := validateDate_clock htm
  have hc : ClockIn N tm d.fSec := hd.clock.same e1 e2 e3
  have hh := hc.h
  refine ⟨fun h2 => ?_, fun _ => ⟨fun h2 x hx => ?_, fun _ => ⟨hc, hd.label⟩⟩⟩
  · exact ⟨⟨by dsimp only; omega, hc.m, hc.s, hc.f⟩, hd.label⟩
  · rw [chk32_ok (by omega)] at hx
    cases hx
    exact ⟨⟨by dsimp only; omega, hc.m, hc.s, hc.f⟩, hd.label⟩

/-- The clock fields at the end are within bounds. -/
theorem decode_in (hN : 99 ≤ N) (hN2 : N ≤ 2147483647) {l : List Field} (hl : ∀ f ∈ l, GoodField N f) {d : Dec}
    (h : decodeDateTime p plainLook order l ({}, ()) = (.ok (), (d, ()))) : ClockIn N d.tm d.fSec := by
  have : Post (decodeDateTime p plainLook order l) (fun _ s => DecIn N s.1) ({}, ()) := by
    unfold decodeDateTime
    rw [Post.bind]
    refine (loop_all (I := DecIn N) (G := GoodField N) (fun ft i f s hf hs => field_in hN hN2 hf hs) l _ 0 ({}, ()) hl
      ⟨⟨by dsimp only; omega, by dsimp only; omega, by dsimp only; omega, by dsimp only; omega⟩, fun _ => by simp [ClockLabel]⟩).mono fun _ s hs => ?_
    wp
    exact (finish_in hN hs).mono fun _ d hd _ => hd
  exact (this _ _ h).clock

end

/-! ## The scanner -/

theorem scanLoop_field {u : TokenField} {P : Field → Prop}
    (hP : ∀ c r f rest, startB c = true → scanField u c (c :: r) = .ok (f, rest) → P f) :
    ∀ (fuel : Nat) (s : Bytes) (cap nf : Nat) (l : List Field), scanLoop u fuel s cap nf = .ok l → ∀ f ∈ l, P f := by
  intro fuel
  induction fuel with
  | zero => intro s cap nf l h; rw [scanLoop] at h; cases h; simp
  | succ n ih =>
    intro s cap nf l h
    rw [scanLoop] at h
    split at h
    · cases h; simp
    · split at h
      · cases h
      · split at h
        · rename_i hst
          split at h
          · cases h
          · obtain ⟨⟨f, rest⟩, hf, h⟩ := Res.bind_eq_ok.1 h
            simp only at h
            split at h
            · cases h
            · obtain ⟨l', hl, h⟩ := Res.bind_eq_ok.1 h
              cases h
              intro g hg
              rcases List.mem_cons.1 hg with rfl | hg
              · exact hP _ _ _ _ hst hf
              · exact ih _ _ _ _ hl g hg
        · split at h
          · exact ih _ _ _ _ h
          · cases h

theorem digit_dotted {b : Nat} (h : isDigit b = true) : isAlnum b = true ∨ b = 46 := Or.inl (by simp [isAlnum, h])

theorem numberField_plain {u : TokenField} {c : Nat} {r : Bytes} {f : Field} {rest : Bytes}
    (hc : startB c = true)
    (h : scanField u c (c :: r) = .ok (f, rest)) (hf : f.1 = .number) : Dotted f.2 ∨ Lone f.2 := by
  have digits : ∀ x : Bytes, Dotted (x.takeWhile isDigit) := fun x b hb => digit_dotted (all_take _ _ b hb)
  unfold scanField at h
  split at h
  · left
    injection h with h
    obtain rfl : (scanDigit (c :: r)).1 = f := congrArg Prod.fst h
    clear h
    unfold scanDigit at hf ⊢
    split
    · exact digits _
    · rename_i x y e
      rw [e] at hf
      dsimp only at hf ⊢
      split at hf
      · cases hf
      · rename_i h58
        rw [if_neg h58]
        split at hf
        · rename_i hd
          rw [if_pos hd]
          dsimp only at hf ⊢
          have key : Dotted (scanDelim x y).2.1 := by
            unfold scanDelim at hf ⊢
            split at hf
            · dsimp only at hf ⊢
              split at hf
              · rename_i h46; intro b hb; right; rw [List.mem_singleton.1 hb]; exact h46
              · cases hf
            · dsimp only at hf ⊢
              split at hf
              · rename_i hdig
                rw [if_pos hdig]
                split at hf
                · cases hf
                · rename_i hne
                  rw [if_neg hne]
                  dsimp only at hf ⊢
                  split at hf
                  · rename_i h46
                    intro b hb
                    rcases List.mem_cons.1 hb with rfl | hb
                    · exact Or.inr h46
                    · exact digits _ b hb
                  · cases hf
              · cases hf
          intro b hb
          rcases List.mem_append.1 hb with hb | hb
          · exact digits _ b hb
          · exact key b hb
        · rename_i hd
          rw [if_neg hd]
          exact digits _
  · split at h
    · rename_i h46
      left
      injection h with h
      obtain rfl : (scanDot (c :: r)).1 = f := congrArg Prod.fst h
      intro b hb
      rcases List.mem_cons.1 hb with rfl | hb
      · exact Or.inr h46
      · exact digits _ b hb
    · split at h
      · exfalso
        unfold scanAlpha at h
        obtain ⟨b, -, h⟩ := Res.bind_eq_ok.1 h
        split at h
        · cases h; cases hf
        · cases h; cases hf
      · right
        rename_i h1 h2 h3
        unfold scanSign at h
        dsimp only at h
        split at h
        · cases h
          simp only [startB, Bool.or_eq_true, decide_eq_true_eq] at hc
          rcases hc with (((hc | hc) | hc) | rfl) | rfl
          · exact absurd hc h1
          · exact absurd hc h2
          · exact absurd hc h3
          · exact Or.inl rfl
          · exact Or.inr rfl
        · split at h
          · cases h; cases hf
          · split at h
            · cases h; cases hf
            · cases h


theorem scan_good {u : TokenField} {s : Bytes} {l : List Field} (h : scan u s = .ok l) (hN : N < 2147483647 → ¬ Says clockLabels s) :
    ∀ f ∈ l, GoodField N f := by
  intro f hf
  have hw := scan_wordAt h f hf
  refine ⟨fun hn => ?_, fun hN' ty v he hu g hg hc => ?_⟩
  · unfold scan at h
    split at h
    · cases h
    · exact scanLoop_field (P := fun f => f.1 = .number → Dotted f.2 ∨ Lone f.2) (fun c r f rest h1 h2 h3 => numberField_plain h1 h2 h3)
        _ _ _ _ _ h f hf hn
  · refine hN hN' ?_
    obtain ⟨e, m, h1, h2, h3, w, h4⟩ := entry_word he hw
    have tab : ∀ e ∈ dateTable, (e.ty = .units ∨ e.ty = .isotime) →
      e.value = TokenField.hour.value ∨ e.value = TokenField.minute.value ∨ e.value = TokenField.second.value ∨ e.value = TokenField.month.value →
      e.token ∈ clockLabels ∧ e.token.head? ≠ some 45 ∧ e.token.map smallLetter = e.token := by decide +kernel
    obtain ⟨ht, hn, hs⟩ := tab e m (by rw [h1]; exact hu) (by
      rw [h2, hg]
      rcases hc with rfl | rfl | rfl | rfl <;> simp)
    rcases h4 with ⟨h4, h5⟩ | ⟨h4, h5⟩
    · refine ⟨w, h4, e.token, ht, ?_⟩
      unfold SameButCase
      rw [hs, h3, h5, lower_eq_small, List.map_take]
    · rw [h3, h5] at hn; exact absurd rfl hn

end Pg
