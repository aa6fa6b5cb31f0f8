import Verif.Props.NoNumber
import Verif.Lemmas.ClockValue

/-!
# Properties C122 and C123: nothing and zeros are zero

`c` is the state of the thread's keyword caches, `u` the uninitialised type of a lone sign.
-/

namespace Pg
open Spec

/-! ## Numbers of zeros -/

/-- All digits of the text are zeros. -/
def ZeroDigits (s : Bytes) : Prop := ∀ b ∈ s, isDigit b = true → b = 48

theorem ZeroDigits.sub {s t : Bytes} (h : ZeroDigits s) (ht : ∀ b ∈ t, b ∈ s) : ZeroDigits t := fun b hb => h b (ht b hb)

theorem foldDigits_zeros (l : Bytes) (h : ∀ b ∈ l, b = 48) : foldDigits 0 l = 0 := by
  induction l with
  | nil => rfl
  | cons b l ih =>
    obtain rfl := h b (by simp)
    exact ih fun b hb => h b (by simp [hb])

theorem ZeroDigits.take {s : Bytes} (h : ZeroDigits s) : ∀ b ∈ s.takeWhile isDigit, b = 48 := fun b hb =>
  h b ((List.takeWhile_prefix _).subset hb) (all_take _ _ b hb)

theorem ZeroDigits.drop {s : Bytes} (h : ZeroDigits s) : ZeroDigits (s.dropWhile isDigit) := h.sub fun _ hb => (List.dropWhile_suffix _).subset hb

theorem ZeroDigits.tail {b : Nat} {s : Bytes} (h : ZeroDigits (b :: s)) : ZeroDigits s := h.sub fun _ hx => by simp [hx]

theorem ZeroDigits.spaces {s : Bytes} (h : ZeroDigits s) : ZeroDigits (s.dropWhile isSpace) := h.sub fun _ hb => (List.dropWhile_suffix _).subset hb

theorem ZeroDigits.sign {s : Bytes} (h : ZeroDigits s) : ZeroDigits (extractSign s).2 := by
  unfold extractSign
  split
  · exact h.tail
  · exact h.tail
  · exact h

theorem str2i32_zeroDigits {s : Bytes} (h : ZeroDigits s) {x : Int × Bytes} (hx : str2i32 s = .ok x) : x.1 = 0 ∧ ZeroDigits x.2 := by
  unfold str2i32 at hx
  dsimp only at hx
  split at hx
  · cases hx; exact ⟨rfl, h.spaces⟩
  · split at hx
    · cases hx
    · rw [foldDigits_zeros _ h.spaces.sign.take, Int.zero_mul] at hx
      cases hx
      exact ⟨rfl, h.spaces.sign.drop⟩

theorem fracPart_zeroDigits {s : Bytes} (h : ZeroDigits s) : (∀ b ∈ (fracPart s).1, b = 48) ∧ ZeroDigits (fracPart s).2 := by
  unfold fracPart
  split
  · exact ⟨h.tail.take, h.tail.drop⟩
  · exact ⟨by simp, h⟩

theorem str2d_zeroDigits {s : Bytes} (h : ZeroDigits s) {x : F64 × Bytes} (hx : str2d s = .ok x) : x.1 = .fin 0 ∧ ZeroDigits x.2 := by
  unfold str2d at hx
  dsimp only at hx
  split at hx
  · cases hx; exact ⟨rfl, h.spaces⟩
  · split at hx
    · cases hx
    · obtain ⟨f1, f2⟩ := fracPart_zeroDigits h.spaces.sign.drop
      split at hx
      · cases hx
      · rename_i hk
        rw [foldDigits_zeros _ h.spaces.sign.take, foldDigits_zeros _ f1, Int.zero_mul] at hx
        split at hx
        · cases hx
          exact ⟨(by decide +kernel : F64.ofInt 0 = .fin 0), f2⟩
        · cases hx
          refine ⟨?_, f2⟩
          dsimp only
          generalize (fracPart ((extractSign (s.dropWhile isSpace)).2.dropWhile isDigit)).1.length = k at hk
          have : ∀ k : Nat, k < 8 → (F64.ofInt 0).div (F64.ofInt (10 ^ k)) = .fin 0 := by decide +kernel
          exact this k (by omega)

theorem numberParts_zeroDigits {p : Profile} {s : Bytes} (h : ZeroDigits s) {x : Int × F64 × Bool} (hx : numberParts p s = .ok x) :
    x.1 = 0 ∧ x.2.1 = .fin 0 := by
  unfold numberParts at hx
  rw [Res.bind_eq_ok] at hx
  obtain ⟨⟨v, r⟩, h1, hx⟩ := hx
  obtain ⟨e1, e2⟩ := str2i32_zeroDigits h h1
  dsimp only at e1 e2 hx
  subst e1
  split at hx
  · cases hx; exact ⟨rfl, rfl⟩
  · split at hx
    · rw [Res.bind_eq_ok] at hx
      obtain ⟨y, hy, hx⟩ := hx
      cases hx
      refine ⟨?_, rfl⟩
      unfold yearMonth at hy
      rw [Res.bind_eq_ok] at hy
      obtain ⟨⟨v2, r2⟩, h2, hy⟩ := hy
      obtain ⟨e3, -⟩ := str2i32_zeroDigits e2.tail h2
      dsimp only at e3 hy
      subst e3
      split at hy
      · cases hy
      · split at hy
        · cases hy
        · rw [Res.bind_eq_ok] at hy
          obtain ⟨v3, h3, hy⟩ := hy
          have e : v3 = 0 := by
            unfold signMonths at h3
            split at h3
            · cases p <;> exact (Res.ok.inj h3).symm
            · exact (Res.ok.inj h3).symm
          subst e
          split at hy
          · cases hy
          · cases p <;> exact (Res.ok.inj hy).symm
    · split at hx
      · rw [Res.bind_eq_ok] at hx
        obtain ⟨y, hy, hx⟩ := hx
        obtain ⟨e3, -⟩ := str2d_zeroDigits e2 hy
        split at hx
        · cases hx
        · cases hx
          refine ⟨rfl, ?_⟩
          rw [e3]
          split <;> decide +kernel
      · cases hx

theorem parseIso_zeroDigits {s : Bytes} (h : ZeroDigits s) {x : Int × F64 × Bytes} (hx : parseIsoNumber s = .ok x) :
    x.1 = 0 ∧ x.2.1 = .fin 0 ∧ ZeroDigits x.2.2 := by
  unfold parseIsoNumber at hx
  split at hx
  · cases hx
  · split at hx
    · cases hx
    · rw [Res.bind_eq_ok] at hx
      obtain ⟨y, hy, hx⟩ := hx
      obtain ⟨e1, e2⟩ := str2d_zeroDigits h hy
      dsimp only at hx
      split at hx
      · cases hx
      · rw [e1, show isoSplit (.fin 0) = .ok (0, .fin 0) by decide +kernel] at hx
        cases hx
        exact ⟨rfl, rfl, e2⟩

/-! ## Computations that keep zero -/

/-- `m` keeps `Z`, whatever its result, and its result is `R`. -/
def Good {σ α : Type} (Z : σ → Prop) (R : α → Prop) (m : St σ α) : Prop := ∀ s, Z s → Z (m s).2 ∧ ∀ a, (m s).1 = .ok a → R a

namespace Good
variable {σ α β : Type} {Z : σ → Prop} {R : α → Prop} {R' : β → Prop}

theorem bind {m : St σ α} {f : α → St σ β} (h : Good Z R m) (hf : ∀ a, R a → Good Z R' (f a)) : Good Z R' (m >>= f) := by
  intro s hs
  obtain ⟨h1, h2⟩ := h s hs
  rw [St.bind_run]
  rcases hm : m s with ⟨r, s'⟩
  rw [hm] at h1 h2
  cases r with
  | ok a => exact hf a (h2 a rfl) s' h1
  | err => exact ⟨h1, fun _ h => by cases h⟩
  | panic => exact ⟨h1, fun _ h => by cases h⟩

theorem lift {r : Res α} : Good Z (fun a => r = .ok a) (St.lift r) := fun _ h => ⟨h, fun _ h => h⟩
theorem pure {a : α} (h : R a) : Good Z R (Pure.pure a : St σ α) := fun _ hs => ⟨hs, fun _ e => by cases e; exact h⟩
theorem fail {e : Err} : Good Z R (St.fail e : St σ α) := fun _ hs => ⟨hs, fun _ e => by cases e⟩
theorem get : Good Z (fun _ => True) (St.get : St σ σ) := fun _ hs => ⟨hs, fun _ _ => trivial⟩
theorem mod {f : σ → σ} (h : ∀ s, Z s → Z (f s)) : Good Z (fun _ => True) (St.mod f) := fun s hs => ⟨h s hs, fun _ _ => trivial⟩
theorem ite {c : Prop} [Decidable c] {m n : St σ α} (hm : Good Z R m) (hn : Good Z R n) : Good Z R (if c then m else n) := by
  split
  · exact hm
  · exact hn
theorem stays {m : St σ α} (h : Good Z R m) : Stays Z m := fun s hs => (h s hs).1
theorem of {m : St σ α} (h : Stays Z m) : Good Z (fun _ => True) m := fun s hs => ⟨h s hs, fun _ _ => trivial⟩

end Good

variable {p : Profile}

/-- All fields are zero. -/
def IsoZero (s : IsoS) : Prop := s.t = ({}, 0)

theorem iso_tm {m : St TmF Unit} (h : (m ({}, 0)).2 = ({}, 0)) : Good IsoZero (fun _ => True) (onTmIso m) := Good.of fun s hs => by
  show (m s.t).2 = ({}, 0)
  rw [show s.t = ({}, 0) from hs, h]

theorem iso_part : Good IsoZero (fun _ => True) isoTimePart := .mod fun _ h => h

/-- What is left to read has no digits but zeros. -/
def RestZeroDigits : IsoStep → Prop
  | .done => True
  | .again s => ZeroDigits s
  | .field s => ZeroDigits s

theorem fract_zero {n : Int} : adjustFractSeconds p (.fin 0) n = pure () ∧ adjustFractDays p (.fin 0) n = pure () := ⟨if_pos rfl, if_pos rfl⟩

theorem iso_number {s : Bytes} (hs : ZeroDigits s) {R : IsoStep → Prop} {f : Int × F64 × Bytes → St IsoS IsoStep}
    (hf : ∀ r, ZeroDigits r → Good IsoZero R (f (0, .fin 0, r))) : Good IsoZero R (St.lift (parseIsoNumber s) >>= f) :=
  Good.lift.bind fun x hx => by
    obtain ⟨e1, e2, e3⟩ := parseIso_zeroDigits hs hx
    obtain ⟨v, fv, r⟩ := x
    dsimp only at e1 e2 e3
    subst e1 e2
    exact hf r e3

theorem add_zero : (addYear p 0 ({}, 0)).2 = ({}, 0) ∧ (addMon p 0 ({}, 0)).2 = ({}, 0) ∧ (addMday p 0 ({}, 0)).2 = ({}, 0) ∧
    (addHour p 0 ({}, 0)).2 = ({}, 0) ∧ (addMin p 0 ({}, 0)).2 = ({}, 0) ∧ (addSec p 0 ({}, 0)).2 = ({}, 0) ∧
    (addYearFrac p (.fin 0) ({}, 0)).2 = ({}, 0) := by
  cases p <;> decide +kernel

/-- The steps that add zero. -/
macro "zeros" : tactic => `(tactic| first
  | exact add_zero.1 | exact add_zero.2.1 | exact add_zero.2.2.1 | exact add_zero.2.2.2.1 | exact add_zero.2.2.2.2.1
  | exact add_zero.2.2.2.2.2.1 | exact add_zero.2.2.2.2.2.2
  | (rw [fract_zero.1]; rfl) | (rw [fract_zero.2]; rfl))

theorem iso_date3 {s : Bytes} (hs : ZeroDigits s) : Good IsoZero RestZeroDigits (isoDatePart3 p s) := by
  unfold isoDatePart3
  refine iso_number hs fun r hr => (iso_tm (by zeros)).bind fun _ _ => (iso_tm (by zeros)).bind fun _ _ => ?_
  cases r with
  | nil => exact .pure trivial
  | cons c r => exact .ite (iso_part.bind fun _ _ => .pure hr) .fail

theorem iso_date2 {s : Bytes} (hs : ZeroDigits s) : Good IsoZero RestZeroDigits (isoDatePart2 p s) := by
  unfold isoDatePart2
  refine iso_number hs fun r hr => (iso_tm (by zeros)).bind fun _ _ => (iso_tm (by zeros)).bind fun _ _ => ?_
  cases r with
  | nil => exact .pure trivial
  | cons c r => exact .ite (iso_part.bind fun _ _ => .pure hr) (.ite (iso_date3 hr.tail) .fail)

theorem iso_dateLeft {s : Bytes} (hs : ZeroDigits s) (unit : Nat) : Good IsoZero RestZeroDigits (isoDateLeft p s unit 0 (.fin 0)) := by
  unfold isoDateLeft
  exact Good.get.bind fun _ _ => .ite .fail ((iso_tm (by zeros)).bind fun _ _ => (iso_tm (by zeros)).bind fun _ _ =>
    .ite (.pure trivial) (.ite (iso_part.bind fun _ _ => .pure hs) (iso_date2 hs)))

theorem iso_date {start s : Bytes} (hs : ZeroDigits s) (unit : Nat) : Good IsoZero RestZeroDigits (isoDate p start s unit 0 (.fin 0)) := by
  unfold isoDate
  refine .ite ((iso_tm (by zeros)).bind fun _ _ => (iso_tm (by zeros)).bind fun _ _ => .pure hs) ?_
  refine .ite ((iso_tm (by zeros)).bind fun _ _ => (iso_tm (by zeros)).bind fun _ _ => .pure hs) ?_
  refine .ite (Good.lift.bind fun v hv => ?_) ?_
  · have : v = 0 := by cases p <;> exact (Res.ok.inj hv).symm
    subst this
    exact (iso_tm (by zeros)).bind fun _ _ => (iso_tm (by zeros)).bind fun _ _ => .pure hs
  refine .ite ((iso_tm (by zeros)).bind fun _ _ => (iso_tm (by zeros)).bind fun _ _ => .pure hs) ?_
  refine .ite (Good.get.bind fun _ _ => .ite ?_ (iso_dateLeft hs unit)) (.ite (iso_dateLeft hs unit) .fail)
  exact (iso_tm (by zeros)).bind fun _ _ => (iso_tm (by zeros)).bind fun _ _ => (iso_tm (by zeros)).bind fun _ _ =>
    (iso_tm (by zeros)).bind fun _ _ => .ite (.pure trivial) (iso_part.bind fun _ _ => .pure hs)

theorem iso_time3 {s : Bytes} (hs : ZeroDigits s) : Good IsoZero RestZeroDigits (isoTimePart3 p s) := by
  unfold isoTimePart3
  exact iso_number hs fun r hr => (iso_tm (by zeros)).bind fun _ _ => (iso_tm (by zeros)).bind fun _ _ => .ite (.pure trivial) .fail

theorem iso_time2 {s : Bytes} (hs : ZeroDigits s) : Good IsoZero RestZeroDigits (isoTimePart2 p s) := by
  unfold isoTimePart2
  refine iso_number hs fun r hr => (iso_tm (by zeros)).bind fun _ _ => (iso_tm (by zeros)).bind fun _ _ => ?_
  cases r with
  | nil => exact .pure trivial
  | cons c r => exact .ite (iso_time3 hr.tail) .fail

theorem iso_timeLeft {s : Bytes} (hs : ZeroDigits s) (unit : Nat) : Good IsoZero RestZeroDigits (isoTimeLeft p s unit 0 (.fin 0)) := by
  unfold isoTimeLeft
  exact Good.get.bind fun _ _ => .ite .fail ((iso_tm (by zeros)).bind fun _ _ => (iso_tm (by zeros)).bind fun _ _ =>
    .ite (.pure trivial) (iso_time2 hs))

theorem iso_time {start s : Bytes} (hs : ZeroDigits s) (unit : Nat) : Good IsoZero RestZeroDigits (isoTime p start s unit 0 (.fin 0)) := by
  unfold isoTime
  refine .ite ((iso_tm (by zeros)).bind fun _ _ => (iso_tm (by zeros)).bind fun _ _ => .pure hs) ?_
  refine .ite ((iso_tm (by zeros)).bind fun _ _ => (iso_tm (by zeros)).bind fun _ _ => .pure hs) ?_
  refine .ite ((iso_tm (by zeros)).bind fun _ _ => (iso_tm (by zeros)).bind fun _ _ => .pure hs) ?_
  refine .ite (Good.get.bind fun _ _ => .ite ?_ (iso_timeLeft hs unit)) (.ite (iso_timeLeft hs unit) .fail)
  exact (iso_tm (by zeros)).bind fun _ _ => (iso_tm (by zeros)).bind fun _ _ => (iso_tm (by zeros)).bind fun _ _ =>
    (iso_tm (by zeros)).bind fun _ _ => .pure trivial

theorem iso_zero (fuel : Nat) {s : Bytes} (hs : ZeroDigits s) : Stays IsoZero (isoLoop p fuel s) := by
  induction fuel generalizing s with
  | zero => exact .pure
  | succ n ih =>
    unfold isoLoop
    cases s with
    | nil => exact .pure
    | cons c r =>
      refine .ite (fun _ => iso_part.stays.bind fun _ => ih hs.tail) fun _ => ?_
      refine Good.stays (R := fun _ => True) (Good.lift.bind fun x hx => ?_)
      obtain ⟨e1, e2, e3⟩ := parseIso_zeroDigits hs hx
      obtain ⟨v, fv, r'⟩ := x
      dsimp only at e1 e2 e3 ⊢
      subst e1 e2
      have hr : ZeroDigits (isoUnit r').2 := by
        unfold isoUnit
        cases r' with
        | nil => exact e3
        | cons _ _ => exact e3.tail
      refine Good.bind (R := RestZeroDigits) ?_ fun step hstep => ?_
      · unfold isoNumber
        exact Good.get.bind fun _ _ => .ite (iso_date hr _) (iso_time hr _)
      · cases step with
        | done => exact .pure trivial
        | again s => exact .of (ih hstep)
        | field s => exact .of (.modBind (fun _ h => h) (ih hstep))

/-! ## The fields of an interval -/

theorem unit_zero {unit : TokenField} : (addUnit p unit 0 (.fin 0) ({}, 0)).2 = ({}, 0) := by
  cases p <;> cases unit <;> decide +kernel

theorem number_zero {f : Bytes} (hf : ZeroDigits f) (range : Nat) : Stays Unread (intervalNumber p f range) := by
  unfold intervalNumber
  refine .modBind (fun s h => by split <;> exact h) (.liftBind fun x hx => ?_)
  obtain ⟨e1, e2⟩ := numberParts_zeroDigits hf hx
  obtain ⟨v, fv, m⟩ := x
  dsimp only at e1 e2 ⊢
  subst e1 e2
  refine .modBind (fun _ h => h) (Stays.get.bind fun _ => .liftBind fun unit _ => Stays.bind (fun s hs => ?_) fun _ => .mod fun _ h => h)
  show (addUnit p unit 0 (.fin 0) s.t).2 = ({}, 0)
  rw [show s.t = ({}, 0) from hs, unit_zero]

/-- The clock of the decoder is zero. -/
def TimeZero (t : TimeS) : Prop := t.tm = {} ∧ t.fsec = 0

theorem fraction_zero {s : Bytes} (hs : ZeroDigits s) {f : Int} (h : parseFractionalSecond s = .ok f) : f = 0 := by
  unfold parseFractionalSecond at h
  rw [Res.bind_eq_ok] at h
  obtain ⟨x, hx, h⟩ := h
  obtain ⟨e, -⟩ := str2d_zeroDigits hs hx
  dsimp only at h
  split at h
  · rw [e] at h
    cases h
    decide +kernel
  · cases h

theorem seconds_zero {s : Bytes} (hs : ZeroDigits s) : Stays TimeZero (timeSeconds s) := by
  unfold timeSeconds
  refine .liftBind fun x hx => ?_
  obtain ⟨e1, e2⟩ := str2i32_zeroDigits hs hx
  obtain ⟨v, r⟩ := x
  dsimp only at e1 e2 ⊢
  subst e1
  refine .modBind (fun t ht => ⟨by show { t.tm with sec := 0 } = _; rw [ht.1], ht.2⟩) ?_
  cases r with
  | nil => exact .mod fun t ht => ⟨ht.1, rfl⟩
  | cons c r => exact .ite (fun _ => .liftBind fun f hf => .mod fun t ht => ⟨ht.1, fraction_zero e2 hf⟩) fun _ => .fail

theorem tail_zero {s : Bytes} (hs : ZeroDigits s) (range : Nat) : Stays TimeZero (timeTail s range) := by
  unfold timeTail
  have move : ∀ t : TimeS, TimeZero t → ({ t.tm with sec := t.tm.min, min := t.tm.hour, hour := 0 } : PgTime) = {} := fun t ht => by rw [ht.1]
  cases s with
  | nil =>
    refine .modBind (fun t ht => ⟨by show { t.tm with sec := 0 } = _; rw [ht.1], rfl⟩) (.ite (fun _ => .mod fun t ht => ⟨move t ht, ht.2⟩) fun _ => .pure)
  | cons c r =>
    exact .ite (fun _ => .liftBind fun f hf => .mod fun t ht => ⟨move t ht, fraction_zero hs hf⟩) fun _ => .ite (fun _ => seconds_zero hs.tail) fun _ => .fail

theorem clock_zero {f : Bytes} (hf : ZeroDigits f) (range : Nat) : Stays Unread (onTimeI (decodeTime f range)) := by
  suffices Stays TimeZero (decodeTime f range) by
    intro s hs
    obtain ⟨h1, h2⟩ := this ⟨s.tMask, s.t.1, s.t.2⟩ ⟨congrArg Prod.fst hs, congrArg Prod.snd hs⟩
    exact Prod.ext h1 h2
  unfold decodeTime
  refine .modBind (fun _ h => h) (.liftBind fun x hx => ?_)
  obtain ⟨e1, e2⟩ := str2i32_zeroDigits hf hx
  obtain ⟨v, r⟩ := x
  dsimp only at e1 e2 ⊢
  subst e1
  refine .modBind (fun t ht => ⟨by show { t.tm with hour := 0 } = _; rw [ht.1], ht.2⟩) ?_
  split
  · rename_i r'
    refine .liftBind fun x hx => ?_
    obtain ⟨e1, e2⟩ := str2i32_zeroDigits e2.tail hx
    obtain ⟨v, r⟩ := x
    dsimp only at e1 e2 ⊢
    subst e1
    refine .modBind (fun t ht => ⟨by show { t.tm with min := 0 } = _; rw [ht.1], ht.2⟩) ?_
    exact (tail_zero e2 range).bind fun _ => Stays.get.bind fun _ => .ite (fun _ => .fail) fun _ => .pure
  · exact .fail

theorem signed_zero {f : Bytes} (hf : ZeroDigits f) (range : Nat) : Stays Unread (intervalSigned p f range) := by
  unfold intervalSigned
  refine .ite (fun _ => (clock_zero (fun b hb => hf b (List.mem_of_mem_drop hb)) range).bind fun _ => ?_) fun _ => number_zero hf range
  by_cases h : f.head? = some 45
  · rw [if_pos h]
    exact (tm_unread (by cases p <;> rfl)).bind fun _ => .mod fun _ h => h
  · rw [if_neg h]
    exact .mod fun _ h => h

theorem field_zero {range i : Nat} {f : Field} (hf : ZeroDigits f.2) : Stays (fun s : IvS × Unit => Unread s.1) (intervalField p plainLook range i f) := by
  have word : Stays (fun s : IvS × Unit => Unread s.1) (lookDelta plainLook i f.2 >>= fun x => if x.1 = .ignoreDtf then pure ()
      else noLook do intervalWord x.1 x.2; addMaskI) :=
    delta_unread.bind fun _ => .ite (fun _ => .pure) fun _ => .noLook (word_unread.bind fun _ => mask_unread)
  unfold intervalField
  split
  · exact .noLook ((clock_zero hf range).bind fun _ => .modBind (fun _ h => h) mask_unread)
  · exact .noLook ((signed_zero hf range).bind fun _ => mask_unread)
  · exact .noLook ((number_zero hf range).bind fun _ => mask_unread)
  · exact .noLook ((number_zero hf range).bind fun _ => mask_unread)
  · exact word
  · exact word
  · exact .fail

theorem loop_zero {range : Nat} {l : List Field} (hl : ∀ f ∈ l, ZeroDigits f.2) (i : Nat) :
    Stays (fun s : IvS × Unit => Unread s.1) (intervalLoop p plainLook range l i) := by
  induction l generalizing i with
  | nil => exact .pure
  | cons f l ih =>
    rw [intervalLoop]
    exact (ih (fun g hg => hl g (by simp [hg])) (i + 1)).bind fun _ => field_zero (hl f (by simp))

theorem decode_zero {range : Nat} {style : IntervalStyle} {l : List Field} (hl : ∀ f ∈ l, ZeroDigits f.2) :
    Stays (fun s : IvS × Unit => Unread s.1) (decodeInterval p plainLook range style l) := by
  unfold decodeInterval
  exact (loop_zero hl 0).bind fun _ => .noLook (finish_unread (style := style) (l := l))

theorem isoInterval_zero {s : Bytes} (hs : ZeroDigits s) : Stays (fun s : IvS × Unit => Unread s.1) (noLook (decodeIsoInterval p s)) := by
  refine .noLook ?_
  unfold decodeIsoInterval
  refine .modBind (fun t ht => ?_) (.ite (fun _ => .fail) fun _ t ht => ?_)
  · show (t.t.1, 0) = _
    rw [show t.t = ({}, 0) from ht]
  · exact iso_zero (p := p) (s.length + 1) (fun b hb => hs b (List.mem_of_mem_drop hb)) { t := t.t } ht

theorem digit_lowerB {b : Nat} (h : isDigit b = true) : lowerB b = b := by
  unfold lowerB isUpper
  unfold isDigit at h
  simp only [Bool.and_eq_true, decide_eq_true_eq] at h ⊢
  rw [if_neg (by omega)]

theorem digit_of_lowerB {b : Nat} (h : isDigit (lowerB b) = true) : isDigit b = true := by
  unfold lowerB at h
  split at h
  · rename_i hb
    unfold isUpper at hb
    unfold isDigit at h
    simp only [Bool.and_eq_true, decide_eq_true_eq] at h hb
    omega
  · exact h

theorem scanLoop_zeroDigits {u : TokenField} : ∀ (fuel : Nat) (s : Bytes) (cap nf : Nat) (l : List Field), ZeroDigits s →
    scanLoop u fuel s cap nf = .ok l → ∀ f ∈ l, ZeroDigits f.2 := by
  intro fuel
  induction fuel with
  | zero => intro s cap nf l _ h; rw [scanLoop] at h; cases h; simp
  | succ n ih =>
    intro s cap nf l hs h
    have hd : ZeroDigits (s.dropWhile isSpace) := hs.spaces
    rw [scanLoop] at h
    split at h
    · cases h; simp
    · rename_i c r e
      rw [e] at hd
      split at h
      · cases h
      · split at h
        · rename_i hst
          split at h
          · cases h
          · rw [Res.bind_eq_ok] at h
            obtain ⟨⟨f, rest⟩, h1, h⟩ := h
            rcases scanField_spec u (c := c) r hst with e | ⟨f', rest', used, e, e2, e3, e4⟩
            · rw [e] at h1; cases h1
            · rw [e] at h1
              cases h1
              dsimp only at h
              split at h
              · cases h
              · rw [Res.bind_eq_ok] at h
                obtain ⟨l', h2, h⟩ := h
                cases h
                rw [e2] at hd
                have h5 : ZeroDigits f.2 := by
                  intro b h5 hb
                  have h6 : lowerB b ∈ lower f.2 := List.mem_map_of_mem h5
                  rw [e3, digit_lowerB hb] at h6
                  obtain ⟨x, h7, h8⟩ := List.mem_map.1 h6
                  have h9 := digit_of_lowerB (by rw [h8]; exact hb)
                  rw [digit_lowerB h9] at h8
                  rw [← h8]
                  exact hd x (List.mem_append_left _ (List.mem_filter.1 h7).1) h9
                intro g hg
                rcases List.mem_cons.1 hg with rfl | hg
                · exact h5
                · exact ih _ _ _ _ (fun b h => hd b (List.mem_append_right _ h)) h2 g hg
        · split at h
          · exact ih _ _ _ _ (fun b h => hd b ((List.dropWhile_suffix _).subset h)) h
          · cases h

end Pg

namespace Props
open Pg Spec

/-- **C123.** A text whose digits are all zeros is refused or read as the interval of length zero. -/
theorem C123_zeros (p : Profile) (u : TokenField) (c : Caches) (hc : c.Ok) (typmod : Int) (style : IntervalStyle) (s : Bytes)
    (h1 : ∀ b ∈ s, Digit b → b = 48) (v : Interval) (h : Interval.tryFromStr p u c s typmod style = .ok v) : v = ⟨0, 0, 0⟩ := by
  have hd : ZeroDigits s := fun b hb hx => h1 b hb ((isDigit_iff b).1 hx)
  obtain ⟨l, hl⟩ : ∃ l, scan u s = .ok l := by
    unfold Interval.tryFromStr at h
    rw [(same_interval p u typmod style s c hc).1] at h
    unfold Interval.tryFromStrW at h
    cases hs : scan u s with
    | ok l => exact ⟨l, rfl⟩
    | err e => rw [hs] at h; cases h
    | panic => rw [hs] at h; cases h
  have hf : ∀ f ∈ l, ZeroDigits f.2 := by
    unfold scan at hl
    split at hl
    · cases hl
    · exact scanLoop_zeroDigits _ _ _ _ _ hd hl
  have k := decode_zero (p := p) (range := parseRange typmod) (style := style) hf ({}, ()) rfl
  have z : Unread (St.orElse (decodeInterval p plainLook (parseRange typmod) style l) (noLook (decodeIsoInterval p s)) ({}, ())).2.1 := by
    rcases hm : decodeInterval p plainLook (parseRange typmod) style l ({}, ()) with ⟨r, d⟩
    rw [hm] at k
    by_cases hr : r = .err .invalid
    · subst hr
      rw [orElse_invalid hm]
      exact isoInterval_zero hd d k
    · rw [orElse_other hm hr]
      exact k
  rw [interval_run p u hc typmod style hl (r := _) (d := _) (w := ()) rfl, Res.bind_eq_ok] at h
  obtain ⟨_, -, h⟩ := h
  exact ofDec_zero z h

/-- **C122, zero.** A text without a digit is no interval but the one of length zero. -/
theorem C122_zero (p : Profile) (u : TokenField) (c : Caches) (hc : c.Ok) (typmod : Int) (style : IntervalStyle) (s : Bytes)
    (h1 : ∀ b ∈ s, ¬ Digit b) (v : Interval) (h : Interval.tryFromStr p u c s typmod style = .ok v) : v = ⟨0, 0, 0⟩ :=
  C123_zeros p u c hc typmod style s (fun b hb hd => absurd hd (h1 b hb)) v h

/-! ## Cases -/

/-- A full stop as a number, in words and in ISO 8601. -/
example : (∀ b ∈ b!". hours . year ago", ¬ Digit b) ∧ (∀ b ∈ b!"P.YT.H.M", ¬ Digit b) ∧
    ∀ p, Interval.tryFromStr p .number Caches.new b!". hours . year ago" (-1) .sqlStandard = .ok ⟨0, 0, 0⟩ ∧
      Interval.tryFromStr p .number Caches.new b!"P.YT.H.M" (-1) .postgres = .ok ⟨0, 0, 0⟩ := by
  exact ⟨by unfold Digit; decide, by unfold Digit; decide, fun p => by cases p <;> decide +kernel⟩

/-- Zeros in the SQL style, in words and in ISO 8601. -/
example : (∀ b ∈ b!"-0-00 0 00:00:00.000", Digit b → b = 48) ∧ (∀ b ∈ b!"0 centuries .00 weeks 0.0 secs ago", Digit b → b = 48) ∧
    (∀ b ∈ b!"P0000-00-00T00:00:00", Digit b → b = 48) ∧
    ∀ p, Interval.tryFromStr p .number Caches.new b!"-0-00 0 00:00:00.000" (-1) .sqlStandard = .ok ⟨0, 0, 0⟩ ∧
      Interval.tryFromStr p .number Caches.new b!"0 centuries .00 weeks 0.0 secs ago" (-1) .postgres = .ok ⟨0, 0, 0⟩ ∧
      Interval.tryFromStr p .number Caches.new b!"P0000-00-00T00:00:00" (-1) .iso8601 = .ok ⟨0, 0, 0⟩ := by
  exact ⟨by unfold Digit; decide, by unfold Digit; decide, by unfold Digit; decide, fun p => by cases p <;> decide +kernel⟩

end Props
