import Verif.Lemmas.Exchange
import Verif.Lemmas.DebugIso
import Verif.Lemmas.Swap
import Verif.Lemmas.RangeRun
import Verif.Lemmas.MinuteRun

/-! # Interval texts one after the other: the runs of the decoder -/

namespace Pg
open Spec

theorem chk32_exact {x y : Int} (h : chk32 .debug x = .ok y) : y = x := by
  unfold chk32 at h
  split at h <;> cases h
  rfl

theorem chk64_exact {x y : Int} (h : chk64 .debug x = .ok y) : y = x := by
  unfold chk64 at h
  split at h <;> cases h
  rfl

/-- The second fields are the first ones and `B`. -/
structure ShT (B s t : TmF) : Prop where
  sec : t.1.sec = s.1.sec + B.1.sec
  min : t.1.min = s.1.min + B.1.min
  hour : t.1.hour = s.1.hour + B.1.hour
  mday : t.1.mday = s.1.mday + B.1.mday
  mon : t.1.mon = s.1.mon + B.1.mon
  year : t.1.year = s.1.year + B.1.year
  fsec : t.2 = s.2 + B.2

section
variable {B s t : TmF} {x : Int}

theorem addFsec_two (h : ShT B s t) : Two (addFsec .debug x) (addFsec .debug x) (fun _ s' _ t' => ShT B s' t') s t := by
  unfold Two addFsec
  wp
  intro a ha b hb
  have := chk64_exact ha
  have := chk64_exact hb
  obtain ⟨h1, h2, h3, h4, h5, h6, h7⟩ := h
  constructor <;> dsimp only <;> omega
theorem addSec_two (h : ShT B s t) : Two (addSec .debug x) (addSec .debug x) (fun _ s' _ t' => ShT B s' t') s t := by
  unfold Two addSec
  wp
  intro a ha b hb
  have := chk32_exact ha
  have := chk32_exact hb
  obtain ⟨h1, h2, h3, h4, h5, h6, h7⟩ := h
  constructor <;> dsimp only <;> omega
theorem addMin_two (h : ShT B s t) : Two (addMin .debug x) (addMin .debug x) (fun _ s' _ t' => ShT B s' t') s t := by
  unfold Two addMin
  wp
  intro a ha b hb
  have := chk32_exact ha
  have := chk32_exact hb
  obtain ⟨h1, h2, h3, h4, h5, h6, h7⟩ := h
  constructor <;> dsimp only <;> omega
theorem addHour_two (h : ShT B s t) : Two (addHour .debug x) (addHour .debug x) (fun _ s' _ t' => ShT B s' t') s t := by
  unfold Two addHour
  wp
  intro a ha b hb
  have := chk32_exact ha
  have := chk32_exact hb
  obtain ⟨h1, h2, h3, h4, h5, h6, h7⟩ := h
  constructor <;> dsimp only <;> omega
theorem addMday_two (h : ShT B s t) : Two (addMday .debug x) (addMday .debug x) (fun _ s' _ t' => ShT B s' t') s t := by
  unfold Two addMday
  wp
  intro a ha b hb
  have := chk32_exact ha
  have := chk32_exact hb
  obtain ⟨h1, h2, h3, h4, h5, h6, h7⟩ := h
  constructor <;> dsimp only <;> omega
theorem addMon_two (h : ShT B s t) : Two (addMon .debug x) (addMon .debug x) (fun _ s' _ t' => ShT B s' t') s t := by
  unfold Two addMon
  wp
  intro a ha b hb
  have := chk32_exact ha
  have := chk32_exact hb
  obtain ⟨h1, h2, h3, h4, h5, h6, h7⟩ := h
  constructor <;> dsimp only <;> omega
theorem addYear_two (h : ShT B s t) : Two (addYear .debug x) (addYear .debug x) (fun _ s' _ t' => ShT B s' t') s t := by
  unfold Two addYear
  wp
  intro a ha b hb
  have := chk32_exact ha
  have := chk32_exact hb
  obtain ⟨h1, h2, h3, h4, h5, h6, h7⟩ := h
  constructor <;> dsimp only <;> omega

theorem checked32_eq {x v : Int} (h : checked32 x = some v) : v = x := by
  unfold checked32 at h
  split at h
  · injection h with h; exact h.symm
  · cases h

theorem adjustSeconds_two (h : ShT B s t) (v : F64) (n : Int) :
    Two (adjustFractSeconds .debug v n) (adjustFractSeconds .debug v n) (fun _ s' _ t' => ShT B s' t') s t := by
  unfold adjustFractSeconds
  split
  · exact .pure h
  · refine .getBind ?_
    obtain ⟨h1, h2, h3, h4, h5, h6, h7⟩ := h
    cases e1 : checked32 (s.1.sec + (v.mul (F64.ofInt n)).toI32) with
    | none => exact .failL
    | some a =>
      cases e2 : checked32 (t.1.sec + (v.mul (F64.ofInt n)).toI32) with
      | none => exact .failR
      | some b =>
        have := checked32_eq e1
        have := checked32_eq e2
        unfold Two
        dsimp only
        wp
        intro f hf g hg
        have := chk64_exact hf
        have := chk64_exact hg
        constructor <;> dsimp only <;> omega

theorem adjustDays_two (h : ShT B s t) (v : F64) (n : Int) :
    Two (adjustFractDays .debug v n) (adjustFractDays .debug v n) (fun _ s' _ t' => ShT B s' t') s t := by
  unfold adjustFractDays
  split
  · exact .pure h
  · refine .getBind ?_
    obtain ⟨h1, h2, h3, h4, h5, h6, h7⟩ := h
    cases e1 : checked32 (s.1.mday + (v.mul (F64.ofInt n)).toI32) with
    | none => exact .failL
    | some a =>
      cases e2 : checked32 (t.1.mday + (v.mul (F64.ofInt n)).toI32) with
      | none => exact .failR
      | some b =>
        have := checked32_eq e1
        have := checked32_eq e2
        refine .modBind (adjustSeconds_two ?_ _ _)
        constructor <;> dsimp only <;> omega

theorem addYears_two (h : ShT B s t) (val : Int) (v : F64) (n : Int) :
    Two (addYears .debug val v n) (addYears .debug val v n) (fun _ s' _ t' => ShT B s' t') s t := by
  unfold addYears
  refine .liftBind fun a _ => .bind (addYear_two h) fun _ s' _ t' h' => ?_
  split
  · exact .pure h'
  · exact addMon_two h'

/-- The same number and unit added to both. -/
theorem addUnit_two (h : ShT B s t) (u : TokenField) (val : Int) (v : F64) :
    Two (addUnit .debug u val v) (addUnit .debug u val v) (fun a s' b t' => b = a ∧ ShT B s' t') s t := by
  unfold addUnit
  split
  · exact .bind (addFsec_two h) fun _ _ _ _ h => .pure ⟨rfl, h⟩
  · exact .bind (addSec_two h) fun _ _ _ _ h => .bind (addFsec_two h) fun _ _ _ _ h => .pure ⟨rfl, h⟩
  · exact .bind (addSec_two h) fun _ _ _ _ h => .bind (addFsec_two h) fun _ _ _ _ h => .pure ⟨rfl, h⟩
  · exact .bind (addMin_two h) fun _ _ _ _ h => .bind (adjustSeconds_two h _ _) fun _ _ _ _ h => .pure ⟨rfl, h⟩
  · exact .bind (addHour_two h) fun _ _ _ _ h => .bind (adjustSeconds_two h _ _) fun _ _ _ _ h => .pure ⟨rfl, h⟩
  · exact .bind (addMday_two h) fun _ _ _ _ h => .bind (adjustSeconds_two h _ _) fun _ _ _ _ h => .pure ⟨rfl, h⟩
  · exact .liftBind fun _ _ => .bind (addMday_two h) fun _ _ _ _ h => .bind (adjustDays_two h _ _) fun _ _ _ _ h => .pure ⟨rfl, h⟩
  · exact .bind (addMon_two h) fun _ _ _ _ h => .bind (adjustDays_two h _ _) fun _ _ _ _ h => .pure ⟨rfl, h⟩
  · exact .bind (addYears_two h _ _ _) fun _ _ _ _ h => .pure ⟨rfl, h⟩
  · exact .bind (addYears_two h _ _ _) fun _ _ _ _ h => .pure ⟨rfl, h⟩
  · exact .bind (addYears_two h _ _ _) fun _ _ _ _ h => .pure ⟨rfl, h⟩
  · exact .bind (addYears_two h _ _ _) fun _ _ _ _ h => .pure ⟨rfl, h⟩
  · exact .failL

/-- `B` has nothing of the clock. -/
structure NoClock (B : TmF) : Prop where
  sec : B.1.sec = 0
  min : B.1.min = 0
  hour : B.1.hour = 0
  fsec : B.2 = 0

theorem flipTime_two (h : ShT B s t) (hB : NoClock B) :
    Two (flipTime .debug) (flipTime .debug) (fun _ s' _ t' => ShT B s' t') s t := by
  unfold Two flipTime
  wp
  intro a1 ha1 a2 ha2 a3 ha3 a4 ha4 b1 hb1 b2 hb2 b3 hb3 b4 hb4
  have := chk32_exact ha1
  have := chk32_exact ha2
  have := chk32_exact ha3
  have := chk64_exact ha4
  have := chk32_exact hb1
  have := chk32_exact hb2
  have := chk32_exact hb3
  have := chk64_exact hb4
  obtain ⟨h1, h2, h3, h4, h5, h6, h7⟩ := h
  obtain ⟨c1, c2, c3, c4⟩ := hB
  constructor <;> dsimp only <;> omega

/-- The same for the variables of `decode_time`. -/
structure ShC (B : TmF) (s t : TimeS) : Prop where
  mask : t.tMask = s.tMask
  sh : ShT B (s.tm, s.fsec) (t.tm, t.fsec)

theorem decodeClock_two (hB : NoClock B) (w : Bytes) (range : Nat) {s t : TimeS} (h : ShT B (s.tm, s.fsec) (t.tm, t.fsec)) :
    Two (decodeTime w range) (decodeTime w range) (fun _ s' _ t' => ShC B s' t') s t := by
  obtain ⟨h1, h2, h3, h4, h5, h6, h7⟩ := h
  obtain ⟨c1, c2, c3, c4⟩ := hB
  dsimp only at h1 h2 h3 h4 h5 h6 h7
  unfold decodeTime
  refine .modBind (.liftBind fun a _ => ?_)
  obtain ⟨v, r⟩ := a
  dsimp only
  refine .modBind ?_
  split
  · refine .liftBind fun a _ => ?_
    obtain ⟨v', r'⟩ := a
    dsimp only
    refine .modBind (.bind (R := fun _ s' _ t' => ShC B s' t') ?_ fun _ s' _ t' h' => ?_)
    · unfold timeTail
      split
      · refine .modBind ?_
        split
        · refine .mod ?_
          refine ⟨rfl, ?_⟩
          constructor <;> dsimp only <;> omega
        · refine .pure ?_
          refine ⟨rfl, ?_⟩
          constructor <;> dsimp only <;> omega
      · split
        · refine .liftBind fun f _ => .mod ⟨rfl, ?_⟩
          constructor <;> dsimp only <;> omega
        · split
          · unfold timeSeconds
            refine .liftBind fun a _ => ?_
            obtain ⟨v', r'⟩ := a
            dsimp only
            refine .modBind ?_
            split
            · refine .mod ⟨rfl, ?_⟩
              constructor <;> dsimp only <;> omega
            · split
              · refine .liftBind fun f _ => .mod ⟨rfl, ?_⟩
                constructor <;> dsimp only <;> omega
              · exact .failL
          · exact .failL
    · refine .getBind (.check fun _ _ => .pure h')
  · exact .failL

end

/-- The variables of two runs of the decoder; with `k` also the unit of the next number is the same. -/
structure ShI (k : Bool) (B s t : IvS) : Prop where
  sh : ShT B.t s.t t.t
  mask : t.fMask = s.fMask ||| B.fMask
  before : t.before = (s.before || B.before)
  dType : t.dType = s.dType
  ty : k = true → t.ty = s.ty

variable {B s t : IvS} {k : Bool}

theorem addMaskI_two (h : ShI k B s t) (hm : t.tMask = s.tMask) : Two addMaskI addMaskI (fun _ s' _ t' => ShI k B s' t') s t := by
  unfold addMaskI
  refine .getBind (.check fun _ _ => .mod ?_)
  obtain ⟨h1, h2, h3, h4, h5⟩ := h
  refine ⟨h1, ?_, h3, h4, h5⟩
  dsimp only
  rw [h2, hm, Nat.or_assoc, Nat.or_assoc, Nat.or_comm B.fMask]

theorem intervalNumber_two (h : ShI true B s t) (w : Bytes) (range : Nat) :
    Two (intervalNumber .debug w range) (intervalNumber .debug w range) (fun _ s' _ t' => ShI true B s' t' ∧ t'.tMask = s'.tMask) s t := by
  obtain ⟨h1, h2, h3, h4, h5⟩ := h
  have h5 := h5 rfl
  unfold intervalNumber
  refine .modBind (.liftBind fun a _ => ?_)
  obtain ⟨val, fVal, months⟩ := a
  dsimp only
  refine .modBind (.getBind ?_)
  have key : ∀ s0 t0 : IvS, ShI true B s0 t0 → Two (do
      let unit ← St.lift (TokenField.ofInt s0.ty)
      let m ← onTm (addUnit .debug unit val fVal)
      St.mod fun s => { s with tMask := m, ty := if unit = .hour then TokenField.day.value else s.ty })
    (do
      let unit ← St.lift (TokenField.ofInt t0.ty)
      let m ← onTm (addUnit .debug unit val fVal)
      St.mod fun s => { s with tMask := m, ty := if unit = .hour then TokenField.day.value else s.ty })
      (fun _ s' _ t' => ShI true B s' t' ∧ t'.tMask = s'.tMask) s0 t0 := by
    intro s0 t0 h
    rw [h.ty rfl]
    refine .liftBind fun unit _ => ?_
    unfold onTm
    refine .bind (R := fun a s' b t' => b = a ∧ ShI true B s' t') (.zoom (.mono (addUnit_two h.sh unit val fVal) ?_)) ?_
    · rintro a s' b t' ⟨e, h'⟩
      exact ⟨e, h', h.mask, h.before, h.dType, h.ty⟩
    · rintro a s' b t' ⟨rfl, h'⟩
      refine .mod ⟨⟨h'.sh, h'.mask, h'.before, h'.dType, fun _ => ?_⟩, rfl⟩
      dsimp only
      rw [h'.ty rfl]
  refine key _ _ ?_
  rw [h5]
  split <;> exact ⟨h1, h2, h3, h4, fun _ => by dsimp only; first | done | rw [h5]⟩

/-- What is known of `B` for clock times before it. -/
def ClockFree (B : IvS) : Prop := B.fMask &&& DTK_TIME_M = 0 → NoClock B.t


/-- Both fields are read, or the second one is refused. -/
def FitsI (B s t : IvS) : Prop := ShI true B s t ∧ t.tMask = s.tMask ∨ t.tMask &&& t.fMask ≠ 0

theorem fits_mask (h : FitsI B s t) : Two addMaskI addMaskI (fun _ s' _ t' => ShI true B s' t') s t := by
  rcases h with ⟨h, e⟩ | h
  · exact addMaskI_two h e
  · unfold addMaskI
    refine Post.any fun _ _ => ?_
    wp
    exact fun n => absurd h n

/-- The clock time of both. -/
theorem clock_two (h : ShI k B s t) (w : Bytes) (range : Nat) (hB : ClockFree B) :
    Two (onTimeI (decodeTime w range)) (onTimeI (decodeTime w range))
      (fun _ s' _ t' => ShI k B s' t' ∧ t'.tMask = s'.tMask ∧ NoClock B.t ∨ t'.tMask &&& t'.fMask ≠ 0) s t := by
  unfold onTimeI
  by_cases hm : B.fMask &&& DTK_TIME_M = 0
  · have hB := hB hm
    refine .zoom (.mono (decodeClock_two hB w range h.sh) ?_)
    rintro _ s' _ t' ⟨e, h'⟩
    exact Or.inl ⟨⟨h', h.mask, h.before, h.dType, h.ty⟩, e, hB⟩
  · refine Post.any fun _ _ => ?_
    rw [Post.zoom]
    refine (decodeTime_mask w range _).mono fun _ s' hs' => Or.inr ?_
    dsimp only
    rw [hs', h.mask, Nat.and_comm, Nat.and_or_distrib_right]
    exact fun hz => hm (Nat.or_eq_zero_iff.1 hz).2

theorem setDay_two (h : ShI k B s t ∧ t.tMask = s.tMask ∨ t.tMask &&& t.fMask ≠ 0) :
    Two (St.mod fun s : IvS => { s with ty := TokenField.day.value }) (St.mod fun s : IvS => { s with ty := TokenField.day.value })
      (fun _ s' _ t' => FitsI B s' t') s t := by
  refine .mod ?_
  rcases h with ⟨h, e⟩ | h
  · exact Or.inl ⟨⟨h.sh, h.mask, h.before, h.dType, fun _ => rfl⟩, e⟩
  · exact Or.inr h

theorem signed_two (h : ShI true B s t) (w : Bytes) (range : Nat) (hB : ClockFree B ∨ 58 ∉ w) :
    Two (intervalSigned .debug w range) (intervalSigned .debug w range) (fun _ s' _ t' => FitsI B s' t') s t := by
  unfold intervalSigned
  refine .ite Iff.rfl (fun hc => ?_) fun _ => .mono (intervalNumber_two h w range) fun _ _ _ _ h => Or.inl h
  have hB : ClockFree B := by
    refine hB.resolve_right fun n => ?_
    obtain ⟨b, hb, e⟩ := List.any_eq_true.1 hc
    exact n (of_decide_eq_true e ▸ hb)
  refine .bind (clock_two h _ range hB) fun _ s' _ t' h' => ?_
  dsimp only
  refine .ite Iff.rfl (fun _ => ?_) fun _ => setDay_two (h'.imp (fun h => ⟨h.1, h.2.1⟩) id)
  refine .bind (R := fun _ s' _ t' => ShI true B s' t' ∧ t'.tMask = s'.tMask ∨ t'.tMask &&& t'.fMask ≠ 0) ?_ fun _ _ _ _ h => setDay_two h
  unfold onTm
  rcases h' with ⟨h', e, hn⟩ | h'
  · refine .zoom (.mono (flipTime_two h'.sh hn) ?_)
    rintro _ s'' _ t'' h''
    exact Or.inl ⟨⟨h'', h'.mask, h'.before, h'.dType, h'.ty⟩, e⟩
  · refine Post.any fun _ _ => ?_
    rw [Post.zoom]
    exact Post.any fun _ _ => Or.inr h'

theorem str2i32_suffix {w : Bytes} {a : Int × Bytes} (h : str2i32 w = .ok a) : a.2 <:+ w := by
  unfold str2i32 at h
  dsimp only at h
  split at h
  · cases h; exact List.dropWhile_suffix _
  · have hs : (extractSign (w.dropWhile isSpace)).2 <:+ w := by
      refine List.IsSuffix.trans ?_ (List.dropWhile_suffix isSpace)
      unfold extractSign
      split
      · rename_i e; rw [e]; exact List.suffix_cons _ _
      · rename_i e; rw [e]; exact List.suffix_cons _ _
      · exact List.suffix_refl _
    split at h
    · cases h
    · split at h
      · cases h; exact (List.dropWhile_suffix _).trans hs
      · cases h

theorem decodeTime_noColon {w : Bytes} (hw : 58 ∉ w) (range : Nat) (s : TimeS) : Post (decodeTime w range) (fun _ _ => False) s := by
  unfold decodeTime
  wp
  intro a ha
  split
  · rename_i r e
    exfalso
    have := str2i32_suffix ha
    rw [e] at this
    exact hw (this.subset (by simp))
  · wp

/-- A unit, `ago` or a reserved word: afterwards the unit of the next number is the same. -/
theorem word_two (h : ShI k B s t) (ty : TokenType) (v : Int) (hr : ty = .reserv → TokenField.ofInt v ≠ .ok .delta) : Two (intervalWord ty v) (intervalWord ty v)
    (fun _ s' _ t' => s'.dType ≠ .delta ∨ ShI true B s' t' ∧ t'.tMask = s'.tMask) s t := by
  unfold intervalWord
  refine .modBind ?_
  obtain ⟨h1, h2, h3, h4, h5⟩ := h
  split
  · exact .mod (Or.inr ⟨⟨h1, h2, h3, h4, fun _ => rfl⟩, rfl⟩)
  · exact .mod (Or.inr ⟨⟨h1, h2, rfl, h4, fun _ => rfl⟩, rfl⟩)
  · exact .modBind (.liftBind fun a ha => .mod (Or.inl fun e => hr rfl (by rw [ha]; exact congrArg _ e)))
  · exact .failL

theorem addMaskI_dType (s : IvS) : Post addMaskI (fun _ s' => s'.dType = s.dType ∧ s'.before = s.before ∧ s'.t = s.t) s := by
  unfold addMaskI
  wp

theorem delta_reserv (w : Bytes) : (tokenResult (lookupIn deltaTable w)).1 = .reserv →
    TokenField.ofInt (tokenResult (lookupIn deltaTable w)).2 ≠ .ok .delta := by
  cases hl : lookupIn deltaTable w with
  | none => intro h; cases h
  | some e =>
    have h := ((lookupIn_some deltaTable_sorted w e).1 hl).1
    have tab : ∀ e ∈ deltaTable, e.ty = .reserv → TokenField.ofInt e.value ≠ .ok .delta := by decide +kernel
    exact tab e h

theorem delta_notIgnored {w : Bytes} (hw : w.head? ≠ some 64) : (tokenResult (lookupIn deltaTable w)).1 ≠ .ignoreDtf := by
  cases hl : lookupIn deltaTable w with
  | none => intro h; cases h
  | some e =>
    obtain ⟨h, e2⟩ := (lookupIn_some deltaTable_sorted w e).1 hl
    have tab : ∀ e ∈ deltaTable, e.ty = .ignoreDtf → e.token.head? = some 64 := by decide +kernel
    intro n
    have := tab e h n
    rw [e2] at this
    cases w with
    | nil => cases this
    | cons b r => exact hw this

/-- One field in both runs. A word makes the unit of the next number the same. -/
theorem ivField_two {s t : IvS × Unit} {f : Field} (h : ShI k B s.1 t.1) (hk : k = true ∨ (f.1 = .string ∨ f.1 = .special) ∧ f.2.head? ≠ some 64)
    (range i j : Nat) (hB : ClockFree B ∨ 58 ∉ f.2) : Two (intervalField .debug plainLook range i f) (intervalField .debug plainLook range j f)
      (fun _ s' _ t' => s'.1.dType ≠ .delta ∨ ShI true B s'.1 t'.1) s t := by
  have hword : f.2.head? ≠ some 64 ∨ k = true → Two (do
      let (ty, val) ← lookDelta plainLook i f.2
      if ty = .ignoreDtf then pure ()
      else noLook (do intervalWord ty val; addMaskI) : St (IvS × Unit) Unit) (do
      let (ty, val) ← lookDelta plainLook j f.2
      if ty = .ignoreDtf then pure ()
      else noLook (do intervalWord ty val; addMaskI) : St (IvS × Unit) Unit)
      (fun _ s' _ t' => s'.1.dType ≠ .delta ∨ ShI true B s'.1 t'.1) s t := by
    intro hh
    refine .bind (R := fun a s' b t' => a = tokenResult (lookupIn deltaTable f.2) ∧ b = a ∧ s' = s ∧ t' = t)
      (Post.lookDelta.2 (Post.lookDelta.2 ⟨rfl, rfl, rfl, rfl⟩)) ?_
    rintro _ _ a _ ⟨e, rfl, rfl, rfl⟩
    have h1 := delta_reserv f.2
    have h2 := fun h => delta_notIgnored (w := f.2) h
    rw [← e] at h1 h2
    obtain ⟨ty, val⟩ := a
    dsimp only at h1 h2 ⊢
    refine .ite Iff.rfl (fun hi => ?_) fun _ => .noLook (.bind (word_two h ty val h1) ?_)
    · refine .pure (Or.inr ?_)
      rcases hh with hh | rfl
      · exact absurd hi (h2 hh)
      · exact h
    · rintro _ s' _ t' (hd | ⟨h', e⟩)
      · refine (addMaskI_dType s').mono fun _ s'' e => Post.any fun _ _ => Or.inl ?_
        dsimp only
        rw [e.1]; exact hd
      · exact .mono (addMaskI_two h' e) fun _ _ _ _ h => Or.inr h
  unfold intervalField
  cases hf : f.1 <;> simp only <;> first
    | exact .failL
    | exact hword (hk.elim Or.inr fun h => Or.inl h.2)
    | skip
  all_goals
    obtain rfl : k = true := hk.resolve_right fun n => by rcases n.1 with n | n <;> rw [hf] at n <;> cases n
  · refine .noLook (.bind (.mono (intervalNumber_two h f.2 range) fun _ _ _ _ h => h) fun _ s' _ t' h' => .mono (addMaskI_two h'.1 h'.2) fun _ _ _ _ h => Or.inr h)
  · refine .noLook (.bind (.mono (intervalNumber_two h f.2 range) fun _ _ _ _ h => h) fun _ s' _ t' h' => .mono (addMaskI_two h'.1 h'.2) fun _ _ _ _ h => Or.inr h)
  · refine .noLook ?_
    rcases hB with hB | hB
    · exact .bind (clock_two h f.2 range hB) fun _ s' _ t' h' => .bind (setDay_two (h'.imp (fun h => ⟨h.1, h.2.1⟩) id)) fun _ _ _ _ h =>
        .mono (fits_mask h) fun _ _ _ _ h => Or.inr h
    · unfold Two onTimeI
      rw [Post.bind, Post.zoom]
      exact (decodeTime_noColon hB range _).mono fun _ _ h => h.elim
  · exact .noLook (.bind (signed_two h f.2 range hB) fun _ _ _ _ h => .mono (fits_mask h) fun _ _ _ _ h => Or.inr h)

/-! ## One run -/

theorem onTimeI_keeps {α : Type} (m : St TimeS α) (s : IvS) : Post (onTimeI m) (fun _ s' => s'.dType = s.dType ∧ s'.before = s.before) s := by
  unfold onTimeI
  rw [Post.zoom]
  exact Post.any fun _ _ => ⟨rfl, rfl⟩

theorem onTm_keeps {α : Type} (m : St TmF α) (s : IvS) : Post (onTm m) (fun _ s' => s'.dType = s.dType ∧ s'.before = s.before) s := by
  unfold onTm
  rw [Post.zoom]
  exact Post.any fun _ _ => ⟨rfl, rfl⟩

theorem number_keeps (p : Profile) (w : Bytes) (range : Nat) (s : IvS) :
    Post (intervalNumber p w range) (fun _ s' => s'.dType = s.dType ∧ s'.before = s.before) s := by
  unfold intervalNumber
  wp
  intro a _ b _
  refine (onTm_keeps _ _).mono fun _ s' h => ?_
  obtain ⟨h1, h2⟩ := h
  dsimp only at h1 h2 ⊢
  rw [h1, h2]
  split <;> exact ⟨rfl, rfl⟩

theorem signed_keeps (p : Profile) (w : Bytes) (range : Nat) (s : IvS) :
    Post (intervalSigned p w range) (fun _ s' => s'.dType = s.dType ∧ s'.before = s.before) s := by
  unfold intervalSigned
  split
  · rw [Post.bind]
    refine (onTimeI_keeps _ _).mono fun _ s' h => ?_
    dsimp only
    split
    · rw [Post.bind]
      refine (onTm_keeps _ _).mono fun _ s'' h' => ?_
      wp
      exact ⟨h'.1.trans h.1, h'.2.trans h.2⟩
    · wp
      exact h
  · exact number_keeps p w range s

/-- What a field may do to the kind of the result and to the direction. -/
theorem field_keeps (p : Profile) (range i : Nat) (f : Field) (s : IvS × Unit) {W : Prop}
    (hW : (f.1 = .string ∨ f.1 = .special) → (tokenResult (lookupIn deltaTable f.2)).1 = .ago → W) : Post (intervalField p plainLook range i f)
    (fun _ s' => (s.1.dType ≠ .delta → s'.1.dType ≠ .delta) ∧
      (s'.1.before = s.1.before ∨ W)) s := by
  have hm : ∀ s' : IvS, (s.1.dType ≠ .delta → s'.dType ≠ .delta) ∧
      (s'.before = s.1.before ∨ W) →
      Post addMaskI (fun _ s' => (s.1.dType ≠ .delta → s'.dType ≠ .delta) ∧
      (s'.before = s.1.before ∨ W)) s' := by
    intro s' h
    refine (addMaskI_dType s').mono fun _ s'' e => ?_
    rw [e.1, e.2.1]
    exact h
  have hword : (f.1 = .string ∨ f.1 = .special) → Post (do
      let (ty, val) ← lookDelta plainLook i f.2
      if ty = .ignoreDtf then pure ()
      else noLook (do intervalWord ty val; addMaskI) : St (IvS × Unit) Unit)
      (fun _ s' => (s.1.dType ≠ .delta → s'.1.dType ≠ .delta) ∧
      (s'.1.before = s.1.before ∨ W)) s := by
    intro hf
    rw [Post.bind, Post.lookDelta]
    have h1 := delta_reserv f.2
    have h2 := hW hf
    generalize tokenResult (lookupIn deltaTable f.2) = a at h1 h2 ⊢
    obtain ⟨ty, val⟩ := a
    dsimp only at h1 h2 ⊢
    rw [Post.ite]
    refine ⟨fun _ => Post.pure.2 ⟨fun h => h, Or.inl rfl⟩, fun _ => ?_⟩
    rw [Post.noLook, Post.bind]
    refine Post.mono (Q := fun _ s' => (s.1.dType ≠ .delta → s'.dType ≠ .delta) ∧
      (s'.before = s.1.before ∨ W)) ?_ fun _ s' h => hm s' h
    unfold intervalWord
    rw [Post.bind, Post.mod]
    split
    · rw [Post.mod]; exact ⟨fun h => h, Or.inl rfl⟩
    · rw [Post.mod]; exact ⟨fun h => h, Or.inr (h2 rfl)⟩
    · wp
      intro a ha
      exact ⟨fun _ e => h1 rfl (by rw [ha]; exact congrArg _ e), Or.inl trivial⟩
    · wp
  unfold intervalField
  cases hf : f.1 <;> simp only <;> first
    | exact Post.fail.2 trivial
    | exact hword (by rw [hf]; simp)
    | skip
  all_goals rw [Post.noLook, Post.bind]
  · exact (number_keeps p f.2 range s.1).mono fun _ s' h => hm s' ⟨fun n => by rw [h.1]; exact n, Or.inl h.2⟩
  · exact (number_keeps p f.2 range s.1).mono fun _ s' h => hm s' ⟨fun n => by rw [h.1]; exact n, Or.inl h.2⟩
  · refine (onTimeI_keeps _ s.1).mono fun _ s' h => ?_
    rw [Post.bind, Post.mod]
    exact hm _ ⟨fun n => by dsimp only; rw [h.1]; exact n, Or.inl h.2⟩
  · exact (signed_keeps p f.2 range s.1).mono fun _ s' h => hm s' ⟨fun n => by rw [h.1]; exact n, Or.inl h.2⟩

/-- A word other than the sign `@`. -/
def WordField (f : Field) : Prop := (f.1 = .string ∨ f.1 = .special) ∧ f.2.head? ≠ some 64

theorem ivLoop_two (range : Nat) : ∀ (l : List Field) (k : Bool) (i j : Nat) (s t : IvS × Unit), ShI k B s.1 t.1 →
    (k = true ∨ ∃ l' g, l = l' ++ [g] ∧ WordField g) → (ClockFree B ∨ ∀ f ∈ l, 58 ∉ f.2) →
    Two (intervalLoop .debug plainLook range l i) (intervalLoop .debug plainLook range l j)
      (fun _ s' _ t' => s'.1.dType ≠ .delta ∨ ShI true B s'.1 t'.1) s t := by
  intro l
  induction l with
  | nil =>
    intro k i j s t h hk _
    rcases hk with rfl | ⟨l', g, e, -⟩
    · exact .pure (Or.inr h)
    · simp at e
  | cons f fs ih =>
    intro k i j s t h hk hB
    have step : ∀ (k : Bool) (s t : IvS × Unit), ShI k B s.1 t.1 → (k = true ∨ WordField f) →
        Two (intervalField .debug plainLook range i f) (intervalField .debug plainLook range j f)
          (fun _ s' _ t' => s'.1.dType ≠ .delta ∨ ShI true B s'.1 t'.1) s t :=
      fun k s t h hk => ivField_two h hk range i j (hB.imp id fun h => h f (by simp))
    unfold intervalLoop
    by_cases hfs : fs = []
    · subst hfs
      refine .bind (R := fun _ s' _ t' => s' = s ∧ t' = t) (.pure ⟨rfl, rfl⟩) ?_
      rintro _ _ _ _ ⟨rfl, rfl⟩
      refine step k _ _ h (hk.imp id ?_)
      rintro ⟨l', g, e, hg⟩
      have : l' = [] := by
        cases l' with
        | nil => rfl
        | cons a b => simp at e
      subst this
      simp only [List.nil_append, List.cons.injEq, and_true] at e
      exact e ▸ hg
    · refine .bind (ih k (i + 1) (j + 1) s t h (hk.imp id ?_) (hB.imp id fun h g hg => h g (by simp [hg]))) ?_
      · rintro ⟨l', g, e, hg⟩
        cases l' with
        | nil => simp only [List.nil_append, List.cons.injEq] at e; exact absurd e.2 hfs
        | cons a b => simp only [List.cons_append, List.cons.injEq] at e; exact ⟨b, g, e.2, hg⟩
      · rintro _ s' _ t' (hd | h')
        · exact (field_keeps .debug range i f s' (W := True) fun _ _ => trivial).mono fun _ _ h => Post.any fun _ _ => Or.inl (h.1 hd)
        · exact step true _ _ h' (Or.inl rfl)

theorem loop_keeps (p : Profile) (range : Nat) {W : Prop} : ∀ (l : List Field) (i : Nat) (s : IvS × Unit),
    (∀ f ∈ l, (f.1 = .string ∨ f.1 = .special) → (tokenResult (lookupIn deltaTable f.2)).1 = .ago → W) →
    Post (intervalLoop p plainLook range l i) (fun _ s' => (s.1.dType ≠ .delta → s'.1.dType ≠ .delta) ∧ (s'.1.before = s.1.before ∨ W)) s := by
  intro l
  induction l with
  | nil => intro i s _; exact Post.pure.2 ⟨fun h => h, Or.inl rfl⟩
  | cons f fs ih =>
    intro i s hW
    unfold intervalLoop
    rw [Post.bind]
    refine (ih (i + 1) s fun g hg => hW g (by simp [hg])).mono fun _ s' h => ?_
    refine (field_keeps p range i f s' (hW f (by simp))).mono fun _ s'' h' => ⟨fun n => h'.1 (h.1 n), ?_⟩
    rcases h'.2 with e | w
    · rcases h.2 with e' | w
      · exact Or.inl (e.trans e')
      · exact Or.inr w
    · exact Or.inr w

theorem loop_append (p : Profile) (range : Nat) (l2 : List Field) : ∀ (l1 : List Field) (i : Nat), intervalLoop p plainLook range (l1 ++ l2) i =
    (intervalLoop p plainLook range l2 (i + l1.length) >>= fun _ => intervalLoop p plainLook range l1 i) := by
  intro l1
  induction l1 with
  | nil =>
    intro i
    simp only [List.nil_append, List.length_nil, Nat.add_zero]
    funext s
    rw [St.bind_run]
    rcases h : intervalLoop p plainLook range l2 i s with ⟨r, s'⟩
    cases r <;> rfl
  | cons f fs ih =>
    intro i
    rw [List.cons_append, intervalLoop, ih (i + 1)]
    funext s
    rw [St.bind_run, St.bind_run, St.bind_run]
    rw [show i + 1 + fs.length = i + (f :: fs).length by simp; omega]
    rcases h : intervalLoop p plainLook range l2 (i + (f :: fs).length) s with ⟨r, s'⟩
    cases r <;> simp only
    rw [intervalLoop, St.bind_run]

theorem loop_place (p : Profile) (range : Nat) : ∀ (l : List Field) (i j : Nat), intervalLoop p plainLook range l i = intervalLoop p plainLook range l j := by
  intro l
  induction l with
  | nil => intro i j; rfl
  | cons f fs ih =>
    intro i j
    unfold intervalLoop
    rw [ih (i + 1) (j + 1)]
    rfl

/-! ## Texts without a full stop -/

theorem numberParts_noDot {p : Profile} {w : Bytes} (hw : 46 ∉ w) {a : Int × F64 × Bool} (h : numberParts p w = .ok a) : a.2.1 = .fin 0 := by
  unfold numberParts at h
  obtain ⟨⟨val, s⟩, h1, h⟩ := Res.bind_eq_ok.1 h
  have hs := str2i32_suffix h1
  dsimp only at h hs
  split at h
  · cases h; rfl
  · rename_i c r
    split at h
    · obtain ⟨v, -, h⟩ := Res.bind_eq_ok.1 h
      cases h; rfl
    · split at h
      · rename_i e
        exact absurd (hs.subset (by simp [e])) hw
      · cases h

theorem adjustSeconds_zero (p : Profile) (n : Int) : adjustFractSeconds p (.fin 0) n = pure () := by unfold adjustFractSeconds; rw [if_pos rfl]
theorem adjustDays_zero (p : Profile) (n : Int) : adjustFractDays p (.fin 0) n = pure () := by unfold adjustFractDays; rw [if_pos rfl]

/-- A whole number of a unit that is none of the clock. -/
theorem addUnit_noClock (p : Profile) (u : TokenField) (val : Int) (t : TmF) : Post (addUnit p u val (.fin 0))
    (fun m t' => m &&& DTK_TIME_M = 0 → NoClock t → NoClock t') t := by
  unfold addUnit
  split
  · exact Post.bind.2 (Post.any fun _ _ => Post.pure.2 fun h => by cases h)
  · exact Post.bind.2 (Post.any fun _ _ => Post.bind.2 (Post.any fun _ _ => Post.pure.2 fun h => by cases h))
  · exact Post.bind.2 (Post.any fun _ _ => Post.bind.2 (Post.any fun _ _ => Post.pure.2 fun h => by cases h))
  · exact Post.bind.2 (Post.any fun _ _ => Post.bind.2 (Post.any fun _ _ => Post.pure.2 fun h => by cases h))
  · exact Post.bind.2 (Post.any fun _ _ => Post.bind.2 (Post.any fun _ _ => Post.pure.2 fun h => by cases h))
  · rw [adjustSeconds_zero]; unfold addMday; wp; exact fun a _ _ h => ⟨h.1, h.2, h.3, h.4⟩
  · rw [adjustDays_zero]; unfold addMday; wp; exact fun a _ b _ _ h => ⟨h.1, h.2, h.3, h.4⟩
  · rw [adjustDays_zero]; unfold addMon; wp; exact fun a _ _ h => ⟨h.1, h.2, h.3, h.4⟩
  all_goals first
    | (unfold addYears addYear; simp only [if_true]; wp; exact fun a _ b _ _ h => ⟨h.1, h.2, h.3, h.4⟩)
    | exact Post.fail.2 trivial

/-- Before the mask is updated. -/
def ClockFree2 (s : IvS) : Prop := s.fMask &&& DTK_TIME_M = 0 → s.tMask &&& DTK_TIME_M = 0 → NoClock s.t

theorem addMaskI_free {s : IvS} (h : ClockFree2 s) : Post addMaskI (fun _ s' => ClockFree s') s := by
  unfold addMaskI
  wp
  intro _ hz
  dsimp only at hz
  rw [Nat.and_or_distrib_right, Nat.or_eq_zero_iff] at hz
  exact h hz.1 hz.2

theorem number_free {s : IvS} (h : ClockFree s) (p : Profile) {w : Bytes} (hw : 46 ∉ w) (range : Nat) :
    Post (intervalNumber p w range) (fun _ s' => ClockFree2 s') s := by
  unfold intervalNumber onTm
  wp
  intro a ha b _
  rw [numberParts_noDot hw ha, Post.zoom]
  refine (addUnit_noClock p b a.1 _).mono fun m t' h' => ?_
  intro h1 h2
  dsimp only at h1 h2 ⊢
  have e : ∀ s : IvS, (if s.ty = 8 then { s with ty := (rangeUnit range).value } else s).fMask = s.fMask := by intro s; split <;> rfl
  have e2 : ∀ s : IvS, (if s.ty = 8 then { s with ty := (rangeUnit range).value } else s).t = s.t := by intro s; split <;> rfl
  rw [e] at h1
  refine h' h2 ?_
  dsimp only
  rw [e2]
  exact h h1

theorem clock_free (w : Bytes) (range : Nat) (s : IvS) : Post (onTimeI (decodeTime w range)) (fun _ s' => s'.tMask = DTK_TIME_M) s := by
  unfold onTimeI
  rw [Post.zoom]
  exact decodeTime_mask w range _

theorem free_of_time {s : IvS} (h : s.tMask = DTK_TIME_M) : ClockFree2 s := by
  intro _ n
  rw [h] at n
  cases n

theorem ivSigned_free {s : IvS} (h : ClockFree s) (p : Profile) {w : Bytes} (hw : 46 ∉ w) (range : Nat) :
    Post (intervalSigned p w range) (fun _ s' => ClockFree2 s') s := by
  unfold intervalSigned
  split
  · rw [Post.bind]
    refine (clock_free _ range s).mono fun _ s' h => ?_
    dsimp only
    split
    · rw [Post.bind]
      unfold onTm
      rw [Post.zoom]
      refine Post.any fun _ _ => ?_
      wp
      exact free_of_time h
    · wp
      exact free_of_time h
  · exact number_free h p hw range

theorem field_free {s : IvS × Unit} (h : ClockFree s.1) (p : Profile) {f : Field} (hf : 46 ∉ f.2) (range i : Nat) :
    Post (intervalField p plainLook range i f) (fun _ s' => ClockFree s'.1) s := by
  have hword : Post (do
      let (ty, val) ← lookDelta plainLook i f.2
      if ty = .ignoreDtf then pure ()
      else noLook (do intervalWord ty val; addMaskI) : St (IvS × Unit) Unit) (fun _ s' => ClockFree s'.1) s := by
    rw [Post.bind, Post.lookDelta, Post.ite]
    refine ⟨fun _ => Post.pure.2 h, fun _ => ?_⟩
    rw [Post.noLook, Post.bind]
    refine Post.mono (Q := fun _ s' => ClockFree2 s') ?_ fun _ s' h => addMaskI_free h
    unfold intervalWord
    rw [Post.bind, Post.mod]
    split
    · exact Post.mod.2 fun h1 _ => h h1
    · exact Post.mod.2 fun h1 _ => h h1
    · wp
      intro a ha h1 _
      exact h h1
    · wp
  unfold intervalField
  split
  · rw [Post.noLook, Post.bind]
    refine (clock_free _ range s.1).mono fun _ s' h => ?_
    rw [Post.bind, Post.mod]
    exact addMaskI_free (free_of_time h)
  · rw [Post.noLook, Post.bind]
    exact (ivSigned_free h p hf range).mono fun _ s' h => addMaskI_free h
  · rw [Post.noLook, Post.bind]
    exact (number_free h p hf range).mono fun _ s' h => addMaskI_free h
  · rw [Post.noLook, Post.bind]
    exact (number_free h p hf range).mono fun _ s' h => addMaskI_free h
  · exact hword
  · exact hword
  · exact Post.fail.2 trivial

theorem loop_free (p : Profile) (range : Nat) : ∀ (l : List Field) (i : Nat) (s : IvS × Unit), ClockFree s.1 → (∀ f ∈ l, 46 ∉ f.2) →
    Post (intervalLoop p plainLook range l i) (fun _ s' => ClockFree s'.1) s := by
  intro l
  induction l with
  | nil => intro i s h _; exact Post.pure.2 h
  | cons f fs ih =>
    intro i s h hf
    unfold intervalLoop
    rw [Post.bind]
    exact (ih (i + 1) s h fun g hg => hf g (by simp [hg])).mono fun _ s' h' => field_free h' p (hf f (by simp)) range i

end Pg
