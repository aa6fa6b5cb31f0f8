import Verif.Lemmas.DebugUnits
import Verif.Lemmas.ShortDigits
import Verif.Props.NoPanicDebug

/-! # Intervals with short numbers do not make a debug build panic -/

namespace Pg
open Spec F64

variable {p : Profile}

theorem signMonths_ok {neg : Bool} {v : Int} (h : 0 ≤ v ∧ v ≤ 11) : ∃ w, signMonths p neg v = .ok w ∧ -11 ≤ w ∧ w ≤ 11 := by
  unfold signMonths
  split
  · exact ⟨-v, chk32_ok (by omega), by omega, by omega⟩
  · exact ⟨v, rfl, by omega, by omega⟩

theorem yearMonth_short {neg : Bool} {val : Int} {s : Bytes} (hv : -999999 ≤ val ∧ val ≤ 999999) :
    yearMonth p neg val s ≠ .panic ∧ ∀ a, yearMonth p neg val s = .ok a → -12000000 ≤ a ∧ a ≤ 12000000 := by
  unfold yearMonth
  cases hs : str2i32 s with
  | panic => exact absurd hs (str2i32_safe _)
  | err e => exact ⟨Res.safe_err _, fun a h => by cases h⟩
  | ok x =>
    obtain ⟨v2, r⟩ := x
    rw [Res.bind_ok]
    dsimp only
    split
    · exact ⟨Res.safe_err _, fun a h => by cases h⟩
    · split
      · exact ⟨Res.safe_err _, fun a h => by cases h⟩
      · obtain ⟨w, hw, h1, h2⟩ := signMonths_ok (p := p) (neg := neg) (v := v2) (by omega)
        rw [hw, Res.bind_ok]
        split
        · exact ⟨Res.safe_err _, fun a h => by cases h⟩
        · rw [chk32_ok (by omega), Res.bind_ok, chk32_ok (by omega)]
          exact ⟨Res.safe_ok _, fun a h => by cases h; omega⟩

/-- What the number of a field is. -/
structure ShortNum (a : Int × F64 × Bool) : Prop where
  size : -12000000 ≤ a.1 ∧ a.1 ≤ 12000000
  small : a.2.2 = false → -999999 ≤ a.1 ∧ a.1 ≤ 999999
  frac : Sized a.2.1 2

theorem sized_zero : Sized (.fin 0) 2 := ⟨0, rfl, by norm_num⟩

theorem numberParts_short {w : Bytes} (h : Short 6 w) : numberParts p w ≠ .panic ∧ ∀ a, numberParts p w = .ok a → ShortNum a := by
  unfold numberParts
  cases hs : str2i32 w with
  | panic => exact absurd hs (str2i32_safe _)
  | err e => exact ⟨Res.safe_err _, fun a h => by cases h⟩
  | ok x =>
    obtain ⟨v, r⟩ := x
    obtain ⟨h1, h2⟩ := str2i32_six h hs
    rw [Res.bind_ok]
    dsimp only
    split
    · exact ⟨Res.safe_ok _, fun a h => by cases h; exact ⟨by dsimp only; omega, fun _ => h1, sized_zero⟩⟩
    · rename_i c r
      split
      · obtain ⟨y1, y2⟩ := yearMonth_short (p := p) (neg := decide (w.head? = some 45)) (s := r) h1
        cases hy : yearMonth p (decide (w.head? = some 45)) v r with
        | panic => exact absurd hy y1
        | err e => exact ⟨Res.safe_err _, fun a h => by cases h⟩
        | ok m => exact ⟨Res.safe_ok _, fun a h => by cases h; exact ⟨y2 _ hy, fun e => (by cases e), sized_zero⟩⟩
      · split
        · rename_i hc
          subst hc
          cases hd : str2d (46 :: r) with
          | panic => exact absurd hd (str2d_safe _)
          | err e => exact ⟨Res.safe_err _, fun a h => by cases h⟩
          | ok y =>
            obtain ⟨x, r'⟩ := y
            rw [Res.bind_ok]
            dsimp only
            split
            · exact ⟨Res.safe_err _, fun a h => by cases h⟩
            · obtain ⟨fs, f1, f2, rfl⟩ := str2d_point rfl hd
              have hz := sized_fraction f1 f2
              refine ⟨Res.safe_ok _, fun a h => ?_⟩
              cases h
              refine ⟨by dsimp only; omega, fun _ => h1, ?_⟩
              split
              · exact hz.neg
              · exact hz
        · exact ⟨Res.safe_err _, fun a h => by cases h⟩

/-! ## One field -/

/-- The bounds before a field. -/
structure Before (n : Int) (s : IvS) : Prop where
  ty : TyOk s
  lim : Lim (1000000 * yearWeight s.fMask) (1000000 * hourWeight s.fMask) (13000000 * n) (3000000 * n) s.t

/-- The bounds after a field, before its mask is checked. -/
structure After (n : Int) (s : IvS) : Prop where
  ty : TyOk s
  lim : Lim (1000000 * (yearWeight s.fMask + yearWeight s.tMask)) (1000000 * (hourWeight s.fMask + hourWeight s.tMask)) (13000000 * n) (3000000 * n) s.t

/-- The bounds in case of an error. -/
def Failed (s : IvS) : Prop := Lim 2111000000 2000000 325000000 75000000 s.t

theorem yearWeight_bound (m : Nat) : 0 ≤ yearWeight m ∧ yearWeight m ≤ 1111 := by
  unfold yearWeight; constructor <;> (repeat' split) <;> omega
theorem hourWeight_bound (m : Nat) : 0 ≤ hourWeight m ∧ hourWeight m ≤ 1 := by
  unfold hourWeight; constructor <;> (repeat' split) <;> omega

theorem Before.failed {n : Int} {s : IvS} (h : Before n s) (hn : n ≤ 25) : Failed s := by
  have := yearWeight_bound s.fMask
  have := hourWeight_bound s.fMask
  exact h.lim.mono (by omega) (by omega) (by omega) (by omega)

theorem bit_disjoint {a b : Nat} (h : a &&& b = 0) (i : Nat) : ¬ (a.testBit i = true ∧ b.testBit i = true) := by
  rintro ⟨h1, h2⟩
  have := congrArg (fun x => x.testBit i) h
  simp [Nat.testBit_and, h1, h2] at this

theorem weight_or {a b : Nat} (h : a &&& b = 0) : yearWeight (b ||| a) = yearWeight b + yearWeight a ∧ hourWeight (b ||| a) = hourWeight b + hourWeight a := by
  have d := bit_disjoint h
  have key : ∀ i (k : Int), (if (b ||| a).testBit i = true then k else 0) = (if b.testBit i = true then k else 0) + (if a.testBit i = true then k else 0) := by
    intro i k
    have := d i
    rw [Nat.testBit_or]
    cases h1 : a.testBit i <;> cases h2 : b.testBit i <;> simp_all
  unfold yearWeight hourWeight
  rw [key, key, key, key, key]
  constructor <;> ring

theorem addMaskI_goes {n : Int} {s : IvS} (h : After n s) (hn : n ≤ 25) (hf : Failed s) : Goes Failed addMaskI (fun _ => Before n) s := by
  unfold addMaskI
  rw [Goes.bind, Goes.get]
  split
  · rw [Goes.fail]; exact hf
  · rename_i hm
    rw [Goes.mod]
    obtain ⟨e1, e2⟩ := weight_or (a := s.tMask) (b := s.fMask) (by simpa using hm)
    refine ⟨h.ty, ?_⟩
    dsimp only
    rw [e1, e2]
    exact h.lim

/-- Both bounds after a field. -/
def Done (n : Int) (s : IvS) : Prop := After n s ∧ Failed s

theorem intervalNumber_goes {n : Int} {s : IvS} (h : Before n s) (hn : 0 ≤ n ∧ n + 1 ≤ 25) {w : Bytes} (hw : Short 6 w) (range : Nat) :
    Goes Failed (intervalNumber p w range) (fun _ => Done (n + 1)) s := by
  have hf := h.failed (by omega)
  have hy := yearWeight_bound s.fMask
  have hh := hourWeight_bound s.fMask
  unfold intervalNumber
  rw [Goes.bind, Goes.mod, Goes.bind]
  obtain ⟨s', e⟩ : ∃ s', s' = (if s.ty = 8 then { s with ty := (rangeUnit range).value } else s) := ⟨_, rfl⟩
  have ht : TyOk s' ∧ s'.t = s.t ∧ s'.fMask = s.fMask := by
    rw [e]
    split
    · exact ⟨value_known _, rfl, rfl⟩
    · exact ⟨h.ty, rfl, rfl⟩
  rw [← e]
  obtain ⟨t1, t2, t3⟩ := ht
  clear e
  have hf' : Failed s' := by unfold Failed; rw [t2]; exact hf
  obtain ⟨n1, n2⟩ := numberParts_short (p := p) hw
  refine Goes.lift n1 hf' fun a ha => ?_
  have hk := n2 a ha
  obtain ⟨val, fv, mo⟩ := a
  dsimp only
  rw [Goes.bind, Goes.mod, Goes.bind, Goes.get, Goes.bind]
  dsimp only
  refine Goes.lift (ofInt_safe ?_) hf' fun u hu => ?_
  · split
    · exact value_known _
    · exact t1
  · rw [Goes.bind]
    unfold onTm
    rw [Goes.zoom]
    have hs : u ≠ .month → -999999 ≤ val ∧ val ≤ 999999 := by
      intro hne
      refine hk.small ?_
      dsimp only
      cases mo with
      | false => rfl
      | true =>
        exfalso; apply hne
        have : TokenField.ofInt TokenField.month.value = .ok u := by simpa using hu
        rw [show TokenField.ofInt TokenField.month.value = .ok .month from rfl] at this
        cases this; rfl
    have hlim := h.lim
    rw [← t2, ← t3] at hlim
    rw [← t3] at hy hh
    refine (addUnit_lim (p := p) hlim hk.frac hk.size hs (by omega) (by omega) (by omega) (by omega)).mono ?_ ?_
    · intro t hl
      exact hl.mono (by omega) (by omega) (by omega) (by omega)
    · intro m t ⟨hm, hl⟩
      rw [Goes.mod]
      have hym := yearWeight_bound m
      have hhm := hourWeight_bound m
      refine ⟨⟨?_, hl.mono (by dsimp only; omega) (by dsimp only; omega) (by omega) (by omega)⟩,
        hl.mono (by omega) (by omega) (by omega) (by omega)⟩
      unfold TyOk
      dsimp only
      split
      · exact value_known _
      · split
        · exact value_known _
        · exact t1

/-! ## Clock times -/

/-- The bounds on the state of `decode_time`. -/
def LimT (y h x f : Int) (t : TimeS) : Prop := Lim y (h + 1000000) (x + 13000000) (f + 3000000) (t.tm, t.fsec)

theorem decodeTime_goes {y h x f : Int} {t : TimeS} (l : Lim y h x f (t.tm, t.fsec)) (h0 : 0 ≤ h) (x0 : 0 ≤ x) (f0 : 0 ≤ f)
    {w : Bytes} (hw : Short 6 w) (range : Nat) :
    Goes (LimT y h x f) (decodeTime w range) (fun _ t' => t'.tMask = 31744 ∧ LimT y h x f t') t := by
  have l0 : LimT y h x f t := l.mono (by omega) (by omega) (by omega) (by omega)
  obtain ⟨a, b, c, d, e, g, i⟩ := l
  dsimp only at a b c d e g i
  unfold decodeTime
  rw [Goes.bind, Goes.mod, Goes.bind]
  refine Goes.lift (str2i32_safe _) l0 fun v hv => ?_
  obtain ⟨v, r⟩ := v
  obtain ⟨v1, v2⟩ := str2i32_six hw hv
  dsimp only
  rw [Goes.bind, Goes.mod]
  split
  · rename_i r
    rw [Goes.bind]
    refine Goes.lift (str2i32_safe _) (by constructor <;> dsimp only <;> omega) fun m hm => ?_
    obtain ⟨m, r'⟩ := m
    obtain ⟨m1, m2⟩ := str2i32_six v2.tail hm
    dsimp only
    rw [Goes.bind, Goes.mod, Goes.bind]
    suffices hs : ∀ t' : TimeS, t'.tMask = 31744 → t'.tm.hour = v → t'.tm.min = m → Lim y h x f ({ t'.tm with hour := 0, min := 0 }, t'.fsec) →
        Goes (LimT y h x f) (timeTail r' range) (fun _ t' => t'.tMask = 31744 ∧ LimT y h x f t') t' by
      refine (hs _ rfl rfl rfl (by constructor <;> dsimp only <;> omega)).mono (fun _ h => h) fun _ t' ht => ?_
      rw [Goes.bind, Goes.get]
      split
      · rw [Goes.fail]; exact ht.2
      · rw [Goes.pure]; exact ht
    intro t' tm th tn tl
    obtain ⟨a, b, c, d, e, g, i⟩ := tl
    dsimp only at a b c d e g i
    have here : LimT y h x f t' := by constructor <;> dsimp only <;> omega
    unfold timeTail
    split
    · rw [Goes.bind, Goes.mod]
      split
      · rw [Goes.mod]
        refine ⟨tm, ?_⟩
        constructor <;> dsimp only <;> omega
      · rw [Goes.pure]
        refine ⟨tm, ?_⟩
        constructor <;> dsimp only <;> omega
    · rename_i c' r''
      split
      · rename_i hc
        rw [Goes.bind]
        refine Goes.lift (fraction_safe _) here fun fr hfr => ?_
        have := fraction_point (by rw [hc]; rfl) hfr
        rw [Goes.mod]
        refine ⟨tm, ?_⟩
        constructor <;> dsimp only <;> omega
      · split
        · unfold timeSeconds
          rw [Goes.bind]
          refine Goes.lift (str2i32_safe _) here fun sc hsc => ?_
          obtain ⟨sc, r3⟩ := sc
          obtain ⟨s1, s2⟩ := str2i32_six m2.tail hsc
          dsimp only
          rw [Goes.bind, Goes.mod]
          split
          · rw [Goes.mod]
            refine ⟨tm, ?_⟩
            constructor <;> dsimp only <;> omega
          · split
            · rename_i hc
              rw [Goes.bind]
              refine Goes.lift (fraction_safe _) (by constructor <;> dsimp only <;> omega) fun fr hfr => ?_
              have := fraction_point (by rw [hc]; rfl) hfr
              rw [Goes.mod]
              refine ⟨tm, ?_⟩
              constructor <;> dsimp only <;> omega
            · rw [Goes.fail]; constructor <;> dsimp only <;> omega
        · rw [Goes.fail]; exact here
  · rw [Goes.fail]
    constructor <;> dsimp only <;> omega

theorem onTime_goes {n : Int} {s : IvS} (h : Before n s) (hn : 0 ≤ n ∧ n + 1 ≤ 25) {w : Bytes} (hw : Short 6 w) (range : Nat) :
    Goes Failed (onTimeI (decodeTime w range)) (fun _ => Done (n + 1)) s := by
  have hy := yearWeight_bound s.fMask
  have hh := hourWeight_bound s.fMask
  unfold onTimeI
  rw [Goes.zoom]
  refine (decodeTime_goes (t := ⟨s.tMask, s.t.1, s.t.2⟩) h.lim (by omega) (by omega) (by omega) hw range).mono ?_ ?_
  · intro t l
    exact l.mono (by omega) (by omega) (by omega) (by omega)
  · intro _ t ⟨hm, l⟩
    refine ⟨⟨h.ty, ?_⟩, l.mono (by omega) (by omega) (by omega) (by omega)⟩
    dsimp only
    rw [hm, show yearWeight 31744 = 0 from by decide, show hourWeight 31744 = 1 from by decide]
    exact l.mono (by omega) (by omega) (by omega) (by omega)

theorem flipTime_goes {y h x f : Int} {R : TmF → Prop} {t : TmF} (l : Lim y h x f t) (hh : h ≤ 2147483647) (hx : x ≤ 2147483647) (hf : f ≤ 1000000000000) :
    Goes R (flipTime p) (fun _ => Lim y h x f) t := by
  obtain ⟨a, b, c, d, e, g, i⟩ := l
  unfold flipTime
  rw [Goes.bind, Goes.get, Goes.bind, chk32_ok (by omega), Goes.lift_ok, Goes.bind, chk32_ok (by omega), Goes.lift_ok,
    Goes.bind, chk32_ok (by omega), Goes.lift_ok, Goes.bind, chk64_ok (by omega), Goes.lift_ok, Goes.mod]
  constructor <;> dsimp only <;> omega

theorem flip_goes {n : Int} {s : IvS} (h : Done n s) (hn : n ≤ 25) : Goes Failed (onTm (flipTime p)) (fun _ => Done n) s := by
  have h1 := yearWeight_bound s.fMask
  have h2 := hourWeight_bound s.fMask
  have h3 := yearWeight_bound s.tMask
  have h4 := hourWeight_bound s.tMask
  unfold onTm
  rw [Goes.zoom]
  obtain ⟨a, b⟩ := h
  have e1 := flipTime_goes (p := p) (R := fun t => Failed { s with t := t }) a.lim (by omega) (by omega) (by omega)
  have e2 := flipTime_goes (p := p) (R := fun t => Failed { s with t := t }) b (by omega) (by omega) (by omega)
  unfold Goes at e1 e2 ⊢
  cases hm : flipTime p s.t with
  | mk r s' =>
    rw [hm] at e1 e2
    cases r with
    | ok u => exact ⟨⟨a.ty, e1⟩, e2⟩
    | err e => exact e1
    | panic => exact e1

theorem setDay_goes {n : Int} {s : IvS} (h : Done n s) : Goes Failed (St.mod fun s : IvS => { s with ty := TokenField.day.value }) (fun _ => Done n) s := by
  rw [Goes.mod]
  exact ⟨⟨value_known .day, h.1.lim⟩, h.2⟩

theorem done_mask {n : Int} {s : IvS} (h : Done n s) (hn : n ≤ 25) : Goes Failed addMaskI (fun _ => Before n) s := addMaskI_goes h.1 hn h.2

theorem signed_goes {n : Int} {s : IvS} (h : Before n s) (hn : 0 ≤ n ∧ n + 1 ≤ 25) {w : Bytes} (hw : Short 6 w) (range : Nat) :
    Goes Failed (intervalSigned p w range) (fun _ => Done (n + 1)) s := by
  unfold intervalSigned
  by_cases ha : w.any (fun b => b = 58) = true
  · rw [if_pos ha, Goes.bind]
    have hd : Short 6 (w.drop 1) := by
      rw [← List.take_append_drop 1 w] at hw
      exact hw.right
    refine (onTime_goes h hn hd range).mono (fun _ h => h) fun _ s' h' => ?_
    by_cases hc : w.head? = some 45
    · dsimp only
      rw [if_pos hc, Goes.bind]
      exact (flip_goes h' hn.2).mono (fun _ h => h) fun _ _ h => setDay_goes h
    · dsimp only
      rw [if_neg hc]
      exact setDay_goes h'
  · rw [if_neg ha]
    exact intervalNumber_goes h hn hw range

theorem Before.after {n m : Int} {s s' : IvS} (h : Before n s) (hm : 0 ≤ n ∧ n ≤ m ∧ m ≤ 25) (e1 : s'.t = s.t) (e2 : s'.fMask = s.fMask) (ht : TyOk s') : Done m s' := by
  have h1 := yearWeight_bound s.fMask
  have h2 := hourWeight_bound s.fMask
  have h3 := yearWeight_bound s'.tMask
  have h4 := hourWeight_bound s'.tMask
  refine ⟨⟨ht, ?_⟩, ?_⟩
  · rw [e1, e2]
    exact h.lim.mono (by omega) (by omega) (by omega) (by omega)
  · unfold Failed
    rw [e1]
    exact h.lim.mono (by omega) (by omega) (by omega) (by omega)

theorem word_goes {n : Int} {s : IvS} (h : Before n s) (hn : 0 ≤ n ∧ n + 1 ≤ 25) {ty : TokenType} {v : Int} (hk : KnownWord (ty, v)) :
    Goes Failed (intervalWord ty v) (fun _ => Done (n + 1)) s := by
  have hf := h.failed (by omega)
  unfold intervalWord
  rw [Goes.bind, Goes.mod]
  split
  · rw [Goes.mod]; exact h.after (by omega) rfl rfl (hk (.inr (.inl rfl)))
  · rw [Goes.mod]; exact h.after (by omega) rfl rfl (hk (.inr (.inr (.inr rfl))))
  · rw [Goes.bind, Goes.mod, Goes.bind]
    refine Goes.lift (ofInt_safe (hk (.inl rfl))) hf fun _ _ => ?_
    rw [Goes.mod]
    exact h.after (by omega) rfl rfl h.ty
  · rw [Goes.fail]; exact hf

/-- The bounds with the (empty) caches. -/
theorem field_goes {n : Int} {s : IvS × Unit} (h : Before n s.1) (hn : 0 ≤ n ∧ n + 1 ≤ 25) {f : Field} (hw : Short 6 f.2) (range i : Nat) :
    Goes (fun s => Failed s.1) (intervalField p plainLook range i f) (fun _ s => Before (n + 1) s.1) s := by
  have hword : Goes (fun s : IvS × Unit => Failed s.1) (do
      let (ty, val) ← lookDelta plainLook i f.2
      if ty = .ignoreDtf then pure ()
      else noLook (do intervalWord ty val; addMaskI) : St (IvS × Unit) Unit) (fun _ s => Before (n + 1) s.1) s := by
    rw [Goes.bind]
    obtain ⟨s1, c⟩ := s
    have hl : lookDelta (σ := IvS) plainLook i f.2 (s1, c) = (.ok (tokenResult (lookupIn deltaTable f.2)), (s1, c)) := by
      simp only [lookDelta, plainLook, searchDelta_eq]
    refine Goes.of_eq hl ?_
    have hk := lookDelta_known hl
    revert hk
    generalize tokenResult (lookupIn deltaTable f.2) = a
    intro hk
    obtain ⟨ty, v⟩ := a
    dsimp only
    split
    · rw [Goes.pure]
      exact ⟨h.ty, h.lim.mono (by omega) (by omega) (by omega) (by omega)⟩
    · rw [Goes.noLook, Goes.bind]
      exact (word_goes h hn hk).mono (fun _ h => h) fun _ _ h => done_mask h hn.2
  unfold intervalField
  split
  · rw [Goes.noLook, Goes.bind]
    refine (onTime_goes h hn hw range).mono (fun _ h => h) fun _ _ h => ?_
    rw [Goes.bind]
    exact (setDay_goes h).mono (fun _ h => h) fun _ _ h => done_mask h hn.2
  · rw [Goes.noLook, Goes.bind]
    exact (signed_goes h hn hw range).mono (fun _ h => h) fun _ _ h => done_mask h hn.2
  · rw [Goes.noLook, Goes.bind]
    exact (intervalNumber_goes h hn hw range).mono (fun _ h => h) fun _ _ h => done_mask h hn.2
  · rw [Goes.noLook, Goes.bind]
    exact (intervalNumber_goes h hn hw range).mono (fun _ h => h) fun _ _ h => done_mask h hn.2
  · exact hword
  · exact hword
  · rw [Goes.fail]; exact h.failed (by omega)

theorem loop_goes (range : Nat) : ∀ (l : List Field) (i : Nat) (s : IvS × Unit), Before 0 s.1 → l.length ≤ 25 → (∀ f ∈ l, Short 6 f.2) →
    Goes (fun s => Failed s.1) (intervalLoop p plainLook range l i) (fun _ s => Before l.length s.1) s := by
  intro l
  induction l with
  | nil => intro i s h _ _; exact h
  | cons f l ih =>
    intro i s h hl hf
    rw [List.length_cons] at hl
    rw [intervalLoop, Goes.bind]
    refine (ih (i + 1) s h (by omega) fun g hg => hf g (by simp [hg])).mono (fun _ h => h) fun _ s' h' => ?_
    have := field_goes (p := p) h' ⟨by omega, by omega⟩ (hf f (by simp)) range i
    rw [List.length_cons]
    push_cast
    exact this

end Pg
