import Verif.Lemmas.FormatInterval
import Verif.Lemmas.NoPanic

/-! # When printing an interval panics -/

namespace Pg
open Spec

/-- `f` writes up to `n` bytes and does not fail. -/
def Prints (n : Nat) (f : Buf → Res Buf) : Prop :=
  ∀ b : Buf, b.1.length = 128 → b.2 + n ≤ 128 → ∃ b', f b = .ok b' ∧ b'.1.length = 128 ∧ b'.2 ≤ b.2 + n

/-- `f` panics, with room for `n` more bytes. -/
def Breaks (n : Nat) (f : Buf → Res Buf) : Prop :=
  ∀ b : Buf, b.1.length = 128 → b.2 + n ≤ 128 → f b = .panic

/-- As `Prints`, for a part that turns the flags from `z` into `z'`. -/
def PrintsZ (n : Nat) (g : Bool × Bool → Buf → Res ((Bool × Bool) × Buf)) (z z' : Bool × Bool) : Prop :=
  ∀ b : Buf, b.1.length = 128 → b.2 + n ≤ 128 → ∃ b', g z b = .ok (z', b') ∧ b'.1.length = 128 ∧ b'.2 ≤ b.2 + n

theorem Prints.of {f : Buf → Res Buf} {w : Bytes} {n : Nat} (h : Emits f w) (hn : w.length ≤ n) : Prints n f := by
  rintro ⟨s, o⟩ hl ho
  dsimp only at hl ho
  have e1 : s.take o ++ s.drop o = s := List.take_append_drop o s
  have e2 : (s.take o).length = o := by rw [List.length_take]; omega
  have := h (s.take o) (s.drop o) (by rw [List.length_drop]; omega)
  rw [e1, e2] at this
  refine ⟨_, this, ?_, ?_⟩
  · simp; omega
  · simp only [List.length_append, e2]; omega

theorem Prints.bind {f g : Buf → Res Buf} {n m : Nat} (hf : Prints n f) (hg : Prints m g) : Prints (n + m) (fun b => f b >>= g) := by
  intro b hl ho
  obtain ⟨b', e, hl', ho'⟩ := hf b hl (by omega)
  obtain ⟨c, e2, hl2, ho2⟩ := hg b' hl' (by omega)
  exact ⟨c, by simp only [e, Res.bind_ok, e2], hl2, by omega⟩

theorem Prints.mono {f : Buf → Res Buf} {n m : Nat} (hf : Prints n f) (h : n ≤ m) : Prints m f := by
  intro b hl ho
  obtain ⟨b', e, hl', ho'⟩ := hf b hl (by omega)
  exact ⟨b', e, hl', by omega⟩

theorem Prints.breaks {f g : Buf → Res Buf} {n m : Nat} (hf : Prints n f) (hg : Breaks m g) :
    Breaks (n + m) (fun b => f b >>= g) := by
  intro b hl ho
  obtain ⟨b', e, hl', ho'⟩ := hf b hl (by omega)
  simp only [e, Res.bind_ok]
  exact hg b' hl' (by omega)

theorem Breaks.bind {f g : Buf → Res Buf} {n : Nat} (hf : Breaks n f) : Breaks n (fun b => f b >>= g) := by
  intro b hl ho
  simp only [hf b hl ho]
  rfl

theorem PrintsZ.bind {g : Bool × Bool → Buf → Res ((Bool × Bool) × Buf)} {z z' : Bool × Bool} {n m : Nat}
    {k : Bool × Bool → Buf → Res Buf} (h : PrintsZ n g z z') (hk : Prints m (k z')) :
    Prints (n + m) (fun b => g z b >>= fun x => k x.1 x.2) := by
  intro b hl ho
  obtain ⟨b', e, hl', ho'⟩ := h b hl (by omega)
  obtain ⟨c, e2, hl2, ho2⟩ := hk b' hl' (by omega)
  exact ⟨c, by simp only [e, Res.bind_ok, e2], hl2, by omega⟩

theorem PrintsZ.breaks {g : Bool × Bool → Buf → Res ((Bool × Bool) × Buf)} {z z' : Bool × Bool} {n m : Nat}
    {k : Bool × Bool → Buf → Res Buf} (h : PrintsZ n g z z') (hk : Breaks m (k z')) :
    Breaks (n + m) (fun b => g z b >>= fun x => k x.1 x.2) := by
  intro b hl ho
  obtain ⟨b', e, hl', ho'⟩ := h b hl (by omega)
  simp only [e, Res.bind_ok]
  exact hk b' hl' (by omega)

theorem Prints.run {f : Buf → Res Buf} {n : Nat} (h : Prints n f) (hn : n ≤ 128) {junk : Bytes} (hj : junk.length = 128) :
    runFormat junk f ≠ .panic := by
  obtain ⟨b', e, -⟩ := h (junk, 0) hj (by simpa using hn)
  unfold runFormat
  rw [e]
  exact Res.safe_ok _

theorem Breaks.run {f : Buf → Res Buf} {n : Nat} (h : Breaks n f) (hn : n ≤ 128) {junk : Bytes} (hj : junk.length = 128) :
    runFormat junk f = .panic := by
  have e := h (junk, 0) hj (by simpa using hn)
  unfold runFormat
  rw [e]
  rfl

theorem Prints.byte (x : Nat) : Prints 1 (setOneByte x) := .of (Emits.byte x) (by simp)
theorem Prints.slice (x : Bytes) : Prints x.length (copySlice x) := .of (Emits.slice x) (by simp)
theorem Prints.nothing : Prints 0 (fun b => .ok b) := .of Emits.nil (by simp)
theorem Prints.putIf (c : Bool) (x : Nat) : Prints 1 (putIf c x) := .of (putIf_emits c x) (by split <;> simp)
theorem Prints.copyIf (c : Bool) (x : Bytes) : Prints x.length (copyIf c x) := .of (copyIf_emits c x) (by split <;> simp)

theorem Prints.putInt {v : Int} (h : In32 v) : Prints 11 (putInt v) := by
  refine .of (putInt_emits h) ?_
  rw [intText_eq, List.length_append]
  unfold In32 at h
  have := minus_len (decide (v < 0))
  have := natText_len10 (n := v.natAbs) (by omega)
  omega

theorem abs_min : abs32 .release (-2147483648) = .ok (-2147483648) := by decide

theorem Prints.putAbs (p : Profile) {v : Int} (h : In32 v) (hm : p = .release ∨ v ≠ -2147483648) : Prints 11 (putAbs p v) := by
  by_cases h2 : v = -2147483648
  · rcases hm with rfl | hm
    · have e : Pg.putAbs .release v = Pg.putInt v := by
        funext b
        rw [Pg.putAbs, h2, abs_min, Res.bind_ok]
      rw [e]
      exact Prints.putInt h
    · exact absurd h2 hm
  · refine .of (putAbs_emits p h h2) ?_
    unfold In32 at h
    have := natText_len10 (n := v.natAbs) (by omega)
    omega

theorem Breaks.putAbs (n : Nat) : Breaks n (putAbs .debug (-2147483648)) := fun _ _ _ => rfl
theorem Breaks.put2Abs (n : Nat) : Breaks n (put2Abs .debug (-2147483648)) := fun _ _ _ => rfl

theorem zeropad_min : Writes (pgLtostrZeropad .release (-2147483648) 2) (intText (-2147483648)) := by
  intro s hs
  have hl : (intText (-2147483648)).length = 11 := by decide +kernel
  obtain ⟨x, y, t, rfl⟩ : ∃ x y t, s = x :: y :: t := by
    rcases s with - | ⟨x, - | ⟨y, t⟩⟩
    · simp [hl] at hs
    · simp [hl] at hs
    · exact ⟨x, y, t, rfl⟩
  have e : pgLtostrZeropad .release (-2147483648) 2 (x :: y :: t) = pgLtostr (-2147483648) (45 :: 56 :: t) := rfl
  rw [e]
  have h1 := pgLtostr_writes (v := -2147483648) (by decide) (45 :: 56 :: t) (by simpa using hs)
  rw [h1]
  have h2 : ∀ a b c d : Nat, List.drop 11 (a :: b :: t) = List.drop 11 (c :: d :: t) := fun _ _ _ _ => rfl
  rw [hl, h2 45 56 x y]

theorem Prints.put2Abs (p : Profile) {v : Int} (h : In32 v) (hm : p = .release ∨ v ≠ -2147483648) :
    Prints 11 (put2Abs p v) := by
  by_cases h2 : v = -2147483648
  · rcases hm with rfl | hm
    · have e : Pg.put2Abs .release v = Pg.put2 .release v := by
        funext b
        rw [Pg.put2Abs, h2, abs_min, Res.bind_ok]
      rw [e, h2]
      exact .of (Emits.sub zeropad_min) (by decide +kernel)
    · exact absurd h2 hm
  · refine .of (put2Abs_emits p h h2) ?_
    unfold In32 at h
    have := padText2_len10 (n := v.natAbs) (by omega)
    omega

theorem Prints.put2 (p : Profile) {v : Int} (h : In32 v) (hv : 0 ≤ v) : Prints 11 (put2 p v) := by
  refine .of (put2_emits p h hv) ?_
  unfold In32 at h
  have := padText2_len10 (n := v.natAbs) (by omega)
  omega

theorem Prints.putSec (p : Profile) (m d t : Int) (fill : Bool) : Prints 9 (putSec p (ivx m d t) fill) :=
  .of (putSec_emits p m d t fill) (secText_len fill t)

/-- The fields of the seconds do not depend on the rest. -/
theorem Prints.putSec' (p : Profile) (x : IvTm) (t : Int) (h1 : x.sec = Int.tdiv (Int.tmod t 60000000) 1000000)
    (h2 : x.fsec = Int.tmod t 1000000) (fill : Bool) : Prints 9 (Pg.putSec p x fill) := by
  have : Pg.putSec p x fill = Pg.putSec p (ivx 0 0 t) fill := by
    funext b
    unfold Pg.putSec
    rw [h1, h2]; rfl
  rw [this]
  exact Prints.putSec p 0 0 t fill

section
variable {p : Profile} {m d t : Int}

/-! ## The SQL style -/

theorem mixed_fits (hm : In32 m) (hd : In32 d) (hh : In32 (ivHour t)) (h1 : p = .release ∨ d ≠ -2147483648)
    (h2 : p = .release ∨ ivHour t ≠ -2147483648) : Prints 82 (sqlMixed p (ivx m d t)) := by
  have hy := ivYear_in hm
  have hmo := ivMon_in m
  have hmi := ivMin_in t
  have key := (Prints.byte (if (ivx m d t).year < 0 ∨ (ivx m d t).mon < 0 then 45 else 43)).bind
    ((Prints.putAbs p (v := ivYear m) (by unfold In32; omega) (.inr (by omega))).bind ((Prints.byte 45).bind
    ((Prints.putAbs p (v := ivMon m) (by unfold In32; omega) (.inr (by omega))).bind ((Prints.byte 32).bind
    ((Prints.byte (if (ivx m d t).mday < 0 then 45 else 43)).bind ((Prints.putAbs p hd h1).bind ((Prints.byte 32).bind
    ((Prints.byte (if (ivx m d t).clockNeg then 45 else 43)).bind ((Prints.putAbs p hh h2).bind ((Prints.byte 58).bind
    ((Prints.put2Abs p (v := ivMin t) (by unfold In32; omega) (.inr (by omega))).bind ((Prints.byte 58).bind
    (Prints.putSec p m d t true)))))))))))))
  exact key.mono (by omega)

theorem mixed_breaks (hm : In32 m) (hd : In32 d) (hb : d = -2147483648 ∨ ivHour t = -2147483648) :
    Breaks 82 (sqlMixed .debug (ivx m d t)) := by
  have hy := ivYear_in hm
  have hmo := ivMon_in m
  by_cases h1 : d = -2147483648
  · have key := (Prints.byte (if (ivx m d t).year < 0 ∨ (ivx m d t).mon < 0 then 45 else 43)).breaks
      ((Prints.putAbs .debug (v := ivYear m) (by unfold In32; omega) (.inr (by omega))).breaks ((Prints.byte 45).breaks
      ((Prints.putAbs .debug (v := ivMon m) (by unfold In32; omega) (.inr (by omega))).breaks ((Prints.byte 32).breaks
      ((Prints.byte (if (ivx m d t).mday < 0 then 45 else 43)).breaks
      (Breaks.bind (f := putAbs .debug d) (n := 56) (g := fun b => setOneByte 32 b >>= fun b =>
        setOneByte (if (ivx m d t).clockNeg then 45 else 43) b >>= fun b => putAbs .debug (ivHour t) b >>= fun b =>
        setOneByte 58 b >>= fun b => put2Abs .debug (ivMin t) b >>= fun b => setOneByte 58 b >>= fun b =>
        putSec .debug (ivx m d t) true b) (by rw [h1]; exact Breaks.putAbs 56)))))))
    exact key
  · have h2 : ivHour t = -2147483648 := hb.resolve_left h1
    have key := (Prints.byte (if (ivx m d t).year < 0 ∨ (ivx m d t).mon < 0 then 45 else 43)).breaks
      ((Prints.putAbs .debug (v := ivYear m) (by unfold In32; omega) (.inr (by omega))).breaks ((Prints.byte 45).breaks
      ((Prints.putAbs .debug (v := ivMon m) (by unfold In32; omega) (.inr (by omega))).breaks ((Prints.byte 32).breaks
      ((Prints.byte (if (ivx m d t).mday < 0 then 45 else 43)).breaks ((Prints.putAbs .debug hd (.inr h1)).breaks
      ((Prints.byte 32).breaks ((Prints.byte (if (ivx m d t).clockNeg then 45 else 43)).breaks
      (Breaks.bind (f := putAbs .debug (ivHour t)) (n := 43) (g := fun b =>
        setOneByte 58 b >>= fun b => put2Abs .debug (ivMin t) b >>= fun b => setOneByte 58 b >>= fun b =>
        putSec .debug (ivx m d t) true b) (by rw [h2]; exact Breaks.putAbs 43))))))))))
    exact key

/-- The fields of an interval, negated in a release build. -/
def negTm (m d t : Int) : IvTm :=
  ⟨wrap32 (-ivYear m), wrap32 (-ivMon m), wrap32 (-d), wrap32 (-ivHour t), wrap32 (-ivMin t),
    Int.tdiv (Int.tmod (-t) 60000000) 1000000, Int.tmod (-t) 1000000⟩

theorem neg_breaks (hm : In32 m) (hb : d = -2147483648 ∨ ivHour t = -2147483648) :
    (ivx m d t).neg .debug = .panic := by
  have hy := ivYear_in hm
  have hmo := ivMon_in m
  have bad : chk32 .debug (- -2147483648) = .panic := by decide
  unfold IvTm.neg ivx
  dsimp only
  rw [chk32_ok (by omega), Res.bind_ok, chk32_ok (by omega), Res.bind_ok]
  by_cases h1 : d = -2147483648
  · rw [h1, bad]; rfl
  · by_cases hd : In32 (-d)
    · rw [chk32_ok (by unfold In32 at hd; omega), Res.bind_ok, hb.resolve_left h1, bad]; rfl
    · have : chk32 .debug (-d) = .panic := by unfold chk32; rw [if_neg hd]
      rw [this]; rfl

theorem chk_release (x : Int) : chk32 .release x = .ok (wrap32 x) := by
  unfold chk32
  by_cases h : In32 x
  · rw [if_pos h]
    have : wrap32 x = x := by unfold In32 at h; unfold wrap32; omega
    rw [this]
  · rw [if_neg h]

theorem neg_release (m d t : Int) : (ivx m d t).neg .release = .ok (negTm m d t) := by
  have h1 := tmod_or t 60000000
  have h2 := tdiv_or (Int.tmod t 60000000) 1000000
  have h3 := tmod_or t 1000000
  unfold IvTm.neg ivx negTm
  dsimp only
  rw [chk_release, Res.bind_ok, chk_release, Res.bind_ok, chk_release, Res.bind_ok, chk_release, Res.bind_ok, chk_release,
    Res.bind_ok, chk32_ok (by omega), Res.bind_ok, chk64_ok (by omega), Res.bind_ok, tmod_neg', tmod_neg', tdiv_neg']
  rfl

theorem wrap_in (x : Int) : In32 (wrap32 x) := by unfold wrap32 In32; omega

theorem clock_neg_fits (ht : t ≤ 0) : Prints 33 (sqlClock p (negTm m d t)) := by
  have hmi := ivMin_in t
  have hc := ivClock_sign t
  have e : wrap32 (-ivMin t) = -ivMin t := by unfold wrap32; omega
  exact ((Prints.putInt (wrap_in (-ivHour t))).bind ((Prints.byte 58).bind ((Prints.put2 p (v := wrap32 (-ivMin t))
    (wrap_in _) (by omega)).bind ((Prints.byte 58).bind (Prints.putSec' p (negTm m d t) (-t) rfl rfl true))))).mono (by omega)

theorem sql_release (hm : In32 m) (hd : In32 d) (hh : In32 (ivHour t)) (hn : m < 0 ∨ d < 0 ∨ t < 0) :
    Prints 128 (putSql .release (ivx m d t)) := by
  have e0 : (ivx m d t).hasNeg = true := by rw [hasNeg_ivx]; simpa using hn
  by_cases hs : sqlMixedParts m d t = true
  · have : putSql .release (ivx m d t) = sqlMixed .release (ivx m d t) := by
      funext b
      rw [putSql, sqlStandard_ivx, hs, e0, if_neg (by simp), sqlBody, if_neg (by simp), if_pos (by simp)]
    rw [this]
    exact (mixed_fits hm hd hh (.inl rfl) (.inl rfl)).mono (by omega)
  · rw [Bool.not_eq_true] at hs
    have ht : t ≤ 0 := by
      unfold sqlMixedParts at hs
      simp only [Bool.or_eq_false_iff, Bool.and_eq_false_iff, decide_eq_false_iff_not] at hs
      omega
    have : putSql .release (ivx m d t) = fun b => setOneByte 45 b >>= fun b =>
        if (ivx m d t).hasYearMonth then putInt (wrap32 (-ivYear m)) b >>= fun b => setOneByte 45 b >>= fun b =>
            putInt (wrap32 (-ivMon m)) b
        else if d ≠ 0 then putInt (wrap32 (-d)) b >>= fun b => setOneByte 32 b >>= fun b => sqlClock .release (negTm m d t) b
        else sqlClock .release (negTm m d t) b := by
      funext b
      rw [putSql, sqlStandard_ivx, hs, e0, if_pos (by simp)]
      congr 1
      funext b
      rw [neg_release, Res.bind_ok, sqlBody, if_neg (by simp), if_neg (by simp)]
      by_cases h1 : (ivx m d t).hasYearMonth = true
      · rw [if_pos h1, if_pos h1]; rfl
      · rw [if_neg h1, if_neg h1]
        by_cases h2 : d = 0
        · have : decide ((ivx m d t).mday ≠ 0) = false := by simp only [ivx, ne_eq, h2, not_true_eq_false, decide_false]
          rw [this, if_neg (by simp), if_neg (by simpa using h2)]
        · have : ((ivx m d t).mday ≠ 0) = True := by simp only [ivx, ne_eq, h2, not_false_eq_true]
          simp only [this, h2, ne_eq, not_false_eq_true, decide_true, if_true]
          rfl
    rw [this]
    refine Prints.mono (n := 1 + 100) ((Prints.byte 45).bind ?_) (by omega)
    intro b hl ho
    by_cases h1 : (ivx m d t).hasYearMonth = true
    · simp only [h1, if_true]
      exact ((Prints.putInt (wrap_in _)).bind ((Prints.byte 45).bind (Prints.putInt (wrap_in _)))).mono (by omega) b hl ho
    · by_cases h2 : d = 0
      · dsimp only
        rw [if_neg h1, if_neg (by simpa using h2)]
        exact (clock_neg_fits ht).mono (by omega) b hl ho
      · dsimp only
        rw [if_neg h1, if_pos h2]
        exact ((Prints.putInt (wrap_in _)).bind ((Prints.byte 32).bind (clock_neg_fits ht))).mono (by omega) b hl ho

theorem sql_breaks (hm : In32 m) (hd : In32 d) (hb : d = -2147483648 ∨ ivHour t = -2147483648) :
    Breaks 128 (putSql .debug (ivx m d t)) := by
  have hn : d < 0 ∨ t < 0 := by
    have := ivClock_sign t
    omega
  have e0 : (ivx m d t).hasNeg = true := by rw [hasNeg_ivx]; simp; omega
  by_cases hs : sqlMixedParts m d t = true
  · have : putSql .debug (ivx m d t) = sqlMixed .debug (ivx m d t) := by
      funext b
      rw [putSql, sqlStandard_ivx, hs, e0, if_neg (by simp), sqlBody, if_neg (by simp), if_pos (by simp)]
    rw [this]
    intro b hl ho
    exact mixed_breaks hm hd hb b hl (by omega)
  · rw [Bool.not_eq_true] at hs
    intro b hl ho
    rw [putSql, sqlStandard_ivx, hs, e0, if_pos (by simp)]
    obtain ⟨b', e, -⟩ := Prints.byte 45 b hl (by omega)
    rw [e, Res.bind_ok, neg_breaks hm hb]
    rfl

/-! ## The Postgres style -/

theorem pgPart_fits {v : Int} (h : In32 v) (units : Bytes) (z : Bool × Bool) :
    ∃ z', PrintsZ (15 + units.length) (pgPart v units) z z' := by
  by_cases h0 : v = 0
  · refine ⟨z, fun b hl ho => ⟨b, ?_, hl, by omega⟩⟩
    rw [pgPart, if_pos h0]
  · refine ⟨(false, decide (v < 0)), fun b hl ho => ?_⟩
    obtain ⟨b', e, h1, h2⟩ := ((Prints.putIf (!z.1) 32).bind ((Prints.putIf (z.2 && decide (v > 0)) 43).bind
      ((Prints.putInt h).bind ((Prints.byte 32).bind ((Prints.slice units).bind (Prints.putIf (decide (v ≠ 1)) 115)))))) b hl (by omega)
    refine ⟨b', ?_, h1, by omega⟩
    rw [pgPart, if_neg h0]
    simp only [Res.bind_eq_ok] at e ⊢
    obtain ⟨x1, e1, x2, e2, x3, e3, x4, e4, x5, e5, e6⟩ := e
    exact ⟨x1, e1, x2, e2, x3, e3, x4, e4, x5, e5, b', e6, rfl⟩

theorem pg_fits (hm : In32 m) (hd : In32 d) (hh : In32 (ivHour t)) (h1 : p = .release ∨ ivHour t ≠ -2147483648) :
    Prints 128 (putPg p (ivx m d t)) := by
  have hy := ivYear_in hm
  have hmo := ivMon_in m
  have hmi := ivMin_in t
  obtain ⟨z1, f1⟩ := pgPart_fits (v := ivYear m) (by unfold In32; omega) b!"year" (true, false)
  obtain ⟨z2, f2⟩ := pgPart_fits (v := ivMon m) (by unfold In32; omega) b!"mon" z1
  obtain ⟨z3, f3⟩ := pgPart_fits hd b!"day" z2
  have fc : Prints 50 (pgClock p (ivx m d t) z3) := by
    by_cases hc : (z3.1 || (ivx m d t).clockNonzero) = true
    · intro b hl ho
      rw [pgClock, if_pos hc]
      exact ((Prints.putIf (!z3.1) 32).bind ((Prints.putIf (ivx m d t).clockNeg 45).bind
        ((Prints.putIf (!(ivx m d t).clockNeg && z3.2) 43).bind ((Prints.put2Abs p hh h1).bind ((Prints.byte 58).bind
        ((Prints.put2Abs p (v := ivMin t) (by unfold In32; omega) (.inr (by omega))).bind ((Prints.byte 58).bind
        (Prints.putSec p m d t true)))))))).mono (by omega) b hl ho
    · intro b hl ho
      rw [pgClock, if_neg hc]
      exact ⟨b, rfl, hl, by omega⟩
  exact (f1.bind (k := fun z b => pgPart (ivMon m) b!"mon" z b >>= fun x => pgPart d b!"day" x.1 x.2 >>= fun x =>
      pgClock p (ivx m d t) x.1 x.2)
    (f2.bind (k := fun z b => pgPart d b!"day" z b >>= fun x => pgClock p (ivx m d t) x.1 x.2)
      (f3.bind (k := fun z b => pgClock p (ivx m d t) z b) fc))).mono (by simp)

theorem pg_breaks (hm : In32 m) (hd : In32 d) (hb : ivHour t = -2147483648) :
    Breaks 128 (putPg .debug (ivx m d t)) := by
  have hy := ivYear_in hm
  have hmo := ivMon_in m
  have hc := ivClock_sign t
  obtain ⟨z1, f1⟩ := pgPart_fits (v := ivYear m) (by unfold In32; omega) b!"year" (true, false)
  obtain ⟨z2, f2⟩ := pgPart_fits (v := ivMon m) (by unfold In32; omega) b!"mon" z1
  obtain ⟨z3, f3⟩ := pgPart_fits hd b!"day" z2
  have fc : Breaks 50 (pgClock .debug (ivx m d t) z3) := by
    have hn : (z3.1 || (ivx m d t).clockNonzero) = true := by
      rw [clockNonzero_ivx]; simp; right; omega
    have key : Breaks 50 (fun b => putIf (!z3.1) 32 b >>= fun b => putIf (ivx m d t).clockNeg 45 b >>= fun b =>
        putIf (!(ivx m d t).clockNeg && z3.2) 43 b >>= fun b => put2Abs .debug (ivHour t) b >>= fun b =>
        setOneByte 58 b >>= fun b => put2Abs .debug (ivMin t) b >>= fun b => setOneByte 58 b >>= fun b =>
        putSec .debug (ivx m d t) true b) := by
      exact (Prints.putIf (!z3.1) 32).breaks ((Prints.putIf (ivx m d t).clockNeg 45).breaks
        ((Prints.putIf (!(ivx m d t).clockNeg && z3.2) 43).breaks
          (Breaks.bind (n := 47) (f := put2Abs .debug (ivHour t)) (by rw [hb]; exact Breaks.put2Abs 47))))
    intro b hl ho
    rw [pgClock, if_pos hn]
    exact key b hl ho
  have := f1.breaks (k := fun z b => pgPart (ivMon m) b!"mon" z b >>= fun x => pgPart d b!"day" x.1 x.2 >>= fun x =>
      pgClock .debug (ivx m d t) x.1 x.2)
    (f2.breaks (k := fun z b => pgPart d b!"day" z b >>= fun x => pgClock .debug (ivx m d t) x.1 x.2)
      (f3.breaks (k := fun z b => pgClock .debug (ivx m d t) z b) fc))
  intro b hl ho
  exact this b hl (by simp; omega)

/-! ## The verbose style -/

/-- The flags after a part. -/
def nextFlags (z : Bool × Bool) (v : Int) : Bool × Bool := if v = 0 then z else (false, if z.1 then decide (v < 0) else z.2)

theorem verbosePart_fits {v : Int} (h : In32 v) (units : Bytes) (z : Bool × Bool)
    (hz : p = .release ∨ v ≠ -2147483648 ∨ z = (false, false)) :
    PrintsZ (14 + units.length) (verbosePart p v units) z (nextFlags z v) := by
  by_cases h0 : v = 0
  · intro b hl ho
    refine ⟨b, ?_, hl, by omega⟩
    rw [verbosePart, if_pos h0, nextFlags, if_pos h0]
  · have hv : Prints 11 (verboseValue p v z) := by
      unfold verboseValue
      by_cases h1 : z.1 = true
      · simp only [h1, if_true]
        refine Prints.putAbs p h ?_
        rcases hz with hz | hz | hz
        · exact .inl hz
        · exact .inr hz
        · rw [hz] at h1; cases h1
      · by_cases h2 : z.2 = true
        · simp only [h1, h2, if_true]
          intro b hl ho
          rcases hz with rfl | hz | hz
          · simp only [chk_release, Res.bind_ok]
            exact Prints.putInt (wrap_in _) b hl ho
          · unfold In32 at h
            simp only [chk32_ok (p := p) (x := -v) (by omega), Res.bind_ok]
            exact Prints.putInt (by unfold In32; omega) b hl ho
          · rw [hz] at h2; cases h2
        · simp only [h1, h2]
          exact Prints.putInt h
    intro b hl ho
    obtain ⟨b', e, h1, h2⟩ := ((Prints.byte 32).bind (hv.bind ((Prints.byte 32).bind ((Prints.slice units).bind
      (Prints.putIf (decide (v ≠ 1)) 115))))) b hl (by omega)
    refine ⟨b', ?_, h1, by omega⟩
    rw [verbosePart, if_neg h0, nextFlags, if_neg h0]
    simp only [Res.bind_eq_ok] at e ⊢
    obtain ⟨x1, e1, x2, e2, x3, e3, x4, e4, e5⟩ := e
    exact ⟨x1, e1, x2, e2, x3, e3, x4, e4, b', e5, rfl⟩

/-- A part that panics. -/
theorem verbosePart_breaks (units : Bytes) (z : Bool × Bool) (hz : z.1 = true ∨ z.2 = true)
    {k : Bool × Bool → Buf → Res Buf} :
    Breaks 1 (fun b => verbosePart .debug (-2147483648) units z b >>= fun x => k x.1 x.2) := by
  intro b hl ho
  obtain ⟨b', e, -⟩ := Prints.byte 32 b hl ho
  have hv : verboseValue .debug (-2147483648) z b' = .panic := by
    unfold verboseValue
    by_cases h1 : z.1 = true
    · rw [if_pos h1]; rfl
    · rw [if_neg h1, if_pos (hz.resolve_left h1)]; rfl
  simp only [verbosePart]
  rw [if_neg (by decide), e, Res.bind_ok, hv]
  rfl

theorem verboseSec_fits (z : Bool × Bool) : ∃ z', PrintsZ 16 (verboseSec p (ivx m d t)) z z' := by
  by_cases hc : (ivx m d t).sec ≠ 0 ∨ (ivx m d t).fsec ≠ 0
  · have ha : abs32 p (ivx m d t).sec = .ok ((ivx m d t).sec.natAbs : Int) := by
      have h1 := tmod_or t 60000000
      have h2 := tdiv_or (Int.tmod t 60000000) 1000000
      refine abs32_ok p ?_ ?_
      · show In32 (Int.tdiv (Int.tmod t 60000000) 1000000)
        unfold In32; omega
      · show Int.tdiv (Int.tmod t 60000000) 1000000 ≠ _
        omega
    refine ⟨(false, if (ivx m d t).secNeg && z.1 then true else z.2), fun b hl ho => ?_⟩
    obtain ⟨b', e, h1, h2⟩ := ((Prints.byte 32).bind
      ((Prints.putIf (if (ivx m d t).secNeg then !z.1 && !z.2 else z.2) 45).bind
      ((Prints.putSec p m d t false).bind ((Prints.slice b!" sec").bind
      (Prints.putIf (decide (((ivx m d t).sec.natAbs : Int) ≠ 1) || decide ((ivx m d t).fsec ≠ 0)) 115))))) b hl (by simp; omega)
    refine ⟨b', ?_, h1, by simp at h2; omega⟩
    rw [verboseSec, if_pos hc]
    simp only [ha, Res.bind_ok]
    simp only [Res.bind_eq_ok] at e ⊢
    obtain ⟨x1, e1, x2, e2, x3, e3, x4, e4, e5⟩ := e
    exact ⟨x1, e1, x2, e2, x3, e3, x4, e4, b', e5, rfl⟩
  · refine ⟨z, fun b hl ho => ⟨b, ?_, hl, by omega⟩⟩
    rw [verboseSec, if_neg hc]

/-- The flags after years and months. -/
theorem flags_month (m : Int) : nextFlags (nextFlags (true, false) (ivYear m)) (ivMon m) =
    if m = 0 then (true, false) else (false, decide (m < 0)) := by
  have h := ivMonth_facts m
  have hz := ivMonth_zero m
  unfold nextFlags
  by_cases h1 : ivYear m = 0
  · rw [if_pos h1]
    by_cases h2 : ivMon m = 0
    · rw [if_pos h2, if_pos (hz.1 ⟨h1, h2⟩)]
    · have hm : m ≠ 0 := fun e => h2 (hz.2 e).2
      rw [if_neg h2, if_neg hm, if_pos rfl, decide_eq_decide.2 (h.2.2.2 h2)]
  · have hm : m ≠ 0 := by omega
    rw [if_neg h1, if_neg hm]
    simp only [if_true]
    rw [decide_eq_decide.2 (h.2.2.1 h1)]
    by_cases h2 : ivMon m = 0
    · rw [if_pos h2]
    · rw [if_neg h2]; rfl

/-- The flags before the day. -/
def dayFlags (m : Int) : Bool × Bool := if m = 0 then (true, false) else (false, decide (m < 0))

/-- The rest of the text, after the day. -/
def verboseRest (p : Profile) (x : IvTm) (z : Bool × Bool) (b : Buf) : Res Buf := do
  let (z, b) ← verbosePart p x.hour b!"hour" z b
  let (z, b) ← verbosePart p x.min b!"min" z b
  let (z, b) ← verboseSec p x z b
  let b ← copyIf z.1 b!" 0" b
  copyIf z.2 b!" ago" b

theorem verbose_month (hm : In32 m) : PrintsZ 37 (fun z b => setOneByte 64 b >>= fun b => verbosePart p (ivYear m) b!"year" z b >>= fun x =>
    verbosePart p (ivMon m) b!"mon" x.1 x.2) (true, false) (dayFlags m) := by
  have hy := ivYear_in hm
  have hmo := ivMon_in m
  intro b hl ho
  obtain ⟨b1, e1, l1, o1⟩ := Prints.byte 64 b hl (by omega)
  obtain ⟨b2, e2, l2, o2⟩ := verbosePart_fits (p := p) (v := ivYear m) (by unfold In32; omega) b!"year" (true, false)
    (.inr (.inl (by omega))) b1 l1 (by simp; omega)
  simp at o2
  obtain ⟨b3, e3, l3, o3⟩ := verbosePart_fits (p := p) (v := ivMon m) (by unfold In32; omega) b!"mon"
    (nextFlags (true, false) (ivYear m)) (.inr (.inl (by omega))) b2 l2 (by simp; omega)
  simp at o3
  refine ⟨b3, ?_, l3, by omega⟩
  simp only [e1, Res.bind_ok, e2, e3]
  rw [flags_month]; rfl

theorem putVerbose_eq (p : Profile) (m d t : Int) : putVerbose p (ivx m d t) = fun b =>
    (setOneByte 64 b >>= fun b => verbosePart p (ivYear m) b!"year" (true, false) b >>= fun x =>
      verbosePart p (ivMon m) b!"mon" x.1 x.2) >>= fun x =>
    (fun z b => verbosePart p d b!"day" z b >>= fun x => verboseRest p (ivx m d t) x.1 x.2) x.1 x.2 := by
  funext b
  simp only [Res.bind_assoc]
  rfl

theorem rest_fits (hh : In32 (ivHour t)) (z : Bool × Bool) (hz : p = .release ∨ ivHour t ≠ -2147483648 ∨ z = (false, false)) :
    Prints 60 (verboseRest p (ivx m d t) z) := by
  have hmi := ivMin_in t
  have f1 := verbosePart_fits (p := p) hh b!"hour" z hz
  have f2 := verbosePart_fits (p := p) (v := ivMin t) (by unfold In32; omega) b!"min" (nextFlags z (ivHour t))
    (.inr (.inl (by omega)))
  obtain ⟨z3, f3⟩ := verboseSec_fits (p := p) (m := m) (d := d) (t := t) (nextFlags (nextFlags z (ivHour t)) (ivMin t))
  exact (f1.bind (k := fun z b => verbosePart p (ivMin t) b!"min" z b >>= fun x => verboseSec p (ivx m d t) x.1 x.2 >>= fun x =>
      copyIf x.1.1 b!" 0" x.2 >>= copyIf x.1.2 b!" ago")
    (f2.bind (k := fun z b => verboseSec p (ivx m d t) z b >>= fun x =>
      copyIf x.1.1 b!" 0" x.2 >>= copyIf x.1.2 b!" ago")
      (f3.bind (k := fun z b => copyIf z.1 b!" 0" b >>= copyIf z.2 b!" ago")
        ((Prints.copyIf z3.1 b!" 0").bind (Prints.copyIf z3.2 b!" ago"))))).mono (by simp)

theorem rest_breaks (z : Bool × Bool) (hb : ivHour t = -2147483648) (hz : z.1 = true ∨ z.2 = true) :
    Breaks 1 (verboseRest .debug (ivx m d t) z) := by
  have := verbosePart_breaks b!"hour" z hz (k := fun z b => verbosePart .debug (ivMin t) b!"min" z b >>= fun x =>
    verboseSec .debug (ivx m d t) x.1 x.2 >>= fun x => copyIf x.1.1 b!" 0" x.2 >>= copyIf x.1.2 b!" ago")
  rw [← hb] at this
  exact this

/-- The day is printed with a sign that does not fit. -/
def DayBreaks (m d : Int) : Prop := d = -2147483648 ∧ m ≤ 0
/-- The hours are. -/
def HourBreaks (m d t : Int) : Prop := ivHour t = -2147483648 ∧ (m < 0 ∨ (m = 0 ∧ d ≤ 0))

theorem verbose_fits (hm : In32 m) (hd : In32 d) (hh : In32 (ivHour t))
    (hb : p = .release ∨ (¬ DayBreaks m d ∧ ¬ HourBreaks m d t)) : Prints 128 (putVerbose p (ivx m d t)) := by
  rw [putVerbose_eq]
  unfold DayBreaks HourBreaks at hb
  have f1 := verbosePart_fits (p := p) hd b!"day" (dayFlags m) (by
    rcases hb with hb | ⟨hb, -⟩
    · exact .inl hb
    · by_cases h : d = -2147483648
      · right; right
        unfold dayFlags
        rw [if_neg (by omega)]
        simp; omega
      · exact .inr (.inl h))
  have f2 := rest_fits (p := p) (m := m) (d := d) hh (nextFlags (dayFlags m) d) (by
    rcases hb with hb | ⟨-, hb⟩
    · exact .inl hb
    · by_cases h : ivHour t = -2147483648
      · right; right
        unfold nextFlags dayFlags
        by_cases h0 : m = 0
        · rw [if_pos h0, if_neg (by omega)]
          simp; omega
        · rw [if_neg h0]
          have : ¬ m < 0 := by omega
          by_cases h1 : d = 0 <;> simp [h1, this]
      · exact .inr (.inl h))
  exact ((verbose_month hm).bind (k := fun z b => verbosePart p d b!"day" z b >>= fun x => verboseRest p (ivx m d t) x.1 x.2)
    (f1.bind f2)).mono (by simp)

theorem verbose_breaks (hm : In32 m) (hd : In32 d) (hb : DayBreaks m d ∨ HourBreaks m d t) :
    Breaks 128 (putVerbose .debug (ivx m d t)) := by
  rw [putVerbose_eq]
  have key : Breaks 70 (fun b => verbosePart .debug d b!"day" (dayFlags m) b >>= fun x =>
      verboseRest .debug (ivx m d t) x.1 x.2) := by
    by_cases h : DayBreaks m d
    · obtain ⟨h1, h2⟩ := h
      have := verbosePart_breaks b!"day" (dayFlags m) (by
        unfold dayFlags
        by_cases h0 : m = 0
        · rw [if_pos h0]; exact .inl rfl
        · rw [if_neg h0]; right; simp; omega) (k := verboseRest .debug (ivx m d t))
      rw [h1]
      rw [h1] at this
      intro b hl ho
      exact this b hl (by omega)
    · obtain ⟨h1, h2⟩ := hb.resolve_left h
      unfold DayBreaks at h
      have f1 := verbosePart_fits (p := .debug) hd b!"day" (dayFlags m) (.inr (by
        by_cases h3 : d = -2147483648
        · exact absurd ⟨h3, by omega⟩ h
        · exact .inl h3))
      have := f1.breaks (rest_breaks (m := m) (d := d) (nextFlags (dayFlags m) d) h1 (by
        unfold nextFlags dayFlags
        by_cases h0 : m = 0
        · rw [if_pos h0]
          by_cases h3 : d = 0
          · rw [if_pos h3]; exact .inl rfl
          · rw [if_neg h3]; right; simp; omega
        · rw [if_neg h0]
          have : m < 0 := by omega
          by_cases h3 : d = 0 <;> simp [h3, this]))
      intro b hl ho
      exact this b hl (by simp; omega)
  have := (verbose_month (p := .debug) hm).breaks (k := fun z b => verbosePart .debug d b!"day" z b >>= fun x =>
    verboseRest .debug (ivx m d t) x.1 x.2) key
  intro b hl ho
  exact this b hl (by omega)

end

end Pg
