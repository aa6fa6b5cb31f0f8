import Verif.Lemmas.IntervalVerbose

/-! # Reading ISO 8601 intervals -/

namespace Pg
open Spec

variable {p : Profile}

theorem Rat.floor_eq_of {x : Rat} {n : Int} (h1 : (n : Rat) ≤ x) (h2 : x < n + 1) : x.floor = n := by
  have a := Rat.floor_le (a := x)
  have b : x < x.floor + 1 := by exact_mod_cast Rat.lt_floor_add_one (a := x)
  have c : (n : Rat) < x.floor + 1 := lt_of_le_of_lt h1 b
  have d : (x.floor : Rat) < n + 1 := lt_of_le_of_lt a h2
  have c' : n < x.floor + 1 := by exact_mod_cast c
  have d' : x.floor < n + 1 := by exact_mod_cast d
  omega

theorem isoSplit_fin {x : Rat} {n : Nat} (hn : n ≤ 2147483647) (h1 : (n : Rat) ≤ x) (h2 : x < n + 1)
    (h3 : x ≤ 2147483647) : isoSplit (.fin x) = .ok ((n : Int), F64.rnd (x - n)) := by
  have hn0 : (0 : Rat) ≤ n := Nat.cast_nonneg n
  have e1 : F64.ofInt (-2147483648) = .fin ((-2147483648 : Int) : Rat) := F64.ofInt_ok (by omega)
  have e2 : F64.ofInt 2147483647 = .fin ((2147483647 : Int) : Rat) := F64.ofInt_ok (by omega)
  have hfl : x.floor = (n : Int) := Rat.floor_eq_of (by exact_mod_cast h1) (by exact_mod_cast h2)
  unfold isoSplit
  rw [if_neg (by
    rw [e1, e2]
    simp only [F64.lt, decide_eq_true_eq]
    push_cast
    intro h
    rcases h with h | h <;> linarith)]
  have hge : (F64.fin x).ge (.fin 0) = true := by
    simp only [F64.ge, decide_eq_true_eq]; linarith
  simp only [hge, if_true]
  have hi : ((F64.fin x).floor).toI32 = (n : Int) := by
    simp only [F64.floor, F64.toI32, hfl]
    rw [F64.truncQ_int]
    unfold F64.clamp
    rw [if_neg (by omega), if_neg (by omega)]
  rw [hi, F64.ofInt_ok (n := (n : Int)) (by omega)]
  simp only [F64.sub, F64.neg, F64.add, Int.cast_natCast, ← sub_eq_add_neg]

/-- A number without fraction. -/
theorem isoNum_int {n c : Nat} {rest : Bytes} (hn : n ≤ 2147483647) (hc : isDigit c = false) (h46 : c ≠ 46) :
    parseIsoNumber (natText n ++ c :: rest) = .ok ((n : Int), .fin 0, c :: rest) := by
  have hd := natText_digits n
  obtain ⟨x, t, e, hx, hsp, h43, h45⟩ := digit_head (r := c :: rest) hd (natText_ne n)
  have hl := natText_len10 (n := n) (by omega)
  have h2 : str2d (natText n ++ c :: rest) = .ok (.fin ((n : Int) : Rat), c :: rest) := by
    unfold str2d
    have e0 : (natText n ++ c :: rest).dropWhile isSpace = natText n ++ c :: rest := by
      rw [e]; exact dropWhile_stop (Stops.cons hsp)
    simp only [e0]
    rw [if_neg (by simp)]
    have e1 : extractSign (natText n ++ c :: rest) = (1, natText n ++ c :: rest) := by
      rw [e]; unfold extractSign
      split
      · exact absurd (by assumption) (by simp; intro h; exact absurd h h43)
      · exact absurd (by assumption) (by simp; intro h; exact absurd h h45)
      · rfl
    simp only [e1, takeWhile_span (digits_isDigit hd) (Stops.cons hc), dropWhile_span (digits_isDigit hd) (Stops.cons hc)]
    rw [if_neg (by omega)]
    have e2 : fracPart (c :: rest) = ([], c :: rest) := by
      unfold fracPart
      split
      · exact absurd (by assumption) (by simp; intro h; exact absurd h h46)
      · rfl
    simp only [e2]
    rw [if_neg (by simp), foldDigits_eq 0 hd, natText_value]
    simp only [List.isEmpty_nil, if_true, Int.zero_mul, Int.zero_add, Int.mul_one]
    rw [F64.ofInt_ok (n := (n : Int)) (by omega)]
  have hsplit : isoSplit (.fin ((n : Int) : Rat)) = .ok ((n : Int), .fin 0) := by
    rw [isoSplit_fin hn (by simp) (by simp) (by exact_mod_cast hn)]
    simp [F64.rnd]
  unfold parseIsoNumber
  rw [e] at h2 ⊢
  simp only
  rw [if_neg (by simp [hx]), h2, Res.bind_ok]
  simp only
  have hlen : (c :: rest).length ≠ (x :: t).length := by
    rw [← e]
    have := List.length_pos_iff.2 (natText_ne n)
    simp only [List.length_append, List.length_cons]; omega
  rw [if_neg hlen, hsplit]
  rfl

/-- Seconds with a fraction. -/
theorem isoNum_frac {n us c : Nat} (hn : n ≤ 59) (hu : 1 ≤ us ∧ us ≤ 999999)
    (hc : isDigit c = false) :
    ∃ x : Rat, (∀ rest, parseIsoNumber (secText false n us ++ c :: rest) = .ok ((n : Int), .fin x, c :: rest)) ∧
      |x - (us : Int) / 1000000| ≤ 1 / 100000000000 := by
  have hd := natText_digits n
  have hl := natText_len10 (n := n) (by omega)
  obtain ⟨fs, hfs⟩ : ∃ fs, fracOf us = some fs := ⟨_, by unfold fracOf; rw [if_neg (by omega)]⟩
  have hfd := fracOf_digits us
  have hfl := fracOf_len (us := us) (by omega) (by omega)
  have hm := fracOf_micros (us := us) (by omega) (by omega)
  rw [fracMicros_exact hfd hfl, hfs] at hm
  rw [hfs] at hfd hfl
  simp only [fracDigits] at hm hfd hfl
  have hm' : value fs * 10 ^ (6 - fs.length) = us := by exact_mod_cast hm
  have hne : fs ≠ [] := by
    rintro rfl
    simp [value] at hm'
    omega
  have e6 : (10 : Nat) ^ (6 - fs.length) * 10 ^ fs.length = 1000000 := by
    rw [← pow_add, show 6 - fs.length + fs.length = 6 by omega]; rfl
  have hv := value_lt hfd
  have hp : 1 ≤ 10 ^ fs.length := Nat.one_le_pow _ _ (by omega)
  have hp6 : 10 ^ fs.length ≤ 10 ^ 6 := Nat.pow_le_pow_right (by omega) hfl
  have hN : n * 10 ^ fs.length + value fs ≤ 60 * 10 ^ fs.length := by nlinarith
  obtain ⟨s, s1, s2⟩ := div_close (n := n * 10 ^ fs.length + value fs) (d := 10 ^ fs.length) (by omega) (by omega)
    (by omega)
  have hq : ((n * 10 ^ fs.length + value fs : Nat) : Rat) / ((10 ^ fs.length : Nat) : Rat) = n + us / 1000000 := by
    have h10 : ((10 ^ fs.length : Nat) : Rat) ≠ 0 := by positivity
    rw [div_eq_iff h10, add_mul, ← hm']
    have : (1000000 : Rat) = ((10 ^ (6 - fs.length) * 10 ^ fs.length : Nat) : Rat) := by rw [e6]; norm_num
    rw [this]
    push_cast
    field_simp
  rw [hq] at s2
  have hus : (1 : Rat) ≤ us ∧ (us : Rat) ≤ 999999 := by
    constructor
    · exact_mod_cast hu.1
    · exact_mod_cast hu.2
  have hnq : (n : Rat) ≤ 59 := by exact_mod_cast hn
  rw [abs_le] at s2
  have b1 : (us : Rat) / 1000000 ≥ 1 / 1000000 := by linarith
  have b2 : (us : Rat) / 1000000 ≤ 999999 / 1000000 := by linarith
  have hsplit := isoSplit_fin (x := s) (n := n) (by omega) (by linarith) (by linarith) (by linarith)
  have hb : |s - n| ≤ 1 := by rw [abs_le]; constructor <;> linarith
  obtain ⟨r, r1, r2⟩ := F64.rnd_near (q := s - n) (le_trans hb (by norm_num))
  refine ⟨r, ?_, ?_⟩
  · intro rest
    have e : secText false n us ++ c :: rest = natText n ++ 46 :: (fs ++ c :: rest) := by
      rw [secText_frac, hfs]; simp [fracBytes]
    obtain ⟨x, t, e', hx, hsp, h43, h45⟩ := digit_head (r := 46 :: (fs ++ c :: rest)) hd (natText_ne n)
    have h2 : str2d (natText n ++ 46 :: (fs ++ c :: rest)) = .ok (.fin s, c :: rest) := by
      unfold str2d
      have e0 : (natText n ++ 46 :: (fs ++ c :: rest)).dropWhile isSpace = natText n ++ 46 :: (fs ++ c :: rest) := by
        rw [e']; exact dropWhile_stop (Stops.cons hsp)
      simp only [e0]
      rw [if_neg (by simp)]
      have e1 : extractSign (natText n ++ 46 :: (fs ++ c :: rest)) = (1, natText n ++ 46 :: (fs ++ c :: rest)) := by
        rw [e']; unfold extractSign
        split
        · exact absurd (by assumption) (by simp; intro h; exact absurd h h43)
        · exact absurd (by assumption) (by simp; intro h; exact absurd h h45)
        · rfl
      simp only [e1, takeWhile_span (digits_isDigit hd) (Stops.cons (c := 46) rfl),
        dropWhile_span (digits_isDigit hd) (Stops.cons (c := 46) rfl)]
      rw [if_neg (by omega)]
      simp only [fracPart, takeWhile_span (digits_isDigit hfd) (Stops.cons hc),
        dropWhile_span (digits_isDigit hfd) (Stops.cons hc)]
      rw [if_neg (by omega), if_neg (by simpa using hne), foldDigits_eq 0 hd, natText_value, foldDigits_eq _ hfd, ← s1]
      push_cast
      simp
    rw [e]
    unfold parseIsoNumber
    rw [e'] at h2 ⊢
    simp only
    rw [if_neg (by simp [hx]), h2, Res.bind_ok]
    simp only
    have hlen : (c :: rest).length ≠ (x :: t).length := by
      rw [← e']
      have := List.length_pos_iff.2 (natText_ne n)
      simp only [List.length_append, List.length_cons]; omega
    rw [if_neg hlen, hsplit, r1]
    rfl
  · rw [abs_le] at r2 ⊢
    have : |s - n| / 2 ^ 53 + 1 / 2 ^ 100 ≤ 1 / 1000000000000 := by
      have : |s - n| / 2 ^ 53 ≤ 1 / 2 ^ 53 := by
        apply div_le_div_of_nonneg_right hb; norm_num
      have c : (1 : Rat) / 2 ^ 53 + 1 / 2 ^ 100 ≤ 1 / 1000000000000 := by norm_num
      linarith
    push_cast
    constructor <;> linarith

/-- The decoder goes on behind `x` in the given state, or fails. -/
def IsoGoes (p : Profile) (x : Bytes) (st : IsoS) : Option IsoS → Prop
  | some st' => ∀ rest fuel, x.length < fuel → ∃ fuel', fuel - x.length ≤ fuel' ∧
      isoLoop p fuel (x ++ rest) st = isoLoop p fuel' rest st'
  | none => ∀ rest fuel, x.length < fuel → ∃ s, isoLoop p fuel (x ++ rest) st = (.err .invalid, s)

theorem IsoGoes.nil (st : IsoS) : IsoGoes p [] st (some st) := fun _ fuel _ => ⟨fuel, by simp, rfl⟩

theorem IsoGoes.append {x y : Bytes} {st st' : IsoS} {o : Option IsoS} (h1 : IsoGoes p x st (some st'))
    (h2 : IsoGoes p y st' o) : IsoGoes p (x ++ y) st o := by
  cases o with
  | none =>
    intro rest fuel hf
    simp only [List.length_append] at hf
    obtain ⟨f1, l1, e1⟩ := h1 (y ++ rest) fuel (by omega)
    obtain ⟨s, e2⟩ := h2 rest f1 (by omega)
    exact ⟨s, by rw [List.append_assoc, e1, e2]⟩
  | some st2 =>
    intro rest fuel hf
    simp only [List.length_append] at hf ⊢
    obtain ⟨f1, l1, e1⟩ := h1 (y ++ rest) fuel (by omega)
    obtain ⟨f2, l2, e2⟩ := h2 rest f1 (by omega)
    exact ⟨f2, by omega, by rw [List.append_assoc, e1, e2]⟩

theorem IsoGoes.fail {x y : Bytes} {st : IsoS} (h : IsoGoes p x st none) : IsoGoes p (x ++ y) st none := by
  intro rest fuel hf
  simp only [List.length_append] at hf
  obtain ⟨s, e⟩ := h (y ++ rest) fuel (by omega)
  exact ⟨s, by rw [List.append_assoc, e]⟩

/-- A minus sign is not accepted. -/
theorem IsoGoes.dash (x : Bytes) (st : IsoS) : IsoGoes p (45 :: x) st none := by
  intro rest fuel hf
  obtain ⟨n, rfl⟩ : ∃ n, fuel = n + 1 := ⟨fuel - 1, by simp only [List.length_cons] at hf; omega⟩
  refine ⟨st, ?_⟩
  rw [List.cons_append, isoLoop]
  simp only
  rw [if_neg (by omega)]
  rfl

/-- The mark in front of the time. -/
theorem IsoGoes.mark (st : IsoS) : IsoGoes p [84] st (some { st with datePart := false, haveField := false }) := by
  intro rest fuel hf
  obtain ⟨n, rfl⟩ : ∃ n, fuel = n + 1 := ⟨fuel - 1, by simp only [List.length_cons, List.length_nil] at hf; omega⟩
  exact ⟨n, by simp, rfl⟩

theorem onTmIso_run {α : Type} {m : St TmF α} {s : IsoS} {r : Res α} {t : TmF} (h : m s.t = (r, t)) :
    onTmIso m s = (r, { s with t := t }) := St.zoom_run h

/-- The letter of a unit. -/
def isoByte (u : TokenField) : Nat :=
  match u with
  | .year => 89
  | .month => 77
  | .day => 68
  | .hour => 72
  | _ => 77

/-- Is the unit one of the date part? -/
def isoDateU (u : TokenField) : Bool :=
  match u with
  | .year => true
  | .month => true
  | .day => true
  | _ => false

theorem isoNumber_plain {u : TokenField} (hu : PlainU u) {v : Int} {st : IsoS} {start s : Bytes}
    (hp : st.datePart = isoDateU u) (h : In32 (getU u st.t.1 + v)) (hm : u = .year → In32 st.t.1.mon) :
    isoNumber p start s (isoByte u) v (.fin 0) st =
      (.ok (.field s), { st with t := (bump u v st.t.1, st.t.2) }) := by
  obtain ⟨⟨tm, f⟩, dp, hf⟩ := st
  simp only at hp
  subst hp
  have hz : ((F64.fin 0).mul (F64.ofInt 12)).toI32 = 0 := by decide +kernel
  rcases hu with rfl | rfl | rfl | rfl | rfl
  · simp only [getU] at h
    have hm := hm rfl
    simp only at hm
    simp only [isoNumber, isoDateU, isoByte, isoDate, St.get_bind, if_true]
    refine Eq.trans (St.bind_ok (a := ()) (onTmIso_run (r := .ok ()) (t := (bump .year v tm, f)) ?_)) ?_
    · simp only [addYear, St.get_bind, chk32_ok h, St.lift_ok_bind]; rfl
    refine Eq.trans (St.bind_ok (a := ()) (onTmIso_run (r := .ok ()) (t := (bump .year v tm, f)) ?_)) ?_
    · simp only [addYearFrac, addMon, St.get_bind, hz, bump, Int.add_zero, chk32_ok hm, St.lift_ok_bind]; rfl
    rfl
  all_goals
    simp only [getU] at h
    simp only [isoNumber, isoDateU, isoByte, isoDate, isoTime, St.get_bind, if_true, Bool.false_eq_true, if_false]
    repeat rw [if_neg (by omega)]
    try rw [if_pos rfl]
    first
    | refine Eq.trans (St.bind_ok (a := ()) (onTmIso_run (r := .ok ()) (t := (bump .month v tm, f)) ?_)) ?_
      · simp only [addMon, St.get_bind, chk32_ok h, St.lift_ok_bind]; rfl
      rfl
    | refine Eq.trans (St.bind_ok (a := ()) (onTmIso_run (r := .ok ()) (t := (bump .day v tm, f)) ?_)) ?_
      · simp only [addMday, St.get_bind, chk32_ok h, St.lift_ok_bind]; rfl
      rfl
    | refine Eq.trans (St.bind_ok (a := ()) (onTmIso_run (r := .ok ()) (t := (bump .hour v tm, f)) ?_)) ?_
      · simp only [addHour, St.get_bind, chk32_ok h, St.lift_ok_bind]; rfl
      rfl
    | refine Eq.trans (St.bind_ok (a := ()) (onTmIso_run (r := .ok ()) (t := (bump .minute v tm, f)) ?_)) ?_
      · simp only [addMin, St.get_bind, chk32_ok h, St.lift_ok_bind]; rfl
      rfl

/-- One number with its unit. -/
theorem IsoGoes.number {x : Bytes} {c : Nat} {n : Int} {fv : F64} {st st' : IsoS}
    (h1 : ∃ y t, x = y :: t ∧ y ≠ 84)
    (h2 : ∀ rest, parseIsoNumber (x ++ c :: rest) = .ok (n, fv, c :: rest))
    (h3 : ∀ start s, isoNumber p start s c n fv st = (.ok (.field s), st')) :
    IsoGoes p (x ++ [c]) st (some { st' with haveField := true }) := by
  intro rest fuel hf
  obtain ⟨k, rfl⟩ : ∃ k, fuel = k + 1 := ⟨fuel - 1, by simp only [List.length_append] at hf; omega⟩
  obtain ⟨y, t, rfl, hy⟩ := h1
  refine ⟨k, by simp only [List.length_append, List.length_cons]; omega, ?_⟩
  have h2 := h2 rest
  rw [List.append_assoc]
  simp only [List.cons_append, List.nil_append] at h2 ⊢
  rw [isoLoop]
  simp only
  rw [if_neg hy, h2, St.lift_ok_bind]
  simp only [isoUnit]
  rw [St.bind_ok (h3 _ _)]
  rfl

/-- The sum of a field and a number of the interval. -/
theorem IsoGoes.plain {u : TokenField} (hu : PlainU u) {v : Int} {st : IsoS} (h0 : 0 ≤ v) (hv : v ≤ 2147483647)
    (hp : st.datePart = isoDateU u) (h : getU u st.t.1 = 0) (hm : u = .year → st.t.1.mon = 0) :
    ∃ st', IsoGoes p (isoField v (isoByte u)) st (some st') ∧ st'.datePart = st.datePart ∧
      st'.t = (bump u v st.t.1, st.t.2) := by
  unfold isoField
  by_cases hz : v = 0
  · rw [if_pos hz]
    refine ⟨st, IsoGoes.nil st, rfl, ?_⟩
    rw [hz, bump_zero]
  · rw [if_neg hz]
    have ht : intText v = natText v.natAbs := by unfold intText; rw [if_neg (by omega)]
    rw [ht]
    have hc : isDigit (isoByte u) = false ∧ isoByte u ≠ 46 := by
      rcases hu with rfl | rfl | rfl | rfl | rfl <;> decide
    refine ⟨_, IsoGoes.number (n := v) (fv := .fin 0) (st' := { st with t := (bump u v st.t.1, st.t.2) }) ?_ ?_ ?_, rfl, rfl⟩
    · obtain ⟨x, t, e, hx⟩ := digits_first (natText_digits v.natAbs) (natText_ne _)
      refine ⟨x, t, e, ?_⟩
      rw [isDigit_iff] at hx; omega
    · intro rest
      have := isoNum_int (n := v.natAbs) (rest := rest) (by omega) hc.1 hc.2
      rw [this, Int.natAbs_of_nonneg h0]
    · intro start s
      refine isoNumber_plain hu hp ?_ ?_
      · rw [h]; unfold In32; omega
      · intro hy; rw [hm hy]; unfold In32; omega

theorem IsoGoes.negField (u : Nat) {v : Int} (h : v < 0) (st : IsoS) : IsoGoes p (isoField v u) st none := by
  unfold isoField
  rw [if_neg (by omega)]
  have ht : intText v = 45 :: natText v.natAbs := by unfold intText; rw [if_pos h]
  rw [ht]
  exact IsoGoes.dash _ _

/-- Adding a fraction of a second. -/
theorem adjustFract_one {t : TmF} {x : Rat} {us : Nat} (hu : 1 ≤ us ∧ us ≤ 999999)
    (hx : |x - (us : Int) / 1000000| ≤ 1 / 100000000000) (hs : In32 t.1.sec) (hf : t.2 = 0) :
    adjustFractSeconds p (.fin x) 1 t = (.ok (), (t.1, (us : Int))) := by
  obtain ⟨tm, f⟩ := t
  simp only at hs hf
  subst hf
  have hus : (1 : Rat) ≤ us ∧ (us : Rat) ≤ 999999 := by
    constructor
    · exact_mod_cast hu.1
    · exact_mod_cast hu.2
  rw [abs_le] at hx
  push_cast at hx
  have b1 : (us : Rat) / 1000000 ≥ 1 / 1000000 := by linarith
  have b2 : (us : Rat) / 1000000 ≤ 999999 / 1000000 := by linarith
  have x1 : (0 : Rat) < x ∧ x < 1 := by constructor <;> linarith
  have small : ∀ q : Rat, |q| ≤ 1 → |q| / 2 ^ 53 + 1 / 2 ^ 100 ≤ 1 / 1000000000000 := by
    intro q hq
    have : |q| / 2 ^ 53 ≤ 1 / 2 ^ 53 := div_le_div_of_nonneg_right hq (by norm_num)
    have c : (1 : Rat) / 2 ^ 53 + 1 / 2 ^ 100 ≤ 1 / 1000000000000 := by norm_num
    linarith
  have a1 : |x * 1| ≤ 1 := by rw [abs_le]; constructor <;> linarith
  obtain ⟨y, y1, y2⟩ := F64.rnd_near (q := x * 1) (le_trans a1 (by norm_num))
  have y3 := le_trans y2 (small _ a1)
  rw [abs_le] at y3
  have y4 : (0 : Rat) < y ∧ y < 1 := by constructor <;> linarith
  have a2 : |y - 0| ≤ 1 := by rw [abs_le]; constructor <;> linarith
  obtain ⟨z, z1, z2⟩ := F64.rnd_near (q := y - 0) (le_trans a2 (by norm_num))
  have z3 := le_trans z2 (small _ a2)
  rw [abs_le] at z3
  have hmul : (F64.fin x).mul (F64.ofInt 1) = .fin y := by
    rw [F64.ofInt_ok (n := 1) (by omega), ← y1]; rfl
  have hfl : y.floor = 0 := Rat.floor_eq_of (by simpa using y4.1.le) (by simpa using y4.2)
  have hti : (F64.fin y).toI32 = 0 := by
    simp only [F64.toI32, F64.truncQ]
    rw [if_pos y4.1.le, hfl]; rfl
  have hsub : (F64.fin y).sub (F64.ofInt 0) = .fin z := by
    rw [F64.ofInt_ok (n := 0) (by omega), ← z1]
    simp [F64.sub, F64.neg, F64.add]
  have hr : roundMicros (.fin z) = (us : Int) := by
    refine roundMicros_close (by omega) ?_
    rw [abs_le]
    push_cast
    constructor <;> linarith
  unfold adjustFractSeconds
  rw [if_neg (by
    intro h
    have := F64.fin.inj h
    linarith)]
  simp only [hmul, hti, St.get_bind, Int.add_zero]
  have hck : checked32 tm.sec = some tm.sec := by
    unfold checked32; rw [if_pos hs]
  simp only [hck, St.mod_bind, hsub, hr]
  rw [chk64_ok (by omega), St.lift_ok_bind, Int.zero_add]
  rfl

/-- The seconds. -/
theorem IsoGoes.sec {t : Int} {st : IsoS} (h0 : 0 ≤ t) (hp : st.datePart = false) (h : st.t.1.sec = 0)
    (hf : st.t.2 = 0) :
    ∃ st', IsoGoes p (isoSecText t) st (some st') ∧ 
      st'.t = ({ st.t.1 with sec := (ivSec t : Int) }, (ivMicro t : Int)) := by
  obtain ⟨⟨tm, f⟩, dp, hfld⟩ := st
  simp only at hp h hf
  subst hp hf
  unfold isoSecText
  have hs : ivSec t ≤ 59 := by unfold ivSec; omega
  have hu : ivMicro t ≤ 999999 := by unfold ivMicro; omega
  by_cases hz : t.natAbs % 60000000 = 0
  · rw [if_pos hz]
    refine ⟨_, IsoGoes.nil _, ?_⟩
    have e1 : ivSec t = 0 := by unfold ivSec; rw [hz]
    have e2 : ivMicro t = 0 := by unfold ivMicro; omega
    simp only [e1, e2, Int.natCast_zero]
    rw [← h]
  · rw [if_neg hz]
    have hneg : minus (decide (t < 0)) = [] := by
      have : ¬ t < 0 := by omega
      simp [minus, this]
    rw [hneg, List.nil_append]
    have hfirst : ∃ y r, secText false (ivSec t) (ivMicro t) = y :: r ∧ y ≠ 84 := by
      rw [secText_frac]
      obtain ⟨y, r, e, hx, -⟩ := digit_head (r := fracBytes (fracOf (ivMicro t))) (natText_digits (ivSec t)) (natText_ne _)
      refine ⟨y, r, e, ?_⟩
      rw [isDigit_iff] at hx; omega
    by_cases hm0 : ivMicro t = 0
    · refine ⟨_, IsoGoes.number (n := (ivSec t : Int)) (fv := .fin 0)
        (st' := { t := ({ tm with sec := (ivSec t : Int) }, 0), datePart := false, haveField := hfld }) hfirst ?_ ?_, ?_⟩
      · intro rest
        have : secText false (ivSec t) (ivMicro t) = natText (ivSec t) := by rw [hm0]; simp [secText, fracText]
        rw [this]
        exact isoNum_int (by omega) rfl (by omega)
      · intro start s
        simp only [isoNumber, isoTime, St.get_bind, if_true, Bool.false_eq_true, if_false]
        repeat rw [if_neg (by omega)]
        refine Eq.trans (St.bind_ok (a := ()) (onTmIso_run (r := .ok ())
          (t := ({ tm with sec := (ivSec t : Int) }, 0)) ?_)) ?_
        · simp only [addSec, St.get_bind]
          rw [h, chk32_ok (by omega), St.lift_ok_bind, Int.zero_add]; rfl
        rfl
      · simp only [hm0, Int.natCast_zero]
    · obtain ⟨x, hx, hx2⟩ := isoNum_frac (c := 83) hs ⟨by omega, hu⟩ rfl
      refine ⟨_, IsoGoes.number (n := (ivSec t : Int)) (fv := .fin x)
        (st' := { t := ({ tm with sec := (ivSec t : Int) }, (ivMicro t : Int)), datePart := false, haveField := hfld })
        hfirst hx ?_, rfl⟩
      intro start s
      simp only [isoNumber, isoTime, St.get_bind, if_true, Bool.false_eq_true, if_false]
      repeat rw [if_neg (by omega)]
      refine Eq.trans (St.bind_ok (a := ()) (onTmIso_run (r := .ok ())
        (t := ({ tm with sec := (ivSec t : Int) }, 0)) ?_)) ?_
      · simp only [addSec, St.get_bind]
        rw [h, chk32_ok (by omega), St.lift_ok_bind, Int.zero_add]; rfl
      refine Eq.trans (St.bind_ok (a := ()) (onTmIso_run (r := .ok ())
        (t := ({ tm with sec := (ivSec t : Int) }, (ivMicro t : Int))) ?_)) ?_
      · have := adjustFract_one (p := p) (t := ({ tm with sec := (ivSec t : Int) }, 0)) (x := x) (us := ivMicro t)
          ⟨by omega, hu⟩ hx2 (by simp only [In32]; omega) rfl
        exact this
      rfl

/-- Reading of the text behind `P`, all numbers being non-negative. -/
theorem isoText_goes {m d t : Int} (hm : 0 ≤ m) (hm2 : m ≤ 2147483647) (hd : 0 ≤ d) (hd2 : d ≤ 2147483647)
    (ht : 0 ≤ t) (hh : ivHour t ≤ 2147483647) :
    ∃ st', IsoGoes p (isoField (ivYear m) 89 ++ (isoField (ivMon m) 77 ++ (isoField d 68 ++
      ((if t = 0 then [] else [84]) ++ (isoField (ivHour t) 72 ++ (isoField (ivMin t) 77 ++
        isoSecText t)))))) { t := ({}, 0) } (some st') ∧
      st'.t = ({ year := ivYear m, mon := ivMon m, mday := d, hour := ivHour t, min := ivMin t, sec := (ivSec t : Int) },
        (ivMicro t : Int)) := by
  have y0 : 0 ≤ ivYear m ∧ ivYear m ≤ 2147483647 := by
    unfold ivYear; have := tdiv_or m 12; omega
  have m0 : 0 ≤ ivMon m ∧ ivMon m ≤ 2147483647 := by
    unfold ivMon; have := tmod_or m 12; omega
  have h0 : 0 ≤ ivHour t := by
    unfold ivHour; have := tdiv_or t 3600000000; omega
  have n0 : 0 ≤ ivMin t ∧ ivMin t ≤ 2147483647 := by
    unfold ivMin; have := tmod_or t 3600000000; have := tdiv_or (Int.tmod t 3600000000) 60000000; omega
  obtain ⟨s1, g1, p1, t1⟩ := IsoGoes.plain (p := p) (u := .year) (by simp [PlainU]) (st := { t := ({}, 0) }) y0.1 y0.2
    rfl rfl (fun _ => rfl)
  obtain ⟨s2, g2, p2, t2⟩ := IsoGoes.plain (p := p) (u := .month) (by simp [PlainU]) (st := s1) m0.1 m0.2
    p1 (by rw [t1]; rfl) (fun h => by cases h)
  obtain ⟨s3, g3, p3, t3⟩ := IsoGoes.plain (p := p) (u := .day) (by simp [PlainU]) (st := s2) hd hd2
    (p2.trans p1) (by rw [t2, t1]; rfl) (fun h => by cases h)
  by_cases hz : t = 0
  · subst hz
    refine ⟨s3, ?_, ?_⟩
    · have e : (if (0 : Int) = 0 then [] else [84]) ++ (isoField (ivHour 0) 72 ++ (isoField (ivMin 0) 77 ++
        isoSecText 0)) = [] := by decide +kernel
      rw [e]
      exact g1.append (g2.append (by rw [List.append_nil]; exact g3))
    · rw [t3, t2, t1]
      have e1 : ivHour 0 = 0 := by decide
      have e2 : ivMin 0 = 0 := by decide
      have e3 : ivSec 0 = 0 := by decide
      have e4 : ivMicro 0 = 0 := by decide
      simp only [e1, e2, e3, e4, bump, Int.zero_add, Int.natCast_zero]
  · rw [if_neg hz]
    have g4 := IsoGoes.mark (p := p) s3
    obtain ⟨s5, g5, p5, t5⟩ := IsoGoes.plain (p := p) (u := .hour) (by simp [PlainU])
      (st := { s3 with datePart := false, haveField := false }) h0 hh rfl (by simp only; rw [t3, t2, t1]; rfl) (fun h => by cases h)
    obtain ⟨s6, g6, p6, t6⟩ := IsoGoes.plain (p := p) (u := .minute) (by simp [PlainU]) (st := s5) n0.1 n0.2
      p5 (by rw [t5]; simp only; rw [t3, t2, t1]; rfl) (fun h => by cases h)
    obtain ⟨s7, g7, t7⟩ := IsoGoes.sec (p := p) (st := s6) ht (p6.trans p5)
      (by rw [t6, t5]; simp only; rw [t3, t2, t1]; rfl) (by rw [t6, t5]; simp only; rw [t3, t2, t1])
    refine ⟨s7, g1.append (g2.append (g3.append (g4.append (g5.append (g6.append g7))))), ?_⟩
    rw [t7, t6, t5]
    simp only
    rw [t3, t2, t1]
    simp only [bump, Int.zero_add]

/-- A negative number makes the decoder fail. -/
theorem isoText_fails {m d t : Int} (hm2 : m ≤ 2147483647) (hd2 : d ≤ 2147483647)
    (hh : ivHour t ≤ 2147483647) (hneg : m < 0 ∨ d < 0 ∨ t < 0) :
    IsoGoes p (isoField (ivYear m) 89 ++ (isoField (ivMon m) 77 ++ (isoField d 68 ++
      ((if t = 0 then [] else [84]) ++ (isoField (ivHour t) 72 ++ (isoField (ivMin t) 77 ++
        isoSecText t)))))) { t := ({}, 0) } none := by
  by_cases y0 : ivYear m < 0
  · exact (IsoGoes.negField 89 y0 _).fail
  obtain ⟨s1, g1, p1, t1⟩ := IsoGoes.plain (p := p) (u := .year) (by simp [PlainU]) (st := { t := ({}, 0) })
    (v := ivYear m) (by omega) (by unfold ivYear; have := tdiv_or m 12; omega) rfl rfl (fun _ => rfl)
  refine g1.append ?_
  by_cases m0 : ivMon m < 0
  · exact (IsoGoes.negField 77 m0 _).fail
  obtain ⟨s2, g2, p2, t2⟩ := IsoGoes.plain (p := p) (u := .month) (by simp [PlainU]) (st := s1) (v := ivMon m)
    (by omega) (by unfold ivMon; have := tmod_or m 12; omega) p1 (by rw [t1]; rfl) (fun h => by cases h)
  refine g2.append ?_
  by_cases d0 : d < 0
  · exact (IsoGoes.negField 68 d0 _).fail
  obtain ⟨s3, g3, p3, t3⟩ := IsoGoes.plain (p := p) (u := .day) (by simp [PlainU]) (st := s2) (v := d) (by omega) hd2
    (p2.trans p1) (by rw [t2, t1]; rfl) (fun h => by cases h)
  refine g3.append ?_
  have hmm : ¬ m < 0 := by
    have := month_sum m; omega
  have ht : t < 0 := by omega
  rw [if_neg (by omega)]
  refine (IsoGoes.mark s3).append ?_
  by_cases h0 : ivHour t < 0
  · exact (IsoGoes.negField 72 h0 _).fail
  obtain ⟨s5, g5, p5, t5⟩ := IsoGoes.plain (p := p) (u := .hour) (by simp [PlainU]) (v := ivHour t)
    (st := { s3 with datePart := false, haveField := false }) (by omega) hh rfl (by simp only; rw [t3, t2, t1]; rfl) (fun h => by cases h)
  refine g5.append ?_
  by_cases n0 : ivMin t < 0
  · exact (IsoGoes.negField 77 n0 _).fail
  have e0 : ivMin t = 0 := by
    unfold ivMin at *; have := tmod_or t 3600000000; have := tdiv_or (Int.tmod t 3600000000) 60000000; omega
  have e1 : isoField (ivMin t) 77 = [] := by rw [e0]; rfl
  rw [e1, List.nil_append]
  unfold isoSecText
  have hne : t.natAbs % 60000000 ≠ 0 := by
    unfold ivHour at h0
    unfold ivMin at e0
    have := tdiv_or t 3600000000
    have := tmod_or t 3600000000
    have := tdiv_or (Int.tmod t 3600000000) 60000000
    omega
  rw [if_neg hne]
  have hmin : Spec.minus (decide (t < 0)) = [45] := by simp [Spec.minus, ht]
  rw [hmin]
  exact IsoGoes.dash _ _

/-- A word followed by a digit or a minus sign, and bytes of a date. -/
theorem iso_scans (u : TokenField) {w r : Bytes} (hw : Letters w) (nw : w ≠ []) (hs : searchDate (lower w) = .ok none)
    {c : Nat} {r' : Bytes} (hr : r = c :: r') (hc : isDigit c = true ∨ c = 45) (hall : ∀ b ∈ r, isWordB b = true) :
    Scans u (w ++ r) [(.date, lower w ++ r)] := by
  have hst : Stops isAlpha r := by
    rw [hr]
    refine Stops.cons ?_
    rcases hc with hc | rfl
    · rw [isDigit_iff] at hc
      rw [Bool.eq_false_iff, ne_eq, isAlpha_iff]; omega
    · rfl
  have hdate : alphaIsDate (lower w) r = .ok true := by
    rw [hr]
    unfold alphaIsDate
    simp only
    rcases hc with hc | rfl
    · have h' := hc
      rw [isDigit_iff] at h'
      rw [if_neg (by simp; omega), if_pos (by simp [hc]), hs]
      rfl
    · rfl
  cases w with
  | nil => exact absurd rfl nw
  | cons x t =>
    have hx := hw x (by simp)
    have hnd : isDigit x = false := by
      rw [isAlpha_iff] at hx
      rw [Bool.eq_false_iff, ne_eq, isDigit_iff]; omega
    have hn46 : x ≠ 46 := by rw [isAlpha_iff] at hx; omega
    rw [List.cons_append]
    refine Scans.field (rest := []) (startB_alpha hx) ?_ (by simp [lower]) (by simp [lower]) (Scans.nil u)
    have hr2 : r = r ++ [] := by simp
    rw [scanField, if_neg (by simp [hnd]), if_neg hn46, if_pos hx, scanAlpha, ← List.cons_append,
      takeWhile_span hw hst, dropWhile_span hw hst, hdate]
    simp only [Res.bind_ok, if_true]
    rw [hr2, takeWhile_span hall (Stops.nil _), dropWhile_span hall (Stops.nil _), List.append_nil]

/-- The first decoder rejects such a field and leaves the fields as they were. -/
theorem iso_rejected {style : IntervalStyle} {x : Bytes} {y : Nat} {t : Bytes} (hx : x = y :: t)
    (hy : isAlpha y = true) :
    ∃ s', decodeInterval p plainLook (parseRange (-1)) style [(.date, x)] ({}, ()) = (.err .invalid, (s', ())) ∧
      s'.t = ({}, 0) := by
  have hy' := hy
  rw [isAlpha_iff] at hy'
  have hsp : isSpace y = false := by rw [isSpace_false]; omega
  have hnd : isDigit y = false := by rw [Bool.eq_false_iff, ne_eq, isDigit_iff]; omega
  have h2 : str2i32 x = .ok (0, x) := by
    unfold str2i32
    have e0 : x.dropWhile isSpace = x := by rw [hx]; exact dropWhile_stop (Stops.cons hsp)
    simp only [e0]
    rw [if_neg (by rw [hx]; simp)]
    have e1 : extractSign x = (1, x) := by
      rw [hx]; unfold extractSign
      split
      · exact absurd (by assumption) (by simp; intro h; omega)
      · exact absurd (by assumption) (by simp; intro h; omega)
      · rfl
    have e2 : x.takeWhile isDigit = [] := by rw [hx]; simp [hnd]
    have e3 : x.dropWhile isDigit = x := by rw [hx]; exact dropWhile_stop (Stops.cons hnd)
    simp only [e1, e2, e3]
    rfl
  have hn : numberParts p x = .err .invalid := by
    unfold numberParts
    rw [h2, Res.bind_ok, hx]
    simp only
    rw [if_neg (by omega), if_neg (by omega)]
  have hnum : ∃ s', intervalNumber p x (parseRange (-1)) {} = (.err .invalid, s') ∧ s'.t = ({}, 0) := by
    refine ⟨{ ty := (rangeUnit (parseRange (-1))).value }, ?_, rfl⟩
    unfold intervalNumber
    rw [St.mod_bind, hn, St.lift_err_bind]
    rfl
  obtain ⟨s', e, hs'⟩ := hnum
  refine ⟨s', ?_, hs'⟩
  have hl : intervalLoop p plainLook (parseRange (-1)) [(.date, x)] 0 ({}, ()) = (.err .invalid, (s', ())) := by
    rw [intervalLoop, intervalLoop, St.pure_bind, intervalField]
    refine noLook_run ?_
    exact St.bind_err e
  unfold decodeInterval
  exact St.bind_err hl

theorem digits_word {ds : Bytes} (h : Digits ds) : ∀ b ∈ ds, isWordB b = true := by
  intro b hb
  have := digits_isDigit h b hb
  unfold isWordB isAlnum
  simp [this]

theorem intText_word (v : Int) : ∀ b ∈ intText v, isWordB b = true := by
  unfold intText
  split
  · intro b hb
    rcases List.mem_cons.1 hb with rfl | hb
    · rfl
    · exact digits_word (natText_digits _) b hb
  · exact digits_word (natText_digits _)

theorem isoField_word (v : Int) {u : Nat} (hu : isWordB u = true) : ∀ b ∈ isoField v u, isWordB b = true := by
  unfold isoField
  split
  · intro b hb; cases hb
  · intro b hb
    rcases List.mem_append.1 hb with hb | hb
    · exact intText_word v b hb
    · rw [List.mem_singleton] at hb; subst hb; exact hu

theorem isoSec_word (t : Int) : ∀ b ∈ isoSecText t, isWordB b = true := by
  unfold isoSecText
  split
  · intro b hb; cases hb
  · rw [secText_frac]
    intro b hb
    rcases List.mem_append.1 hb with hb | hb
    · unfold Spec.minus at hb
      split at hb
      · rw [List.mem_singleton] at hb; subst hb; rfl
      · cases hb
    rcases List.mem_append.1 hb with hb | hb
    · rcases List.mem_append.1 hb with hb | hb
      · exact digits_word (natText_digits _) b hb
      · have hfd := fracOf_digits (ivMicro t)
        cases hf : fracOf (ivMicro t) with
        | none => rw [hf] at hb; cases hb
        | some fs =>
          rw [hf] at hb hfd
          rcases List.mem_cons.1 hb with rfl | hb
          · rfl
          · exact digits_word hfd b hb
    · rw [List.mem_singleton] at hb; subst hb; rfl

/-- The text behind `P` in the date part. -/
def isoDX (m d : Int) : Bytes := isoField (ivYear m) 89 ++ (isoField (ivMon m) 77 ++ isoField d 68)
/-- The text behind `T`. -/
def isoTX (t : Int) : Bytes := isoField (ivHour t) 72 ++ (isoField (ivMin t) 77 ++ isoSecText t)

theorem isoField_first {v : Int} (u : Nat) (h : v ≠ 0) (r : Bytes) :
    ∃ c r', isoField v u ++ r = c :: r' ∧ (isDigit c = true ∨ c = 45) := by
  unfold isoField intText
  rw [if_neg h]
  split
  · exact ⟨45, _, rfl, Or.inr rfl⟩
  · obtain ⟨x, t, e, hx, -⟩ := digit_head (r := [u] ++ r) (natText_digits v.natAbs) (natText_ne _)
    exact ⟨x, t, by rw [List.append_assoc]; exact e, Or.inl hx⟩

theorem isoTX_first {t : Int} (h : t ≠ 0) : ∃ c r', isoTX t = c :: r' ∧ (isDigit c = true ∨ c = 45) := by
  unfold isoTX
  by_cases h1 : ivHour t = 0
  · have e1 : isoField (ivHour t) 72 = [] := by rw [h1]; rfl
    rw [e1, List.nil_append]
    by_cases h2 : ivMin t = 0
    · have e2 : isoField (ivMin t) 77 = [] := by rw [h2]; rfl
      rw [e2, List.nil_append]
      unfold isoSecText
      have hne : t.natAbs % 60000000 ≠ 0 := by
        unfold ivHour at h1
        unfold ivMin at h2
        have := tdiv_or t 3600000000
        have := tmod_or t 3600000000
        have := tdiv_or (Int.tmod t 3600000000) 60000000
        omega
      rw [if_neg hne]
      unfold Spec.minus
      split
      · exact ⟨45, _, rfl, Or.inr rfl⟩
      · rw [secText_frac]
        obtain ⟨x, t, e, hx, -⟩ := digit_head (r := fracBytes (fracOf (ivMicro t)) ++ [83]) (natText_digits (ivSec t)) (natText_ne _)
        exact ⟨x, t, by rw [List.nil_append, List.append_assoc]; exact e, Or.inl hx⟩
    · exact isoField_first 77 h2 _
  · exact isoField_first 72 h1 _

theorem isoDX_first {m d : Int} (h : m ≠ 0 ∨ d ≠ 0) (r : Bytes) :
    ∃ c r', isoDX m d ++ r = c :: r' ∧ (isDigit c = true ∨ c = 45) := by
  unfold isoDX
  rw [List.append_assoc, List.append_assoc]
  by_cases h1 : ivYear m = 0
  · have e1 : isoField (ivYear m) 89 = [] := by rw [h1]; rfl
    rw [e1, List.nil_append]
    by_cases h2 : ivMon m = 0
    · have e2 : isoField (ivMon m) 77 = [] := by rw [h2]; rfl
      rw [e2, List.nil_append]
      refine isoField_first 68 ?_ _
      have := month_sum m
      omega
    · exact isoField_first 77 h2 _
  · exact isoField_first 89 h1 _

theorem isoDX_zero : isoDX 0 0 = [] := by decide +kernel

theorem isoText_split {m d t : Int} (h0 : ¬ (m = 0 ∧ d = 0 ∧ t = 0)) :
    isoIntervalText m d t = 80 :: (isoDX m d ++ ((if t = 0 then [] else [84]) ++ isoTX t)) := by
  unfold isoIntervalText isoDX isoTX
  rw [if_neg h0]
  simp

theorem isoIv_scan (u : TokenField) {m d t : Int} (h0 : ¬ (m = 0 ∧ d = 0 ∧ t = 0))
    (hl : (isoIntervalText m d t).length ≤ 128) :
    ∃ y r, isAlpha y = true ∧ scan u (isoIntervalText m d t) = .ok [(.date, y :: r)] := by
  rw [isoText_split h0] at *
  have hD : ∀ b ∈ isoDX m d, isWordB b = true := by
    unfold isoDX
    intro b hb
    rcases List.mem_append.1 hb with hb | hb
    · exact isoField_word _ rfl b hb
    rcases List.mem_append.1 hb with hb | hb
    · exact isoField_word _ rfl b hb
    · exact isoField_word _ rfl b hb
  have hT : ∀ b ∈ isoTX t, isWordB b = true := by
    unfold isoTX
    intro b hb
    rcases List.mem_append.1 hb with hb | hb
    · exact isoField_word _ rfl b hb
    rcases List.mem_append.1 hb with hb | hb
    · exact isoField_word _ rfl b hb
    · exact isoSec_word _ b hb
  by_cases hd : m ≠ 0 ∨ d ≠ 0
  · obtain ⟨c, r', e, hc⟩ := isoDX_first hd ((if t = 0 then [] else [84]) ++ isoTX t)
    have hall : ∀ b ∈ isoDX m d ++ ((if t = 0 then [] else [84]) ++ isoTX t), isWordB b = true := by
      intro b hb
      rcases List.mem_append.1 hb with hb | hb
      · exact hD b hb
      rcases List.mem_append.1 hb with hb | hb
      · split at hb
        · cases hb
        · rw [List.mem_singleton] at hb; subst hb; rfl
      · exact hT b hb
    have := iso_scans u (w := [80]) (by unfold Letters; decide) (by simp) (by decide +kernel) e hc hall
    exact ⟨112, _, rfl, scan_of this (by simp) hl (by simp)⟩
  · have hm0 : m = 0 := by tauto
    have hd0 : d = 0 := by tauto
    subst hm0 hd0
    have ht : t ≠ 0 := by tauto
    rw [isoDX_zero, if_neg ht] at *
    obtain ⟨c, r', e, hc⟩ := isoTX_first ht
    have := iso_scans u (w := [80, 84]) (by unfold Letters; decide) (by simp) (by decide +kernel) e hc hT
    exact ⟨112, _, rfl, scan_of this (by simp) hl (by simp)⟩

/-- The interval of a state of the decoder. -/
def isoResult (p : Profile) : Option IsoS → Res Interval
  | none => .err .invalid
  | some st => Interval.fromPgtime p st.t.1 st.t.2

theorem isoIv_run {style : IntervalStyle} {u : TokenField} {c : Caches} (hc : c.Ok) {m d t : Int}
    (h0 : ¬ (m = 0 ∧ d = 0 ∧ t = 0)) (hl : (isoIntervalText m d t).length ≤ 128) {o : Option IsoS}
    (hg : IsoGoes p (isoField (ivYear m) 89 ++ (isoField (ivMon m) 77 ++ (isoField d 68 ++
      ((if t = 0 then [] else [84]) ++ (isoField (ivHour t) 72 ++ (isoField (ivMin t) 77 ++
        isoSecText t)))))) { t := ({}, 0) } o) :
    Interval.tryFromStr p u c (isoIntervalText m d t) (-1) style = isoResult p o := by
  obtain ⟨y, r, hy, hs⟩ := isoIv_scan u h0 hl
  obtain ⟨s', hrej, hst⟩ := iso_rejected (p := p) (style := style) (x := y :: r) rfl hy
  have htext : isoIntervalText m d t = 80 :: (isoField (ivYear m) 89 ++ (isoField (ivMon m) 77 ++ (isoField d 68 ++
      ((if t = 0 then [] else [84]) ++ (isoField (ivHour t) 72 ++ (isoField (ivMin t) 77 ++
        isoSecText t)))))) := by
    unfold isoIntervalText; rw [if_neg h0]; rfl
  generalize hX : (isoField (ivYear m) 89 ++ (isoField (ivMon m) 77 ++ (isoField d 68 ++
      ((if t = 0 then [] else [84]) ++ (isoField (ivHour t) 72 ++ (isoField (ivMin t) 77 ++
        isoSecText t)))))) = X at *
  have hne : X ≠ [] := by
    have := isoText_split h0
    rw [htext] at this
    have hx : X = isoDX m d ++ ((if t = 0 then [] else [84]) ++ isoTX t) := by simpa using this
    rw [hx]
    by_cases hd : m ≠ 0 ∨ d ≠ 0
    · obtain ⟨c, r', e, -⟩ := isoDX_first hd ((if t = 0 then [] else [84]) ++ isoTX t)
      rw [e]; simp
    · have ht : t ≠ 0 := by tauto
      rw [if_neg ht]; simp
  have hpos := List.length_pos_iff.2 hne
  have hlen : ¬ ((80 :: X).length < 2 ∨ (80 :: X).head? ≠ some 80) := by
    simp only [List.length_cons, List.head?_cons]
    simp; omega
  have hiso : ∀ r i, isoLoop p ((80 :: X).length + 1) X { t := ({}, 0) } = (r, i) →
      decodeIsoInterval p (80 :: X) s' = (r, { s' with dType := .delta, t := i.t }) := by
    intro r i h
    unfold decodeIsoInterval
    rw [St.mod_bind, if_neg hlen]
    refine Eq.trans (St.zoom_run (r := r) (t := i) ?_) rfl
    simp only [hst, List.drop_succ_cons, List.drop_zero]
    exact h
  cases o with
  | none =>
    obtain ⟨s, e⟩ := hg [] ((80 :: X).length + 1) (by simp only [List.length_cons]; omega)
    rw [List.append_nil] at e
    simp only [isoResult]
    rw [interval_run p u hc (-1) style hs (r := .err .invalid) (d := { s' with dType := .delta, t := s.t }) (w := ()) (by
      unfold St.orElse; rw [hrej]; simp only; rw [htext]; exact noLook_run (hiso _ _ e))]
    rfl
  | some st =>
    obtain ⟨f, hf, e⟩ := hg [] ((80 :: X).length + 1) (by simp only [List.length_cons]; omega)
    rw [List.append_nil] at e
    simp only [List.length_cons] at hf
    obtain ⟨k, rfl⟩ : ∃ k, f = k + 1 := ⟨f - 1, by omega⟩
    have e' : isoLoop p ((80 :: X).length + 1) X { t := ({}, 0) } = (.ok (), st) := by rw [e]; rfl
    simp only [isoResult]
    rw [interval_run p u hc (-1) style hs (r := .ok ()) (d := { s' with dType := .delta, t := st.t }) (w := ()) (by
      unfold St.orElse; rw [hrej]; simp only; rw [htext]; exact noLook_run (hiso _ _ e'))]
    rw [Res.bind_ok, Interval.ofDec, if_pos rfl]
    simp only
    cases Interval.fromPgtime p st.t.1 st.t.2 with
    | ok a => rw [Res.bind_ok, Interval.adjustByTypmod, if_neg (by omega)]
    | err e => rfl
    | panic => rfl

/-- A text in the ISO 8601 style without negative fields reads back. -/
theorem isoIv_read (u : TokenField) {c : Caches} (hc : c.Ok) {a : Interval} (hm : In32 a.month) (hm0 : 0 ≤ a.month)
    (hd : 0 ≤ a.day) (hd2 : In32 a.day) (ht0 : 0 ≤ a.time) (ht : MinutesFit a.time)
    (hl : (isoIntervalText a.month a.day a.time).length ≤ 128) (style : IntervalStyle) :
    Interval.tryFromStr p u c (isoIntervalText a.month a.day a.time) (-1) style = .ok a := by
  obtain ⟨m, d, t⟩ := a
  simp only at *
  by_cases h0 : m = 0 ∧ d = 0 ∧ t = 0
  · obtain ⟨rfl, rfl, rfl⟩ := h0
    have e : isoIntervalText 0 0 0 = [80, 84, 48, 83] := by decide +kernel
    rw [e]
    have hs : scan u [80, 84, 48, 83] = .ok [(.date, [112, 116, 48, 83])] := by cases u <;> decide +kernel
    have hdec : St.orElse (decodeInterval p plainLook (parseRange (-1)) style [(.date, [112, 116, 48, 83])])
        (noLook (decodeIsoInterval p [80, 84, 48, 83])) ({}, ()) = (.ok (), ({ ty := 18 }, ())) := by
      cases p <;> cases style <;> decide +kernel
    rw [interval_run p u hc (-1) style hs hdec]
    cases p <;> decide +kernel
  obtain ⟨q1, q2, q3⟩ := minutes_parts ht
  obtain ⟨b1, b2, b3⟩ := clock_bounds t
  unfold In32 at hm hd2
  obtain ⟨st, hg, hst⟩ := isoText_goes (p := p) hm0 (by omega) hd (by omega) ht0 (by omega)
  rw [isoIv_run hc h0 hl hg]
  simp only [isoResult, hst]
  have hsum := month_sum m
  have hcs := clock_sum (sg := none) (t := t) (by intro h; omega) (by intro h; simp)
  simp only [sgVal] at hcs
  unfold Interval.fromPgtime
  unfold In32 at q1 q2
  simp only
  have hcs' : ((ivHour t * 60 + ivMin t) * 60 + (ivSec t : Int)) * 1000000 + (ivMicro t : Int) = t := by simpa using hcs
  rw [if_neg (by omega), chk32_ok q1, Res.bind_ok, chk32_ok q2, Res.bind_ok, chk64_ok (by omega), Res.bind_ok,
    chk64_ok (by omega), Res.bind_ok, chk64_ok (by omega), Res.bind_ok, chk64_ok (by omega), Res.bind_ok,
    hsum, hcs']
  rfl

/-- A text in the ISO 8601 style with a negative field is rejected. -/
theorem isoIv_rejects (u : TokenField) {c : Caches} (hc : c.Ok) {a : Interval} (hm : In32 a.month)
    (hd : In32 a.day) (ht : In32 (ivHour a.time)) (hneg : a.month < 0 ∨ a.day < 0 ∨ a.time < 0)
    (hl : (isoIntervalText a.month a.day a.time).length ≤ 128) (style : IntervalStyle) :
    Interval.tryFromStr p u c (isoIntervalText a.month a.day a.time) (-1) style = .err .invalid := by
  unfold In32 at hm hd ht
  exact isoIv_run hc (by omega) hl (isoText_fails (p := p) (by omega) (by omega) (by omega) hneg)

end Pg
