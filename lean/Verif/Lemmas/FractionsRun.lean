import Verif.Lemmas.Fractions

/-! # Decoding intervals written as quantities with fractions -/

namespace Pg
open Spec F64

variable {p : Profile} {range : Nat}

/-- The bytes of a fraction. -/
def dotted (fs : Bytes) : Bytes := if fs = [] then [] else 46 :: fs

/-- The field of the number. -/
def fracField (x : FracQuantity) : Field := numField x.whole.sign (x.whole.digits ++ dotted x.frac)

theorem tenMillionths_bound {x : FracQuantity} (h : Digits x.frac) (hl : x.frac.length ≤ 7) :
    0 ≤ x.tenMillionths ∧ x.tenMillionths < 10000000 := by
  have hv := value_lt h
  unfold FracQuantity.tenMillionths
  have e : (10 : Int) ^ x.frac.length * 10 ^ (7 - x.frac.length) = 10000000 := by
    rw [← pow_add, Nat.add_sub_cancel' hl]; norm_num
  have hp : (0 : Int) < 10 ^ (7 - x.frac.length) := by positivity
  refine ⟨mul_nonneg (by omega) hp.le, ?_⟩
  rw [← e]
  exact mul_lt_mul_of_pos_right (by exact_mod_cast hv) hp

theorem fracF64_rnd {x : FracQuantity} (h : Digits x.frac) (hl : x.frac.length ≤ 7) :
    fracF64 x.frac = rnd ((x.tenMillionths : Rat) / 10000000) := by
  unfold fracF64 FracQuantity.tenMillionths
  have hv := value_lt h
  split
  next e => rw [e]; simp [value, F64.ofInt]
  next =>
    have hp : ((10 : Int) ^ x.frac.length) ≤ 10 ^ 7 := pow_le_pow_right₀ (by omega) hl
    have hp0 : (0 : Int) < 10 ^ x.frac.length := by positivity
    have hv' : (value x.frac : Int) < 10 ^ x.frac.length := by exact_mod_cast hv
    rw [F64.ofInt_ok (n := (value x.frac : Int)) (by omega), F64.ofInt_ok (by omega), fin_div (by
      push_cast; positivity)]
    congr 1
    have e : (10 : Rat) ^ x.frac.length * 10 ^ (7 - x.frac.length) = 10000000 := by
      rw [← pow_add, Nat.add_sub_cancel' hl]; norm_num
    rw [← e]
    push_cast
    field_simp

/-- The value and the fraction of a number. -/
theorem numberParts_frac {x : FracQuantity} (h : x.Ok) (hv : value x.whole.digits ≤ 2147483647) :
    numberParts p (fracField x).2 = if x.frac.length ≤ 7 then
      .ok (sgVal x.whole.sign (value x.whole.digits),
        (if x.whole.sign = some true then (fracF64 x.frac).neg else fracF64 x.frac), false) else .err .overflow := by
  obtain ⟨⟨hd, -⟩, hf⟩ := h
  have nd := DigitsOf.ne hd (by omega)
  obtain ⟨y, ys, ey, hy⟩ := digits_first hd.1 nd
  rw [isDigit_iff] at hy
  by_cases he : x.frac = []
  · unfold fracField dotted
    rw [if_pos he, List.append_nil, numberParts_sg _ hd.1 nd hd.2.2 hv, he, if_pos (by simp)]
    have e0 : fracF64 ([] : Bytes) = .fin 0 := by decide +kernel
    rw [e0]
    have e1 : (F64.fin 0).neg = .fin 0 := by decide +kernel
    rw [e1]
    simp
  · unfold fracField dotted
    rw [if_neg he]
    have hst : Stops isDigit (46 :: x.frac) := Stops.cons rfl
    have h2d := str2d_frac (r := []) hf.1 (Stops.nil _)
    rw [List.append_nil] at h2d
    unfold numberParts
    cases hs : x.whole.sign with
    | none =>
      simp only [numField]
      rw [str2i32_digits hd.1 nd hst, if_pos ⟨hd.2.2, hv⟩, Res.bind_ok]
      simp only
      rw [if_neg (by omega), if_true, h2d]
      by_cases h7 : x.frac.length ≤ 7
      · rw [if_pos h7, if_pos h7, Res.bind_ok]
        simp [ey, sgVal]
        omega
      · rw [if_neg h7, if_neg h7]; rfl
    | some neg =>
      simp only [numField]
      rw [str2i32_signed neg hd.1 hst hd.2.2 (Or.inl hv), Res.bind_ok]
      simp only
      rw [if_neg (by omega), if_true, h2d]
      by_cases h7 : x.frac.length ≤ 7
      · rw [if_pos h7, if_pos h7, Res.bind_ok]
        cases neg <;> simp [sgVal]
      · rw [if_neg h7, if_neg h7]; rfl

theorem fracField_kind {x : FracQuantity} (h : x.Ok) : (fracField x).1 = .number ∨ (fracField x).1 = .date ∨
    (fracField x).1 = .tz ∧ NoColon (fracField x).2 := by
  unfold fracField
  cases hs : x.whole.sign with
  | none => exact Or.inl rfl
  | some neg =>
    refine Or.inr (Or.inr ⟨rfl, ?_⟩)
    have h1 := digits_noColon h.1.1.1
    have h2 := digits_noColon h.2.1
    unfold NoColon at h1 h2 ⊢
    simp only [numField, List.any_cons, List.any_append, h1]
    have : (dotted x.frac).any (fun b => decide (b = 58)) = false := by
      unfold dotted
      split
      · rfl
      · rw [List.any_cons, h2]; rfl
    rw [this]
    cases neg <;> rfl

/-- The mask of a quantity. -/
def fqMask (x : FracQuantity) : Nat := if x.tenMillionths = 0 then 2 ^ unitExp x.whole.unit else fracMask x.whole.unit

/-- The bits of the quantities. -/
def fqMasks : List FracQuantity → Nat
  | [] => 0
  | x :: xs => fqMasks xs ||| fqMask x

theorem fqMask_apart (x y : FracQuantity) : fqMask x &&& fqMask y = 0 ↔ Apart x y := by
  have key : ∀ u v : IvUnit, ∀ a b : Bool,
      ((if a then 2 ^ unitExp u else fracMask u) &&& (if b then 2 ^ unitExp v else fracMask v) = 0 ↔
        u ≠ v ∧ ¬ (u = .second ∧ a = false ∧ (v = .millisecond ∨ v = .microsecond)) ∧
          ¬ (v = .second ∧ b = false ∧ (u = .millisecond ∨ u = .microsecond))) := by
    intro u v
    cases u <;> cases v <;> decide
  have := key x.whole.unit y.whole.unit (decide (x.tenMillionths = 0)) (decide (y.tenMillionths = 0))
  simp only [decide_eq_true_eq, decide_eq_false_iff_not] at this
  exact this

theorem fqMasks_apart (x : FracQuantity) (xs : List FracQuantity) :
    fqMask x &&& fqMasks xs = 0 ↔ ∀ y ∈ xs, Apart x y := by
  induction xs with
  | nil => simp [fqMasks]
  | cons y ys ih =>
    rw [fqMasks, Nat.and_or_distrib_left, Nat.or_eq_zero_iff, ih, fqMask_apart, List.forall_mem_cons, and_comm]

theorem fqMasks_ne {xs : List FracQuantity} (h : xs ≠ []) : fqMasks xs ≠ 0 := by
  cases xs with
  | nil => exact absurd rfl h
  | cons x xs =>
    rw [fqMasks]
    intro e
    have := (Nat.or_eq_zero_iff.1 e).2
    revert this
    unfold fqMask fracMask
    cases x.whole.unit <;> split <;> decide

/-- Wider bounds. -/
theorem QInv.wider {t : TmF} {M M' D D' W W' S S' M2 D2 W2 S2 : Int} (h : QInv t M M' D D' W W' S S') (h1 : M' ≤ M2)
    (h2 : D' ≤ D2) (h3 : W' ≤ W2) (h4 : S' ≤ S2) : QInv t M M2 D D2 W W2 S S2 := by
  obtain ⟨m, m', d, d', w, w', s, s'⟩ := h
  unfold Abs2 at m' d' w' s'
  constructor <;> first | assumption | (unfold Abs2; omega)

/-- Adding a quantity, with or without fraction. -/
theorem addUnit_any {x : FracQuantity} (hx : x.Ok) (h7 : x.frac.length ≤ 7) {t : TmF} {M M' D D' W W' S S' : Int}
    (h : QInv t M M' D D' W W' S S') (hn : value x.whole.digits ≤ 2147483647)
    (hM : M' + value x.whole.digits * x.whole.unit.months ≤ 2100000000)
    (hD : D' + value x.whole.digits * x.whole.unit.days ≤ 2100000000)
    (hW : W' + value x.whole.digits * wholeMinutes x.whole.unit ≤ 2100000000)
    (hS : S' + value x.whole.digits * subMinute x.whole.unit ≤ 2100000000000000) :
    ∃ t' m d s, addUnit p (unitTf x.whole.unit) (sgVal x.whole.sign (value x.whole.digits))
        (if x.whole.sign = some true then (fracF64 x.frac).neg else fracF64 x.frac) t = (.ok (fqMask x), t') ∧
      FractionIs x.whole.unit x.tenMillionths m d s ∧
      QInv t' (M + x.sgn * (value x.whole.digits * x.whole.unit.months + m))
        (M' + value x.whole.digits * x.whole.unit.months + 20000)
        (D + x.sgn * (value x.whole.digits * x.whole.unit.days + d))
        (D' + value x.whole.digits * x.whole.unit.days + 100)
        (W + x.sgn * (value x.whole.digits * wholeMinutes x.whole.unit)) (W' + value x.whole.digits * wholeMinutes x.whole.unit)
        (S + x.sgn * (value x.whole.digits * subMinute x.whole.unit + s))
        (S' + value x.whole.digits * subMinute x.whole.unit + 1000000000000) := by
  have hk := tenMillionths_bound hx.2.1 h7
  have hv := fracF64_rnd hx.2.1 h7
  have esg : sgVal x.whole.sign (value x.whole.digits) = x.sgn * value x.whole.digits := by
    unfold sgVal FracQuantity.sgn
    split <;> ring
  have hsg : x.sgn = 1 ∨ x.sgn = -1 := by unfold FracQuantity.sgn; split <;> simp
  unfold fqMask
  by_cases h0 : x.tenMillionths = 0
  · rw [if_pos h0]
    rw [h0] at hv ⊢
    have e0 : fracF64 x.frac = .fin 0 := by rw [hv]; decide +kernel
    rw [e0, show (F64.fin 0).neg = .fin 0 by decide +kernel, ite_self]
    obtain ⟨t', h1, h2⟩ := addUnit_whole p x.whole.unit (v := sgVal x.whole.sign (value x.whole.digits))
      (n := value x.whole.digits) h (by omega) (by omega)
      (by rw [esg]; rcases hsg with e | e <;> rw [e] <;> omega) (by omega) (by omega) (by omega) (by omega)
    refine ⟨t', 0, 0, 0, h1, ?_, ?_⟩
    · unfold FractionIs
      cases x.whole.unit <;> simp
    · rw [esg] at h2
      simp only [add_zero]
      rw [← mul_assoc, ← mul_assoc, ← mul_assoc, ← mul_assoc]
      exact h2.wider (by omega) (by omega) (by omega) (by omega)
  · rw [if_neg h0]
    obtain ⟨r, hr, he, hr2⟩ := frac_float (k := x.tenMillionths) (by omega)
    have ef : (if x.whole.sign = some true then (fracF64 x.frac).neg else fracF64 x.frac) = .fin (x.sgn * r) := by
      rw [hv, hr]
      unfold FracQuantity.sgn
      split <;> simp [F64.neg]
    rw [ef, esg]
    exact addUnit_frac p x.whole.unit h hsg (by omega) (by omega) (by omega) hr he hr2 hM hD hW hS

/-- The fields of quantities. -/
def fsFields (xs : List FracQuantity) (l : List Field) : List Field :=
  (xs.map fun x => [fracField x, (.string, lower x.whole.word)]).flatten ++ l

/-- The state after quantities. -/
def FAt (s : IvS) (xs : List FracQuantity) (ys : List (Int × Int × Int)) (b : Bool) : Prop :=
  List.Forall₂ QuantityIs xs ys ∧
  (∃ W S : Int, QInv s.t (sumParts ys).1 (size IvUnit.months (xs.map FracQuantity.whole) + 20000 * xs.length) (sumParts ys).2.1
    (size IvUnit.days (xs.map FracQuantity.whole) + 100 * xs.length) W (size wholeMinutes (xs.map FracQuantity.whole)) S
    (size subMinute (xs.map FracQuantity.whole) + 1000000000000 * xs.length) ∧
    W * 60000000 + S = (sumParts ys).2.2) ∧
  s.fMask = fqMasks xs ∧ s.before = b ∧ s.dType = .delta

theorem intervalNumber_err {field : Bytes} {e : Err} {s : IvS} (hp : numberParts p field = .err e) :
    ∃ s', intervalNumber p field range s = (.err e, s') := by
  refine ⟨if s.ty = 8 then { s with ty := (rangeUnit range).value } else s, ?_⟩
  unfold intervalNumber
  rw [St.mod_bind, hp]
  rfl

/-- A number that is refused. -/
theorem number_fails {f : Field} {l : List Field} {s0 s : IvS} (hr : IvRuns p range l s0 s)
    (hk : f.1 = .number ∨ f.1 = .date ∨ f.1 = .tz ∧ NoColon f.2) {e : Err}
    (h : ∃ s', (do intervalNumber p f.2 range; addMaskI) s = (.err e, s')) : IvFails p range (f :: l) s0 := by
  intro i
  obtain ⟨s', h⟩ := h
  refine ⟨e, (s', ()), ?_⟩
  rw [intervalLoop, St.bind_ok (hr (i + 1))]
  rcases hk with hk | hk | ⟨hk, hc⟩
  · rw [intervalField, hk]; exact noLook_run h
  · rw [intervalField, hk]; exact noLook_run h
  · rw [intervalField, hk]
    refine noLook_run ?_
    rw [intervalSigned, if_neg (by rw [hc]; decide)]
    exact h

theorem modest_tail {x : FracQuantity} {xs : List FracQuantity} (h : Modest (x :: xs)) : Modest xs := by
  obtain ⟨h1, h2, h3, h4, h5⟩ := h
  obtain ⟨n1, n2, n3, n4⟩ := unit_nonneg x.whole.unit
  simp only [List.map_cons, size_cons] at h1 h2 h3 h4
  have hv : (0 : Int) ≤ value x.whole.digits := by omega
  have m1 := mul_nonneg hv n1
  have m2 := mul_nonneg hv n2
  have m3 := mul_nonneg hv n3
  have m4 := mul_nonneg hv n4
  exact ⟨by omega, by omega, by omega, by omega, fun r hr => h5 r (List.mem_cons_of_mem _ hr)⟩

/-- Decoding quantities with fractions. -/
theorem fs_runs {l : List Field} {s0 : IvS} {b : Bool} (hl : IvRuns p range l {} s0) (h0 : IvAt s0 ({}, 0) 0 b)
    (xs : List FracQuantity) : (∀ x ∈ xs, x.Ok) → Modest xs → xs.length ≤ 12 →
    (FractionsFit xs → ∃ s ys, IvRuns p range (fsFields xs l) {} s ∧ FAt s xs ys b) ∧
    (¬ FractionsFit xs → IvFails p range (fsFields xs l) {}) := by
  induction xs with
  | nil =>
    intro _ _ _
    refine ⟨fun _ => ⟨s0, [], by simpa [fsFields] using hl, .nil, ⟨0, 0, ?_, rfl⟩, h0.2.1, h0.2.2.1, h0.2.2.2⟩,
      fun h => absurd ⟨by simp, List.Pairwise.nil⟩ h⟩
    rw [h0.1]
    constructor <;> simp [sumParts, size, Abs2]
  | cons x xs ih =>
    intro hok hmod hlen
    rw [List.length_cons] at hlen
    obtain ⟨ih1, ih2⟩ := ih (fun r hr => hok r (List.mem_cons_of_mem _ hr)) (modest_tail hmod) (by omega)
    have hx := hok x (by simp)
    have efs : fsFields (x :: xs) l = fracField x :: (.string, lower x.whole.word) :: fsFields xs l := by
      simp [fsFields]
    rw [efs]
    by_cases hfit : FractionsFit xs
    swap
    · refine ⟨fun h => absurd ⟨fun y hy => h.1 y (List.mem_cons_of_mem _ hy), (List.pairwise_cons.1 h.2).2⟩ hfit,
        fun _ => (ih2 hfit).cons.cons⟩
    obtain ⟨s, ys, hr, hall, ⟨W, S, hinv, hWS⟩, hmask, hb, hd⟩ := ih1 hfit
    obtain ⟨e, he, ht, hne, hof⟩ := word_unit hx.1
    have hw := hr.cons (step_unit (p := p) (range := range) (s := s) he ht)
    have hval : value x.whole.digits ≤ 2147483647 := hmod.2.2.2.2 x (by simp)
    have hnum := numberParts_frac (p := p) hx hval
    by_cases h7 : x.frac.length ≤ 7
    swap
    · refine ⟨fun h => absurd (h.1 x (by simp)) h7, fun _ => ?_⟩
      rw [if_neg h7] at hnum
      refine number_fails hw (fracField_kind hx) (e := .overflow) ?_
      obtain ⟨s', h⟩ := intervalNumber_err (range := range) (s := { s with tMask := 0, ty := e.value }) hnum
      exact ⟨s', by rw [St.bind_err h]⟩
    rw [if_pos h7] at hnum
    obtain ⟨m1, m2, m3, m4, -⟩ := hmod
    simp only [List.map_cons, size_cons] at m1 m2 m3 m4
    obtain ⟨t', m, d, sx, ha, hfr, hinv'⟩ := addUnit_any (p := p) hx h7 hinv hval (by omega) (by omega) (by omega) (by omega)
    by_cases hu : ∀ y ∈ xs, Apart x y
    · refine ⟨fun _ => ?_, fun h => absurd ⟨?_, List.pairwise_cons.2 ⟨hu, hfit.2⟩⟩ h⟩
      swap
      · intro y hy
        rcases List.mem_cons.1 hy with rfl | hy
        · exact h7
        · exact hfit.1 y hy
      obtain ⟨ty, hst⟩ := step_number (p := p) (range := range) (s := { s with tMask := 0, ty := e.value })
        (u := unitTf x.whole.unit) (m := fqMask x) (t := t')
        (fracField_kind hx) hnum
        (by
          simp only [Bool.false_eq_true, if_false]
          rw [if_neg hne]; exact hof) ha
        (by simp only; rw [hmask]; exact (fqMasks_apart _ _).2 hu)
      refine ⟨_, (x.sgn * (value x.whole.digits * x.whole.unit.months + m),
        x.sgn * (value x.whole.digits * x.whole.unit.days + d),
        x.sgn * (value x.whole.digits * x.whole.unit.micros + sx)) :: ys, hw.cons hst, .cons ⟨m, d, sx, hfr, rfl⟩ hall,
        ⟨W + x.sgn * (value x.whole.digits * wholeMinutes x.whole.unit),
          S + x.sgn * (value x.whole.digits * subMinute x.whole.unit + sx), ?_, ?_⟩, ?_, hb, hd⟩
      · simp only [List.map_cons, size_cons, List.length_cons, sumParts, List.sum_cons] at hinv' ⊢
        obtain ⟨i1, i2, i3, i4, i5, i6, i7, i8⟩ := hinv'
        unfold Abs2 at i2 i4 i6 i8
        push_cast
        constructor <;> first | (unfold Abs2; omega) | omega
      · have eu : wholeMinutes x.whole.unit * 60000000 + subMinute x.whole.unit = x.whole.unit.micros := by
          cases x.whole.unit <;> rfl
        simp only [sumParts, List.map_cons, List.sum_cons] at hWS ⊢
        rw [← eu, ← hWS]
        ring
      · simp only [hmask, fqMasks]
    · refine ⟨fun h => absurd (List.pairwise_cons.1 h.2).1 hu, fun _ => ?_⟩
      refine number_fails hw (fracField_kind hx) (e := .invalid) ?_
      obtain ⟨ty, hi⟩ := intervalNumber_ok (p := p) (range := range) (s := { s with tMask := 0, ty := e.value })
        (u := unitTf x.whole.unit) (m := fqMask x) (t := t') hnum
        (by
          simp only [Bool.false_eq_true, if_false]
          rw [if_neg hne]; exact hof) ha
      rw [St.bind_ok hi]
      have hmk : ∀ s1 : IvS, s1.fMask = s.fMask → s1.tMask = fqMask x → addMaskI s1 = (.err .invalid, s1) := by
        intro s1 e1 e2
        unfold addMaskI
        rw [St.get_bind, St.ite_run, if_pos]
        · rfl
        · rw [e1, e2, hmask]
          exact fun hz => hu ((fqMasks_apart _ _).1 hz)
      exact ⟨_, hmk _ rfl rfl⟩

end Pg
