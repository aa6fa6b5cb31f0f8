import Verif.Lemmas.Goes
import Verif.Lemmas.Sized

/-! # Adding quantities to bounded fields does not overflow -/

namespace Pg
open F64

variable {p : Profile}

/-- The fields of an interval are at most this large: years, hours, the other fields, microseconds. -/
structure Lim (y h x f : Int) (t : TmF) : Prop where
  year : -y ≤ t.1.year ∧ t.1.year ≤ y
  hour : -h ≤ t.1.hour ∧ t.1.hour ≤ h
  mon : -x ≤ t.1.mon ∧ t.1.mon ≤ x
  mday : -x ≤ t.1.mday ∧ t.1.mday ≤ x
  min : -x ≤ t.1.min ∧ t.1.min ≤ x
  sec : -x ≤ t.1.sec ∧ t.1.sec ≤ x
  fsec : -f ≤ t.2 ∧ t.2 ≤ f

theorem Lim.mono {y h x f y' h' x' f' : Int} {t : TmF} (l : Lim y h x f t) (hy : y ≤ y') (hh : h ≤ h') (hx : x ≤ x') (hf : f ≤ f') :
    Lim y' h' x' f' t := by
  obtain ⟨a, b, c, d, e, g, i⟩ := l
  constructor <;> omega

theorem adjustSeconds_lim {y h x f : Int} {t : TmF} (l : Lim y h x f t) {v : F64} (hv : Sized v 3) {n : Int} (hn : 1 ≤ n ∧ n ≤ 86400)
    (hf : f ≤ 1000000000000) {R : TmF → Prop} (hR : Lim y h (x + 260000) (f + 2000002) t → R t) :
    Goes R (adjustFractSeconds p v n) (fun _ => Lim y h (x + 260000) (f + 2000002)) t := by
  have hl : Lim y h (x + 260000) (f + 2000002) t := l.mono (by omega) (by omega) (by omega) (by omega)
  unfold adjustFractSeconds
  split
  · rw [Goes.pure]; exact hl
  · have hm := (hv.mul (n := n) (N := 86400) (by omega) (by omega) (by norm_num)).mono (C := (259201 : Int)) (by norm_num)
    have h1 := hm.toI32 (by omega)
    have h2 := (hm.frac (by omega)).micros
    dsimp only
    rw [Goes.bind, Goes.get]
    obtain ⟨a, b, c, d, e, g, i⟩ := l
    unfold checked32
    split
    · split at *
      · contradiction
      · rw [Goes.fail]; exact hR hl
    · rename_i w hw
      split at hw
      · injection hw with hw
        subst hw
        rw [Goes.bind, Goes.mod, Goes.bind, chk64_ok (by omega), Goes.lift_ok, Goes.mod]
        constructor <;> dsimp only <;> omega
      · cases hw

theorem adjustDays_lim {y h x f : Int} {t : TmF} (l : Lim y h x f t) {v : F64} (hv : Sized v 2) {n : Int} (hn : 1 ≤ n ∧ n ≤ 30)
    (hf : f ≤ 1000000000000) {R : TmF → Prop} (hR : ∀ t, Lim y h (x + 260100) (f + 2000002) t → R t) :
    Goes R (adjustFractDays p v n) (fun _ => Lim y h (x + 260100) (f + 2000002)) t := by
  have hl : Lim y h (x + 260100) (f + 2000002) t := l.mono (by omega) (by omega) (by omega) (by omega)
  unfold adjustFractDays
  split
  · rw [Goes.pure]; exact hl
  · have hm := (hv.mul (n := n) (N := 30) (by omega) (by omega) (by norm_num)).mono (C := (61 : Int)) (by norm_num)
    have h1 := hm.toI32 (by omega)
    have h2 := (hm.frac (by omega)).mono (C := 3) (by norm_num)
    dsimp only
    rw [Goes.bind, Goes.get]
    obtain ⟨a, b, c, d, e, g, i⟩ := l
    unfold checked32
    split
    · split at *
      · contradiction
      · rw [Goes.fail]; exact hR _ hl
    · rename_i w hw
      split at hw
      · injection hw with hw
        subst hw
        rw [Goes.bind, Goes.mod]
        refine (adjustSeconds_lim (y := y) (h := h) (x := x + 100) (f := f) ?_ h2 (by omega) hf
          (fun hl => hR _ (hl.mono (by omega) (by omega) (by omega) (by omega)))).mono (fun _ h => h) fun _ _ h => h.mono (by omega) (by omega) (by omega) (by omega)
        constructor <;> dsimp only <;> omega
      · cases hw

variable {R : TmF → Prop} {Q : Unit → TmF → Prop} {t : TmF} {x : Int}

theorem addFsec_goes (h : In64 (t.2 + x)) : Goes R (addFsec p x) Q t ↔ Q () (t.1, t.2 + x) := by
  unfold addFsec; rw [Goes.bind, Goes.get, Goes.bind, chk64_ok h, Goes.lift_ok, Goes.mod]
theorem addSec_goes (h : In32 (t.1.sec + x)) : Goes R (addSec p x) Q t ↔ Q () ({ t.1 with sec := t.1.sec + x }, t.2) := by
  unfold addSec; rw [Goes.bind, Goes.get, Goes.bind, chk32_ok h, Goes.lift_ok, Goes.mod]
theorem addMin_goes (h : In32 (t.1.min + x)) : Goes R (addMin p x) Q t ↔ Q () ({ t.1 with min := t.1.min + x }, t.2) := by
  unfold addMin; rw [Goes.bind, Goes.get, Goes.bind, chk32_ok h, Goes.lift_ok, Goes.mod]
theorem addHour_goes (h : In32 (t.1.hour + x)) : Goes R (addHour p x) Q t ↔ Q () ({ t.1 with hour := t.1.hour + x }, t.2) := by
  unfold addHour; rw [Goes.bind, Goes.get, Goes.bind, chk32_ok h, Goes.lift_ok, Goes.mod]
theorem addMday_goes (h : In32 (t.1.mday + x)) : Goes R (addMday p x) Q t ↔ Q () ({ t.1 with mday := t.1.mday + x }, t.2) := by
  unfold addMday; rw [Goes.bind, Goes.get, Goes.bind, chk32_ok h, Goes.lift_ok, Goes.mod]
theorem addMon_goes (h : In32 (t.1.mon + x)) : Goes R (addMon p x) Q t ↔ Q () ({ t.1 with mon := t.1.mon + x }, t.2) := by
  unfold addMon; rw [Goes.bind, Goes.get, Goes.bind, chk32_ok h, Goes.lift_ok, Goes.mod]
theorem addYear_goes (h : In32 (t.1.year + x)) : Goes R (addYear p x) Q t ↔ Q () ({ t.1 with year := t.1.year + x }, t.2) := by
  unfold addYear; rw [Goes.bind, Goes.get, Goes.bind, chk32_ok h, Goes.lift_ok, Goes.mod]

/-- How many years one of the units in the mask is at most. -/
def yearWeight (m : Nat) : Int := (if m.testBit 2 then 1 else 0) + (if m.testBit 25 then 10 else 0) + (if m.testBit 26 then 100 else 0) +
  (if m.testBit 27 then 1000 else 0)
/-- Is the hour in the mask? -/
def hourWeight (m : Nat) : Int := if m.testBit 10 then 1 else 0

theorem addYears_lim {y h x f : Int} {t : TmF} (l : Lim y h x f t) {val : Int} {v : F64} (hv : Sized v 2) (hval : -999999 ≤ val ∧ val ≤ 999999)
    {n : Int} (hn : 1 ≤ n ∧ n ≤ 1000) (hy : y ≤ 1111000000) (hx : x ≤ 400000000) :
    Goes R (addYears p val v n) (fun _ => Lim (y + 1000000 * n) h (x + 13000000) f) t := by
  have hb : -999999 * n ≤ val * n ∧ val * n ≤ 999999 * n := ⟨Int.mul_le_mul_of_nonneg_right (by omega) (by omega), Int.mul_le_mul_of_nonneg_right (by omega) (by omega)⟩
  have hs : scaleYears p val n = .ok (val * n) := by
    unfold scaleYears
    split
    · rename_i e; rw [e, Int.mul_one]
    · exact chk32_ok (by omega)
  obtain ⟨a, b, c, d, e, g, i⟩ := l
  unfold addYears
  rw [Goes.bind, hs, Goes.lift_ok, Goes.bind, addYear_goes (by unfold In32; omega)]
  split
  · rw [Goes.pure]; constructor <;> dsimp only <;> omega
  · have h1 := (hv.mul (n := 12) (N := 12) (by omega) (by omega) (by norm_num)).mono (C := (25 : Int)) (by norm_num)
    have h2 := (h1.mul (n := n) (N := 1000) (by omega) (by omega) (by norm_num)).mono (C := (25001 : Int)) (by norm_num)
    have h3 : Sized (if n = 1 then v.mul (ofInt 12) else (v.mul (ofInt 12)).mul (ofInt n)) (25001 : Int) := by
      split
      · exact h1.mono (by norm_num)
      · exact h2
    have h4 := h3.toI32 (by omega)
    rw [addMon_goes (by unfold In32; dsimp only; omega)]
    constructor <;> dsimp only <;> omega

theorem addUnit_lim {y h x f : Int} {t : TmF} (l : Lim y h x f t) {u : TokenField} {val : Int} {v : F64} (hv : Sized v 2)
    (hval : -12000000 ≤ val ∧ val ≤ 12000000) (hsmall : u ≠ .month → -999999 ≤ val ∧ val ≤ 999999)
    (hy : y ≤ 1111000000) (hh : h ≤ 1000000) (hx : x ≤ 400000000) (hf : f ≤ 1000000000) :
    Goes (Lim (y + 1000000000) (h + 1000000) (x + 13000000) (f + 3000000)) (addUnit p u val v)
      (fun m t' => yearWeight m ≤ 1000 ∧ Lim (y + 1000000 * yearWeight m) (h + 1000000 * hourWeight m) (x + 13000000) (f + 3000000) t') t := by
  have l0 := l
  obtain ⟨a, b, c, d, e, g, i⟩ := l
  have w : ∀ m : Nat, 0 ≤ yearWeight m ∧ 0 ≤ hourWeight m := by
    intro m; unfold yearWeight hourWeight; constructor <;> (repeat' split) <;> omega
  have hdone : ∀ {m : Nat} {t' : TmF}, yearWeight m ≤ 1000 → Lim y h (x + 13000000) (f + 3000000) t' →
      yearWeight m ≤ 1000 ∧ Lim (y + 1000000 * yearWeight m) (h + 1000000 * hourWeight m) (x + 13000000) (f + 3000000) t' := by
    intro m t' hm hl
    have := w m
    exact ⟨hm, hl.mono (by omega) (by omega) (by omega) (by omega)⟩
  have h3 : Sized v 3 := hv.mono (by norm_num)
  unfold addUnit
  split
  · have hb := ((hv.add (n := val) (N := 999999) (hsmall (by decide)) (by omega) (by norm_num)).mono (C := (1000002 : Int)) (by norm_num)).round (by omega)
    rw [Goes.bind, addFsec_goes (by unfold In64; omega), Goes.pure]
    apply hdone (by first | decide | (split <;> decide))
    constructor <;> dsimp only <;> omega
  · have hs := hsmall (by decide)
    have ht := tdiv_or val 1000
    have hr : -999 ≤ val - tdiv val 1000 * 1000 ∧ val - tdiv val 1000 * 1000 ≤ 999 := by omega
    have hb := (hv.add (n := val - tdiv val 1000 * 1000) (N := 999) hr (by omega) (by norm_num)).mono (C := (1002 : Int)) (by norm_num)
    have hb := (hb.mul (n := 1000) (N := 1000) (by omega) (by omega) (by norm_num)).mono (C := (1002001 : Int)) (by norm_num)
    have hb := hb.round (by omega)
    rw [F64.ofInt_ok (n := 1000) (by omega)] at hb
    norm_num at hb
    rw [Goes.bind, addSec_goes (by unfold In32; omega)]
    dsimp only
    rw [Goes.bind, addFsec_goes (by unfold In64; dsimp only; norm_num; omega), Goes.pure]
    apply hdone (by first | decide | (split <;> decide))
    constructor <;> dsimp only <;> norm_num <;> omega
  · have hs := hsmall (by decide)
    have hb := hv.micros
    rw [Goes.bind, addSec_goes (by unfold In32; omega), Goes.bind, addFsec_goes (by unfold In64; dsimp only; omega), Goes.pure]
    apply hdone (by first | decide | (split <;> decide))
    constructor <;> dsimp only <;> omega
  · have hs := hsmall (by decide)
    rw [Goes.bind, addMin_goes (by unfold In32; omega), Goes.bind]
    refine (adjustSeconds_lim (x := x + 1000000) (y := y) (h := h) (f := f) ?_ h3 (by omega) (by omega) (fun h => ?_)).mono (fun _ h => h) fun _ _ h => ?_
    · constructor <;> dsimp only <;> omega
    · exact h.mono (by omega) (by omega) (by omega) (by omega)
    · rw [Goes.pure]; exact hdone (by decide) (h.mono (by omega) (by omega) (by omega) (by omega))
  · have hs := hsmall (by decide)
    rw [Goes.bind, addHour_goes (by unfold In32; omega), Goes.bind]
    refine (adjustSeconds_lim (x := x + 1000000) (y := y) (h := h + 1000000) (f := f) ?_ h3 (by omega) (by omega) (fun h => ?_)).mono (fun _ h => h) fun _ _ h => ?_
    · constructor <;> dsimp only <;> omega
    · exact h.mono (by omega) (by omega) (by omega) (by omega)
    · rw [Goes.pure]
      refine ⟨by decide, ?_⟩
      exact h.mono (by have := w 1024; omega) (by rw [show hourWeight 1024 = 1 from rfl]; omega) (by omega) (by omega)
  · have hs := hsmall (by decide)
    rw [Goes.bind, addMday_goes (by unfold In32; omega), Goes.bind]
    refine (adjustSeconds_lim (x := x + 1000000) (y := y) (h := h) (f := f) ?_ h3 (by omega) (by omega) (fun h => ?_)).mono (fun _ h => h) fun _ _ h => ?_
    · constructor <;> dsimp only <;> omega
    · exact h.mono (by omega) (by omega) (by omega) (by omega)
    · rw [Goes.pure]; exact hdone (by decide) (h.mono (by omega) (by omega) (by omega) (by omega))
  · have hs := hsmall (by decide)
    rw [Goes.bind, chk32_ok (by omega), Goes.lift_ok, Goes.bind, addMday_goes (by unfold In32; omega), Goes.bind]
    refine (adjustDays_lim (x := x + 7000000) (y := y) (h := h) (f := f) ?_ hv (by omega) (by omega) (fun _ h => ?_)).mono (fun _ h => h) fun _ _ h => ?_
    · constructor <;> dsimp only <;> omega
    · exact h.mono (by omega) (by omega) (by omega) (by omega)
    · rw [Goes.pure]; exact hdone (by decide) (h.mono (by omega) (by omega) (by omega) (by omega))
  · rw [Goes.bind, addMon_goes (by unfold In32; omega), Goes.bind]
    refine (adjustDays_lim (x := x + 12000000) (y := y) (h := h) (f := f) ?_ hv (by omega) (by omega) (fun _ h => ?_)).mono (fun _ h => h) fun _ _ h => ?_
    · constructor <;> dsimp only <;> omega
    · exact h.mono (by omega) (by omega) (by omega) (by omega)
    · rw [Goes.pure]; exact hdone (by decide) (h.mono (by omega) (by omega) (by omega) (by omega))
  · rw [Goes.bind]
    refine (addYears_lim l0 hv (hsmall (by decide)) (by omega) hy hx).mono (fun _ h => h) fun _ _ h => ?_
    rw [Goes.pure]
    refine ⟨by decide, ?_⟩
    exact h.mono (by rw [show yearWeight 4 = 1 from rfl]) (by have := w 4; omega) (by omega) (by omega)
  · rw [Goes.bind]
    refine (addYears_lim l0 hv (hsmall (by decide)) (by omega) hy hx).mono (fun _ h => h) fun _ _ h => ?_
    rw [Goes.pure]
    refine ⟨by decide, ?_⟩
    exact h.mono (by rw [show yearWeight 33554432 = 10 from by decide]) (by have := w 33554432; omega) (by omega) (by omega)
  · rw [Goes.bind]
    refine (addYears_lim l0 hv (hsmall (by decide)) (by omega) hy hx).mono (fun _ h => h) fun _ _ h => ?_
    rw [Goes.pure]
    refine ⟨by decide, ?_⟩
    exact h.mono (by rw [show yearWeight 67108864 = 100 from by decide]) (by have := w 67108864; omega) (by omega) (by omega)
  · rw [Goes.bind]
    refine (addYears_lim l0 hv (hsmall (by decide)) (by omega) hy hx).mono (fun _ h => h) fun _ _ h => ?_
    rw [Goes.pure]
    refine ⟨by decide, ?_⟩
    exact h.mono (by rw [show yearWeight 134217728 = 1000 from by decide]) (by have := w 134217728; omega) (by omega) (by omega)
  · rw [Goes.fail]
    exact l0.mono (by omega) (by omega) (by omega) (by omega)

end Pg
