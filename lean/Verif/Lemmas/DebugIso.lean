import Verif.Lemmas.DebugInterval
import Verif.Lemmas.IsoNumbers

/-! # Decoding ISO 8601 intervals with short numbers does not overflow -/

namespace Pg
open Spec F64

variable {p : Profile}

theorem rnd_tenths {q : Rat} (h : q = 0 ∨ 1 / 10000000 ≤ q) (hq : q ≤ 1000000) : ∃ x, rnd q = .fin x ∧ 0 ≤ x ∧ x ≤ q + 1 := by
  rcases h with rfl | h
  · exact ⟨0, rnd_zero, le_refl _, by norm_num⟩
  · have hp : |q| = q := abs_of_nonneg (le_trans (by norm_num) h)
    obtain ⟨x, h1, h2⟩ := rnd_near (q := q) (by rw [hp]; norm_num; linarith)
    refine ⟨x, h1, ?_⟩
    rw [hp, abs_le] at h2
    norm_num at h2
    constructor <;> linarith

theorem isoSplit_sized {x : Rat} (h0 : 0 ≤ x) {B : Int} (hx : x ≤ B) (hB : B ≤ 2000000) :
    ∃ i f, isoSplit (.fin x) = .ok (i, f) ∧ 0 ≤ i ∧ i ≤ B ∧ Sized f 2 := by
  have hb : (B : Rat) ≤ (2000000 : Int) := by exact_mod_cast hB
  push_cast at hb
  have f0 : 0 ≤ ⌊x⌋ := Int.floor_nonneg.2 h0
  have f1 := Int.floor_le x
  have f2 := Int.lt_floor_add_one x
  obtain ⟨n, hn⟩ : ∃ n : Nat, ((n : Nat) : Int) = ⌊x⌋ := ⟨⌊x⌋.toNat, by omega⟩
  have hn' : (n : Rat) = (⌊x⌋ : Int) := by exact_mod_cast hn
  have hnB : (n : Int) ≤ B := by
    have : ((n : Int) : Rat) ≤ B := by push_cast; linarith
    exact_mod_cast this
  refine ⟨n, _, isoSplit_fin (n := n) (by omega) (by linarith) (by linarith) (by linarith), by omega, hnB, ?_⟩
  refine (sized_rnd (B := 1) ?_ (by norm_num)).mono (by norm_num)
  rw [abs_le]
  constructor <;> linarith

theorem fracPart_parts (s : Bytes) {n : Nat} (h : Short n s) :
    Digits (fracPart s).1 ∧ Short n (fracPart s).2 ∧ (fracPart s).2.length ≤ s.length := by
  unfold fracPart
  split
  · rename_i r
    refine ⟨digits_take _, h.tail.drop _, ?_⟩
    have := (List.dropWhile_suffix (l := r) isDigit).length_le
    simp only [List.length_cons]; omega
  · refine ⟨?_, h, le_refl _⟩
    intro b hb; cases hb

theorem str2d_iso {c : Nat} {t r : Bytes} {v : F64} (hc : isDigit c ∨ c = 99 ∨ c = 46) (hs : Short 6 (c :: t))
    (e : str2d (c :: t) = .ok (v, r)) :
    ∃ (x : Rat) (d : Nat), v = .fin x ∧ 0 ≤ x ∧ x ≤ ((10 ^ d + 1 : Nat) : Int) ∧ d ≤ 6 ∧ Short 6 r ∧ d + r.length ≤ (c :: t).length := by
  have hsp : isSpace c = false := by
    rcases hc with hc | rfl | rfl
    · unfold isDigit at hc; unfold isSpace; simp at hc ⊢; omega
    · rfl
    · rfl
  have h43 : c ≠ 43 ∧ c ≠ 45 := by
    rcases hc with hc | rfl | rfl
    · unfold isDigit at hc; simp at hc; omega
    · omega
    · omega
  have e0 : (c :: t).dropWhile isSpace = c :: t := dropWhile_stop (Stops.cons hsp)
  have e1 : extractSign (c :: t) = (1, c :: t) := by
    unfold extractSign
    split
    · rename_i h; injection h with h; omega
    · rename_i h; injection h with h; omega
    · rfl
  revert hs e e0 e1
  generalize c :: t = s
  intro hs e e0 e1
  unfold str2d at e
  simp only [e0, e1] at e
  split at e
  · injection e with e
    injection e with e2 e3
    subst e2; subst e3
    exact ⟨0, 0, rfl, le_refl _, by norm_num, by omega, hs, by omega⟩
  · have hd := hs.digits
    have hl : (s.takeWhile isDigit).length + (s.dropWhile isDigit).length = s.length := by
      rw [← List.length_append, List.takeWhile_append_dropWhile]
    obtain ⟨g1, g2, g3⟩ := fracPart_parts (s.dropWhile isDigit) (hs.drop _)
    split at e
    · cases e
    · split at e
      · cases e
      · rename_i h7
        have hv := value_lt (digits_take s)
        have hp6 : 10 ^ (s.takeWhile isDigit).length ≤ 10 ^ 6 := Nat.pow_le_pow_right (by omega) hd
        rw [foldDigits_eq _ (digits_take _)] at e
        simp only [Int.zero_mul, Int.zero_add, Int.mul_one] at e
        split at e
        · injection e with e
          injection e with e2 e3
          subst e2; subst e3
          refine ⟨((value (s.takeWhile isDigit) : Nat) : Int), _, F64.ofInt_ok (by omega), by exact_mod_cast Nat.zero_le _, ?_, hd, g2, by omega⟩
          exact_mod_cast (show value (s.takeWhile isDigit) ≤ 10 ^ (s.takeWhile isDigit).length + 1 by omega)
        · injection e with e
          injection e with e2 e3
          subst e2; subst e3
          obtain ⟨fs, hfs⟩ : ∃ fs, fs = (fracPart (s.dropWhile isDigit)).1 := ⟨_, rfl⟩
          rw [← hfs] at g1 h7 ⊢
          obtain ⟨n, hn⟩ : ∃ n, n = value (s.takeWhile isDigit) := ⟨_, rfl⟩
          obtain ⟨d, hdd⟩ : ∃ d, d = (s.takeWhile isDigit).length := ⟨_, rfl⟩
          rw [← hn, ← hdd] at hv
          rw [← hdd] at hp6 hd hl
          rw [← hn]
          have hvf := value_lt g1
          obtain ⟨P, hP⟩ : ∃ P, P = 10 ^ fs.length := ⟨_, rfl⟩
          have hp7 : P ≤ 10 ^ 7 := by rw [hP]; exact Nat.pow_le_pow_right (by omega) (by omega)
          have hp1 : 1 ≤ P := by rw [hP]; exact Nat.one_le_pow _ _ (by omega)
          have c1 : foldDigits (n : Int) fs = ((n * P + value fs : Nat) : Int) := by
            rw [foldDigits_eq _ g1, hP]; push_cast; rfl
          have c2 : (10 : Int) ^ fs.length = ((P : Nat) : Int) := by rw [hP]; push_cast; rfl
          rw [← hP] at hvf
          obtain ⟨m, hm⟩ : ∃ m, m = n * P + value fs := ⟨_, rfl⟩
          have hmlt : m < 10 ^ d * P := by
            have : (n + 1) * P ≤ 10 ^ d * P := Nat.mul_le_mul_right _ hv
            rw [Nat.add_mul, Nat.one_mul] at this
            omega
          have hm13 : 10 ^ d * P ≤ 10 ^ 6 * 10 ^ 7 := Nat.mul_le_mul hp6 hp7
          rw [c1, c2, ← hm, F64.ofInt_ok (by omega), F64.ofInt_ok (by omega), fin_div (by push_cast; positivity)]
          have P0 : (0 : Rat) < ((P : Nat) : Int) := by push_cast; positivity
          have hup : (((m : Nat) : Int) : Rat) / ((P : Nat) : Int) ≤ 10 ^ d := by
            rw [div_le_iff₀ P0]
            exact_mod_cast hmlt.le
          have hd6 : (10 : Rat) ^ d ≤ 1000000 := by exact_mod_cast hp6
          obtain ⟨x, x1, x2, x3⟩ := rnd_tenths (q := (((m : Nat) : Int) : Rat) / ((P : Nat) : Int)) (by
            by_cases hz : m = 0
            · left; rw [hz]; simp
            · right
              rw [div_le_div_iff₀ (by norm_num) P0]
              have : 1 * P ≤ m * 10000000 := by omega
              exact_mod_cast this) (by linarith)
          refine ⟨x, d, x1, x2, ?_, hd, g2, by omega⟩
          push_cast
          linarith

/-- A number of an ISO 8601 interval: its whole part is small for the bytes it takes. -/
theorem isoNumber_small {s r : Bytes} {i : Int} {f : F64} (hs : Short 6 s) (e : parseIsoNumber s = .ok (i, f, r)) :
    0 ≤ i ∧ i ≤ 170000 * ((s.length : Int) - r.length) ∧ Sized f 2 ∧ Short 6 r ∧ r.length < s.length := by
  unfold parseIsoNumber at e
  split at e
  · cases e
  · rename_i c t
    split at e
    · cases e
    · rename_i hc
      rw [Decidable.not_not] at hc
      obtain ⟨⟨v, rest⟩, e1, e⟩ := Res.bind_eq_ok.1 e
      obtain ⟨x, d, rfl, x0, x1, d6, g1, g2⟩ := str2d_iso hc hs e1
      dsimp only at e
      split at e
      · cases e
      · rename_i hlen
        have hp : d = 0 ∨ d = 1 ∨ d = 2 ∨ d = 3 ∨ d = 4 ∨ d = 5 ∨ d = 6 := by omega
        obtain ⟨j, g, k1, k2, k3, k4⟩ := isoSplit_sized x0 x1 (by rcases hp with h | h | h | h | h | h | h <;> subst h <;> norm_num)
        rw [k1, Res.bind_ok] at e
        cases e
        refine ⟨k2, ?_, k4, g1, by omega⟩
        rcases hp with h | h | h | h | h | h | h <;> subst h <;> norm_num at k3 <;> omega

/-! ## The fields -/

/-- The bounds after `k` bytes. -/
def IsoLim (k : Int) (t : TmF) : Prop :=
  Lim (2111000000 + 170000 * k) (2000000 + 170000 * k) (325000000 + 1700000 * k) (75000000 + 2100000 * k) t

theorem IsoLim.mono {k k' : Int} {t : TmF} (h : IsoLim k t) (hk : k ≤ k') : IsoLim k' t := Lim.mono h (by omega) (by omega) (by omega) (by omega)

/-- Whatever happens on failure. -/
abbrev anyEnd {σ : Type} : σ → Prop := fun _ => True

section
variable {k c v : Int} {f : F64} {t : TmF}

theorem iso_year (l : IsoLim k t) (hk : 0 ≤ k ∧ 1 ≤ c ∧ k + c ≤ 128) (hv : 0 ≤ v ∧ v ≤ 170000 * c) (hf : Sized f 2) :
    Goes anyEnd (addYear p v) (fun _ t => Goes anyEnd (addYearFrac p f) (fun _ => IsoLim (k + c)) t) t := by
  obtain ⟨l1, l2, l3, l4, l5, l6, l7⟩ := l
  have h1 := ((hf.mul (n := 12) (N := 12) (by omega) (by omega) (by norm_num)).mono (C := (25 : Int)) (by norm_num)).toI32 (by omega)
  rw [addYear_goes (by unfold In32; omega)]
  unfold addYearFrac
  rw [addMon_goes (by unfold In32; dsimp only; omega)]
  constructor <;> dsimp only <;> omega

theorem iso_days (l : IsoLim k t) {n : Int} (hn : 1 ≤ n ∧ n ≤ 30) (hk : 0 ≤ k ∧ 1 ≤ c ∧ k + c ≤ 128) (hf : Sized f 2) {t' : TmF}
    (h : Lim (2111000000 + 170000 * (k + c)) (2000000 + 170000 * (k + c)) (325000000 + 1700000 * k + 1190000 * c) (75000000 + 2100000 * k) t') :
    Goes anyEnd (adjustFractDays p f n) (fun _ => IsoLim (k + c)) t' :=
  (adjustDays_lim h hf hn (by omega) (fun _ _ => trivial)).mono (fun _ h => h) fun _ _ h => h.mono (by omega) (by omega) (by omega) (by omega)

theorem iso_secs (l : IsoLim k t) {n : Int} (hn : 1 ≤ n ∧ n ≤ 86400) (hk : 0 ≤ k ∧ 1 ≤ c ∧ k + c ≤ 128) (hf : Sized f 2) {t' : TmF}
    (h : Lim (2111000000 + 170000 * (k + c)) (2000000 + 170000 * (k + c)) (325000000 + 1700000 * k + 1190000 * c) (75000000 + 2100000 * k) t') :
    Goes anyEnd (adjustFractSeconds p f n) (fun _ => IsoLim (k + c)) t' :=
  (adjustSeconds_lim h (hf.mono (by norm_num)) hn (by omega) (fun _ => trivial)).mono (fun _ h => h) fun _ _ h => h.mono (by omega) (by omega) (by omega) (by omega)

theorem iso_month (l : IsoLim k t) (hk : 0 ≤ k ∧ 1 ≤ c ∧ k + c ≤ 128) (hv : 0 ≤ v ∧ v ≤ 170000 * c) (hf : Sized f 2) :
    Goes anyEnd (addMon p v) (fun _ t => Goes anyEnd (adjustFractDays p f 30) (fun _ => IsoLim (k + c)) t) t := by
  have l0 := l
  obtain ⟨l1, l2, l3, l4, l5, l6, l7⟩ := l
  rw [addMon_goes (by unfold In32; omega)]
  refine iso_days l0 (by omega) hk hf ?_
  constructor <;> dsimp only <;> omega

theorem iso_week (l : IsoLim k t) (hk : 0 ≤ k ∧ 1 ≤ c ∧ k + c ≤ 128) (hv : 0 ≤ v ∧ v ≤ 170000 * c) (hf : Sized f 2) :
    Goes anyEnd (addMday p (v * 7)) (fun _ t => Goes anyEnd (adjustFractDays p f 7) (fun _ => IsoLim (k + c)) t) t := by
  have l0 := l
  obtain ⟨l1, l2, l3, l4, l5, l6, l7⟩ := l
  rw [addMday_goes (by unfold In32; omega)]
  refine iso_days l0 (by omega) hk hf ?_
  constructor <;> dsimp only <;> omega

theorem iso_day (l : IsoLim k t) (hk : 0 ≤ k ∧ 1 ≤ c ∧ k + c ≤ 128) (hv : 0 ≤ v ∧ v ≤ 170000 * c) (hf : Sized f 2) :
    Goes anyEnd (addMday p v) (fun _ t => Goes anyEnd (adjustFractSeconds p f 86400) (fun _ => IsoLim (k + c)) t) t := by
  have l0 := l
  obtain ⟨l1, l2, l3, l4, l5, l6, l7⟩ := l
  rw [addMday_goes (by unfold In32; omega)]
  refine iso_secs l0 (by omega) hk hf ?_
  constructor <;> dsimp only <;> omega

theorem iso_hour (l : IsoLim k t) (hk : 0 ≤ k ∧ 1 ≤ c ∧ k + c ≤ 128) (hv : 0 ≤ v ∧ v ≤ 170000 * c) (hf : Sized f 2) :
    Goes anyEnd (addHour p v) (fun _ t => Goes anyEnd (adjustFractSeconds p f 3600) (fun _ => IsoLim (k + c)) t) t := by
  have l0 := l
  obtain ⟨l1, l2, l3, l4, l5, l6, l7⟩ := l
  rw [addHour_goes (by unfold In32; omega)]
  refine iso_secs l0 (by omega) hk hf ?_
  constructor <;> dsimp only <;> omega

theorem iso_minute (l : IsoLim k t) (hk : 0 ≤ k ∧ 1 ≤ c ∧ k + c ≤ 128) (hv : 0 ≤ v ∧ v ≤ 170000 * c) (hf : Sized f 2) :
    Goes anyEnd (addMin p v) (fun _ t => Goes anyEnd (adjustFractSeconds p f 60) (fun _ => IsoLim (k + c)) t) t := by
  have l0 := l
  obtain ⟨l1, l2, l3, l4, l5, l6, l7⟩ := l
  rw [addMin_goes (by unfold In32; omega)]
  refine iso_secs l0 (by omega) hk hf ?_
  constructor <;> dsimp only <;> omega

theorem iso_second (l : IsoLim k t) (hk : 0 ≤ k ∧ 1 ≤ c ∧ k + c ≤ 128) (hv : 0 ≤ v ∧ v ≤ 170000 * c) (hf : Sized f 2) :
    Goes anyEnd (addSec p v) (fun _ t => Goes anyEnd (adjustFractSeconds p f 1) (fun _ => IsoLim (k + c)) t) t := by
  have l0 := l
  obtain ⟨l1, l2, l3, l4, l5, l6, l7⟩ := l
  rw [addSec_goes (by unfold In32; omega)]
  refine iso_secs l0 (by omega) hk hf ?_
  constructor <;> dsimp only <;> omega

theorem tmod_small {x : Int} (h : 0 ≤ x) (n : Int) (hn : 0 < n) : 0 ≤ tmod x n ∧ tmod x n < n :=
  ⟨Int.tmod_nonneg _ h, Int.tmod_lt_of_pos _ hn⟩
theorem tdiv_small {x : Int} (h : 0 ≤ x) (n : Int) (hn : 0 < n) : 0 ≤ tdiv x n ∧ tdiv x n ≤ x := by
  rw [Int.tdiv_eq_ediv_of_nonneg h]
  exact ⟨Int.ediv_nonneg h hn.le, Int.ediv_le_self _ h⟩

theorem iso_ymd (l : IsoLim k t) (hk : 0 ≤ k ∧ 1 ≤ c ∧ k + c ≤ 128) (hv : 0 ≤ v ∧ v ≤ 170000 * c) (hf : Sized f 2) :
    Goes anyEnd (addYear p (tdiv v 10000)) (fun _ t => Goes anyEnd (addMon p (tmod (tdiv v 100) 100)) (fun _ t =>
      Goes anyEnd (addMday p (tmod v 100)) (fun _ t => Goes anyEnd (adjustFractSeconds p f 86400) (fun _ => IsoLim (k + c)) t) t) t) t := by
  have l0 := l
  obtain ⟨l1, l2, l3, l4, l5, l6, l7⟩ := l
  have a1 := tdiv_small hv.1 10000 (by omega)
  have a2 := tdiv_small hv.1 100 (by omega)
  have a3 := tmod_small a2.1 100 (by omega)
  have a4 := tmod_small hv.1 100 (by omega)
  rw [addYear_goes (by unfold In32; omega), addMon_goes (by unfold In32; dsimp only; omega), addMday_goes (by unfold In32; dsimp only; omega)]
  refine iso_secs l0 (by omega) hk hf ?_
  constructor <;> dsimp only <;> omega

theorem iso_hms (l : IsoLim k t) (hk : 0 ≤ k ∧ 1 ≤ c ∧ k + c ≤ 128) (hv : 0 ≤ v ∧ v ≤ 170000 * c) (hf : Sized f 2) :
    Goes anyEnd (addHour p (tdiv v 10000)) (fun _ t => Goes anyEnd (addMin p (tmod (tdiv v 100) 100)) (fun _ t =>
      Goes anyEnd (addSec p (tmod v 100)) (fun _ t => Goes anyEnd (adjustFractSeconds p f 1) (fun _ => IsoLim (k + c)) t) t) t) t := by
  have l0 := l
  obtain ⟨l1, l2, l3, l4, l5, l6, l7⟩ := l
  have a1 := tdiv_small hv.1 10000 (by omega)
  have a2 := tdiv_small hv.1 100 (by omega)
  have a3 := tmod_small a2.1 100 (by omega)
  have a4 := tmod_small hv.1 100 (by omega)
  rw [addHour_goes (by unfold In32; omega), addMin_goes (by unfold In32; dsimp only; omega), addSec_goes (by unfold In32; dsimp only; omega)]
  refine iso_secs l0 (by omega) hk hf ?_
  constructor <;> dsimp only <;> omega

end

/-! ## The loop -/

/-- The bounds in front of the text `r`. -/
def IsoAt (r : Bytes) (t : TmF) : Prop := ∃ k : Int, 0 ≤ k ∧ k + r.length ≤ 128 ∧ Short 6 r ∧ IsoLim k t

theorem IsoAt.end {r : Bytes} {t : TmF} (h : IsoAt r t) : IsoLim 128 t := by
  obtain ⟨k, h1, h2, -, h3⟩ := h
  exact h3.mono (by omega)

theorem IsoAt.next {c : Nat} {r : Bytes} {t : TmF} (h : IsoAt (c :: r) t) : IsoAt r t := by
  obtain ⟨k, h1, h2, h3, h4⟩ := h
  rw [List.length_cons] at h2
  exact ⟨k, h1, by omega, h3.tail, h4⟩

/-- The bounds after one number. -/
def StepOk (st : IsoStep) (s : IsoS) : Prop :=
  match st with
  | .done => IsoLim 128 s.t
  | .again r => IsoAt r s.t
  | .field r => IsoAt r s.t

theorem Goes.iso {α : Type} {m : St TmF α} {Q : α → IsoS → Prop} {s : IsoS} :
    Goes anyEnd (onTmIso m) Q s ↔ Goes anyEnd m (fun a t => Q a { s with t := t }) s.t := by
  unfold onTmIso
  exact Goes.zoom

/-- Two updates of the fields that keep the bounds. -/
theorem Goes.iso2 {m n : St TmF Unit} {J : TmF → Prop} {α : Type} {g : St IsoS α} {Q : α → IsoS → Prop} {s : IsoS}
    (h : Goes anyEnd m (fun _ t => Goes anyEnd n (fun _ => J) t) s.t)
    (hq : ∀ t, J t → Goes anyEnd g Q { s with t := t }) :
    Goes anyEnd (do onTmIso m; onTmIso n; g) Q s := by
  rw [Goes.bind, Goes.iso]
  refine h.mono (fun _ h => h) fun _ t ht => ?_
  rw [Goes.bind, Goes.iso]
  exact ht.mono (fun _ h => h) fun _ t' h => hq t' h

/-- The same with four updates. -/
theorem Goes.iso4 {m n m' n' : St TmF Unit} {J : TmF → Prop} {α : Type} {g : St IsoS α} {Q : α → IsoS → Prop} {s : IsoS}
    (h : Goes anyEnd m (fun _ t => Goes anyEnd n (fun _ t => Goes anyEnd m' (fun _ t => Goes anyEnd n' (fun _ => J) t) t) t) s.t)
    (hq : ∀ t, J t → Goes anyEnd g Q { s with t := t }) :
    Goes anyEnd (do onTmIso m; onTmIso n; onTmIso m'; onTmIso n'; g) Q s := by
  rw [Goes.bind, Goes.iso]
  refine h.mono (fun _ h => h) fun _ t ht => ?_
  rw [Goes.bind, Goes.iso]
  refine ht.mono (fun _ h => h) fun _ t ht => ?_
  rw [Goes.bind, Goes.iso]
  refine ht.mono (fun _ h => h) fun _ t ht => ?_
  rw [Goes.bind, Goes.iso]
  exact ht.mono (fun _ h => h) fun _ t' h => hq t' h

/-- A number that has been read: what is known of it. -/
structure Read (k c v : Int) (f : F64) : Prop where
  pos : 0 ≤ k ∧ 1 ≤ c ∧ k + c ≤ 128
  val : 0 ≤ v ∧ v ≤ 170000 * c
  frac : Sized f 2

/-- Reading one number. -/
theorem readIso {α : Type} {g : Int × F64 × Bytes → St IsoS α} {s : Bytes} {st : IsoS} (h : IsoAt s st.t) {Q : α → IsoS → Prop}
    (hg : ∀ v f r k c, IsoLim k st.t → Read k c v f → k + c + r.length ≤ 128 → Short 6 r → Goes anyEnd (g (v, f, r)) Q st) :
    Goes anyEnd (St.lift (parseIsoNumber s) >>= g) Q st := by
  obtain ⟨k, h1, h2, h3, h4⟩ := h
  rw [Goes.bind]
  refine Goes.lift (parseIsoNumber_safe s) trivial fun a e => ?_
  obtain ⟨v, f, r⟩ := a
  obtain ⟨a1, a2, a3, a4, a5⟩ := isoNumber_small h3 e
  exact hg v f r k ((s.length : Int) - r.length) h4 ⟨by omega, by omega, a3⟩ (by omega) a4

theorem at_of {k c v : Int} {f : F64} {r : Bytes} {t : TmF} (h : Read k c v f) (hl : k + c + r.length ≤ 128) (hr : Short 6 r) (l : IsoLim (k + c) t) : IsoAt r t :=
  ⟨k + c, by have := h.pos; omega, hl, hr, l⟩

theorem end_of {k c v : Int} {f : F64} {t : TmF} (h : Read k c v f) (l : IsoLim (k + c) t) : IsoLim 128 t := l.mono (by have := h.pos; omega)

theorem isoTimePart_goes {α : Type} {a : α} {s : IsoS} {Q : α → IsoS → Prop} (h : Q a { s with datePart := false, haveField := false }) :
    Goes anyEnd (do isoTimePart; pure a) Q s := by
  unfold isoTimePart
  rw [Goes.bind, Goes.mod, Goes.pure]
  exact h

theorem isoDatePart3_goes {s : Bytes} {st : IsoS} (h : IsoAt s st.t) : Goes anyEnd (isoDatePart3 p s) StepOk st := by
  unfold isoDatePart3
  refine readIso h fun v f r k c l hr hl hs => Goes.iso2 (iso_day l hr.pos hr.val hr.frac) fun t ht => ?_
  split
  · rw [Goes.pure]; exact end_of hr ht
  · split
    · exact isoTimePart_goes (at_of hr hl hs ht)
    · rw [Goes.fail]; trivial

theorem isoDatePart2_goes {s : Bytes} {st : IsoS} (h : IsoAt s st.t) : Goes anyEnd (isoDatePart2 p s) StepOk st := by
  unfold isoDatePart2
  refine readIso h fun v f r k c l hr hl hs => Goes.iso2 (iso_month l hr.pos hr.val hr.frac) fun t ht => ?_
  split
  · rw [Goes.pure]; exact end_of hr ht
  · split
    · exact isoTimePart_goes (at_of hr hl hs ht)
    · split
      · exact isoDatePart3_goes (at_of hr hl hs ht).next
      · rw [Goes.fail]; trivial

theorem isoTimePart3_goes {s : Bytes} {st : IsoS} (h : IsoAt s st.t) : Goes anyEnd (isoTimePart3 p s) StepOk st := by
  unfold isoTimePart3
  refine readIso h fun v f r k c l hr hl hs => Goes.iso2 (iso_second l hr.pos hr.val hr.frac) fun t ht => ?_
  split
  · rw [Goes.pure]; exact end_of hr ht
  · rw [Goes.fail]; trivial

theorem isoTimePart2_goes {s : Bytes} {st : IsoS} (h : IsoAt s st.t) : Goes anyEnd (isoTimePart2 p s) StepOk st := by
  unfold isoTimePart2
  refine readIso h fun v f r k c l hr hl hs => Goes.iso2 (iso_minute l hr.pos hr.val hr.frac) fun t ht => ?_
  split
  · rw [Goes.pure]; exact end_of hr ht
  · split
    · exact isoTimePart3_goes (at_of hr hl hs ht).next
    · rw [Goes.fail]; trivial

section
variable {k c v : Int} {f : F64} {s : Bytes} {st : IsoS} {u : Nat}

theorem isoDateLeft_goes (l : IsoLim k st.t) (hr : Read k c v f) (hl : k + c + s.length ≤ 128) (hs : Short 6 s) :
    Goes anyEnd (isoDateLeft p s u v f) StepOk st := by
  unfold isoDateLeft
  rw [Goes.bind, Goes.get]
  split
  · rw [Goes.fail]; trivial
  · refine Goes.iso2 (iso_year l hr.pos hr.val hr.frac) fun t ht => ?_
    split
    · rw [Goes.pure]; exact end_of hr ht
    · split
      · exact isoTimePart_goes (at_of hr hl hs ht)
      · exact isoDatePart2_goes (at_of hr hl hs ht)

theorem isoTimeLeft_goes (l : IsoLim k st.t) (hr : Read k c v f) (hl : k + c + s.length ≤ 128) (hs : Short 6 s) :
    Goes anyEnd (isoTimeLeft p s u v f) StepOk st := by
  unfold isoTimeLeft
  rw [Goes.bind, Goes.get]
  split
  · rw [Goes.fail]; trivial
  · refine Goes.iso2 (iso_hour l hr.pos hr.val hr.frac) fun t ht => ?_
    split
    · rw [Goes.pure]; exact end_of hr ht
    · exact isoTimePart2_goes (at_of hr hl hs ht)

theorem isoDate_goes {w : Bytes} (l : IsoLim k st.t) (hr : Read k c v f) (hl : k + c + s.length ≤ 128) (hs : Short 6 s) :
    Goes anyEnd (isoDate p w s u v f) StepOk st := by
  have hfield : ∀ t, IsoLim (k + c) t → Goes anyEnd (pure (.field s) : St IsoS IsoStep) StepOk { st with t := t } := by
    intro t ht; rw [Goes.pure]; exact at_of hr hl hs ht
  unfold isoDate
  split
  · exact Goes.iso2 (iso_year l hr.pos hr.val hr.frac) hfield
  · split
    · exact Goes.iso2 (iso_month l hr.pos hr.val hr.frac) hfield
    · split
      · rw [Goes.bind, chk32_ok (by have := hr.pos; have := hr.val; omega), Goes.lift_ok]
        exact Goes.iso2 (iso_week l hr.pos hr.val hr.frac) hfield
      · split
        · exact Goes.iso2 (iso_day l hr.pos hr.val hr.frac) hfield
        · split
          · rw [Goes.bind, Goes.get]
            split
            · refine Goes.iso4 (iso_ymd l hr.pos hr.val hr.frac) fun t ht => ?_
              split
              · rw [Goes.pure]; exact end_of hr ht
              · exact isoTimePart_goes (at_of hr hl hs ht)
            · exact isoDateLeft_goes l hr hl hs
          · split
            · exact isoDateLeft_goes l hr hl hs
            · rw [Goes.fail]; trivial

theorem isoTime_goes {w : Bytes} (l : IsoLim k st.t) (hr : Read k c v f) (hl : k + c + s.length ≤ 128) (hs : Short 6 s) :
    Goes anyEnd (isoTime p w s u v f) StepOk st := by
  have hfield : ∀ t, IsoLim (k + c) t → Goes anyEnd (pure (.field s) : St IsoS IsoStep) StepOk { st with t := t } := by
    intro t ht; rw [Goes.pure]; exact at_of hr hl hs ht
  unfold isoTime
  split
  · exact Goes.iso2 (iso_hour l hr.pos hr.val hr.frac) hfield
  · split
    · exact Goes.iso2 (iso_minute l hr.pos hr.val hr.frac) hfield
    · split
      · exact Goes.iso2 (iso_second l hr.pos hr.val hr.frac) hfield
      · split
        · rw [Goes.bind, Goes.get]
          split
          · refine Goes.iso4 (iso_hms l hr.pos hr.val hr.frac) fun t ht => ?_
            rw [Goes.pure]; exact end_of hr ht
          · exact isoTimeLeft_goes l hr hl hs
        · split
          · exact isoTimeLeft_goes l hr hl hs
          · rw [Goes.fail]; trivial

end

theorem isoUnit_rest (r : Bytes) : (isoUnit r).2.length ≤ r.length ∧ (Short 6 r → Short 6 (isoUnit r).2) := by
  cases r with
  | nil => exact ⟨le_refl _, fun h => h⟩
  | cons b r => exact ⟨by simp [isoUnit], fun h => h.tail⟩

theorem isoLoop_goes (fuel : Nat) : ∀ (s : Bytes) (st : IsoS), IsoAt s st.t → Goes anyEnd (isoLoop p fuel s) (fun _ s => IsoLim 128 s.t) st := by
  induction fuel with
  | zero => intro s st h; exact h.end
  | succ n ih =>
    intro s st h
    unfold isoLoop
    split
    · exact h.end
    · split
      · rw [Goes.bind]
        unfold isoTimePart
        rw [Goes.mod]
        exact ih _ _ h.next
      · refine readIso h fun v f r k c l hr hl hs => ?_
        have hu := isoUnit_rest r
        dsimp only
        rw [Goes.bind]
        suffices hn : Goes anyEnd (isoNumber p (_ :: _) (isoUnit r).2 (isoUnit r).1 v f) StepOk st by
          refine hn.mono (fun _ h => h) fun step st' hst => ?_
          cases step with
          | done => exact hst
          | again r' => exact ih _ _ hst
          | field r' =>
            dsimp only
            rw [Goes.bind, Goes.mod]
            exact ih _ _ hst
        unfold isoNumber
        rw [Goes.bind, Goes.get]
        split
        · exact isoDate_goes l hr (by omega) (hu.2 hs)
        · exact isoTime_goes l hr (by omega) (hu.2 hs)

/-- The whole decoder, from the fields the first decoder left. -/
theorem decodeIso_goes {s : Bytes} {st : IvS} (hl : s.length ≤ 128) (hs : Short 6 s) (h : Failed st) :
    Goes anyEnd (decodeIsoInterval p s) (fun _ s => IsoLim 128 s.t) st := by
  unfold decodeIsoInterval
  rw [Goes.bind, Goes.mod]
  split
  · rw [Goes.fail]; trivial
  · rw [Goes.zoom]
    refine isoLoop_goes _ _ _ ⟨0, by omega, ?_, ?_, ?_⟩
    · have := List.length_drop (i := 1) (l := s); omega
    · rw [← List.take_append_drop 1 s] at hs
      exact hs.right
    · obtain ⟨a, b, c, d, e, g, i⟩ := h
      constructor <;> dsimp only <;> omega

/-! ## The end of the first decoder -/

theorem carry_goes {R : TmF → Prop} {t : TmF} (h : Lim 2111000000 2000000 325000000 75000000 t) :
    Goes R (carryFsec p) (fun _ => Lim 2111000000 2000000 325000075 75000000) t := by
  obtain ⟨a, b, c, d, e, g, i⟩ := h
  unfold carryFsec
  rw [Goes.bind, Goes.get]
  split
  · have ht := tdiv_or t.2 1000000
    dsimp only
    have hw : wrap32 (tdiv t.2 1000000) = tdiv t.2 1000000 := wrap32_of_in (by omega)
    rw [Goes.bind, Goes.mod, hw, addSec_goes (by unfold In32; dsimp only; omega)]
    constructor <;> dsimp only <;> omega
  · rw [Goes.pure]
    constructor <;> omega

theorem sqlSign_goes {R : TmF → Prop} {y h x f : Int} {t : TmF} (l : Lim y h x f t) {style : IntervalStyle} {fs : List Field} (h1 : fs ≠ [])
    (h2 : ∀ g ∈ fs, g.2 ≠ []) : Goes R (sqlSign style fs) (fun _ => Lim y h x f) t := by
  unfold sqlSign
  split
  · exact absurd rfl h1
  · rename_i g gs
    split
    · split
      · rename_i hg
        exact absurd hg (h2 g (List.mem_cons_self ..))
      · split
        · rw [Goes.mod]
          obtain ⟨a, b, c, d, e, g, i⟩ := l
          unfold forceNegative negPos
          constructor <;> dsimp only <;> split <;> omega
        · exact l
    · exact l

theorem negate_goes {R : TmF → Prop} {y h x f : Int} {t : TmF} (l : Lim y h x f t) (hb : y ≤ 2147483647 ∧ h ≤ 2147483647 ∧ x ≤ 2147483647 ∧ f ≤ 1000000000) :
    Goes R (negateAll p) (fun _ => Lim y h x f) t := by
  obtain ⟨a, b, c, d, e, g, i⟩ := l
  unfold negateAll
  rw [Goes.bind, Goes.get, Goes.bind, chk64_ok (by omega), Goes.lift_ok, Goes.bind, chk32_ok (by omega), Goes.lift_ok, Goes.bind,
    chk32_ok (by omega), Goes.lift_ok, Goes.bind, chk32_ok (by omega), Goes.lift_ok, Goes.bind, chk32_ok (by omega), Goes.lift_ok,
    Goes.bind, chk32_ok (by omega), Goes.lift_ok, Goes.bind, chk32_ok (by omega), Goes.lift_ok, Goes.mod]
  constructor <;> dsimp only <;> omega

theorem decodeInterval_goes {range : Nat} {style : IntervalStyle} {l : List Field} (hl : l.length ≤ 25) (hn : ∀ f ∈ l, f.2 ≠ []) (hf : ∀ f ∈ l, Short 6 f.2) :
    Goes (fun s => Failed s.1) (decodeInterval p plainLook range style l) (fun _ s => IsoLim 128 s.1.t) ({}, ()) := by
  have h0 : Before 0 ({} : IvS) := ⟨by constructor <;> decide, by constructor <;> decide⟩
  cases l with
  | nil => exact h0.failed (by omega)
  | cons f fs =>
    unfold decodeInterval
    rw [Goes.bind]
    refine (loop_goes range (f :: fs) 0 ({}, ()) h0 hl hf).mono (fun _ h => h) fun _ s h => ?_
    have hfail := h.failed (by omega)
    rw [Goes.noLook, Goes.bind, Goes.get]
    split
    · rw [Goes.fail]; exact hfail
    · have he : ∀ t, Lim 2111000000 2000000 325000075 75000000 t → IsoLim 128 t := fun t ht => ht.mono (by omega) (by omega) (by omega) (by omega)
      unfold onTm
      rw [Goes.bind, Goes.zoom]
      refine (carry_goes hfail).mono (fun _ h => h) fun _ t ht => ?_
      rw [Goes.bind, Goes.zoom]
      refine (sqlSign_goes (R := fun _ => False) ht (List.cons_ne_nil _ _) hn).mono (fun _ h => h.elim) fun _ t ht => ?_
      rw [Goes.bind, Goes.get]
      split
      · rw [Goes.zoom]
        exact (negate_goes (R := fun _ => False) ht (by omega)).mono (fun _ h => h.elim) fun _ t ht => he t ht
      · rw [Goes.pure]; exact he _ ht

end Pg
