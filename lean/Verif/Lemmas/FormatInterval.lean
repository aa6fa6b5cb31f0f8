import Verif.Lemmas.FormatTypes
import Verif.Lemmas.IntervalFields
import Verif.Spec.IntervalText

/-!
# Interval output

Each of the four styles of `format_interval` writes the text of `Spec.IntervalText`.
-/

namespace Pg
open Spec

/-- The seven printed fields of an interval. -/
def ivx (m d t : Int) : IvTm :=
  ⟨ivYear m, ivMon m, d, ivHour t, ivMin t, Int.tdiv (Int.tmod t 60000000) 1000000, Int.tmod t 1000000⟩

theorem ivTm_ivx (a : Interval) :
    IvTm.of (ivTm a, Int.tmod a.time 1000000) = ivx a.month a.day a.time := rfl

/-! ## The fields -/

theorem ivMonth_facts (m : Int) : (ivYear m < 0 ∨ ivMon m < 0 ↔ m < 0) ∧ (0 < ivYear m ∨ 0 < ivMon m ↔ 0 < m) ∧
    (ivYear m ≠ 0 → (ivYear m < 0 ↔ m < 0)) ∧ (ivMon m ≠ 0 → (ivMon m < 0 ↔ m < 0)) := by
  have h1 := tdiv_or m 12
  have h2 := tmod_or m 12
  unfold ivYear ivMon; omega

theorem ivMonth_zero (m : Int) : (ivYear m = 0 ∧ ivMon m = 0 ↔ m = 0) := by
  have h1 := ivMonth_facts m; omega

theorem ivSec_eq (t : Int) : (Int.tdiv (Int.tmod t 60000000) 1000000).natAbs = ivSec t := by
  have h1 := tmod_or t 60000000
  have h2 := tdiv_or (Int.tmod t 60000000) 1000000
  unfold ivSec; omega

theorem ivMicro_eq (t : Int) : (Int.tmod t 1000000).natAbs = ivMicro t := by
  have h1 := tmod_or t 1000000
  unfold ivMicro; omega

theorem ivSec_sign (t : Int) :
    (Int.tdiv (Int.tmod t 60000000) 1000000 < 0 ∨ Int.tmod t 1000000 < 0 ↔ Int.tmod t 60000000 < 0) ∧
    (0 < Int.tdiv (Int.tmod t 60000000) 1000000 ∨ 0 < Int.tmod t 1000000 ↔ 0 < Int.tmod t 60000000) := by
  have h1 := tmod_or t 60000000
  have h2 := tdiv_or (Int.tmod t 60000000) 1000000
  have h3 := tmod_or t 1000000
  omega

theorem ivClock_sign (t : Int) :
    (ivHour t < 0 ∨ ivMin t < 0 ∨ Int.tmod t 60000000 < 0 ↔ t < 0) ∧
    (0 < ivHour t ∨ 0 < ivMin t ∨ 0 < Int.tmod t 60000000 ↔ 0 < t) ∧
    (ivHour t ≠ 0 → (ivHour t < 0 ↔ t < 0)) ∧ (ivMin t ≠ 0 → (ivMin t < 0 ↔ t < 0)) ∧
    (Int.tmod t 60000000 ≠ 0 → (Int.tmod t 60000000 < 0 ↔ t < 0)) := by
  have h1 := tdiv_or t 3600000000
  have h2 := tmod_or t 3600000000
  have h3 := tdiv_or (Int.tmod t 3600000000) 60000000
  have h4 := tmod_or t 60000000
  unfold ivHour ivMin; omega

theorem ivMinute_zero (t : Int) : Int.tmod t 60000000 = 0 ↔ t.natAbs % 60000000 = 0 := by
  have h4 := tmod_or t 60000000
  omega

theorem ivSec_zero (t : Int) : ((Int.tdiv (Int.tmod t 60000000) 1000000) ≠ 0 ∨ Int.tmod t 1000000 ≠ 0) ↔
    t.natAbs % 60000000 ≠ 0 := by
  have h1 := ivSec_sign t
  have h2 := ivMinute_zero t
  omega

theorem clockNeg_ivx (m d t : Int) : (ivx m d t).clockNeg = decide (t < 0) := by
  have h1 := ivSec_sign t
  have h2 := ivClock_sign t
  unfold IvTm.clockNeg ivx
  rw [Bool.eq_iff_iff]
  simp only [Bool.or_eq_true, decide_eq_true_eq]
  omega

theorem clockNonzero_ivx (m d t : Int) : (ivx m d t).clockNonzero = decide (t ≠ 0) := by
  have h1 := ivSec_sign t
  have h2 := ivClock_sign t
  unfold IvTm.clockNonzero ivx
  rw [Bool.eq_iff_iff]
  simp only [Bool.or_eq_true, decide_eq_true_eq]
  omega

theorem hasNeg_ivx (m d t : Int) : (ivx m d t).hasNeg = decide (m < 0 ∨ d < 0 ∨ t < 0) := by
  have h1 := ivSec_sign t
  have h2 := ivClock_sign t
  have h3 := ivMonth_facts m
  unfold IvTm.hasNeg ivx
  rw [Bool.eq_iff_iff]
  simp only [Bool.or_eq_true, decide_eq_true_eq]
  omega

theorem hasPos_ivx (m d t : Int) : (ivx m d t).hasPos = decide (m > 0 ∨ d > 0 ∨ t > 0) := by
  have h1 := ivSec_sign t
  have h2 := ivClock_sign t
  have h3 := ivMonth_facts m
  unfold IvTm.hasPos ivx
  rw [Bool.eq_iff_iff]
  simp only [Bool.or_eq_true, decide_eq_true_eq]
  omega

theorem hasYearMonth_ivx (m d t : Int) : (ivx m d t).hasYearMonth = decide (m ≠ 0) := by
  have h3 := ivMonth_facts m
  unfold IvTm.hasYearMonth ivx
  rw [Bool.eq_iff_iff]
  simp only [Bool.or_eq_true, decide_eq_true_eq]
  omega

theorem hasDayTime_ivx (m d t : Int) : (ivx m d t).hasDayTime = decide (d ≠ 0 ∨ t ≠ 0) := by
  have h1 := ivSec_sign t
  have h2 := ivClock_sign t
  unfold IvTm.hasDayTime ivx
  rw [Bool.eq_iff_iff]
  simp only [Bool.or_eq_true, decide_eq_true_eq]
  omega

theorem sqlStandard_ivx (m d t : Int) : (ivx m d t).sqlStandard = !sqlMixedParts m d t := by
  unfold IvTm.sqlStandard sqlMixedParts
  rw [hasNeg_ivx, hasPos_ivx, hasYearMonth_ivx, hasDayTime_ivx, Bool.decide_and]

/-- The bounds under which all four styles are written as specified. -/
structure IvOk (m d t : Int) : Prop where
  m32 : In32 m
  d32 : In32 d
  d_min : d ≠ i32Min
  h32 : In32 (ivHour t)
  h_min : ivHour t ≠ i32Min

theorem ivYear_in {m : Int} (h : In32 m) : -178956970 ≤ ivYear m ∧ ivYear m ≤ 178956970 := by
  have := tdiv_or m 12
  unfold In32 at h; unfold ivYear; omega

theorem ivMon_in (m : Int) : -11 ≤ ivMon m ∧ ivMon m ≤ 11 := by
  have := tmod_or m 12
  unfold ivMon; omega

theorem ivMin_in (t : Int) : -59 ≤ ivMin t ∧ ivMin t ≤ 59 := by
  have := tmod_or t 3600000000
  have := tdiv_or (Int.tmod t 3600000000) 60000000
  unfold ivMin; omega

theorem ivSec_in (t : Int) : ivSec t ≤ 59 := by unfold ivSec; omega

theorem ivMicro_in (t : Int) : ivMicro t < 1000000 := by unfold ivMicro; omega

/-! ## Pieces -/

theorem Res.bind_assoc {α β γ : Type} (x : Res α) (f : α → Res β) (g : β → Res γ) :
    (x >>= f) >>= g = x >>= fun a => f a >>= g := by cases x <;> rfl

theorem intText_eq (v : Int) : intText v = minus (v < 0) ++ natText v.natAbs := by
  unfold intText minus
  by_cases h : v < 0 <;> simp [h]

theorem intText_nonneg {v : Int} (h : 0 ≤ v) : intText v = natText v.natAbs := by
  rw [intText_eq, minus, if_neg (by simpa using h)]; rfl

theorem putAbs_emits (p : Profile) {v : Int} (h : In32 v) (h2 : v ≠ i32Min) :
    Emits (putAbs p v) (natText v.natAbs) := by
  have e : putAbs p v = putInt (v.natAbs : Int) := by
    funext b; rw [putAbs, abs32_ok p h h2, Res.bind_ok]
  rw [e]
  have := putInt_emits (v := (v.natAbs : Int)) (by unfold In32 at *; omega)
  rwa [intText_nonneg (by omega), Int.natAbs_natCast] at this

theorem put2Abs_emits (p : Profile) {v : Int} (h : In32 v) (h2 : v ≠ i32Min) :
    Emits (put2Abs p v) (padText 2 v.natAbs) := by
  have e : put2Abs p v = put2 p (v.natAbs : Int) := by
    funext b; rw [put2Abs, abs32_ok p h h2, Res.bind_ok]
  rw [e]
  have := put2_emits p (v := (v.natAbs : Int)) (by unfold In32 at *; omega) (by omega)
  rwa [Int.natAbs_natCast] at this

theorem putSec_emits (p : Profile) (m d t : Int) (fill : Bool) :
    Emits (putSec p (ivx m d t) fill) (secText fill (ivSec t) (ivMicro t)) := by
  have h1 := ivSec_eq t
  have h2 := ivMicro_eq t
  have h3 := ivSec_in t
  have h4 := ivMicro_in t
  rw [← h1, ← h2]
  exact Emits.sub (appendSeconds_writes (sec := Int.tdiv (Int.tmod t 60000000) 1000000)
    (fsec := Int.tmod t 1000000) p (by unfold In32; omega) (by omega) (by omega) fill)

theorem Emits.ite {c : Prop} [Decidable c] {f g : Buf → Res Buf} {a b : Bytes}
    (hf : c → Emits f a) (hg : ¬ c → Emits g b) :
    Emits (if c then f else g) (if c then a else b) := by
  by_cases h : c
  · rw [if_pos h, if_pos h]; exact hf h
  · rw [if_neg h, if_neg h]; exact hg h

theorem putIf_emits (c : Bool) (x : Nat) : Emits (putIf c x) (if c then [x] else []) := by
  cases c
  · exact Emits.nil
  · exact Emits.byte x

theorem copyIf_emits (c : Bool) (x : Bytes) : Emits (copyIf c x) (if c then x else []) := by
  cases c
  · exact Emits.nil
  · exact Emits.slice x

/-! ## ISO 8601 -/

theorem isoPart_emits {v : Int} (h : In32 v) (u : Nat) : Emits (isoPart v u) (isoField v u) := by
  unfold isoField
  by_cases h0 : v = 0
  · have : isoPart v u = fun b => .ok b := by funext b; rw [isoPart, if_pos h0]
    rw [this, if_pos h0]; exact Emits.nil
  · have : isoPart v u = fun b => putInt v b >>= setOneByte u := by
      funext b; rw [isoPart, if_neg h0]
    rw [this, if_neg h0]; exact (putInt_emits h).bind (Emits.byte u)

theorem isoT_emits (m d t : Int) : Emits (isoT (ivx m d t)) (if t = 0 then [] else [84]) := by
  have e : isoT (ivx m d t) = putIf (decide (t ≠ 0)) 84 := by
    funext b; rw [isoT, clockNonzero_ivx]; rfl
  rw [e]
  have := putIf_emits (decide (t ≠ 0)) 84
  by_cases h : t = 0 <;> simpa [h] using this

theorem isoSec_emits (p : Profile) (m d t : Int) :
    Emits (isoSec p (ivx m d t)) (isoSecText t) := by
  have hz := ivSec_zero t
  have hs := ivSec_sign t
  have hc := ivClock_sign t
  have hm := ivMinute_zero t
  unfold isoSecText
  by_cases h0 : t.natAbs % 60000000 = 0
  · have : isoSec p (ivx m d t) = fun b => .ok b := by
      funext b; rw [isoSec, if_neg (c := (ivx m d t).sec ≠ 0 ∨ (ivx m d t).fsec ≠ 0) (fun hc => (hz.1 hc) h0)]
    rw [this, if_pos h0]; exact Emits.nil
  · have : isoSec p (ivx m d t) = fun b => putIf (decide (t < 0)) 45 b >>= fun b =>
        putSec p (ivx m d t) false b >>= setOneByte 83 := by
      funext b
      rw [isoSec, if_pos (c := (ivx m d t).sec ≠ 0 ∨ (ivx m d t).fsec ≠ 0) (hz.2 h0)]
      have : isoSecSign (ivx m d t) b = putIf (decide (t < 0)) 45 b := by
        rw [isoSecSign, putIf]
        by_cases ht : t < 0
        · rw [if_pos, if_pos (by simpa using ht)]
          show Int.tdiv (Int.tmod t 60000000) 1000000 < 0 ∨ Int.tmod t 1000000 < 0; omega
        · rw [if_neg, if_neg (by simpa using ht)]
          show ¬ (Int.tdiv (Int.tmod t 60000000) 1000000 < 0 ∨ Int.tmod t 1000000 < 0); omega
      rw [this]
    rw [this, if_neg h0]
    exact (putIf_emits _ 45).bind ((putSec_emits p m d t false).bind (Emits.byte 83))

theorem allZero (m d t : Int) : ((ivx m d t).year = 0 ∧ (ivx m d t).mon = 0 ∧ (ivx m d t).mday = 0 ∧
    (ivx m d t).hour = 0 ∧ (ivx m d t).min = 0 ∧ (ivx m d t).sec = 0 ∧ (ivx m d t).fsec = 0) ↔
    (m = 0 ∧ d = 0 ∧ t = 0) := by
  have h1 := ivSec_sign t
  have h2 := ivClock_sign t
  have h3 := ivMonth_facts m
  show (ivYear m = 0 ∧ ivMon m = 0 ∧ d = 0 ∧ ivHour t = 0 ∧ ivMin t = 0 ∧
    Int.tdiv (Int.tmod t 60000000) 1000000 = 0 ∧ Int.tmod t 1000000 = 0) ↔ _
  omega

theorem putIso_emits (p : Profile) {m d t : Int} (hm : In32 m) (hd : In32 d) (hh : In32 (ivHour t)) :
    Emits (putIso p (ivx m d t)) (isoIntervalText m d t) := by
  have hy := ivYear_in hm
  have hmo := ivMon_in m
  have hmi := ivMin_in t
  unfold isoIntervalText
  by_cases h0 : m = 0 ∧ d = 0 ∧ t = 0
  · have : putIso p (ivx m d t) = copySlice b!"PT0S" := by
      funext b; rw [putIso, if_pos ((allZero m d t).2 h0)]
    rw [this, if_pos h0]; exact Emits.slice _
  · have : putIso p (ivx m d t) = fun b => setOneByte 80 b >>= fun b => isoPart (ivYear m) 89 b >>= fun b =>
        isoPart (ivMon m) 77 b >>= fun b => isoPart d 68 b >>= fun b => isoT (ivx m d t) b >>= fun b =>
        isoPart (ivHour t) 72 b >>= fun b => isoPart (ivMin t) 77 b >>= fun b =>
        isoSec p (ivx m d t) b := by
      funext b; rw [putIso, if_neg (fun h => h0 ((allZero m d t).1 h))]; rfl
    rw [this, if_neg h0]
    exact (Emits.byte 80).bind ((isoPart_emits (by unfold In32; omega) 89).bind
      ((isoPart_emits (by unfold In32; omega) 77).bind ((isoPart_emits hd 68).bind
      ((isoT_emits m d t).bind ((isoPart_emits hh 72).bind
      ((isoPart_emits (by unfold In32; omega) 77).bind (isoSec_emits p m d t)))))))

/-! ## SQL standard -/

theorem minSec_emits (p : Profile) (m d t : Int) :
    Emits (fun b => setOneByte 58 b >>= fun b => put2Abs p (ivMin t) b >>= fun b =>
      setOneByte 58 b >>= fun b => putSec p (ivx m d t) true b) (minSecText t) := by
  have hmi := ivMin_in t
  exact (Emits.byte 58).bind ((put2Abs_emits p (by unfold In32; omega) (by omega)).bind
    ((Emits.byte 58).bind (putSec_emits p m d t true)))

theorem sign_emits {c : Prop} [Decidable c] {b : Bool} (h : c ↔ b = true) :
    Emits (setOneByte (if c then 45 else 43)) (signText b) := by
  unfold signText
  cases b
  · rw [if_neg (by simpa using h)]; exact Emits.byte 43
  · rw [if_pos (by simpa using h)]; exact Emits.byte 45

theorem sqlMixed_emits (p : Profile) {m d t : Int} (h : IvOk m d t) :
    Emits (sqlMixed p (ivx m d t)) (signText (m < 0) ++ (natText (ivYear m).natAbs ++ ([45] ++
      (natText (ivMon m).natAbs ++ ([32] ++ (signText (d < 0) ++ (natText d.natAbs ++
        ([32] ++ (signText (t < 0) ++ sqlClockText t))))))))) := by
  have hy := ivYear_in h.m32
  have hmo := ivMon_in m
  have hf := ivMonth_facts m
  exact (sign_emits (hf.1.trans (decide_eq_true_iff).symm)).bind ((putAbs_emits (v := ivYear m) p (by unfold In32; omega) (by omega)).bind
    ((Emits.byte 45).bind ((putAbs_emits (v := ivMon m) p (by unfold In32; omega) (by omega)).bind
    ((Emits.byte 32).bind ((sign_emits (by simp [ivx])).bind ((putAbs_emits p h.d32 h.d_min).bind
    ((Emits.byte 32).bind ((sign_emits (by rw [clockNeg_ivx])).bind
    ((putAbs_emits p h.h32 h.h_min).bind (minSec_emits p m d t))))))))))

theorem tdiv_neg' (a b : Int) : Int.tdiv (-a) b = - Int.tdiv a b := Int.neg_tdiv ..
theorem tmod_neg' (a b : Int) : Int.tmod (-a) b = - Int.tmod a b := Int.neg_tmod ..

theorem neg_ivx (p : Profile) {m d t : Int} (h : IvOk m d t) :
    (ivx m d t).neg p = .ok (ivx (-m) (-d) (-t)) := by
  have hy := ivYear_in h.m32
  have hmo := ivMon_in m
  have hmi := ivMin_in t
  have hs := ivSec_in t
  have hs' := ivSec_eq t
  have hu := ivMicro_in t
  have hu' := ivMicro_eq t
  have hd := h.d32
  have hd' := h.d_min
  have hh := h.h32
  have hh' := h.h_min
  unfold In32 at hd hh
  unfold IvTm.neg
  show (chk32 p (-ivYear m) >>= fun year => chk32 p (-ivMon m) >>= fun mon => chk32 p (-d) >>= fun mday =>
    chk32 p (-ivHour t) >>= fun hour => chk32 p (-ivMin t) >>= fun min =>
    chk32 p (-Int.tdiv (Int.tmod t 60000000) 1000000) >>= fun sec =>
    chk64 p (-Int.tmod t 1000000) >>= fun fsec => pure (IvTm.mk year mon mday hour min sec fsec)) = _
  rw [chk32_ok (by omega), Res.bind_ok, chk32_ok (by omega), Res.bind_ok, chk32_ok (by omega), Res.bind_ok,
    chk32_ok (by omega), Res.bind_ok, chk32_ok (by omega), Res.bind_ok, chk32_ok (by omega), Res.bind_ok,
    chk64_ok (by omega), Res.bind_ok]
  unfold ivx ivYear ivMon ivHour ivMin
  simp only [tdiv_neg', tmod_neg', Res.pure_eq]

theorem iv_neg (m d t : Int) (h : IvOk m d t) : IvOk (-m) (-d) (-t) ∨ m = i32Min := by
  by_cases hm : m = i32Min
  · exact .inr hm
  · left
    obtain ⟨h1, h2, h3, h4, h5⟩ := h
    have e : ivHour (-t) = - ivHour t := tdiv_neg' ..
    unfold In32 at *
    constructor <;> (try unfold In32) <;> omega

/-- `h:mm:ss` of fields that are not negative. -/
theorem sqlClock_emits (p : Profile) {m d t : Int} (hh : In32 (ivHour t)) (ht : 0 ≤ t) :
    Emits (sqlClock p (ivx m d t)) (sqlClockText t) := by
  have hmi := ivMin_in t
  have hc := ivClock_sign t
  have e := putInt_emits hh
  rw [intText_nonneg (by omega)] at e
  exact e.bind ((Emits.byte 58).bind ((put2_emits (v := ivMin t) p (by unfold In32; omega) (by omega)).bind
    ((Emits.byte 58).bind (putSec_emits p m d t true))))

theorem ivYear_neg (m : Int) : ivYear (-m) = - ivYear m := tdiv_neg' ..
theorem ivMon_neg (m : Int) : ivMon (-m) = - ivMon m := tmod_neg' ..
theorem ivHour_neg (t : Int) : ivHour (-t) = - ivHour t := tdiv_neg' ..
theorem ivMin_neg (t : Int) : ivMin (-t) = - ivMin t := by
  unfold ivMin; rw [tmod_neg', tdiv_neg']

theorem sqlClockText_neg (t : Int) : sqlClockText (-t) = sqlClockText t := by
  unfold sqlClockText minSecText ivSec ivMicro
  rw [ivHour_neg, ivMin_neg]
  simp only [Int.natAbs_neg]

/-- The part of the SQL style after the sign, for fields that are not negative. -/
theorem sqlPlain_emits (p : Profile) {m d t : Int} (hm : 0 ≤ m ∧ m ≤ 2147483648) (hd : 0 ≤ d ∧ d ≤ i32Max)
    (ht : 0 ≤ t) (hh : In32 (ivHour t)) (m' d' : Int) (hm' : m' ≠ 0 ↔ m ≠ 0) (hd' : d' ≠ 0 ↔ d ≠ 0) (n q : Bool) (hnq : (!n && !q) = false) :
    Emits (sqlBody p n q true (decide (m' ≠ 0)) (decide (d' ≠ 0)) (ivx m d t))
      (if m ≠ 0 then natText (ivYear m).natAbs ++ ([45] ++ natText (ivMon m).natAbs)
       else if d ≠ 0 then natText d.natAbs ++ ([32] ++ sqlClockText t) else sqlClockText t) := by
  have hy : 0 ≤ ivYear m ∧ ivYear m ≤ 178956970 := by
    have := tdiv_or m 12; unfold ivYear; omega
  have hmo := ivMon_in m
  have hmo' : 0 ≤ ivMon m := by have := tmod_or m 12; unfold ivMon; omega
  have e : ∀ b, sqlBody p n q true (decide (m' ≠ 0)) (decide (d' ≠ 0)) (ivx m d t) b =
      if m ≠ 0 then (putInt (ivYear m) b >>= fun b => setOneByte 45 b >>= fun b => putInt (ivMon m) b)
      else if d ≠ 0 then (putInt d b >>= fun b => setOneByte 32 b >>= fun b => sqlClock p (ivx m d t) b)
      else sqlClock p (ivx m d t) b := by
    intro b
    rw [sqlBody, hnq, if_neg (by simp), if_neg (by simp)]
    by_cases h1 : m = 0
    · rw [if_neg (c := decide (m' ≠ 0) = true) (by simpa [h1] using hm'), if_neg (c := m ≠ 0) (by simpa using h1)]
      by_cases h2 : d = 0
      · rw [if_neg (c := decide (d' ≠ 0) = true) (by simpa [h2] using hd'), if_neg (c := d ≠ 0) (by simpa using h2)]
      · rw [if_pos (c := decide (d' ≠ 0) = true) (by simpa [h2] using hd'), if_pos (c := d ≠ 0) h2]; rfl
    · rw [if_pos (c := decide (m' ≠ 0) = true) (by simpa [h1] using hm'), if_pos (c := m ≠ 0) h1]; rfl
  have e' := funext e
  have a1 := putInt_emits (v := ivYear m) (by unfold In32; omega)
  rw [intText_nonneg (by omega)] at a1
  have a2 := putInt_emits (v := ivMon m) (by unfold In32; omega)
  rw [intText_nonneg (by omega)] at a2
  have a3 := putInt_emits (v := d) (by unfold In32; omega)
  rw [intText_nonneg (by omega)] at a3
  rw [e']
  by_cases h1 : m = 0
  · simp only [if_neg (show ¬ (m ≠ 0) by simpa using h1)]
    by_cases h2 : d = 0
    · simp only [if_neg (show ¬ (d ≠ 0) by simpa using h2)]
      exact sqlClock_emits p hh ht
    · simp only [if_pos (show d ≠ 0 from h2)]
      exact a3.bind ((Emits.byte 32).bind (sqlClock_emits p hh ht))
  · simp only [if_pos (show m ≠ 0 from h1)]
    exact a1.bind ((Emits.byte 45).bind a2)

theorem putSql_emits (p : Profile) {m d t : Int} (h : IvOk m d t) :
    Emits (putSql p (ivx m d t)) (sqlIntervalText m d t) := by
  have e0 : ∀ b, putSql p (ivx m d t) b =
      if (decide (m < 0 ∨ d < 0 ∨ t < 0) && !sqlMixedParts m d t) = true then
        setOneByte 45 b >>= fun b => sqlBody p (decide (m < 0 ∨ d < 0 ∨ t < 0))
          (decide (m > 0 ∨ d > 0 ∨ t > 0)) (!sqlMixedParts m d t) (decide (m ≠ 0)) (decide (d ≠ 0))
          (ivx (-m) (-d) (-t)) b
      else sqlBody p (decide (m < 0 ∨ d < 0 ∨ t < 0))
          (decide (m > 0 ∨ d > 0 ∨ t > 0)) (!sqlMixedParts m d t) (decide (m ≠ 0)) (decide (d ≠ 0))
          (ivx m d t) b := by
    intro b
    rw [putSql, hasNeg_ivx, hasPos_ivx, sqlStandard_ivx, hasYearMonth_ivx, neg_ivx p h]
    rfl
  have e := funext e0
  clear e0
  have hh := h.h32
  have hhm := h.h_min
  have hm := h.m32
  have hd := h.d32
  have hdm := h.d_min
  unfold In32 at hm hd hh
  unfold sqlIntervalText
  by_cases h0 : m = 0 ∧ d = 0 ∧ t = 0
  · obtain ⟨rfl, rfl, rfl⟩ := h0
    have : putSql p (ivx 0 0 0) = setOneByte 48 := rfl
    rw [this]
    exact Emits.byte 48
  · rw [if_neg h0]
    have hnp : (!decide (m < 0 ∨ d < 0 ∨ t < 0) && !decide (m > 0 ∨ d > 0 ∨ t > 0)) = false := by
      rw [Bool.and_eq_false_iff]
      simp only [Bool.not_eq_false', decide_eq_true_eq]
      omega
    by_cases hmix : sqlMixedParts m d t = true
    · rw [if_pos hmix]
      have e1 : putSql p (ivx m d t) = sqlMixed p (ivx m d t) := by
        rw [e]
        funext b
        rw [hmix, if_neg (by simp), sqlBody, hnp, if_neg (by simp), if_pos (by simp)]
      rw [e1]
      exact sqlMixed_emits p h
    · rw [if_neg hmix]
      simp only [Bool.not_eq_true] at hmix
      have hmx := hmix
      unfold sqlMixedParts at hmx
      simp only [Bool.or_eq_false_iff, Bool.and_eq_false_iff, decide_eq_false_iff_not] at hmx
      unfold minus
      by_cases hn : m < 0 ∨ d < 0 ∨ t < 0
      · rw [if_pos (by simpa using hn)]
        have e1 : putSql p (ivx m d t) = fun b => setOneByte 45 b >>= fun b =>
            sqlBody p (decide (m < 0 ∨ d < 0 ∨ t < 0)) (decide (m > 0 ∨ d > 0 ∨ t > 0)) true
              (decide (m ≠ 0)) (decide (d ≠ 0)) (ivx (-m) (-d) (-t)) b := by
          rw [e]; funext b
          rw [hmix, if_pos (by simpa using hn)]; rfl
        rw [e1]
        have eh : ivHour (-t) = - ivHour t := ivHour_neg t
        have := sqlPlain_emits p (m := -m) (d := -d) (t := -t) (by omega) (by omega) (by omega)
          (by unfold In32; omega) m d (by omega) (by omega) _ _ hnp
        rw [ivYear_neg, ivMon_neg, sqlClockText_neg] at this
        simp only [Int.natAbs_neg, ne_eq, Int.neg_eq_zero] at this
        exact (Emits.byte 45).bind this
      · rw [if_neg (by simpa using hn)]
        have e1 : putSql p (ivx m d t) = sqlBody p (decide (m < 0 ∨ d < 0 ∨ t < 0))
            (decide (m > 0 ∨ d > 0 ∨ t > 0)) true (decide (m ≠ 0)) (decide (d ≠ 0)) (ivx m d t) := by
          rw [e]; funext b
          rw [hmix, if_neg (by rw [decide_eq_false hn]; simp)]; rfl
        rw [e1]
        exact sqlPlain_emits p (m := m) (d := d) (t := t) (by omega) (by omega) (by omega)
          (by unfold In32; omega) m d (by omega) (by omega) _ _ hnp

/-! ## Postgres -/

/-- The flags of the Postgres style for the sign of the last printed field. -/
def pgFlags (prev : Option Bool) : Bool × Bool := (prev.isNone, prev == some true)

theorem pgLead_emits (prev : Option Bool) (neg : Bool) :
    Emits (fun b => putIf (!(pgFlags prev).1) 32 b >>= fun b => putIf neg 45 b >>= fun b =>
      putIf (!neg && (pgFlags prev).2) 43 b) (pgLead prev neg) := by
  have h := (putIf_emits (!(pgFlags prev).1) 32).bind
    ((putIf_emits neg 45).bind (putIf_emits (!neg && (pgFlags prev).2) 43))
  rcases prev with _ | x <;> cases neg <;> (try cases x) <;> exact h

/-- A part that threads flags writes `w` and turns the flags from `z` into `z'`. -/
def EmitsZ (g : Bool × Bool → Buf → Res ((Bool × Bool) × Buf)) (z : Bool × Bool) (w : Bytes)
    (z' : Bool × Bool) : Prop :=
  ∃ f, Emits f w ∧ ∀ b, g z b = f b >>= fun b => .ok (z', b)

theorem EmitsZ.bind {g : Bool × Bool → Buf → Res ((Bool × Bool) × Buf)} {z z' : Bool × Bool} {w w' : Bytes}
    {k : Bool × Bool → Buf → Res Buf} (h : EmitsZ g z w z') (hk : Emits (k z') w') :
    Emits (fun b => g z b >>= fun x => k x.1 x.2) (w ++ w') := by
  obtain ⟨f, hf, e⟩ := h
  have : (fun b => g z b >>= fun x => k x.1 x.2) = fun b => f b >>= k z' := by
    funext b; rw [e b]; cases f b <;> rfl
  rw [this]
  exact hf.bind hk

theorem pgPart_emits {v : Int} (h : In32 v) (units : Bytes) (prev : Option Bool) :
    EmitsZ (pgPart v units) (pgFlags prev) (pgWord prev v units) (pgFlags (pgNext prev v)) := by
  by_cases h0 : v = 0
  · refine ⟨fun b => .ok b, ?_, ?_⟩
    · rw [pgWord, if_pos h0]; exact Emits.nil
    · intro b; rw [pgPart, if_pos h0, pgNext, if_pos h0, Res.bind_ok]
  · refine ⟨fun b => putIf (!(pgFlags prev).1) 32 b >>= fun b =>
      putIf ((pgFlags prev).2 && decide (v > 0)) 43 b >>= fun b =>
      putInt v b >>= fun b => setOneByte 32 b >>= fun b => copySlice units b >>= fun b =>
      putIf (decide (v ≠ 1)) 115 b, ?_, ?_⟩
    · have := (putIf_emits (!(pgFlags prev).1) 32).bind
        ((putIf_emits ((pgFlags prev).2 && decide (v > 0)) 43).bind ((putInt_emits h).bind
        ((Emits.byte 32).bind ((Emits.slice units).bind (putIf_emits (decide (v ≠ 1)) 115)))))
      have e : pgWord prev v units = (if (!(pgFlags prev).1) = true then [32] else []) ++
          ((if ((pgFlags prev).2 && decide (v > 0)) = true then [43] else []) ++ (intText v ++ ([32] ++
          (units ++ (if decide (v ≠ 1) = true then [115] else []))))) := by
        rw [pgWord, if_neg h0, intText_eq]
        unfold minus pgLead pgFlags
        have e1 : (if decide (v ≠ 1) = true then [115] else []) = if v = 1 then [] else [115] := by
          by_cases h1 : v = 1 <;> simp [h1]
        rw [e1]
        by_cases hn : v < 0
        · have hv : ¬ 0 < v := by omega
          rcases prev with _ | x <;> (try cases x) <;> simp [hn, hv]
        · have hv : 0 < v := by omega
          rcases prev with _ | x <;> (try cases x) <;> simp [hn, hv]
      rw [e]; exact this
    · intro b
      rw [pgPart, if_neg h0, pgNext, if_neg h0]
      have : pgFlags (some (decide (v < 0))) = (false, decide (v < 0)) := by
        by_cases hn : v < 0 <;> simp [pgFlags, hn]
      rw [this]
      simp only [Res.bind_assoc]
      rfl

theorem pgClock_emits (p : Profile) {m d t : Int} (h : IvOk m d t) (prev : Option Bool) :
    Emits (pgClock p (ivx m d t) (pgFlags prev)) (if prev = none ∨ t ≠ 0 then
      pgLead prev (t < 0) ++ (padText 2 (ivHour t).natAbs ++ minSecText t) else []) := by
  by_cases hc : prev = none ∨ t ≠ 0
  · rw [if_pos hc]
    have e : pgClock p (ivx m d t) (pgFlags prev) = fun b => (putIf (!(pgFlags prev).1) 32 b >>= fun b =>
        putIf (decide (t < 0)) 45 b >>= fun b => putIf (!decide (t < 0) && (pgFlags prev).2) 43 b) >>= fun b =>
        put2Abs p (ivHour t) b >>= fun b => setOneByte 58 b >>= fun b => put2Abs p (ivMin t) b >>= fun b =>
        setOneByte 58 b >>= fun b => putSec p (ivx m d t) true b := by
      funext b
      rw [pgClock, clockNonzero_ivx, clockNeg_ivx, if_pos]
      · simp only [Res.bind_assoc]; rfl
      · rcases hc with rfl | hc
        · rfl
        · simp [hc]
    rw [e]
    exact (pgLead_emits prev _).bind ((put2Abs_emits p h.h32 h.h_min).bind (minSec_emits p m d t))
  · rw [if_neg hc]
    have e : pgClock p (ivx m d t) (pgFlags prev) = fun b => .ok b := by
      funext b
      rw [pgClock, clockNonzero_ivx, if_neg]
      rcases prev with _ | x
      · simp at hc
      · simpa [pgFlags] using hc
    rw [e]; exact Emits.nil

theorem putPg_emits (p : Profile) {m d t : Int} (h : IvOk m d t) :
    Emits (putPg p (ivx m d t)) (pgIntervalText m d t) := by
  have hy := ivYear_in h.m32
  have hmo := ivMon_in m
  exact (pgPart_emits (v := ivYear m) (by unfold In32; omega) b!"year" none).bind
    (k := fun z b => pgPart (ivMon m) b!"mon" z b >>= fun x => pgPart d b!"day" x.1 x.2 >>= fun x =>
      pgClock p (ivx m d t) x.1 x.2)
    ((pgPart_emits (v := ivMon m) (by unfold In32; omega) b!"mon" _).bind
      (k := fun z b => pgPart d b!"day" z b >>= fun x => pgClock p (ivx m d t) x.1 x.2)
      ((pgPart_emits h.d32 b!"day" _).bind (k := fun z b => pgClock p (ivx m d t) z b)
        (pgClock_emits p h _)))

/-! ## Verbose -/

/-- The flags of the verbose style: `seen` says that some field was printed, `lead` that the first
nonzero field is negative. -/
def vFlags (seen lead : Bool) : Bool × Bool := (!seen, seen && lead)

theorem verboseValue_emits (p : Profile) {v : Int} (h : In32 v) (hm : v ≠ i32Min) (h0 : v ≠ 0)
    {seen lead : Bool} (hl : seen = false → lead = decide (v < 0)) :
    Emits (verboseValue p v (vFlags seen lead)) (minus (decide (v < 0) != lead) ++ natText v.natAbs) := by
  cases seen
  · rw [hl rfl]
    have e : verboseValue p v (vFlags false (decide (v < 0))) = putAbs p v := rfl
    rw [e]
    have : minus (decide (v < 0) != decide (v < 0)) = [] := by simp [minus]
    rw [this]
    exact putAbs_emits p h hm
  · cases lead
    · have e : verboseValue p v (vFlags true false) = putInt v := rfl
      rw [e]
      have := putInt_emits h
      rw [intText_eq] at this
      simpa using this
    · have e : verboseValue p v (vFlags true true) = putInt (-v) := by
        funext b
        show (chk32 p (-v) >>= fun n => putInt n b) = _
        rw [chk32_ok (by unfold In32 at h; omega), Res.bind_ok]
      rw [e]
      have h1 := putInt_emits (v := -v) (by unfold In32 at *; omega)
      rw [intText_eq, Int.natAbs_neg] at h1
      have h2 : minus (decide (v < 0) != true) = minus (decide (-v < 0)) := by
        congr 1
        by_cases hn : v < 0
        · have : ¬ (-v < 0) := by omega
          rw [decide_eq_true hn, decide_eq_false this]; rfl
        · have : -v < 0 := by omega
          rw [decide_eq_false hn, decide_eq_true this]; rfl
      rw [h2]; exact h1

theorem plural_emits (v : Int) : Emits (putIf (decide (v ≠ 1)) 115) (if v = 1 then [] else [115]) := by
  have := putIf_emits (decide (v ≠ 1)) 115
  by_cases h1 : v = 1 <;> simpa [h1] using this

theorem verbosePart_emits (p : Profile) {v : Int} (h : In32 v) (hm : v ≠ i32Min) (units : Bytes)
    {seen lead : Bool} (hl : seen = false → v ≠ 0 → lead = decide (v < 0)) :
    EmitsZ (verbosePart p v units) (vFlags seen lead) (verboseWord lead v units)
      (vFlags (seen || decide (v ≠ 0)) lead) := by
  by_cases h0 : v = 0
  · refine ⟨fun b => .ok b, ?_, ?_⟩
    · rw [verboseWord, if_pos h0]; exact Emits.nil
    · intro b; rw [verbosePart, if_pos h0, Res.bind_ok, decide_eq_false (by simpa using h0), Bool.or_false]
  · refine ⟨fun b => setOneByte 32 b >>= fun b => verboseValue p v (vFlags seen lead) b >>= fun b =>
      setOneByte 32 b >>= fun b => copySlice units b >>= fun b => putIf (decide (v ≠ 1)) 115 b, ?_, ?_⟩
    · rw [verboseWord, if_neg h0]
      have := (Emits.byte 32).bind ((verboseValue_emits p h hm h0 (fun hs => hl hs h0)).bind
        ((Emits.byte 32).bind ((Emits.slice units).bind (plural_emits v))))
      rwa [List.append_assoc] at this
    · intro b
      rw [verbosePart, if_neg h0]
      simp only [Res.bind_assoc]
      have : (false, if (vFlags seen lead).1 = true then decide (v < 0) else (vFlags seen lead).2) =
          vFlags (seen || decide (v ≠ 0)) lead := by
        rw [decide_eq_true (p := v ≠ 0) h0, Bool.or_true]
        cases seen
        · rw [← hl rfl h0]; rfl
        · rfl
      rw [this]; rfl

theorem secNeg_ivx (m d t : Int) : (ivx m d t).secNeg = decide (Int.tmod t 60000000 < 0) := by
  have h1 := ivSec_sign t
  have h2 := tmod_or t 60000000
  have h3 := tdiv_or (Int.tmod t 60000000) 1000000
  have h4 := tmod_or t 1000000
  unfold IvTm.secNeg ivx
  rw [Bool.eq_iff_iff]
  simp only [Bool.or_eq_true, Bool.and_eq_true, decide_eq_true_eq]
  omega

theorem verboseSec_emits (p : Profile) (m d t : Int) {seen lead : Bool}
    (hl : seen = false → lead = decide (t < 0)) :
    EmitsZ (verboseSec p (ivx m d t)) (vFlags seen lead) (verboseSecText lead t)
      (vFlags (seen || decide (t.natAbs % 60000000 ≠ 0)) lead) := by
  have hz := ivSec_zero t
  have hc := ivClock_sign t
  have hm := ivMinute_zero t
  by_cases h0 : t.natAbs % 60000000 = 0
  · refine ⟨fun b => .ok b, ?_, ?_⟩
    · rw [verboseSecText, if_pos h0]; exact Emits.nil
    · intro b
      rw [verboseSec, if_neg (c := (ivx m d t).sec ≠ 0 ∨ (ivx m d t).fsec ≠ 0) (fun hc => (hz.1 hc) h0),
        Res.bind_ok, decide_eq_false (by simpa using h0), Bool.or_false]
  · have hneg : (ivx m d t).secNeg = decide (t < 0) := by
      rw [secNeg_ivx]; congr 1; exact propext (by omega)
    refine ⟨fun b => setOneByte 32 b >>= fun b => putIf (decide (t < 0) != lead) 45 b >>= fun b =>
      putSec p (ivx m d t) false b >>= fun b => copySlice b!" sec" b >>= fun b =>
      putIf (decide (¬ (ivSec t = 1 ∧ ivMicro t = 0))) 115 b, ?_, ?_⟩
    · rw [verboseSecText, if_neg h0]
      have e : (if ivSec t = 1 ∧ ivMicro t = 0 then [] else [115]) =
          if decide (¬ (ivSec t = 1 ∧ ivMicro t = 0)) = true then [115] else [] := by
        by_cases hh : ivSec t = 1 ∧ ivMicro t = 0 <;> simp [hh]
      rw [e]
      exact (Emits.byte 32).bind ((putIf_emits _ 45).bind ((putSec_emits p m d t false).bind
        ((Emits.slice b!" sec").bind (putIf_emits _ 115))))
    · intro b
      rw [verboseSec, if_pos (c := (ivx m d t).sec ≠ 0 ∨ (ivx m d t).fsec ≠ 0) (hz.2 h0), hneg]
      have h1 := ivSec_eq t
      have h2 := ivMicro_eq t
      have h3 := ivSec_in t
      have e1 : abs32 p (ivx m d t).sec = .ok (ivSec t : Int) := by
        rw [← h1]
        exact abs32_ok p (x := Int.tdiv (Int.tmod t 60000000) 1000000) (by unfold In32; omega) (by omega)
      have e2 : (decide ((ivSec t : Int) ≠ 1) || decide ((ivx m d t).fsec ≠ 0)) =
          decide (¬ (ivSec t = 1 ∧ ivMicro t = 0)) := by
        have : (ivx m d t).fsec = Int.tmod t 1000000 := rfl
        rw [this, Bool.eq_iff_iff]
        simp only [Bool.or_eq_true, decide_eq_true_eq]
        omega
      have e3 : (if decide (t < 0) = true then !(vFlags seen lead).1 && !(vFlags seen lead).2
          else (vFlags seen lead).2) = (decide (t < 0) != lead) := by
        cases seen
        · rw [hl rfl]; by_cases hn : t < 0 <;> simp [hn, vFlags]
        · by_cases hn : t < 0 <;> cases lead <;> simp [hn, vFlags]
      have e4 : (false, if (decide (t < 0) && (vFlags seen lead).1) = true then true else (vFlags seen lead).2) =
          vFlags (seen || decide (t.natAbs % 60000000 ≠ 0)) lead := by
        rw [decide_eq_true (p := t.natAbs % 60000000 ≠ 0) h0, Bool.or_true]
        cases seen
        · rw [hl rfl]; by_cases hn : t < 0 <;> simp [hn, vFlags]
        · simp [vFlags]
      rw [e1, e3]
      simp only [Res.bind_assoc, Res.bind_ok, e4, e2]
      rfl

theorem putVerbose_emits (p : Profile) {m d t : Int} (h : IvOk m d t) :
    Emits (putVerbose p (ivx m d t)) (verboseIntervalText m d t) := by
  have hy := ivYear_in h.m32
  have hmo := ivMon_in m
  have hmi := ivMin_in t
  have hf := ivMonth_facts m
  have hc := ivClock_sign t
  have hs := ivMinute_zero t
  have hlead : leadNeg m d t = if m ≠ 0 then decide (m < 0) else if d ≠ 0 then decide (d < 0) else decide (t < 0) := rfl
  generalize hL : leadNeg m d t = L at hlead
  let s1 := false || decide (ivYear m ≠ 0)
  let s2 := s1 || decide (ivMon m ≠ 0)
  let s3 := s2 || decide (d ≠ 0)
  let s4 := s3 || decide (ivHour t ≠ 0)
  let s5 := s4 || decide (ivMin t ≠ 0)
  let s6 := s5 || decide (t.natAbs % 60000000 ≠ 0)
  have hm0 : m ≠ 0 → L = decide (m < 0) := fun h => by rw [hlead, if_pos h]
  have f1 : s1 = false → ivYear m = 0 := by simp [s1]
  have f2 : s2 = false → m = 0 := by simp [s2, s1]; omega
  have f3 : s3 = false → m = 0 ∧ d = 0 := by
    intro hh; have : s2 = false ∧ d = 0 := by simpa [s3] using hh
    exact ⟨f2 this.1, this.2⟩
  have f4 : s4 = false → m = 0 ∧ d = 0 := by
    intro hh; exact f3 (Bool.or_eq_false_iff.1 hh).1
  have f5 : s5 = false → m = 0 ∧ d = 0 := by
    intro hh; exact f4 (Bool.or_eq_false_iff.1 hh).1
  have f6 : (vFlags s6 L).1 = decide (m = 0 ∧ d = 0 ∧ t = 0) := by
    rw [Bool.eq_iff_iff]
    simp [vFlags, s6, s5, s4, s3, s2, s1]
    omega
  have hz : s6 = false → L = false := by
    intro hh
    have : (vFlags s6 L).1 = true := by simp [vFlags, hh]
    rw [f6] at this
    obtain ⟨a, b, c⟩ : m = 0 ∧ d = 0 ∧ t = 0 := by simpa using this
    rw [hlead, if_neg (by simpa using a), if_neg (by simpa using b)]; simp [c]
  have f7 : (vFlags s6 L).2 = L := by
    cases hh : s6
    · rw [hz hh]; rfl
    · rfl
  have p1 := verbosePart_emits p (v := ivYear m) (by unfold In32; omega) (by omega) b!"year" (seen := false)
    (lead := L) (fun _ h0 => by
      rw [hm0 (by omega)]; congr 1; exact propext (by omega))
  have p2 := verbosePart_emits p (v := ivMon m) (by unfold In32; omega) (by omega) b!"mon" (seen := s1)
    (lead := L) (fun _ h0 => by
      rw [hm0 (by omega)]; congr 1; exact propext (by omega))
  have p3 := verbosePart_emits p (v := d) h.d32 h.d_min b!"day" (seen := s2)
    (lead := L) (fun hh h0 => by
      rw [hlead, if_neg (by simpa using f2 hh), if_pos h0])
  have ht : m = 0 ∧ d = 0 → L = decide (t < 0) := by
    rintro ⟨a, b⟩
    rw [hlead, if_neg (by simpa using a), if_neg (by simpa using b)]
  have p4 := verbosePart_emits p (v := ivHour t) h.h32 h.h_min b!"hour" (seen := s3)
    (lead := L) (fun hh h0 => by rw [ht (f3 hh)]; congr 1; exact propext (by omega))
  have p5 := verbosePart_emits p (v := ivMin t) (by unfold In32; omega) (by omega) b!"min" (seen := s4)
    (lead := L) (fun hh h0 => by rw [ht (f4 hh)]; congr 1; exact propext (by omega))
  have p6 := verboseSec_emits p m d t (seen := s5) (lead := L) (fun hh => ht (f5 hh))
  have q1 := copyIf_emits (vFlags s6 L).1 b!" 0"
  have q2 := copyIf_emits (vFlags s6 L).2 b!" ago"
  have e1 : (if (vFlags s6 L).1 = true then b!" 0" else []) = if m = 0 ∧ d = 0 ∧ t = 0 then [32, 48] else [] := by
    rw [f6]; by_cases hh : m = 0 ∧ d = 0 ∧ t = 0 <;> simp [hh]
  have e2 : (if (vFlags s6 L).2 = true then b!" ago" else []) = if L = true then [32, 97, 103, 111] else [] := by
    rw [f7]
  rw [e1] at q1
  rw [e2] at q2
  unfold verboseIntervalText
  rw [hL]
  let k6 := fun (z : Bool × Bool) (b : Buf) => copyIf z.1 b!" 0" b >>= fun b => copyIf z.2 b!" ago" b
  let k5 := fun (z : Bool × Bool) (b : Buf) => verboseSec p (ivx m d t) z b >>= fun x => k6 x.1 x.2
  let k4 := fun (z : Bool × Bool) (b : Buf) => verbosePart p (ivMin t) b!"min" z b >>= fun x => k5 x.1 x.2
  let k3 := fun (z : Bool × Bool) (b : Buf) => verbosePart p (ivHour t) b!"hour" z b >>= fun x => k4 x.1 x.2
  let k2 := fun (z : Bool × Bool) (b : Buf) => verbosePart p d b!"day" z b >>= fun x => k3 x.1 x.2
  let k1 := fun (z : Bool × Bool) (b : Buf) => verbosePart p (ivMon m) b!"mon" z b >>= fun x => k2 x.1 x.2
  exact (Emits.byte 64).bind (p1.bind (k := k1) (p2.bind (k := k2) (p3.bind (k := k3) (p4.bind (k := k4)
    (p5.bind (k := k5) (p6.bind (k := k6) (q1.bind q2)))))))

/-! ## Lengths -/

theorem natText_len10 {n : Nat} (h : n ≤ 2147483648) : (natText n).length ≤ 10 :=
  (natText_len (k := 10) (by omega)).2 (by omega)

theorem natText_len2 {n : Nat} (h : n ≤ 99) : (natText n).length ≤ 2 :=
  (natText_len (k := 2) (by omega)).2 (by omega)

theorem padText2_len10 {n : Nat} (h : n ≤ 2147483648) : (padText 2 n).length ≤ 10 :=
  padText_len_le (k := 10) (by omega) (by omega) (by omega)

theorem secText_len (fill : Bool) (t : Int) : (secText fill (ivSec t) (ivMicro t)).length ≤ 9 := by
  have h1 := ivSec_in t
  have h2 := fracText_len (ivMicro_in t)
  have h3 := natText_len2 (n := ivSec t) (by omega)
  have h4 : (padText 2 (ivSec t)).length ≤ 2 := padText_len_le (k := 2) (by omega) (by omega) (by omega)
  unfold secText
  rw [List.length_append]
  cases fill
  · rw [if_neg (by simp)]; omega
  · rw [if_pos (by simp)]; omega

theorem minSecText_len (t : Int) : (minSecText t).length ≤ 13 := by
  have h1 := secText_len true t
  have h2 := ivMin_in t
  have h4 : (padText 2 (ivMin t).natAbs).length ≤ 2 := padText_len_le (k := 2) (by omega) (by omega) (by omega)
  unfold minSecText
  simp only [List.length_append, List.length_cons, List.length_nil]
  omega

theorem minus_len (b : Bool) : (minus b).length ≤ 1 := by cases b <;> decide
theorem signText_len (b : Bool) : (signText b).length ≤ 1 := by cases b <;> decide

theorem isoField_len {v : Int} (h : v.natAbs ≤ 2147483648) (u : Nat) : (isoField v u).length ≤ 12 := by
  have h1 := natText_len10 h
  have h2 := minus_len (v < 0)
  unfold isoField
  split
  · simp
  · rw [intText_eq]; simp only [List.length_append, List.length_cons, List.length_nil]; omega

theorem isoText_len {m d t : Int} (hm : In32 m) (hd : In32 d) (hh : In32 (ivHour t)) :
    (isoIntervalText m d t).length ≤ 128 := by
  have hy := ivYear_in hm
  have hmo := ivMon_in m
  have hmi := ivMin_in t
  unfold In32 at hd hh
  have h1 := isoField_len (v := ivYear m) (by omega) 89
  have h2 := isoField_len (v := ivMon m) (by omega) 77
  have h3 := isoField_len (v := d) (by omega) 68
  have h4 := isoField_len (v := ivHour t) (by omega) 72
  have h5 := isoField_len (v := ivMin t) (by omega) 77
  have h6 := secText_len false t
  have h7 := minus_len (t < 0)
  unfold isoIntervalText isoSecText
  split
  · simp
  · simp only [List.length_append, List.length_cons, List.length_nil]
    split <;> split <;> (simp only [List.length_append, List.length_cons, List.length_nil]; omega)

theorem sqlText_len {m d t : Int} (h : IvOk m d t) : (sqlIntervalText m d t).length ≤ 128 := by
  have hy := ivYear_in h.m32
  have hmo := ivMon_in m
  have hd := h.d32
  have hh := h.h32
  unfold In32 at hd hh
  have h1 := natText_len10 (n := (ivYear m).natAbs) (by omega)
  have h2 := natText_len10 (n := (ivMon m).natAbs) (by omega)
  have h3 := natText_len10 (n := d.natAbs) (by omega)
  have h4 := natText_len10 (n := (ivHour t).natAbs) (by omega)
  have h5 := minSecText_len t
  have h6 := signText_len (m < 0)
  have h7 := signText_len (d < 0)
  have h8 := signText_len (t < 0)
  have h9 := minus_len (m < 0 ∨ d < 0 ∨ t < 0)
  unfold sqlIntervalText sqlClockText
  split
  · simp
  · split
    · simp only [List.length_append, List.length_cons, List.length_nil]; omega
    · split
      · simp only [List.length_append, List.length_cons, List.length_nil]; omega
      · split <;> (simp only [List.length_append, List.length_cons, List.length_nil]; omega)

theorem pgLead_len (prev : Option Bool) (neg : Bool) : (pgLead prev neg).length ≤ 2 := by
  rcases prev with _ | x <;> cases neg <;> (try cases x) <;> decide

theorem pgWord_len {v : Int} (h : v.natAbs ≤ 2147483648) (prev : Option Bool) (u : List Nat) :
    (pgWord prev v u).length ≤ 14 + u.length := by
  have h1 := natText_len10 h
  have h2 := pgLead_len prev (v < 0)
  have h3 : (if v = 1 then [] else [115] : List Nat).length ≤ 1 := by split <;> simp
  unfold pgWord
  split
  · simp
  · simp only [List.length_append, List.length_cons, List.length_nil]; omega

theorem pgText_len {m d t : Int} (h : IvOk m d t) : (pgIntervalText m d t).length ≤ 128 := by
  have hy := ivYear_in h.m32
  have hmo := ivMon_in m
  have hd := h.d32
  have hh := h.h32
  unfold In32 at hd hh
  have h1 := pgWord_len (v := ivYear m) (by omega) none [121, 101, 97, 114]
  have h2 := pgWord_len (v := ivMon m) (by omega) (pgNext none (ivYear m)) [109, 111, 110]
  have h3 := pgWord_len (v := d) (by omega) (pgNext (pgNext none (ivYear m)) (ivMon m)) [100, 97, 121]
  have h4 := padText2_len10 (n := (ivHour t).natAbs) (by omega)
  have h5 := minSecText_len t
  have h6 := pgLead_len (pgNext (pgNext (pgNext none (ivYear m)) (ivMon m)) d) (t < 0)
  unfold pgIntervalText
  simp only [List.length_append, List.length_cons, List.length_nil] at *
  split
  · simp only [List.length_append]; omega
  · simp only [List.length_nil]; omega

theorem verboseWord_len {v : Int} (h : v.natAbs ≤ 2147483648) (l : Bool) (u : List Nat) :
    (verboseWord l v u).length ≤ 14 + u.length := by
  have h1 := natText_len10 h
  have h2 := minus_len (decide (v < 0) != l)
  have h3 : (if v = 1 then [] else [115] : List Nat).length ≤ 1 := by split <;> simp
  unfold verboseWord
  split
  · simp
  · simp only [List.length_append, List.length_cons, List.length_nil]; omega

theorem verboseText_len {m d t : Int} (h : IvOk m d t) : (verboseIntervalText m d t).length ≤ 128 := by
  have hy := ivYear_in h.m32
  have hmo := ivMon_in m
  have hmi := ivMin_in t
  have hd := h.d32
  have hh := h.h32
  unfold In32 at hd hh
  have a1 := verboseWord_len (v := ivYear m) (by omega) (leadNeg m d t) [121, 101, 97, 114]
  have a2 := verboseWord_len (v := ivMon m) (by omega) (leadNeg m d t) [109, 111, 110]
  have a3 := verboseWord_len (v := d) (by omega) (leadNeg m d t) [100, 97, 121]
  have a4 := verboseWord_len (v := ivHour t) (by omega) (leadNeg m d t) [104, 111, 117, 114]
  have a5 := verboseWord_len (v := ivMin t) (by omega) (leadNeg m d t) [109, 105, 110]
  have a6 : (verboseSecText (leadNeg m d t) t).length ≤ 16 := by
    have h1 := secText_len false t
    have h2 := minus_len (decide (t < 0) != leadNeg m d t)
    have h3 : (if ivSec t = 1 ∧ ivMicro t = 0 then [] else [115] : List Nat).length ≤ 1 := by split <;> simp
    unfold verboseSecText
    split
    · simp
    · simp only [List.length_append, List.length_cons, List.length_nil]; omega
  have a7 : (if m = 0 ∧ d = 0 ∧ t = 0 then [32, 48] else [] : List Nat).length ≤ 2 := by split <;> simp
  have a8 : (if leadNeg m d t = true then [32, 97, 103, 111] else [] : List Nat).length ≤ 4 := by
    split <;> simp
  unfold verboseIntervalText
  simp only [List.length_append, List.length_cons, List.length_nil] at *
  omega

end Pg
