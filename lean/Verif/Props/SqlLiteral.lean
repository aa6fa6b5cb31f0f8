import Verif.Props.Parts
import Verif.Lemmas.OneSign
import Verif.Spec.SqlLiteral

/-!
# Property C90: interval literals of the SQL standard

`-1-2 3 04:05:06`, `-3 04:05:06`, `-04:05:06`, `-1-2`. `c` is the state of the thread's keyword caches, `u` the uninitialised
type of a lone sign.
-/

namespace Pg
open Spec

variable {p : Profile}

/-- The literal as parts, with a sign in front. -/
def litParts (sg : Option Bool) : SqlLiteral → List IvPart
  | .yearMonth ys ms => [.months sg ys ms]
  | .dayTime none T => [.clock none sg T]
  | .dayTime (some ds) T => [.clock (some (sg, ds)) none T]
  | .both ys ms ds T => [.months sg ys ms, .clock (ds.map (none, ·)) none T]

theorem litParts_text (sg : Option Bool) (L : SqlLiteral) (ago : Option Bytes) :
    partsText (litParts sg L) ago = spaced ((plusMinus sg ++ L.text) :: ago.toList) := by
  rcases L with ⟨ys, ms⟩ | ⟨_ | ds, T⟩ | ⟨ys, ms, _ | ds, T⟩ <;> cases ago <;>
    simp [partsText, litParts, IvPart.text, SqlLiteral.text, SqlLiteral.monthsText, SqlLiteral.timeText, spaced, plusMinus]

theorem litParts_ne (sg : Option Bool) (L : SqlLiteral) : litParts sg L ≠ [] := by
  rcases L with ⟨ys, ms⟩ | ⟨_ | ds, T⟩ | ⟨ys, ms, _ | ds, T⟩ <;> simp [litParts]

theorem litParts_ok {sg : Option Bool} {L : SqlLiteral} (h : L.Ok) : ∀ a ∈ litParts sg L, a.Ok := by
  rcases L with ⟨ys, ms⟩ | ⟨_ | ds, T⟩ | ⟨ys, ms, _ | ds, T⟩ <;>
    simp only [litParts, SqlLiteral.Ok, SqlLiteral.monthsOk, SqlLiteral.timeOk, List.forall_mem_cons, IvPart.Ok, List.not_mem_nil,
      Option.map_none, Option.map_some, Option.mem_def, Option.some.injEq, reduceCtorEq, false_imp_iff, forall_const, forall_eq'] at h ⊢ <;>
    simp [h]

theorem litParts_modest {sg : Option Bool} {L : SqlLiteral} (h : L.Ok) : PartsModest (litParts sg L) := by
  rcases L with ⟨ys, ms⟩ | ⟨_ | ds, T⟩ | ⟨ys, ms, _ | ds, T⟩ <;>
    simp only [litParts, SqlLiteral.Ok, SqlLiteral.monthsOk, SqlLiteral.timeOk, PartsModest, List.forall_mem_cons, IvPart.sizes, List.not_mem_nil,
      Option.map_none, Option.map_some, Option.mem_def, Option.some.injEq, reduceCtorEq, false_imp_iff, forall_const, forall_eq',
      List.map_cons, List.map_nil, List.sum_cons, List.sum_nil] at h ⊢ <;>
    refine ⟨?_, ?_, ?_, ?_, ?_⟩ <;> first | omega | simp

theorem litParts_first (sg : Option Bool) (L : SqlLiteral) : FractionsFirst (litParts sg L) := by
  rcases L with ⟨ys, ms⟩ | ⟨_ | ds, T⟩ | ⟨ys, ms, _ | ds, T⟩ <;> simp [litParts, FractionsFirst, IvPart.IsClock]

theorem litParts_fit {sg : Option Bool} {L : SqlLiteral} : PartsFit (litParts sg L) ↔ L.InRange := by
  rcases L with ⟨ys, ms⟩ | ⟨_ | ds, T⟩ | ⟨ys, ms, _ | ds, T⟩ <;>
    simp [litParts, PartsFit, IvPart.InRange, SqlLiteral.InRange, IvPart.units]

theorem litParts_minus (L : SqlLiteral) : LoneMinus (litParts (some true) L) := by
  rcases L with ⟨ys, ms⟩ | ⟨_ | ds, T⟩ | ⟨ys, ms, _ | ds, T⟩ <;> simp [litParts, LoneMinus, IvPart.signs]

theorem litParts_plain (L : SqlLiteral) : ¬ LoneMinus (litParts none L) := by
  rcases L with ⟨ys, ms⟩ | ⟨_ | ds, T⟩ | ⟨ys, ms, _ | ds, T⟩ <;> simp [litParts, LoneMinus, IvPart.signs]

/-- The state after a clock time, perhaps with days. -/
theorem clock_runs {l : List Field} {s0 : IvS} {b : Bool} (hl : IvRuns p INTERVAL_FULL_RANGE l {} s0) (h0 : IvAt s0 ({}, 0) 0 b)
    {d : Option (Option Bool × List Nat)} {sg : Option Bool} {T : ClockText} (ho : (IvPart.clock d sg T).Ok)
    (hd : ∀ e ∈ d, value e.2 ≤ 2000000000) (hh : T.h ≤ 2000000000) (hr : T.m ≤ 59 ∧ T.s ≤ 60) :
    ∃ s, IvRuns p INTERVAL_FULL_RANGE (ivPartFields (.clock d sg T) ++ l) {} s ∧
      IvAt s ({ hour := sgVal sg T.h, min := sgVal sg T.m, sec := sgVal sg T.s,
                mday := match d with | none => 0 | some e => sgVal e.1 (value e.2) }, sgVal sg (clockUs T))
        (DTK_TIME_M ||| if d.isSome then DTK_DAY_M else 0) b := by
  obtain ⟨t0, m0, b0, d0⟩ := h0
  obtain ⟨o1, o2, o3⟩ := ho
  have hdec := clock_decode (p := p) o2 o3 sg s0
  rw [if_pos ⟨by omega, hr⟩] at hdec
  have hclr : (clockIv sg T s0).tMask &&& (clockIv sg T s0).fMask = 0 := by
    show DTK_TIME_M &&& s0.fMask = 0
    rw [m0, Nat.and_zero]
  have h1 := hl.cons (s'' := { clockIv sg T s0 with fMask := (clockIv sg T s0).fMask ||| (clockIv sg T s0).tMask })
    (fun i => (hdec i).trans (noLook_run (addMaskI_ok hclr)))
  have hm1 : s0.fMask ||| DTK_TIME_M = DTK_TIME_M := by rw [m0, Nat.zero_or]
  cases d with
  | none =>
    refine ⟨_, h1, ?_, ?_, b0, d0⟩
    · simp only [clockIv, clockTmF, t0]
    · simp only [clockIv, hm1, Option.isSome_none, Bool.false_eq_true, if_false, Nat.or_zero]
  | some e =>
    have he := o1 e rfl
    have hv := hd e rfl
    have hp := numberParts_sg (p := p) e.1 he.1 (DigitsOf.ne he (by omega)) he.2.2 (by omega)
    have hin : In32 (getU .day ({ hour := sgVal sg T.h, min := sgVal sg T.m, sec := sgVal sg T.s } : PgTime) + sgVal e.1 (value e.2)) := by
      rcases sgVal_or e.1 (value e.2) with h | h <;> rw [h] <;> simp only [getU] <;> unfold In32 <;> omega
    have ha := addUnit_plain (p := p) (u := .day) (by unfold PlainU; simp) (v := sgVal e.1 (value e.2))
      (t := ({ hour := sgVal sg T.h, min := sgVal sg T.m, sec := sgVal sg T.s }, sgVal sg (clockUs T))) hin
    obtain ⟨ty, hst⟩ := step_number (p := p) (range := INTERVAL_FULL_RANGE)
      (s := { clockIv sg T s0 with fMask := (clockIv sg T s0).fMask ||| (clockIv sg T s0).tMask }) (u := .day) (m := bitU .day)
      (numField_kind e.1 he.1) hp
      (by
        show TokenField.ofInt (if TokenField.day.value = 8 then (rangeUnit INTERVAL_FULL_RANGE).value else TokenField.day.value) = .ok .day
        decide +kernel)
      (by simp only [clockIv, clockTmF, t0]; exact ha)
      (by simp only [clockIv, hm1]; decide)
    refine ⟨_, h1.cons hst, ?_, ?_, b0, d0⟩
    · simp only [bump, zero_add]
    · simp only [clockIv, hm1, Option.isSome_some, if_true, bitU]

/-- Years-months, after a clock time or alone. -/
theorem months_runs {l : List Field} {s0 : IvS} {b : Bool} {t : TmF} {m : Nat} (hl : IvRuns p INTERVAL_FULL_RANGE l {} s0) (h0 : IvAt s0 t m b)
    (ht : t.1.mon = 0) (hm : DTK_MONTH_M &&& m = 0)
    {sg : Option Bool} {ys ms : Bytes} (ho : SqlLiteral.monthsOk ys ms) (h11 : value ms ≤ 11) :
    ∃ s, IvRuns p INTERVAL_FULL_RANGE (ymField sg ys ms :: l) {} s ∧
      IvAt s ({ t.1 with mon := sgVal sg (value ys * 12 + value ms : Nat) }, t.2) (m ||| DTK_MONTH_M) b := by
  obtain ⟨t0, m0, b0, d0⟩ := h0
  obtain ⟨o1, o2, o3⟩ := ho
  have hin : In32 (sgVal sg (value ys * 12 + value ms : Nat)) := by
    unfold In32
    rcases sgVal_or sg (value ys * 12 + value ms : Nat) with e | e <;> rw [e] <;> push_cast <;> omega
  have hp := ymParts (p := p) sg o1.1 (DigitsOf.ne o1 (by omega)) o1.2.2 o2.1 (DigitsOf.ne o2 (by omega)) o2.2.2 h11 hin
  have ha := addUnit_plain (p := p) (u := .month) (by unfold PlainU; simp) (v := sgVal sg (value ys * 12 + value ms : Nat)) (t := t)
    (by simp only [getU, ht, zero_add]; exact hin)
  obtain ⟨ty, hst⟩ := step_number (p := p) (range := INTERVAL_FULL_RANGE) (s := s0) (u := .month) (m := bitU .month)
    (ym_kind sg o1.1 o2.1) hp (by simp only [if_true]; decide +kernel) (by rw [t0]; exact ha) (by rw [m0]; exact hm)
  refine ⟨_, hl.cons hst, ?_, ?_, b0, d0⟩
  · simp only [bump, ht, zero_add]
  · simp only [m0, bitU]

/-- Fields of a literal. -/
structure LitAt (s : IvS) (y : Int × Int × Int) (b : Bool) : Prop where
  mask : s.fMask ≠ 0
  before : s.before = b
  delta : s.dType = .delta
  mon : s.t.1.year = 0 ∧ (s.t.1.mon = y.1 ∨ s.t.1.mon = -y.1) ∧ 0 ≤ y.1 ∧ y.1 ≤ 2000000000
  day : (s.t.1.mday = y.2.1 ∨ s.t.1.mday = -y.2.1) ∧ 0 ≤ y.2.1 ∧ y.2.1 ≤ 2000000000
  clock : ∃ h m sec us : Int, y.2.2 = ((h * 60 + m) * 60 + sec) * 1000000 + us ∧ 0 ≤ h ∧ h * 60 + m ≤ 2000000000 ∧ 0 ≤ m ∧ 0 ≤ sec ∧ sec ≤ 60 ∧
    0 ≤ us ∧ us ≤ 1000000 ∧ ∃ k : Int, (k = 1 ∨ k = -1) ∧ s.t.1.hour = k * h ∧ s.t.1.min = k * m ∧ s.t.1.sec = k * sec ∧ s.t.2 = k * us

theorem sgVal_k (sg : Option Bool) : ∃ k : Int, (k = 1 ∨ k = -1) ∧ ∀ n, sgVal sg n = k * n := by
  refine ⟨signOf sg, ?_, signOf_sg sg⟩
  unfold signOf; split <;> simp

theorem lit_runs {l : List Field} {s0 : IvS} {b : Bool} (hl : IvRuns p INTERVAL_FULL_RANGE l {} s0) (h0 : IvAt s0 ({}, 0) 0 b)
    {sg : Option Bool} {L : SqlLiteral} (ho : L.Ok) (hr : L.InRange) :
    ∃ s y, IvRuns p INTERVAL_FULL_RANGE (partsFields (litParts sg L) l) {} s ∧ L.Is y ∧ LitAt s y b := by
  cases L with
  | yearMonth ys ms =>
    obtain ⟨s, h1, t1, m1, b1, d1⟩ := months_runs (sg := sg) hl h0 rfl (Nat.and_zero _) ho hr
    refine ⟨s, _, by simpa [partsFields, litParts, ivPartFields] using h1, rfl, by rw [m1]; simp, b1, d1, ?_, ?_, ?_⟩
    · obtain ⟨-, -, o3⟩ := ho
      rw [t1]
      have := sgVal_or sg (value ys * 12 + value ms : Nat)
      push_cast at this ⊢
      exact ⟨trivial, this, by omega, by omega⟩
    · rw [t1]; exact ⟨.inl rfl, by simp, by simp⟩
    · rw [t1]; exact ⟨0, 0, 0, 0, by simp, by simp, by simp, by simp, by simp, by simp, by simp, by simp, 1, by simp, rfl, rfl, rfl, rfl⟩
  | dayTime ds T =>
    obtain ⟨o1, o2, o3, o4, o5⟩ := ho
    have hb := clockUs_bounds o2
    cases ds with
    | none =>
      obtain ⟨s, h1, t1, m1, b1, d1⟩ := clock_runs (d := none) (sg := sg) (T := T) hl h0 ⟨by simp, o2, o3⟩ (by simp) (by omega) hr
      refine ⟨s, _, by simpa [partsFields, litParts, ivPartFields] using h1, ⟨_, clockUs_nearest o2, rfl⟩, by rw [m1]; simp, b1, d1, ?_, ?_, ?_⟩
      · rw [t1]; exact ⟨rfl, .inl rfl, by simp, by simp⟩
      · rw [t1]; exact ⟨.inl rfl, by simp [SqlLiteral.daysOf], by simp [SqlLiteral.daysOf]⟩
      · rw [t1]
        obtain ⟨k, hk, e⟩ := sgVal_k sg
        refine ⟨T.h, T.m, T.s, clockUs T, rfl, by omega, by omega, by omega, by omega, ?_, hb.1, hb.2, k, hk, e _, e _, e _, e _⟩
        exact_mod_cast hr.2
    | some e =>
      obtain ⟨o11, o12⟩ := o1 e rfl
      obtain ⟨s, h1, t1, m1, b1, d1⟩ := clock_runs (d := some (sg, e)) (sg := none) (T := T) hl h0 ⟨by simpa using o11, o2, o3⟩ (by simpa using o12)
        (by omega) hr
      refine ⟨s, _, by simpa [partsFields, litParts, ivPartFields] using h1, ⟨_, clockUs_nearest o2, rfl⟩, by rw [m1]; simp, b1, d1, ?_, ?_, ?_⟩
      · rw [t1]; exact ⟨rfl, .inl rfl, by simp, by simp⟩
      · rw [t1]; exact ⟨sgVal_or sg _, by simp [SqlLiteral.daysOf], by simp only [SqlLiteral.daysOf]; omega⟩
      · rw [t1]
        obtain ⟨k, hk, e⟩ := sgVal_k none
        refine ⟨T.h, T.m, T.s, clockUs T, rfl, by omega, by omega, by omega, by omega, ?_, hb.1, hb.2, k, hk, e _, e _, e _, e _⟩
        exact_mod_cast hr.2
  | both ys ms ds T =>
    obtain ⟨oym, o1, o2, o3, o4, o5⟩ := ho
    have hb := clockUs_bounds o2
    obtain ⟨s', h1', t1', m1', b1', d1'⟩ := clock_runs (d := ds.map (none, ·)) (sg := none) (T := T) hl h0
      ⟨by cases ds <;> simp at o1 ⊢; exact o1.1, o2, o3⟩ (by cases ds <;> simp at o1 ⊢; exact o1.2) (by omega) hr.2
    obtain ⟨s, h1, t1, m1, b1, d1⟩ := months_runs (sg := sg) h1' ⟨t1', m1', b1', d1'⟩ rfl (by cases ds <;> simp) oym hr.1
    refine ⟨s, _, by simpa [partsFields, litParts, ivPartFields] using h1, ⟨_, clockUs_nearest o2, rfl⟩, by rw [m1]; cases ds <;> simp, b1, d1, ?_, ?_, ?_⟩
    · obtain ⟨-, -, o3⟩ := oym
      rw [t1]
      have := sgVal_or sg (value ys * 12 + value ms : Nat)
      push_cast at this ⊢
      exact ⟨trivial, this, by omega, by omega⟩
    · rw [t1]
      cases ds with
      | none => exact ⟨.inl rfl, by simp [SqlLiteral.daysOf], by simp [SqlLiteral.daysOf]⟩
      | some e =>
        have := (o1 e rfl).2
        exact ⟨.inl rfl, by simp [SqlLiteral.daysOf], by simp only [SqlLiteral.daysOf]; omega⟩
    · rw [t1]
      obtain ⟨k, hk, e⟩ := sgVal_k none
      refine ⟨T.h, T.m, T.s, clockUs T, rfl, by omega, by omega, by omega, by omega, ?_, hb.1, hb.2, k, hk, e _, e _, e _, e _⟩
      exact_mod_cast hr.2.2

end Pg

namespace Props
open Pg Spec

/-- **C90, SQL style.** In the SQL style a minus sign in front of a literal holds for all of it. A number out of range is an
error. -/
theorem C90_sql (p : Profile) (u : TokenField) (c : Caches) (hc : c.Ok) (L : SqlLiteral) (ho : L.Ok) (ago : Option Bytes)
    (ha : ∀ w ∈ ago, AgoWord w) (hl : (spaced ((45 :: L.text) :: ago.toList)).length ≤ 128) :
    if L.InRange then
      ∃ m d t, L.Is (m, d, t) ∧ Interval.tryFromStr p u c (spaced ((45 :: L.text) :: ago.toList)) (-1) .sqlStandard =
        .ok ⟨agoSign ago * -m, agoSign ago * -d, agoSign ago * -t⟩
    else (Interval.tryFromStr p u c (spaced ((45 :: L.text) :: ago.toList)) (-1) .sqlStandard).IsErr := by
  have et := litParts_text (some true) L ago
  simp only [plusMinus, List.cons_append, List.nil_append] at et
  rw [← et] at hl ⊢
  have hok := litParts_ok (sg := some true) ho
  have hne := litParts_ne (some true) L
  have hlen2 : (litParts (some true) L).length ≤ 2 := by
    rcases L with ⟨ys, ms⟩ | ⟨_ | ds, T⟩ | ⟨ys, ms, _ | ds, T⟩ <;> simp [litParts]
  have hsc := scans_parts (u := u) hok ha
  have hlen : (agoF ago).length ≤ 1 := by cases ago <;> simp [agoF, agoFields]
  have hfl := partsFields_length (litParts (some true) L) (agoF ago)
  have hscan : scan u (partsText (litParts (some true) L) ago) = .ok (partsFields (litParts (some true) L) (agoF ago)) := by
    refine Scans.run hsc ?_ hl (by omega)
    intro e
    have := List.length_pos_iff.2 hne
    rw [e, List.length_nil] at hfl
    omega
  obtain ⟨s0, r0, a0⟩ := ago_runs (p := p) (range := parseRange (-1)) ago.isSome
  split
  next hr =>
    obtain ⟨s, y, hrun, hy, hmask, hb, hd, ⟨y0, m1, m2, m3⟩, ⟨d1, d2, d3⟩, h, m, sec, us, ey, h0, h1, mm0, s0', s1, u0, u1, k, hk, e1, e2, e3, e4⟩ :=
      lit_runs (p := p) (l := agoF ago) r0 a0 (sg := some true) ho hr
    refine ⟨y.1, y.2.1, y.2.2, hy, ?_⟩
    have hcar := carryFsec_any (p := p) (t := s.t) (B := 2147483647000000) (by
      unfold Abs2; rcases hk with rfl | rfl <;> omega) (le_refl _)
    have hsql := (sqlSign_parts (style := .sqlStandard) hok hne ago
      ({ s.t.1 with sec := s.t.1.sec + Int.tdiv s.t.2 1000000 }, s.t.2 - Int.tdiv s.t.2 1000000 * 1000000)).2 ⟨rfl, litParts_minus L⟩
    have q := tdiv_or s.t.2 1000000
    have key := interval_signed (style := .sqlStandard) (typmod := -1) (M := -y.1) (D := -y.2.1) (W := -(h * 60 + m)) (S := -(sec * 1000000 + us)) hc hscan
      hmask hb hd hrun hcar hsql
      (by simp only [forceNegative, negPos, y0]; split <;> split <;> omega)
      (by simp only [forceNegative, negPos, y0, Abs2]; split <;> split <;> omega)
      (by simp only [forceNegative, negPos]; split <;> omega)
      (by simp only [forceNegative, negPos, Abs2]; split <;> omega)
      (by simp only [forceNegative, negPos, e1, e2]; rcases hk with rfl | rfl <;> split <;> split <;> omega)
      (by simp only [forceNegative, negPos, e1, e2, Abs2]; rcases hk with rfl | rfl <;> split <;> split <;> omega)
      (by simp only [forceNegative, negPos]; rcases hk with rfl | rfl <;> split <;> split <;> omega)
      (by simp only [forceNegative, negPos]; rcases hk with rfl | rfl <;> split <;> omega)
      (by simp only [forceNegative, negPos]; rcases hk with rfl | rfl <;> split <;> omega)
    rw [key, Interval.adjustByTypmod, if_neg (by omega), ey]
    unfold agoSign
    congr 3
    ring
  next hr =>
    have h2 := (parts_runs (p := p) r0 a0 (litParts (some true) L) hok (litParts_modest ho) (litParts_first _ _) (by omega)).2
      (fun h => hr (litParts_fit.1 h))
    refine interval_refused hc hscan ?_ h2
    cases hps : litParts (some true) L with
    | nil => exact absurd hps hne
    | cons x r =>
      unfold partsText
      rw [List.map_cons, List.cons_append, spaced_cons]
      exact part_head (hok x (by rw [hps]; simp)) _

/-- **C90, the other styles.** In the other styles the minus sign holds for the first number only: for the years-months, for the
days, or for the clock time if there are no days. Without a sign the literal is read as it stands, in every style. -/
theorem C90_others (p : Profile) (u : TokenField) (c : Caches) (hc : c.Ok) (style : IntervalStyle) (neg : Bool)
    (hs : neg = true → style ≠ .sqlStandard) (L : SqlLiteral) (ho : L.Ok) (ago : Option Bytes) (ha : ∀ w ∈ ago, AgoWord w)
    (hl : (spaced (((if neg then [45] else []) ++ L.text) :: ago.toList)).length ≤ 128) :
    if L.InRange then
      ∃ m d t, (if neg then L.IsFirst (m, d, t) else L.Is (m, d, t)) ∧
        Interval.tryFromStr p u c (spaced (((if neg then [45] else []) ++ L.text) :: ago.toList)) (-1) style =
          .ok ⟨agoSign ago * m, agoSign ago * d, agoSign ago * t⟩
    else (Interval.tryFromStr p u c (spaced (((if neg then [45] else []) ++ L.text) :: ago.toList)) (-1) style).IsErr := by
  have et := litParts_text (if neg then some true else none) L ago
  have ep : plusMinus (if neg then some true else none) = if neg then [45] else [] := by cases neg <;> rfl
  rw [ep] at et
  rw [← et] at hl ⊢
  have hlen2 : (litParts (if neg then some true else none) L).length ≤ 12 := by
    rcases L with ⟨ys, ms⟩ | ⟨_ | ds, T⟩ | ⟨ys, ms, _ | ds, T⟩ <;> simp [litParts]
  have h := C71_parts_partial p u c hc style (litParts (if neg then some true else none) L) (litParts_ok ho) (litParts_ne _ L) hlen2
    (litParts_modest ho) (litParts_first _ _) ago ha hl (by
      rintro ⟨rfl, hm⟩
      cases neg with
      | true => exact hs rfl rfl
      | false => exact litParts_plain L hm)
  refine ite_of ?_ (litParts_fit (sg := if neg then some true else none)).symm
  by_cases hr : PartsFit (litParts (if neg then some true else none) L)
  · rw [if_pos hr] at h ⊢
    obtain ⟨ys, hys, e⟩ := h
    refine ⟨_, _, _, ?_, e⟩
    clear e et hl hlen2 ep hr
    rcases L with ⟨yd, ms⟩ | ⟨_ | ds, T⟩ | ⟨yd, ms, _ | ds, T⟩ <;> cases neg <;>
      simp only [litParts, Bool.false_eq_true, if_false, if_true, List.forall₂_cons_left_iff, List.forall₂_nil_left_iff, IvPart.Is,
        Option.map_none, Option.map_some] at hys <;>
      simp only [Bool.false_eq_true, if_false, if_true, SqlLiteral.Is, SqlLiteral.IsFirst, SqlLiteral.daysOf]
    all_goals first
      | (obtain ⟨_, _, rfl, rfl, rfl⟩ := hys; simp [sumParts, signOf]; done)
      | (obtain ⟨_, _, ⟨us, hn, rfl⟩, rfl, rfl⟩ := hys; exact ⟨us, hn, by simp [sumParts, signOf]⟩)
      | (obtain ⟨_, _, rfl, ⟨_, _, ⟨us, hn, rfl⟩, rfl, rfl⟩, rfl⟩ := hys; exact ⟨us, hn, by simp [sumParts, signOf]⟩)
  · rw [if_neg hr] at h ⊢
    exact h

/-- One year, two months, three days, four hours, five minutes and 6.7 seconds. -/
def sampleLit : SqlLiteral := .both b!"1" b!"2" (some b!"3") (.long b!"04" b!"05" b!"06" (some b!"7"))

example : sampleLit.Ok ∧ sampleLit.InRange ∧ sampleLit.text = b!"1-2 3 04:05:06.7" ∧ AgoWord b!"ago" := by
  refine ⟨⟨⟨by decide, by decide, by decide⟩, ?_, by unfold ClockText.Ok; decide, rfl, by decide, by decide⟩, by decide, by decide, by unfold AgoWord SameButCase; decide⟩
  intro e he
  cases he
  exact ⟨by decide, by decide⟩
example : Interval.tryFromStr .debug .date Caches.new b!"-1-2 3 04:05:06.7" (-1) .sqlStandard = .ok ⟨-14, -3, -14706700000⟩ ∧
    Interval.tryFromStr .debug .date Caches.new b!"-1-2 3 04:05:06.7 ago" (-1) .sqlStandard = .ok ⟨14, 3, 14706700000⟩ ∧
    Interval.tryFromStr .debug .date Caches.new b!"-1-2 3 04:05:06.7" (-1) .postgres = .ok ⟨-14, 3, 14706700000⟩ ∧
    Interval.tryFromStr .debug .date Caches.new b!"-3 04:05:06.7" (-1) .sqlStandard = .ok ⟨0, -3, -14706700000⟩ ∧
    Interval.tryFromStr .debug .date Caches.new b!"-3 04:05:06.7" (-1) .iso8601 = .ok ⟨0, -3, 14706700000⟩ ∧
    (Interval.tryFromStr .debug .date Caches.new b!"-1-12 3 04:05:06.7" (-1) .sqlStandard).IsErr := by
  refine ⟨by decide +kernel, by decide +kernel, by decide +kernel, by decide +kernel, by decide +kernel, .overflow, by decide +kernel⟩

end Props
