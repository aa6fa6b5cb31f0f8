import Verif.Lemmas.QuantitiesRun

/-! # The texts of intervals written as quantities -/

namespace Pg
open Spec

variable {p : Profile}

/-- What follows a word in a list of words. -/
def tailText (xs : List Bytes) : Bytes := if xs = [] then [] else 32 :: spaced xs

theorem spaced_cons (x : Bytes) (xs : List Bytes) : spaced (x :: xs) = x ++ tailText xs := by
  cases xs <;> simp [spaced, tailText]

theorem tailText_gap (xs : List Bytes) : Gap (tailText xs) := by
  unfold tailText
  split
  · exact Or.inl rfl
  · exact Or.inr ⟨_, rfl⟩

theorem tailText_scans {u : TokenField} {xs : List Bytes} {l : List Field} (h : Scans u (spaced xs) l) :
    Scans u (tailText xs) l := by
  unfold tailText
  split
  next e => rw [e] at h; exact h
  next => exact h.space

/-- The fields of `ago`. -/
def agoF (ago : Option Bytes) : List Field := agoFields ago.isSome

theorem quantity_text (q : Quantity) (rest : Bytes) :
    q.text ++ rest = sgBytes q.sign ++ (q.digits ++ ((if q.space then [32] else []) ++ (q.word ++ rest))) := by
  unfold Quantity.text
  rcases q.sign with _ | _ | _ <;> simp [sgBytes]

theorem scans_quantity {u : TokenField} {q : Quantity} (h : q.Ok) {rest : Bytes} {l : List Field} (hr : Gap rest)
    (hs : Scans u rest l) : Scans u (q.text ++ rest) (numField q.sign q.digits :: (.string, lower q.word) :: l) := by
  obtain ⟨w1, w2⟩ := word_letters h
  have hd := h.1
  have hw := Scans.wordSpace w1 w2 hr hs
  have hw' : Scans u ((if q.space then [32] else []) ++ (q.word ++ rest)) ((.string, lower q.word) :: l) := by
    split
    · exact hw.space
    · exact hw
  have hlo : Loose ((if q.space then [32] else []) ++ (q.word ++ rest)) := by
    intro x hx
    split at hx
    · simp at hx; exact Or.inl hx.symm
    · obtain ⟨c, t, e⟩ : ∃ c t, q.word = c :: t := by
        cases hq : q.word with
        | nil => exact absurd hq w2
        | cons c t => exact ⟨c, t, rfl⟩
      rw [e] at hx
      simp at hx
      subst hx
      exact Or.inr (w1 c (by rw [e]; simp))
  rw [quantity_text]
  cases hsg : q.sign with
  | none => exact Scans.number hd.1 (DigitsOf.ne hd (by omega)) hlo.number hw'
  | some neg =>
    refine Scans.signed (by cases neg <;> simp) (digits_first hd.1 (DigitsOf.ne hd (by omega)))
      (digits_signed hd.1) ?_ hw'
    refine hlo.stops rfl ?_
    intro x hx
    rw [isAlpha_iff] at hx
    simp only [isSignedB, isDigit, Bool.or_eq_false_iff, Bool.and_eq_false_iff, decide_eq_false_iff_not]
    omega

theorem scans_quantities {u : TokenField} {qs : List Quantity} (h : ∀ q ∈ qs, q.Ok) {ago : Option Bytes}
    (ha : ∀ w ∈ ago, AgoWord w) : Scans u (quantitiesText qs ago) (qsFields qs (agoF ago)) := by
  unfold quantitiesText
  induction qs with
  | nil =>
    cases ago with
    | none => exact Scans.nil u
    | some w =>
      have hw := ha w rfl
      unfold AgoWord at hw
      have e1 : (letters "ago").map smallLetter = letters "ago" := by decide +kernel
      obtain ⟨w1, w2⟩ := small_alpha hw e1 (by decide +kernel) (by decide +kernel)
      have := Scans.wordSpace (u := u) (rest := []) w1 w2 (Or.inl rfl) (Scans.nil u)
      have e2 : lower w = [97, 103, 111] := by
        unfold lower
        unfold SameButCase at hw
        rw [show lowerB = smallLetter from funext lowerB_letter, hw, e1]
        decide +kernel
      rw [e2] at this
      simpa [spaced, qsFields, agoF, agoFields] using this
  | cons q qs ih =>
    have := scans_quantity (h q (by simp)) (tailText_gap (qs.map Quantity.text ++ ago.toList))
      (tailText_scans (ih fun r hr => h r (List.mem_cons_of_mem _ hr)))
    rw [List.map_cons, List.cons_append, spaced_cons]
    simpa [qsFields, qFields] using this

theorem qsFields_length (qs : List Quantity) (l : List Field) : (qsFields qs l).length = 2 * qs.length + l.length := by
  unfold qsFields
  induction qs with
  | nil => simp
  | cons q qs ih =>
    rw [List.length_append] at ih ⊢
    simp only [List.map_cons, List.flatten_cons, List.length_append, qFields, List.length_cons, List.length_nil] at ih ⊢
    omega

/-- The SQL rule for a leading minus sign does not apply. -/
def PlainSigns (style : IntervalStyle) (qs : List Quantity) : Prop :=
  style = .sqlStandard → ∀ q r, qs = q :: r → q.sign = some true → ∃ q' ∈ r, q'.sign ≠ none

theorem sqlSign_keep {style : IntervalStyle} {q : Quantity} {qs : List Quantity} (hd : Digits q.digits)
    (hne : q.digits ≠ []) (h : PlainSigns style (q :: qs)) (l : List Field) (t : TmF) :
    sqlSign style (qsFields (q :: qs) l) t = (.ok (), t) := by
  by_cases hs : style = .sqlStandard
  swap
  · exact sqlSign_other hs (by simp [qsFields, qFields]) t
  have efs : qsFields (q :: qs) l = numField q.sign q.digits :: (.string, lower q.word) :: qsFields qs l := by
    simp [qsFields, qFields]
  rw [efs, sqlSign, if_pos hs]
  have hf := numField_snd q.sign q.digits
  obtain ⟨x, r, ex, hx⟩ := digits_first hd hne
  rw [isDigit_iff] at hx
  by_cases hm : q.sign = some true
  · obtain ⟨q', hq', hsg⟩ := h hs q qs rfl hm
    have hany : (((.string, lower q.word) :: qsFields qs l).any fun g => hasSign g.2) = true := by
      rw [List.any_eq_true]
      refine ⟨numField q'.sign q'.digits, ?_, ?_⟩
      · refine List.mem_cons_of_mem _ ?_
        unfold qsFields
        rw [List.mem_append]
        refine Or.inl (List.mem_flatten.2 ⟨qFields q', List.mem_map_of_mem hq', by simp [qFields]⟩)
      · rw [numField_snd]
        rcases hc : q'.sign with _ | _ | _
        · exact absurd hc hsg
        · simp [sgBytes, hasSign]
        · simp [sgBytes, hasSign]
    rw [hf, hm]
    simp only [sgBytes, if_true, List.cons_append]
    rw [if_neg (by simp [hany])]
    rfl
  · rw [hf]
    have : ∃ c r', sgBytes q.sign ++ q.digits = c :: r' ∧ c ≠ 45 := by
      rcases hc : q.sign with _ | _ | _
      · exact ⟨x, r, by simp [sgBytes, ex], by omega⟩
      · exact ⟨43, q.digits, by simp [sgBytes], by omega⟩
      · exact absurd hc hm
    obtain ⟨c, r', e, hc⟩ := this
    rw [e]
    simp only
    rw [if_neg (by simp [hc])]
    rfl

/-- Carrying whole seconds out of the fraction. -/
theorem carryFsec_any {t : TmF} {B : Int} (h : Abs2 t.1.sec 1000000 t.2 B) (hB : B ≤ 2147483647000000) :
    carryFsec p t = (.ok (), ({ t.1 with sec := t.1.sec + Int.tdiv t.2 1000000 },
      t.2 - Int.tdiv t.2 1000000 * 1000000)) := by
  unfold Abs2 at h
  have q := tdiv_or t.2 1000000
  unfold carryFsec
  rw [St.get_bind]
  by_cases h0 : t.2 = 0
  · rw [if_neg (by simpa using h0), h0]
    obtain ⟨tm, f⟩ := t
    simp only at h0
    subst h0
    simp
    rfl
  · rw [if_pos h0, St.mod_bind]
    unfold addSec
    rw [St.get_bind, wrap32_of_in (by omega)]
    rw [chk32_ok (show In32 (t.1.sec + Int.tdiv t.2 1000000) by unfold In32; omega), St.lift_ok_bind]
    rfl

/-- The interval of decoded fields, from the fields after the rule for a leading sign. -/
theorem interval_signed {style : IntervalStyle} {u : TokenField} {c : Caches} (hc : c.Ok) {x : Bytes} {l : List Field}
    (hs : scan u x = .ok l) {s : IvS} {M D W S : Int} {b : Bool} {typmod : Int} {t0 t1 : TmF}
    (hmask : s.fMask ≠ 0) (hb : s.before = b) (hd : s.dType = .delta)
    (hr : IvRuns p (parseRange typmod) l {} s) (hcar : carryFsec p s.t = (.ok (), t0)) (hsq : sqlSign style l t0 = (.ok (), t1))
    (m : t1.1.year * 12 + t1.1.mon = M) (m' : Abs2 t1.1.year 12 t1.1.mon 2147483647) (d : t1.1.mday = D)
    (d' : Abs2 t1.1.mday 1 0 2147483647) (w : t1.1.hour * 60 + t1.1.min = W) (w' : Abs2 t1.1.hour 60 t1.1.min 2147483647)
    (hsum : t1.1.sec * 1000000 + t1.2 = S) (hsec : -2147483647 ≤ t1.1.sec ∧ t1.1.sec ≤ 2147483647)
    (hf : -1000000 < t1.2 ∧ t1.2 < 1000000) :
    Interval.tryFromStr p u c x typmod style =
      Interval.adjustByTypmod p ⟨(if b then -1 else 1) * M, (if b then -1 else 1) * D,
        (if b then -1 else 1) * (W * 60000000 + S)⟩ typmod := by
  unfold Abs2 at m' d' w'
  -- the decoder
  have hneg : ∃ t2 : TmF, (if b then negateAll p t1 = (.ok (), t2) else t2 = t1) ∧
      t2.1.year * 12 + t2.1.mon = (if b then -1 else 1) * M ∧
      t2.1.mday = (if b then -1 else 1) * D ∧
      -2147483647 ≤ t2.1.hour * 60 ∧ t2.1.hour * 60 ≤ 2147483647 ∧
      -2147483647 ≤ t2.1.hour * 60 + t2.1.min ∧ t2.1.hour * 60 + t2.1.min ≤ 2147483647 ∧
      -2147483647 ≤ t2.1.sec ∧ t2.1.sec ≤ 2147483647 ∧ -1000000 < t2.2 ∧ t2.2 < 1000000 ∧
      ((t2.1.hour * 60 + t2.1.min) * 60 + t2.1.sec) * 1000000 + t2.2 =
        (if b then -1 else 1) * (W * 60000000 + S) := by
    cases b with
    | false =>
      refine ⟨t1, rfl, ?_⟩
      simp only [Bool.false_eq_true, if_false]
      omega
    | true =>
      refine ⟨_, negateAll_ok hf (by unfold In32; omega) (by unfold In32; omega) (by unfold In32; omega)
        (by unfold In32; omega) (by unfold In32; omega) (by unfold In32; omega), ?_⟩
      simp only [if_true]
      omega
  obtain ⟨t2, hn, r1, r2, r3, r4, r5, r6, r7, r8, r9, r10, r11⟩ := hneg
  have hdec : decodeInterval p plainLook (parseRange typmod) style l ({}, ()) = (.ok (), ({ s with t := t2 }, ())) := by
    unfold decodeInterval
    rw [St.bind_ok (hr 0)]
    refine noLook_run ?_
    rw [St.get_bind, if_neg hmask]
    refine Eq.trans (St.bind_ok (a := ()) (onTm_run (r := .ok ()) (t := t0) hcar)) ?_
    refine Eq.trans (St.bind_ok (a := ()) (onTm_run (r := .ok ()) (t := t1) hsq)) ?_
    rw [St.get_bind]
    simp only [hb]
    cases b with
    | false =>
      simp only [Bool.false_eq_true, if_false] at hn ⊢
      rw [hn]; rfl
    | true =>
      simp only [if_true] at hn ⊢
      exact onTm_run hn
  rw [interval_run p u hc typmod style hs (r := .ok ()) (d := { s with t := t2 }) (w := ()) (by
    unfold St.orElse; rw [hdec]), Res.bind_ok, Interval.ofDec, if_pos hd]
  simp only
  have hbm : -2147483647 ≤ (if b then -1 else 1) * M ∧
      (if b then -1 else 1) * M ≤ 2147483647 := by
    cases b <;> simp only [Bool.false_eq_true, if_false, if_true] <;> omega
  have e : Interval.fromPgtime p t2.1 t2.2 = .ok ⟨(if b then -1 else 1) * M,
      (if b then -1 else 1) * D,
      (if b then -1 else 1) * (W * 60000000 + S)⟩ := by
    rw [← r1, ← r2, ← r11]
    rw [← r1] at hbm
    clear r11 r2 r1 hn hdec
    unfold Interval.fromPgtime
    simp only
    rw [if_neg (by omega), chk32_ok (by omega), Res.bind_ok, chk32_ok (by omega), Res.bind_ok, chk64_ok (by omega),
      Res.bind_ok, chk64_ok (by omega), Res.bind_ok, chk64_ok (by omega), Res.bind_ok, chk64_ok (by omega), Res.bind_ok]
    rfl
  rw [e, Res.bind_ok]

/-- The interval of decoded fields, from the totals. -/
theorem interval_totals {style : IntervalStyle} {u : TokenField} {c : Caches} (hc : c.Ok) {x : Bytes} {l : List Field}
    (hs : scan u x = .ok l) {s : IvS} {M M' D D' W W' S S' : Int} {b : Bool} {typmod : Int}
    (hq : QInv s.t M M' D D' W W' S S') (b1 : M' ≤ 2147483647) (b2 : D' ≤ 2147483647) (b3 : W' ≤ 2147483647)
    (b4 : S' ≤ 2147483647000000) (hmask : s.fMask ≠ 0) (hb : s.before = b) (hd : s.dType = .delta)
    (hr : IvRuns p (parseRange typmod) l {} s)
    (hsql : ∀ t : TmF, t = ({ s.t.1 with sec := s.t.1.sec + Int.tdiv s.t.2 1000000 },
      s.t.2 - Int.tdiv s.t.2 1000000 * 1000000) → sqlSign style l t = (.ok (), t)) :
    Interval.tryFromStr p u c x typmod style =
      Interval.adjustByTypmod p ⟨(if b then -1 else 1) * M, (if b then -1 else 1) * D,
        (if b then -1 else 1) * (W * 60000000 + S)⟩ typmod := by
  obtain ⟨m, m', d, d', w, w', ss, s'⟩ := hq
  have hcar := carryFsec_any (p := p) s' b4
  unfold Abs2 at m' d' w' s'
  have q := tdiv_or s.t.2 1000000
  refine interval_signed hc hs hmask hb hd hr hcar (hsql _ rfl) m ?_ d ?_ w ?_ ?_ ?_ ?_
  · unfold Abs2; simp only; omega
  · unfold Abs2; simp only; omega
  · unfold Abs2; simp only; omega
  · simp only; omega
  · simp only; omega
  · simp only; omega

/-- The interval of decoded fields. -/
theorem interval_fields {style : IntervalStyle} {u : TokenField} {c : Caches} (hc : c.Ok) {x : Bytes} {l : List Field}
    (hs : scan u x = .ok l) {s : IvS} {qs : List Quantity} {b : Bool}
    {typmod : Int} (hne : qs ≠ []) (hmod : Moderate qs)
    (hr : IvRuns p (parseRange typmod) l {} s) (hq : QAt s qs b) 
    (hsql : ∀ t : TmF, t = ({ s.t.1 with sec := s.t.1.sec + Int.tdiv s.t.2 1000000 },
      s.t.2 - Int.tdiv s.t.2 1000000 * 1000000) → sqlSign style l t = (.ok (), t)) :
    Interval.tryFromStr p u c x typmod style =
      Interval.adjustByTypmod p ⟨(if b then -1 else 1) * total IvUnit.months qs, (if b then -1 else 1) * total IvUnit.days qs,
        (if b then -1 else 1) * (total wholeMinutes qs * 60000000 + total subMinute qs)⟩ typmod := by
  obtain ⟨hinv, hmask, hb, hd⟩ := hq
  obtain ⟨b1, b2, b3, b4, -⟩ := hmod
  exact interval_totals hc hs hinv b1 b2 b3 b4 (by rw [hmask]; exact maskOf_ne hne) hb hd hr hsql

/-- A text whose fields are refused and that does not start with `P`. -/
theorem interval_refused {style : IntervalStyle} {u : TokenField} {c : Caches} (hc : c.Ok) {x : Bytes} {l : List Field}
    {typmod : Int} (hs : scan u x = .ok l) (hP : x.head? ≠ some 80) (h : IvFails p (parseRange typmod) l {}) :
    (Interval.tryFromStr p u c x typmod style).IsErr := by
  obtain ⟨e, s', h0⟩ := h 0
  have hd : decodeInterval p plainLook (parseRange typmod) style l ({}, ()) = (.err e, s') := by
    unfold decodeInterval
    rw [St.bind_err h0]
  by_cases he : e = .invalid
  · subst he
    rw [interval_run p u hc typmod style hs (r := .err .invalid)
      (d := { s'.1 with dType := .delta, t := (s'.1.t.1, 0) }) (w := ())]
    · exact ⟨_, rfl⟩
    · unfold St.orElse
      rw [hd]
      simp only
      have : s' = (s'.1, ()) := rfl
      rw [this]
      refine noLook_run ?_
      unfold decodeIsoInterval
      rw [St.mod_bind, if_pos (Or.inr hP)]
      rfl
  · rw [interval_run p u hc typmod style hs (r := .err e) (d := s'.1) (w := ())]
    · exact ⟨_, rfl⟩
    · unfold St.orElse
      rw [hd]
      cases e with
      | invalid => exact absurd rfl he
      | _ => rfl

theorem quantity_head {q : Quantity} (hd : Digits q.digits) (hne : q.digits ≠ []) (rest : Bytes) :
    (q.text ++ rest).head? ≠ some 80 := by
  obtain ⟨x, r, ex, hx⟩ := digits_first hd hne
  rw [isDigit_iff] at hx
  rw [quantity_text, ex]
  rcases q.sign with _ | _ | _ <;> simp [sgBytes]
  omega

theorem total_micros (qs : List Quantity) :
    total wholeMinutes qs * 60000000 + total subMinute qs = total IvUnit.micros qs := by
  induction qs with
  | nil => rfl
  | cons q qs ih =>
    simp only [total_cons]
    have e : wholeMinutes q.unit * 60000000 + subMinute q.unit = q.unit.micros := by
      cases q.unit <;> rfl
    rw [← ih, ← e]
    ring

end Pg
