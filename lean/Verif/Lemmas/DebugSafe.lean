import Verif.Lemmas.YearSafe
import Verif.Lemmas.NoPanic
import Verif.Lemmas.DayNumber
import Verif.Lemmas.DigitRuns

/-! # Absence of panics in every build -/

namespace Pg
open Spec

variable {p : Profile} {order : DateOrder} {A Y : Prop}

theorem date2julian_safe (p : Profile) (y m d : Int) (hv : isValidJulian y m = true) (h1 : 0 ≤ m) (h2 : m ≤ 12) (hd1 : 0 ≤ d) (hd2 : d ≤ 31) :
    ∃ j, date2julian p y m d = .ok j ∧ In32 (j - 2451545) := by
  simp only [isValidJulian, Bool.and_eq_true, Bool.or_eq_true, decide_eq_true_eq] at hv
  unfold date2julian
  by_cases hm : m > 2
  · simp only [hm, if_true]
    simp (disch := omega) only [tdiv_nn, chk32_ok, Res.bind_ok, Res.pure_eq]
    exact ⟨_, rfl, by unfold In32; omega⟩
  · simp only [hm, if_false]
    simp (disch := omega) only [tdiv_nn, chk32_ok, Res.bind_ok, Res.pure_eq]
    exact ⟨_, rfl, by unfold In32; omega⟩

theorem julian2date_safe {v : Int} (h0 : 0 ≤ v) (h1 : v ≤ 2147483647) : julian2date p v ≠ .panic := by
  obtain ⟨y, m, d, e, -⟩ := julian2date_spec p v h0 h1
  rw [e]
  exact Res.safe_ok _

theorem dateToken_safe {f : Bytes} (hf : ∀ a, str2i32 f = .ok a → 0 ≤ a.1) : Calm (dateToken p plainLook f order) := by
  have h1 := decodeDate_calm
  unfold dateToken
  refine Keeps.bind (Keeps.calm_noLook Keeps.get) fun _ => ?_
  split
  · refine Keeps.bind_post (fun a => str2i32 f = .ok a) (Keeps.lift (str2i32_safe _)) (fun s a s' _ h => ?_) fun a ha =>
      Keeps.bind (Keeps.lift (julian2date_safe (hf _ ha) (str2i32_max ha))) fun _ =>
      Keeps.bind (Keeps.calm_noLook (by quietly)) fun _ => Keeps.fail _
    exact congrArg Prod.fst h
  · quietly
    exact h1 _ _

theorem julian_safe {v : Int} (h : v ≤ 2147483647) (s : Bytes) : Calm (labelJulian p v s) := by
  unfold labelJulian
  split
  · quietly
  · rename_i h0
    refine Keeps.bind (by quietly) fun _ => Keeps.bind (Keeps.lift (julian2date_safe (by omega) h)) fun _ => Keeps.bind (by quietly) fun _ => ?_
    split
    · rename_i hp
      refine Keeps.bind_post (fun a => str2d s = .ok a) (Keeps.lift (str2d_safe _)) (fun s a s' _ h => congrArg Prod.fst h) fun a ha => ?_
      obtain ⟨x, r⟩ := a
      obtain ⟨fs, h1, h2, rfl⟩ := str2d_point hp ha
      obtain ⟨n1, n2, n3⟩ := julianMicros_near h1 h2
      have := fracTen_bound h1 h2
      dsimp only
      rw [show ((fracF64 fs).mul (F64.ofInt 86400000000)).toI64 = julianMicros fs from rfl, date2time_eq p _ n1 (by omega)]
      exact Keeps.bind (Keeps.lift (Res.safe_ok _)) fun _ => by quietly
    · quietly

theorem labelled_safe (str : Bytes) : Calm (labelled p str) := by
  unfold labelled
  refine Keeps.bind Keeps.get fun _ => ?_
  refine Keeps.bind_post (fun a => str2i32 str = .ok a) (Keeps.lift (str2i32_safe _)) (fun s a s' _ h => congrArg Prod.fst h) fun a ha => ?_
  obtain ⟨v, r⟩ := a
  have hm := str2i32_max ha
  have h2 : ∀ t, Calm (labelAssign p t str v r) := by
    intro t; unfold labelAssign
    have h3 := fun s m => onNum_calm (numberField_calm s m)
    split <;> quietly
    · exact julian_safe hm _
    · exact h3 _ _
  dsimp only
  quietly
  exact h2 _

theorem numberToken_safe (str : Bytes) : Calm (numberToken p plainLook str order) := by
  unfold numberToken
  refine Keeps.bind (Keeps.calm_noLook Keeps.get) fun d => ?_
  have h1 := fun s m => Keeps.calm_noLook (C := Unit) (onNum_calm (numberField_calm s m))
  have h2 := fun s h m o => Keeps.calm_noLook (C := Unit) (onNum_calm (number_calm s h m o))
  have h3 := Keeps.calm_noLook (C := Unit) (labelled_safe (p := p) str)
  have h4 := decodeDate_calm
  quietly
  all_goals first | exact h1 _ _ | exact h2 _ _ _ _ | exact h4 _ _

theorem numberTokenT_safe (ftypes : List TokenField) (i : Nat) (str : Bytes) :
    Calm (numberTokenT p plainLook order ftypes i str) := by
  unfold numberTokenT
  refine Keeps.bind (Keeps.calm_noLook Keeps.get) fun d => ?_
  have h1 := fun s m => Keeps.calm_noLook (C := Unit) (onNum_calm (numberField_calm s m))
  have h2 := fun s h m o => Keeps.calm_noLook (C := Unit) (onNum_calm (number_calm s h m o))
  have h3 := Keeps.calm_noLook (C := Unit) (labelled_safe (p := p) str)
  have h4 := decodeDate_calm
  quietly
  all_goals first | exact h1 _ _ | exact h2 _ _ _ _ | exact h4 _ _

theorem dateTimeField_safe {ftypes : List TokenField} {i : Nat} {f : Field} (hd : f.1 = .date → ∀ a, str2i32 f.2 = .ok a → 0 ≤ a.1)
    (hi : f.2 = b!"t" → i + 1 < ftypes.length) : Calm (dateTimeField p plainLook order ftypes i f) := by
  have hm := Keeps.calm_noLook (C := Unit) addMask_calm
  unfold dateTimeField
  split
  · rename_i e; exact Keeps.bind (dateToken_safe (hd e)) fun _ => hm
  · exact Keeps.bind (Keeps.calm_noLook (timeToken_calm _)) fun _ => hm
  · exact Keeps.bind (numberToken_safe _) fun _ => hm
  · refine Keeps.bind (wordToken_calm hi) fun _ => ?_
    quietly
  · refine Keeps.bind (wordToken_calm hi) fun _ => ?_
    quietly
  · quietly

theorem dateTimeLoop_safe {ftypes : List TokenField} (fs : List Field) (hd : ∀ f ∈ fs, f.1 = .date → ∀ a, str2i32 f.2 = .ok a → 0 ≤ a.1) (i : Nat)
    (hl : i + fs.length ≤ ftypes.length) (hi : ∀ f, fs.getLast? = some f → f.2 = b!"t" → i + fs.length < ftypes.length) :
    Calm (dateTimeLoop p plainLook order ftypes fs i) := by
  induction fs generalizing i with
  | nil => exact Keeps.pure _
  | cons f fs ih =>
    unfold dateTimeLoop
    simp only [List.length_cons] at hl hi
    refine Keeps.bind (dateTimeField_safe (hd f (by simp)) fun h => ?_) fun _ =>
      ih (fun g hg => hd g (by simp [hg])) (i + 1) (by omega) fun g hg ht => ?_
    · cases fs with
      | nil =>
        have := hi f rfl h
        simp only [List.length_nil] at this
        omega
      | cons g gs => simp only [List.length_cons] at hl; omega
    · cases fs with
      | nil => cases hg
      | cons a b =>
        have := hi g (by rw [List.getLast?_cons_cons]; exact hg) ht
        omega

theorem timeOnlyLoop_safe {ftypes : List TokenField} (fs : List Field) (i : Nat) : Calm (timeOnlyLoop p plainLook order ftypes fs i) := by
  have hm := Keeps.calm_noLook (C := Unit) addMask_calm
  induction fs generalizing i with
  | nil => exact Keeps.pure _
  | cons f fs ih =>
    unfold timeOnlyLoop
    refine Keeps.bind ?_ fun _ => ih _
    unfold timeOnlyField
    split
    · exact Keeps.bind (dateTokenT_calm _ _ _ _) fun _ => hm
    · exact Keeps.bind (Keeps.calm_noLook (onTime_calm (decodeTime_calm _ _))) fun _ => hm
    · exact Keeps.bind (numberTokenT_safe _ _ _) fun _ => hm
    · refine Keeps.bind wordTokenT_calm fun _ => ?_
      quietly
    · refine Keeps.bind wordTokenT_calm fun _ => ?_
      quietly
    · quietly

/-! ## The end of the text -/

theorem hasBits_iff {m k : Nat} : hasBits m (2 ^ k) = m.testBit k := by
  unfold hasBits
  cases h : m.testBit k with
  | true =>
    refine decide_eq_true fun e => ?_
    have := congrArg (fun n => n.testBit k) e
    simp only [Nat.testBit_and, h, Nat.testBit_two_pow_self, Nat.zero_testBit] at this
    cases this
  | false =>
    refine decide_eq_false (not_not_intro ?_)
    apply Nat.eq_of_testBit_eq
    intro j
    rw [Nat.testBit_and, Nat.zero_testBit, Nat.testBit_two_pow]
    by_cases hj : k = j
    · subst hj; rw [h]; rfl
    · rw [decide_eq_false hj, Bool.and_false]

/-- The fields of a date after validation. -/
structure DayIn (tm : PgTime) : Prop where
  mon : 0 ≤ tm.mon ∧ tm.mon ≤ 12
  mday : 0 ≤ tm.mday ∧ tm.mday ≤ 31

theorem validateYear_safe {d : Dec} (h : Sound A Y d) : d.tm.validateYear p d.fMask d.isJulian d.is2 d.bc ≠ .panic ∧
    ∀ tm, d.tm.validateYear p d.fMask d.isJulian d.is2 d.bc = .ok tm → tm.mon = d.tm.mon ∧ tm.mday = d.tm.mday ∧ tm.yday = d.tm.yday ∧
      (d.fMask.testBit 15 = true → 0 ≤ tm.year ∧ tm.year ≤ 999999) := by
  have hmax := h.core.max
  have doy := h.core.doy
  rw [← show hasBits d.fMask 4 = d.fMask.testBit 2 from hasBits_iff (k := 2)] at doy
  unfold PgTime.validateYear
  split
  · split
    · rename_i hj
      refine ⟨Res.safe_ok _, fun tm e => ?_⟩
      cases e
      refine ⟨rfl, rfl, rfl, fun h15 => ?_⟩
      have := (doy h15).2.2.1
      rw [hj] at this; cases this
    · split
      · rename_i hb
        split
        · exact ⟨Res.safe_err _, fun tm e => by cases e⟩
        · rw [chk32_ok (by omega), Res.bind_ok, chk32_ok (by omega), Res.bind_ok]
          refine ⟨Res.safe_ok _, fun tm e => ?_⟩
          cases e
          refine ⟨rfl, rfl, rfl, fun h15 => ?_⟩
          have := h.bc (doy h15).1
          rw [hb] at this; cases this
      · split
        · split
          · exact ⟨Res.safe_err _, fun tm e => by cases e⟩
          · split
            · rw [chk32_ok (by omega), Res.bind_ok]
              refine ⟨Res.safe_ok _, fun tm e => ?_⟩
              cases e
              exact ⟨rfl, rfl, rfl, fun _ => by dsimp only; omega⟩
            · split
              · rw [chk32_ok (by omega), Res.bind_ok]
                refine ⟨Res.safe_ok _, fun tm e => ?_⟩
                cases e
                exact ⟨rfl, rfl, rfl, fun _ => by dsimp only; omega⟩
              · refine ⟨Res.safe_ok _, fun tm e => ?_⟩
                cases e
                exact ⟨rfl, rfl, rfl, fun h15 => ⟨by omega, (doy h15).2.2.2.1⟩⟩
        · split
          · exact ⟨Res.safe_err _, fun tm e => by cases e⟩
          · refine ⟨Res.safe_ok _, fun tm e => ?_⟩
            cases e
            exact ⟨rfl, rfl, rfl, fun h15 => ⟨by omega, (doy h15).2.2.2.1⟩⟩
  · rename_i hy
    refine ⟨Res.safe_ok _, fun tm e => ?_⟩
    cases e
    exact ⟨rfl, rfl, rfl, fun h15 => absurd (doy h15).2.1.2.1 hy⟩

theorem validateDate_safe {d : Dec} (h : Sound A Y d) : d.tm.validateDate p d.fMask d.isJulian d.is2 d.bc ≠ .panic ∧
    ∀ tm, d.tm.validateDate p d.fMask d.isJulian d.is2 d.bc = .ok tm → DayIn tm := by
  obtain ⟨y1, y2⟩ := validateYear_safe (p := p) h
  have doy : ∀ t : PgTime, d.tm.validateYear p d.fMask d.isJulian d.is2 d.bc = .ok t → ∃ t', t.validateDoy p d.fMask = .ok t' ∧
      (d.fMask.testBit 15 = false → t'.mon = d.tm.mon ∧ t'.mday = d.tm.mday) := by
    intro t ht
    obtain ⟨e1, e2, e3, e4⟩ := y2 t ht
    unfold PgTime.validateDoy
    rw [show hasBits d.fMask 32768 = d.fMask.testBit 15 from hasBits_iff (k := 15)]
    split
    · rename_i h15
      obtain ⟨c1, c2⟩ := e4 h15
      obtain ⟨-, -, -, -, d1, d2⟩ := h.core.doy h15
      rw [date2julian_eq p t.year 1 1 (by omega) (by omega) (by omega) (by omega) (by omega) (by omega) (by omega), Res.bind_ok,
        jdn_closed _ _ _ (by omega) (by omega), if_neg (by omega), chk32_ok (by omega), Res.bind_ok, chk32_ok (by omega), Res.bind_ok]
      obtain ⟨y, m, dd, e, -⟩ := julian2date_spec p ((t.year + 4799) * 365 - 32167 + ((t.year + 4799) / 4 - (t.year + 4799) / 100 +
        (t.year + 4799) / 100 / 4) + (7834 * (1 + 13) / 256 + 1) + t.yday - 1) (by omega) (by omega)
      rw [e]
      exact ⟨_, rfl, fun n => by rw [n] at h15; cases h15⟩
    · exact ⟨t, rfl, fun _ => ⟨e1, e2⟩⟩
  unfold PgTime.validateDate
  constructor
  · refine Res.safe_bind_post y1 fun t ht => ?_
    obtain ⟨t', e, -⟩ := doy t ht
    rw [e, Res.bind_ok]
    exact validateMonthDay_safe _ _
  · intro tm e
    obtain ⟨t, ht, e⟩ := Res.bind_eq_ok.1 e
    obtain ⟨t', e', k⟩ := doy t ht
    rw [e', Res.bind_ok] at e
    unfold PgTime.validateMonthDay at e
    rw [show hasBits d.fMask 2 = d.fMask.testBit 1 from hasBits_iff (k := 1), show hasBits d.fMask 8 = d.fMask.testBit 3 from hasBits_iff (k := 3)] at e
    split at e
    · cases e
    · rename_i hm
      split at e
      · cases e
      · rename_i hd
        have : tm = t' := by
          split at e
          · obtain ⟨_, -, e⟩ := Res.bind_eq_ok.1 e
            split at e
            · cases e
            · cases e; rfl
          · cases e; rfl
        subst this
        simp only [Bool.and_eq_true, Bool.or_eq_true, decide_eq_true_eq, not_and, not_or, Int.not_lt] at hm hd
        constructor
        · cases h1 : d.fMask.testBit 1 with
          | true => have := hm h1; omega
          | false =>
            have h15 : d.fMask.testBit 15 = false := by
              rcases bit_cases d.fMask 15 with t | t
              · have := (h.core.doy t).2.1.1
                rw [h1] at this; cases this
              · exact t
            rw [(k h15).1, h.core.mon h1]
            omega
        · cases h1 : d.fMask.testBit 3 with
          | true => have := hd h1; omega
          | false =>
            have h15 : d.fMask.testBit 15 = false := by
              rcases bit_cases d.fMask 15 with t | t
              · have := (h.core.doy t).2.1.2.2
                rw [h1] at this; cases this
              · exact t
            rw [(k h15).2, h.core.mday h1]
            omega

theorem finish_safe {d : Dec} (h : Sound A Y d) (hh : 0 ≤ d.tm.hour) : (finishFields p d).1 ≠ .panic ∧
    Post (finishFields p) (fun _ d' => DayIn d'.tm) d := by
  obtain ⟨h1, h2⟩ := validateDate_safe (p := p) h
  unfold finishFields
  constructor
  · rw [St.bind_run, St.get_run]
    dsimp only
    rw [St.bind_run, St.lift_run]
    cases hv : d.tm.validateDate p d.fMask d.isJulian d.is2 d.bc with
    | panic => exact absurd hv h1
    | err e => exact Res.safe_err _
    | ok tm =>
      have hc := validateDate_clock hv
      dsimp only
      rw [St.bind_run, St.mod_run]
      dsimp only
      rw [St.bind_run, St.get_run]
      dsimp only
      split
      · exact Res.safe_err _
      · rename_i hn
        split
        · exact Res.safe_ok _
        · split
          · rename_i hm
            rw [chk32_ok (by omega)]
            exact Res.safe_ok _
          · exact Res.safe_ok _
  · wp
    intro tm htm _
    have := h2 tm htm
    exact ⟨fun _ => ⟨this.mon, this.mday⟩, fun _ => ⟨fun _ _ _ => ⟨this.mon, this.mday⟩, fun _ => this⟩⟩

/-! ## The clock fields of a time of day -/

section
variable {ftypes : List TokenField} {i : Nat}

theorem decodeTime_max (w : Bytes) (range : Nat) : Stays (fun t : TimeS => t.tm.hour ≤ 2147483647) (decodeTime w range) := by
  have tail : ∀ s : Bytes, Stays (fun t : TimeS => t.tm.hour ≤ 2147483647) (timeTail s range) := by
    intro s
    unfold timeTail
    split
    · exact Stays.modBind (fun s h => h) (Stays.ite (fun _ => Stays.mod fun s h => by dsimp only; omega) fun _ => Stays.pure)
    · refine Stays.ite (fun _ => Stays.liftBind fun _ _ => Stays.mod fun s h => by dsimp only; omega) fun _ => Stays.ite (fun _ => ?_) fun _ => Stays.fail
      unfold timeSeconds
      refine Stays.liftBind fun _ _ => Stays.modBind (fun s h => h) ?_
      split
      · exact Stays.mod fun s h => h
      · exact Stays.ite (fun _ => Stays.liftBind fun _ _ => Stays.mod fun s h => h) fun _ => Stays.fail
  unfold decodeTime
  refine Stays.modBind (fun s h => h) (Stays.liftBind fun a ha => Stays.modBind (fun s h => str2i32_max ha) ?_)
  split
  · exact Stays.liftBind fun _ _ => Stays.modBind (fun s h => h) ((tail _).bind fun _ => Stays.get.bind fun _ =>
      Stays.ite (fun _ => Stays.fail) fun _ => Stays.pure)
  · exact Stays.fail

/-- The clock fields while a time of day is decoded. -/
abbrev AnyClock (d : Dec) : Prop := DecIn 2147483647 d

theorem fieldT_in {f : Field} (hf : GoodField 2147483647 f) {s : Dec × Unit} (hs : AnyClock s.1) :
    Post (timeOnlyField p plainLook order ftypes i f) (fun _ s' => AnyClock s'.1) s := by
  have step : ∀ d : Dec, AnyClock d → Post addMask (fun _ d' => AnyClock d') d := by
    intro d h
    rw [addMask_post]
    exact fun _ => ⟨h.clock, h.label⟩
  have word : Post (wordTokenT plainLook ftypes i f.2) (fun _ s' => AnyClock s'.1) s := by
    unfold wordTokenT
    rw [Post.bind, Post.look]
    dsimp only
    wp
    refine ⟨fun _ => hs, fun _ => ?_⟩
    unfold wordActionT
    rw [Post.bind, Post.mod]
    split
    · unfold reservedWordT
      wp
      intro a ha
      split <;> wp
      exact ⟨⟨by dsimp only; omega, by dsimp only; omega, by dsimp only; omega, hs.clock.f⟩, fun h => absurd h (by omega)⟩
    · rw [Post.mod]; exact ⟨hs.clock, fun h => absurd h (by omega)⟩
    · rw [Post.mod]; exact ⟨hs.clock, fun h => absurd h (by omega)⟩
    · wp
      exact fun g hg => ⟨hs.clock, fun h => absurd h (by omega)⟩
    · unfold isoTimeWordT
      rw [Post.bind, Post.mod]
      split
      · rw [Post.fail]; trivial
      · wp
        exact fun _ g hg => ⟨hs.clock, fun h => absurd h (by omega)⟩
    · rw [Post.fail]; trivial
  unfold timeOnlyField
  split
  · unfold dateTokenT
    wp
    exact fun _ => (date_in (by omega) f.2 hs).mono fun _ s' h => step s'.1 h
  · wp
    unfold onTime
    rw [Post.zoom]
    refine ((decodeTime_in f.2 _ _).and ((decodeTime_max f.2 _).post (s := ⟨s.1.tMask, s.1.tm, s.1.fSec⟩) hs.clock.h.2)).mono fun _ t ht => ?_
    obtain ⟨⟨t1, t2, t3, t4⟩, t5⟩ := ht
    refine step _ ⟨⟨?_, ?_, ?_, ?_⟩, fun h => absurd h (by omega)⟩ <;> dsimp only <;> omega
  · rename_i e
    have hw := hf.number e
    rw [Post.bind]
    refine Post.mono (Q := fun _ s' => AnyClock s'.1) ?_ fun _ s' h => by wp; exact step s'.1 h
    unfold numberTokenT
    wp
    exact ⟨fun _ => labelled_in (by omega) (by omega) hw hs, fun _ => ⟨fun _ => ⟨fun _ => date_in (by omega) f.2 hs, fun _ =>
      fun _ => onNum_in (numberField_stays (by omega) hw _) hs⟩, fun _ => ⟨fun _ => onNum_in (numberField_stays (by omega) hw _) hs,
      fun _ => onNum_in (number_stays (by omega) hw _ _ _) hs⟩⟩⟩
  · wp; exact word.mono fun b s' h => ⟨fun _ => h, fun _ => step s'.1 h⟩
  · wp; exact word.mono fun b s' h => ⟨fun _ => h, fun _ => step s'.1 h⟩
  · wp

theorem loopT_all {I : Dec → Prop} {G : Field → Prop}
    (h : ∀ ft i f s, G f → I s.1 → Post (timeOnlyField p plainLook order ft i f) (fun _ s' => I s'.1) s) :
    ∀ (l : List Field) (ft : List TokenField) (i : Nat) (s : Dec × Unit), (∀ f ∈ l, G f) → I s.1 →
      Post (timeOnlyLoop p plainLook order ft l i) (fun _ s' => I s'.1) s := by
  intro l
  induction l with
  | nil => intro ft i s _ hs; rw [timeOnlyLoop, Post.pure]; exact hs
  | cons f l ih =>
    intro ft i s hl hs
    rw [timeOnlyLoop, Post.bind]
    exact (h ft i f s (hl f (by simp)) hs).mono fun _ s' hs' => ih ft _ s' (fun g hg => hl g (by simp [hg])) hs'

end
end Pg
