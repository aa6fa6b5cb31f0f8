import Verif.Lemmas.CacheSim

/-! # Absence of panics in a release build -/

namespace Pg

theorem Res.safe_ok {α : Type} (a : α) : (Res.ok a : Res α) ≠ .panic := by intro h; cases h
theorem Res.safe_pure {α : Type} (a : α) : (pure a : Res α) ≠ .panic := by intro h; cases h
theorem Res.safe_err {α : Type} (e : Err) : (Res.err e : Res α) ≠ .panic := by intro h; cases h
theorem Res.safe_bind {α β : Type} {r : Res α} {f : α → Res β} (h : r ≠ .panic) (hf : ∀ a, f a ≠ .panic) :
    r >>= f ≠ .panic := by
  cases r with
  | ok a => exact hf a
  | err e => intro h; cases h
  | panic => exact absurd rfl h
theorem Res.safe_bind_post {α β : Type} {r : Res α} {f : α → Res β} (h : r ≠ .panic)
    (hf : ∀ a, r = .ok a → f a ≠ .panic) : r >>= f ≠ .panic := by
  cases r with
  | ok a => exact hf a rfl
  | err e => intro h; cases h
  | panic => exact absurd rfl h
theorem chk32_release (x : Int) : chk32 .release x ≠ .panic := by
  unfold chk32; split <;> intro h <;> cases h
theorem chk64_release (x : Int) : chk64 .release x ≠ .panic := by
  unfold chk64; split <;> intro h <;> cases h
theorem chkU32_release (x : Int) : chkU32 .release x ≠ .panic := by
  unfold chkU32; split <;> intro h <;> cases h

theorem Res.safe_ite {α : Type} {c : Prop} [Decidable c] {a b : Res α} (ha : a ≠ .panic) (hb : b ≠ .panic) :
    (if c then a else b) ≠ .panic := by
  by_cases h : c
  · rwa [if_pos h]
  · rwa [if_neg h]

/-- Goes through a computation in a release build. -/
macro "calmly" : tactic => `(tactic| repeat' first
  | exact Res.safe_ok _
  | exact Res.safe_pure _
  | exact Res.safe_err _
  | exact chk32_release _
  | exact chk64_release _
  | exact chkU32_release _
  | assumption
  | refine Res.safe_bind ?_ (fun _ => ?_)
  | refine Res.safe_ite ?_ ?_
  | split
  | dsimp only)

theorem date2julian_release (y m d : Int) : date2julian .release y m d ≠ .panic := by
  unfold date2julian; calmly

theorem julian2date_release (jd : Int) : julian2date .release jd ≠ .panic := by
  unfold julian2date; calmly

theorem date2time_release (jd : Int) : date2time .release jd ≠ .panic := by
  unfold date2time; calmly

theorem time2t_release (h m s f : Int) : time2t .release h m s f ≠ .panic := by
  unfold time2t; calmly

theorem toTimestamp_release (tm : PgTime) (f : Int) : tm.toTimestamp .release f ≠ .panic := by
  have h1 := date2julian_release
  have h2 := time2t_release
  unfold PgTime.toTimestamp
  split
  · calmly
  · refine Res.safe_bind (h1 _ _ _) fun _ => Res.safe_bind (h1 _ _ _) fun _ =>
      Res.safe_bind (chk32_release _) fun _ => Res.safe_bind (h2 _ _ _ _) fun _ => ?_
    calmly

theorem daysOfMonth_safe (y m : Int) (h : 1 ≤ m ∧ m ≤ 12) : daysOfMonth y m ≠ .panic := by
  unfold daysOfMonth
  rw [if_pos h.1]
  have hl : ∀ b, (dayTable b).length = 13 := by decide
  rw [List.getElem?_eq_getElem (by rw [hl]; omega)]
  exact Res.safe_ok _

theorem validateMonthDay_safe (tm : PgTime) (fMask : Nat) : tm.validateMonthDay fMask ≠ .panic := by
  unfold PgTime.validateMonthDay
  split
  · calmly
  · rename_i h
    split
    · calmly
    · split
      · rename_i hm
        have hb : hasBits fMask M_MONTH = true := by
          unfold hasBits
          have h2 : fMask &&& 2 = (fMask &&& 14) &&& 2 := by rw [Nat.and_assoc]; rfl
          rw [h2, hm]; decide
        rw [hb] at h
        simp only [Bool.true_and, Bool.or_eq_true, decide_eq_true_eq, not_or, Int.not_lt] at h
        refine Res.safe_bind (daysOfMonth_safe _ _ (by omega)) fun _ => ?_
        calmly
      · calmly

theorem validateDate_release (tm : PgTime) (fMask : Nat) (a b c : Bool) :
    tm.validateDate .release fMask a b c ≠ .panic := by
  unfold PgTime.validateDate
  refine Res.safe_bind ?_ fun _ => Res.safe_bind ?_ fun _ => validateMonthDay_safe _ _
  · unfold PgTime.validateYear; calmly
  · unfold PgTime.validateDoy
    have h1 := date2julian_release
    have h2 := julian2date_release
    split
    · exact Res.safe_bind (h1 _ _ _) fun _ => Res.safe_bind (chk32_release _) fun _ =>
        Res.safe_bind (chk32_release _) fun _ => Res.safe_bind (h2 _) fun _ => Res.safe_pure _
    · calmly

theorem roundTo_release (v n : Int) (h : 0 ≤ n ∧ n ≤ 6) : Interval.roundTo .release v n ≠ .panic := by
  unfold Interval.roundTo
  have h1 : n.toNat < Interval.scales.length := by
    rw [show Interval.scales.length = 7 from rfl]; omega
  have h2 : n.toNat < Interval.offsets.length := by
    rw [show Interval.offsets.length = 7 from rfl]; omega
  rw [List.getElem?_eq_getElem h1, List.getElem?_eq_getElem h2]
  simp only
  unfold Interval.roundScale
  calmly

theorem timeAdjust_release (t : Time) (n : Int) : t.adjustByTypmod .release n ≠ .panic := by
  unfold Time.adjustByTypmod
  split
  · rename_i h; exact Res.safe_bind (roundTo_release _ _ h) fun _ => Res.safe_pure _
  · calmly

theorem tsAdjust_release (t : Timestamp) (n : Int) : t.adjustByTypmod .release n ≠ .panic := by
  unfold Timestamp.adjustByTypmod
  split
  · split
    · calmly
    · exact Res.safe_bind (roundTo_release _ _ (by omega)) fun _ => Res.safe_pure _
  · calmly

theorem ivAdjust_release (a : Interval) (n : Int) : a.adjustByTypmod .release n ≠ .panic := by
  unfold Interval.adjustByTypmod
  split
  · refine Res.safe_bind ?_ fun _ => ?_
    · unfold Interval.adjustRange; calmly
    · split
      · split
        · calmly
        · exact Res.safe_bind (roundTo_release _ _ (by omega)) fun _ => Res.safe_pure _
      · calmly
  · calmly

theorem str2i32_safe (s : Bytes) : str2i32 s ≠ .panic := by
  unfold str2i32
  simp only
  calmly

theorem str2d_safe (s : Bytes) : str2d s ≠ .panic := by
  unfold str2d
  simp only
  calmly

theorem fraction_safe (s : Bytes) : parseFractionalSecond s ≠ .panic := by
  unfold parseFractionalSecond
  refine Res.safe_bind (str2d_safe _) fun _ => ?_
  calmly

/-- A computation that never panics and keeps an invariant. -/
def Keeps {σ α : Type} (I : σ → Prop) (m : St σ α) : Prop := ∀ s, I s → (m s).1 ≠ .panic ∧ I (m s).2

namespace Keeps
variable {σ τ α β C : Type} {I : σ → Prop}

theorem pure (a : α) : Keeps I (Pure.pure a : St σ α) := fun _ h => ⟨Res.safe_ok _, h⟩
theorem fail (e : Err) : Keeps I (St.fail e : St σ α) := fun _ h => ⟨Res.safe_err _, h⟩
theorem get : Keeps I (St.get : St σ σ) := fun _ h => ⟨Res.safe_ok _, h⟩
theorem mod {f : σ → σ} (hf : ∀ s, I s → I (f s)) : Keeps I (St.mod f) := fun _ h => ⟨Res.safe_ok _, hf _ h⟩
theorem lift {r : Res α} (hr : r ≠ .panic) : Keeps I (St.lift r : St σ α) := fun _ h => ⟨hr, h⟩

theorem bind_post {m : St σ α} {f : α → St σ β} (Q : α → Prop) (hm : Keeps I m)
    (hq : ∀ s a s', I s → m s = (.ok a, s') → Q a) (hf : ∀ a, Q a → Keeps I (f a)) : Keeps I (m >>= f) := by
  intro s hs
  have h1 := hm s hs
  have h2 := hq s
  rw [St.bind_run]
  cases hr : m s with
  | mk r s' =>
    rw [hr] at h1
    cases r with
    | ok a => exact hf a (h2 a s' hs hr) s' h1.2
    | err e => exact ⟨Res.safe_err _, h1.2⟩
    | panic => exact absurd rfl h1.1

theorem bind {m : St σ α} {f : α → St σ β} (hm : Keeps I m) (hf : ∀ a, Keeps I (f a)) : Keeps I (m >>= f) :=
  bind_post (fun _ => True) hm (fun _ _ _ _ _ => trivial) fun a _ => hf a

theorem get_bind {f : σ → St σ β} (hf : ∀ s, I s → Keeps I (f s)) : Keeps I (St.get >>= f) :=
  bind_post I get (fun _ _ _ hs h => by cases h; exact hs) hf

theorem zoom {g : σ → τ} {put : τ → σ → σ} {m : St τ α} {J : τ → Prop} (hm : Keeps J m) (hg : ∀ s, I s → J (g s))
    (hp : ∀ s t, I s → J t → I (put t s)) : Keeps I (St.zoom g put m) := fun s hs =>
  ⟨(hm _ (hg s hs)).1, hp _ _ hs (hm _ (hg s hs)).2⟩

theorem noLook {m : St σ α} (hm : Keeps I m) : Keeps (fun s : σ × C => I s.1) (Pg.noLook m) := fun s hs =>
  ⟨(hm s.1 hs).1, (hm s.1 hs).2⟩

theorem ignore {m : St σ α} (hm : Keeps I m) : Keeps I (St.ignore m) := by
  intro s hs
  have h1 := hm s hs
  unfold St.ignore
  cases hr : m s with
  | mk r s' =>
    rw [hr] at h1
    cases r with
    | ok a => exact ⟨Res.safe_ok _, h1.2⟩
    | err e => exact ⟨Res.safe_ok _, h1.2⟩
    | panic => exact absurd rfl h1.1

end Keeps

/-- A computation that never panics. -/
abbrev Calm {σ α : Type} (m : St σ α) : Prop := Keeps (fun _ => True) m

/-- Goes through a computation in a release build. -/
macro "quietly" : tactic => `(tactic| repeat' first
  | exact Keeps.pure _
  | exact Keeps.fail _
  | exact Keeps.get
  | exact Keeps.mod (fun _ _ => trivial)
  | exact Keeps.lift (str2i32_safe _)
  | exact Keeps.lift (str2d_safe _)
  | exact Keeps.lift (fraction_safe _)
  | exact Keeps.lift (chk32_release _)
  | exact Keeps.lift (chk64_release _)
  | exact Keeps.lift (julian2date_release _)
  | exact Keeps.lift (date2time_release _)
  | exact Keeps.lift (validateDate_release _ _ _ _ _)
  | assumption
  | refine Keeps.bind ?_ (fun _ => ?_)
  | split)

theorem numberDate_calm (s : Bytes) : Calm (numberDate s) := by unfold numberDate; quietly
theorem numberTime_calm (s : Bytes) (a b : Nat) : Calm (numberTime s a b) := by unfold numberTime; quietly
theorem numberField_calm (s : Bytes) (a : Nat) : Calm (decodeNumberField s a) := by
  have h1 := numberDate_calm
  have h2 := numberTime_calm
  unfold decodeNumberField
  quietly
  all_goals first | exact h2 _ _ _ | exact h1 _
theorem numberByMask_calm (s : Bytes) (v : Int) (h : Bool) (m : Nat) (o : DateOrder) :
    Calm (numberByMask s v h m o) := by
  have h1 := numberField_calm
  unfold numberByMask
  simp only
  quietly
  exact h1 _ _
theorem numberVal_calm (s : Bytes) (v : Int) (h : Bool) (m : Nat) (o : DateOrder) :
    Calm (decodeNumberVal s v h m o) := by
  have h1 := numberByMask_calm
  unfold decodeNumberVal
  quietly
  exact h1 _ _ _ _ _
theorem number_calm (s : Bytes) (h : Bool) (m : Nat) (o : DateOrder) : Calm (decodeNumber s h m o) := by
  have h1 := numberVal_calm
  have h2 := numberField_calm
  unfold decodeNumber
  quietly
  · exact h1 _ _ _ _ _
  · exact Keeps.ignore (h2 _ _)
  · exact h1 _ _ _ _ _

theorem onNum_calm {α : Type} {m : St NumS α} (h : Calm m) : Calm (onNum m) :=
  Keeps.zoom h (fun _ _ => trivial) fun _ _ _ _ => trivial

/-- What the keyword tables give. -/
def KnownWord (x : TokenType × Int) : Prop :=
  (x.1 = .reserv ∨ x.1 = .units ∨ x.1 = .isotime ∨ x.1 = .ago) → 0 ≤ x.2 ∧ x.2 ≤ 37

theorem ofInt_safe {v : Int} (h : 0 ≤ v ∧ v ≤ 37) : TokenField.ofInt v ≠ .panic := by
  unfold TokenField.ofInt
  rw [if_neg (by omega), List.getElem?_eq_getElem (by
    rw [show TokenField.all.length = 38 from rfl]; omega)]
  exact Res.safe_ok _

theorem known_of_table {t : List DateToken} (hs : TableSorted t)
    (h : t.all (fun e => decide ((e.ty = .reserv ∨ e.ty = .units ∨ e.ty = .isotime ∨ e.ty = .ago) → 0 ≤ e.value ∧ e.value ≤ 37)) = true)
    (w : Bytes) : KnownWord (tokenResult (lookupIn t w)) := by
  cases hl : lookupIn t w with
  | none => intro h; simp [tokenResult] at h
  | some e =>
    have := ((lookupIn_some hs w e).1 hl).1
    have h := of_decide_eq_true (List.all_eq_true.1 h e this)
    exact h

theorem lookDate_keeps {σ : Type} {I : σ → Prop} (i : Nat) (w : Bytes) :
    Keeps (fun s : σ × Unit => I s.1) (lookDate plainLook i w) := by
  intro s hs
  simp only [lookDate, plainLook, searchDate_eq]
  exact ⟨Res.safe_ok _, hs⟩

theorem lookDate_val {σ : Type} {i : Nat} {w : Bytes} {s s' : σ × Unit} {a : TokenType × Int}
    (h : lookDate plainLook i w s = (.ok a, s')) : a = tokenResult (lookupIn dateTable w) := by
  simp only [lookDate, plainLook, searchDate_eq] at h
  cases h; rfl

theorem lookDate_known {σ : Type} {i : Nat} {w : Bytes} {s s' : σ × Unit} {a : TokenType × Int}
    (h : lookDate plainLook i w s = (.ok a, s')) : KnownWord a := by
  rw [lookDate_val h]
  exact known_of_table dateTable_sorted (by decide +kernel) w

theorem lookDelta_keeps {σ : Type} {I : σ → Prop} (i : Nat) (w : Bytes) :
    Keeps (fun s : σ × Unit => I s.1) (lookDelta plainLook i w) := by
  intro s hs
  simp only [lookDelta, plainLook, searchDelta_eq]
  exact ⟨Res.safe_ok _, hs⟩

theorem lookDelta_known {σ : Type} {i : Nat} {w : Bytes} {s s' : σ × Unit} {a : TokenType × Int}
    (h : lookDelta plainLook i w s = (.ok a, s')) : KnownWord a := by
  have : a = tokenResult (lookupIn deltaTable w) := by
    simp only [lookDelta, plainLook, searchDelta_eq] at h
    cases h; rfl
  rw [this]
  exact known_of_table deltaTable_sorted (by decide +kernel) w

theorem take_one {w : Bytes} {x : Nat} (h : [x] = w.take 10) : w = [x] := by
  have hl := congrArg List.length h
  rw [List.length_take] at hl
  simp only [List.length_cons, List.length_nil] at hl
  rw [List.take_of_length_le (by omega)] at h
  exact h.symm

/-- The word `t`. -/
theorem isotime_word {w : Bytes} {v : Int} (h : tokenResult (lookupIn dateTable w) = (.isotime, v)) : w = b!"t" := by
  cases hl : lookupIn dateTable w with
  | none => rw [hl] at h; cases h
  | some e =>
    rw [hl] at h
    obtain ⟨hm, hk⟩ := (lookupIn_some dateTable_sorted w e).1 hl
    have ht : dateTable.all (fun e => decide (e.ty = .isotime → e.token = b!"t")) = true := by decide +kernel
    have he : e.ty = .isotime := congrArg Prod.fst h
    have ha := of_decide_eq_true (List.all_eq_true.1 ht e hm) he
    rw [ha] at hk
    exact take_one hk

theorem Keeps.calm_noLook {σ C α : Type} {m : St σ α} (hm : Calm m) : Calm (Pg.noLook (C := C) m) :=
  fun s hs => ⟨(hm s.1 hs).1, trivial⟩

theorem Keeps.calm_zoom {σ τ α : Type} {g : σ → τ} {put : τ → σ → σ} {m : St τ α} (hm : Calm m) :
    Calm (St.zoom g put m) := Keeps.zoom hm (fun _ _ => trivial) fun _ _ _ _ => trivial

theorem dateSplit_safe (fuel : Nat) (s : Bytes) (nf : Nat) : dateSplit fuel s nf ≠ .panic := by
  induction fuel generalizing s nf with
  | zero => unfold dateSplit; exact Res.safe_ok _
  | succ n ih =>
    unfold dateSplit
    split
    · exact Res.safe_ok _
    · split
      · exact Res.safe_err _
      · split
        · exact Res.safe_bind (ih _ _) fun _ => Res.safe_ok _
        · exact Res.safe_bind (ih _ _) fun _ => Res.safe_ok _

theorem textPass_calm (fs : List Bytes) (i : Nat) : Calm (textPass plainLook fs i) := by
  induction fs generalizing i with
  | nil => exact Keeps.pure _
  | cons f fs ih =>
    unfold textPass
    split
    · refine Keeps.bind (lookDate_keeps (I := fun _ => True) _ _) fun a => ?_
      obtain ⟨ty, v⟩ := a
      simp only
      split
      · exact Keeps.bind (ih _) fun _ => Keeps.pure _
      · split
        · refine Keeps.bind (Keeps.calm_noLook (by quietly)) fun _ =>
            Keeps.bind (Keeps.calm_noLook (by quietly)) fun _ => ?_
          split
          · exact Keeps.fail _
          · exact Keeps.bind (Keeps.calm_noLook (by quietly)) fun _ =>
              Keeps.bind (ih _) fun _ => Keeps.pure _
        · exact Keeps.fail _
    · exact Keeps.bind (ih _) fun _ => Keeps.pure _

theorem numPass_calm (order : DateOrder) (fs : List (Option Bytes)) : Calm (numPass order fs) := by
  induction fs with
  | nil => exact Keeps.pure _
  | cons f fs ih =>
    cases f with
    | none => unfold numPass; exact ih
    | some f =>
      unfold numPass
      have := fun a b c => Keeps.calm_zoom (g := fun s : DateS => (⟨s.dMask, s.tm, s.fsec, s.is2⟩ : NumS))
        (put := fun n s => { s with dMask := n.tMask, tm := n.tm, fsec := n.fsec, is2 := n.is2 })
        (number_calm a b c order)
      quietly
      exact this _ _ _

theorem decodeDate_calm (str : Bytes) (order : DateOrder) : Calm (decodeDate plainLook str order) := by
  unfold decodeDate
  refine Keeps.calm_zoom ?_
  unfold dateBody
  refine Keeps.bind (Keeps.lift (dateSplit_safe _ _ _)) fun _ => Keeps.bind (textPass_calm _ _) fun _ =>
    Keeps.bind (Keeps.calm_noLook (numPass_calm _ _)) fun _ =>
    Keeps.bind (Keeps.calm_noLook Keeps.get) fun _ => ?_
  quietly

theorem decodeTime_calm (f : Bytes) (range : Nat) : Calm (decodeTime f range) := by
  have h1 : ∀ s, Calm (timeSeconds s) := by
    intro s; unfold timeSeconds; quietly
  have h2 : ∀ s, Calm (timeTail s range) := by
    intro s; unfold timeTail; quietly
  unfold decodeTime
  quietly
  exact h2 _

theorem dateToken_calm (f : Bytes) (order : DateOrder) : Calm (dateToken .release plainLook f order) := by
  have h1 := decodeDate_calm
  unfold dateToken
  refine Keeps.bind (Keeps.calm_noLook Keeps.get) fun _ => ?_
  split
  · refine Keeps.bind (Keeps.lift (str2i32_safe _)) fun _ =>
      Keeps.bind (Keeps.lift (julian2date_release _)) fun _ =>
      Keeps.bind (Keeps.calm_noLook (by quietly)) fun _ => Keeps.fail _
  · quietly
    exact h1 _ _

theorem labelled_calm (str : Bytes) : Calm (labelled .release str) := by
  have h1 : ∀ v s, Calm (labelJulian .release v s) := by
    intro v s; unfold labelJulian; quietly
  have h2 : ∀ t v s, Calm (labelAssign .release t str v s) := by
    intro t v s; unfold labelAssign
    have h3 := fun s m => onNum_calm (numberField_calm s m)
    quietly
    · exact h1 _ _
    · exact h3 _ _
  unfold labelled
  quietly
  exact h2 _ _ _

theorem numberToken_calm (str : Bytes) (order : DateOrder) : Calm (numberToken .release plainLook str order) := by
  unfold numberToken
  refine Keeps.bind (Keeps.calm_noLook Keeps.get) fun d => ?_
  have h1 := fun s m => Keeps.calm_noLook (C := Unit) (onNum_calm (numberField_calm s m))
  have h2 := fun s h m o => Keeps.calm_noLook (C := Unit) (onNum_calm (number_calm s h m o))
  have h3 := Keeps.calm_noLook (C := Unit) (labelled_calm str)
  have h4 := decodeDate_calm
  quietly
  all_goals first | exact h1 _ _ | exact h2 _ _ _ _ | exact h4 _ _

theorem wordAction_calm {ftypes : List TokenField} {i : Nat} {ty : TokenType} {v : Int} (hk : KnownWord (ty, v))
    (hi : ty = .isotime → i + 1 < ftypes.length) : Calm (wordAction ftypes i ty v) := by
  unfold wordAction
  refine Keeps.bind (by quietly) fun _ => ?_
  split
  · have := ofInt_safe (hk (.inl rfl))
    unfold reservedWord
    refine Keeps.bind (Keeps.lift this) fun _ => ?_
    quietly
  · unfold monthWord; quietly
  · quietly
  · quietly
  · quietly
  · have := ofInt_safe (hk (.inr (.inl rfl)))
    exact Keeps.bind (by quietly) fun _ => Keeps.bind (Keeps.lift this) fun _ => by quietly
  · have := ofInt_safe (hk (.inr (.inr (.inl rfl))))
    unfold isoTimeWord
    refine Keeps.bind (by quietly) fun _ => Keeps.bind Keeps.get fun _ => ?_
    split
    · quietly
    · rw [List.getElem?_eq_getElem (hi rfl)]
      simp only
      split
      · quietly
      · exact Keeps.bind (Keeps.lift this) fun _ => by quietly
  · quietly

theorem wordToken_calm {ftypes : List TokenField} {i : Nat} {w : Bytes}
    (hi : w = b!"t" → i + 1 < ftypes.length) : Calm (wordToken plainLook ftypes i w) := by
  unfold wordToken
  refine Keeps.bind_post (fun a => KnownWord a ∧ (a.1 = .isotime → i + 1 < ftypes.length))
    (lookDate_keeps (I := fun _ => True) _ _) (fun s a s' _ h => ⟨lookDate_known h, fun ha => ?_⟩) fun a ha => ?_
  · have := lookDate_val h
    exact hi (isotime_word (v := a.2) (by rw [← this, ← ha]))
  · obtain ⟨ty, v⟩ := a
    simp only
    split
    · quietly
    · exact Keeps.bind (Keeps.calm_noLook (wordAction_calm ha.1 ha.2)) fun _ => Keeps.pure _

theorem onTime_calm {α : Type} {m : St TimeS α} (h : Calm m) : Calm (onTime m) := Keeps.calm_zoom h

theorem addMask_calm : Calm addMask := by unfold addMask; quietly

theorem timeToken_calm (f : Bytes) : Calm (timeToken f) := by
  unfold timeToken
  have := onTime_calm (decodeTime_calm f INTERVAL_FULL_RANGE)
  quietly

theorem dateTimeField_calm {order : DateOrder} {ftypes : List TokenField} {i : Nat} {f : Field}
    (hi : f.2 = b!"t" → i + 1 < ftypes.length) : Calm (dateTimeField .release plainLook order ftypes i f) := by
  have hm := Keeps.calm_noLook (C := Unit) addMask_calm
  unfold dateTimeField
  split
  · exact Keeps.bind (dateToken_calm _ _) fun _ => hm
  · exact Keeps.bind (Keeps.calm_noLook (timeToken_calm _)) fun _ => hm
  · exact Keeps.bind (numberToken_calm _ _) fun _ => hm
  · refine Keeps.bind (wordToken_calm hi) fun _ => ?_
    quietly
  · refine Keeps.bind (wordToken_calm hi) fun _ => ?_
    quietly
  · quietly

theorem dateTimeLoop_calm {order : DateOrder} {ftypes : List TokenField} (fs : List Field) (i : Nat)
    (hl : i + fs.length ≤ ftypes.length) (hi : ∀ f, fs.getLast? = some f → f.2 = b!"t" → i + fs.length < ftypes.length) :
    Calm (dateTimeLoop .release plainLook order ftypes fs i) := by
  induction fs generalizing i with
  | nil => exact Keeps.pure _
  | cons f fs ih =>
    unfold dateTimeLoop
    simp only [List.length_cons] at hl hi
    refine Keeps.bind (dateTimeField_calm fun h => ?_) fun _ => ih (i + 1) (by omega) fun g hg ht => ?_
    · cases fs with
      | nil =>
        have := hi f rfl h
        simp only [List.length_nil] at this
        omega
      | cons g gs => simp only [List.length_cons] at hl; omega
    · cases fs with
      | nil => cases hg
      | cons a b =>
        have := hi g (by rw [List.getLast?_cons_cons]; exact hg) ht
        omega

theorem finishFields_calm : Calm (finishFields .release) := by unfold finishFields; quietly

theorem decodeDateTime_calm {order : DateOrder} {fs : List Field}
    (h : ∀ f, fs.getLast? = some f → f.2 ≠ b!"t") : Calm (decodeDateTime .release plainLook order fs) := by
  unfold decodeDateTime
  refine Keeps.bind (dateTimeLoop_calm fs 0 (by simp) fun f hf ht => absurd ht (h f hf)) fun _ =>
    Keeps.bind (Keeps.calm_noLook finishFields_calm) fun _ =>
    Keeps.bind (Keeps.calm_noLook Keeps.get) fun _ => ?_
  quietly

theorem dateTokenT_calm (order : DateOrder) (ftypes : List TokenField) (i : Nat) (f : Bytes) :
    Calm (dateTokenT plainLook order ftypes i f) := by
  unfold dateTokenT
  have := decodeDate_calm f order
  quietly

theorem numberTokenT_calm (order : DateOrder) (ftypes : List TokenField) (i : Nat) (str : Bytes) :
    Calm (numberTokenT .release plainLook order ftypes i str) := by
  unfold numberTokenT
  refine Keeps.bind (Keeps.calm_noLook Keeps.get) fun d => ?_
  have h1 := fun s m => Keeps.calm_noLook (C := Unit) (onNum_calm (numberField_calm s m))
  have h2 := fun s h m o => Keeps.calm_noLook (C := Unit) (onNum_calm (number_calm s h m o))
  have h3 := Keeps.calm_noLook (C := Unit) (labelled_calm str)
  have h4 := decodeDate_calm
  quietly
  all_goals first | exact h1 _ _ | exact h2 _ _ _ _ | exact h4 _ _

theorem wordActionT_calm {ftypes : List TokenField} {i : Nat} {ty : TokenType} {v : Int} (hk : KnownWord (ty, v)) :
    Calm (wordActionT ftypes i ty v) := by
  unfold wordActionT
  refine Keeps.bind (by quietly) fun _ => ?_
  split
  · have := ofInt_safe (hk (.inl rfl))
    unfold reservedWordT
    refine Keeps.bind (Keeps.lift this) fun _ => ?_
    quietly
  · quietly
  · quietly
  · have := ofInt_safe (hk (.inr (.inl rfl)))
    exact Keeps.bind (by quietly) fun _ => Keeps.bind (Keeps.lift this) fun _ => by quietly
  · have := ofInt_safe (hk (.inr (.inr (.inl rfl))))
    unfold isoTimeWordT
    refine Keeps.bind (by quietly) fun _ => ?_
    split
    · quietly
    · split
      · quietly
      · exact Keeps.bind (Keeps.lift this) fun _ => by quietly
  · quietly

theorem wordTokenT_calm {ftypes : List TokenField} {i : Nat} {w : Bytes} : Calm (wordTokenT plainLook ftypes i w) := by
  unfold wordTokenT
  refine Keeps.bind_post KnownWord (lookDate_keeps (I := fun _ => True) _ _)
    (fun s a s' _ h => lookDate_known h) fun a ha => ?_
  obtain ⟨ty, v⟩ := a
  simp only
  split
  · quietly
  · exact Keeps.bind (Keeps.calm_noLook (wordActionT_calm ha)) fun _ => Keeps.pure _

theorem timeOnlyLoop_calm {order : DateOrder} {ftypes : List TokenField} (fs : List Field) (i : Nat) :
    Calm (timeOnlyLoop .release plainLook order ftypes fs i) := by
  have hm := Keeps.calm_noLook (C := Unit) addMask_calm
  induction fs generalizing i with
  | nil => exact Keeps.pure _
  | cons f fs ih =>
    unfold timeOnlyLoop
    refine Keeps.bind ?_ fun _ => ih _
    unfold timeOnlyField
    split
    · exact Keeps.bind (dateTokenT_calm _ _ _ _) fun _ => hm
    · exact Keeps.bind (Keeps.calm_noLook (onTime_calm (decodeTime_calm _ _))) fun _ => hm
    · exact Keeps.bind (numberTokenT_calm _ _ _ _) fun _ => hm
    · refine Keeps.bind wordTokenT_calm fun _ => ?_
      quietly
    · refine Keeps.bind wordTokenT_calm fun _ => ?_
      quietly
    · quietly

theorem decodeTimeOnly_calm {order : DateOrder} {fs : List Field} :
    Calm (decodeTimeOnly .release plainLook order fs) := by
  unfold decodeTimeOnly
  refine Keeps.bind (timeOnlyLoop_calm fs 0) fun _ =>
    Keeps.bind (Keeps.calm_noLook finishFields_calm) fun _ =>
    Keeps.bind (Keeps.calm_noLook Keeps.get) fun _ => ?_
  quietly

end Pg
