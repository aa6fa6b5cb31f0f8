import Verif.Lemmas.Synonym
import Verif.Lemmas.ParseRun

/-! # No decoder of a date looks at the day of the week

`Blind m`: from two states that differ at most in the day of the week, `m` gives the same result and again two such states. -/

namespace Pg
open Spec

/-- A state without the day of the week. -/
class Undated (σ : Type) where
  er : σ → σ
  idem : ∀ s, er (er s) = er s

export Undated (er)

instance : Undated PgTime := ⟨fun t => { t with wday := 0 }, fun _ => rfl⟩
instance : Undated NumS := ⟨fun s => { s with tm := er s.tm }, fun _ => rfl⟩
instance : Undated TimeS := ⟨fun s => { s with tm := er s.tm }, fun _ => rfl⟩
instance : Undated DateS := ⟨fun s => { s with tm := er s.tm }, fun _ => rfl⟩
instance : Undated Dec := ⟨fun s => { s with tm := er s.tm }, fun _ => rfl⟩
instance {σ : Type} [Undated σ] : Undated (σ × Unit) := ⟨fun s => (er s.1, s.2), fun s => by simp only [Undated.idem]⟩

def Blind {σ α : Type} [Undated σ] (m : St σ α) : Prop := ∀ s t, er s = er t → (m s).1 = (m t).1 ∧ er (m s).2 = er (m t).2

namespace Blind

variable {σ α β : Type} [Undated σ]

theorem pure {a : α} : Blind (Pure.pure a : St σ α) := fun _ _ h => ⟨rfl, h⟩
theorem fail {e : Err} : Blind (St.fail e : St σ α) := fun _ _ h => ⟨rfl, h⟩
theorem panic : Blind (St.panic : St σ α) := fun _ _ h => ⟨rfl, h⟩
theorem lift {r : Res α} : Blind (St.lift r : St σ α) := fun _ _ h => ⟨rfl, h⟩

theorem mod {f : σ → σ} (h : ∀ s, er (f s) = er (f (er s))) : Blind (St.mod f) := fun s t e => ⟨rfl, by
  show er (f s) = er (f t)
  rw [h s, h t, e]⟩

theorem bind {m : St σ α} {f : α → St σ β} (h : Blind m) (hf : ∀ a, Blind (f a)) : Blind (m >>= f) := by
  intro s t e
  obtain ⟨h1, h2⟩ := h s t e
  show (St.bind m f s).1 = (St.bind m f t).1 ∧ er (St.bind m f s).2 = er (St.bind m f t).2
  unfold St.bind
  revert h1 h2
  rcases m s with ⟨r, s'⟩
  rcases m t with ⟨r', t'⟩
  intro h1 h2
  cases h1
  cases r with
  | ok a => exact hf a s' t' h2
  | err e => exact ⟨rfl, h2⟩
  | panic => exact ⟨rfl, h2⟩

theorem getBind {f : σ → St σ β} (h : ∀ s, f s = f (er s)) (hf : ∀ s, Blind (f s)) : Blind (St.get >>= f) := by
  intro s t e
  show (f s s).1 = (f t t).1 ∧ er (f s s).2 = er (f t t).2
  rw [h s, e, ← h t]
  exact hf t s t e

theorem ite {c : Prop} [Decidable c] {a b : St σ α} (ha : Blind a) (hb : Blind b) : Blind (if c then a else b) := by
  by_cases h : c
  · rwa [if_pos h]
  · rwa [if_neg h]

theorem zoom {τ : Type} [Undated τ] {proj : σ → τ} {put : τ → σ → σ} {m : St τ α} (h : Blind m) (hp : ∀ s, er (proj s) = er (proj (er s)))
    (hq : ∀ n s, er (put n s) = er (put (er n) (er s))) : Blind (St.zoom proj put m) := by
  intro s t e
  obtain ⟨h1, h2⟩ := h (proj s) (proj t) (by rw [hp s, hp t, e])
  exact ⟨h1, by show er (put _ s) = er (put _ t); rw [hq, hq _ t, e, h2]⟩

theorem noLook {m : St σ α} (h : Blind m) : Blind (Pg.noLook m : St (σ × Unit) α) := by
  intro s t e
  obtain ⟨h1, h2⟩ := h s.1 t.1 (congrArg Prod.fst e)
  exact ⟨h1, Prod.ext h2 rfl⟩

theorem lookBind {f : σ → St (σ × Unit) β} (h : ∀ s, f s = f (er s)) (hf : ∀ s, Blind (f s)) : Blind (Pg.noLook St.get >>= f) := by
  intro s t e
  show (f s.1 s).1 = (f t.1 t).1 ∧ er (f s.1 s).2 = er (f t.1 t).2
  rw [h s.1, show er s.1 = er t.1 from congrArg Prod.fst e, ← h t.1]
  exact hf t.1 s t e

theorem ignore {m : St σ α} (h : Blind m) : Blind (St.ignore m) := by
  intro s t e
  obtain ⟨h1, h2⟩ := h s t e
  unfold St.ignore
  revert h1 h2
  rcases m s with ⟨r, s'⟩
  rcases m t with ⟨r', t'⟩
  intro h1 h2
  cases h1
  cases r <;> exact ⟨rfl, h2⟩

theorem look {L : Look Unit} {i : Nat} {w : Bytes} : Blind (lookDate L i w : St (σ × Unit) (TokenType × Int)) := by
  rintro ⟨s, ⟨⟩⟩ ⟨t, ⟨⟩⟩ e
  have h : er s = er t := congrArg Prod.fst e
  exact ⟨rfl, congrArg (·, (L.date () i w).2) h⟩

end Blind

/-- Goes through a computation that is blind for the day of the week. -/
macro "blind" : tactic => `(tactic| repeat' first
  | with_reducible exact Blind.pure
  | with_reducible exact Blind.fail
  | with_reducible exact Blind.panic
  | with_reducible exact Blind.lift
  | with_reducible exact Blind.look
  | with_reducible assumption
  | with_reducible refine Blind.mod fun _ => ?_
  | with_reducible refine Blind.getBind (fun _ => rfl) fun _ => ?_
  | with_reducible refine Blind.lookBind (fun _ => rfl) fun _ => ?_
  | with_reducible refine Blind.bind ?_ fun _ => ?_
  | with_reducible refine Blind.ite ?_ ?_
  | with_reducible refine Blind.noLook ?_
  | with_reducible refine Blind.ignore ?_
  | rfl
  | (rename_i a b; exact absurd a b)
  | (rename_i a b; exact absurd b a)
  | split)

variable {p : Profile} {order : DateOrder}

theorem numberDate_blind {w : Bytes} : Blind (numberDate w) := by unfold numberDate; blind
theorem numberTime_blind {w : Bytes} {l m : Nat} : Blind (numberTime w l m) := by unfold numberTime; blind

theorem numberField_blind {w : Bytes} {m : Nat} : Blind (decodeNumberField w m) := by
  have h := @numberTime_blind
  have h2 := @numberDate_blind
  unfold decodeNumberField
  refine .ite (.bind .lift fun _ => .bind (.mod fun _ => rfl) fun _ => h) (.ite h2 h)

theorem numberByMask_blind {w : Bytes} {v : Int} {b : Bool} {m : Nat} : Blind (numberByMask w v b m order) := by
  have h := @numberField_blind w m
  unfold numberByMask
  dsimp only
  blind

theorem numberVal_blind {w : Bytes} {v : Int} {b : Bool} {m : Nat} : Blind (decodeNumberVal w v b m order) := by
  have h := @numberByMask_blind order w v b m
  unfold decodeNumberVal
  blind

theorem number_blind {w : Bytes} {b : Bool} {m : Nat} : Blind (decodeNumber w b m order) := by
  have h := fun v => @numberVal_blind order w v b m
  have h2 := @numberField_blind
  unfold decodeNumber
  refine .bind (.mod fun _ => rfl) fun _ => .bind .lift fun ⟨v, s⟩ => .ite .fail ?_
  split
  · exact h v
  · exact .ite (.ite (.ignore h2) (.bind .lift fun _ => .bind (.mod fun _ => rfl) fun _ => h v)) .fail

theorem textPass_blind : ∀ (l : List Bytes) (i : Nat), Blind (textPass plainLook l i) := by
  intro l
  induction l with
  | nil => exact fun _ => .pure
  | cons f l ih =>
    intro i
    have h := ih (i + 1)
    unfold textPass
    blind

theorem numPass_blind : ∀ l : List (Option Bytes), Blind (numPass order l) := by
  intro l
  induction l with
  | nil => exact .pure
  | cons f l ih =>
    cases f with
    | none => exact ih
    | some f =>
      unfold numPass
      refine .ite .fail (.getBind (fun _ => rfl) fun s => .bind (.zoom number_blind (fun _ => rfl) fun _ _ => rfl) fun _ => ?_)
      blind

theorem decodeDate_blind {w : Bytes} : Blind (decodeDate plainLook w order) := by
  unfold decodeDate
  refine .zoom ?_ (fun _ => rfl) fun _ _ => rfl
  unfold dateBody
  refine .bind .lift fun _ => .bind (textPass_blind _ _) fun _ => .bind (.noLook (numPass_blind _)) fun _ => ?_
  blind

theorem decodeTime_blind {w : Bytes} {m : Nat} : Blind (decodeTime w m) := by
  have h : ∀ s, Blind (timeSeconds s) := by
    intro s
    unfold timeSeconds
    blind
  have h2 : ∀ s, Blind (timeTail s m) := by
    intro s
    unfold timeTail
    split
    · blind
    · refine .ite (by blind) (.ite (h _) .fail)
  unfold decodeTime
  refine .bind (.mod fun _ => rfl) fun _ => .bind .lift fun ⟨v, s⟩ => .bind (.mod fun _ => rfl) fun _ => ?_
  dsimp only
  split
  · refine .bind .lift fun ⟨v, s⟩ => .bind (.mod fun _ => rfl) fun _ => .bind (h2 _) fun _ => ?_
    blind
  · exact .fail

theorem onNum_blind {α : Type} {m : St NumS α} (h : Blind m) : Blind (onNum m) := .zoom h (fun _ => rfl) fun _ _ => rfl
theorem onTime_blind {α : Type} {m : St TimeS α} (h : Blind m) : Blind (onTime m) := .zoom h (fun _ => rfl) fun _ _ => rfl

theorem dateToken_blind {w : Bytes} : Blind (dateToken p plainLook w order) := by
  have h := @decodeDate_blind order w
  unfold dateToken
  blind

theorem labelAssign_blind {ty : TokenField} {w r : Bytes} {v : Int} : Blind (labelAssign p ty w v r) := by
  have h : Blind (labelJulian p v r) := by
    unfold labelJulian
    blind
  have h2 := fun m => onNum_blind (@numberField_blind w m)
  unfold labelAssign
  split
  all_goals first
    | exact .getBind (fun _ => rfl) fun _ => .bind (h2 _) fun _ => by blind
    | blind

theorem labelled_blind {w : Bytes} : Blind (labelled p w) := by
  unfold labelled
  refine .getBind (fun _ => rfl) fun d => .bind .lift fun ⟨v, s⟩ => .ite .fail (.ite .fail (.bind labelAssign_blind fun _ => .mod fun _ => rfl))

theorem numberToken_blind {w : Bytes} : Blind (numberToken p plainLook w order) := by
  have h := fun m => onNum_blind (@numberField_blind w m)
  unfold numberToken
  refine .lookBind (fun _ => rfl) fun d => .ite (.noLook labelled_blind) (.ite decodeDate_blind
    (.ite (.bind (.noLook (h _)) fun _ => .pure) (.ite (.bind (.noLook (h _)) fun _ => .pure) (.noLook (onNum_blind number_blind)))))

theorem wordAction_blind {ft : List TokenField} {i : Nat} {ty : TokenType} {v : Int} : Blind (wordAction ft i ty v) := by
  have h : Blind (reservedWord v) := by
    unfold reservedWord
    blind
  have h2 : Blind (monthWord v) := by
    unfold monthWord
    blind
  have h3 : Blind (isoTimeWord ft i v) := by
    unfold isoTimeWord
    blind
  unfold wordAction
  blind

theorem addMask_blind : Blind addMask := by unfold addMask; blind

theorem timeToken_blind {w : Bytes} : Blind (timeToken w) := by
  have h := fun m => onTime_blind (@decodeTime_blind w m)
  unfold timeToken
  refine .getBind (fun _ => rfl) fun _ => .ite .fail (.bind (.mod fun _ => rfl) fun _ => .bind (h _) fun _ => ?_)
  blind

theorem field_blind {ft : List TokenField} {i : Nat} {f : Field} : Blind (dateTimeField p plainLook order ft i f) := by
  have h : Blind (Pg.noLook addMask : St (Dec × Unit) Unit) := .noLook addMask_blind
  have hw : Blind (wordToken plainLook ft i f.2) := by
    unfold wordToken
    exact .bind .look fun ⟨ty, v⟩ => .ite .pure (.bind (.noLook wordAction_blind) fun _ => .pure)
  unfold dateTimeField
  split
  · exact .bind dateToken_blind fun _ => h
  · exact .bind (.noLook timeToken_blind) fun _ => h
  · exact .bind numberToken_blind fun _ => h
  · exact .bind hw fun _ => .ite .pure h
  · exact .bind hw fun _ => .ite .pure h
  · exact .fail

theorem loop_blind {ft : List TokenField} : ∀ (l : List Field) (i : Nat), Blind (dateTimeLoop p plainLook order ft l i) := by
  intro l
  induction l with
  | nil => exact fun _ => .pure
  | cons f l ih => exact fun i => .bind field_blind fun _ => ih _

theorem validate_er {tm : PgTime} {m : Nat} {a b c : Bool} :
    (er tm).validateDate p m a b c = (tm.validateDate p m a b c >>= fun t => .ok (er t)) := by
  have h1 : ∀ tm : PgTime, (er tm).validateYear p m a b c = (tm.validateYear p m a b c >>= fun t => .ok (er t)) := by
    intro tm
    unfold PgTime.validateYear
    simp only [show (er tm).year = tm.year from rfl]
    repeat' split
    all_goals first
      | rfl
      | (cases chk32 p (tm.year + 2000) <;> rfl)
      | (cases chk32 p (tm.year + 1900) <;> rfl)
      | (rcases chk32 p (tm.year - 1) with x | _ | _ <;> [(simp only [Res.bind_ok]; cases chk32 p (-x) <;> rfl); rfl; rfl])
  have h2 : ∀ tm : PgTime, (er tm).validateDoy p m = (tm.validateDoy p m >>= fun t => .ok (er t)) := by
    intro tm
    unfold PgTime.validateDoy
    simp only [show (er tm).year = tm.year from rfl, show (er tm).yday = tm.yday from rfl]
    split
    · rcases date2julian p tm.year 1 1 with j | _ | _ <;> [skip; rfl; rfl]
      simp only [Res.bind_ok]
      rcases chk32 p (j + tm.yday) with x | _ | _ <;> [skip; rfl; rfl]
      simp only [Res.bind_ok]
      rcases chk32 p (x - 1) with y | _ | _ <;> [skip; rfl; rfl]
      simp only [Res.bind_ok]
      cases julian2date p y <;> rfl
    · rfl
  have h3 : ∀ tm : PgTime, (er tm).validateMonthDay m = (tm.validateMonthDay m >>= fun t => .ok (er t)) := by
    intro tm
    unfold PgTime.validateMonthDay
    simp only [show (er tm).year = tm.year from rfl, show (er tm).mon = tm.mon from rfl, show (er tm).mday = tm.mday from rfl]
    repeat' split
    all_goals first
      | rfl
      | skip
    rcases daysOfMonth tm.year tm.mon with n | _ | _ <;> [skip; rfl; rfl]
    simp only [Res.bind_ok]
    split <;> rfl
  unfold PgTime.validateDate
  rw [h1]
  rcases tm.validateYear p m a b c with t | _ | _ <;> [skip; rfl; rfl]
  simp only [Res.bind_ok]
  rw [h2]
  rcases t.validateDoy p m with t | _ | _ <;> [skip; rfl; rfl]
  simp only [Res.bind_ok]
  exact h3 t

theorem Blind.getLift {α : Type} {g : Dec → Res PgTime} {k : PgTime → St Dec α} (hg : ∀ d, g (er d) = (g d >>= fun t => .ok (er t)))
    (hk : ∀ x y, er x = er y → ∀ s t, er s = er t → (k x s).1 = (k y t).1 ∧ er (k x s).2 = er (k y t).2) :
    Blind (St.get >>= fun d => St.lift (g d) >>= k) := by
  intro s t e
  have h : (g s >>= fun t => Res.ok (er t)) = (g t >>= fun t => .ok (er t)) := by rw [← hg, ← hg, e]
  show (St.bind (St.lift (g s)) k s).1 = (St.bind (St.lift (g t)) k t).1 ∧ er (St.bind (St.lift (g s)) k s).2 = er (St.bind (St.lift (g t)) k t).2
  unfold St.bind St.lift
  revert h
  rcases g s with x | _ | _ <;> rcases g t with y | _ | _ <;> intro h
  · exact hk x y (Res.ok.inj h) s t e
  all_goals first
    | (cases h; done)
    | (cases h; exact ⟨rfl, e⟩)

theorem finish_blind : Blind (finishFields p) := by
  unfold finishFields
  refine .getLift (fun _ => validate_er) fun x y h s t e => ?_
  have hR : Blind (St.get >>= fun d : Dec =>
        if d.mer ≠ 2 ∧ d.tm.hour > 12 then (St.fail .overflow : St Dec Unit)
        else if d.mer = 0 ∧ d.tm.hour = 12 then St.mod fun d => { d with tm := { d.tm with hour := 0 } }
        else if d.mer = 1 ∧ d.tm.hour ≠ 12 then do
          let h ← St.lift (chk32 p (d.tm.hour + 12))
          St.mod fun d => { d with tm := { d.tm with hour := h } }
        else pure ()) := by blind
  refine hR { s with tm := x } { t with tm := y } ?_
  show { er s with tm := er x } = { er t with tm := er y }
  rw [e, h]

theorem look_dow {w : Bytes} {z : Int} (hw : tokenResult (lookupIn dateTable w) = (.dow, z)) {i : Nat} {σ : Type} :
    (lookDate plainLook i w : St (σ × Unit) (TokenType × Int)) = pure (.dow, z) := by
  funext s
  unfold lookDate plainLook
  simp only [searchDate_eq, hw]
  rfl

/-- The two lists of fields differ in one weekday: the loop does the same but for the day of the week. -/
theorem loop_otherDay {ft : List TokenField} {x x' : Bytes} {v v' : Int} (h : tokenResult (lookupIn dateTable x) = (.dow, v))
    (h' : tokenResult (lookupIn dateTable x') = (.dow, v')) {l2 : List Field} :
    ∀ (l1 : List Field) (i : Nat) (s t : Dec × Unit), er s = er t →
      (dateTimeLoop p plainLook order ft (l1 ++ (.string, x) :: l2) i s).1 = (dateTimeLoop p plainLook order ft (l1 ++ (.string, x') :: l2) i t).1 ∧
      er (dateTimeLoop p plainLook order ft (l1 ++ (.string, x) :: l2) i s).2 = er (dateTimeLoop p plainLook order ft (l1 ++ (.string, x') :: l2) i t).2 := by
  have two : ∀ {m m' k : St (Dec × Unit) Unit}, (∀ s t, er s = er t → (m s).1 = (m' t).1 ∧ er (m s).2 = er (m' t).2) →
      ∀ {k' : St (Dec × Unit) Unit}, (∀ s t, er s = er t → (k s).1 = (k' t).1 ∧ er (k s).2 = er (k' t).2) →
      ∀ s t, er s = er t → ((m >>= fun _ => k) s).1 = ((m' >>= fun _ => k') t).1 ∧ er ((m >>= fun _ => k) s).2 = er ((m' >>= fun _ => k') t).2 := by
    intro m m' k hm k' hk s t e
    obtain ⟨h1, h2⟩ := hm s t e
    show (St.bind m _ s).1 = (St.bind m' _ t).1 ∧ er (St.bind m _ s).2 = er (St.bind m' _ t).2
    unfold St.bind
    revert h1 h2
    rcases m s with ⟨r, s'⟩
    rcases m' t with ⟨r', t'⟩
    intro h1 h2
    cases h1
    cases r with
    | ok a => exact hk s' t' h2
    | err e => exact ⟨rfl, h2⟩
    | panic => exact ⟨rfl, h2⟩
  intro l1
  induction l1 with
  | nil =>
    intro i
    rw [List.nil_append, List.nil_append, dateTimeLoop, dateTimeLoop]
    refine two (fun s t e => ?_) (loop_blind l2 _)
    have d : ∀ {w : Bytes} {z : Int}, tokenResult (lookupIn dateTable w) = (.dow, z) → ∀ s : Dec × Unit, dateTimeField p plainLook order ft i (.string, w) s =
        (noLook addMask : St (Dec × Unit) Unit) ({ s.1 with tMask := TokenType.dow.mask, tm := { s.1.tm with wday := z } }, ()) := by
      rintro w z hw ⟨s, ⟨⟩⟩
      unfold dateTimeField wordToken
      dsimp only
      rw [look_dow hw]
      rfl
    rw [d h, d h']
    refine Blind.noLook addMask_blind _ _ ?_
    obtain ⟨s, ⟨⟩⟩ := s
    obtain ⟨t, ⟨⟩⟩ := t
    have e : er s = er t := congrArg Prod.fst e
    show (({ er s with tMask := TokenType.dow.mask } : Dec), ()) = ({ er t with tMask := TokenType.dow.mask }, ())
    rw [e]
  | cons f l1 ih =>
    intro i
    rw [List.cons_append, List.cons_append, dateTimeLoop, dateTimeLoop]
    exact two field_blind (ih _)

theorem decode_otherDay {x x' : Bytes} {v v' : Int} (h : tokenResult (lookupIn dateTable x) = (.dow, v))
    (h' : tokenResult (lookupIn dateTable x') = (.dow, v')) (l1 l2 : List Field) (s : Dec × Unit) :
    (decodeDateTime p plainLook order (l1 ++ (.string, x) :: l2) s).1 = (decodeDateTime p plainLook order (l1 ++ (.string, x') :: l2) s).1 ∧
    er (decodeDateTime p plainLook order (l1 ++ (.string, x) :: l2) s).2 = er (decodeDateTime p plainLook order (l1 ++ (.string, x') :: l2) s).2 := by
  have e : (l1 ++ (.string, x) :: l2).map Prod.fst = (l1 ++ (TokenField.string, x') :: l2).map Prod.fst := by simp
  obtain ⟨h1, h2⟩ := loop_otherDay (p := p) (order := order) (ft := (l1 ++ (TokenField.string, x') :: l2).map Prod.fst) h h' (l2 := l2) l1 0 s s rfl
  unfold decodeDateTime
  rw [e]
  show (St.bind _ _ s).1 = (St.bind _ _ s).1 ∧ er (St.bind _ _ s).2 = er (St.bind _ _ s).2
  unfold St.bind
  revert h1 h2
  generalize dateTimeLoop p plainLook order _ (l1 ++ (.string, x) :: l2) 0 s = a
  generalize dateTimeLoop p plainLook order _ (l1 ++ (.string, x') :: l2) 0 s = b
  rcases a with ⟨r, s'⟩
  rcases b with ⟨r', t'⟩
  intro h1 h2
  cases h1
  cases r with
  | err e => exact ⟨rfl, h2⟩
  | panic => exact ⟨rfl, h2⟩
  | ok a =>
    refine (Blind.bind (.noLook finish_blind) fun _ => ?_) s' t' h2
    blind

/-- In a time of day the weekdays have the same effect. -/
theorem decodeT_otherDay {x x' : Bytes} {v v' : Int} (h : tokenResult (lookupIn dateTable x) = (.dow, v))
    (h' : tokenResult (lookupIn dateTable x') = (.dow, v')) (l1 l2 : List Field) :
    decodeTimeOnly p plainLook order (l1 ++ (.string, x) :: l2) = decodeTimeOnly p plainLook order (l1 ++ (.string, x') :: l2) := by
  have e : (l1 ++ (.string, x) :: l2).map Prod.fst = (l1 ++ (TokenField.string, x') :: l2).map Prod.fst := by simp
  have d : ∀ {w : Bytes} {z : Int}, tokenResult (lookupIn dateTable w) = (.dow, z) → ∀ (ft : List TokenField) (i : Nat),
      wordTokenT plainLook ft i w = fun s => (.err .invalid, ({ s.1 with tMask := TokenType.dow.mask }, s.2)) := by
    intro w z hw ft i
    unfold wordTokenT
    rw [look_dow hw]
    rfl
  have l : ∀ (ft : List TokenField) (l1 : List Field) (i : Nat), timeOnlyLoop p plainLook order ft (l1 ++ (.string, x) :: l2) i =
      timeOnlyLoop p plainLook order ft (l1 ++ (.string, x') :: l2) i := by
    intro ft l1
    induction l1 with
    | nil =>
      intro i
      rw [List.nil_append, List.nil_append, timeOnlyLoop, timeOnlyLoop]
      unfold timeOnlyField
      dsimp only
      rw [d h, d h']
    | cons f l1 ih =>
      intro i
      rw [List.cons_append, List.cons_append, timeOnlyLoop, timeOnlyLoop, ih]
  unfold decodeTimeOnly
  rw [e, l]

/-- What the two texts are split into. -/
theorem exchanged_words {u : TokenField} {R : Bytes → Bytes → Prop} (hR : ∀ w w', R w w' → (Letters w ∧ w ≠ []) ∧ (Letters w' ∧ w' ≠ []))
    {s s' : Bytes} (h : WordExchanged R s s') (h1 : s.length ≤ 128) (h2 : s'.length ≤ 128) :
    (scan u s = .err .invalid ∧ scan u s' = .err .invalid) ∨ ∃ l1 l2 w w', R w w' ∧ scan u s = .ok (l1 ++ (.string, lower w) :: l2) ∧
      scan u s' = .ok (l1 ++ (.string, lower w') :: l2) := by
  obtain ⟨a, n, w, w', c, k1, k2, k3, k4, k5, rfl, rfl⟩ := h
  obtain ⟨w1, w2⟩ := hR w w' k4
  have ne : ∀ {w : Bytes}, w ≠ [] → a ++ (n ++ (w ++ c)) ≠ [] := by intro w hw; cases w <;> simp_all
  rcases scan_orInvalid (u := u) (ne w1.2) h1 with e1 | ⟨l, e1⟩
  · rcases scan_orInvalid (u := u) (ne w2.2) h2 with e2 | ⟨l', e2⟩
    · exact Or.inl ⟨e1, e2⟩
    · obtain ⟨l1, l2, rfl, e3⟩ := scan_exchange k1 k2 k3 w2 w1 k5 h2 h1 e2
      rw [e1] at e3; cases e3
  · obtain ⟨l1, l2, rfl, e2⟩ := scan_exchange k1 k2 k3 w1 w2 k5 h1 h2 e1
    exact Or.inr ⟨l1, l2, w, w', k4, e1, e2⟩

theorem ofDec_er {d e : Dec} (h : er d = er e) : Date.ofDec p d = Date.ofDec p e ∧ Timestamp.ofDec p d = Timestamp.ofDec p e := by
  have a : ∀ d : Dec, Date.ofDec p d = Date.ofDec p (er d) := fun _ => rfl
  have b : ∀ d : Dec, Timestamp.ofDec p d = Timestamp.ofDec p (er d) := fun _ => rfl
  exact ⟨by rw [a d, a e, h], by rw [b d, b e, h]⟩

end Pg
