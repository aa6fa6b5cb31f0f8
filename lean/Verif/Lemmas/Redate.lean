import Verif.Lemmas.Replace
import Verif.Spec.Redate

/-! # Two texts that differ in the numeric date at the beginning: the decoders -/

namespace Pg
open Spec

/-- The date replaced. -/
def dayTm (k : Int × Int × Int) (tm : PgTime) : PgTime := { tm with year := k.1, mon := k.2.1, mday := k.2.2 }
def dayT (k : Int × Int × Int) (t : TimeS) : TimeS := { t with tm := dayTm k t.tm }
def dayN (k : Int × Int × Int) (n : NumS) : NumS := { n with tm := dayTm k n.tm }
def dayD (k : Int × Int × Int) (d : Dec) : Dec := { d with tm := dayTm k d.tm }
def dayP (k : Int × Int × Int) (s : Dec × Unit) : Dec × Unit := (dayD k s.1, s.2)

namespace Redate
open Fol

theorem noLook {α : Type} {k : Int × Int × Int} {m : St Dec α} {s : Dec × Unit} (h : Fol (dayD k) m s.1) : Fol (dayP k) (Pg.noLook m) s := by
  intro a s' e
  unfold Pg.noLook at e ⊢
  rcases hm : m s.1 with ⟨r, n⟩
  rw [hm] at e
  simp only [Prod.mk.injEq] at e
  obtain ⟨rfl, rfl⟩ := e
  show ((m (dayD k s.1)).1, (m (dayD k s.1)).2, s.2) = _
  rw [h a n hm]
  rfl

theorem onNum {α : Type} {k : Int × Int × Int} {m : St NumS α} {d : Dec} (h : ∀ n, Fol (dayN k) m n) : Fol (dayD k) (Pg.onNum m) d :=
  zoom (h _) rfl (fun _ => rfl)

theorem onTime {α : Type} {k : Int × Int × Int} {m : St TimeS α} {d : Dec} (h : ∀ n, Fol (dayT k) m n) : Fol (dayD k) (Pg.onTime m) d :=
  zoom (h _) rfl (fun _ => rfl)

variable {k : Int × Int × Int} {p : Profile} {order : DateOrder} {ftypes : List TokenField} {i : Nat}

theorem numberTime {w : Bytes} {len m : Nat} (n : NumS) : Fol (dayN k) (Pg.numberTime w len m) n := by
  unfold Pg.numberTime
  refine ite (fun _ => ?_) fun _ => ite (fun _ => ?_) fun _ => fail
  · exact modBind rfl (liftBind fun a _ => modBind rfl (liftBind fun b _ => modBind rfl (liftBind fun c _ => modBind rfl pure)))
  · exact modBind rfl (liftBind fun a _ => modBind rfl (liftBind fun b _ => modBind rfl pure))

theorem numberField {w : Bytes} {m : Nat} (hm : m &&& 14 = 14) (n : NumS) : Fol (dayN k) (decodeNumberField w m) n := by
  unfold decodeNumberField
  refine ite (fun _ => ?_) fun _ => ite (fun h => absurd hm h.1) fun _ => numberTime _
  exact liftBind fun a _ => modBind rfl (numberTime _)

theorem numberVal {w : Bytes} {v : Int} {b : Bool} {m : Nat} (hm : m &&& 14 = 14) (n : NumS) :
    Fol (dayN k) (decodeNumberVal w v b m order) n := by
  unfold decodeNumberVal numberByMask
  rw [hm]
  simp only [show ¬ ((14 : Nat) = 0) by decide, show ¬ ((14 : Nat) = DTK_YEAR_M) by decide, show ¬ ((14 : Nat) = DTK_MONTH_M) by decide,
    show ¬ ((14 : Nat) = DTK_YEAR_MONTH_M) by decide, show ¬ ((14 : Nat) = DTK_DAY_M) by decide,
    show ¬ ((14 : Nat) = DTK_MONTH_DAY_M) by decide, false_and, and_false, if_false, if_true]
  refine bind (bind (numberField hm _) fun _ _ _ => pure) fun a n' _ => mod ?_
  dsimp only [dayN]
  split <;> rfl

theorem ignore {α : Type} {m : St NumS α} {n : NumS} (h : m (dayN k n) = ((m n).1, dayN k (m n).2)) : Fol (dayN k) (St.ignore m) n := by
  intro a s' e
  unfold St.ignore at e ⊢
  rw [h]
  rcases hd : m n with ⟨r, n'⟩
  rw [hd] at e
  cases r with
  | ok x => cases e; rfl
  | err x => cases e; rfl
  | panic => cases e

/-- The state after a failure, too. -/
theorem numberTime_state (w : Bytes) (len m : Nat) (n : NumS) : Pg.numberTime w len m (dayN k n) = ((Pg.numberTime w len m n).1, dayN k (Pg.numberTime w len m n).2) := by
  unfold Pg.numberTime
  by_cases h : m &&& DTK_TIME_M ≠ DTK_TIME_M ∧ len = 6
  · rw [if_pos h]
    rcases str2i32 (w.drop 4) with ⟨x⟩ | ⟨x⟩ | _
    · rcases str2i32 ((w.drop 2).take 2) with ⟨y⟩ | ⟨y⟩ | _
      · rcases str2i32 (w.take 2) with ⟨z⟩ | ⟨z⟩ | _ <;> rfl
      · rfl
      · rfl
    · rfl
    · rfl
  · rw [if_neg h]
    by_cases h : m &&& DTK_TIME_M ≠ DTK_TIME_M ∧ len = 4
    · rw [if_pos h]
      rcases str2i32 (w.drop 2) with ⟨x⟩ | ⟨x⟩ | _
      · rcases str2i32 (w.take 2) with ⟨z⟩ | ⟨z⟩ | _ <;> rfl
      · rfl
      · rfl
    · rw [if_neg h]
      rfl

theorem number {w : Bytes} {b : Bool} {m : Nat} (hm : m &&& 14 = 14) (n : NumS) :
    Fol (dayN k) (decodeNumber w b m order) n := by
  unfold decodeNumber
  refine modBind rfl (liftBind fun ⟨v, r⟩ _ => ?_)
  dsimp only
  refine ite (fun _ => fail) fun _ => ?_
  split
  · exact numberVal hm _
  · refine ite (fun _ => ?_) fun _ => fail
    refine ite (fun _ => ignore ?_) fun _ => liftBind fun f _ => modBind rfl (numberVal hm _)
    unfold decodeNumberField
    by_cases h1 : w.length ≠ dotPos w
    · rw [if_pos h1]
      cases hs : str2d (List.drop (dotPos w) w) with
      | ok x =>
        rw [St.lift_ok_bind, St.lift_ok_bind]
        dsimp only
        rw [St.mod_bind, St.mod_bind]
        exact numberTime_state (k := k) w (dotPos w) (m ||| 14) { n with tMask := 0, fsec := roundMicros x.1 }
      | err x => rfl
      | panic => rfl
    · rw [if_neg h1, if_neg (fun h => h.1 (date_or m))]
      exact numberTime_state _ _ _ _

theorem timeTail {w : Bytes} {R : Nat} (t : TimeS) : Fol (dayT k) (Pg.timeTail w R) t := by
  unfold Pg.timeTail
  split
  · exact modBind rfl (ite (fun _ => mod rfl) fun _ => pure)
  · refine ite (fun _ => liftBind fun f _ => mod rfl) fun _ => ite (fun _ => ?_) fun _ => fail
    unfold timeSeconds
    refine liftBind fun ⟨v, r⟩ _ => modBind rfl ?_
    dsimp only
    split
    · exact mod rfl
    · exact ite (fun _ => liftBind fun f _ => mod rfl) fun _ => fail

theorem decodeTime {w : Bytes} {R : Nat} (t : TimeS) : Fol (dayT k) (Pg.decodeTime w R) t := by
  unfold Pg.decodeTime
  refine modBind rfl (liftBind fun ⟨v, r⟩ _ => modBind rfl ?_)
  dsimp only
  split
  · refine liftBind fun ⟨v, r⟩ _ => modBind rfl (bind (timeTail _) fun _ _ _ => ?_)
    intro a s' e
    exact (getBind rfl (ite (fun _ => fail) fun _ => pure) : Fol (dayT k) _ _) a s' e
  · exact fail

/-- A field that claims a part of the date is refused. -/
theorem claim {d : Dec} {m : Nat} (hm : m &&& 14 = 14) (e : d.fMask = m) (h : d.tMask &&& 14 ≠ 0) :
    Post Pg.addMask (fun _ _ => False) d := by
  rw [addMask_post]
  intro h0
  apply h
  rw [← hm, ← e]
  rw [← Nat.and_assoc, h0, Nat.zero_and]

theorem addMask {d : Dec} : Fol (dayD k) Pg.addMask d := by
  unfold Pg.addMask
  exact getBind rfl (ite (fun _ => fail) fun _ => mod rfl)

/-- The assignment for a label, or a claim on the date. -/
theorem labelAssign {ty : TokenField} {w r : Bytes} {v : Int} {d : Dec} (hm : d.fMask &&& 14 = 14) {α : Type} {f : Unit → St Dec α}
    (hf : ∀ d', Fol (dayD k) (f ()) d')
    (hn : ∀ d' : Dec, d'.fMask = d.fMask → d'.tMask &&& 14 ≠ 0 → Post (f ()) (fun _ _ => False) d') :
    Fol (dayD k) (Pg.labelAssign p ty w v r >>= f) d := by
  have claims : ∀ {g : Dec → Dec}, (g d).fMask = d.fMask → (g d).tMask &&& 14 ≠ 0 → Fol (dayD k) (St.mod g >>= f) d := by
    intro g h1 h2
    refine never ?_
    rw [Post.bind, Post.mod]
    exact hn _ h1 h2
  unfold Pg.labelAssign
  split
  · exact claims rfl (by dsimp only; decide)
  · by_cases hc : d.fMask &&& DTK_MONTH_M ≠ 0 ∧ d.fMask &&& HOUR_M ≠ 0
    · refine modBind ?_ (hf _)
      dsimp only [dayD]
      rw [if_pos hc, if_pos hc]
      rfl
    · refine claims ?_ ?_
      · dsimp only; rw [if_neg hc]
      · dsimp only; rw [if_neg hc]; dsimp only; decide
  · exact claims rfl (by dsimp only; decide)
  · exact modBind rfl (hf _)
  · exact modBind rfl (hf _)
  · refine bind (modBind rfl (ite (fun _ => liftBind fun c _ => mod rfl) fun _ => pure)) fun _ _ _ => hf _
  · refine never ?_
    rw [Post.bind]
    unfold labelJulian
    wp
    intro _ c _
    exact ⟨fun _ b _ x _ => hn _ rfl (by dsimp only; decide), fun _ => hn _ rfl (by dsimp only; decide)⟩
  · exact bind (getBind rfl (bind (onNum (numberField (or_date hm))) fun _ _ _ => getBind rfl (ite (fun _ => fail) fun _ => pure))) fun _ _ _ => hf _
  · exact bind fail fun _ _ _ => hf _

/-- A number after a label, with the check of the masks. -/
theorem labelled {w : Bytes} {d : Dec} (hm : d.fMask &&& 14 = 14) : Fol (dayD k) (do Pg.labelled p w; Pg.addMask) d := by
  unfold Pg.labelled
  have assoc : ∀ {α β γ : Type} (m : St Dec α) (f : α → St Dec β) (g : β → St Dec γ), ((m >>= f) >>= g) = (m >>= fun a => f a >>= g) := by
    intro α β γ m f g
    funext s
    show St.bind (St.bind m f) g s = St.bind m (fun a => St.bind (f a) g) s
    unfold St.bind
    rcases m s with ⟨r, s'⟩
    cases r <;> rfl
  have itb : ∀ {α β : Type} (c : Prop) [Decidable c] (m n : St Dec α) (g : α → St Dec β), ((if c then m else n) >>= g) = if c then m >>= g else n >>= g := by
    intro α β c _ m n g
    split <;> rfl
  rw [assoc]
  refine getBind rfl ?_
  rw [assoc]
  refine liftBind fun ⟨v, r⟩ _ => ?_
  dsimp only
  rw [itb]
  refine ite (fun _ => bind fail fun _ _ _ => addMask) fun _ => ?_
  rw [itb]
  refine ite (fun _ => bind fail fun _ _ _ => addMask) fun _ => ?_
  rw [assoc]
  refine labelAssign hm (fun d' => modBind rfl addMask) fun d' e h => ?_
  rw [Post.bind, Post.mod]
  exact claim hm e h

theorem word {w : Bytes} {s : Dec × Unit} (hm : s.1.fMask &&& 14 = 14) :
    Fol (dayP k) (do let ignored ← wordToken plainLook ftypes i w; if ignored then Pure.pure () else Pg.noLook Pg.addMask) s := by
  have assoc : ∀ {α β γ : Type} (m : St (Dec × Unit) α) (f : α → St (Dec × Unit) β) (g : β → St (Dec × Unit) γ),
      ((m >>= f) >>= g) = (m >>= fun a => f a >>= g) := by
    intro α β γ m f g
    funext s
    show St.bind (St.bind m f) g s = St.bind m (fun a => St.bind (f a) g) s
    unfold St.bind
    rcases m s with ⟨r, s'⟩
    cases r <;> rfl
  unfold wordToken
  rw [assoc]
  have look : ∀ s : Dec × Unit, lookDate plainLook i w s = (.ok (tokenResult (lookupIn dateTable w)), s) := by
    intro s
    simp only [lookDate, plainLook, searchDate_eq]
  refine bind (fun a s' e => by rw [look] at e ⊢; cases e; rfl) ?_
  rintro ⟨ty, v⟩ s' e
  have es : s' = s := by
    rw [look] at e
    exact (congrArg Prod.snd e).symm
  subst es
  dsimp only
  by_cases ht : ty = .ignoreDtf
  · rw [if_pos ht]
    exact bind pure fun a _ _ => by
      split
      · exact pure
      · exact noLook addMask
  · rw [if_neg ht, assoc]
    change Fol (dayP k) (do let a ← Pg.noLook (wordAction ftypes i ty v); Pg.noLook ((fun _ => Pg.addMask) a)) s'
    rw [noLook_bind]
    refine noLook ?_
    unfold wordAction
    by_cases hz : ty = .month
    · subst hz
      refine never ?_
      rw [Post.bind, Post.bind, Post.mod]
      dsimp only
      unfold monthWord
      rw [Post.mod]
      dsimp only
      split
      · exact claim hm rfl (by dsimp only; decide)
      · exact claim hm rfl (by dsimp only; decide)
    · refine bind (modBind rfl ?_) fun _ _ _ => addMask
      split
      · unfold reservedWord
        refine liftBind fun f hf => ?_
        split
        all_goals first
          | exact fail
          | exact mod rfl
      · exact absurd rfl hz
      · exact mod rfl
      · exact mod rfl
      · exact mod rfl
      · exact modBind rfl (liftBind fun f _ => mod rfl)
      · unfold isoTimeWord
        refine modBind rfl (getBind rfl (ite (fun _ => fail) fun _ => ?_))
        split
        · exact panic
        · exact ite (fun _ => fail) fun _ => liftBind fun f _ => mod rfl
      · exact fail

theorem numberToken {w : Bytes} {s : Dec × Unit} (hm : s.1.fMask &&& 14 = 14) :
    Fol (dayP k) (do Pg.numberToken p plainLook w order; Pg.noLook Pg.addMask) s := by
  have split : ∀ {α : Type} (m : St NumS α), (∀ n, Fol (dayN k) m n) →
      Fol (dayP k) (do (do let _ ← Pg.noLook (Pg.onNum m); Pure.pure ()); Pg.noLook Pg.addMask) s := fun m h =>
    bind (bind (noLook (onNum h)) fun _ _ _ => pure) fun _ _ _ => noLook addMask
  have itb : ∀ {α β : Type} (c : Prop) [Decidable c] (m n : St (Dec × Unit) α) (g : α → St (Dec × Unit) β),
      ((if c then m else n) >>= g) = if c then m >>= g else n >>= g := by
    intro α β c _ m n g
    split <;> rfl
  unfold Pg.numberToken
  have run : ∀ t : Dec × Unit, (do (do let d ← Pg.noLook St.get
                                       if d.pType ≠ .number then Pg.noLook (Pg.labelled p w)
                                       else if dotPos w ≠ w.length ∧ d.fMask &&& DTK_DATE_M = 0 ∧ w.length ≤ 14 then
                                         decodeDate plainLook w order
                                       else if dotPos w ≠ w.length ∧ dotPos w > 2 then do
                                         let _ ← Pg.noLook (Pg.onNum (decodeNumberField w d.fMask))
                                         Pure.pure ()
                                       else if w.length ≥ 6 ∧ (d.fMask &&& DTK_DATE_M = 0 ∨ d.fMask &&& DTK_TIME_M = 0) then do
                                         let _ ← Pg.noLook (Pg.onNum (decodeNumberField w d.fMask))
                                         Pure.pure ()
                                       else Pg.noLook (Pg.onNum (decodeNumber w false d.fMask order))); Pg.noLook Pg.addMask : St (Dec × Unit) Unit) t =
      (do (if t.1.pType ≠ .number then Pg.noLook (Pg.labelled p w)
            else if dotPos w ≠ w.length ∧ t.1.fMask &&& DTK_DATE_M = 0 ∧ w.length ≤ 14 then
              decodeDate plainLook w order
            else if dotPos w ≠ w.length ∧ dotPos w > 2 then do
              let _ ← Pg.noLook (Pg.onNum (decodeNumberField w t.1.fMask))
              Pure.pure ()
            else if w.length ≥ 6 ∧ (t.1.fMask &&& DTK_DATE_M = 0 ∨ t.1.fMask &&& DTK_TIME_M = 0) then do
              let _ ← Pg.noLook (Pg.onNum (decodeNumberField w t.1.fMask))
              Pure.pure ()
            else Pg.noLook (Pg.onNum (decodeNumber w false t.1.fMask order))); Pg.noLook Pg.addMask : St (Dec × Unit) Unit) t := fun t => rfl
  intro a s' e
  rw [run] at e ⊢
  revert a s'
  show Fol (dayP k) _ s
  rw [itb, itb, itb, itb]
  refine ite (fun _ => ?_) fun _ => ite (fun h => absurd (hm.symm.trans h.2.1) (by decide)) fun _ => ite (fun _ => split _ (numberField hm)) fun _ =>
    ite (fun _ => split _ (numberField hm)) fun _ => bind (noLook (onNum (number hm))) fun _ _ _ => noLook addMask
  · change Fol (dayP k) (do let a ← Pg.noLook (Pg.labelled p w); Pg.noLook ((fun _ => Pg.addMask) a)) s
    rw [noLook_bind]
    exact noLook (labelled hm)

theorem dateToken {w : Bytes} {s : Dec × Unit} (hm : s.1.fMask &&& 14 = 14) :
    Fol (dayP k) (Pg.dateToken p plainLook w order) s := by
  have hmd : s.1.fMask &&& DTK_MONTH_DAY_M = DTK_MONTH_DAY_M := by
    have e : (14 : Nat) &&& 10 = 10 := by decide
    show s.1.fMask &&& 10 = 10
    rw [← e, ← Nat.and_assoc, hm]
  have run : ∀ t : Dec × Unit, Pg.dateToken p plainLook w order t =
      (if t.1.pType = .julian then do
        let (val, _) ← St.lift (str2i32 w)
        let c ← St.lift (julian2date p val)
        Pg.noLook (St.mod fun d => { d with tm := d.tm.setYmd c, isJulian := true })
        St.fail .invalid
      else if t.1.pType ≠ .number ∨ t.1.fMask &&& DTK_MONTH_DAY_M = DTK_MONTH_DAY_M then
        match w with
        | [] => Pure.pure ()
        | c :: _ =>
          if isDigit c ∨ t.1.pType ≠ .number then
            if t.1.pType ≠ .number then St.fail .invalid else Pure.pure ()
          else St.fail .invalid
      else decodeDate plainLook w order : St (Dec × Unit) Unit) t := fun t => rfl
  intro a s' e
  rw [run] at e ⊢
  revert a s'
  show Fol (dayP k) _ s
  refine ite (fun _ => never ?_) fun _ => ite (fun _ => ?_) fun h => absurd (Or.inr hmd) h
  · wp
  · split
    · exact pure
    · exact ite (fun _ => ite (fun _ => fail) fun _ => pure) fun _ => fail

theorem numberTokenT {w : Bytes} {s : Dec × Unit} (hm : s.1.fMask &&& 14 = 14) (hi : 0 < i) :
    Fol (dayP k) (do Pg.numberTokenT p plainLook order ftypes i w; Pg.noLook Pg.addMask) s := by
  by_cases hp : s.1.pType = .number
  · have split : ∀ {α : Type} (m : St NumS α), (∀ n, Fol (dayN k) m n) →
        Fol (dayP k) (do let _ ← Pg.noLook (Pg.onNum m); Pure.pure ()) s := fun m h =>
      bind (noLook (onNum h)) fun _ _ _ => pure
    have hm' := or_date hm
    refine bind ?_ fun _ _ _ => noLook addMask
    have run : ∀ t : Dec × Unit, t.1.pType = .number → Pg.numberTokenT p plainLook order ftypes i w t =
        (if dotPos w ≠ w.length then
          if dotPos w > 2 then do
            let _ ← Pg.noLook (Pg.onNum (decodeNumberField w (t.1.fMask ||| DTK_DATE_M)))
            Pure.pure ()
          else St.fail .invalid
        else if w.length > 4 then do
          let _ ← Pg.noLook (Pg.onNum (decodeNumberField w (t.1.fMask ||| DTK_DATE_M)))
          Pure.pure ()
        else Pg.noLook (Pg.onNum (decodeNumber w false (t.1.fMask ||| DTK_DATE_M) order)) : St (Dec × Unit) Unit) t := by
      intro t ht
      unfold Pg.numberTokenT
      rw [St.bind_ok (show (Pg.noLook St.get : St (Dec × Unit) Dec) t = (.ok t.1, t) from rfl), if_neg (fun h => h ht),
        if_neg (show ¬ (i = 0 ∧ ftypes.length ≥ 2 ∧ ftypes.getLast? = some .date) from fun h => absurd h.1 (by omega))]
    intro a s' e
    rw [run _ hp] at e
    rw [run _ (show (dayP k s).1.pType = .number from hp)]
    revert a s'
    show Fol (dayP k) _ s
    exact ite (fun _ => ite (fun _ => split _ (numberField hm')) fun _ => fail) fun _ => ite (fun _ => split _ (numberField hm')) fun _ =>
      noLook (onNum (number hm'))
  · have run : ∀ t : Dec × Unit, t.1.pType ≠ .number → (do Pg.numberTokenT p plainLook order ftypes i w; Pg.noLook Pg.addMask : St (Dec × Unit) Unit) t =
        Pg.noLook (do Pg.labelled p w; Pg.addMask) t := by
      intro t ht
      rw [← noLook_bind]
      have inner : Pg.numberTokenT p plainLook order ftypes i w t = Pg.noLook (Pg.labelled p w) t := by
        unfold Pg.numberTokenT
        rw [St.bind_ok (show (Pg.noLook St.get : St (Dec × Unit) Dec) t = (.ok t.1, t) from rfl), if_pos ht]
      rw [St.bind_run, St.bind_run, inner]
    intro a s' e
    rw [run _ hp] at e
    rw [run _ (show (dayP k s).1.pType ≠ .number from hp)]
    exact noLook (labelled hm) a s' e

theorem wordT {w : Bytes} {s : Dec × Unit} (hm : s.1.fMask &&& 14 = 14) :
    Fol (dayP k) (do let ignored ← wordTokenT plainLook ftypes i w; if ignored then Pure.pure () else Pg.noLook Pg.addMask) s := by
  have assoc : ∀ {α β γ : Type} (m : St (Dec × Unit) α) (f : α → St (Dec × Unit) β) (g : β → St (Dec × Unit) γ),
      ((m >>= f) >>= g) = (m >>= fun a => f a >>= g) := by
    intro α β γ m f g
    funext s
    show St.bind (St.bind m f) g s = St.bind m (fun a => St.bind (f a) g) s
    unfold St.bind
    rcases m s with ⟨r, s'⟩
    cases r <;> rfl
  unfold wordTokenT
  rw [assoc]
  have look : ∀ s : Dec × Unit, lookDate plainLook i w s = (.ok (tokenResult (lookupIn dateTable w)), s) := by
    intro s
    simp only [lookDate, plainLook, searchDate_eq]
  refine bind (fun a s' e => by rw [look] at e ⊢; cases e; rfl) ?_
  rintro ⟨ty, v⟩ s' e
  have es : s' = s := by
    rw [look] at e
    exact (congrArg Prod.snd e).symm
  subst es
  dsimp only
  by_cases ht : ty = .ignoreDtf
  · rw [if_pos ht]
    exact bind pure fun a _ _ => by
      split
      · exact pure
      · exact noLook addMask
  · rw [if_neg ht, assoc]
    change Fol (dayP k) (do let a ← Pg.noLook (wordActionT ftypes i ty v); Pg.noLook ((fun _ => Pg.addMask) a)) s'
    rw [noLook_bind]
    refine noLook ?_
    unfold wordActionT
    refine bind (modBind rfl ?_) fun _ _ _ => addMask
    split
    · unfold reservedWordT
      refine liftBind fun f hf => ?_
      split
      · exact mod rfl
      · exact fail
    · exact mod rfl
    · exact mod rfl
    · exact modBind rfl (liftBind fun f _ => mod rfl)
    · unfold isoTimeWordT
      refine modBind rfl ?_
      split
      · exact fail
      · exact ite (fun _ => fail) fun _ => liftBind fun f _ => mod rfl
    · exact fail

theorem timeToken {w : Bytes} {d : Dec} : Fol (dayD k) (Pg.timeToken w) d := by
  unfold Pg.timeToken
  exact getBind rfl (ite (fun _ => fail) fun _ => modBind rfl (bind (onTime decodeTime) fun _ _ _ => getBind rfl (ite (fun _ => fail) fun _ => pure)))

/-- One field, after a date. -/
theorem field {f : Field} {s : Dec × Unit} (hm : s.1.fMask &&& 14 = 14) : Fol (dayP k) (dateTimeField p plainLook order ftypes i f) s := by
  unfold dateTimeField
  split
  · exact bind (dateToken hm) fun _ _ _ => noLook addMask
  · exact bind (noLook timeToken) fun _ _ _ => noLook addMask
  · exact numberToken hm
  · exact word hm
  · exact word hm
  · exact fail

theorem bits {a b : Nat} (h : Bits a b) (ha : a &&& 14 = 14) : b &&& 14 = 14 := by
  apply Nat.eq_of_testBit_eq
  intro j
  have h1 := congrArg (fun n => n.testBit j) ha
  simp only [Nat.testBit_and] at h1 ⊢
  cases hj : Nat.testBit 14 j with
  | false => simp
  | true =>
    rw [hj] at h1
    simp only [Bool.and_true] at h1 ⊢
    exact h j h1

theorem loop : ∀ (l : List Field) (i : Nat) (s : Dec × Unit), s.1.fMask &&& 14 = 14 →
    Fol (dayP k) (dateTimeLoop p plainLook order ftypes l i) s := by
  intro l
  induction l with
  | nil => intro i s _; exact pure
  | cons f l ih =>
    intro i s hm
    rw [dateTimeLoop]
    exact bind (field hm) fun a s' e => ih _ _ (bits (field_mask f s a s' e).1 hm)

theorem fieldT {f : Field} {s : Dec × Unit} (hm : s.1.fMask &&& 14 = 14) (hi : 0 < i) :
    Fol (dayP k) (timeOnlyField p plainLook order ftypes i f) s := by
  unfold timeOnlyField
  split
  · unfold dateTokenT
    rw [if_neg (by omega)]
    exact bind fail fun _ _ _ => noLook addMask
  · exact bind (noLook (onTime decodeTime)) fun _ _ _ => noLook addMask
  · exact numberTokenT hm hi
  · exact wordT hm
  · exact wordT hm
  · exact fail

theorem loopT : ∀ (l : List Field) (i : Nat) (s : Dec × Unit), s.1.fMask &&& 14 = 14 → 0 < i →
    Fol (dayP k) (timeOnlyLoop p plainLook order ftypes l i) s := by
  intro l
  induction l with
  | nil => intro i s _ _; exact pure
  | cons f l ih =>
    intro i s hm hi
    rw [timeOnlyLoop]
    exact bind (fieldT hm hi) fun a s' e => ih _ _ (bits (field_maskT f s a s' e) hm) (by omega)

/-! ## The era in a time of day -/

theorem fieldT_bc_said {t : Bytes} {f : Field} (hf : WordAt t f) (s : Dec × Unit) (hs : s.1.bc = true → Says [b!"bc"] t) :
    Post (timeOnlyField p plainLook order ftypes i f) (fun _ s' => s'.1.bc = true → Says [b!"bc"] t) s := by
  have add : ∀ d : Dec, (d.bc = true → Says [b!"bc"] t) → Post Pg.addMask (fun _ d' => d'.bc = true → Says [b!"bc"] t) d := by
    intro d h
    rw [addMask_post]
    exact fun _ => h
  have keep : ∀ d : Dec, d.bc = s.1.bc → Post Pg.addMask (fun _ d' => d'.bc = true → Says [b!"bc"] t) d :=
    fun d h => add d (by rw [h]; exact hs)
  have date : ∀ w, Post (decodeDate plainLook w order) (fun _ s' => s'.1.bc = s.1.bc) s := by
    intro w
    unfold decodeDate
    rw [Post.zoom]
    exact Post.any fun _ _ => rfl
  have num : ∀ {α : Type} (m : St NumS α), Post (Pg.onNum m) (fun _ d' => d'.bc = s.1.bc) s.1 := by
    intro α m
    unfold Pg.onNum
    rw [Post.zoom]
    exact Post.any fun _ _ => rfl
  have word : f.1 = .string ∨ f.1 = .special → Post (wordTokenT plainLook ftypes i f.2) (fun b s' => (b = true → s'.1.bc = true → Says [b!"bc"] t) ∧
      (¬ b = true → Post Pg.addMask (fun _ d => d.bc = true → Says [b!"bc"] t) s'.1)) s := by
    intro hw
    unfold wordTokenT
    rw [Post.bind, Post.look]
    dsimp only
    rw [Post.ite]
    refine ⟨fun _ => by rw [Post.pure]; exact ⟨fun _ => hs, fun h => absurd rfl h⟩, fun _ => ?_⟩
    rw [Post.bind, Post.noLook]
    suffices ∀ ty v, tokenResult (lookupIn dateTable f.2) = (ty, v) → Post (wordActionT ftypes i ty v)
        (fun _ d' => d'.bc = true → Says [b!"bc"] t) s.1 from
      (this _ _ rfl).mono fun _ _ k => by rw [Post.pure]; exact ⟨fun e => (by cases e), fun _ => add _ k⟩
    intro ty v he
    unfold wordActionT
    rw [Post.bind, Post.mod]
    split
    · unfold reservedWordT
      wp
      intro a _
      split <;> wp
      all_goals exact hs
    · rw [Post.mod]; exact hs
    · rw [Post.mod]
      intro hb
      have hb : v = 1 := by simpa using hb
      subst hb
      exact said_word (ty := .adbc) (v := 1) ⟨hw, he, by decide⟩ hf (by decide +kernel) (by decide) (by decide)
    · wp
      exact fun _ _ => hs
    · unfold isoTimeWordT
      wp
      split
      · wp
      · wp
        exact fun _ _ _ => hs
    · wp
  unfold timeOnlyField
  split
  · unfold dateTokenT
    rw [Post.bind, Post.ite]
    exact ⟨fun _ => (date _).mono fun _ s' k => by rw [Post.noLook]; exact keep _ k, fun _ => by rw [Post.fail]; trivial⟩
  · wp
    unfold Pg.onTime
    rw [Post.zoom]
    exact Post.any fun _ _ => keep _ rfl
  · rw [Post.bind]
    suffices Post (Pg.numberTokenT p plainLook order ftypes i f.2) (fun _ s' => s'.1.bc = s.1.bc) s from
      this.mono fun _ s' k => by rw [Post.noLook]; exact keep _ k
    unfold Pg.numberTokenT
    wp
    exact ⟨fun _ => labelled_bc _ _, fun _ => ⟨fun _ => ⟨fun _ => date _, fun _ _ => num _⟩, fun _ => ⟨fun _ => num _, fun _ => num _⟩⟩⟩
  · rename_i h
    rw [Post.bind]
    exact (word (.inl h)).mono fun b s' k => by
      rw [Post.ite]
      exact ⟨fun c => by rw [Post.pure]; exact k.1 c, fun c => by rw [Post.noLook]; exact k.2 c⟩
  · rename_i h
    rw [Post.bind]
    exact (word (.inr h)).mono fun b s' k => by
      rw [Post.ite]
      exact ⟨fun c => by rw [Post.pure]; exact k.1 c, fun c => by rw [Post.noLook]; exact k.2 c⟩
  · wp

/-! ## The end -/

/-- A day as the decoder keeps it. -/
def ofDay (c : YMD) : Int × Int × Int := (c.y, c.m, c.d)

/-- The rule for the two halves of the day, at the end. -/
def noonRule (p : Profile) : St Dec Unit := do
  let d ← St.get
  if d.mer ≠ 2 ∧ d.tm.hour > 12 then St.fail .overflow
  else if d.mer = 0 ∧ d.tm.hour = 12 then St.mod fun d => { d with tm := { d.tm with hour := 0 } }
  else if d.mer = 1 ∧ d.tm.hour ≠ 12 then do
    let h ← St.lift (chk32 p (d.tm.hour + 12))
    St.mod fun d => { d with tm := { d.tm with hour := h } }
  else Pure.pure ()

theorem noon (d : Dec) : Fol (dayD k) (noonRule p) d := by
  unfold noonRule
  exact getBind rfl (ite (fun _ => fail) fun _ => ite (fun _ => mod rfl) fun _ => ite (fun _ => liftBind fun c _ => mod rfl) fun _ => pure)

theorem finish {y y' : Bytes} {m dd m' dd' : Int} {d e : Dec} {x : Unit} (h : DaySet y m dd d) (hy : Digits y) (hk : NumOk y) (hy' : Digits y')
    (hk' : NumOk y') (len : y'.length = y.length) (run : finishFields p d = (.ok x, e)) :
    ∃ day, namedDay y m dd d.bc = some day ∧ (e.tm.year = day.y ∧ e.tm.mon = day.m ∧ e.tm.mday = day.d) ∧
      match namedDay y' m' dd' d.bc with
      | some day' => finishFields p (dayD (value y', m', dd') d) = (.ok x, dayD (ofDay day') e)
      | none => ∃ s', finishFields p (dayD (value y', m', dd') d) = (.err .overflow, s') := by
  obtain ⟨day, k1, k2, k3, k4, -⟩ := finish_day h hy hk _ _ run
  refine ⟨day, k1, ⟨k2, k3, k4⟩, ?_⟩
  have gen : ∀ (d : Dec) (tm : PgTime), d.tm.validateDate p d.fMask d.isJulian d.is2 d.bc = .ok tm → finishFields p d =
      noonRule p { d with tm := tm } := by
    intro d tm hv
    unfold finishFields
    rw [St.get_bind, hv, St.lift_ok_bind, St.mod_bind]
    rfl
  have v1 := validateDate_gen p d.tm d.is2 d.bc h.mask h.doy (by rw [h.year]; have := hk.2; omega)
  rw [h.year, h.is2, yearOf_eq hy, h.mon, h.day] at v1
  have v2 := validateDate_gen p (dayTm (value y', m', dd') d.tm) d.is2 d.bc h.mask h.doy (by
    show 0 ≤ (value y' : Int) ∧ (value y' : Int) ≤ 2147483647
    have := hk'.2; omega)
  rw [show (dayTm (value y', m', dd') d.tm).year = value y' from rfl, h.is2, ← len, yearOf_eq hy',
    show (dayTm (value y', m', dd') d.tm).mon = m' from rfl, show (dayTm (value y', m', dd') d.tm).mday = dd' from rfl] at v2
  have v1' : ∃ yy, d.tm.validateDate p d.fMask d.isJulian d.is2 d.bc = .ok { d.tm with year := yy, mon := m, mday := dd } := by
    rw [h.julian, h.is2]
    unfold namedDay at k1
    cases hi : inputYear y d.bc with
    | none => rw [hi] at k1; cases k1
    | some yy =>
      rw [hi] at k1 v1
      dsimp only at k1 v1
      split at k1
      · rename_i hr
        rw [if_pos hr] at v1
        exact ⟨yy, v1⟩
      · cases k1
  obtain ⟨yy, v1'⟩ := v1'
  rw [gen d _ v1'] at run
  have bad : inputYear y' d.bc = none ∨ (∃ z, inputYear y' d.bc = some z ∧ ¬ (⟨z, m', dd'⟩ : YMD).Real) →
      ∃ s', finishFields p (dayD (value y', m', dd') d) = (.err .overflow, s') := by
    intro hb
    have : (dayD (value y', m', dd') d).tm.validateDate p (dayD (value y', m', dd') d).fMask (dayD (value y', m', dd') d).isJulian
        (dayD (value y', m', dd') d).is2 (dayD (value y', m', dd') d).bc = .err .overflow := by
      show (dayTm (value y', m', dd') d.tm).validateDate p d.fMask d.isJulian d.is2 d.bc = .err .overflow
      rw [h.julian, h.is2, ← len, v2]
      rcases hb with hb | ⟨z, hb, hr⟩
      · rw [hb]
      · rw [hb]; exact if_neg hr
    unfold finishFields
    rw [St.get_bind, this]
    exact ⟨_, rfl⟩
  unfold namedDay
  cases hi : inputYear y' d.bc with
  | none => exact bad (Or.inl hi)
  | some z =>
    dsimp only
    by_cases hr : (⟨z, m', dd'⟩ : YMD).Real
    · rw [if_pos hr]
      dsimp only
      rw [gen (dayD (value y', m', dd') d) (dayTm (z, m', dd') { d.tm with year := yy, mon := m, mday := dd }) (by
        show (dayTm (value y', m', dd') d.tm).validateDate p d.fMask d.isJulian d.is2 d.bc = _
        rw [h.julian, h.is2, ← len, v2, hi]
        exact if_pos hr)]
      exact noon (k := (z, m', dd')) { d with tm := { d.tm with year := yy, mon := m, mday := dd } } x e run
    · rw [if_neg hr]
      exact bad (Or.inr ⟨z, hi, hr⟩)

/-! ## All fields -/

/-- The two dates. -/
structure DateSwap (d d' : Nat) (a b c a' b' c' : Bytes) : Prop where
  sep : isSep d
  sep' : isSep d'
  old : ThreeNumbers a b c
  new : ThreeNumbers a' b' c'
  length : a'.length = a.length ∧ b'.length = b.length ∧ c'.length = c.length
  middle : b.length ≠ 3
  small : value a' ≤ 2147483647 ∧ value b' ≤ 2147483647 ∧ value c' ≤ 2147483647

/-- The state after the date. -/
def afterDate (n : Bytes × Bytes × Bytes) : Dec :=
  { tm := { ({} : Dec).tm with year := value n.1, mon := value n.2.1, mday := value n.2.2 }, is2 := decide (n.1.length ≤ 2), tMask := 14, fMask := 14 }

theorem afterDate_set (n : Bytes × Bytes × Bytes) : DaySet n.1 (value n.2.1) (value n.2.2) (afterDate n) :=
  ⟨by unfold afterDate; dsimp only; decide, by unfold afterDate; dsimp only; decide, by unfold afterDate; dsimp only; decide, rfl, rfl, rfl, rfl, rfl⟩

theorem DateSwap.numbers {d d' : Nat} {a b c a' b' c' : Bytes} (h : DateSwap d d' a b c a' b' c') (hk : NumOk a ∧ NumOk b ∧ NumOk c) :
    NumOk a' ∧ NumOk b' ∧ NumOk c' := by
  obtain ⟨l1, l2, l3⟩ := h.length
  obtain ⟨s1, s2, s3⟩ := h.small
  exact ⟨⟨by rw [l1]; exact hk.1.1, s1⟩, ⟨by rw [l2]; exact hk.2.1.1, s2⟩, ⟨by rw [l3]; exact hk.2.2.1, s3⟩⟩

theorem DateSwap.year {d d' : Nat} {a b c a' b' c' : Bytes} (h : DateSwap d d' a b c a' b' c') (y : Bool) :
    (assign3 order y a' b' c').1.length = (assign3 order y a b c).1.length := by
  obtain ⟨l1, -, l3⟩ := h.length
  unfold assign3
  cases y <;> cases order <;> simp [l1, l3]

theorem afterDate_swap {n n' : Bytes × Bytes × Bytes} (h : n'.1.length = n.1.length) :
    dayD (value n'.1, value n'.2.1, value n'.2.2) (afterDate n) = afterDate n' := by
  unfold afterDate
  rw [h]
  rfl

theorem decode {d d' : Nat} {a b c a' b' c' : Bytes} (h : DateSwap d d' a b c a' b' c') {l : List Field} {s : Bytes}
    (ht : ∀ f ∈ (TokenField.date, numericDate d a b c) :: l, WordAt s f) {e : Dec}
    (run : decodeDateTime p plainLook order ((.date, numericDate d a b c) :: l) ({}, ()) = (.ok (), (e, ()))) :
    ∃ bc day, (bc = true → Says [b!"bc"] s) ∧ inputDay order a b c bc = some day ∧ (e.tm.year = day.y ∧ e.tm.mon = day.m ∧ e.tm.mday = day.d) ∧
      match inputDay order a' b' c' bc with
      | some day' => decodeDateTime p plainLook order ((.date, numericDate d' a' b' c') :: l) ({}, ()) = (.ok (), (dayD (ofDay day') e, ()))
      | none => ∃ s', decodeDateTime p plainLook order ((.date, numericDate d' a' b' c') :: l) ({}, ()) = (.err .overflow, s') := by
  obtain ⟨⟨ha, na⟩, ⟨hb, nb⟩, ⟨hc, nc⟩⟩ := h.old
  obtain ⟨⟨ha', na'⟩, ⟨hb', nb'⟩, ⟨hc', nc'⟩⟩ := h.new
  have nd : ∀ (d : Nat) (a b c : Bytes), numericDate d a b c = a ++ d :: (b ++ d :: c) := by intro d a b c; simp [numericDate]
  have len := h.year (order := order) (decide (3 ≤ a.length))
  obtain ⟨n, hn⟩ : ∃ n, assign3 order (decide (3 ≤ a.length)) a b c = n := ⟨_, rfl⟩
  obtain ⟨n', hn'⟩ : ∃ n, assign3 order (decide (3 ≤ a.length)) a' b' c' = n := ⟨_, rfl⟩
  have hn2 : assign3 order (decide (3 ≤ a'.length)) a' b' c' = n' := by rw [h.length.1]; exact hn'
  rw [hn, hn'] at len
  have i1 : ∀ bc, inputDay order a b c bc = namedDay n.1 (value n.2.1) (value n.2.2) bc := by intro bc; unfold inputDay; dsimp only; rw [hn]
  have i2 : ∀ bc, inputDay order a' b' c' bc = namedDay n'.1 (value n'.2.1) (value n'.2.2) bc := by intro bc; unfold inputDay; dsimp only; rw [hn2]
  simp only [i1, i2]
  have q1 : Digits n.1 := by rw [← hn]; exact assign3_digits ha hc
  have q2 : Digits n'.1 := by rw [← hn']; exact assign3_digits ha' hc'
  unfold decodeDateTime at run ⊢
  simp only [List.map_cons] at run ⊢
  obtain ⟨x1, s1, e1, e2⟩ := St.bind_okInv run
  rw [dateTimeLoop] at e1
  obtain ⟨x2, s2, e3, e4⟩ := St.bind_okInv e1
  have f1 := field_date (p := p) (order := order) (ft := TokenField.date :: l.map Prod.fst) (i := 0) (d := {}) h.sep h.sep ha na hb nb hc nc (fun _ => h.middle) rfl rfl hn
  have hk : NumOk a ∧ NumOk b ∧ NumOk c := by
    by_contra hk
    rw [if_neg hk, ← nd] at f1
    obtain ⟨s', f1⟩ := f1
    rw [e3] at f1
    cases f1
  rw [if_pos hk, ← nd] at f1
  have hk1 := (assign3_all (order := order) (y := decide (3 ≤ a.length)) (P := NumOk)).1 hk
  rw [hn] at hk1
  have hk' := h.numbers hk
  have hk2 := (assign3_all (order := order) (y := decide (3 ≤ a.length)) (P := NumOk)).1 hk'
  rw [hn'] at hk2
  have f2 := field_date (p := p) (order := order) (ft := TokenField.date :: l.map Prod.fst) (i := 0) (d := {}) h.sep' h.sep' ha' na' hb' nb' hc' nc'
    (fun _ => by rw [h.length.2.1]; exact h.middle) rfl rfl hn2
  rw [if_pos hk', ← nd] at f2
  have g1 : s2 = (afterDate n, ()) := by rw [e3] at f1; exact congrArg Prod.snd f1
  subst g1
  have f2 : dateTimeField p plainLook order (TokenField.date :: l.map Prod.fst) 0 (.date, numericDate d' a' b' c') ({}, ()) =
      (.ok (), dayP (value n'.1, value n'.2.1, value n'.2.2) (afterDate n, ())) := by
    show _ = (Res.ok (), (dayD _ (afterDate n), ()))
    rw [afterDate_swap len]
    exact f2
  have inv := loop_all (I := fun s => DaySet n.1 (value n.2.1) (value n.2.2) s) (G := fun _ => True)
    (fun ft i f s hf hI => field_date_kept hI f) l _ _ (afterDate n, ()) (fun _ _ => trivial) (afterDate_set n) _ _ e4
  have said := loop_all (I := fun d => d.bc = true → Says [b!"bc"] s) (G := WordAt s)
    (fun ft i f s hf hI => field_bc_said hf s hI) l _ _ (afterDate n, ()) (fun f hf => ht f (by simp [hf])) (by intro h; cases h) _ _ e4
  obtain ⟨x3, s3, e5, e6⟩ := St.bind_okInv e2
  have e5 := noLook_ok e5
  have es : (e, ()) = s3 := by
    have : Post (do
        let d ← Pg.noLook St.get
        if d.dType = .date ∧ d.fMask &&& DTK_DATE_M ≠ DTK_DATE_M ∧ d.fMask &&& DTK_TIME_M ≠ DTK_TIME_M then St.fail .invalid
        else Pure.pure () : St (Dec × Unit) Unit) (fun _ s => s = s3) s3 := by
      wp
    exact this _ _ e6
  subst es
  obtain ⟨day, d1, d2, d3⟩ := finish (y' := n'.1) (m' := value n'.2.1) (dd' := value n'.2.2) inv q1 hk1.1 q2 hk2.1 len e5
  refine ⟨s1.1.bc, day, said, d1, d2, ?_⟩
  have l2 : dateTimeLoop p plainLook order (TokenField.date :: l.map Prod.fst) ((.date, numericDate d' a' b' c') :: l) 0 ({}, ()) =
      (.ok x1, dayP (value n'.1, value n'.2.1, value n'.2.2) s1) := by
    rw [dateTimeLoop, St.bind_ok f2]
    exact loop l _ (afterDate n, ()) (afterDate_set n).mask _ _ e4
  cases hd' : namedDay n'.1 (value n'.2.1) (value n'.2.2) s1.1.bc with
  | none =>
    rw [hd'] at d3
    dsimp only at d3 ⊢
    obtain ⟨s', d3⟩ := d3
    have : Pg.noLook (finishFields p) (dayP (value n'.1, value n'.2.1, value n'.2.2) s1) = (.err .overflow, (s', ())) := by
      show ((finishFields p (dayD _ s1.1)).1, (finishFields p (dayD _ s1.1)).2, s1.2) = _
      rw [d3]
    rw [St.bind_ok l2, St.bind_run, this]
    exact ⟨_, rfl⟩
  | some day' =>
    rw [hd'] at d3
    dsimp only at d3 ⊢
    have : Pg.noLook (finishFields p) (dayP (value n'.1, value n'.2.1, value n'.2.2) s1) = (.ok x3, dayP (ofDay day') (e, ())) := noLook_ran d3
    rw [St.bind_ok l2, St.bind_ok this]
    have run : ∀ t : Dec × Unit, (do
          let d ← Pg.noLook St.get
          if d.dType = .date ∧ d.fMask &&& DTK_DATE_M ≠ DTK_DATE_M ∧ d.fMask &&& DTK_TIME_M ≠ DTK_TIME_M then St.fail .invalid
          else Pure.pure () : St (Dec × Unit) Unit) t =
        (if t.1.dType = .date ∧ t.1.fMask &&& DTK_DATE_M ≠ DTK_DATE_M ∧ t.1.fMask &&& DTK_TIME_M ≠ DTK_TIME_M then St.fail .invalid
          else Pure.pure () : St (Dec × Unit) Unit) t := fun t => rfl
    rw [run] at e6 ⊢
    exact Fol.ite (put := dayP (ofDay day')) (fun _ => Fol.fail) (fun _ => Fol.pure) () (e, ()) e6

theorem decodeT {d d' : Nat} {a b c a' b' c' : Bytes} (h : DateSwap d d' a b c a' b' c') {l : List Field} {s : Bytes}
    (ht : ∀ f ∈ (TokenField.date, numericDate d a b c) :: l, WordAt s f) {e : Dec}
    (run : decodeTimeOnly p plainLook order ((.date, numericDate d a b c) :: l) ({}, ()) = (.ok (), (e, ()))) :
    ∃ bc day, (bc = true → Says [b!"bc"] s) ∧ inputDay order a b c bc = some day ∧
      match inputDay order a' b' c' bc with
      | some day' => decodeTimeOnly p plainLook order ((.date, numericDate d' a' b' c') :: l) ({}, ()) = (.ok (), (dayD (ofDay day') e, ()))
      | none => ∃ s', decodeTimeOnly p plainLook order ((.date, numericDate d' a' b' c') :: l) ({}, ()) = (.err .overflow, s') := by
  obtain ⟨⟨ha, na⟩, ⟨hb, nb⟩, ⟨hc, nc⟩⟩ := h.old
  obtain ⟨⟨ha', na'⟩, ⟨hb', nb'⟩, ⟨hc', nc'⟩⟩ := h.new
  have nd : ∀ (d : Nat) (a b c : Bytes), numericDate d a b c = a ++ d :: (b ++ d :: c) := by intro d a b c; simp [numericDate]
  have len := h.year (order := order) (decide (3 ≤ a.length))
  obtain ⟨n, hn⟩ : ∃ n, assign3 order (decide (3 ≤ a.length)) a b c = n := ⟨_, rfl⟩
  obtain ⟨n', hn'⟩ : ∃ n, assign3 order (decide (3 ≤ a.length)) a' b' c' = n := ⟨_, rfl⟩
  have hn2 : assign3 order (decide (3 ≤ a'.length)) a' b' c' = n' := by rw [h.length.1]; exact hn'
  rw [hn, hn'] at len
  have i1 : ∀ bc, inputDay order a b c bc = namedDay n.1 (value n.2.1) (value n.2.2) bc := by intro bc; unfold inputDay; dsimp only; rw [hn]
  have i2 : ∀ bc, inputDay order a' b' c' bc = namedDay n'.1 (value n'.2.1) (value n'.2.2) bc := by intro bc; unfold inputDay; dsimp only; rw [hn2]
  simp only [i1, i2]
  have q1 : Digits n.1 := by rw [← hn]; exact assign3_digits ha hc
  have q2 : Digits n'.1 := by rw [← hn']; exact assign3_digits ha' hc'
  unfold decodeTimeOnly at run ⊢
  simp only [List.map_cons] at run ⊢
  obtain ⟨x1, s1, e1, e2⟩ := St.bind_okInv run
  rw [timeOnlyLoop] at e1
  obtain ⟨x2, s2, e3, e4⟩ := St.bind_okInv e1
  have run1 : ∀ w, timeOnlyField p plainLook order (TokenField.date :: l.map Prod.fst) 0 (.date, w) ({}, ()) =
      (do decodeDate plainLook w order; Pg.noLook Pg.addMask : St (Dec × Unit) Unit) ({}, ()) := by
    intro w
    unfold timeOnlyField dateTokenT
    dsimp only
    by_cases hc : 0 = 0 ∧ (TokenField.date :: l.map Prod.fst).length ≥ 2 ∧
        ((TokenField.date :: l.map Prod.fst).getLast? = some .date ∨ (TokenField.date :: l.map Prod.fst)[1]? = some .time)
    · rw [if_pos hc]
    · exfalso
      unfold timeOnlyField dateTokenT at e3
      dsimp only at e3
      rw [if_neg hc] at e3
      cases e3
  rw [run1] at e3
  have f1 := decodeDate_three order h.sep h.sep ha na hb nb hc nc (fun _ => h.middle) {} rfl hn
  have hk : NumOk a ∧ NumOk b ∧ NumOk c := by
    by_contra hk
    rw [if_neg hk, ← nd] at f1
    obtain ⟨s', f1⟩ := f1
    rw [St.bind_run, f1] at e3
    cases e3
  rw [if_pos hk, ← nd] at f1
  have hk1 := (assign3_all (order := order) (y := decide (3 ≤ a.length)) (P := NumOk)).1 hk
  rw [hn] at hk1
  have hk' := h.numbers hk
  have hk2 := (assign3_all (order := order) (y := decide (3 ≤ a.length)) (P := NumOk)).1 hk'
  rw [hn'] at hk2
  have f2 := decodeDate_three order h.sep' h.sep' ha' na' hb' nb' hc' nc' (fun _ => by rw [h.length.2.1]; exact h.middle) {} rfl hn2
  rw [if_pos hk', ← nd] at f2
  have add : ∀ n : Bytes × Bytes × Bytes, Pg.noLook Pg.addMask ({ afterDate n with fMask := 0 }, ()) = (.ok (), (afterDate n, ())) := by
    intro n
    unfold Pg.noLook Pg.addMask afterDate
    rw [St.get_bind]
    simp only [Nat.and_zero, ne_eq, not_true_eq_false, if_false, St.mod, Nat.zero_or]
  have g1 : s2 = (afterDate n, ()) := by
    rw [St.bind_ok f1] at e3
    exact (congrArg Prod.snd ((add n).symm.trans e3)).symm
  subst g1
  have f2 : timeOnlyField p plainLook order (TokenField.date :: l.map Prod.fst) 0 (.date, numericDate d' a' b' c') ({}, ()) =
      (.ok (), dayP (value n'.1, value n'.2.1, value n'.2.2) (afterDate n, ())) := by
    show _ = (Res.ok (), (dayD _ (afterDate n), ()))
    rw [afterDate_swap len, run1, St.bind_ok f2]
    exact add n'
  have rest : ∀ (ft : List TokenField) (l : List Field) (i : Nat) (z : Dec × Unit), 0 < i → (∀ f ∈ l, WordAt s f) →
      DaySet n.1 (value n.2.1) (value n.2.2) z.1 ∧ (z.1.bc = true → Says [b!"bc"] s) →
      Post (timeOnlyLoop p plainLook order ft l i) (fun _ z => DaySet n.1 (value n.2.1) (value n.2.2) z.1 ∧ (z.1.bc = true → Says [b!"bc"] s)) z := by
    intro ft l
    induction l with
    | nil => intro i z _ _ h; rw [timeOnlyLoop, Post.pure]; exact h
    | cons f l ih =>
      intro i z hi hw h
      rw [timeOnlyLoop, Post.bind]
      exact ((fieldT_date h.1 hi f).and (fieldT_bc_said (hw f (by simp)) z h.2)).mono fun _ s' h' => ih _ _ (by omega) (fun f hf => hw f (by simp [hf])) h'
  obtain ⟨inv, said⟩ := rest _ l _ (afterDate n, ()) (by omega) (fun f hf => ht f (by simp [hf])) ⟨afterDate_set n, by intro h; cases h⟩ _ _ e4
  obtain ⟨x3, s3, e5, e6⟩ := St.bind_okInv e2
  have e5 := noLook_ok e5
  have es : (e, ()) = s3 := by
    have : Post (do
        let d ← Pg.noLook St.get
        if badTimeOnly d then St.fail .overflow else Pure.pure () : St (Dec × Unit) Unit) (fun _ s => s = s3) s3 := by
      wp
    exact this _ _ e6
  subst es
  obtain ⟨day, d1, -, d3⟩ := finish (y' := n'.1) (m' := value n'.2.1) (dd' := value n'.2.2) inv q1 hk1.1 q2 hk2.1 len e5
  refine ⟨s1.1.bc, day, said, d1, ?_⟩
  have l2 : timeOnlyLoop p plainLook order (TokenField.date :: l.map Prod.fst) ((.date, numericDate d' a' b' c') :: l) 0 ({}, ()) =
      (.ok x1, dayP (value n'.1, value n'.2.1, value n'.2.2) s1) := by
    rw [timeOnlyLoop, St.bind_ok f2]
    exact loopT l _ (afterDate n, ()) (afterDate_set n).mask (by omega) _ _ e4
  cases hd' : namedDay n'.1 (value n'.2.1) (value n'.2.2) s1.1.bc with
  | none =>
    rw [hd'] at d3
    dsimp only at d3 ⊢
    obtain ⟨s', d3⟩ := d3
    have : Pg.noLook (finishFields p) (dayP (value n'.1, value n'.2.1, value n'.2.2) s1) = (.err .overflow, (s', ())) := by
      show ((finishFields p (dayD _ s1.1)).1, (finishFields p (dayD _ s1.1)).2, s1.2) = _
      rw [d3]
    rw [St.bind_ok l2, St.bind_run, this]
    exact ⟨_, rfl⟩
  | some day' =>
    rw [hd'] at d3
    dsimp only at d3 ⊢
    have : Pg.noLook (finishFields p) (dayP (value n'.1, value n'.2.1, value n'.2.2) s1) = (.ok x3, dayP (ofDay day') (e, ())) := noLook_ran d3
    rw [St.bind_ok l2, St.bind_ok this]
    have run : ∀ t : Dec × Unit, (do
          let d ← Pg.noLook St.get
          if badTimeOnly d then St.fail .overflow else Pure.pure () : St (Dec × Unit) Unit) t =
        (if badTimeOnly t.1 then St.fail .overflow else Pure.pure () : St (Dec × Unit) Unit) t := fun t => rfl
    rw [run] at e6 ⊢
    exact Fol.ite (put := dayP (ofDay day')) (fun _ => Fol.fail) (fun _ => Fol.pure) () (e, ()) e6

end Redate

end Pg
