import Verif.Lemmas.Swap
import Verif.Lemmas.BadClock
import Verif.Lemmas.FirstDate
import Verif.Lemmas.CaseDecode

/-! # Two texts that differ in one clock time: the decoders -/

namespace Pg
open Spec

/-- Where `m` succeeds, it also succeeds on the changed state, with the same result and the same change of the state reached. -/
def Fol {σ α : Type} (put : σ → σ) (m : St σ α) (s : σ) : Prop := ∀ a s', m s = (.ok a, s') → m (put s) = (.ok a, put s')

namespace Fol
variable {σ τ α β : Type} {put : σ → σ} {s : σ}

theorem never {m : St σ α} (h : Post m (fun _ _ => False) s) : Fol put m s := fun a s' e => (h a s' e).elim
theorem pure {a : α} : Fol put (Pure.pure a : St σ α) s := by rintro _ _ ⟨⟩; rfl
theorem fail {e : Err} : Fol put (St.fail e : St σ α) s := by rintro _ _ ⟨⟩
theorem panic : Fol put (St.panic : St σ α) s := by rintro _ _ ⟨⟩
theorem lift {r : Res α} : Fol put (St.lift r : St σ α) s := by rintro _ _ ⟨⟩; rfl
theorem mod {g : σ → σ} (h : g (put s) = put (g s)) : Fol put (St.mod g) s := by
  rintro _ _ ⟨⟩
  show (Res.ok (), g (put s)) = _
  rw [h]

theorem bind {m : St σ α} {f : α → St σ β} (h1 : Fol put m s) (h2 : ∀ a s', m s = (.ok a, s') → Fol put (f a) s') : Fol put (m >>= f) s := by
  intro b s'' e
  change St.bind m f s = _ at e
  show St.bind m f (put s) = _
  unfold St.bind at e ⊢
  rcases hm : m s with ⟨r, s'⟩
  rw [hm] at e
  cases r with
  | err e' => cases e
  | panic => cases e
  | ok a =>
    rw [h1 a s' hm]
    exact h2 a s' hm b s'' e

theorem getBind {f : σ → St σ β} (he : f (put s) = f s) (h : Fol put (f s) s) : Fol put (St.get >>= f) s := by
  intro b s' e
  change f s s = _ at e
  show f (put s) (put s) = _
  rw [he]
  exact h b s' e

theorem modBind {g : σ → σ} {f : Unit → St σ β} (h : g (put s) = put (g s)) (h2 : Fol put (f ()) (g s)) : Fol put (St.mod g >>= f) s :=
  bind (mod h) (by rintro _ _ ⟨⟩; exact h2)

theorem liftBind {r : Res α} {f : α → St σ β} (h2 : ∀ a, r = .ok a → Fol put (f a) s) : Fol put (St.lift r >>= f) s :=
  bind lift (fun a s' e => by cases e; exact h2 a rfl)

theorem ite {c : Prop} [Decidable c] {m n : St σ α} (h1 : c → Fol put m s) (h2 : ¬ c → Fol put n s) : Fol put (if c then m else n) s := by
  split
  · exact h1 (by assumption)
  · exact h2 (by assumption)

theorem zoom {put' : τ → τ} {proj : σ → τ} {q : τ → σ → σ} {m : St τ α} (h : Fol put' m (proj s)) (e1 : proj (put s) = put' (proj s))
    (e2 : ∀ n, q (put' n) (put s) = put (q n s)) : Fol put (St.zoom proj q m) s := by
  intro a s' e
  unfold St.zoom at e ⊢
  rcases hm : m (proj s) with ⟨r, n⟩
  rw [hm] at e
  simp only [Prod.mk.injEq] at e
  obtain ⟨rfl, rfl⟩ := e
  rw [e1, h a n hm, e2]

end Fol

/-- The clock fields replaced. -/
def putTm (k : Int × Int × Int) (tm : PgTime) : PgTime := { tm with hour := k.1, min := k.2.1, sec := k.2.2 }
def putN (k : Int × Int × Int) (n : NumS) : NumS := { n with tm := putTm k n.tm }
def putD (k : Int × Int × Int) (d : Dec) : Dec := { d with tm := putTm k d.tm }
def putP (k : Int × Int × Int) (s : Dec × Unit) : Dec × Unit := (putD k s.1, s.2)

theorem Fol.noLook {α : Type} {k : Int × Int × Int} {m : St Dec α} {s : Dec × Unit} (h : Fol (putD k) m s.1) : Fol (putP k) (Pg.noLook m) s := by
  intro a s' e
  unfold Pg.noLook at e ⊢
  rcases hm : m s.1 with ⟨r, n⟩
  rw [hm] at e
  simp only [Prod.mk.injEq] at e
  obtain ⟨rfl, rfl⟩ := e
  show ((m (putD k s.1)).1, (m (putD k s.1)).2, s.2) = _
  rw [h a n hm]
  rfl

theorem Fol.onNum {α : Type} {k : Int × Int × Int} {m : St NumS α} {d : Dec} (h : ∀ n, Fol (putN k) m n) : Fol (putD k) (Pg.onNum m) d :=
  Fol.zoom (h _) rfl (fun _ => rfl)

variable {k : Int × Int × Int} {p : Profile} {order : DateOrder} {ftypes : List TokenField} {i : Nat}

theorem Fol.numberField {w : Bytes} {m : Nat} (hm : m &&& 31744 = 31744) (n : NumS) : Fol (putN k) (decodeNumberField w m) n := by
  have nt := fun len s => @numberTime_refused w len m hm s
  unfold decodeNumberField
  refine ite (fun _ => ?_) fun _ => ite (fun _ => ?_) fun _ => never (nt _ _)
  · exact liftBind fun a _ => modBind rfl (never (nt _ _))
  · unfold numberDate
    refine modBind rfl (liftBind fun a _ => modBind rfl (liftBind fun b _ => modBind rfl (liftBind fun c _ => modBind rfl (modBind ?_ pure))))
    dsimp only
    split <;> rfl

/-- The fields of a date that a number can be. -/
theorem Fol.numberVal {w : Bytes} {v : Int} {b : Bool} {m : Nat} (hm : m &&& 31744 = 31744) (n : NumS) :
    Fol (putN k) (decodeNumberVal w v b m order) n := by
  have set : ∀ {c : Bool} {g : NumS → NumS} {n : NumS}, (∀ n, g (putN k n) = putN k (g n)) →
      Fol (putN k) (St.mod g >>= fun _ => (Pure.pure c : St NumS Bool)) n := fun h => modBind (h _) pure
  unfold decodeNumberVal
  refine ite (fun _ => mod rfl) fun _ => bind ?_ fun a n' _ => mod ?_
  · unfold numberByMask
    dsimp only
    repeat' first
      | exact set fun _ => rfl
      | refine ite (fun _ => ?_) fun _ => ?_
      | exact fail
      | exact bind (numberField hm _) fun _ _ _ => pure
      | refine getBind rfl ?_
  · dsimp only [putN]
    split <;> rfl

theorem Fol.number {w : Bytes} {b : Bool} {m : Nat} (hm : m &&& 31744 = 31744) (n : NumS) :
    Fol (putN k) (decodeNumber w b m order) n := by
  unfold decodeNumber
  refine modBind rfl (liftBind fun ⟨v, r⟩ _ => ?_)
  dsimp only
  refine ite (fun _ => fail) fun _ => ?_
  split
  · exact numberVal hm _
  · refine ite (fun _ => ?_) fun _ => fail
    refine ite (fun _ => ?_) fun _ => liftBind fun f _ => modBind rfl (numberVal hm _)
    have hm' := full_or hm
    -- the error is ignored
    intro a s' e
    have key : ∀ n : NumS, decodeNumberField w (m ||| DTK_DATE_M) (putN k n) =
        ((decodeNumberField w (m ||| DTK_DATE_M) n).1, putN k (decodeNumberField w (m ||| DTK_DATE_M) n).2) := by
      intro n
      have nt : ∀ len n, numberTime w len (m ||| DTK_DATE_M) n = (.err .invalid, n) := by
        intro len n
        unfold numberTime
        rw [if_neg (fun h => h.1 hm'), if_neg (fun h => h.1 hm')]
        rfl
      unfold decodeNumberField
      by_cases h1 : w.length ≠ dotPos w
      · rw [if_pos h1]
        cases hs : str2d (List.drop (dotPos w) w) with
        | ok x =>
          rw [St.lift_ok_bind, St.lift_ok_bind]
          dsimp only
          rw [St.mod_bind, St.mod_bind, nt, nt]
          rfl
        | err x => rfl
        | panic => rfl
      · rw [if_neg h1, if_neg (fun h => h.1 (date_or m)), nt, nt]
    unfold St.ignore at e ⊢
    rw [key]
    rcases hd : decodeNumberField w (m ||| DTK_DATE_M) { n with tMask := 0 } with ⟨r, n'⟩
    rw [hd] at e
    cases r with
    | ok x => cases e; rfl
    | err x => cases e; rfl
    | panic => cases e

/-- A whole date is not read after a clock time. -/
theorem date_never {w : Bytes} {s : Dec × Unit} (hm : s.1.fMask &&& 31744 = 31744) : Post (decodeDate plainLook w order) (fun _ _ => False) s := by
  unfold decodeDate
  rw [Post.zoom]
  unfold dateBody
  wp
  intro a _
  refine (textPass_mask s.1.fMask a 0 _ (by unfold DateMask; simp)).mono fun r t ht => ?_
  refine (numPass_mask s.1.fMask r t.1 ht).mono fun _ t ht => ?_
  intro hm'
  unfold DateMask at ht
  rw [ht, ne_eq, Decidable.not_not] at hm'
  have h1 := congrArg (fun n => n.testBit 10) hm
  have h2 := congrArg (fun n => n.testBit 10) hm'
  simp only [Nat.testBit_and, Nat.testBit_or] at h1 h2
  rw [show Nat.testBit 31744 10 = true by decide] at h1
  rw [show Nat.testBit 4294934495 10 = true by decide, show Nat.testBit 14 10 = false by decide] at h2
  simp only [Bool.and_true] at h1 h2
  rw [h1] at h2
  cases h2

/-- A field that claims a part of the time is refused. -/
theorem claim_never {d : Dec} {m : Nat} (hm : m &&& 31744 = 31744) (e : d.fMask = m) (h : d.tMask &&& 31744 ≠ 0) :
    Post addMask (fun _ _ => False) d := by
  rw [addMask_post]
  intro h0
  apply h
  rw [← hm, ← e]
  rw [← Nat.and_assoc, h0, Nat.zero_and]

theorem Fol.addMask {d : Dec} : Fol (putD k) addMask d := by
  unfold Pg.addMask
  exact getBind rfl (ite (fun _ => fail) fun _ => mod rfl)

/-- The assignment for a label, or a claim on the time. -/
theorem Fol.labelAssign {ty : TokenField} {w r : Bytes} {v : Int} {d : Dec} (hm : d.fMask &&& 31744 = 31744) {α : Type} {f : Unit → St Dec α}
    (hf : ∀ d', Fol (putD k) (f ()) d')
    (hn : ∀ d' : Dec, d'.fMask = d.fMask → d'.tMask &&& 31744 ≠ 0 → Post (f ()) (fun _ _ => False) d') :
    Fol (putD k) (Pg.labelAssign p ty w v r >>= f) d := by
  have claims : ∀ {g : Dec → Dec}, (g d).fMask = d.fMask → (g d).tMask &&& 31744 ≠ 0 → Fol (putD k) (St.mod g >>= f) d := by
    intro g h1 h2
    refine never ?_
    rw [Post.bind, Post.mod]
    exact hn _ h1 h2
  unfold Pg.labelAssign
  split
  · exact modBind rfl (hf _)
  · by_cases hc : d.fMask &&& DTK_MONTH_M ≠ 0 ∧ d.fMask &&& HOUR_M ≠ 0
    · refine claims ?_ ?_
      · dsimp only; rw [if_pos hc]
      · dsimp only; rw [if_pos hc]; dsimp only; decide
    · refine modBind ?_ (hf _)
      dsimp only [putD]
      rw [if_neg hc, if_neg hc]
      rfl
  · exact modBind rfl (hf _)
  · exact claims rfl (by dsimp only; decide)
  · exact claims rfl (by dsimp only; decide)
  · refine never ?_
    rw [Post.bind]
    wp
    exact ⟨fun _ _ _ => hn _ rfl (by dsimp only; decide), fun _ => hn _ rfl (by dsimp only; decide)⟩
  · unfold labelJulian
    intro a s' e
    by_cases hv : v < 0
    · rw [if_pos hv] at e; cases e
    · rw [if_neg hv] at e ⊢
      revert a s'
      by_cases h46 : r.head? = some 46
      · refine never ?_
        wp
        intro c _
        refine ⟨fun _ b _ x _ => hn _ rfl (by dsimp only; decide), fun h => absurd h46 h⟩
      · refine bind (modBind rfl (liftBind fun c _ => modBind rfl ?_)) fun _ _ _ => hf _
        rw [if_neg h46]
        exact pure
  · refine never ?_
    rw [Post.bind, Post.bind, Post.get, Post.bind]
    exact (onNum_never (fun s => numberField_never hm s) d).mono fun _ _ h => h.elim
  · exact bind fail fun _ _ _ => hf _

/-- A number after a label, with the check of the masks. -/
theorem Fol.labelled {w : Bytes} {d : Dec} (hm : d.fMask &&& 31744 = 31744) : Fol (putD k) (do Pg.labelled p w; Pg.addMask) d := by
  unfold Pg.labelled
  have assoc : ∀ {α β γ : Type} (m : St Dec α) (f : α → St Dec β) (g : β → St Dec γ), ((m >>= f) >>= g) = (m >>= fun a => f a >>= g) := by
    intro α β γ m f g
    funext s
    show St.bind (St.bind m f) g s = St.bind m (fun a => St.bind (f a) g) s
    unfold St.bind
    rcases m s with ⟨r, s'⟩
    cases r <;> rfl
  have itb : ∀ {α β : Type} (c : Prop) [Decidable c] (m n : St Dec α) (g : α → St Dec β), ((if c then m else n) >>= g) = if c then m >>= g else n >>= g := by
    intro α β c _ m n g
    split <;> rfl
  rw [assoc]
  refine getBind rfl ?_
  rw [assoc]
  refine liftBind fun ⟨v, r⟩ _ => ?_
  dsimp only
  rw [itb]
  refine ite (fun _ => bind fail fun _ _ _ => addMask) fun _ => ?_
  rw [itb]
  refine ite (fun _ => bind fail fun _ _ _ => addMask) fun _ => ?_
  rw [assoc]
  refine labelAssign hm (fun d' => modBind rfl addMask) fun d' e h => ?_
  rw [Post.bind, Post.mod]
  exact claim_never hm e h

theorem noLook_bind {α β : Type} (m : St Dec α) (f : α → St Dec β) : (do let a ← noLook (C := Unit) m; noLook (f a)) = noLook (m >>= f) := by
  funext s
  show St.bind (noLook m) (fun a => noLook (f a)) s = noLook (St.bind m f) s
  unfold St.bind noLook
  dsimp only
  rcases m s.1 with ⟨r, s'⟩
  cases r <;> rfl

theorem Fol.word {w : Bytes} {s : Dec × Unit} (hm : s.1.fMask &&& 31744 = 31744) :
    Fol (putP k) (do let ignored ← wordToken plainLook ftypes i w; if ignored then Pure.pure () else Pg.noLook Pg.addMask) s := by
  have assoc : ∀ {α β γ : Type} (m : St (Dec × Unit) α) (f : α → St (Dec × Unit) β) (g : β → St (Dec × Unit) γ),
      ((m >>= f) >>= g) = (m >>= fun a => f a >>= g) := by
    intro α β γ m f g
    funext s
    show St.bind (St.bind m f) g s = St.bind m (fun a => St.bind (f a) g) s
    unfold St.bind
    rcases m s with ⟨r, s'⟩
    cases r <;> rfl
  unfold wordToken
  rw [assoc]
  have look : ∀ s : Dec × Unit, lookDate plainLook i w s = (.ok (tokenResult (lookupIn dateTable w)), s) := by
    intro s
    simp only [lookDate, plainLook, searchDate_eq]
  refine bind (fun a s' e => by rw [look] at e ⊢; cases e; rfl) ?_
  rintro ⟨ty, v⟩ s' e
  have es : s' = s := by
    rw [look] at e
    exact (congrArg Prod.snd e).symm
  subst es
  dsimp only
  by_cases ht : ty = .ignoreDtf
  · rw [if_pos ht]
    exact bind pure fun a _ _ => by
      split
      · exact pure
      · exact noLook addMask
  · rw [if_neg ht, assoc]
    change Fol (putP k) (do let a ← Pg.noLook (wordAction ftypes i ty v); Pg.noLook ((fun _ => Pg.addMask) a)) s'
    rw [noLook_bind]
    refine noLook ?_
    unfold wordAction
    by_cases hz : ty = .reserv ∧ TokenField.ofInt v = .ok .zulu
    · obtain ⟨rfl, hz⟩ := hz
      refine never ?_
      rw [Post.bind, Post.bind, Post.mod]
      dsimp only
      unfold reservedWord
      rw [hz]
      wp
      intro f hf
      cases hf
      dsimp only
      rw [Post.mod]
      exact claim_never hm rfl (by dsimp only; decide)
    · refine bind (modBind rfl ?_) fun _ _ _ => addMask
      split
      · unfold reservedWord
        refine liftBind fun f hf => ?_
        split
        all_goals first
          | exact fail
          | exact mod rfl
          | skip
        exfalso
        exact hz ⟨rfl, hf⟩
      · unfold monthWord
        refine mod ?_
        dsimp only [putD, putTm]
        split <;> rfl
      · exact mod rfl
      · exact mod rfl
      · exact mod rfl
      · exact modBind rfl (liftBind fun f _ => mod rfl)
      · unfold isoTimeWord
        refine modBind rfl (getBind rfl (ite (fun _ => fail) fun _ => ?_))
        split
        · exact panic
        · exact ite (fun _ => fail) fun _ => liftBind fun f _ => mod rfl
      · exact fail

theorem Fol.numberToken {w : Bytes} {s : Dec × Unit} (hm : s.1.fMask &&& 31744 = 31744) :
    Fol (putP k) (do Pg.numberToken p plainLook w order; Pg.noLook Pg.addMask) s := by
  have split : ∀ {α : Type} (m : St NumS α), (∀ n, Fol (putN k) m n) →
      Fol (putP k) (do (do let _ ← Pg.noLook (Pg.onNum m); Pure.pure ()); Pg.noLook Pg.addMask) s := fun m h =>
    bind (bind (noLook (onNum h)) fun _ _ _ => pure) fun _ _ _ => noLook addMask
  have itb : ∀ {α β : Type} (c : Prop) [Decidable c] (m n : St (Dec × Unit) α) (g : α → St (Dec × Unit) β),
      ((if c then m else n) >>= g) = if c then m >>= g else n >>= g := by
    intro α β c _ m n g
    split <;> rfl
  unfold Pg.numberToken
  have run : ∀ t : Dec × Unit, (do (do let d ← Pg.noLook St.get
                                       if d.pType ≠ .number then Pg.noLook (Pg.labelled p w)
                                       else if dotPos w ≠ w.length ∧ d.fMask &&& DTK_DATE_M = 0 ∧ w.length ≤ 14 then
                                         decodeDate plainLook w order
                                       else if dotPos w ≠ w.length ∧ dotPos w > 2 then do
                                         let _ ← Pg.noLook (Pg.onNum (decodeNumberField w d.fMask))
                                         Pure.pure ()
                                       else if w.length ≥ 6 ∧ (d.fMask &&& DTK_DATE_M = 0 ∨ d.fMask &&& DTK_TIME_M = 0) then do
                                         let _ ← Pg.noLook (Pg.onNum (decodeNumberField w d.fMask))
                                         Pure.pure ()
                                       else Pg.noLook (Pg.onNum (decodeNumber w false d.fMask order))); Pg.noLook Pg.addMask : St (Dec × Unit) Unit) t =
      (do (if t.1.pType ≠ .number then Pg.noLook (Pg.labelled p w)
            else if dotPos w ≠ w.length ∧ t.1.fMask &&& DTK_DATE_M = 0 ∧ w.length ≤ 14 then
              decodeDate plainLook w order
            else if dotPos w ≠ w.length ∧ dotPos w > 2 then do
              let _ ← Pg.noLook (Pg.onNum (decodeNumberField w t.1.fMask))
              Pure.pure ()
            else if w.length ≥ 6 ∧ (t.1.fMask &&& DTK_DATE_M = 0 ∨ t.1.fMask &&& DTK_TIME_M = 0) then do
              let _ ← Pg.noLook (Pg.onNum (decodeNumberField w t.1.fMask))
              Pure.pure ()
            else Pg.noLook (Pg.onNum (decodeNumber w false t.1.fMask order))); Pg.noLook Pg.addMask : St (Dec × Unit) Unit) t := fun t => rfl
  intro a s' e
  rw [run] at e ⊢
  revert a s'
  show Fol (putP k) _ s
  rw [itb, itb, itb, itb]
  refine ite (fun _ => ?_) fun _ => ite (fun _ => never ?_) fun _ => ite (fun _ => split _ (numberField hm)) fun _ =>
    ite (fun _ => split _ (numberField hm)) fun _ => bind (noLook (onNum (number hm))) fun _ _ _ => noLook addMask
  · change Fol (putP k) (do let a ← Pg.noLook (Pg.labelled p w); Pg.noLook ((fun _ => Pg.addMask) a)) s
    rw [noLook_bind]
    exact noLook (labelled hm)
  · rw [Post.bind]
    exact (date_never hm).mono fun _ _ h => h.elim

theorem Fol.dateToken {w : Bytes} {s : Dec × Unit} (hm : s.1.fMask &&& 31744 = 31744) :
    Fol (putP k) (Pg.dateToken p plainLook w order) s := by
  have run : ∀ t : Dec × Unit, Pg.dateToken p plainLook w order t =
      (if t.1.pType = .julian then do
        let (val, _) ← St.lift (str2i32 w)
        let c ← St.lift (julian2date p val)
        Pg.noLook (St.mod fun d => { d with tm := d.tm.setYmd c, isJulian := true })
        St.fail .invalid
      else if t.1.pType ≠ .number ∨ t.1.fMask &&& DTK_MONTH_DAY_M = DTK_MONTH_DAY_M then
        match w with
        | [] => Pure.pure ()
        | c :: _ =>
          if isDigit c ∨ t.1.pType ≠ .number then
            if t.1.pType ≠ .number then St.fail .invalid else Pure.pure ()
          else St.fail .invalid
      else decodeDate plainLook w order : St (Dec × Unit) Unit) t := fun t => rfl
  intro a s' e
  rw [run] at e ⊢
  revert a s'
  show Fol (putP k) _ s
  refine ite (fun _ => never ?_) fun _ => ite (fun _ => ?_) fun _ => never (date_never hm)
  · wp
  · split
    · exact pure
    · exact ite (fun _ => ite (fun _ => fail) fun _ => pure) fun _ => fail

theorem clock_never {w : Bytes} {s : Dec × Unit} (hm : s.1.fMask &&& 31744 = 31744) :
    Post (do noLook (timeToken w); noLook addMask) (fun _ _ => False) s := by
  wp
  unfold timeToken onTime
  wp
  intro _
  rw [Post.zoom]
  refine (decodeTime_mask w _ _).mono fun _ t ht => ?_
  exact fun _ => claim_never hm rfl (by dsimp only; rw [ht]; decide)

/-- One field, after a clock time. -/
theorem Fol.field {f : Field} {s : Dec × Unit} (hm : s.1.fMask &&& 31744 = 31744) : Fol (putP k) (dateTimeField p plainLook order ftypes i f) s := by
  unfold dateTimeField
  split
  · exact bind (dateToken hm) fun _ _ _ => noLook addMask
  · exact never (clock_never hm)
  · exact numberToken hm
  · exact word hm
  · exact word hm
  · exact fail

theorem bits_full {a b : Nat} (h : Bits a b) (ha : a &&& 31744 = 31744) : b &&& 31744 = 31744 := by
  apply Nat.eq_of_testBit_eq
  intro j
  have h1 := congrArg (fun n => n.testBit j) ha
  simp only [Nat.testBit_and] at h1 ⊢
  cases hj : Nat.testBit 31744 j with
  | false => simp
  | true =>
    rw [hj] at h1
    simp only [Bool.and_true] at h1 ⊢
    exact h j h1

theorem Fol.loop : ∀ (l : List Field) (i : Nat) (s : Dec × Unit), s.1.fMask &&& 31744 = 31744 →
    Fol (putP k) (dateTimeLoop p plainLook order ftypes l i) s := by
  intro l
  induction l with
  | nil => intro i s _; exact pure
  | cons f l ih =>
    intro i s hm
    rw [dateTimeLoop]
    exact bind (field hm) fun a s' e => ih _ _ (bits_full (field_mask f s a s' e).1 hm)

/-! ## The end of the decoding -/

theorem validateDate_put {tm tm' : PgTime} {m : Nat} {a b c : Bool} (h : tm.validateDate p m a b c = .ok tm') :
    (putTm k tm).validateDate p m a b c = .ok (putTm k tm') := by
  unfold PgTime.validateDate at h ⊢
  obtain ⟨t1, h1, h⟩ := Res.bind_eq_ok.1 h
  obtain ⟨t2, h2, h⟩ := Res.bind_eq_ok.1 h
  have e1 : (putTm k tm).validateYear p m a b c = .ok (putTm k t1) := by
    unfold PgTime.validateYear at h1 ⊢
    simp only [putTm] at h1 ⊢
    repeat' split at h1
    all_goals simp only [*, if_true, if_false, Bool.false_eq_true]
    all_goals first
      | (cases h1; done)
      | (cases h1; rfl)
      | (obtain ⟨x, hx, h1⟩ := Res.bind_eq_ok.1 h1; cases h1; rw [hx]; rfl)
      | (obtain ⟨x, hx, h1⟩ := Res.bind_eq_ok.1 h1; obtain ⟨y, hy, h1⟩ := Res.bind_eq_ok.1 h1; cases h1; rw [hx, Res.bind_ok, hy]; rfl)
  have e2 : (putTm k t1).validateDoy p m = .ok (putTm k t2) := by
    unfold PgTime.validateDoy at h2 ⊢
    split at h2
    · rename_i hc
      rw [if_pos hc]
      obtain ⟨x, hx, h2⟩ := Res.bind_eq_ok.1 h2
      obtain ⟨y, hy, h2⟩ := Res.bind_eq_ok.1 h2
      obtain ⟨z, hz, h2⟩ := Res.bind_eq_ok.1 h2
      obtain ⟨w, hw, h2⟩ := Res.bind_eq_ok.1 h2
      cases h2
      simp only [putTm, hx, hy, hz, hw, Res.bind_ok]
      rfl
    · rename_i hc
      rw [if_neg hc]
      cases h2; rfl
  rw [e1, Res.bind_ok, e2, Res.bind_ok]
  unfold PgTime.validateMonthDay at h ⊢
  split at h
  · cases h
  · rename_i c1
    refine (if_neg c1).trans ?_
    split at h
    · cases h
    · rename_i c2
      refine (if_neg c2).trans ?_
      split at h
      · rename_i c3
        rw [if_pos c3]
        obtain ⟨n, hn, h⟩ := Res.bind_eq_ok.1 h
        rw [show daysOfMonth (putTm k t2).year (putTm k t2).mon = .ok n from hn, Res.bind_ok]
        split at h
        · cases h
        · rename_i c4
          refine (if_neg c4).trans ?_
          cases h; rfl
      · rename_i c3
        rw [if_neg c3]
        cases h; rfl

/-- Before noon, in the hour after noon, or later. -/
def HalfAlike (h h' : Int) : Prop := (h < 12 ↔ h' < 12) ∧ (h = 12 ↔ h' = 12)

theorem finish_put {d e : Dec} {a : Unit} {h m s h' m' s' : Int} (hd : d.tm.hour = h ∧ d.tm.min = m ∧ d.tm.sec = s) (hr : 0 ≤ h ∧ 0 ≤ h' ∧ h' ≤ 24)
    (hm : d.mer = 2 ∨ HalfAlike h h') (run : finishFields p d = (.ok a, e)) :
    ∃ δ : Int, (δ = 0 ∨ (δ = 12 ∧ h < 12 ∧ h' < 12) ∨ (δ = -12 ∧ h = 12 ∧ h' = 12)) ∧ e.tm.hour = h + δ ∧ e.tm.min = m ∧ e.tm.sec = s ∧
      finishFields p (putD (h', m', s') d) = (.ok (), putD (h' + δ, m', s') e) := by
  obtain ⟨rfl, rfl, rfl⟩ := hd
  have fin : ∀ (d : Dec) (tm : PgTime), d.tm.validateDate p d.fMask d.isJulian d.is2 d.bc = .ok tm → finishFields p d =
      (if d.mer ≠ 2 ∧ tm.hour > 12 then St.fail .overflow
        else if d.mer = 0 ∧ tm.hour = 12 then St.mod fun d => { d with tm := { d.tm with hour := 0 } }
        else if d.mer = 1 ∧ tm.hour ≠ 12 then do
          let h ← St.lift (chk32 p (tm.hour + 12))
          St.mod fun d => { d with tm := { d.tm with hour := h } }
        else pure () : St Dec Unit) { d with tm := tm } := by
    intro d tm hv
    unfold finishFields
    rw [St.get_bind, hv, St.lift_ok_bind, St.mod_bind, St.get_bind]
  cases hv : d.tm.validateDate p d.fMask d.isJulian d.is2 d.bc with
  | err x => unfold finishFields at run; rw [St.get_bind, hv] at run; cases run
  | panic => unfold finishFields at run; rw [St.get_bind, hv] at run; cases run
  | ok tm =>
    obtain ⟨c1, c2, c3⟩ := validateDate_clock hv
    rw [fin d tm hv] at run
    rw [fin (putD (h', m', s') d) (putTm (h', m', s') tm) (validateDate_put hv)]
    have eh : (putTm (h', m', s') tm).hour = h' := rfl
    have em : (putD (h', m', s') d).mer = d.mer := rfl
    rw [eh, em]
    unfold HalfAlike at hm
    clear eh em
    by_cases q1 : d.mer ≠ 2 ∧ tm.hour > 12
    · rw [if_pos q1] at run; cases run
    · rw [if_neg q1] at run
      rw [if_neg (by omega)]
      by_cases q2 : d.mer = 0 ∧ tm.hour = 12
      · rw [if_pos q2] at run
        rw [if_pos (by omega)]
        cases run
        refine ⟨-12, by omega, by dsimp only; omega, c2, c3, ?_⟩
        rw [show h' + -12 = 0 by omega]
        rfl
      · rw [if_neg q2] at run
        rw [if_neg (by omega)]
        by_cases q3 : d.mer = 1 ∧ tm.hour ≠ 12
        · rw [if_pos q3] at run
          rw [if_pos (by omega)]
          rw [chk32_ok (by omega), St.lift_ok_bind] at run
          rw [chk32_ok (by omega), St.lift_ok_bind]
          cases run
          exact ⟨12, by omega, by dsimp only; omega, c2, c3, rfl⟩
        · rw [if_neg q3] at run
          rw [if_neg (by omega)]
          cases run
          exact ⟨0, by omega, by dsimp only; omega, c2, c3, by rw [Int.add_zero]; rfl⟩

/-! ## The clock time itself -/

/-- Two clock times with the same fraction; the second is one that can be read. -/
structure ClockSwap (hh mm ss hh' mm' ss' : Bytes) (f : Option Bytes) : Prop where
  h1 : Digits hh ∧ hh ≠ []
  h2 : Digits mm ∧ mm ≠ []
  h3 : Digits ss ∧ ss ≠ []
  g1 : Digits hh' ∧ hh' ≠ []
  g2 : Digits mm' ∧ mm' ≠ []
  g3 : Digits ss' ∧ ss' ≠ []
  hf : Digits (fracDigits f)
  len : hh'.length ≤ 10 ∧ mm'.length ≤ 10 ∧ ss'.length ≤ 10
  good : ∀ us, NearestMicros (fracDigits f) us → ClockInput (value hh') (value mm') (value ss') us

/-- The fields of a clock time. -/
def hmsOf (hh mm ss : Bytes) : Int × Int × Int := (value hh, value mm, value ss)

theorem decodeTime_swap {hh mm ss hh' mm' ss' : Bytes} {f : Option Bytes} (w : ClockSwap hh mm ss hh' mm' ss' f) {R : Nat} {t t' : TimeS} {a : Unit}
    (e : decodeTime (hmsBytes hh mm ss f) R t = (.ok a, t')) :
    t' = ⟨DTK_TIME_M, putTm (hmsOf hh mm ss) t.tm, fracMicros f⟩ ∧
    decodeTime (hmsBytes hh' mm' ss' f) R t = (.ok (), ⟨DTK_TIME_M, putTm (hmsOf hh' mm' ss') t.tm, fracMicros f⟩) ∧
    ClockInput (value hh') (value mm') (value ss') (fracMicros f) ∧ value mm ≤ 59 ∧ value ss ≤ 60 := by
  obtain ⟨h1, h2, h3, g1, g2, g3, hf, len, good⟩ := w
  by_cases hr : Readable hh mm ss f ∧ value hh ≤ 2147483647 ∧ value mm ≤ 59 ∧ value ss ≤ 60
  · rw [decodeTime_ok h1.1 h1.2 h2.1 h2.2 h3.1 h3.2 hf hr.1 hr.2.1 hr.2.2.1 hr.2.2.2] at e
    have hc := good _ (fracMicros_nearest hf hr.1.2.2.2)
    have hc' := hc
    unfold ClockInput at hc'
    rw [decodeTime_ok g1.1 g1.2 g2.1 g2.2 g3.1 g3.2 hf ⟨len.1, len.2.1, len.2.2, hr.1.2.2.2⟩ (by omega) (by omega) (by omega)]
    cases e
    exact ⟨rfl, rfl, hc, hr.2.2⟩
  · obtain ⟨x, y, h⟩ := decodeTime_err h1.1 h1.2 h2.1 h2.2 h3.1 h3.2 hf hr R t
    rw [h] at e
    cases e

theorem or_full (m : Nat) : (m ||| DTK_TIME_M) &&& 31744 = 31744 := by
  apply Nat.eq_of_testBit_eq
  intro j
  simp only [Nat.testBit_or, Nat.testBit_and]
  cases Nat.testBit 31744 j <;> simp

theorem onTime_swap {hh mm ss hh' mm' ss' : Bytes} {f : Option Bytes} (w : ClockSwap hh mm ss hh' mm' ss' f) {R : Nat} {d d' : Dec} {a : Unit}
    (e : onTime (decodeTime (hmsBytes hh mm ss f) R) d = (.ok a, d')) :
    d' = { d with tMask := DTK_TIME_M, tm := putTm (hmsOf hh mm ss) d.tm, fSec := fracMicros f } ∧
    onTime (decodeTime (hmsBytes hh' mm' ss' f) R) d = (.ok (), putD (hmsOf hh' mm' ss') d') ∧
    ClockInput (value hh') (value mm') (value ss') (fracMicros f) ∧ value mm ≤ 59 ∧ value ss ≤ 60 := by
  unfold onTime St.zoom at e ⊢
  simp only [Prod.mk.injEq] at e
  obtain ⟨e1, e2⟩ := e
  rcases hd : decodeTime (hmsBytes hh mm ss f) R ⟨d.tMask, d.tm, d.fSec⟩ with ⟨r, t'⟩
  rw [hd] at e1 e2
  dsimp only at e1 e2
  subst e1
  obtain ⟨k1, k2, k3⟩ := decodeTime_swap w hd
  rw [k2]
  subst k1
  subst e2
  exact ⟨rfl, rfl, k3⟩

theorem addMask_ran {d d' : Dec} {a : Unit} (e : addMask d = (.ok a, d')) : d' = { d with fMask := d.fMask ||| d.tMask } := by
  have h : Post addMask (fun _ d' => d' = { d with fMask := d.fMask ||| d.tMask }) d := by
    rw [addMask_post]; exact fun _ => rfl
  exact h a d' e

theorem noLook_ok {α : Type} {m : St Dec α} {s s' : Dec × Unit} {a : α} (e : noLook m s = (.ok a, s')) : m s.1 = (.ok a, s'.1) := by
  unfold noLook at e
  simp only [Prod.mk.injEq] at e
  obtain ⟨e1, rfl⟩ := e
  rw [← e1]

theorem noLook_ran {α : Type} {m : St Dec α} {s : Dec × Unit} {a : α} {d : Dec} (e : m s.1 = (.ok a, d)) : noLook m s = (.ok a, (d, s.2)) := by
  unfold noLook
  rw [e]

theorem field_swap {hh mm ss hh' mm' ss' : Bytes} {f : Option Bytes} (w : ClockSwap hh mm ss hh' mm' ss' f) {s s' : Dec × Unit} {a : Unit}
    (e : dateTimeField p plainLook order ftypes i (.time, hmsBytes hh mm ss f) s = (.ok a, s')) :
    s'.1.fMask &&& 31744 = 31744 ∧ s' = putP (hmsOf hh mm ss) s' ∧
    ClockInput (value hh') (value mm') (value ss') (fracMicros f) ∧ (value hh ≤ 24 ∧ value mm ≤ 59 ∧ value ss ≤ 60) ∧
    dateTimeField p plainLook order ftypes i (.time, hmsBytes hh' mm' ss' f) s = (.ok a, putP (hmsOf hh' mm' ss') s') := by
  have run : ∀ w, dateTimeField p plainLook order ftypes i (.time, w) = noLook (do timeToken w; addMask) := by
    intro w
    rw [← noLook_bind]
    rfl
  rw [run] at e ⊢
  have e := noLook_ok e
  have tt : ∀ w, timeToken w s.1 = (if s.1.pType ≠ .number ∧ s.1.pType ≠ .time then St.fail .invalid
      else do
        onTime (decodeTime w INTERVAL_FULL_RANGE)
        let d ← St.get
        if d.tm.hour > HOURS_PER_DAY ∨ (d.tm.hour = HOURS_PER_DAY ∧ (d.tm.min > 0 ∨ d.tm.sec > 0 ∨ d.fSec > 0)) then St.fail .overflow
        else pure () : St Dec Unit) (if s.1.pType ≠ .number ∧ s.1.pType ≠ .time then s.1 else { s.1 with pType := .number }) := by
    intro w
    unfold timeToken
    rw [St.get_bind]
    split
    · rfl
    · rw [St.mod_bind]
  have bnd : ∀ w, (do timeToken w; addMask) s.1 = (match timeToken w s.1 with
      | (.ok _, s') => addMask s'
      | (.err e, s') => (.err e, s')
      | (.panic, s') => (.panic, s')) := by
    intro w
    show St.bind (timeToken w) (fun _ => addMask) s.1 = _
    unfold St.bind
    rcases timeToken w s.1 with ⟨r, t⟩
    cases r <;> rfl
  rw [bnd, tt] at e
  by_cases hp : s.1.pType ≠ .number ∧ s.1.pType ≠ .time
  · rw [if_pos hp] at e; cases e
  · rw [if_neg hp, if_neg hp] at e
    rcases ho : onTime (decodeTime (hmsBytes hh mm ss f) INTERVAL_FULL_RANGE) { s.1 with pType := .number } with ⟨r, d1⟩
    cases r with
    | err x => rw [St.bind_err ho] at e; cases e
    | panic => rw [St.bind_panic ho] at e; cases e
    | ok b =>
      obtain ⟨k1, k2, k3, k4⟩ := onTime_swap w ho
      rw [St.bind_ok ho, St.get_bind] at e
      by_cases hb : d1.tm.hour > 24 ∨ (d1.tm.hour = 24 ∧ (d1.tm.min > 0 ∨ d1.tm.sec > 0 ∨ d1.fSec > 0))
      · rw [if_pos hb] at e; cases e
      · rw [if_neg hb] at e
        have ha : addMask d1 = (.ok a, s'.1) := e
        have ha2 := addMask_ran ha
        have hm : d1.tMask = DTK_TIME_M := by rw [k1]
        have hc : d1.tm.hour = value hh ∧ d1.tm.min = value mm ∧ d1.tm.sec = value ss := by rw [k1]; exact ⟨rfl, rfl, rfl⟩
        have hfs : d1.fSec = fracMicros f := by rw [k1]
        refine ⟨by rw [ha2]; dsimp only; rw [hm]; exact or_full _, ?_, k3, ⟨by omega, k4⟩, ?_⟩
        · refine Prod.ext ?_ rfl
          show s'.1 = putD _ s'.1
          rw [ha2, k1]
          rfl
        · rw [show (putP (hmsOf hh' mm' ss') s') = (putD (hmsOf hh' mm' ss') s'.1, s.2) from rfl]
          refine noLook_ran ?_
          rw [bnd, tt, if_neg hp, if_neg hp, St.bind_ok k2, St.get_bind]
          have hb' : ¬ ((putD (hmsOf hh' mm' ss') d1).tm.hour > 24 ∨ ((putD (hmsOf hh' mm' ss') d1).tm.hour = 24 ∧
              ((putD (hmsOf hh' mm' ss') d1).tm.min > 0 ∨ (putD (hmsOf hh' mm' ss') d1).tm.sec > 0 ∨ (putD (hmsOf hh' mm' ss') d1).fSec > 0))) := by
            have x1 : (putD (hmsOf hh' mm' ss') d1).tm.hour = value hh' := rfl
            have x2 : (putD (hmsOf hh' mm' ss') d1).tm.min = value mm' := rfl
            have x3 : (putD (hmsOf hh' mm' ss') d1).tm.sec = value ss' := rfl
            have x4 : (putD (hmsOf hh' mm' ss') d1).fSec = fracMicros f := hfs
            rw [x1, x2, x3, x4]
            unfold ClockInput at k3
            omega
          rw [if_neg hb']
          exact Fol.addMask a s'.1 ha

theorem loop_swap {hh mm ss hh' mm' ss' : Bytes} {f : Option Bytes} (w : ClockSwap hh mm ss hh' mm' ss' f) {l2 : List Field} :
    ∀ (l1 : List Field) (i : Nat) (s s' : Dec × Unit) (a : Unit),
    dateTimeLoop p plainLook order ftypes (l1 ++ (.time, hmsBytes hh mm ss f) :: l2) i s = (.ok a, s') →
    s'.1.fMask &&& 31744 = 31744 ∧ s' = putP (hmsOf hh mm ss) s' ∧
    (∃ us, ClockInput (value hh') (value mm') (value ss') us) ∧ (value hh ≤ 24 ∧ value mm ≤ 59 ∧ value ss ≤ 60) ∧
    dateTimeLoop p plainLook order ftypes (l1 ++ (.time, hmsBytes hh' mm' ss' f) :: l2) i s = (.ok a, putP (hmsOf hh' mm' ss') s') := by
  have ok_of : ∀ {α β : Type} {m : St (Dec × Unit) α} {g : α → St (Dec × Unit) β} {s s' : Dec × Unit} {b : β}, (m >>= g) s = (.ok b, s') →
      ∃ a t, m s = (.ok a, t) ∧ g a t = (.ok b, s') := by
    intro α β m g s s' b e
    change St.bind m g s = _ at e
    unfold St.bind at e
    rcases hm : m s with ⟨r, t⟩
    rw [hm] at e
    cases r with
    | ok a => exact ⟨a, t, rfl, e⟩
    | err x => cases e
    | panic => cases e
  intro l1
  induction l1 with
  | nil =>
    intro i s s' a e
    rw [List.nil_append, dateTimeLoop] at e ⊢
    obtain ⟨b, t, e1, e2⟩ := ok_of e
    obtain ⟨k1, k2, k3, k4, k5⟩ := field_swap w e1
    rw [St.bind_ok k5]
    have self := Fol.loop (k := hmsOf hh mm ss) l2 (i + 1) t k1 a s' e2
    rw [← k2, e2] at self
    refine ⟨?_, (Prod.ext_iff.1 self).2, ⟨_, k3⟩, k4, Fol.loop (k := hmsOf hh' mm' ss') l2 (i + 1) t k1 a s' e2⟩
    have : ∀ (l : List Field) (i : Nat) (s : Dec × Unit), s.1.fMask &&& 31744 = 31744 →
        Post (dateTimeLoop p plainLook order ftypes l i) (fun _ s' => s'.1.fMask &&& 31744 = 31744) s := by
      intro l
      induction l with
      | nil => intro i s h; rw [dateTimeLoop, Post.pure]; exact h
      | cons f l ih =>
        intro i s h
        rw [dateTimeLoop, Post.bind]
        exact (field_mask f s).mono fun _ s' h' => ih _ _ (bits_full h'.1 h)
    exact this l2 (i + 1) t k1 a s' e2
  | cons g l1 ih =>
    intro i s s' a e
    rw [List.cons_append, dateTimeLoop] at e ⊢
    obtain ⟨b, t, e1, e2⟩ := ok_of e
    rw [St.bind_ok e1]
    exact ih _ _ _ _ e2

/-! ## Without `am` and `pm` -/

theorem mer_word {t : Bytes} {f : Field} (hf : WordAt t f) (hw : f.1 = .string ∨ f.1 = .special) {ty : TokenType} {v : Int}
    (he : tokenResult (lookupIn dateTable f.2) = (ty, v)) (ht : ty = .ampm) : Says [b!"am", b!"pm"] t := by
  subst ht
  have tab : ∀ e ∈ dateTable, e.ty = .ampm → (e.value = 0 ∨ e.value = 1) ∧ (e.value = 0 → e.token = b!"am") ∧ (e.value = 1 → e.token = b!"pm") := by
    decide +kernel
  have wide : ∀ x, x = b!"am" ∨ x = b!"pm" → Says [x] t → Says [b!"am", b!"pm"] t := by
    rintro x hx ⟨w, h1, h2⟩
    refine ⟨w, h1, ?_⟩
    unfold Known at h2 ⊢
    rcases hx with rfl | rfl
    all_goals
      obtain ⟨v, h2, h3⟩ := h2
      refine ⟨v, ?_, h3⟩
      rw [List.mem_singleton] at h2
      subst h2
      decide
  by_cases h1 : v = 1
  · subst h1
    exact wide _ (Or.inr rfl) (said_word (ty := .ampm) (v := 1) ⟨hw, he, by decide⟩ hf (fun e h1 h2 h3 => (tab e h1 h2).2.2 h3) (by decide) (by decide))
  · exact wide _ (Or.inl rfl) (said_word (ty := .ampm) (v := v) ⟨hw, he, by decide⟩ hf (fun e h1' h2 h3 => (tab e h1' h2).2.1 (by
      have := (tab e h1' h2).1; omega)) (by decide) (by decide))

theorem labelled_mer (w : Bytes) (d : Dec) : Post (labelled p w) (fun _ d' => d'.mer = d.mer) d := by
  have num : ∀ m : St NumS TokenField, Post (onNum m) (fun _ d' => d'.mer = d.mer) d := by
    intro m
    unfold onNum
    rw [Post.zoom]
    exact Post.any fun _ _ => rfl
  unfold labelled
  rw [Post.bind, Post.get, Post.bind, Post.lift]
  rintro ⟨v, r⟩ -
  dsimp only
  rw [Post.ite]
  refine ⟨fun _ => by rw [Post.fail]; trivial, fun _ => ?_⟩
  rw [Post.ite]
  refine ⟨fun _ => by rw [Post.fail]; trivial, fun _ => ?_⟩
  rw [Post.bind]
  suffices Post (labelAssign p d.pType w v r) (fun _ d' => d'.mer = d.mer) d from
    this.mono fun _ d' k => by rw [Post.mod]; exact k
  unfold labelAssign
  split
  · rw [Post.mod]
  · rw [Post.mod]
    split <;> rfl
  · rw [Post.mod]
  · rw [Post.mod]
  · rw [Post.mod]
  · wp
  · unfold labelJulian
    wp
  · rw [Post.bind, Post.get, Post.bind]
    refine (num _).mono fun _ d' k => ?_
    rw [Post.bind, Post.get, Post.ite]
    exact ⟨fun _ => by rw [Post.fail]; trivial, fun _ => by rw [Post.pure]; exact k⟩
  · rw [Post.fail]; trivial

/-- A text without `am` and `pm` leaves the hours as they are. -/
theorem field_merSame {f : Field} (hn : f.1 = .string ∨ f.1 = .special → (tokenResult (lookupIn dateTable f.2)).1 ≠ .ampm) (s : Dec × Unit) :
    Post (dateTimeField p plainLook order ftypes i f) (fun _ s' => s'.1.mer = s.1.mer) s := by
  have add : ∀ d : Dec, d.mer = s.1.mer → Post addMask (fun _ d' => d'.mer = s.1.mer) d := by
    intro d h
    rw [addMask_post]
    exact fun _ => h
  have date : ∀ w, Post (decodeDate plainLook w order) (fun _ s' => s'.1.mer = s.1.mer) s := by
    intro w
    unfold decodeDate
    rw [Post.zoom]
    exact Post.any fun _ _ => rfl
  have num : ∀ {α : Type} (m : St NumS α), Post (onNum m) (fun _ d' => d'.mer = s.1.mer) s.1 := by
    intro α m
    unfold onNum
    rw [Post.zoom]
    exact Post.any fun _ _ => rfl
  have word : f.1 = .string ∨ f.1 = .special → Post (wordToken plainLook ftypes i f.2) (fun b s' => (b = true → s'.1.mer = s.1.mer) ∧
      (¬ b = true → Post addMask (fun _ d => d.mer = s.1.mer) s'.1)) s := by
    intro hw
    unfold wordToken
    rw [Post.bind, Post.look]
    dsimp only
    rw [Post.ite]
    refine ⟨fun _ => by rw [Post.pure]; exact ⟨fun _ => rfl, fun h => absurd rfl h⟩, fun _ => ?_⟩
    rw [Post.bind, Post.noLook]
    suffices ∀ ty v, tokenResult (lookupIn dateTable f.2) = (ty, v) → Post (wordAction ftypes i ty v) (fun _ d' => d'.mer = s.1.mer) s.1 from
      (this _ _ rfl).mono fun _ _ k => by rw [Post.pure]; exact ⟨fun e => (by cases e), fun _ => add _ k⟩
    intro ty v he
    have hne : ty ≠ .ampm := fun h => hn hw (by rw [he]; exact h)
    unfold wordAction
    rw [Post.bind, Post.mod]
    split
    · unfold reservedWord
      wp
      intro a _
      split <;> wp
    · unfold monthWord
      rw [Post.mod]
      dsimp only
      split <;> rfl
    · exact absurd rfl hne
    · rw [Post.mod]
    · rw [Post.mod]
    · wp
    · unfold isoTimeWord
      wp
      intro _
      split
      · wp
      · wp
    · wp
  unfold dateTimeField
  split
  · rw [Post.bind]
    suffices Post (dateToken p plainLook f.2 order) (fun _ s' => s'.1.mer = s.1.mer) s from
      this.mono fun _ s' k => by rw [Post.noLook]; exact add _ k
    unfold dateToken
    wp
    intro _
    refine ⟨fun _ => ?_, fun _ => date f.2⟩
    split
    · rw [Post.pure]
    · wp
  · rw [Post.bind, Post.noLook]
    suffices Post (timeToken f.2) (fun _ d' => d'.mer = s.1.mer) s.1 from this.mono fun _ d' k => by rw [Post.noLook]; exact add _ k
    unfold timeToken onTime
    wp
    intro _
    rw [Post.zoom]
    exact Post.any fun _ _ _ => rfl
  · rw [Post.bind]
    suffices Post (numberToken p plainLook f.2 order) (fun _ s' => s'.1.mer = s.1.mer) s from
      this.mono fun _ s' k => by rw [Post.noLook]; exact add _ k
    unfold numberToken
    wp
    exact ⟨fun _ => labelled_mer f.2 s.1, fun _ => ⟨fun _ => date f.2, fun _ => ⟨fun _ => num _, fun _ => ⟨fun _ => num _, fun _ => num _⟩⟩⟩⟩
  · rename_i e
    wp
    exact word (Or.inl e)
  · rename_i e
    wp
    exact word (Or.inr e)
  · wp

/-! ## All fields -/

theorem field_noMer {t : Bytes} {f : Field} (hf : WordAt t f) (hn : ¬ Says [b!"am", b!"pm"] t) (s : Dec × Unit) :
    Post (dateTimeField p plainLook order ftypes i f) (fun _ s' => s'.1.mer = s.1.mer) s :=
  field_merSame (fun hw h => hn (mer_word hf hw (Prod.ext h rfl : tokenResult (lookupIn dateTable f.2) = (.ampm, _)) rfl)) s

theorem decode_swap {hh mm ss hh' mm' ss' : Bytes} {f : Option Bytes} (w : ClockSwap hh mm ss hh' mm' ss' f) {l1 l2 : List Field} {a : Unit}
    {s' : Dec × Unit} {t : Bytes} (ht : ∀ g ∈ l1 ++ (.time, hmsBytes hh mm ss f) :: l2, WordAt t g)
    (hn : HalfAlike (value hh) (value hh') ∨ ¬ Says [b!"am", b!"pm"] t)
    (e : decodeDateTime p plainLook order (l1 ++ (.time, hmsBytes hh mm ss f) :: l2) ({}, ()) = (.ok a, s')) :
    ∃ δ : Int, (δ = 0 ∨ (δ = 12 ∧ value hh < 12 ∧ value hh' < 12) ∨ (δ = -12 ∧ value hh = 12 ∧ value hh' = 12)) ∧
      (∃ us, ClockInput (value hh') (value mm') (value ss') us) ∧ (value hh ≤ 24 ∧ value mm ≤ 59 ∧ value ss ≤ 60) ∧
      s'.1.tm.hour = value hh + δ ∧ s'.1.tm.min = value mm ∧ s'.1.tm.sec = value ss ∧
      decodeDateTime p plainLook order (l1 ++ (.time, hmsBytes hh' mm' ss' f) :: l2) ({}, ()) =
        (.ok a, putP (value hh' + δ, value mm', value ss') s') := by
  unfold decodeDateTime at e ⊢
  obtain ⟨b, s1, e1, e2⟩ := St.bind_okInv e
  have hmer : s1.1.mer = 2 ∨ HalfAlike (value hh) (value hh') := by
    rcases hn with hn | hn
    · exact Or.inr hn
    · exact Or.inl (loop_all (I := fun d => d.mer = 2) (G := WordAt t)
        (fun ft i f s hg hs => (field_noMer hg hn s).mono fun _ s' h => h.trans hs) _ _ 0 _ ht rfl _ _ e1)
  obtain ⟨k1, k2, k3, k4, k5⟩ := loop_swap w l1 0 _ _ _ e1
  obtain ⟨c, s2, e3, e4⟩ := St.bind_okInv e2
  have e3 := noLook_ok e3
  have hk : s1.1.tm.hour = value hh ∧ s1.1.tm.min = value mm ∧ s1.1.tm.sec = value ss := by rw [k2]; exact ⟨rfl, rfl, rfl⟩
  have hin := k3.choose_spec
  unfold ClockInput at hin
  obtain ⟨δ, d1, d2, d3, d4, d5⟩ := finish_put (h' := value hh') (m' := value mm') (s' := value ss') hk ⟨by omega, by omega, by omega⟩ hmer e3
  have em : (l1 ++ ((TokenField.time, hmsBytes hh' mm' ss' f) : Field) :: l2).map Prod.fst =
      (l1 ++ ((TokenField.time, hmsBytes hh mm ss f) : Field) :: l2).map Prod.fst := by simp
  have es : s' = s2 := by
    have : Post (do
        let d ← noLook St.get
        if d.dType = .date ∧ d.fMask &&& DTK_DATE_M ≠ DTK_DATE_M ∧ d.fMask &&& DTK_TIME_M ≠ DTK_TIME_M then St.fail .invalid
        else pure () : St (Dec × Unit) Unit) (fun _ s => s = s2) s2 := by
      wp
    exact this _ _ e4
  subst es
  refine ⟨δ, by omega, k3, k4, d2, d3, d4, ?_⟩
  rw [em, St.bind_ok k5]
  have f1 : noLook (finishFields p) (putP (hmsOf hh' mm' ss') s1) = (.ok (), putP (value hh' + δ, value mm', value ss') s') := noLook_ran d5
  rw [St.bind_ok f1]
  have run : ∀ t : Dec × Unit, (do
        let d ← noLook St.get
        if d.dType = .date ∧ d.fMask &&& DTK_DATE_M ≠ DTK_DATE_M ∧ d.fMask &&& DTK_TIME_M ≠ DTK_TIME_M then St.fail .invalid
        else pure () : St (Dec × Unit) Unit) t =
      (if t.1.dType = .date ∧ t.1.fMask &&& DTK_DATE_M ≠ DTK_DATE_M ∧ t.1.fMask &&& DTK_TIME_M ≠ DTK_TIME_M then St.fail .invalid
        else pure () : St (Dec × Unit) Unit) t := fun t => rfl
  rw [run] at e4 ⊢
  exact Fol.ite (put := putP (value hh' + δ, value mm', value ss')) (fun _ => Fol.fail) (fun _ => Fol.pure) a s' e4

/-! ## Times -/

theorem Fol.numberTokenT {w : Bytes} {s : Dec × Unit} (hm : s.1.fMask &&& 31744 = 31744) (hi : 0 < i) :
    Fol (putP k) (do Pg.numberTokenT p plainLook order ftypes i w; Pg.noLook Pg.addMask) s := by
  by_cases hp : s.1.pType = .number
  · refine never ?_
    have hn := fun s => onNum_never (fun s => numberField_never (str := w) hm s) s
    unfold Pg.numberTokenT
    rw [Post.bind, Post.bind, Post.noLook, Post.get, Post.ite, Post.ite, Post.ite, Post.ite, Post.ite]
    refine ⟨fun h => absurd hp h, fun _ => ⟨fun _ => ⟨fun h0 => absurd h0.1 (by omega), fun _ => ⟨fun _ => ?_, fun _ => by rw [Post.fail]; trivial⟩⟩,
      fun hd => ⟨fun _ => ?_, fun _ => ?_⟩⟩⟩
    · rw [Post.bind, Post.noLook]; exact (hn _).mono fun _ _ h => h.elim
    · rw [Post.bind, Post.noLook]; exact (hn _).mono fun _ _ h => h.elim
    · rw [Post.noLook]
      exact (onNum_never (fun s => number_never hm (by omega) s) _).mono fun _ _ h => h.elim
  · have run : ∀ t : Dec × Unit, t.1.pType ≠ .number → (do Pg.numberTokenT p plainLook order ftypes i w; Pg.noLook Pg.addMask : St (Dec × Unit) Unit) t =
        Pg.noLook (do Pg.labelled p w; Pg.addMask) t := by
      intro t ht
      rw [← noLook_bind]
      have inner : Pg.numberTokenT p plainLook order ftypes i w t = Pg.noLook (Pg.labelled p w) t := by
        unfold Pg.numberTokenT
        rw [St.bind_ok (show (Pg.noLook St.get : St (Dec × Unit) Dec) t = (.ok t.1, t) from rfl), if_pos ht]
      rw [St.bind_run, St.bind_run, inner]
    intro a s' e
    rw [run _ hp] at e
    rw [run _ (show (putP k s).1.pType ≠ .number from hp)]
    exact noLook (labelled hm) a s' e

theorem Fol.wordT {w : Bytes} {s : Dec × Unit} (hm : s.1.fMask &&& 31744 = 31744) :
    Fol (putP k) (do let ignored ← wordTokenT plainLook ftypes i w; if ignored then Pure.pure () else Pg.noLook Pg.addMask) s := by
  have assoc : ∀ {α β γ : Type} (m : St (Dec × Unit) α) (f : α → St (Dec × Unit) β) (g : β → St (Dec × Unit) γ),
      ((m >>= f) >>= g) = (m >>= fun a => f a >>= g) := by
    intro α β γ m f g
    funext s
    show St.bind (St.bind m f) g s = St.bind m (fun a => St.bind (f a) g) s
    unfold St.bind
    rcases m s with ⟨r, s'⟩
    cases r <;> rfl
  unfold wordTokenT
  rw [assoc]
  have look : ∀ s : Dec × Unit, lookDate plainLook i w s = (.ok (tokenResult (lookupIn dateTable w)), s) := by
    intro s
    simp only [lookDate, plainLook, searchDate_eq]
  refine bind (fun a s' e => by rw [look] at e ⊢; cases e; rfl) ?_
  rintro ⟨ty, v⟩ s' e
  have es : s' = s := by
    rw [look] at e
    exact (congrArg Prod.snd e).symm
  subst es
  dsimp only
  by_cases ht : ty = .ignoreDtf
  · rw [if_pos ht]
    exact bind pure fun a _ _ => by
      split
      · exact pure
      · exact noLook addMask
  · rw [if_neg ht, assoc]
    change Fol (putP k) (do let a ← Pg.noLook (wordActionT ftypes i ty v); Pg.noLook ((fun _ => Pg.addMask) a)) s'
    rw [noLook_bind]
    refine noLook ?_
    unfold wordActionT
    by_cases hz : ty = .reserv
    · subst hz
      refine never ?_
      rw [Post.bind, Post.bind, Post.mod]
      dsimp only
      unfold reservedWordT
      wp
      intro f hf
      split
      · rw [Post.mod]
        exact claim_never hm rfl (by dsimp only; decide)
      · wp
    · refine bind (modBind rfl ?_) fun _ _ _ => addMask
      split
      · exact absurd rfl hz
      · exact mod rfl
      · exact mod rfl
      · exact modBind rfl (liftBind fun f _ => mod rfl)
      · unfold isoTimeWordT
        refine modBind rfl ?_
        split
        · exact fail
        · exact ite (fun _ => fail) fun _ => liftBind fun f _ => mod rfl
      · exact fail

theorem Fol.fieldT {f : Field} {s : Dec × Unit} (hm : s.1.fMask &&& 31744 = 31744) (hi : 0 < i) :
    Fol (putP k) (timeOnlyField p plainLook order ftypes i f) s := by
  unfold timeOnlyField
  split
  · unfold dateTokenT
    rw [if_neg (by omega)]
    exact bind fail fun _ _ _ => noLook addMask
  · refine never ?_
    wp
    unfold onTime
    rw [Post.zoom]
    refine (decodeTime_mask f.2 _ _).mono fun _ t ht => ?_
    exact claim_never hm rfl (by dsimp only; rw [ht]; decide)
  · exact numberTokenT hm hi
  · exact wordT hm
  · exact wordT hm
  · exact fail

theorem Fol.loopT : ∀ (l : List Field) (i : Nat) (s : Dec × Unit), s.1.fMask &&& 31744 = 31744 → 0 < i →
    Fol (putP k) (timeOnlyLoop p plainLook order ftypes l i) s := by
  intro l
  induction l with
  | nil => intro i s _ _; exact pure
  | cons f l ih =>
    intro i s hm hi
    rw [timeOnlyLoop]
    exact bind (fieldT hm hi) fun a s' e => ih _ _ (bits_full (field_maskT f s a s' e) hm) (by omega)

theorem addMask_fsec {d0 d : Dec} (hm : d0.fMask &&& 31744 = 31744) (h : d.fMask = d0.fMask ∧ (d.fSec = d0.fSec ∨ d.tMask &&& 31744 ≠ 0)) :
    Post addMask (fun _ d' => d'.fSec = d0.fSec) d := by
  rcases h.2 with h2 | h2
  · unfold addMask
    wp
    exact fun _ => h2
  · exact (claim_never hm h.1 h2).mono fun _ _ h => h.elim

theorem labelAssign_fsec {ty : TokenField} {w r : Bytes} {v : Int} {d : Dec} (hm : d.fMask &&& 31744 = 31744) :
    Post (labelAssign p ty w v r) (fun _ d' => d'.fMask = d.fMask ∧ (d'.fSec = d.fSec ∨ d'.tMask &&& 31744 ≠ 0)) d := by
  unfold labelAssign
  split
  · wp; exact .inl trivial
  · wp
    split
    · exact ⟨rfl, .inl rfl⟩
    · exact ⟨rfl, .inl rfl⟩
  · wp; exact .inl trivial
  · wp; exact .inl trivial
  · wp; exact .inl trivial
  · wp
    exact ⟨fun _ _ _ => .inr (by decide), fun _ => .inl trivial⟩
  · unfold labelJulian
    wp
    exact fun _ c _ => ⟨fun _ b _ x _ => .inr (by decide), fun _ => .inl trivial⟩
  · rw [Post.bind, Post.get, Post.bind]
    exact (onNum_never (fun s => numberField_never hm s) d).mono fun _ _ h => h.elim
  · wp

theorem labelled_fsec {w : Bytes} {d : Dec} (hm : d.fMask &&& 31744 = 31744) :
    Post (labelled p w) (fun _ d' => d'.fMask = d.fMask ∧ (d'.fSec = d.fSec ∨ d'.tMask &&& 31744 ≠ 0)) d := by
  unfold labelled
  wp
  refine fun x _ _ _ => (labelAssign_fsec hm).mono fun _ d' h => h

theorem wordT_fsec {w : Bytes} {s : Dec × Unit} (hm : s.1.fMask &&& 31744 = 31744) :
    Post (do let ignored ← wordTokenT plainLook ftypes i w; if ignored then pure () else noLook addMask) (fun _ s' => s'.1.fSec = s.1.fSec) s := by
  rw [Post.bind]
  refine Post.mono (Q := fun _ (s' : Dec × Unit) => s'.1.fMask = s.1.fMask ∧ s'.1.fSec = s.1.fSec) ?_ fun ig s' h => ?_
  · unfold wordTokenT
    rw [Post.bind]
    have look : lookDate plainLook i w s = (.ok (tokenResult (lookupIn dateTable w)), s) := by
      simp only [lookDate, plainLook, searchDate_eq]
    intro a s' e
    rw [look] at e
    cases e
    rw [Post.ite]
    refine ⟨fun _ => by rw [Post.pure]; exact ⟨rfl, rfl⟩, fun _ => ?_⟩
    rw [Post.bind, Post.noLook]
    unfold wordActionT
    rw [Post.bind, Post.mod]
    split
    · unfold reservedWordT
      wp
      intro f _
      split <;> wp
    · wp
    · wp
    · wp
    · unfold isoTimeWordT
      wp
      split
      · wp
      · wp
    · wp
  · split
    · rw [Post.pure]; exact h.2
    · rw [Post.noLook]
      exact addMask_fsec hm ⟨h.1, .inl h.2⟩

theorem fieldT_fsec {f : Field} {s : Dec × Unit} (hm : s.1.fMask &&& 31744 = 31744) (hi : 0 < i) :
    Post (timeOnlyField p plainLook order ftypes i f) (fun _ s' => s'.1.fSec = s.1.fSec) s := by
  unfold timeOnlyField
  split
  · unfold dateTokenT
    rw [if_neg (by omega)]
    wp
  · wp
    unfold onTime
    rw [Post.zoom]
    refine (decodeTime_mask f.2 _ _).mono fun _ t ht => ?_
    refine Post.mono (Q := fun _ _ => False) ?_ fun _ _ h => h.elim
    exact claim_never hm rfl (by dsimp only; rw [ht]; decide)
  · have hn := fun s => onNum_never (fun s => numberField_never (str := f.2) hm s) s
    unfold numberTokenT
    rw [Post.bind, Post.bind, Post.noLook, Post.get, Post.ite, Post.ite, Post.ite, Post.ite, Post.ite]
    refine ⟨fun h => ?_, fun _ => ⟨fun _ => ⟨fun h0 => absurd h0.1 (by omega), fun _ => ⟨fun _ => ?_, fun _ => by rw [Post.fail]; trivial⟩⟩,
      fun hd => ⟨fun _ => ?_, fun _ => ?_⟩⟩⟩
    · rw [Post.noLook]
      refine (labelled_fsec hm).mono fun _ d' h => ?_
      rw [Post.noLook]
      exact addMask_fsec hm h
    · rw [Post.bind, Post.noLook]; exact (hn _).mono fun _ _ h => h.elim
    · rw [Post.bind, Post.noLook]; exact (hn _).mono fun _ _ h => h.elim
    · rw [Post.noLook]
      exact (onNum_never (fun s => number_never hm (by omega) s) _).mono fun _ _ h => h.elim
  · exact wordT_fsec hm
  · exact wordT_fsec hm
  · wp

/-- The fraction of the seconds stays. -/
theorem loopT_fsec : ∀ (l : List Field) (i : Nat) (s : Dec × Unit), s.1.fMask &&& 31744 = 31744 → 0 < i →
    Post (timeOnlyLoop p plainLook order ftypes l i) (fun _ s' => s'.1.fSec = s.1.fSec) s := by
  intro l
  induction l with
  | nil => intro i s _ _; unfold timeOnlyLoop; wp
  | cons f l ih =>
    intro i s hm hi
    rw [timeOnlyLoop, Post.bind]
    refine ((fieldT_fsec hm hi).and (field_maskT f s)).mono fun a s' h => ?_
    exact (ih (i + 1) s' (bits_full h.2 hm) (by omega)).mono fun _ _ k => k.trans h.1

theorem fieldT_swap {hh mm ss hh' mm' ss' : Bytes} {f : Option Bytes} (w : ClockSwap hh mm ss hh' mm' ss' f) {s s' : Dec × Unit} {a : Unit}
    (e : timeOnlyField p plainLook order ftypes i (.time, hmsBytes hh mm ss f) s = (.ok a, s')) :
    s'.1.fMask &&& 31744 = 31744 ∧ s' = putP (hmsOf hh mm ss) s' ∧ s'.1.fSec = fracMicros f ∧
    ClockInput (value hh') (value mm') (value ss') (fracMicros f) ∧
    timeOnlyField p plainLook order ftypes i (.time, hmsBytes hh' mm' ss' f) s = (.ok a, putP (hmsOf hh' mm' ss') s') := by
  have run : ∀ w, timeOnlyField p plainLook order ftypes i (.time, w) = noLook (do onTime (decodeTime w INTERVAL_FULL_RANGE); addMask) := by
    intro w
    rw [← noLook_bind]
    rfl
  rw [run] at e ⊢
  have e := noLook_ok e
  obtain ⟨b, d1, ho, ha⟩ := St.bind_okInv e
  obtain ⟨k1, k2, k3, k4⟩ := onTime_swap w ho
  have ha2 := addMask_ran ha
  have hm : d1.tMask = DTK_TIME_M := by rw [k1]
  refine ⟨by rw [ha2]; dsimp only; rw [hm]; exact or_full _, ?_, by rw [ha2, k1], k3, ?_⟩
  · refine Prod.ext ?_ rfl
    show s'.1 = putD _ s'.1
    rw [ha2, k1]
    rfl
  · rw [show (putP (hmsOf hh' mm' ss') s') = (putD (hmsOf hh' mm' ss') s'.1, s.2) from rfl]
    refine noLook_ran ?_
    rw [St.bind_ok k2]
    exact Fol.addMask a s'.1 ha

theorem loopT_swap {hh mm ss hh' mm' ss' : Bytes} {f : Option Bytes} (w : ClockSwap hh mm ss hh' mm' ss' f) {l2 : List Field} :
    ∀ (l1 : List Field) (i : Nat) (s s' : Dec × Unit) (a : Unit),
    timeOnlyLoop p plainLook order ftypes (l1 ++ (.time, hmsBytes hh mm ss f) :: l2) i s = (.ok a, s') →
    s' = putP (hmsOf hh mm ss) s' ∧ s'.1.fSec = fracMicros f ∧
    ClockInput (value hh') (value mm') (value ss') (fracMicros f) ∧
    timeOnlyLoop p plainLook order ftypes (l1 ++ (.time, hmsBytes hh' mm' ss' f) :: l2) i s = (.ok a, putP (hmsOf hh' mm' ss') s') := by
  intro l1
  induction l1 with
  | nil =>
    intro i s s' a e
    rw [List.nil_append, timeOnlyLoop] at e ⊢
    obtain ⟨b, t, e1, e2⟩ := St.bind_okInv e
    obtain ⟨k1, k2, k3, k4, k5⟩ := fieldT_swap w e1
    rw [St.bind_ok k5]
    have self := Fol.loopT (k := hmsOf hh mm ss) l2 (i + 1) t k1 (by omega) a s' e2
    rw [← k2, e2] at self
    exact ⟨(Prod.ext_iff.1 self).2, (loopT_fsec l2 (i + 1) t k1 (by omega) a s' e2).trans k3, k4,
      Fol.loopT (k := hmsOf hh' mm' ss') l2 (i + 1) t k1 (by omega) a s' e2⟩
  | cons g l1 ih =>
    intro i s s' a e
    rw [List.cons_append, timeOnlyLoop] at e ⊢
    obtain ⟨b, t, e1, e2⟩ := St.bind_okInv e
    rw [St.bind_ok e1]
    exact ih _ _ _ _ e2

theorem fieldT_merSame {f : Field} (hn : f.1 = .string ∨ f.1 = .special → (tokenResult (lookupIn dateTable f.2)).1 ≠ .ampm) (s : Dec × Unit) :
    Post (timeOnlyField p plainLook order ftypes i f) (fun _ s' => s'.1.mer = s.1.mer) s := by
  have add : ∀ d : Dec, d.mer = s.1.mer → Post addMask (fun _ d' => d'.mer = s.1.mer) d := by
    intro d h
    rw [addMask_post]
    exact fun _ => h
  have date : ∀ w, Post (decodeDate plainLook w order) (fun _ s' => s'.1.mer = s.1.mer) s := by
    intro w
    unfold decodeDate
    rw [Post.zoom]
    exact Post.any fun _ _ => rfl
  have num : ∀ {α : Type} (m : St NumS α), Post (onNum m) (fun _ d' => d'.mer = s.1.mer) s.1 := by
    intro α m
    unfold onNum
    rw [Post.zoom]
    exact Post.any fun _ _ => rfl
  have word : f.1 = .string ∨ f.1 = .special → Post (wordTokenT plainLook ftypes i f.2) (fun b s' => (b = true → s'.1.mer = s.1.mer) ∧
      (¬ b = true → Post addMask (fun _ d => d.mer = s.1.mer) s'.1)) s := by
    intro hw
    unfold wordTokenT
    rw [Post.bind, Post.look]
    dsimp only
    rw [Post.ite]
    refine ⟨fun _ => by rw [Post.pure]; exact ⟨fun _ => rfl, fun h => absurd rfl h⟩, fun _ => ?_⟩
    rw [Post.bind, Post.noLook]
    suffices ∀ ty v, tokenResult (lookupIn dateTable f.2) = (ty, v) → Post (wordActionT ftypes i ty v) (fun _ d' => d'.mer = s.1.mer) s.1 from
      (this _ _ rfl).mono fun _ _ k => by rw [Post.pure]; exact ⟨fun e => (by cases e), fun _ => add _ k⟩
    intro ty v he
    have hne : ty ≠ .ampm := fun h => hn hw (by rw [he]; exact h)
    unfold wordActionT
    rw [Post.bind, Post.mod]
    split
    · unfold reservedWordT
      wp
      intro a _
      split <;> wp
    · exact absurd rfl hne
    · rw [Post.mod]
    · wp
    · unfold isoTimeWordT
      wp
      split
      · wp
      · wp
    · wp
  unfold timeOnlyField
  split
  · unfold dateTokenT
    rw [Post.bind, Post.ite]
    exact ⟨fun _ => (date _).mono fun _ s' k => by rw [Post.noLook]; exact add _ k, fun _ => by rw [Post.fail]; trivial⟩
  · wp
    unfold onTime
    rw [Post.zoom]
    exact Post.any fun _ _ => add _ rfl
  · rw [Post.bind]
    suffices Post (numberTokenT p plainLook order ftypes i f.2) (fun _ s' => s'.1.mer = s.1.mer) s from
      this.mono fun _ s' k => by rw [Post.noLook]; exact add _ k
    unfold numberTokenT
    wp
    exact ⟨fun _ => labelled_mer _ _, fun _ => ⟨fun _ => ⟨fun _ => date _, fun _ _ => num _⟩, fun _ => ⟨fun _ => num _, fun _ => num _⟩⟩⟩
  · rename_i h
    rw [Post.bind]
    exact (word (.inl h)).mono fun b s' k => by
      rw [Post.ite]
      exact ⟨fun c => by rw [Post.pure]; exact k.1 c, fun c => by rw [Post.noLook]; exact k.2 c⟩
  · rename_i h
    rw [Post.bind]
    exact (word (.inr h)).mono fun b s' k => by
      rw [Post.ite]
      exact ⟨fun c => by rw [Post.pure]; exact k.1 c, fun c => by rw [Post.noLook]; exact k.2 c⟩
  · wp

theorem fieldT_noMer {t : Bytes} {f : Field} (hf : WordAt t f) (hn : ¬ Says [b!"am", b!"pm"] t) (s : Dec × Unit) :
    Post (timeOnlyField p plainLook order ftypes i f) (fun _ s' => s'.1.mer = s.1.mer) s :=
  fieldT_merSame (fun hw h => hn (mer_word hf hw (Prod.ext h rfl : tokenResult (lookupIn dateTable f.2) = (.ampm, _)) rfl)) s

theorem loopT_noMer {t : Bytes} (hn : ¬ Says [b!"am", b!"pm"] t) : ∀ (l : List Field) (i : Nat) (s : Dec × Unit), (∀ f ∈ l, WordAt t f) →
    Post (timeOnlyLoop p plainLook order ftypes l i) (fun _ s' => s'.1.mer = s.1.mer) s := by
  intro l
  induction l with
  | nil => intro i s _; rw [timeOnlyLoop, Post.pure]
  | cons f l ih =>
    intro i s hl
    rw [timeOnlyLoop, Post.bind]
    exact (fieldT_noMer (hl f (by simp)) hn s).mono fun _ s' h => (ih _ s' fun g hg => hl g (by simp [hg])).mono fun _ _ k => k.trans h

/-- A time of day with another clock time in place of one. -/
theorem decodeT_swap {hh mm ss hh' mm' ss' : Bytes} {f : Option Bytes} (w : ClockSwap hh mm ss hh' mm' ss' f) {l1 l2 : List Field} {a : Unit}
    {s' : Dec × Unit} {t : Bytes} (ht : ∀ g ∈ l1 ++ (.time, hmsBytes hh mm ss f) :: l2, WordAt t g)
    (hn : HalfAlike (value hh) (value hh') ∨ ¬ Says [b!"am", b!"pm"] t)
    (e : decodeTimeOnly p plainLook order (l1 ++ (.time, hmsBytes hh mm ss f) :: l2) ({}, ()) = (.ok a, s')) :
    ∃ δ : Int, (δ = 0 ∨ (δ = 12 ∧ value hh < 12 ∧ value hh' < 12) ∨ (δ = -12 ∧ value hh = 12 ∧ value hh' = 12)) ∧
      s'.1.tm.hour = value hh + δ ∧ s'.1.tm.min = value mm ∧ s'.1.tm.sec = value ss ∧
      ¬ badTimeOnly s'.1 ∧ ¬ badTimeOnly (putD (value hh' + δ, value mm', value ss') s'.1) ∧
      decodeTimeOnly p plainLook order (l1 ++ (.time, hmsBytes hh' mm' ss' f) :: l2) ({}, ()) =
        (.ok a, putP (value hh' + δ, value mm', value ss') s') := by
  unfold decodeTimeOnly at e ⊢
  obtain ⟨b, s1, e1, e2⟩ := St.bind_okInv e
  have hmer : s1.1.mer = 2 ∨ HalfAlike (value hh) (value hh') := by
    rcases hn with hn | hn
    · exact Or.inr hn
    · exact Or.inl (loopT_noMer hn _ _ _ ht _ _ e1)
  obtain ⟨k2, k3, k4, k5⟩ := loopT_swap w l1 0 _ _ _ e1
  obtain ⟨c, s2, e3, e4⟩ := St.bind_okInv e2
  have e3 := noLook_ok e3
  have hk : s1.1.tm.hour = value hh ∧ s1.1.tm.min = value mm ∧ s1.1.tm.sec = value ss := by rw [k2]; exact ⟨rfl, rfl, rfl⟩
  have hin := k4
  unfold ClockInput at hin
  obtain ⟨δ, d1, d2, d3, d4, d5⟩ := finish_put (h' := value hh') (m' := value mm') (s' := value ss') hk ⟨by omega, by omega, by omega⟩ hmer e3
  have em : (l1 ++ ((TokenField.time, hmsBytes hh' mm' ss' f) : Field) :: l2).map Prod.fst =
      (l1 ++ ((TokenField.time, hmsBytes hh mm ss f) : Field) :: l2).map Prod.fst := by simp
  have hf : s2.1.fSec = fracMicros f := by
    rw [← k3]
    have : Post (finishFields p) (fun _ d => d.fSec = s1.1.fSec) s1.1 := by
      unfold finishFields
      wp
    exact this _ _ e3
  have es : s' = s2 ∧ ¬ badTimeOnly s2.1 := by
    have : Post (do
        let d ← noLook St.get
        if badTimeOnly d then St.fail .overflow else pure () : St (Dec × Unit) Unit) (fun _ s => s = s2 ∧ ¬ badTimeOnly s2.1) s2 := by
      wp
      exact id
    exact this _ _ e4
  obtain ⟨rfl, good⟩ := es
  have good' : ¬ badTimeOnly (putD (value hh' + δ, value mm', value ss') s'.1) := by
    rw [badTimeOnly_iff (d := putD (value hh' + δ, value mm', value ss') s'.1) (h := value hh' + δ) (m := value mm') (s := value ss') (f := fracMicros f) rfl rfl rfl hf]
    have good := good
    rw [badTimeOnly_iff d2 d3 d4 hf] at good
    have h0 : (0 : Int) ≤ value mm' := by omega
    omega
  refine ⟨δ, by omega, d2, d3, d4, good, good', ?_⟩
  rw [em, St.bind_ok k5]
  have f1 : noLook (finishFields p) (putP (hmsOf hh' mm' ss') s1) = (.ok (), putP (value hh' + δ, value mm', value ss') s') := noLook_ran d5
  rw [St.bind_ok f1, St.bind_ok (show (noLook St.get : St (Dec × Unit) Dec) (putP (value hh' + δ, value mm', value ss') s') =
    (.ok (putP (value hh' + δ, value mm', value ss') s').1, putP (value hh' + δ, value mm', value ss') s') from rfl), if_neg]
  · rfl
  · exact good'

end Pg
