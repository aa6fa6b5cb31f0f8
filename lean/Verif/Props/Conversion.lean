import Verif.Lemmas.NoPanicInterval
import Verif.Lemmas.Clocks
import Verif.Spec.FieldNumber

/-!
# Property C116: only field numbers are converted to field types

`TokenField::try_from` does not check its argument (src/token.rs:239: the condition is never true) and reinterprets any number. The
numbers it gets are values of keywords, and the unit in force in an interval text.
-/

namespace Pg
open Spec

theorem Stays.zoom {σ τ α : Type} {Q : σ → Prop} {f : σ → τ} {g : τ → σ → σ} {m : St τ α} (h : ∀ t s, Q s → Q (g t s)) :
    Stays Q (St.zoom f g m) := fun s hs => h _ s hs

theorem known_date (w : Bytes) : KnownWord (tokenResult (lookupIn dateTable w)) :=
  known_of_table dateTable_sorted (by decide +kernel) w

theorem known_delta (w : Bytes) : KnownWord (tokenResult (lookupIn deltaTable w)) :=
  known_of_table deltaTable_sorted (by decide +kernel) w

theorem onTm_tyOk {α : Type} {m : St TmF α} : Stays TyOk (onTm m) := .zoom fun _ _ h => h
theorem onTimeI_tyOk {α : Type} {m : St TimeS α} : Stays TyOk (onTimeI m) := .zoom fun _ _ h => h
theorem setDay_tyOk : Stays TyOk (St.mod fun s : IvS => { s with ty := TokenField.day.value }) := .mod fun _ _ => value_known .day

theorem intervalNumber_tyOk (p : Profile) (f : Bytes) (r : Nat) : Stays TyOk (intervalNumber p f r) := by
  unfold intervalNumber
  refine .modBind (fun s hs => ?_) (.liftBind fun a _ => ?_)
  · split
    · exact value_known _
    · exact hs
  · obtain ⟨v, fv, m⟩ := a
    refine .modBind (fun s hs => ?_) (Stays.get.bind fun s => .liftBind fun _ _ => onTm_tyOk.bind fun _ => .mod fun s hs => ?_)
    · unfold TyOk; dsimp only; split
      · exact value_known _
      · exact hs
    · unfold TyOk; dsimp only; split
      · exact value_known _
      · exact hs

theorem intervalSigned_tyOk (p : Profile) (f : Bytes) (r : Nat) : Stays TyOk (intervalSigned p f r) := by
  unfold intervalSigned
  refine .ite (fun _ => onTimeI_tyOk.bind fun _ => ?_) fun _ => intervalNumber_tyOk _ _ _
  by_cases hc : f.head? = some 45
  · rw [if_pos hc]; exact onTm_tyOk.bind fun _ => setDay_tyOk
  · rw [if_neg hc]; exact setDay_tyOk

theorem intervalWord_tyOk {ty : TokenType} {v : Int} (hk : KnownWord (ty, v)) : Stays TyOk (intervalWord ty v) := by
  unfold intervalWord
  refine .modBind (fun s hs => hs) ?_
  split
  · exact .mod fun s hs => hk (.inr (.inl rfl))
  · exact .mod fun s hs => hk (.inr (.inr (.inr rfl)))
  · exact .modBind (fun s hs => hs) (.liftBind fun _ _ => .mod fun s hs => hs)
  · exact .fail

theorem addMaskI_tyOk : Stays TyOk addMaskI := by
  unfold addMaskI
  exact Stays.get.bind fun _ => .ite (fun _ => .fail) fun _ => .mod fun s hs => hs

/-- What holds between the fields of an interval. -/
def TyOkC (s : IvS × Caches) : Prop := TyOk s.1 ∧ s.2.Ok

theorem lookDelta_cached {c : Caches} (hc : c.Ok) (i : Nat) (w : Bytes) : (cachedLook.delta c i w).2.Ok ∧
    ∀ a, (cachedLook.delta c i w).1 = .ok a → KnownWord a := by
  by_cases hi : i < 25
  · obtain ⟨c', e, h⟩ := decodeUnits_spec hc hi w
    simp only [cachedLook, e]
    exact ⟨h, fun a ha => by cases ha; exact known_delta w⟩
  · have e : decodeUnits c i w = .panic := by
      have : c.delta[i]? = none := List.getElem?_eq_none (by rw [hc.2.1]; omega)
      simp only [decodeUnits, cachedSearch, this]; rfl
    simp only [cachedLook, e]
    exact ⟨hc, nofun⟩

theorem noLook_tyC {α : Type} {m : St IvS α} (h : Stays TyOk m) : Stays TyOkC (noLook m) := fun s hs => ⟨h _ hs.1, hs.2⟩

theorem intervalField_tyOk (p : Profile) (r i : Nat) (f : Field) : Stays TyOkC (intervalField p cachedLook r i f) := by
  have hw : Stays TyOkC (do
      let (ty, val) ← lookDelta cachedLook i f.2
      if ty = .ignoreDtf then pure ()
      else noLook (do intervalWord ty val; addMaskI) : St (IvS × Caches) Unit) := by
    intro s hs
    obtain ⟨h1, h2⟩ := lookDelta_cached hs.2 i f.2
    rw [St.bind_run]
    have e : lookDelta cachedLook i f.2 s = ((cachedLook.delta s.2 i f.2).1, (s.1, (cachedLook.delta s.2 i f.2).2)) := rfl
    rw [e]
    rcases hr : (cachedLook.delta s.2 i f.2).1 with ⟨ty, v⟩ | e | _
    · have hk := h2 _ hr
      have : Stays TyOkC (if ty = .ignoreDtf then pure () else noLook (do intervalWord ty v; addMaskI) : St (IvS × Caches) Unit) :=
        .ite (fun _ => .pure) fun _ => noLook_tyC ((intervalWord_tyOk hk).bind fun _ => addMaskI_tyOk)
      exact this _ ⟨hs.1, h1⟩
    · exact ⟨hs.1, h1⟩
    · exact ⟨hs.1, h1⟩
  unfold intervalField
  split
  · exact noLook_tyC (onTimeI_tyOk.bind fun _ => setDay_tyOk.bind fun _ => addMaskI_tyOk)
  · exact noLook_tyC ((intervalSigned_tyOk _ _ _).bind fun _ => addMaskI_tyOk)
  · exact noLook_tyC ((intervalNumber_tyOk _ _ _).bind fun _ => addMaskI_tyOk)
  · exact noLook_tyC ((intervalNumber_tyOk _ _ _).bind fun _ => addMaskI_tyOk)
  · exact hw
  · exact hw
  · exact .fail

theorem intervalLoop_tyOk (p : Profile) (r : Nat) (fs : List Field) (i : Nat) : Stays TyOkC (intervalLoop p cachedLook r fs i) := by
  induction fs generalizing i with
  | nil => exact .pure
  | cons f fs ih =>
    unfold intervalLoop
    exact (ih _).bind fun _ => intervalField_tyOk _ _ _ _

end Pg

namespace Props
open Pg Spec

/-- **C116, words.** The value of a word that is looked up for a date, time or timestamp text is a field number if the word is of a
type whose value is converted: a reserved word, a label, or `t`. So is that of a unit, of `ago` and of a reserved word of an interval
text. The cache may be in any state it can get into. -/
theorem C116_words (c : Caches) (hc : c.Ok) (i : Nat) (w : Bytes) (ty : TokenType) (v : Int) (c' : Caches) :
    (decodeSpecial c i w = .ok ((ty, v), c') → ty = .reserv ∨ ty = .units ∨ ty = .isotime → IsFieldNumber v) ∧
    (decodeUnits c i w = .ok ((ty, v), c') → ty = .reserv ∨ ty = .units ∨ ty = .ago → IsFieldNumber v) := by
  have bound (hi : ¬ i < 25) : decodeSpecial c i w = .panic ∧ decodeUnits c i w = .panic := by
    have h1 : c.date[i]? = none := List.getElem?_eq_none (by rw [hc.1.1]; omega)
    have h2 : c.delta[i]? = none := List.getElem?_eq_none (by rw [hc.2.1]; omega)
    constructor
    · simp only [decodeSpecial, cachedSearch, h1]; rfl
    · simp only [decodeUnits, cachedSearch, h2]; rfl
  by_cases hi : i < 25
  · obtain ⟨c1, e1, -⟩ := decodeSpecial_spec hc hi w
    obtain ⟨c2, e2, -⟩ := decodeUnits_spec hc hi w
    rw [e1, e2]
    constructor
    · intro h ht
      have e : tokenResult (lookupIn dateTable w) = (ty, v) := congrArg Prod.fst (Res.ok.inj h)
      have := known_date w
      rw [e] at this
      have := this (by rcases ht with h | h | h <;> simp [*])
      exact ⟨this.1, by have := this.2; omega⟩
    · intro h ht
      have e : tokenResult (lookupIn deltaTable w) = (ty, v) := congrArg Prod.fst (Res.ok.inj h)
      have := known_delta w
      rw [e] at this
      have := this (by rcases ht with h | h | h <;> simp [*])
      exact ⟨this.1, by have := this.2; omega⟩
  · rw [(bound hi).1, (bound hi).2]
    exact ⟨nofun, nofun⟩

/-- The word `t`, a label, a reserved word, and `ago`. -/
example : (decodeSpecial Caches.new 3 b!"t").map (·.1) = .ok (.isotime, 3) ∧ (decodeSpecial Caches.new 0 b!"j").map (·.1) = .ok (.units, 31) ∧
    (decodeSpecial Caches.new 0 b!"epoch").map (·.1) = .ok (.reserv, 11) ∧ (decodeUnits Caches.new 0 b!"ago").map (·.1) = .ok (.ago, 0) := by
  decide +kernel

/-- **C116, the unit in force.** Wherever the loop over the fields of an interval text is, and however it ends, the number of the unit
in force is a field number. -/
theorem C116_unit (p : Profile) (c : Caches) (hc : c.Ok) (range : Nat) (fields : List Field) (i : Nat) :
    IsFieldNumber (intervalLoop p cachedLook range fields i ({}, c)).2.1.ty := by
  have := (intervalLoop_tyOk p range fields i ({}, c) ⟨show (0 : Int) ≤ ({} : IvS).ty ∧ ({} : IvS).ty ≤ 37 by decide, hc⟩).1
  exact ⟨this.1, by have := this.2; omega⟩

/-- `ago 9` leaves the value of `ago`, `3 days 4 hours ago` leaves `days`: the fields are read from the last to the first. -/
example : (intervalLoop .release cachedLook 32767 [(.string, b!"ago"), (.number, b!"9")] 0 ({}, Caches.new)).2.1.ty = 0 ∧
    (intervalLoop .release cachedLook 32767 [(.number, b!"3"), (.string, b!"days"), (.number, b!"4"), (.string, b!"hours"), (.string, b!"ago")]
      0 ({}, Caches.new)).2.1.ty = 21 := by
  decide +kernel

/-- **C116, numbers.** If the number of the unit in force is a field number, then what a number in an interval text does does not
depend on what the conversion makes of other numbers. -/
theorem C116_number (p : Profile) (field : Bytes) (range : Nat) (conv : Int → Res TokenField)
    (hconv : ∀ v, IsFieldNumber v → conv v = TokenField.ofInt v) (s : IvS) (hs : IsFieldNumber s.ty) :
    intervalNumber p field range s = (do
      St.mod fun s => if s.ty = 8 then { s with ty := (rangeUnit range).value } else s
      let (val, fVal, months) ← St.lift (numberParts p field)
      St.mod fun s => { s with fVal := fVal, tMask := 0, ty := if months then TokenField.month.value else s.ty }
      let s ← St.get
      let unit ← St.lift (conv s.ty)
      let m ← onTm (addUnit p unit val fVal)
      St.mod fun s => { s with tMask := m, ty := if unit = .hour then TokenField.day.value else s.ty } : St IvS Unit) s := by
  have known (t : TokenField) : IsFieldNumber t.value := ⟨(value_known t).1, by have := (value_known t).2; omega⟩
  unfold intervalNumber
  simp only [St.bind_run, St.mod, St.lift]
  cases numberParts p field with
  | ok a =>
    obtain ⟨v, fv, m⟩ := a
    dsimp only [St.get]
    rw [hconv]
    split
    · exact known _
    · split
      · exact known _
      · exact hs
  | err => rfl
  | panic => rfl

/-- The last unit was `hours`, and the conversion is one that fails for unknown numbers. -/
example : IsFieldNumber ({ ty := 20 } : IvS).ty ∧ (∀ v, IsFieldNumber v →
      (fun v => if v < 0 ∨ v > 37 then .err .invalid else TokenField.ofInt v : Int → Res TokenField) v = TokenField.ofInt v) ∧
    ((intervalNumber .release b!"4" 32767 { ty := 20 }).1, (intervalNumber .release b!"4" 32767 { ty := 20 }).2.t.1.hour) = (.ok (), 4) := by
  refine ⟨by decide, fun v hv => if_neg (by obtain ⟨h1, h2⟩ := hv; omega), by decide +kernel⟩

end Props
