import Verif.Lemmas.Junk

/-!
# Property C115: texts never show what was in the buffer
-/

namespace Props
open Pg Spec

theorem Twin.same {α : Type} {P : α → Prop} {r r' : Res α} (h : Twin (fun a b => a = b ∧ P a) r r') : r = r' ∧ ∀ a, r = .ok a → P a := by
  cases r <;> cases r' <;> first
    | exact h.elim
    | exact ⟨congrArg Res.ok h.1, fun a ha => by injection ha with ha; subst ha; exact h.2⟩
    | exact ⟨congrArg Res.err h, fun a ha => by cases ha⟩
    | exact ⟨rfl, fun a ha => by cases ha⟩

/-- **C115 (dates).** The text of a date, for every number inside and for every old content of the output buffer,
consists of printable ASCII characters and is not longer than the buffer; it does not depend on the old content. -/
theorem C115_date (p : Profile) (junk junk' : List Nat) (h : junk.length = junk'.length) (h9 : 9 ≤ junk.length) (d : Date) (st : DateStyle)
    (o : DateOrder) :
    d.format p junk st o = d.format p junk' st o ∧
      ∀ text, d.format p junk st o = .ok text → (∀ x ∈ text, Legible x) ∧ text.length ≤ junk.length := by
  unfold Date.format
  split
  · split
    · exact ⟨rfl, fun a ha => by injection ha with ha; subst ha; exact ⟨by decide, h9⟩⟩
    · exact ⟨rfl, fun a ha => by injection ha with ha; subst ha; exact ⟨by decide, Nat.le_trans (by decide) h9⟩⟩
  · exact Twin.same (Twin.common fun c => runFormat_twin (fun hb => (putDate_twin p _ o st hb).bind fun _ _ hb => putEra_twin _ hb) h)

/-- **C115 (times of day).** -/
theorem C115_time (p : Profile) (junk junk' : List Nat) (h : junk.length = junk'.length) (t : Time) (st : DateStyle) :
    t.format p junk st = t.format p junk' st ∧
      ∀ text, t.format p junk st = .ok text → (∀ x ∈ text, Legible x) ∧ text.length ≤ junk.length := by
  unfold Time.format
  exact Twin.same (Twin.common fun c => runFormat_twin (fun hb => formatTime_twin p _ _ hb) h)

/-- **C115 (timestamps).** -/
theorem C115_timestamp (p : Profile) (junk junk' : List Nat) (h : junk.length = junk'.length) (h9 : 9 ≤ junk.length) (t : Timestamp)
    (st : DateStyle) (o : DateOrder) :
    t.format p junk st o = t.format p junk' st o ∧
      ∀ text, t.format p junk st o = .ok text → (∀ x ∈ text, Legible x) ∧ text.length ≤ junk.length := by
  unfold Timestamp.format
  split
  · split
    · exact ⟨rfl, fun a ha => by injection ha with ha; subst ha; exact ⟨by decide, h9⟩⟩
    · exact ⟨rfl, fun a ha => by injection ha with ha; subst ha; exact ⟨by decide, Nat.le_trans (by decide) h9⟩⟩
  · exact Twin.same (Twin.common fun c => runFormat_twin (fun hb => (putDateTime_twin p _ _ o st hb).bind fun _ _ hb => putEra_twin _ hb) h)

/-- **C115 (intervals).** -/
theorem C115_interval (p : Profile) (junk junk' : List Nat) (h : junk.length = junk'.length) (a : Interval) (st : IntervalStyle) :
    a.format p junk st = a.format p junk' st ∧
      ∀ text, a.format p junk st = .ok text → (∀ x ∈ text, Legible x) ∧ text.length ≤ junk.length := by
  unfold Interval.format
  exact Twin.same (Twin.common fun c => runFormat_twin (fun hb => formatInterval_twin p _ st hb) h)

/- Values outside the range, as a binary format may bring them (C95): a negative time of day and a date far after
the last one, with a buffer full of bytes that are not characters. -/
set_option maxRecDepth 4000 in
example : (⟨-3723000004⟩ : Time).format .release (List.replicate 128 255) .iso = .ok b!"-1:-2:03.000004" := by decide +kernel
set_option maxRecDepth 4000 in
example : (⟨2147483646⟩ : Date).format .release (List.replicate 128 255) .postgres .dmy = .ok b!"10-07.5881610" := by decide +kernel
example : (List.replicate 128 255).length = (List.replicate 128 0).length ∧ 9 ≤ (List.replicate 128 255).length := by simp

end Props
