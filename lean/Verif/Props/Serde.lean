import Mathlib.Data.List.Basic
import Verif.Model.Serde

/-!
# Property C38: binary serialisation

What a faithful data format does with a value is stated by `Carries`: it shows a string as that string and
an integer as that integer; it shows a struct as the sequence of its values in order (as compact formats do)
or as a map from the names to the values in any order.
-/

namespace Props
open Pg

/-- The integer in a field. -/
def fieldElem : SerVal → Elem
  | .i32 v => .int v
  | .i64 v => .int v
  | _ => .other

/-- A faithful data format shows `d` to the deserializer of a value that was serialised as `s`; a small
64-bit integer may be shown with 32 bits. -/
inductive Carries : SerVal → DeVal → Prop
  | str (b : Bytes) : Carries (.str b) (.str b)
  | i32 (v : Int) : Carries (.i32 v) (.i32 v)
  | i64 (v : Int) : Carries (.i64 v) (.i64 v)
  | narrow (v : Int) (h : In32 v) : Carries (.i64 v) (.i32 v)
  | seq (l : List (Bytes × SerVal)) : Carries (.struct l) (.seq (l.map fun x => fieldElem x.2))
  | map (l : List (Bytes × SerVal)) (m : List (Bytes × Elem))
      (h : m.Perm (l.map fun x => (x.1, fieldElem x.2))) : Carries (.struct l) (.map m)

/-- The entries of an interval. -/
def entries (a : Interval) : List (Bytes × Elem) :=
  [(b!"time", .int a.time), (b!"day", .int a.day), (b!"month", .int a.month)]

/-- The entries read so far. -/
def seen (s : MapS) : List (Bytes × Elem) :=
  (s.time.map fun v => (b!"time", Elem.int v)).toList ++ ((s.day.map fun v => (b!"day", Elem.int v)).toList ++
    (s.month.map fun v => (b!"month", Elem.int v)).toList)

/-- The entries read so far fit their types. -/
def SeenWF (s : MapS) : Prop :=
  (∀ v ∈ s.time, In64 v) ∧ (∀ v ∈ s.day, In32 v) ∧ (∀ v ∈ s.month, In32 v)

theorem De.bind_eq_ok {α β : Type} {x : De α} {f : α → De β} {b : β} (h : x >>= f = .ok b) :
    ∃ a, x = .ok a ∧ f a = .ok b := by
  cases x with
  | ok a => exact ⟨a, rfl, h⟩
  | err e => cases h
  | panic => cases h

theorem De.bind_ne_panic {α β : Type} {x : De α} {f : α → De β} (h : x ≠ .panic) (hf : ∀ a, f a ≠ .panic) :
    x >>= f ≠ .panic := by
  cases x with
  | ok a => exact hf a
  | err e => intro h; cases h
  | panic => exact absurd rfl h

theorem toI64_ok {e : Elem} {v : Int} : e.toI64 = .ok v ↔ e = .int v ∧ In64 v := by
  cases e with
  | other => simp [Elem.toI64]
  | int w =>
    simp only [Elem.toI64]
    by_cases h : In64 w
    · rw [if_pos h]
      constructor
      · intro e; cases e; exact ⟨rfl, h⟩
      · rintro ⟨e, -⟩; cases e; rfl
    · rw [if_neg h]
      constructor
      · intro e; cases e
      · rintro ⟨e, h'⟩; cases e; exact absurd h' h

theorem toI32_ok {e : Elem} {v : Int} : e.toI32 = .ok v ↔ e = .int v ∧ In32 v := by
  cases e with
  | other => simp [Elem.toI32]
  | int w =>
    simp only [Elem.toI32]
    by_cases h : In32 w
    · rw [if_pos h]
      constructor
      · intro e; cases e; exact ⟨rfl, h⟩
      · rintro ⟨e, -⟩; cases e; rfl
    · rw [if_neg h]
      constructor
      · intro e; cases e
      · rintro ⟨e, h'⟩; cases e; exact absurd h' h

theorem ofName_ok {k : Bytes} {f : IvField} (h : IvField.ofName k = .ok f) :
    k = match f with | .time => b!"time" | .day => b!"day" | .month => b!"month" := by
  unfold IvField.ofName at h
  split at h
  · cases h; assumption
  · split at h
    · cases h; assumption
    · split at h
      · cases h; assumption
      · cases h

theorem mapLoop_ok {l : List (Bytes × Elem)} {s s' : MapS} (h : mapLoop l s = .ok s') (hs : SeenWF s) :
    (l ++ seen s).Perm (seen s') ∧ SeenWF s' := by
  induction l generalizing s with
  | nil => cases h; exact ⟨List.Perm.refl _, hs⟩
  | cons x r ih =>
    obtain ⟨k, e⟩ := x
    rw [mapLoop] at h
    obtain ⟨f, hf, g⟩ := De.bind_eq_ok h
    have hk := ofName_ok hf
    obtain ⟨t, d, m⟩ := s
    obtain ⟨h1, h2, h3⟩ := hs
    cases f with
    | time =>
      simp only at g
      obtain ⟨v, hv, g'⟩ := De.bind_eq_ok g
      cases t with
      | some t => cases hv
      | none =>
        obtain ⟨w, hw, hv⟩ := De.bind_eq_ok hv
        cases hv
        obtain ⟨rfl, hin⟩ := toI64_ok.1 hw
        obtain ⟨i1, i2⟩ := ih g' ⟨by intro v hv; cases hv; exact hin, h2, h3⟩
        refine ⟨List.Perm.trans ?_ i1, i2⟩
        rw [hk]
        simp only [seen, Option.map_none, Option.map_some, Option.toList_none, Option.toList_some, List.nil_append,
          List.cons_append]
        exact List.perm_middle.symm
    | day =>
      simp only at g
      obtain ⟨v, hv, g'⟩ := De.bind_eq_ok g
      cases d with
      | some t => cases hv
      | none =>
        obtain ⟨w, hw, hv⟩ := De.bind_eq_ok hv
        cases hv
        obtain ⟨rfl, hin⟩ := toI32_ok.1 hw
        obtain ⟨i1, i2⟩ := ih g' ⟨h1, by intro v hv; cases hv; exact hin, h3⟩
        refine ⟨List.Perm.trans ?_ i1, i2⟩
        rw [hk]
        simp only [seen, Option.map_none, Option.map_some, Option.toList_none, Option.toList_some, List.nil_append,
          List.cons_append]
        rw [← List.append_assoc, ← List.append_assoc]
        exact List.perm_middle.symm
    | month =>
      simp only at g
      obtain ⟨v, hv, g'⟩ := De.bind_eq_ok g
      cases m with
      | some t => cases hv
      | none =>
        obtain ⟨w, hw, hv⟩ := De.bind_eq_ok hv
        cases hv
        obtain ⟨rfl, hin⟩ := toI32_ok.1 hw
        obtain ⟨i1, i2⟩ := ih g' ⟨h1, h2, by intro v hv; cases hv; exact hin⟩
        refine ⟨List.Perm.trans ?_ i1, i2⟩
        rw [hk]
        simp only [seen, Option.map_none, Option.map_some, Option.toList_none, Option.toList_some, List.append_nil,
          List.cons_append]
        rw [← List.append_assoc, ← List.append_assoc, ← List.append_assoc]
        exact (List.perm_append_singleton _ _).symm

theorem mapLoop_no_panic (l : List (Bytes × Elem)) (s : MapS) : mapLoop l s ≠ .panic := by
  induction l generalizing s with
  | nil => intro h; cases h
  | cons x r ih =>
    obtain ⟨k, e⟩ := x
    rw [mapLoop]
    have h64 : e.toI64 ≠ .panic := by
      unfold Elem.toI64; split
      · split <;> intro h <;> cases h
      · intro h; cases h
    have h32 : e.toI32 ≠ .panic := by
      unfold Elem.toI32; split
      · split <;> intro h <;> cases h
      · intro h; cases h
    have hfill : ∀ (conv : Elem → De Int) name old, conv e ≠ .panic → fillField conv name old e ≠ .panic := by
      intro conv name old hc
      unfold fillField
      split
      · exact De.bind_ne_panic hc (fun _ h => by cases h)
      · intro h; cases h
    refine De.bind_ne_panic ?_ ?_
    · unfold IvField.ofName; repeat' split
      all_goals intro h; cases h
    · intro f
      cases f with
      | time => exact De.bind_ne_panic (hfill _ _ _ h64) (fun _ => ih _)
      | day => exact De.bind_ne_panic (hfill _ _ _ h32) (fun _ => ih _)
      | month => exact De.bind_ne_panic (hfill _ _ _ h32) (fun _ => ih _)

theorem visitMap_no_panic (l : List (Bytes × Elem)) : Interval.visitMap l ≠ .panic := by
  have hn : ∀ n o, needField n o ≠ .panic := by
    intro n o h; cases o <;> cases h
  exact De.bind_ne_panic (mapLoop_no_panic _ _) fun _ => De.bind_ne_panic (hn _ _) fun _ =>
    De.bind_ne_panic (hn _ _) fun _ => De.bind_ne_panic (hn _ _) fun _ h => by cases h

theorem perm_two {α : Type} {a b : α} {l : List α} (h : l.Perm [a, b]) : l = [a, b] ∨ l = [b, a] := by
  match l, h.length_eq with
  | [x, y], _ =>
    rcases List.mem_cons.1 (h.mem_iff.1 (List.mem_cons_self)) with rfl | hx
    · have h' := (List.perm_cons _).1 h
      rw [List.perm_singleton] at h'
      exact Or.inl (by rw [h'])
    · rw [List.mem_singleton] at hx
      subst hx
      have h' := (List.perm_cons _).1 (h.trans (List.Perm.swap _ _ _))
      rw [List.perm_singleton] at h'
      exact Or.inr (by rw [h'])

theorem perm_three {α : Type} {a b c : α} {l : List α} (h : l.Perm [a, b, c]) :
    l = [a, b, c] ∨ l = [a, c, b] ∨ l = [b, a, c] ∨ l = [b, c, a] ∨ l = [c, a, b] ∨ l = [c, b, a] := by
  cases l with
  | nil => exact absurd h.length_eq (by simp)
  | cons x r =>
    rcases List.mem_cons.1 (h.mem_iff.1 (List.mem_cons_self)) with rfl | hx
    · rcases perm_two ((List.perm_cons _).1 h) with h | h <;> simp [h]
    rcases List.mem_cons.1 hx with rfl | hx
    · rcases perm_two ((List.perm_cons _).1 (h.trans (List.Perm.swap _ _ _))) with h | h <;> simp [h]
    · rw [List.mem_singleton] at hx
      subst hx
      have : [a, b, x].Perm [x, a, b] := (List.perm_append_singleton x [a, b])
      rcases perm_two ((List.perm_cons _).1 (h.trans this)) with h | h <;> simp [h]

/-- **C38 (maps).** A map is read as an interval exactly if it has the three entries, each once, in any
order, and nothing else. -/
theorem C38_map (l : List (Bytes × Elem)) (a : Interval) :
    Interval.visitMap l = .ok a ↔ l.Perm (entries a) ∧ a.WF := by
  constructor
  · intro h
    unfold Interval.visitMap at h
    obtain ⟨s, h1, h⟩ := De.bind_eq_ok h
    obtain ⟨t, h2, h⟩ := De.bind_eq_ok h
    obtain ⟨d, h3, h⟩ := De.bind_eq_ok h
    obtain ⟨m, h4, h⟩ := De.bind_eq_ok h
    obtain ⟨st, sd, sm⟩ := s
    obtain ⟨hp, w1, w2, w3⟩ := mapLoop_ok h1 ⟨(fun v hv => nomatch hv), (fun v hv => nomatch hv), (fun v hv => nomatch hv)⟩
    cases st with
    | none => cases h2
    | some t' =>
    cases sd with
    | none => cases h3
    | some d' =>
    cases sm with
    | none => cases h4
    | some m' =>
    cases h2; cases h3; cases h4; cases h
    refine ⟨?_, w3 _ rfl, w2 _ rfl, w1 _ rfl⟩
    have e : l ++ seen {} = l := List.append_nil l
    rw [e] at hp
    exact hp
  · rintro ⟨hp, h1, h2, h3⟩
    obtain ⟨m, d, t⟩ := a
    simp only at h1 h2 h3
    have et : Elem.toI64 (.int t) = .ok t := toI64_ok.2 ⟨rfl, h3⟩
    have ed : Elem.toI32 (.int d) = .ok d := toI32_ok.2 ⟨rfl, h2⟩
    have em : Elem.toI32 (.int m) = .ok m := toI32_ok.2 ⟨rfl, h1⟩
    have nt : IvField.ofName b!"time" = .ok .time := by decide
    have nd : IvField.ofName b!"day" = .ok .day := by decide
    have nm : IvField.ofName b!"month" = .ok .month := by decide
    have bo : ∀ {α β : Type} (a : α) (f : α → De β), (De.ok a >>= f) = f a := fun _ _ => rfl
    rcases perm_three hp with rfl | rfl | rfl | rfl | rfl | rfl <;>
      simp only [Interval.visitMap, mapLoop, nt, nd, nm, bo, fillField, et, ed, em, needField]

/-- **C38 (maps).** A duplicate, missing or unknown field is an error. -/
theorem C38_errors (l : List (Bytes × Elem))
    (h : ¬ (l.map Prod.fst).Nodup ∨ (∃ k ∈ [b!"time", b!"day", b!"month"], k ∉ l.map Prod.fst) ∨
      ∃ k ∈ l.map Prod.fst, k ∉ [b!"time", b!"day", b!"month"]) :
    ∃ e, Interval.visitMap l = .err e := by
  cases hr : Interval.visitMap l with
  | err e => exact ⟨e, rfl⟩
  | panic => exact absurd hr (visitMap_no_panic l)
  | ok a =>
    exfalso
    obtain ⟨hp, -⟩ := (C38_map l a).1 hr
    have hk : (l.map Prod.fst).Perm [b!"time", b!"day", b!"month"] := hp.map Prod.fst
    rcases h with h | ⟨k, h1, h2⟩ | ⟨k, h1, h2⟩
    · exact h (hk.nodup_iff.2 (by decide))
    · exact h2 (hk.mem_iff.2 h1)
    · exact h2 (hk.mem_iff.1 h1)

example : Interval.visitMap [(b!"day", .int 3), (b!"time", .int 1), (b!"month", .int 5)] = .ok ⟨5, 3, 1⟩ ∧
    Interval.visitMap [(b!"day", .int 3), (b!"time", .int 1), (b!"day", .int 3), (b!"month", .int 5)] =
      .err (.duplicateField b!"day") ∧
    Interval.visitMap [(b!"day", .int 3), (b!"time", .int 1)] = .err (.missingField b!"month") ∧
    Interval.visitMap [(b!"days", .int 3)] = .err .unknownField := by
  decide

/-- **C38 (sequences).** A sequence is read as an interval exactly if it begins with the time, the days and
the months. -/
theorem C38_seq (l : List Elem) (a : Interval) :
    Interval.visitSeq l = .ok a ↔ (∃ r, l = .int a.time :: .int a.day :: .int a.month :: r) ∧ a.WF := by
  obtain ⟨m, d, t⟩ := a
  constructor
  · intro h
    unfold Interval.visitSeq at h
    obtain ⟨⟨t', l1⟩, h1, h⟩ := De.bind_eq_ok h
    obtain ⟨⟨d', l2⟩, h2, h⟩ := De.bind_eq_ok h
    obtain ⟨⟨m', l3⟩, h3, h⟩ := De.bind_eq_ok h
    cases h
    cases l with
    | nil => cases h1
    | cons e1 r1 =>
      obtain ⟨v1, q1, g1⟩ := De.bind_eq_ok h1
      injection g1 with g1; injection g1 with ga gb; subst ga gb
      cases r1 with
      | nil => cases h2
      | cons e2 r2 =>
        obtain ⟨v2, q2, g2⟩ := De.bind_eq_ok h2
        injection g2 with g2; injection g2 with ga gb; subst ga gb
        cases r2 with
        | nil => cases h3
        | cons e3 r3 =>
          obtain ⟨v3, q3, g3⟩ := De.bind_eq_ok h3
          injection g3 with g3; injection g3 with ga gb; subst ga gb
          obtain ⟨rfl, w1⟩ := toI64_ok.1 q1
          obtain ⟨rfl, w2⟩ := toI32_ok.1 q2
          obtain ⟨rfl, w3⟩ := toI32_ok.1 q3
          exact ⟨⟨_, rfl⟩, w3, w2, w1⟩
  · rintro ⟨⟨r, rfl⟩, h1, h2, h3⟩
    simp only at h1 h2 h3
    have et : Elem.toI64 (.int t) = .ok t := toI64_ok.2 ⟨rfl, h3⟩
    have ed : Elem.toI32 (.int d) = .ok d := toI32_ok.2 ⟨rfl, h2⟩
    have em : Elem.toI32 (.int m) = .ok m := toI32_ok.2 ⟨rfl, h1⟩
    have bo : ∀ {α β : Type} (a : α) (f : α → De β), (De.ok a >>= f) = f a := fun _ _ => rfl
    simp only [Interval.visitSeq, nextElem, et, ed, em, bo]

/-- **C38.** In a binary format every date, time, timestamp and interval is read back, whatever its value,
whether the format shows an interval as a sequence or as a map in any order. -/
theorem C38 (p : Profile) (u : TokenField) (c : Caches) (v : DeVal) :
    (∀ d : Date, Carries d.serBin v → Date.visit p u c v = .ok d) ∧
    (∀ t : Time, Carries t.serBin v → Time.visit p u c v = .ok t) ∧
    (∀ t : Timestamp, Carries t.serBin v → Timestamp.visit p u c v = .ok t) ∧
    (∀ a : Interval, a.WF → Carries a.serBin v → Interval.visit p u c v = .ok a) := by
  refine ⟨?_, ?_, ?_, ?_⟩
  · intro d h; cases h; rfl
  · intro d h; cases h <;> rfl
  · intro d h; cases h <;> rfl
  · intro a hw h
    cases h with
    | seq => exact (C38_seq _ a).2 ⟨⟨[], rfl⟩, hw⟩
    | map _ m h => exact (C38_map m a).2 ⟨h, hw⟩

example : Carries (Interval.serBin ⟨5, 3, 1⟩) (.map [(b!"day", .int 3), (b!"time", .int 1), (b!"month", .int 5)]) ∧
    Carries (Interval.serBin ⟨5, 3, 1⟩) (.seq [.int 1, .int 3, .int 5]) ∧ (⟨5, 3, 1⟩ : Interval).WF := by
  refine ⟨Carries.map _ _ ?_, Carries.seq _, by decide⟩
  exact List.Perm.swap _ _ _

end Props
