/-! # Prefixes of lists -/

namespace Pg
variable {α : Type}

/-- The rest does not start with an element that satisfies `p`. -/
def Stops (p : α → Bool) (r : List α) : Prop := ∀ c ∈ r.head?, p c = false

theorem Stops.nil (p : α → Bool) : Stops p [] := fun c h => by cases h
theorem Stops.cons {p : α → Bool} {c : α} {r : List α} (h : p c = false) : Stops p (c :: r) := by
  intro d hd; cases hd; exact h

theorem takeWhile_span {p : α → Bool} {a r : List α} (ha : ∀ b ∈ a, p b = true) (hr : Stops p r) :
    (a ++ r).takeWhile p = a := by
  induction a with
  | nil =>
    cases r with
    | nil => rfl
    | cons c r => simp [hr c rfl]
  | cons c a ih =>
    rw [List.cons_append, List.takeWhile_cons_of_pos (ha c (List.mem_cons_self ..)),
      ih fun b hb => ha b (List.mem_cons_of_mem _ hb)]

theorem dropWhile_span {p : α → Bool} {a r : List α} (ha : ∀ b ∈ a, p b = true) (hr : Stops p r) :
    (a ++ r).dropWhile p = r := by
  induction a with
  | nil =>
    cases r with
    | nil => rfl
    | cons c r => simp [hr c rfl]
  | cons c a ih =>
    rw [List.cons_append, List.dropWhile_cons_of_pos (ha c (List.mem_cons_self ..)),
      ih fun b hb => ha b (List.mem_cons_of_mem _ hb)]

theorem takeWhile_all {p : α → Bool} {a : List α} (ha : ∀ b ∈ a, p b = true) : a.takeWhile p = a := by
  have := takeWhile_span ha (Stops.nil p)
  rwa [List.append_nil] at this

theorem dropWhile_all {p : α → Bool} {a : List α} (ha : ∀ b ∈ a, p b = true) : a.dropWhile p = [] := by
  have := dropWhile_span ha (Stops.nil p)
  rwa [List.append_nil] at this

theorem takeWhile_stop {p : α → Bool} {r : List α} (hr : Stops p r) : r.takeWhile p = [] :=
  takeWhile_span (a := []) (fun _ h => by cases h) hr

theorem dropWhile_stop {p : α → Bool} {r : List α} (hr : Stops p r) : r.dropWhile p = r :=
  dropWhile_span (a := []) (fun _ h => by cases h) hr

end Pg
