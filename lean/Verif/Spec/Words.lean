/-!
# Words of a text

White space here is space, tab, line feed, form feed and carriage return; a word is a longest run of
other bytes.
-/

namespace Spec

/-- White space: space, tab, line feed, form feed, carriage return. -/
def White (b : Nat) : Bool := b = 32 || b = 9 || b = 10 || b = 12 || b = 13

/-- The words of a text, in order. -/
def words : List Nat → List (List Nat)
  | [] => []
  | c :: s =>
    if White c then words s
    else match s with
      | [] => [[c]]
      | d :: _ =>
        if White d then [c] :: words s
        else match words s with
          | [] => [[c]]
          | w :: l => (c :: w) :: l

example : words [32, 49, 50, 9, 32, 51, 10] = [[49, 50], [51]] := by decide

/-- The last byte of the text is a full stop. -/
def EndsInDot (s : List Nat) : Prop := s.getLast? = some 46

/-- An ASCII capital letter as its small letter, any other byte as it is. -/
def smallLetter (b : Nat) : Nat := if 65 ≤ b ∧ b ≤ 90 then b + 32 else b

/-- The texts differ only in the case of ASCII letters. -/
def SameButCase (s t : List Nat) : Prop := s.map smallLetter = t.map smallLetter

example : SameButCase [74, 117, 108, 32, 52] [106, 85, 76, 32, 52] ∧ ¬ SameButCase [64] [96] := by
  unfold SameButCase; decide

end Spec
