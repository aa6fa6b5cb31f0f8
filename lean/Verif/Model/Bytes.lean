import Verif.Rust

/-!
# Byte strings

A byte is a `Nat` (always below 256 in the model), a slice is a list of bytes.
-/

namespace Pg

/-- Byte slices `[u8]`. -/
abbrev Bytes := List Nat

open Lean in
/-- Byte string literal `b"…"` (ASCII only), expanded to the list of its bytes. -/
macro:max "b!" s:str : term => do
  let ts : Array (TSyntax `term) := (s.getString.toList.map fun c => Syntax.mkNatLit c.toNat).toArray.map fun x => ⟨x⟩
  `(([$ts,*] : Bytes))

/-- `s[i] = b` on a mutable slice; an index outside the slice panics. -/
def setB (s : Bytes) (i b : Nat) : Res Bytes := if i < s.length then .ok (s.set i b) else .panic

/-- Rust `u8::is_ascii_digit`. -/
def isDigit (b : Nat) : Bool := 48 ≤ b && b ≤ 57
/-- Rust `u8::is_ascii_uppercase`. -/
def isUpper (b : Nat) : Bool := 65 ≤ b && b ≤ 90
/-- Rust `u8::is_ascii_lowercase`. -/
def isLower (b : Nat) : Bool := 97 ≤ b && b ≤ 122
/-- Rust `u8::is_ascii_alphabetic`. -/
def isAlpha (b : Nat) : Bool := isUpper b || isLower b
/-- Rust `u8::is_ascii_alphanumeric`. -/
def isAlnum (b : Nat) : Bool := isAlpha b || isDigit b
/-- Rust `u8::is_ascii_whitespace`: space, tab, LF, FF, CR (not VT). -/
def isSpace (b : Nat) : Bool := b = 32 || b = 9 || b = 10 || b = 12 || b = 13
/-- Rust `u8::is_ascii_punctuation`. -/
def isPunct (b : Nat) : Bool :=
  (33 ≤ b && b ≤ 47) || (58 ≤ b && b ≤ 64) || (91 ≤ b && b ≤ 96) || (123 ≤ b && b ≤ 126)
/-- Rust `u8::to_ascii_lowercase`. -/
def lowerB (b : Nat) : Nat := if isUpper b then b + 32 else b
/-- Rust `[u8]::to_ascii_lowercase`. -/
def lower (s : Bytes) : Bytes := s.map lowerB

end Pg
