/-!
# Rust semantics used by the model

Result type with explicit panics, build profiles, fixed-width integer checks.
-/

namespace Pg

/-- Cargo build profile: `debug` has integer overflow checks (overflow panics),
`release` has two's-complement wrap-around. -/
inductive Profile where
  | debug
  | release
  deriving DecidableEq, Repr

/-- `DateTimeError` (src/error.rs:20-99), message text dropped. -/
inductive Err where
  | empty
  | invalid
  | overflow
  deriving DecidableEq, Repr

/-- Outcome of a Rust call: `Ok`, `Err`, or a panic. -/
inductive Res (α : Type) where
  | ok (a : α)
  | err (e : Err)
  | panic
  deriving DecidableEq, Repr

namespace Res

/-- Sequencing: `?` on errors, unwinding on panics. -/
@[inline] def bind {α β : Type} : Res α → (α → Res β) → Res β
  | ok a, f => f a
  | err e, _ => err e
  | panic, _ => panic

instance : Monad Res where
  pure := ok
  bind := Res.bind

@[simp] theorem bind_ok {α β : Type} (a : α) (f : α → Res β) : (ok a >>= f) = f a := rfl
@[simp] theorem bind_err {α β : Type} (e : Err) (f : α → Res β) :
    ((err e : Res α) >>= f) = err e := rfl
@[simp] theorem bind_panic {α β : Type} (f : α → Res β) :
    ((panic : Res α) >>= f) = panic := rfl
@[simp] theorem pure_eq {α : Type} (a : α) : (pure a : Res α) = ok a := rfl

instance : LawfulMonad Res := LawfulMonad.mk'
  (id_map := by intro α x; cases x <;> rfl)
  (pure_bind := by intros; rfl)
  (bind_assoc := by intro α β γ x f g; cases x <;> rfl)

/-- The call returned (with a value or an error). -/
def NoPanic {α : Type} (r : Res α) : Prop := r ≠ panic

/-- The call returned an error. -/
def IsErr {α : Type} (r : Res α) : Prop := ∃ e, r = err e

@[simp] theorem noPanic_ok {α : Type} (a : α) : NoPanic (ok a) := by intro h; cases h
@[simp] theorem noPanic_err {α : Type} (e : Err) : NoPanic (err e : Res α) := by intro h; cases h

theorem bind_eq_ok {α β : Type} {x : Res α} {f : α → Res β} {b : β} :
    (x >>= f) = ok b ↔ ∃ a, x = ok a ∧ f a = ok b := by
  cases x <;> simp

end Res

/-- Value range of `i32`. -/
def In32 (x : Int) : Prop := -2147483648 ≤ x ∧ x ≤ 2147483647
/-- Value range of `i64`. -/
def In64 (x : Int) : Prop := -9223372036854775808 ≤ x ∧ x ≤ 9223372036854775807
/-- Value range of `u32`. -/
def InU32 (x : Int) : Prop := 0 ≤ x ∧ x ≤ 4294967295

instance (x : Int) : Decidable (In32 x) := inferInstanceAs (Decidable (_ ∧ _))
instance (x : Int) : Decidable (In64 x) := inferInstanceAs (Decidable (_ ∧ _))
instance (x : Int) : Decidable (InU32 x) := inferInstanceAs (Decidable (_ ∧ _))

/-- Two's-complement truncation to 32 bits (`as i32`, `wrapping_*`). -/
def wrap32 (x : Int) : Int := (x + 2147483648) % 4294967296 - 2147483648
/-- Two's-complement truncation to 64 bits. -/
def wrap64 (x : Int) : Int := (x + 9223372036854775808) % 18446744073709551616 - 9223372036854775808
/-- Truncation to `u32` (`as u32`). -/
def wrapU32 (x : Int) : Int := x % 4294967296

/-- `i32` arithmetic result in profile `p`. -/
def chk32 (p : Profile) (x : Int) : Res Int :=
  if In32 x then .ok x else match p with
    | .debug => .panic
    | .release => .ok (wrap32 x)
/-- `i64` arithmetic result in profile `p`. -/
def chk64 (p : Profile) (x : Int) : Res Int :=
  if In64 x then .ok x else match p with
    | .debug => .panic
    | .release => .ok (wrap64 x)
/-- `u32` arithmetic result in profile `p`. -/
def chkU32 (p : Profile) (x : Int) : Res Int :=
  if InU32 x then .ok x else match p with
    | .debug => .panic
    | .release => .ok (wrapU32 x)

theorem chk32_ok {p : Profile} {x : Int} (h : -2147483648 ≤ x ∧ x ≤ 2147483647) :
    chk32 p x = .ok x := by
  exact if_pos h
theorem chk64_ok {p : Profile} {x : Int}
    (h : -9223372036854775808 ≤ x ∧ x ≤ 9223372036854775807) : chk64 p x = .ok x := by
  exact if_pos h
theorem chkU32_ok {p : Profile} {x : Int} (h : 0 ≤ x ∧ x ≤ 4294967295) :
    chkU32 p x = .ok x := by
  exact if_pos h

theorem wrap32_of_in {x : Int} (h : -2147483648 ≤ x ∧ x ≤ 2147483647) : wrap32 x = x := by
  unfold wrap32; omega
theorem wrap64_of_in {x : Int}
    (h : -9223372036854775808 ≤ x ∧ x ≤ 9223372036854775807) : wrap64 x = x := by
  unfold wrap64; omega
theorem wrapU32_of_in {x : Int} (h : 0 ≤ x ∧ x ≤ 4294967295) : wrapU32 x = x := by
  unfold wrapU32; omega
theorem wrap32_in (x : Int) : In32 (wrap32 x) := by unfold In32 wrap32; omega
theorem wrap64_in (x : Int) : In64 (wrap64 x) := by unfold In64 wrap64; omega

/-- Rust `/` on signed integers truncates toward zero. -/
notation "tdiv" => Int.tdiv
/-- Rust `%` on signed integers has the sign of the dividend. -/
notation "tmod" => Int.tmod

theorem tdiv_nn {a b : Int} (h : 0 ≤ a) : Int.tdiv a b = a / b :=
  Int.tdiv_eq_ediv_of_nonneg h
theorem tmod_nn {a b : Int} (h : 0 ≤ a) : Int.tmod a b = a % b :=
  Int.tmod_eq_emod_of_nonneg h
theorem tdiv_np {a b : Int} (h : a ≤ 0) : Int.tdiv a b = -((-a) / b) := by
  have : a = -(-a) := by omega
  rw [this, Int.neg_tdiv, Int.tdiv_eq_ediv_of_nonneg (by omega)]; simp
theorem tmod_np {a b : Int} (h : a ≤ 0) : Int.tmod a b = -((-a) % b) := by
  have : a = -(-a) := by omega
  rw [this, Int.neg_tmod, Int.tmod_eq_emod_of_nonneg (by omega)]; simp
theorem tdiv_cases (a b : Int) :
    Int.tdiv a b = if 0 ≤ a then a / b else -((-a) / b) := by
  split
  · exact tdiv_nn ‹_›
  · exact tdiv_np (by omega)
theorem tmod_cases (a b : Int) :
    Int.tmod a b = if 0 ≤ a then a % b else -((-a) % b) := by
  split
  · exact tmod_nn ‹_›
  · exact tmod_np (by omega)

/-- `tdiv` facts in a form `omega` can use. -/
theorem tdiv_or (a b : Int) :
    (0 ≤ a ∧ Int.tdiv a b = a / b) ∨ (a < 0 ∧ Int.tdiv a b = -((-a) / b)) := by
  by_cases h : 0 ≤ a
  · exact .inl ⟨h, tdiv_nn h⟩
  · exact .inr ⟨by omega, tdiv_np (by omega)⟩
/-- `tmod` facts in a form `omega` can use. -/
theorem tmod_or (a b : Int) :
    (0 ≤ a ∧ Int.tmod a b = a % b) ∨ (a < 0 ∧ Int.tmod a b = -((-a) % b)) := by
  by_cases h : 0 ≤ a
  · exact .inl ⟨h, tmod_nn h⟩
  · exact .inr ⟨by omega, tmod_np (by omega)⟩

/-- `checked_add` and friends on `i32`. -/
def checked32 (x : Int) : Option Int := if In32 x then some x else none
/-- `checked_add` and friends on `i64`. -/
def checked64 (x : Int) : Option Int := if In64 x then some x else none

theorem checked32_some {x : Int} (h : -2147483648 ≤ x ∧ x ≤ 2147483647) :
    checked32 x = some x := if_pos h
theorem checked32_none {x : Int} (h : ¬ (-2147483648 ≤ x ∧ x ≤ 2147483647)) :
    checked32 x = none := if_neg h
theorem checked64_some {x : Int} (h : -9223372036854775808 ≤ x ∧ x ≤ 9223372036854775807) :
    checked64 x = some x := if_pos h
theorem checked64_none {x : Int} (h : ¬ (-9223372036854775808 ≤ x ∧ x ≤ 9223372036854775807)) :
    checked64 x = none := if_neg h

end Pg
