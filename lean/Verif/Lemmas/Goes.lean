import Verif.Lemmas.NoPanicInterval

/-! # Computations that do not panic, with a bound on the state also when they fail -/

namespace Pg

/-- The computation does not panic, ends in `Q` if it succeeds, and in `R` if it fails. -/
def Goes {σ α : Type} (R : σ → Prop) (m : St σ α) (Q : α → σ → Prop) (s : σ) : Prop :=
  match m s with
  | (.ok a, s') => Q a s'
  | (.err _, s') => R s'
  | (.panic, _) => False

variable {σ τ α β : Type} {R : σ → Prop} {m : St σ α} {Q : α → σ → Prop} {s : σ}

theorem Goes.bind {f : α → St σ β} {Q : β → σ → Prop} : Goes R (m >>= f) Q s ↔ Goes R m (fun a s' => Goes R (f a) Q s') s := by
  unfold Goes
  rw [St.bind_run]
  cases h : m s with
  | mk r s' => cases r <;> simp

theorem Goes.pure {a : α} : Goes R (Pure.pure a : St σ α) Q s ↔ Q a s := Iff.rfl
theorem Goes.fail {e : Err} : Goes R (St.fail e : St σ α) Q s ↔ R s := Iff.rfl
theorem Goes.get {Q : σ → σ → Prop} : Goes R (St.get : St σ σ) Q s ↔ Q s s := Iff.rfl
theorem Goes.mod {f : σ → σ} {Q : Unit → σ → Prop} : Goes R (St.mod f) Q s ↔ Q () (f s) := Iff.rfl

theorem Goes.lift {r : Res α} (h : r ≠ .panic) (hR : R s) (hQ : ∀ a, r = .ok a → Q a s) : Goes R (St.lift r) Q s := by
  unfold Goes St.lift
  cases r with
  | ok a => exact hQ a rfl
  | err e => exact hR
  | panic => exact absurd rfl h

theorem Goes.lift_ok {a : α} : Goes R (St.lift (.ok a)) Q s ↔ Q a s := Iff.rfl

theorem Goes.mono {R' : σ → Prop} {Q' : α → σ → Prop} (h : Goes R m Q s) (hR : ∀ s, R s → R' s) (hQ : ∀ a s, Q a s → Q' a s) : Goes R' m Q' s := by
  unfold Goes at h ⊢
  cases hm : m s with
  | mk r s' =>
    rw [hm] at h
    cases r with
    | ok a => exact hQ _ _ h
    | err e => exact hR _ h
    | panic => exact h

theorem Goes.zoom {proj : σ → τ} {put : τ → σ → σ} {m : St τ α} :
    Goes R (St.zoom proj put m) Q s ↔ Goes (fun t => R (put t s)) m (fun a t => Q a (put t s)) (proj s) := by
  unfold Goes St.zoom
  cases h : m (proj s) with
  | mk r s' => cases r <;> simp

theorem Goes.of_eq {a : α} {s' : σ} (h : m s = (.ok a, s')) (hQ : Q a s') : Goes R m Q s := by
  unfold Goes; rw [h]; exact hQ

theorem Goes.safe (h : Goes R m Q s) : (m s).1 ≠ .panic := by
  unfold Goes at h
  cases hm : m s with
  | mk r s' =>
    rw [hm] at h
    cases r with
    | ok a => exact Res.safe_ok _
    | err e => exact Res.safe_err _
    | panic => exact h.elim

theorem Goes.noLook {C : Type} {R : σ × C → Prop} {Q : α → σ × C → Prop} {m : St σ α} {s : σ × C} :
    Goes R (noLook m) Q s ↔ Goes (fun t => R (t, s.2)) m (fun a t => Q a (t, s.2)) s.1 := by
  unfold Pg.noLook Goes
  dsimp only [St.zoom]
  cases h : m s.1 with
  | mk r s' => cases r <;> simp

end Pg
