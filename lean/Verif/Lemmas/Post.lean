import Verif.Lemmas.NoPanic

/-! # What holds after a successful computation -/

namespace Pg

variable {σ τ α β C : Type}

/-- If `m` succeeds from `s`, its result and the new state satisfy `Q`. -/
def Post (m : St σ α) (Q : α → σ → Prop) (s : σ) : Prop := ∀ a s', m s = (.ok a, s') → Q a s'

namespace Post

theorem pure {a : α} {Q : α → σ → Prop} {s : σ} : Post (Pure.pure a : St σ α) Q s ↔ Q a s :=
  ⟨fun h => h a s rfl, fun h a' s' e => by cases e; exact h⟩

theorem fail {e : Err} {Q : α → σ → Prop} {s : σ} : Post (St.fail e : St σ α) Q s ↔ True :=
  ⟨fun _ => trivial, fun _ a' s' e => by cases e⟩

theorem panic {Q : α → σ → Prop} {s : σ} : Post (St.panic : St σ α) Q s ↔ True :=
  ⟨fun _ => trivial, fun _ a' s' e => by cases e⟩

theorem get {Q : σ → σ → Prop} {s : σ} : Post (St.get : St σ σ) Q s ↔ Q s s :=
  ⟨fun h => h s s rfl, fun h a' s' e => by cases e; exact h⟩

theorem mod {f : σ → σ} {Q : Unit → σ → Prop} {s : σ} : Post (St.mod f) Q s ↔ Q () (f s) :=
  ⟨fun h => h () _ rfl, fun h a' s' e => by cases e; exact h⟩

theorem lift {r : Res α} {Q : α → σ → Prop} {s : σ} : Post (St.lift r : St σ α) Q s ↔ ∀ a, r = .ok a → Q a s :=
  ⟨fun h a e => h a s (by rw [St.lift_run, e]), fun h a s' e => by cases e; exact h _ rfl⟩

theorem bind {m : St σ α} {f : α → St σ β} {Q : β → σ → Prop} {s : σ} :
    Post (m >>= f) Q s ↔ Post m (fun a s' => Post (f a) Q s') s := by
  constructor
  · intro h a s' e b s'' e'
    exact h b s'' (by rw [St.bind_ok e]; exact e')
  · intro h b s'' e
    rw [St.bind_run] at e
    split at e
    · rename_i a s' e1
      exact h a s' e1 b s'' e
    · cases e
    · cases e

theorem ite {c : Prop} [Decidable c] {m n : St σ α} {Q : α → σ → Prop} {s : σ} :
    Post (if c then m else n) Q s ↔ (c → Post m Q s) ∧ (¬ c → Post n Q s) := by
  by_cases h : c
  · rw [if_pos h]; exact ⟨fun x => ⟨fun _ => x, fun n => absurd h n⟩, fun x => x.1 h⟩
  · rw [if_neg h]; exact ⟨fun x => ⟨fun n => absurd n h, fun _ => x⟩, fun x => x.2 h⟩

theorem zoom {proj : σ → τ} {put : τ → σ → σ} {m : St τ α} {Q : α → σ → Prop} {s : σ} :
    Post (St.zoom proj put m) Q s ↔ Post m (fun a t => Q a (put t s)) (proj s) := by
  constructor
  · intro h a t e
    exact h a _ (St.zoom_run e)
  · intro h a s' e
    rcases hm : m (proj s) with ⟨r, t⟩
    rw [St.zoom_run hm] at e
    cases e
    exact h a t hm

theorem noLook {m : St σ α} {Q : α → σ × C → Prop} {s : σ × C} :
    Post (Pg.noLook m : St (σ × C) α) Q s ↔ Post m (fun a t => Q a (t, s.2)) s.1 := by
  constructor
  · intro h a t e
    exact h a _ (noLook_run e)
  · intro h a s' e
    rcases hm : m s.1 with ⟨r, t⟩
    rw [show (Pg.noLook m : St (σ × C) α) s = _ from noLook_run (c := s.2) hm] at e
    cases e
    exact h a t hm

theorem mono {m : St σ α} {Q R : α → σ → Prop} {s : σ} (h : Post m Q s) (hQ : ∀ a s', Q a s' → R a s') : Post m R s :=
  fun a s' e => hQ a s' (h a s' e)

theorem and {m : St σ α} {Q R : α → σ → Prop} {s : σ} (h : Post m Q s) (hR : Post m R s) :
    Post m (fun a s' => Q a s' ∧ R a s') s := fun a s' e => ⟨h a s' e, hR a s' e⟩

/-- What holds after every run. -/
theorem any {m : St σ α} {Q : α → σ → Prop} {s : σ} (h : ∀ a s', Q a s') : Post m Q s := fun a s' _ => h a s'

theorem look {i : Nat} {w : Bytes} {Q : TokenType × Int → σ × Unit → Prop} {s : σ × Unit} :
    Post (lookDate plainLook i w) Q s ↔ Q (tokenResult (lookupIn dateTable w)) s := by
  constructor
  · intro h
    refine h _ _ ?_
    simp only [lookDate, plainLook, searchDate_eq]
  · intro h a s' e
    simp only [lookDate, plainLook, searchDate_eq] at e
    cases e
    exact h

end Post

/-- Unfold `Post` along a computation. -/
macro "wp" : tactic => `(tactic| try simp only [Post.bind, Post.noLook, Post.get, Post.ite, Post.lift, Post.mod, Post.fail,
  Post.panic, Post.pure, implies_true, true_and, and_true])

end Pg
