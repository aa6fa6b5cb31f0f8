import Verif.Model.Parse

/-! # Running state computations -/

namespace Pg
namespace St

variable {σ τ α β : Type}

theorem bind_run (m : St σ α) (f : α → St σ β) (s : σ) :
    (m >>= f) s = match m s with
      | (.ok a, s') => f a s'
      | (.err e, s') => (.err e, s')
      | (.panic, s') => (.panic, s') := rfl

theorem bind_ok {m : St σ α} {f : α → St σ β} {s s' : σ} {a : α} (h : m s = (.ok a, s')) :
    (m >>= f) s = f a s' := by rw [bind_run, h]
theorem bind_err {m : St σ α} {f : α → St σ β} {s s' : σ} {e : Err} (h : m s = (.err e, s')) :
    (m >>= f) s = (.err e, s') := by rw [bind_run, h]
theorem bind_panic {m : St σ α} {f : α → St σ β} {s s' : σ} (h : m s = (.panic, s')) :
    (m >>= f) s = (.panic, s') := by rw [bind_run, h]

theorem pure_run (a : α) (s : σ) : (pure a : St σ α) s = (.ok a, s) := rfl
theorem fail_run (e : Err) (s : σ) : (fail e : St σ α) s = (.err e, s) := rfl
theorem panic_run (s : σ) : (panic : St σ α) s = (.panic, s) := rfl
theorem get_run (s : σ) : (get : St σ σ) s = (.ok s, s) := rfl
theorem mod_run (g : σ → σ) (s : σ) : mod g s = (.ok (), g s) := rfl
theorem lift_run (r : Res α) (s : σ) : (lift r : St σ α) s = (r, s) := rfl

theorem mod_bind (g : σ → σ) (f : Unit → St σ β) (s : σ) : (mod g >>= f) s = f () (g s) := rfl
theorem get_bind (f : σ → St σ β) (s : σ) : (get >>= f) s = f s s := rfl
theorem pure_bind (a : α) (f : α → St σ β) (s : σ) : ((pure a : St σ α) >>= f) s = f a s := rfl
theorem fail_bind (e : Err) (f : α → St σ β) (s : σ) :
    ((fail e : St σ α) >>= f) s = (.err e, s) := rfl
theorem lift_ok_bind (a : α) (f : α → St σ β) (s : σ) : ((lift (.ok a) : St σ α) >>= f) s = f a s := rfl
theorem lift_err_bind (e : Err) (f : α → St σ β) (s : σ) :
    ((lift (.err e) : St σ α) >>= f) s = (.err e, s) := rfl
theorem ite_run (c : Prop) [Decidable c] (a b : St σ α) (s : σ) :
    (if c then a else b) s = if c then a s else b s := by split <;> rfl
theorem zoom_run {proj : σ → τ} {put : τ → σ → σ} {m : St τ α} {s : σ} {r : Res α} {t : τ}
    (h : m (proj s) = (r, t)) : zoom proj put m s = (r, put t s) := by rw [zoom, h]

end St

theorem noLook_run {σ C α : Type} {m : St σ α} {s s' : σ} {c : C} {r : Res α} (h : m s = (r, s')) :
    (noLook m : St (σ × C) α) (s, c) = (r, (s', c)) := by
  simp only [noLook, h]

end Pg
