import Verif.Spec.Legible
import Verif.Lemmas.Format

/-! # Formatting into two buffers with different old content -/

namespace Pg
open Spec

/-- Both computations fail in the same way or both succeed with related values. -/
def Twin {α β : Type} (Q : α → β → Prop) : Res α → Res β → Prop
  | .ok a, .ok b => Q a b
  | .err e, .err e' => e = e'
  | .panic, .panic => True
  | _, _ => False

theorem Twin.bind {α β γ δ : Type} {Q : α → β → Prop} {R : γ → δ → Prop} {r : Res α} {r' : Res β} {f : α → Res γ} {f' : β → Res δ}
    (h : Twin Q r r') (k : ∀ a b, Q a b → Twin R (f a) (f' b)) : Twin R (r >>= f) (r' >>= f') := by
  cases r <;> cases r' <;> first | exact h.elim | exact k _ _ h | exact h

theorem Twin.common {α γ δ : Type} {R : γ → δ → Prop} {r : Res α} {f : α → Res γ} {f' : α → Res δ}
    (k : ∀ a, Twin R (f a) (f' a)) : Twin R (r >>= f) (r >>= f') := by
  cases r
  · exact k _
  · exact rfl
  · exact trivial

/-- Two buffers of length `L` which hold the same legible bytes at the places `S`. -/
def Shared (L : Nat) (S : Nat → Prop) (s s' : Bytes) : Prop :=
  s.length = L ∧ s'.length = L ∧ ∀ i, S i → ∃ b, s[i]? = some b ∧ s'[i]? = some b ∧ Legible b

theorem Shared.mono {L : Nat} {S T : Nat → Prop} {s s' : Bytes} (h : Shared L S s s') (k : ∀ i, T i → S i) : Shared L T s s' :=
  ⟨h.1, h.2.1, fun i hi => h.2.2 i (k i hi)⟩

theorem setB_twin {L : Nat} {S : Nat → Prop} {s s' : Bytes} (h : Shared L S s s') (i : Nat) {x : Nat} (hx : Legible x) :
    Twin (Shared L fun j => j = i ∨ S j) (setB s i x) (setB s' i x) := by
  obtain ⟨h1, h2, h3⟩ := h
  unfold setB
  by_cases hi : i < L
  · rw [if_pos (by omega), if_pos (by omega)]
    refine ⟨by simpa using h1, by simpa using h2, fun j hj => ?_⟩
    by_cases e : i = j
    · subst e
      exact ⟨x, by simp [h1, hi], by simp [h2, hi], hx⟩
    · rcases hj with hj | hj
      · exact absurd hj.symm e
      · obtain ⟨b, b1, b2, b3⟩ := h3 j hj
        exact ⟨b, by rw [List.getElem?_set_ne e]; exact b1, by rw [List.getElem?_set_ne e]; exact b2, b3⟩
  · rw [if_neg (by omega), if_neg (by omega)]
    exact trivial

theorem swapB_twin {L : Nat} {S : Nat → Prop} {s s' : Bytes} (h : Shared L S s s') {i j : Nat} (hi : S i) (hj : S j) :
    Twin (Shared L S) (swapB s i j) (swapB s' i j) := by
  obtain ⟨h1, h2, h3⟩ := h
  obtain ⟨a, a1, a2, a3⟩ := h3 i hi
  obtain ⟨b, b1, b2, b3⟩ := h3 j hj
  have li : i < L := by rw [← h1]; exact (List.getElem?_eq_some_iff.1 a1).1
  have lj : j < L := by rw [← h1]; exact (List.getElem?_eq_some_iff.1 b1).1
  unfold swapB
  rw [a1, a2, b1, b2]
  refine ⟨by simpa using h1, by simpa using h2, fun k hk => ?_⟩
  by_cases e : j = k
  · subst e
    exact ⟨a, by simp [h1, lj], by simp [h2, lj], a3⟩
  · rw [List.getElem?_set_ne e, List.getElem?_set_ne e]
    by_cases e' : i = k
    · subst e'
      exact ⟨b, by simp [h1, li], by simp [h2, li], b3⟩
    · rw [List.getElem?_set_ne e', List.getElem?_set_ne e']
      exact h3 k hk

theorem revLoop_twin {L m : Nat} (e : Nat) : ∀ {s s' : Bytes} {start : Nat}, Shared L (· < m) s s' → e < m →
    Twin (Shared L (· < m)) (revLoop s start e) (revLoop s' start e) := by
  induction e with
  | zero => intro s s' start h he; exact h
  | succ e ih =>
    intro s s' start h he
    unfold revLoop
    split
    · exact (swapB_twin h (show _ < m by omega) (show _ < m by omega)).bind fun a b hab => ih hab (by omega)
    · exact h

theorem digit_legible (v : Int) : Legible (48 + (v - tdiv v 10 * 10)).toNat ∧ Legible (48 - (v - tdiv v 10 * 10)).toNat := by
  unfold Legible
  rcases (by omega : v < 0 ∨ 0 ≤ v) with h | h
  · have e : Int.tdiv v 10 = -((-v) / 10) := by
      rw [← Int.tdiv_eq_ediv_of_nonneg (by omega : 0 ≤ -v), Int.neg_tdiv, Int.neg_neg]
    rw [e]
    omega
  · rw [Int.tdiv_eq_ediv_of_nonneg h]
    omega

theorem posDigits_twin {L : Nat} (n : Nat) : ∀ {s s' : Bytes} {v : Int} {k : Nat}, Shared L (· < k) s s' →
    Twin (fun a b => a.2 = b.2 ∧ k ≤ a.2 ∧ Shared L (· < a.2 + 1) a.1 b.1) (posDigits n s v k) (posDigits n s' v k) := by
  induction n with
  | zero => intro s s' v k h; exact trivial
  | succ n ih =>
    intro s s' v k h
    unfold posDigits
    refine (setB_twin h k (digit_legible v).1).bind fun a b hab => ?_
    have hab' : Shared L (· < k + 1) a b := hab.mono fun i hi => by (try dsimp only at hi ⊢); omega
    split
    · exact ⟨rfl, Nat.le_refl _, hab'⟩
    · have := ih (v := tdiv v 10) hab'
      revert this
      cases posDigits n a (tdiv v 10) (k + 1) <;> cases posDigits n b (tdiv v 10) (k + 1) <;> intro this <;>
        first | exact this.elim | exact this | exact ⟨this.1, by have := this.2.1; omega, this.2.2⟩

theorem negDigits_twin {L : Nat} (n : Nat) : ∀ {s s' : Bytes} {v : Int} {k : Nat}, Shared L (· < k) s s' →
    Twin (fun a b => a.2 = b.2 ∧ k ≤ a.2 ∧ Shared L (· < a.2 + 1) a.1 b.1) (negDigits n s v k) (negDigits n s' v k) := by
  induction n with
  | zero => intro s s' v k h; exact trivial
  | succ n ih =>
    intro s s' v k h
    unfold negDigits
    refine (setB_twin h k (digit_legible v).2).bind fun a b hab => ?_
    have hab' : Shared L (· < k + 1) a b := hab.mono fun i hi => by (try dsimp only at hi ⊢); omega
    split
    · exact ⟨rfl, Nat.le_refl _, hab'⟩
    · have := ih (v := tdiv v 10) hab'
      revert this
      cases negDigits n a (tdiv v 10) (k + 1) <;> cases negDigits n b (tdiv v 10) (k + 1) <;> intro this <;>
        first | exact this.elim | exact this | exact ⟨this.1, by have := this.2.1; omega, this.2.2⟩

/-- A piece of text written at the beginning of a buffer: same length, same legible bytes, whatever was there. -/
def Written (L : Nat) (a b : Bytes × Nat) : Prop := a.2 = b.2 ∧ Shared L (· < a.2) a.1 b.1

theorem pgLtostr_twin {L : Nat} (v : Int) {s s' : Bytes} {S : Nat → Prop} (h : Shared L S s s') :
    Twin (Written L) (pgLtostr v s) (pgLtostr v s') := by
  have h0 : Shared L (· < 0) s s' := h.mono fun i hi => by (try dsimp only at hi); omega
  unfold pgLtostr
  split
  · refine (setB_twin h0 0 (by decide)).bind fun a b hab => ?_
    refine (negDigits_twin digitFuel (k := 1) (hab.mono fun i hi => by (try dsimp only at hi ⊢); omega)).bind fun a b hab => ?_
    obtain ⟨a, n⟩ := a
    obtain ⟨b, n'⟩ := b
    obtain ⟨rfl, -, hab⟩ := hab
    exact (revLoop_twin n hab (by (try dsimp only); omega)).bind fun a b hab => ⟨rfl, hab⟩
  · refine (posDigits_twin digitFuel (k := 0) h0).bind fun a b hab => ?_
    obtain ⟨a, n⟩ := a
    obtain ⟨b, n'⟩ := b
    obtain ⟨rfl, -, hab⟩ := hab
    exact (revLoop_twin n hab (by (try dsimp only); omega)).bind fun a b hab => ⟨rfl, hab⟩

theorem chkU8_legible (p : Profile) (v c : Int) (h : chkU8 p (48 - (v - tdiv v 10 * 10) % 256) = .ok c) : Legible c.toNat := by
  have hd : -9 ≤ v - tdiv v 10 * 10 ∧ v - tdiv v 10 * 10 ≤ 9 := by
    have := digit_legible v
    rcases (by omega : v < 0 ∨ 0 ≤ v) with h | h
    · have e : Int.tdiv v 10 = -((-v) / 10) := by
        rw [← Int.tdiv_eq_ediv_of_nonneg (by omega : 0 ≤ -v), Int.neg_tdiv, Int.neg_neg]
      rw [e]
      omega
    · rw [Int.tdiv_eq_ediv_of_nonneg h]
      omega
  generalize v - tdiv v 10 * 10 = r at *
  unfold chkU8 at h
  unfold Legible
  split at h
  · injection h with h; omega
  · cases p
    · cases h
    · injection h with h; omega

theorem posPad_twin {L : Nat} (w : Nat) : ∀ {s s' : Bytes} {v : Int} {S : Nat → Prop}, Shared L S s s' →
    Twin (fun a b => a.2 = b.2 ∧ Shared L (fun i => i < w ∨ S i) a.1 b.1) (posPad w s v) (posPad w s' v) := by
  induction w with
  | zero => intro s s' v S h; exact ⟨rfl, h.mono fun i hi => hi.elim (fun hi => absurd hi (by omega)) id⟩
  | succ w ih =>
    intro s s' v S h
    unfold posPad
    refine (setB_twin h w (digit_legible v).1).bind fun a b hab => ?_
    have := ih (v := tdiv v 10) hab
    revert this
    cases posPad w a (tdiv v 10) <;> cases posPad w b (tdiv v 10) <;> intro this <;>
      first | exact this.elim | exact this | exact ⟨this.1, this.2.mono fun i hi => by
        rcases hi with hi | hi
        · rcases Nat.lt_or_ge i w with h | h
          · exact .inl h
          · exact .inr (.inl (by omega))
        · exact .inr (.inr hi)⟩

theorem negPad_twin (p : Profile) {L : Nat} (w : Nat) : ∀ {s s' : Bytes} {v : Int} {S : Nat → Prop}, Shared L S s s' →
    Twin (fun a b => a.2 = b.2 ∧ Shared L (fun i => (1 ≤ i ∧ i < 1 + w) ∨ S i) a.1 b.1) (negPad p w s v) (negPad p w s' v) := by
  induction w with
  | zero => intro s s' v S h; exact ⟨rfl, h.mono fun i hi => hi.elim (fun hi => absurd hi (by omega)) id⟩
  | succ w ih =>
    intro s s' v S h
    unfold negPad
    dsimp only
    cases hc : chkU8 p (48 - (v - tdiv v 10 * 10) % 256) with
    | ok c =>
      rw [Res.bind_ok, Res.bind_ok]
      refine (setB_twin h (1 + w) (chkU8_legible p v c hc)).bind fun a b hab => ?_
      have := ih (v := tdiv v 10) hab
      revert this
      cases negPad p w a (tdiv v 10) <;> cases negPad p w b (tdiv v 10) <;> intro this <;>
        first | exact this.elim | exact this | exact ⟨this.1, this.2.mono fun i hi => by
          rcases hi with hi | hi
          · rcases Nat.lt_or_ge i (1 + w) with h | h
            · exact .inl ⟨hi.1, h⟩
            · exact .inr (.inl (by omega))
          · exact .inr (.inr hi)⟩
    | err e => exact rfl
    | panic => exact trivial

theorem padRest_twin {L : Nat} (v n : Int) (w : Nat) {s s' : Bytes} (h : Shared L (· < w) s s') :
    Twin (Written L) (padRest v n w s) (padRest v n w s') := by
  unfold padRest
  split
  · exact pgLtostr_twin v h
  · exact ⟨rfl, h⟩

theorem pgLtostrZeropad_twin (p : Profile) {L : Nat} (v : Int) (w : Nat) {s s' : Bytes} {S : Nat → Prop} (h : Shared L S s s') :
    Twin (Written L) (pgLtostrZeropad p v w s) (pgLtostrZeropad p v w s') := by
  unfold pgLtostrZeropad
  split
  · refine (setB_twin h 0 (by decide)).bind fun a b hab => ?_
    refine (negPad_twin p (w - 1) hab).bind fun a b hab => ?_
    obtain ⟨a, n⟩ := a
    obtain ⟨b, n'⟩ := b
    obtain ⟨rfl, hab⟩ := hab
    refine padRest_twin v n w (hab.mono fun i hi => ?_)
    try dsimp only at hi
    rcases Nat.eq_zero_or_pos i with h | h
    · exact .inr (.inl h)
    · exact .inl (by omega)
  · refine (posPad_twin w h).bind fun a b hab => ?_
    obtain ⟨a, n⟩ := a
    obtain ⟨b, n'⟩ := b
    obtain ⟨rfl, hab⟩ := hab
    exact padRest_twin v n w (hab.mono fun i hi => .inl hi)

theorem fracLoop_twin {L : Nat} (o k : Nat) : ∀ {s s' : Bytes} {v : Int} {got : Bool} {n m : Nat},
    Shared L (fun i => i < o ∨ o + k ≤ i ∧ i < o + m) s s' → (got = true → m = k + n) → (got = false → n = 0 ∧ m = 0) →
    Twin (fun a b => a.2 = b.2 ∧ Shared L (· < o + a.2.2) a.1 b.1) (fracLoop o k s v got n) (fracLoop o k s' v got n) := by
  induction k with
  | zero =>
    intro s s' v got n m h h1 h2
    refine ⟨rfl, h.mono fun i hi => ?_⟩
    try dsimp only at hi
    cases got
    · have := h2 rfl; omega
    · have := h1 rfl; omega
  | succ k ih =>
    intro s s' v got n m h h1 h2
    unfold fracLoop
    dsimp only
    split
    · rename_i hg
      refine (setB_twin h (o + k) (digit_legible v).1).bind fun a b hab => ?_
      rw [hg]
      cases got
      · have := h2 rfl
        exact ih (m := k + (n + 1)) (hab.mono fun i hi => by (try dsimp only at hi ⊢); omega) (fun _ => rfl) (fun h => by cases h)
      · have := h1 rfl
        exact ih (m := k + (n + 1)) (hab.mono fun i hi => by (try dsimp only at hi ⊢); omega) (fun _ => rfl) (fun h => by cases h)
    · rename_i hg
      have hg' : got = false := by
        cases got
        · rfl
        · simp at hg
      subst hg'
      have := h2 rfl
      rw [show (false || decide (v - tdiv v 10 * 10 ≠ 0)) = false by simpa using hg]
      exact ih (m := 0) (h.mono fun i hi => by (try dsimp only at hi ⊢); omega) (fun h => by cases h) (fun _ => ⟨this.1, rfl⟩)

theorem secInt_twin (p : Profile) {L : Nat} (sec : Int) (fill : Bool) {s s' : Bytes} {S : Nat → Prop} (h : Shared L S s s') :
    Twin (Written L) (secInt p sec fill s) (secInt p sec fill s') := by
  unfold secInt
  refine Twin.common fun a => ?_
  split
  · exact pgLtostrZeropad_twin p a 2 h
  · exact pgLtostr_twin a h

theorem fracRest_twin (p : Profile) {L : Nat} (fsec v : Int) (o n : Nat) {s s' : Bytes} (ho : o ≤ L) (h : Shared L (· < o + n) s s') :
    Twin (Written L) (fracRest p fsec v o n s) (fracRest p fsec v o n s') := by
  unfold fracRest
  split
  · refine Twin.common fun a => ?_
    have hd : Shared (L - o) (fun _ => False) (s.drop o) (s'.drop o) := by
      refine ⟨?_, ?_, fun i hi => hi.elim⟩
      · rw [List.length_drop, h.1]
      · rw [List.length_drop, h.2.1]
    refine (pgLtostr_twin (wrap32 a) hd).bind fun t t' ht => ?_
    obtain ⟨t, e⟩ := t
    obtain ⟨t', e'⟩ := t'
    obtain ⟨rfl, t1, t2, t3⟩ := ht
    dsimp only at t1 t2 t3
    obtain ⟨h1, h2, h3⟩ := h
    refine ⟨rfl, ?_, ?_, fun i hi => ?_⟩
    · rw [List.length_append, List.length_take, t1]; omega
    · rw [List.length_append, List.length_take, t2]; omega
    · rcases Nat.lt_or_ge i o with g | g
      · obtain ⟨b, b1, b2, b3⟩ := h3 i (by dsimp only; omega)
        refine ⟨b, ?_, ?_, b3⟩
        · rw [List.getElem?_append_left (by rw [List.length_take]; omega), List.getElem?_take_of_lt g]; exact b1
        · rw [List.getElem?_append_left (by rw [List.length_take]; omega), List.getElem?_take_of_lt g]; exact b2
      · dsimp only at hi
        obtain ⟨b, b1, b2, b3⟩ := t3 (i - o) (by omega)
        refine ⟨b, ?_, ?_, b3⟩
        · rw [List.getElem?_append_right (by rw [List.length_take]; omega), List.length_take, Nat.min_eq_left (by omega)]; exact b1
        · rw [List.getElem?_append_right (by rw [List.length_take]; omega), List.length_take, Nat.min_eq_left (by omega)]; exact b2
  · exact ⟨rfl, h⟩

theorem Shared.fits {L n : Nat} {s s' : Bytes} (h : Shared L (· < n) s s') : n ≤ L := by
  rcases Nat.eq_zero_or_pos n with h0 | h0
  · omega
  · obtain ⟨b, b1, -⟩ := h.2.2 (n - 1) (by dsimp only; omega)
    have := (List.getElem?_eq_some_iff.1 b1).1
    have := h.1
    omega

theorem appendSeconds_twin (p : Profile) {L : Nat} (sec fsec : Int) (fill : Bool) {s s' : Bytes} {S : Nat → Prop} (h : Shared L S s s') :
    Twin (Written L) (appendSeconds p sec fsec fill s) (appendSeconds p sec fsec fill s') := by
  unfold appendSeconds
  refine (secInt_twin p sec fill h).bind fun a b hab => ?_
  obtain ⟨a, o⟩ := a
  obtain ⟨b, o'⟩ := b
  obtain ⟨rfl, hab⟩ := hab
  dsimp only at hab ⊢
  split
  · refine Twin.common fun v => ?_
    refine (setB_twin hab o (by decide)).bind fun a b hab => ?_
    have hab' : Shared L (· < o + 1) a b := hab.mono fun i hi => by (try dsimp only at hi); omega
    have hf := hab'.fits
    refine (fracLoop_twin (o + 1) 6 (m := 0) (n := 0) (got := false) (v := v)
      (hab'.mono fun i hi => by (try dsimp only at hi); omega) (fun h => by cases h) (fun _ => ⟨rfl, rfl⟩)).bind fun a b hab => ?_
    obtain ⟨a, v1, n⟩ := a
    obtain ⟨b, v2, n'⟩ := b
    obtain ⟨e, hab⟩ := hab
    dsimp only at e hab ⊢
    injection e with e1 e2
    subst e1 e2
    exact fracRest_twin p fsec v1 (o + 1) n hf hab
  · exact ⟨rfl, hab⟩

theorem sub_twin {L : Nat} {f : Bytes → Res (Bytes × Nat)}
    (hf : ∀ {M : Nat} {s s' : Bytes}, Shared M (fun _ => False) s s' → Twin (Written M) (f s) (f s'))
    {b b' : Buf} (h : Written L b b') : Twin (Written L) (sub f b) (sub f b') := by
  obtain ⟨s, n⟩ := b
  obtain ⟨s', n'⟩ := b'
  obtain ⟨rfl, h⟩ := h
  dsimp only at h
  have hn := h.fits
  obtain ⟨h1, h2, h3⟩ := h
  unfold sub
  dsimp only
  rw [if_pos (by omega), if_pos (by omega)]
  refine (hf (M := L - n) ⟨by rw [List.length_drop, h1], by rw [List.length_drop, h2], fun i hi => hi.elim⟩).bind fun t t' ht => ?_
  obtain ⟨t, e⟩ := t
  obtain ⟨t', e'⟩ := t'
  obtain ⟨rfl, t1, t2, t3⟩ := ht
  dsimp only at t1 t2 t3
  refine ⟨rfl, ?_, ?_, fun i hi => ?_⟩
  · dsimp only; rw [List.length_append, List.length_take, t1]; omega
  · dsimp only; rw [List.length_append, List.length_take, t2]; omega
  · dsimp only at hi ⊢
    rcases Nat.lt_or_ge i n with g | g
    · obtain ⟨b, b1, b2, b3⟩ := h3 i g
      refine ⟨b, ?_, ?_, b3⟩
      · rw [List.getElem?_append_left (by rw [List.length_take]; omega), List.getElem?_take_of_lt g]; exact b1
      · rw [List.getElem?_append_left (by rw [List.length_take]; omega), List.getElem?_take_of_lt g]; exact b2
    · obtain ⟨b, b1, b2, b3⟩ := t3 (i - n) (by omega)
      refine ⟨b, ?_, ?_, b3⟩
      · rw [List.getElem?_append_right (by rw [List.length_take]; omega), List.length_take, Nat.min_eq_left (by omega)]; exact b1
      · rw [List.getElem?_append_right (by rw [List.length_take]; omega), List.length_take, Nat.min_eq_left (by omega)]; exact b2

theorem setOneByte_twin {L x : Nat} (hx : Legible x) {b b' : Buf} (h : Written L b b') :
    Twin (Written L) (setOneByte x b) (setOneByte x b') := by
  obtain ⟨s, n⟩ := b
  obtain ⟨s', n'⟩ := b'
  obtain ⟨rfl, h⟩ := h
  unfold setOneByte
  exact (setB_twin h n hx).bind fun a b hab => ⟨rfl, hab.mono fun i hi => by dsimp only at hi ⊢; omega⟩

theorem copySlice_twin {L : Nat} {w : Bytes} (hw : ∀ x ∈ w, Legible x) {b b' : Buf} (h : Written L b b') :
    Twin (Written L) (copySlice w b) (copySlice w b') := by
  obtain ⟨s, n⟩ := b
  obtain ⟨s', n'⟩ := b'
  obtain ⟨rfl, h1, h2, h3⟩ := h
  dsimp only at h1 h2 h3
  unfold copySlice
  dsimp only
  by_cases hf : n + w.length ≤ L
  · rw [if_pos (by omega), if_pos (by omega)]
    refine ⟨rfl, ?_, ?_, fun i hi => ?_⟩
    · simp only [List.length_append, List.length_take, List.length_drop]; omega
    · simp only [List.length_append, List.length_take, List.length_drop]; omega
    · dsimp only at hi ⊢
      rw [List.append_assoc, List.append_assoc]
      rcases Nat.lt_or_ge i n with g | g
      · obtain ⟨b, b1, b2, b3⟩ := h3 i g
        refine ⟨b, ?_, ?_, b3⟩
        · rw [List.getElem?_append_left (by rw [List.length_take]; omega), List.getElem?_take_of_lt g]; exact b1
        · rw [List.getElem?_append_left (by rw [List.length_take]; omega), List.getElem?_take_of_lt g]; exact b2
      · have hi' : i - n < w.length := by omega
        refine ⟨w[i - n], ?_, ?_, hw _ (List.getElem_mem _)⟩
        · rw [List.getElem?_append_right (by rw [List.length_take]; omega), List.length_take, Nat.min_eq_left (by omega),
            List.getElem?_append_left hi', List.getElem?_eq_getElem hi']
        · rw [List.getElem?_append_right (by rw [List.length_take]; omega), List.length_take, Nat.min_eq_left (by omega),
            List.getElem?_append_left hi', List.getElem?_eq_getElem hi']
  · rw [if_neg (by omega), if_neg (by omega)]
    exact trivial

theorem put2_twin (p : Profile) (v : Int) {L : Nat} {b b' : Buf} (h : Written L b b') : Twin (Written L) (put2 p v b) (put2 p v b') :=
  sub_twin (fun h => pgLtostrZeropad_twin p v 2 h) h

theorem putInt_twin (v : Int) {L : Nat} {b b' : Buf} (h : Written L b b') : Twin (Written L) (putInt v b) (putInt v b') :=
  sub_twin (fun h => pgLtostr_twin v h) h

theorem putAbs_twin (p : Profile) (v : Int) {L : Nat} {b b' : Buf} (h : Written L b b') : Twin (Written L) (putAbs p v b) (putAbs p v b') :=
  Twin.common fun a => putInt_twin a h

theorem put2Abs_twin (p : Profile) (v : Int) {L : Nat} {b b' : Buf} (h : Written L b b') : Twin (Written L) (put2Abs p v b) (put2Abs p v b') :=
  Twin.common fun a => put2_twin p a h

theorem seconds_twin (p : Profile) (sec fsec : Int) (fill : Bool) {L : Nat} {b b' : Buf} (h : Written L b b') :
    Twin (Written L) (sub (appendSeconds p sec fsec fill) b) (sub (appendSeconds p sec fsec fill) b') :=
  sub_twin (fun h => appendSeconds_twin p sec fsec fill h) h

theorem putYear_twin (p : Profile) (y : Int) {L : Nat} {b b' : Buf} (h : Written L b b') : Twin (Written L) (putYear p y b) (putYear p y b') :=
  Twin.common fun a => sub_twin (fun h => pgLtostrZeropad_twin p a 4 h) h

theorem copyIf_twin {L : Nat} (c : Bool) {w : Bytes} (hw : ∀ x ∈ w, Legible x) {b b' : Buf} (h : Written L b b') :
    Twin (Written L) (copyIf c w b) (copyIf c w b') := by
  unfold copyIf
  split
  · exact copySlice_twin hw h
  · exact h

theorem putIf_twin {L : Nat} (c : Bool) {x : Nat} (hx : Legible x) {b b' : Buf} (h : Written L b b') :
    Twin (Written L) (putIf c x b) (putIf c x b') := by
  unfold putIf
  split
  · exact setOneByte_twin hx h
  · exact h

theorem putEra_twin {L : Nat} (y : Int) {b b' : Buf} (h : Written L b b') : Twin (Written L) (putEra y b) (putEra y b') := by
  unfold putEra
  split
  · exact copySlice_twin (by decide) h
  · exact h

theorem monthName_legible {m : Int} {w : Bytes} (h : monthName m = .ok w) : ∀ x ∈ w, Legible x := by
  unfold monthName at h
  split at h
  · split at h
    · rename_i v hv
      injection h with h
      subst h
      have := List.mem_of_getElem? hv
      revert this
      exact (by decide : ∀ v ∈ ([b!"Jan", b!"Feb", b!"Mar", b!"Apr", b!"May", b!"Jun", b!"Jul", b!"Aug", b!"Sep",
        b!"Oct", b!"Nov", b!"Dec", b!"Unknow"] : List Bytes), ∀ x ∈ v, Legible x) v
    · cases h
  · cases h

theorem wdayName_legible {m : Int} {w : Bytes} (h : wdayName m = .ok w) : ∀ x ∈ w, Legible x := by
  unfold wdayName at h
  split at h
  · split at h
    · rename_i v hv
      injection h with h
      subst h
      have := List.mem_of_getElem? hv
      revert this
      exact (by decide : ∀ v ∈ ([b!"Sun", b!"Mon", b!"Tue", b!"Wed", b!"Thu", b!"Fri", b!"Sat", b!"unknow"] : List Bytes),
        ∀ x ∈ v, Legible x) v
    · cases h
  · cases h

theorem Twin.named {α γ δ : Type} {R : γ → δ → Prop} {r : Res α} {f : α → Res γ} {f' : α → Res δ}
    (k : ∀ a, r = .ok a → Twin R (f a) (f' a)) : Twin R (r >>= f) (r >>= f') := by
  cases r
  · exact k _ rfl
  · exact rfl
  · exact trivial

theorem Twin.step {L : Nat} {r r' : Res Buf} {f f' : Buf → Res Buf} (h : Twin (Written L) r r')
    (k : ∀ a b, Written L a b → Twin (Written L) (f a) (f' b)) : Twin (Written L) (r >>= f) (r' >>= f') := h.bind k

/-- The steps of a formatting function in both buffers. -/
macro "lockstep" : tactic => `(tactic| repeat' first
  | assumption
  | decide
  | exact put2_twin _ _ (by assumption)
  | exact putInt_twin _ (by assumption)
  | exact putAbs_twin _ _ (by assumption)
  | exact put2Abs_twin _ _ (by assumption)
  | exact putYear_twin _ _ (by assumption)
  | exact putEra_twin _ (by assumption)
  | exact seconds_twin _ _ _ _ (by assumption)
  | exact setOneByte_twin (by decide) (by assumption)
  | exact setOneByte_twin (by split <;> decide) (by assumption)
  | exact copySlice_twin (by decide) (by assumption)
  | exact copySlice_twin (by assumption) (by assumption)
  | exact putIf_twin _ (by decide) (by assumption)
  | exact copyIf_twin _ (by decide) (by assumption)
  | (refine Twin.step ?_ (fun _ _ _ => ?_)))

theorem putMonthDay_twin (p : Profile) (tm : PgTime) (o : DateOrder) {x y : Nat} (hx : Legible x) (hy : Legible y) {L : Nat} {b b' : Buf}
    (h : Written L b b') : Twin (Written L) (putMonthDay p tm o x y b) (putMonthDay p tm o x y b') := by
  unfold putMonthDay
  split
  · exact (put2_twin p _ h).bind fun _ _ h => (setOneByte_twin hx h).bind fun _ _ h => put2_twin p _ h
  · exact (put2_twin p _ h).bind fun _ _ h => (setOneByte_twin hy h).bind fun _ _ h => put2_twin p _ h

theorem putDate_twin (p : Profile) (tm : PgTime) (o : DateOrder) (st : DateStyle) {L : Nat} {b b' : Buf}
    (h : Written L b b') : Twin (Written L) (putDate p tm o st b) (putDate p tm o st b') := by
  unfold putDate
  split
  · lockstep
  · lockstep
  · refine (putMonthDay_twin p tm o (by decide) (by decide) h).bind fun _ _ _ => ?_
    lockstep
  · lockstep
  · refine (putMonthDay_twin p tm o (by decide) (by decide) h).bind fun _ _ _ => ?_
    lockstep

theorem formatTime_twin (p : Profile) (tm : PgTime) (fsec : Int) {L : Nat} {b b' : Buf}
    (h : Written L b b') : Twin (Written L) (formatTime p tm fsec b) (formatTime p tm fsec b') := by
  unfold formatTime
  lockstep

theorem putDayName_twin (p : Profile) (tm : PgTime) (o : DateOrder) {L : Nat} {b b' : Buf}
    (h : Written L b b') : Twin (Written L) (putDayName p tm o b) (putDayName p tm o b') := by
  unfold putDayName
  split
  · refine (put2_twin p _ h).bind fun _ _ h => (setOneByte_twin (by decide) h).bind fun _ _ h => Twin.named fun n hn => ?_
    exact copySlice_twin (monthName_legible hn) h
  · refine Twin.named fun n hn => (copySlice_twin (monthName_legible hn) h).bind fun _ _ h => ?_
    lockstep

theorem putDateTime_twin (p : Profile) (tm : PgTime) (fsec : Int) (o : DateOrder) (st : DateStyle) {L : Nat} {b b' : Buf}
    (h : Written L b b') : Twin (Written L) (putDateTime p tm fsec o st b) (putDateTime p tm fsec o st b') := by
  unfold putDateTime putClock
  split
  · exact (putDate_twin p tm o .iso h).bind fun _ _ h => (setOneByte_twin (by decide) h).bind fun _ _ h => formatTime_twin p tm fsec h
  · exact (putDate_twin p tm o .iso h).bind fun _ _ h => (setOneByte_twin (by decide) h).bind fun _ _ h => formatTime_twin p tm fsec h
  · exact (putDate_twin p tm o .sql h).bind fun _ _ h => (setOneByte_twin (by decide) h).bind fun _ _ h => formatTime_twin p tm fsec h
  · exact (putDate_twin p tm o .german h).bind fun _ _ h => (setOneByte_twin (by decide) h).bind fun _ _ h => formatTime_twin p tm fsec h
  · refine Twin.common fun _ => Twin.common fun _ => Twin.named fun n hn => (copySlice_twin (wdayName_legible hn) h).bind fun _ _ h =>
      (setOneByte_twin (by decide) h).bind fun _ _ h => (putDayName_twin p tm o h).bind fun _ _ h => (setOneByte_twin (by decide) h).bind fun _ _ h =>
      (formatTime_twin p tm fsec h).bind fun _ _ h => ?_
    lockstep

theorem sqlMixed_twin (p : Profile) (x : IvTm) {L : Nat} {b b' : Buf} (h : Written L b b') : Twin (Written L) (sqlMixed p x b) (sqlMixed p x b') := by
  unfold sqlMixed putSec
  lockstep

theorem sqlClock_twin (p : Profile) (x : IvTm) {L : Nat} {b b' : Buf} (h : Written L b b') : Twin (Written L) (sqlClock p x b) (sqlClock p x b') := by
  unfold sqlClock putSec
  lockstep

theorem sqlBody_twin (p : Profile) (c1 c2 c3 c4 c5 : Bool) (x : IvTm) {L : Nat} {b b' : Buf} (h : Written L b b') :
    Twin (Written L) (sqlBody p c1 c2 c3 c4 c5 x b) (sqlBody p c1 c2 c3 c4 c5 x b') := by
  unfold sqlBody
  split
  · lockstep
  · split
    · exact sqlMixed_twin p x h
    · split
      · lockstep
      · split
        · exact (putInt_twin _ h).bind fun _ _ h => (setOneByte_twin (by decide) h).bind fun _ _ h => sqlClock_twin p x h
        · exact sqlClock_twin p x h

theorem putSql_twin (p : Profile) (x : IvTm) {L : Nat} {b b' : Buf} (h : Written L b b') : Twin (Written L) (putSql p x b) (putSql p x b') := by
  unfold putSql
  split
  · exact (setOneByte_twin (by decide) h).bind fun _ _ h => Twin.common fun y => sqlBody_twin p _ _ _ _ _ y h
  · exact sqlBody_twin p _ _ _ _ _ x h

theorem isoPart_twin (v : Int) {u : Nat} (hu : Legible u) {L : Nat} {b b' : Buf} (h : Written L b b') :
    Twin (Written L) (isoPart v u b) (isoPart v u b') := by
  unfold isoPart
  split
  · exact h
  · exact (putInt_twin v h).bind fun _ _ h => setOneByte_twin hu h

theorem isoSec_twin (p : Profile) (x : IvTm) {L : Nat} {b b' : Buf} (h : Written L b b') : Twin (Written L) (isoSec p x b) (isoSec p x b') := by
  unfold isoSec isoSecSign putSec
  split
  · split
    · lockstep
    · lockstep
  · exact h

theorem putIso_twin (p : Profile) (x : IvTm) {L : Nat} {b b' : Buf} (h : Written L b b') : Twin (Written L) (putIso p x b) (putIso p x b') := by
  unfold putIso
  split
  · lockstep
  · refine (setOneByte_twin (by decide) h).bind fun _ _ h => (isoPart_twin _ (by decide) h).bind fun _ _ h => (isoPart_twin _ (by decide) h).bind fun _ _ h =>
      (isoPart_twin _ (by decide) h).bind fun _ _ h => ?_
    refine Twin.bind (Q := Written L) ?_ fun _ _ h => (isoPart_twin _ (by decide) h).bind fun _ _ h => (isoPart_twin _ (by decide) h).bind fun _ _ h => isoSec_twin p x h
    unfold isoT
    split
    · lockstep
    · exact h

/-- Flags and buffer. -/
def Flagged (L : Nat) (a b : (Bool × Bool) × Buf) : Prop := a.1 = b.1 ∧ Written L a.2 b.2

theorem pgPart_twin (v : Int) {w : Bytes} (hw : ∀ x ∈ w, Legible x) (z : Bool × Bool) {L : Nat} {b b' : Buf} (h : Written L b b') :
    Twin (Flagged L) (pgPart v w z b) (pgPart v w z b') := by
  unfold pgPart
  split
  · exact ⟨rfl, h⟩
  · exact (putIf_twin _ (by decide) h).bind fun _ _ h => (putIf_twin _ (by decide) h).bind fun _ _ h => (putInt_twin v h).bind fun _ _ h =>
      (setOneByte_twin (by decide) h).bind fun _ _ h => (copySlice_twin hw h).bind fun _ _ h => (putIf_twin _ (by decide) h).bind fun _ _ h => ⟨rfl, h⟩

theorem pgClock_twin (p : Profile) (x : IvTm) (z : Bool × Bool) {L : Nat} {b b' : Buf} (h : Written L b b') :
    Twin (Written L) (pgClock p x z b) (pgClock p x z b') := by
  unfold pgClock putSec
  split
  · lockstep
  · exact h

theorem putPg_twin (p : Profile) (x : IvTm) {L : Nat} {b b' : Buf} (h : Written L b b') : Twin (Written L) (putPg p x b) (putPg p x b') := by
  unfold putPg
  refine (pgPart_twin _ (by decide) _ h).bind ?_
  rintro ⟨z, b⟩ ⟨z', b'⟩ ⟨rfl, h⟩
  refine (pgPart_twin _ (by decide) _ h).bind ?_
  rintro ⟨z, b⟩ ⟨z', b'⟩ ⟨rfl, h⟩
  refine (pgPart_twin _ (by decide) _ h).bind ?_
  rintro ⟨z, b⟩ ⟨z', b'⟩ ⟨rfl, h⟩
  exact pgClock_twin p x _ h

theorem verboseValue_twin (p : Profile) (v : Int) (z : Bool × Bool) {L : Nat} {b b' : Buf} (h : Written L b b') :
    Twin (Written L) (verboseValue p v z b) (verboseValue p v z b') := by
  unfold verboseValue
  split
  · lockstep
  · split
    · exact Twin.common fun n => putInt_twin n h
    · lockstep

theorem verbosePart_twin (p : Profile) (v : Int) {w : Bytes} (hw : ∀ x ∈ w, Legible x) (z : Bool × Bool) {L : Nat} {b b' : Buf}
    (h : Written L b b') : Twin (Flagged L) (verbosePart p v w z b) (verbosePart p v w z b') := by
  unfold verbosePart
  split
  · exact ⟨rfl, h⟩
  · exact (setOneByte_twin (by decide) h).bind fun _ _ h => (verboseValue_twin p v z h).bind fun _ _ h =>
      (setOneByte_twin (by decide) h).bind fun _ _ h => (copySlice_twin hw h).bind fun _ _ h => (putIf_twin _ (by decide) h).bind fun _ _ h => ⟨rfl, h⟩

theorem verboseSec_twin (p : Profile) (x : IvTm) (z : Bool × Bool) {L : Nat} {b b' : Buf} (h : Written L b b') :
    Twin (Flagged L) (verboseSec p x z b) (verboseSec p x z b') := by
  unfold verboseSec putSec
  split
  · exact (setOneByte_twin (by decide) h).bind fun _ _ h => (putIf_twin _ (by decide) h).bind fun _ _ h => (seconds_twin p _ _ _ h).bind fun _ _ h =>
      (copySlice_twin (by decide) h).bind fun _ _ h => Twin.common fun a => (putIf_twin _ (by decide) h).bind fun _ _ h => ⟨rfl, h⟩
  · exact ⟨rfl, h⟩

theorem putVerbose_twin (p : Profile) (x : IvTm) {L : Nat} {b b' : Buf} (h : Written L b b') : Twin (Written L) (putVerbose p x b) (putVerbose p x b') := by
  unfold putVerbose
  refine (setOneByte_twin (by decide) h).bind fun _ _ h => ?_
  refine (verbosePart_twin p _ (by decide) _ h).bind ?_
  rintro ⟨z, b⟩ ⟨z', b'⟩ ⟨rfl, h⟩
  refine (verbosePart_twin p _ (by decide) _ h).bind ?_
  rintro ⟨z, b⟩ ⟨z', b'⟩ ⟨rfl, h⟩
  refine (verbosePart_twin p _ (by decide) _ h).bind ?_
  rintro ⟨z, b⟩ ⟨z', b'⟩ ⟨rfl, h⟩
  refine (verbosePart_twin p _ (by decide) _ h).bind ?_
  rintro ⟨z, b⟩ ⟨z', b'⟩ ⟨rfl, h⟩
  refine (verbosePart_twin p _ (by decide) _ h).bind ?_
  rintro ⟨z, b⟩ ⟨z', b'⟩ ⟨rfl, h⟩
  refine (verboseSec_twin p x _ h).bind ?_
  rintro ⟨z, b⟩ ⟨z', b'⟩ ⟨rfl, h⟩
  exact (copyIf_twin _ (by decide) h).bind fun _ _ h => copyIf_twin _ (by decide) h

theorem formatInterval_twin (p : Profile) (x : IvTm) (st : IntervalStyle) {L : Nat} {b b' : Buf} (h : Written L b b') :
    Twin (Written L) (formatInterval p x st b) (formatInterval p x st b') := by
  unfold formatInterval
  cases st
  all_goals first | exact putSql_twin p x h | exact putIso_twin p x h | exact putPg_twin p x h | exact putVerbose_twin p x h

/-- The text left after formatting is the same for both buffers, legible, and not longer than the buffer. -/
theorem runFormat_twin {f : Buf → Res Buf} (hf : ∀ {L : Nat} {b b' : Buf}, Written L b b' → Twin (Written L) (f b) (f b')) {j j' : Bytes}
    (h : j.length = j'.length) :
    Twin (fun a b => a = b ∧ (∀ x ∈ a, Legible x) ∧ a.length ≤ j.length) (runFormat j f) (runFormat j' f) := by
  unfold runFormat
  have h0 : Written j.length (j, 0) (j', 0) := ⟨rfl, rfl, h.symm, fun i hi => by dsimp only at hi; omega⟩
  refine (hf h0).bind ?_
  rintro ⟨s, n⟩ ⟨s', n'⟩ ⟨rfl, h⟩
  dsimp only at h ⊢
  have hn := h.fits
  obtain ⟨h1, h2, h3⟩ := h
  have e : s.take n = s'.take n := by
    apply List.ext_getElem?
    intro i
    rcases Nat.lt_or_ge i n with g | g
    · obtain ⟨b, b1, b2, -⟩ := h3 i g
      rw [List.getElem?_take_of_lt g, List.getElem?_take_of_lt g, b1, b2]
    · rw [List.getElem?_eq_none (by rw [List.length_take]; omega), List.getElem?_eq_none (by rw [List.length_take]; omega)]
  refine ⟨e, fun x hx => ?_, ?_⟩
  · obtain ⟨i, hi, hx⟩ := List.mem_take_iff_getElem.1 hx
    obtain ⟨b, b1, -, b3⟩ := h3 i (by dsimp only; omega)
    rw [← hx]
    rw [List.getElem?_eq_getElem (by omega)] at b1
    injection b1 with b1
    rw [b1]
    exact b3
  · rw [List.length_take]; omega

end Pg
