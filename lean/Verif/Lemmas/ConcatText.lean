import Verif.Lemmas.Concat

/-! # Interval texts one after the other: fields and values -/

namespace Pg
open Spec

variable {u : TokenField}


/-! ## Bytes that do not occur -/

theorem lower_without {q0 : Nat} (hq : ∀ b, b ≠ q0 → lowerB b ≠ q0) {s : Bytes} (h : ∀ b ∈ s, b ≠ q0) : ∀ b ∈ lower s, b ≠ q0 := by
  intro b hb
  obtain ⟨a, ha, rfl⟩ := List.mem_map.1 hb
  exact hq _ (h a ha)

theorem scanField_without {q0 : Nat} (hq : ∀ b, b ≠ q0 → lowerB b ≠ q0) {c : Nat} {r : Bytes} {f : Field} {rest : Bytes} (hs : ∀ b ∈ c :: r, b ≠ q0)
    (h : scanField u c (c :: r) = .ok (f, rest)) : ∀ b ∈ f.2, b ≠ q0 := by
  have tk : ∀ (q : Nat → Bool) {s : Bytes}, (∀ b ∈ s, b ≠ q0) → ∀ b ∈ s.takeWhile q, b ≠ q0 :=
    fun q s hs b hb => hs b ((List.takeWhile_prefix _).subset hb)
  have dr : ∀ (q : Nat → Bool) {s : Bytes}, (∀ b ∈ s, b ≠ q0) → ∀ b ∈ s.dropWhile q, b ≠ q0 :=
    fun q s hs b hb => hs b ((List.dropWhile_suffix _).subset hb)
  have ap : ∀ {a s : Bytes}, (∀ b ∈ a, b ≠ q0) → (∀ b ∈ s, b ≠ q0) → ∀ b ∈ a ++ s, b ≠ q0 := by
    intro a s h1 h2 b hb
    rcases List.mem_append.1 hb with hb | hb
    · exact h1 b hb
    · exact h2 b hb
  have co : ∀ {a : Nat} {s : Bytes}, a ≠ q0 → (∀ b ∈ s, b ≠ q0) → ∀ b ∈ a :: s, b ≠ q0 := by
    intro a s h1 h2 b hb
    rcases List.mem_cons.1 hb with rfl | hb
    · exact h1
    · exact h2 b hb
  unfold scanField at h
  split at h
  · injection h with h
    obtain rfl : (scanDigit (c :: r)).1 = f := congrArg Prod.fst h
    unfold scanDigit
    have h1 := tk isDigit hs
    have h2 := dr isDigit hs
    generalize (c :: r).takeWhile isDigit = x at *
    generalize (c :: r).dropWhile isDigit = y at *
    dsimp only
    split
    · exact h1
    · rename_i c' r'
      split
      · exact ap h1 (tk _ h2)
      · split
        · refine ap h1 ?_
          have h3 : c' ≠ q0 := h2 c' (by simp)
          have h4 : ∀ b ∈ r', b ≠ q0 := fun b hb => h2 b (by simp [hb])
          unfold scanDelim
          split
          · exact co h3 (by simp)
          · dsimp only
            split
            · split
              · exact co h3 (ap (tk _ h4) (tk _ (dr _ h4)))
              · exact co h3 (tk _ h4)
            · exact co h3 (lower_without hq (tk _ h4))
        · exact h1
  · split at h
    · injection h with h
      obtain rfl : (scanDot (c :: r)).1 = f := congrArg Prod.fst h
      exact co (hs c (by simp)) (tk _ fun b hb => hs b (by simp [hb]))
    · split at h
      · unfold scanAlpha at h
        obtain ⟨q, -, h⟩ := Res.bind_eq_ok.1 h
        split at h
        · injection h with h
          obtain rfl := congrArg Prod.fst h
          exact ap (lower_without hq (tk _ hs)) (tk _ (dr _ hs))
        · injection h with h
          obtain rfl := congrArg Prod.fst h
          exact lower_without hq (tk _ hs)
      · unfold scanSign at h
        dsimp only at h
        have h4 : ∀ b ∈ r.dropWhile isSpace, b ≠ q0 := dr _ fun b hb => hs b (by simp [hb])
        generalize r.dropWhile isSpace = y at *
        split at h
        · cases h; exact co (hs c (by simp)) (by simp)
        · split at h
          · injection h with h
            obtain rfl := congrArg Prod.fst h
            exact co (hs c (by simp)) (tk _ h4)
          · split at h
            · injection h with h
              obtain rfl := congrArg Prod.fst h
              exact co (hs c (by simp)) (lower_without hq (tk _ h4))
            · cases h

theorem scanLoop_without {q0 : Nat} (hq : ∀ b, b ≠ q0 → lowerB b ≠ q0) : ∀ (fuel : Nat) (s : Bytes) (cap nf : Nat) (l : List Field), (∀ b ∈ s, b ≠ q0) →
    scanLoop u fuel s cap nf = .ok l → ∀ f ∈ l, ∀ b ∈ f.2, b ≠ q0 := by
  intro fuel
  induction fuel with
  | zero => intro s cap nf l _ h; rw [scanLoop] at h; cases h; simp
  | succ n ih =>
    intro s cap nf l hs h
    rw [scanLoop] at h
    have e0 := List.takeWhile_append_dropWhile (p := isSpace) (l := s)
    generalize s.dropWhile isSpace = y at *
    have hy : ∀ b ∈ y, b ≠ q0 := fun b hb => hs b (by rw [← e0]; exact List.mem_append_right _ hb)
    split at h
    · cases h; simp
    · rename_i c r
      split at h
      · cases h
      · split at h
        · rename_i hst
          split at h
          · cases h
          · obtain ⟨⟨f, rest⟩, hf, h⟩ := Res.bind_eq_ok.1 h
            simp only at h
            split at h
            · cases h
            · obtain ⟨l', hl, h⟩ := Res.bind_eq_ok.1 h
              cases h
              obtain ⟨⟨used, h1, -⟩, -⟩ := field_kind (u := u) hst hf
              intro g hg
              rcases List.mem_cons.1 hg with rfl | hg
              · exact scanField_without hq hy hf
              · exact ih _ _ _ _ (fun b hb => hy b (by rw [h1]; exact List.mem_append_right _ hb)) hl g hg
        · split at h
          · exact ih _ _ _ _ (fun b hb => hy b ((List.dropWhile_suffix _).subset hb)) h
          · cases h

theorem scan_without {q0 : Nat} (hq : ∀ b, b ≠ q0 → lowerB b ≠ q0) {s : Bytes} {l : List Field} (hs : ∀ b ∈ s, b ≠ q0) (h : scan u s = .ok l) : ∀ f ∈ l, ∀ b ∈ f.2, b ≠ q0 := by
  unfold scan at h
  split at h
  · cases h
  · exact scanLoop_without hq _ _ _ _ _ hs h

theorem lowerB_without {q b : Nat} (hq : q < 97) (h : b ≠ q) : lowerB b ≠ q := by
  unfold lowerB isUpper
  split <;> rename_i h' <;> simp at h' <;> omega

/-! ## One text after the other -/

/-- The fields do not depend on the room that is left. -/
theorem scanLoop_room : ∀ (n m : Nat) (s : Bytes) (cap cap' nf nf' : Nat) (l l' : List Field), s.length < n → s.length < m →
    scanLoop u n s cap nf = .ok l → scanLoop u m s cap' nf' = .ok l' → l = l' := by
  intro n
  induction n with
  | zero => intro m s cap cap' nf nf' l l' h; omega
  | succ n ih =>
    intro m s cap cap' nf nf' l l' h1 h2 e1 e2
    cases m with
    | zero => omega
    | succ m =>
      rw [scanLoop] at e1 e2
      have hl : (s.dropWhile isSpace).length ≤ s.length := (List.dropWhile_suffix _).length_le
      generalize s.dropWhile isSpace = y at *
      cases y with
      | nil => cases e1; cases e2; rfl
      | cons c r =>
        simp only at e1 e2
        split at e1
        · cases e1
        · split at e2
          · cases e2
          · split at e1
            · rename_i hst
              rw [if_pos hst] at e2
              split at e1
              · cases e1
              · split at e2
                · cases e2
                · obtain ⟨⟨f, rest⟩, hf, e1⟩ := Res.bind_eq_ok.1 e1
                  rw [hf, Res.bind_ok] at e2
                  simp only at e1 e2
                  split at e1
                  · cases e1
                  · split at e2
                    · cases e2
                    · obtain ⟨k1, g1, e1⟩ := Res.bind_eq_ok.1 e1
                      obtain ⟨k2, g2, e2⟩ := Res.bind_eq_ok.1 e2
                      cases e1
                      cases e2
                      have hlt : rest.length < (c :: r).length := by
                        obtain ⟨⟨used, q1, q2, q3⟩, -⟩ := field_kind (u := u) hst hf
                        have := congrArg List.length q1
                        have := List.length_pos_iff.2 q3
                        simp only [List.length_append] at *
                        omega
                      rw [ih m rest _ _ _ _ k1 k2 (by omega) (by omega) g1 g2]
            · rename_i hst
              rw [if_neg hst] at e2
              split at e1
              · rename_i hp
                rw [if_pos hp] at e2
                have hd : ((c :: r).dropWhile isPunct).length ≤ r.length := by
                  rw [List.dropWhile_cons_of_pos hp]; exact (List.dropWhile_suffix _).length_le
                simp only [List.length_cons] at hl
                exact ih m _ _ _ _ _ l l' (by omega) (by omega) e1 e2
              · cases e1

/-- The fields of a text that goes on after a blank. -/
theorem scanLoop_cat {t : Bytes} : ∀ (n : Nat) (m : Nat) (A : Bytes) (cap cap' nf nf' : Nat) (l l1 : List Field),
    (A = [] ∨ Ends A) → NoSign A → (A ++ t).length < n → A.length < m → scanLoop u n (A ++ t) cap nf = .ok l →
    scanLoop u m A cap' nf' = .ok l1 →
    ∃ l2 k cap2 nf2, l = l1 ++ l2 ∧ t.length < k ∧ scanLoop u k t cap2 nf2 = .ok l2 := by
  intro n
  induction n with
  | zero => intro m A cap cap' nf nf' l l1 _ _ h; omega
  | succ n ih =>
    intro m A cap cap' nf nf' l l1 hA hn hf hm h g
    cases m with
    | zero => omega
    | succ m =>
    have spaces : ∀ X : Bytes, (∀ t : Bytes, (X ++ t).dropWhile isSpace = t.dropWhile isSpace) ∨ ∃ c' A', c' :: A' <:+ X ∧
        (∀ t, (X ++ t).dropWhile isSpace = c' :: (A' ++ t)) ∧ isSpace c' = false := by
      intro X
      induction X with
      | nil => left; simp
      | cons x X ih =>
        cases hx : isSpace x with
        | false => right; exact ⟨x, X, List.suffix_refl _, by simp [hx], hx⟩
        | true =>
          rcases ih with ih | ⟨c', A', k1, k2, k3⟩
          · left; intro t; simpa [List.dropWhile_cons, hx] using ih t
          · right; exact ⟨c', A', k1.trans (List.suffix_cons _ _), by intro t; simp [hx, ← k2], k3⟩
    rcases spaces A with hs | ⟨c, A', k1, k2, k3⟩
    · have e : ∀ t : Bytes, scanLoop u (n + 1) (A ++ t) cap nf = scanLoop u (n + 1) t cap nf := by
        intro t; rw [scanLoop, scanLoop, hs]
      rw [e] at h
      have e0 := hs []
      rw [List.append_nil] at e0
      rw [scanLoop, e0] at g
      cases g
      exact ⟨l, n + 1, cap, nf, rfl, by rw [List.length_append] at hf; omega, h⟩
    · have hA : Ends A := by
        rcases hA with rfl | hA
        · exact absurd (List.suffix_nil.1 k1) (by simp)
        · exact hA
      have hE := hA.suffix k1 (by simp)
      have hlen' : (c :: A').length ≤ A.length := k1.length_le
      have k2' := k2 []
      simp only [List.append_nil] at k2'
      rw [scanLoop, k2] at h
      rw [scanLoop, k2'] at g
      simp only at h g
      split at h
      · cases h
      · split at g
        · cases g
        · split at h
          · rename_i hst
            rw [if_pos hst] at g
            split at h
            · cases h
            · split at g
              · cases g
              · rw [Res.bind_eq_ok] at h
                obtain ⟨⟨f, rest⟩, h1, h⟩ := h
                obtain ⟨B, b1, b2, rfl⟩ := field_within (t := t) (show startB c = true from hst) hE (hn.suffix k1) h1
                have h1' := field_append (show startB c = true from hst) hE (hn.suffix k1) t [] h1
                simp only [List.append_nil] at h1'
                rw [h1', Res.bind_ok] at g
                simp only at h g
                split at h
                · cases h
                · split at g
                  · cases g
                  · rw [Res.bind_eq_ok] at h g
                    obtain ⟨l', h2, h⟩ := h
                    obtain ⟨l1', g2, g⟩ := g
                    cases h
                    cases g
                    have hB : B.length < (c :: A').length := by
                      obtain ⟨⟨used, q1, q2, q3⟩, -⟩ := field_kind (u := u) hst h1'
                      have := congrArg List.length q1
                      have := List.length_pos_iff.2 q3
                      simp only [List.length_append] at *
                      omega
                    obtain ⟨l2, k, cap2, nf2, e, q1, q2⟩ := ih m B _ _ _ _ _ _ (Or.inr (hE.suffix b1 b2)) ((hn.suffix k1).suffix b1)
                      (by rw [List.length_append] at hf ⊢; omega) (by omega) h2 g2
                    exact ⟨l2, k, cap2, nf2, by rw [e]; rfl, q1, q2⟩
          · rename_i hst
            rw [if_neg hst] at g
            split at h
            · rename_i hp
              rw [if_pos hp] at g
              have hq : ∀ b, isSpace b = true → isPunct b = false := fun b h => by rcases space_cases h with rfl | rfl | rfl | rfl | rfl <;> rfl
              obtain ⟨B, b1, b2, b3⟩ := drop_within (q := isPunct) hq t (hE.tail k3)
              have d1 := (take_within hq t (hE.tail k3)).2.1
              rw [b3] at d1
              have e : (c :: (A' ++ t)).dropWhile isPunct = B ++ t := by rw [List.dropWhile_cons, if_pos hp, b3]
              have e' : (c :: A').dropWhile isPunct = B := by
                rw [List.dropWhile_cons, if_pos hp, ← List.append_cancel_right d1]
              rw [e] at h
              rw [e'] at g
              have hb := b1.length_le
              simp only [List.length_cons] at hlen'
              exact ih m B _ _ _ _ _ _ (Or.inr ((hE.tail k3).suffix b1 b2)) (((hn.suffix k1).suffix (List.suffix_cons _ _)).suffix b1)
                (by rw [List.length_append] at hf ⊢; omega) (by omega) h g
            · cases h

theorem words_blank : ∀ s : Bytes, words (s ++ [32]) = words s := by
  intro s
  induction s with
  | nil => decide
  | cons c s ih =>
    cases s with
    | nil =>
      simp only [List.nil_append, List.cons_append]
      unfold words
      have h2 : White 32 = true := by decide
      simp [h2, words]
    | cons d r =>
      rw [List.cons_append, words.eq_def, words.eq_def (c :: d :: r)]
      simp only [ih]
      simp only [List.cons_append]

/-- The fields of two texts, one after the other. -/
theorem scan_cat {s t : Bytes} {l l1 l2 : List Field} {b : Nat} (hb : s.getLast? = some b) (hsp : isSpace b = false) (hsg : b ≠ 43 ∧ b ≠ 45 ∧ b ≠ 46)
    (h : scan u (s ++ 32 :: t) = .ok l) (h1 : scan u s = .ok l1) (h2 : scan u t = .ok l2) : l = l1 ++ l2 := by
  have hs0 : s ≠ [] := by rintro rfl; cases hb
  obtain ⟨x, rfl⟩ : ∃ x, s = x ++ [b] := by
    obtain ⟨x, e⟩ := List.getLast?_eq_some_iff.1 hb
    exact ⟨x, e⟩
  have hw : scan u (x ++ [b]) = scan u (x ++ [b] ++ [32]) := by
    refine scan_words u hs0 (by simp) (words_blank _).symm ?_
    unfold EndsInDot
    rw [hb]
    simp only [List.getLast?_append, List.getLast?_singleton, Option.some_or, Option.some.injEq]
    omega
  rw [hw] at h1
  rw [show x ++ [b] ++ 32 :: t = x ++ [b] ++ [32] ++ t by simp] at h
  unfold scan at h h1 h2
  rw [if_neg (by simp)] at h h1
  split at h2
  · cases h2
  have hn : NoSign (x ++ [b] ++ [32]) := by
    intro y c z e hz
    rcases List.eq_nil_or_concat z with rfl | ⟨z, d, rfl⟩
    · have := List.append_inj_right' e rfl
      simp only [List.cons.injEq, and_true] at this
      subst this; decide
    · rw [show y ++ c :: (z.concat d) = (y ++ c :: z) ++ [d] by simp] at e
      have e' := List.append_inj_left' e rfl
      rcases List.eq_nil_or_concat z with rfl | ⟨z, f, rfl⟩
      · have := List.append_inj_right' e' rfl
        simp only [List.cons.injEq, and_true] at this
        subst this
        exact ⟨hsg.1, hsg.2.1⟩
      · rw [show y ++ c :: (z.concat f) = (y ++ c :: z) ++ [f] by simp] at e'
        have := List.append_inj_right' e' rfl
        simp only [List.cons.injEq, and_true] at this
        subst this
        rw [hz b (by simp)] at hsp
        cases hsp
  obtain ⟨l2', k, cap, nf, e, q1, q2⟩ := scanLoop_cat _ _ _ _ _ _ _ _ _ (Or.inr ⟨x ++ [b], 32, rfl, rfl⟩) hn (Nat.lt_succ_self _) (Nat.lt_succ_self _) h h1
  rw [e, scanLoop_room _ _ _ _ _ _ _ _ _ q1 (Nat.lt_succ_self _) q2 h2]

theorem carry_debug {t : TmF} (h : -2147483648000000 < t.2 ∧ t.2 < 2147483648000000) : Post (carryFsec .debug)
    (fun _ t' => t'.1.year = t.1.year ∧ t'.1.mon = t.1.mon ∧ t'.1.mday = t.1.mday ∧ t'.1.hour = t.1.hour ∧ t'.1.min = t.1.min ∧
      t'.1.sec * 1000000 + t'.2 = t.1.sec * 1000000 + t.2) t := by
  unfold carryFsec
  wp
  intro _
  unfold addSec
  wp
  intro a ha
  have := chk32_exact ha
  have hd := tdiv_or t.2 1000000
  have hw : wrap32 (tdiv t.2 1000000) = tdiv t.2 1000000 := wrap32_of_in (by omega)
  rw [hw] at this
  omega

/-- The value of the fields. -/
def TmF.value (t : TmF) : Interval := ⟨t.1.year * 12 + t.1.mon, t.1.mday, ((t.1.hour * 60 + t.1.min) * 60 + t.1.sec) * 1000000 + t.2⟩

theorem fromPgtime_debug {tm : PgTime} {f : Int} {v : Interval} (h : Interval.fromPgtime .debug tm f = .ok v) : v = TmF.value (tm, f) ∧ In32 v.month := by
  unfold Interval.fromPgtime at h
  simp only at h
  split at h
  · cases h
  · rename_i hm
    obtain ⟨a, h1, h⟩ := Res.bind_eq_ok.1 h
    obtain ⟨b, h2, h⟩ := Res.bind_eq_ok.1 h
    obtain ⟨c, h3, h⟩ := Res.bind_eq_ok.1 h
    obtain ⟨d, h4, h⟩ := Res.bind_eq_ok.1 h
    obtain ⟨e, h5, h⟩ := Res.bind_eq_ok.1 h
    obtain ⟨g, h6, h⟩ := Res.bind_eq_ok.1 h
    have h1 := chk32_exact h1
    have h2 := chk32_exact h2
    have h3 := chk64_exact h3
    have h4 := chk64_exact h4
    have h5 := chk64_exact h5
    have h6 := chk64_exact h6
    cases h
    refine ⟨?_, ?_⟩
    · unfold TmF.value
      rw [h6, h5, h4, h3, h2, h1]
    · unfold In32
      dsimp only
      omega

theorem ofDec_debug {d : IvS} {v : Interval} (h : Interval.ofDec .debug d (-1) = .ok v) : d.dType = .delta ∧ v = d.t.value ∧ In32 v.month := by
  unfold Interval.ofDec at h
  split at h
  · rename_i hd
    obtain ⟨v', hv, h⟩ := Res.bind_eq_ok.1 h
    have e : v'.adjustByTypmod .debug (-1) = .ok v' := rfl
    rw [e] at h
    cases h
    exact ⟨hd, fromPgtime_debug hv⟩
  · cases h

/-- An accepted text and what the loop of the decoder leaves. -/
theorem interval_loop {c : Caches} (hc : c.Ok) {x : Bytes} (hP : x.head? ≠ some 80) {style : IntervalStyle} (hst : style ≠ .sqlStandard) {v : Interval}
    (h : Interval.tryFromStr .debug u c x (-1) style = .ok v) : ∃ l d, scan u x = .ok l ∧
      intervalLoop .debug plainLook (parseRange (-1)) l 0 ({}, ()) = (.ok (), (d, ())) ∧ d.dType = .delta ∧ In32 v.month ∧
      (d.before = false → -2147483648000000 < d.t.2 ∧ d.t.2 < 2147483648000000 → v = d.t.value) := by
  cases hs : scan u x with
  | panic => rw [interval_noScan hc (-1) style (Or.inl ⟨hs, rfl⟩)] at h; cases h
  | err e => rw [interval_noScan hc (-1) style (Or.inr ⟨e, hs, rfl⟩)] at h; cases h
  | ok l =>
    rcases hr : St.orElse (decodeInterval .debug plainLook (parseRange (-1)) style l) (noLook (decodeIsoInterval .debug x)) ({}, ()) with ⟨r, d, w⟩
    rw [interval_run .debug u hc (-1) style hs hr] at h
    obtain ⟨w', rfl, h⟩ := Res.bind_eq_ok.1 h
    have hdec : decodeInterval .debug plainLook (parseRange (-1)) style l ({}, ()) = (.ok (), (d, ())) := by
      unfold St.orElse at hr
      rcases hd : decodeInterval .debug plainLook (parseRange (-1)) style l ({}, ()) with ⟨r, s'⟩
      rw [hd] at hr
      cases r with
      | ok a => exact hr
      | panic => cases hr
      | err e =>
        cases e with
        | invalid =>
          exfalso
          simp only at hr
          have iso : (noLook (decodeIsoInterval .debug x) : St (IvS × Unit) Unit) s' =
              (.err .invalid, ({ s'.1 with dType := .delta, t := (s'.1.t.1, 0) }, s'.2)) := by
            refine noLook_run ?_
            unfold decodeIsoInterval
            rw [St.mod_bind, if_pos (Or.inr hP)]
            rfl
          rw [iso] at hr
          cases hr
        | _ => cases hr
    unfold decodeInterval at hdec
    rw [St.bind_run] at hdec
    rcases hL : intervalLoop .debug plainLook (parseRange (-1)) l 0 ({}, ()) with ⟨r, e, w2⟩
    rw [hL] at hdec
    cases r with
    | panic => cases hdec
    | err e => cases hdec
    | ok a =>
      simp only at hdec
      have hpost : Post (noLook (do
          let s ← St.get
          if s.fMask = 0 then St.fail .invalid
          else do
            onTm (carryFsec .debug)
            onTm (sqlSign style l)
            let s ← St.get
            if s.before then onTm (negateAll .debug) else pure ()) : St (IvS × Unit) Unit)
          (fun _ d => d.1.dType = e.dType ∧ (e.before = false → -2147483648000000 < e.t.2 ∧ e.t.2 < 2147483648000000 → d.1.t.value = e.t.value))
          (e, w2) := by
        rw [Post.noLook, Post.bind, Post.get, Post.ite]
        refine ⟨fun _ => Post.fail.2 trivial, fun _ => ?_⟩
        unfold onTm
        rw [Post.bind, Post.zoom]
        refine Post.mono (Q := fun _ t' => -2147483648000000 < e.t.2 ∧ e.t.2 < 2147483648000000 → t'.value = e.t.value) ?_ fun _ t' ht => ?_
        · by_cases hb : -2147483648000000 < e.t.2 ∧ e.t.2 < 2147483648000000
          · refine (carry_debug hb).mono fun _ t' ⟨h1, h2, h3, h4, h5, h6⟩ _ => ?_
            unfold TmF.value
            simp only [Interval.mk.injEq]
            omega
          · exact Post.any fun _ _ n => absurd n hb
        · rw [Post.bind, Post.zoom]
          have hsq : sqlSign style l t' = (.ok (), t') ∨ sqlSign style l t' = (.panic, t') := by
            unfold sqlSign
            cases l with
            | nil => exact Or.inr rfl
            | cons f fs => simp only [if_neg hst]; exact Or.inl rfl
          intro a t'' et
          rcases hsq with hq | hq
          · rw [hq] at et
            cases et
            rw [Post.bind, Post.get, Post.ite]
            refine ⟨fun hb => ?_, fun hb => ?_⟩
            · rw [Post.zoom]
              exact Post.any fun _ _ => ⟨rfl, fun n => by dsimp only at hb; rw [n] at hb; cases hb⟩
            · exact Post.pure.2 ⟨rfl, fun _ h => ht h⟩
          · rw [hq] at et; cases et
      obtain ⟨hd, hv⟩ := hpost _ _ hdec
      obtain ⟨h1, h2, h2'⟩ := ofDec_debug h
      exact ⟨l, e, rfl, by rw [hL], hd ▸ h1, h2', fun h3 h4 => h2.trans (hv h3 h4)⟩

theorem ago_word {s : Bytes} {f : Field} (hf : WordAt s f) (h1 : f.1 = .string ∨ f.1 = .special)
    (h2 : (tokenResult (lookupIn deltaTable f.2)).1 = .ago) : Says [b!"ago"] s := by
  cases he : lookupIn deltaTable f.2 with
  | none => rw [he] at h2; cases h2
  | some e =>
    rw [he] at h2
    obtain ⟨m1, m2⟩ := (lookupIn_some deltaTable_sorted _ _).1 he
    have tab : ∀ e ∈ deltaTable, e.ty = .ago → e.token = b!"ago" := by decide +kernel
    have ht := tab e m1 h2
    rw [m2] at ht
    rcases hf h1 with (h | h) | ⟨w, h | h | h⟩
    · rw [h] at ht; cases ht
    · rw [h] at ht; cases ht
    · refine ⟨w, h.1, b!"ago", by simp, ?_⟩
      unfold SameButCase
      rw [h.2, lower_eq_small] at ht
      rw [List.map_take, ht]
      decide
    · rw [h] at ht; cases ht
    · rw [h.2] at ht; cases ht

/-- The last word of a text. -/
theorem endsIn_letter {s : Bytes} {b : Nat} (hb : s.getLast? = some b) (ha : isAlpha b = true) : ∃ w, EndsIn w s ∧ Letters w ∧ w ≠ [] := by
  refine ⟨(s.reverse.takeWhile isAlpha).reverse, ⟨(s.reverse.dropWhile isAlpha).reverse, ?_, ?_⟩, ?_, ?_⟩
  · rw [← List.reverse_append, List.takeWhile_append_dropWhile, List.reverse_reverse]
  · intro l hl
    rw [List.getLast?_reverse] at hl
    have := List.head?_dropWhile_not isAlpha s.reverse
    rw [hl] at this
    simpa using this
  · intro c hc
    exact (all_take isAlpha _) c (List.mem_reverse.1 hc)
  · rw [← List.head?_reverse] at hb
    cases hr : s.reverse with
    | nil => rw [hr] at hb; cases hb
    | cons c r =>
      rw [hr] at hb
      simp only [List.head?_cons, Option.some.injEq] at hb
      rw [List.takeWhile_cons_of_pos (by rw [hb]; exact ha)]
      simp

theorem loop_small {l : List Field} {range : Nat} {d : IvS} (h25 : l.length ≤ 25) (hs : ∀ f ∈ l, Short 6 f.2)
    (h : intervalLoop .debug plainLook range l 0 ({}, ()) = (.ok (), (d, ()))) : (-2147483648000000 < d.t.2 ∧ d.t.2 < 2147483648000000) ∧
      In32 d.t.value.day ∧ In64 d.t.value.time := by
  have h0 : Before 0 ({} : IvS) := ⟨by constructor <;> decide, by constructor <;> decide⟩
  have g := loop_goes (p := .debug) range l 0 ({}, ()) h0 h25 hs
  unfold Goes at g
  rw [h] at g
  obtain ⟨-, h1, h2, h3, h4, h5, h6⟩ := (show Before l.length d from g).failed (by omega)
  unfold TmF.value In32 In64
  dsimp only
  omega

end Pg
