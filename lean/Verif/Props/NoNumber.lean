import Verif.Lemmas.Wordy
import Verif.Lemmas.Clocks
import Verif.Lemmas.RangeRun
import Verif.Props.Vocabulary
import Verif.Lemmas.ParseRun
import Verif.Props.Special

/-!
# Property C122: an interval text needs a number

`c` is the state of the thread's keyword caches, `u` the uninitialised type of a lone sign.
-/

namespace Pg
open Spec

/-- A date field starts with a digit or a letter. -/
def DateHead (f : Field) : Prop := f.1 = .date → ∃ b r, f.2 = b :: r ∧ (isDigit b = true ∨ isAlpha b = true)

theorem scanField_dateHead {u : TokenField} {c : Nat} {r : Bytes} {f : Field} {rest : Bytes} (hu : u ≠ .date)
    (h : scanField u c (c :: r) = .ok (f, rest)) : DateHead f := by
  intro ht
  unfold scanField at h
  split at h
  · rename_i hd
    simp only [Res.ok.injEq] at h
    have e : f = (scanDigit (c :: r)).1 := by rw [h]
    have : ∃ t, (scanDigit (c :: r)).1.2 = c :: t := by
      unfold scanDigit
      dsimp only
      rw [List.takeWhile_cons_of_pos hd]
      split
      · exact ⟨_, rfl⟩
      · split
        · exact ⟨_, rfl⟩
        · split <;> exact ⟨_, rfl⟩
    obtain ⟨t, ht⟩ := this
    exact ⟨c, t, by rw [e, ht], Or.inl hd⟩
  · split at h
    · simp only [Res.ok.injEq] at h
      have e : f = (scanDot (c :: r)).1 := by rw [h]
      rw [e] at ht
      simp [scanDot] at ht
    · split at h
      · rename_i ha
        unfold scanAlpha at h
        simp only [Res.bind_eq_ok] at h
        obtain ⟨b, -, h⟩ := h
        split at h
        · cases h
          refine ⟨_, _, by rw [List.takeWhile_cons_of_pos ha]; rfl, Or.inr ?_⟩
          exact lowerB_alpha ha
        · cases h; cases ht
      · exfalso
        unfold scanSign at h
        dsimp only at h
        split at h
        · cases h
          exact hu ht
        · split at h
          · cases h; cases ht
          · split at h
            · cases h; cases ht
            · cases h

theorem scanLoop_dateHead {u : TokenField} (hu : u ≠ .date) (n : Nat) (s : Bytes) (cap nf : Nat) (l : List Field)
    (h : scanLoop u n s cap nf = .ok l) : ∀ f ∈ l, DateHead f := by
  induction n generalizing s cap nf l with
  | zero => cases h; simp
  | succ n ih =>
    unfold scanLoop at h
    split at h
    · cases h; simp
    · split at h
      · cases h
      · split at h
        · split at h
          · cases h
          · simp only [Res.bind_eq_ok] at h
            obtain ⟨⟨f, rest⟩, hf, h⟩ := h
            dsimp only at h
            split at h
            · cases h
            · simp only [Res.bind_eq_ok] at h
              obtain ⟨l', hl, h⟩ := h
              cases h
              intro g hg
              rcases List.mem_cons.1 hg with rfl | hg
              · exact scanField_dateHead hu hf
              · exact ih _ _ _ _ hl g hg
        · split at h
          · exact ih _ _ _ _ h
          · cases h

theorem scanField_other {u v : TokenField} {c : Nat} {s : Bytes} {f : Field} {rest : Bytes} (h : scanField u c s = .ok (f, rest)) :
    ∃ f', scanField v c s = .ok (f', rest) ∧ f'.2 = f.2 ∧ (f' = f ∨ f'.1 = v) := by
  unfold scanField at h ⊢
  split at h
  · rename_i h1; rw [if_pos h1]; exact ⟨f, h, rfl, Or.inl rfl⟩
  · rename_i h1
    rw [if_neg h1]
    split at h
    · rename_i h2; rw [if_pos h2]; exact ⟨f, h, rfl, Or.inl rfl⟩
    · rename_i h2
      rw [if_neg h2]
      split at h
      · rename_i h3; rw [if_pos h3]; exact ⟨f, h, rfl, Or.inl rfl⟩
      · rename_i h3
        rw [if_neg h3]
        unfold scanSign at h ⊢
        cases s with
        | nil => cases h
        | cons x r =>
          dsimp only at h ⊢
          cases hr : r.dropWhile isSpace with
          | nil => rw [hr] at h; cases h; exact ⟨_, rfl, rfl, Or.inr rfl⟩
          | cons y t => rw [hr] at h; exact ⟨f, h, rfl, Or.inl rfl⟩

theorem scanLoop_other {u v : TokenField} (n : Nat) (s : Bytes) (cap nf : Nat) (l : List Field)
    (h : scanLoop u n s cap nf = .ok l) : ∃ l', scanLoop v n s cap nf = .ok l' ∧ ((∀ f ∈ l', f.1 ≠ v) → l' = l) := by
  induction n generalizing s cap nf l with
  | zero => cases h; exact ⟨[], rfl, fun _ => rfl⟩
  | succ n ih =>
    unfold scanLoop at h ⊢
    split at h
    · cases h; exact ⟨[], rfl, fun _ => rfl⟩
    · rename_i c r _
      split at h
      · cases h
      · rename_i h1
        split at h
        · rename_i h2
          split at h
          · cases h
          · rename_i h3
            simp only [Res.bind_eq_ok] at h
            obtain ⟨⟨f, rest⟩, hf, h⟩ := h
            dsimp only at h
            split at h
            · cases h
            · rename_i h4
              simp only [Res.bind_eq_ok] at h
              obtain ⟨l1, hl, h⟩ := h
              cases h
              obtain ⟨f', e1, e2, e3⟩ := scanField_other (v := v) hf
              obtain ⟨l', e4, e5⟩ := ih _ _ _ _ hl
              refine ⟨f' :: l', ?_, fun hv => ?_⟩
              · simp only [if_neg h1, if_pos h2, if_neg h3, e1, Res.bind_ok]
                rw [e2, if_neg h4, e4]
                rfl
              · rw [e5 fun g hg => hv g (by simp [hg])]
                rcases e3 with rfl | e3
                · rfl
                · exact absurd e3 (hv f' (by simp))
        · rename_i h2
          split at h
          · rename_i h3
            obtain ⟨l', e4, e5⟩ := ih _ _ _ _ h
            exact ⟨l', by simp only [if_neg h1, if_neg h2, if_pos h3, e4], e5⟩
          · cases h

/-- The fields of a text without digits: words, and dates that start with a letter. -/
def Lettered (f : Field) : Prop := f.1 = .string ∨ f.1 = .special ∨ (f.1 = .date ∧ ∃ b r, f.2 = b :: r ∧ isAlpha b = true)

theorem scan_lettered {u : TokenField} {s : Bytes} {l : List Field} (h : scan u s = .ok l) (hd : ∀ b ∈ s, ¬ Digit b ∧ b ≠ 46)
    (hn : NoLastSign s) : ∀ f ∈ l, Lettered f := by
  obtain ⟨l', h', e⟩ : ∃ l', scan .time s = .ok l' ∧ ((∀ f ∈ l', f.1 ≠ .time) → l' = l) := by
    unfold scan at h ⊢
    split at h
    · cases h
    · rename_i h1
      rw [if_neg h1]
      exact scanLoop_other _ _ _ _ _ h
  have k := scan_bareKind h' hd hn
  obtain rfl := e fun f hf => by
    rcases k f hf with h | h | ⟨h, -⟩ <;> rw [h] <;> decide
  have hh : ∀ f ∈ l', DateHead f := by
    unfold scan at h'
    split at h'
    · cases h'
    · exact scanLoop_dateHead (by decide) _ _ _ _ _ h'
  intro f hf
  rcases k f hf with h | h | ⟨h, -, h2⟩
  · exact Or.inl h
  · exact Or.inr (Or.inl h)
  · obtain ⟨b, r, e, hb⟩ := hh f hf h
    refine Or.inr (Or.inr ⟨h, b, r, e, hb.resolve_left ?_⟩)
    rw [h2 b (by rw [e]; simp)]
    decide

theorem letters_noNumber {p : Profile} {b : Nat} {r : Bytes} (hb : isAlpha b = true) : numberParts p (b :: r) = .err .invalid := by
  have h1 : isSpace b = false := by
    revert hb; unfold isAlpha isSpace isUpper isLower; simp; omega
  have h2 : isDigit b = false := by
    rw [Bool.eq_false_iff]; intro h; rw [digit_notAlpha h] at hb; cases hb
  have h3 : b ≠ 43 ∧ b ≠ 45 ∧ b ≠ 46 := ⟨(by rintro rfl; cases hb), (by rintro rfl; cases hb), (by rintro rfl; cases hb)⟩
  have e : extractSign (b :: r) = (1, b :: r) := by
    unfold extractSign
    split
    · rename_i h; cases h; exact absurd rfl h3.1
    · rename_i h; cases h; exact absurd rfl h3.2.1
    · rfl
  have : str2i32 (b :: r) = .ok (0, b :: r) := by
    unfold str2i32
    rw [List.dropWhile_cons_of_neg (by rw [h1]; decide)]
    simp only [List.isEmpty_cons, Bool.false_eq_true, if_false, e]
    rw [List.dropWhile_cons_of_neg (by rw [h2]; decide), List.takeWhile_cons_of_neg (by rw [h2]; decide)]
    rfl
  unfold numberParts
  rw [this, Res.bind_ok]
  simp only [if_neg h3.2.1, if_neg h3.2.2]

/-- Nothing was read but words. -/
def Unread (s : IvS) : Prop := s.t = ({}, 0)

/-- After words: no quantity was read, or a word that is no interval. -/
def NoQuantity (s : IvS) : Prop := s.fMask = 0 ∨ s.dType ≠ .delta

variable {p : Profile}

theorem word_unread {ty : TokenType} {v : Int} : Stays Unread (intervalWord ty v) := by
  unfold intervalWord
  refine .modBind (fun _ h => h) ?_
  split
  · exact .mod fun _ h => h
  · exact .mod fun _ h => h
  · exact .modBind (fun _ h => h) (.liftBind fun _ _ => .mod fun _ h => h)
  · exact .fail

theorem mask_unread : Stays Unread addMaskI := by
  unfold addMaskI
  exact Stays.get.bind fun _ => .ite (fun _ => .fail) fun _ => .mod fun _ h => h

theorem delta_unread {i : Nat} {w : Bytes} : Stays (fun s : IvS × Unit => Unread s.1) (lookDelta plainLook i w) := fun _ h => h

theorem field_unread {range i : Nat} {f : Field} (hf : Lettered f) : Stays (fun s : IvS × Unit => Unread s.1) (intervalField p plainLook range i f) := by
  have word : Stays (fun s : IvS × Unit => Unread s.1) (lookDelta plainLook i f.2 >>= fun x => if x.1 = .ignoreDtf then pure ()
      else noLook do intervalWord x.1 x.2; addMaskI) :=
    delta_unread.bind fun _ => .ite (fun _ => .pure) fun _ => .noLook (word_unread.bind fun _ => mask_unread)
  unfold intervalField
  rcases hf with h | h | ⟨h, b, r, e, hb⟩
  · rw [h]; exact word
  · rw [h]; exact word
  · rw [h, e]
    refine .noLook (Stays.bind ?_ fun _ => mask_unread)
    unfold intervalNumber
    rw [letters_noNumber hb]
    refine .modBind (fun s h => ?_) (.liftBind fun _ h => by cases h)
    split <;> exact h

theorem field_noQuantity {range i : Nat} {f : Field} (hf : Lettered f) (s : IvS × Unit) (hs : NoQuantity s.1) :
    Post (intervalField p plainLook range i f) (fun _ s' => NoQuantity s'.1) s := by
  have word : Post (lookDelta plainLook i f.2 >>= fun x => if x.1 = .ignoreDtf then pure ()
      else noLook do intervalWord x.1 x.2; addMaskI) (fun _ s' => NoQuantity s'.1) s := by
    rw [Post.bind, Post.lookDelta]
    wp
    refine ⟨fun _ => hs, fun _ => ?_⟩
    have res : (tokenResult (lookupIn deltaTable f.2)).1 = .reserv → (tokenResult (lookupIn deltaTable f.2)).2 = 7 := by
      cases he : lookupIn deltaTable f.2 with
      | none => intro h; cases h
      | some e =>
        have hm := List.mem_of_find?_eq_some he
        exact (by decide +kernel : ∀ e ∈ deltaTable, (tokenResult (some e)).1 = .reserv → (tokenResult (some e)).2 = 7) e hm
    suffices Post (intervalWord (tokenResult (lookupIn deltaTable f.2)).1 (tokenResult (lookupIn deltaTable f.2)).2)
        (fun _ s' => NoQuantity s' ∧ (s'.tMask = 0 ∨ s'.dType ≠ .delta)) s.1 by
      refine this.mono fun _ s' h => ?_
      unfold addMaskI
      wp
      intro _
      unfold NoQuantity at h ⊢
      dsimp only
      rcases h with ⟨h1 | h1, h2 | h2⟩
      · rw [h1, h2]; exact Or.inl rfl
      · exact Or.inr h2
      · exact Or.inr h1
      · exact Or.inr h1
    generalize tokenResult (lookupIn deltaTable f.2) = x at res
    obtain ⟨ty, v⟩ := x
    dsimp only at res ⊢
    unfold intervalWord
    wp
    split
    · wp; exact ⟨hs, Or.inl trivial⟩
    · wp; exact ⟨hs, Or.inl trivial⟩
    · wp
      rw [res rfl]
      intro a ha
      cases ha
      exact ⟨Or.inr (fun h => by cases h), Or.inr (fun h => by cases h)⟩
    · wp
  unfold intervalField
  rcases hf with h | h | ⟨h, b, r, e, hb⟩
  · rw [h]; exact word
  · rw [h]; exact word
  · rw [h, e]
    dsimp only
    unfold intervalNumber
    rw [letters_noNumber hb]
    wp
    intro _ h
    cases h

theorem loop_words {range : Nat} {l : List Field} (hl : ∀ f ∈ l, Lettered f) (i : Nat) :
    Stays (fun s : IvS × Unit => Unread s.1) (intervalLoop p plainLook range l i) ∧
    ∀ s : IvS × Unit, NoQuantity s.1 → Post (intervalLoop p plainLook range l i) (fun _ s' => NoQuantity s'.1) s := by
  induction l generalizing i with
  | nil => exact ⟨.pure, fun s hs => by rw [intervalLoop, Post.pure]; exact hs⟩
  | cons f l ih =>
    obtain ⟨h1, h2⟩ := ih (fun g hg => hl g (by simp [hg])) (i + 1)
    have hf := hl f (by simp)
    rw [intervalLoop]
    refine ⟨h1.bind fun _ => field_unread hf, fun s hs => ?_⟩
    rw [Post.bind]
    exact (h2 s hs).mono fun _ s' hs' => field_noQuantity hf s' hs'

theorem orElse_invalid {σ α : Type} {m h : St σ α} {s s' : σ} (hm : m s = (.err .invalid, s')) : St.orElse m h s = h s' := by
  unfold St.orElse
  rw [hm]

theorem orElse_other {σ α : Type} {m h : St σ α} {s s' : σ} {r : Res α} (hm : m s = (r, s')) (hr : r ≠ .err .invalid) :
    St.orElse m h s = (r, s') := by
  unfold St.orElse
  rw [hm]
  split
  · rename_i e; cases e; exact absurd rfl hr
  · rfl

theorem adjustRange_zero {range : Nat} {a : Interval} (h : Interval.adjustRange ⟨0, 0, 0⟩ range = .ok a) : a = ⟨0, 0, 0⟩ := by
  have pick : ∀ {c : Prop} [Decidable c] {x y : Res Interval}, x = .ok ⟨0, 0, 0⟩ → (y = .ok a → a = ⟨0, 0, 0⟩) →
      (if c then x else y) = .ok a → a = ⟨0, 0, 0⟩ := by
    intro c _ x y hx hy h
    by_cases hc : c
    · rw [if_pos hc, hx] at h; exact (Res.ok.inj h).symm
    · rw [if_neg hc] at h; exact hy h
  revert h
  unfold Interval.adjustRange
  repeat refine pick rfl ?_
  intro h
  cases h

theorem ofDec_zero {d : IvS} {typmod : Int} {v : Interval} (hd : Unread d) (h : Interval.ofDec p d typmod = .ok v) : v = ⟨0, 0, 0⟩ := by
  unfold Interval.ofDec at h
  split at h
  swap
  · cases h
  rw [show d.t = ({}, 0) from hd] at h
  have z : Interval.fromPgtime p {} 0 = .ok ⟨0, 0, 0⟩ := by cases p <;> rfl
  dsimp only at h
  rw [z, Res.bind_ok] at h
  unfold Interval.adjustByTypmod at h
  split at h
  · simp only [Res.bind_eq_ok] at h
    obtain ⟨a, ha, h⟩ := h
    obtain rfl := adjustRange_zero ha
    split at h
    · split at h
      · cases h
      · rename_i hp
        simp only [Res.bind_eq_ok] at h
        obtain ⟨b, hb, h⟩ := h
        cases h
        have : b = 0 := by
          revert hb
          generalize Interval.intervalPrecision typmod = q at hp
          have : q = 0 ∨ q = 1 ∨ q = 2 ∨ q = 3 ∨ q = 4 ∨ q = 5 ∨ q = 6 := by omega
          intro hb
          rcases this with rfl | rfl | rfl | rfl | rfl | rfl | rfl <;> cases p <;> exact (Res.ok.inj hb).symm
        rw [this]
    · exact (Res.ok.inj h).symm
  · exact (Res.ok.inj h).symm

theorem tm_unread {m : St TmF Unit} (h : (m ({}, 0)).2 = ({}, 0)) : Stays Unread (onTm m) := fun s hs => by
  show (m s.t).2 = ({}, 0)
  rw [show s.t = ({}, 0) from hs, h]

theorem tm_type {m : St TmF Unit} {Q : IvS → Prop} (hQ : ∀ s t, Q s → Q { s with t := t }) {s : IvS} (hs : Q s) : Post (onTm m) (fun _ s' => Q s') s := by
  unfold onTm
  rw [Post.zoom]
  exact fun _ _ _ => hQ _ _ hs

theorem finish_unread {style : IntervalStyle} {l : List Field} : Stays Unread (do
    let s ← St.get
    if s.fMask = 0 then St.fail .invalid
    else do
      onTm (carryFsec p)
      onTm (sqlSign style l)
      let s ← St.get
      if s.before then onTm (negateAll p) else pure () : St IvS Unit) := by
  refine Stays.get.bind fun _ => .ite (fun _ => .fail) fun _ =>
    (tm_unread ?_).bind fun _ => (tm_unread ?_).bind fun _ => Stays.get.bind fun _ => .ite (fun _ => tm_unread ?_) fun _ => .pure
  · cases p <;> rfl
  · unfold sqlSign
    split
    · rfl
    · rename_i f fs
      split
      · generalize f.2 = w
        cases w with
        | nil => rfl
        | cons c w => dsimp only; split <;> rfl
      · rfl
  · cases p <;> rfl

theorem decode_words {range : Nat} {style : IntervalStyle} {l : List Field} (hl : ∀ f ∈ l, Lettered f) :
    Post (decodeInterval p plainLook range style l) (fun _ s' => s'.1.dType ≠ .delta) ({}, ()) ∧
    Stays (fun s : IvS × Unit => Unread s.1) (decodeInterval p plainLook range style l) := by
  obtain ⟨h1, h2⟩ := loop_words (p := p) (range := range) hl 0
  unfold decodeInterval
  refine ⟨?_, h1.bind fun _ => .noLook finish_unread⟩
  rw [Post.bind]
  refine (h2 _ (Or.inl rfl)).mono fun _ s hs => ?_
  wp
  intro hm
  have hq := hs.resolve_left hm
  refine (tm_type (Q := fun s => s.dType ≠ .delta) (fun _ _ h => h) hq).mono fun _ s' h => ?_
  refine (tm_type (Q := fun s => s.dType ≠ .delta) (fun _ _ h => h) h).mono fun _ s' h => ?_
  refine ⟨fun _ => tm_type (Q := fun s => s.dType ≠ .delta) (fun _ _ h => h) h, fun _ => h⟩

theorem iso_words {s : Bytes} (hd : ∀ b ∈ s, ¬ Digit b ∧ b ≠ 46) (fuel : Nat) (hf : s.length < fuel) (t : IsoS) :
    Post (isoLoop p fuel s) (fun _ t' => t'.t = t.t ∧ ∀ b ∈ s, b = 84) t := by
  induction fuel generalizing s t with
  | zero => omega
  | succ n ih =>
    unfold isoLoop
    cases s with
    | nil => dsimp only; rw [Post.pure]; exact ⟨rfl, by simp⟩
    | cons c r =>
      dsimp only
      rw [Post.ite]
      refine ⟨fun hc => ?_, fun hc => ?_⟩
      · unfold isoTimePart
        wp
        refine (ih (fun b hb => hd b (by simp [hb])) (by simp at hf; omega) _).mono fun _ t' h => ⟨h.1, fun b hb => ?_⟩
        rcases List.mem_cons.1 hb with rfl | hb
        · exact hc
        · exact h.2 b hb
      · wp
        intro a ha
        exfalso
        have h1 : isDigit c = false := by
          rw [Bool.eq_false_iff, ne_eq, isDigit_iff]; exact (hd c (by simp)).1
        have h2 := (hd c (by simp)).2
        unfold parseIsoNumber at ha
        simp only [h1] at ha
        split at ha
        · cases ha
        · rename_i h3
          have : c = 99 := by simpa [h2] using h3
          subst this
          have e : str2d (99 :: r) = .ok (.fin 0, 99 :: r) := by
            unfold str2d
            rw [List.dropWhile_cons_of_neg (by decide)]
            rfl
          rw [e, Res.bind_ok] at ha
          simp at ha

end Pg

namespace Props
open Pg Spec

/-- **C122, partial.** A text without a digit and a full stop, whose last word does not end in a sign, is no interval, unless it is `P`
followed by nothing but one or more `T`; then it is the interval of length zero. -/
theorem C122_noNumber_partial (p : Profile) (u : TokenField) (c : Caches) (hc : c.Ok) (typmod : Int) (style : IntervalStyle) (s : Bytes)
    (h1 : ∀ b ∈ s, ¬ Digit b ∧ b ≠ 46) (h2 : NoLastSign s) (v : Interval) (h : Interval.tryFromStr p u c s typmod style = .ok v) :
    v = ⟨0, 0, 0⟩ ∧ ∃ n, s = 80 :: List.replicate (n + 1) 84 := by
  unfold Interval.tryFromStr at h
  rw [(same_interval p u typmod style s c hc).1] at h
  unfold Interval.tryFromStrW at h
  obtain ⟨l, hl⟩ : ∃ l, scan u s = .ok l := by
    cases hs : scan u s with
    | ok l => exact ⟨l, rfl⟩
    | err e => rw [hs] at h; cases h
    | panic => rw [hs] at h; cases h
  obtain ⟨k1, k2⟩ := decode_words (p := p) (range := parseRange typmod) (style := style) (scan_lettered hl h1 h2)
  have e := interval_run p u hc typmod style hl (r := _) (d := _) (w := ()) rfl
  unfold Interval.tryFromStr at e
  rw [(same_interval p u typmod style s c hc).1] at e
  unfold Interval.tryFromStrW at e
  rw [e] at h
  clear e
  have k3 := k2 ({}, ()) rfl
  rcases hm : decodeInterval p plainLook (parseRange typmod) style l ({}, ()) with ⟨r, d, w⟩
  rw [hm] at k3
  have h : ((St.orElse (decodeInterval p plainLook (parseRange typmod) style l) (noLook (decodeIsoInterval p s)) ({}, ())).1 >>= fun _ =>
      Interval.ofDec p (St.orElse (decodeInterval p plainLook (parseRange typmod) style l) (noLook (decodeIsoInterval p s)) ({}, ())).2.1 typmod) = .ok v := h
  have first : r = .err .invalid := by
    by_contra hr
    rw [orElse_other hm hr] at h
    rcases r with a | e | _
    · have := k1 _ _ hm
      dsimp only at h this
      rw [Res.bind_ok] at h
      unfold Interval.ofDec at h
      rw [if_neg this] at h
      cases h
    · cases h
    · cases h
  subst first
  rw [orElse_invalid hm] at h
  rcases hi : (noLook (decodeIsoInterval p s) : St (IvS × Unit) Unit) (d, w) with ⟨r', d', w'⟩
  rw [hi] at h
  have iso : Post (noLook (decodeIsoInterval p s) : St (IvS × Unit) Unit) (fun _ s' => Unread s'.1 ∧ s'.1.dType = .delta ∧
      ∃ n, s = 80 :: List.replicate (n + 1) 84) (d, w) := by
    unfold decodeIsoInterval
    wp
    intro hs
    rw [Post.zoom]
    rcases s with _ | ⟨x, t⟩
    · exact absurd (Or.inl (by decide)) hs
    · have hx : x = 80 := by
        by_contra hx
        exact hs (Or.inr fun h => hx (Option.some.inj h))
      subst hx
      refine (iso_words (fun b hb => h1 b (List.mem_cons_of_mem _ hb)) _ (by simp; omega) _).mono fun _ t' ht => ⟨?_, rfl, ?_⟩
      · show t'.t = _
        rw [ht.1]
        show (d.t.1, 0) = _
        rw [show d.t = ({}, 0) from k3]
      · refine ⟨t.length - 1, ?_⟩
        have : t.length - 1 + 1 = t.length := by
          have : ¬ (80 :: t).length < 2 := fun h => hs (Or.inl h)
          simp at this
          omega
        rw [this]
        exact congrArg _ (List.eq_replicate_of_mem ht.2)
  cases r' with
  | err => cases h
  | panic => cases h
  | ok a =>
    obtain ⟨e1, e2, e3⟩ := iso _ _ hi
    refine ⟨?_, e3⟩
    exact ofDec_zero e1 h

/-- **C122, violated.** Some texts without a digit are intervals of length zero: `PT`, a full stop as a number, and a lone sign at the end of a
text if its uninitialised type happens to be that of a number. -/
theorem C122_violated (p : Profile) (u : TokenField) (c : Caches) (hc : c.Ok) (style : IntervalStyle) :
    Interval.tryFromStr p u c b!"PT" (-1) style = .ok ⟨0, 0, 0⟩ ∧ Interval.tryFromStr p u c b!". day" (-1) style = .ok ⟨0, 0, 0⟩ ∧
    Interval.tryFromStr p u c b!"P.D" (-1) style = .ok ⟨0, 0, 0⟩ ∧
    Interval.tryFromStr p .number c b!"-" (-1) style = .ok ⟨0, 0, 0⟩ := by
  refine ⟨interval_eval p u hc (-1) style (l := [(.string, b!"pt")]) ?_ ?_, interval_eval p u hc (-1) style (l := [(.number, b!"."), (.string, b!"day")]) ?_ ?_,
    interval_eval p u hc (-1) style (l := [(.date, b!"p.D")]) ?_ ?_, interval_eval p .number hc (-1) style (l := [(.number, b!"-")]) ?_ ?_⟩
  · cases u <;> decide +kernel
  · cases p <;> cases style <;> decide +kernel
  · cases u <;> decide +kernel
  · cases p <;> cases style <;> decide +kernel
  · cases u <;> decide +kernel
  · cases p <;> cases style <;> decide +kernel
  · decide +kernel
  · cases p <;> cases style <;> decide +kernel

/-! ## Cases -/

/-- A text that meets the hypotheses and is accepted: several `T`. -/
example : (∀ b ∈ b!"PTT", ¬ Digit b ∧ b ≠ 46) ∧ NoLastSign b!"PTT" ∧
    ∀ p, Interval.tryFromStr p .number Caches.new b!"PTT" 458751 .postgres = .ok ⟨0, 0, 0⟩ := by
  refine ⟨by unfold Digit; decide, ?_, fun p => by cases p <;> decide +kernel⟩
  intro w hw
  have : words b!"PTT" = [b!"PTT"] := by decide
  rw [this] at hw
  cases hw
  unfold EndsInSign
  decide

/-- A text that meets the hypotheses and is refused, though all its words are words of intervals. -/
example : (∀ b ∈ b!"@ days -hours ago", ¬ Digit b ∧ b ≠ 46) ∧ NoLastSign b!"@ days -hours ago" ∧
    ∀ p, Interval.tryFromStr p .number Caches.new b!"@ days -hours ago" (-1) .postgres = .err .invalid := by
  refine ⟨by unfold Digit; decide, ?_, fun p => by cases p <;> decide +kernel⟩
  intro w hw
  have : words b!"@ days -hours ago" = [b!"@", b!"days", b!"-hours", b!"ago"] := by decide
  rw [this] at hw
  cases hw
  unfold EndsInSign
  decide

end Props
