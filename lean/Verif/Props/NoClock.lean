import Verif.Lemmas.Wordy
import Verif.Lemmas.DebugSafe
import Verif.Props.Special
import Verif.Props.Replace

/-!
# Property C121: a text without a clock time is no time of day

`c` is the state of the thread's keyword caches, `u` the uninitialised type of a lone sign.
-/

namespace Pg
open Spec

/-- Midnight, with or without an afternoon mark that stands in the text. -/
structure Blank (t : Bytes) (d : Dec) : Prop where
  hour : d.tm.hour = 0
  min : d.tm.min = 0
  sec : d.tm.sec = 0
  fSec : d.fSec = 0
  day : d.fMask.testBit 3 = false
  mer : d.mer = 1 → Says [b!"pm"] t

theorem afternoon_word {s : Bytes} {f : Field} (h : Entry f .ampm 1) (hf : WordAt s f) : Says [b!"pm"] s := by
  obtain ⟨e, he, h1, h2, h3, w, h4⟩ := entry_word h hf
  have tab : ∀ e ∈ dateTable, e.ty = .ampm → e.value = 1 → e.token = b!"pm" := by decide +kernel
  have ht := tab e he h1 h2
  have := take_short h3 (by rw [ht]; decide)
  rw [ht] at this
  rcases h4 with ⟨h4, h5⟩ | ⟨h4, h5⟩
  · refine ⟨w, h4, b!"pm", by simp, ?_⟩
    have e : w.map smallLetter = b!"pm" := by rw [← lower_eq_small, ← h5, this]
    unfold SameButCase
    rw [List.map_take, e]
    decide
  · rw [this] at h5; cases h5

variable {p : Profile} {order : DateOrder} {t : Bytes}

/-- What a word does in a time of day. -/
theorem action_blank {ft : List TokenField} {i : Nat} {ty : TokenType} {v : Int} {d : Dec} (hd : Blank t d) (hp : ty = .ampm → v = 1 → Says [b!"pm"] t) :
    Post (wordActionT ft i ty v) (fun _ d' => Blank t d' ∧ d'.tMask.testBit 3 = false) d := by
  unfold wordActionT
  wp
  split
  · unfold reservedWordT
    wp
    intro f _
    split
    · wp
      exact ⟨⟨rfl, rfl, rfl, hd.fSec, hd.day, hd.mer⟩, by decide⟩
    · wp
  · wp
    exact ⟨⟨hd.hour, hd.min, hd.sec, hd.fSec, hd.day, fun h => hp rfl h⟩, by decide⟩
  · wp
    exact ⟨⟨hd.hour, hd.min, hd.sec, hd.fSec, hd.day, hd.mer⟩, by decide⟩
  · wp
    exact fun _ _ => ⟨⟨hd.hour, hd.min, hd.sec, hd.fSec, hd.day, hd.mer⟩, Nat.zero_testBit 3⟩
  · unfold isoTimeWordT
    wp
    split
    · wp
    · wp
      exact fun _ _ _ => ⟨⟨hd.hour, hd.min, hd.sec, hd.fSec, hd.day, hd.mer⟩, Nat.zero_testBit 3⟩
  · wp

theorem field_blank {ft : List TokenField} {i : Nat} {f : Field}
    (hf : f.1 = .string ∨ f.1 = .special ∨ (f.1 = .date ∧ f.2 ≠ [] ∧ ∀ b ∈ f.2, isDigit b = false)) (hw : WordAt t f) (s : Dec × Unit) (hs : Blank t s.1) :
    Post (timeOnlyField p plainLook order ft i f) (fun _ s' => Blank t s'.1) s := by
  have word : (f.1 = .string ∨ f.1 = .special) → Post (wordTokenT plainLook ft i f.2 >>= fun ignored =>
      if ignored then pure () else noLook addMask) (fun _ s' => Blank t s'.1) s := by
    intro hf
    unfold wordTokenT
    wp
    rw [Post.look]
    wp
    refine ⟨fun _ => ⟨fun _ => hs, fun h => absurd trivial h⟩, fun _ => ?_⟩
    refine (action_blank hs fun h1 h2 => ?_).mono fun _ d h => ⟨fun h => (by cases h), fun _ => ?_⟩
    · exact afternoon_word ⟨hf, Prod.ext h1 h2, by decide⟩ hw
    · obtain ⟨h, h2⟩ := h
      rw [addMask_post]
      exact fun _ => ⟨h.hour, h.min, h.sec, h.fSec, by show (d.fMask ||| d.tMask).testBit 3 = false; rw [Nat.testBit_or, h.day, h2]; rfl, h.mer⟩
  unfold timeOnlyField
  rcases hf with h | h | ⟨h, h1, h2⟩
  · rw [h]; exact word (Or.inl h)
  · rw [h]; exact word (Or.inr h)
  · rw [h]
    dsimp only
    rw [Post.bind]
    refine Post.mono (Q := fun _ _ => False) ?_ fun _ _ h => h.elim
    unfold dateTokenT
    wp
    exact fun _ => date_words h2 s hs.day

theorem decode_blank {l : List Field} (h1 : ∀ f ∈ l, f.1 = .string ∨ f.1 = .special ∨ (f.1 = .date ∧ f.2 ≠ [] ∧ ∀ b ∈ f.2, isDigit b = false))
    (h2 : ∀ f ∈ l, WordAt t f) : Post (decodeTimeOnly p plainLook order l) (fun _ s' => s'.1.tm.min = 0 ∧ s'.1.tm.sec = 0 ∧ s'.1.fSec = 0 ∧
      (s'.1.tm.hour = 0 ∨ (s'.1.tm.hour = 12 ∧ Says [b!"pm"] t))) ({}, ()) := by
  unfold decodeTimeOnly
  rw [Post.bind]
  refine (loopT_all (I := Blank t) (G := fun f => (f.1 = .string ∨ f.1 = .special ∨ (f.1 = .date ∧ f.2 ≠ [] ∧ ∀ b ∈ f.2, isDigit b = false)) ∧ WordAt t f)
    (fun ft i f s h hs => field_blank h.1 h.2 s hs) l _ 0 ({}, ()) (fun f hf => ⟨h1 f hf, h2 f hf⟩)
    ⟨rfl, rfl, rfl, rfl, Nat.zero_testBit 3, fun h => by cases h⟩).mono fun _ s hs => ?_
  unfold finishFields
  wp
  intro tm htm _
  obtain ⟨e1, e2, e3⟩ := validateDate_clock htm
  have k1 : tm.hour = 0 := e1.trans hs.hour
  have k2 : tm.min = 0 := e2.trans hs.min
  have k3 : tm.sec = 0 := e3.trans hs.sec
  refine ⟨fun h => ?_, fun _ => ⟨fun h x hx _ => ?_, fun _ _ => ?_⟩⟩
  · exact absurd (k1.symm.trans h.2) (by decide)
  · rw [k1, chk32_ok (by decide)] at hx
    cases hx
    exact ⟨k2, k3, hs.fSec, Or.inr ⟨rfl, hs.mer h.1⟩⟩
  · exact ⟨k2, k3, hs.fSec, Or.inl k1⟩

end Pg

namespace Props
open Pg Spec

/-- **C121, partial.** A text without a digit and a full stop, whose last word does not end in a sign, is read as midnight, as noon or not
at all; as noon only if it says `pm`. -/
theorem C121_noDigits_partial (p : Profile) (u : TokenField) (c : Caches) (hc : c.Ok) (typmod : Int) (order : DateOrder) (s : Bytes)
    (h1 : ∀ b ∈ s, ¬ Digit b ∧ b ≠ 46) (h2 : NoLastSign s) (v : Time) (h : Time.tryFromStr p u c s typmod order = .ok v) :
    v = ⟨0⟩ ∨ (v = ⟨43200000000⟩ ∧ Says [b!"pm"] s) := by
  obtain ⟨l, d, t, e1, e2, e3, e4⟩ := time_decoded hc h
  obtain ⟨k1, k2, k3, k4⟩ := decode_blank (p := p) (order := order) (scan_bareKind e1 h1 h2) (scan_wordAt e1) _ _ e2
  dsimp only at k1 k2 k3 k4
  have mid : Time.adjustByTypmod p ⟨0⟩ typmod = .ok ⟨0⟩ ∧ Time.adjustByTypmod p ⟨43200000000⟩ typmod = .ok ⟨43200000000⟩ := by
    unfold Time.adjustByTypmod
    split
    · rename_i h
      have : typmod = 0 ∨ typmod = 1 ∨ typmod = 2 ∨ typmod = 3 ∨ typmod = 4 ∨ typmod = 5 ∨ typmod = 6 := by omega
      rcases this with rfl | rfl | rfl | rfl | rfl | rfl | rfl <;> cases p <;> decide +kernel
    · exact ⟨rfl, rfl⟩
  unfold Time.fromPgtime at e3
  rw [k1, k2, k3] at e3
  rcases k4 with k4 | ⟨k4, k5⟩
  · rw [k4] at e3
    have : Time.mk 0 = t := by cases p <;> exact Res.ok.inj e3
    rw [← this, mid.1] at e4
    exact Or.inl (Res.ok.inj e4).symm
  · rw [k4] at e3
    have : Time.mk 43200000000 = t := by cases p <;> exact Res.ok.inj e3
    rw [← this, mid.2] at e4
    exact Or.inr ⟨(Res.ok.inj e4).symm, k5⟩

/-- **C121, violated.** Every word of a time but `t` is read as a time of day when it stands alone: `ad` and `y` as midnight, `pm` as noon. -/
theorem C121_violated (p : Profile) (u : TokenField) (c : Caches) (hc : c.Ok) (order : DateOrder) :
    ∀ w ∈ timeWords, w ≠ b!"t" → Time.tryFromStr p u c w (-1) order = .ok ⟨if w = b!"pm" then 43200000000 else 0⟩ := by
  have tab : ∀ w ∈ timeWords, w ≠ b!"t" → scan u w = .ok [(.string, w)] ∧
      ((decodeTimeOnly p plainLook order [(.string, w)] ({}, ())).1 >>= fun _ =>
        Time.fromPgtime p (decodeTimeOnly p plainLook order [(.string, w)] ({}, ())).2.1.tm
          (decodeTimeOnly p plainLook order [(.string, w)] ({}, ())).2.1.fSec >>= fun t => t.adjustByTypmod p (-1)) =
        .ok ⟨if w = b!"pm" then 43200000000 else 0⟩ := by
    intro w hw hn
    refine ⟨?_, ?_⟩
    · revert w
      cases u <;> decide +kernel
    · revert w
      cases p <;> cases order <;> decide +kernel
  intro w hw hn
  exact time_eval p u hc (-1) order (tab w hw hn).1 (tab w hw hn).2

/-! ## Cases -/

/-- Several words without a number, read as noon. -/
example : (∀ b ∈ b!"At Y pm bc", ¬ Digit b ∧ b ≠ 46) ∧ NoLastSign b!"At Y pm bc" ∧ Says [b!"pm"] b!"At Y pm bc" ∧
    ∀ p, Time.tryFromStr p .number Caches.new b!"At Y pm bc" 3 .mdy = .ok ⟨43200000000⟩ := by
  refine ⟨by unfold Digit; decide, ?_, ⟨b!"pm", ⟨b!"At Y ", b!" bc", rfl, by decide, by unfold Letter; decide, ?_, ?_⟩, b!"pm", by simp, by unfold SameButCase; decide⟩,
    fun p => by cases p <;> decide +kernel⟩
  · intro w hw
    have : words b!"At Y pm bc" = [b!"At", b!"Y", b!"pm", b!"bc"] := by decide
    rw [this] at hw
    cases hw
    unfold EndsInSign
    decide
  · intro l hl; cases hl; unfold Letter; decide
  · intro l hl; cases hl; unfold Letter; decide

/-- The words of the second theorem. -/
example : timeWords.length = 20 ∧ b!"ad" ∈ timeWords := by decide

end Props
