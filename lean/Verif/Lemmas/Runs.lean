import Verif.Lemmas.Vocabulary
import Verif.Spec.Special

/-! # Words of the scanner are runs of letters -/

namespace Pg
open Spec

/-- No run of letters goes on from `a` to `c`. -/
def Clear (a c : Bytes) : Prop := (∀ l, a.getLast? = some l → isAlpha l = false) ∨ Stops isAlpha c

theorem clear_of {a c : Bytes} (h : ∀ b ∈ a, isAlpha b = false) : Clear a c :=
  Or.inl fun l hl => h l (List.mem_of_getLast? hl)

theorem Clear.append {a b c : Bytes} (h : Clear b c) (hb : b ≠ []) : Clear (a ++ b) c := by
  rcases h with h | h
  · refine Or.inl fun l hl => h l ?_
    rw [List.getLast?_append_of_ne_nil _ hb] at hl
    exact hl
  · exact Or.inr h

theorem all_take (q : Nat → Bool) (s : Bytes) : ∀ b ∈ s.takeWhile q, q b = true := fun b hb =>
  List.all_eq_true.1 List.all_takeWhile b hb

theorem stops_drop (q : Nat → Bool) (s : Bytes) : Stops q (s.dropWhile q) := by
  cases h : s.dropWhile q with
  | nil => exact Stops.nil _
  | cons b r =>
    refine Stops.cons ?_
    have := List.head?_dropWhile_not q s
    rw [h] at this
    simpa using this

theorem Stops.weaken {q q' : Nat → Bool} (h : ∀ b, q' b = true → q b = true) {s : Bytes} (hs : Stops q s) : Stops q' s := by
  cases s with
  | nil => exact Stops.nil _
  | cons b r =>
    refine Stops.cons ?_
    have := hs b rfl
    cases hq : q' b with
    | false => rfl
    | true => rw [h b hq] at this; cases this

theorem digit_notAlpha {b : Nat} (h : isDigit b = true) : isAlpha b = false := by
  rw [isDigit_iff] at h
  rw [Bool.eq_false_iff, ne_eq, isAlpha_iff]; omega

theorem timeB_notAlpha {b : Nat} (h : isTimeB b = true) : isAlpha b = false := by
  simp only [isTimeB, Bool.or_eq_true, isDigit_iff, decide_eq_true_eq] at h
  rw [Bool.eq_false_iff, ne_eq, isAlpha_iff]; omega

theorem signedB_notAlpha {b : Nat} (h : isSignedB b = true) : isAlpha b = false := by
  simp only [isSignedB, Bool.or_eq_true, isDigit_iff, decide_eq_true_eq] at h
  rw [Bool.eq_false_iff, ne_eq, isAlpha_iff]; omega

theorem space_notAlpha {b : Nat} (h : isSpace b = true) : isAlpha b = false := by
  rcases space_cases h with rfl | rfl | rfl | rfl | rfl <;> rfl

theorem punct_notAlpha {b : Nat} (h : isPunct b = true) : isAlpha b = false := by
  rw [isPunct_iff] at h
  rw [Bool.eq_false_iff, ne_eq, isAlpha_iff]; omega

/-- What the scanner takes after digits and a delimiter. -/
theorem delim_clear {d : Nat} (hd : isAlpha d = false) (s : Bytes) :
    ∃ used, d :: s = used ++ (scanDelim d s).2.2 ∧ Clear used (scanDelim d s).2.2 ∧ used ≠ [] := by
  unfold scanDelim
  cases s with
  | nil => exact ⟨[d], rfl, clear_of (by simpa using hd), by simp⟩
  | cons c r =>
    simp only
    split
    · split
      · refine ⟨d :: ((c :: r).takeWhile isDigit ++ ((c :: r).dropWhile isDigit).takeWhile fun b => b = d || isDigit b), ?_, ?_, by simp⟩
        · simp only [List.cons_append, List.append_assoc, List.takeWhile_append_dropWhile]
        · refine clear_of fun b hb => ?_
          rcases List.mem_cons.1 hb with rfl | hb
          · exact hd
          · rcases List.mem_append.1 hb with hb | hb
            · exact digit_notAlpha (all_take _ _ b hb)
            · have := all_take _ _ b hb
              simp only [Bool.or_eq_true, decide_eq_true_eq] at this
              rcases this with rfl | this
              · exact hd
              · exact digit_notAlpha this
      · refine ⟨d :: (c :: r).takeWhile isDigit, ?_, ?_, by simp⟩
        · simp only [List.cons_append, List.takeWhile_append_dropWhile]
        · refine clear_of fun b hb => ?_
          rcases List.mem_cons.1 hb with rfl | hb
          · exact hd
          · exact digit_notAlpha (all_take _ _ b hb)
    · refine ⟨d :: (c :: r).takeWhile fun b => b = d || isAlnum b, ?_, Or.inr ?_, by simp⟩
      · simp only [List.cons_append, List.takeWhile_append_dropWhile]
      · refine (stops_drop _ _).weaken fun b hb => ?_
        simp [isAlnum, hb]

/-- What a field can be. -/
inductive FieldKind (u : TokenField) (s : Bytes) (f : Field) (rest : Bytes) : Prop where
  | word (w : Bytes) : w ≠ [] → Letters w → s = w ++ rest → Stops isAlpha rest → f = (.string, lower w) → FieldKind u s f rest
  | signed (sg : Nat) (b w : Bytes) : sg = 43 ∨ sg = 45 → w ≠ [] → Letters w → (∀ x ∈ b, isSpace x = true) →
      s = sg :: (b ++ (w ++ rest)) → Stops isAlpha rest → f = (.special, sg :: lower w) → FieldKind u s f rest
  | sign (sg : Nat) : sg = 43 ∨ sg = 45 → (∃ b, s = sg :: b ∧ ∀ x ∈ b, isSpace x = true) → f = (u, [sg]) → rest = [] → FieldKind u s f rest
  | date : f.1 = .date → f.2 ≠ [] → (∀ b ∈ f.2, isDigit b = true → ∃ b ∈ s, isDigit b = true) → FieldKind u s f rest
  | other : f.1 = .number ∨ f.1 = .time ∨ f.1 = .tz → (∃ b ∈ s, isDigit b = true ∨ b = 46) → FieldKind u s f rest

theorem field_kind {u : TokenField} {c : Nat} {r : Bytes} {f : Field} {rest : Bytes} (hc : startB c = true)
    (h : scanField u c (c :: r) = .ok (f, rest)) :
    (∃ used, c :: r = used ++ rest ∧ Clear used rest ∧ used ≠ []) ∧ FieldKind u (c :: r) f rest := by
  unfold scanField at h
  split at h
  · rename_i hd
    injection h with h
    obtain rfl : (scanDigit (c :: r)).1 = f := congrArg Prod.fst h
    obtain rfl : (scanDigit (c :: r)).2 = rest := congrArg Prod.snd h
    clear h
    unfold scanDigit
    have hp : ∀ b ∈ (c :: r).takeWhile isDigit, isAlpha b = false := fun b hb => digit_notAlpha (all_take _ _ b hb)
    have hne : (c :: r).takeWhile isDigit ≠ [] := by rw [List.takeWhile_cons_of_pos hd]; simp
    have hh : ∃ b ∈ c :: r, isDigit b = true ∨ b = 46 := ⟨c, by simp, Or.inl hd⟩
    have e0 := List.takeWhile_append_dropWhile (p := isDigit) (l := c :: r)
    generalize hx : (c :: r).takeWhile isDigit = x at *
    generalize hy : (c :: r).dropWhile isDigit = y at *
    simp only
    split
    · rw [List.append_nil] at e0
      exact ⟨⟨x, by simp [e0], clear_of hp, hne⟩, .other (Or.inl rfl) hh⟩
    · rename_i c' r'
      split
      · refine ⟨⟨x ++ (c' :: r').takeWhile isTimeB, ?_, ?_, by simp [hne]⟩, .other (Or.inr (Or.inl rfl)) hh⟩
        · rw [List.append_assoc, List.takeWhile_append_dropWhile, e0]
        · refine clear_of fun b hb => ?_
          rcases List.mem_append.1 hb with hb | hb
          · exact hp b hb
          · exact timeB_notAlpha (all_take _ _ b hb)
      · split
        · rename_i hs
          have hd' : isAlpha c' = false := by
            simp only [Bool.or_eq_true, decide_eq_true_eq] at hs
            rcases hs with (rfl | rfl) | rfl <;> rfl
          obtain ⟨used, h1, h2, h3⟩ := delim_clear hd' r'
          refine ⟨⟨x ++ used, ?_, h2.append h3, by simp [h3]⟩, ?_⟩
          · rw [List.append_assoc, ← h1, e0]
          · have : (scanDelim c' r').1 = .number ∨ (scanDelim c' r').1 = .date := by
              unfold scanDelim
              split
              · split <;> simp
              · split
                · simp only
                  split
                  · simp
                  · split <;> simp
                · simp
            rcases this with e | e
            · exact .other (Or.inl e) hh
            · exact .date e (by simp [hne]) fun _ _ _ => ⟨c, by simp, hd⟩
        · exact ⟨⟨x, e0.symm, clear_of hp, hne⟩, .other (Or.inl rfl) hh⟩
  · rename_i hnd
    split at h
    · rename_i h46
      cases h
      refine ⟨⟨c :: r.takeWhile isDigit, ?_, ?_, by simp⟩, .other (Or.inl rfl) ⟨c, by simp, Or.inr h46⟩⟩
      · show c :: r = c :: r.takeWhile isDigit ++ r.dropWhile isDigit
        rw [List.cons_append, List.takeWhile_append_dropWhile]
      · refine clear_of fun b hb => ?_
        rcases List.mem_cons.1 hb with rfl | hb
        · rw [h46]; rfl
        · exact digit_notAlpha (all_take _ _ b hb)
    · rename_i hn46
      split at h
      · rename_i ha
        unfold scanAlpha at h
        have hl : Letters ((c :: r).takeWhile isAlpha) := all_take _ _
        have hne : (c :: r).takeWhile isAlpha ≠ [] := by rw [List.takeWhile_cons_of_pos ha]; simp
        have e0 := List.takeWhile_append_dropWhile (p := isAlpha) (l := c :: r)
        have hst := stops_drop isAlpha (c :: r)
        generalize hx : (c :: r).takeWhile isAlpha = x at *
        generalize hy : (c :: r).dropWhile isAlpha = y at *
        simp only at h
        rw [Res.bind_eq_ok] at h
        obtain ⟨b, -, h⟩ := h
        cases b with
        | true =>
          cases h
          refine ⟨⟨x ++ y.takeWhile isWordB, ?_, Or.inr ?_, by simp [hne]⟩, .date rfl (by simp [lower, hne]) fun b hb hb' => ⟨b, ?_, hb'⟩⟩
          · rw [List.append_assoc, List.takeWhile_append_dropWhile, e0]
          · refine (stops_drop _ _).weaken fun b hb => ?_
            simp [isWordB, isAlnum, hb]
          · rcases List.mem_append.1 hb with hb | hb
            · exfalso
              obtain ⟨a, h1, rfl⟩ := List.mem_map.1 hb
              have h2 := hl a h1
              rw [isDigit_iff] at hb'
              rw [isAlpha_iff] at h2
              unfold lowerB at hb'
              split at hb' <;> omega
            · rw [← e0]
              exact List.mem_append_right x ((List.takeWhile_prefix _).subset hb)
        | false =>
          cases h
          exact ⟨⟨x, e0.symm, Or.inr hst, hne⟩, .word x hne hl e0.symm hst rfl⟩
      · rename_i hna
        have hsg : c = 43 ∨ c = 45 := by
          unfold startB at hc
          simpa [hnd, hn46, hna] using hc
        unfold scanSign at h
        simp only at h
        have e0 := List.takeWhile_append_dropWhile (p := isSpace) (l := r)
        have hsp : ∀ b ∈ r.takeWhile isSpace, isSpace b = true := all_take _ _
        have hca : isAlpha c = false := by rcases hsg with rfl | rfl <;> rfl
        generalize hx : r.takeWhile isSpace = x at *
        generalize hy : r.dropWhile isSpace = y at *
        split at h
        · cases h
          rw [List.append_nil] at e0
          refine ⟨⟨c :: r, by simp, Or.inr (Stops.nil _), by simp⟩, .sign c hsg ⟨r, rfl, by rw [← e0]; exact hsp⟩ rfl rfl⟩
        · rename_i c' r'
          split at h
          · rename_i hd'
            cases h
            refine ⟨⟨c :: (x ++ (c' :: r').takeWhile isSignedB), ?_, ?_, by simp⟩, .other (Or.inr (Or.inr rfl)) ⟨c', ?_, Or.inl hd'⟩⟩
            · rw [List.cons_append, List.append_assoc, List.takeWhile_append_dropWhile, e0]
            · refine clear_of fun b hb => ?_
              rcases List.mem_cons.1 hb with rfl | hb
              · exact hca
              · rcases List.mem_append.1 hb with hb | hb
                · exact space_notAlpha (hsp b hb)
                · exact signedB_notAlpha (all_take _ _ b hb)
            · rw [← e0]; simp
          · split at h
            · rename_i ha'
              cases h
              have hst := stops_drop isAlpha (c' :: r')
              refine ⟨⟨c :: (x ++ (c' :: r').takeWhile isAlpha), ?_, Or.inr hst, by simp⟩,
                .signed c x ((c' :: r').takeWhile isAlpha) hsg ?_ (all_take _ _) hsp ?_ hst rfl⟩
              · rw [List.cons_append, List.append_assoc, List.takeWhile_append_dropWhile, e0]
              · rw [List.takeWhile_cons_of_pos ha']; simp
              · rw [List.takeWhile_append_dropWhile, e0]
            · cases h

/-- What holds for each field the scanner makes. -/
theorem scanLoop_each {u : TokenField} {full : Bytes} {P : Field → Prop}
    (hP : ∀ a s f rest, full = a ++ s → Clear a s → FieldKind u s f rest → P f) :
    ∀ (fuel : Nat) (s : Bytes) (cap nf : Nat) (l : List Field) (a : Bytes), full = a ++ s → Clear a s →
      scanLoop u fuel s cap nf = .ok l → ∀ f ∈ l, P f := by
  intro fuel
  induction fuel with
  | zero => intro s cap nf l a _ _ h; rw [scanLoop] at h; cases h; simp
  | succ n ih =>
    intro s cap nf l a he hc h
    rw [scanLoop] at h
    have e0 := List.takeWhile_append_dropWhile (p := isSpace) (l := s)
    have hsp : ∀ b ∈ s.takeWhile isSpace, isSpace b = true := all_take _ _
    generalize hx : s.takeWhile isSpace = x at *
    generalize hy : s.dropWhile isSpace = y at *
    have he' : full = (a ++ x) ++ y := by rw [he, ← e0, List.append_assoc]
    have hc' : Clear (a ++ x) y := by
      by_cases hx0 : x = []
      · rw [hx0, List.append_nil]
        rw [hx0, List.nil_append] at e0
        rw [e0]; exact hc
      · exact (clear_of fun b hb => space_notAlpha (hsp b hb)).append hx0
    split at h
    · cases h; simp
    · rename_i c r
      split at h
      · cases h
      · split at h
        · rename_i hst
          split at h
          · cases h
          · rw [Res.bind_eq_ok] at h
            obtain ⟨⟨f, rest⟩, hf, h⟩ := h
            simp only at h
            split at h
            · cases h
            · rw [Res.bind_eq_ok] at h
              obtain ⟨l', hl, h⟩ := h
              cases h
              obtain ⟨⟨used, h1, h2, h3⟩, h4⟩ := field_kind (u := u) hst hf
              intro g hg
              rcases List.mem_cons.1 hg with rfl | hg
              · exact hP _ _ _ _ he' hc' h4
              · exact ih rest _ _ _ (a ++ x ++ used) (by rw [he', h1]; simp [List.append_assoc]) (h2.append h3) hl g hg
        · split at h
          · rename_i hpu
            have e1 := List.takeWhile_append_dropWhile (p := isPunct) (l := c :: r)
            have hne : (c :: r).takeWhile isPunct ≠ [] := by rw [List.takeWhile_cons_of_pos hpu]; simp
            refine ih _ _ _ _ (a ++ x ++ (c :: r).takeWhile isPunct) ?_ ?_ h
            · rw [he', List.append_assoc (a ++ x), e1]
            · exact (clear_of fun b hb => punct_notAlpha (all_take _ _ b hb)).append hne
          · cases h

theorem scan_each {u : TokenField} {s : Bytes} {P : Field → Prop}
    (hP : ∀ a t f rest, s = a ++ t → Clear a t → FieldKind u t f rest → P f) {l : List Field} (h : scan u s = .ok l) : ∀ f ∈ l, P f := by
  unfold scan at h
  split at h
  · cases h
  · exact scanLoop_each hP _ s _ _ _ [] rfl (clear_of (by simp)) h

/-- The words among the fields. -/
def WordAt (s : Bytes) (f : Field) : Prop :=
  (f.1 = .string ∨ f.1 = .special) → (f.2 = [43] ∨ f.2 = [45]) ∨
    ∃ w, (LetterRun w s ∧ f.2 = lower w) ∨ (f.2 = 43 :: lower w) ∨ (MinusRun w s ∧ f.2 = 45 :: lower w)

theorem notLetter_of {l : Nat} (h : isAlpha l = false) : ¬ Letter l := fun hl => by
  rw [(isAlpha_iff l).2 hl] at h; cases h

theorem stops_notLetter {c : Bytes} (h : Stops isAlpha c) : ∀ l, c.head? = some l → ¬ Letter l := fun l hl => by
  cases c with
  | nil => cases hl
  | cons b r => cases hl; exact notLetter_of (h _ rfl)

theorem scan_wordAt {u : TokenField} {s : Bytes} {l : List Field} (h : scan u s = .ok l) : ∀ f ∈ l, WordAt s f := by
  refine scan_each (fun a t f rest he hc hk => ?_) h
  intro hf
  cases hk with
  | word w nw hw e hst hf' =>
    right
    refine ⟨w, Or.inl ⟨⟨a, rest, by rw [he, e], nw, fun b hb => (isAlpha_iff b).1 (hw b hb), ?_, stops_notLetter hst⟩, by rw [hf']⟩⟩
    rcases hc with hc | hc
    · exact fun l hl => notLetter_of (hc l hl)
    · exfalso
      obtain ⟨b, w', rfl⟩ := List.exists_cons_of_ne_nil nw
      rw [e] at hc
      have := hc b rfl
      rw [hw b (by simp)] at this
      cases this
  | signed sg b w hsg nw hw hb e hst hf' =>
    right
    rcases hsg with rfl | rfl
    · exact ⟨w, Or.inr (Or.inl (by rw [hf']))⟩
    · exact ⟨w, Or.inr (Or.inr ⟨⟨a, b, rest, by rw [he, e], nw, fun b hb => (isAlpha_iff b).1 (hw b hb),
        fun x hx => by rw [white_eq]; exact hb x hx, stops_notLetter hst⟩, by rw [hf']⟩)⟩
  | sign sg hsg _ hf' _ =>
    left
    rw [hf']
    rcases hsg with rfl | rfl <;> simp
  | date e _ _ => rw [e] at hf; rcases hf with hf | hf <;> cases hf
  | other e _ => exfalso; rcases e with e | e | e <;> rw [e] at hf <;> rcases hf with hf | hf <;> cases hf

end Pg
