import Verif.Props.InputStyle
import Verif.Props.FieldRange

/-! # Where the decoder of intervals looks at the range of fields -/

namespace Pg
open Spec

variable {p : Profile} {u : TokenField} {R R' : Nat}

/-! ## The fields of a text -/

/-- The text ends in the word `w`. -/
def EndsIn (w s : Bytes) : Prop := ∃ x, s = x ++ w ∧ ∀ l, x.getLast? = some l → isAlpha l = false

theorem EndsIn.mem {w s : Bytes} (h : EndsIn w s) (hw : Letters w) (hne : w ≠ []) : ∃ b, s.getLast? = some b ∧ isAlpha b = true := by
  obtain ⟨x, rfl, -⟩ := h
  obtain ⟨b, hb⟩ : ∃ b, w.getLast? = some b := by
    rw [List.getLast?_eq_some_getLast hne]; exact ⟨_, rfl⟩
  exact ⟨b, by rw [List.getLast?_append_of_ne_nil _ hne, hb], hw b (List.mem_of_getLast? hb)⟩

theorem EndsIn.drop {w s a y : Bytes} (h : EndsIn w s) (hw : Letters w) (e : s = a ++ y) (hc : Clear a y) (hy : y ≠ []) : EndsIn w y := by
  obtain ⟨x, rfl, hx⟩ := h
  rcases List.append_eq_append_iff.1 e with ⟨z, h1, h2⟩ | ⟨z, h1, h2⟩
  · by_cases hz : z = []
    · subst hz
      rw [List.nil_append] at h2
      exact ⟨[], by rw [h2, List.nil_append], by simp⟩
    · exfalso
      obtain ⟨b, hb⟩ : ∃ b, z.getLast? = some b := by
        rw [List.getLast?_eq_some_getLast hz]; exact ⟨_, rfl⟩
      rcases hc with hc | hc
      · have := hc b (by rw [h1, List.getLast?_append_of_ne_nil _ hz, hb])
        rw [hw b (by rw [h2]; exact List.mem_append_left _ (List.mem_of_getLast? hb))] at this
        cases this
      · obtain ⟨d, y', rfl⟩ := List.exists_cons_of_ne_nil hy
        have := hc d rfl
        rw [hw d (by rw [h2]; simp)] at this
        cases this
  · refine ⟨z, h2, fun l hl => hx l ?_⟩
    have hz : z ≠ [] := by rintro rfl; cases hl
    rw [h1, List.getLast?_append_of_ne_nil _ hz, hl]

theorem lowerB_alpha {b : Nat} (h : isAlpha b = true) : isAlpha (lowerB b) = true := by
  rw [isAlpha_iff] at h ⊢
  unfold lowerB isUpper
  split <;> rename_i h' <;> simp at h' <;> omega

/-- The field at the end of a text that ends in a letter. -/
theorem scanField_end {c : Nat} {r : Bytes} {f : Field} (h : scanField u c (c :: r) = .ok (f, []))
    {b : Nat} (hb : (c :: r).getLast? = some b) (ha : isAlpha b = true) :
    f.1 = .string ∨ f.1 = .special ∨ f.1 = .date ∧ ∃ b, f.2.getLast? = some b ∧ isAlpha b = true := by
  have hmem := List.mem_of_getLast? hb
  have no : ∀ {q : Nat → Bool} {s : Bytes}, (∀ b, q b = true → isAlpha b = false) → s.dropWhile q = [] → s.getLast? = some b → False := by
    intro q s hq hs hl
    have := hq b (by
      have e := List.takeWhile_append_dropWhile (p := q) (l := s)
      rw [hs, List.append_nil] at e
      rw [← e] at hl
      exact all_take q s b (List.mem_of_getLast? hl))
    rw [ha] at this; cases this
  unfold scanField at h
  split at h
  · rename_i hd
    injection h with h
    obtain rfl : (scanDigit (c :: r)).1 = f := congrArg Prod.fst h
    replace h : (scanDigit (c :: r)).2 = [] := congrArg Prod.snd h
    unfold scanDigit at h ⊢
    have e0 := List.takeWhile_append_dropWhile (p := isDigit) (l := c :: r)
    generalize hx : (c :: r).takeWhile isDigit = x at *
    generalize hy : (c :: r).dropWhile isDigit = y at *
    dsimp only at h ⊢
    split at h
    · exact absurd (no (fun b => digit_notAlpha) hy hb) not_false
    · rename_i c' r'
      have hb' : (c' :: r').getLast? = some b := by
        rw [← e0, List.getLast?_append_of_ne_nil _ (by simp)] at hb; exact hb
      split at h
      · exact absurd (no (fun b => timeB_notAlpha) h hb') not_false
      · rename_i h58
        split at h
        · rename_i hdl
          have hca : isAlpha c' = false := by
            simp only [Bool.or_eq_true, decide_eq_true_eq] at hdl
            rcases hdl with (rfl | rfl) | rfl <;> rfl
          rw [if_neg h58, if_pos hdl]
          dsimp only at h ⊢
          unfold scanDelim at h ⊢
          cases r' with
          | nil =>
            simp only [List.getLast?_singleton, Option.some.injEq] at hb'
            rw [← hb', hca] at ha; cases ha
          | cons d r'' =>
            have hb'' : (d :: r'').getLast? = some b := by
              rw [List.getLast?_cons_cons] at hb'; exact hb'
            dsimp only at h ⊢
            split at h
            · rename_i hd2
              split at h
              · exfalso
                have e1 := List.takeWhile_append_dropWhile (p := isDigit) (l := d :: r'')
                by_cases hz : (d :: r'').dropWhile isDigit = []
                · exact no (fun b => digit_notAlpha) hz hb''
                · refine no (fun x hx => ?_) h (s := (d :: r'').dropWhile isDigit) ?_
                  · simp only [Bool.or_eq_true, decide_eq_true_eq] at hx
                    rcases hx with rfl | hx
                    · exact hca
                    · exact digit_notAlpha hx
                  · rw [← e1, List.getLast?_append_of_ne_nil _ hz] at hb''; exact hb''
              · exact absurd (no (fun b => digit_notAlpha) h hb'') not_false
            · rename_i hd2
              rw [if_neg hd2]
              refine Or.inr (Or.inr ⟨rfl, lowerB b, ?_, lowerB_alpha ha⟩)
              have e1 := List.takeWhile_append_dropWhile (p := fun b => decide (b = c') || isAlnum b) (l := d :: r'')
              rw [show (d :: r'').dropWhile (fun b => decide (b = c') || isAlnum b) = [] from h, List.append_nil] at e1
              dsimp only
              rw [List.getLast?_append_of_ne_nil _ (by simp), e1]
              unfold lower
              rw [show c' :: List.map lowerB (d :: r'') = [c'] ++ List.map lowerB (d :: r'') from rfl,
                List.getLast?_append_of_ne_nil _ (by simp), List.getLast?_map, hb'']
              rfl
        · cases h
  · split at h
    · rename_i hd h46
      injection h with h
      replace h : (scanDot (c :: r)).2 = [] := congrArg Prod.snd h
      cases r with
      | nil =>
        simp only [List.getLast?_singleton, Option.some.injEq] at hb
        rw [← hb, h46] at ha; cases ha
      | cons d r' =>
        rw [List.getLast?_cons_cons] at hb
        exact absurd (no (fun b => digit_notAlpha) h hb) not_false
    · split at h
      · rename_i hca
        unfold scanAlpha at h
        have e0 := List.takeWhile_append_dropWhile (p := isAlpha) (l := c :: r)
        generalize hx : (c :: r).takeWhile isAlpha = x at *
        generalize hy : (c :: r).dropWhile isAlpha = y at *
        dsimp only at h
        obtain ⟨q, hq, h⟩ := Res.bind_eq_ok.1 h
        cases q with
        | false => cases h; exact Or.inl rfl
        | true =>
          cases y with
          | nil => cases hq
          | cons d y' =>
            rw [if_pos rfl] at h
            injection h with h
            obtain rfl := congrArg Prod.fst h
            replace h : (d :: y').dropWhile isWordB = [] := congrArg Prod.snd h
            refine Or.inr (Or.inr ⟨rfl, b, ?_, ha⟩)
            have e1 := List.takeWhile_append_dropWhile (p := isWordB) (l := d :: y')
            rw [h, List.append_nil] at e1
            dsimp only
            rw [e1, List.getLast?_append_of_ne_nil _ (by simp)]
            rw [← e0, List.getLast?_append_of_ne_nil _ (by simp)] at hb
            exact hb
      · unfold scanSign at h
        dsimp only at h
        split at h
        · rename_i hca hy
          exfalso
          cases r with
          | nil =>
            simp only [List.getLast?_singleton, Option.some.injEq] at hb
            subst hb; exact absurd ha (by assumption)
          | cons d y =>
            rw [List.getLast?_cons_cons] at hb
            exact no (fun b => space_notAlpha) hy hb
        · rename_i d y hy
          rw [hy] at h
          have hr : r.getLast? = some b → (d :: y).getLast? = some b := by
            intro hl
            rw [← List.takeWhile_append_dropWhile (p := isSpace) (l := r), hy, List.getLast?_append_of_ne_nil _ (by simp)] at hl
            exact hl
          have hrn : r ≠ [] := by rintro rfl; cases hy
          have hb' : (d :: y).getLast? = some b := by
            refine hr ?_
            rw [show c :: r = [c] ++ r from rfl, List.getLast?_append_of_ne_nil _ hrn] at hb
            exact hb
          split at h
          · injection h with h
            replace h := congrArg Prod.snd h
            dsimp only at h
            exact absurd (no (fun b => signedB_notAlpha) h hb') not_false
          · split at h
            · injection h with h
              obtain rfl := congrArg Prod.fst h
              exact Or.inr (Or.inl rfl)
            · cases h

/-- What the last field of a text ending in the word `w` can be. -/
def LastField (w : Bytes) (f : Field) : Prop :=
  f = (.string, lower w) ∨ f.1 = .special ∧ (f.2.head? = some 43 ∨ f.2.head? = some 45) ∨
    f.1 = .date ∧ ∃ b, f.2.getLast? = some b ∧ isAlpha b = true

theorem scanField_last {w : Bytes} (hw : Letters w) (nw : w ≠ []) {c : Nat} {r : Bytes} {f : Field} (hst : startB c = true)
    (h : scanField u c (c :: r) = .ok (f, [])) (he : EndsIn w (c :: r)) : LastField w f := by
  obtain ⟨b, hb, ha⟩ := he.mem hw nw
  have hend := scanField_end h hb ha
  obtain ⟨-, hk⟩ := field_kind (u := u) hst h
  cases hk with
  | word w0 n0 h0 e _ hf =>
    left
    obtain ⟨x, e', hx⟩ := he
    rw [List.append_nil] at e
    have : x = [] := by
      by_contra hne
      have hl := hx _ (List.getLast?_eq_some_getLast hne)
      rw [h0 _ (by rw [← e, e']; exact List.mem_append_left _ (List.getLast_mem hne))] at hl
      cases hl
    rw [this, List.nil_append] at e'
    rw [hf, ← e, e']
  | signed sg b' w0 hsg _ _ _ _ _ hf =>
    right; left
    rw [hf]
    rcases hsg with rfl | rfl
    · exact ⟨rfl, Or.inl rfl⟩
    · exact ⟨rfl, Or.inr rfl⟩
  | sign sg hsg hs hf hr =>
    exfalso
    obtain ⟨bs, e, hsp⟩ := hs
    rw [e] at hb
    rcases List.mem_cons.1 (List.mem_of_getLast? hb) with rfl | hm
    · rcases hsg with rfl | rfl <;> cases ha
    · rw [space_notAlpha (hsp b hm)] at ha; cases ha
  | date hd hne _ =>
    rcases hend with e | e | e
    · rw [hd] at e; cases e
    · rw [hd] at e; cases e
    · exact Or.inr (Or.inr e)
  | other hd _ =>
    rcases hend with e | e | ⟨e, -⟩ <;> rcases hd with hd | hd | hd <;> rw [hd] at e <;> cases e

theorem scanLoop_nil (n cap nf : Nat) : scanLoop u n [] cap nf = .ok [] := by
  cases n <;> rfl

theorem scanLoop_last {w : Bytes} (hw : Letters w) (nw : w ≠ []) : ∀ (fuel : Nat) (s : Bytes) (cap nf : Nat) (l : List Field),
    s.length < fuel → EndsIn w s → scanLoop u fuel s cap nf = .ok l → ∃ l' f, l = l' ++ [f] ∧ LastField w f := by
  intro fuel
  induction fuel with
  | zero => intro s cap nf l hlt; omega
  | succ n ih =>
    intro s cap nf l hlt he h
    rw [scanLoop] at h
    have e0 := List.takeWhile_append_dropWhile (p := isSpace) (l := s)
    have hsp : ∀ b ∈ s.takeWhile isSpace, isSpace b = true := all_take _ _
    generalize hx : s.takeWhile isSpace = x at *
    generalize hy : s.dropWhile isSpace = y at *
    have hyl : y.length ≤ s.length := by rw [← e0, List.length_append]; omega
    have hyn : y ≠ [] := by
      rintro rfl
      obtain ⟨b, hb, ha⟩ := he.mem hw nw
      rw [List.append_nil] at e0
      rw [← e0] at hb
      rw [space_notAlpha (hsp b (List.mem_of_getLast? hb))] at ha
      cases ha
    have hey : EndsIn w y := he.drop hw e0.symm (clear_of fun b hb => space_notAlpha (hsp b hb)) hyn
    split at h
    · exact absurd rfl hyn
    · rename_i c r
      split at h
      · cases h
      · split at h
        · rename_i hst
          split at h
          · cases h
          · obtain ⟨⟨f, rest⟩, hf, h⟩ := Res.bind_eq_ok.1 h
            dsimp only at h
            split at h
            · cases h
            · obtain ⟨l', hl, h⟩ := Res.bind_eq_ok.1 h
              cases h
              obtain ⟨⟨used, h1, h2, h3⟩, -⟩ := field_kind (u := u) hst hf
              by_cases hr : rest = []
              · subst hr
                rw [scanLoop_nil] at hl
                cases hl
                exact ⟨[], f, rfl, scanField_last hw nw hst hf hey⟩
              · have hlen : rest.length < n := by
                  have := congrArg List.length h1
                  have := List.length_pos_iff.2 h3
                  simp only [List.length_append] at *
                  omega
                obtain ⟨l2, g, rfl, hg⟩ := ih _ _ _ _ hlen (hey.drop hw h1 h2 hr) hl
                exact ⟨f :: l2, g, rfl, hg⟩
        · split at h
          · rename_i hpu
            have e1 := List.takeWhile_append_dropWhile (p := isPunct) (l := c :: r)
            have hne : (c :: r).takeWhile isPunct ≠ [] := by rw [List.takeWhile_cons_of_pos hpu]; simp
            have hap := all_take isPunct (c :: r)
            generalize (c :: r).takeWhile isPunct = a at *
            generalize (c :: r).dropWhile isPunct = z at *
            have hz : z ≠ [] := by
              rintro rfl
              obtain ⟨b, hb, ha⟩ := hey.mem hw nw
              rw [List.append_nil] at e1
              rw [← e1] at hb
              rw [punct_notAlpha (hap b (List.mem_of_getLast? hb))] at ha
              cases ha
            refine ih _ _ _ _ ?_ (hey.drop hw e1.symm (clear_of fun b hb => punct_notAlpha (hap b hb)) hz) h
            have := congrArg List.length e1
            have := List.length_pos_iff.2 hne
            simp only [List.length_append] at *
            omega
          · cases h

theorem scan_last {w : Bytes} (hw : Letters w) (nw : w ≠ []) {s : Bytes} {l : List Field} (he : EndsIn w s) (h : scan u s = .ok l) :
    ∃ l' f, l = l' ++ [f] ∧ LastField w f := by
  unfold scan at h
  split at h
  · cases h
  · exact scanLoop_last hw nw _ _ _ _ _ (Nat.lt_succ_self _) he h

theorem lowerB_noColon {b : Nat} (h : b ≠ 58) : lowerB b ≠ 58 := by
  unfold lowerB isUpper
  split <;> rename_i h' <;> simp at h' <;> omega

theorem lower_noColon {s : Bytes} (h : ∀ b ∈ s, b ≠ 58) : ∀ b ∈ lower s, b ≠ 58 := by
  intro b hb
  obtain ⟨a, ha, rfl⟩ := List.mem_map.1 hb
  exact lowerB_noColon (h a ha)

theorem scanField_noColon {c : Nat} {r : Bytes} {f : Field} {rest : Bytes} (hs : ∀ b ∈ c :: r, b ≠ 58)
    (h : scanField u c (c :: r) = .ok (f, rest)) : ∀ b ∈ f.2, b ≠ 58 := by
  have tk : ∀ (q : Nat → Bool) {s : Bytes}, (∀ b ∈ s, b ≠ 58) → ∀ b ∈ s.takeWhile q, b ≠ 58 :=
    fun q s hs b hb => hs b ((List.takeWhile_prefix _).subset hb)
  have dr : ∀ (q : Nat → Bool) {s : Bytes}, (∀ b ∈ s, b ≠ 58) → ∀ b ∈ s.dropWhile q, b ≠ 58 :=
    fun q s hs b hb => hs b ((List.dropWhile_suffix _).subset hb)
  have ap : ∀ {a s : Bytes}, (∀ b ∈ a, b ≠ 58) → (∀ b ∈ s, b ≠ 58) → ∀ b ∈ a ++ s, b ≠ 58 := by
    intro a s h1 h2 b hb
    rcases List.mem_append.1 hb with hb | hb
    · exact h1 b hb
    · exact h2 b hb
  have co : ∀ {a : Nat} {s : Bytes}, a ≠ 58 → (∀ b ∈ s, b ≠ 58) → ∀ b ∈ a :: s, b ≠ 58 := by
    intro a s h1 h2 b hb
    rcases List.mem_cons.1 hb with rfl | hb
    · exact h1
    · exact h2 b hb
  unfold scanField at h
  split at h
  · injection h with h
    obtain rfl : (scanDigit (c :: r)).1 = f := congrArg Prod.fst h
    unfold scanDigit
    have h1 := tk isDigit hs
    have h2 := dr isDigit hs
    generalize (c :: r).takeWhile isDigit = x at *
    generalize (c :: r).dropWhile isDigit = y at *
    dsimp only
    split
    · exact h1
    · rename_i c' r'
      split
      · exact ap h1 (tk _ h2)
      · split
        · refine ap h1 ?_
          have h3 : c' ≠ 58 := h2 c' (by simp)
          have h4 : ∀ b ∈ r', b ≠ 58 := fun b hb => h2 b (by simp [hb])
          unfold scanDelim
          split
          · exact co h3 (by simp)
          · dsimp only
            split
            · split
              · exact co h3 (ap (tk _ h4) (tk _ (dr _ h4)))
              · exact co h3 (tk _ h4)
            · exact co h3 (lower_noColon (tk _ h4))
        · exact h1
  · split at h
    · injection h with h
      obtain rfl : (scanDot (c :: r)).1 = f := congrArg Prod.fst h
      exact co (hs c (by simp)) (tk _ fun b hb => hs b (by simp [hb]))
    · split at h
      · unfold scanAlpha at h
        obtain ⟨q, -, h⟩ := Res.bind_eq_ok.1 h
        split at h
        · injection h with h
          obtain rfl := congrArg Prod.fst h
          exact ap (lower_noColon (tk _ hs)) (tk _ (dr _ hs))
        · injection h with h
          obtain rfl := congrArg Prod.fst h
          exact lower_noColon (tk _ hs)
      · unfold scanSign at h
        dsimp only at h
        have h4 : ∀ b ∈ r.dropWhile isSpace, b ≠ 58 := dr _ fun b hb => hs b (by simp [hb])
        generalize r.dropWhile isSpace = y at *
        split at h
        · cases h; exact co (hs c (by simp)) (by simp)
        · split at h
          · injection h with h
            obtain rfl := congrArg Prod.fst h
            exact co (hs c (by simp)) (tk _ h4)
          · split at h
            · injection h with h
              obtain rfl := congrArg Prod.fst h
              exact co (hs c (by simp)) (lower_noColon (tk _ h4))
            · cases h

theorem scanLoop_noColon : ∀ (fuel : Nat) (s : Bytes) (cap nf : Nat) (l : List Field), (∀ b ∈ s, b ≠ 58) →
    scanLoop u fuel s cap nf = .ok l → ∀ f ∈ l, ∀ b ∈ f.2, b ≠ 58 := by
  intro fuel
  induction fuel with
  | zero => intro s cap nf l _ h; rw [scanLoop] at h; cases h; simp
  | succ n ih =>
    intro s cap nf l hs h
    rw [scanLoop] at h
    have e0 := List.takeWhile_append_dropWhile (p := isSpace) (l := s)
    generalize s.dropWhile isSpace = y at *
    have hy : ∀ b ∈ y, b ≠ 58 := fun b hb => hs b (by rw [← e0]; exact List.mem_append_right _ hb)
    split at h
    · cases h; simp
    · rename_i c r
      split at h
      · cases h
      · split at h
        · rename_i hst
          split at h
          · cases h
          · obtain ⟨⟨f, rest⟩, hf, h⟩ := Res.bind_eq_ok.1 h
            simp only at h
            split at h
            · cases h
            · obtain ⟨l', hl, h⟩ := Res.bind_eq_ok.1 h
              cases h
              obtain ⟨⟨used, h1, -⟩, -⟩ := field_kind (u := u) hst hf
              intro g hg
              rcases List.mem_cons.1 hg with rfl | hg
              · exact scanField_noColon hy hf
              · exact ih _ _ _ _ (fun b hb => hy b (by rw [h1]; exact List.mem_append_right _ hb)) hl g hg
        · split at h
          · exact ih _ _ _ _ (fun b hb => hy b ((List.dropWhile_suffix _).subset hb)) h
          · cases h

theorem scan_noColon {s : Bytes} {l : List Field} (hs : ∀ b ∈ s, b ≠ 58) (h : scan u s = .ok l) : ∀ f ∈ l, ∀ b ∈ f.2, b ≠ 58 := by
  unfold scan at h
  split at h
  · cases h
  · exact scanLoop_noColon _ _ _ _ _ hs h

/-! ## The decoder -/

theorem space_front {b : Nat} (h : isSpace b = true) : isAlpha b = false ∧ b ≠ 58 ∧ b ≠ 46 :=
  ⟨space_notAlpha h, (by rintro rfl; cases h), (by rintro rfl; cases h)⟩

theorem digit_front {b : Nat} (h : isDigit b = true) : isAlpha b = false ∧ b ≠ 58 ∧ b ≠ 46 :=
  ⟨digit_notAlpha h, (by rintro rfl; cases h), (by rintro rfl; cases h)⟩

theorem str2i32_front {w s : Bytes} {v : Int} (h : str2i32 w = .ok (v, s)) : ∃ a, w = a ++ s ∧ ∀ b ∈ a, isAlpha b = false ∧ b ≠ 58 ∧ b ≠ 46 := by
  unfold str2i32 at h
  have e0 := List.takeWhile_append_dropWhile (p := isSpace) (l := w)
  have hsp := all_take isSpace w
  generalize w.takeWhile isSpace = x at *
  generalize w.dropWhile isSpace = y at *
  dsimp only at h
  split at h
  · cases h
    exact ⟨x, e0.symm, fun b hb => space_front (hsp b hb)⟩
  · have hsg : ∃ a, y = a ++ (extractSign y).2 ∧ ∀ b ∈ a, isAlpha b = false ∧ b ≠ 58 ∧ b ≠ 46 := by
      unfold extractSign
      split
      · exact ⟨[43], rfl, by simp; decide⟩
      · exact ⟨[45], rfl, by simp; decide⟩
      · exact ⟨[], rfl, by simp⟩
    obtain ⟨a, ea, ha⟩ := hsg
    generalize extractSign y = z at *
    obtain ⟨sg, z⟩ := z
    dsimp only at h ea
    have e1 := List.takeWhile_append_dropWhile (p := isDigit) (l := z)
    have hd := all_take isDigit z
    generalize z.takeWhile isDigit = d at *
    generalize z.dropWhile isDigit = t at *
    split at h
    · cases h
    · split at h
      · cases h
        refine ⟨x ++ (a ++ d), by rw [← e0, ea, ← e1]; simp, fun b hb => ?_⟩
        rcases List.mem_append.1 hb with hb | hb
        · exact space_front (hsp b hb)
        · rcases List.mem_append.1 hb with hb | hb
          · exact ha b hb
          · exact digit_front (hd b hb)
      · cases h

theorem str2i32_rest {w s : Bytes} {v : Int} (h : str2i32 w = .ok (v, s)) : ∃ a, w = a ++ s ∧ ∀ b ∈ a, isAlpha b = false := by
  obtain ⟨a, h1, h2⟩ := str2i32_front h
  exact ⟨a, h1, fun b hb => (h2 b hb).1⟩

theorem str2d_rest {w s : Bytes} {v : F64} (h : str2d w = .ok (v, s)) : ∃ a, w = a ++ s ∧ ∀ b ∈ a, isAlpha b = false := by
  unfold str2d at h
  have e0 := List.takeWhile_append_dropWhile (p := isSpace) (l := w)
  have hsp := all_take isSpace w
  generalize w.takeWhile isSpace = x at *
  generalize w.dropWhile isSpace = y at *
  dsimp only at h
  split at h
  · cases h
    exact ⟨x, e0.symm, fun b hb => space_notAlpha (hsp b hb)⟩
  · have hsg : ∃ a, y = a ++ (extractSign y).2 ∧ ∀ b ∈ a, isAlpha b = false := by
      unfold extractSign
      split
      · exact ⟨[43], rfl, by simp; rfl⟩
      · exact ⟨[45], rfl, by simp; rfl⟩
      · exact ⟨[], rfl, by simp⟩
    obtain ⟨a, ea, ha⟩ := hsg
    generalize extractSign y = z at *
    obtain ⟨sg, z⟩ := z
    dsimp only at h ea
    have e1 := List.takeWhile_append_dropWhile (p := isDigit) (l := z)
    have hd := all_take isDigit z
    generalize z.takeWhile isDigit = d at *
    generalize z.dropWhile isDigit = t at *
    split at h
    · cases h
    · have hfr : ∃ a, t = a ++ (fracPart t).2 ∧ ∀ b ∈ a, isAlpha b = false := by
        unfold fracPart
        split
        · rename_i r
          refine ⟨46 :: r.takeWhile isDigit, by simp, fun b hb => ?_⟩
          rcases List.mem_cons.1 hb with rfl | hb
          · rfl
          · exact digit_notAlpha (all_take _ _ b hb)
        · exact ⟨[], rfl, by simp⟩
      obtain ⟨k, ek, hk⟩ := hfr
      generalize fracPart t = q at *
      obtain ⟨fr, q⟩ := q
      dsimp only at h ek
      have fin : ∃ a, w = a ++ q ∧ ∀ b ∈ a, isAlpha b = false := by
        refine ⟨x ++ (a ++ (d ++ k)), by rw [← e0, ea, ← e1, ek]; simp, fun b hb => ?_⟩
        rcases List.mem_append.1 hb with hb | hb
        · exact space_notAlpha (hsp b hb)
        · rcases List.mem_append.1 hb with hb | hb
          · exact ha b hb
          · rcases List.mem_append.1 hb with hb | hb
            · exact digit_notAlpha (hd b hb)
            · exact hk b hb
      split at h
      · cases h
      · split at h <;> cases h <;> exact fin

/-- A part with a letter at the end is not used up. -/
theorem rest_end {w a s : Bytes} (e : w = a ++ s) (h : ∀ b ∈ a, isAlpha b = false) {b : Nat} (hb : w.getLast? = some b)
    (ha : isAlpha b = true) : s.getLast? = some b := by
  by_cases hs : s = []
  · exfalso
    rw [hs, List.append_nil] at e
    rw [e] at hb
    rw [h b (List.mem_of_getLast? hb)] at ha
    cases ha
  · rw [e, List.getLast?_append_of_ne_nil _ hs] at hb
    exact hb

theorem last_cons {c : Nat} {r : Bytes} {b : Nat} (h : (c :: r).getLast? = some b) (hc : isAlpha c = false)
    (ha : isAlpha b = true) : r.getLast? = some b := by
  cases r with
  | nil =>
    simp only [List.getLast?_singleton, Option.some.injEq] at h
    rw [h, ha] at hc; cases hc
  | cons d r => rw [List.getLast?_cons_cons] at h; exact h

/-- A number does not end in a letter. -/
theorem numberParts_letter {w : Bytes} {b : Nat} (hb : w.getLast? = some b) (ha : isAlpha b = true)
    (a : Int × F64 × Bool) : numberParts p w ≠ .ok a := by
  intro h
  unfold numberParts at h
  obtain ⟨⟨v, s⟩, h1, h⟩ := Res.bind_eq_ok.1 h
  obtain ⟨x, ex, hx⟩ := str2i32_rest h1
  have hs := rest_end ex hx hb ha
  dsimp only at h
  cases s with
  | nil => cases hs
  | cons c r =>
    dsimp only at h
    split at h
    · rename_i hc
      obtain ⟨k, hk, -⟩ := Res.bind_eq_ok.1 h
      unfold yearMonth at hk
      obtain ⟨⟨v2, s2⟩, h2, hk⟩ := Res.bind_eq_ok.1 hk
      obtain ⟨x2, ex2, hx2⟩ := str2i32_rest h2
      have hs2 := rest_end ex2 hx2 (last_cons hs (by rw [hc]; rfl) ha) ha
      dsimp only at hk
      split at hk
      · cases hk
      · rw [if_pos (by cases s2 with | nil => cases hs2 | cons => simp)] at hk
        cases hk
    · split at h
      · obtain ⟨⟨v2, s2⟩, h2, hk⟩ := Res.bind_eq_ok.1 h
        obtain ⟨x2, ex2, hx2⟩ := str2d_rest h2
        have hs2 := rest_end ex2 hx2 hs ha
        dsimp only at hk
        rw [if_pos (by cases s2 with | nil => cases hs2 | cons => simp)] at hk
        cases hk
      · cases h

/-- Seconds are written, after a second colon (58) or a point (46). -/
def Seconds (w : Bytes) : Prop := 2 ≤ w.count 58 ∨ 46 ∈ w

/-- The clock fields are decoded alike under both ranges. -/
def SameClock (R R' : Nat) (w : Bytes) : Prop :=
  (R = INTERVAL_MASK_MS ↔ R' = INTERVAL_MASK_MS) ∨ (∀ b ∈ w, b ≠ 58) ∨ Seconds (w.drop 1)

theorem Seconds.of_drop {w : Bytes} (h : Seconds (w.drop 1)) : Seconds w := by
  rcases h with h | h
  · exact Or.inl (Nat.le_trans h ((List.drop_sublist 1 w).count_le 58))
  · exact Or.inr (List.mem_of_mem_drop h)

theorem decodeTime_seconds {w : Bytes} (h : Seconds w) : decodeTime w R = decodeTime w R' := by
  unfold decodeTime
  funext t
  rw [St.mod_bind, St.mod_bind]
  cases hn : str2i32 w with
  | panic => rfl
  | err e => rfl
  | ok a =>
    obtain ⟨v, s⟩ := a
    obtain ⟨x, ex, hx⟩ := str2i32_front hn
    rw [St.lift_ok_bind, St.lift_ok_bind]
    dsimp only
    rw [St.mod_bind, St.mod_bind]
    refine congrFun ?_ _
    split
    · rename_i r
      funext t
      cases hm : str2i32 r with
      | panic => rfl
      | err e => rfl
      | ok a =>
        obtain ⟨v2, s2⟩ := a
        obtain ⟨y, ey, hy⟩ := str2i32_front hm
        have hne : s2 ≠ [] := by
          rintro rfl
          rw [List.append_nil] at ey
          subst ey ex
          rcases h with h | h
          · have c1 : x.count 58 = 0 := List.count_eq_zero.2 fun hb => (hx 58 hb).2.1 rfl
            have c2 : r.count 58 = 0 := List.count_eq_zero.2 fun hb => (hy 58 hb).2.1 rfl
            rw [List.count_append, List.count_cons, c1, c2] at h
            simp at h
          · rcases List.mem_append.1 h with h | h
            · exact (hx _ h).2.2 rfl
            · rcases List.mem_cons.1 h with h | h
              · cases h
              · exact (hy _ h).2.2 rfl
        cases s2 with
        | nil => exact absurd rfl hne
        | cons c r2 =>
          rw [St.lift_ok_bind, St.lift_ok_bind]
          rfl
    · rfl

theorem decodeTime_same {w : Bytes} (h : (R = INTERVAL_MASK_MS ↔ R' = INTERVAL_MASK_MS) ∨ (∀ b ∈ w, b ≠ 58) ∨ Seconds w) :
    decodeTime w R = decodeTime w R' := by
  rcases h with h | h | h
  · have : ∀ s, timeTail s R = timeTail s R' := by
      intro s
      unfold timeTail
      cases s with
      | nil =>
        by_cases c : R = INTERVAL_MASK_MS
        · simp only [if_pos c, if_pos (h.1 c)]
        · simp only [if_neg c, if_neg (fun x => c (h.2 x))]
      | cons => rfl
    unfold decodeTime
    simp only [this]
  · unfold decodeTime
    funext t
    rw [St.mod_bind, St.mod_bind]
    cases hn : str2i32 w with
    | panic => rfl
    | err e => rfl
    | ok a =>
      obtain ⟨v, s⟩ := a
      obtain ⟨x, ex, -⟩ := str2i32_rest hn
      rw [St.lift_ok_bind, St.lift_ok_bind]
      dsimp only
      rw [St.mod_bind, St.mod_bind]
      cases s with
      | nil => rfl
      | cons c r =>
        have : c ≠ 58 := h c (by rw [ex]; simp)
        refine congrFun ?_ _
        split
        · rename_i e; cases e; exact absurd rfl this
        · rfl
  · exact decodeTime_seconds h

theorem SameClock.whole {w : Bytes} (h : SameClock R R' w) : decodeTime w R = decodeTime w R' :=
  decodeTime_same (h.imp id fun h => h.imp id Seconds.of_drop)

theorem SameClock.unsigned {w : Bytes} (h : SameClock R R' w) : decodeTime (w.drop 1) R = decodeTime (w.drop 1) R' :=
  decodeTime_same (h.imp id fun h => h.imp (fun h b hb => h b (List.mem_of_mem_drop hb)) id)

theorem noLook_congr {σ C α : Type} {m m' : St σ α} {s : σ × C} (h : m s.1 = m' s.1) :
    (noLook m : St (σ × C) α) s = noLook m' s := by
  unfold noLook; rw [h]

theorem St.bind_congr {σ α β : Type} {m m' : St σ α} {f : α → St σ β} {s : σ} (h : m s = m' s) : (m >>= f) s = (m' >>= f) s := by
  rw [St.bind_run, St.bind_run, h]

/-- A number whose unit is known. -/
theorem intervalNumber_unit {w : Bytes} {s : IvS} (h : s.ty ≠ 8) : intervalNumber p w R s = intervalNumber p w R' s := by
  unfold intervalNumber
  rw [St.mod_bind, St.mod_bind, if_neg h, if_neg h]

/-- The same for all fields. -/
theorem intervalField_unit {i : Nat} {f : Field} (h : SameClock R R' f.2) {s : IvS × Unit} (hs : s.1.ty ≠ 8) :
    intervalField p plainLook R i f s = intervalField p plainLook R' i f s := by
  obtain ⟨k, w⟩ := f
  have ht := h.whole
  have hd : decodeTime (w.drop 1) R = decodeTime (w.drop 1) R' := h.unsigned
  unfold intervalField
  dsimp only at ht ⊢
  cases k <;> dsimp only
  all_goals first
    | rfl
    | (rw [ht]; done)
    | exact noLook_congr (St.bind_congr (intervalNumber_unit hs))
    | skip
  refine noLook_congr (St.bind_congr ?_)
  unfold intervalSigned
  rw [hd]
  split
  · rfl
  · exact intervalNumber_unit hs

theorem intervalField_eq {i : Nat} {f : Field} (h : SameClock R R' f.2) (hu : rangeUnit R = rangeUnit R') :
    intervalField p plainLook R i f = intervalField p plainLook R' i f := by
  obtain ⟨k, w⟩ := f
  have ht := h.whole
  have hd : decodeTime (w.drop 1) R = decodeTime (w.drop 1) R' := h.unsigned
  have hn : intervalNumber p w R = intervalNumber p w R' := by unfold intervalNumber; rw [hu]
  unfold intervalField intervalSigned
  dsimp only at ht ⊢
  rw [ht, hd, hn]

theorem intervalLoop_eq {l : List Field} (h : ∀ f ∈ l, SameClock R R' f.2) (hu : rangeUnit R = rangeUnit R') :
    ∀ i, intervalLoop p plainLook R l i = intervalLoop p plainLook R' l i := by
  induction l with
  | nil => intro i; rfl
  | cons f l ih =>
    intro i
    rw [intervalLoop, intervalLoop, ih (fun g hg => h g (by simp [hg])), intervalField_eq (h f (by simp)) hu]

/-- Units are not the mark for a missing unit. -/
theorem lookDelta_unit {i : Nat} {w : Bytes} {s s' : IvS × Unit} {a : TokenType × Int} (h : lookDelta plainLook i w s = (.ok a, s')) :
    s' = s ∧ (a.1 = .units ∨ a.1 = .ago → a.2 ≠ 8) := by
  have : a = tokenResult (lookupIn deltaTable w) ∧ s' = s := by
    simp only [lookDelta, plainLook, searchDelta_eq] at h
    cases h; exact ⟨rfl, rfl⟩
  refine ⟨this.2, ?_⟩
  rw [this.1]
  have all : ∀ e ∈ deltaTable, e.ty = .units ∨ e.ty = .ago → e.value ≠ 8 := by decide +kernel
  cases hl : lookupIn deltaTable w with
  | none => intro h; rcases h with h | h <;> cases h
  | some e => exact all e ((lookupIn_some deltaTable_sorted w e).1 hl).1

theorem addMaskI_ty {s : IvS} {Q : IvS → Prop} (h : ∀ m, Q { s with fMask := m }) : Post addMaskI (fun _ s' => Q s') s := by
  unfold addMaskI
  wp
  exact fun _ => h _

theorem intervalNumber_ty {w : Bytes} {s : IvS} (h : s.ty ≠ 8) : Post (intervalNumber p w R) (fun _ s' => s'.ty ≠ 8) s := by
  unfold intervalNumber
  wp
  rw [if_neg h]
  rintro ⟨v, f, b⟩ -
  dsimp only
  intro t ht
  refine Post.zoom.2 (Post.any fun a s' => ?_)
  dsimp only
  split
  · decide
  · split
    · decide
    · exact h

theorem intervalSigned_ty {w : Bytes} {s : IvS} (h : s.ty ≠ 8) : Post (intervalSigned p w R) (fun _ s' => s'.ty ≠ 8) s := by
  unfold intervalSigned
  split
  · rw [Post.bind]
    refine Post.any fun a s' => ?_
    dsimp only
    split
    · rw [Post.bind]
      refine Post.any fun a s' => ?_
      wp
      decide
    · wp
      decide
  · exact intervalNumber_ty h

theorem intervalField_ty {i : Nat} {f : Field} {s : IvS × Unit} (h : s.1.ty ≠ 8) :
    Post (intervalField p plainLook R i f) (fun _ s' => s'.1.ty ≠ 8) s := by
  obtain ⟨k, w⟩ := f
  have fin : ∀ {m : St IvS Unit}, Post m (fun _ s' => s'.ty ≠ 8) s.1 →
      Post (noLook (m >>= fun _ => addMaskI) : St (IvS × Unit) Unit) (fun _ s' => s'.1.ty ≠ 8) s := by
    intro m hm
    rw [Post.noLook, Post.bind]
    refine hm.mono fun a s' h' => ?_
    exact addMaskI_ty (Q := fun s' => s'.ty ≠ 8) fun m => h'
  have word : Post (do
      let (ty, val) ← lookDelta plainLook i w
      if ty = .ignoreDtf then pure ()
      else noLook do intervalWord ty val; addMaskI) (fun _ s' => s'.1.ty ≠ 8) s := by
    rw [Post.bind]
    rintro ⟨ty, v⟩ s' hl
    obtain ⟨rfl, hv⟩ := lookDelta_unit hl
    dsimp only at hv ⊢
    wp
    refine ⟨fun _ => h, fun _ => ?_⟩
    refine Post.mono (Q := fun _ s' => s'.ty ≠ 8) ?_ fun a s' h' => addMaskI_ty (Q := fun s' => s'.ty ≠ 8) fun m => h'
    unfold intervalWord
    cases ty <;> wp
    · exact fun _ _ => h
    · exact hv (Or.inl rfl)
    · exact hv (Or.inr rfl)
  unfold intervalField
  cases k <;> dsimp only
  all_goals first
    | (wp; done)
    | exact fin (intervalNumber_ty h)
    | exact fin (intervalSigned_ty h)
    | exact word
    | skip
  rw [Post.noLook, Post.bind]
  refine Post.any fun a s' => ?_
  rw [Post.bind, Post.mod]
  exact addMaskI_ty (Q := fun s' => s'.ty ≠ 8) fun m => by dsimp only; decide

theorem intervalLoop_unit {l : List Field} (h : ∀ f ∈ l, SameClock R R' f.2) {s : IvS × Unit} (hs : s.1.ty ≠ 8) (i : Nat) :
    intervalLoop p plainLook R l i s = intervalLoop p plainLook R' l i s ∧
      Post (intervalLoop p plainLook R l i) (fun _ s' => s'.1.ty ≠ 8) s := by
  induction l generalizing i with
  | nil => exact ⟨rfl, Post.pure.2 hs⟩
  | cons f l ih =>
    obtain ⟨h1, h2⟩ := ih (fun g hg => h g (by simp [hg])) (i + 1)
    rw [intervalLoop, intervalLoop]
    constructor
    · rw [St.bind_run, St.bind_run, ← h1]
      rcases hr : intervalLoop p plainLook R l (i + 1) s with ⟨r, t⟩
      cases r with
      | ok a => exact intervalField_unit (h f (by simp)) (h2 a t hr)
      | err e => rfl
      | panic => rfl
    · rw [Post.bind]
      exact h2.mono fun a s' h' => intervalField_ty h'

/-- The last field is decoded first. -/
theorem intervalLoop_snoc {R : Nat} {l : List Field} {f : Field} (i : Nat) (s : IvS × Unit) :
    intervalLoop p plainLook R (l ++ [f]) i s =
      (intervalField p plainLook R (i + l.length) f >>= fun _ => intervalLoop p plainLook R l i) s := by
  induction l generalizing i with
  | nil =>
    simp only [List.nil_append, List.length_nil, Nat.add_zero]
    show intervalField p plainLook R i f s = (intervalField p plainLook R i f >>= fun _ => pure ()) s
    rw [St.bind_run]
    rcases intervalField p plainLook R i f s with ⟨r, t⟩
    cases r <;> rfl
  | cons g l ih =>
    rw [List.cons_append, intervalLoop, St.bind_run, ih, List.length_cons, show i + (l.length + 1) = i + 1 + l.length by omega,
      St.bind_run, St.bind_run]
    rcases intervalField p plainLook R (i + 1 + l.length) f s with ⟨r, t⟩
    cases r with
    | ok a => dsimp only; rw [intervalLoop, St.bind_run]
    | err e => rfl
    | panic => rfl

/-- Equal but for what the second decoder does not use. -/
def SameFields (s t : IvS) : Prop := s.t = t.t ∧ s.dType = t.dType

/-- The last field leaves the same state under both ranges, with the unit known, or fails. -/
def LastSame (p : Profile) (R R' : Nat) (f : Field) : Prop :=
  ∀ j, intervalField p plainLook R j f ({}, ()) = intervalField p plainLook R' j f ({}, ()) ∧
      Post (intervalField p plainLook R j f) (fun _ s' => s'.1.ty ≠ 8) ({}, ()) ∨
    ∃ r t t', (∀ a, r ≠ .ok a) ∧ SameFields t t' ∧ intervalField p plainLook R j f ({}, ()) = (r, (t, ())) ∧
      intervalField p plainLook R' j f ({}, ()) = (r, (t', ()))

theorem intervalLoop_last {l : List Field} {f : Field} (hf : LastSame p R R' f) (h : ∀ f ∈ l, SameClock R R' f.2) (i : Nat) :
    intervalLoop p plainLook R (l ++ [f]) i ({}, ()) = intervalLoop p plainLook R' (l ++ [f]) i ({}, ()) ∨
      ∃ r t t', (∀ a, r ≠ .ok a) ∧ SameFields t t' ∧ intervalLoop p plainLook R (l ++ [f]) i ({}, ()) = (r, (t, ())) ∧
        intervalLoop p plainLook R' (l ++ [f]) i ({}, ()) = (r, (t', ())) := by
  rw [intervalLoop_snoc, intervalLoop_snoc]
  rcases hf (i + l.length) with ⟨h1, h2⟩ | ⟨r, t, t', h1, h2, h3, h4⟩
  · left
    rw [St.bind_run, St.bind_run, ← h1]
    rcases hr : intervalField p plainLook R (i + l.length) f ({}, ()) with ⟨r, t⟩
    cases r with
    | ok a => exact (intervalLoop_unit h (h2 a t hr) i).1
    | err e => rfl
    | panic => rfl
  · right
    refine ⟨r, t, t', h1, h2, ?_, ?_⟩
    · rw [St.bind_run, h3]
      cases r with
      | ok a => exact absurd rfl (h1 a)
      | err e => rfl
      | panic => rfl
    · rw [St.bind_run, h4]
      cases r with
      | ok a => exact absurd rfl (h1 a)
      | err e => rfl
      | panic => rfl

theorem number_lastSame {k : TokenField} {x : Bytes} (hk : k = .date ∨ k = .tz ∧ NoColon x)
    (hx : ∀ a, numberParts p x = .ok a → a.2.2 = true) : LastSame p R R' (k, x) := by
  intro j
  have hf : ∀ R, intervalField p plainLook R j (k, x) = noLook (do intervalNumber p x R; addMaskI) := by
    intro R
    rcases hk with rfl | ⟨rfl, hc⟩
    · rfl
    · show noLook (do intervalSigned p x R; addMaskI) = _
      unfold intervalSigned
      rw [if_neg (by rw [hc]; decide)]
  rw [hf R, hf R']
  cases hp : numberParts p x with
  | ok a =>
    obtain ⟨v, f, b⟩ := a
    obtain rfl : b = true := hx _ hp
    left
    have e : ∀ R, intervalNumber p x R {} = (do
        St.mod fun s => { s with fVal := f, tMask := 0, ty := TokenField.month.value }
        let m ← onTm (addUnit p .month v f)
        St.mod fun s => { s with tMask := m } : St IvS Unit) {} := by
      intro R
      unfold intervalNumber
      rw [St.mod_bind, hp, St.lift_ok_bind]
      rfl
    refine ⟨noLook_congr (St.bind_congr ((e R).trans (e R').symm)), ?_⟩
    rw [Post.noLook, Post.bind]
    intro a s' h
    dsimp only at h
    rw [e R] at h
    refine addMaskI_ty (Q := fun s' => s'.ty ≠ 8) fun m => ?_
    have : Post (do
        St.mod fun s => { s with fVal := f, tMask := 0, ty := TokenField.month.value }
        let m ← onTm (addUnit p .month v f)
        St.mod fun s => { s with tMask := m } : St IvS Unit) (fun _ s' => s'.ty ≠ 8) {} := by
      wp
      refine Post.zoom.2 (Post.any fun a s' => ?_)
      dsimp only
      decide
    exact this a s' h
  | err e =>
    refine Or.inr ⟨.err e, { ty := (rangeUnit R).value }, { ty := (rangeUnit R').value }, by simp, ⟨rfl, rfl⟩, ?_, ?_⟩ <;>
    · unfold intervalNumber
      rw [hp]
      rfl
  | panic =>
    refine Or.inr ⟨.panic, { ty := (rangeUnit R).value }, { ty := (rangeUnit R').value }, by simp, ⟨rfl, rfl⟩, ?_, ?_⟩ <;>
    · unfold intervalNumber
      rw [hp]
      rfl

/-- A clock time. -/
theorem time_lastSame {sg : Option Bool} {x : Bytes} (hx : (x.any fun b => b = 58) = true) (h : SameClock R R' x) :
    LastSame p R R' (timeField sg x) := by
  intro j
  left
  have ht := h.whole
  cases sg with
  | none =>
    constructor
    · have hs : ∀ R, intervalField p plainLook R j (timeField none x) = noLook (do
          onTimeI (decodeTime x R)
          St.mod fun s => { s with ty := TokenField.day.value }
          addMaskI) := fun R => rfl
      rw [hs R, hs R', ht]
    · show Post (noLook _) _ _
      rw [Post.noLook, Post.bind]
      refine Post.any fun a s' => ?_
      rw [Post.bind, Post.mod]
      exact addMaskI_ty (Q := fun s' => s'.ty ≠ 8) fun m => by dsimp only; decide
  | some neg =>
    have hc : (List.any ((if neg then 45 else 43) :: x) fun b => b = 58) = true := by
      rw [List.any_cons, hx, Bool.or_true]
    have hs : ∀ R, intervalField p plainLook R j (timeField (some neg) x) =
        noLook (do intervalSigned p ((if neg then 45 else 43) :: x) R; addMaskI) := fun R => rfl
    rw [hs R, hs R']
    have hi : ∀ R, intervalSigned p ((if neg then 45 else 43) :: x) R = (do
        onTimeI (decodeTime x R)
        (if neg then onTm (flipTime p) else pure ())
        St.mod fun s => { s with ty := TokenField.day.value }) := by
      intro R
      unfold intervalSigned
      rw [if_pos hc]
      cases neg <;> rfl
    rw [hi R, hi R', ht]
    refine ⟨rfl, ?_⟩
    rw [Post.noLook, Post.bind, Post.bind]
    refine Post.any fun a s' => ?_
    rw [Post.bind]
    refine Post.any fun a s' => ?_
    rw [Post.mod]
    exact addMaskI_ty (Q := fun s' => s'.ty ≠ 8) fun m => by dsimp only; decide

/-- A word. -/
theorem word_lastSame {w : Bytes} (hw : Letters w) {f : Field} (hf : LastField w f)
    (hno : lower w ≠ b!"invalid" ∧ lower w ≠ b!"undefined") : LastSame p R R' f := by
  intro j
  have look : ∀ w (s : IvS × Unit), lookDelta plainLook j w s = (.ok (tokenResult (lookupIn deltaTable w)), s) := by
    intro w s
    simp only [lookDelta, plainLook, searchDelta_eq]
  rcases hf with rfl | ⟨hk, hh⟩ | ⟨hk, b, hb, ha⟩
  · left
    refine ⟨rfl, ?_⟩
    unfold intervalField
    dsimp only
    rw [Post.bind]
    rintro ⟨ty, v⟩ s' hl
    obtain ⟨rfl, hv⟩ := lookDelta_unit hl
    rw [look] at hl
    have hres : (ty, v) = tokenResult (lookupIn deltaTable (lower w)) :=
      (Res.ok.inj (congrArg Prod.fst hl)).symm
    have kind : ty ≠ .ignoreDtf ∧ ty ≠ .reserv := by
      cases hlk : lookupIn deltaTable (lower w) with
      | none => rw [hlk] at hres; cases hres; exact ⟨by simp, by simp⟩
      | some e =>
        rw [hlk] at hres
        obtain ⟨hm, ht⟩ := (lookupIn_some deltaTable_sorted _ _).1 hlk
        have all : ∀ e ∈ deltaTable, (e.ty = .ignoreDtf → e.token.head? = some 64) ∧
            (e.ty = .reserv → e.token = b!"invalid" ∨ e.token = b!"undefined") := by decide +kernel
        obtain ⟨a1, a2⟩ := all e hm
        cases hres
        refine ⟨fun hty => ?_, fun hty => ?_⟩
        · have := a1 hty
          rw [ht] at this
          cases w with
          | nil => cases this
          | cons c r =>
            simp only [lower, List.map_cons, List.take_succ_cons, List.head?_cons, Option.some.injEq] at this
            have h1 := lowerB_alpha (hw c (by simp))
            rw [this] at h1; cases h1
        · have cut : ∀ x : Bytes, x.length < 10 → x = (lower w).take 10 → lower w = x := by
            intro x hx hxe
            have := congrArg List.length hxe
            rw [List.length_take] at this
            rw [hxe, List.take_of_length_le (by omega)]
          rcases a2 hty with e' | e'
          · rw [e'] at ht; exact hno.1 (cut _ (by decide) ht)
          · rw [e'] at ht; exact hno.2 (cut _ (by decide) ht)
    dsimp only at hv ⊢
    wp
    refine ⟨fun hty => absurd hty kind.1, fun _ => ?_⟩
    refine Post.mono (Q := fun _ s' => s'.ty ≠ 8) ?_ fun a s' h' => addMaskI_ty (Q := fun s' => s'.ty ≠ 8) fun m => h'
    unfold intervalWord
    cases ty <;> wp
    · exact absurd rfl kind.2
    · exact hv (Or.inl rfl)
    · exact hv (Or.inr rfl)
  · left
    obtain ⟨k, x⟩ := f
    dsimp only at hk hh
    subst hk
    refine ⟨rfl, ?_⟩
    unfold intervalField
    dsimp only
    rw [Post.bind]
    rintro ⟨ty, v⟩ s' hl
    rw [look] at hl
    have hn : lookupIn deltaTable x = none := by
      cases hlk : lookupIn deltaTable x with
      | none => rfl
      | some e =>
        exfalso
        obtain ⟨hm, ht⟩ := (lookupIn_some deltaTable_sorted _ _).1 hlk
        have all : ∀ e ∈ deltaTable, e.token.head? ≠ some 43 ∧ e.token.head? ≠ some 45 := by decide +kernel
        obtain ⟨a1, a2⟩ := all e hm
        rw [ht] at a1 a2
        cases x with
        | nil => rcases hh with h | h <;> cases h
        | cons c r =>
          simp only [List.take_succ_cons, List.head?_cons] at a1 a2 hh
          rcases hh with h | h
          · exact a1 h
          · exact a2 h
    rw [hn] at hl
    cases hl
    dsimp only
    wp
    refine ⟨(fun h => nomatch h), fun _ => ?_⟩
    unfold intervalWord
    wp
  · obtain ⟨k, x⟩ := f
    dsimp only at hk hb
    exact number_lastSame (Or.inl hk) (fun a h => absurd h (numberParts_letter hb ha a)) j

theorem decodeInterval_last {l : List Field} {f : Field} (hf : LastSame p R R' f) (h : ∀ f ∈ l, SameClock R R' f.2) (style : IntervalStyle) :
    decodeInterval p plainLook R style (l ++ [f]) ({}, ()) = decodeInterval p plainLook R' style (l ++ [f]) ({}, ()) ∨
      ∃ r t t', (∀ a, r ≠ .ok a) ∧ SameFields t t' ∧ decodeInterval p plainLook R style (l ++ [f]) ({}, ()) = (r, (t, ())) ∧
        decodeInterval p plainLook R' style (l ++ [f]) ({}, ()) = (r, (t', ())) := by
  unfold decodeInterval
  rcases intervalLoop_last (p := p) hf h 0 with e | ⟨r, t, t', h1, h2, h3, h4⟩
  · exact Or.inl (St.bind_congr e)
  · refine Or.inr ⟨r, t, t', h1, h2, ?_, ?_⟩
    · rw [St.bind_run, h3]
      cases r with
      | ok a => exact absurd rfl (h1 a)
      | err e => rfl
      | panic => rfl
    · rw [St.bind_run, h4]
      cases r with
      | ok a => exact absurd rfl (h1 a)
      | err e => rfl
      | panic => rfl

theorem decodeIso_same {s : Bytes} {t t' : IvS} (h : SameFields t t') :
    (decodeIsoInterval p s t).1 = (decodeIsoInterval p s t').1 ∧
      SameFields (decodeIsoInterval p s t).2 (decodeIsoInterval p s t').2 := by
  obtain ⟨h1, h2⟩ := h
  unfold decodeIsoInterval
  rw [St.mod_bind, St.mod_bind, St.ite_run, St.ite_run]
  split
  · exact ⟨rfl, by dsimp only [St.fail, SameFields]; rw [h1]; exact ⟨rfl, rfl⟩⟩
  · simp only [St.zoom, h1]
    exact ⟨trivial, rfl, rfl⟩

/-- The end of reading an interval. -/
theorem ofDec_then {d d' : IvS} (h : SameFields d d') (typmod : Int) :
    Interval.ofDec p d typmod = (Interval.ofDec p d' (-1) >>= fun v => v.adjustByTypmod p typmod) := by
  obtain ⟨h1, h2⟩ := h
  unfold Interval.ofDec
  rw [h1, h2]
  split
  · cases Interval.fromPgtime p d'.t.1 d'.t.2 <;> rfl
  · rfl

/-- Reading with a type modifier is reading without and adjusting. -/
theorem interval_adjust {c : Caches} (hc : c.Ok) {s : Bytes} (typmod : Int) (style : IntervalStyle)
    (h : ∀ l, scan u s = .ok l →
      decodeInterval p plainLook (parseRange typmod) style l ({}, ()) = decodeInterval p plainLook (parseRange (-1)) style l ({}, ()) ∨
      ∃ r t t', (∀ a, r ≠ .ok a) ∧ SameFields t t' ∧ decodeInterval p plainLook (parseRange typmod) style l ({}, ()) = (r, (t, ())) ∧
        decodeInterval p plainLook (parseRange (-1)) style l ({}, ()) = (r, (t', ()))) :
    Interval.tryFromStr p u c s typmod style =
      (Interval.tryFromStr p u c s (-1) style >>= fun v => v.adjustByTypmod p typmod) := by
  cases hs : scan u s with
  | panic => rw [interval_noScan hc typmod style (Or.inl ⟨hs, rfl⟩), interval_noScan hc (-1) style (Or.inl ⟨hs, rfl⟩)]; rfl
  | err e => rw [interval_noScan hc typmod style (Or.inr ⟨e, hs, rfl⟩), interval_noScan hc (-1) style (Or.inr ⟨e, hs, rfl⟩)]; rfl
  | ok l =>
    have fin : ∀ (r : Res Unit) (d d' : IvS), SameFields d d' →
        St.orElse (decodeInterval p plainLook (parseRange typmod) style l) (noLook (decodeIsoInterval p s)) ({}, ()) = (r, (d, ())) →
        St.orElse (decodeInterval p plainLook (parseRange (-1)) style l) (noLook (decodeIsoInterval p s)) ({}, ()) = (r, (d', ())) →
        Interval.tryFromStr p u c s typmod style =
          (Interval.tryFromStr p u c s (-1) style >>= fun v => v.adjustByTypmod p typmod) := by
      intro r d d' hd h1 h2
      rw [interval_run p u hc typmod style hs h1, interval_run p u hc (-1) style hs h2]
      cases r with
      | ok a => exact ofDec_then hd typmod
      | err e => rfl
      | panic => rfl
    rcases h l hs with e | ⟨r, t, t', h1, h2, h3, h4⟩
    · rcases hr : St.orElse (decodeInterval p plainLook (parseRange (-1)) style l) (noLook (decodeIsoInterval p s)) ({}, ()) with ⟨r, d, w⟩
      refine fin r d d ⟨rfl, rfl⟩ ?_ hr
      rw [← hr]
      unfold St.orElse
      rw [e]
    · by_cases hi : r = .err .invalid
      · subst hi
        obtain ⟨e1, e2⟩ := decodeIso_same (p := p) (s := s) h2
        refine fin (decodeIsoInterval p s t).1 (decodeIsoInterval p s t).2 (decodeIsoInterval p s t').2 e2 ?_ ?_
        · unfold St.orElse; rw [h3]; rfl
        · unfold St.orElse; rw [h4, e1]; rfl
      · refine fin r t t' h2 ?_ ?_
        · unfold St.orElse; rw [h3]
          cases r with
          | err e => cases e <;> first | rfl | exact absurd rfl hi
          | _ => rfl
        · unfold St.orElse; rw [h4]
          cases r with
          | err e => cases e <;> first | rfl | exact absurd rfl hi
          | _ => rfl

/-- A number of the form `years-months` has its unit. -/
theorem ym_lastSame (sg : Option Bool) {ys ms : Bytes} (hy : Digits ys) (hne : ys ≠ []) (hm : Digits ms) :
    LastSame p R R' (ymField sg ys ms) := by
  have key : ∀ {w : Bytes}, (∀ v s, str2i32 w = .ok (v, s) → s = 45 :: ms) → ∀ a, numberParts p w = .ok a → a.2.2 = true := by
    intro w hw a h
    unfold numberParts at h
    obtain ⟨⟨v, s⟩, h1, h⟩ := Res.bind_eq_ok.1 h
    obtain rfl := hw v s h1
    dsimp only at h
    rw [if_pos rfl] at h
    obtain ⟨k, -, h⟩ := Res.bind_eq_ok.1 h
    cases h
    rfl
  have rest : ∀ {w : Bytes} {k : Int}, w.dropWhile isSpace = w → w ≠ [] → extractSign w = (k, ys ++ 45 :: ms) →
      ∀ v s, str2i32 w = .ok (v, s) → s = 45 :: ms := by
    intro w k h1 h2 h3 v s h
    unfold str2i32 at h
    rw [h1] at h
    dsimp only at h
    rw [if_neg (by cases w with | nil => exact absurd rfl h2 | cons => simp), h3] at h
    dsimp only at h
    rw [dropWhile_span (digits_isDigit hy) (Stops.cons rfl)] at h
    split at h
    · cases h
    · split at h
      · cases h; rfl
      · cases h
  have hc := ym_kind sg hy hm
  have hnc : (ymField sg ys ms).1 = .date ∨ (ymField sg ys ms).1 = .tz ∧ NoColon (ymField sg ys ms).2 := by
    rcases hc with h | h | h
    · cases sg <;> cases h
    · exact Or.inl h
    · exact Or.inr h
  refine number_lastSame hnc ?_
  obtain ⟨c, t, hct, hc1, hc2, hc3, hc4⟩ := digit_head (r := 45 :: ms) hy hne
  cases sg with
  | none =>
    refine key (rest (k := 1) ?_ ?_ ?_) <;> dsimp only [ymField]
    · rw [hct, List.dropWhile_cons_of_neg (by simp [hc2])]
    · rw [hct]; exact List.cons_ne_nil _ _
    · rw [hct]
      unfold extractSign
      split
      · rename_i h; injection h with h _; exact absurd h hc3
      · rename_i h; injection h with h _; exact absurd h hc4
      · rfl
  | some neg =>
    cases neg
    · exact key (rest (k := 1) rfl (List.cons_ne_nil _ _) rfl)
    · exact key (rest (k := -1) rfl (List.cons_ne_nil _ _) rfl)

end Pg
