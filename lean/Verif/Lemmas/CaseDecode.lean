import Verif.Lemmas.LetterCase
import Verif.Lemmas.ParseRun
import Verif.Lemmas.NoPanic

/-! # Decoding fields that differ in letter case -/

namespace Pg

/-- The two computations do the same, or both give an error. -/
def Agree {σ α : Type} (m n : St σ α) : Prop :=
  ∀ s, m s = n s ∨ ((m s).1.IsErr ∧ (n s).1.IsErr)

theorem Agree.refl {σ α : Type} (m : St σ α) : Agree m m := fun _ => .inl rfl

theorem Agree.bind {σ α β : Type} {m n : St σ α} {f g : α → St σ β} (h : Agree m n) (hf : ∀ a, Agree (f a) (g a)) :
    Agree (m >>= f) (n >>= g) := by
  have no : ∀ {x : St σ α} {k : α → St σ β} {s : σ}, (x s).1.IsErr → ((x >>= k) s).1.IsErr := by
    intro x k s hx
    rw [St.bind_run]
    obtain ⟨e, hx⟩ := hx
    cases hxs : x s with
    | mk r s' =>
      rw [hxs] at hx
      cases hx
      exact ⟨e, rfl⟩
  intro s
  rcases h s with e | ⟨h1, h2⟩
  · rw [St.bind_run, St.bind_run, e]
    cases n s with
    | mk r s' =>
      cases r with
      | ok a => exact hf a s'
      | err e => exact .inl rfl
      | panic => exact .inl rfl
  · exact .inr ⟨no h1, no h2⟩

theorem Agree.zoom {σ τ α : Type} {proj : σ → τ} {put : τ → σ → σ} {m n : St τ α} (h : Agree m n) :
    Agree (St.zoom proj put m) (St.zoom proj put n) := by
  intro s
  rcases h (proj s) with e | ⟨h1, h2⟩
  · left; rw [St.zoom, St.zoom, e]
  · exact .inr ⟨h1, h2⟩

theorem Agree.never {σ α : Type} {m n : St σ α} (h1 : ∀ s, (m s).1.IsErr) (h2 : ∀ s, (n s).1.IsErr) :
    Agree m n := fun s => .inr ⟨h1 s, h2 s⟩

theorem St.bind_okInv {σ α β : Type} {m : St σ α} {f : α → St σ β} {s s'' : σ} {b : β}
    (h : (m >>= f) s = (.ok b, s'')) : ∃ a s', m s = (.ok a, s') ∧ f a s' = (.ok b, s'') := by
  rw [St.bind_run] at h
  cases hm : m s with
  | mk r s' =>
    rw [hm] at h
    cases r with
    | ok a => exact ⟨a, s', rfl, h⟩
    | err e => cases h
    | panic => cases h

/-- The first byte is a letter. -/
def AlphaHead (f : Bytes) : Prop := (f.head?.map isAlpha) = some true

theorem lower_head (f : Bytes) : AlphaHead (lower f) ↔ AlphaHead f := by
  cases f with
  | nil => exact Iff.rfl
  | cons c r =>
    unfold AlphaHead
    simp only [lower_cons, List.head?_cons, Option.map_some, alpha_free c]

theorem lookDate_fst {σ C : Type} {L : Look C} {i : Nat} {w : Bytes} {s s' : σ × C} {a : TokenType × Int}
    (h : lookDate L i w s = (.ok a, s')) : s'.1 = s.1 := by
  have e : (lookDate L i w s).2 = s' := congrArg Prod.snd h
  rw [← e]; rfl

/-- Once a month is known a further word stays to be read as a number. -/
theorem textPass_leaves {C : Type} {L : Look C} {fs : List Bytes} {i : Nat} {s s' : DateS × C}
    {left : List (Option Bytes)} (h : textPass L fs i s = (.ok left, s')) (hm : s.1.fMask &&& 2 ≠ 0) :
    ∀ f ∈ fs, AlphaHead f → some f ∈ left := by
  induction fs generalizing i s left with
  | nil => intro f hf; cases hf
  | cons f fs ih =>
    rw [textPass] at h
    by_cases ha : (f.head?.map isAlpha) = some true
    · rw [if_pos ha] at h
      obtain ⟨⟨ty, val⟩, s1, h1, h2⟩ := St.bind_okInv h
      have e1 := lookDate_fst h1
      simp only at h2
      by_cases hi : ty = .ignoreDtf
      · rw [if_pos hi] at h2
        obtain ⟨r, s2, h3, h4⟩ := St.bind_okInv h2
        cases h4
        intro g hg hga
        rcases List.mem_cons.mp hg with rfl | hg
        · exact List.mem_cons_self ..
        · exact List.mem_cons_of_mem _ (ih h3 (by rw [e1]; exact hm) g hg hga)
      · rw [if_neg hi] at h2
        by_cases hmo : ty = .month
        · rw [if_pos hmo] at h2
          obtain ⟨_, s2, h3, h4⟩ := St.bind_okInv h2
          cases h3
          obtain ⟨d, s3, h5, h6⟩ := St.bind_okInv h4
          cases h5
          rw [if_pos (by show s1.1.fMask &&& 2 ≠ 0; rw [e1]; exact hm)] at h6
          cases h6
        · rw [if_neg hmo] at h2; cases h2
    · rw [if_neg ha] at h
      obtain ⟨r, s2, h3, h4⟩ := St.bind_okInv h
      cases h4
      intro g hg hga
      rcases List.mem_cons.mp hg with rfl | hg
      · exact absurd hga ha
      · exact List.mem_cons_of_mem _ (ih h3 hm g hg hga)

theorem str2i32_alpha {f : Bytes} (h : AlphaHead f) : str2i32 f = .ok (0, f) := by
  cases f with
  | nil => cases h
  | cons c r =>
    have hc : isAlpha c = true := by simpa [AlphaHead] using h
    have hs : ¬ isSpace c = true := by rw [alpha_noSpace c hc]; simp
    have hd : ¬ isDigit c = true := by
      rw [isAlpha_iff] at hc; rw [isDigit_iff]; omega
    have h43 : c ≠ 43 := by rintro rfl; cases hc
    have h45 : c ≠ 45 := by rintro rfl; cases hc
    have he : extractSign (c :: r) = (1, c :: r) := by
      unfold extractSign
      split
      · rename_i e; cases e; exact absurd rfl h43
      · rename_i e; cases e; exact absurd rfl h45
      · rfl
    unfold str2i32
    simp only [List.dropWhile_cons_of_neg hs, he, List.takeWhile_cons_of_neg hd, List.dropWhile_cons_of_neg hd]
    rw [if_neg (by simp), if_neg (by simp)]
    rfl

theorem decodeNumber_alpha {f : Bytes} (h : AlphaHead f) (t : Bool) (m : Nat) (order : DateOrder) (s : NumS) (a : Unit) :
    (decodeNumber f t m order s).1 ≠ .ok a := by
  unfold decodeNumber
  rw [St.mod_bind, str2i32_alpha h, St.lift_ok_bind]
  simp only [if_true]
  exact fun h => by cases h

theorem numPass_alpha {order : DateOrder} {left : List (Option Bytes)} {f : Bytes} (h : AlphaHead f)
    (hf : some f ∈ left) (s : DateS) (a : Unit) : (numPass order left s).1 ≠ .ok a := by
  induction left generalizing s with
  | nil => cases hf
  | cons g fs ih =>
    rcases List.mem_cons.mp hf with rfl | hf'
    · have he : ¬ f.isEmpty = true := by cases f with
        | nil => cases h
        | cons c r => simp
      rw [numPass, if_neg he, St.get_bind]
      intro hx
      cases hy : (St.zoom (fun s : DateS => (⟨s.dMask, s.tm, s.fsec, s.is2⟩ : NumS))
        (fun n s => { s with dMask := n.tMask, tm := n.tm, fsec := n.fsec, is2 := n.is2 })
        (decodeNumber f s.haveText s.fMask order)) s with
      | mk r s' =>
        cases r with
        | ok b =>
          have := congrArg Prod.fst hy
          exact decodeNumber_alpha h _ _ _ _ _ this
        | err e => rw [St.bind_err hy] at hx; cases hx
        | panic => rw [St.bind_panic hy] at hx; cases hx
    · cases g with
      | none => rw [numPass]; exact ih hf' s
      | some g =>
        rw [numPass]
        split
        · exact fun h => by cases h
        · rw [St.get_bind]
          intro hx
          obtain ⟨_, s1, -, h2⟩ := St.bind_okInv (s'' := _) (b := a) (Prod.ext hx rfl)
          rw [St.get_bind] at h2
          split at h2
          · cases h2
          · rw [St.mod_bind] at h2
            exact ih hf' _ (congrArg Prod.fst h2)

/-- What `decode_date` does with the parts. -/
def dateParts {C : Type} (L : Look C) (order : DateOrder) (fields : List Bytes) : St (DateS × C) Unit := do
  let left ← textPass L fields 0
  noLook (numPass order left)
  let s ← noLook St.get
  if s.fMask &&& 4294934495 ≠ DTK_DATE_M then St.fail .invalid else pure ()

/-- Two words in one date field are never accepted. -/
theorem two_words {C : Type} (L : Look C) (order : DateOrder) {w : Bytes} {tl : List Bytes} (hw : AlphaHead w)
    (ht : ∃ f ∈ tl, AlphaHead f) (s : DateS × C) (a : Unit) : (dateParts L order (w :: tl) s).1 ≠ .ok a := by
  obtain ⟨f, hf, hfa⟩ := ht
  intro hx
  obtain ⟨left, s1, h1, h2⟩ := St.bind_okInv (s'' := _) (b := a) (Prod.ext hx rfl)
  obtain ⟨_, s2, h3, -⟩ := St.bind_okInv h2
  have bad : ∀ g, some g ∈ left → AlphaHead g → False := by
    intro g hg hga
    have := congrArg Prod.fst h3
    exact numPass_alpha hga hg _ _ this
  have hw' : (w.head?.map isAlpha) = some true := hw
  rw [textPass, if_pos hw'] at h1
  obtain ⟨⟨ty, val⟩, s4, h4, h5⟩ := St.bind_okInv h1
  have e1 := lookDate_fst h4
  simp only at h5
  by_cases hi : ty = .ignoreDtf
  · rw [if_pos hi] at h5
    obtain ⟨r, s5, h6, h7⟩ := St.bind_okInv h5
    cases h7
    exact bad w (List.mem_cons_self ..) hw
  · rw [if_neg hi] at h5
    by_cases hmo : ty = .month
    · rw [if_pos hmo] at h5
      obtain ⟨_, s5, h6, h7⟩ := St.bind_okInv h5
      cases h6
      obtain ⟨d, s6, h8, h9⟩ := St.bind_okInv h7
      cases h8
      split at h9
      · cases h9
      · obtain ⟨_, s7, h10, h11⟩ := St.bind_okInv h9
        cases h10
        obtain ⟨r, s8, h12, h13⟩ := St.bind_okInv h11
        cases h13
        refine bad f (List.mem_cons_of_mem _ (textPass_leaves h12 ?_ f hf hfa)) hfa
        show (s4.1.fMask ||| 2) &&& 2 ≠ 0
        rw [Nat.and_or_distrib_right]
        intro h0
        have := Nat.or_eq_zero_iff.mp h0
        exact absurd this.2 (by decide)
    · rw [if_neg hmo] at h5; cases h5

theorem dateSplit_lower (n : Nat) (s : Bytes) (nf : Nat) :
    dateSplit n (lower s) nf = (dateSplit n s nf).map (List.map lower) := by
  induction n generalizing s nf with
  | zero => rfl
  | succ n ih =>
    have f1 : CaseFree fun b => decide (¬ isAlnum b = true) := by intro b; simp only [alnum_free b]
    have he : (lower s).isEmpty = s.isEmpty := by cases s <;> rfl
    rw [dateSplit, dateSplit, he]
    by_cases h0 : s.isEmpty = true ∨ nf ≥ 25
    · rw [if_pos h0, if_pos h0]; rfl
    · rw [if_neg h0, if_neg h0, lower_drop f1]
      cases s.dropWhile fun b => decide (¬ isAlnum b = true) with
      | nil => rfl
      | cons c r =>
        simp only [lower_cons, digit_free c]
        simp only [← lower_cons]
        by_cases h1 : isDigit c = true
        · rw [if_pos h1, if_pos h1, lower_drop digit_free, lower_take digit_free, ih]
          cases dateSplit n ((c :: r).dropWhile isDigit) (nf + 1) <;> rfl
        · rw [if_neg h1, if_neg h1, lower_drop alpha_free, lower_take alpha_free, ih]
          cases dateSplit n ((c :: r).dropWhile isAlpha) (nf + 1) <;> rfl

theorem dateSplit_parts {n : Nat} {s : Bytes} {nf : Nat} {fs : List Bytes} (h : dateSplit n s nf = .ok fs) :
    ∀ f ∈ fs, (∀ b ∈ f, isDigit b = true) ∨ AlphaHead f := by
  induction n generalizing s nf fs with
  | zero => cases h; simp
  | succ n ih =>
    rw [dateSplit] at h
    split at h
    · cases h; simp
    · split at h
      · cases h
      · rename_i c r hd
        split at h
        · obtain ⟨l, h1, h2⟩ := Res.bind_eq_ok.mp h
          cases h2
          intro f hf
          rcases List.mem_cons.mp hf with rfl | hf
          · exact .inl fun b hb => List.all_eq_true.mp (List.all_takeWhile (l := c :: r) (p := isDigit)) b hb
          · exact ih h1 f hf
        · rename_i hnd
          obtain ⟨l, h1, h2⟩ := Res.bind_eq_ok.mp h
          cases h2
          intro f hf
          rcases List.mem_cons.mp hf with rfl | hf
          · right
            have := List.head?_dropWhile_not (fun b => decide (¬ isAlnum b = true)) s
            rw [hd] at this
            have hal : isAlnum c = true := by simpa using this
            have hc : isAlpha c = true := by
              rw [isAlnum] at hal
              simpa [hnd] using hal
            rw [List.takeWhile_cons_of_pos hc]
            simpa [AlphaHead] using hc
          · exact ih h1 f hf

theorem two_words_err (order : DateOrder) {w : Bytes} {tl : List Bytes} (hw : AlphaHead w)
    (ht : ∃ f ∈ tl, AlphaHead f) (s : DateS × Unit) : (dateParts plainLook order (w :: tl) s).1.IsErr := by
  have hc : Calm (dateParts plainLook order (w :: tl)) := by
    unfold dateParts
    exact Keeps.bind (textPass_calm _ _) fun _ => Keeps.bind (Keeps.calm_noLook (numPass_calm _ _)) fun _ => by
      quietly
      exact Keeps.calm_noLook (by quietly)
  cases h : (dateParts plainLook order (w :: tl) s).1 with
  | ok a => exact absurd h (two_words plainLook order hw ht s a)
  | err e => exact ⟨e, rfl⟩
  | panic => exact absurd h (hc s trivial).1

theorem agree_dateBody (order : DateOrder) {str : Bytes} (ha : AlphaHead str)
    (hw : NoUpper (str.takeWhile isAlpha)) : Agree (dateBody plainLook str order) (dateBody plainLook (lower str) order) := by
  have hb : ∀ s, dateBody plainLook s order = St.lift (dateSplit (s.length + 1) s 0) >>= dateParts plainLook order := fun _ => rfl
  rw [hb, hb, lower_length, dateSplit_lower]
  cases hs : dateSplit (str.length + 1) str 0 with
  | err e => exact Agree.refl _
  | panic => exact Agree.refl _
  | ok fs =>
    have hp := dateSplit_parts hs
    have hfs : ∃ tl, fs = str.takeWhile isAlpha :: tl := by
      cases str with
      | nil => cases ha
      | cons c r =>
        have hc : isAlpha c = true := by simpa [AlphaHead] using ha
        have hd : ¬ isDigit c = true := by
          rw [isAlpha_iff] at hc; rw [isDigit_iff]; omega
        have hal : isAlnum c = true := by rw [isAlnum, hc]; rfl
        rw [dateSplit, if_neg (by simp), List.dropWhile_cons_of_neg (by simp [hal])] at hs
        simp only at hs
        rw [if_neg hd] at hs
        obtain ⟨l, h1, h2⟩ := Res.bind_eq_ok.mp hs
        cases h2
        exact ⟨l, rfl⟩
    obtain ⟨tl, rfl⟩ := hfs
    have hwa : AlphaHead (str.takeWhile isAlpha) := by
      cases str with
      | nil => cases ha
      | cons c r =>
        have hc : isAlpha c = true := by simpa [AlphaHead] using ha
        rw [List.takeWhile_cons_of_pos hc]
        simpa [AlphaHead] using hc
    by_cases ht : ∃ f ∈ tl, AlphaHead f
    · refine Agree.never (fun s => ?_) (fun s => ?_)
      · rw [St.lift_ok_bind]; exact two_words_err order hwa ht s
      · rw [Res.map, St.lift_ok_bind, List.map_cons]
        refine two_words_err order ((lower_head _).2 hwa) ?_ s
        obtain ⟨f, hf, hfa⟩ := ht
        exact ⟨lower f, List.mem_map.mpr ⟨f, hf, rfl⟩, (lower_head _).2 hfa⟩
    · have : (str.takeWhile isAlpha :: tl).map lower = str.takeWhile isAlpha :: tl := by
        rw [List.map_cons, lower_same hw]
        congr 1
        refine (List.map_congr_left fun f hf => ?_).trans (List.map_id tl)
        refine lower_same ?_
        rcases hp f (List.mem_cons_of_mem _ hf) with h | h
        · intro b hb; exact digit_noUpper b (h b hb)
        · exact absurd ⟨f, hf, h⟩ ht
      rw [Res.map, this]
      exact Agree.refl _

theorem agree_decodeDate (order : DateOrder) {str : Bytes} (ha : AlphaHead str)
    (hw : NoUpper (str.takeWhile isAlpha)) : Agree (decodeDate plainLook str order) (decodeDate plainLook (lower str) order) :=
  (agree_dateBody order ha hw).zoom

theorem agree_dateToken (p : Profile) (order : DateOrder) {str : Bytes} (ha : AlphaHead str)
    (hw : NoUpper (str.takeWhile isAlpha)) : Agree (dateToken p plainLook str order) (dateToken p plainLook (lower str) order) := by
  unfold dateToken
  refine Agree.bind (Agree.refl _) fun d => ?_
  by_cases h1 : d.pType = .julian
  · rw [if_pos h1, if_pos h1, str2i32_alpha ha, str2i32_alpha ((lower_head _).2 ha)]
    exact Agree.refl _
  · rw [if_neg h1, if_neg h1]
    by_cases h2 : d.pType ≠ .number ∨ d.fMask &&& 10 = 10
    · rw [if_pos h2, if_pos h2]
      cases str with
      | nil => cases ha
      | cons c r =>
        simp only [lower_cons, digit_free c]
        exact Agree.refl _
    · rw [if_neg h2, if_neg h2]
      exact agree_decodeDate order ha hw

theorem agree_field (p : Profile) (order : DateOrder) (ft : List TokenField) (i : Nat)
    {f : Field} (h : TidyField f) : Agree (dateTimeField p plainLook order ft i f) (dateTimeField p plainLook order ft i (lowF f)) := by
  rcases h with h | ⟨hd, ⟨c, r, hcr, hc⟩, hw⟩
  · rw [lowF, lower_same h]; exact Agree.refl _
  · have ha : AlphaHead f.2 := by rw [hcr]; simpa [AlphaHead] using hc
    unfold dateTimeField lowF
    simp only [hd]
    exact Agree.bind (agree_dateToken p order ha hw) fun _ => Agree.refl _

theorem agree_fieldT (p : Profile) (order : DateOrder) (ft : List TokenField) (i : Nat)
    {f : Field} (h : TidyField f) : Agree (timeOnlyField p plainLook order ft i f) (timeOnlyField p plainLook order ft i (lowF f)) := by
  rcases h with h | ⟨hd, ⟨c, r, hcr, hc⟩, hw⟩
  · rw [lowF, lower_same h]; exact Agree.refl _
  · have ha : AlphaHead f.2 := by rw [hcr]; simpa [AlphaHead] using hc
    unfold timeOnlyField lowF
    simp only [hd]
    refine Agree.bind ?_ fun _ => Agree.refl _
    unfold dateTokenT
    split
    · exact agree_decodeDate order ha hw
    · exact Agree.refl _

theorem agree_loop (p : Profile) (order : DateOrder) (ft : List TokenField) (i : Nat)
    {l : List Field} (h : ∀ f ∈ l, TidyField f) :
    Agree (dateTimeLoop p plainLook order ft l i) (dateTimeLoop p plainLook order ft (l.map lowF) i) := by
  induction l generalizing i with
  | nil => exact Agree.refl _
  | cons f l ih =>
    exact Agree.bind (agree_field p order ft i (h f (List.mem_cons_self ..))) fun _ =>
      ih (i + 1) fun g hg => h g (List.mem_cons_of_mem _ hg)

theorem agree_loopT (p : Profile) (order : DateOrder) (ft : List TokenField) (i : Nat)
    {l : List Field} (h : ∀ f ∈ l, TidyField f) :
    Agree (timeOnlyLoop p plainLook order ft l i) (timeOnlyLoop p plainLook order ft (l.map lowF) i) := by
  induction l generalizing i with
  | nil => exact Agree.refl _
  | cons f l ih =>
    exact Agree.bind (agree_fieldT p order ft i (h f (List.mem_cons_self ..))) fun _ =>
      ih (i + 1) fun g hg => h g (List.mem_cons_of_mem _ hg)

theorem lowF_types (l : List Field) : (l.map lowF).map Prod.fst = l.map Prod.fst := by
  rw [List.map_map]; rfl

theorem agree_dateTime (p : Profile) (order : DateOrder) {l : List Field}
    (h : ∀ f ∈ l, TidyField f) : Agree (decodeDateTime p plainLook order l) (decodeDateTime p plainLook order (l.map lowF)) := by
  unfold decodeDateTime
  rw [lowF_types]
  exact Agree.bind (agree_loop p order _ 0 h) fun _ => Agree.refl _

theorem agree_timeOnly (p : Profile) (order : DateOrder) {l : List Field}
    (h : ∀ f ∈ l, TidyField f) : Agree (decodeTimeOnly p plainLook order l) (decodeTimeOnly p plainLook order (l.map lowF)) := by
  unfold decodeTimeOnly
  rw [lowF_types]
  exact Agree.bind (agree_loopT p order _ 0 h) fun _ => Agree.refl _

theorem Agree.runLocal {σ C α : Type} {init : σ} {m n : St (σ × C) α} (h : Agree m n) :
    Agree (runLocal init m) (runLocal init n) := by
  intro c
  rcases h (init, c) with e | ⟨h1, h2⟩
  · left; rw [Pg.runLocal, Pg.runLocal, e]
  · have no : ∀ {x : St (σ × C) α}, (x (init, c)).1.IsErr → (Pg.runLocal init x c).1.IsErr := by
      intro x hx
      obtain ⟨e, hx⟩ := hx
      rw [Pg.runLocal]
      cases hxs : x (init, c) with
      | mk r s' =>
        rw [hxs] at hx
        cases hx
        exact ⟨e, rfl⟩
    exact .inr ⟨no h1, no h2⟩

/-- Parsing a text and its lower-case form. -/
theorem agree_parse {C α β : Type} (u : TokenField) (s : Bytes) (m : List Field → St C α) (f : α → St C β)
    (h : ∀ l, (∀ g ∈ l, TidyField g) → Agree (m l) (m (l.map lowF))) :
    Agree (St.lift (scan u s) >>= fun l => m l >>= f) (St.lift (scan u (lower s)) >>= fun l => m l >>= f) := by
  rw [scan_lower]
  cases hs : scan u s with
  | err e => exact Agree.refl _
  | panic => exact Agree.refl _
  | ok l => exact fun c => (Agree.bind (h l (scan_tidy hs)) fun _ => Agree.refl _) c

theorem agree_date (p : Profile) (u : TokenField) (order : DateOrder) (s : Bytes) :
    Agree (Date.tryFromStrW p plainLook u order s) (Date.tryFromStrW p plainLook u order (lower s)) :=
  agree_parse u s _ _ fun _ h => (agree_dateTime p order h).runLocal

theorem agree_timestamp (p : Profile) (u : TokenField) (typmod : Int) (order : DateOrder) (s : Bytes) :
    Agree (Timestamp.tryFromStrW p plainLook u typmod order s) (Timestamp.tryFromStrW p plainLook u typmod order (lower s)) :=
  agree_parse u s _ _ fun _ h => (agree_dateTime p order h).runLocal

theorem agree_time (p : Profile) (u : TokenField) (typmod : Int) (order : DateOrder) (s : Bytes) :
    Agree (Time.tryFromStrW p plainLook u typmod order s) (Time.tryFromStrW p plainLook u typmod order (lower s)) :=
  agree_parse u s _ _ fun _ h => (agree_timeOnly p order h).runLocal

/-! ## Intervals -/

theorem intervalNumber_alpha {f : Bytes} (ha : AlphaHead f) (p : Profile) (range : Nat) :
    intervalNumber p (lower f) range = intervalNumber p f range := by
  have : ∀ g, AlphaHead g → numberParts p g = .err .invalid := by
    intro g hg
    unfold numberParts
    rw [str2i32_alpha hg, Res.bind_ok]
    cases g with
    | nil => cases hg
    | cons c r =>
      have hc : isAlpha c = true := by simpa [AlphaHead] using hg
      have h46 : c ≠ 46 := by rintro rfl; cases hc
      have h45 : c ≠ 45 := by rintro rfl; cases hc
      simp only [if_neg h46, if_neg h45]
  unfold intervalNumber
  rw [this f ha, this _ ((lower_head _).2 ha)]

theorem intervalField_lower {C : Type} (p : Profile) (L : Look C) (range i : Nat) {f : Field} (h : TidyField f) :
    intervalField p L range i (lowF f) = intervalField p L range i f := by
  rcases h with h | ⟨hd, ⟨c, r, hcr, hc⟩, hw⟩
  · rw [lowF, lower_same h]
  · have ha : AlphaHead f.2 := by rw [hcr]; simpa [AlphaHead] using hc
    unfold intervalField lowF
    simp only [hd]
    rw [intervalNumber_alpha ha]

theorem intervalLoop_lower {C : Type} (p : Profile) (L : Look C) (range i : Nat) {l : List Field}
    (h : ∀ f ∈ l, TidyField f) : intervalLoop p L range (l.map lowF) i = intervalLoop p L range l i := by
  induction l generalizing i with
  | nil => rfl
  | cons f l ih =>
    rw [List.map_cons, intervalLoop, intervalLoop, ih _ fun g hg => h g (List.mem_cons_of_mem _ hg),
      intervalField_lower p L range i (h f (List.mem_cons_self ..))]

theorem hasSign_lower (b : Bytes) : hasSign (lower b) = hasSign b := by
  cases b with
  | nil => rfl
  | cons c r =>
    simp only [hasSign, lower_cons, List.head?_cons, Option.some.injEq, lowerB_eq (show NotLetter 45 from rfl),
      lowerB_eq (show NotLetter 43 from rfl)]

theorem sqlSign_lower (style : IntervalStyle) (l : List Field) : sqlSign style (l.map lowF) = sqlSign style l := by
  cases l with
  | nil => rfl
  | cons f fs =>
    have : ((fs.map lowF).any fun g => hasSign g.2) = fs.any fun g => hasSign g.2 := by
      rw [List.any_map]
      congr 1
      funext g
      exact hasSign_lower g.2
    simp only [List.map_cons, sqlSign, this]
    split
    · simp only [lowF]
      cases f.2 with
      | nil => rfl
      | cons c r => simp only [lower_cons, lowerB_eq (show NotLetter 45 from rfl)]
    · rfl

theorem decodeInterval_lower {C : Type} (p : Profile) (L : Look C) (range : Nat) (style : IntervalStyle) {l : List Field}
    (h : ∀ f ∈ l, TidyField f) : decodeInterval p L range style (l.map lowF) = decodeInterval p L range style l := by
  unfold decodeInterval
  rw [intervalLoop_lower p L range 0 h]
  simp only [sqlSign_lower]

end Pg
