import Verif.Lemmas.Clocks

/-! # The year and the day of the year of a text -/

namespace Pg
open Spec

/-! ## One number -/

/-- What a number does to the fields of a date; `m` is the mask of the fields seen before it. -/
structure Eff (m : Nat) (w : Bytes) (s s' : NumS) : Prop where
  doy : s'.tMask.testBit 15 = true → w.length = 3 ∧ m &&& 14 = 4 ∧ s'.tMask = 32778 ∧ s'.tm.year = s.tm.year ∧
    1 ≤ s'.tm.yday ∧ s'.tm.yday ≤ 366
  yday : s'.tMask.testBit 15 = false → s'.tm.yday = s.tm.yday
  year : s'.tm.year ≠ s.tm.year → s'.tMask.testBit 2 = true ∨ m &&& 14 = 6
  first : s'.tMask = 4 → ∃ r, str2i32 w = .ok (s'.tm.year, r)
  four : s'.tMask.testBit 2 = true → s'.tMask = 4 ∨ s'.tMask = 14
  mon : s'.tm.mon ≠ s.tm.mon → s'.tMask.testBit 1 = true
  mday : s'.tm.mday ≠ s.tm.mday → s'.tMask.testBit 3 = true
  max : s'.tm.year = s.tm.year ∨ s'.tm.year ≤ 2147483647

/-- The date is left alone. -/
structure SameDate (y : PgTime) (s : NumS) : Prop where
  year : s.tm.year = y.year
  mon : s.tm.mon = y.mon
  mday : s.tm.mday = y.mday
  yday : s.tm.yday = y.yday

/-- The date is left alone; the mask is that of a time of day or none. -/
structure Alone (y : PgTime) (s : NumS) : Prop where
  year : s.tm.year = y.year
  mon : s.tm.mon = y.mon
  mday : s.tm.mday = y.mday
  yday : s.tm.yday = y.yday
  mask : s.tMask = 0 ∨ s.tMask = 31744

theorem Alone.eff {m : Nat} {w : Bytes} {s s' : NumS} (h : Alone s.tm s') : Eff m w s s' := by
  have h15 : s'.tMask.testBit 15 = false := by rcases h.mask with e | e <;> rw [e] <;> decide
  have h2 : s'.tMask.testBit 2 = false := by rcases h.mask with e | e <;> rw [e] <;> decide
  refine ⟨?_, fun _ => h.yday, fun n => absurd h.year n, ?_, ?_, fun n => absurd h.mon n, fun n => absurd h.mday n, Or.inl h.year⟩
  · intro e; rw [h15] at e; cases e
  · intro e; rcases h.mask with e' | e' <;> rw [e'] at e <;> cases e
  · intro e; rw [h2] at e; cases e

theorem str2i32_max {w : Bytes} {a : Int × Bytes} (h : str2i32 w = .ok a) : a.1 ≤ 2147483647 := by
  unfold str2i32 at h
  dsimp only at h
  split at h
  · cases h; dsimp only; omega
  · split at h
    · cases h
    · split at h
      · rename_i hv; cases h; exact hv.2
      · cases h

theorem numberTime_alone (y : PgTime) (w : Bytes) (len m : Nat) : Stays (Alone y) (numberTime w len m) := by
  have keep : ∀ (s : NumS) (tm : PgTime) (k : Nat), Alone y s → tm.year = s.tm.year → tm.mon = s.tm.mon → tm.mday = s.tm.mday →
      tm.yday = s.tm.yday → k = s.tMask ∨ k = 31744 → Alone y { s with tm := tm, tMask := k } := by
    intro s tm k h h1 h2 h3 h4 h5
    exact ⟨h1.trans h.year, h2.trans h.mon, h3.trans h.mday, h4.trans h.yday, h5.elim (fun e => by rw [e]; exact h.mask) Or.inr⟩
  unfold numberTime
  refine Stays.ite (fun _ => ?_) fun _ => Stays.ite (fun _ => ?_) fun _ => Stays.fail
  all_goals repeat first
    | exact Stays.pure
    | refine Stays.liftBind fun _ _ => ?_
    | refine Stays.modBind (fun s h => keep s _ _ h rfl rfl rfl rfl (Or.inr rfl)) ?_
    | refine Stays.modBind (fun s h => keep s _ _ h rfl rfl rfl rfl (Or.inl rfl)) ?_

/-- A run of digits when the date is complete. -/
theorem numberField_alone (y : PgTime) (w : Bytes) {m : Nat} (h : m &&& 14 = 14) : Stays (Alone y) (decodeNumberField w m) := by
  unfold decodeNumberField
  refine Stays.ite (fun _ => ?_) fun _ => Stays.ite (fun hc => absurd h hc.1) fun _ => numberTime_alone y w _ m
  exact Stays.liftBind fun _ _ => Stays.modBind (fun s h => ⟨h.year, h.mon, h.mday, h.yday, h.mask⟩) (numberTime_alone y w _ m)

theorem Eff.of14 {m : Nat} {w : Bytes} (s s' : NumS) (h : s'.tMask = 14) (h4 : s'.tm.yday = s.tm.yday) (hm : s'.tm.year ≤ 2147483647) :
    Eff m w s s' :=
  ⟨fun e => (by rw [h] at e; cases e), fun _ => h4, fun _ => Or.inl (by rw [h]; rfl), fun e => (by rw [h] at e; cases e),
    fun _ => Or.inr h, fun _ => (by rw [h]; rfl), fun _ => (by rw [h]; rfl), Or.inr hm⟩

theorem Eff.swap {m : Nat} {w : Bytes} (s s' : NumS) (h : s'.tMask = 8) (h2 : s'.tm.mon = s.tm.mon) (h4 : s'.tm.yday = s.tm.yday)
    (h6 : m &&& 14 = 6) (hm : s'.tm.year ≤ 2147483647) : Eff m w s s' :=
  ⟨fun e => (by rw [h] at e; cases e), fun _ => h4, fun _ => Or.inr h6, fun e => (by rw [h] at e; cases e),
    fun e => (by rw [h] at e; cases e), fun n => absurd h2 n, fun _ => (by rw [h]; rfl), Or.inr hm⟩

theorem Eff.of15 {m : Nat} {w : Bytes} (s s' : NumS) (h : s'.tMask = 32778) (h1 : s'.tm.year = s.tm.year) (h2 : s'.tm.mon = s.tm.mon ∧ s'.tm.mday = s.tm.mday)
    (hw : w.length = 3) (hm : m &&& 14 = 4) (hv : 1 ≤ s'.tm.yday ∧ s'.tm.yday ≤ 366) : Eff m w s s' :=
  ⟨fun _ => ⟨hw, hm, h, h1, hv⟩, fun e => (by rw [h] at e; cases e), fun n => absurd h1 n, fun e => (by rw [h] at e; cases e),
    fun e => (by rw [h] at e; cases e), fun n => absurd h2.1 n, fun n => absurd h2.2 n, Or.inl h1⟩

/-- A time of day of digits. -/
theorem numberTime_sets (w : Bytes) (len m : Nat) (s : NumS) : Post (numberTime w len m) (fun _ s' => Alone s.tm s') s := by
  unfold numberTime
  wp
  refine ⟨fun _ _ _ _ _ _ _ => ⟨rfl, rfl, rfl, rfl, Or.inr rfl⟩, fun _ _ _ _ _ _ => ⟨rfl, rfl, rfl, rfl, Or.inr rfl⟩⟩

/-- A run of digits. -/
theorem numberField_eff (w : Bytes) (m : Nat) (s : NumS) : Post (decodeNumberField w m) (fun _ s' => Eff m w s s') s := by
  have alone : ∀ (len : Nat) (t : NumS), SameDate s.tm t → Post (numberTime w len m) (fun _ s' => Eff m w s s') t := fun len t ht =>
    (numberTime_sets w len m t).mono fun _ _ h => Alone.eff ⟨h.year.trans ht.year, h.mon.trans ht.mon, h.mday.trans ht.mday, h.yday.trans ht.yday, h.mask⟩
  unfold decodeNumberField
  wp
  refine ⟨fun _ a _ => alone _ _ ⟨rfl, rfl, rfl, rfl⟩, fun _ => ⟨fun hc => ?_, fun _ => alone _ _ ⟨rfl, rfl, rfl, rfl⟩⟩⟩
  unfold numberDate
  wp
  intro a ha b hb c hc'
  have := str2i32_max hc'
  split
  · exact Eff.of14 _ _ rfl rfl this
  · exact Eff.of14 _ _ rfl rfl this

theorem Eff.year4 {m : Nat} {w r : Bytes} {v : Int} (hv : str2i32 w = .ok (v, r)) (s s' : NumS) (h : s'.tMask = 4)
    (h1 : s'.tm.year = v) (h2 : s'.tm.mon = s.tm.mon) (h3 : s'.tm.mday = s.tm.mday) (h4 : s'.tm.yday = s.tm.yday) : Eff m w s s' := by
  refine ⟨fun e => ?_, fun _ => h4, fun _ => Or.inl (by rw [h]; rfl), fun _ => ⟨r, by rw [h1]; exact hv⟩, fun _ => Or.inl h,
    fun n => absurd h2 n, fun n => absurd h3 n, Or.inr (by rw [h1]; exact str2i32_max hv)⟩
  rw [h] at e; cases e

theorem Eff.small {m : Nat} {w : Bytes} (s s' : NumS) (h : s'.tMask = 2 ∧ s'.tm.mday = s.tm.mday ∨ s'.tMask = 8 ∧ s'.tm.mon = s.tm.mon)
    (h1 : s'.tm.year = s.tm.year) (h4 : s'.tm.yday = s.tm.yday) : Eff m w s s' := by
  rcases h with ⟨h, h2⟩ | ⟨h, h2⟩
  · exact ⟨fun e => (by rw [h] at e; cases e), fun _ => h4, fun n => absurd h1 n, fun e => (by rw [h] at e; cases e),
      fun e => (by rw [h] at e; cases e), fun _ => by rw [h]; rfl, fun n => absurd h2 n, Or.inl h1⟩
  · exact ⟨fun e => (by rw [h] at e; cases e), fun _ => h4, fun n => absurd h1 n, fun e => (by rw [h] at e; cases e),
      fun e => (by rw [h] at e; cases e), fun n => absurd h2 n, fun _ => by rw [h]; rfl, Or.inl h1⟩

theorem numberByMask_eff {w r : Bytes} {v : Int} (hv : str2i32 w = .ok (v, r)) (t : Bool) (m : Nat) (o : DateOrder) (s : NumS) : Post (numberByMask w v t m o) (fun _ s' => Eff m w s s') s := by
  have y : Post (St.mod (fun s : NumS => { s with tMask := 4, tm := { s.tm with year := v } }) >>= fun _ => (pure true : St NumS Bool))
      (fun _ s' => Eff m w s s') s := by
    wp
    exact Eff.year4 hv _ _ rfl rfl rfl rfl rfl
  have mo : Post (St.mod (fun s : NumS => { s with tMask := 2, tm := { s.tm with mon := v } }) >>= fun _ => (pure true : St NumS Bool))
      (fun _ s' => Eff m w s s') s := by
    wp
    exact Eff.small _ _ (Or.inl ⟨rfl, rfl⟩) rfl rfl
  have d : Post (St.mod (fun s : NumS => { s with tMask := 8, tm := { s.tm with mday := v } }) >>= fun _ => (pure true : St NumS Bool))
      (fun _ s' => Eff m w s s') s := by
    wp
    exact Eff.small _ _ (Or.inr ⟨rfl, rfl⟩) rfl rfl
  unfold numberByMask
  dsimp only
  rw [Post.ite]
  refine ⟨fun _ => ?_, fun _ => ?_⟩
  · rw [Post.ite]
    refine ⟨fun _ => y, fun _ => ?_⟩
    rw [Post.ite]
    exact ⟨fun _ => d, fun _ => mo⟩
  rw [Post.ite]
  refine ⟨fun _ => mo, fun _ => ?_⟩
  rw [Post.ite]
  refine ⟨fun _ => ?_, fun _ => ?_⟩
  · rw [Post.ite]
    refine ⟨fun _ => ?_, fun _ => d⟩
    rw [Post.ite]
    exact ⟨fun _ => y, fun _ => d⟩
  rw [Post.ite]
  refine ⟨fun h6 => ?_, fun _ => ?_⟩
  · rw [Post.ite]
    refine ⟨fun _ => ?_, fun _ => d⟩
    rw [Post.bind, Post.get, Post.ite]
    refine ⟨fun _ => ?_, fun _ => d⟩
    wp
    exact Eff.swap _ _ rfl rfl rfl h6 (str2i32_max hv)
  rw [Post.ite]
  refine ⟨fun _ => mo, fun _ => ?_⟩
  rw [Post.ite]
  refine ⟨fun _ => y, fun _ => ?_⟩
  rw [Post.ite]
  refine ⟨fun h14 => ?_, fun _ => by rw [Post.fail]; trivial⟩
  rw [Post.bind]
  exact (numberField_eff w m s).mono fun _ s' h => by rw [Post.pure]; exact h

theorem numberVal_eff {w r : Bytes} {v : Int} (hv : str2i32 w = .ok (v, r)) (t : Bool) (m : Nat) (o : DateOrder) (s : NumS) : Post (decodeNumberVal w v t m o) (fun _ s' => Eff m w s s') s := by
  unfold decodeNumberVal
  rw [Post.ite]
  refine ⟨fun hc => ?_, fun _ => ?_⟩
  · rw [Post.mod]
    exact Eff.of15 _ _ rfl rfl ⟨rfl, rfl⟩ hc.1 hc.2.1 hc.2.2
  · rw [Post.bind]
    refine (numberByMask_eff hv t m o s).mono fun _ s' h => ?_
    rw [Post.mod]
    split
    · exact ⟨h.doy, h.yday, h.year, h.first, h.four, h.mon, h.mday, h.max⟩
    · exact h

theorem number_eff (w : Bytes) (t : Bool) (m : Nat) (o : DateOrder) (s : NumS) :
    Post (decodeNumber w t m o) (fun _ s' => Eff m w s s') s := by
  have back : ∀ s' : NumS, ∀ f : Int, Eff m w { s with tMask := 0, fsec := f } s' → Eff m w s s' := fun s' f h =>
    ⟨h.doy, h.yday, h.year, h.first, h.four, h.mon, h.mday, h.max⟩
  unfold decodeNumber
  wp
  intro a ha _
  split
  · exact (numberVal_eff ha t m o _).mono fun _ s' h => back s' s.fsec h
  · wp
    intro _
    refine ⟨fun _ => ?_, fun _ f _ => (numberVal_eff ha t m o _).mono fun _ s' h => back s' f h⟩
    refine ((numberField_alone s.tm w (m := m ||| 14) ?_).ignore.post (s := { s with tMask := 0 }) ⟨rfl, rfl, rfl, rfl, Or.inl rfl⟩).mono fun _ s' h => ?_
    · rw [Nat.and_or_distrib_right]
      apply Nat.eq_of_testBit_eq
      intro k
      simp only [Nat.testBit_or, Nat.testBit_and]
      cases m.testBit k <;> cases (14 : Nat).testBit k <;> rfl
    · exact h.eff

theorem str2i32_short {w : Bytes} (h : Dotted w) {v : Int} {r : Bytes} (e : str2i32 w = .ok (v, r)) {n : Nat}
    (hn : (w.takeWhile isDigit).length ≤ n) : v < 10 ^ n := by
  have e0 := List.takeWhile_append_dropWhile (p := isDigit) (l := w)
  have hd := digits_take w
  have hst := stops_drop isDigit w
  have hp : (10 : Int) ^ (w.takeWhile isDigit).length ≤ 10 ^ n := by
    have := Nat.pow_le_pow_right (n := 10) (by omega) hn
    exact_mod_cast this
  by_cases hne : w.takeWhile isDigit = []
  · have h1 : (1 : Int) ≤ 10 ^ n := by rw [hne] at hp; simpa using hp
    have : v = 0 := by
      rw [hne, List.nil_append] at e0
      unfold str2i32 at e
      have hdr : w.dropWhile isSpace = w := by
        cases w with
        | nil => rfl
        | cons b w => exact dropWhile_stop (Stops.cons (dotted_head (h b (by simp))).1)
      simp only [hdr] at e
      split at e
      · cases e; rfl
      · have hs : extractSign w = (1, w) := by
          cases w with
          | nil => rfl
          | cons b w =>
            have := dotted_head (h b (by simp))
            unfold extractSign
            split
            · rename_i e'; injection e' with e' _; omega
            · rename_i e'; injection e' with e' _; omega
            · rfl
        rw [hs] at e
        simp only [hne] at e
        split at e
        · cases e
        · split at e
          · cases e; rfl
          · cases e
    omega
  · rw [← e0, str2i32_digits hd hne hst] at e
    split at e
    · cases e
      have := value_lt hd
      have : ((value (w.takeWhile isDigit) : Nat) : Int) < 10 ^ (w.takeWhile isDigit).length := by exact_mod_cast this
      omega
    · cases e

/-! ## The fields of a date -/

theorem bits_of_and {m k i : Nat} (h : m &&& 14 = k) (hi : (14 : Nat).testBit i = true) : m.testBit i = k.testBit i := by
  rw [← h, Nat.testBit_and, hi, Bool.and_true]

/-- The fields of a date fit the mask `m`. `A`: a day of the year may be given. -/
structure Core (A : Prop) (j : Bool) (m : Nat) (tm : PgTime) : Prop where
  doy : m.testBit 15 = true → A ∧ (m.testBit 1 = true ∧ m.testBit 2 = true ∧ m.testBit 3 = true) ∧ j = false ∧ tm.year ≤ 999999 ∧
    1 ≤ tm.yday ∧ tm.yday ≤ 366
  jul : j = true → m.testBit 1 = true ∧ m.testBit 2 = true ∧ m.testBit 3 = true
  mon : m.testBit 1 = false → tm.mon = 0
  mday : m.testBit 3 = false → tm.mday = 0
  max : tm.year ≤ 2147483647

/-- The year is small if it is the only field. -/
def Lead (A : Prop) (m : Nat) (tm : PgTime) : Prop :=
  A → m.testBit 2 = true → m.testBit 1 = false → m.testBit 3 = false → tm.year ≤ 999999

variable {A : Prop} {j : Bool} {m : Nat}

theorem or_false {a b i : Nat} (h : (a ||| b).testBit i = false) : a.testBit i = false ∧ b.testBit i = false := by
  rw [Nat.testBit_or, Bool.or_eq_false_iff] at h
  exact h

theorem or_true {a b i : Nat} (h : (a ||| b).testBit i = true) : a.testBit i = true ∨ b.testBit i = true := by
  rw [Nat.testBit_or, Bool.or_eq_true_iff] at h
  exact h

theorem or_left {a b i : Nat} (h : a.testBit i = true) : (a ||| b).testBit i = true := by rw [Nat.testBit_or, h]; rfl
theorem or_right {a b i : Nat} (h : b.testBit i = true) : (a ||| b).testBit i = true := by rw [Nat.testBit_or, h, Bool.or_true]

theorem bit_cases (m i : Nat) : m.testBit i = true ∨ m.testBit i = false := by cases m.testBit i <;> simp

/-- One number. -/
theorem Core.number {w : Bytes} {s s' : NumS} (h : Core A j m s.tm) (hl : Lead A m s.tm) (e : Eff m w s s') (hd : m &&& s'.tMask = 0)
    (h3 : w.length = 3 → A) : Core A j (m ||| s'.tMask) s'.tm := by
  have apart : ∀ i, m.testBit i = true → s'.tMask.testBit i = false := bits_apart hd
  constructor
  · intro h15
    rcases bit_cases s'.tMask 15 with t | t
    · obtain ⟨d1, d2, d3, d4, d5⟩ := e.doy t
      have a := h3 d1
      have b1 := bits_of_and (i := 1) d2 (by decide)
      have b2 := bits_of_and (i := 2) d2 (by decide)
      have b3 := bits_of_and (i := 3) d2 (by decide)
      refine ⟨a, ⟨or_right (by rw [d3]; decide), or_left (by rw [b2]; decide), or_right (by rw [d3]; decide)⟩, ?_, ?_, d5⟩
      · cases j with
        | false => rfl
        | true => rw [(h.jul rfl).1] at b1; revert b1; decide
      · rw [d4]; exact hl a (by rw [b2]; decide) (by rw [b1]; decide) (by rw [b3]; decide)
    · obtain ⟨d1, ⟨d2, d3, d4⟩, d5, d6, d7⟩ := h.doy ((or_true h15).resolve_right (by rw [t]; simp))
      refine ⟨d1, ⟨or_left d2, or_left d3, or_left d4⟩, d5, ?_, by rw [e.yday t]; exact d7⟩
      by_cases hy : s'.tm.year = s.tm.year
      · rw [hy]; exact d6
      · rcases e.year hy with c | c
        · rw [apart 2 d3] at c; cases c
        · have := bits_of_and (i := 3) c (by decide)
          rw [d4] at this
          exact absurd this (by decide)
  · intro hj
    obtain ⟨a, b, c⟩ := h.jul hj
    exact ⟨or_left a, or_left b, or_left c⟩
  · intro h1
    obtain ⟨a, b⟩ := or_false h1
    by_cases hy : s'.tm.mon = s.tm.mon
    · rw [hy]; exact h.mon a
    · rw [e.mon hy] at b; cases b
  · intro h1
    obtain ⟨a, b⟩ := or_false h1
    by_cases hy : s'.tm.mday = s.tm.mday
    · rw [hy]; exact h.mday a
    · rw [e.mday hy] at b; cases b
  · rcases e.max with c | c
    · rw [c]; exact h.max
    · exact c

theorem Lead.number {w : Bytes} {s s' : NumS} (hl : Lead A m s.tm) (e : Eff m w s s')
    (hs : A → s'.tMask = 4 → s'.tm.year ≤ 999999) : Lead A (m ||| s'.tMask) s'.tm := by
  intro a h2 h1 h3
  obtain ⟨m1, t1⟩ := or_false h1
  obtain ⟨m3, t3⟩ := or_false h3
  rcases bit_cases s'.tMask 2 with t | t
  · rcases e.four t with c | c
    · exact hs a c
    · rw [c] at t1; exact absurd t1 (by decide)
  · by_cases hy : s'.tm.year = s.tm.year
    · rw [hy]; exact hl a ((or_true h2).resolve_right (by rw [t]; simp)) m1 m3
    · rcases e.year hy with c | c
      · rw [t] at c; cases c
      · have := bits_of_and (i := 1) c (by decide)
        rw [m1] at this
        exact absurd this (by decide)

/-- A field that does not touch the year. -/
theorem Core.other {t : Nat} {tm tm' : PgTime} (h : Core A j m tm) (hl : Lead A m tm) (h15 : t.testBit 15 = false) (h2 : t.testBit 2 = false)
    (hy : tm'.year = tm.year) (hyd : tm'.yday = tm.yday) (hm : tm'.mon = tm.mon ∨ (m ||| t).testBit 1 = true)
    (hd : tm'.mday = tm.mday ∨ t.testBit 3 = true) : Core A j (m ||| t) tm' ∧ Lead A (m ||| t) tm' := by
  refine ⟨⟨fun hb => ?_, fun hj => ?_, fun hb => ?_, fun hb => ?_, by rw [hy]; exact h.max⟩, fun a b2 b1 b3 => ?_⟩
  · obtain ⟨d1, ⟨d2, d3, d4⟩, d5⟩ := h.doy ((or_true hb).resolve_right (by rw [h15]; simp))
    rw [hy, hyd]
    exact ⟨d1, ⟨or_left d2, or_left d3, or_left d4⟩, d5⟩
  · obtain ⟨a, b, c⟩ := h.jul hj
    exact ⟨or_left a, or_left b, or_left c⟩
  · rcases hm with hm | hm
    · rw [hm]; exact h.mon (or_false hb).1
    · rw [hb] at hm; cases hm
  · rcases hd with hd | hd
    · rw [hd]; exact h.mday (or_false hb).1
    · rw [(or_false hb).2] at hd; cases hd
  · rw [hy]
    exact hl a ((or_true b2).resolve_right (by rw [h2]; simp)) (or_false b1).1 (or_false b3).1

/-! ## Dates of one field -/

/-- What is needed of the pieces of a date. -/
structure GoodPieces (A : Prop) (l : List Bytes) : Prop where
  three : ∀ f ∈ l, (f.head?.map isAlpha) ≠ some true → f.length = 3 → A
  plain : ∀ f ∈ l, Dotted f
  size : A → (∀ f ∈ l, (f.head?.map isAlpha) ≠ some true) → ∀ f ∈ l.dropLast, f.length ≤ 6

theorem textPass_core (l : List Bytes) : ∀ (i : Nat) (s : DateS × Unit), Core A j s.1.fMask s.1.tm → Lead A s.1.fMask s.1.tm →
    Post (textPass plainLook l i) (fun r s' => (Core A j s'.1.fMask s'.1.tm ∧ Lead A s'.1.fMask s'.1.tm) ∧
      (s'.1.fMask.testBit 1 = true ∨ r = l.map some) ∧ (s.1.fMask.testBit 1 = true → s'.1.fMask.testBit 1 = true)) s := by
  induction l with
  | nil => intro i s h hl; rw [textPass, Post.pure]; exact ⟨⟨h, hl⟩, Or.inr rfl, id⟩
  | cons f l ih =>
    intro i s h hl
    have keep : Post (textPass plainLook l (i + 1)) (fun r s' => (Core A j s'.1.fMask s'.1.tm ∧ Lead A s'.1.fMask s'.1.tm) ∧
      (s'.1.fMask.testBit 1 = true ∨ some f :: r = (f :: l).map some) ∧ (s.1.fMask.testBit 1 = true → s'.1.fMask.testBit 1 = true)) s := by
      refine (ih (i + 1) s h hl).mono fun r s' hr => ⟨hr.1, ?_, hr.2.2⟩
      rcases hr.2.1 with c | c
      · exact Or.inl c
      · exact Or.inr (by rw [c]; rfl)
    rw [textPass]
    wp
    refine ⟨fun _ => ?_, fun _ => keep⟩
    rw [Post.look]
    wp
    refine ⟨fun _ => keep, fun _ _ _ => ?_⟩
    have hc := Core.other (t := 2) (tm' := { s.1.tm with mon := (tokenResult (lookupIn dateTable f)).2 }) h hl (by decide) (by decide) rfl rfl
      (Or.inr (or_right (by decide))) (Or.inl rfl)
    refine (ih (i + 1) _ hc.1 hc.2).mono fun r s' hr => ⟨hr.1, Or.inl (hr.2.2 (or_right (by decide))), fun _ => hr.2.2 (or_right (by decide))⟩

theorem numPass_core {order : DateOrder} (l : List (Option Bytes)) : ∀ s : DateS, (∀ f, some f ∈ l → f.length = 3 → A) → (∀ f, some f ∈ l → Dotted f) →
    (A → s.fMask.testBit 1 = true ∨ ∀ f, some f ∈ l.dropLast → f.length ≤ 6) → Core A j s.fMask s.tm → Lead A s.fMask s.tm →
    Post (numPass order l) (fun _ s' => s'.fMask.testBit 3 = true → Core A j s'.fMask s'.tm ∧ Lead A s'.fMask s'.tm) s := by
  induction l with
  | nil => intro s _ _ _ h hl; rw [numPass, Post.pure]; exact fun _ => ⟨h, hl⟩
  | cons x l ih =>
    intro s h3 hp hs h hl
    cases x with
    | none =>
      rw [numPass]
      refine ih s (fun f hf => h3 f (by simp [hf])) (fun f hf => hp f (by simp [hf])) (fun a => ?_) h hl
      refine (hs a).imp id fun c f hf => c f ?_
      cases l with
      | nil => simp at hf
      | cons y l => rw [List.dropLast_cons_of_ne_nil (by simp)]; simp [hf]
    | some f =>
      rw [numPass]
      wp
      intro _
      rw [Post.zoom]
      refine (number_eff f s.haveText s.fMask order ⟨s.dMask, s.tm, s.fsec, s.is2⟩).mono fun _ t e hd => ?_
      dsimp only at hd ⊢
      have hc := Core.number (A := A) (j := j) (s := ⟨s.dMask, s.tm, s.fsec, s.is2⟩) h hl e (by omega) (h3 f (by simp))
      cases l with
      | nil =>
        rw [numPass, Post.pure]
        dsimp only
        intro b3
        exact ⟨hc, fun _ _ _ b => by rw [b3] at b; cases b⟩
      | cons y l =>
        have hl' : Lead A (s.fMask ||| t.tMask) t.tm := by
          intro a b2 b1 b3
          have c := (hs a).resolve_left (by rw [(or_false b1).1]; simp)
          refine Lead.number (s := ⟨s.dMask, s.tm, s.fsec, s.is2⟩) hl e (fun _ h4 => ?_) a b2 b1 b3
          obtain ⟨r, hr⟩ := e.first h4
          have := str2i32_short (hp f (by simp)) hr (n := 6) (Nat.le_trans (List.Sublist.length_le (List.takeWhile_sublist _)) (c f (by simp)))
          omega
        refine ih _ (fun f hf => h3 f (by simp [hf])) (fun f hf => hp f (by simp [hf])) (fun a => ?_) hc hl'
        refine (hs a).imp (fun c => or_left c) fun c f hf => c f ?_
        rw [List.dropLast_cons_of_ne_nil (by simp)]; simp [hf]

theorem str2i32_letter {f : Bytes} (h : f.head?.map isAlpha = some true) : str2i32 f = .ok (0, f) := by
  cases f with
  | nil => cases h
  | cons c t =>
    have hc : isAlpha c = true := by simpa using h
    have hn : 65 ≤ c := by rw [isAlpha_iff] at hc; omega
    have hs : isSpace c = false := by
      cases e : isSpace c with
      | false => rfl
      | true => rcases space_cases e with rfl | rfl | rfl | rfl | rfl <;> omega
    have hd : isDigit c = false := by
      cases e : isDigit c with
      | false => rfl
      | true => rw [isDigit_iff] at e; rw [isAlpha_iff] at hc; omega
    unfold str2i32
    have e1 : (c :: t).dropWhile isSpace = c :: t := dropWhile_stop (Stops.cons hs)
    have e2 : extractSign (c :: t) = (1, c :: t) := by
      unfold extractSign
      split
      · rename_i e'; injection e' with e' _; omega
      · rename_i e'; injection e' with e' _; omega
      · rfl
    simp only [e1, e2, List.takeWhile_cons_of_neg (by simp [hd] : ¬ isDigit c = true), List.dropWhile_cons_of_neg (by simp [hd] : ¬ isDigit c = true)]
    rfl

/-- A word among the numbers is an error. -/
theorem numPass_letter {order : DateOrder} (l : List (Option Bytes)) : ∀ s : DateS,
    Post (numPass order l) (fun _ _ => ∀ f, some f ∈ l → f.head?.map isAlpha ≠ some true) s := by
  induction l with
  | nil => intro s; rw [numPass, Post.pure]; simp
  | cons x l ih =>
    intro s
    cases x with
    | none =>
      rw [numPass]
      exact (ih s).mono fun _ _ h f hf => h f (by simpa using hf)
    | some g =>
      rw [numPass]
      wp
      intro _
      rw [Post.zoom]
      have hg : Post (decodeNumber g s.haveText s.fMask order) (fun _ _ => g.head?.map isAlpha ≠ some true) ⟨s.dMask, s.tm, s.fsec, s.is2⟩ := by
        by_cases hc : g.head?.map isAlpha = some true
        · unfold decodeNumber
          wp
          intro a ha hn
          rw [str2i32_letter hc] at ha
          cases ha
          exact absurd rfl hn
        · exact Post.any fun _ _ => hc
      refine hg.mono fun _ t hc _ => (ih _).mono fun _ _ h f hf => ?_
      rcases List.mem_cons.1 hf with hf | hf
      · cases hf; exact hc
      · exact h f hf

/-- A date of one field. -/
theorem decodeDate_core {order : DateOrder} {w : Bytes} {s : Dec × Unit} (hg : ∀ l, dateSplit (w.length + 1) w 0 = .ok l → GoodPieces A l)
    (h : Core A s.1.isJulian s.1.fMask s.1.tm) (hl : Lead A s.1.fMask s.1.tm) :
    Post (decodeDate plainLook w order) (fun _ s' => s'.1.fMask = s.1.fMask ∧ s'.1.isJulian = s.1.isJulian ∧ s'.1.bc = s.1.bc ∧
      s'.1.pType = s.1.pType ∧ Core A s.1.isJulian (s.1.fMask ||| s'.1.tMask) s'.1.tm ∧ Lead A (s.1.fMask ||| s'.1.tMask) s'.1.tm) s := by
  unfold decodeDate
  rw [Post.zoom]
  unfold dateBody
  wp
  intro l hsp
  have hp := hg l hsp
  have text := (textPass_core l 0 (({ tm := s.1.tm, is2 := s.1.is2, fMask := s.1.fMask } : DateS), s.2) h hl).and
    ((textPass_mask s.1.fMask l 0 (({ tm := s.1.tm, is2 := s.1.is2, fMask := s.1.fMask } : DateS), s.2) (by unfold DateMask; simp)).and
      (textPass_sub l 0 _))
  refine text.mono fun r t ht => ?_
  obtain ⟨⟨⟨c1, c2⟩, c3, -⟩, c4, c5⟩ := ht
  have size : (∀ f, some f ∈ r → f.head?.map isAlpha ≠ some true) → A → t.1.fMask.testBit 1 = true ∨ ∀ f, some f ∈ r.dropLast → f.length ≤ 6 := by
    intro hn a
    rcases c3 with c3 | c3
    · exact Or.inl c3
    · right
      intro f hf
      rw [c3, ← List.map_dropLast] at hf
      obtain ⟨g, hgm, hge⟩ := List.mem_map.1 hf
      cases hge
      exact hp.size a (fun g hg' => hn g (by rw [c3]; exact List.mem_map.2 ⟨g, hg', rfl⟩)) f hgm
  have fin : (∀ f, some f ∈ r → f.head?.map isAlpha ≠ some true) → Post (numPass order r) (fun _ s' => (s'.fMask.testBit 3 = true →
      Core A s.1.isJulian s'.fMask s'.tm ∧ Lead A s'.fMask s'.tm) ∧ DateMask s.1.fMask s') t.1 := fun hn =>
    (numPass_core r t.1 (fun f hf => hp.three f (c5 f hf) (hn f hf)) (fun f hf => hp.plain f (c5 f hf)) (size hn) c1 c2).and (numPass_mask s.1.fMask r t.1 c4)
  intro a t' e
  have hn := numPass_letter r t.1 a t' e
  obtain ⟨d1, d2⟩ := fin hn a t' e
  intro hm
  have b3 : t'.fMask.testBit 3 = true := by
    have := congrArg (fun n => n.testBit 3) (Decidable.not_not.1 hm)
    simp only [Nat.testBit_and] at this
    cases hb : t'.fMask.testBit 3 with
    | true => rfl
    | false => rw [hb] at this; exact absurd this (by decide)
  obtain ⟨d3, d4⟩ := d1 b3
  unfold DateMask at d2
  rw [d2] at d3 d4
  exact ⟨d3, d4⟩

/-! ## The fields of a text -/

/-- The state between two fields. `Y`: the label `y` may be used. -/
structure Sound (A Y : Prop) (d : Dec) : Prop where
  core : Core A d.isJulian d.fMask d.tm
  lead : Lead A d.fMask d.tm
  bc : A → d.bc = false
  label : A → d.pType = .year → Y
  mask : Bits d.tMask d.fMask

/-- The state after a field, before its mask is added. -/
def Step (A Y : Prop) (d d' : Dec) : Prop :=
  d'.fMask = d.fMask ∧ (d'.tMask &&& d.fMask = 0 → Sound A Y { d' with fMask := d.fMask ||| d'.tMask })

variable {Y : Prop} {p : Profile} {order : DateOrder} {ftypes : List TokenField} {i : Nat}

theorem Step.keep {d : Dec} (h : Sound A Y d) : Step A Y d d := by
  refine ⟨rfl, fun hd => ?_⟩
  have : d.fMask ||| d.tMask = d.fMask := by
    apply Nat.eq_of_testBit_eq
    intro k
    rw [Nat.testBit_or]
    rcases bit_cases d.tMask k with t | t
    · rw [t, h.mask k t]; rfl
    · rw [t, Bool.or_false]
  rw [this]
  exact h

/-- A field that does not touch the year. -/
theorem Step.other {d d' : Dec} (h : Sound A Y d) (hf : d'.fMask = d.fMask) (h15 : d'.tMask.testBit 15 = false) (h2 : d'.tMask.testBit 2 = false)
    (hy : d'.tm.year = d.tm.year) (hyd : d'.tm.yday = d.tm.yday) (hm : d'.tm.mon = d.tm.mon ∨ (d.fMask ||| d'.tMask).testBit 1 = true)
    (hd : d'.tm.mday = d.tm.mday ∨ d'.tMask.testBit 3 = true) (hj : d'.isJulian = d.isJulian) (hb : A → d'.bc = false)
    (hl : A → d'.pType = .year → Y) : Step A Y d d' := by
  obtain ⟨c1, c2⟩ := Core.other (t := d'.tMask) (tm' := d'.tm) h.core h.lead h15 h2 hy hyd hm hd
  exact ⟨hf, fun _ => ⟨by dsimp only; rw [hj]; exact c1, c2, hb, hl, Bits.right _ _⟩⟩

theorem Step.lit {d d' : Dec} (t : Nat) (ht : d'.tMask = t) (h : Sound A Y d) (hf : d'.fMask = d.fMask) (h15 : t.testBit 15 = false)
    (h2 : t.testBit 2 = false) (hy : d'.tm.year = d.tm.year) (hyd : d'.tm.yday = d.tm.yday) (hm : d'.tm.mon = d.tm.mon ∨ t.testBit 1 = true)
    (hd : d'.tm.mday = d.tm.mday ∨ t.testBit 3 = true) (hj : d'.isJulian = d.isJulian) (hb : A → d'.bc = false)
    (hl : A → d'.pType = .year → Y) : Step A Y d d' := by
  subst ht
  exact Step.other h hf h15 h2 hy hyd (hm.imp id or_right) hd hj hb hl

theorem Step.alone {d : Dec} {n : NumS} (h : Sound A Y d) (hn : Alone d.tm n) :
    Step A Y d { d with tMask := n.tMask, tm := n.tm, fSec := n.fsec, is2 := n.is2 } := by
  have h15 : n.tMask.testBit 15 = false := by rcases hn.mask with e | e <;> rw [e] <;> decide
  have h2 : n.tMask.testBit 2 = false := by rcases hn.mask with e | e <;> rw [e] <;> decide
  exact Step.other h rfl h15 h2 hn.year hn.yday (Or.inl hn.mon) (Or.inl hn.mday) rfl h.bc h.label

theorem date_step {w : Bytes} {s : Dec × Unit} (hg : ∀ l, dateSplit (w.length + 1) w 0 = .ok l → GoodPieces A l)
    (h : Sound A Y s.1) : Post (decodeDate plainLook w order) (fun _ s' => Step A Y s.1 s'.1) s := by
  refine (decodeDate_core hg h.core h.lead).mono fun _ s' e => ?_
  obtain ⟨e1, e2, e3, e4, e5, e6⟩ := e
  exact ⟨e1, fun _ => ⟨by dsimp only; rw [e2]; exact e5, e6, by dsimp only; rw [e3]; exact h.bc, by dsimp only; rw [e4]; exact h.label, Bits.right _ _⟩⟩

theorem dateToken_step {w : Bytes} {s : Dec × Unit} (hg : ∀ l, dateSplit (w.length + 1) w 0 = .ok l → GoodPieces A l)
    (h : Sound A Y s.1) : Post (dateToken p plainLook w order) (fun _ s' => Step A Y s.1 s'.1) s := by
  unfold dateToken
  wp
  intro _
  refine ⟨fun _ => ?_, fun _ => date_step hg h⟩
  split
  · rw [Post.pure]; exact Step.keep h
  · wp
    exact fun _ _ => Step.keep h

/-- What is needed of a field that is a number. -/
structure GoodNumber (A Y : Prop) (w : Bytes) : Prop where
  plain : Dotted w ∨ Lone w
  three : w.length = 3 → A
  small : A → Y → (w.takeWhile isDigit).length ≤ 6

/-- The number decoders on the context. -/
theorem onNum_step {α : Type} {f : St NumS α} {w : Bytes} {d : Dec} (h : Sound A Y d) (h3 : w.length = 3 → A)
    (he : Post f (fun _ s' => Eff d.fMask w ⟨d.tMask, d.tm, d.fSec, d.is2⟩ s' ∧ (A → s'.tMask = 4 → d.fMask &&& 14 = 0 → s'.tm.year ≤ 999999)) ⟨d.tMask, d.tm, d.fSec, d.is2⟩) :
    Post (onNum f) (fun _ d' => Step A Y d d') d := by
  unfold onNum
  rw [Post.zoom]
  refine he.mono fun _ s' e => ⟨rfl, fun hd => ?_⟩
  have hd : d.fMask &&& s'.tMask = 0 := by rw [Nat.and_comm]; exact hd
  refine ⟨Core.number (s := ⟨d.tMask, d.tm, d.fSec, d.is2⟩) h.core h.lead e.1 hd h3, fun a b2 b1 b3 => ?_, h.bc, h.label, Bits.right _ _⟩
  refine Lead.number (s := ⟨d.tMask, d.tm, d.fSec, d.is2⟩) h.lead e.1 (fun a ht => e.2 a ht ?_) a b2 b1 b3
  have f2 : d.fMask.testBit 2 = false := by
    rcases bit_cases d.fMask 2 with t | t
    · have := bits_apart hd 2 t
      rw [ht] at this; cases this
    · exact t
  apply Nat.eq_of_testBit_eq
  intro k
  rw [Nat.testBit_and, Nat.zero_testBit]
  rcases bit_cases (14 : Nat) k with t | t
  · have : k = 1 ∨ k = 2 ∨ k = 3 := by
      have : k < 4 := Nat.lt_of_not_le fun hk => by
        rw [Nat.testBit_lt_two_pow (Nat.lt_of_lt_of_le (by decide : 14 < 2 ^ 4) (Nat.pow_le_pow_right (by decide) hk))] at t
        cases t
      match k, this with
      | 0, _ => cases t
      | 1, _ => exact Or.inl rfl
      | 2, _ => exact Or.inr (Or.inl rfl)
      | 3, _ => exact Or.inr (Or.inr rfl)
    rcases this with e | e | e <;> subst e
    · rw [(or_false b1).1]; rfl
    · rw [f2]; rfl
    · rw [(or_false b3).1]; rfl
  · rw [t, Bool.and_false]

theorem onNum_alone {α : Type} {f : St NumS α} {d : Dec} (h : Sound A Y d)
    (he : ∀ s, s.tm = d.tm → Post f (fun _ s' => Alone d.tm s') s) : Post (onNum f) (fun _ d' => Step A Y d d') d := by
  unfold onNum
  rw [Post.zoom]
  exact (he _ rfl).mono fun _ s' e => Step.alone h e

theorem fullField_sets (w : Bytes) {m : Nat} (h : m &&& 14 = 14) (s : NumS) : Post (decodeNumberField w m) (fun _ s' => Alone s.tm s') s := by
  unfold decodeNumberField
  wp
  refine ⟨fun _ a _ => ?_, fun _ => ⟨fun hc => absurd h hc.1, fun _ => numberTime_sets w _ m s⟩⟩
  exact (numberTime_sets w _ m _).mono fun _ _ h => h

theorem full_mask (m : Nat) : (m ||| 14) &&& 14 = 14 := by
  rw [Nat.and_or_distrib_right]
  apply Nat.eq_of_testBit_eq
  intro k
  simp only [Nat.testBit_or, Nat.testBit_and]
  cases m.testBit k <;> cases (14 : Nat).testBit k <;> rfl

/-- A number when the date is complete. -/
theorem fullNumber_sets (w : Bytes) (t : Bool) {m : Nat} (h : m &&& 14 = 14) (o : DateOrder) (s : NumS) :
    Post (decodeNumber w t m o) (fun _ s' => Alone s.tm s') s := by
  have val : ∀ (v : Int) (t' : NumS), t'.tm = s.tm → Post (decodeNumberVal w v t m o) (fun _ s' => Alone s.tm s') t' := by
    intro v t' ht
    unfold decodeNumberVal
    rw [Post.ite]
    refine ⟨fun hc => ?_, fun _ => ?_⟩
    · rw [h] at hc; exact absurd hc.2.1 (by decide)
    · rw [Post.bind]
      have : Post (numberByMask w v t m o) (fun _ s' => Alone s.tm s') t' := by
        unfold numberByMask
        rw [h]
        simp only [show ¬ ((14 : Nat) = 0) by decide, show ¬ ((14 : Nat) = 4) by decide, show ¬ ((14 : Nat) = 2) by decide,
          show ¬ ((14 : Nat) = 6) by decide, show ¬ ((14 : Nat) = 8) by decide, show ¬ ((14 : Nat) = 10) by decide, if_false, if_true]
        rw [Post.bind]
        refine (fullField_sets w h t').mono fun _ s' e => ?_
        rw [Post.pure, ← ht]; exact e
      refine this.mono fun _ s' e => ?_
      rw [Post.mod]
      split
      · exact ⟨e.year, e.mon, e.mday, e.yday, e.mask⟩
      · exact e
  unfold decodeNumber
  wp
  intro a ha _
  split
  · exact val _ _ rfl
  · wp
    intro _
    refine ⟨fun _ => ?_, fun _ f _ => val _ _ rfl⟩
    exact (numberField_alone s.tm w (full_mask m)).ignore.post (s := { s with tMask := 0 }) ⟨rfl, rfl, rfl, rfl, Or.inl rfl⟩

theorem julian2date_max {p : Profile} {v : Int} {c : Int × Int × Int} (h0 : 0 ≤ v) (h1 : v ≤ 2147483647) (hc : julian2date p v = .ok c) :
    c.1 ≤ 2147483647 := by
  obtain ⟨y, m, d, e, ej, er⟩ := julian2date_spec p v h0 h1
  rw [e] at hc
  cases hc
  refine Int.not_lt.1 fun hlt => ?_
  have := jdn_lt_of_year_lt (y := 5999999) (m := 1) (d := 1) (y' := y) (m' := m) (d' := d) (by decide) er (by dsimp only at hlt; omega)
  have e0 : jdn 5999999 1 1 > 2147483647 := by decide
  omega

theorem number_value {w : Bytes} (hn : GoodNumber A Y w) {a : Int × Bytes} (ha : str2i32 w = .ok a) : 0 ≤ a.1 ∧ (A → Y → a.1 ≤ 999999) := by
  obtain ⟨v, r⟩ := a
  rcases hn.plain with hw | hw
  · refine ⟨(str2i32_dotted hw ha).1, fun h y => ?_⟩
    have := str2i32_short hw ha (hn.small h y)
    dsimp only
    omega
  · rw [str2i32_lone hw] at ha
    cases ha
    exact ⟨by decide, fun _ _ => by decide⟩

/-- A number after a label. -/
theorem labelled_step {w : Bytes} (hn : GoodNumber A Y w) {d : Dec} (h : Sound A Y d) :
    Post (labelled p w) (fun _ d' => Step A Y d d') d := by
  have number : ∀ d' : Dec, Step A Y d d' → Step A Y d { d' with pType := .number, dType := .date } := fun d' e =>
    ⟨e.1, fun hd => ⟨(e.2 hd).core, (e.2 hd).lead, (e.2 hd).bc, fun _ c => (by cases c), (e.2 hd).mask⟩⟩
  unfold labelled
  wp
  intro a ha _ _
  obtain ⟨v0, v1⟩ := number_value hn ha
  have vm := str2i32_max ha
  suffices hs : Post (labelAssign p d.pType w a.1 a.2) (fun _ d' => Step A Y d d') d from hs.mono fun _ d' e => number d' e
  unfold labelAssign
  split <;> wp
  · rename_i e
    have hy := fun hA : A => v1 hA (h.label hA e)
    refine ⟨rfl, fun hd => ?_⟩
    have hd : d.fMask &&& 4 = 0 := by rw [Nat.and_comm]; exact hd
    have apart := fun i => bits_apart hd i
    have n2 : d.fMask.testBit 2 = false := by
      rcases bit_cases d.fMask 2 with t | t
      · exact absurd (apart 2 t) (by decide)
      · exact t
    refine ⟨⟨fun hb => ?_, fun hj => ?_, fun hb => h.core.mon (or_false hb).1, fun hb => h.core.mday (or_false hb).1, vm⟩, fun hA _ _ _ => hy hA, h.bc, ?_, Bits.right _ _⟩
    · have := (h.core.doy ((or_true hb).resolve_right (show ¬ (4 : Nat).testBit 15 = true by decide))).2.1.2.1
      rw [n2] at this; cases this
    · have := (h.core.jul hj).2.1
      rw [n2] at this; cases this
    · exact h.label
  · split
    · exact Step.lit 2048 rfl h rfl (by decide) (by decide) rfl rfl (Or.inl rfl) (Or.inl rfl) rfl h.bc h.label
    · exact Step.lit 2 rfl h rfl (by decide) (by decide) rfl rfl (Or.inr (by decide)) (Or.inl rfl) rfl h.bc h.label
  · exact Step.lit 8 rfl h rfl (by decide) (by decide) rfl rfl (Or.inl rfl) (Or.inr (by decide)) rfl h.bc h.label
  · exact Step.lit 1024 rfl h rfl (by decide) (by decide) rfl rfl (Or.inl rfl) (Or.inl rfl) rfl h.bc h.label
  · exact Step.lit 2048 rfl h rfl (by decide) (by decide) rfl rfl (Or.inl rfl) (Or.inl rfl) rfl h.bc h.label
  · refine ⟨fun _ _ _ => ?_, fun _ => ?_⟩
    · exact Step.lit DTK_ALL_SECS_M rfl h rfl (by decide) (by decide) rfl rfl (Or.inl rfl) (Or.inl rfl) rfl h.bc h.label
    · exact Step.lit 4096 rfl h rfl (by decide) (by decide) rfl rfl (Or.inl rfl) (Or.inl rfl) rfl h.bc h.label
  · unfold labelJulian
    wp
    intro _ c hc
    have hmax := julian2date_max v0 vm hc
    have fin : ∀ (tm : PgTime) (t : Nat) (f : Int), tm.year = c.1 → (∀ k, (14 : Nat).testBit k = true → t.testBit k = true) → t.testBit 15 = false →
        Step A Y d { d with tm := tm, tMask := t, isJulian := true, fSec := f } := by
      intro tm t f hy ht h15
      refine ⟨rfl, fun hd => ?_⟩
      have hd : d.fMask &&& t = 0 := by rw [Nat.and_comm]; exact hd
      have r1 : (d.fMask ||| t).testBit 1 = true := or_right (ht 1 rfl)
      have r3 : (d.fMask ||| t).testBit 3 = true := or_right (ht 3 rfl)
      refine ⟨⟨fun hb => ?_, fun _ => ⟨r1, or_right (ht 2 rfl), r3⟩, fun hb => ?_, fun hb => ?_, ?_⟩, fun _ _ hb => ?_, h.bc, h.label, Bits.right _ _⟩
      · have b1 := (h.core.doy ((or_true hb).resolve_right (by dsimp only; rw [h15]; simp))).2.1.1
        have := bits_apart hd 1 b1
        rw [ht 1 rfl] at this; cases this
      · rw [r1] at hb; cases hb
      · rw [r3] at hb; cases hb
      · show tm.year ≤ _; rw [hy]; exact hmax
      · rw [r1] at hb; cases hb
    refine ⟨fun _ _ _ _ _ => fin _ _ _ rfl (fun k hk => or_left hk) rfl, fun _ => fin _ _ _ rfl (fun k hk => hk) rfl⟩
  · exact (onNum_alone h fun s hs => by rw [← hs]; exact fullField_sets w (full_mask _) s).mono fun _ d' e _ => e

theorem number_step {w : Bytes} (hn : GoodNumber A Y w) {s : Dec × Unit} (hg : ∀ l, dateSplit (w.length + 1) w 0 = .ok l → GoodPieces A l)
    (h : Sound A Y s.1) : Post (numberToken p plainLook w order) (fun _ s' => Step A Y s.1 s'.1) s := by
  have field : Post (onNum (decodeNumberField w s.1.fMask)) (fun _ d' => Step A Y s.1 d') s.1 := by
    refine onNum_step h hn.three ?_
    refine ((numberField_eff w s.1.fMask _).and (numberField_sets w s.1.fMask _)).mono fun _ s' e => ⟨e.1, fun _ ht => ?_⟩
    rcases e.2 with e | e <;> rw [ht] at e <;> cases e
  unfold numberToken
  wp
  refine ⟨fun _ => labelled_step hn h, fun _ => ⟨fun _ => date_step hg h, fun _ => ⟨fun _ => field, fun _ => ⟨fun _ => field, fun hc => ?_⟩⟩⟩⟩
  refine onNum_step h hn.three ((number_eff w false s.1.fMask order _).mono fun _ s' e => ⟨e, fun a ht hm => ?_⟩)
  obtain ⟨r, hr⟩ := e.first ht
  have hl : w.length < 6 := Nat.lt_of_not_le fun hl => hc ⟨hl, Or.inl hm⟩
  rcases hn.plain with hw | hw
  · have := str2i32_short hw hr (n := 5) (by
      have := (List.takeWhile_sublist isDigit (l := w)).length_le
      omega)
    omega
  · rw [str2i32_lone hw] at hr
    have := congrArg Prod.fst (Res.ok.inj hr)
    dsimp only at this
    omega

theorem decodeTime_date (y : PgTime) (w : Bytes) (range : Nat) :
    Stays (fun t : TimeS => t.tm.year = y.year ∧ t.tm.mon = y.mon ∧ t.tm.mday = y.mday ∧ t.tm.yday = y.yday) (decodeTime w range) := by
  have tail : ∀ s : Bytes, Stays (fun t : TimeS => t.tm.year = y.year ∧ t.tm.mon = y.mon ∧ t.tm.mday = y.mday ∧ t.tm.yday = y.yday)
      (timeTail s range) := by
    intro s
    unfold timeTail
    split
    · exact Stays.modBind (fun s h => h) (Stays.ite (fun _ => Stays.mod fun s h => h) fun _ => Stays.pure)
    · refine Stays.ite (fun _ => Stays.liftBind fun _ _ => Stays.mod fun s h => h) fun _ => Stays.ite (fun _ => ?_) fun _ => Stays.fail
      unfold timeSeconds
      refine Stays.liftBind fun _ _ => Stays.modBind (fun s h => h) ?_
      split
      · exact Stays.mod fun s h => h
      · exact Stays.ite (fun _ => Stays.liftBind fun _ _ => Stays.mod fun s h => h) fun _ => Stays.fail
  unfold decodeTime
  refine Stays.modBind (fun s h => h) (Stays.liftBind fun a _ => Stays.modBind (fun s h => h) ?_)
  split
  · exact Stays.liftBind fun _ _ => Stays.modBind (fun s h => h) ((tail _).bind fun _ => Stays.get.bind fun _ =>
      Stays.ite (fun _ => Stays.fail) fun _ => Stays.pure)
  · exact Stays.fail

theorem onTime_step (w : Bytes) (range : Nat) {d : Dec} (h : Sound A Y d) : Post (onTime (decodeTime w range)) (fun _ d' => Step A Y d d') d := by
  unfold onTime
  rw [Post.zoom]
  refine (((decodeTime_date d.tm w range).post (s := ⟨d.tMask, d.tm, d.fSec⟩) ⟨rfl, rfl, rfl, rfl⟩).and (decodeTime_mask w range _)).mono fun _ t e => ?_
  obtain ⟨⟨e1, e2, e3, e4⟩, e5⟩ := e
  exact Step.lit 31744 e5 h rfl (by decide) (by decide) e1 e4 (Or.inl e2) (Or.inl e3) rfl h.bc h.label

theorem timeToken_step (w : Bytes) {d : Dec} (h : Sound A Y d) : Post (timeToken w) (fun _ d' => Step A Y d d') d := by
  unfold timeToken
  wp
  intro _
  have h' : Sound A Y { d with pType := .number } := ⟨h.core, h.lead, h.bc, fun _ e => (by cases e), h.mask⟩
  exact (onTime_step w _ h').mono fun _ d' e _ => e

/-- What is needed of a word. -/
structure GoodWord (A Y : Prop) (ty : TokenType) (v : Int) : Prop where
  bc : A → ty = .adbc → v ≠ 1
  label : A → ty = .units ∨ ty = .isotime → v = TokenField.year.value → Y

theorem action_step {ty : TokenType} {v : Int} (hw : GoodWord A Y ty v) {d : Dec} (h : Sound A Y d) :
    Post (wordAction ftypes i ty v) (fun _ d' => Step A Y d d') d := by
  unfold wordAction
  rw [Post.bind, Post.mod]
  split
  · unfold reservedWord
    wp
    intro a ha
    split <;> wp
    · exact Step.lit 31776 rfl h rfl (by decide) (by decide) rfl rfl (Or.inl rfl) (Or.inl rfl) rfl h.bc h.label
    · exact Step.lit (TokenType.mask .reserv) rfl h rfl (by decide) (by decide) rfl rfl (Or.inl rfl) (Or.inl rfl) rfl h.bc h.label
  · unfold monthWord
    rw [Post.mod]
    dsimp only
    split
    · rename_i hc
      refine Step.other h rfl (show (8 : Nat).testBit 15 = false by decide) (show (8 : Nat).testBit 2 = false by decide) rfl rfl (Or.inr (or_left ?_))
        (Or.inr (show (8 : Nat).testBit 3 = true by decide)) rfl h.bc h.label
      rcases bit_cases d.fMask 1 with t | t
      · exact t
      · refine absurd ?_ hc.1
        apply Nat.eq_of_testBit_eq
        intro k
        rw [Nat.testBit_and, Nat.zero_testBit, show (2 : Nat) = 2 ^ 1 from rfl, Nat.testBit_two_pow]
        by_cases hk : 1 = k
        · subst hk; rw [t]; rfl
        · rw [decide_eq_false hk, Bool.and_false]
    · exact Step.lit (TokenType.mask .month) rfl h rfl (by decide) (by decide) rfl rfl (Or.inr (by decide)) (Or.inl rfl) rfl h.bc h.label
  · rw [Post.mod]
    exact Step.lit (TokenType.mask .ampm) rfl h rfl (by decide) (by decide) rfl rfl (Or.inl rfl) (Or.inl rfl) rfl h.bc h.label
  · rw [Post.mod]
    exact Step.lit (TokenType.mask .adbc) rfl h rfl (by decide) (by decide) rfl rfl (Or.inl rfl) (Or.inl rfl) rfl
      (fun a => decide_eq_false (hw.bc a rfl)) h.label
  · rw [Post.mod]
    exact Step.lit (TokenType.mask .dow) rfl h rfl (by decide) (by decide) rfl rfl (Or.inl rfl) (Or.inl rfl) rfl h.bc h.label
  · wp
    exact fun g hg => Step.lit 0 rfl h rfl (by decide) (by decide) rfl rfl (Or.inl rfl) (Or.inl rfl) rfl h.bc
      fun a e => hw.label a (Or.inl rfl) (by rw [ofInt_value hg]; exact congrArg _ e)
  · unfold isoTimeWord
    wp
    intro _
    split
    · rw [Post.panic]; trivial
    · wp
      exact fun _ g hg => Step.lit 0 rfl h rfl (by decide) (by decide) rfl rfl (Or.inl rfl) (Or.inl rfl) rfl h.bc
        fun a e => hw.label a (Or.inr rfl) (by rw [ofInt_value hg]; exact congrArg _ e)
  · rw [Post.fail]; trivial

theorem actionT_step {ty : TokenType} {v : Int} (hw : GoodWord A Y ty v) {d : Dec} (h : Sound A Y d) :
    Post (wordActionT ftypes i ty v) (fun _ d' => Step A Y d d') d := by
  unfold wordActionT
  rw [Post.bind, Post.mod]
  split
  · unfold reservedWordT
    wp
    intro a ha
    split <;> wp
    exact Step.lit 31776 rfl h rfl (by decide) (by decide) rfl rfl (Or.inl rfl) (Or.inl rfl) rfl h.bc h.label
  · rw [Post.mod]
    exact Step.lit (TokenType.mask .ampm) rfl h rfl (by decide) (by decide) rfl rfl (Or.inl rfl) (Or.inl rfl) rfl h.bc h.label
  · rw [Post.mod]
    exact Step.lit (TokenType.mask .adbc) rfl h rfl (by decide) (by decide) rfl rfl (Or.inl rfl) (Or.inl rfl) rfl
      (fun a => decide_eq_false (hw.bc a rfl)) h.label
  · wp
    exact fun g hg => Step.lit 0 rfl h rfl (by decide) (by decide) rfl rfl (Or.inl rfl) (Or.inl rfl) rfl h.bc
      fun a e => hw.label a (Or.inl rfl) (by rw [ofInt_value hg]; exact congrArg _ e)
  · unfold isoTimeWordT
    wp
    split
    · wp
    · wp
      exact fun _ g hg => Step.lit 0 rfl h rfl (by decide) (by decide) rfl rfl (Or.inl rfl) (Or.inl rfl) rfl h.bc
        fun a e => hw.label a (Or.inr rfl) (by rw [ofInt_value hg]; exact congrArg _ e)
  · rw [Post.fail]; trivial

/-- What is needed of a field. -/
structure YearField (A Y : Prop) (f : Field) : Prop where
  number : f.1 = .number → GoodNumber A Y f.2
  date : f.1 = .number ∨ f.1 = .date → ∀ l, dateSplit (f.2.length + 1) f.2 0 = .ok l → GoodPieces A l
  word : ∀ ty v, Entry f ty v → GoodWord A Y ty v

theorem addMask_step {d d' : Dec} (h : Step A Y d d') : Post addMask (fun _ d' => Sound A Y d') d' := by
  rw [addMask_post]
  intro hd
  rw [h.1] at hd ⊢
  exact h.2 hd

theorem field_sound {f : Field} (hf : YearField A Y f) {s : Dec × Unit} (hs : Sound A Y s.1) :
    Post (dateTimeField p plainLook order ftypes i f) (fun _ s' => Sound A Y s'.1) s := by
  have word : f.1 = .string ∨ f.1 = .special → Post (wordToken plainLook ftypes i f.2) (fun b s' => (b = true → Sound A Y s'.1) ∧ (¬ b = true → Step A Y s.1 s'.1)) s := by
    intro hw
    unfold wordToken
    rw [Post.bind, Post.look]
    dsimp only
    wp
    refine ⟨fun _ => ⟨fun _ => hs, fun c => absurd trivial c⟩, fun _ => ?_⟩
    by_cases hu : (tokenResult (lookupIn dateTable f.2)).1 = .unknownField
    · refine (action_step ⟨fun _ e => ?_, fun _ e => ?_⟩ hs).mono fun _ d' e => ⟨fun c => (by cases c), fun _ => e⟩
      · rw [hu] at e; cases e
      · rw [hu] at e; rcases e with e | e <;> cases e
    · exact (action_step (hf.word _ _ ⟨hw, rfl, hu⟩) hs).mono fun _ d' e => ⟨fun c => (by cases c), fun _ => e⟩
  unfold dateTimeField
  split
  · rename_i e; wp; exact (dateToken_step (hf.date (Or.inr e)) hs).mono fun _ s' h => addMask_step h
  · wp; exact (timeToken_step f.2 hs).mono fun _ d' h => addMask_step h
  · rename_i e; wp; exact (number_step (hf.number e) (hf.date (Or.inl e)) hs).mono fun _ s' h => addMask_step h
  · rename_i e; wp; exact (word (Or.inl e)).mono fun b s' h => ⟨fun c => h.1 c, fun c => addMask_step (h.2 c)⟩
  · rename_i e; wp; exact (word (Or.inr e)).mono fun b s' h => ⟨fun c => h.1 c, fun c => addMask_step (h.2 c)⟩
  · wp

theorem numberT_step {w : Bytes} (hn : GoodNumber A Y w) {s : Dec × Unit} (hg : ∀ l, dateSplit (w.length + 1) w 0 = .ok l → GoodPieces A l)
    (h : Sound A Y s.1) : Post (numberTokenT p plainLook order ftypes i w) (fun _ s' => Step A Y s.1 s'.1) s := by
  have field : Post (onNum (decodeNumberField w (s.1.fMask ||| 14))) (fun _ d' => Step A Y s.1 d') s.1 :=
    onNum_alone h fun t ht => by rw [← ht]; exact fullField_sets w (full_mask _) t
  unfold numberTokenT
  wp
  refine ⟨fun _ => labelled_step hn h, fun _ => ⟨fun _ => ⟨fun _ => date_step hg h, fun _ _ => field⟩, fun _ => ⟨fun _ => field, fun hc => ?_⟩⟩⟩
  exact onNum_alone h fun t ht => by rw [← ht]; exact fullNumber_sets w false (full_mask _) order t

theorem fieldT_sound {f : Field} (hf : YearField A Y f) {s : Dec × Unit} (hs : Sound A Y s.1) :
    Post (timeOnlyField p plainLook order ftypes i f) (fun _ s' => Sound A Y s'.1) s := by
  have word : f.1 = .string ∨ f.1 = .special → Post (wordTokenT plainLook ftypes i f.2) (fun b s' => (b = true → Sound A Y s'.1) ∧ (¬ b = true → Step A Y s.1 s'.1)) s := by
    intro hw
    unfold wordTokenT
    rw [Post.bind, Post.look]
    dsimp only
    wp
    refine ⟨fun _ => ⟨fun _ => hs, fun c => absurd trivial c⟩, fun _ => ?_⟩
    by_cases hu : (tokenResult (lookupIn dateTable f.2)).1 = .unknownField
    · refine (actionT_step ⟨fun _ e => ?_, fun _ e => ?_⟩ hs).mono fun _ d' e => ⟨fun c => (by cases c), fun _ => e⟩
      · rw [hu] at e; cases e
      · rw [hu] at e; rcases e with e | e <;> cases e
    · exact (actionT_step (hf.word _ _ ⟨hw, rfl, hu⟩) hs).mono fun _ d' e => ⟨fun c => (by cases c), fun _ => e⟩
  unfold timeOnlyField
  split
  · rename_i e; unfold dateTokenT; wp; exact fun _ => (date_step (hf.date (Or.inr e)) hs).mono fun _ s' h => addMask_step h
  · wp; exact (onTime_step f.2 _ hs).mono fun _ d' h => addMask_step h
  · rename_i e; wp; exact (numberT_step (hf.number e) (hf.date (Or.inl e)) hs).mono fun _ s' h => addMask_step h
  · rename_i e; wp; exact (word (Or.inl e)).mono fun b s' h => ⟨fun c => h.1 c, fun c => addMask_step (h.2 c)⟩
  · rename_i e; wp; exact (word (Or.inr e)).mono fun b s' h => ⟨fun c => h.1 c, fun c => addMask_step (h.2 c)⟩
  · wp

theorem sound_start : Sound A Y ({} : Dec) :=
  ⟨⟨fun e => (by cases e), fun e => (by cases e), fun _ => rfl, fun _ => rfl, by decide⟩, fun _ e => (by cases e), fun _ => rfl, fun _ e => (by cases e), fun _ h => h⟩

end Pg
