import Verif.Lemmas.Format
import Verif.Lemmas.Date
import Verif.Lemmas.IsoWeek
import Verif.Spec.DateText
import Mathlib.Data.List.Induction
import Mathlib.Tactic.Ring

/-!
# Text of dates, times and timestamps
-/

namespace Pg
open Spec

theorem put2_two (p : Profile) {v : Int} (h : 0 ≤ v ∧ v ≤ 2147483647) :
    Emits (put2 p v) (two v) := put2_emits p (by unfold In32; omega) h.1

theorem two_len {v : Int} (h : 0 ≤ v ∧ v ≤ 99) : (two v).length = 2 := by
  have := (padText_padded 2 (by omega) v.natAbs).2.2.1 (by omega)
  exact this

theorem putEra_emits (y : Int) : Emits (putEra y) (eraText y) := by
  unfold eraText
  by_cases h : y ≤ 0
  · have : putEra y = copySlice b!" BC" := by funext b; rw [putEra, if_pos h]
    rw [if_pos h, this]; exact Emits.slice _
  · have : putEra y = fun b => .ok b := by funext b; rw [putEra, if_neg h]
    rw [if_neg h, this]; exact Emits.nil

/-- The fields of a `PgTime` are printable. -/
structure Printable (tm : PgTime) : Prop where
  y : -2147483646 ≤ tm.year ∧ tm.year ≤ i32Max
  m : 0 ≤ tm.mon ∧ tm.mon ≤ 2147483647
  d : 0 ≤ tm.mday ∧ tm.mday ≤ 2147483647

theorem putMonthDay_dmy (p : Profile) {tm : PgTime} (h : Printable tm) (x y : Nat) :
    Emits (putMonthDay p tm .dmy x y) (two tm.mday ++ ([x] ++ two tm.mon)) := by
  have : putMonthDay p tm .dmy x y =
      fun b => put2 p tm.mday b >>= fun b => setOneByte x b >>= put2 p tm.mon := by
    funext b; rw [putMonthDay, if_pos rfl]
  rw [this]
  exact (put2_two p h.d).bind ((Emits.byte _).bind (put2_two p h.m))

theorem putMonthDay_other (p : Profile) {tm : PgTime} (h : Printable tm) {o : DateOrder}
    (ho : o ≠ .dmy) (x y : Nat) :
    Emits (putMonthDay p tm o x y) (two tm.mon ++ ([y] ++ two tm.mday)) := by
  have : putMonthDay p tm o x y =
      fun b => put2 p tm.mon b >>= fun b => setOneByte y b >>= put2 p tm.mday := by
    funext b; rw [putMonthDay, if_neg ho]
  rw [this]
  exact (put2_two p h.m).bind ((Emits.byte _).bind (put2_two p h.d))

theorem putDate_emits (p : Profile) {tm : PgTime} (h : Printable tm) (o : DateOrder)
    (st : DateStyle) :
    Emits (putDate p tm o st) (dayText st o ⟨tm.year, tm.mon, tm.mday⟩) := by
  have hy := putYear_emits p h.y
  have hm := put2_two p h.m
  have hd := put2_two p h.d
  have hiso := hy.bind ((Emits.byte 45).bind (hm.bind ((Emits.byte 45).bind hd)))
  have hger := hd.bind ((Emits.byte 46).bind (hm.bind ((Emits.byte 46).bind hy)))
  cases st
  case iso => exact hiso
  case xsd => exact hiso
  case german => exact hger
  case sql =>
    have := fun (w : Bytes) (x : Emits (putMonthDay p tm o 47 47) w) => x.bind ((Emits.byte 47).bind hy)
    cases o
    · have := this _ (putMonthDay_other p h (by decide) 47 47)
      rw [List.append_assoc, List.append_assoc] at this; exact this
    · have := this _ (putMonthDay_dmy p h 47 47)
      rw [List.append_assoc, List.append_assoc] at this; exact this
    · have := this _ (putMonthDay_other p h (by decide) 47 47)
      rw [List.append_assoc, List.append_assoc] at this; exact this
  case postgres =>
    have := fun (w : Bytes) (x : Emits (putMonthDay p tm o 45 46) w) => x.bind ((Emits.byte 46).bind hy)
    cases o
    · have := this _ (putMonthDay_other p h (by decide) 45 46)
      rw [List.append_assoc, List.append_assoc] at this; exact this
    · have := this _ (putMonthDay_dmy p h 45 46)
      rw [List.append_assoc, List.append_assoc] at this; exact this
    · have := this _ (putMonthDay_other p h (by decide) 45 46)
      rw [List.append_assoc, List.append_assoc] at this; exact this

theorem formatDate_emits (p : Profile) {tm : PgTime} (h : Printable tm) (st : DateStyle)
    (o : DateOrder) :
    Emits (formatDate p tm st o) (dateText st o ⟨tm.year, tm.mon, tm.mday⟩) :=
  (putDate_emits p h o st).bind (putEra_emits _)

theorem padText_len_le {w n k : Nat} (hk : 1 ≤ k) (hwk : w ≤ k) (h : n < 10 ^ k) :
    (padText w n).length ≤ k := by
  have := (natText_len hk).2 h
  simp [padText]; omega

theorem yearText_len {y : Int} (h : -9999998 ≤ y ∧ y ≤ 9999999) : (yearText y).length ≤ 7 := by
  unfold yearText
  apply padText_len_le (by omega) (by omega)
  split <;> omega

theorem two_len_le {v : Int} (h : 0 ≤ v ∧ v ≤ 99) : (two v).length ≤ 2 := Nat.le_of_eq (two_len h)

theorem dateText_len (st : DateStyle) (o : DateOrder) {c : YMD} (hy : -9999998 ≤ c.y ∧ c.y ≤ 9999999)
    (hm : 0 ≤ c.m ∧ c.m ≤ 99) (hd : 0 ≤ c.d ∧ c.d ≤ 99) : (dateText st o c).length ≤ 16 := by
  have h1 := yearText_len hy
  have h2 := two_len_le hm
  have h3 := two_len_le hd
  have h4 : (eraText c.y).length ≤ 3 := by unfold eraText; split <;> simp
  unfold dateText dayText
  cases st <;> cases o <;> simp only [List.length_append, List.length_cons, List.length_nil] <;> omega

theorem putClock_emits (p : Profile) {tm : PgTime} {fsec : Int} (h1 : 0 ≤ tm.hour ∧ tm.hour ≤ 99)
    (h2 : 0 ≤ tm.min ∧ tm.min ≤ 99) (h3 : 0 ≤ tm.sec ∧ tm.sec ≤ 99) (h4 : 0 ≤ fsec ∧ fsec ≤ 999999) :
    Emits (formatTime p tm fsec) (clockText ⟨tm.hour, tm.min, tm.sec, fsec⟩) :=
  (put2_two p (by omega)).bind ((Emits.byte 58).bind ((put2_two p (by omega)).bind
    ((Emits.byte 58).bind (Emits.sub (appendSeconds_writes p (by unfold In32; omega) (by omega)
      (by omega) true)))))

theorem fracText_len {us : Nat} (h : us < 1000000) : (fracText us).length ≤ 7 := by
  unfold fracText
  split
  · simp
  · have := strip_len (padText 6 us)
    have := padText_len_le (w := 6) (n := us) (k := 6) (by omega) (by omega) (by simpa using h)
    simp; omega

theorem clockText_len {t : Clock} (h1 : 0 ≤ t.h ∧ t.h ≤ 99)
    (h2 : 0 ≤ t.mi ∧ t.mi ≤ 99) (h3 : 0 ≤ t.s ∧ t.s ≤ 99) (h4 : 0 ≤ t.us ∧ t.us ≤ 999999) :
    (clockText t).length ≤ 15 := by
  have := two_len_le h1
  have := two_len_le h2
  have h' : (padText 2 t.s.natAbs).length ≤ 2 := two_len_le h3
  have := fracText_len (us := t.us.natAbs) (by omega)
  unfold clockText secText
  simp only [List.length_append, List.length_cons, List.length_nil, if_true]
  omega

theorem monthName_eq {m : Int} (h : 1 ≤ m ∧ m ≤ 12) : monthName m = .ok (monthNameText m) := by
  have : m = 1 ∨ m = 2 ∨ m = 3 ∨ m = 4 ∨ m = 5 ∨ m = 6 ∨ m = 7 ∨ m = 8 ∨ m = 9 ∨ m = 10 ∨ m = 11 ∨
    m = 12 := by omega
  rcases this with rfl | rfl | rfl | rfl | rfl | rfl | rfl | rfl | rfl | rfl | rfl | rfl <;> rfl

theorem wdayName_eq {w : Int} (h : 0 ≤ w ∧ w ≤ 6) : wdayName w = .ok (dayNames.getD w.toNat []) := by
  have : w = 0 ∨ w = 1 ∨ w = 2 ∨ w = 3 ∨ w = 4 ∨ w = 5 ∨ w = 6 := by omega
  rcases this with rfl | rfl | rfl | rfl | rfl | rfl | rfl <;> rfl

theorem names_len (l : List Bytes) (h : ∀ x ∈ l, x.length = 3) (i : Nat) : (l.getD i []).length ≤ 3 := by
  rw [List.getD_eq_getElem?_getD]
  rcases h' : l[i]? with _ | x
  · simp
  · simp [h x (List.mem_of_getElem? h')]

theorem putDayName_dmy (p : Profile) {tm : PgTime} (hm : 1 ≤ tm.mon ∧ tm.mon ≤ 12)
    (hd : 0 ≤ tm.mday ∧ tm.mday ≤ 99) :
    Emits (putDayName p tm .dmy) (two tm.mday ++ ([32] ++ monthNameText tm.mon)) := by
  have : putDayName p tm .dmy = fun b => put2 p tm.mday b >>= fun b => setOneByte 32 b >>=
      copySlice (monthNameText tm.mon) := by
    funext b; rw [putDayName, if_pos rfl, monthName_eq hm]; rfl
  rw [this]
  exact (put2_two p (by omega)).bind ((Emits.byte _).bind (Emits.slice _))

theorem putDayName_other (p : Profile) {tm : PgTime} (hm : 1 ≤ tm.mon ∧ tm.mon ≤ 12)
    (hd : 0 ≤ tm.mday ∧ tm.mday ≤ 99) {o : DateOrder} (ho : o ≠ .dmy) :
    Emits (putDayName p tm o) (monthNameText tm.mon ++ ([32] ++ two tm.mday)) := by
  have : putDayName p tm o = fun b => copySlice (monthNameText tm.mon) b >>= fun b =>
      setOneByte 32 b >>= put2 p tm.mday := by
    funext b; rw [putDayName, if_neg ho, monthName_eq hm]; rfl
  rw [this]
  exact (Emits.slice _).bind ((Emits.byte _).bind (put2_two p (by omega)))

theorem putDateTime_emits (p : Profile) {c : YMD} {t : Clock} (hc : c.Real) (ht : t.Real)
    (hy : -4713 ≤ c.y ∧ c.y ≤ 294277)
    (hrange : -2451545 ≤ dayNumber c ∧ dayNumber c < 2145031949) (o : DateOrder) (st : DateStyle) :
    Emits (putDateTime p (tmOf c t) t.us o st) (instantText st o c t) := by
  have hb := real_bounds hc
  unfold Clock.Real at ht
  have hP : Printable (tmOf c t) :=
    ⟨by simp [tmOf]; omega, by simp [tmOf]; omega, by simp [tmOf]; omega⟩
  have hclock : Emits (putClock p (tmOf c t) t.us) (clockText t) :=
    putClock_emits p (by simp [tmOf]; omega) (by simp [tmOf]; omega) (by simp [tmOf]; omega)
      (by omega)
  have hyr : Emits (putYear p (tmOf c t).year) (yearText c.y) := putYear_emits p hP.y
  cases st
  case iso => exact (putDate_emits p hP o .iso).bind ((Emits.byte 32).bind hclock)
  case xsd => exact (putDate_emits p hP o .iso).bind ((Emits.byte 84).bind hclock)
  case sql => exact (putDate_emits p hP o .sql).bind ((Emits.byte 32).bind hclock)
  case german => exact (putDate_emits p hP o .german).bind ((Emits.byte 32).bind hclock)
  case postgres =>
    have hj : date2julian p (tmOf c t).year (tmOf c t).mon (tmOf c t).mday = .ok (jdn c.y c.m c.d) := by
      have := date2julian_eq p c.y c.m c.d (by omega) (by omega) (by omega) (by omega) (by omega)
        (by omega) (by omega)
      exact this
    have e := jdn_eq c
    have hdn : jdn c.y c.m c.d = dayNumber c + 2451545 := rfl
    have hw : julianToWeekDay p (jdn c.y c.m c.d) = .ok ((dayNumber c + 6) % 7) := by
      rw [julianToWeekDay_eq p (by omega)]
      congr 1; omega
    have hn : wdayName ((dayNumber c + 6) % 7) = .ok (dayNameText c) := by
      rw [wdayName_eq (by omega)]; rfl
    have e1 : putDateTime p (tmOf c t) t.us o .postgres = fun b => copySlice (dayNameText c) b >>=
        fun b => setOneByte 32 b >>= fun b => putDayName p (tmOf c t) o b >>=
        fun b => setOneByte 32 b >>= fun b => putClock p (tmOf c t) t.us b >>=
        fun b => setOneByte 32 b >>= putYear p (tmOf c t).year := by
      funext b
      show (date2julian p (tmOf c t).year (tmOf c t).mon (tmOf c t).mday >>= _) = _
      rw [hj, Res.bind_ok, hw, Res.bind_ok, hn, Res.bind_ok]
    rw [e1]
    have tail := fun (w : Bytes) (hw : Emits (putDayName p (tmOf c t) o) w) =>
      (Emits.slice (dayNameText c)).bind ((Emits.byte 32).bind (hw.bind ((Emits.byte 32).bind
        (hclock.bind ((Emits.byte 32).bind hyr)))))
    cases o
    · exact tail _ (putDayName_other p (by simp [tmOf]; omega) (by simp [tmOf]; omega) (by decide))
    · exact tail _ (putDayName_dmy p (by simp [tmOf]; omega) (by simp [tmOf]; omega))
    · exact tail _ (putDayName_other p (by simp [tmOf]; omega) (by simp [tmOf]; omega) (by decide))

theorem timestampText_len (st : DateStyle) (o : DateOrder) {c : YMD} {t : Clock}
    (hc : c.Real) (ht : t.Real) (hy : -4713 ≤ c.y ∧ c.y ≤ 294277) :
    (timestampText st o c t).length ≤ 128 := by
  have hb := real_bounds hc
  unfold Clock.Real at ht
  have h1 := yearText_len (y := c.y) (by omega)
  have h2 := two_len_le (v := c.m) (by omega)
  have h3 := two_len_le (v := c.d) (by omega)
  have h4 : (eraText c.y).length ≤ 3 := by unfold eraText; split <;> simp
  have h5 := clockText_len (t := t) (by omega) (by omega) (by omega) (by omega)
  have h6 : (dayNameText c).length ≤ 3 := names_len _ (by decide) _
  have h7 : (monthNameText c.m).length ≤ 3 := names_len _ (by decide) _
  unfold timestampText instantText dayText
  cases st <;> cases o <;> simp only [List.length_append, List.length_cons, List.length_nil] <;> omega

/-! ## Texts determine the fields -/

theorem digits_sep {a a' t t' : Bytes} {c c' : Nat} (ha : Digits a) (ha' : Digits a')
    (hc : ¬ (48 ≤ c ∧ c ≤ 57)) (hc' : ¬ (48 ≤ c' ∧ c' ≤ 57)) (h : a ++ c :: t = a' ++ c' :: t') :
    a = a' ∧ c = c' ∧ t = t' := by
  induction a generalizing a' with
  | nil =>
    cases a' with
    | nil => simpa using h
    | cons x l =>
      simp at h
      exact absurd (h.1 ▸ ha' x (by simp)) hc
  | cons x l ih =>
    cases a' with
    | nil =>
      simp at h
      exact absurd (h.1 ▸ ha x (by simp)) hc'
    | cons y l' =>
      simp only [List.cons_append, List.cons.injEq] at h
      have := ih (fun d hd => ha d (by simp [hd])) (fun d hd => ha' d (by simp [hd])) h.2
      exact ⟨by rw [h.1, this.1], this.2⟩

theorem digits_end {a a' t : Bytes} {c : Nat} (ha' : Digits a')
    (hc : ¬ (48 ≤ c ∧ c ≤ 57)) : a ++ c :: t ≠ a' := by
  intro h
  exact hc (ha' c (by rw [← h]; simp))

theorem padText_digits (w n : Nat) : Digits (padText w n) := by
  refine digits_append.2 ⟨?_, natText_digits n⟩
  intro d hd; have := (List.mem_replicate.1 hd).2; omega

theorem padText_inj {w n n' : Nat} (h : padText w n = padText w n') : n = n' := by
  have := congrArg value h
  simpa [padText, value_replicate, natText_value] using this

theorem two_inj {v v' : Int} (h : 0 ≤ v) (h' : 0 ≤ v') (e : two v = two v') : v = v' := by
  have := padText_inj e; omega

theorem year_era_inj {y y' : Int} (h : yearText y = yearText y') (he : eraText y = eraText y') :
    y = y' := by
  have := padText_inj h
  unfold eraText at he
  split at he <;> split at he
  · split at this <;> split at this <;> omega
  · simp at he
  · simp at he
  · split at this <;> split at this <;> omega

theorem yearText_digits (y : Int) : Digits (yearText y) := padText_digits _ _
theorem two_digits (v : Int) : Digits (two v) := padText_digits _ _

/-- A year followed by its era determines the year. -/
theorem year_era {y y' : Int} (h : yearText y ++ eraText y = yearText y' ++ eraText y') : y = y' := by
  by_cases h1 : y ≤ 0 <;> by_cases h2 : y' ≤ 0
  · have e1 : eraText y = 32 :: [66, 67] := by rw [eraText, if_pos h1]
    have e2 : eraText y' = 32 :: [66, 67] := by rw [eraText, if_pos h2]
    rw [e1, e2] at h
    have := digits_sep (yearText_digits _) (yearText_digits _) (by omega) (by omega) h
    exact year_era_inj this.1 (by rw [e1, e2])
  · have e1 : eraText y = 32 :: [66, 67] := by rw [eraText, if_pos h1]
    have e2 : eraText y' = [] := by rw [eraText, if_neg h2]
    rw [e1, e2, List.append_nil] at h
    exact absurd h (digits_end (yearText_digits _) (by omega))
  · have e1 : eraText y = [] := by rw [eraText, if_neg h1]
    have e2 : eraText y' = 32 :: [66, 67] := by rw [eraText, if_pos h2]
    rw [e1, e2, List.append_nil] at h
    exact absurd h.symm (digits_end (yearText_digits _) (by omega))
  · have e1 : eraText y = [] := by rw [eraText, if_neg h1]
    have e2 : eraText y' = [] := by rw [eraText, if_neg h2]
    rw [e1, e2, List.append_nil, List.append_nil] at h
    exact year_era_inj h (by rw [e1, e2])

theorem dateText_inj (st : DateStyle) (o : DateOrder) {c c' : YMD}
    (hm : 0 ≤ c.m ∧ c.m ≤ 99) (hd : 0 ≤ c.d ∧ c.d ≤ 99)
    (hm' : 0 ≤ c'.m ∧ c'.m ≤ 99) (hd' : 0 ≤ c'.d ∧ c'.d ≤ 99)
    (h : dateText st o c = dateText st o c') : c = c' := by
  obtain ⟨y, m, d⟩ := c
  obtain ⟨y', m', d'⟩ := c'
  simp only at hm hd hm' hd'
  have iso : yearText y ++ ([45] ++ (two m ++ ([45] ++ two d))) ++ eraText y =
      yearText y' ++ ([45] ++ (two m' ++ ([45] ++ two d'))) ++ eraText y' →
      (⟨y, m, d⟩ : YMD) = ⟨y', m', d'⟩ := by
    intro h
    simp only [List.append_assoc, List.cons_append, List.nil_append] at h
    obtain ⟨e1, -, h⟩ := digits_sep (yearText_digits _) (yearText_digits _) (by omega) (by omega) h
    obtain ⟨e2, -, h⟩ := digits_sep (two_digits _) (two_digits _) (by omega) (by omega) h
    obtain ⟨e3, e4⟩ := List.append_inj h (by rw [two_len hd, two_len hd'])
    rw [year_era_inj e1 e4, two_inj hm.1 hm'.1 e2, two_inj hd.1 hd'.1 e3]
  have seq : ∀ (s1 s2 : Nat) (a b a' b' : Int), (¬ (48 ≤ s1 ∧ s1 ≤ 57)) → (¬ (48 ≤ s2 ∧ s2 ≤ 57)) →
      0 ≤ a → 0 ≤ b → 0 ≤ a' → 0 ≤ b' →
      two a ++ ([s1] ++ (two b ++ ([s2] ++ yearText y))) ++ eraText y =
      two a' ++ ([s1] ++ (two b' ++ ([s2] ++ yearText y'))) ++ eraText y' →
      a = a' ∧ b = b' ∧ y = y' := by
    intro s1 s2 a b a' b' n1 n2 p1 p2 p3 p4 h
    simp only [List.append_assoc, List.cons_append, List.nil_append] at h
    obtain ⟨e1, -, h⟩ := digits_sep (two_digits _) (two_digits _) n1 n1 h
    obtain ⟨e2, -, h⟩ := digits_sep (two_digits _) (two_digits _) n2 n2 h
    exact ⟨two_inj p1 p3 e1, two_inj p2 p4 e2, year_era h⟩
  cases st
  case iso => exact iso h
  case xsd => exact iso h
  case german =>
    obtain ⟨rfl, rfl, rfl⟩ := seq 46 46 _ _ _ _ (by omega) (by omega) hd.1 hm.1 hd'.1 hm'.1 h
    rfl
  case sql =>
    cases o
    · obtain ⟨rfl, rfl, rfl⟩ := seq 47 47 _ _ _ _ (by omega) (by omega) hm.1 hd.1 hm'.1 hd'.1 h
      rfl
    · obtain ⟨rfl, rfl, rfl⟩ := seq 47 47 _ _ _ _ (by omega) (by omega) hd.1 hm.1 hd'.1 hm'.1 h
      rfl
    · obtain ⟨rfl, rfl, rfl⟩ := seq 47 47 _ _ _ _ (by omega) (by omega) hm.1 hd.1 hm'.1 hd'.1 h
      rfl
  case postgres =>
    cases o
    · obtain ⟨rfl, rfl, rfl⟩ := seq 46 46 _ _ _ _ (by omega) (by omega) hm.1 hd.1 hm'.1 hd'.1 h
      rfl
    · obtain ⟨rfl, rfl, rfl⟩ := seq 45 46 _ _ _ _ (by omega) (by omega) hd.1 hm.1 hd'.1 hm'.1 h
      rfl
    · obtain ⟨rfl, rfl, rfl⟩ := seq 46 46 _ _ _ _ (by omega) (by omega) hm.1 hd.1 hm'.1 hd'.1 h
      rfl

/-- The first character of a padded number is a digit. -/
theorem padText_head (w n : Nat) (t : Bytes) :
    ∃ x, (padText w n ++ t).head? = some x ∧ 48 ≤ x ∧ x ≤ 57 := by
  have hd := padText_digits w n
  cases h : padText w n with
  | nil => exact absurd (List.append_eq_nil_iff.1 h).2 (natText_ne n)
  | cons x l => exact ⟨x, by simp, hd x (by rw [h]; simp)⟩

theorem dateText_head (st : DateStyle) (o : DateOrder) (c : YMD) (t : Bytes) :
    ∃ x, (dayText st o c ++ t).head? = some x ∧ 48 ≤ x ∧ x ≤ 57 := by
  cases st <;> cases o <;>
    simp only [dayText, two, yearText, List.append_assoc] <;>
    exact padText_head _ _ _

theorem value_snoc_zero (t : Bytes) : value (t ++ [48]) = 10 * value t := by
  rw [value_append]; omega

theorem strip_value (t : Bytes) :
    value (stripZeros t) * 10 ^ (t.length - (stripZeros t).length) = value t := by
  induction t using List.reverseRecOn with
  | nil => rfl
  | append_singleton t c ih =>
    by_cases h : c = 48
    · subst h
      have := strip_len t
      rw [strip_snoc_zero, value_snoc_zero, ← ih, List.length_append, List.length_singleton,
        show t.length + 1 - (stripZeros t).length = (t.length - (stripZeros t).length) + 1 by omega,
        Nat.pow_succ]
      ring
    · rw [strip_snoc t h]; simp

theorem strip_last (t : Bytes) : (stripZeros t).getLast? ≠ some 48 := by
  induction t using List.reverseRecOn with
  | nil => simp [stripZeros]
  | append_singleton t c ih =>
    by_cases h : c = 48
    · subst h; rwa [strip_snoc_zero]
    · rw [strip_snoc t h]; simpa using h

theorem strip_digits {t : Bytes} (h : Digits t) : Digits (stripZeros t) := by
  intro d hd
  apply h
  unfold stripZeros at hd
  rw [List.mem_reverse] at hd
  exact List.mem_reverse.1 ((List.dropWhile_sublist _).mem hd)

/-- A digit string without leading zero is the canonical text of its value. -/
theorem natText_of_digits {ds : Bytes} (hne : ds ≠ []) (hd : Digits ds)
    (hz : ds.head? = some 48 → ds = [48]) : ds = natText (value ds) := by
  induction ds using List.reverseRecOn with
  | nil => exact absurd rfl hne
  | append_singleton l c ih =>
    have hc := hd c (by simp)
    rw [value_append]
    cases l with
    | nil =>
      rw [show 10 * value [] + (c - 48) = c - 48 from by simp [value], natText_lt (by omega)]
      simp; omega
    | cons x l =>
      have hx : x ≠ 48 := by
        intro h; subst h
        have := hz (by simp)
        simp at this
      have := ih (by simp) (fun d hd' => hd d (List.mem_append_left _ hd')) (by simp [hx])
      have hv : value (x :: l) ≠ 0 := by
        intro h0
        rw [h0, natText_lt (by omega)] at this
        simp at this; omega
      rw [natText_ge (by omega), show (10 * value (x :: l) + (c - 48)) / 10 = value (x :: l) by omega,
        ← this, show 48 + (10 * value (x :: l) + (c - 48)) % 10 = c by omega]

end Pg
