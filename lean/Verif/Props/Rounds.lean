import Verif.Lemmas.Spaces
import Verif.Lemmas.DebugInterval

/-!
# Property C105: the loops of the parsers come to an end

The loops of the code are `while` loops over the rest of the text. The model bounds the number of rounds by the length of the text
plus one; a larger bound, whatever it is, gives the same result, so that the bound does not cut off anything and the loop of the code,
which has no bound, ends after at most that many rounds.
-/

namespace Pg

theorem WGap.refl : ∀ s : Bytes, WGap s s := by
  intro s
  induction s with
  | nil => exact .nil (by intro b hb; cases hb) (by intro b hb; cases hb)
  | cons c s ih =>
    by_cases h : isSpace c = true
    · exact WGap.gap (v := [c]) (w := [c]) (by intro b hb; simp at hb; rw [hb]; exact h) (by simp)
        (by intro b hb; simp at hb; rw [hb]; exact h) (by simp) ih
    · exact .cons (by simpa using h) (fun _ => Iff.rfl) ih

theorem dropWhile_le (p : Nat → Bool) (s : Bytes) : (s.dropWhile p).length ≤ s.length := (List.dropWhile_suffix _).length_le

theorem dateSplit_rounds : ∀ (n m : Nat) (s : Bytes) (nf : Nat), s.length < n → s.length < m → dateSplit n s nf = dateSplit m s nf := by
  intro n
  induction n with
  | zero => intro m s nf h; omega
  | succ n ih =>
    intro m s nf h1 h2
    obtain ⟨m, rfl⟩ : ∃ k, m = k + 1 := ⟨m - 1, by omega⟩
    rw [dateSplit, dateSplit]
    split
    · rfl
    · have hl := dropWhile_le (fun b => decide ¬ isAlnum b = true) s
      cases e : s.dropWhile fun b => decide ¬ isAlnum b = true with
      | nil => rfl
      | cons c r =>
        rw [e] at hl
        simp only [List.length_cons] at hl ⊢
        split
        · rename_i hc
          have : ((c :: r).dropWhile isDigit).length ≤ r.length := by
            rw [List.dropWhile_cons_of_pos hc]; exact dropWhile_le _ _
          rw [ih m _ _ (by omega) (by omega)]
        · rename_i hc
          have ha : isAlpha c = true := by
            have h3 : isAlnum c = true := by
              have := List.head?_dropWhile_not (fun b => decide ¬ isAlnum b = true) s
              rw [e] at this
              simpa using this
            unfold isAlnum at h3
            simpa [hc] using h3
          have : ((c :: r).dropWhile isAlpha).length ≤ r.length := by
            rw [List.dropWhile_cons_of_pos ha]; exact dropWhile_le _ _
          rw [ih m _ _ (by omega) (by omega)]

theorem extractSign_le (s : Bytes) : (extractSign s).2.length ≤ s.length := by
  unfold extractSign
  split <;> simp

theorem fracPart_le (s : Bytes) : (fracPart s).2.length ≤ s.length := by
  unfold fracPart
  split
  · have := dropWhile_le isDigit ‹Bytes›
    simp only [List.length_cons]; omega
  · simp

theorem str2d_le {s : Bytes} {v : F64} {r : Bytes} (h : str2d s = .ok (v, r)) : r.length ≤ s.length := by
  unfold str2d at h
  have h1 := dropWhile_le isSpace s
  have h2 := extractSign_le (s.dropWhile isSpace)
  have h3 := dropWhile_le isDigit (extractSign (s.dropWhile isSpace)).2
  have h4 := fracPart_le ((extractSign (s.dropWhile isSpace)).2.dropWhile isDigit)
  simp only at h
  split at h
  · cases h; exact h1
  · split at h
    · cases h
    · split at h
      · cases h
      · split at h <;> (cases h; omega)

theorem parseIsoNumber_lt {s : Bytes} {v : Int} {f : F64} {r : Bytes} (h : parseIsoNumber s = .ok (v, f, r)) : r.length < s.length := by
  unfold parseIsoNumber at h
  cases s with
  | nil => cases h
  | cons c t =>
    simp only at h
    split at h
    · cases h
    · obtain ⟨⟨v', rest⟩, h1, h⟩ := Res.bind_eq_ok.1 h
      have := str2d_le h1
      simp only at h
      split at h
      · cases h
      · obtain ⟨⟨i, f'⟩, -, h⟩ := Res.bind_eq_ok.1 h
        cases h
        simp only [List.length_cons] at *
        omega

/-- What is left after a step. -/
def IsoStep.Within (n : Nat) : IsoStep → Prop
  | .done => True
  | .again r => r.length ≤ n
  | .field r => r.length ≤ n

theorem IsoStep.Within.mono {n m : Nat} {x : IsoStep} (h : x.Within n) (hm : n ≤ m) : x.Within m := by
  cases x with
  | done => trivial
  | again r => exact Nat.le_trans h hm
  | field r => exact Nat.le_trans h hm

theorem isoDatePart3_within (p : Profile) (s : Bytes) (st : IsoS) : Post (isoDatePart3 p s) (fun x _ => x.Within s.length) st := by
  unfold isoDatePart3 onTmIso isoTimePart
  rw [Post.bind, Post.lift]
  rintro ⟨v, f, r⟩ h
  have := parseIsoNumber_lt h
  rw [Post.bind, Post.zoom]
  refine Post.any fun _ _ => ?_
  rw [Post.bind, Post.zoom]
  refine Post.any fun _ _ => ?_
  cases r with
  | nil => exact Post.pure.2 trivial
  | cons c r =>
    simp only
    rw [Post.ite]
    refine ⟨fun _ => ?_, fun _ => Post.fail.2 trivial⟩
    rw [Post.bind, Post.mod, Post.pure]
    exact Nat.le_of_lt this

theorem isoDatePart2_within (p : Profile) (s : Bytes) (st : IsoS) : Post (isoDatePart2 p s) (fun x _ => x.Within s.length) st := by
  unfold isoDatePart2 onTmIso isoTimePart
  rw [Post.bind, Post.lift]
  rintro ⟨v, f, r⟩ h
  have := parseIsoNumber_lt h
  rw [Post.bind, Post.zoom]
  refine Post.any fun _ _ => ?_
  rw [Post.bind, Post.zoom]
  refine Post.any fun _ _ => ?_
  cases r with
  | nil => exact Post.pure.2 trivial
  | cons c r =>
    simp only
    rw [Post.ite]
    refine ⟨fun _ => ?_, fun _ => ?_⟩
    · rw [Post.bind, Post.mod, Post.pure]
      exact Nat.le_of_lt this
    · rw [Post.ite]
      refine ⟨fun _ => (isoDatePart3_within p r _).mono fun _ _ h => h.mono ?_, fun _ => Post.fail.2 trivial⟩
      simp only [List.length_cons] at this
      omega

theorem isoTimePart3_within (p : Profile) (s : Bytes) (st : IsoS) : Post (isoTimePart3 p s) (fun x _ => x.Within s.length) st := by
  unfold isoTimePart3 onTmIso
  rw [Post.bind, Post.lift]
  rintro ⟨v, f, r⟩ h
  rw [Post.bind, Post.zoom]
  refine Post.any fun _ _ => ?_
  rw [Post.bind, Post.zoom]
  refine Post.any fun _ _ => ?_
  simp only
  rw [Post.ite]
  exact ⟨fun _ => Post.pure.2 trivial, fun _ => Post.fail.2 trivial⟩

theorem isoTimePart2_within (p : Profile) (s : Bytes) (st : IsoS) : Post (isoTimePart2 p s) (fun x _ => x.Within s.length) st := by
  unfold isoTimePart2 onTmIso
  rw [Post.bind, Post.lift]
  rintro ⟨v, f, r⟩ h
  have := parseIsoNumber_lt h
  rw [Post.bind, Post.zoom]
  refine Post.any fun _ _ => ?_
  rw [Post.bind, Post.zoom]
  refine Post.any fun _ _ => ?_
  cases r with
  | nil => exact Post.pure.2 trivial
  | cons c r =>
    simp only
    rw [Post.ite]
    refine ⟨fun _ => (isoTimePart3_within p r _).mono fun _ _ h => h.mono ?_, fun _ => Post.fail.2 trivial⟩
    simp only [List.length_cons] at this
    omega

theorem within_any {α : Type} {m : St TmF α} {k : St IsoS IsoStep} {n : Nat} {st : IsoS}
    (h : ∀ s, Post k (fun x _ => x.Within n) s) : Post (do let _ ← onTmIso m; k) (fun x _ => x.Within n) st := by
  unfold onTmIso
  rw [Post.bind, Post.zoom]
  exact Post.any fun _ _ => h _

theorem isoTimePart_within {s : Bytes} {n : Nat} (h : s.length ≤ n) (st : IsoS) :
    Post (do isoTimePart; pure (IsoStep.again s)) (fun x _ => IsoStep.Within n x) st := by
  unfold isoTimePart
  rw [Post.bind, Post.mod, Post.pure]
  exact h

theorem isoDateLeft_within (p : Profile) (s : Bytes) (unit : Nat) (v : Int) (f : F64) (st : IsoS) :
    Post (isoDateLeft p s unit v f) (fun x _ => x.Within s.length) st := by
  unfold isoDateLeft
  rw [Post.bind, Post.get, Post.ite]
  refine ⟨fun _ => Post.fail.2 trivial, fun _ => within_any fun _ => within_any fun _ => ?_⟩
  rw [Post.ite]
  refine ⟨fun _ => Post.pure.2 trivial, fun _ => ?_⟩
  rw [Post.ite]
  exact ⟨fun _ => isoTimePart_within (Nat.le_refl _) _, fun _ => isoDatePart2_within p s _⟩

theorem isoTimeLeft_within (p : Profile) (s : Bytes) (unit : Nat) (v : Int) (f : F64) (st : IsoS) :
    Post (isoTimeLeft p s unit v f) (fun x _ => x.Within s.length) st := by
  unfold isoTimeLeft
  rw [Post.bind, Post.get, Post.ite]
  refine ⟨fun _ => Post.fail.2 trivial, fun _ => within_any fun _ => within_any fun _ => ?_⟩
  rw [Post.ite]
  exact ⟨fun _ => Post.pure.2 trivial, fun _ => isoTimePart2_within p s _⟩

theorem isoField_within {s : Bytes} (st : IsoS) : Post (pure (IsoStep.field s)) (fun x _ => IsoStep.Within s.length x) st :=
  Post.pure.2 (Nat.le_refl _)

theorem isoDate_within (p : Profile) (start s : Bytes) (unit : Nat) (v : Int) (f : F64) (st : IsoS) :
    Post (isoDate p start s unit v f) (fun x _ => x.Within s.length) st := by
  unfold isoDate
  split
  · exact within_any fun _ => within_any fun _ => isoField_within _
  split
  · exact within_any fun _ => within_any fun _ => isoField_within _
  split
  · rw [Post.bind, Post.lift]
    intro _ _
    exact within_any fun _ => within_any fun _ => isoField_within _
  split
  · exact within_any fun _ => within_any fun _ => isoField_within _
  split
  · rw [Post.bind, Post.get, Post.ite]
    refine ⟨fun _ => within_any fun _ => within_any fun _ => within_any fun _ => within_any fun _ => ?_, fun _ => isoDateLeft_within p s _ _ _ _⟩
    rw [Post.ite]
    exact ⟨fun _ => Post.pure.2 trivial, fun _ => isoTimePart_within (Nat.le_refl _) _⟩
  split
  · exact isoDateLeft_within p s _ _ _ _
  · exact Post.fail.2 trivial

theorem isoTime_within (p : Profile) (start s : Bytes) (unit : Nat) (v : Int) (f : F64) (st : IsoS) :
    Post (isoTime p start s unit v f) (fun x _ => x.Within s.length) st := by
  unfold isoTime
  split
  · exact within_any fun _ => within_any fun _ => isoField_within _
  split
  · exact within_any fun _ => within_any fun _ => isoField_within _
  split
  · exact within_any fun _ => within_any fun _ => isoField_within _
  split
  · rw [Post.bind, Post.get, Post.ite]
    exact ⟨fun _ => within_any fun _ => within_any fun _ => within_any fun _ => within_any fun _ => Post.pure.2 trivial, fun _ => isoTimeLeft_within p s _ _ _ _⟩
  split
  · exact isoTimeLeft_within p s _ _ _ _
  · exact Post.fail.2 trivial

theorem isoLoop_rounds (p : Profile) : ∀ (n m : Nat) (s : Bytes) (st : IsoS), s.length < n → s.length < m → isoLoop p n s st = isoLoop p m s st := by
  intro n
  induction n with
  | zero => intro m s st h; omega
  | succ n ih =>
    intro m s st h1 h2
    obtain ⟨m, rfl⟩ : ∃ k, m = k + 1 := ⟨m - 1, by omega⟩
    cases s with
    | nil => rfl
    | cons c r =>
      simp only [List.length_cons] at h1 h2
      rw [isoLoop, isoLoop]
      simp only
      split
      · rw [St.bind_run, St.bind_run]
        unfold isoTimePart
        exact ih m r _ (by omega) (by omega)
      · rw [St.bind_run, St.bind_run]
        cases hp : parseIsoNumber (c :: r) with
        | err e => rfl
        | panic => rfl
        | ok a =>
          obtain ⟨v, f, rest⟩ := a
          have hl := parseIsoNumber_lt hp
          have hu : (isoUnit rest).2.length ≤ rest.length := by
            cases rest <;> simp [isoUnit]
          have hw : Post (isoNumber p (c :: r) (isoUnit rest).2 (isoUnit rest).1 v f) (fun x _ => x.Within r.length) st := by
            unfold isoNumber
            rw [Post.bind, Post.get, Post.ite]
            simp only [List.length_cons] at hl
            exact ⟨fun _ => (isoDate_within p _ _ _ _ _ _).mono fun _ _ h => h.mono (by omega),
              fun _ => (isoTime_within p _ _ _ _ _ _).mono fun _ _ h => h.mono (by omega)⟩
          simp only [St.lift]
          rw [St.bind_run, St.bind_run]
          rcases hr : isoNumber p (c :: r) (isoUnit rest).2 (isoUnit rest).1 v f st with ⟨q, st'⟩
          cases q with
          | err e => rfl
          | panic => rfl
          | ok x =>
            have hx := hw _ _ hr
            cases x with
            | done => rfl
            | again t => exact ih m t _ (Nat.lt_of_le_of_lt hx (by omega)) (Nat.lt_of_le_of_lt hx (by omega))
            | field t => exact ih m t _ (Nat.lt_of_le_of_lt hx (by omega)) (Nat.lt_of_le_of_lt hx (by omega))

theorem binarySearch_rounds (table : List DateToken) (key : Bytes) : ∀ (n m left right : Nat), right - left ≤ n → right - left ≤ m →
    binarySearch table key n left right = binarySearch table key m left right := by
  intro n
  induction n with
  | zero =>
    intro m left right h1 h2
    cases m with
    | zero => rfl
    | succ m => rw [binarySearch, binarySearch, if_neg (by omega)]
  | succ n ih =>
    intro m left right h1 h2
    cases m with
    | zero => rw [binarySearch, binarySearch, if_neg (by omega)]
    | succ m =>
      rw [binarySearch, binarySearch]
      split
      · simp only
        split
        · rfl
        · split
          · exact ih m _ _ (by omega) (by omega)
          · exact ih m _ _ (by omega) (by omega)
          · rfl
      · rfl

theorem posDigits_rounds : ∀ (k n m : Nat) (s : Bytes) (v : Int) (i : Nat), k < n → k < m → 0 ≤ v ∧ v < 10 ^ (k + 1) →
    posDigits n s v i = posDigits m s v i := by
  intro k
  induction k with
  | zero =>
    intro n m s v i h1 h2 h3
    obtain ⟨n, rfl⟩ : ∃ k, n = k + 1 := ⟨n - 1, by omega⟩
    obtain ⟨m, rfl⟩ : ∃ k, m = k + 1 := ⟨m - 1, by omega⟩
    rw [posDigits, posDigits]
    have : tdiv v 10 = 0 := by rw [tdiv_nn h3.1]; omega
    simp only [this, if_true]
  | succ k ih =>
    intro n m s v i h1 h2 h3
    obtain ⟨n, rfl⟩ : ∃ k, n = k + 1 := ⟨n - 1, by omega⟩
    obtain ⟨m, rfl⟩ : ∃ k, m = k + 1 := ⟨m - 1, by omega⟩
    rw [posDigits, posDigits]
    have e : (10 : Int) ^ (k + 1 + 1) = 10 ^ (k + 1) * 10 := by rw [Int.pow_succ]
    have : tdiv v 10 = v / 10 := tdiv_nn h3.1
    simp only [this]
    congr 1
    funext s'
    rw [ih n m s' (v / 10) (i + 1) (by omega) (by omega) (by omega)]

theorem negDigits_rounds : ∀ (k n m : Nat) (s : Bytes) (v : Int) (i : Nat), k < n → k < m → -10 ^ (k + 1) < v ∧ v ≤ 0 →
    negDigits n s v i = negDigits m s v i := by
  intro k
  induction k with
  | zero =>
    intro n m s v i h1 h2 h3
    obtain ⟨n, rfl⟩ : ∃ k, n = k + 1 := ⟨n - 1, by omega⟩
    obtain ⟨m, rfl⟩ : ∃ k, m = k + 1 := ⟨m - 1, by omega⟩
    rw [negDigits, negDigits]
    have : tdiv v 10 = 0 := by rw [tdiv_np h3.2]; omega
    simp only [this, if_true]
  | succ k ih =>
    intro n m s v i h1 h2 h3
    obtain ⟨n, rfl⟩ : ∃ k, n = k + 1 := ⟨n - 1, by omega⟩
    obtain ⟨m, rfl⟩ : ∃ k, m = k + 1 := ⟨m - 1, by omega⟩
    rw [negDigits, negDigits]
    have e : (10 : Int) ^ (k + 1 + 1) = 10 ^ (k + 1) * 10 := by rw [Int.pow_succ]
    have : tdiv v 10 = -(-v / 10) := tdiv_np h3.2
    simp only [this]
    congr 1
    funext s'
    rw [ih n m s' (-(-v / 10)) (i + 1) (by omega) (by omega) (by omega)]

end Pg

namespace Props
open Pg

/-- **C105**, the scanner: with any larger bound on the number of rounds the fields of the text are the same. -/
theorem C105_scan (u : TokenField) (s : Bytes) (n : Nat) (hn : s.length < n) :
    scan u s = if s.isEmpty then .err .empty else scanLoop u n s 128 0 := by
  unfold scan
  split
  · rfl
  · exact scanLoop_gap u _ _ s s 128 0 (.refl s) (by omega) hn

/-- **C105**, dates in one word: with any larger bound the loop splits the word into the same parts, and `decode_date` goes on with
them. -/
theorem C105_date {C : Type} (L : Look C) (w : Bytes) (order : DateOrder) (n : Nat) (hn : w.length < n) :
    dateBody L w order = (do
      let fields ← St.lift (dateSplit n w 0)
      let left ← textPass L fields 0
      noLook (numPass order left)
      let s ← noLook St.get
      if s.fMask &&& 4294934495 ≠ DTK_DATE_M then St.fail .invalid else pure ()) := by
  unfold dateBody
  rw [dateSplit_rounds _ n w 0 (by omega) hn]

/-- **C105**, ISO 8601 intervals: with any larger bound the loop over the designators ends with the same result and in the same
state. -/
theorem C105_iso (p : Profile) (s : Bytes) (st : IsoS) (n : Nat) (hn : s.length < n) :
    isoLoop p (s.length + 1) (s.drop 1) st = isoLoop p n (s.drop 1) st := by
  have : (s.drop 1).length ≤ s.length := by simp
  exact isoLoop_rounds p _ _ _ _ (by omega) (by omega)

/-- **C105**, the keyword tables: with any larger bound the binary search gives the same answer. -/
theorem C105_search (table : List DateToken) (key : Bytes) (n : Nat) (hn : table.length ≤ n) :
    binarySearch table key table.length 0 table.length = binarySearch table key n 0 table.length :=
  binarySearch_rounds table key _ _ 0 _ (by omega) (by omega)

/-- **C105**, numbers in texts: with any larger bound the digits of a 32-bit number are the same. -/
theorem C105_digits (value : Int) (hv : In32 value) (s : Bytes) (start n : Nat) (hn : 10 ≤ n) :
    (0 ≤ value → posDigits digitFuel s value start = posDigits n s value start) ∧
    (value < 0 → negDigits digitFuel s value start = negDigits n s value start) := by
  unfold In32 at hv
  exact ⟨fun h => posDigits_rounds 9 _ _ s value start (by decide) (by omega) (by omega),
    fun h => negDigits_rounds 9 _ _ s value start (by decide) (by omega) (by omega)⟩

/-- A bound smaller than the text does change the result. -/
theorem C105_bound_needed : scanLoop .date 1 b!"1 day" 128 0 ≠ scan .date b!"1 day" := by decide +kernel

end Props
