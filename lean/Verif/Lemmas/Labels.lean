import Verif.Spec.Labels
import Verif.Lemmas.AnyDate
import Verif.Lemmas.MonthScan

/-! # Labelled numbers -/

namespace Pg
open Spec

section
variable {p : Profile} {order : DateOrder} {ft : List TokenField} {i : Nat} {d : Dec}

/-- The token of a label. -/
def labelField : Label → TokenField
  | .year => .year
  | .month => .month
  | .day => .day

def labelBit : Label → Nat
  | .year => 4
  | .month => 2
  | .day => 8

def labelTm (tm : PgTime) (v : Int) : Label → PgTime
  | .year => { tm with year := v }
  | .month => { tm with mon := v }
  | .day => { tm with mday := v }

/-- A unit word. -/
theorem field_units {w : Bytes} {e : DateToken} {f : TokenField} (hs : searchDate w = .ok (some e)) (hty : e.ty = .units)
    (hf : TokenField.ofInt e.value = .ok f) :
    dateTimeField p plainLook order ft i (.string, w) (d, ()) =
      (.ok (), ({ d with tMask := 0, pType := f }, ())) := by
  have h := field_word (p := p) (order := order) (ft := ft) (i := i) (d := d)
    (d' := { d with tMask := 0, pType := f }) hs (by rw [hty]; decide) (by
      rw [hty]
      unfold wordAction
      rw [St.mod_bind]
      simp only
      rw [St.mod_bind, hf, St.lift_ok_bind]
      rfl) (by simp)
  simpa using h

theorem numberToken_label {f : Bytes} {d d' : Dec} (hp : d.pType ≠ .number)
    (h : labelled p f d = (.ok (), d')) (hm : d'.tMask &&& d'.fMask = 0) :
    dateTimeField p plainLook order ft i (.number, f) (d, ()) =
      (.ok (), ({ d' with fMask := d'.fMask ||| d'.tMask }, ())) := by
  have hn : numberToken p plainLook f order (d, ()) = (.ok (), (d', ())) := by
    unfold numberToken
    rw [St.bind_ok (noLook_run (St.get_run _)), St.ite_run, if_pos hp]
    exact noLook_run h
  unfold dateTimeField
  simp only
  rw [St.bind_ok hn, noLook_run (addMask_run hm)]

theorem numberToken_labelErr {f : Bytes} {d : Dec} {e : Err} {s : Dec} (hp : d.pType ≠ .number)
    (h : labelled p f d = (.err e, s)) :
    ∃ e s, dateTimeField p plainLook order ft i (.number, f) (d, ()) = (.err e, s) := by
  have hn : numberToken p plainLook f order (d, ()) = (.err e, (s, ())) := by
    unfold numberToken
    rw [St.bind_ok (noLook_run (St.get_run _)), St.ite_run, if_pos hp]
    exact noLook_run h
  unfold dateTimeField
  simp only
  exact ⟨_, _, by rw [St.bind_err hn]⟩

/-- Digits after a label. -/
theorem labelled_digits {f : Bytes} {d d' : Dec} (hf : Digits f) (nf : f ≠ []) (hk : NumOk f)
    (ha : labelAssign p d.pType f (value f) [] d = (.ok (), d')) :
    labelled p f d = (.ok (), { d' with pType := .number, dType := .date }) := by
  unfold labelled
  rw [St.get_bind, str2i32_all hf nf, if_pos (show f.length ≤ 10 ∧ value f ≤ 2147483647 from hk), St.lift_ok_bind]
  simp only [List.head?_nil, reduceCtorEq, false_and, if_false, ne_eq, not_true_eq_false]
  rw [St.bind_ok ha]
  rfl

theorem labelled_big {f : Bytes} {d : Dec} (hf : Digits f) (nf : f ≠ []) (hk : ¬ NumOk f) :
    ∃ s, labelled p f d = (.err .overflow, s) := by
  unfold labelled
  rw [St.get_bind, str2i32_all hf nf, if_neg (show ¬ (f.length ≤ 10 ∧ value f ≤ 2147483647) from hk)]
  exact ⟨_, St.bind_err (St.lift_run _ _)⟩

theorem label_assign {f : Bytes} {v : Int} {d : Dec} (l : Label) (hm : d.fMask &&& 2 = 0 ∨ l ≠ .month) :
    labelAssign p (labelField l) f v [] d = (.ok (), { d with tm := labelTm d.tm v l, tMask := labelBit l }) := by
  cases l with
  | year => rfl
  | month =>
    have hm : d.fMask &&& 2 = 0 := hm.resolve_right (by simp)
    unfold labelAssign labelField
    simp only [St.mod_run]
    rw [if_neg (by simp [hm])]
    rfl
  | day => rfl

/-- The state after a label and its number. -/
def setLabel (d : Dec) (l : Label) (v : Int) : Dec :=
  { d with tm := labelTm d.tm v l, tMask := labelBit l, fMask := d.fMask ||| labelBit l, pType := .number, dType := .date }

/-- The fields of a labelled number. -/
def partFields (P : LabelPart) : List Field := [(.string, lower P.word), (.number, P.digits)]

/-- The unit words used here. -/
def unitTable : List (Bytes × TokenField) :=
  [(b!"y", .year), (b!"m", .month), (b!"d", .day), (b!"j", .julian), (b!"jd", .julian), (b!"julian", .julian),
   (b!"h", .hour), (b!"mm", .minute), (b!"s", .second)]

theorem labelUnit_entry {w s : Bytes} {f : TokenField} (hs : (s, f) ∈ unitTable) (hw : SameButCase w s) :
    (∃ e, searchDate (lower w) = .ok (some e) ∧ e.ty = .units ∧ TokenField.ofInt e.value = .ok f) ∧ Letters w ∧ w ≠ [] ∧
      w.length ≤ 6 := by
  have h : ∀ x ∈ unitTable,
    (lookupIn dateTable x.1).any (fun e => decide (e.ty = .units) && decide (TokenField.ofInt e.value = .ok x.2)) = true ∧
      x.1.map smallLetter = x.1 ∧ (∀ b ∈ x.1, isAlpha b = true) ∧ x.1 ≠ [] ∧ x.1.length ≤ 6 := by decide +kernel
  obtain ⟨h1, h4, h5, h6, h7⟩ := h _ hs
  have e1 : lower w = s := lower_word hw h4
  obtain ⟨k1, k2⟩ := small_alpha hw h4 h5 h6
  simp only at h7
  refine ⟨?_, k1, k2, ?_⟩
  · cases hl : lookupIn dateTable s with
    | none => rw [hl] at h1; simp at h1
    | some e =>
      rw [hl] at h1
      refine ⟨e, ?_, by simpa using h1⟩
      rw [searchDate_eq, e1, hl]
  · have : w.length = s.length := by rw [← e1]; simp [lower]
    omega

theorem label_word (l : Label) : (l.word, labelField l) ∈ unitTable := by
  cases l <;> simp [unitTable, Label.word, labelField]

/-- A label and its number. -/
theorem loop_label {P : LabelPart} (hP : P.Ok) {d : Dec} (hm : d.fMask &&& labelBit P.label = 0) (rest : List Field) :
    if NumOk P.digits then
      dateTimeLoop p plainLook order ft (partFields P ++ rest) i (d, ()) =
        dateTimeLoop p plainLook order ft rest (i + 2) (setLabel d P.label (value P.digits), ())
    else ∃ e s, dateTimeLoop p plainLook order ft (partFields P ++ rest) i (d, ()) = (.err e, s) := by
  obtain ⟨hw, -, hd⟩ := hP
  obtain ⟨⟨e, h1, h2, h3⟩, -⟩ := labelUnit_entry (label_word P.label) hw
  have nd := DigitsOf.ne hd (by omega)
  have hs := field_units (p := p) (order := order) (ft := ft) (i := i) (d := d) h1 h2 h3
  have hp : labelField P.label ≠ .number := by cases P.label <;> simp [labelField]
  have step : dateTimeLoop p plainLook order ft (partFields P ++ rest) i (d, ()) =
      dateTimeLoop p plainLook order ft ((.number, P.digits) :: rest) (i + 1)
        ({ d with tMask := 0, pType := labelField P.label }, ()) := loop_cons hs
  by_cases hk : NumOk P.digits
  · rw [if_pos hk, step]
    have ha := label_assign (p := p) (f := P.digits) (v := value P.digits)
      (d := { d with tMask := 0, pType := labelField P.label }) P.label (by
        by_cases hl : P.label = .month
        · rw [hl] at hm; exact Or.inl hm
        · exact Or.inr hl)
    have hb := labelled_digits (d := { d with tMask := 0, pType := labelField P.label }) hd.1 nd hk ha
    have hc := numberToken_label (order := order) (ft := ft) (i := i + 1) hp hb (by rw [Nat.and_comm]; exact hm)
    exact loop_cons hc
  · rw [if_neg hk, step]
    obtain ⟨s, hb⟩ := labelled_big (p := p) (d := { d with tMask := 0, pType := labelField P.label }) hd.1 nd hk
    obtain ⟨e, s, hb⟩ := numberToken_labelErr (order := order) (ft := ft) (i := i + 1) hp hb
    exact ⟨_, _, loop_cons_err hb⟩

/-- The fields of a day with labels. -/
def labelFields (D : LabelText) : List Field := partFields D.a ++ (partFields D.b ++ partFields D.c)

def LabelFits (D : LabelText) : Prop := NumOk D.a.digits ∧ NumOk D.b.digits ∧ NumOk D.c.digits

/-- The state after a day with labels. -/
def labelDec (D : LabelText) : Dec :=
  setLabel (setLabel (setLabel {} D.a.label (value D.a.digits)) D.b.label (value D.b.digits)) D.c.label
    (value D.c.digits)

theorem label_cases {D : LabelText} (hD : D.Ok) :
    (D.a.label, D.b.label, D.c.label) ∈ [(Label.year, Label.month, Label.day), (.year, .day, .month),
      (.month, .year, .day), (.month, .day, .year), (.day, .year, .month), (.day, .month, .year)] := by
  obtain ⟨-, -, -, -, -, h⟩ := hD
  have : ∀ x y z : Label, [x, y, z].Perm [.year, .month, .day] → (x, y, z) ∈
      [(Label.year, Label.month, Label.day), (.year, .day, .month), (.month, .year, .day), (.month, .day, .year),
        (.day, .year, .month), (.day, .month, .year)] := by
    intro x y z; cases x <;> cases y <;> cases z <;> decide
  exact this _ _ _ h

theorem label_state {D : LabelText} (hD : D.Ok) :
    (labelDec D).tm.year = D.number .year ∧ (labelDec D).tm.mon = D.number .month ∧
      (labelDec D).tm.mday = D.number .day ∧ (labelDec D).fMask = 14 ∧ (labelDec D).tm.hour = 0 ∧
      (labelDec D).tm.min = 0 ∧ (labelDec D).tm.sec = 0 ∧
      (0 : Nat) &&& labelBit D.a.label = 0 ∧ (0 ||| labelBit D.a.label) &&& labelBit D.b.label = 0 ∧
      (0 ||| labelBit D.a.label ||| labelBit D.b.label) &&& labelBit D.c.label = 0 := by
  have h := label_cases hD
  obtain ⟨⟨la, wa, ga, da⟩, g, ⟨lb, wb, gb, db⟩, h', ⟨lc, wc, gc, dc⟩⟩ := D
  simp only [List.mem_cons, Prod.mk.injEq, List.not_mem_nil, or_false] at h
  rcases h with ⟨rfl, rfl, rfl⟩ | ⟨rfl, rfl, rfl⟩ | ⟨rfl, rfl, rfl⟩ | ⟨rfl, rfl, rfl⟩ | ⟨rfl, rfl, rfl⟩ | ⟨rfl, rfl, rfl⟩ <;>
    refine ⟨rfl, rfl, rfl, ?_, rfl, rfl, rfl, ?_, ?_, ?_⟩ <;> simp [labelDec, setLabel, labelBit]

theorem number_fits {D : LabelText} (hf : LabelFits D) (l : Label) : D.number l ≤ 2147483647 := by
  unfold LabelText.number
  obtain ⟨h1, h2, h3⟩ := hf
  have := h1.2; have := h2.2; have := h3.2
  split
  · assumption
  · split <;> assumption

theorem number_big {D : LabelText} (hD : D.Ok) (hf : ¬ LabelFits D) : ∃ l, 2147483647 < D.number l := by
  have h := label_cases hD
  have k1 : ∀ {P : LabelPart}, P.Ok → ¬ NumOk P.digits → 2147483647 < value P.digits := by
    intro P hP hn
    by_contra hv
    exact hn ⟨hP.2.2.2.2, by omega⟩
  obtain ⟨h1, h2, h3, -⟩ := hD
  have : ¬ NumOk D.a.digits ∨ ¬ NumOk D.b.digits ∨ ¬ NumOk D.c.digits := by
    unfold LabelFits at hf; tauto
  unfold LabelText.number
  simp only [List.mem_cons, Prod.mk.injEq, List.not_mem_nil, or_false] at h
  rcases this with hn | hn | hn
  · exact ⟨D.a.label, by rw [if_pos rfl]; exact k1 h1 hn⟩
  · refine ⟨D.b.label, ?_⟩
    rw [if_neg (by rcases h with ⟨e1, e2, e3⟩ | ⟨e1, e2, e3⟩ | ⟨e1, e2, e3⟩ | ⟨e1, e2, e3⟩ | ⟨e1, e2, e3⟩ | ⟨e1, e2, e3⟩ <;>
      rw [e1, e2] <;> decide), if_pos rfl]
    exact k1 h2 hn
  · refine ⟨D.c.label, ?_⟩
    rw [if_neg (by rcases h with ⟨e1, e2, e3⟩ | ⟨e1, e2, e3⟩ | ⟨e1, e2, e3⟩ | ⟨e1, e2, e3⟩ | ⟨e1, e2, e3⟩ | ⟨e1, e2, e3⟩ <;>
      rw [e1, e3] <;> decide),
      if_neg (by rcases h with ⟨e1, e2, e3⟩ | ⟨e1, e2, e3⟩ | ⟨e1, e2, e3⟩ | ⟨e1, e2, e3⟩ | ⟨e1, e2, e3⟩ | ⟨e1, e2, e3⟩ <;>
      rw [e2, e3] <;> decide)]
    exact k1 h3 hn

theorem labelDay_some {D : LabelText} {bc : Bool} {c : YMD} (h : D.day bc = some c) :
    c.Real ∧ c = ⟨if bc then 1 - (D.number .year : Int) else D.number .year, D.number .month, D.number .day⟩ := by
  unfold LabelText.day at h
  simp only at h
  by_cases hr : (D.number .year : Int) ≠ 0 ∧ YMD.Real ⟨if bc then 1 - (D.number .year : Int) else D.number .year,
      D.number .month, D.number .day⟩
  · rw [if_pos hr] at h
    obtain rfl := Option.some.inj h
    exact ⟨hr.2, rfl⟩
  · rw [if_neg hr] at h; cases h

/-- A day with labels. -/
theorem reads_label {D : LabelText} (hD : D.Ok) (b : Bool) : ReadsDate p order {} (labelFields D) (LabelFits D) b D.day := by
  obtain ⟨s1, s2, s3, s4, s5, s6, s7, s8, s9, s10⟩ := label_state hD
  have hD' := hD
  obtain ⟨h1, h2, h3, -⟩ := hD'
  refine ⟨?_, ?_, ?_⟩
  · intro hf
    refine ⟨labelDec D, ⟨rfl, rfl, rfl, rfl, by rw [s4]; decide, s5, s6, s7, rfl, ?_⟩, ?_⟩
    · intro tm m e1 e2 e3 e4 e5
      have m14 : m &&& 14 = 14 := by
        have : (m &&& 32782) &&& 14 = 14 := by rw [e5, s4]; decide
        rwa [Nat.and_assoc] at this
      have mdoy : m &&& 32768 = 0 := by
        have : (m &&& 32782) &&& 32768 = 0 := by rw [e5, s4]; decide
        rwa [Nat.and_assoc] at this
      have hy := number_fits hf .year
      have hv := validateDate_gen p tm (m := m) false b m14 mdoy (by rw [e1, s1]; omega)
      have j1 : (labelDec D).isJulian = false := rfl
      have j2 : (labelDec D).is2 = false := rfl
      rw [j1, j2, hv, e1, s1, e2, s2, e3, s3]
      unfold LabelText.day yearOf
      simp only [Bool.false_eq_true, if_false]
      by_cases h0 : (D.number .year : Int) = 0
      · rw [if_neg (fun q => q.1 h0)]
        simp only
        cases b <;> simp only [Bool.false_eq_true, if_false, if_true] <;> rw [if_pos h0] <;> exact ⟨_, rfl⟩
      · cases b <;> simp only [Bool.false_eq_true, if_false, if_true]
        · rw [if_neg h0]
          simp only
          by_cases hr : (⟨D.number .year, D.number .month, D.number .day⟩ : YMD).Real
          · rw [if_pos hr, if_pos (show _ ∧ _ from ⟨h0, hr⟩)]
            refine ⟨hr, ?_⟩
            simp only [← s2, ← s3, ← e2, ← e3]
          · rw [if_neg hr, if_neg (show ¬ (_ ∧ _) from fun q => hr q.2)]
            exact ⟨_, rfl⟩
        · rw [if_neg h0]
          simp only
          by_cases hr : (⟨1 - D.number .year, D.number .month, D.number .day⟩ : YMD).Real
          · rw [if_pos hr, if_pos (show _ ∧ _ from ⟨h0, hr⟩)]
            refine ⟨hr, ?_⟩
            simp only [← s2, ← s3, ← e2, ← e3]
          · rw [if_neg hr, if_neg (show ¬ (_ ∧ _) from fun q => hr q.2)]
            exact ⟨_, rfl⟩
    · intro ft i rest
      obtain ⟨f1, f2, f3⟩ := hf
      have t1 := loop_label (p := p) (order := order) (ft := ft) (i := i) h1 (d := {}) s8
        (partFields D.b ++ (partFields D.c ++ rest))
      rw [if_pos f1] at t1
      have t2 := loop_label (p := p) (order := order) (ft := ft) (i := i + 2) h2
        (d := setLabel {} D.a.label (value D.a.digits)) s9 (partFields D.c ++ rest)
      rw [if_pos f2] at t2
      have t3 := loop_label (p := p) (order := order) (ft := ft) (i := i + 2 + 2) h3
        (d := setLabel (setLabel {} D.a.label (value D.a.digits)) D.b.label (value D.b.digits)) s10 rest
      rw [if_pos f3] at t3
      have e : labelFields D ++ rest = partFields D.a ++ (partFields D.b ++ (partFields D.c ++ rest)) := by
        simp [labelFields]
      rw [e, t1, t2, t3]
      rfl
  · intro hf ft i rest
    have e : labelFields D ++ rest = partFields D.a ++ (partFields D.b ++ (partFields D.c ++ rest)) := by
      simp [labelFields]
    rw [e]
    have t1 := loop_label (p := p) (order := order) (ft := ft) (i := i) h1 (d := {}) s8
      (partFields D.b ++ (partFields D.c ++ rest))
    by_cases f1 : NumOk D.a.digits
    · rw [if_pos f1] at t1
      rw [t1]
      have t2 := loop_label (p := p) (order := order) (ft := ft) (i := i + 2) h2
        (d := setLabel {} D.a.label (value D.a.digits)) s9 (partFields D.c ++ rest)
      by_cases f2 : NumOk D.b.digits
      · rw [if_pos f2] at t2
        rw [t2]
        have t3 := loop_label (p := p) (order := order) (ft := ft) (i := i + 2 + 2) h3
          (d := setLabel (setLabel {} D.a.label (value D.a.digits)) D.b.label (value D.b.digits)) s10 rest
        rw [if_neg (fun f3 => hf ⟨f1, f2, f3⟩)] at t3
        exact t3
      · rw [if_neg f2] at t2
        exact t2
    · rw [if_neg f1] at t1
      exact t1
  · intro hf c hc
    obtain ⟨l, hl⟩ := number_big hD hf
    obtain ⟨hr, e⟩ := labelDay_some hc
    refine ⟨hr, ?_⟩
    have rb := real_bounds hr
    rw [e] at rb ⊢
    simp only at rb ⊢
    cases l with
    | year => cases b <;> simp only [Bool.false_eq_true, if_false, if_true] <;> omega
    | month => omega
    | day => omega

end
end Pg
