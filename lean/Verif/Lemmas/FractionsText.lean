import Verif.Lemmas.FractionsRun

/-! # The texts of intervals written as quantities with fractions -/

namespace Pg
open Spec

variable {p : Profile}

theorem frac_text (x : FracQuantity) (rest : Bytes) :
    x.text ++ rest = sgBytes x.whole.sign ++ (x.whole.digits ++ (dotted x.frac ++
      ((if x.whole.space then [32] else []) ++ (x.whole.word ++ rest)))) := by
  unfold FracQuantity.text dotted
  rcases x.whole.sign with _ | _ | _ <;> simp [sgBytes]

theorem scans_fraction {u : TokenField} {x : FracQuantity} (h : x.Ok) {rest : Bytes} {l : List Field} (hr : Gap rest)
    (hs : Scans u rest l) : Scans u (x.text ++ rest) (fracField x :: (.string, lower x.whole.word) :: l) := by
  obtain ⟨w1, w2⟩ := word_letters h.1
  have hd := h.1.1
  have nd := DigitsOf.ne hd (by omega)
  have hw := Scans.wordSpace w1 w2 hr hs
  have hw' : Scans u ((if x.whole.space then [32] else []) ++ (x.whole.word ++ rest)) ((.string, lower x.whole.word) :: l) := by
    split
    · exact hw.space
    · exact hw
  have hlo : Loose ((if x.whole.space then [32] else []) ++ (x.whole.word ++ rest)) := by
    intro y hy
    split at hy
    · simp at hy; exact Or.inl hy.symm
    · obtain ⟨c, t, e⟩ : ∃ c t, x.whole.word = c :: t := by
        cases hq : x.whole.word with
        | nil => exact absurd hq w2
        | cons c t => exact ⟨c, t, rfl⟩
      rw [e] at hy
      simp at hy
      subst hy
      exact Or.inr (w1 c (by rw [e]; simp))
  rw [frac_text]
  unfold fracField
  generalize (if x.whole.space then [32] else []) ++ (x.whole.word ++ rest) = tl at hw' hlo
  cases hsg : x.whole.sign with
  | none =>
    by_cases hf : x.frac = []
    · simp only [dotted, hf, if_true, List.append_nil, List.nil_append]
      exact Scans.number hd.1 nd hlo.number hw'
    · simp only [dotted, hf, if_false, List.cons_append]
      exact Scans.numberDot hd.1 nd h.2.1 hf hlo.number hw'
  | some neg =>
    rw [← List.append_assoc x.whole.digits]
    refine Scans.signed (a := x.whole.digits ++ dotted x.frac) (by cases neg <;> simp) ?_ ?_ ?_ hw'
    · obtain ⟨y, t, e, hy⟩ := digits_first hd.1 nd
      exact ⟨y, t ++ dotted x.frac, by rw [e]; rfl, hy⟩
    · intro b hb
      rcases List.mem_append.1 hb with hb | hb
      · exact digits_signed hd.1 b hb
      · unfold dotted at hb
        split at hb
        · cases hb
        · rcases List.mem_cons.1 hb with rfl | hb
          · rfl
          · exact digits_signed h.2.1 b hb
    · refine hlo.stops rfl ?_
      intro y hy
      rw [isAlpha_iff] at hy
      simp only [isSignedB, isDigit, Bool.or_eq_false_iff, Bool.and_eq_false_iff, decide_eq_false_iff_not]
      omega

theorem scans_fractions {u : TokenField} {xs : List FracQuantity} (h : ∀ x ∈ xs, x.Ok) {ago : Option Bytes}
    (ha : ∀ w ∈ ago, AgoWord w) : Scans u (fractionsText xs ago) (fsFields xs (agoF ago)) := by
  unfold fractionsText
  induction xs with
  | nil => simpa [quantitiesText, fsFields, qsFields] using scans_quantities (u := u) (qs := []) (by simp) ha
  | cons x xs ih =>
    have := scans_fraction (h x (by simp)) (tailText_gap (xs.map FracQuantity.text ++ ago.toList))
      (tailText_scans (ih fun r hr => h r (List.mem_cons_of_mem _ hr)))
    rw [List.map_cons, List.cons_append, spaced_cons]
    simpa [fsFields] using this

theorem fsFields_length (xs : List FracQuantity) (l : List Field) : (fsFields xs l).length = 2 * xs.length + l.length := by
  unfold fsFields
  induction xs with
  | nil => simp
  | cons q qs ih =>
    rw [List.length_append] at ih ⊢
    simp only [List.map_cons, List.flatten_cons, List.length_append, List.length_cons, List.length_nil] at ih ⊢
    omega

theorem fracField_snd (x : FracQuantity) : (fracField x).2 = sgBytes x.whole.sign ++ (x.whole.digits ++ dotted x.frac) :=
  numField_snd _ _

/-- The SQL rule for a leading minus sign does not apply. -/
theorem sqlSign_keepF {style : IntervalStyle} {x : FracQuantity} {xs : List FracQuantity} (hx : x.Ok)
    (h : PlainSigns style ((x :: xs).map FracQuantity.whole)) (l : List Field) (t : TmF) :
    sqlSign style (fsFields (x :: xs) l) t = (.ok (), t) := by
  by_cases hs : style = .sqlStandard
  swap
  · exact sqlSign_other hs (by simp [fsFields]) t
  have efs : fsFields (x :: xs) l = fracField x :: (.string, lower x.whole.word) :: fsFields xs l := by
    simp [fsFields]
  rw [efs, sqlSign, if_pos hs]
  have hf := fracField_snd x
  obtain ⟨y, r, ex, hy⟩ := digits_first hx.1.1.1 (DigitsOf.ne hx.1.1 (by omega))
  rw [isDigit_iff] at hy
  by_cases hm : x.whole.sign = some true
  · obtain ⟨q', hq', hsg⟩ := h hs x.whole (xs.map FracQuantity.whole) rfl hm
    obtain ⟨x', hx', rfl⟩ := List.mem_map.1 hq'
    have hany : (((.string, lower x.whole.word) :: fsFields xs l).any fun g => hasSign g.2) = true := by
      rw [List.any_eq_true]
      refine ⟨fracField x', ?_, ?_⟩
      · refine List.mem_cons_of_mem _ ?_
        unfold fsFields
        rw [List.mem_append]
        exact Or.inl (List.mem_flatten.2 ⟨_, List.mem_map_of_mem hx', by simp⟩)
      · rw [fracField_snd]
        rcases hc : x'.whole.sign with _ | _ | _
        · exact absurd hc hsg
        · simp [sgBytes, hasSign]
        · simp [sgBytes, hasSign]
    rw [hf, hm]
    simp only [sgBytes, if_true, List.cons_append]
    rw [if_neg (by simp [hany])]
    rfl
  · rw [hf]
    have : ∃ c r', sgBytes x.whole.sign ++ (x.whole.digits ++ dotted x.frac) = c :: r' ∧ c ≠ 45 := by
      rcases hc : x.whole.sign with _ | _ | _
      · exact ⟨y, r ++ dotted x.frac, by simp [sgBytes, ex], by omega⟩
      · exact ⟨43, x.whole.digits ++ dotted x.frac, by simp [sgBytes], by omega⟩
      · exact absurd hc hm
    obtain ⟨c, r', e, hc⟩ := this
    rw [e]
    simp only
    rw [if_neg (by simp [hc])]
    rfl

theorem fraction_head {x : FracQuantity} (h : x.Ok) (rest : Bytes) : (x.text ++ rest).head? ≠ some 80 := by
  obtain ⟨y, r, ex, hy⟩ := digits_first h.1.1.1 (DigitsOf.ne h.1.1 (by omega))
  rw [isDigit_iff] at hy
  rw [frac_text, ex]
  rcases x.whole.sign with _ | _ | _ <;> simp [sgBytes]
  omega

end Pg
