import Verif.Lemmas.PartsRun

/-! # The texts of intervals written with years-months, days and clock times -/

namespace Pg
open Spec

variable {p : Profile}

theorem plusMinus_sg (s : Option Bool) : plusMinus s = sgBytes s := by
  rcases s with _ | _ | _ <;> rfl

theorem clock_signedB {T : ClockText} (h : T.Ok) (hc : T.colons = true) : ∀ b ∈ T.bytes, isSignedB b = true := by
  have dot : ∀ {fs : Bytes}, Digits fs → ∀ b ∈ 46 :: fs, isSignedB b = true := by
    intro fs hf b hb
    rcases List.mem_cons.1 hb with rfl | hb
    · rfl
    · exact digits_signed hf b hb
  intro b hb
  cases T with
  | long hh mm ss f =>
    obtain ⟨k1, k2, k3, k4⟩ := h
    rw [ClockText.bytes, hmsText_bytes] at hb
    have hf : ∀ b ∈ fracBytes f, isSignedB b = true := by
      cases f with
      | none => simp [fracBytes]
      | some fs => exact dot k4.1
    rcases List.mem_append.1 hb with hb | hb
    · exact digits_signed k1.1 b hb
    rcases List.mem_cons.1 hb with rfl | hb
    · rfl
    rcases List.mem_append.1 hb with hb | hb
    · exact digits_signed k2.1 b hb
    rcases List.mem_cons.1 hb with rfl | hb
    · rfl
    rcases List.mem_append.1 hb with hb | hb
    · exact digits_signed k3.1 b hb
    · exact hf b hb
  | short hh mm =>
    rcases List.mem_append.1 hb with hb | hb
    · exact digits_signed h.1.1 b hb
    rcases List.mem_cons.1 hb with rfl | hb
    · rfl
    · exact digits_signed h.2.1 b hb
  | minSec mm ss fs =>
    rcases List.mem_append.1 hb with hb | hb
    · exact digits_signed h.1.1 b hb
    rcases List.mem_cons.1 hb with rfl | hb
    · rfl
    rcases List.mem_append.1 hb with hb | hb
    · exact digits_signed h.2.1.1 b hb
    · exact dot h.2.2.1 b hb
  | six => cases hc
  | four => cases hc

theorem gap_loose {r : Bytes} (h : Gap r) : Loose r := by
  intro y hy
  rcases h with rfl | ⟨r', rfl⟩
  · cases hy
  · left; simp at hy; exact hy.symm

theorem scans_time {u : TokenField} (sg : Option Bool) {T : ClockText} (h : T.Ok) (hc : T.colons = true) {r : Bytes}
    (hr : Gap r) {l : List Field} (hs : Scans u r l) :
    Scans u (sgBytes sg ++ (T.bytes ++ r)) (timeField sg T.bytes :: l) := by
  cases sg with
  | none =>
    have := scans_clock u h (gap_loose hr) hs
    have e : clockField T = .time := by unfold clockField; rw [hc]; rfl
    rw [e] at this
    exact this
  | some neg =>
    refine Scans.signed (by cases neg <;> simp) ?_ (clock_signedB h hc) (hr.stops rfl) hs
    obtain ⟨y, t, e, hy⟩ := clock_head h []
    rw [List.append_nil] at e
    exact ⟨y, t, e, hy⟩

theorem scans_ivPart {u : TokenField} {a : IvPart} (h : a.Ok) {r : Bytes} {l : List Field} (hr : Gap r) (hs : Scans u r l) :
    Scans u (a.text ++ r) (ivPartFields a ++ l) := by
  cases a with
  | quantity x => exact scans_fraction h hr hs
  | months sg ys ms =>
    have := ym_scans u sg h.1.1 (DigitsOf.ne h.1 (by omega)) h.2.1 (DigitsOf.ne h.2 (by omega)) hr hs
    simpa [IvPart.text, plusMinus_sg, ivPartFields] using this
  | clock d sg T =>
    obtain ⟨hd, hT, hc⟩ := h
    have ht := scans_time sg hT hc hr hs
    cases d with
    | none => simpa [IvPart.text, plusMinus_sg, ivPartFields] using ht
    | some e =>
      have hde := hd e rfl
      have := Scans.sgNum e.1 hde.1 (DigitsOf.ne hde (by omega)) (Or.inr ⟨_, rfl⟩) ht.space
      simpa [IvPart.text, plusMinus_sg, ivPartFields] using this

theorem scans_parts {u : TokenField} {ps : List IvPart} (h : ∀ a ∈ ps, a.Ok) {ago : Option Bytes}
    (ha : ∀ w ∈ ago, AgoWord w) : Scans u (partsText ps ago) (partsFields ps (agoF ago)) := by
  unfold partsText
  induction ps with
  | nil => simpa [quantitiesText, partsFields, qsFields] using scans_quantities (u := u) (qs := []) (by simp) ha
  | cons x xs ih =>
    have := scans_ivPart (h x (by simp)) (tailText_gap (xs.map IvPart.text ++ ago.toList))
      (tailText_scans (ih fun r hr => h r (List.mem_cons_of_mem _ hr)))
    rw [List.map_cons, List.cons_append, spaced_cons]
    simpa [partsFields] using this

theorem ivPartFields_length (a : IvPart) : 1 ≤ (ivPartFields a).length ∧ (ivPartFields a).length ≤ 2 := by
  cases a with
  | quantity => simp [ivPartFields]
  | months => simp [ivPartFields]
  | clock d => cases d <;> simp [ivPartFields]

theorem partsFields_length (ps : List IvPart) (l : List Field) :
    ps.length + l.length ≤ (partsFields ps l).length ∧ (partsFields ps l).length ≤ 2 * ps.length + l.length := by
  unfold partsFields
  induction ps with
  | nil => simp
  | cons q qs ih =>
    have := ivPartFields_length q
    rw [List.length_append] at ih ⊢
    simp only [List.map_cons, List.flatten_cons, List.length_append, List.length_cons] at ih ⊢
    omega

/-- The first byte of a number. -/
theorem sg_head (s : Option Bool) {y : Nat} {t : Bytes} (hy : isDigit y = true) :
    hasSign (sgBytes s ++ y :: t) = s.isSome := by
  rw [isDigit_iff] at hy
  rcases s with _ | _ | _ <;> simp [sgBytes, hasSign]
  omega

theorem digits_first' {d : Bytes} {a b : Nat} (h : DigitsOf a b d) (ha : 1 ≤ a) (r : Bytes) :
    ∃ y t, d ++ r = y :: t ∧ isDigit y = true := by
  obtain ⟨y, t, e, hy⟩ := digits_first h.1 (DigitsOf.ne h ha)
  exact ⟨y, t ++ r, by rw [e]; rfl, hy⟩

/-- The fields and the signs of a part. -/
theorem part_signs {a : IvPart} (h : a.Ok) : ∃ f r s q y t, ivPartFields a = f :: r ∧ a.signs = s :: q ∧
    f.2 = sgBytes s ++ y :: t ∧ isDigit y = true ∧ r.any (fun g => hasSign g.2) = q.any (·.isSome) := by
  cases a with
  | quantity x =>
    obtain ⟨y, t, e, hy⟩ := digits_first' h.1.1 (by omega) (dotted x.frac)
    refine ⟨_, _, _, _, y, t, rfl, rfl, by rw [fracField_snd, e], hy, ?_⟩
    obtain ⟨w1, w2⟩ := word_letters h.1
    simp only [List.any_cons, List.any_nil, Bool.or_false]
    cases hw : x.whole.word with
    | nil => exact absurd hw w2
    | cons c r =>
      have hc := w1 c (by rw [hw]; simp)
      have hlow : isAlpha c = true := hc
      rw [isAlpha_iff] at hlow
      have : lower (c :: r) = lowerB c :: lower r := rfl
      rw [this]
      unfold hasSign lowerB
      simp only [List.head?_cons, Option.some.injEq, Bool.or_eq_false_iff, decide_eq_false_iff_not]
      split <;> omega
  | months s ys ms =>
    obtain ⟨y, t, e, hy⟩ := digits_first' h.1 (by omega) (45 :: ms)
    exact ⟨_, _, _, _, y, t, rfl, rfl, by rw [ymField_snd, e], hy, rfl⟩
  | clock d s T =>
    obtain ⟨hd, hT, hc⟩ := h
    obtain ⟨y, t, e, hy⟩ := clock_head hT []
    rw [List.append_nil] at e
    cases d with
    | none => exact ⟨_, _, _, _, y, t, rfl, rfl, by rw [timeField_snd, e], hy, rfl⟩
    | some d =>
      obtain ⟨y', t', e', hy'⟩ := digits_first' (hd d rfl) (by omega) []
      rw [List.append_nil] at e'
      refine ⟨_, _, _, _, y', t', rfl, rfl, by rw [numField_snd, e'], hy', ?_⟩
      simp only [List.any_cons, List.any_nil, Bool.or_false]
      rw [timeField_snd, e, sg_head s hy]

theorem part_any {a : IvPart} (h : a.Ok) : (ivPartFields a).any (fun g => hasSign g.2) = a.signs.any (·.isSome) := by
  obtain ⟨f, r, s, q, y, t, e1, e2, e3, hy, hq⟩ := part_signs h
  rw [e1, e2, List.any_cons, List.any_cons, e3, sg_head s hy, hq]

theorem parts_any {ps : List IvPart} (h : ∀ a ∈ ps, a.Ok) (ago : Option Bytes) :
    (partsFields ps (agoF ago)).any (fun g => hasSign g.2) = ((ps.map IvPart.signs).flatten).any (·.isSome) := by
  unfold partsFields
  induction ps with
  | nil => cases ago <;> simp [agoF, agoFields, hasSign]
  | cons a ps ih =>
    have := ih fun b hb => h b (List.mem_cons_of_mem _ hb)
    simp only [List.map_cons, List.flatten_cons, List.append_assoc, List.any_append, part_any (h a (by simp))] at this ⊢
    rw [this]

/-- The SQL rule for a leading minus sign. -/
theorem sqlSign_parts {style : IntervalStyle} {ps : List IvPart} (h : ∀ a ∈ ps, a.Ok) (hne : ps ≠ []) (ago : Option Bytes)
    (t : TmF) : (¬ (style = .sqlStandard ∧ LoneMinus ps) → sqlSign style (partsFields ps (agoF ago)) t = (.ok (), t)) ∧
    (style = .sqlStandard ∧ LoneMinus ps → sqlSign style (partsFields ps (agoF ago)) t = (.ok (), forceNegative t)) := by
  cases ps with
  | nil => exact absurd rfl hne
  | cons a ps =>
    obtain ⟨f, r, s, q, y, tl, e1, e2, e3, hy, hq⟩ := part_signs (h a (by simp))
    have efs : partsFields (a :: ps) (agoF ago) = f :: (r ++ partsFields ps (agoF ago)) := by simp [partsFields, e1]
    have hany : ((r ++ partsFields ps (agoF ago)).any fun g => hasSign g.2) =
        (q ++ (ps.map IvPart.signs).flatten).any (·.isSome) := by
      rw [List.any_append, List.any_append, hq, parts_any (fun b hb => h b (List.mem_cons_of_mem _ hb))]
    have hl : LoneMinus (a :: ps) ↔ s = some true ∧ ((r ++ partsFields ps (agoF ago)).any fun g => hasSign g.2) = false := by
      unfold LoneMinus
      rw [hany, List.map_cons, List.flatten_cons, e2, List.cons_append]
      simp only [List.any_eq_false, Option.not_isSome_iff_eq_none]
    rw [efs]
    have hf0 : f.2 ≠ [] := by rw [e3]; simp
    rw [isDigit_iff] at hy
    have hh : f.2.head? = some 45 ↔ s = some true := by
      rw [e3]
      rcases s with _ | _ | _ <;> simp [sgBytes]
      omega
    refine ⟨fun hn => ?_, fun hn => ?_⟩
    · by_cases hst : style = .sqlStandard
      swap
      · exact sqlSign_other hst (by simp) t
      rw [hst]
      by_cases hs : s = some true
      · cases hb : ((r ++ partsFields ps (agoF ago)).any fun g => hasSign g.2) with
        | true => exact sqlSign_signed hf0 hb t
        | false => exact absurd ⟨hst, hl.2 ⟨hs, hb⟩⟩ hn
      · exact sqlSign_plain hf0 (fun q => hs (hh.1 q)) t
    · obtain ⟨rfl, hm⟩ := hn
      obtain ⟨hs, hb⟩ := hl.1 hm
      exact sqlSign_minus (hh.2 hs) hb t

theorem part_head {a : IvPart} (h : a.Ok) (rest : Bytes) : (a.text ++ rest).head? ≠ some 80 := by
  have key : ∀ (s : Option Bool) (y : Nat) (t r : Bytes), isDigit y = true → (sgBytes s ++ (y :: t) ++ r).head? ≠ some 80 := by
    intro s y t r hy
    rw [isDigit_iff] at hy
    rcases s with _ | _ | _ <;> simp [sgBytes]
    omega
  cases a with
  | quantity x => exact fraction_head h rest
  | months s ys ms =>
    obtain ⟨y, t, e, hy⟩ := digits_first' h.1 (by omega) (45 :: ms)
    rw [IvPart.text, plusMinus_sg, e]
    exact key _ _ _ _ hy
  | clock d s T =>
    obtain ⟨hd, hT, hc⟩ := h
    cases d with
    | none =>
      obtain ⟨y, t, e, hy⟩ := clock_head hT []
      rw [List.append_nil] at e
      rw [IvPart.text, plusMinus_sg, e]
      exact key _ _ _ _ hy
    | some d =>
      obtain ⟨y, t, e, hy⟩ := digits_first' (hd d rfl) (by omega) (32 :: (plusMinus s ++ T.bytes))
      rw [IvPart.text, plusMinus_sg, e]
      exact key _ _ _ _ hy

end Pg
