import Verif.Lemmas.RangeRun
import Verif.Lemmas.PartsText

/-! # Clock times of two numbers under the range `MINUTE TO SECOND` -/

namespace Spec

/-- Two numbers of a clock time taken as minutes and seconds: `5:06` as `0:5:06`. 48 is `0`. -/
def IvPart.minutesSeconds : IvPart → IvPart
  | .clock d s (.short mm ss) => .clock d s (.long [48] mm ss none)
  | a => a

end Spec

namespace Pg
open Spec

variable {p : Profile} {R R' : Nat}

/-- The clock time of a part is decoded alike under both ranges. -/
def PartSame (R R' : Nat) : IvPart → Prop
  | .clock _ _ T => SameClock R R' T.bytes
  | _ => True

/-- The last field of a list of parts has its unit. -/
theorem parts_last {ps : List IvPart} (hok : ∀ a ∈ ps, a.Ok) (hR : ∀ a ∈ ps, PartSame R R' a)
    (hne : ps ≠ []) (ago : Option Bytes) : ∃ l f, partsFields ps (agoF ago) = l ++ [f] ∧ LastSame p R R' f := by
  cases ago with
  | some w =>
    exact ⟨_, _, rfl, word_lastSame (w := b!"ago") ((by decide : ∀ b ∈ b!"ago", isAlpha b = true)) (Or.inl rfl) (by decide)⟩
  | none =>
    obtain ⟨qs, a, rfl⟩ : ∃ qs a, ps = qs ++ [a] := ⟨_, _, (List.dropLast_concat_getLast hne).symm⟩
    have ha := hok a (by simp)
    have e : partsFields (qs ++ [a]) (agoF none) = (qs.map ivPartFields).flatten ++ ivPartFields a := by
      simp [partsFields, agoF, agoFields]
    rw [e]
    cases a with
    | quantity x =>
      refine ⟨(qs.map ivPartFields).flatten ++ [fracField x], _, (List.append_assoc _ [_] [_]).symm,
        word_lastSame (w := x.whole.word) (word_letters ha.1).1 (Or.inl rfl) ?_⟩
      obtain ⟨en, h1, h2, -⟩ := word_unit ha.1
      have no : ∀ w ∈ [b!"invalid", b!"undefined"], (lookupIn deltaTable w).all (fun e => e.ty ≠ .units) = true := by decide +kernel
      have key : ∀ w ∈ [b!"invalid", b!"undefined"], lower x.whole.word ≠ w := by
        intro w hw e
        have := no w hw
        rw [searchDelta_eq, e] at h1
        rw [Res.ok.inj h1] at this
        simp [h2] at this
      exact ⟨key _ (by simp), key _ (by simp)⟩
    | months sg ys ms =>
      exact ⟨_, _, rfl, ym_lastSame sg ha.1.1 (fun h => by have := ha.1.2.1; rw [h] at this; simp at this) ha.2.1⟩
    | clock d sg T =>
      have hT := time_lastSame (p := p) (R := R) (R' := R') (sg := sg) (clock_colon ha.2.2)
        (show PartSame R R' (.clock d sg T) from hR _ (by simp))
      cases d with
      | none => exact ⟨_, _, rfl, hT⟩
      | some d => exact ⟨(qs.map ivPartFields).flatten ++ [numField d.1 d.2], _, (List.append_assoc _ [_] [_]).symm, hT⟩

/-- Two decoders do the same, or both fail with the same error. -/
def Alike {σ : Type} (a b : Res Unit × σ) : Prop := a = b ∨ ∃ e s t, a = (.err e, s) ∧ b = (.err e, t)

theorem Alike.bind {σ : Type} {m n : St σ Unit} {s : σ} (h : Alike (m s) (n s)) {f g : Unit → St σ Unit}
    (hk : ∀ t, Alike (f () t) (g () t)) : Alike ((m >>= f) s) ((n >>= g) s) := by
  rcases h with h | ⟨e, t, t', h1, h2⟩
  · rw [St.bind_run, St.bind_run, h]
    rcases n s with ⟨r, t⟩
    cases r with
    | ok a => exact hk t
    | err e => exact Or.inl rfl
    | panic => exact Or.inl rfl
  · exact Or.inr ⟨e, t, t', St.bind_err h1, St.bind_err h2⟩

theorem Alike.rfl {σ : Type} {a : Res Unit × σ} : Alike a a := Or.inl _root_.rfl

theorem Alike.noLook {σ C : Type} {m n : St σ Unit} {s : σ × C} (h : Alike (m s.1) (n s.1)) :
    Alike ((noLook m : St (σ × C) Unit) s) (Pg.noLook n s) := by
  unfold Pg.noLook
  rcases h with h | ⟨e, t, t', h1, h2⟩
  · rw [h]; exact .rfl
  · rw [h1, h2]; exact Or.inr ⟨_, _, _, _root_.rfl, _root_.rfl⟩

theorem Alike.zoom {σ τ : Type} {get : σ → τ} {set : τ → σ → σ} {m n : St τ Unit} {s : σ} (h : Alike (m (get s)) (n (get s))) :
    Alike (St.zoom get set m s) (St.zoom get set n s) := by
  unfold St.zoom
  rcases h with h | ⟨e, t, t', h1, h2⟩
  · rw [h]; exact .rfl
  · rw [h1, h2]; exact Or.inr ⟨_, _, _, _root_.rfl, _root_.rfl⟩

theorem decodeTime_colon {w r : Bytes} {v : Int} (h : str2i32 w = .ok (v, 58 :: r)) (R : Nat) (t : TimeS) :
    decodeTime w R t = (do
      let (v, s) ← St.lift (str2i32 r)
      St.mod fun t => { t with tm := { t.tm with min := v } }
      timeTail s R
      let t ← St.get
      (if badTime t then St.fail .invalid else pure ()) : St TimeS Unit) ⟨DTK_TIME_M, { t.tm with hour := v }, t.fsec⟩ := by
  unfold decodeTime
  rw [St.mod_bind, h, St.lift_ok_bind]
  rfl

/-- Two numbers under `MINUTE TO SECOND` are minutes and seconds. -/
theorem decodeTime_minutes {a b : Bytes} (ha : DigitsOf 1 10 a) (hb : DigitsOf 1 10 b) (t : TimeS) :
    Alike (decodeTime (ClockText.short a b).bytes INTERVAL_MASK_MS t)
      (decodeTime (ClockText.long [48] a b none).bytes INTERVAL_MASK_MS t) := by
  have e : (ClockText.long [48] a b none).bytes = [48] ++ 58 :: (a ++ 58 :: b) := by
    simp [ClockText.bytes, hmsText]
  have e0 : (ClockText.short a b).bytes = a ++ 58 :: b := _root_.rfl
  have na : a ≠ [] := DigitsOf.ne ha (by omega)
  have nb : b ≠ [] := DigitsOf.ne hb (by omega)
  have s0 : str2i32 ([48] ++ 58 :: (a ++ 58 :: b)) = .ok (0, 58 :: (a ++ 58 :: b)) :=
    str2i32_ok (ds := [48]) (by unfold Digits; decide) (by decide) (Stops.cons _root_.rfl) (by decide) (by decide)
  have sa := str2i32_digits (r := 58 :: b) ha.1 na (Stops.cons _root_.rfl)
  have sb := str2i32_all hb.1 nb
  rw [e, e0, decodeTime_colon s0]
  by_cases ca : a.length ≤ 10 ∧ value a ≤ 2147483647
  swap
  · rw [if_neg ca] at sa
    refine Or.inr ⟨.overflow, ?_, ?_, ?_, ?_⟩
    rotate_left 2
    · unfold decodeTime
      rw [St.mod_bind, sa]; rfl
    · rw [sa]; rfl
  rw [if_pos ca] at sa
  rw [decodeTime_colon sa, sa, St.lift_ok_bind]
  dsimp only
  rw [St.mod_bind, show ∀ R, timeTail (58 :: b) R = timeSeconds b from fun R => _root_.rfl]
  unfold timeSeconds
  by_cases cb : b.length ≤ 10 ∧ value b ≤ 2147483647
  swap
  · rw [if_neg cb] at sb
    rw [sb]
    exact Or.inr ⟨_, _, _, _root_.rfl, _root_.rfl⟩
  rw [if_pos cb] at sb
  rw [sb]
  exact Or.inl _root_.rfl

/-- The same in the decoder of intervals. -/
theorem field_minutes {sg : Option Bool} {a b : Bytes} (ha : DigitsOf 1 10 a) (hb : DigitsOf 1 10 b) (i : Nat) (s : IvS × Unit) :
    Alike (intervalField p plainLook INTERVAL_MASK_MS i (timeField sg (ClockText.short a b).bytes) s)
      (intervalField p plainLook INTERVAL_MASK_MS i (timeField sg (ClockText.long [48] a b none).bytes) s) := by
  have key : ∀ (s : IvS), Alike (onTimeI (decodeTime (ClockText.short a b).bytes INTERVAL_MASK_MS) s)
      (onTimeI (decodeTime (ClockText.long [48] a b none).bytes INTERVAL_MASK_MS) s) := fun s =>
    Alike.zoom (decodeTime_minutes ha hb _)
  cases sg with
  | none =>
    refine Alike.noLook ?_
    exact Alike.bind (key _) fun t => .rfl
  | some neg =>
    have hc : ∀ T : ClockText, T.colons = true → (List.any ((if neg then 45 else 43) :: T.bytes) fun b => b = 58) = true := by
      intro T hT
      rw [List.any_cons, clock_colon hT, Bool.or_true]
    refine Alike.noLook (Alike.bind ?_ fun t => .rfl)
    show Alike (intervalSigned p ((if neg then 45 else 43) :: (ClockText.short a b).bytes) INTERVAL_MASK_MS _)
      (intervalSigned p ((if neg then 45 else 43) :: (ClockText.long [48] a b none).bytes) INTERVAL_MASK_MS _)
    unfold intervalSigned
    rw [if_pos (hc _ _root_.rfl), if_pos (hc _ _root_.rfl)]
    exact Alike.bind (key _) fun t => .rfl

/-- Lists of fields. -/
theorem loop_alike {l l' : List Field}
    (h : List.Forall₂ (fun f f' => ∀ i s, Alike (intervalField p plainLook R i f s) (intervalField p plainLook R i f' s)) l l')
    (i : Nat) (s : IvS × Unit) : Alike (intervalLoop p plainLook R l i s) (intervalLoop p plainLook R l' i s) := by
  induction h generalizing i with
  | nil => exact .rfl
  | cons hf _ ih =>
    rw [intervalLoop, intervalLoop]
    exact Alike.bind (ih (i + 1)) fun t => hf i t

theorem interval_alike {style : IntervalStyle} {u : TokenField} {c : Caches} (hc : c.Ok) {x x' : Bytes} {l l' : List Field}
    {typmod : Int} (hs : scan u x = .ok l) (hs' : scan u x' = .ok l') (hP : x.head? ≠ some 80) (hP' : x'.head? ≠ some 80)
    (h : List.Forall₂ (fun f f' => ∀ i s, Alike (intervalField p plainLook (parseRange typmod) i f s)
      (intervalField p plainLook (parseRange typmod) i f' s)) l l') (hsq : ∀ t, sqlSign style l t = sqlSign style l' t) :
    Interval.tryFromStr p u c x typmod style = Interval.tryFromStr p u c x' typmod style := by
  have iso : ∀ {x : Bytes} (s : IvS × Unit), x.head? ≠ some 80 →
      (noLook (decodeIsoInterval p x) : St (IvS × Unit) Unit) s =
        (.err .invalid, ({ s.1 with dType := .delta, t := (s.1.t.1, 0) }, s.2)) := by
    intro x s hx
    refine noLook_run ?_
    unfold decodeIsoInterval
    rw [St.mod_bind, if_pos (Or.inr hx)]
    rfl
  have hd : Alike (decodeInterval p plainLook (parseRange typmod) style l ({}, ()))
      (decodeInterval p plainLook (parseRange typmod) style l' ({}, ())) := by
    unfold decodeInterval
    refine Alike.bind (loop_alike h 0 _) fun t => ?_
    left
    rw [show sqlSign style l = sqlSign style l' from funext hsq]
  have fin : ∀ (r : Res Unit) (d d' : IvS) (w w' : Unit), (d = d' ∨ ∃ e, r = .err e) →
      St.orElse (decodeInterval p plainLook (parseRange typmod) style l) (noLook (decodeIsoInterval p x)) ({}, ()) = (r, (d, w)) →
      St.orElse (decodeInterval p plainLook (parseRange typmod) style l') (noLook (decodeIsoInterval p x')) ({}, ()) = (r, (d', w')) →
      Interval.tryFromStr p u c x typmod style = Interval.tryFromStr p u c x' typmod style := by
    intro r d d' w w' hdd h1 h2
    rw [interval_run p u hc typmod style hs h1, interval_run p u hc typmod style hs' h2]
    rcases hdd with rfl | ⟨e, rfl⟩ <;> rfl
  rcases hd with e | ⟨e, s, t, h1, h2⟩
  · rcases hr : decodeInterval p plainLook (parseRange typmod) style l' ({}, ()) with ⟨r, d, w⟩
    rw [hr] at e
    by_cases hi : r = .err .invalid
    · subst hi
      refine fin (.err .invalid) ?_ ?_ ?_ ?_ (Or.inr ⟨_, rfl⟩) ?_ ?_
      rotate_left 4
      · unfold St.orElse; rw [e]; exact iso _ hP
      · unfold St.orElse; rw [hr]; exact iso _ hP'
    · refine fin r d d w w (Or.inl rfl) ?_ ?_
      · unfold St.orElse; rw [e]
        cases r with
        | err e' => cases e' <;> first | rfl | exact absurd rfl hi
        | _ => rfl
      · unfold St.orElse; rw [hr]
        cases r with
        | err e' => cases e' <;> first | rfl | exact absurd rfl hi
        | _ => rfl
  · by_cases hi : e = .invalid
    · subst hi
      refine fin (.err .invalid) ?_ ?_ ?_ ?_ (Or.inr ⟨_, rfl⟩) ?_ ?_
      rotate_left 4
      · unfold St.orElse; rw [h1]; exact iso _ hP
      · unfold St.orElse; rw [h2]; exact iso _ hP'
    · refine fin (.err e) s.1 t.1 s.2 t.2 (Or.inr ⟨_, rfl⟩) ?_ ?_
      · unfold St.orElse; rw [h1]; cases e <;> first | rfl | exact absurd rfl hi
      · unfold St.orElse; rw [h2]; cases e <;> first | rfl | exact absurd rfl hi

/-! ## Texts -/

theorem scan_partsText {u : TokenField} {ps : List IvPart} (hok : ∀ a ∈ ps, a.Ok) (hne : ps ≠ []) (hn : ps.length ≤ 12)
    {ago : Option Bytes} (ha : ∀ w ∈ ago, AgoWord w) (hl : (partsText ps ago).length ≤ 128) :
    scan u (partsText ps ago) = .ok (partsFields ps (agoF ago)) := by
  have hlen : (agoF ago).length ≤ 1 := by cases ago <;> simp [agoF, agoFields]
  have hfl := partsFields_length ps (agoF ago)
  refine Scans.run (scans_parts (u := u) hok ha) ?_ hl (by omega)
  intro e
  have := List.length_pos_iff.2 hne
  rw [e, List.length_nil] at hfl
  omega

theorem partsText_head {ps : List IvPart} (hok : ∀ a ∈ ps, a.Ok) (hne : ps ≠ []) (ago : Option Bytes) :
    (partsText ps ago).head? ≠ some 80 := by
  cases ps with
  | nil => exact absurd rfl hne
  | cons x r =>
    unfold partsText
    rw [List.map_cons, List.cons_append, spaced_cons]
    exact part_head (hok x (by simp)) _

theorem minSec_ok {a : IvPart} (h : a.Ok) : a.minutesSeconds.Ok := by
  have h0 : DigitsOf 1 10 [48] := by decide
  have h1 : DigitsOf 0 7 (Option.getD (none : Option (List Nat)) []) := by decide
  rcases a with x | ⟨s, ys, ms⟩ | ⟨d, s, T⟩
  · exact h
  · exact h
  · cases T with
    | short hh mm => exact ⟨h.1, ⟨h0, h.2.1.1, h.2.1.2, h1⟩, rfl⟩
    | _ => exact h

theorem minSec_signs (a : IvPart) : a.minutesSeconds.signs = a.signs := by
  rcases a with x | ⟨s, ys, ms⟩ | ⟨d, s, T⟩
  · rfl
  · rfl
  · cases T <;> cases d <;> rfl

theorem digits_drop {ds r : Bytes} (h : ds ≠ []) : ∃ x, (ds ++ r).drop 1 = x ++ r := by
  cases ds with
  | nil => exact absurd rfl h
  | cons c t => exact ⟨t, rfl⟩

/-- Afterwards all clock times have seconds. -/
theorem minSec_same {a : IvPart} (h : a.Ok) : PartSame R R' a.minutesSeconds := by
  have long : ∀ (hh mm ss : Bytes) (f : Option Bytes), hh ≠ [] → SameClock R R' (hmsText hh mm ss f) := by
    intro hh mm ss f hne
    refine Or.inr (Or.inr (Or.inl ?_))
    obtain ⟨q, eq⟩ : ∃ q, hmsText hh mm ss f = hh ++ ([58] ++ (mm ++ ([58] ++ q))) := by
      unfold hmsText
      simp only [List.append_assoc]
      exact ⟨_, rfl⟩
    rw [eq]
    obtain ⟨x, e⟩ := digits_drop (r := [58] ++ (mm ++ ([58] ++ q))) hne
    rw [e]
    simp only [List.count_append, List.count_cons, List.count_nil]
    simp only [beq_self_eq_true, if_true]
    omega
  rcases a with x | ⟨s, ys, ms⟩ | ⟨d, s, T⟩
  · trivial
  · trivial
  · obtain ⟨h1, h2, h3⟩ := h
    cases T with
    | long hh mm ss f => exact long _ _ _ _ (DigitsOf.ne h2.1 (by omega))
    | short hh mm => exact show SameClock R R' (hmsText [48] hh mm none) from long _ _ _ _ (by decide)
    | minSec mm ss fs =>
      refine Or.inr (Or.inr (Or.inr ?_))
      obtain ⟨x, e⟩ := digits_drop (r := 58 :: (ss ++ 46 :: fs)) (DigitsOf.ne h2.1 (by omega))
      show 46 ∈ (mm ++ 58 :: (ss ++ 46 :: fs)).drop 1
      rw [e]
      simp
    | six => cases h3
    | four => cases h3

theorem minSec_fields {ps : List IvPart} (hok : ∀ a ∈ ps, a.Ok) (l : List Field) :
    List.Forall₂ (fun f f' => ∀ i s, Alike (intervalField p plainLook INTERVAL_MASK_MS i f s)
      (intervalField p plainLook INTERVAL_MASK_MS i f' s)) (partsFields ps l) (partsFields (ps.map IvPart.minutesSeconds) l) := by
  unfold partsFields
  induction ps with
  | nil =>
    show List.Forall₂ _ l l
    exact List.forall₂_same.2 fun f _ i s => .rfl
  | cons a ps ih =>
    have := ih fun b hb => hok b (by simp [hb])
    simp only [List.map_cons, List.flatten_cons, List.append_assoc]
    refine List.rel_append ?_ this
    have ha := hok a (by simp)
    rcases a with x | ⟨s, ys, ms⟩ | ⟨d, s, T⟩
    · exact List.forall₂_same.2 fun f _ i s => .rfl
    · exact List.forall₂_same.2 fun f _ i s => .rfl
    · cases T with
      | short hh mm =>
        have hf := fun i s' => field_minutes (p := p) (sg := s) ha.2.1.1 ha.2.1.2 i s'
        cases d with
        | none => exact List.Forall₂.cons hf .nil
        | some d => exact List.Forall₂.cons (fun i s => .rfl) (List.Forall₂.cons hf .nil)
      | _ => exact List.forall₂_same.2 fun f _ i s => .rfl

theorem sg_noColon (sg : Option Bool) {w : Bytes} (h : ∀ b ∈ w, b ≠ 58) : ∀ b ∈ sgBytes sg ++ w, b ≠ 58 := by
  intro b hb
  rcases List.mem_append.1 hb with hb | hb
  · rcases sg with _ | _ | _ <;> simp [sgBytes] at hb <;> omega
  · exact h b hb

theorem digits_not58 {ds : Bytes} (h : Digits ds) : ∀ b ∈ ds, b ≠ 58 := by
  intro b hb
  have := h b hb
  omega

theorem parts_sameClock {ps : List IvPart} (hok : ∀ a ∈ ps, a.Ok) (hR : ∀ a ∈ ps, PartSame R R' a) (ago : Option Bytes) :
    ∀ f ∈ partsFields ps (agoF ago), SameClock R R' f.2 := by
  intro f hf
  unfold partsFields at hf
  rcases List.mem_append.1 hf with hf | hf
  swap
  · cases ago with
    | none => cases hf
    | some w =>
      simp only [agoF, agoFields, Option.isSome_some, if_true, List.mem_singleton] at hf
      subst hf
      exact Or.inr (Or.inl (by decide))
  obtain ⟨l, hl, hf⟩ := List.mem_flatten.1 hf
  obtain ⟨a, ha, rfl⟩ := List.mem_map.1 hl
  have hk := hok a ha
  have hr := hR a ha
  have time : ∀ d s T, a = .clock d s T → SameClock R R' (timeField s T.bytes).2 := by
    rintro d s T rfl
    have hr : SameClock R R' T.bytes := hr
    rw [timeField_snd]
    rcases s with _ | _ | _
    · exact hr
    all_goals
      rcases hr with h | h | h
      · exact Or.inl h
      · exact Or.inr (Or.inl (sg_noColon _ h))
      · exact Or.inr (Or.inr h.of_drop)
  rcases a with x | ⟨s, ys, ms⟩ | ⟨d, s, T⟩
  · simp only [ivPartFields, List.mem_cons, List.not_mem_nil, or_false] at hf
    rcases hf with rfl | rfl
    · rw [fracField_snd]
      refine Or.inr (Or.inl (sg_noColon _ fun b hb => ?_))
      rcases List.mem_append.1 hb with hb | hb
      · exact digits_not58 hk.1.1.1 b hb
      · unfold dotted at hb
        split at hb
        · cases hb
        · rcases List.mem_cons.1 hb with rfl | hb
          · decide
          · exact digits_not58 hk.2.1 b hb
    · refine Or.inr (Or.inl fun b hb => ?_)
      obtain ⟨c, hc, rfl⟩ := List.mem_map.1 hb
      have := (isAlpha_iff c).1 ((word_letters hk.1).1 c hc)
      unfold lowerB
      unfold Letter at this
      split <;> omega
  · simp only [ivPartFields, List.mem_cons, List.not_mem_nil, or_false] at hf
    subst hf
    rw [ymField_snd]
    refine Or.inr (Or.inl (sg_noColon _ fun b hb => ?_))
    rcases List.mem_append.1 hb with hb | hb
    · exact digits_not58 hk.1.1 b hb
    · rcases List.mem_cons.1 hb with rfl | hb
      · decide
      · exact digits_not58 hk.2.1 b hb
  · cases d with
    | none =>
      simp only [ivPartFields, List.mem_cons, List.not_mem_nil, or_false] at hf
      subst hf
      exact time _ _ _ rfl
    | some d =>
      simp only [ivPartFields, List.mem_cons, List.not_mem_nil, or_false] at hf
      rcases hf with rfl | rfl
      · rw [numField_snd]
        exact Or.inr (Or.inl (sg_noColon _ (digits_not58 (hk.1 d rfl).1)))
      · exact time _ _ _ rfl

end Pg
