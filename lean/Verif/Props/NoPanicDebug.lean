import Verif.Lemmas.DebugSafe
import Verif.Props.NoPanic
import Verif.Props.Times
import Verif.Props.Special

/-!
# C44 in every build

A debug build checks every sum and product. Texts of dates and times that do not pair a day of the year with a far year
or a year before Christ do not make it panic either.
-/

namespace Pg
open Spec

variable {p : Profile} {order : DateOrder}

theorem St.safe_bind_post {σ α β : Type} {m : St σ α} {f : α → St σ β} {s : σ} (hm : (m s).1 ≠ .panic)
    (hf : ∀ a s', m s = (.ok a, s') → (f a s').1 ≠ .panic) : ((m >>= f) s).1 ≠ .panic := by
  rw [St.bind_run]
  cases hr : m s with
  | mk r s' =>
    rw [hr] at hm
    cases r with
    | ok a => exact hf a s' hr
    | err e => exact Res.safe_err _
    | panic => exact absurd rfl hm

theorem runLocal_ok {σ C α : Type} {init : σ} {m : St (σ × C) α} {c c' : C} {a : α × σ} (h : runLocal init m c = (.ok a, c')) :
    m (init, c) = (.ok a.1, (a.2, c')) := by
  unfold runLocal at h
  split at h
  · rename_i e; cases h; exact e
  · cases h
  · cases h

theorem noLook_safe {σ C α : Type} {m : St σ α} {s : σ × C} (h : (m s.1).1 ≠ .panic) : (noLook m s).1 ≠ .panic := h

/-- Both decoders at the end of the text. -/
theorem finish_both {s : Bytes} {d : Dec} {c : Unit} (h : Sound (¬ NoYearDay s) (Says [b!"y"] s) d) (hh : 0 ≤ d.tm.hour) :
    (noLook (C := Unit) (finishFields p) (d, c)).1 ≠ .panic := noLook_safe (finish_safe h hh).1

theorem decodeDateTime_debug {u : TokenField} {s : Bytes} {l : List Field} (hl : scan u s = .ok l) (hB : NearYearDay s)
    (ht : ∀ f, l.getLast? = some f → f.2 ≠ b!"t") :
    (decodeDateTime p plainLook order l ({}, ())).1 ≠ .panic ∧ Post (decodeDateTime p plainLook order l) (fun _ s' => DayIn s'.1.tm) ({}, ()) := by
  have hf := scan_year hl hB
  have hg := scan_good (N := 2147483647) hl (fun h => absurd h (by omega))
  have hinv : Post (dateTimeLoop p plainLook order (l.map Prod.fst) l 0)
      (fun _ s' => Sound (¬ NoYearDay s) (Says [b!"y"] s) s'.1 ∧ DecIn 2147483647 s'.1) ({}, ()) :=
    loop_all (I := fun d => Sound (¬ NoYearDay s) (Says [b!"y"] s) d ∧ DecIn 2147483647 d) (G := fun f => TextField s f ∧ GoodField 2147483647 f)
      (fun ft i f s' h1 h2 => (field_sound h1.1.year h2.1).and (field_in (by omega) (by omega) h1.2 h2.2)) l _ 0 _
      (fun f h => ⟨hf f h, hg f h⟩)
      ⟨sound_start, ⟨⟨by dsimp only; omega, by dsimp only; omega, by dsimp only; omega, by dsimp only; omega⟩, fun h => absurd h (by omega)⟩⟩
  constructor
  · unfold decodeDateTime
    refine St.safe_bind_post ((dateTimeLoop_safe l (fun f h => (hf f h).date) 0 (by simp) (fun f h e => absurd e (ht f h))) _ trivial).1 fun _ s' e => ?_
    obtain ⟨i1, i2⟩ := hinv _ _ e
    refine St.safe_bind (finish_both (s := s) i1 i2.clock.h.1) fun _ s'' => ?_
    refine St.safe_bind (Res.safe_ok _) fun d s3 => ?_
    split
    · exact Res.safe_err _
    · exact Res.safe_ok _
  · unfold decodeDateTime
    rw [Post.bind]
    refine hinv.mono fun _ s' h => ?_
    wp
    exact (finish_safe h.1 h.2.clock.h.1).2.mono fun _ d hd _ => hd

theorem decodeTimeOnly_debug {u : TokenField} {s : Bytes} {l : List Field} (hl : scan u s = .ok l) (hB : NearYearDay s) :
    (decodeTimeOnly p plainLook order l ({}, ())).1 ≠ .panic := by
  have hf := scan_year hl hB
  have hg := scan_good (N := 2147483647) hl (fun h => absurd h (by omega))
  have hinv : Post (timeOnlyLoop p plainLook order (l.map Prod.fst) l 0)
      (fun _ s' => Sound (¬ NoYearDay s) (Says [b!"y"] s) s'.1 ∧ AnyClock s'.1) ({}, ()) :=
    loopT_all (I := fun d => Sound (¬ NoYearDay s) (Says [b!"y"] s) d ∧ AnyClock d) (G := fun f => TextField s f ∧ GoodField 2147483647 f)
      (fun ft i f s' h1 h2 => (fieldT_sound h1.1.year h2.1).and (fieldT_in h1.2 h2.2)) l _ 0 _
      (fun f h => ⟨hf f h, hg f h⟩)
      ⟨sound_start, ⟨⟨by dsimp only; omega, by dsimp only; omega, by dsimp only; omega, by dsimp only; omega⟩, fun h => absurd h (by omega)⟩⟩
  unfold decodeTimeOnly
  refine St.safe_bind_post (timeOnlyLoop_safe l 0 _ trivial).1 fun _ s' e => ?_
  obtain ⟨i1, i2⟩ := hinv _ _ e
  refine St.safe_bind (finish_both (s := s) i1 i2.clock.h.1) fun _ s'' => ?_
  refine St.safe_bind (Res.safe_ok _) fun d s3 => ?_
  split
  · exact Res.safe_err _
  · exact Res.safe_ok _

theorem time2t_small (p : Profile) {h m s f : Int} (hh : 0 ≤ h ∧ h ≤ 99) (hm : 0 ≤ m ∧ m ≤ 99) (hs : 0 ≤ s ∧ s ≤ 99) (hf : 0 ≤ f ∧ f ≤ 1000000) :
    time2t p h m s f = .ok (((h * 60 + m) * 60 + s) * 1000000 + f) := by
  unfold time2t
  simp (disch := omega) only [chk32_ok, chk64_ok, Res.bind_ok]

theorem timeOnly_end {l : List Field} {s : Dec × Unit} :
    Post (decodeTimeOnly p plainLook order l) (fun _ s' => badTimeOnly s'.1 = false) s := by
  unfold decodeTimeOnly
  rw [Post.bind]
  refine Post.any fun _ s' => ?_
  rw [Post.bind]
  refine Post.any fun _ s' => ?_
  rw [Post.bind, Post.noLook, Post.get, Post.ite]
  exact ⟨fun _ => by rw [Post.fail]; trivial, fun h => by rw [Post.pure]; simpa using h⟩

theorem timeOnly_bounds {d : Dec} (h : badTimeOnly d = false) : (0 ≤ d.tm.hour ∧ d.tm.hour ≤ 99) ∧ (0 ≤ d.tm.min ∧ d.tm.min ≤ 99) ∧
    (0 ≤ d.tm.sec ∧ d.tm.sec ≤ 99) ∧ 0 ≤ d.fSec ∧ d.fSec ≤ 1000000 := by
  unfold badTimeOnly at h
  simp only [Bool.or_eq_false_iff, decide_eq_false_iff_not] at h
  obtain ⟨⟨⟨⟨⟨⟨⟨⟨h1, h2⟩, h3⟩, h4⟩, h5⟩, h6⟩, -⟩, h7⟩, h8⟩ := h
  omega

theorem fromPgtime_small (p : Profile) {tm : PgTime} {f : Int} (hh : 0 ≤ tm.hour ∧ tm.hour ≤ 99) (hm : 0 ≤ tm.min ∧ tm.min ≤ 99)
    (hs : 0 ≤ tm.sec ∧ tm.sec ≤ 99) (hf : 0 ≤ f ∧ f ≤ 1000000) :
    Time.fromPgtime p tm f = .ok ⟨((tm.hour * 60 + tm.min) * 60 + tm.sec) * 1000000 + f⟩ := by
  unfold Time.fromPgtime
  simp (disch := omega) only [chk32_ok, chk64_ok, Res.bind_ok, Res.pure_eq]

theorem roundTo_safe (p : Profile) {v n : Int} (hn : 0 ≤ n ∧ n ≤ 6) (hv : -9223372036853775807 ≤ v ∧ v ≤ 9223372036853775807) :
    Interval.roundTo p v n ≠ .panic := by
  obtain ⟨r, e, -⟩ := Props.roundTo_eq p (n := n.toNat) (by omega) hv
  rw [show ((n.toNat : Nat) : Int) = n from by omega] at e
  rw [e]
  exact Res.safe_ok _

theorem not_last_t {u : TokenField} {s : Bytes} {l : List Field} (h : s.length ≤ 128) (hl : scan u s = .ok l)
    (ht : ∀ b, (s.filter isAlnum).getLast? = some b → b ≠ 116 ∧ b ≠ 84) : ∀ f, l.getLast? = some f → f.2 ≠ b!"t" := by
  intro f hf hw
  obtain ⟨b, hb, hv⟩ := last_field h hl hf hw
  have := ht b hb
  omega

end Pg

namespace Props
open Pg Spec

/-- C44 for dates in every build: a text of at most 128 bytes whose last letter or digit is not `t` and that does not pair a
day of the year with a far year or a year before Christ. Missing: the other texts, where it is false in a debug build
(`C44_date_violated`, `C44_bc_violated`) or in every build (`C44_long_violated`, `C44_t_violated`). -/
theorem C44_date_debug_partial (p : Profile) (u : TokenField) (c : Caches) (hc : c.Ok) (s : Bytes) (order : DateOrder)
    (h : s.length ≤ 128) (ht : ∀ b, (s.filter isAlnum).getLast? = some b → b ≠ 116 ∧ b ≠ 84) (hB : NearYearDay s) :
    Date.tryFromStr p u c s order ≠ .panic := by
  unfold Date.tryFromStr
  rw [(same_date p u order s c hc).1]
  unfold Date.tryFromStrW
  refine St.safe_scan (C43_fields_partial u s h).1 fun l hl => ?_
  obtain ⟨h1, h2⟩ := decodeDateTime_debug (p := p) (order := order) hl hB (not_last_t h hl ht)
  refine St.safe_bind_post (runLocal_safe h1) fun a s' e => ?_
  have hd := h2 _ _ (runLocal_ok e)
  show Date.ofDec p a.2 ≠ _
  unfold Date.ofDec
  split
  · split
    · exact Res.safe_err _
    · rename_i hv
      obtain ⟨j, e1, e2⟩ := date2julian_safe p _ _ _ (by simpa using hv) hd.mon.1 hd.mon.2 hd.mday.1 hd.mday.2
      rw [e1, Res.bind_ok, chk32_ok e2, Res.bind_ok]
      calmly
  all_goals calmly

/-- C44 for times of day in every build: a text of at most 128 bytes that does not pair a day of the year with a far year or a
year before Christ. Missing: the other texts (`C44_time_violated`, `C44_long_violated`). -/
theorem C44_time_debug_partial (p : Profile) (u : TokenField) (c : Caches) (hc : c.Ok) (s : Bytes) (typmod : Int) (order : DateOrder)
    (h : s.length ≤ 128) (hB : NearYearDay s) : Time.tryFromStr p u c s typmod order ≠ .panic := by
  unfold Time.tryFromStr
  rw [(same_time p u typmod order s c hc).1]
  unfold Time.tryFromStrW
  refine St.safe_scan (C43_fields_partial u s h).1 fun l hl => ?_
  refine St.safe_bind_post (runLocal_safe (decodeTimeOnly_debug hl hB)) fun a s' e => ?_
  have hd := timeOnly_end _ _ (runLocal_ok e)
  dsimp only at hd
  obtain ⟨b1, b2, b3, b4⟩ := timeOnly_bounds hd
  have e2 : Time.fromPgtime p a.2.tm a.2.fSec = .ok ⟨((a.2.tm.hour * 60 + a.2.tm.min) * 60 + a.2.tm.sec) * 1000000 + a.2.fSec⟩ :=
    fromPgtime_small p b1 b2 b3 b4
  refine St.safe_bind_post (show Time.fromPgtime p a.2.tm a.2.fSec ≠ _ from by rw [e2]; exact Res.safe_ok _) fun t s'' e3 => ?_
  have e4 : Time.fromPgtime p a.2.tm a.2.fSec = .ok t := congrArg Prod.fst e3
  have ht := Res.ok.inj (e2.symm.trans e4)
  have hv := congrArg Time.v ht
  dsimp only at hv
  show Time.adjustByTypmod p _ _ ≠ _
  unfold Time.adjustByTypmod
  split
  · rename_i hn
    exact Res.safe_bind (roundTo_safe p hn (by omega)) fun _ => Res.safe_pure _
  · exact Res.safe_ok _

/-- C44 for timestamps in every build: as for dates, and the text has no label for an hour, a minute or a second. Missing: the
other texts, where it is false (`C44_timestamp_violated` and the theorems named for dates). -/
theorem C44_timestamp_debug_partial (p : Profile) (u : TokenField) (c : Caches) (hc : c.Ok) (s : Bytes) (typmod : Int) (order : DateOrder)
    (h : s.length ≤ 128) (ht : ∀ b, (s.filter isAlnum).getLast? = some b → b ≠ 116 ∧ b ≠ 84) (hB : NearYearDay s)
    (hL : ¬ Says clockLabels s) : Timestamp.tryFromStr p u c s typmod order ≠ .panic := by
  unfold Timestamp.tryFromStr
  rw [(same_timestamp p u typmod order s c hc).1]
  unfold Timestamp.tryFromStrW
  refine St.safe_scan (C43_fields_partial u s h).1 fun l hl => ?_
  obtain ⟨h1, h2⟩ := decodeDateTime_debug (p := p) (order := order) hl hB (not_last_t h hl ht)
  refine St.safe_bind_post (runLocal_safe h1) fun a s' e => ?_
  have e' := runLocal_ok e
  have hd := h2 _ _ e'
  have hk := decode_in (N := 99) (by omega) (by omega) (scan_good hl fun _ => hL) e'
  have hts : Timestamp.ofDec p a.2 ≠ .panic ∧ ∀ t, Timestamp.ofDec p a.2 = .ok t → t.isInfinite = true ∨
      (-9223372036853775807 ≤ t.v ∧ t.v ≤ 9223372036853775807) := by
    unfold Timestamp.ofDec
    split
    · unfold PgTime.toTimestamp
      split
      · exact ⟨Res.safe_err _, fun t e => by cases e⟩
      · rename_i hv
        obtain ⟨j, e1, e2⟩ := date2julian_safe p _ _ _ (by simpa using hv) hd.mon.1 hd.mon.2 hd.mday.1 hd.mday.2
        rw [e1, Res.bind_ok, show date2julian p 2000 1 1 = .ok 2451545 from by cases p <;> decide, Res.bind_ok, chk32_ok e2, Res.bind_ok,
          time2t_small p hk.h hk.m hk.s hk.f, Res.bind_ok]
        split
        · exact ⟨Res.safe_err _, fun t e => by cases e⟩
        · split
          · exact ⟨Res.safe_err _, fun t e => by cases e⟩
          · split
            · rename_i r hr
              refine ⟨Res.safe_ok _, fun t e => ?_⟩
              cases e
              simp only [isValidTimestamp, Bool.and_eq_true, decide_eq_true_eq] at hr
              right; dsimp only; omega
            · exact ⟨Res.safe_err _, fun t e => by cases e⟩
    · exact ⟨Res.safe_ok _, fun t e => by cases e; exact Or.inl (by decide)⟩
    · exact ⟨Res.safe_ok _, fun t e => by cases e; exact Or.inl (by decide)⟩
    · exact ⟨Res.safe_err _, fun t e => by cases e⟩
  refine St.safe_bind_post hts.1 fun t s'' e3 => ?_
  have hr := hts.2 t (congrArg Prod.fst e3)
  show Timestamp.adjustByTypmod p _ _ ≠ _
  unfold Timestamp.adjustByTypmod
  split
  · rename_i hi
    split
    · exact Res.safe_err _
    · exact Res.safe_bind (roundTo_safe p (by omega) (hr.resolve_left hi.1)) fun _ => Res.safe_pure _
  · exact Res.safe_ok _

/-- Runs of digits by place and length. -/
theorem run_at {w s : Bytes} (h : DigitRun w s) :
    ∃ i < s.length, ∃ n < s.length + 1, (∀ b ∈ (s.drop i).take n, Figure b) ∧ (∀ b ∈ (s.take i).getLast?, ¬ Figure b) ∧
      (∀ b ∈ (s.drop (i + n)).head?, ¬ Figure b) ∧ n = w.length := by
  obtain ⟨a, c, rfl, h1, h2, h3, h4⟩ := h
  have := List.length_pos_iff.2 h1
  refine ⟨a.length, by simp; omega, w.length, by simp; omega, ?_⟩
  rw [List.drop_left, List.take_left, List.take_left, ← List.drop_drop, List.drop_left, List.drop_left]
  exact ⟨h2, fun b hb => h3 b hb, fun b hb => h4 b hb, rfl⟩

theorem noFarYear_of {s : Bytes} (h : ∀ i < s.length, ¬ (((s.drop i).take 7).length = 7 ∧ ∀ b ∈ (s.drop i).take 7, Figure b)) : NoFarYear s := by
  rintro a w j c rfl hw -
  by_contra hn
  refine h a.length (by simp) ?_
  rw [List.drop_left, List.take_append_of_le_length (by omega)]
  exact ⟨by rw [List.length_take]; omega, fun b hb => hw b (List.mem_of_mem_take hb)⟩

/-- A date before Christ and a time with words: no number has three digits. -/
example : NearYearDay b!"Tue 44-03-15 BC 12:30:07 pm" ∧ ¬ Says clockLabels b!"Tue 44-03-15 BC 12:30:07 pm" := by
  refine ⟨Or.inl ⟨by decide, fun w h h3 => ?_⟩, fun h => absurd (says_at h) ?_⟩
  · have := run_at h
    rw [h3] at this
    revert this
    unfold Figure; decide +kernel
  · unfold Letter Known SameButCase; decide +kernel

/-- A day of a year of five digits, and a time with a fraction. -/
example : NearYearDay b!"12024-123 10:20:30.125" ∧ ¬ NoYearDay b!"12024-123 10:20:30.125" ∧ ¬ Says clockLabels b!"12024-123 10:20:30.125" := by
  refine ⟨Or.inr ⟨fun h => absurd (says_at h) ?_, noFarYear_of ?_, fun h => absurd (says_at h) ?_⟩, fun h => h.1 (by decide), fun h => absurd (says_at h) ?_⟩
  · unfold Letter Known SameButCase; decide +kernel
  · unfold Figure; decide +kernel
  · unfold Letter Known SameButCase; decide +kernel
  · unfold Letter Known SameButCase; decide +kernel

/-- The texts shown to make a debug build panic do not meet the condition. -/
example : ¬ NearYearDay b!"11767000-123" ∧ ¬ NearYearDay b!"5000-123 BC" := by
  refine ⟨fun h => ?_, fun h => ?_⟩
  · rcases h with ⟨-, h⟩ | ⟨-, h, -⟩
    · exact h b!"123" ⟨b!"11767000-", [], rfl, by decide, by unfold Figure; decide, by rintro l ⟨⟩; unfold Figure; decide, by rintro l ⟨⟩⟩ rfl
    · exact absurd (h [] b!"11767000" 45 b!"123" rfl (by unfold Figure; decide) (by decide)) (by decide)
  · rcases h with ⟨-, h⟩ | ⟨h, -⟩
    · exact h b!"123" ⟨b!"5000-", b!" BC", rfl, by decide, by unfold Figure; decide, by rintro l ⟨⟩; unfold Figure; decide, by rintro l ⟨⟩; unfold Figure; decide⟩ rfl
    · exact h ⟨b!"BC", ⟨b!"5000-123 ", [], rfl, by decide, by unfold Letter; decide, by rintro l ⟨⟩; unfold Letter; decide, by rintro l ⟨⟩⟩,
        b!"bc", by simp, by unfold SameButCase; decide⟩

/-- **C44 is violated (debug, before Christ):** a day of the year of a year before 4714 BC. -/
theorem C44_bc_violated (u : TokenField) (c : Caches) (hc : c.Ok) (order : DateOrder) (typmod : Int) :
    Date.tryFromStr .debug u c b!"5000-123 BC" order = .panic ∧ Timestamp.tryFromStr .debug u c b!"5000-123 BC" typmod order = .panic := by
  have hs : scan u b!"5000-123 BC" = .ok [(.date, b!"5000-123"), (.string, b!"bc")] := by cases u <;> decide +kernel
  have hr : ∃ d, decodeDateTime .debug plainLook order [(.date, b!"5000-123"), (.string, b!"bc")] ({}, ()) = (.panic, (d, ())) :=
    ⟨_, Prod.ext (by cases order <;> decide +kernel) rfl⟩
  obtain ⟨d, hr⟩ := hr
  constructor
  · rw [date_run .debug u hc order hs (r := .panic) (w := ()) hr]; rfl
  · rw [timestamp_run .debug u hc typmod order hs (r := .panic) (w := ()) hr]; rfl

end Props
