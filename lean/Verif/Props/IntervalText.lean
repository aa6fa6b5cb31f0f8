import Verif.Lemmas.FormatInterval
import Verif.Props.IntervalParts
import Verif.Props.Format

/-!
# Properties C48 and C52: the text of an interval
-/

namespace Props
open Pg Spec

/-- The text of an interval in each style. -/
def intervalText (style : IntervalStyle) (a : Interval) : List Nat :=
  match style with
  | .iso8601 => isoIntervalText a.month a.day a.time
  | .sqlStandard => sqlIntervalText a.month a.day a.time
  | .postgres => pgIntervalText a.month a.day a.time
  | .verbose => verboseIntervalText a.month a.day a.time

/-- **C48 (printing with hours outside 32 bits).** Printing is an Overflow error in every style. -/
theorem C48_format (p : Profile) (a : Interval) (h : a.WF) (hf : ¬ HoursFit a.time)
    (style : IntervalStyle) (junk : Bytes) : a.format p junk style = .err .overflow := by
  have e := toPgtime_eq p h.2.2
  rw [if_neg (fun hc => hf ((hoursFit_iff _).2 hc))] at e
  unfold Interval.format
  rw [e]
  rfl

example : (⟨1, 2, 9223372036854775807⟩ : Interval).WF ∧ ¬ HoursFit 9223372036854775807 := by
  decide +kernel

/-- **C52 (ISO 8601).** The printed text of every interval whose hours fit 32 bits. -/
theorem C52_iso (p : Profile) (a : Interval) (h : a.WF) (hf : HoursFit a.time) (junk : Bytes)
    (hj : junk.length = 128) : a.format p junk .iso8601 = .ok (intervalText .iso8601 a) := by
  have hh := (hoursFit_iff _).1 hf
  unfold Interval.format
  rw [toPgtime_eq p h.2.2, if_pos hh, Res.bind_ok, ivTm_ivx]
  exact (putIso_emits p h.1 h.2.1 hh).run (by rw [hj]; exact isoText_len h.1 h.2.1 hh)

/-- **C52 (all styles).** The printed text of every interval whose hours fit 32 bits, provided
neither the days nor the hours are `-2^31`. -/
theorem C52_text (p : Profile) (a : Interval) (h : a.WF) (hf : HoursFit a.time)
    (hd : a.day ≠ -2147483648) (hhm : -2147483648 * 3600000000 < a.time) (style : IntervalStyle)
    (junk : Bytes) (hj : junk.length = 128) :
    a.format p junk style = .ok (intervalText style a) := by
  have hh := (hoursFit_iff _).1 hf
  have ok : IvOk a.month a.day a.time := by
    refine ⟨h.1, h.2.1, hd, hh, ?_⟩
    have := tdiv_or a.time 3600000000
    unfold ivHour; omega
  cases style
  case iso8601 => exact C52_iso p a h hf junk hj
  all_goals
    unfold Interval.format
    rw [toPgtime_eq p h.2.2, if_pos hh, Res.bind_ok, ivTm_ivx]
  · exact (putPg_emits p ok).run (by rw [hj]; exact pgText_len ok)
  · exact (putVerbose_emits p ok).run (by rw [hj]; exact verboseText_len ok)
  · exact (putSql_emits p ok).run (by rw [hj]; exact sqlText_len ok)

example : (⟨-14, 3, -3723123456⟩ : Interval).WF ∧ HoursFit (-3723123456) ∧
    intervalText .iso8601 ⟨-14, 3, -3723123456⟩ = b!"P-1Y-2M3DT-1H-2M-3.123456S" ∧
    intervalText .sqlStandard ⟨-14, 3, -3723123456⟩ = b!"-1-2 +3 -1:02:03.123456" ∧
    intervalText .postgres ⟨-14, 3, -3723123456⟩ = b!"-1 years -2 mons +3 days -01:02:03.123456" ∧
    intervalText .verbose ⟨-14, 3, -3723123456⟩ =
      b!"@ 1 years 2 mons -3 days 1 hours 2 mins 3.123456 secs ago" := by
  decide +kernel

theorem run_panic {w : Bytes} {f : Buf → Res Buf} {k : Buf → Res Buf} (hf : Emits f w)
    (hk : ∀ b, k b = .panic) {junk : Bytes} (hj : w.length ≤ junk.length) :
    runFormat junk (fun b => f b >>= k) = .panic := by
  have := hf [] junk hj
  simp only [List.nil_append, List.length_nil] at this
  rw [runFormat, this, Res.bind_ok, hk]
  rfl

/-- **C52 does not hold for the smallest day count:** for `-2^31` days the SQL and verbose styles
panic on the negation in a debug build and print a second minus sign in a release build. -/
theorem C52_smallest_day (junk : Bytes) (hj : junk.length = 128) :
    (⟨0, -2147483648, 0⟩ : Interval).WF ∧ HoursFit 0 ∧
    (⟨0, -2147483648, 0⟩ : Interval).format .debug junk .sqlStandard = .panic ∧
    (⟨0, -2147483648, 0⟩ : Interval).format .debug junk .verbose = .panic ∧
    (⟨0, -2147483648, 0⟩ : Interval).format .release junk .sqlStandard =
      .ok b!"--2147483648 0:00:00" ∧
    (⟨0, -2147483648, 0⟩ : Interval).format .release junk .verbose =
      .ok b!"@ -2147483648 days ago" := by
  have e : ∀ p style, (⟨0, -2147483648, 0⟩ : Interval).format p junk style =
      runFormat junk (formatInterval p (ivx 0 (-2147483648) 0) style) := by
    intro p style
    unfold Interval.format
    rw [toPgtime_eq p (by decide), if_pos (by decide), Res.bind_ok, ivTm_ivx]
  refine ⟨by decide, by decide, ?_, ?_, ?_, ?_⟩
  · rw [e]
    exact run_panic (k := fun _ => .panic) (Emits.byte 45) (fun _ => rfl) (by simp [hj])
  · rw [e]
    have : formatInterval .debug (ivx 0 (-2147483648) 0) .verbose = fun b =>
        (setOneByte 64 b >>= setOneByte 32) >>= fun _ => .panic := by
      funext b
      rw [Res.bind_assoc]
      cases h1 : setOneByte 64 b with
      | ok b1 =>
        rw [Res.bind_ok]
        cases h2 : setOneByte 32 b1 with
        | ok b2 =>
          show (setOneByte 64 b >>= fun b => verbosePart .debug (-2147483648) b!"day" (true, false) b >>= _) = _
          rw [h1, Res.bind_ok, verbosePart, if_neg (by decide), h2]; rfl
        | err e =>
          show (setOneByte 64 b >>= fun b => verbosePart .debug (-2147483648) b!"day" (true, false) b >>= _) = _
          rw [h1, Res.bind_ok, verbosePart, if_neg (by decide), h2]; rfl
        | panic =>
          show (setOneByte 64 b >>= fun b => verbosePart .debug (-2147483648) b!"day" (true, false) b >>= _) = _
          rw [h1, Res.bind_ok, verbosePart, if_neg (by decide), h2]; rfl
      | err e => show (setOneByte 64 b >>= _) = _; rw [h1]; rfl
      | panic => show (setOneByte 64 b >>= _) = _; rw [h1]; rfl
    rw [this]
    exact run_panic ((Emits.byte 64).bind (Emits.byte 32)) (fun _ => rfl) (by rw [hj]; decide)
  · rw [e]
    have h1 := putInt_emits (v := -2147483648) (by decide)
    have h2 := sqlClock_emits .release (m := 0) (d := -2147483648) (t := 0) (by decide) (by decide)
    have t : b!"--2147483648 0:00:00" = [45] ++ (intText (-2147483648) ++ ([32] ++ sqlClockText 0)) := by
      decide +kernel
    rw [t]
    exact ((Emits.byte 45).bind (h1.bind ((Emits.byte 32).bind h2))).run (by rw [hj]; decide +kernel)
  · rw [e]
    have h1 := putInt_emits (v := -2147483648) (by decide)
    have t : b!"@ -2147483648 days ago" = [64] ++ ([32] ++ (intText (-2147483648) ++ ([32] ++
        (b!"day" ++ ([115] ++ ([] ++ b!" ago")))))) := by decide +kernel
    have : formatInterval .release (ivx 0 (-2147483648) 0) .verbose = fun b =>
        setOneByte 64 b >>= fun b => setOneByte 32 b >>= fun b => putInt (-2147483648) b >>= fun b =>
        setOneByte 32 b >>= fun b => copySlice b!"day" b >>= fun b => setOneByte 115 b >>= fun b =>
        copyIf false b!" 0" b >>= copyIf true b!" ago" := by
      funext b
      show (setOneByte 64 b >>= fun b => (setOneByte 32 b >>= fun b => putInt (-2147483648) b >>= fun b =>
        setOneByte 32 b >>= fun b => copySlice b!"day" b >>= fun b => setOneByte 115 b >>= fun b =>
        Res.ok ((false, true), b)) >>= fun x => copyIf x.1.1 b!" 0" x.2 >>= copyIf x.1.2 b!" ago") = _
      simp only [Res.bind_assoc, Res.bind_ok]
    rw [t, this]
    exact ((Emits.byte 64).bind ((Emits.byte 32).bind (h1.bind ((Emits.byte 32).bind
      ((Emits.slice b!"day").bind ((Emits.byte 115).bind ((copyIf_emits false b!" 0").bind
        (copyIf_emits true b!" ago")))))))).run (by rw [hj]; decide +kernel)

end Props
