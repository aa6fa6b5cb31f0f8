# Formal model of pgdatetime in Lean 4

## 1. What is modelled

The model is a function-by-function transcription of `/repo/src` into total,
computable Lean functions (`lean/Verif/Model/*.lean`). Every definition cites the
file and lines it models and says where it simplifies.

| model file | code | content |
|---|---|---|
| `Rust.lean` | – | results, integer widths, build profiles |
| `Model/Calendar.lean` | common.rs 40-110, 520-575 | Julian days, leap years, month lengths |
| `Model/PgTime.lean` | common.rs 110-520, timestamp.rs 528-560 | field record, validation, splitting and joining timestamps, truncation, ISO weeks |
| `Model/Types.lean` | date.rs, time.rs, timestamp.rs, interval.rs | the four types: arithmetic, comparison, conversion, justification, type modifiers, truncation, age |
| `Model/F64.lean`, `Model/Construct.lean` | date.rs/time.rs/timestamp.rs/interval.rs constructors, interval.rs 286-390 | binary64 arithmetic; constructors with `f64` seconds; `mul_f64`, `div_f64` |
| `Model/DatePart.lean` | `date_part` of the four types | field extraction |
| `Model/Bytes.lean`, `Model/Styles.lean`, `Model/Format.lean` | common.rs 20-35, 585-855, `format` of the four types | output into a 128-byte buffer |
| `Model/Token.lean` | token.rs, parse.rs 616-653, 2651-2685 | keyword tables, binary search, thread-local caches |
| `Model/Scan.lean` | parse.rs 60-397 | splitting a text into fields |
| `Model/Decode.lean` | parse.rs 400-2415 | numbers, dates, clock times, `decode_date_time`, `decode_time_only` |
| `Model/DecodeInterval.lean` | parse.rs 2417-3241 | `decode_interval`, `decode_iso8601_interval` |
| `Model/Parse.lean` | `try_from_str` of the four types | parsing entry points |
| `Model/Serde.lean` | serde.rs | serialisation and visitors |

How it is modelled:

* **Results.** A Rust call returns `Res α = ok a | err e | panic`. `err` carries the
  class of `DateTimeError` (`empty`, `invalid`, `overflow`), not its message text.
  `panic` stands for any Rust panic: integer overflow with overflow checks on,
  index out of bounds, failed `unwrap`.
* **Integers.** `i32`, `i64`, `u32`, `u8` values are Lean `Int`s (or `Nat` for bytes
  and indices); every operation of the source that can leave its type goes through
  a width check. The check takes the build profile `Profile`: `debug` (overflow
  checks on: out of range is `panic`) and `release` (two's-complement wrap).
  `wrapping_*` and `checked_*` are modelled as such in both profiles. `/` and `%`
  are `Int.tdiv` and `Int.tmod`, `as` casts between integers wrap. Theorems quantify
  over the profile unless they name one. The eight `debug_assert!`s of the source are
  not in the model, because they hold: that of src/parse.rs:2729 and those of
  src/date.rs:303 and src/timestamp.rs:571 by `C93_assertions`, the one of
  src/parse.rs:658 because every caller has just matched the byte, those of
  src/common.rs:739 and 795 because the arguments are literals; those of
  src/common.rs:23 and 32 fail only where the next line panics in every build.
* **f64.** `F64 = nan | inf sign | fin q` with `q` rational; every operation rounds the
  exact rational result to 53 bits, ties to even, with gradual underflow and overflow
  to infinity. Simplified: the sign of zero is not kept (no code of the crate observes
  it). Casts to integers saturate, NaN goes to 0 (Rust since
  1.45).
* **Output.** `MaybeUninit` buffers of 128 bytes are lists of bytes of arbitrary content
  `junk`; an index outside the buffer is `panic`. All text theorems quantify over
  `junk`.
* **Input.** A text is any list of bytes. Decoders are state monads over the `&mut`
  arguments, so that partial updates before an error are kept where the code keeps
  them (`decode_interval` followed by `decode_iso8601_interval`).
* **Uninitialised field type.** A field that is only a sign has an uninitialised type in
  the code (`MaybeUninit`); the model takes it as a parameter `u` and the theorems
  quantify over it.
* **Loops** are structural recursion, or fuel with a proof that the fuel is never
  exhausted.
* **Thread-local caches** are explicit state passed through the lookups; `tryFromStr`
  takes the caches of the thread, C42 shows they do not matter.
* **Serialisation.** A data format is represented by what it exchanges with the crate
  (`SerVal`, `DeVal`); the bytes a format crate makes of it are outside the crate.

Not modelled: the text of error messages and `Display`/`Debug`; `timezone.rs` (data
structures that no code reads); the time zone branches of the decoders, which all end
in an error (modelled as that error); `Hash`; `Copy`/`Clone`; memory layout; the
undefined behaviour of uninitialised memory as such (modelled as an arbitrary value);
the unit tests of the repository as code (their
vectors that exercise modelled functions are checked in `Tests/RepoVectors.lean`, except
src/interval.rs:1504, which expects the behaviour of float casts before Rust 1.45).

## 2. Trusted base

* The Lean 4.33.0 kernel and the logic it implements.
* Axioms: `#print axioms` of every theorem named in `MANIFEST.json` lists a subset of
  `propext`, `Classical.choice`, `Quot.sound`. No axioms of our own, no `sorry`, no
  `native_decide`, no `bv_decide`. `decide +kernel` is used on complete finite tables
  (months, keywords, 400-year cycle facts) and on concrete examples; it is evaluated by
  the kernel.
* The faithfulness of the transcription to `/repo/src`, established by reading and by
  the repository's own test vectors (`Tests/RepoVectors.lean`); the sandbox cannot run
  the Rust code.
* The specifications in `lean/Verif/Spec` say what the English properties mean.

## 3. Specification and layout

* `lean/Verif/Spec/*.lean` does not mention the model: leap rule, month lengths, real
  dates, calendar successor and day numbers, clock readings, ISO week dates, units and
  their starts, decimal numerals and the texts of each style, interval lengths, the
  meaning of numeric dates.
* `lean/Verif/Lemmas/*.lean` are helper lemmas, `lean/Verif/Props/*.lean` the property
  theorems `Props.Cnn_…`, each with an `example` of a concrete case next to it.
* Theorems `…_partial` prove a part of a property; theorems `…_violated` (or with a
  descriptive name) prove that the code breaks the rest, with a concrete input.
* `seeded/LOG.jsonl` records the wrong programs the theorems were tested against.
  There `theorems_failed` lists the theorems whose proof no longer goes through after the
  edit, either itself or through a lemma it uses. A failing proof does not by itself show
  that the theorem has become false, so the list can be longer than the set of claims the
  edit breaks; a theorem of the broken claim missing from it is the sign of a weak one.

## 4. Plan and status per property

`Props.` is left out of the theorem names. What is missing from a partial property is
said in `MANIFEST.json` and in section 5.

| id | modelled | proved by | status | theorems |
|---|---|---|---|---|
| C01 | `Date.tryFromYmd`, `validateDate`, `date2julian` | case analysis against the calendar spec; the year `i32::MIN` panics in debug builds (witness) | partial | `C01_partial`, `C01_release`, `C01_debug_panics` |
| C02 | `date2julian` | day count equals `date2julian` for all fields; successor step of the spec | proved | `C02` |
| C03 | `julian2date` | uniqueness of the day number, 400-year cycle arithmetic | proved | `C03_fields_of_ymd`, `C03_ymd_of_fields` |
| C04 | `Date.addDays`, `subDays` | linear arithmetic | proved | `C04_add_sub_days`, `C04_sub_undoes_add`, `C04_infinite_and_total` |
| C05 | `Date.subDate` | linear arithmetic | proved | `C05_difference`, `C05_infinite` |
| C06 | `Timestamp.ofDate`, `Date.ofTimestamp` | linear arithmetic and C08 | proved | `C06_date_to_timestamp`, `C06_is_midnight`, `C06_infinities`, `C06_monotone` |
| C07 | `Date.ofTimestamp`, `Time.ofTimestamp`, `Date.addTime` | floor division by a day, C03 | proved | `C07_split_join`, `C07_infinite` |
| C08 | `timestamp2time`, `PgTime.toTimestamp` | division lemmas, C03; order through day numbers | proved | `C08_fields`, `C08_order` |
| C09 | `Time.tryFromHms`, `Timestamp.tryFromYmdHms`, `F64` | cases on the checks; rounding error of seconds times 10^6 bounded below one half | partial | `C09_time`, `C09_time_range`, `C09_time_infinite`, `C09_exact_micros`, `C09_time_nan_violated`, `C09_timestamp`, `C09_timestamp_nonfinite` |
| C10 | `Timestamp.addMonths` | month arithmetic, C03, C08 | proved | `C10_add_months` |
| C11 | `Timestamp.addDays` | C08; below the range the 32-bit wrap of julian2date is followed through the whole computation (Lemmas/DayWrap), which gives the result of both builds for every target day | partial | `C11_partial`, `C11_violated_debug`, `C11_violated_release`, `C11_release`, `C11_debug` |
| C12 | `Timestamp.addInterval` | unfolding against separately specified steps; the time step is characterised with its wrap around 2^64 | partial | `C12_steps`, `C12_ok_valid`, `C12_zero_and_infinite`, `C12_time_step_partial`, `C12_violated`, `C12_time_step_exact` |
| C13 | `Timestamp.subInterval` | C12 and negation | proved | `C13_sub_is_add_neg`, `C13_add_then_sub` |
| C14 | `subTimestamp`, `justifyHours` | linear arithmetic; pairs too far apart have their own theorem | partial | `C14_partial`, `C14_infinite`, `C14_violated`, `C14_overflow` |
| C15 | `Interval.addInterval`, `subInterval`, `negate` | linear arithmetic | proved | `C15_exact_or_overflow`, `C15_group_laws` |
| C16 | `justifyHours` | division lemmas | proved | `C16_no_panic`, `C16_justify_hours`, `C16_wraps_beyond_hypothesis` |
| C17 | `justifyDays` | division lemmas | proved | `C17_no_panic`, `C17_justify_days` |
| C18 | `justifyInterval` | division lemmas; uniqueness of the canonical form | proved | `C18_no_panic`, `C18_justify_interval`, `C18_canonical`, `C18_idempotent` |
| C19 | `Interval.cmp`, `partialCmp` | order on the length; `Equal` without `==` is a witness | partial | `C19_partial`, `C19_eq_inconsistent` |
| C20 | `Time.addInterval`, `subInterval` | modular arithmetic | proved | `C20_total`, `C20_modular`, `C20_sub_undoes_add` |
| C21 | `Time.ofInterval`, `Interval.ofTime` | modular arithmetic; the i64::MIN end has its own theorem | partial | `C21_partial`, `C21_round_trip`, `C21_violated`, `C21_overflow` |
| C22 | `adjustByTypmod` of three types | rounding spec `Nearest`; top of the range is a witness | partial | `C22_nearest_laws`, `C22_time`, `C22_timestamp_partial`, `C22_violated`, `C22_interval`, `C22_interval_bad_precision` |
| C23 | `Interval.adjustRange` | complete case analysis of the range codes | proved | `C23_field_range` |
| C24 | `Timestamp.truncate` | spec of unit starts; weeks in late December are a witness, with the exact answer of the code there | partial | `C24_start_of_unit`, `C24_idempotent_monotone`, `C24_week_partial`, `C24_week_exact`, `C24_week_violated` |
| C25 | `Timestamp.truncate` twice | from C24: starts of nested units | proved | `C25_absorb`, `C25_nested`, `C25_absorb_week` |
| C26 | `truncate` of Date, Time, Interval | division lemmas, C24; three witnesses | partial | `C26_interval_partial`, `C26_interval_idempotent_partial`, `C26_interval_violated`, `C26_time_partial`, `C26_time_violated`, `C26_date`, `C26_infinity_violated` |
| C27 | `dateToIsoWeek`, `dateToIsoYear`, `partDow` | Thursday spec of ISO weeks | proved | `C27_iso_week_date`, `C27_unique` |
| C28 | `partDow`, `partDoy` | day numbers modulo 7; day of the year by the spec's month lengths | proved | `C28_dow`, `C28_doy` |
| C29 | `partQuarter`, `partCentury`, … | division lemmas | proved | `C29_fields`, `C29_constant_on_units` |
| C30 | `age` | bounded borrow loops unrolled, cases on signs | proved | `C30_signed_antisymmetric`, `C30_months_and_recover`, `C30_borrow`, `C30_recover_needs_no_borrow`, `C30_added_back`, `C30_recover_iff` |
| C31 | `pgLtostr`, `pgLtostrZeropad` | induction on digits, swap-loop invariant | proved | `C31_int`, `C31_canonical`, `C31_padded` |
| C32 | `appendSeconds` | induction on the six fraction digits | proved | `C32` |
| C33 | `formatDate` | C31; injectivity of padded decimals | proved | `C33_text`, `C33_injective` |
| C34 | scanner, `decodeDate`, `Date.ofDec` on formatted text | symbolic run on digit lists; witnesses for the combinations that fail | partial | `C34_partial`, `C34_german_mdy_violated`, `C34_ymd_violated`, `C34_postgres_dmy_violated` |
| C35 | scanner, `decodeTimeOnly` | symbolic run; float reading of six digits is exact after rounding | proved | `C35` |
| C36 | scanner, `decodeDateTime` | symbolic run; witnesses for the combinations that fail | partial | `C36_partial`, `C36_every`, `C36_february_violated`, `C36_german_mdy_violated`, `C36_ymd_violated` |
| C37 | scanner, `decodeInterval`, `decodeIsoInterval` | symbolic run in each style; witnesses for the rest | partial | `C37_partial`, `C37_style`, `C37_iso_violated`, `C37_minutes_violated` |
| C38 | `serBin`, `visit`, `visitSeq`, `visitMap` | permutations of the three map entries; every error case | proved | `C38`, `C38_map`, `C38_seq`, `C38_errors` |
| C39 | `serText`, `visit` | C34-C37, C40 | partial | `C39_date`, `C39_time`, `C39_timestamp`, `C39_interval_partial`, `C39_interval_violated` |
| C40 | `format` and parsing of the infinities | scanner run on any letter case; finite texts start differently | proved | `C40_output`, `C40_finite`, `C40_input` |
| C41 | keyword tables, binary search | tables sorted (kernel evaluation of the complete table), search invariant | proved | `C41_date_keyword`, `C41_interval_unit`, `C41_one_meaning`, `C41_month_names`, `C41_weekday_names`, `C41_unit_names`, `C41_month_abbreviations` |
| C42 | caches | simulation: cache entries always come from the table | proved | `C42_history_invisible` |
| C43 | `scan` | induction over the text | partial | `C43_fields_partial`, `C43_not_lower_cased`, `C43_long_text` |
| C44 | all of the parser | predicates `Calm`/`Keeps` propagated through the decoders; for every build an invariant on the year and the day of the year (`Sound`), with the numbers of the scanner shown to be runs of digits of the text; for intervals bounds on every field, by the units already seen (`Before`, `After`) and by the bytes already read (`IsoLim`), kept also when the first decoder fails; witnesses for the panics | partial | `C44_time_partial`, `C44_interval_partial`, `C44_date_partial`, `C44_timestamp_partial`, `C44_date_debug_partial`, `C44_time_debug_partial`, `C44_timestamp_debug_partial`, `C44_interval_debug_partial`, `C44_long_violated`, `C44_t_violated`, `C44_date_violated`, `C44_time_violated`, `C44_timestamp_violated`, `C44_interval_violated`, `C44_millennia_violated`, `C44_bc_violated` |
| C45 | `Date.ofDec`, `Timestamp.ofDec`, `decodeTimeOnly` | range checks at the end of the decoders; witnesses | partial | `C45_date`, `C45_timestamp_partial`, `C45_time_partial`, `C45_time_violated`, `C45_timestamp_violated`, `C45_unnamed_day`, `C45_wrapped_year` |
| C46 | `decodeTime`, `badTimeOnly`, `str2d`, the scanner and the field loops | symbolic run on any clock text; for a bad clock time in any text, the scanner lemma for words and an invariant of the field loop | partial | `C46_time_partial`, `C46_time_exact`, `C46_time_long`, `C46_timestamp_partial`, `C46_anywhere_date`, `C46_anywhere_time`, `C46_anywhere_interval` |
| C47 | `mulF64`, `divF64` | exactness of small integers, rounding bounds; witnesses | partial | `C47_mul_int`, `C47_mul_one`, `C47_mul_zero`, `C47_mul_nonfinite`, `C47_mul_overflow`, `C47_mul_length_partial`, `C47_mul_panics`, `C47_mul_clamps`, `C47_div_int`, `C47_div_length_partial`, `C47_div_one`, `C47_div_zero`, `C47_div_violated`, `C47_release_no_panic` |
| C48 | `Interval.toPgtime`, `datePart` | division lemmas | partial | `C48_fields`, `C48_overflow`, `C48_format` |
| C49 | conversions, comparisons | direct, C08 | proved | `C49_conversions`, `C49_chronological`, `C49_infinities`, `C49_time_chronological` |
| C50 | `Interval.tryFromYmwdHms` | rounding bounds, wrap arithmetic | proved | `C50_construct`, `C50_rejects` |
| C51 | `Time.format`, `Timestamp.format` | C31, C32, C08, C28 for weekday names | proved | `C51_time`, `C51_timestamp` |
| C52 | `Interval.format` | C31, C32; case analysis on signs in each style | partial | `C52_iso`, `C52_text`, `C52_smallest_day` |
| C53 | `Interval.fieldPart` | division lemmas | proved | `C53_larger_units` |
| C54 | `Time.datePart`, `Timestamp.datePart` | division lemmas, rounding bounds | proved | `C54_time`, `C54_timestamp`, `C54_infinite` |
| C55 | `datePart` with `Epoch` | rounding bounds of the four-term sum | partial | `C55_time_partial`, `C55_interval_partial`, `C55_timestamp_unsupported` |
| C56 | scanner, `decodeDate`, `validateDate` | symbolic run on any three digit strings | proved | `C56_numeric_date`, `C56_two_digits` |
| C57 | `Date.addTime`, `Date.addInterval`, `Timestamp.addTime`, `subTime`, `subDate`, `Time.subTime` | C06, C12, C13, C14 | partial | `C57_date_time`, `C57_date_infinite`, `C57_timestamp_time`, `C57_date_interval`, `C57_timestamp_date_partial`, `C57_time_time`, `C57_timestamp_date_overflow` |
| C58 | `decodeTimeOnly`, `decodeDateTime`, `finishFields`, the date keywords | the text is split symbolically (`scans_mer`), the fields decoded one at a time (`timeOnly_mer`, `run_day_mer`) and the hour compared with `hour24` | proved | `C58_time`, `C58_timestamp` |
| C59 | `decodeNumberField`, `decodeNumber`, `numberToken`, `numberTokenT`, `labelled`, `decodeTime`, the scanner | each form is decoded symbolically (`field_dayText`, `field_clock`, `fieldT_clock`), the text is split symbolically (`scan_form`), and one theorem per type puts them together (`timestamp_form`, `date_form`, `time_form`) | partial | `C59_time`, `C59_date`, `C59_date_clock`, `C59_timestamp_day`, `C59_timestamp_exact`, `C59_timestamp_partial`, `C59_timestamp_violated` |
| C60 | `intervalLoop`, `intervalNumber`, `addUnit`, `carryFsec`, `sqlSign`, `negateAll`, `deltaTable`, the scanner | induction over the quantities from the last to the first keeps the totals, bounds on their absolute values and the mask (`qs_runs`, `addUnit_whole`); the text is split by `scans_quantities` | proved | `C60_quantities` |
| C61 | the scanner, `decodeDate`, `textPass`, `numPass`, `decodeNumberVal`, `numberToken`, `dateTimeField` | `ReadsDay` says that a list of fields is read as a given year, month and day in every context; `timestamp_any` and `date_any` prove the rest of the decoding from it once for all; `reads_first`, `reads_middle_*` and `reads_joined` establish it for the layouts, `scan_month` splits the text; `field_long` and `month_long_loop` treat numbers of six or more digits, which are taken for a whole date and clash with the month | partial | `C61_date_exact`, `C61_timestamp_exact`, `C61_date_partial`, `C61_timestamp_partial`, `C61_long`, `C61_violated`, `C61_long_violated` |
| C62 | the scanner, `labelled`, `labelAssign`, `labelJulian`, `wordAction`, `validateDate` | `ReadsDate` generalises `ReadsDay` to days checked in any way; `timestamp_anyDate` and `date_anyDate` prove the rest once; each label is one step (`loop_label`), the six orders are cases on the state after three steps | proved | `C62_date`, `C62_timestamp`, `C62_julian_date`, `C62_julian_timestamp` |
| C63 | the whole scanner, `dateTimeField` and `timeOnlyField` with all their branches, `decodeDate`, `addMask` | `Post m Q s` (what holds if `m` succeeds) with one rule per constructor; `field_mask`: no field removes a mask bit; `clock_claims`, `word_claims`, `month_claims`, `date_claims`: a recognised field sets its bits and is refused if they were set, the last using the invariant `Added`; `scanLoop_within`: the scanner always reaches what follows a blank; `mark_scan`: the field of a recognisable word | proved | `C63_date`, `C63_timestamp`, `C63_time`, `C63_months` |
| C64 | scanner | relation between texts with the same words kept by every scanner function | partial | `C64_partial`, `C64_interval_partial`, `C64_full_stop_violated`, `C64_iso_violated` |
| C65 | scanner | every byte consumed belongs to a printable class | proved | `C65` |
| C66 | scanner, `decodeDate`, `dateToken`, `intervalNumber` | scanner commutes with lower-casing; two words in one date field are always an error | partial | `C66_dates`, `C66_interval_partial`, `C66_iso_violated` |
| C67 | `tryFromStr` of the three types, `adjustByTypmod` | the three readers end in `adjustByTypmod` (`time_typmod` etc.), to which C22 applies; C45 bounds what was read | proved | `C67_time`, `C67_timestamp`, `C67_interval` |
| C68 | `rangeUnit`, `parseRange`, `intervalNumber`, `adjustRange` | `lone_runs` and `lone_sql` decode one number; `quantities_typmod` is C60 before `adjustByTypmod`; C23 says what the range clears | proved | `C68_number`, `C68_seconds`, `C68_quantities` |
| C69 | the scanner, `decodeDate`, `numPass`, `decodeNumberVal`, `numberToken`, `validateDoy` | the fields lead to a state with the day-of-year bit (`loop_doy`); `validateDate_doy` shows by the theorem on Julian days (`j2dCore_spec`) that the final check gives the day with the right number; the rest is `date_anyDate` and `timestamp_anyDate` | partial | `C69_date_partial`, `C69_timestamp_partial`, `C69_violated`, `C69_point_violated` |
| C70 | the scanner, `numberParts`, `str2d`, `addUnit`, `adjustFractSeconds`, `adjustFractDays`, `decodeInterval` | each floating-point step is bounded by `rnd_within`; seven digits keep a product at least 10^-7 away from whole numbers unless it is whole, and the whole cases are the tenths of a month and quarters of a year, evaluated by the kernel (`frac_days`, `frac_months`); seconds and microseconds together are a whole number within one of the exact one (`adjustFractSeconds_near`); `fs_runs` is the induction over the quantities | partial | `C70_fractions_partial`, `C70_violated` |
| C71 | the scanner, `numberParts`, `yearMonth`, `addUnit`, `decodeTime`, `decodeInterval`, `sqlSign` | `puts_quantity`, `puts_months` and `puts_clock` say what one part does to the fields and the mask, or that it is an error; `parts_runs` is the induction over the parts, read from the end; the masks are disjoint exactly if the units are (`partsMask_apart`) | partial | `C71_parts_partial`, `C71_violated` |
| C72 | `decodeInterval` with `sqlSign`, `forceNegative`, `carryFsec`, `addUnit`, the scanner, keyword tables | `addAll`: the exact fields after the quantities; `addAll_total`: each field is the sum over its units; `forced`: with nothing else in the field of the first unit, making all fields negative gives minus the sums without signs; `sqlSign_force`: the rule applies | partial | `C72_partial`, `C72_violated` |
| C73 | the scanner, `decodeInterval` (which refuses the text), `isoLoop`, `isoNumber`, `parseIsoNumber`, `isoDate`, `isoTime`, `adjustFractSeconds`, `adjustFractDays` | `isoItem_number` reads a number, `isoAdd_any` says what one unit adds to the fields, `items_go` is the induction over the items, `isoDate_run` and `isoTime_run` treat the three notations, `iso_scan` and `iso_interval_run` put them behind the scanner and the failed ordinary reading | proved | `C73_iso`, `C73_rejected`, `C73_rejected_time`, `C73_months_unlike_words` |
| C74 | the whole scanner, `dateTimeField`, `timeOnlyField`, `intervalField`, the keyword tables, searches and caches | `scan_unknown`, `scan_zone`: the scanner always produces the word's own field; `lookup_known`: what the table search finds has the first ten letters of the word; `dateTable_words` etc.: all entries outside the vocabulary are of a refused kind (complete table); `decode_never`, `decode_neverT`, `decode_neverI`: one refused field makes the whole decoder refuse | proved | `C74_date`, `C74_time`, `C74_interval`, `C74_dangling`, `C74_overruled` |
| C75 | `labelled`, `labelAssign`, `numberToken`, `numberTokenT`, `wordAction`, `wordActionT`, `finishFields`, `badTimeOnly`, `time2t`, the scanner | `loop_parts`, `loopT_parts`: induction over the parts, the masks of the labels still to come stay free (`MaskFor`); `parts_clock`: the fields are the numbers found by label; then as for days and clock times of C59 (`run_anyDate`, `timestamp_ofDec`) | partial | `C75_time`, `C75_timestamp_exact`, `C75_timestamp_partial`, `C75_labels_partial`, `C75_date_partial`, `C75_violated` |
| C76 | `labelled`, `labelJulian`, `str2d`, `date2time`, `F64` multiplication and conversion, `finishFields`, the scanner | `julianMicros_near`: error bounds of two roundings, then the integer part (`toI64_floor`); `julianMicros_exact`: both roundings are exact (`rnd_exact_lt`, `rnd_of_int`); `julian_dateState` and `run_anyDate` for the final check | partial | `C76_timestamp_partial`, `C76_exact`, `C76_date`, `C76_time_partial`, `C76_long`, `C76_clock`, `C76_violated` |
| C77 | the scanner, `dateTimeField` and all token decoders, `finishFields`, `Date.ofDec`, `Timestamp.ofDec`, `Timestamp.adjustByTypmod` | `scan_each`: every field with the place of the text it comes from; `field_kind_cases`: what each kind of field does to the kind of the value, the pending label and the mask; `loop_all` carries the invariants `NamedKind`, `Late`, `Wordy` over all fields; `decode_kind`, `date_kind` and `timestamp_kind` link them to the value | partial | `C77_only`, `C77_word`, `C77_noDigits`, `C77_violated` |
| C78 | `Timestamp.addInterval`, `Interval.addInterval` | `C78_lands` joins C10, C11 and C12 into one statement with its own calendar function; `addMonths_le` and `addMonths_add` are the calendar facts about clamped months | proved | `C78_lands`, `C78_order`, `C78_months`, `C78_reversed`, `C78_sum`, `C78_months_sum`, `C78_month_end` |
| C79 | `Date.format`, `Timestamp.format`, `Time.format` and the writers they use | `digits_lt`: digits of equal length sort like their values; `strip_lt`: cutting zeros at the end keeps the order; `dayText_lt` and `clockText_lt` go through the fields from left to right; with C33 and C51, which say what the text is | proved | `C79_date`, `C79_timestamp`, `C79_time`, `C79_years` |
| C80 | `decodeTimeOnly` with a date field, `Time.tryFromStr` | `finish_anyDate` shares the end of both decoders; `time_day`, `time_day_refused`, `time_clock_day` and `time_compact_refused` run the decoder on the fields of each form; `C80_sum` compares with the theorems behind C59 | proved | `C80_time`, `C80_sum`, `C80_timestamp`, `C80_refused` |
| C81 | `Interval.cmp` with the interval and timestamp arithmetic | every operation is shown to shift, flip or scale `spanMicros`, the length that `cmp` compares | proved | `C81_arithmetic`, `C81_justify`, `C81_multiples`, `C81_steps`, `C81_steps_months`, `C81_differences`, `C81_age_violated` |
| C82 | `Timestamp.format` with the two parsers and the two conversions | the text is split into a printed day and a printed clock time, which are read with the theorems behind C59 and C80; the Postgres style goes through the field loop of C36, and its weekday name is refused as the first field of a time of day | partial | `C82_date_partial`, `C82_time_partial`, `C82_time_violated` |
| C83 | `Date.tryFromStr`, `Timestamp.tryFromStr` with the whole of `decodeDateTime` | an invariant of the field loop, kept by every step also when the step fails and its error is ignored: hours, minutes and seconds are not negative and at most 99, microseconds at most a million; no label of a clock field is pending. It rests on what the scanner calls a number (digits and points, or a lone sign) and on the bounds of fractions (C76) | partial | `C83_agree`, `C83_infinite`, `C83_debug`, `C83_late`, `C83_violated` |
| C84 | `Interval.tryFromStr`, `decodeInterval`, `sqlSign` | the decoder is cut before the rule for signs; what comes before does not mention the style. A text without the byte 45 has no token that begins with it, by an induction over the scanner | partial | `C84_styles`, `C84_noMinus`, `C84_sql_partial`, `C84_violated` |
| C85 | `Date.tryFromStr`, `Timestamp.tryFromStr`, `decodeDateTime` with all its parts, `PgTime.validateDate` | a relation between the states of two runs: equal, or with month and day exchanged both in the fields and in the masks; it is kept by every token that both runs accept, or else the masks collide. A second invariant says that the day is zero until it is named | proved | `C85_date`, `C85_timestamp`, `C85_violated` |
| C86 | `Interval.tryFromStr`, `scan`, `decodeInterval` with all its parts, `decodeTime`, `decodeIsoInterval`, `parseRange`, `Interval.adjustByTypmod` | the range is used in two places: for a number whose unit is not known, and for a clock time without seconds. The last field is decoded first; if it is a word, a clock time or years-months, then every later number has a unit, so the runs agree. If the last field fails under both ranges, the states left behind agree in all that the ISO decoder uses. The scanner gives a last field that ends in a letter if the text does | proved | `C86_first`, `C86_second`, `C86_word`, `C86_parts`, `C86_minutes` |
| C87 | `Timestamp.addInterval`, `subInterval`, `addTime`, `subTime`, `subTimestamp`, `subDate`, `age`, `truncate`, `datePart`, `format`, and the same of `Date`, `Time`, `Interval` with the conversions | each method is shown not to reach an overflowing operation, a failed `unwrap` or an index out of range, from the bounds on the calendar fields of a valid value; in a release build arithmetic wraps, so only the explicit panics count. In the other direction the overflowing operation is exhibited: `julian2date` overflows on exactly the 120296 days before day 0, and the week that contains 29, 30 or 31 December 4714 BC is looked up in the year before (the same fault as in `C24_week_violated`), whose Julian day is negative. For printing, every part of the text is either shown to fit the 128 bytes whatever the buffer holds, or to panic there (`Prints` and `Breaks` in Lemmas/FormatPrints) | partial | `C87_time`, `C87_timestamp_partial`, `C87_date_partial`, `C87_interval_partial`, `C87_timestamp_panics`, `C87_interval_panics`, `C87_mul`, `C87_div`, `C87_truncate_panics`, `C87_format_panics` |
| C88 | Timestamp::truncate, Timestamp::add_interval (Model/Timestamp) | Month addition and truncation both act on the calendar day of the spec; the start of the unit is unique, so truncation is moved over the addition by integer arithmetic on years and months; days and durations by division with remainder of the instant. | partial | `C88_months`, `C88_days`, `C88_clock`, `C88_weeks_partial`, `C88_weeks_violated` |
| C89 | All public operations giving a Date, Time or Timestamp (Model/Date, Time, Timestamp, Parse), as constructors of the inductive predicate Made | Induction over the way a value was made; each operation's result bounds from C45, C20, the truncation lemmas and the calendar arithmetic, extended to the one instant past the range. No-panic part: C87 for values in range, direct calculation for the instant just after and times up to 48 hours. | proved | `C89_range`, `C89_violated`, `C89_no_panic` |
| C90 | Interval::try_from_str, decode_interval, decode_time (Model/DecodeInterval, Parse) | The scanner and the field steps of C71 give the exact fields of a literal; making all fields negative turns each of them, because every field is written once. The other styles are C71. | proved | `C90_sql`, `C90_others` |
| C91 | Timestamp::truncate, Timestamp::date_part, Time::truncate, Time::date_part (Model/Types, DatePart) | The fields of the truncated timestamp are the truncated fields (C24); calendar fields follow from the definitions of the periods (C29), week fields from the uniqueness of ISO week dates (C27). C91_only gives for every other pair a timestamp on which the field changes. | partial | `C91_kept`, `C91_start`, `C91_only`, `C91_micros`, `C91_week_partial`, `C91_week_violated`, `C91_time` |
| C92 | `Err` has the three kinds of src/error.rs; the texts inside `Empty` and `Invalid` are not modelled. | `C92_empty` shows by going through the decoders that none of them fails with `Empty`, in any state, so that only the first line of `parse_date_time` can (`Full` in Lemmas/ErrKinds.lean). The other theorems go through the arithmetic with `Res.Only`, "no other error than". The part about ranges is false: `Date::sub_days` answers `Invalid` where `Date::add_days` answers `Overflow`, and so does `Timestamp::add_interval` (`C92_range_violated`). | partial | `C92_empty`, `C92_constructors`, `C92_interval`, `C92_fields`, `C92_days`, `C92_range_violated` |
| C93 | Every function of the model takes the build as a parameter and uses it only in the width checks; `Res.Le`, `St.Le` and `De.Le` in Lemmas/Builds.lean relate the two builds of each of the 208 functions that depend on it. | The relation "panics or is the same" is shown for the width checks and carried through sequencing, branches, loops (by induction) and the parser's state, for each function of the model in turn. | proved | `C93_constructors`, `C93_parse`, `C93_format`, `C93_date`, `C93_time`, `C93_timestamp`, `C93_interval`, `C93_serde`, `C93_assertions`, `C93_condition_needed` |
| C94 | `Timestamp.age`, `Timestamp.subInterval`. | The months, days and microseconds of the age are those of `AgeOf`; the month step of C10, the day step of C11 and the time step of C12 are applied to their negatives. That there is no result in a debug build either if there is none in a release build is C93. | proved | `C94_subtracted`, `C94_back_iff`, `C94_back`, `C94_violated` |
| C95 | The visitors of `src/serde.rs`; the defaults of the serde library (a 32-bit integer reaches `visit_i64`, a 64-bit one does not reach `visit_i32`; unsigned integers, which some formats show for positive numbers, are refused). | By cases on what the deserializer shows; texts by C45. | partial | `C95_text_partial`, `C95_kinds`, `C95_binary_violated` |
| C96 | `datePart` of timestamps, times and intervals | C27, C28, C29, C48, C54 and linear arithmetic; for the Julian day, that rounding to binary64 keeps order (Lemmas/F64Mono) | proved | `C96_timestamp`, `C96_doy`, `C96_iso`, `C96_time`, `C96_interval`, `C96_counts`, `C96_julian` |
| C97 | `Date.ofTimestamp`, `Time.ofTimestamp`, and the arithmetic, fields, truncation and text of the three types | C04, C06, C07, C10-C12, C20, C24, C26, C33, C51, C54; weeks by comparing the two runs of the code | proved | `C97_order`, `C97_fields`, `C97_truncate_clock`, `C97_truncate_calendar`, `C97_add_days`, `C97_add_months`, `C97_add_micros`, `C97_text` |
| C98 | the scanner, `dateTimeLoop`, `timeOnlyLoop`, `finishFields`, `Date.ofDec` | invariant of the field loop: once year, month and day are set, every later field keeps them or claims one of them again and is refused; C56 and C77 give the day and the words; the era is set by the words ad and bc only, once | proved | `C98_date`, `C98_timestamp`, `C98_timestamp_value`, `C98_time` |
| C99 | the scanner, `dateTimeLoop`, `decodeNumber`, `finishFields`, `Date.ofDec`, `Timestamp.ofDec` | each word acts on the record of fields by a partial update that is chosen by the date bits of the mask, the month and the flag for a month name; the updates of the words that move commute with all others (all pairs of updates); the last mask, the only thing in which the runs differ, has no influence on the rest. Before a date in one word: bits of the mask are never lost, and `decode_date` refuses foreign bits | proved | `C99_date`, `C99_timestamp`, `C99_refused_before_date`, `C99_six_digits` |
| C100 | `Date.format`, `Time.format`, `Timestamp.format`, `Interval.format` | from the texts of C33, C40, C51 and C52: runs of digits, signs and units can be split off from the left in only one way; an omitted field cannot be mistaken since the next piece never starts with a number followed by the unit of the omitted one; `ago` is recognised by the last byte | proved | `C100_date`, `C100_time`, `C100_timestamp`, `C100_interval` |
| C101 | `scan`, `decodeDateTime`, `decodeTimeOnly`, `decodeTime`, `finishFields`, `Timestamp.ofDec` | the two texts are split at the same places; after the clock time the mask of the time is full, so that every later field that touches the clock fails in both runs and all other fields commute with overwriting the clock; the end of the decoding treats both hours alike; the value is then compared by the exact sums of C75 | proved | `C101_date`, `C101_time`, `C101_timestamp` |
| C102 | `scan`, `decodeDateTime`, `decodeTimeOnly`, `decodeDate`, `finishFields`, `PgTime.validateDate`, `Date.ofDec`, `Timestamp.ofDec` | the two texts are split at the same places; after the date its mask is full, so that every later field that touches the date fails in both runs and all other fields commute with overwriting the date; the end of the decoding checks the new numbers exactly as `inputDay` says; the values follow from the exact results for decoded dates | proved | `C102_date`, `C102_time`, `C102_timestamp` |
| C103 | `Date` and `Timestamp` arithmetic, conversion, `truncate`, `age` | case distinction on the infinity; the complete table of units for truncation; C30 in its wide form for ages; C06, C12, C14 and C22 for finite values | partial | `C103_timestamp`, `C103_date`, `C103_difference`, `C103_finite`, `C103_truncate_exact`, `C103_age_exact`, `C103_violated` |
| C104 | `Interval::try_from_str` with both decoders, `add_interval` | the scanner splits the text at the space; two runs of the decoder loop on the fields of the first text, one from the start and one from the state the second text leaves, keep the difference of the states; bounds of C44 for the carry of the microseconds; C93 and C84 for release builds and the SQL style | partial | `C104_sum_partial`, `C104_add_partial`, `C104_swap_partial`, `C104_violated`, `C104_conditions` |
| C105 | `scan`, `dateSplit`, `isoLoop`, `binarySearch`, `posDigits`, `negDigits`: all definitions that are recursive in a number of rounds except the borrow loop of `age`, whose bound is covered by C30 | each round leaves a shorter rest (or a smaller number); induction on the bound | proved | `C105_scan`, `C105_date`, `C105_iso`, `C105_search`, `C105_digits`, `C105_bound_needed` |
| C106 | `Interval::try_from_str` with both decoders | ago is the last field and the first one decoded: it sets the flag and the unit, and the word before it sets the unit again; the two runs over the other fields agree in the numbers; what follows the loop (carry, SQL sign) is the same, then all numbers are negated | partial | `C106_debug`, `C106_ago_partial`, `C106_violated`, `C106_conditions` |
| C107 | both decoders with `decode_time`, `decode_number`, the am/pm rule and the final conversions | after the clock time every field that would set the hour, minute or second again is refused by the mask; a field without a decimal point leaves the fraction; the half of the day is only set by the words am and pm, once, and stays as it is set | partial | `C107_timestamp_partial`, `C107_time`, `C107_violated` |
| C108 | the scanner, `dateTimeLoop`, `timeOnlyLoop`, `finishFields` and the final conversions | the scanner gives the fields of the text and one more; the fields before it do not see the additional type, since a word at the end is no time and no date; the weekday and the bits of the weekday and the era are not looked at in the end | proved | `C108_date`, `C108_timestamp`, `C108_time`, `C108_time_weekday` |
| C109 | `mulF64`, `divF64`, `cascade`, `carryDays`, `timestampRound`, the float operations | every float operation of the model commutes with the change of sign; casts do where they are not clamped, and the carried parts are small | proved | `C109_signs`, `C109_product`, `C109_product_inside`, `C109_quotient`, `C109_ends` |
| C110 | `negate`, `toPgtime`, `fieldPart`, `epochPart`, `truncate`, `adjustByTypmod`, the three `justify` functions, `cmp` | the fields by the symmetry of the float operations and of division towards zero; the other results because the specifications of C16 to C18, C22, C23 and C26 determine them uniquely and are symmetric | proved | `C110_fields`, `C110_quarter`, `C110_truncate`, `C110_typmod`, `C110_justify`, `C110_order` |
| C111 | the scanner, `dateTimeLoop`, `timeToken`, `finishFields`, `validateDate` and the final conversions | the fields of the first text are decoded in the same way with a clock time behind them, since only the word `t` looks at the next field and it panics at the end of a text; the clock time changes the clock fields and bits only, on which `validateDate` does not depend; the hour and the microseconds are C107 | proved | `C111_timestamp`, `C111_date` |
| C112 | the scanner, `dateTimeLoop`, `numberToken`, `decodeNumber`, the words, `finishFields` | an invariant of the loop on the set of fields found: before the number only the month, by its name; after it at most one more of year, month and day, never hour and minute together; `finishFields` refuses such a set | partial | `C112_partial`, `C112_violated` |
| C113 | the scanner, the tables, all decoders | the two texts are split into the same fields but one, for work areas large enough for both; that field is used only through the lookup in the table, which gives the same entry | partial | `C113_day_partial`, `C113_unit`, `C113_violated` |
| C114 | Timestamp.addInterval with months only, Timestamp.subInterval (src/timestamp.rs). | Every step moves the month count by its number and the day of the month never rises and never sinks below the smaller of the first day and 28 (monthSteps_day, induction over the list). The range begins on a 24th and ends with a month, so it does not separate such days of one month (month_in_range). C10 gives the single steps. | proved | `C114_steps`, `C114_possible`, `C114_there_and_back` |
| C115 | All four format methods with the buffer as it is in the code: every write is an indexed write, the old content is a parameter. | The functions are run on two buffers in step (Twin); the invariant is the set of places which hold the same printable byte in both (Shared). pg_ltostr_zeropad and the fraction loop fill their places from the last to the first, pg_ltostr turns the digits round by swapping inside the places written. | proved | `C115_date`, `C115_time`, `C115_timestamp`, `C115_interval` |
| C116 | `decode_special`, `decode_units` with the caches (src/parse.rs:630-653, 2662-2685), the loop of `decode_interval` (src/parse.rs:2715-2811) and `decode_interval_number_field` (2466-2646). The model's `TokenField.ofInt` panics for a number that is no field number; the code reinterprets it. | The tables are checked entry by entry (`decide` over the complete tables); a cached entry is a table entry. For the unit in force an invariant of every step of the interval loop, whether the step succeeds, fails or panics. | proved | `C116_words`, `C116_unit`, `C116_number` |
| C117 | `Timestamp::date_part` for `IsoYear` and `Year` (src/timestamp.rs:760-850) and `date_to_iso_year` (src/common.rs:482-520). | From C27 (the ISO week date) and C29 (the year field): the year that contains the Thursday is unique. | partial | `C117_thursday_partial`, `C117_near`, `C117_violated` |
| C118 | the scanner, `dateTimeLoop`, `isoTimeWord` | the fields of the cut text are a prefix of those of the whole text; the fields before the `t` do not see what is behind it; the `t` was accepted in the whole text, so the date is complete, and the error message then indexes a field that is not there | partial | `C118_never`, `C118_cut_date`, `C118_cut_timestamp`, `C118_numeric` |
| C119 | the scanner, `dateTimeLoop`, `wordToken` | a scan goes on where the scan of the first part stopped; a text of 24 visible bytes has at most 24 fields and 24 bytes in them; the ignored word leaves the state as it is; the other direction is C108 | proved | `C119_date`, `C119_timestamp`, `C119_time`, `C119_limit` |
| C120 | The parsers of dates, times and timestamps with scan, decoders and final checks. | `Blind` (Lemmas/Blind.lean): two runs from states that differ at most in the day of the week give the same result and again such states. It holds for every decoder, function by function; the two weekday words themselves lead to two such states; Date and Timestamp are made from a state without looking at the day of the week. The time-of-day decoder refuses every weekday in the same way. | proved | `C120_any_weekday` |
| C121 | Time::try_from_str with scan, decode_time_only and the conversion to a time. | `Blank` (Props/NoClock.lean) is an invariant of the loop of decode_time_only over word fields: the clock is zero, no day has been seen, and the afternoon mark is set only if the text says pm. A field that looks like a date but has no digits is refused. C121_violated evaluates the parser on the complete list of the words of a time. | partial | `C121_noDigits_partial`, `C121_violated` |
| C122 | Interval::try_from_str with scan, decode_interval, decode_iso8601_interval and the conversion to an interval with its type modifier. | The fields of such a text are words, and dates that start with a letter (`scan_lettered`, Props/NoNumber.lean); the latter are no numbers. Words leave the fields of the time alone whatever their outcome (`Unread`), and set the mask only together with a type that is no interval (`NoQuantity`). So decode_interval never succeeds with an interval, and the loop for ISO 8601 accepts no byte but T. C122_zero is a case of C123. | partial | `C122_zero`, `C122_noNumber_partial`, `C122_violated` |
| C123 | Interval::try_from_str with scan, decode_interval, decode_iso8601_interval and the conversion to an interval with its type modifier. | Every number of zeros is zero, with or without a fraction (`ZeroDigits`, Props/ZeroSpan.lean). Every step of both decoders keeps the fields at zero, whatever its outcome (`Stays Unread`, `Good IsoZero`): the second decoder starts with the fields as the first one left them. | proved | `C123_zeros` |

## 5. Where the code breaks a property

Each line is proved in Lean with the named theorem; "debug" and "release" are the
build profiles.

* `Date::try_from_ymd(i32::MIN, ..)` panics in debug (`C01_debug_panics`).
* Adding days to a timestamp with a target just below the range panics in debug and can
  return a wrong value in release (`C11_violated_debug`, `C11_violated_release`).
* The microsecond step of `Timestamp::add_interval` wraps (`C12_violated`);
  `sub_timestamp` of far timestamps overflows (`C14_violated`).
* `Interval`: `cmp` is `Equal` for intervals that are not `==` (`C19_eq_inconsistent`).
* `Time::from(Interval)` is wrong near `i64::MIN` (`C21_violated`).
* Rounding the last timestamps leaves the range (`C22_violated`, `C45_timestamp_violated`).
* `truncate(Week)` is wrong on December days of ISO week 1 (`C24_week_violated`).
* Truncation of intervals of 2^31 minutes or more, of the time 24:00, and of infinite
  dates (`C26_interval_violated`, `C26_time_violated`, `C26_infinity_violated`).
* `Time::try_from_hms` accepts NaN seconds (`C09_time_nan_violated`).
* `mul_f64` and `div_f64`: panics, clamping, unchecked division (`C47_mul_panics`,
  `C47_mul_clamps`, `C47_div_violated`).
* `age` cannot be added back after a day borrow (`C30_recover_needs_no_borrow`; not
  claimed by the property).
* `date_part(Epoch)` of a timestamp is always an error (`C55_timestamp_unsupported`).
* Formatting an interval of -2^31 days or hours (`C52_smallest_day`).
* "feb" is not a keyword (`C41_month_abbreviations`), so that Postgres-style timestamps
  in February cannot be read back (`C36_february_violated`).
* Letters after the start of a date-like word are not lower-cased
  (`C43_not_lower_cased`).
* More than 128 bytes of fields panic (`C43_long_text`, `C44_long_violated`).
* Fractions of more than seven digits are rejected (`C46_time_long`).
* Formatted dates and timestamps that are not read back: `C34_*_violated`,
  `C36_*_violated`; intervals: `C37_iso_violated`, `C37_minutes_violated`,
  `C39_interval_violated`.
* White space after a final full stop changes the result (`C64_full_stop_violated`), white
  space around an ISO 8601 interval makes it an error (`C64_iso_violated`), and so do
  small letters in one (`C66_iso_violated`).
* Clock times written without colons are not checked in timestamps: "20240301 996199" is
  read as 2024-03-05 04:02:39 (`C59_timestamp_violated`).
* A month name as a separate word is not taken into account when a number is read: "8 Jan
  1999" in the order year-month-day and "Jan 1999 8" are rejected (`C61_violated`), and so is "January 8, 123456" in every order (`C61_long_violated`).
* Days by their number in years far outside the range are accepted as other days in release
  ("11763000-001") and panic in debug (`C69_violated`). "2024 1.5" is read as day 1 of the year
  2024, for timestamps with half a second (`C69_point_violated`).
* Fractions of decades, centuries and millennia can lose a month: "0.7 decades" is 83 months
  (`C70_violated`).
* The clock time overwrites the clock fields: of "04:05:06 1.5 days" half a day is lost
  (`C71_violated`).
* Fractions of months in ISO 8601 intervals: `P4.1M` is read as 4 months 2 days 24:00:00,
  "4.1 mons" as 4 months 3 days (`C73_months_unlike_words`).
* A label that nothing follows is ignored: `2024-01-02 dow` is accepted (`C74_dangling`); the word `undefined` is overruled by
  labelled numbers after it: `undefined y2024 m1 d2` is accepted as a date (`C74_overruled`).
* In the SQL style a leading minus holds for all numbers only if no other number is kept in the field of the
  first: `-1 decade 3 years` is read as seven years back, `-1 week 10 days` as three days back (C72_violated).
* Clock times with labels are not checked in timestamps: `2024-01-02 h99` is read as 2024-01-06 03:00; `h2147483647`
  panics in debug builds and gives 2024-01-01 23:00 in release builds (`C75_violated`).
* The fraction of a Julian day number is cut off instead of rounded: `J2451545.7` is read as 16:47:59.999999 instead of
  16:48:00 (`C76_violated`); of the four-digit fractions, 601 of 10000 lose a microsecond.
* The word `infinity` does not exclude a day. `2024-01-02 infinity` is read as infinity, `infinity y2024 m1 d2` as 2 January 2024
  (`C77_violated`). PostgreSQL rejects both. `allballs` alone is read as 30 November 2 BC, `j .` as Julian day 0.
* A time of day is read from `2024-01-02 04:05` but not from `2024-01-02T04:05`,
  `20240102 04:05` or `2024-01-02 0405`, which are timestamps (`C80_refused`).
* The text of a timestamp in the styles XSD and Postgres is never read as a time of day (`C82_time_violated`).
* `age` does not keep the order of timestamps (`C81_age_violated`); this is how PostgreSQL's `age` works too.
* A date followed by digits such as `990000` or `240000` is a timestamp more than a day after that date; a text that is no date in range can be a timestamp (`C83_late`). With a label the release build gives a timestamp before the day (`C83_violated`).
* In the SQL style `-1 day 2147483647 hours` is read in release builds as -1 day +1 hour, with different signs (`C84_violated`); in
  the other styles it is -1 day -1 hour.
* `h10 5 m7 8 s3.5` is 8 May of 1 BC with the order MDY and 5 July 2008 with DMY: after an hour, `m` labels the minutes if a month has
  been read, else the month (`C85_violated`). `5 10:20` is read as a date without a day or without a month (`C85_date`, last case).
* Truncating a timestamp or date on 29, 30 or 31 December 4714 BC to the week panics in a debug build and is an
  error in a release build (`C87_timestamp_panics`).
* Starting from values in range, the operations can make the midnight after 31 December 294276 and, in release builds, times
  of day up to 47:59:59.999998 (`Time::from` of an interval near the 64-bit limit); nothing further out (`C89_range`, `C89_violated`).
* `a - age(a, b)` is not always `b`: 31 March 2021 less the age over 28 February 2021
  is 25 February (`C94_violated`).
* `Date::sub_days` and `Timestamp::add_interval` report a result out of range as `Invalid`,
  where `Date::add_days` says `Overflow` (`C92_range_violated`).
* "2147483647 days 1 week" stops a debug build; a release build takes it for
  -2147483642 days (`C93_condition_needed`).
* Integers of a binary format are deserialised without a check of the range (`C95_binary_violated`): a
  date may then have a text that panics or names another year, a negative time has the text of a positive
  one.
* A clock time, a weekday, am/pm or ad/bc before a date in one word is refused: `12:00 2024-01-01`, `Mon 2024-01-01`
  (`C99_refused_before_date`), while `12:00 Jan 1 2024` is accepted. `1 2 12:00 200000` is accepted with the year 200000,
  `1 2 200000 12:00` is not (`C99_six_digits`).
* `date_part(IsoYear)` counts a year 0 where `date_part(Year)` counts -1: before Christ the two differ by one on every Thursday
  (`C117_violated`).
* `TokenField::try_from` checks nothing (src/token.rs:239); every number it gets is a valid one (C116).
* Positive infinity truncated to decades, centuries or millennia is finite, and the age of an infinity is that of a
  certain instant (`C103_violated`).
* `04:05:06 2 mons 1.5 days` loses half a day (`C104_violated`); `-2147483648 days ago` is -2147483648 days in a release
  build (`C106_violated`).
* The fraction of a number after the clock time overwrites the fraction of the seconds: `12:00:00.25 Jan 2.5 2024` is half a
  second after noon, and `24:00:00 Jan 2.5 2024` is accepted although it is later than 24:00:00 (`C107_violated`).
* Parsed times above 24:00 (`C45_time_violated`), days that do not exist
  (`C45_unnamed_day`), years that wrap (`C45_wrapped_year`).
* Panics while parsing: `C44_t_violated` ("2000-01-01 t", every profile),
  `C44_date_violated`, `C44_time_violated`, `C44_timestamp_violated`, `C44_bc_violated`,
  `C44_interval_violated`, `C44_millennia_violated` (debug; in release the value is silently wrong).

Read in the code and not stated as a theorem: formatting a `Time` made from a negative
`i64` panics in debug; the check in `TokenField::try_from` is never true;
`decode_number` ignores an error of `decode_number_field`.
