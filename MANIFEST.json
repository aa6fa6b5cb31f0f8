{
 "claims": [
  {
   "property": "C01",
   "status": "partial",
   "theorems": [
    "Props.C01_partial",
    "Props.C01_release",
    "Props.C01_debug_panics"
   ],
   "note": "Holds for every input in release builds and for every year except i32::MIN in debug builds; try_from_ymd(i32::MIN, ..) panics in a debug build (proved as C01_debug_panics)."
  },
  {
   "property": "C02",
   "status": "proved",
   "theorems": [
    "Props.C02"
   ],
   "note": ""
  },
  {
   "property": "C03",
   "status": "proved",
   "theorems": [
    "Props.C03_fields_of_ymd",
    "Props.C03_ymd_of_fields"
   ],
   "note": ""
  },
  {
   "property": "C04",
   "status": "proved",
   "theorems": [
    "Props.C04_add_sub_days",
    "Props.C04_sub_undoes_add",
    "Props.C04_infinite_and_total"
   ],
   "note": ""
  },
  {
   "property": "C05",
   "status": "proved",
   "theorems": [
    "Props.C05_difference",
    "Props.C05_infinite"
   ],
   "note": ""
  },
  {
   "property": "C06",
   "status": "proved",
   "theorems": [
    "Props.C06_date_to_timestamp",
    "Props.C06_is_midnight",
    "Props.C06_infinities",
    "Props.C06_monotone"
   ],
   "note": ""
  },
  {
   "property": "C07",
   "status": "proved",
   "theorems": [
    "Props.C07_split_join",
    "Props.C07_infinite"
   ],
   "note": ""
  },
  {
   "property": "C08",
   "status": "proved",
   "theorems": [
    "Props.C08_fields",
    "Props.C08_order"
   ],
   "note": ""
  },
  {
   "property": "C49",
   "status": "proved",
   "theorems": [
    "Props.C49_conversions",
    "Props.C49_chronological",
    "Props.C49_infinities",
    "Props.C49_time_chronological"
   ],
   "note": ""
  },
  {
   "property": "C10",
   "status": "proved",
   "theorems": [
    "Props.C10_add_months"
   ],
   "note": ""
  },
  {
   "property": "C11",
   "status": "partial",
   "theorems": [
    "Props.C11_partial",
    "Props.C11_violated_debug",
    "Props.C11_violated_release",
    "Props.C11_release",
    "Props.C11_debug"
   ],
   "note": "Holds whenever the target day is not 1..120296 days before the first supported day. For those targets a debug build panics (C11_debug). A release build returns an error or, 32045 to 88193 days before, a valid timestamp 88192 or 88193 days too late (C11_release). Both builds are described completely."
  },
  {
   "property": "C12",
   "status": "partial",
   "theorems": [
    "Props.C12_steps",
    "Props.C12_ok_valid",
    "Props.C12_zero_and_infinite",
    "Props.C12_time_step_partial",
    "Props.C12_violated",
    "Props.C12_time_step_exact"
   ],
   "note": "Steps, validity of Ok results, identity and absorption hold for all inputs. The failure clause of the microsecond step holds when the sum fits 64 bits; C12_violated shows a sum that wraps back into the valid range. C12_time_step_exact says exactly when the step succeeds and with what: the sum is taken modulo 2^64."
  },
  {
   "property": "C13",
   "status": "proved",
   "theorems": [
    "Props.C13_sub_is_add_neg",
    "Props.C13_add_then_sub"
   ],
   "note": ""
  },
  {
   "property": "C14",
   "status": "partial",
   "theorems": [
    "Props.C14_partial",
    "Props.C14_infinite",
    "Props.C14_violated",
    "Props.C14_overflow"
   ],
   "note": "Holds whenever the difference fits 64 bits; C14_violated gives a pair of valid timestamps for which it does not. C14_overflow covers every such pair: a debug build panics, a release build is wrong by 2^64 microseconds."
  },
  {
   "property": "C15",
   "status": "proved",
   "theorems": [
    "Props.C15_exact_or_overflow",
    "Props.C15_group_laws"
   ],
   "note": ""
  },
  {
   "property": "C16",
   "status": "proved",
   "theorems": [
    "Props.C16_no_panic",
    "Props.C16_justify_hours",
    "Props.C16_wraps_beyond_hypothesis"
   ],
   "note": ""
  },
  {
   "property": "C17",
   "status": "proved",
   "theorems": [
    "Props.C17_no_panic",
    "Props.C17_justify_days"
   ],
   "note": ""
  },
  {
   "property": "C18",
   "status": "proved",
   "theorems": [
    "Props.C18_no_panic",
    "Props.C18_justify_interval",
    "Props.C18_canonical",
    "Props.C18_idempotent"
   ],
   "note": ""
  },
  {
   "property": "C19",
   "status": "partial",
   "theorems": [
    "Props.C19_partial",
    "Props.C19_eq_inconsistent"
   ],
   "note": "Order laws and agreement with length hold; cmp = Equal does not imply ==, proved false by C19_eq_inconsistent."
  },
  {
   "property": "C20",
   "status": "proved",
   "theorems": [
    "Props.C20_total",
    "Props.C20_modular",
    "Props.C20_sub_undoes_add"
   ],
   "note": ""
  },
  {
   "property": "C21",
   "status": "partial",
   "theorems": [
    "Props.C21_partial",
    "Props.C21_round_trip",
    "Props.C21_violated",
    "Props.C21_overflow"
   ],
   "note": "Holds for every interval time above i64::MIN + 1 day; C21_violated is the counterexample near i64::MIN. C21_overflow gives the behaviour of both builds for every time up to i64::MIN + 1 day."
  },
  {
   "property": "C22",
   "status": "partial",
   "theorems": [
    "Props.C22_nearest_laws",
    "Props.C22_time",
    "Props.C22_timestamp_partial",
    "Props.C22_violated",
    "Props.C22_interval",
    "Props.C22_interval_bad_precision"
   ],
   "note": "Everything except range preservation for timestamps, which fails at the top of the range (C22_violated)."
  },
  {
   "property": "C23",
   "status": "proved",
   "theorems": [
    "Props.C23_field_range"
   ],
   "note": ""
  },
  {
   "property": "C24",
   "status": "partial",
   "theorems": [
    "Props.C24_start_of_unit",
    "Props.C24_idempotent_monotone",
    "Props.C24_week_partial",
    "Props.C24_week_exact",
    "Props.C24_week_violated"
   ],
   "note": "Proved for every unit but weeks, and for weeks on all days whose ISO week does not belong to the next calendar year; on those days the code is wrong (C24_week_violated) and C24_week_exact says what it answers."
  },
  {
   "property": "C25",
   "status": "proved",
   "theorems": [
    "Props.C25_absorb",
    "Props.C25_nested",
    "Props.C25_absorb_week"
   ],
   "note": ""
  },
  {
   "property": "C26",
   "status": "partial",
   "theorems": [
    "Props.C26_interval_partial",
    "Props.C26_interval_idempotent_partial",
    "Props.C26_interval_violated",
    "Props.C26_time_partial",
    "Props.C26_time_violated",
    "Props.C26_date",
    "Props.C26_infinity_violated"
   ],
   "note": "Violated by intervals with 2^31 or more minutes, by 24:00:00 truncated to hours, and by infinite dates; proved outside these cases. Date truncation to weeks inherits the gap of C24."
  },
  {
   "property": "C27",
   "status": "proved",
   "theorems": [
    "Props.C27_iso_week_date",
    "Props.C27_unique"
   ],
   "note": ""
  },
  {
   "property": "C28",
   "status": "proved",
   "theorems": [
    "Props.C28_dow",
    "Props.C28_doy"
   ],
   "note": ""
  },
  {
   "property": "C29",
   "status": "proved",
   "theorems": [
    "Props.C29_fields",
    "Props.C29_constant_on_units"
   ],
   "note": ""
  },
  {
   "property": "C30",
   "status": "proved",
   "theorems": [
    "Props.C30_signed_antisymmetric",
    "Props.C30_months_and_recover",
    "Props.C30_borrow",
    "Props.C30_recover_needs_no_borrow",
    "Props.C30_added_back",
    "Props.C30_recover_iff"
   ],
   "note": ""
  },
  {
   "property": "C09",
   "status": "partial",
   "theorems": [
    "Props.C09_time",
    "Props.C09_time_range",
    "Props.C09_time_infinite",
    "Props.C09_exact_micros",
    "Props.C09_time_nan_violated",
    "Props.C09_timestamp",
    "Props.C09_timestamp_nonfinite"
   ],
   "note": "Proved except that Time::try_from_hms accepts NaN seconds, counting them as zero (C09_time_nan_violated)."
  },
  {
   "property": "C47",
   "status": "partial",
   "theorems": [
    "Props.C47_mul_int",
    "Props.C47_mul_one",
    "Props.C47_mul_zero",
    "Props.C47_mul_nonfinite",
    "Props.C47_mul_overflow",
    "Props.C47_mul_length_partial",
    "Props.C47_mul_panics",
    "Props.C47_mul_clamps",
    "Props.C47_div_int",
    "Props.C47_div_length_partial",
    "Props.C47_div_one",
    "Props.C47_div_zero",
    "Props.C47_div_violated",
    "Props.C47_release_no_panic"
   ],
   "note": "Exact factors and divisors, zero, one, overflow of months and days, and the length of the product or quotient by any number up to rounding are proved; the code panics in debug builds on carried days, clamps at 2^63 microseconds and does not range-check division."
  },
  {
   "property": "C50",
   "status": "proved",
   "theorems": [
    "Props.C50_construct",
    "Props.C50_rejects"
   ],
   "note": ""
  },
  {
   "property": "C31",
   "status": "proved",
   "theorems": [
    "Props.C31_int",
    "Props.C31_canonical",
    "Props.C31_padded"
   ],
   "note": ""
  },
  {
   "property": "C32",
   "status": "proved",
   "theorems": [
    "Props.C32"
   ],
   "note": ""
  },
  {
   "property": "C33",
   "status": "proved",
   "theorems": [
    "Props.C33_text",
    "Props.C33_injective"
   ],
   "note": ""
  },
  {
   "property": "C40",
   "status": "proved",
   "theorems": [
    "Props.C40_output",
    "Props.C40_finite",
    "Props.C40_input"
   ],
   "note": ""
  },
  {
   "property": "C51",
   "status": "proved",
   "theorems": [
    "Props.C51_time",
    "Props.C51_timestamp"
   ],
   "note": ""
  },
  {
   "property": "C48",
   "status": "partial",
   "theorems": [
    "Props.C48_fields",
    "Props.C48_overflow",
    "Props.C48_format"
   ],
   "note": "Decomposition, signs, bounds, reconstruction through the public constructor, and the error for date_part, truncate and format. Reconstruction through the internal from_pgtime fails above 2^31 minutes (C26_interval_violated)."
  },
  {
   "property": "C52",
   "status": "partial",
   "theorems": [
    "Props.C52_iso",
    "Props.C52_text",
    "Props.C52_smallest_day"
   ],
   "note": "Proved for all intervals in the ISO 8601 style and, in the other styles, for all but day or hour counts of -2^31, where the code panics or prints a doubled sign (C52_smallest_day)."
  },
  {
   "property": "C41",
   "status": "proved",
   "theorems": [
    "Props.C41_date_keyword",
    "Props.C41_interval_unit",
    "Props.C41_one_meaning",
    "Props.C41_month_names",
    "Props.C41_weekday_names",
    "Props.C41_unit_names",
    "Props.C41_month_abbreviations"
   ],
   "note": ""
  },
  {
   "property": "C42",
   "status": "proved",
   "theorems": [
    "Props.C42_history_invisible"
   ],
   "note": ""
  },
  {
   "property": "C43",
   "status": "partial",
   "theorems": [
    "Props.C43_fields_partial",
    "Props.C43_not_lower_cased",
    "Props.C43_long_text"
   ],
   "note": "Proved for texts of at most 128 bytes; the code panics on longer ones (C43_long_text) and does not lower-case every letter (C43_not_lower_cased)."
  },
  {
   "property": "C35",
   "status": "proved",
   "theorems": [
    "Props.C35"
   ],
   "note": ""
  },
  {
   "property": "C46",
   "status": "partial",
   "theorems": [
    "Props.C46_time_partial",
    "Props.C46_time_exact",
    "Props.C46_time_long",
    "Props.C46_timestamp_partial",
    "Props.C46_anywhere_date",
    "Props.C46_anywhere_time",
    "Props.C46_anywhere_interval"
   ],
   "note": "A clock time hh:mm:ss[.f] out of range is rejected in every text that contains it (C46_anywhere_*; for intervals minutes and seconds out of range). Accepted times and their values: proved for Time::try_from_str and, after a numeric date, for Timestamp::try_from_str, with at most 7 fraction digits; longer fractions are always rejected (C46_time_long), which the property does not allow."
  },
  {
   "property": "C34",
   "status": "partial",
   "theorems": [
    "Props.C34_partial",
    "Props.C34_german_mdy_violated",
    "Props.C34_ymd_violated",
    "Props.C34_postgres_dmy_violated"
   ],
   "note": "Proved for every style and order that can be read back; the German style with MDY, the SQL, German and Postgres styles with YMD, and the Postgres style with DMY do not read back (three theorems)."
  },
  {
   "property": "C56",
   "status": "proved",
   "theorems": [
    "Props.C56_numeric_date",
    "Props.C56_two_digits"
   ],
   "note": ""
  },
  {
   "property": "C36",
   "status": "partial",
   "theorems": [
    "Props.C36_partial",
    "Props.C36_every",
    "Props.C36_february_violated",
    "Props.C36_german_mdy_violated",
    "Props.C36_ymd_violated"
   ],
   "note": "Proved for every style and order that can be read back, in the Postgres style outside February; the remaining combinations are proved not to read back."
  },
  {
   "property": "C37",
   "status": "partial",
   "theorems": [
    "Props.C37_partial",
    "Props.C37_style",
    "Props.C37_iso_violated",
    "Props.C37_minutes_violated"
   ],
   "note": "Proved for every interval below 2^31 minutes of time and above -2^31 days, in the ISO 8601 style without negative parts; ISO 8601 texts with a negative part are proved to be rejected and an interval of 2^31 minutes not to read back."
  },
  {
   "property": "C38",
   "status": "proved",
   "theorems": [
    "Props.C38",
    "Props.C38_map",
    "Props.C38_seq",
    "Props.C38_errors"
   ],
   "note": ""
  },
  {
   "property": "C39",
   "status": "partial",
   "theorems": [
    "Props.C39_date",
    "Props.C39_time",
    "Props.C39_timestamp",
    "Props.C39_interval_partial",
    "Props.C39_interval_violated"
   ],
   "note": "Proved for all dates, times and timestamps, and for intervals below 2^31 minutes of time and above -2^31 days; the interval of 2^31 minutes is proved not to read back."
  },
  {
   "property": "C45",
   "status": "partial",
   "theorems": [
    "Props.C45_date",
    "Props.C45_timestamp_partial",
    "Props.C45_time_partial",
    "Props.C45_time_violated",
    "Props.C45_timestamp_violated",
    "Props.C45_unnamed_day",
    "Props.C45_wrapped_year"
   ],
   "note": "Proved for dates; a timestamp that is read is in range except for rounding up the last instant (C45_timestamp_violated), a time that is read is below 24:00:01 but can exceed 24:00 (C45_time_violated)."
  },
  {
   "property": "C44",
   "status": "partial",
   "theorems": [
    "Props.C44_time_partial",
    "Props.C44_interval_partial",
    "Props.C44_date_partial",
    "Props.C44_timestamp_partial",
    "Props.C44_date_debug_partial",
    "Props.C44_time_debug_partial",
    "Props.C44_timestamp_debug_partial",
    "Props.C44_interval_debug_partial",
    "Props.C44_long_violated",
    "Props.C44_t_violated",
    "Props.C44_date_violated",
    "Props.C44_time_violated",
    "Props.C44_timestamp_violated",
    "Props.C44_interval_violated",
    "Props.C44_millennia_violated",
    "Props.C44_bc_violated"
   ],
   "note": "Proved in release builds for all texts of at most 128 bytes, for dates and timestamps if the last letter or digit is not t. Proved in every build, for dates, times and timestamps, if moreover the text does not pair a day of the year (a number of three digits, or a decimal point) with a year of more than six digits or a year before Christ, and a timestamp has no label for hours, minutes or seconds; and for intervals if no number has more than six digits (seven digits can panic). More than 128 digits, a date followed by a lone t, and several texts in debug builds are proved to panic."
  },
  {
   "property": "C53",
   "status": "proved",
   "theorems": [
    "Props.C53_larger_units"
   ],
   "note": ""
  },
  {
   "property": "C54",
   "status": "proved",
   "theorems": [
    "Props.C54_time",
    "Props.C54_timestamp",
    "Props.C54_infinite"
   ],
   "note": ""
  },
  {
   "property": "C55",
   "status": "partial",
   "theorems": [
    "Props.C55_time_partial",
    "Props.C55_interval_partial",
    "Props.C55_timestamp_unsupported"
   ],
   "note": "Proved for times and intervals; for timestamps the code always answers with an error (C55_timestamp_unsupported)."
  },
  {
   "property": "C57",
   "status": "partial",
   "theorems": [
    "Props.C57_date_time",
    "Props.C57_date_infinite",
    "Props.C57_timestamp_time",
    "Props.C57_date_interval",
    "Props.C57_timestamp_date_partial",
    "Props.C57_time_time",
    "Props.C57_timestamp_date_overflow"
   ],
   "note": "Timestamp - Date is proved when the difference fits in 64 bits; beyond that sub_timestamp overflows as in C14 (C57_timestamp_date_overflow)."
  },
  {
   "property": "C64",
   "status": "partial",
   "theorems": [
    "Props.C64_partial",
    "Props.C64_interval_partial",
    "Props.C64_full_stop_violated",
    "Props.C64_iso_violated"
   ],
   "note": "Proved unless exactly one of the two texts ends in a full stop, for intervals unless one starts with P; in each exception a violating pair of texts is proved."
  },
  {
   "property": "C65",
   "status": "proved",
   "theorems": [
    "Props.C65"
   ],
   "note": ""
  },
  {
   "property": "C66",
   "status": "partial",
   "theorems": [
    "Props.C66_dates",
    "Props.C66_interval_partial",
    "Props.C66_iso_violated"
   ],
   "note": "Dates, times, timestamps: proved. Intervals not starting with P or p: same result. A lower-case ISO 8601 interval is proved to be rejected."
  },
  {
   "property": "C58",
   "status": "proved",
   "theorems": [
    "Props.C58_time",
    "Props.C58_timestamp"
   ],
   "note": ""
  },
  {
   "property": "C59",
   "status": "partial",
   "theorems": [
    "Props.C59_time",
    "Props.C59_date",
    "Props.C59_date_clock",
    "Props.C59_timestamp_day",
    "Props.C59_timestamp_exact",
    "Props.C59_timestamp_partial",
    "Props.C59_timestamp_violated"
   ],
   "note": "times without colons in a timestamp (or date) are not range-checked by the code; C59_timestamp_exact says what it does, C59_timestamp_violated is the witness; everything else is proved"
  },
  {
   "property": "C60",
   "status": "proved",
   "theorems": [
    "Props.C60_quantities"
   ],
   "note": "all twelve units and all spellings; fractions are not part of this property"
  },
  {
   "property": "C67",
   "status": "proved",
   "theorems": [
    "Props.C67_time",
    "Props.C67_timestamp",
    "Props.C67_interval"
   ],
   "note": "the interval theorem assumes a time part within 2^63-10^6 of zero, as C22 does"
  },
  {
   "property": "C68",
   "status": "proved",
   "theorems": [
    "Props.C68_number",
    "Props.C68_seconds",
    "Props.C68_quantities"
   ],
   "note": "full precision in the typmod"
  },
  {
   "property": "C61",
   "status": "partial",
   "theorems": [
    "Props.C61_date_exact",
    "Props.C61_timestamp_exact",
    "Props.C61_date_partial",
    "Props.C61_timestamp_partial",
    "Props.C61_long",
    "Props.C61_violated",
    "Props.C61_long_violated"
   ],
   "note": "Exact reading of every layout proved for all orders; as separate words the code does not follow the rule where the order is year-month-day and the year is last, or the month name is first and the year second (violated). As separate words a number of six or more digits is never accepted beside a month name (C61_long), so years after 99999 are refused (violated)."
  },
  {
   "property": "C62",
   "status": "proved",
   "theorems": [
    "Props.C62_date",
    "Props.C62_timestamp",
    "Props.C62_julian_date",
    "Props.C62_julian_timestamp"
   ],
   "note": "Labels y, m, d and j, jd, julian; the labels of clock fields (h, mm, s) and Julian days with a fraction are not covered."
  },
  {
   "property": "C69",
   "status": "partial",
   "theorems": [
    "Props.C69_date_partial",
    "Props.C69_timestamp_partial",
    "Props.C69_violated",
    "Props.C69_point_violated"
   ],
   "note": "Days outside the range of dates are missing: the Julian day of such a year overflows, and the text is accepted as another day in release and panics in debug (C69_violated). A second part of three characters that are not all digits is taken for a number of a day too (C69_point_violated)."
  },
  {
   "property": "C70",
   "status": "partial",
   "theorems": [
    "Props.C70_fractions_partial",
    "Props.C70_violated"
   ],
   "note": "Fractions of decades, centuries and millennia that are a whole number of months may lose one month in floating point (C70_violated: 0.7 decades is 83 months); the theorem allows exactly that loss. The fraction of microseconds is rounded within 0.5000002 instead of 0.5 (numbers up to 2^31 leave 22 bits). The SQL rule of one sign for all fields is in C72 and C90."
  },
  {
   "property": "C71",
   "status": "partial",
   "theorems": [
    "Props.C71_parts_partial",
    "Props.C71_violated"
   ],
   "note": "A fraction of days, weeks or months written after the clock time is excluded: it is lost (C71_violated). The SQL rule of one sign for all fields is in C72 and C90, and fractions are as exact as in C70."
  },
  {
   "property": "C73",
   "status": "proved",
   "theorems": [
    "Props.C73_iso",
    "Props.C73_rejected",
    "Props.C73_rejected_time",
    "Props.C73_months_unlike_words"
   ],
   "note": "Fractions have at most seven digits and are covered for years, days, hours and minutes up to ten thousand, weeks up to three thousand, months up to seven hundred and seconds up to a million (behind that the error of the 64-bit float exceeds half a microsecond). The sums are limited as in C70. C73_months_unlike_words is a witness that 4.1 months written the ISO way come out as 2 days and 24 hours, in words as 3 days."
  },
  {
   "property": "C63",
   "status": "proved",
   "theorems": [
    "Props.C63_date",
    "Props.C63_timestamp",
    "Props.C63_time",
    "Props.C63_months"
   ],
   "note": "The words are those between blanks; neither the two words nor a word between them may be preceded by a sign that stands alone or at the end of a word (a sign takes what follows along as a time zone or special word). C63_months: month names in small letters, date word of at most 25 bytes. The result is not ok; that it is an error and not a panic is C44."
  },
  {
   "property": "C74",
   "status": "proved",
   "theorems": [
    "Props.C74_date",
    "Props.C74_time",
    "Props.C74_interval",
    "Props.C74_dangling",
    "Props.C74_overruled"
   ],
   "note": "The words are those between blanks; no word before the unknown one may end in a sign (a sign takes what follows along). For intervals the text must not start with P. C74_dangling and C74_overruled are witnesses that a known word need not have any effect: a label at the end is ignored, and undefined is overruled by labelled numbers."
  },
  {
   "property": "C72",
   "status": "partial",
   "theorems": [
    "Props.C72_partial",
    "Props.C72_violated"
   ],
   "note": "The code violates the property if the first unit shares a field with another one (years and longer units, days and weeks, seconds and shorter units): -1 decade 3 years is seven years back (C72_violated). C72_partial is the property for all other texts."
  },
  {
   "property": "C75",
   "status": "partial",
   "theorems": [
    "Props.C75_time",
    "Props.C75_timestamp_exact",
    "Props.C75_timestamp_partial",
    "Props.C75_labels_partial",
    "Props.C75_date_partial",
    "Props.C75_violated"
   ],
   "note": "Proved in full for times of day. For timestamps and dates the code violates the property: labelled clock times are not checked, h99 leads to a later day and a large hour overflows (C75_violated); the partial theorems are the property for clock times in range, C75_timestamp_exact says what happens up to 99."
  },
  {
   "property": "C76",
   "status": "partial",
   "theorems": [
    "Props.C76_timestamp_partial",
    "Props.C76_exact",
    "Props.C76_date",
    "Props.C76_time_partial",
    "Props.C76_long",
    "Props.C76_clock",
    "Props.C76_violated"
   ],
   "note": "The code violates the property: the product of the fraction and the microseconds of a day is cut off instead of rounded, J2451545.7 is read as 16:47:59.999999 (C76_violated). Proved: the result is the exact one or one microsecond less, and exact for multiples of 1/128; dates, long fractions and clock times after a fraction are proved in full."
  },
  {
   "property": "C77",
   "status": "partial",
   "theorems": [
    "Props.C77_only",
    "Props.C77_word",
    "Props.C77_noDigits",
    "Props.C77_violated"
   ],
   "note": "The code violates the property: 2024-01-02 infinity is infinity, infinity y2024 m1 d2 is a day, allballs is a day and j . is Julian day 0 (C77_violated). Proved for all texts: the value is infinite only if the text has the word; without labels of numbers a text with the word is infinite or an error; without digits, full stops, a last sign and allballs a text is infinite or an error."
  },
  {
   "property": "C79",
   "status": "proved",
   "theorems": [
    "Props.C79_date",
    "Props.C79_timestamp",
    "Props.C79_time",
    "Props.C79_years"
   ],
   "note": "C79_years shows why the years are bounded: the text of the year 10000 sorts before 9999, and years before Christ sort backwards."
  },
  {
   "property": "C78",
   "status": "proved",
   "theorems": [
    "Props.C78_lands",
    "Props.C78_order",
    "Props.C78_months",
    "Props.C78_reversed",
    "Props.C78_sum",
    "Props.C78_months_sum",
    "Props.C78_month_end"
   ],
   "note": "For steps inside the range; what happens outside is C11 and C12. C78_reversed and C78_month_end show that the restrictions are needed."
  },
  {
   "property": "C80",
   "status": "proved",
   "theorems": [
    "Props.C80_time",
    "Props.C80_sum",
    "Props.C80_timestamp",
    "Props.C80_refused"
   ],
   "note": "C80_refused says which forms that Timestamp::try_from_str reads are errors for Time::try_from_str."
  },
  {
   "property": "C81",
   "status": "proved",
   "theorems": [
    "Props.C81_arithmetic",
    "Props.C81_justify",
    "Props.C81_multiples",
    "Props.C81_steps",
    "Props.C81_steps_months",
    "Props.C81_differences",
    "Props.C81_age_violated"
   ],
   "note": "C81_justify, C81_multiples, C81_steps and C81_differences assume that the results fit (C16 to C18, C47, C12 and C14 say what happens otherwise). C81_steps_months and C81_age_violated are the cases where the order is not kept."
  },
  {
   "property": "C82",
   "status": "partial",
   "theorems": [
    "Props.C82_date_partial",
    "Props.C82_time_partial",
    "Props.C82_time_violated"
   ],
   "note": "Dates: true for ISO, XSD, SQL with DMY and MDY, German with DMY, Postgres outside February; the other texts are not read back as timestamps either (C36). Times: true for ISO, SQL with DMY and MDY, German with DMY; false for every timestamp in the styles XSD and Postgres (C82_time_violated)."
  },
  {
   "property": "C83",
   "status": "partial",
   "theorems": [
    "Props.C83_agree",
    "Props.C83_infinite",
    "Props.C83_debug",
    "Props.C83_late",
    "Props.C83_violated"
   ],
   "note": "Proved for all texts without the label words h, m, mm, s (C83_agree), in both build profiles, with a bound of 99 h 99 min 100 s on the time after the start of the day, which can exceed a day (C83_late). For all texts: the kind of infinity (C83_infinite) and, in debug builds, that the timestamp is not before the day (C83_debug). With labels the release build wraps around and gives a timestamp before the day (C83_violated)."
  },
  {
   "property": "C84",
   "status": "partial",
   "theorems": [
    "Props.C84_styles",
    "Props.C84_noMinus",
    "Props.C84_sql_partial",
    "Props.C84_violated"
   ],
   "note": "The first two sentences are proved in full. The third is proved for debug builds; in a release build it is false (C84_violated): the hours wrap around after the sign was set."
  },
  {
   "property": "C85",
   "status": "proved",
   "theorems": [
    "Props.C85_date",
    "Props.C85_timestamp",
    "Props.C85_violated"
   ],
   "note": "For texts with the label m the claim is false (C85_violated): after an hour it labels the minutes with one order and the month with the other."
  },
  {
   "property": "C86",
   "status": "proved",
   "theorems": [
    "Props.C86_first",
    "Props.C86_second",
    "Props.C86_word",
    "Props.C86_parts",
    "Props.C86_minutes"
   ],
   "note": ""
  },
  {
   "property": "C87",
   "status": "partial",
   "theorems": [
    "Props.C87_time",
    "Props.C87_timestamp_partial",
    "Props.C87_date_partial",
    "Props.C87_interval_partial",
    "Props.C87_timestamp_panics",
    "Props.C87_interval_panics",
    "Props.C87_mul",
    "Props.C87_div",
    "Props.C87_truncate_panics",
    "Props.C87_format_panics"
   ],
   "note": "times: proved. Timestamps, dates and intervals: proved outside the listed cases of overflow. False in those cases: C87_timestamp_panics, C87_interval_panics, C87_truncate_panics and C87_format_panics say exactly when a debug build panics. Scaling of intervals in a debug build can panic only within 37 days of the 32-bit limit for products, and only at or beyond the limits for quotients (C87_mul, C87_div; C47 has panicking examples)."
  },
  {
   "property": "C88",
   "status": "partial",
   "theorems": [
    "Props.C88_months",
    "Props.C88_days",
    "Props.C88_clock",
    "Props.C88_weeks_partial",
    "Props.C88_weeks_violated"
   ],
   "note": "Months, days and durations complete for every unit but the week; for weeks false at the end of December, because truncation to weeks is wrong there (C88_weeks_violated), proved for all other days."
  },
  {
   "property": "C89",
   "status": "proved",
   "theorems": [
    "Props.C89_range",
    "Props.C89_violated",
    "Props.C89_no_panic"
   ],
   "note": "complete as stated, exceptions included: they are shown to be reachable by C89_violated. Panics of a debug build on values in range are in C87; panics of the parsers in C44."
  },
  {
   "property": "C90",
   "status": "proved",
   "theorems": [
    "Props.C90_sql",
    "Props.C90_others"
   ],
   "note": "complete within the stated sizes."
  },
  {
   "property": "C91",
   "status": "partial",
   "theorems": [
    "Props.C91_kept",
    "Props.C91_start",
    "Props.C91_only",
    "Props.C91_micros",
    "Props.C91_week_partial",
    "Props.C91_week_violated",
    "Props.C91_time"
   ],
   "note": "complete but for weeks, where the code is wrong on the last days of a year that belong to week 1 of the next (C91_week_violated, the defect of C24); all other days are proved."
  },
  {
   "property": "C92",
   "status": "partial",
   "theorems": [
    "Props.C92_empty",
    "Props.C92_constructors",
    "Props.C92_interval",
    "Props.C92_fields",
    "Props.C92_days",
    "Props.C92_range_violated"
   ],
   "note": "All parts are proved for every input except the last one, which is false: C92_range_violated. Date::sub_days and Timestamp::add_interval report a result outside the range as Invalid, where Date::add_days and the constructors say Overflow; C92_days says exactly when which."
  },
  {
   "property": "C93",
   "status": "proved",
   "theorems": [
    "Props.C93_constructors",
    "Props.C93_parse",
    "Props.C93_format",
    "Props.C93_date",
    "Props.C93_time",
    "Props.C93_timestamp",
    "Props.C93_interval",
    "Props.C93_serde",
    "Props.C93_assertions",
    "Props.C93_condition_needed"
   ],
   "note": "Without any condition on the arguments. C93_condition_needed: where a debug build panics, a release build may go on with a wrapped number (2147483647 days 1 week) or refuse."
  },
  {
   "property": "C94",
   "status": "proved",
   "theorems": [
    "Props.C94_subtracted",
    "Props.C94_back_iff",
    "Props.C94_back",
    "Props.C94_violated"
   ],
   "note": "Exact for all pairs. C94_violated shows a pair that does not come back (31 March 2021 and 28 February 2021) and one without a result."
  },
  {
   "property": "C95",
   "status": "partial",
   "theorems": [
    "Props.C95_text_partial",
    "Props.C95_kinds",
    "Props.C95_binary_violated"
   ],
   "note": "Text: proved (times up to the leap second of C45). Integers of a binary format are taken without any check of the range: C95_binary_violated shows a date whose text makes a debug build panic, one before Christ whose text names a year after Christ, a negative time whose text is that of a positive one, and a timestamp past the end of the range."
  },
  {
   "property": "C96",
   "status": "proved",
   "theorems": [
    "Props.C96_timestamp",
    "Props.C96_doy",
    "Props.C96_iso",
    "Props.C96_time",
    "Props.C96_interval",
    "Props.C96_counts",
    "Props.C96_julian"
   ],
   "note": "Complete. The order on lists of fields (Before) and the reading of fields (Reads) are defined beside the theorems."
  },
  {
   "property": "C97",
   "status": "proved",
   "theorems": [
    "Props.C97_order",
    "Props.C97_fields",
    "Props.C97_truncate_clock",
    "Props.C97_truncate_calendar",
    "Props.C97_add_days",
    "Props.C97_add_months",
    "Props.C97_add_micros",
    "Props.C97_text"
   ],
   "note": "Complete as stated. The converse of the clause on days is false in release builds, where days before the range wrap around (C11)."
  },
  {
   "property": "C98",
   "status": "proved",
   "theorems": [
    "Props.C98_date",
    "Props.C98_timestamp",
    "Props.C98_timestamp_value",
    "Props.C98_time"
   ],
   "note": "Complete as stated. C98_timestamp_value adds that a finite timestamp is on this day or at most 99:99:100 after its start if no label of an hour, minute or second is in the text. A date followed by the word infinity is read as infinity (C77_violated)."
  },
  {
   "property": "C99",
   "status": "proved",
   "theorems": [
    "Props.C99_date",
    "Props.C99_timestamp",
    "Props.C99_refused_before_date",
    "Props.C99_six_digits"
   ],
   "note": "Complete as stated. Results are compared up to the kind of error. C99_six_digits shows that numbers of six digits have to be excluded; C99_refused_before_date holds whatever else the text contains."
  },
  {
   "property": "C100",
   "status": "proved",
   "theorems": [
    "Props.C100_date",
    "Props.C100_time",
    "Props.C100_timestamp",
    "Props.C100_interval"
   ],
   "note": "Complete as stated. The texts themselves are those of C33, C51 and C52."
  },
  {
   "property": "C101",
   "status": "proved",
   "theorems": [
    "Props.C101_date",
    "Props.C101_time",
    "Props.C101_timestamp"
   ],
   "note": "Complete as stated. The replacement has the length of the original because the length of the whole text is limited; am and pm treat 12 and later hours differently, which the examples show."
  },
  {
   "property": "C102",
   "status": "proved",
   "theorems": [
    "Props.C102_date",
    "Props.C102_time",
    "Props.C102_timestamp"
   ],
   "note": "Complete as stated. The lengths must agree because the number of digits decides which number is the year and whether it is a year of the century, and because the length of the whole text is limited."
  },
  {
   "property": "C103",
   "status": "partial",
   "theorems": [
    "Props.C103_timestamp",
    "Props.C103_date",
    "Props.C103_difference",
    "Props.C103_finite",
    "Props.C103_truncate_exact",
    "Props.C103_age_exact",
    "Props.C103_violated"
   ],
   "note": "The code violates the property in truncate (positive infinity truncated to decades, centuries and millennia is finite) and in age (positive infinity counts as 294277-01-09 04:00:54.775807); C103_truncate_exact and C103_age_exact say exactly what they answer on infinities, C103_violated is the witness. All other methods are proved in full."
  },
  {
   "property": "C104",
   "status": "partial",
   "theorems": [
    "Props.C104_sum_partial",
    "Props.C104_add_partial",
    "Props.C104_swap_partial",
    "Props.C104_violated",
    "Props.C104_conditions"
   ],
   "note": "The code violates the property: a clock time overwrites the fractions behind it, 04:05:06 2 mons followed by 1.5 days loses half a day (C104_violated). Proved for all pairs without a clock time in the first or without a decimal point in the second text. C104_conditions shows that the conditions of the property are needed."
  },
  {
   "property": "C105",
   "status": "proved",
   "theorems": [
    "Props.C105_scan",
    "Props.C105_date",
    "Props.C105_iso",
    "Props.C105_search",
    "Props.C105_digits",
    "Props.C105_bound_needed"
   ],
   "note": "The model gives each loop a number of rounds; the theorems say that any larger number gives the same result, so that the bound cuts nothing off. C105_bound_needed shows that a smaller bound does change the result."
  },
  {
   "property": "C106",
   "status": "partial",
   "theorems": [
    "Props.C106_debug",
    "Props.C106_ago_partial",
    "Props.C106_violated",
    "Props.C106_conditions"
   ],
   "note": "Proved in full for debug builds. In a release build the code violates the property: -2147483648 days ago is -2147483648 days (C106_violated); proved for numbers of at most six digits in texts of up to 128 bytes."
  },
  {
   "property": "C107",
   "status": "partial",
   "theorems": [
    "Props.C107_timestamp_partial",
    "Props.C107_time",
    "Props.C107_violated"
   ],
   "note": "Proved for times of day, and for timestamps of texts without a decimal point after the clock time. With one the code violates the property: 12:00:00.25 Jan 2.5 2024 is half a second after noon, and 24:00:00 Jan 2.5 2024 is accepted (C107_violated)."
  },
  {
   "property": "C108",
   "status": "proved",
   "theorems": [
    "Props.C108_date",
    "Props.C108_timestamp",
    "Props.C108_time",
    "Props.C108_time_weekday"
   ],
   "note": "Complete as stated."
  },
  {
   "property": "C109",
   "status": "proved",
   "theorems": [
    "Props.C109_signs",
    "Props.C109_product",
    "Props.C109_product_inside",
    "Props.C109_quotient",
    "Props.C109_ends"
   ],
   "note": "Complete as stated. C109_ends shows that the restriction to the inside of the ranges is needed."
  },
  {
   "property": "C110",
   "status": "proved",
   "theorems": [
    "Props.C110_fields",
    "Props.C110_quarter",
    "Props.C110_truncate",
    "Props.C110_typmod",
    "Props.C110_justify",
    "Props.C110_order"
   ],
   "note": "Complete as stated; C26_interval_violated, C22_violated and C16_wraps_beyond_hypothesis show what happens beyond the stated ranges."
  },
  {
   "property": "C111",
   "status": "proved",
   "theorems": [
    "Props.C111_timestamp",
    "Props.C111_date"
   ],
   "note": "Complete as stated."
  },
  {
   "property": "C112",
   "status": "partial",
   "theorems": [
    "Props.C112_partial",
    "Props.C112_violated"
   ],
   "note": "Proved for all texts with one number and words without Julian labels and allballs. The general statement is false: C112_violated shows a clock time alone, a month with a clock time and a year with a clock time accepted, because the callers do not look at the return code for an incomplete date. Not covered: texts with several numbers that still name no day."
  },
  {
   "property": "C113",
   "status": "partial",
   "theorems": [
    "Props.C113_day_partial",
    "Props.C113_unit",
    "Props.C113_violated"
   ],
   "note": "Proved for every word but feb, which the table of the code lists as fe (C113_violated). Intervals: complete. Month names inside a date in one word (3-sep-2024) are not covered here; C61 reads them exactly."
  },
  {
   "property": "C114",
   "status": "proved",
   "theorems": [
    "Props.C114_steps",
    "Props.C114_possible",
    "Props.C114_there_and_back"
   ],
   "note": "Lists of month steps of any length; the total need not be assumed to fit i32, that follows from the range of timestamps."
  },
  {
   "property": "C115",
   "status": "proved",
   "theorems": [
    "Props.C115_date",
    "Props.C115_time",
    "Props.C115_timestamp",
    "Props.C115_interval"
   ],
   "note": "No hypothesis on the value; the buffer has any length (128 in the code, at least the 9 bytes of -infinity)."
  },
  {
   "property": "C116",
   "status": "proved",
   "theorems": [
    "Props.C116_words",
    "Props.C116_unit",
    "Props.C116_number"
   ],
   "note": "The value of every keyword whose value is converted is a field number (by the complete tables and the correctness of the cached search), and the unit in force in an interval text is one, at every point of the loop and in both builds. `TokenField::try_from` itself checks nothing; the model has a panic where the code would reinterpret an unknown number."
  },
  {
   "property": "C117",
   "status": "partial",
   "theorems": [
    "Props.C117_thursday_partial",
    "Props.C117_near",
    "Props.C117_violated"
   ],
   "note": "The code violates the property before Christ: Year is -1 for 1 BC, IsoYear is 0 there, a year that there is not (PostgreSQL adjusts both). Proved: after Christ the property as stated, before Christ the ISO year is exactly the year of the Thursday plus one; the days on which ISO year and year of the day can differ."
  },
  {
   "property": "C118",
   "status": "partial",
   "theorems": [
    "Props.C118_never",
    "Props.C118_cut_date",
    "Props.C118_cut_timestamp",
    "Props.C118_numeric"
   ],
   "note": "C118_never: such a text is never read. The second half is false: C118_cut_date and C118_cut_timestamp show that every accepted text with a separate t in it makes both parsers panic in every build when it is cut off behind the t, and C118_numeric that every numeric date (of numbers of up to nine digits, real day or not) with a t behind it does."
  },
  {
   "property": "C119",
   "status": "proved",
   "theorems": [
    "Props.C119_date",
    "Props.C119_timestamp",
    "Props.C119_time",
    "Props.C119_limit"
   ],
   "note": "Complete as stated. C119_limit shows that longer texts do not have the property: a text has at most 25 fields."
  },
  {
   "property": "C120",
   "status": "proved",
   "theorems": [
    "Props.C120_any_weekday"
   ],
   "note": "Complete as stated; the results are equal, errors and panics included."
  },
  {
   "property": "C121",
   "status": "partial",
   "theorems": [
    "Props.C121_noDigits_partial",
    "Props.C121_violated"
   ],
   "note": "The code violates the property: decode_time_only does not check that a time was given (PostgreSQL does), and every known word alone, such as ad, on, y or dow, is read as midnight, pm as noon (C121_violated goes through all of them). Proved: nothing but midnight, and noon with the word pm, is ever read from a text without digits."
  },
  {
   "property": "C122",
   "status": "partial",
   "theorems": [
    "Props.C122_zero",
    "Props.C122_noNumber_partial",
    "Props.C122_violated"
   ],
   "note": "The code violates the property: decode_iso8601_interval does not check at its end that a field was read (PostgreSQL does), so P followed by nothing but T is the interval of length zero; so are a full stop in the place of a number and, depending on uninitialised memory, a lone sign (C122_violated). Proved for every text without a digit: it is refused or read as zero (C122_zero); and P followed by one or more T is the only text without a digit and a full stop and without a sign at its end that is accepted."
  },
  {
   "property": "C123",
   "status": "proved",
   "theorems": [
    "Props.C123_zeros"
   ],
   "note": "For every text; C122_zero is the case of no digit at all."
  }
 ]
}