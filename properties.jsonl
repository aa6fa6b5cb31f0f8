{"id": "C01", "title": "Date::try_from_ymd accepts exactly the real calendar dates", "statement": "Date::try_from_ymd(y,m,d) returns Ok exactly when (y,m,d) names a day of the proleptic Gregorian calendar between 4714-11-24 BC and 5874897-12-31 (y<0 meaning |y| BC, y=0 not a year, 1<=m<=12, 1<=d<=length of that month under the 4/100/400 leap rule); every other triple gives Err, and no triple panics.", "quantifier": "all i32 triples (y,m,d), both build profiles (overflow checks on or off)", "why_tests_cant": "2^96 triples; tests cover a handful of dates and the boundary behaviour depends on every leap-year/month combination", "anchors": ["src/date.rs: Date::try_from_ymd", "src/common.rs: PgTime::validate_date, is_valid_julian, date2julian, days_of_month"]}
{"id": "C02", "title": "Dates are numbered consecutively from 2000-01-01", "statement": "i32::from(Date::try_from_ymd(2000,1,1)) is 0, and whenever day B is the calendar day immediately after day A then i32::from(B) = i32::from(A)+1. Hence the numbering is order preserving and injective: earlier days compare smaller.", "quantifier": "all valid calendar dates over 5.8 million years", "why_tests_cant": "2^31 dates; the conversion uses a magic-constant polynomial whose correctness on one date says nothing about another", "anchors": ["src/common.rs: date2julian", "src/date.rs: Date::try_from_ymd, Ord for Date"]}
{"id": "C03", "title": "Year/month/day of a Date invert its construction", "statement": "The year, month and day shown for a Date built by try_from_ymd(y,m,d) are y,m,d again, and conversely rebuilding a Date from the fields of any valid Date value gives the same value; the fields are always a real calendar date.", "quantifier": "all valid Date values and all valid (y,m,d)", "why_tests_cant": "bijectivity over the whole range cannot be enumerated by tests; julian2date is unsigned magic arithmetic", "anchors": ["src/common.rs: julian2date, date2julian", "src/date.rs: Date::format, Date::try_from_ymd"]}
{"id": "C04", "title": "Adding and subtracting days is exact, checked and invertible", "statement": "For a finite valid date, add_days(n) (sub_days(n)) is Ok with the date exactly n days later (earlier) iff that date is in the supported range, otherwise Err; sub_days undoes add_days; infinite dates are left unchanged; nothing panics.", "quantifier": "all Date values and all i32 day counts", "why_tests_cant": "2^64 combinations including every overflow boundary", "anchors": ["src/date.rs: Date::add_days, Date::sub_days, is_valid_date"]}
{"id": "C05", "title": "Difference of two dates", "statement": "For finite valid dates a and b, a.sub_date(b) is Ok with the exact signed number of days, it is antisymmetric, and b.add_days(a.sub_date(b)) = a; if either side is infinite the result is an Invalid error. No panic.", "quantifier": "all pairs of valid or infinite Date values", "why_tests_cant": "2^62 pairs; overflow of the i32 subtraction must be excluded for all pairs", "anchors": ["src/date.rs: Date::sub_date"]}
{"id": "C06", "title": "Date to Timestamp conversion", "statement": "Timestamp::try_from(date) for a valid finite date is Ok iff the date is before 294277-01-01, it is midnight of that date (date days times 86400000000 microseconds after 2000-01-01), it preserves order and both infinities, and converting back gives the same date.", "quantifier": "all valid and infinite Date values", "why_tests_cant": "range is 2^31 dates and both boundaries must be exact", "anchors": ["src/timestamp.rs: TryFrom<Date> for Timestamp", "src/date.rs: TryFrom<Timestamp> for Date"]}
{"id": "C07", "title": "Timestamp splits into Date and Time and reassembles", "statement": "For every valid finite timestamp, Date::try_from gives the day containing it, Option<Time>::try_from gives a time of day in [00:00, 24:00), and date.add_time(time) is the original timestamp; an infinite timestamp converts to the infinite date of the same sign and to no Time.", "quantifier": "all valid and infinite Timestamp values", "why_tests_cant": "9*10^18 values; negative timestamps use truncating division with a correction step", "anchors": ["src/parse.rs: timestamp2time, timestamp_modulo", "src/date.rs: TryFrom<Timestamp> for Date, Date::add_time", "src/time.rs: TryFrom<Timestamp> for Option<Time>"]}
{"id": "C08", "title": "Timestamp fields are well-formed and determine the timestamp", "statement": "Every valid finite timestamp has a year, month, day, hour, minute, second and microsecond that form a real calendar date and a clock time (0<=h<=23, 0<=m,s<=59, 0<=us<=999999); recombining the fields yields exactly the same timestamp, so two timestamps with equal fields are equal, and fields compare lexicographically in the same order as the timestamps.", "quantifier": "all valid finite Timestamp values", "why_tests_cant": "needs injectivity over 9*10^18 values", "anchors": ["src/parse.rs: timestamp2time", "src/common.rs: PgTime::to_timestamp", "src/timestamp.rs: Timestamp::format, Timestamp::date_part"]}
{"id": "C09", "title": "Timestamp::try_from_ymd_hms and Time::try_from_hms compute the named instant", "statement": "When the fields name a real AD calendar date and a clock time (24:00:00 and second 60 allowed) and the instant is in the timestamp range, Timestamp::try_from_ymd_hms is Ok with midnight of the day plus the time of day; otherwise Err. Time::try_from_hms accepts exactly the clock times 00:00:00 to 24:00:00 and returns the microseconds since midnight. For a seconds argument that is the f64 nearest to k microseconds, the microsecond count is exactly k.", "quantifier": "all i32 fields and all f64 seconds values", "why_tests_cant": "the f64 argument alone has 2^64 values and rounding to microseconds must be right for every one of the 60 million representable inputs", "anchors": ["src/timestamp.rs: Timestamp::try_from_ymd_hms", "src/time.rs: Time::try_from_hms"]}
{"id": "C10", "title": "Adding months to a timestamp keeps day and time, clamping to month end", "statement": "Adding an interval of n months (no days, no time) to a valid timestamp moves it to the calendar month n months later, keeps the time of day, and keeps the day of month except that it becomes the last day of the target month if that month is shorter; the result is Ok iff that instant is in the timestamp range.", "quantifier": "all valid timestamps, all i32 month counts", "why_tests_cant": "all combinations of month lengths, leap years, year roll-over, negative month counts and i32 wrap-around", "anchors": ["src/timestamp.rs: Timestamp::add_interval", "src/common.rs: days_of_month"]}
{"id": "C11", "title": "Adding days to a timestamp is exact", "statement": "Adding an interval of n days to a valid timestamp yields exactly n*86400 seconds later with the same time of day if that is in the timestamp range, and an error (never a wrong value, never a panic) otherwise.", "quantifier": "all valid timestamps, all i32 day counts", "why_tests_cant": "the code round-trips through a wrapping Julian day and an unsigned conversion, so the failing cases are sparse among 2^96", "anchors": ["src/timestamp.rs: Timestamp::add_interval", "src/common.rs: julian2date"]}
{"id": "C12", "title": "Timestamp plus interval is months, then days, then time, and stays in range", "statement": "timestamp.add_interval(iv) equals adding first the months, then the days, then the microseconds, fails if one of the steps leaves the timestamp range, and any Ok result is a valid timestamp; adding the zero interval is the identity; infinite timestamps absorb every interval.", "quantifier": "all timestamps and all intervals", "why_tests_cant": "three interacting components with range checks between them; 2^192 inputs", "anchors": ["src/timestamp.rs: Timestamp::add_interval, Timestamp::add_time", "src/date.rs: Date::add_interval"]}
{"id": "C13", "title": "Subtracting an interval is adding its negation", "statement": "timestamp.sub_interval(iv) equals timestamp.add_interval(-iv) whenever -iv exists and is an Overflow error otherwise; for an interval without months and days whose negation exists, add then sub of the same interval returns the original timestamp whenever the first is Ok.", "quantifier": "all timestamps and intervals", "why_tests_cant": "needs all extreme component values (MIN has no negation)", "anchors": ["src/timestamp.rs: Timestamp::sub_interval, sub_time", "src/interval.rs: Interval::negate", "src/date.rs: Date::sub_interval"]}
{"id": "C14", "title": "Timestamp difference is exact and justified", "statement": "For two valid finite timestamps a, b, a.sub_timestamp(b) is an interval with 0 months whose days*86400s + time is exactly a-b, with |time| < 24h and days and time of the same sign, and b plus that interval is a again; it is an error if one side is infinite.", "quantifier": "all pairs of valid timestamps", "why_tests_cant": "the i64 difference overflows only for pairs far apart in the range, out of reach of sampling", "anchors": ["src/timestamp.rs: Timestamp::sub_timestamp, sub_date", "src/interval.rs: Interval::justify_hours"]}
{"id": "C15", "title": "Interval addition, subtraction and negation form a checked group", "statement": "add_interval and sub_interval act component-wise, are Ok iff no component overflows and then exact; addition is commutative, associative where defined, has the zero interval as unit; negate is an involution where defined; a.sub_interval(b) = a.add_interval(-b) when -b exists; (a+b)-b = a.", "quantifier": "all intervals (2^128 values)", "why_tests_cant": "algebraic laws over 2^256 pairs including every overflow boundary", "anchors": ["src/interval.rs: Interval::add_interval, sub_interval, negate"]}
{"id": "C16", "title": "justify_hours keeps the length and normalises hours", "statement": "When the day count does not overflow, justify_hours returns an interval of the same total length (24h days), same months, |time| < 24h, and days and time never of opposite sign; it is idempotent and never panics.", "quantifier": "all intervals", "why_tests_cant": "sign-fixing branches interact with truncating division for every (time, day) pair", "anchors": ["src/interval.rs: Interval::justify_hours", "src/common.rs: time_modulo"]}
{"id": "C17", "title": "justify_days keeps the length and normalises days", "statement": "When the month count does not overflow, justify_days returns an interval with the same total length (30-day months), same time, |day| < 30 and months and days never of opposite sign; it is idempotent and never panics.", "quantifier": "all intervals", "why_tests_cant": "as C16, all pairs of months and days", "anchors": ["src/interval.rs: Interval::justify_days"]}
{"id": "C18", "title": "justify_interval keeps the length and makes all signs agree", "statement": "When day and month counts do not overflow, justify_interval returns an interval of the same total length with |time| < 24h, |day| < 30 and all three fields >= 0 or all three <= 0; it is therefore a canonical form: two intervals that compare equal justify to the same interval, and it is idempotent.", "quantifier": "all intervals and pairs of intervals", "why_tests_cant": "canonical-form claims quantify over all pairs", "anchors": ["src/interval.rs: Interval::justify_interval"]}
{"id": "C19", "title": "Interval comparison is a total order on length consistent with equality", "statement": "Interval comparison is reflexive, transitive, total and antisymmetric, agrees with the total length in microseconds (30-day months, 24-hour days), partial_cmp and cmp agree, and cmp is Equal exactly when the intervals are == (the contract of Ord and Eq).", "quantifier": "all pairs/triples of intervals", "why_tests_cant": "order laws quantify over triples of 2^128 values", "anchors": ["src/interval.rs: PartialOrd, Ord, From<Interval> for i128, derive(Eq, Hash)"]}
{"id": "C20", "title": "Time plus/minus interval is arithmetic modulo 24 hours", "statement": "time.add_interval(iv) and time.sub_interval(iv) always give a time in [00:00,24:00) congruent modulo 24h to the exact sum/difference when it fits 64 bits, ignore months and days, and sub undoes add for times in [00:00,24:00); no panic for any input.", "quantifier": "all i64 times and all intervals", "why_tests_cant": "wrapping arithmetic followed by truncating division, negative correction; boundary behaviour at every multiple of 24h", "anchors": ["src/time.rs: Time::add_interval, Time::sub_interval"]}
{"id": "C21", "title": "Interval to Time takes the fraction of a day; Time to Interval is faithful", "statement": "Time::from(iv) is the unique time in [00:00,24:00) congruent to the interval's time modulo 24h (so -2h is 22:00), Interval::from(t) has that time and no days or months, and Time::from(Interval::from(t)) = t for every time of day below 24:00. No panic.", "quantifier": "all intervals and times", "why_tests_cant": "all 2^64 time values with truncating division of negatives", "anchors": ["src/time.rs: From<Interval> for Time", "src/interval.rs: From<Time> for Interval"]}
{"id": "C22", "title": "Fractional-second precision rounds to the nearest multiple", "statement": "Forcing precision p in 0..6 on a Time, Timestamp or Interval gives the multiple of 10^(6-p) microseconds nearest to the value, ties away from zero; it is idempotent, monotone, odd (symmetric in sign), p=6 and -1 change nothing, and a valid timestamp stays in the valid range.", "quantifier": "all values and all precisions", "why_tests_cant": "rounding is correct or wrong per value; ties and sign symmetry must hold everywhere", "anchors": ["src/time.rs: Time::adjust_by_typmod", "src/timestamp.rs: Timestamp::adjust_by_typmod", "src/interval.rs: Interval::adjust_by_typmod"]}
{"id": "C23", "title": "Interval field-range typmod clears exactly the fields to the right", "statement": "Parsing/adjusting an interval with a field range (YEAR, YEAR TO MONTH, DAY, DAY TO HOUR, ... ) zeroes exactly the fields below the last named field, truncates that field toward zero, leaves larger fields unchanged, and rejects every range code that is not one of the SQL ones; it is idempotent.", "quantifier": "all intervals and all 2^15 range codes", "why_tests_cant": "behaviour for every range bit pattern and every component value", "anchors": ["src/interval.rs: Interval::adjust_by_typmod, interval_range, interval_precision"]}
{"id": "C24", "title": "Timestamp truncation gives the start of the enclosing unit", "statement": "For a valid finite timestamp t and a unit (microsecond ... millennium, week), truncate is the greatest start of such a unit that is <= t: the result is a unit start, is <= t, and no unit start lies strictly between it and t; if that start is before the first supported timestamp the call is an Err. It is idempotent and monotone.", "quantifier": "all valid timestamps and every unit", "why_tests_cant": "unit starts depend on the whole calendar (leap years, ISO weeks, BC years); errors only on sparse dates", "anchors": ["src/timestamp.rs: Timestamp::truncate", "src/common.rs: PgTime::truncate_*"]}
{"id": "C25", "title": "Coarser truncation absorbs finer truncation", "statement": "Truncating to a fine unit and then to a coarser one that is a union of fine units gives the same as truncating directly to the coarser one.", "quantifier": "all valid timestamps and all nested pairs of units", "why_tests_cant": "pairs of units times all timestamps", "anchors": ["src/timestamp.rs: Timestamp::truncate"]}
{"id": "C26", "title": "Truncating Date, Time and Interval", "statement": "Time truncation to hour/minute/second/ms gives the greatest multiple of the unit not above a time of day; interval truncation truncates toward zero at the named field and zeroes smaller fields, is idempotent and keeps the sign; date truncation agrees with truncating the midnight timestamp and never yields a later date; an infinite date is never turned into a finite one.", "quantifier": "all dates, times of day, intervals, and all units", "why_tests_cant": "all values and units, incl. infinities", "anchors": ["src/date.rs: DateTime for Date", "src/time.rs: DateTime for Time", "src/interval.rs: DateTime for Interval"]}
{"id": "C27", "title": "ISO week, ISO year and ISO weekday follow ISO 8601", "statement": "For every valid timestamp, date_part(IsoYear), date_part(Week) and date_part(IsoDow) are the ISO 8601 week date: the ISO year is the calendar year containing the Thursday of the same Monday-based week, the week number counts weeks from the one containing January 4, 1<=week<=53, and the triple identifies the day uniquely.", "quantifier": "all valid finite timestamps", "why_tests_cant": "the 400-year cycle of week/leap combinations, extended to negative years", "anchors": ["src/common.rs: date_to_iso_week, date_to_iso_year, julian_to_week_day", "src/timestamp.rs: Timestamp::date_part"]}
{"id": "C28", "title": "Weekday and day-of-year", "statement": "date_part(Dow) is 6 (Saturday) on 2000-01-01 and advances by one modulo 7 every day; date_part(Doy) is 1 on January 1 and advances by one each day within the year, ending at 365 or 366 according to the leap rule.", "quantifier": "all valid finite timestamps", "why_tests_cant": "holds for each of 10^8 days only by arithmetic argument", "anchors": ["src/common.rs: julian_to_week_day", "src/timestamp.rs: Timestamp::date_part"]}
{"id": "C29", "title": "Quarter, decade, century and millennium fields", "statement": "date_part(Quarter/Decade/Century/Millennium/Year) of a valid timestamp are: quarter q with months 3q-2..3q; AD century c covers years 100(c-1)+1..100c and BC century -c covers 100c..100(c-1)+1 BC with no century 0 (likewise millennium); decade d covers 10d..10d+9 (astronomical years); year is the AD year or minus the BC year, never 0; and each is constant exactly on the unit that truncate uses.", "quantifier": "all valid finite timestamps", "why_tests_cant": "signed truncating division on BC years; every residue class matters", "anchors": ["src/timestamp.rs: Timestamp::date_part"]}
{"id": "C30", "title": "age is well-formed, signed and antisymmetric", "statement": "For valid finite timestamps a>=b, a.age(b) has non-negative fields with month part in [0,12) within the year, day < 31, time < 24h; age(a,a)=0; age(b,a) = -age(a,b); b plus the months of the age does not pass a; and if no day borrow is needed b + age(a,b) = a. In general b + age(a,b) = a holds exactly if no day is borrowed, or the day of b exists in the month before that of a and that month is as long as the month of b, or it does not exist there and is the last day of its month.", "quantifier": "all pairs of valid timestamps", "why_tests_cant": "borrow loops across month lengths; quantifies over pairs", "anchors": ["src/timestamp.rs: Timestamp::age", "src/interval.rs: Interval::from_pgtime"]}
{"id": "C31", "title": "Integers are printed in decimal exactly", "statement": "The decimal text produced for any i32 inside formatted dates/intervals is its canonical decimal representation (a minus sign for negatives, no leading zeros), also for i32::MIN; zero-padded printing of a non-negative value gives the same digits left-padded with zeros to the requested width and never truncates; nothing is written beyond the reported end and nothing panics.", "quantifier": "all 2^32 values and all widths", "why_tests_cant": "in-place reversal loop over a buffer must be right for every digit count", "anchors": ["src/common.rs: pg_ltostr, pg_ltostr_zeropad"]}
{"id": "C32", "title": "Seconds with fraction are printed exactly", "statement": "The seconds text for sec in 0..60 and microseconds in 0..999999 is two digits, then nothing if the fraction is 0, otherwise a dot and at most six digits with no trailing zero; reading the text as a decimal number gives back exactly sec + us/10^6.", "quantifier": "all seconds and microsecond values, both padding modes", "why_tests_cant": "60 million combinations times two modes; trailing-zero logic writes the buffer backwards", "anchors": ["src/common.rs: append_seconds"]}
{"id": "C33", "title": "Date text is a faithful, unambiguous encoding", "statement": "For every valid finite Date, format in each style is Ok and consists of the year (>=4 digits), two-digit month and day in the order of the style, plus ' BC' exactly for years before 1 AD; different dates have different texts within a style and order.", "quantifier": "all valid dates, 5 styles, 3 orders", "why_tests_cant": "injectivity of the text encoding over 2^31 dates", "anchors": ["src/date.rs: Date::format, format_date"]}
{"id": "C34", "title": "Parsing formatted dates gives the date back", "statement": "For every valid finite date d, Date::try_from_str(d.format(style, order), order) = Ok(d), for every style and order.", "quantifier": "all valid dates, all styles and orders", "why_tests_cant": "requires the tokenizer, number heuristics (2-digit vs 4-digit years, Y/M/D guessing) and the calendar to agree on 2^31 dates", "anchors": ["src/date.rs: Date::format, Date::try_from_str", "src/parse.rs: parse_date_time, decode_date_time, decode_date, decode_number"]}
{"id": "C35", "title": "Parsing formatted times gives the time back", "statement": "For every time of day t in [00:00:00, 24:00:00], Time::try_from_str(t.format(style), -1, order) = Ok(t).", "quantifier": "all 86.4*10^9 times, all styles and orders", "why_tests_cant": "number of values; fraction printing and f64-based fraction parsing must agree for every microsecond", "anchors": ["src/time.rs: Time::format, Time::try_from_str", "src/parse.rs: decode_time_only, decode_time, parse_fractional_second, str2d"]}
{"id": "C36", "title": "Parsing formatted timestamps gives the timestamp back", "statement": "For every valid finite timestamp t, Timestamp::try_from_str(t.format(style, order), -1, order) = Ok(t) for every style and order.", "quantifier": "all valid timestamps, all styles and orders", "why_tests_cant": "9*10^18 values; combines date, time, month-name and era parsing", "anchors": ["src/timestamp.rs: Timestamp::format, try_from_str", "src/parse.rs: decode_date_time", "src/token.rs: DATE_TOKEN_TABLE"]}
{"id": "C37", "title": "Parsing formatted intervals gives the interval back", "statement": "For every interval iv whose format(style) is Ok, Interval::try_from_str(iv.format(style), -1, style) = Ok(iv), for every interval style.", "quantifier": "all intervals, 4 styles", "why_tests_cant": "2^128 intervals; sign conventions differ per style", "anchors": ["src/interval.rs: Interval::format, format_interval, try_from_str", "src/parse.rs: decode_interval, decode_iso8601_interval"]}
{"id": "C38", "title": "Binary serialisation round-trips", "statement": "Deserialising the binary (non human readable) serialisation of any Date, Time, Timestamp or Interval yields the same value, for sequence and for map encodings of Interval with the three fields in any order; duplicate, missing or unknown fields are errors.", "quantifier": "all values, all field orders / all finite sequences of map entries", "why_tests_cant": "quantifies over arbitrary map entry sequences", "anchors": ["src/serde.rs: Serialize/Deserialize impls"]}
{"id": "C39", "title": "Human-readable serialisation round-trips", "statement": "Deserialising the human readable serialisation of any valid Date or Timestamp (finite or infinite), any Time of day, and any Interval yields the same value.", "quantifier": "all valid values", "why_tests_cant": "depends on format/parse agreement for all values", "anchors": ["src/serde.rs", "src/date.rs", "src/time.rs", "src/timestamp.rs", "src/interval.rs"]}
{"id": "C40", "title": "Infinities survive text", "statement": "The infinite dates and timestamps format as 'infinity' and '-infinity' in every style and order, no finite date or timestamp has that text, and parsing these texts (any letter case) yields the same infinite value.", "quantifier": "all styles, orders, all finite values, all letter-case variants", "why_tests_cant": "absence of clashes quantifies over all finite values", "anchors": ["src/date.rs: format_special_date", "src/timestamp.rs: format_special_timestamp", "src/token.rs: EARLY, LATE", "src/parse.rs: decode_date_time"]}
{"id": "C41", "title": "Keyword recognition is exact lookup", "statement": "A word in the input is recognised as a date keyword (or interval unit) iff its lower-cased form, cut to 10 characters as stored, is in the keyword table, and it then has exactly the table's meaning; lookup terminates and never indexes outside the table.", "quantifier": "all byte strings", "why_tests_cant": "infinitely many words; binary search is only correct if the table is sorted for the comparison used", "anchors": ["src/token.rs: DATE_TOKEN_TABLE, DELTA_TOKEN_TABLE, binary search", "src/parse.rs: decode_special, decode_units"]}
{"id": "C42", "title": "Keyword caching never changes results", "statement": "Parsing gives the same result whatever strings were parsed earlier on the same thread: the per-field lookup caches are invisible.", "quantifier": "all histories of earlier lookups and all later lookups", "why_tests_cant": "quantifies over all call histories", "anchors": ["src/parse.rs: DATE_CACHE, DELTA_CACHE, decode_special, decode_units"]}
{"id": "C43", "title": "Splitting input into fields is total and bounded", "statement": "For every input byte string of at most 63 bytes, splitting it into fields terminates, returns at most 25 fields or an error, never panics and never writes outside the 128-byte work area; the fields contain, in order, only lower-cased non-space characters of the input.", "quantifier": "all byte strings up to the length bound", "why_tests_cant": "256^63 strings", "anchors": ["src/parse.rs: parse_date_time and helpers", "src/common.rs: MAX_DATE_LEN", "src/token.rs: MAX_DATE_FIELDS"]}
{"id": "C44", "title": "Parsing never panics", "statement": "Date/Time/Timestamp/Interval::try_from_str return Ok or Err for every input string; they never panic.", "quantifier": "all input strings, orders, styles, typmods", "why_tests_cant": "arbitrary strings; panics hide behind rare token sequences", "anchors": ["src/parse.rs", "src/date.rs: try_from_str", "src/time.rs: try_from_str", "src/timestamp.rs: try_from_str", "src/interval.rs: try_from_str"]}
{"id": "C45", "title": "Successfully parsed dates and timestamps are valid", "statement": "Any Date returned Ok by try_from_str is a real calendar date in range or an infinity; any Timestamp returned Ok is in range or an infinity; any Time returned Ok is in [00:00, 24:00].", "quantifier": "all input strings, orders and typmods", "why_tests_cant": "quantifies over all strings", "anchors": ["src/date.rs: Date::try_from_str", "src/timestamp.rs: Timestamp::try_from_str", "src/time.rs: Time::try_from_str"]}
{"id": "C46", "title": "Out-of-range clock fields are rejected on input", "statement": "A clock time hh:mm:ss[.f] in a parsed text is accepted iff hh:mm:ss is within 00:00:00 to 24:00:00 with minutes <= 59 and seconds <= 60; the parsed value is exactly the named time with the fraction rounded to the nearest microsecond.", "quantifier": "all digit strings hh:mm:ss.f", "why_tests_cant": "all digit strings", "anchors": ["src/parse.rs: decode_time, parse_fractional_second"]}
{"id": "C47", "title": "Interval multiplied or divided by simple factors", "statement": "iv.mul_f64(1.0) and iv.div_f64(1.0) return iv for |time| < 2^53; mul_f64(0.0) is the zero interval; mul by an integer factor small enough to be exact is component-wise multiplication; NaN and overflow give Err, division by zero gives Err; no panic.", "quantifier": "all intervals and all f64 factors", "why_tests_cant": "f64 rounding of 2^64 factors", "anchors": ["src/interval.rs: mul_f64, div_f64", "src/common.rs: timestamp_round"]}
{"id": "C48", "title": "Interval fields decompose the interval", "statement": "For an interval within the printable range, year*12+month equals the months, day the days and hour*3600s+minute*60s+second equals the time exactly; all year/month parts have the sign of the months and all time parts the sign of the time, |month|<12, |minute|<60, |second|<60; rebuilding from the fields gives the interval back; otherwise (hours outside i32) format, truncate and date_part return Overflow.", "quantifier": "all intervals", "why_tests_cant": "truncating division on both signs over 2^128 values", "anchors": ["src/interval.rs: Interval::to_pgtime, from_pgtime, date_part"]}
{"id": "C49", "title": "Integer conversions are faithful and order preserving", "statement": "i32::from(Date::from(v)) = v, Date::from(i32::from(d)) = d, likewise i64 for Time and Timestamp; comparisons of Date, Time, Timestamp agree with chronological order, and the infinities are below and above every finite value.", "quantifier": "all values", "why_tests_cant": "all 2^64 values; order of fields vs order of integers", "anchors": ["src/date.rs: From<i32>", "src/time.rs: From<i64>", "src/timestamp.rs: From<i64>"]}
{"id": "C50", "title": "Interval construction from components", "statement": "Interval::try_from_ymwd_hms(y,mo,w,d,h,mi,s) with finite s has months 12y+mo, days 7w+d and microseconds 3600e6*h+60e6*mi+round(1e6*s), exactly whenever these fit the field widths (and modulo 2^32/2^64 otherwise), and fails exactly for NaN or infinite seconds.", "quantifier": "all i32 components, all f64 seconds", "why_tests_cant": "2^256 inputs", "anchors": ["src/interval.rs: Interval::try_from_ymwd_hms"]}
{"id": "C51", "title": "Time and timestamp text is exactly the clock reading and calendar day", "statement": "For every time of day up to 24:00 and every valid finite timestamp, format in each style and order is Ok and consists of exactly the calendar day (with era and, in the Postgres style, weekday and month names) and the clock reading of that instant, in the order and with the separators of the style.", "quantifier": "all times of day, all valid timestamps, 5 styles, 3 orders", "why_tests_cant": "2^63 timestamps in 15 layouts; tests sample a handful", "anchors": ["src/time.rs: Time::format, format_time", "src/timestamp.rs: Timestamp::format, format_date_time", "src/common.rs: append_seconds, get_month_name, get_wday_name"]}
{"id": "C52", "title": "Interval text shows every field of the interval with its sign", "statement": "For every interval whose hours fit 32 bits, format in each of the four styles is Ok and consists of exactly the years and months of the month part, the days, and the hours, minutes and seconds of the time part, in the notation of that style: ISO 8601 designators, SQL year-month and day-time literals with forced signs when mixed, Postgres words with a plus sign after a negative field, and verbose words relative to the first field with 'ago'.", "quantifier": "all intervals with hours in 32 bits, 4 styles", "why_tests_cant": "2^128 intervals with 27 sign combinations and optional fields in 4 layouts", "anchors": ["src/interval.rs: Interval::format, format_interval, add_iso8601_int_part, add_postgres_int_part, add_verbose_int_part"]}
{"id": "C56", "title": "Numeric dates are read as the day they name, or rejected", "statement": "A text a/b/c of three digit strings of 1 to 10 digits (the middle one not of three digits) separated by two '-', two '/' or two '.', optionally followed by ' BC', is read by Date::try_from_str as exactly the calendar day obtained by assigning the numbers according to the date order (a first number of three or more digits is always the year), with one- and two-digit years placed in 1970-2069, year n BC being 1-n, and year 0 rejected; a text that names no calendar day or a day out of range is an error, never a panic.", "quantifier": "all digit strings, separators, date orders, eras", "why_tests_cant": "10^30 texts and 3 orders; the assignment depends on lengths, positions and the order", "anchors": ["src/parse.rs: decode_date, decode_num", "src/timestamp.rs: PgTime::validate_date", "src/date.rs: Date::try_from_str"]}
{"id": "C53", "title": "The larger units of an interval count whole units", "statement": "date_part of a well-formed interval (time of day part within i32 hours) gives, for year, decade, century and millennium, the number of whole years, decades, centuries and millennia in its month count, truncated toward zero and exact; quarter is one plus the number of whole quarters in the months left over by the years; units that only make sense for a calendar day (week, dow, isodow, doy, isoyear, julian, the time zone units) are errors.", "quantifier": "all intervals", "why_tests_cant": "2^128 intervals; the rounding direction differs only for negative or boundary month counts", "anchors": ["src/interval.rs: Interval::date_part"]}
{"id": "C54", "title": "Clock fields of times and timestamps", "statement": "For every time of day from 00:00 to 24:00 and every valid timestamp, date_part hour, minute and microsecond are exact integers with minute below 60, microseconds of the minute below 60000000, adding up to the time of day; second and millisecond agree with the microseconds to within a quarter microsecond and a thousandth of a millisecond in spite of floating point. Day and month of a timestamp are those of its calendar day, julian is the Julian day number plus the fraction of the day to within 2e-8. Other units of a time are errors. On infinite timestamps the growing units are the infinity of the same sign and the cyclic ones zero.", "quantifier": "all times, timestamps, units, build profiles", "why_tests_cant": "8.64e10 times and 9.4e18 timestamps; floating-point error must be bounded for all of them", "anchors": ["src/time.rs: Time::date_part", "src/timestamp.rs: Timestamp::date_part"]}
{"id": "C55", "title": "Epoch counts seconds", "statement": "date_part(Epoch) of a time of day is its seconds to within 1e-10; of an interval its seconds, counting 365.25 days per whole year, 30 days per remaining month and 86400 seconds per day, up to a relative error of 2^-50 in the sizes of the parts; of a timestamp the seconds since 1970-01-01.", "quantifier": "all times, intervals, timestamps", "why_tests_cant": "2^128 intervals with floating-point sums", "anchors": ["src/interval.rs: Interval::date_part", "src/time.rs: Time::date_part", "src/timestamp.rs: Timestamp::date_part"]}
{"id": "C57", "title": "Arithmetic between different types", "statement": "Date + Time is that time of that day, an error exactly when it leaves the timestamp range; infinite dates absorb times and intervals; Timestamp + Time and - Time are exact and undo each other; Date + Interval and - Interval are the timestamp operations on the day's midnight; Timestamp - Date is the exact time since that midnight and adding it back gives the timestamp; Time - Time is exact and adding it back gives the first time.", "quantifier": "all dates, times, timestamps, intervals, build profiles", "why_tests_cant": "pairs of 64-bit values; range edges", "anchors": ["src/date.rs: Date::add_time, add_interval, sub_interval", "src/timestamp.rs: Timestamp::add_time, sub_time, sub_date", "src/time.rs: Time::sub_time"]}
{"id": "C64", "title": "White space does not matter", "statement": "Two nonempty texts made of the same words (runs of non-space bytes) in the same order are read alike as a date, time, timestamp or interval whatever the white space before, between and after the words.", "quantifier": "all pairs of texts, orders, styles, type modifiers, cache contents, profiles", "why_tests_cant": "infinitely many paddings of infinitely many texts", "anchors": ["src/parse.rs: parse_date_time", "src/date.rs: Date::try_from_str", "src/time.rs: Time::try_from_str", "src/timestamp.rs: Timestamp::try_from_str", "src/interval.rs: Interval::try_from_str"]}
{"id": "C65", "title": "Foreign bytes are rejected", "statement": "A text with a byte that is neither printable ASCII nor ASCII white space (control characters, non-ASCII letters) is never read as a date, time, timestamp or interval, wherever the byte stands.", "quantifier": "all texts, all positions, all orders, styles, type modifiers", "why_tests_cant": "every position in every text", "anchors": ["src/parse.rs: parse_date_time"]}
{"id": "C66", "title": "Letter case does not matter", "statement": "Two texts that differ only in the case of ASCII letters are read as the same date, time, timestamp or interval, or both are rejected.", "quantifier": "all pairs of texts, orders, styles, type modifiers, cache contents, profiles", "why_tests_cant": "2^n case variants of every text", "anchors": ["src/parse.rs: parse_date_time, decode_date", "src/token.rs: date and delta token tables"]}
{"id": "C58", "title": "The twelve-hour clock on input", "statement": "A text hh:mm:ss[.f] (numbers of up to ten digits, a fraction of up to seven) followed, with or without a space, by AM or PM in any letter case is read by Time::try_from_str, and after a numeric date also by Timestamp::try_from_str (optionally before ' BC'), as that time of the twelve-hour clock: hours 1 to 11 are themselves in the morning and twelve more in the afternoon, 12 AM is hour 0 and 12 PM is hour 12; an hour above 12, a minute above 59, a second above 60 or a date that names no day in range is an error, never a panic.", "quantifier": "all digit strings, letter cases, separators, date orders, eras", "why_tests_cant": "all texts; the exceptional hours 0, 12 and 13 interact with seconds 60 and with the range of timestamps", "anchors": ["src/parse.rs: decode_date_time lines 1870-1880, decode_time_only lines 2389-2400", "src/token.rs: DATE_TOKENS am, pm"]}
{"id": "C59", "title": "Every written form of a day and of a clock time is read as what it names", "statement": "A day is written as three numbers with a separator (-, / or .) or as one run of digits yyyymmdd (two or more digits of year); a clock time as hh:mm:ss[.f], hh:mm, mm:ss.f, hhmmss[.f] or hhmm[.f]. Time::try_from_str on any form of clock time, optionally followed by AM or PM, Date::try_from_str on any form of day, optionally followed by ' BC' or by a clock time, and Timestamp::try_from_str on any form of day, alone or followed by a space or T and any form of clock time, AM or PM and ' BC', answer the time, day or instant that the text names, with the fraction rounded to the nearest microsecond and midnight if there is no clock time, and an error if the day does not exist, the result is out of range, or the hour, minute or second is out of range.", "quantifier": "all forms, digit strings, separators, letter cases, date orders, eras", "why_tests_cant": "the form is found by counting digits and dots in code that differs between the three types and between a space and a T before the time; only a proof over all digit strings shows that no branch forgets the range check", "anchors": ["src/parse.rs: decode_number_field lines 541-614, decode_number lines 418-538, decode_date_time lines 1808-1900, decode_time_only lines 2329-2415"]}
{"id": "C60", "title": "Intervals written as quantities with units", "statement": "Interval::try_from_str on a text of one to twelve whole numbers with units (-3 days, 90min, +2 Centuries; an optional sign, one to ten digits, an optional space, any spelling of any of the twelve units in any letter case), separated by single spaces and optionally followed by ago, answers the interval whose months, days and microseconds are the sums of the numbers times the months, days or microseconds of their units, all negated if ago is there; a text that uses one unit twice is an error. (At most 128 bytes; less than 2^31 months, days, minutes and seconds in the text without regard to signs; not the SQL style with a single leading minus sign, which there holds for all numbers.)", "quantifier": "all lists of quantities, signs, spellings, letter cases, interval styles", "why_tests_cant": "the result depends on sums over up to twelve units with different carries and on a mask with a bit per unit; tests try a few units at a time", "anchors": ["src/parse.rs: decode_interval lines 2696-2886, decode_interval_number_field lines 2466-2646, decode_units lines 2662-2685", "src/token.rs: DELTA_TOKENS"]}
{"id": "C67", "title": "Precision on input", "statement": "Reading any text with a precision of n (0 to 6) digits, by Time::try_from_str, Timestamp::try_from_str or (with no field range in the typmod) Interval::try_from_str, gives what reading it without precision gives, with the time rounded to the nearest multiple of 10^(6-n) microseconds, halves away from zero; infinite timestamps, months and days are kept, and a text that is rejected without precision is rejected with the same error.", "quantifier": "all texts, precisions, date orders, interval styles", "why_tests_cant": "all texts; rounding happens after decoding on three separate paths", "anchors": ["src/time.rs: try_from_str lines 105-130", "src/timestamp.rs: try_from_str lines 166-189", "src/interval.rs: try_from_str lines 535-585"]}
{"id": "C68", "title": "The field range of an interval type on input", "statement": "Interval::try_from_str with the typmod of the SQL range f TO g: a whole number without unit, with or without sign, counts units of g, the last field of the range, in every interval style (and seconds if there is no range); a text of quantities with units (see C60) is read as without range and the fields below g are then cleared, g itself truncated toward zero; a unit that occurs twice is an error.", "quantifier": "all SQL ranges, numbers, lists of quantities, interval styles", "why_tests_cant": "thirteen ranges times all numbers and units; the unit is chosen by a chain of range codes", "anchors": ["src/parse.rs: decode_interval_number_field lines 2466-2500", "src/interval.rs: try_from_str lines 535-585, adjust_by_typmod"]}
{"id": "C61", "title": "Days with a month name", "statement": "A month name (long or short, in any letter case) and two numbers, as one group with separators or as separate words, optionally with BC and, for timestamps, a clock time with optional AM or PM, is read as the day it names: a number of three or more digits is the year; of two shorter numbers the first is the year exactly in the order year-month-day. Days that do not exist or are out of range are errors.", "quantifier": "all month names and spellings, numbers (up to ten digits in one group, in days of up to sixty characters otherwise), separators, date orders, clock times", "why_tests_cant": "months times spellings times numbers times orders times layouts; the meaning of a number depends on the fields read before it", "anchors": ["src/parse.rs: decode_date lines 834-958, decode_number lines 678-823", "src/parse.rs: decode_number_token lines 1435-1619", "src/parse.rs: parse_date_time_for_alpha_begin lines 190-235"]}
{"id": "C62", "title": "Labelled numbers and Julian day numbers", "statement": "Numbers with the labels y, m and d before them, in any order and in any letter case, with or without something between, are the day with that year (as written, without completion to a century), month and day; j, jd or julian and a number is the day with that Julian day number (2451545 for 2000-01-01), on which BC has no effect. For timestamps a clock time with optional AM or PM may follow. Days that do not exist or are out of range are errors.", "quantifier": "all numbers of up to ten digits, orders of the labels, spellings, gaps, clock times, date orders", "why_tests_cant": "six orders times spellings times numbers; the labels share one state variable with the clock-time prefix, and the Julian flag changes the final check of the year", "anchors": ["src/parse.rs: decode_number_token lines 1435-1561, decode_string_and_special_token lines 1621-1791", "src/common.rs: julian2date, PgTime::validate_date lines 285-345"]}
{"id": "C69", "title": "Days by their number in the year", "statement": "A year and three digits from 001 to 366, separated by -, /, . or a space, are that day of that year counted from the first of January (day 366 of a year of 365 days is the first of January of the next year), for every date order with a year of three or more digits and for year-month-day otherwise, with or without BC; for timestamps a clock time with optional AM or PM may follow. A second part that is not all digits is no number of a day. Three digits that are no number of a day, the year 0 and days outside the range of the type are errors.", "quantifier": "all years of up to ten digits, numbers, separators, clock times, date orders", "why_tests_cant": "years times numbers times separators times orders; the first of January is computed as a Julian day before the range is checked, so that only years far outside the range reveal the overflow", "anchors": ["src/parse.rs: decode_number lines 714-730, decode_date, decode_number_token", "src/common.rs: PgTime::validate_date lines 321-327, julian2date, date2julian"]}
{"id": "C70", "title": "Fractions in interval texts", "statement": "A text of up to twelve numbers with units and signs, some with a fraction of one to seven digits, with or without ago, is read as the sum of the quantities: a fraction of a minute, hour or day is exact in microseconds; a fraction of a week or of a month of 30 days gives its whole days and the exact rest in microseconds; a fraction of a year, decade, century or millennium gives its whole months, the rest being dropped; a fraction of a second, millisecond or microsecond is rounded to the nearest microsecond. A unit twice, seconds with a fraction next to milliseconds or microseconds, and a fraction of more than seven digits are errors.", "quantifier": "all lists of quantities of at most two thousand million months, days, minutes and seconds, all fractions, signs, spellings and letter cases", "why_tests_cant": "twelve units times ten million fractions, in floating point: a single rounding below a whole number of days or months loses a day or a month, at fractions nobody tries", "anchors": ["src/parse.rs: decode_interval_number_field lines 2466-2646, adjust_fract_seconds, adjust_fract_days, decode_interval", "src/parse.rs: str2d lines 426-464"]}
{"id": "C71", "title": "Years-months, days and clock times in interval texts", "statement": "A text of up to twelve parts, in any order, each a quantity with a unit (with or without fraction), years-months as in 1-2, or a clock time with or without a number of days in front as in 3 04:05:06, each number with its own sign, with or without ago, is read as the sum of its parts: years-months give 12 months a year, the bare number is days, a sign holds for its own part only, ago negates everything. A unit set twice, twelve or more months beside years, sixty or more minutes or more than sixty seconds in a clock time are errors.", "quantifier": "all lists of parts of at most two thousand million months, days, minutes and seconds; all digits, signs, spellings, letter cases and orders", "why_tests_cant": "orders and combinations of parts interact through shared masks and fields; tests try a few combinations in the usual order", "anchors": ["src/parse.rs: scan, decode_interval lines 2696-2886, decode_interval_number_field, decode_time, adjust_fract_days"]}
{"id": "C73", "title": "ISO 8601 intervals are the sum of their numbers", "statement": "An interval such as P1Y2M3W4DT5H6M7.5S, P0001-02-03T04:05:06.7 or P00010203T040506 (a date part in one of three ways of writing, with or without a T and a time part in one of three ways of writing) is read as the sum of what its numbers stand for: years as 12 months, weeks as 7 days, M as months before and minutes behind the T, fractions of days, hours, minutes and seconds as that many microseconds up to half a microsecond of rounding, fractions of years cut off to months, fractions of weeks and of months (of 30 days) as days and the rest of a day, exactly; letters may be repeated and come in any order. A minus sign, or a letter that does not belong to the part, makes the text an error.", "quantifier": "all numbers and all fractions of up to seven digits (of numbers small enough that a 64-bit float holds them to the microsecond), all lists of items, all combinations of date and time part up to 128 bytes", "why_tests_cant": "the reader decides between three notations while reading; tests try one or two texts of each", "anchors": ["src/parse.rs: decode_iso8601_interval, parse_iso8601_number, iso8601_integer_width lines 2893-2945, 3080-3241", "src/interval.rs: try_from_str lines 545-580"]}
{"id": "C63", "title": "No part of a date or time may be given twice", "statement": "A text with two clock times, two dates, two month names, two weekday names, two of am/pm or two of ad/bc among its words is not accepted as a date, timestamp or time, whatever else the text contains and wherever the two words stand; nor is a text with a date word that contains two month names.", "quantifier": "all texts of any length and any bytes, all states of the keyword caches, all orders and type modifiers, both build profiles", "why_tests_cant": "the code keeps a mask of what has been seen and checks it after every field, in five decoders with many branches; a branch that forgets its mask lets the second value silently replace the first. Tests try a handful of duplicated texts", "anchors": ["src/parse.rs: decode_date_time lines 1794-1895, decode_time_only lines 2329-2411", "src/parse.rs: decode_date lines 834-958, 1222-1344", "src/parse.rs: parse_date_time lines 306-397"]}
{"id": "C74", "title": "Only known words are accepted", "statement": "A text with a word that is not in the vocabulary of its type is not accepted, whatever else it contains: dates and timestamps take the names of months and weekdays, am/pm, ad/bc, at/on, the labels of numbers, t, and words for special values; times take the same without months, weekdays and special values other than allballs; intervals take the units and ago. Dates, timestamps and times accept no word for a time zone, no difference from universal time, and none of now, today, tomorrow, yesterday and current.", "quantifier": "all texts of any length and any bytes, all words of letters outside the vocabulary (alone, or directly after a number or a clock time), all states of the keyword caches, all orders, styles and type modifiers, both build profiles", "why_tests_cant": "there are infinitely many words outside the tables, the tables are searched with a hand-written binary search and a cache, and the decoders list the word types they take in separate matches with a catch-all; a missing arm silently ignores a word. Tests try a few misspelt words", "anchors": ["src/parse.rs: decode_string_and_special_token lines 1621-1791 and 2222-2326, decode_interval lines 2696-2886", "src/token.rs", "src/parse.rs: parse_date_time lines 306-397"]}
{"id": "C72", "title": "One sign for all numbers of an interval in the SQL style", "statement": "A text of numbers with units whose first number has a minus sign and whose other numbers have no sign, as in -1 year 2 months 3 days, is read in the SQL style as the negative of the sum of all numbers, and in the other styles as the sum in which only the first number is negative; ago turns the result round, and a unit that occurs twice is an error.", "quantifier": "all lists of up to twelve quantities, all digits, spellings, letter cases and orders, totals of less than 2^31 months, days, minutes and seconds, all caches, both build profiles", "why_tests_cant": "the rule acts on broken-down fields after several units were added into one field and after whole seconds were carried out of the fraction; tests use one unit per field, where the order of these steps cannot be seen", "anchors": ["src/parse.rs: decode_interval lines 2696-2886"]}
{"id": "C75", "title": "How clock times with labels are read", "statement": "Numbers after the labels h, mm and s (the seconds perhaps with a fraction; after a day and an hour also m for minutes), in any order and any letter case, some of them left out, are the clock time with that hour, minute and second, 0 for those left out, with AM or PM as for other clock times; alone they are a time of day, after a day (written in numbers or itself with labels) a timestamp. A clock time out of range is an error.", "quantifier": "all lists of parts without a repeated label, all numbers of up to ten digits, fractions of up to seven digits, all letter cases and gaps, all days, orders, caches, both build profiles", "why_tests_cant": "the label m means months or minutes depending on which fields have been seen; every label writes one field and one mask, and a test of one order of labels does not see a mask that is wrong for another order", "anchors": ["src/parse.rs: DecodeDateTimeCtx::decode_number_token lines 1435-1561", "src/parse.rs: DecodeTimeOnlyCtx::decode_number_token lines 2014-2157", "src/common.rs: time2t lines 390-394"]}
{"id": "C76", "title": "The fraction of a Julian day number is the time of day", "statement": "A Julian day number with a fraction of up to seven digits is the instant that fraction of a day after the midnight that starts the day; as a date it is that day, as a time of day the fraction alone. A longer fraction is an error, and so is a clock time after the fraction.", "quantifier": "all Julian day numbers of up to ten digits, all fractions, all spellings of the label, with and without BC, all orders, caches, both build profiles", "why_tests_cant": "the time is computed with floating-point numbers and cut off; whether a fraction comes out exact depends on its binary expansion, about one in sixteen does not", "anchors": ["src/parse.rs: DecodeDateTimeCtx::decode_number_token lines 1508-1532", "src/parse.rs: DecodeTimeOnlyCtx::decode_number_token lines 2102-2126", "src/parse.rs: str2d lines 426-464", "src/parse.rs: date2time lines 1050-1058"]}
{"id": "C77", "title": "Infinity is read exactly from its name", "statement": "A text is read as infinity if and only if it consists of the word infinity, and as minus infinity if it is this word after a minus sign; a text that names a day is never read as infinity, a text that names infinity never as a day, and a text without digits is infinity, minus infinity or an error.", "quantifier": "all texts, all caches, orders, type modifiers, both build profiles", "why_tests_cant": "infinity is a flag that other words of the same text may set back or leave; which texts end in which state depends on all their fields", "anchors": ["src/parse.rs: DecodeDateTimeCtx::decode_string_and_special_token", "src/parse.rs: decode_date_time", "src/date.rs: Date::try_from_str", "src/timestamp.rs: Timestamp::from_pgtime_with_type"]}
{"id": "C79", "title": "ISO texts sort like the values", "statement": "For dates and timestamps of the years 1 to 9999, formatted in the ISO or XSD style, and for times in every style: one text is lexicographically smaller than another if and only if its value is earlier, whatever the length of the fractions of a second.", "quantifier": "all dates and timestamps of the years 1 to 9999, all times from 00:00 to 24:00, all orders, both build profiles, any content of the output buffer", "why_tests_cant": "a relation between pairs of outputs; sorting relies on the padding of every field and on where the fraction of a second is cut, for all pairs of values", "anchors": ["src/date.rs: Date::format, format_date", "src/timestamp.rs: Timestamp::format, format_date_time", "src/time.rs: Time::format, format_time"]}
{"id": "C78", "title": "Adding intervals respects order and sums", "statement": "As long as no step leaves the range of timestamps: adding the same interval without months to two timestamps keeps their order and their distance; adding months keeps the order of the days (strictly for days 1 to 28 of a month) and never reverses two timestamps unless the earlier one has the later clock time at a month end; adding two intervals one after the other is the same as adding their sum if the second has no months, or if the first has only months and the day is at most 28.", "quantifier": "all timestamps, all intervals, both build profiles", "why_tests_cant": "relations between several calls; the month step clamps the day, so each law holds in some cases only and the cases have to be found", "anchors": ["src/timestamp.rs: Timestamp::add_interval", "src/interval.rs: Interval::add_interval"]}
{"id": "C80", "title": "A time of day is read from a text that also names a day", "statement": "Time::try_from_str of a day written with separators, a space and a clock time with colons (optionally AM or PM, and BC) answers the clock time if the numbers name a real day of any year up to 2147483647 and the clock time is allowed, and an error otherwise. The timestamp read from the same text is the date plus the time of day read from it. Days followed by the letter T or by a clock time without colons, days without separators, and days after the clock time are refused.", "quantifier": "all numbers and separators, all clock times with and without a fraction, all date orders, both build profiles", "why_tests_cant": "three parsers have to agree on one text; the decoder of times has its own copy of the date code with other conditions", "anchors": ["src/time.rs: Time::try_from_str", "src/parse.rs: decode_time_only", "src/parse.rs: DecodeTimeOnlyCtx::decode_date_token"]}
{"id": "C81", "title": "The order of intervals agrees with their arithmetic", "statement": "Whenever the results exist: adding or subtracting the same interval keeps the result of Interval::cmp, negating and subtracting from the same interval reverse it, each justify function gives an interval that compares Equal, multiplying by a positive whole number keeps the order and by a negative one reverses it. Intervals with the same months lead from one timestamp to timestamps in their order, and differences from one timestamp are in the order of the timestamps; neither holds with different months or for age.", "quantifier": "all intervals, all timestamps, all whole factors, both build profiles", "why_tests_cant": "relations between several calls on all pairs of values; months and days have no fixed ratio in the calendar, so some of the laws fail", "anchors": ["src/interval.rs: Interval::add_interval, Interval::sub_interval, Interval::negate, Interval::mul_f64, justify_*", "src/interval.rs: Ord for Interval", "src/timestamp.rs: Timestamp::add_interval, Timestamp::sub_timestamp"]}
{"id": "C82", "title": "The text of a timestamp read as a date or a time of day", "statement": "Reading the text of a finite timestamp with Date::try_from_str gives the date that Date::try_from(timestamp) gives, and with Time::try_from_str the time of day that the conversion to Time gives, with the same style and order.", "quantifier": "all finite timestamps, all styles and orders, both build profiles for each call, all cache states", "why_tests_cant": "ties four functions of three types together for every timestamp and every style; the outcome depends on style, order, month and era", "anchors": ["src/timestamp.rs: Timestamp::format", "src/date.rs: Date::try_from_str, TryFrom<Timestamp> for Date", "src/time.rs: Time::try_from_str, TryFrom<Timestamp> for Option<Time>"]}
{"id": "C83", "title": "A date and a timestamp are read alike", "statement": "Every text is refused by both Date::try_from_str and Timestamp::try_from_str, or is the same infinity for both, or names a day and a non-negative time after its start: the date is that day and the timestamp that time after the start of the day, each if in range.", "quantifier": "all texts, orders and cache states, both build profiles", "why_tests_cant": "relates two parsers on every text, including texts that no grammar describes; a test can only compare them on chosen texts", "anchors": ["src/date.rs: Date::try_from_str", "src/timestamp.rs: Timestamp::try_from_str, Timestamp::from_pgtime_with_type", "src/parse.rs: decode_date_time", "src/common.rs: PgTime::to_timestamp, time2t"]}
{"id": "C84", "title": "The interval style decides only the signs on input", "statement": "Interval::try_from_str gives the same result for every text with any two interval styles other than SQL standard, and for every text without a minus sign with all four styles. With the SQL style a text gives what the other styles give, or an interval whose months, days and time all have one sign.", "quantifier": "all texts, styles and cache states; for the first two all type modifiers and both build profiles", "why_tests_cant": "compares runs of the parser on every text, including texts that no grammar describes", "anchors": ["src/interval.rs: Interval::try_from_str", "src/parse.rs: decode_interval"]}
{"id": "C85", "title": "The orders month-day and day-month differ only by exchanging month and day", "statement": "If Date::try_from_str reads a text that does not contain the label m both with the order MDY and with the order DMY, the dates are the same, or have the same year and month and day exchanged (each from 1 to 12), or the text has a single number for month and day beside a time. Timestamps without labels of a clock: the same time after the start of such days.", "quantifier": "all texts without the label m (timestamps: without the labels of a clock), cache states, both build profiles", "why_tests_cant": "compares two runs of the parser on every text: all token sequences, month names, labels, joined dates and digit strings; tests sample a few formats", "anchors": ["src/date.rs: Date::try_from_str", "src/timestamp.rs: Timestamp::try_from_str", "src/parse.rs: decode_number", "src/parse.rs: decode_date_time"]}
{"id": "C86", "title": "What the field range of an interval type decides on input", "statement": "Interval::try_from_str with a type modifier for INTERVAL f TO g (n). (1) Only the last field g matters: with the same g the result is the same for every text, unless one of the ranges is MINUTE TO SECOND and the text has a colon. (2) A range to SECOND without precision gives the same result as no type modifier, with the same exception. (3) If the text ends in a word other than 'invalid' and 'undefined' (a unit, ago, the last letter of an ISO 8601 interval) or is made of quantities, years-months and clock times, then reading with a type modifier is reading without one and adjusting the interval to the type. (4) Under MINUTE TO SECOND, a:b in such a text is read like 0:a:b.", "quantifier": "all texts (all byte strings, for 1 and 2), all field ranges, precisions, styles, cache states, both build profiles", "why_tests_cant": "compares runs of the parser under two types on every text, including erroneous ones and the errors they give; tests use a few literal intervals of one type each", "anchors": ["src/interval.rs: Interval::try_from_str", "src/parse.rs: decode_interval", "src/parse.rs: decode_time", "src/interval.rs: Interval::adjust_by_typmod"]}
{"id": "C87", "title": "Calculating does not panic", "statement": "No method that computes with values panics, in a debug or a release build, on any valid value, finite or infinite: on Timestamp add_interval, sub_interval, add_time, sub_time, sub_timestamp, sub_date, age, truncate, date_part, the conversions and format; on Date add_days, sub_days, sub_date, add_interval, sub_interval, add_time, truncate, date_part, the conversion and format; on Time (24:00 included) add_interval, sub_interval, truncate, date_part and format; on Interval add_interval, sub_interval, negate, the justify methods, truncate, date_part, multiplication, division, the conversion to Time and format. An impossible result is an Err.", "quantifier": "all valid timestamps, dates, times of day, all intervals, all units, styles, orders, both build profiles", "why_tests_cant": "the panics found lie on three days in 300000 years, in a band of 120296 days reached only by subtracting, in differences of extreme timestamps and at the ends of the integer ranges", "anchors": ["src/timestamp.rs", "src/date.rs", "src/time.rs", "src/interval.rs", "src/datetime.rs"]}
{"id": "C88", "title": "Truncating commutes with adding whole units", "statement": "For a valid timestamp t, a unit u and a number of months n that is a multiple of the length of u in months (1 for month and all smaller units, 3 for quarter, 12 for year, 120, 1200 and 12000 for decade, century and millennium): if t + n months and truncate(u, t) are Ok, then truncate(u, t + n months) and truncate(u, t) + n months are Ok with the same value or are both errors. For units up to the day the same holds for any number of days, and for any multiple of the unit as a duration; there all four calculations are Ok if t and the sum are in range. For weeks it holds for multiples of seven days outside the days at the end of December that belong to ISO week 1 of the next year.", "quantifier": "forall profile, valid timestamp, unit, multiple, n in 32 bits", "why_tests_cant": "Tests truncate or add; that the two commute over leap days, month ends, negative years and century boundaries needs all timestamps, units and multiples.", "anchors": ["src/timestamp.rs: Timestamp::truncate, Timestamp::add_interval"]}
{"id": "C89", "title": "No sequence of operations leaves the ranges", "statement": "Take every value a program can make from the public constants, constructors, text parsers and methods of Date, Time and Timestamp, applied any number of times in any order with arbitrary intervals and numbers (all but the raw conversions from integers and binary deserialisation). (1) Every date is in the supported range 4713 BC to 5874897 or infinite. (2) Every timestamp is in the supported range, infinite, or the one instant just after the range (midnight after 31 December 294276). (3) Every time of day is at least 0 and at most 24:00:01 in a debug build, 47:59:59.999998 in a release build. (4) The exceptions in 2 and 3 are really made, so the supported ranges proper are left. (5) In a release build none of the methods of these types (adding, subtracting, differences, age, truncate, date_part, conversions, format) panics on a value so made.", "quantifier": "all finite programs over the public operations (an inductive closure), all intervals, both build profiles", "why_tests_cant": "the claim is about every sequence of operations of any length; a test runs a few sequences, and the exceptions need one particular text or an interval near the 64-bit limit", "anchors": ["src/timestamp.rs", "src/date.rs", "src/time.rs"]}
{"id": "C90", "title": "Interval literals of the SQL standard", "statement": "An interval literal is years-months as in 1-2, a clock time with or without a number of days in front as in 3 04:05:06, or both; with or without ago at the end. With a minus sign in front, Interval::try_from_str reads it in the SQL standard style as the negative of the whole literal; in the other styles the sign holds for the first number only: the years-months, the days, or the clock time if there are no days. Without a sign it is read as it stands in every style. Twelve or more months, sixty or more minutes, more than sixty seconds are errors.", "quantifier": "all literals with numbers of up to ten digits and at most two thousand million months, days, minutes, seconds; fractions of up to seven digits; all styles, cache states, both build profiles", "why_tests_cant": "Tests read a few literals; that the sign spreads over exactly the right fields in each style, with carries of the rounded fraction, is a claim about all of them.", "anchors": ["src/parse.rs: decode_interval", "src/interval.rs: Interval::try_from_str"]}
{"id": "C91", "title": "Fields of a truncated value", "statement": "Timestamp::truncate keeps exactly those fields (as read by date_part) that cannot change within one unit: to hours it keeps the hour and all fields of the day, to months the month, quarter, year, decade, century and millennium, to decades the decade only, to centuries the century and millennium. Fields that count within the unit are at their start: clock fields 0, day, month, quarter and day of the year 1. To milliseconds and seconds the microseconds of the minute are rounded down. To weeks the ISO year and week are kept and the day is Monday 00:00. Times of day below 24:00 likewise.", "quantifier": "all valid finite timestamps and times of day below 24:00, all units truncate accepts; both build profiles", "why_tests_cant": "Tests compare a few dates; agreement of two separately written calendars of units, on all years AD and BC and for all pairs of units, is a claim about every timestamp.", "anchors": ["src/timestamp.rs: Timestamp::truncate", "src/timestamp.rs: Timestamp::date_part", "src/time.rs: Time::truncate", "src/time.rs: Time::date_part"]}
{"id": "C92", "title": "Kinds of errors", "statement": "The error Empty is returned by the four try_from_str for the text without bytes and for no other text. The constructors fail with Overflow only. Sums, differences, negations and products of intervals fail with Overflow only, and a quotient fails with Invalid, exactly for a zero divisor. Asking for a field fails with Invalid only. A result outside the range of its type is reported as Overflow.", "quantifier": "for every text and every state of the thread's caches; for all arguments; for both builds", "why_tests_cant": "An error kind is the last thing a test looks at, and the paths that make an error are spread over 150 places of the code; that no text but the empty one leads to Empty is a statement about all texts.", "anchors": ["src/error.rs:21-79", "src/parse.rs:306-325", "src/date.rs:69-190", "src/time.rs:52-70", "src/timestamp.rs:83-147", "src/timestamp.rs:258-308", "src/interval.rs:118-212", "src/interval.rs:289-388"]}
{"id": "C93", "title": "Debug and release builds agree unless the debug build panics", "statement": "Whatever the debug build of a public operation returns, value or error, its release build returns as well: the constructors, the four parsers (which also leave the same caches behind), the texts, the arithmetic and conversions of Date, Time, Timestamp and Interval, truncation, fields, rounding, and the serde impls. The builds differ only where the debug build panics.", "quantifier": "for every argument, valid or not, every text, every state of the thread's caches and every content of the text buffer", "why_tests_cant": "Tests run in one build. That no result ever depends on the build, short of a panic, is a statement about every arithmetic operation on every path; cargo test --release repeats only the inputs of the tests.", "anchors": ["src/date.rs:46-420", "src/time.rs:40-330", "src/timestamp.rs:70-920", "src/interval.rs:100-1110", "src/parse.rs:1560-3040", "src/serde.rs:23-270"]}
{"id": "C94", "title": "Subtracting the age from the later timestamp", "statement": "Let a and b be timestamps with b not after a. Then a - age(a, b) is b, moved back by as many days as the day of the month of a exceeds the length of the month that is reached by taking the months of the age off a; this is the month of b, or the one after it if the day and time of a in its month are before those of b. If that is out of range there is no result. So a - age(a, b) = b exactly if the day of a exists in that month, and always if it is at most 28. Adding age(b, a) to a is the same.", "quantifier": "for all pairs of valid finite timestamps with b <= a; both builds", "why_tests_cant": "Which pairs come back depends on the lengths of two months, the days and the times of day at once; a test tries a few pairs, mostly with small days, where all is well.", "anchors": ["src/timestamp.rs:375-482", "src/timestamp.rs:258-308", "src/timestamp.rs:310-330"]}
{"id": "C95", "title": "What deserialisation accepts", "statement": "A deserialised Date, Time or Timestamp is in the range of its type or infinite. From text this holds, with the checks of try_from_str. Apart from text, a Date is deserialised from 32-bit integers only, a Time or Timestamp from 32-bit and 64-bit integers only; the value is the integer shown; all else is refused, without a panic.", "quantifier": "for every text, every integer, every other kind of value a deserializer can show; both builds, all caches", "why_tests_cant": "Round-trip tests deserialise only what was serialised from a valid value before; integers outside the range, which arrive from damaged or foreign data, are never tried.", "anchors": ["src/serde.rs:40-79", "src/serde.rs:96-135", "src/serde.rs:154-193", "src/serde.rs:264-328"]}
{"id": "C96", "title": "The fields of values sort like the values", "statement": "For two valid timestamps, s is before t exactly if the list of fields (year, month, day, hour, minute, microseconds) of s, as date_part gives them, is lexicographically before that of t; the same holds for (year, day of year, hour, minute, microseconds) and for (ISO year, week, ISO weekday, hour, minute, microseconds). Times sort by (hour, minute, microseconds). Intervals in the form justify_interval produces sort by (year, month, day, hour, minute, microseconds). The fields year, decade, century, millennium, ISO year and Julian day (with its binary64 fraction) never decrease from an earlier to a later timestamp.", "quantifier": "all pairs of valid timestamps, of times up to 24:00, of justified intervals; both build profiles", "why_tests_cant": "Tests compare fields of single values; that no pair of the 9.4e18 timestamps is sorted wrongly by its fields, across BC/AD, ISO year boundaries and floating-point rounding, is a statement about all pairs.", "anchors": ["src/timestamp.rs:753-866", "src/time.rs:280-306", "src/interval.rs:1015-1057", "src/common.rs:419-526"]}
{"id": "C97", "title": "A timestamp behaves like the pair of its date and its time of day", "statement": "Let a valid timestamp t convert to the date d and the time u. Timestamps compare as such pairs do (date first). The clock fields of t are those of u and the calendar fields those of d. Truncating t to a clock unit truncates u and keeps d; truncating it to a day or a longer unit truncates d (with the same errors) and leaves midnight. If d plus n days and u make a timestamp, it is t plus n days. Adding months to t adds them to d (with the same errors) and keeps u. Adding microseconds adds them to u modulo a day and carries the rest into d. Except in the Postgres style the text of t is the text of d, a blank (T in the XSD style) and the text of u, with BC last.", "quantifier": "all valid timestamps, units, 32-bit numbers of days and months, 64-bit numbers of microseconds without overflow, all styles but Postgres and all orders; both build profiles", "why_tests_cant": "The operations of the three types are implemented by different code; that they agree for every timestamp, unit and shift cannot be enumerated.", "anchors": ["src/timestamp.rs:258-310", "src/timestamp.rs:753-913", "src/date.rs:115-155", "src/date.rs:383-427", "src/time.rs:149-175", "src/time.rs:234-320"]}
{"id": "C98", "title": "A numeric date at the beginning of a text decides the day", "statement": "If a text whose first word is, or starts with, three numbers separated by two '-', two '/' or two '.' (the middle one not of three digits) is accepted by Date::try_from_str, then the three numbers name a calendar day according to the date order, in the era BC only if the text says so, and always if one of its words is bc, and the result is exactly that day, or an infinity that the text names. Timestamp::try_from_str and Time::try_from_str accept such a text only if the three numbers name a calendar day. Nothing that follows can replace a day that does not exist or change one that does.", "quantifier": "all texts that start with a numeric date, whatever follows it; all date orders, precisions, cache states; both build profiles", "why_tests_cant": "What follows the date is an arbitrary text of words, numbers, labels, signs and special values, each handled by a different branch of the field loop.", "anchors": ["src/parse.rs:1222-1892", "src/parse.rs:1925-2415", "src/date.rs:201-249"]}
{"id": "C99", "title": "Clock time, weekday, era, am/pm and noise words may stand anywhere among the words of a date", "statement": "For Date::try_from_str and Timestamp::try_from_str: take a text of month names, numbers of at most five digits, clock times, weekday names, am/pm, ad/bc and the words at/on, as separate words, possibly after a date in one word at the beginning. Moving the clock times, weekdays, am/pm, ad/bc, at and on to other places among the words (not before the leading date) does not change the result: both texts are accepted with the same value or neither is. Before a date in one word a clock time, weekday, am/pm or ad/bc is never accepted.", "quantifier": "all texts of such words (also those that are rejected), all rearrangements; all date orders, precisions, cache states; both build profiles", "why_tests_cant": "The number of rearrangements grows factorially with the words and every pair of neighbouring kinds of words goes through different branches that share one mutable record.", "anchors": ["src/parse.rs:678-823", "src/parse.rs:834-958", "src/parse.rs:1222-1892"]}
{"id": "C100", "title": "Within a style, different values have different texts", "statement": "For each of Date, Time, Timestamp and Interval: if format gives the same text for two values in the same style (and date order), the values are equal. Dates and timestamps include the infinities; times may be formatted in different styles; intervals are equal in months, days and microseconds separately, in each of the four interval styles.", "quantifier": "all pairs of dates and timestamps (finite and infinite), all pairs of times up to 24:00, all pairs of intervals whose text is defined (hours fit 32 bits; outside ISO 8601 neither days nor hours are -2^31), all styles and orders, all previous buffer contents; both build profiles", "why_tests_cant": "It is a statement about all pairs of values; signs, omitted zero fields, `ago` and the trimmed fraction make collisions plausible only for rare combinations.", "anchors": ["src/date.rs: Date::format, format_date, format_special_date", "src/time.rs: Time::format, format_time", "src/timestamp.rs: Timestamp::format, format_date_time, format_special_timestamp", "src/interval.rs: Interval::format, format_interval"]}
{"id": "C101", "title": "Another clock time in a text moves the value by the difference", "statement": "If a text with a clock time hh:mm:ss[.f] is accepted and the clock time is replaced by another one hh':mm':ss'[.f] that is a time of day, of the same length and with the same fraction, whatever the rest of the text says: Date::try_from_str gives the same date; Time::try_from_str gives the old time plus the difference of the two clock times; Timestamp::try_from_str gives the old timestamp plus the difference, refuses the text if that is outside the range of timestamps, and gives the same value if the old one is infinite. If the text says am or pm, both hours must be before noon, both 12, or both later.", "quantifier": "all texts with a clock time at the beginning of a word or after the letter T, alone or at the end of a numeric date (am or pm may be attached) and no word ending in a sign before it, all replacements of the same length, all date orders, all states of the keyword caches, no type modifier; both build profiles", "why_tests_cant": "The rest of the text is arbitrary: labels, numbers, dates, weekdays, eras and reserved words in any order before and after the clock time; tests fix a handful of them.", "anchors": ["src/date.rs: Date::try_from_str", "src/time.rs: Time::try_from_str", "src/timestamp.rs: Timestamp::try_from_str", "src/parse.rs: parse_date_time, decode_date_time, decode_time_only, decode_time"]}
{"id": "C102", "title": "Another numeric date at the beginning of a text moves the value by the days between", "statement": "If a text that starts with a numeric date (three numbers with separators - / or .) is accepted and the date is replaced by another one with numbers of the same lengths, whatever the rest of the text says: if the new numbers name no day, the new text is refused; otherwise Date::try_from_str gives the day of the new numbers (or refuses it if it is outside the range of dates), Time::try_from_str gives the same time, and Timestamp::try_from_str gives the old timestamp plus the days between, or refuses the text if that is outside the range of timestamps. Infinite results stay. The era is the same for both dates, and BC only if the text says so.", "quantifier": "all texts that start with a numeric date (blanks before it, anything after it that is not a digit or a separator of the dates), all replacements of the same lengths with numbers up to 2147483647, all date orders, all states of the keyword caches; both build profiles; times: all type modifiers; timestamps: no type modifier and no label of an hour, minute or second in the text", "why_tests_cant": "The rest of the text is arbitrary: clock times, labels, numbers, further dates, weekdays, eras and reserved words in any order after the date; tests fix a handful of them.", "anchors": ["src/date.rs: Date::try_from_str", "src/time.rs: Time::try_from_str", "src/timestamp.rs: Timestamp::try_from_str", "src/parse.rs: parse_date_time, decode_date_time, decode_time_only, decode_date", "src/datetime.rs: PgTime::validate_date"]}
{"id": "C103", "title": "Infinite dates and timestamps are not calculated with as if they were instants", "statement": "On an infinite date or timestamp every method that gives a date or timestamp (adding and subtracting days, times and intervals, precision, conversion, truncation) gives the infinity of the same sign or an error, never a finite value; every method that gives a difference (sub_date, sub_timestamp, age) gives an error; the time of day of an infinite timestamp is None. No method makes an infinity out of finite values.", "quantifier": "all infinite dates and timestamps, all intervals, times of day, day counts, type modifiers, units and finite second operands; both build profiles", "why_tests_cant": "The second operands range over all intervals and times; tests of infinity use one operand, and none of the tests truncates an infinity or takes its age.", "anchors": ["src/date.rs: Date::add_days, sub_days, sub_date, add_interval, sub_interval, add_time, truncate", "src/timestamp.rs: Timestamp::add_interval, sub_interval, add_time, sub_time, sub_timestamp, sub_date, adjust_by_typmod, age, truncate", "src/time.rs: TryFrom<Timestamp> for Option<Time>"]}
{"id": "C104", "title": "Interval texts one after the other add up", "statement": "If two texts are read as intervals by Interval::try_from_str and the two separated by a space as well, the value of the whole is the sum of the values of the parts as add_interval gives it, and in the other order the value is the same. The first text ends in a unit; the texts are not of the ISO 8601 form, do not say ago, have no minus sign in the SQL style, and no numbers of more than six digits.", "quantifier": "all pairs of texts of up to 128 bytes together, all interval styles, all states of the keyword caches, both build profiles", "why_tests_cant": "The pairs of texts are unbounded in form: units, clock times, fractions, signs and abbreviations in any combination and order; a test adds up only the combinations somebody thought of, and the loss of a part behind a clock time was not among them.", "anchors": ["src/interval.rs: Interval::try_from_str, add_interval", "src/parse.rs: decode_interval"]}
{"id": "C105", "title": "Reading and writing a text comes to an end", "statement": "The while loops of the crate end for every input: the scanner, the splitting of a date in one word and the loop over ISO 8601 designators after at most as many rounds as the text has bytes (plus one), the binary search in a keyword table after at most as many as the table has entries, the loops over the digits of a number after at most ten.", "quantifier": "all texts (any bytes), all keyword tables, all 32-bit numbers, both build profiles", "why_tests_cant": "A loop that does not get on shows only on the inputs on which no byte is consumed; tests run on a few texts, and a test that hangs is not a statement about the others.", "anchors": ["src/parse.rs: parse_date_time, decode_date, decode_iso8601_interval", "src/token.rs: search_date_token, search_delta_token", "src/common.rs: pg_ltostr"]}
{"id": "C106", "title": "ago at the end of a text negates the interval", "statement": "If a text that ends in a unit, is not of the ISO 8601 form and does not say ago is read as an interval by Interval::try_from_str, and the text with ago behind it as well, the second value is the negative of the first: months, days and microseconds, in every interval style, whatever else the text contains.", "quantifier": "all texts (any bytes), all interval styles, all states of the keyword caches, both build profiles", "why_tests_cant": "Texts of any form, with fractions, clock times, signs and the common minus sign of the SQL style; the tests have two texts with ago.", "anchors": ["src/interval.rs: Interval::try_from_str", "src/parse.rs: decode_interval"]}
{"id": "C107", "title": "The clock time of a text is the time of day", "statement": "If Timestamp::try_from_str reads a text with a clock time hh:mm:ss[.f] as a finite timestamp, it is the day that Date::try_from_str reads from the same text, at the hour, minute and second of the clock time, with the microseconds nearest to the fraction; if am or pm is a word of the text, or follows the clock time directly, the hour is that of a clock of twelve hours (12 am is midnight, 12 pm noon), and if the text says neither it is the hour as given. Time::try_from_str gives the same time of day. The day may be named in any way, before or after the clock time.", "quantifier": "all texts (any bytes) with a clock time at the beginning of a word or after a T, all date orders, all states of the keyword caches, both build profiles", "why_tests_cant": "The rest of the text is arbitrary: month names, Julian days, labels, words in any order; the tests fix a few forms.", "anchors": ["src/timestamp.rs: Timestamp::try_from_str", "src/time.rs: Time::try_from_str", "src/date.rs: Date::try_from_str", "src/parse.rs: decode_date_time, decode_time_only"]}
{"id": "C108", "title": "A weekday, ad, at or on at the end of a text changes nothing", "statement": "If Date::try_from_str or Timestamp::try_from_str accepts a text followed by a space and the name of a weekday, or one of the words ad, at and on, it accepts the text without the word and gives the same value: the word is never needed and never changes the result. The same holds for Time::try_from_str with ad, at and on; a time followed by the name of a weekday is refused.", "quantifier": "all texts (any bytes) that do not end in a blank, a sign or a decimal point; all names and short names of weekdays in any case; all date orders, type modifiers, states of the keyword caches, both build profiles", "why_tests_cant": "The text before the word is arbitrary, and a word at the end changes the list of field types that the decoders look ahead into.", "anchors": ["src/parse.rs:1621-1892", "src/parse.rs:2222-2415", "src/date.rs:201-249", "src/timestamp.rs:166-189", "src/time.rs:105-130"]}
{"id": "C109", "title": "Opposite factors give opposite products and quotients", "statement": "The opposite of an Interval times a number is the Interval times the opposite number, including every error and panic, and the same holds for quotients. If mul_f64 accepts both a number and its opposite and the results are not at the ends of the 32-bit and 64-bit ranges, then the two products are opposite to each other in every field. Inside the ranges both products and both quotients exist and are opposite. At the ends of the ranges this fails: a product of 2^63 microseconds is cut off only in one direction.", "quantifier": "all intervals, all floats (including NaN and infinities) for the first two statements, all rational factors and divisors inside the ranges for the last; both build profiles", "why_tests_cant": "The product goes through eleven roundings of floats, a cascade from months to days to seconds and casts that truncate; each of them has to be symmetric for all floats.", "anchors": ["src/interval.rs:289-351", "src/interval.rs:355-388", "src/common.rs:585-591"]}
{"id": "C110", "title": "Fields, truncation and normal forms of the opposite interval", "statement": "For an Interval and its negation: every date_part field of the negation, including the epoch, is the negated field, the quarter counted from one is two less the quarter, and the same units are errors. Truncation, rounding to a precision, the field range of an interval type, justify_hours, justify_days and justify_interval applied to the negation give the negated result. Negated intervals compare the other way round.", "quantifier": "all intervals with a negation, all units, precisions and field ranges, both build profiles; fields where the hours of both intervals fit 32 bits, truncation below a day where the minutes do, rounding more than a second away from the ends of the 64-bit range, normal forms where the sums of both fit", "why_tests_cant": "Integer division, remainders and casts may round down instead of towards zero for negative values only; the sign of every field has to be tried with every unit and magnitude.", "anchors": ["src/interval.rs:169-189", "src/interval.rs:219-285", "src/interval.rs:405-531", "src/interval.rs:1003-1098", "src/common.rs:574-582"]}
{"id": "C111", "title": "The text of a date and a clock time behind it are that day at that time", "statement": "If Date::try_from_str accepts a text and a space and a clock time hh:mm:ss, with or without a fraction, are put behind it, then Timestamp::try_from_str either refuses the longer text or gives the day of the date at the time of the clock, to the nearest microsecond; if the text before it says am or pm, the hour is counted accordingly. Date::try_from_str refuses the longer text or gives the same date. An infinite date remains infinite.", "quantifier": "all texts (any bytes) that do not end in a blank or a decimal point and have no word that ends in a sign, all digits of the clock time, all date orders, states of the keyword caches, both build profiles", "why_tests_cant": "The date may be written in any way: with a month name, as a day of the year, a Julian day, with labels, in any order with weekdays and eras.", "anchors": ["src/parse.rs:1794-1892", "src/common.rs:285-345", "src/date.rs:201-249", "src/timestamp.rs:166-189"]}
{"id": "C112", "title": "A year, a month and a day are needed for a date", "statement": "Date::try_from_str and Timestamp::try_from_str refuse a text that does not name a whole day. A text with one number of at most five digits and otherwise words of letters only is accepted only as infinity or minus infinity, whatever the words are and wherever the number stands; excepted are the labels of a Julian day (j, jd, julian) and the word for midnight (allballs). The code violates the general statement: with a clock time, a text needs no year, no month and no day; the parts it does not name are taken as 0.", "quantifier": "all texts (any bytes) with one number and any words, any white space, all date orders, precisions, states of the keyword caches, both build profiles", "why_tests_cant": "Any number of words in any order; tests try a few incomplete dates. The missing check shows only for texts that hold a clock time but no date.", "anchors": ["src/parse.rs:1794-1892", "src/parse.rs:678-823", "src/date.rs:201-249", "src/timestamp.rs:166-189"]}
{"id": "C113", "title": "Words that mean the same may replace each other", "statement": "If in a text a word is replaced by another spelling of the same month, weekday or Julian label, or at by on, in any letter case, then Date::try_from_str, Time::try_from_str and Timestamp::try_from_str give exactly the same result, value or error. If a unit is replaced by another spelling of the same unit in a text that does not begin with P, Interval::try_from_str gives exactly the same result. The word may stand alone or directly behind a number with or without sign and fraction. The code violates this for one word: february is known, feb is not.", "quantifier": "all texts of at most 128 bytes (any bytes before and behind the word), all date orders, precisions, interval styles and field ranges, states of the keyword caches, both build profiles", "why_tests_cant": "The rest of the text is arbitrary; a test tries each spelling in one context.", "anchors": ["src/parse.rs:24-397", "src/parse.rs:630-653", "src/parse.rs:1794-1892", "src/parse.rs:2329-2420", "src/parse.rs:2696-2890", "src/token.rs:254-628"]}
{"id": "C114", "title": "Months in several steps", "statement": "Adding months in several steps, if every step succeeds, leads into the same month and to the same clock time as adding the same number of months at once, and adding them at once succeeds then as well; the day is never later, at most three days earlier, and the same one when the starting day is at most the 28th. Whether a second step is possible depends only on the total number of months. Subtracting the months just added therefore always succeeds and leads to the timestamp itself or to a day at most three days before it in the same month.", "quantifier": "all timestamps in range, all lists of i32 month counts, both build profiles", "why_tests_cant": "relation between a call and a sequence of calls of any length; the day is clamped at every step, and the ends of the range fall inside a month", "anchors": ["src/timestamp.rs: Timestamp::add_interval", "src/timestamp.rs: Timestamp::sub_interval", "src/common.rs: days_of_month"]}
{"id": "C115", "title": "Texts never show what was in the output buffer", "statement": "The formatting methods write into a buffer that is not initialised and turn it into a String without checking that it is UTF-8. For every value of the four types, also values outside the supported ranges, every style and every old content of the buffer: if a text comes back, it consists of printable ASCII characters only, fits into the buffer, and is the same whatever the buffer contained before; whether formatting fails does not depend on the old content either.", "quantifier": "all i32/i64 values inside the types, all styles and orders, all old contents of the buffer, both build profiles", "why_tests_cant": "undefined behaviour and leaking of old memory do not show in the results of tests; digits are written from the last to the first and zeros at the end are skipped, so a gap would only show for particular numbers", "anchors": ["src/date.rs: Date::format", "src/time.rs: Time::format", "src/timestamp.rs: Timestamp::format", "src/interval.rs: Interval::format", "src/common.rs: pg_ltostr, pg_ltostr_zeropad, append_seconds, copy_slice, set_one_byte"]}
{"id": "C116", "title": "Only numbers of field types are reinterpreted as field types", "statement": "Every number that the parser turns into a field type by `TokenField::try_from` is one of the 38 numbers of that type: the values of reserved words, labels and `t` in the date table, those of units, `ago` and reserved words in the interval table, whatever state the keyword caches are in, and the unit in force at every point of the loop over the fields of an interval text. So the missing range check of `try_from` (its condition `value < 0 && value > 37` is never true) can never produce an invalid enum value, and the parsers do not depend on what it makes of other numbers.", "quantifier": "all words, field positions, reachable cache states, all lists of fields of an interval, all interval ranges, both build profiles", "why_tests_cant": "an invalid enum value is undefined behaviour: it need not be visible in any result, and no test reaches the unchecked branch", "anchors": ["src/token.rs:235-251", "src/parse.rs:1647", "src/parse.rs:1739", "src/parse.rs:1770", "src/parse.rs:2248", "src/parse.rs:2549", "src/parse.rs:2791"]}
{"id": "C117", "title": "The ISO year is the year of the Thursday of the week", "statement": "`date_part(IsoYear)` of a timestamp is `date_part(Year)` of any timestamp on the Thursday of the same Monday-based week, as ISO 8601 defines it; in particular both count the years before Christ alike, without a year 0. It is the year of the day itself, except that on 1 to 3 January (Friday to Sunday) it may be the year before and on 29 to 31 December (Monday to Wednesday) the year after.", "quantifier": "all finite timestamps in range and all timestamps on the Thursday of their week, both build profiles", "why_tests_cant": "needs every year's turn and the era; the code counts years before Christ differently in the two fields, which tests with dates after Christ do not show", "anchors": ["src/timestamp.rs:822", "src/timestamp.rs:760-850", "src/common.rs:482-520"]}
{"id": "C118", "title": "A text cut off behind its t is refused without a panic", "statement": "A text that ends in the word t (in either case), which announces a clock time, is not read by Date::try_from_str or Timestamp::try_from_str. The call returns an error.", "quantifier": "all texts, date orders, type modifiers, cache states and both builds", "why_tests_cant": "Tests try complete ISO 8601 texts; a truncated one is rarely among them, and which texts reach the faulty branch depends on everything before the t.", "anchors": ["src/parse.rs:1742-1771", "src/parse.rs:1807-1866"]}
{"id": "C119", "title": "The words at and on behind a short text change nothing", "statement": "For a text of at most 24 visible bytes that does not end in a blank, a sign or a point, the text followed by a blank and at or on is read by Date::try_from_str, Time::try_from_str and Timestamp::try_from_str if and only if the text is, and with the same value.", "quantifier": "all such texts, date orders, type modifiers, cache states and both builds", "why_tests_cant": "Ignored words are tested in one or two places of a few texts; that they do not disturb the reading of any other text (its scan, the types that fields look ahead at, the limits on bytes and fields) is a statement about all texts.", "anchors": ["src/parse.rs:1621-1791", "src/parse.rs:1807-1866"]}
{"id": "C120", "title": "It does not matter which weekday a text names", "statement": "If a weekday in a text is replaced by any other weekday, in any spelling and letter case, Date::try_from_str, Time::try_from_str and Timestamp::try_from_str give the same result as before, be it a value, an error or a panic.", "quantifier": "all texts within the work area of 128 bytes with a weekday standing alone or behind a number anywhere in them (no lone sign before it), all pairs of weekdays, date orders, type modifiers, cache states and both builds", "why_tests_cant": "The day of the week is stored in the same structure as year, month, day and clock and copied along with them; that no decision of the decoders and no result ever depends on it is a statement about all texts, most of which no test contains.", "anchors": ["src/parse.rs:1734-1737", "src/parse.rs:1807-1878", "src/common.rs:285-345"]}
{"id": "C121", "title": "A text without a clock time is no time of day", "statement": "Time::try_from_str reads only texts that name a time of day: a text without digits is an error unless it is the word allballs. In particular a text without digits never yields a time other than midnight.", "quantifier": "all texts without a digit and a full stop whose last word does not end in a sign, all type modifiers, date orders, cache states and both builds", "why_tests_cant": "There are infinitely many texts of words only; a test tries a few words that are unknown, not the known ones without a number, alone and combined.", "anchors": ["src/parse.rs:2222-2326", "src/parse.rs:2329-2415", "src/time.rs:74-101"]}
{"id": "C122", "title": "An interval text needs a number", "statement": "Interval::try_from_str reads only texts that contain a number: a text without a digit is an error, however many words of intervals it is made of. In particular a text without a digit never yields an interval other than the one of length zero.", "quantifier": "all texts without a digit, all type modifiers, interval styles, cache states and both builds", "why_tests_cant": "There are infinitely many texts of words only; a test tries a few of them, and hardly the letters of ISO 8601 without their numbers.", "anchors": ["src/parse.rs:2696-2886", "src/parse.rs:2893-2930", "src/parse.rs:3080-3241", "src/interval.rs:535-585"]}
{"id": "C123", "title": "An interval text of zeros is zero", "statement": "If all digits of a text are zeros, Interval::try_from_str refuses it or reads the interval of length zero, whatever the units, signs, clock times, years-months and ISO 8601 letters in it.", "quantifier": "all texts whose digits are all zeros, all type modifiers, interval styles, cache states and both builds", "why_tests_cant": "Zeros can stand in every place of every layout and in any combination of layouts; a test tries a handful, and zero looks right by accident in most of them.", "anchors": ["src/parse.rs:2466-2646", "src/parse.rs:2696-2886", "src/parse.rs:2893-3241", "src/interval.rs:535-585"]}
