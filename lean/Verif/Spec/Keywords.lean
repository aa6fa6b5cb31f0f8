import Verif.Model.Token

/-! # What English date words and interval units mean

Written down from the language, not from the code's tables: complete lists of the words with their
meanings. -/

namespace Spec
open Pg

/-- The full month names, with the number of the month. -/
def monthWords : List (Bytes × Int) :=
  [(b!"january", 1), (b!"february", 2), (b!"march", 3), (b!"april", 4), (b!"may", 5), (b!"june", 6),
   (b!"july", 7), (b!"august", 8), (b!"september", 9), (b!"october", 10), (b!"november", 11),
   (b!"december", 12)]

/-- The full weekday names; 0 is Sunday. -/
def weekdayWords : List (Bytes × Int) :=
  [(b!"sunday", 0), (b!"monday", 1), (b!"tuesday", 2), (b!"wednesday", 3), (b!"thursday", 4),
   (b!"friday", 5), (b!"saturday", 6)]

/-- Interval units in singular and plural. -/
def unitWords : List (Bytes × TokenField) :=
  [(b!"microsecond", .microsec), (b!"microseconds", .microsec), (b!"millisecond", .millisec),
   (b!"milliseconds", .millisec), (b!"second", .second), (b!"seconds", .second), (b!"minute", .minute),
   (b!"minutes", .minute), (b!"hour", .hour), (b!"hours", .hour), (b!"day", .day), (b!"days", .day),
   (b!"week", .week), (b!"weeks", .week), (b!"month", .month), (b!"months", .month), (b!"year", .year),
   (b!"years", .year), (b!"decade", .decade), (b!"decades", .decade), (b!"century", .century),
   (b!"centuries", .century), (b!"millennium", .millennium), (b!"millennia", .millennium)]

end Spec
