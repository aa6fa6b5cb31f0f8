/-!
# Format options of the API (src/lib.rs)
-/

namespace Pg

/-- src/lib.rs:90-97 `DateOrder`. -/
inductive DateOrder where
  | ymd | dmy | mdy
  deriving DecidableEq, Repr

/-- src/lib.rs:101-112 `DateStyle`. -/
inductive DateStyle where
  | postgres | iso | sql | german | xsd
  deriving DecidableEq, Repr

/-- src/lib.rs:116-125 `IntervalStyle`. -/
inductive IntervalStyle where
  | postgres | verbose | sqlStandard | iso8601
  deriving DecidableEq, Repr

end Pg
