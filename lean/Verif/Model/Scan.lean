import Verif.Model.Token

/-!
# Splitting a text into fields

src/parse.rs:24-397. The code copies the fields one after the other into a work area and records their
types in an array. Here a field is its type together with its bytes, and the work area is represented
by the number of bytes still free: a write beyond its end (a slice index panic in the code) is a panic.
The array of types is uninitialised memory in the code; the single case that leaves an entry unwritten
(a sign at the end of the text) gives the field the arbitrary type `u`.
-/

namespace Pg

/-- A field: type and bytes. -/
abbrev Field := TokenField × Bytes

/-- src/parse.rs:69-76: bytes of a clock time. -/
def isTimeB (b : Nat) : Bool := isDigit b || b = 58 || b = 46
/-- src/parse.rs:254-256: bytes after a sign and a digit. -/
def isSignedB (b : Nat) : Bool := isDigit b || b = 58 || b = 46 || b = 45
/-- src/parse.rs:217-225: bytes of a word that is continued as a date. -/
def isWordB (b : Nat) : Bool :=
  b = 43 || b = 45 || b = 47 || b = 95 || b = 46 || b = 58 || isAlnum b

/-- src/parse.rs:90-133 `parse_date_time_for_digit_delim_begin`. `delim` is the first byte, `s` what
follows it. Returns the type of the field, the bytes appended to it, and the rest. -/
def scanDelim (delim : Nat) (s : Bytes) : TokenField × Bytes × Bytes :=
  match s with
  | [] => (if delim = 46 then .number else .date, [delim], [])
  | c :: _ =>
    if isDigit c then
      let r := s.dropWhile isDigit
      if r.head? = some delim then
        (.date, delim :: (s.takeWhile isDigit ++ r.takeWhile fun b => b = delim || isDigit b),
          r.dropWhile fun b => b = delim || isDigit b)
      else (if delim = 46 then .number else .date, delim :: s.takeWhile isDigit, r)
    else
      (.date, delim :: lower (s.takeWhile fun b => b = delim || isAlnum b),
        s.dropWhile fun b => b = delim || isAlnum b)

/-- src/parse.rs:138-167 `parse_date_time_for_digit_begin`: the field and the rest. -/
def scanDigit (s : Bytes) : Field × Bytes :=
  let part := s.takeWhile isDigit
  match s.dropWhile isDigit with
  | [] => ((.number, part), [])
  | c :: r =>
    if c = 58 then
      ((.time, part ++ (c :: r).takeWhile isTimeB), (c :: r).dropWhile isTimeB)
    else if c = 45 || c = 47 || c = 46 then
      let d := scanDelim c r
      ((d.1, part ++ d.2.1), d.2.2)
    else ((.number, part), c :: r)

/-- src/parse.rs:171-187 `parse_date_time_for_dot_begin`. -/
def scanDot (s : Bytes) : Field × Bytes :=
  match s with
  | [] => ((.number, []), [])
  | c :: r => ((.number, c :: r.takeWhile isDigit), r.dropWhile isDigit)

/-- src/parse.rs:201-213: does the word go on as a date? -/
def alphaIsDate (word rest : Bytes) : Res Bool :=
  match rest with
  | [] => .ok false
  | c :: _ =>
    if c = 45 || c = 47 || c = 46 then .ok true
    else if c = 43 || isDigit c then do
      let t ← searchDate word
      .ok t.isNone
    else .ok false

/-- src/parse.rs:190-235 `parse_date_time_for_alpha_begin`. -/
def scanAlpha (s : Bytes) : Res (Field × Bytes) := do
  let word := lower (s.takeWhile isAlpha)
  let rest := s.dropWhile isAlpha
  if ← alphaIsDate word rest then
    .ok ((.date, word ++ rest.takeWhile isWordB), rest.dropWhile isWordB)
  else .ok ((.string, word), rest)

/-- src/parse.rs:239-280 `parse_date_time_for_sign_begin`. -/
def scanSign (u : TokenField) (s : Bytes) : Res (Field × Bytes) :=
  match s with
  | [] => .panic
  | sign :: r =>
    let s := r.dropWhile isSpace
    match s with
    | [] => .ok ((u, [sign]), [])
    | c :: _ =>
      if isDigit c then .ok ((.tz, sign :: s.takeWhile isSignedB), s.dropWhile isSignedB)
      else if isAlpha c then
        .ok ((.special, sign :: lower (s.takeWhile isAlpha)), s.dropWhile isAlpha)
      else .err .invalid

/-- src/parse.rs:339-378: the field that starts at the first byte `c` of `s`. -/
def scanField (u : TokenField) (c : Nat) (s : Bytes) : Res (Field × Bytes) :=
  if isDigit c then .ok (scanDigit s)
  else if c = 46 then .ok (scanDot s)
  else if isAlpha c then scanAlpha s
  else scanSign u s

/-- src/parse.rs:327-396: the loop of `parse_date_time`; `cap` is the free part of the work area, `nf`
the number of fields so far, `fuel` bounds the iterations. -/
def scanLoop (u : TokenField) : Nat → Bytes → Nat → Nat → Res (List Field)
  | 0, _, _, _ => .ok []
  | fuel + 1, s, cap, nf =>
    match s.dropWhile isSpace with
    | [] => .ok []
    | c :: r =>
      if nf ≥ MAX_DATE_FIELDS then .err .invalid
      else if isDigit c || c = 46 || isAlpha c || c = 43 || c = 45 then
        -- the first byte is stored before a sign is found to be misplaced
        if cap = 0 then .panic
        else do
          let (f, rest) ← scanField u c (c :: r)
          if f.2.length > cap then .panic
          else do
            let l ← scanLoop u fuel rest (cap - f.2.length) (nf + 1)
            .ok (f :: l)
      else if isPunct c then scanLoop u fuel ((c :: r).dropWhile isPunct) cap nf
      else .err .invalid

/-- src/common.rs:641 `MAX_DATE_LEN`. -/
notation "MAX_DATE_LEN" => (128 : Nat)

/-- src/parse.rs:306-397 `parse_date_time`, with a work area of `MAX_DATE_LEN` bytes and
`MAX_DATE_FIELDS` fields (as in every caller). -/
def scan (u : TokenField) (s : Bytes) : Res (List Field) :=
  if s.isEmpty then .err .empty else scanLoop u (s.length + 1) s MAX_DATE_LEN 0

end Pg
