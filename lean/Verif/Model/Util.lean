/-
Model of src/util.rs.
-/
import Verif.Model.Nom

namespace Model
open Nom

/-- src/util.rs:148-161 `enum Eol`. -/
inductive Eol where | none | lf | cr | crlf | lfcr
  deriving Repr, DecidableEq

/-- src/util.rs:168-190 `is_separator`. -/
def isSeparator (c : UInt8) : Bool := (b! "()<>@,;:\\\"/[]?={} \t").contains c

/-- src/util.rs:195-197 `is_token`. -/
def isToken (c : UInt8) : Bool := 32 ≤ c && c ≤ 126 && !isSeparator c

/-- src/util.rs:200-202 `take_ascii_whitespace`. -/
def takeAsciiWhitespace : Parser Bytes := Nom.takeWhile isAsciiWhitespace

/-- The loop `while last(data) satisfies p { data = data[..len-1] }`, shared by src/util.rs:206-216
(`chomp`), 232-242 (`trim_end`), src/parsers.rs:195-197 and src/uri.rs:129-131; written as dropping
from the front of the reversed list. -/
def dropLastWhile (p : UInt8 → Bool) (data : Bytes) : Bytes := (data.reverse.dropWhile p).reverse

/-- src/util.rs:206-216 `chomp`. -/
def chomp (data : Bytes) : Bytes := dropLastWhile (fun c => c == 10 || c == 13) data

/-- src/util.rs:292-294 `is_space`: SP TAB CR LF VT FF. -/
def isSpace (c : UInt8) : Bool :=
  c == 32 || c == 9 || c == 13 || c == 10 || c == 11 || c == 12

/-- src/util.rs:219-229 `trim_start`. -/
def trimStart : Bytes → Bytes
  | [] => []
  | c :: cs => if isSpace c then trimStart cs else c :: cs

/-- src/util.rs:232-242 `trim_end`. -/
def trimEnd (data : Bytes) : Bytes := dropLastWhile isSpace data

/-- src/util.rs:245-247 `trimmed`. -/
def trimmed (data : Bytes) : Bytes := trimEnd (trimStart data)

/-- `slice::splitn(2, p)` (core): the part before the first match and, if there is one, the part
after it. -/
def splitFirst (p : UInt8 → Bool) (s : Bytes) : Bytes × Option Bytes :=
  match s.dropWhile (fun c => !p c) with
  | [] => (s, none)
  | _ :: rest => (s.takeWhile (fun c => !p c), some rest)

/-- src/util.rs:257-288 `split_on_predicate`. `rsplitn(2, p)` (core) is `splitn` from the end. -/
def splitOnPredicate (input : Bytes) (reverse doTrim : Bool) (p : UInt8 → Bool) : Bytes × Bytes :=
  let fs : Bytes × Bytes :=
    if reverse then
      match splitFirst p input.reverse with
      | (second, some first) => (first.reverse, second.reverse)
      | (only, none) => (only.reverse, [])
    else
      match splitFirst p input with
      | (first, some second) => (first, second)
      | (only, none) => (only, [])
  if doTrim then (trimmed fs.1, trimmed fs.2) else fs

/-- src/util.rs:299-301 `is_line_empty`. -/
def isLineEmpty (data : Bytes) : Bool := data == [13] || data == [10] || data == [13, 10]

/-- src/util.rs:305-307 `is_line_whitespace`. -/
def isLineWhitespace (data : Bytes) : Bool := !data.any (fun c => !isSpace c)

/-- `nom::character::is_space`: SP or TAB. -/
def nomIsSpace (c : UInt8) : Bool := c == 32 || c == 9

/-- `u8::is_ascii_digit`. -/
def isDigit (c : UInt8) : Bool := 48 ≤ c && c ≤ 57

/-- `u8::is_ascii_hexdigit`. -/
def isHexDigit (c : UInt8) : Bool :=
  (48 ≤ c && c ≤ 57) || (65 ≤ c && c ≤ 70) || (97 ≤ c && c ≤ 102)

/-- src/util.rs:451-453 `nom_take_is_space`. -/
def nomTakeIsSpace : Parser Bytes := Nom.takeWhile nomIsSpace

/-- src/util.rs:313-325 `ascii_digits`. -/
def asciiDigits : Parser (Bytes × Bytes) :=
  Nom.bind nomTakeIsSpace fun _ =>
  Nom.bind (takeTill isDigit) fun leading =>
  Nom.bind (takeWhile1 isDigit) fun digits =>
  Nom.map nomTakeIsSpace fun _ => (leading, digits)

/-- src/util.rs:331-342 `hex_digits`. -/
def hexDigits : Parser Bytes :=
  Nom.bind nomTakeIsSpace fun _ =>
  Nom.bind (Nom.takeWhile isHexDigit) fun digits =>
  Nom.map nomTakeIsSpace fun _ => digits

/-- src/config.rs:242-264 `enum HtpServerPersonality`. -/
inductive Personality where
  | minimal | generic | ids | iis_4_0 | iis_5_0 | iis_5_1 | iis_6_0 | iis_7_0 | iis_7_5 | apache_2
  deriving Repr, DecidableEq

/-- src/util.rs:345-366 `is_line_terminator`. -/
def isLineTerminator (sp : Personality) (data : Bytes) (nextNoLf : Bool) : Bool :=
  if sp == .iis_5_0 && isLineWhitespace data then true
  else if isLineEmpty data then true
  else
    match data with
    | [a, b] => if nomIsSpace a && b == 10 then nextNoLf else false
    | _ => false

/-- src/util.rs:369-371 `is_line_ignorable`. -/
def isLineIgnorable (sp : Personality) (data : Bytes) : Bool := isLineTerminator sp data false

/-- Value of a digit of the given radix (`char::to_digit`), radix 10 or 16. -/
def digitVal (radix : Nat) (c : UInt8) : Option Nat :=
  let v : Option Nat :=
    if 48 ≤ c && c ≤ 57 then some (c.toNat - 48)
    else if 97 ≤ c && c ≤ 122 then some (c.toNat - 87)
    else if 65 ≤ c && c ≤ 90 then some (c.toNat - 55)
    else none
  match v with
  | some d => if d < radix then some d else none
  | none => none

/-- The digit loop of core's integer `from_str_radix`, with its overflow check at every digit. -/
def digitsLoop (radix max : Nat) : Nat → Bytes → Option Nat
  | acc, [] => some acc
  | acc, c :: cs =>
    match digitVal radix c with
    | none => none
    | some d => if acc * radix + d > max then none else digitsLoop radix max (acc * radix + d) cs

/-- `std::str::from_utf8(s).ok()?` followed by `uN::from_str_radix(_, radix).ok()?` (`parse::<uN>` is
radix 10) for an unsigned type with maximum `max`: optional '+', at least one digit. A non-UTF-8 string
has a byte that is not a digit, so both error paths coincide. -/
def fromStrRadix (radix max : Nat) (s : Bytes) : Option Nat :=
  match s with
  | [] => none
  | 43 :: cs => if cs = [] then none else digitsLoop radix max 0 cs
  | _ => digitsLoop radix max 0 s

/-- src/util.rs:376-386 `convert_port`. -/
def convertPort (port : Bytes) : Option Nat :=
  if port = [] then none
  else
    match fromStrRadix 10 65535 port with
    | none => none
    | some n => if n = 0 then none else some n

/-- src/util.rs:466-468 `take_is_space_or_null`. -/
def takeIsSpaceOrNull : Parser Bytes := Nom.takeWhile (fun c => isSpace c || c == 0)

/-- src/util.rs:394-401 `treat_response_line_as_body`. -/
def treatResponseLineAsBody (data : Bytes) : Bool :=
  !(Nom.bind (Nom.opt takeIsSpaceOrNull) (fun _ => tagNoCase (b! "http")) data).isOk

/-- `char::is_alphanumeric` (core) on the characters U+0000..U+00FF (`c as char`). -/
def latin1Alphanumeric (c : UInt8) : Bool :=
  (48 ≤ c && c ≤ 57) || (65 ≤ c && c ≤ 90) || (97 ≤ c && c ≤ 122) ||
  c == 0xAA || c == 0xB2 || c == 0xB3 || c == 0xB5 || c == 0xB9 || c == 0xBA ||
  c == 0xBC || c == 0xBD || c == 0xBE ||
  (0xC0 ≤ c && c != 0xD7 && c != 0xF7)

/-- `slice::split(|c| c == sep)` (core): always at least one piece. -/
def splitOn (sep : UInt8) : Bytes → List Bytes
  | [] => [[]]
  | c :: cs =>
    if c = sep then [] :: splitOn sep cs
    else
      match splitOn sep cs with
      | [] => [[c]]
      | seg :: rest => (c :: seg) :: rest

/-- The character test of src/util.rs:434-436. -/
def isHostChar (c : UInt8) : Bool := c == 95 || c == 45 || latin1Alphanumeric c

/-- src/util.rs:406-443 `validate_hostname`. `ipv6` stands for lines 418-420: `none` when the text
between the brackets is not UTF-8, otherwise whether `std::net::Ipv6Addr::from_str` accepts it. -/
def validateHostname (ipv6 : Bytes → Option Bool) (input : Bytes) : Bool :=
  if input = [] || input.length > 255 then false
  else
    let bracket : Option Bool :=
      match Nom.bind (tag (b! "[")) (fun _ =>
            Nom.bind (isNot (b! "#?/]")) fun addr =>
            Nom.map (tag (b! "]")) fun _ => addr) input with
      | .ok _ addr => ipv6 addr
      | _ => none
    match bracket with
    | some b => b
    | none =>
      if (tag (b! ".") input).isOk || (takeUntil (b! "..") input).isOk then false
      else (splitOn 46 input).all fun sec => !(sec.length > 63) && sec.all isHostChar

/-- src/util.rs:456-458 `take_until_null`. -/
def takeUntilNull : Parser Bytes := Nom.takeWhile (· != 0)

/-- src/util.rs:461-463 `take_is_space`. -/
def takeIsSpace : Parser Bytes := Nom.takeWhile isSpace

/-- src/util.rs:471-473 `take_not_is_space`. -/
def takeNotIsSpace : Parser Bytes := Nom.takeWhile (fun c => !isSpace c)

/-- Shared shape of src/util.rs:477-487: streaming `take_till` and then one more byte. -/
def takeTillIncl (p : UInt8 → Bool) : Parser Bytes := fun data =>
  match takeTillS p data with
  | .ok _ line => .ok (data.drop (line.length + 1)) (data.take (line.length + 1))
  | .err => .err
  | .incomplete => .incomplete

/-- src/util.rs:477-480 `take_till_lf_null`. -/
def takeTillLfNull : Parser Bytes := takeTillIncl (fun c => c == 10 || c == 0)

/-- src/util.rs:484-487 `take_till_lf`. -/
def takeTillLf : Parser Bytes := takeTillIncl (· == 10)

/-- src/util.rs:495-509: the end-of-line alternatives. -/
def eolAlt : Parser Bytes :=
  alt (tagS (b! "\r\n")) <|
  alt (Nom.map (alt (Nom.pair (tagS (b! "\r")) (Nom.not (tagS (b! "\n")))) <|
                alt (Nom.pair (tagS (b! "\n\r")) (Nom.not (tagS (b! "\n"))))
                    (Nom.pair (tagS (b! "\n")) (Nom.not (tagS (b! "\r"))))) Prod.fst) <|
  Nom.map (Nom.pair (tagS (b! "\n")) (Nom.peek (tagS (b! "\r\n")))) Prod.fst

/-- src/util.rs:492-524 `take_till_eol`. -/
def takeTillEol : Parser (Bytes × Eol) := fun data =>
  match Nom.pair (takeTillS (fun c => c == 10 || c == 13)) eolAlt data with
  | .ok _ (line, eol) =>
    if eol = b! "\n" then .ok (data.drop (line.length + 1)) (data.take (line.length + 1), .lf)
    else if eol = b! "\r" then .ok (data.drop (line.length + 1)) (data.take (line.length + 1), .cr)
    else if eol = b! "\r\n" then .ok (data.drop (line.length + 2)) (data.take (line.length + 2), .crlf)
    else if eol = b! "\n\r" then .ok (data.drop (line.length + 2)) (data.take (line.length + 2), .lfcr)
    else .incomplete
  | .err => .err
  | .incomplete => .incomplete

/-- src/util.rs:542-544 `is_chunked_ctl_char`. -/
def isChunkedCtlChar (c : UInt8) : Bool :=
  c == 0x0d || c == 0x0a || c == 0x20 || c == 0x09 || c == 0x0b || c == 0x0c

/-- src/util.rs:527-529 `take_chunked_ctl_chars`. -/
def takeChunkedCtlChars : Parser Bytes := Nom.takeWhile isChunkedCtlChar

/-- src/util.rs:534-540 `is_valid_chunked_length_data`. -/
def isValidChunkedLengthData (data : Bytes) : Bool :=
  !(Nom.bind takeChunkedCtlChars (fun _ => takeWhile1 (fun c => !isHexDigit c)) data).isOk

/-- src/util.rs:547-554 `is_chunked_ctl_line`. -/
def isChunkedCtlLine (l : Bytes) : Bool := l.all isChunkedCtlChar

end Model
