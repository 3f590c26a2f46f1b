/-
Model of the header parser (src/headers.rs).
-/
import Verif.Model.Nom
import Verif.Model.Util
import Verif.Model.Flags

namespace Model

namespace HFlag
/-! src/headers.rs:24-40 `HeaderFlags`. -/
def FOLDING : Flags := 0x1
def FOLDING_SPECIAL_CASE : Flags := 0x2 ||| FOLDING
def NAME_EMPTY : Flags := 0x4
def VALUE_EMPTY : Flags := 0x8
def NAME_NON_TOKEN_CHARS : Flags := 0x10
def FIELD_REPEATED : Flags := 0x20
def NAME_TRAILING_WHITESPACE : Flags := 0x40
def NAME_LEADING_WHITESPACE : Flags := 0x80
def NULL_TERMINATED : Flags := 0x100
def MISSING_COLON : Flags := 0x200 ||| NAME_EMPTY
def DEFORMED_EOL : Flags := 0x400
end HFlag

/-- src/headers.rs:42-46 `struct Name` and 57-61 `struct Value` (both are text with flags). -/
structure FlaggedText where
  text : Bytes
  flags : Flags
  deriving Repr, DecidableEq

/-- src/headers.rs:49-54 `Name::new`, 63-70 `Value::new`: the text is trimmed. -/
def FlaggedText.new (text : Bytes) (flags : Flags) : FlaggedText := { text := trimmed text, flags }

/-- src/headers.rs:72-76 `struct Header`. -/
structure ParsedHeader where
  name : FlaggedText
  value : FlaggedText
  deriving Repr, DecidableEq

/-- src/headers.rs:96-103 `enum Side`. -/
inductive Side where
  | request
  | response
  deriving Repr, DecidableEq

/-- src/headers.rs:105-108 `struct Parser`. -/
structure HeaderParser where
  side : Side
  complete : Bool := false
  deriving Repr, DecidableEq

/-- `nom::combinator::complete`. -/
def Nom.complete {α} (p : Parser α) : Parser α := fun i =>
  match p i with
  | .ok r a => .ok r a
  | .err => .err
  | .incomplete => .err

/-- `nom::character::complete::one_of`. -/
def Nom.oneOf (set : Bytes) : Parser UInt8
  | [] => .err
  | c :: cs => if set.contains c then .ok cs c else .err

/-- `nom::character::streaming::space0`. -/
def space0 : Parser Bytes := Nom.takeWhileS nomIsSpace

/-- src/headers.rs:494-499 `null`. -/
def hpNull : Parser (Bytes × Flags) := Nom.map (Nom.tag [0]) fun n => (n, HFlag.NULL_TERMINATED)

/-- src/headers.rs:501-506 `folding_lws`. -/
def foldingLws : Parser (Bytes × Flags) :=
  Nom.map (Nom.alt (Nom.tagS [32]) (Nom.alt (Nom.tagS [9]) (Nom.tagS [0]))) fun f => (f, HFlag.FOLDING)

/-- src/headers.rs:508-511 `separator_regular`. -/
def separatorRegular : Parser (Bytes × Bytes) := Nom.pair (Nom.tag [58]) space0

/-- src/headers.rs:514-517 `token_chars`: leading blanks, token characters, trailing blanks. -/
def tokenChars : Parser (Bytes × Bytes × Bytes) :=
  Nom.bind space0 fun l => Nom.bind (Nom.takeWhileS isToken) fun t => Nom.map space0 fun r => (l, t, r)

namespace HeaderParser

/-- src/headers.rs:126-128 `is_eol`. -/
def isEol (p : HeaderParser) (c : UInt8) : Bool := c == 10 || (p.side == .response && c == 13)

/-- src/headers.rs:131-144 `complete_eol_regular`. -/
def completeEolRegular (p : HeaderParser) : Parser Bytes :=
  match p.side with
  | .response => Nom.alt (Nom.tag [13, 10]) (Nom.alt (Nom.tag [10, 13]) (Nom.alt (Nom.tag [10]) (Nom.tag [13])))
  | .request => Nom.alt (Nom.tag [13, 10]) (Nom.tag [10])

/-- The lookahead `alt((complete_tag("\n"), complete_tag("\r\n")))` used in src/headers.rs:154, 165 and 180. -/
def lfOrCrlf : Parser Bytes := Nom.alt (Nom.tag [10]) (Nom.tag [13, 10])

/-- src/headers.rs:221-232 `folding_empty`: the matched bytes are `input[..eol1.len() + 1 + eol2.len()]`,
which are the three parts put together. -/
def foldingEmpty (p : HeaderParser) : Parser (Bytes × Flags) :=
  Nom.bind p.completeEolRegular fun eol1 => Nom.bind (Nom.oneOf [9, 32]) fun c =>
    Nom.map p.completeEolRegular fun eol2 => (eol1 ++ c :: eol2, 0)

/-- src/headers.rs:151-157, 178-181 (first alternative of either side): LF CR CR LF before an end of line. -/
def eolDeformed1 : Parser (Bytes × Flags) :=
  Nom.bind (Nom.tag [10, 13, 13, 10]) fun eol => Nom.map (Nom.peek lfOrCrlf) fun _ => (eol, HFlag.DEFORMED_EOL)

/-- src/headers.rs:160-173 (third alternative of the response side). -/
def eolDeformed3 : Parser (Bytes × Flags) :=
  Nom.bind (Nom.tag [13, 10, 13]) fun eol1 =>
    Nom.bind (Nom.takeWhile1S fun c => c == 13 || c == 32 || c == 9) fun eol2 =>
      Nom.bind (Nom.opt (Nom.tag [10])) fun eol3 =>
        Nom.map (Nom.not lfOrCrlf) fun _ => (eol1 ++ eol2 ++ eol3.getD [], HFlag.DEFORMED_EOL)

/-- src/headers.rs:182 (second alternative of the request side): LF CR before CR LF. -/
def eolDeformed2 : Parser (Bytes × Flags) :=
  Nom.bind (Nom.tag [10, 13]) fun eol => Nom.map (Nom.peek (Nom.tag [13, 10])) fun _ => (eol, HFlag.DEFORMED_EOL)

/-- src/headers.rs:147-188 `complete_eol_deformed`. -/
def completeEolDeformed (p : HeaderParser) : Parser (Bytes × Flags) :=
  match p.side with
  | .response => Nom.alt eolDeformed1 (Nom.alt p.foldingEmpty eolDeformed3)
  | .request => Nom.alt eolDeformed1 eolDeformed2

/-- src/headers.rs:191-198 `complete_eol`. -/
def completeEol (p : HeaderParser) : Parser (Bytes × Flags) :=
  Nom.alt p.completeEolDeformed (Nom.map p.completeEolRegular fun eol => (eol, 0))

/-- src/headers.rs:201-208 `eol`. -/
def eol (p : HeaderParser) : Parser (Bytes × Flags) :=
  Nom.bind p.completeEol fun e => Nom.map (Nom.not foldingLws) fun _ => e

/-- src/headers.rs:211-213 `null_or_eol`. -/
def nullOrEol (p : HeaderParser) : Parser (Bytes × Flags) := Nom.alt hpNull p.eol

/-- src/headers.rs:216-218 `complete_null_or_eol`. -/
def completeNullOrEol (p : HeaderParser) : Parser (Bytes × Flags) := Nom.alt hpNull p.completeEol

/-- src/headers.rs:234-251 `folding`, already in the shape ((eol, flags), Some(fold)) given to it by its
callers (src/headers.rs:259-261, 273-275). -/
def folding (p : HeaderParser) : Parser ((Bytes × Flags) × Option Bytes) :=
  match p.side with
  | .response => Nom.bind p.completeEolRegular fun eol => Nom.map foldingLws fun l => ((eol, 0 ||| l.2), some l.1)
  | .request => Nom.bind p.completeEol fun eol => Nom.map foldingLws fun l => ((eol.1, eol.2 ||| l.2), some l.1)

/-- src/headers.rs:254-265 `complete_folding_or_terminator`. -/
def completeFoldingOrTerminator (p : HeaderParser) : Parser ((Bytes × Flags) × Option Bytes) :=
  Nom.alt (Nom.complete p.folding) (Nom.map p.completeNullOrEol fun e => (e, none))

/-- src/headers.rs:268-279 `streaming_folding_or_terminator`. -/
def streamingFoldingOrTerminator (p : HeaderParser) : Parser ((Bytes × Flags) × Option Bytes) :=
  Nom.alt p.folding (Nom.map p.nullOrEol fun e => (e, none))

/-- src/headers.rs:282-290 `folding_or_terminator`. -/
def foldingOrTerminator (p : HeaderParser) : Parser ((Bytes × Flags) × Option Bytes) :=
  if p.complete then p.completeFoldingOrTerminator else p.streamingFoldingOrTerminator

/-- src/headers.rs:295-305 `value_bytes`. -/
def valueBytes (p : HeaderParser) : Parser (Bytes × (Bytes × Flags) × Option Bytes) := fun input =>
  match Nom.takeTillS p.isEol input with
  | .ok remaining value =>
    if value.getLast? = some 13 then
      Nom.map p.foldingOrTerminator (fun t => (value.dropLast, t)) (input.drop value.dropLast.length)
    else Nom.map p.foldingOrTerminator (fun t => (value, t)) remaining
  | .err => .err
  | .incomplete => .incomplete

/-- What the lookahead of src/headers.rs:318-331 decides: a name and colon follow, cannot tell yet, or go on. -/
inductive Peek where
  | name
  | unknown
  | go
  deriving Repr, DecidableEq

/-- src/headers.rs:316-332: on the response side, is the folded line a `name:`? -/
def peekName (p : HeaderParser) (i : Bytes) : Peek :=
  match p.side with
  | .request => .go
  | .response =>
    match Nom.pair tokenChars separatorRegular i with
    | .ok _ ((_, tokens, _), _) => if tokens ≠ [] then .name else .go
    | .incomplete => .unknown
    | .err => .go

/-- src/headers.rs:337-343: the byte put between folded lines. -/
def foldJoin (value ofold : Bytes) : Bytes :=
  if value ≠ [] then value ++ [ofold.headD 32] else value

/-- src/headers.rs:315-361, the loop of `value` over folded lines. `rest` and `i` are the two positions
the code keeps; `fuel` bounds the number of iterations (each consumes input; see `valueLoop_fuel`). -/
def valueLoop (p : HeaderParser) : Nat → (rest i value ofold : Bytes) → Flags → IRes FlaggedText
  | 0, _, _, _, _, _ => .err
  | fuel + 1, rest, i, value, ofold, flags =>
    match p.peekName i with
    | .name =>
      let flags := unsetFlag flags HFlag.FOLDING_SPECIAL_CASE
      let flags := if value = [] then setFlag flags HFlag.VALUE_EMPTY else flags
      .ok i (FlaggedText.new value flags)
    | .unknown => .incomplete
    | .go =>
      match p.valueBytes i with
      | .err => .err
      | .incomplete => .incomplete
      | .ok rest2 (valBytes, (eol, otherFlags), fold) =>
        let flags := setFlag flags otherFlags
        let value := foldJoin value ofold
        let keep := valBytes ≠ [] ∨ eol.length > 1
        let rest := if keep then rest2 else if eol.length = 1 ∧ rest2.head? = some 10 then rest2 else rest
        let value := if keep then value ++ valBytes else value
        match fold with
        | some fold => valueLoop p fuel rest rest2 value fold flags
        | none => .ok rest (FlaggedText.new value flags)

/-- src/headers.rs:308-369 `value`. -/
def value (p : HeaderParser) : Parser FlaggedText := fun input =>
  match p.valueBytes input with
  | .err => .err
  | .incomplete => .incomplete
  | .ok rest (valBytes, (_, flags), fold) =>
    match fold with
    | some fold => p.valueLoop (rest.length + 1) rest rest valBytes fold flags
    | none => .ok rest (FlaggedText.new valBytes (if valBytes = [] then setFlag flags HFlag.VALUE_EMPTY else flags))

/-- src/headers.rs:374-393, the scan for the end of the name. `i` is the index of the first byte given. -/
def nameScan : Bool → Nat → Bytes → Nat
  | _, _, [] => 0
  | terminated, i, c :: cs =>
    if !terminated then
      if c = 58 then i else if c = 10 then nameScan true (i + 1) cs else nameScan false (i + 1) cs
    else
      if c = 32 then nameScan false (i + 1) cs else i - 1

/-- src/headers.rs:395-414: the flags of a name. -/
def nameFlags (name : Bytes) : Flags :=
  match name with
  | [] => HFlag.NAME_EMPTY
  | c :: _ =>
    let flags := if nomIsSpace c then HFlag.NAME_LEADING_WHITESPACE else 0
    let flags := if (name.getLast?.any nomIsSpace) then setFlag flags HFlag.NAME_TRAILING_WHITESPACE else flags
    match tokenChars name with
    | .ok rem _ => if rem ≠ [] then setFlag flags HFlag.NAME_NON_TOKEN_CHARS else flags
    | _ => flags

/-- src/headers.rs:372-417 `name`. -/
def name : Parser FlaggedText := fun input =>
  .ok (input.drop (nameScan false 0 input))
    (FlaggedText.new (input.take (nameScan false 0 input)) (nameFlags (input.take (nameScan false 0 input))))

/-- src/headers.rs:420-422 `separator`. -/
def separator : Parser Flags := Nom.map separatorRegular fun _ => 0

/-- src/headers.rs:425-435 `header_sans_colon`. -/
def headerSansColon (p : HeaderParser) : Parser ParsedHeader :=
  Nom.bind (Nom.not (Nom.tag [13, 10])) fun _ => Nom.map p.value fun v =>
    let flags := v.flags ||| HFlag.MISSING_COLON
    { name := FlaggedText.new [] flags, value := FlaggedText.new v.text flags }

/-- src/headers.rs:438-449 `header_with_colon`. -/
def headerWithColon (p : HeaderParser) : Parser ParsedHeader :=
  Nom.bind name fun n => Nom.bind separator fun flag => Nom.map p.value fun v =>
    { name := { n with flags := n.flags ||| flag }, value := { v with flags := v.flags ||| flag } }

/-- src/headers.rs:452-454 `header`. -/
def header (p : HeaderParser) : Parser ParsedHeader :=
  Nom.alt (Nom.complete p.headerWithColon) p.headerSansColon

/-- What follows a header in src/headers.rs:460-468 and 474-482: done (NUL or end of headers found; the
rest), or go on. -/
def afterHeader (p : HeaderParser) (rest : Bytes) (head : ParsedHeader) : Option Bytes :=
  if isSet head.value.flags HFlag.NULL_TERMINATED then some rest
  else
    match p.completeEol rest with
    | .ok rest _ => some rest
    | _ => none

/-- src/headers.rs:469-489, the loop of `headers`; each iteration consumes input (see `headersLoop_fuel`). -/
def headersLoop (p : HeaderParser) : Nat → Bytes → List ParsedHeader → IRes (List ParsedHeader × Bool)
  | 0, _, _ => .err
  | fuel + 1, i, out =>
    match p.header i with
    | .ok rest head =>
      match p.afterHeader rest head with
      | some rest => .ok rest (out ++ [head], true)
      | none => headersLoop p fuel rest (out ++ [head])
    | .incomplete => .ok i (out, false)
    | .err => .err

/-- src/headers.rs:457-491 `headers`. -/
def headers (p : HeaderParser) : Parser (List ParsedHeader × Bool) := fun input =>
  match p.header input with
  | .err => .err
  | .incomplete => .incomplete
  | .ok rest head =>
    match p.afterHeader rest head with
    | some rest => .ok rest ([head], true)
    | none => p.headersLoop (rest.length + 1) rest [head]

end HeaderParser
end Model
