/-
Model of src/parsers.rs. The log messages these functions emit are not modelled.
-/
import Verif.Model.Util

namespace Model
open Nom

/-- src/parsers.rs:26-33 `content_type`. -/
def contentType : Parser Bytes :=
  Nom.bind takeAsciiWhitespace fun _ => isNot (b! ";, ")

/-- src/parsers.rs:37-42 `parse_content_type`; `none` is `Err(HtpStatus::ERROR)`. -/
def parseContentType (header : Bytes) : Option Bytes :=
  match contentType header with
  | .ok _ ct => some (lowerAll ct)
  | _ => none

/-- `u64::MAX`. -/
def u64Max : Nat := 18446744073709551615

/-- src/parsers.rs:48-73 `parse_content_length`. -/
def parseContentLength (input : Bytes) : Option Nat :=
  match asciiDigits input with
  | .ok _ (_, digits) => fromStrRadix 10 u64Max digits
  | _ => none

/-- Result of `parse_chunked_length`: `Err(ERROR)` or `Ok((Option<u64>, bool))`. -/
inductive ChunkLen where
  | error
  | ok (len : Option Nat) (ext : Bool)
  deriving Repr, DecidableEq

/-- src/parsers.rs:77-94 `parse_chunked_length` (`i32::MAX` is 2147483647). -/
def parseChunkedLength (input : Bytes) : ChunkLen :=
  match Nom.bind takeChunkedCtlChars (fun _ => hexDigits) input with
  | .ok trailing digits =>
    if trailing = [] ∧ digits = [] then .ok none false
    else
      match fromStrRadix 16 u64Max digits with
      | none => .error
      | some n => if n > 2147483647 then .ok none false else .ok (some n) (trailing.contains 59)
  | _ => .error

/-- src/parsers.rs:108-117 `scheme`. -/
def scheme : Parser Bytes :=
  Nom.bind (peek (Nom.not (tag (b! "/")))) fun _ =>
  Nom.bind (takeUntil (b! ":")) fun s =>
  Nom.map (tag (b! ":")) fun _ => s

/-- src/parsers.rs:135-149 `credentials`: username and optional password. -/
def credentials : Parser (Bytes × Option Bytes) :=
  Nom.bind (tag (b! "//")) fun _ =>
  Nom.bind (peek (Nom.not (tag (b! "/")))) fun _ =>
  Nom.bind (takeUntil (b! "@")) fun cred =>
  Nom.map (tag (b! "@")) fun _ =>
    match Nom.bind (takeUntil (b! ":")) (fun u => Nom.map (tag (b! ":")) fun _ => u) cred with
    | .ok password username => (username, some password)
    | _ => (cred, none)

/-- src/parsers.rs:164-169 `ipv6`. -/
def ipv6 : Parser Bytes := fun input =>
  match Nom.bind (tag (b! "[")) (fun _ =>
        Nom.bind (isNot (b! "/?#]")) fun _ => Nom.opt (tag (b! "]"))) input with
  | .ok rest _ => .ok rest (input.take (input.length - rest.length))
  | .err => .err
  | .incomplete => .incomplete

/-- src/parsers.rs:183-200 `hostname`. -/
def hostname : Parser Bytes :=
  Nom.map
    (Nom.bind (Nom.opt (tag (b! "//"))) fun _ =>
     Nom.bind (peek (Nom.not (tag (b! "/")))) fun _ =>
     Nom.bind many0Space fun _ =>
     alt ipv6 (isNot (b! "/?#:")))
    (dropLastWhile (· == 32))

/-- src/parsers.rs:215-223 `port`. -/
def port : Parser Bytes := fun input =>
  match Nom.bind (tag (b! ":")) (fun _ =>
        Nom.bind many0Space fun _ =>
        Nom.bind (isNot (b! "/?#")) fun p =>
        Nom.map many0Space fun _ => p) input with
  | .ok rest p =>
    match isNot (b! " ") p with
    | .ok _ p' => .ok rest p'
    | .err => .err
    | .incomplete => .incomplete
  | .err => .err
  | .incomplete => .incomplete

/-- src/parsers.rs:238-240 `path`. -/
def path : Parser Bytes := isNot (b! "#?")

/-- src/parsers.rs:255-260 `query`. -/
def query : Parser Bytes := Nom.bind (tag (b! "?")) fun _ => isNot (b! "#")

/-- src/parsers.rs:274-280 `fragment`. -/
def fragment : Parser Bytes := fun input =>
  match tag (b! "#") input with
  | .ok rest _ => .ok [] rest
  | .err => .err
  | .incomplete => .incomplete

/-- src/parsers.rs:289-303 `parse_hostport`: host, optional (port text, port number), validity. -/
def parseHostport (ip : Bytes → Option Bool) :
    Parser (Bytes × Option (Bytes × Option Nat) × Bool) := fun input0 =>
  match hostname input0 with
  | .ok input host =>
    let valid := validateHostname ip host
    match port input with
    | .ok _ p =>
      match convertPort p with
      | some n => .ok input (host, some (p, some n), valid)
      | none => .ok input (host, some (p, none), false)
    | _ => .ok input (host, none, if input = [] then valid else false)
  | .err => .err
  | .incomplete => .incomplete

/-- src/transaction.rs:326-339 `enum HtpProtocol`. -/
inductive Protocol where
  | error | invalid | unknown | v0_9 | v1_0 | v1_1
  deriving Repr, DecidableEq

/-- src/parsers.rs:308-323 `protocol_version`. -/
def protocolVersion : Parser (Bytes × Bool) :=
  Nom.bind takeAsciiWhitespace fun _ =>
  Nom.bind (tagNoCase (b! "HTTP")) fun _ =>
  Nom.bind takeAsciiWhitespace fun leading =>
  Nom.bind (tag (b! "/")) fun _ =>
  Nom.bind (Nom.takeWhile (fun c => isAsciiWhitespace c || c == 48)) fun trailing =>
  Nom.bind (alt (tag (b! ".9")) (alt (tag (b! "1.0")) (tag (b! "1.1")))) fun version =>
  Nom.map takeAsciiWhitespace fun _ => (version, !leading.isEmpty || !trailing.isEmpty)

/-- src/parsers.rs:331-352 `parse_protocol`. -/
def parseProtocol (input : Bytes) : Protocol :=
  match protocolVersion input with
  | .ok remaining (version, _) =>
    if remaining ≠ [] then .invalid
    else if version = b! ".9" then .v0_9
    else if version = b! "1.0" then .v1_0
    else if version = b! "1.1" then .v1_1
    else .invalid
  | _ => .invalid

/-- src/transaction.rs:123-130 `enum HtpResponseNumber`. -/
inductive ResponseNumber where
  | unknown | invalid | valid (n : Nat)
  deriving Repr, DecidableEq

/-- src/parsers.rs:355-370 `parse_status`. -/
def parseStatus (status : Bytes) : ResponseNumber :=
  match asciiDigits status with
  | .ok trailing (leading, digits) =>
    if trailing ≠ [] ∨ leading ≠ [] then .invalid
    else
      match fromStrRadix 10 65535 digits with
      | some n => if 100 ≤ n ∧ n ≤ 999 then .valid n else .invalid
      | none => .invalid
  | _ => .invalid

/-- src/parsers.rs:383-395: the unescaping loop. Each round consumes up to a double quote, so the
input length bounds the number of rounds (`fuel`). -/
def digestLoop : Nat → Bytes → Bytes → Option (Bytes × Bytes)
  | 0, _, _ => none
  | fuel + 1, result, input =>
    match Nom.bind (takeUntil (b! "\"")) (fun a => Nom.map (tag (b! "\"")) fun _ => a) input with
    | .ok remaining part =>
      let result := result ++ part
      if result.getLast? = some 92 then digestLoop fuel (result.dropLast ++ [34]) remaining
      else some (remaining, result)
    | _ => none

/-- src/parsers.rs:373-397 `parse_authorization_digest`: remaining input and username. -/
def parseAuthorizationDigest (value : Bytes) : Option (Bytes × Bytes) :=
  match Nom.bind (takeUntil (b! "username=")) (fun _ =>
        Nom.bind (tag (b! "username=")) fun _ =>
        Nom.bind takeAsciiWhitespace fun _ =>
        tag (b! "\"")) value with
  | .ok remaining _ => digestLoop (remaining.length + 1) [] remaining
  | _ => none

/-- src/transaction.rs:304-321 `enum HtpAuthType`. -/
inductive AuthType where
  | unknown | none | basic | digest | bearer | unrecognized | error
  deriving Repr, DecidableEq

/-- The transaction fields written by `parse_authorization`. -/
structure Auth where
  type : AuthType := .unknown
  username : Option Bytes := .none
  password : Option Bytes := .none
  token : Option Bytes := .none
  deriving Repr, DecidableEq

/-- src/parsers.rs:400-413 `parse_authorization_basic`. `base64` is the `base64` crate's `decode`
(abstract). The boolean is `true` for `Ok`, `false` for `Err(DECLINED)`. -/
def parseAuthorizationBasic (base64 : Bytes → Option Bytes) (a : Auth) (value : Bytes) : Bool × Auth :=
  match Nom.bind (tagNoCase (b! "basic")) (fun _ => takeAsciiWhitespace) value with
  | .ok remaining _ =>
    match base64 remaining with
    | .none => (false, a)
    | .some decoded =>
      match Nom.bind (takeUntil (b! ":")) (fun u => Nom.map (tag (b! ":")) fun _ => u) decoded with
      | .ok password username => (true, { a with username := some username, password := some password })
      | _ => (false, a)
  | _ => (false, a)

/-- src/parsers.rs:416-455 `parse_authorization`, given the value of the Authorization header if any. -/
def parseAuthorization (base64 : Bytes → Option Bytes) (a : Auth) (header : Option Bytes) : Bool × Auth :=
  match header with
  | .none => (true, { a with type := .none })
  | .some value =>
    if startsWithNocase value (b! "basic") then
      parseAuthorizationBasic base64 { a with type := .basic } value
    else if startsWithNocase value (b! "digest") then
      match parseAuthorizationDigest value with
      | .some (_, u) => (true, { a with type := .digest, username := some u })
      | .none => (false, { a with type := .digest })
    else if startsWithNocase value (b! "bearer") then
      match Nom.bind (tagNoCase (b! "bearer")) (fun _ => takeAsciiWhitespace) value with
      | .ok token _ => (true, { a with type := .bearer, token := some token })
      | _ => (false, { a with type := .bearer })
    else (true, { a with type := .unrecognized })

end Model
