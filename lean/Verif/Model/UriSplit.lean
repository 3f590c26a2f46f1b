/-
Model of src/uri.rs: splitting a request URI and removing dot segments.
-/
import Verif.Model.Parsers

namespace Model
open Nom

/-- src/uri.rs:17-41 `struct Uri`; the decoder configuration is passed to the functions that use it.
Defaults as in lines 78-90 `with_config`. -/
structure Uri where
  scheme : Option Bytes := none
  username : Option Bytes := none
  password : Option Bytes := none
  hostname : Option Bytes := none
  port : Option Bytes := none
  portNumber : Option Nat := none
  path : Option Bytes := none
  query : Option Bytes := none
  fragment : Option Bytes := none
  deriving Repr, DecidableEq

/-- The parser of src/uri.rs:183-192. -/
def uriParser : Parser (Option (Bytes × Option (Bytes × Option Bytes) × Option (Bytes × Option Bytes)) ×
    Option Bytes × Option Bytes × Option Bytes) :=
  Nom.pair
    (opt (Nom.pair scheme (Nom.pair (opt credentials) (opt (Nom.pair hostname (opt port))))))
    (Nom.pair (opt path) (Nom.pair (opt query) (opt fragment)))

/-- src/uri.rs:182-219 `parse_uri`: `if let Some(x) = x { self.x = Some(x) }` keeps the old value
otherwise. -/
def Uri.parseUri (u : Uri) (input : Bytes) : Uri :=
  match uriParser input with
  | .ok _ (sa, path, query, fragment) =>
    let u := { u with path := path.or u.path, query := query.or u.query,
                      fragment := fragment.or u.fragment }
    match sa with
    | none => u
    | some (scheme, authority, hostnamePort) =>
      let u := { u with scheme := some scheme }
      let u := match authority with
        | none => u
        | some (username, password) =>
          { u with username := some username, password := password.or u.password }
      match hostnamePort with
      | none => u
      | some (hostname, port) => { u with hostname := some hostname, port := port.or u.port }
  | _ => u

/-- `[&[u8]]::join(b"/")` (core). -/
def joinSlash : List Bytes → Bytes
  | [] => []
  | [a] => a
  | a :: rest => a ++ 47 :: joinSlash rest

/-- src/uri.rs:375-383: the closure run for each segment, on the vector `out`. -/
def dotStep (out : List Bytes) (segment : Bytes) : List Bytes :=
  if segment = b! "." then out
  else if segment = b! ".." then
    if !(out.length == 1 && out.head? == some []) then out.dropLast else out
  else out ++ [segment]

/-- src/uri.rs:371-387 `normalize_uri_path_inplace`. -/
def normalizeUriPath (s : Bytes) : Bytes := joinSlash ((splitOn 47 s).foldl dotStep [])

end Model
