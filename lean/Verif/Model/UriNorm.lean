/-
Model of src/uri.rs: normalized parts of a URI and the normalized URI.
-/
import Verif.Model.UriSplit
import Verif.Model.Urlencoded
import Verif.Model.Utf8

namespace Model
open Nom

namespace Uri

/-- src/uri.rs:95-102 `normalized_scheme`. -/
def normalizedScheme (u : Uri) : Option Bytes := u.scheme.map lowerAll

/-- The common part of src/uri.rs:105-120 and 153-159 (`normalized_username`, `normalized_password`,
`normalized_fragment`): decode, keeping the flags; an error gives `None`. The outer `none` is a panic. -/
def normalizedDecoded (ovf : Bool) (cfg : DecoderConfig) (flags : Flags) : Option Bytes → Option (Flags × Option Bytes)
  | none => some (flags, none)
  | some s =>
    match decodeUriWithFlags ovf cfg flags s with
    | .ok _ (flags, t) => some (flags, some t)
    | .err => some (flags, none)
    | .panic => none

/-- src/uri.rs:123-136 `normalized_hostname`: decoded, lower case, without trailing dots. -/
def normalizedHostname (ovf : Bool) (cfg : DecoderConfig) (flags : Flags) (u : Uri) : Option (Flags × Option Bytes) :=
  (normalizedDecoded ovf cfg flags u.hostname).map fun (flags, h) =>
    (flags, h.map fun h => dropLastWhile (· == 46) (lowerAll h))

/-- src/uri.rs:139-150 `normalized_port`. -/
def normalizedPort (flags : Flags) (u : Uri) : Flags × Option Nat :=
  match u.port with
  | none => (flags, none)
  | some p =>
    match convertPort p with
    | none => (setFlag flags Flag.HOSTU_INVALID, none)
    | some n => (flags, some n)

/-- src/uri.rs:162-176 `normalized_path`: flags, status and the path; the outer `none` is a panic. -/
def normalizedPath (ovf : Bool) (cfg : DecoderConfig) (flags : Flags) (status : Unwanted) (u : Uri) :
    Option (Flags × Unwanted × Option Bytes) :=
  match u.path with
  | none => some (flags, status, none)
  | some path =>
    (pathDecodeUriInplace ovf cfg flags status path).map fun (flags, status, path) =>
      let (path, flags, status) := decodeAndValidateInplace cfg flags status path
      (flags, status, some (normalizeUriPath path))

/-- src/uri.rs:222-238 `parse_uri_hostport`. `ip` as for `validateHostname`. -/
def parseUriHostport (ip : Bytes → Option Bool) (u : Uri) (flags : Flags) (hostport : Bytes) : Uri × Flags :=
  match parseHostport ip hostport with
  | .ok _ (host, portNmb, valid) =>
    let u := { u with hostname := some (lowerAll host) }
    match portNmb with
    | none => (u, if valid then flags else setFlag flags Flag.HOSTU_INVALID)
    | some (port, num) =>
      let u := { u with port := some port }
      match num with
      | some n => ({ u with portNumber := some n }, if valid then flags else setFlag flags Flag.HOSTU_INVALID)
      | none => (u, setFlag flags Flag.HOSTU_INVALID)
  | _ => (u, flags)

/-- src/uri.rs:296-316 in `generate_normalized_uri`: what precedes the path in the complete URI. -/
def front (u : Uri) : Bytes :=
  let full : Bytes := match u.scheme with | some s => s ++ b! "://" | none => []
  let full := if u.username.isSome || u.password.isSome then
      full ++ u.username.getD [] ++ b! ":" ++ u.password.getD [] ++ b! "@" else full
  let full := match u.hostname with | some h => full ++ h | none => full
  match u.port with | some p => full ++ b! ":" ++ p | none => full

/-- src/uri.rs:317-333 in `generate_normalized_uri`: the path part. -/
def pathOut (ovf : Bool) (cfg : DecoderConfig) (u : Uri) : Option Bytes :=
  match u.path with
  | none => some []
  | some path => if cfg.doubleDecodeNormalizedPath then decodeUriInplace ovf cfg path else some path

/-- src/uri.rs:334-351 in `generate_normalized_uri`: the query part. -/
def queryOut (ovf : Bool) (cfg : DecoderConfig) (u : Uri) : Option Bytes :=
  match u.query with
  | none => some []
  | some query =>
    (decodeUriInplace ovf cfg query).bind fun query =>
    (if cfg.doubleDecodeNormalizedQuery then decodeUriInplace ovf cfg query else some query).map (b! "?" ++ ·)

/-- src/uri.rs:352-355 in `generate_normalized_uri`: the fragment part. -/
def fragmentOut (u : Uri) : Bytes := match u.fragment with | some f => b! "#" ++ f | none => []

/-- src/uri.rs:241-366 `generate_normalized_uri`: (partial, complete). The capacity computation and the
warnings about double encoding are not modelled. The outer `none` is a panic. -/
def generateNormalizedUri (ovf : Bool) (cfg : DecoderConfig) (u : Uri) : Option (Option Bytes × Option Bytes) :=
  (u.pathOut ovf cfg).bind fun path =>
  (u.queryOut ovf cfg).bind fun query =>
  let part := path ++ query ++ u.fragmentOut
  let full := u.front ++ part
  some (if full ≠ [] then (if part ≠ [] then some part else none, some full) else (none, none))

end Uri

end Model
