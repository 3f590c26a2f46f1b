/-
Specification: how the parts of a request URI are written, independent of the model.
-/
import Verif.Basic

namespace Spec.UriText

/-- An optional part and what introduces it. -/
def part (intro : Bytes) : Option Bytes → Bytes
  | none => []
  | some t => intro ++ t

/-- path, "?" query, "#" fragment -/
def tailText (path query fragment : Option Bytes) : Bytes :=
  part [] path ++ part (b! "?") query ++ part (b! "#") fragment

/-- The parts are where they belong: the path stops at the first "?" or "#", the query at "#". -/
structure TailParts (path query : Option Bytes) : Prop where
  path_ne : path ≠ some []
  path_pure : ∀ p, path = some p → 63 ∉ p ∧ 35 ∉ p
  query_ne : query ≠ some []
  query_pure : ∀ q, query = some q → 35 ∉ q

/-- A run of spaces. -/
def Spaces (s : Bytes) : Prop := ∀ c ∈ s, c = 32

/-- `//user@` or `//user:password@` -/
def CredText (username password : Option Bytes) (t : Bytes) : Prop :=
  match username with
  | none => password = none ∧ t = []
  | some u => t = b! "//" ++ u ++ part (b! ":") password ++ b! "@" ∧ 58 ∉ u ∧ 64 ∉ u ∧
      ∀ p, password = some p → 64 ∉ p

/-- The host, maybe after "//", maybe between spaces. -/
def HostText (host : Option Bytes) (t : Bytes) : Prop :=
  match host with
  | none => t = []
  | some h => ∃ lead s1 s2, (lead = [] ∨ lead = b! "//") ∧ Spaces s1 ∧ Spaces s2 ∧ t = lead ++ s1 ++ h ++ s2

/-- ":" and the port, maybe after spaces; anything from a later space on is ignored. -/
def PortText (port : Option Bytes) (t : Bytes) : Prop :=
  match port with
  | none => t = []
  | some p => ∃ s1 junk, Spaces s1 ∧ (∀ c ∈ junk.head?, c = 32) ∧ 32 ∉ p ∧ p ≠ [] ∧
      t = b! ":" ++ s1 ++ p ++ junk

end Spec.UriText
