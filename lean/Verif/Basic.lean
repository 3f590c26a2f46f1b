/-
Bytes, byte strings and a few tools used everywhere.
-/
import Lean

/-- A byte string. Rust `&[u8]`, `Vec<u8>` and `Bstr` are all modelled by lists of bytes. -/
abbrev Bytes := List UInt8

open Lean in
/-- `b! "text"` is the list of the UTF-8 bytes of the literal, produced at elaboration time. -/
macro "b!" s:str : term => do
  let bs := s.getString.toUTF8.toList
  let lits ← bs.mapM fun b => `(($(Syntax.mkNumLit (toString b.toNat)) : UInt8))
  `(([ $(lits.toArray),* ] : List UInt8))

/-- A decidable fact about bytes can be checked on all 256 of them by the kernel. -/
theorem forall_u8 {P : UInt8 → Prop} (h : ∀ i : Fin 256, P (UInt8.ofFin i)) : ∀ c, P c := by
  intro c
  have := h c.toFin
  simpa using this

/-- Decidability of a universally quantified statement about bytes (by running over all 256). -/
instance instDecidableForallU8 {P : UInt8 → Prop} [DecidablePred P] : Decidable (∀ c, P c) :=
  if h : ∀ i : Fin 256, P (UInt8.ofFin i) then .isTrue (forall_u8 h)
  else .isFalse (fun g => h (fun _ => g _))

example : b! "Ab\r" = [65, 98, 13] := rfl
