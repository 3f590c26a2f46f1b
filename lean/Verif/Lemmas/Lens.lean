/-
What the functions on transactions leave alone: the lengths of the bodies.
-/
import Verif.Model.ConnRequest

namespace Model

/-- The lengths of the bodies of a transaction. -/
def Tx.lens (t : Tx) : Nat × Nat := (t.requestEntityLen, t.responseEntityLen)

namespace Tx

theorem lens_setFlags (t : Tx) (m : Flags) : (t.setFlags m).lens = t.lens := rfl

theorem lens_ite {c : Prop} [Decidable c] {a b t : Tx} (ha : a.lens = t.lens) (hb : b.lens = t.lens) :
    (if c then a else b).lens = t.lens := by
  split <;> assumption

theorem lens_framingTe (t : Tx) (te : Header) (cl : Option Header) : (t.framingTe te cl).lens = t.lens := by
  unfold framingTe
  repeat' split
  all_goals rfl

theorem lens_framingCl (t : Tx) (cl : Header) : (t.framingCl cl).lens = t.lens := by
  unfold framingCl
  dsimp only
  repeat' split
  all_goals rfl

theorem lens_framing (t : Tx) : t.framing.lens = t.lens := by
  unfold framing
  dsimp only
  have h : (match t.requestHeaders.getNocaseNozero (b! "transfer-encoding") with
    | some te => t.framingTe te (t.requestHeaders.getNocaseNozero (b! "content-length"))
    | none =>
      match t.requestHeaders.getNocaseNozero (b! "content-length") with
      | some cl => t.framingCl cl
      | none => { t with requestTransferCoding := .noBody }).lens = t.lens := by
    split
    · exact lens_framingTe ..
    · split
      · exact lens_framingCl ..
      · rfl
  refine lens_ite ?_ h
  exact h

theorem lens_hostFromHeader (t : Tx) (h : Bytes) (p : Option (Bytes × Option Nat)) :
    (t.hostFromHeader h p).lens = t.lens := by
  unfold hostFromHeader
  dsimp only
  repeat' split
  all_goals rfl

theorem lens_examineHost (ip : Bytes → Option Bool) (t : Tx) : (t.examineHost ip).lens = t.lens := by
  unfold examineHost
  split
  · split
    · dsimp only
      rw [lens_hostFromHeader]
      split <;> rfl
    · split <;> rfl
  · split <;> rfl

theorem lens_examineAuth (e : TxEnv) (t : Tx) : (t.examineAuth e).lens = t.lens := by
  unfold examineAuth
  split
  · dsimp only
    split <;> rfl
  · rfl

theorem lens_processRequestHeaders (e : TxEnv) (t : Tx) : (t.processRequestHeaders e).2.lens = t.lens := by
  unfold processRequestHeaders
  have h : (t.framing.hostFromUri.examineHost e.ip).lens = t.lens := by
    rw [lens_examineHost]
    exact lens_framing t
  generalize t.framing.hostFromUri.examineHost e.ip = u at h
  unfold examineRest
  split
  · split
    · dsimp only
      rw [lens_examineAuth]
      exact h
    · exact h
  · dsimp only
    rw [lens_examineAuth]
    exact h

theorem lens_validateResponseLine (t : Tx) : t.validateResponseLine.lens = t.lens := by
  unfold validateResponseLine
  dsimp only
  repeat' split
  all_goals rfl

theorem lens_normalizeParsedUri (e : TxEnv) (t : Tx) {u : Tx} (h : t.normalizeParsedUri e = some u) :
    u.lens = t.lens := by
  unfold normalizeParsedUri at h
  split at h
  · simp only [Option.some.injEq] at h
    subst h
    rfl
  · dsimp only at h
    simp only [Option.bind_eq_some_iff] at h
    obtain ⟨a, -, h⟩ := h
    obtain ⟨b, -, h⟩ := h
    obtain ⟨c, -, h⟩ := h
    obtain ⟨d, -, h⟩ := h
    obtain ⟨f, -, h⟩ := h
    simp only [Option.some.injEq] at h
    subst h
    rfl

theorem lens_splitRequestUri (e : TxEnv) (t : Tx) : (t.splitRequestUri e).2.lens = t.lens := by
  unfold splitRequestUri
  split
  · split
    · rfl
    · dsimp only; rfl
  · split <;> rfl

theorem lens_finishRequestUri (e : TxEnv) (t : Tx) : (t.finishRequestUri e).2.lens = t.lens := by
  unfold finishRequestUri
  split
  · rfl
  · rename_i u hu
    have h : u.lens = t.lens := by
      split at hu
      · exact lens_normalizeParsedUri e t hu
      · simp only [Option.some.injEq] at hu
        rw [hu]
    split
    · exact h
    · dsimp only
      unfold checkUriHost
      split
      · split <;> exact h
      · exact h

theorem lens_parseRequestLine (e : TxEnv) (t : Tx) : (t.parseRequestLine e).2.lens = t.lens := by
  unfold parseRequestLine
  have h := lens_splitRequestUri e t
  split
  · rename_i u hu; rw [hu] at h; exact h
  · rename_i u hu; rw [hu] at h; rw [lens_finishRequestUri]; exact h

theorem lens_acceptRequestHeader (t : Tx) (h : ParsedHeader) : (t.acceptRequestHeader h).lens = t.lens := rfl

theorem lens_acceptResponseHeader (t : Tx) (h : ParsedHeader) : (t.acceptResponseHeader h).lens = t.lens := rfl

theorem lens_foldl {α : Type} {f : Tx → α → Tx} (hf : ∀ t a, (f t a).lens = t.lens) (l : List α) :
    ∀ t : Tx, (l.foldl f t).lens = t.lens := by
  induction l with
  | nil => exact fun _ => rfl
  | cons a l ih => intro t; rw [List.foldl_cons, ih, hf]

theorem lens_parseRequestHeaders (t : Tx) (d : Bytes) : (t.parseRequestHeaders d).2.lens = t.lens := by
  unfold parseRequestHeaders
  split
  · exact lens_foldl lens_acceptRequestHeader _ _
  · rfl

theorem lens_parseResponseHeaders (t : Tx) (d : Bytes) : (t.parseResponseHeaders d).2.lens = t.lens := by
  unfold parseResponseHeaders
  split
  · exact lens_foldl lens_acceptResponseHeader _ _
  · rfl

theorem lens_readRequestLine (e : TxEnv) (t : Tx) (l : Bytes) : (t.readRequestLine e l).lens = t.lens := by
  unfold readRequestLine
  dsimp only
  split
  · unfold readMethod readUriProtocol
    dsimp only
    repeat' split
    all_goals rfl
  · rfl

theorem lens_readResponseLine (t : Tx) (l : Bytes) : (t.readResponseLine l).lens = t.lens := by
  unfold readResponseLine
  dsimp only
  repeat' split
  all_goals rfl

theorem lens_prependRequestDecompressor (t : Tx) (c : Encoding) : (t.prependRequestDecompressor c).lens = t.lens := by
  unfold prependRequestDecompressor
  repeat' split
  all_goals rfl

theorem lens_prependResponseDecompressor (t : Tx) (c : Encoding) :
    (t.prependResponseDecompressor c).lens = t.lens := by
  unfold prependResponseDecompressor
  repeat' split
  all_goals rfl

theorem lens_initRequestDecompressors (cfg : Config) (t : Tx) : (t.initRequestDecompressors cfg).lens = t.lens := by
  unfold initRequestDecompressors
  dsimp only
  split
  · split
    · rfl
    · exact lens_prependRequestDecompressor ..
    · exact lens_foldl lens_prependRequestDecompressor _ _
  · rfl

theorem lens_initResponseDecompressors (cfg : Config) (t : Tx) : (t.initResponseDecompressors cfg).lens = t.lens := by
  unfold initResponseDecompressors
  dsimp only
  split
  · split
    · rfl
    · exact lens_prependResponseDecompressor ..
    · exact lens_foldl lens_prependResponseDecompressor _ _
  · rfl

theorem lens_storeNormalizedUri (e : TxEnv) (t : Tx) {u : Tx} (h : t.storeNormalizedUri e = some u) :
    u.lens = t.lens := by
  unfold storeNormalizedUri at h
  split at h
  · simp only [Option.some.injEq] at h
    rw [h]
  · simp only [Option.map_eq_some_iff] at h
    obtain ⟨a, -, h⟩ := h
    subst h
    rfl

end Tx

end Model
