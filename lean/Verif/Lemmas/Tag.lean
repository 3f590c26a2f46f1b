/-
What the functions on transactions leave alone: the index and the progress of both messages.
-/
import Verif.Model.ConnRequest

namespace Model

/-- The index of a transaction and the progress of its messages. -/
def Tx.tag (t : Tx) : Nat × Progress × Progress := (t.index, t.requestProgress, t.responseProgress)

namespace Tx

theorem tag_setFlags (t : Tx) (m : Flags) : (t.setFlags m).tag = t.tag := rfl

theorem tag_ite {c : Prop} [Decidable c] {a b t : Tx} (ha : a.tag = t.tag) (hb : b.tag = t.tag) :
    (if c then a else b).tag = t.tag := by
  split <;> assumption

theorem tag_framingTe (t : Tx) (te : Header) (cl : Option Header) : (t.framingTe te cl).tag = t.tag := by
  unfold framingTe
  repeat' split
  all_goals rfl

theorem tag_framingCl (t : Tx) (cl : Header) : (t.framingCl cl).tag = t.tag := by
  unfold framingCl
  dsimp only
  repeat' split
  all_goals rfl

theorem tag_framing (t : Tx) : t.framing.tag = t.tag := by
  unfold framing
  dsimp only
  have h : (match t.requestHeaders.getNocaseNozero (b! "transfer-encoding") with
    | some te => t.framingTe te (t.requestHeaders.getNocaseNozero (b! "content-length"))
    | none =>
      match t.requestHeaders.getNocaseNozero (b! "content-length") with
      | some cl => t.framingCl cl
      | none => { t with requestTransferCoding := .noBody }).tag = t.tag := by
    split
    · exact tag_framingTe ..
    · split
      · exact tag_framingCl ..
      · rfl
  refine tag_ite ?_ h
  exact h

theorem tag_hostFromHeader (t : Tx) (h : Bytes) (p : Option (Bytes × Option Nat)) :
    (t.hostFromHeader h p).tag = t.tag := by
  unfold hostFromHeader
  dsimp only
  repeat' split
  all_goals rfl

theorem tag_examineHost (ip : Bytes → Option Bool) (t : Tx) : (t.examineHost ip).tag = t.tag := by
  unfold examineHost
  split
  · split
    · dsimp only
      rw [tag_hostFromHeader]
      split <;> rfl
    · split <;> rfl
  · split <;> rfl

theorem tag_examineAuth (e : TxEnv) (t : Tx) : (t.examineAuth e).tag = t.tag := by
  unfold examineAuth
  split
  · dsimp only
    split <;> rfl
  · rfl

theorem tag_processRequestHeaders (e : TxEnv) (t : Tx) : (t.processRequestHeaders e).2.tag = t.tag := by
  unfold processRequestHeaders
  have h : (t.framing.hostFromUri.examineHost e.ip).tag = t.tag := by
    rw [tag_examineHost]
    exact tag_framing t
  generalize t.framing.hostFromUri.examineHost e.ip = u at h
  unfold examineRest
  split
  · split
    · dsimp only
      rw [tag_examineAuth]
      exact h
    · exact h
  · dsimp only
    rw [tag_examineAuth]
    exact h

theorem tag_validateResponseLine (t : Tx) : t.validateResponseLine.tag = t.tag := by
  unfold validateResponseLine
  dsimp only
  repeat' split
  all_goals rfl

theorem tag_normalizeParsedUri (e : TxEnv) (t : Tx) {u : Tx} (h : t.normalizeParsedUri e = some u) :
    u.tag = t.tag := by
  unfold normalizeParsedUri at h
  split at h
  · simp only [Option.some.injEq] at h
    subst h
    rfl
  · dsimp only at h
    simp only [Option.bind_eq_some_iff] at h
    obtain ⟨a, -, h⟩ := h
    obtain ⟨b, -, h⟩ := h
    obtain ⟨c, -, h⟩ := h
    obtain ⟨d, -, h⟩ := h
    obtain ⟨f, -, h⟩ := h
    simp only [Option.some.injEq] at h
    subst h
    rfl

theorem tag_splitRequestUri (e : TxEnv) (t : Tx) : (t.splitRequestUri e).2.tag = t.tag := by
  unfold splitRequestUri
  split
  · split
    · rfl
    · dsimp only; rfl
  · split <;> rfl

theorem tag_finishRequestUri (e : TxEnv) (t : Tx) : (t.finishRequestUri e).2.tag = t.tag := by
  unfold finishRequestUri
  split
  · rfl
  · rename_i u hu
    have h : u.tag = t.tag := by
      split at hu
      · exact tag_normalizeParsedUri e t hu
      · simp only [Option.some.injEq] at hu
        rw [hu]
    split
    · exact h
    · dsimp only
      unfold checkUriHost
      split
      · split <;> exact h
      · exact h

theorem tag_parseRequestLine (e : TxEnv) (t : Tx) : (t.parseRequestLine e).2.tag = t.tag := by
  unfold parseRequestLine
  have h := tag_splitRequestUri e t
  split
  · rename_i u hu; rw [hu] at h; exact h
  · rename_i u hu; rw [hu] at h; rw [tag_finishRequestUri]; exact h

theorem tag_acceptRequestHeader (t : Tx) (h : ParsedHeader) : (t.acceptRequestHeader h).tag = t.tag := rfl

theorem tag_acceptResponseHeader (t : Tx) (h : ParsedHeader) : (t.acceptResponseHeader h).tag = t.tag := rfl

theorem tag_foldl {α : Type} {f : Tx → α → Tx} (hf : ∀ t a, (f t a).tag = t.tag) (l : List α) :
    ∀ t : Tx, (l.foldl f t).tag = t.tag := by
  induction l with
  | nil => exact fun _ => rfl
  | cons a l ih => intro t; rw [List.foldl_cons, ih, hf]

theorem tag_parseRequestHeaders (t : Tx) (d : Bytes) : (t.parseRequestHeaders d).2.tag = t.tag := by
  unfold parseRequestHeaders
  split
  · exact tag_foldl tag_acceptRequestHeader _ _
  · rfl

theorem tag_parseResponseHeaders (t : Tx) (d : Bytes) : (t.parseResponseHeaders d).2.tag = t.tag := by
  unfold parseResponseHeaders
  split
  · exact tag_foldl tag_acceptResponseHeader _ _
  · rfl

theorem tag_readRequestLine (e : TxEnv) (t : Tx) (l : Bytes) : (t.readRequestLine e l).tag = t.tag := by
  unfold readRequestLine
  dsimp only
  split
  · unfold readMethod readUriProtocol
    dsimp only
    repeat' split
    all_goals rfl
  · rfl

theorem tag_readResponseLine (t : Tx) (l : Bytes) : (t.readResponseLine l).tag = t.tag := by
  unfold readResponseLine
  dsimp only
  repeat' split
  all_goals rfl

theorem tag_prependRequestDecompressor (t : Tx) (c : Encoding) : (t.prependRequestDecompressor c).tag = t.tag := by
  unfold prependRequestDecompressor
  repeat' split
  all_goals rfl

theorem tag_prependResponseDecompressor (t : Tx) (c : Encoding) :
    (t.prependResponseDecompressor c).tag = t.tag := by
  unfold prependResponseDecompressor
  repeat' split
  all_goals rfl

theorem tag_initRequestDecompressors (cfg : Config) (t : Tx) : (t.initRequestDecompressors cfg).tag = t.tag := by
  unfold initRequestDecompressors
  dsimp only
  split
  · split
    · rfl
    · exact tag_prependRequestDecompressor ..
    · exact tag_foldl tag_prependRequestDecompressor _ _
  · rfl

theorem tag_initResponseDecompressors (cfg : Config) (t : Tx) : (t.initResponseDecompressors cfg).tag = t.tag := by
  unfold initResponseDecompressors
  dsimp only
  split
  · split
    · rfl
    · exact tag_prependResponseDecompressor ..
    · exact tag_foldl tag_prependResponseDecompressor _ _
  · rfl

theorem tag_storeNormalizedUri (e : TxEnv) (t : Tx) {u : Tx} (h : t.storeNormalizedUri e = some u) :
    u.tag = t.tag := by
  unfold storeNormalizedUri at h
  split at h
  · simp only [Option.some.injEq] at h
    rw [h]
  · simp only [Option.map_eq_some_iff] at h
    obtain ⟨a, -, h⟩ := h
    subst h
    rfl

end Tx

end Model
