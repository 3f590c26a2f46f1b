/-
What the functions on one message of a transaction leave alone: everything recorded of the other message.
-/
import Verif.Lemmas.Tag
import Verif.Spec.Message

namespace Model

open Spec

/-- The index of a transaction and what is recorded of the response. -/
def Tx.answer (t : Tx) : Nat × Tx := (t.index, responseSide t)

namespace Tx

theorem answer_setFlags (t : Tx) (m : Flags) : (t.setFlags m).answer = t.answer := rfl

theorem answer_ite {c : Prop} [Decidable c] {a b t : Tx} (ha : a.answer = t.answer) (hb : b.answer = t.answer) :
    (if c then a else b).answer = t.answer := by
  split <;> assumption

theorem answer_framingTe (t : Tx) (te : Header) (cl : Option Header) : (t.framingTe te cl).answer = t.answer := by
  unfold framingTe
  repeat' split
  all_goals rfl

theorem answer_framingCl (t : Tx) (cl : Header) : (t.framingCl cl).answer = t.answer := by
  unfold framingCl
  have h1 : (if isSet cl.flags Flag.FIELD_FOLDED then t.setFlags Flag.REQUEST_SMUGGLING else t).answer = t.answer :=
    answer_ite rfl rfl
  generalize (if isSet cl.flags Flag.FIELD_FOLDED then t.setFlags Flag.REQUEST_SMUGGLING else t) = u at h1
  have h2 : (if isSet cl.flags Flag.FIELD_REPEATED then u.setFlags Flag.REQUEST_SMUGGLING else u).answer = t.answer :=
    answer_ite h1 h1
  dsimp only
  generalize (if isSet cl.flags Flag.FIELD_REPEATED then u.setFlags Flag.REQUEST_SMUGGLING else u) = v at h2
  exact answer_ite h2 h2

theorem answer_framing (t : Tx) : t.framing.answer = t.answer := by
  unfold framing
  dsimp only
  have h : (match t.requestHeaders.getNocaseNozero (b! "transfer-encoding") with
    | some te => t.framingTe te (t.requestHeaders.getNocaseNozero (b! "content-length"))
    | none =>
      match t.requestHeaders.getNocaseNozero (b! "content-length") with
      | some cl => t.framingCl cl
      | none => { t with requestTransferCoding := .noBody }).answer = t.answer := by
    split
    · exact answer_framingTe ..
    · split
      · exact answer_framingCl ..
      · rfl
  refine answer_ite ?_ h
  exact h

theorem answer_hostFromHeader (t : Tx) (h : Bytes) (p : Option (Bytes × Option Nat)) :
    (t.hostFromHeader h p).answer = t.answer := by
  unfold hostFromHeader
  dsimp only
  repeat' split
  all_goals rfl

theorem answer_examineHost (ip : Bytes → Option Bool) (t : Tx) : (t.examineHost ip).answer = t.answer := by
  unfold examineHost
  split
  · split
    · dsimp only
      rw [answer_hostFromHeader]
      split <;> rfl
    · split <;> rfl
  · split <;> rfl

theorem answer_examineAuth (e : TxEnv) (t : Tx) : (t.examineAuth e).answer = t.answer := by
  unfold examineAuth
  split
  · dsimp only
    split <;> rfl
  · rfl

theorem answer_processRequestHeaders (e : TxEnv) (t : Tx) : (t.processRequestHeaders e).2.answer = t.answer := by
  unfold processRequestHeaders
  have h : (t.framing.hostFromUri.examineHost e.ip).answer = t.answer := by
    rw [answer_examineHost]
    exact answer_framing t
  generalize t.framing.hostFromUri.examineHost e.ip = u at h
  unfold examineRest
  split
  · split
    · dsimp only
      rw [answer_examineAuth]
      exact h
    · exact h
  · dsimp only
    rw [answer_examineAuth]
    exact h

theorem answer_normalizeParsedUri (e : TxEnv) (t : Tx) {u : Tx} (h : t.normalizeParsedUri e = some u) :
    u.answer = t.answer := by
  unfold normalizeParsedUri at h
  split at h
  · simp only [Option.some.injEq] at h
    subst h
    rfl
  · dsimp only at h
    simp only [Option.bind_eq_some_iff] at h
    obtain ⟨a, -, h⟩ := h
    obtain ⟨b, -, h⟩ := h
    obtain ⟨c, -, h⟩ := h
    obtain ⟨d, -, h⟩ := h
    obtain ⟨f, -, h⟩ := h
    simp only [Option.some.injEq] at h
    subst h
    rfl

theorem answer_splitRequestUri (e : TxEnv) (t : Tx) : (t.splitRequestUri e).2.answer = t.answer := by
  unfold splitRequestUri
  split
  · split
    · rfl
    · dsimp only; rfl
  · split <;> rfl

theorem answer_finishRequestUri (e : TxEnv) (t : Tx) : (t.finishRequestUri e).2.answer = t.answer := by
  unfold finishRequestUri
  split
  · rfl
  · rename_i u hu
    have h : u.answer = t.answer := by
      split at hu
      · exact answer_normalizeParsedUri e t hu
      · simp only [Option.some.injEq] at hu
        rw [hu]
    split
    · exact h
    · dsimp only
      unfold checkUriHost
      split
      · split <;> exact h
      · exact h

theorem answer_parseRequestLine (e : TxEnv) (t : Tx) : (t.parseRequestLine e).2.answer = t.answer := by
  unfold parseRequestLine
  have h := answer_splitRequestUri e t
  split
  · rename_i u hu; rw [hu] at h; exact h
  · rename_i u hu; rw [hu] at h; rw [answer_finishRequestUri]; exact h

theorem answer_acceptRequestHeader (t : Tx) (h : ParsedHeader) : (t.acceptRequestHeader h).answer = t.answer := rfl

theorem answer_foldl {α : Type} {f : Tx → α → Tx} (hf : ∀ t a, (f t a).answer = t.answer) (l : List α) :
    ∀ t : Tx, (l.foldl f t).answer = t.answer := by
  induction l with
  | nil => exact fun _ => rfl
  | cons a l ih => intro t; rw [List.foldl_cons, ih, hf]

theorem answer_parseRequestHeaders (t : Tx) (d : Bytes) : (t.parseRequestHeaders d).2.answer = t.answer := by
  unfold parseRequestHeaders
  split
  · exact answer_foldl answer_acceptRequestHeader _ _
  · rfl

theorem answer_readRequestLine (e : TxEnv) (t : Tx) (l : Bytes) : (t.readRequestLine e l).answer = t.answer := by
  unfold readRequestLine
  dsimp only
  split
  · unfold readMethod readUriProtocol
    dsimp only
    repeat' split
    all_goals rfl
  · rfl

theorem answer_prependRequestDecompressor (t : Tx) (c : Encoding) : (t.prependRequestDecompressor c).answer = t.answer := by
  unfold prependRequestDecompressor
  repeat' split
  all_goals rfl

theorem answer_initRequestDecompressors (cfg : Config) (t : Tx) : (t.initRequestDecompressors cfg).answer = t.answer := by
  unfold initRequestDecompressors
  dsimp only
  split
  · split
    · rfl
    · exact answer_prependRequestDecompressor ..
    · exact answer_foldl answer_prependRequestDecompressor _ _
  · rfl

theorem answer_storeNormalizedUri (e : TxEnv) (t : Tx) {u : Tx} (h : t.storeNormalizedUri e = some u) :
    u.answer = t.answer := by
  unfold storeNormalizedUri at h
  split at h
  · simp only [Option.some.injEq] at h
    rw [h]
  · simp only [Option.map_eq_some_iff] at h
    obtain ⟨a, -, h⟩ := h
    subst h
    rfl

/-- What is recorded of the request. -/
def asked (t : Tx) : Tx := requestSide t

theorem asked_validateResponseLine (t : Tx) : t.validateResponseLine.asked = t.asked := by
  unfold validateResponseLine
  dsimp only
  repeat' split
  all_goals rfl

theorem asked_acceptResponseHeader (t : Tx) (h : ParsedHeader) : (t.acceptResponseHeader h).asked = t.asked := rfl

theorem asked_foldl {α : Type} {f : Tx → α → Tx} (hf : ∀ t a, (f t a).asked = t.asked) (l : List α) :
    ∀ t : Tx, (l.foldl f t).asked = t.asked := by
  induction l with
  | nil => exact fun _ => rfl
  | cons a l ih => intro t; rw [List.foldl_cons, ih, hf]

theorem asked_parseResponseHeaders (t : Tx) (d : Bytes) : (t.parseResponseHeaders d).2.asked = t.asked := by
  unfold parseResponseHeaders
  split
  · exact asked_foldl asked_acceptResponseHeader _ _
  · rfl

theorem asked_readResponseLine (t : Tx) (l : Bytes) : (t.readResponseLine l).asked = t.asked := by
  unfold readResponseLine
  dsimp only
  repeat' split
  all_goals rfl

theorem asked_prependResponseDecompressor (t : Tx) (c : Encoding) :
    (t.prependResponseDecompressor c).asked = t.asked := by
  unfold prependResponseDecompressor
  repeat' split
  all_goals rfl

theorem asked_initResponseDecompressors (cfg : Config) (t : Tx) : (t.initResponseDecompressors cfg).asked = t.asked := by
  unfold initResponseDecompressors
  dsimp only
  split
  · split
    · rfl
    · exact asked_prependResponseDecompressor ..
    · exact asked_foldl asked_prependResponseDecompressor _ _
  · rfl

end Tx

end Model
