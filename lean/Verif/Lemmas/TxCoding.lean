/-
The functions on a transaction that leave the choice of decoding alone.
-/
import Verif.Lemmas.Tag
import Verif.Spec.Message

namespace Model

/-- How the bodies of a transaction are decoded. -/
def Tx.coding (t : Tx) : Encoding × Encoding := (t.requestContentEncodingProcessing, t.responseContentEncodingProcessing)

namespace Tx

theorem coding_setFlags (t : Tx) (m : Flags) : (t.setFlags m).coding = t.coding := rfl

theorem coding_ite {c : Prop} [Decidable c] {a b t : Tx} (ha : a.coding = t.coding) (hb : b.coding = t.coding) :
    (if c then a else b).coding = t.coding := by
  split <;> assumption

theorem coding_framingTe (t : Tx) (te : Header) (cl : Option Header) : (t.framingTe te cl).coding = t.coding := by
  unfold framingTe
  repeat' split
  all_goals rfl

theorem coding_framingCl (t : Tx) (cl : Header) : (t.framingCl cl).coding = t.coding := by
  unfold framingCl
  have h1 : (if isSet cl.flags Flag.FIELD_FOLDED then t.setFlags Flag.REQUEST_SMUGGLING else t).coding = t.coding :=
    coding_ite rfl rfl
  generalize (if isSet cl.flags Flag.FIELD_FOLDED then t.setFlags Flag.REQUEST_SMUGGLING else t) = u at h1
  have h2 : (if isSet cl.flags Flag.FIELD_REPEATED then u.setFlags Flag.REQUEST_SMUGGLING else u).coding = t.coding :=
    coding_ite h1 h1
  dsimp only
  generalize (if isSet cl.flags Flag.FIELD_REPEATED then u.setFlags Flag.REQUEST_SMUGGLING else u) = v at h2
  exact coding_ite h2 h2

theorem coding_framing (t : Tx) : t.framing.coding = t.coding := by
  unfold framing
  dsimp only
  have h : (match t.requestHeaders.getNocaseNozero (b! "transfer-encoding") with
    | some te => t.framingTe te (t.requestHeaders.getNocaseNozero (b! "content-length"))
    | none =>
      match t.requestHeaders.getNocaseNozero (b! "content-length") with
      | some cl => t.framingCl cl
      | none => { t with requestTransferCoding := .noBody }).coding = t.coding := by
    split
    · exact coding_framingTe ..
    · split
      · exact coding_framingCl ..
      · rfl
  refine coding_ite ?_ h
  exact h

theorem coding_hostFromHeader (t : Tx) (h : Bytes) (p : Option (Bytes × Option Nat)) :
    (t.hostFromHeader h p).coding = t.coding := by
  unfold hostFromHeader
  dsimp only
  repeat' split
  all_goals rfl

theorem coding_examineHost (ip : Bytes → Option Bool) (t : Tx) : (t.examineHost ip).coding = t.coding := by
  unfold examineHost
  split
  · split
    · dsimp only
      rw [coding_hostFromHeader]
      split <;> rfl
    · split <;> rfl
  · split <;> rfl

theorem coding_examineAuth (e : TxEnv) (t : Tx) : (t.examineAuth e).coding = t.coding := by
  unfold examineAuth
  split
  · dsimp only
    split <;> rfl
  · rfl

theorem coding_processRequestHeaders (e : TxEnv) (t : Tx) : (t.processRequestHeaders e).2.coding = t.coding := by
  unfold processRequestHeaders
  have h : (t.framing.hostFromUri.examineHost e.ip).coding = t.coding := by
    rw [coding_examineHost]
    exact coding_framing t
  generalize t.framing.hostFromUri.examineHost e.ip = u at h
  unfold examineRest
  split
  · split
    · dsimp only
      rw [coding_examineAuth]
      exact h
    · exact h
  · dsimp only
    rw [coding_examineAuth]
    exact h

theorem coding_normalizeParsedUri (e : TxEnv) (t : Tx) {u : Tx} (h : t.normalizeParsedUri e = some u) :
    u.coding = t.coding := by
  unfold normalizeParsedUri at h
  split at h
  · simp only [Option.some.injEq] at h
    subst h
    rfl
  · dsimp only at h
    simp only [Option.bind_eq_some_iff] at h
    obtain ⟨a, -, h⟩ := h
    obtain ⟨b, -, h⟩ := h
    obtain ⟨c, -, h⟩ := h
    obtain ⟨d, -, h⟩ := h
    obtain ⟨f, -, h⟩ := h
    simp only [Option.some.injEq] at h
    subst h
    rfl

theorem coding_splitRequestUri (e : TxEnv) (t : Tx) : (t.splitRequestUri e).2.coding = t.coding := by
  unfold splitRequestUri
  split
  · split
    · rfl
    · dsimp only; rfl
  · split <;> rfl

theorem coding_finishRequestUri (e : TxEnv) (t : Tx) : (t.finishRequestUri e).2.coding = t.coding := by
  unfold finishRequestUri
  split
  · rfl
  · rename_i u hu
    have h : u.coding = t.coding := by
      split at hu
      · exact coding_normalizeParsedUri e t hu
      · simp only [Option.some.injEq] at hu
        rw [hu]
    split
    · exact h
    · dsimp only
      unfold checkUriHost
      split
      · split <;> exact h
      · exact h

theorem coding_parseRequestLine (e : TxEnv) (t : Tx) : (t.parseRequestLine e).2.coding = t.coding := by
  unfold parseRequestLine
  have h := coding_splitRequestUri e t
  split
  · rename_i u hu; rw [hu] at h; exact h
  · rename_i u hu; rw [hu] at h; rw [coding_finishRequestUri]; exact h

theorem coding_acceptRequestHeader (t : Tx) (h : ParsedHeader) : (t.acceptRequestHeader h).coding = t.coding := rfl

theorem coding_foldl {α : Type} {f : Tx → α → Tx} (hf : ∀ t a, (f t a).coding = t.coding) (l : List α) :
    ∀ t : Tx, (l.foldl f t).coding = t.coding := by
  induction l with
  | nil => exact fun _ => rfl
  | cons a l ih => intro t; rw [List.foldl_cons, ih, hf]

theorem coding_parseRequestHeaders (t : Tx) (d : Bytes) : (t.parseRequestHeaders d).2.coding = t.coding := by
  unfold parseRequestHeaders
  split
  · exact coding_foldl coding_acceptRequestHeader _ _
  · rfl

theorem coding_readRequestLine (e : TxEnv) (t : Tx) (l : Bytes) : (t.readRequestLine e l).coding = t.coding := by
  unfold readRequestLine
  dsimp only
  split
  · unfold readMethod readUriProtocol
    dsimp only
    repeat' split
    all_goals rfl
  · rfl

theorem coding_storeNormalizedUri (e : TxEnv) (t : Tx) {u : Tx} (h : t.storeNormalizedUri e = some u) :
    u.coding = t.coding := by
  unfold storeNormalizedUri at h
  split at h
  · simp only [Option.some.injEq] at h
    rw [h]
  · simp only [Option.map_eq_some_iff] at h
    obtain ⟨a, -, h⟩ := h
    subst h
    rfl

theorem coding_validateResponseLine (t : Tx) : t.validateResponseLine.coding = t.coding := by
  unfold validateResponseLine
  dsimp only
  repeat' split
  all_goals rfl

theorem coding_acceptResponseHeader (t : Tx) (h : ParsedHeader) : (t.acceptResponseHeader h).coding = t.coding := rfl

theorem coding_parseResponseHeaders (t : Tx) (d : Bytes) : (t.parseResponseHeaders d).2.coding = t.coding := by
  unfold parseResponseHeaders
  split
  · exact coding_foldl coding_acceptResponseHeader _ _
  · rfl

theorem coding_readResponseLine (t : Tx) (l : Bytes) : (t.readResponseLine l).coding = t.coding := by
  unfold readResponseLine
  dsimp only
  repeat' split
  all_goals rfl

end Tx

end Model
