/-
The functions on transactions raise flags and never lower them.
-/
import Verif.Spec.Growth
import Verif.Lemmas.OtherMessage

namespace Model

open Spec

theorem _root_.Spec.Raised.refl (a : Flags) : Raised a a := fun _ h => h

theorem _root_.Spec.Raised.trans {a b c : Flags} (h : Raised a b) (h' : Raised b c) : Raised a c := fun i hi => h' i (h i hi)

theorem _root_.Spec.Raised.set (a m : Flags) : Raised a (setFlag a m) := fun i h => by
  unfold setFlag
  rw [Nat.testBit_or, h]
  rfl

theorem _root_.Spec.Raised.ite {c : Prop} [Decidable c] {a x y : Flags} (hx : Raised a x) (hy : Raised a y) :
    Raised a (if c then x else y) := by
  split <;> assumption

/-- What a request function writes: what belongs to the response is the same, and flags are only raised. -/
structure ReqWrite (t t' : Tx) : Prop where
  answer : t'.answer = t.answer
  flags : Raised t.flags t'.flags

/-- What a response function writes: what belongs to the request is the same, and nothing is taken back. -/
structure RespWrite (t t' : Tx) : Prop where
  asked : t'.asked = t.asked
  flags : Raised t.flags t'.flags
  interim : t.seen100Continue = true → t'.seen100Continue = true
  upgrade : t.isHttp2Upgrade = true → t'.isHttp2Upgrade = true

namespace Tx

theorem raised_setFlags (t : Tx) (m : Flags) : Raised t.flags (t.setFlags m).flags := Raised.set _ _

theorem raised_ite {c : Prop} [Decidable c] {a b t : Tx} (ha : Raised t.flags a.flags) (hb : Raised t.flags b.flags) :
    Raised t.flags (if c then a else b).flags := by
  split <;> assumption

theorem raised_framingTe (t : Tx) (te : Header) (cl : Option Header) : Raised t.flags (t.framingTe te cl).flags := by
  unfold framingTe
  split
  · exact (raised_setFlags _ _).trans (raised_setFlags _ _)
  · dsimp only
    refine raised_ite (Raised.trans ?_ (raised_setFlags _ _)) ?_ <;>
    · split
      · exact (raised_setFlags t _).trans (raised_setFlags _ _)
      · exact Raised.refl _

theorem raised_framingCl (t : Tx) (cl : Header) : Raised t.flags (t.framingCl cl).flags := by
  unfold framingCl
  have h1 : Raised t.flags (if isSet cl.flags Flag.FIELD_FOLDED then t.setFlags Flag.REQUEST_SMUGGLING else t).flags :=
    raised_ite (raised_setFlags _ _) (Raised.refl _)
  generalize (if isSet cl.flags Flag.FIELD_FOLDED then t.setFlags Flag.REQUEST_SMUGGLING else t) = u at h1
  have h2 : Raised t.flags (if isSet cl.flags Flag.FIELD_REPEATED then u.setFlags Flag.REQUEST_SMUGGLING else u).flags :=
    raised_ite (h1.trans (raised_setFlags _ _)) h1
  dsimp only
  generalize (if isSet cl.flags Flag.FIELD_REPEATED then u.setFlags Flag.REQUEST_SMUGGLING else u) = v at h2
  refine raised_ite h2 (h2.trans ?_)
  exact (raised_setFlags _ _).trans (raised_setFlags _ _)

theorem raised_framing (t : Tx) : Raised t.flags t.framing.flags := by
  unfold framing
  dsimp only
  have h : Raised t.flags (match t.requestHeaders.getNocaseNozero (b! "transfer-encoding") with
    | some te => t.framingTe te (t.requestHeaders.getNocaseNozero (b! "content-length"))
    | none =>
      match t.requestHeaders.getNocaseNozero (b! "content-length") with
      | some cl => t.framingCl cl
      | none => { t with requestTransferCoding := .noBody }).flags := by
    split
    · rename_i te _
      exact raised_framingTe t te _
    · split
      · rename_i cl _
        exact raised_framingCl t cl
      · exact Raised.refl _
  refine raised_ite (h.trans ?_) h
  exact raised_setFlags _ _

theorem raised_hostFromHeader (t : Tx) (h : Bytes) (p : Option (Bytes × Option Nat)) :
    Raised t.flags (t.hostFromHeader h p).flags := by
  unfold hostFromHeader
  split
  · dsimp only
    split <;> exact Raised.refl _
  · rename_i host _
    dsimp only
    have h1 : Raised t.flags (if cmpNocase host h != .eq then t.setFlags Flag.HOST_AMBIGUOUS else t).flags :=
      raised_ite (raised_setFlags _ _) (Raised.refl _)
    generalize (if cmpNocase host h != .eq then t.setFlags Flag.HOST_AMBIGUOUS else t) = u at h1
    split
    · exact raised_ite (h1.trans (raised_setFlags _ _)) h1
    · exact h1

theorem raised_examineHost (ip : Bytes → Option Bool) (t : Tx) : Raised t.flags (t.examineHost ip).flags := by
  unfold examineHost
  split
  · split
    · dsimp only
      refine Raised.trans ?_ (raised_hostFromHeader _ _ _)
      exact raised_ite (Raised.refl _) (raised_setFlags _ _)
    · exact raised_ite (raised_setFlags _ _) (Raised.refl _)
  · exact raised_ite (raised_setFlags _ _) (Raised.refl _)

theorem raised_examineAuth (e : TxEnv) (t : Tx) : Raised t.flags (t.examineAuth e).flags := by
  unfold examineAuth
  split
  · dsimp only
    refine raised_ite (Raised.refl _) ?_
    exact Raised.set _ _
  · exact Raised.refl _

theorem raised_processRequestHeaders (e : TxEnv) (t : Tx) : Raised t.flags (t.processRequestHeaders e).2.flags := by
  unfold processRequestHeaders
  have h : Raised t.flags (t.framing.hostFromUri.examineHost e.ip).flags :=
    (raised_framing t).trans (raised_examineHost e.ip t.framing.hostFromUri)
  generalize t.framing.hostFromUri.examineHost e.ip = u at h
  unfold examineRest
  split
  · split
    · dsimp only
      refine h.trans (Raised.trans ?_ (raised_examineAuth e _))
      exact Raised.refl _
    · exact h
  · dsimp only
    exact h.trans (raised_examineAuth e _)

theorem raised_normalizedDecoded {ovf : Bool} {cfg : DecoderConfig} {f : Flags} {o : Option Bytes} {r : Flags × Option Bytes}
    (h : Uri.normalizedDecoded ovf cfg f o = some r) : Raised f r.1 := by
  unfold Uri.normalizedDecoded at h
  cases o with
  | none => simp only [Option.some.injEq] at h; subst h; exact Raised.refl _
  | some s =>
    dsimp only at h
    cases hd : decodeUriWithFlags ovf cfg f s with
    | ok i x =>
      rw [hd] at h
      simp only [Option.some.injEq] at h
      subst h
      unfold decodeUriWithFlags at hd
      cases hu : decodeUri ovf cfg s with
      | ok j d =>
        rw [hu] at hd
        simp only [PRes.bind, PRes.ok.injEq] at hd
        obtain ⟨-, rfl⟩ := hd
        dsimp only
        have h1 : ∀ (a b : Flags) (c : Prop) [Decidable c] (m : Flags), Raised a b → Raised a (if c then setFlag b m else b) :=
          fun a b c _ m hab => Raised.ite (hab.trans (Raised.set _ _)) hab
        exact h1 _ _ _ _ (h1 _ _ _ _ (h1 _ _ _ _ (Raised.refl _)))
      | err => rw [hu] at hd; cases hd
      | panic => rw [hu] at hd; cases hd
    | err => rw [hd] at h; simp only [Option.some.injEq] at h; subst h; exact Raised.refl _
    | panic => rw [hd] at h; cases h

theorem raised_normalizedPort (f : Flags) (u : Uri) : Raised f (u.normalizedPort f).1 := by
  unfold Uri.normalizedPort
  split
  · exact Raised.refl _
  · split
    · exact Raised.set _ _
    · exact Raised.refl _

theorem raised_normalizedPath {ovf : Bool} {cfg : DecoderConfig} {f : Flags} {st : Unwanted} {u : Uri}
    {r : Flags × Unwanted × Option Bytes} (h : u.normalizedPath ovf cfg f st = some r) : Raised f r.1 := by
  unfold Uri.normalizedPath at h
  split at h
  · simp only [Option.some.injEq] at h; subst h; exact Raised.refl _
  · simp only [Option.map_eq_some_iff] at h
    obtain ⟨⟨a, b, c⟩, h1, h2⟩ := h
    have h3 : Raised f a := by
      unfold pathDecodeUriInplace at h1
      split at h1
      · simp only [Option.some.injEq, Prod.mk.injEq] at h1
        rw [← h1.1]; exact Raised.set _ _
      · simp only [Option.some.injEq, Prod.mk.injEq] at h1
        rw [← h1.1]; exact Raised.refl _
      · cases h1
    subst h2
    refine h3.trans ?_
    unfold decodeAndValidateInplace
    dsimp only
    exact Raised.set _ _

theorem raised_normalizeParsedUri (e : TxEnv) (t : Tx) {u : Tx} (h : t.normalizeParsedUri e = some u) :
    Raised t.flags u.flags := by
  unfold normalizeParsedUri at h
  split at h
  · simp only [Option.some.injEq] at h
    subst h
    exact Raised.refl _
  · dsimp only at h
    simp only [Option.bind_eq_some_iff] at h
    obtain ⟨a, ha, h⟩ := h
    obtain ⟨b, hb, h⟩ := h
    obtain ⟨c, hc, h⟩ := h
    obtain ⟨d, hd, h⟩ := h
    obtain ⟨f, hf, h⟩ := h
    simp only [Option.some.injEq] at h
    subst h
    unfold Uri.normalizedHostname at hc
    simp only [Option.map_eq_some_iff] at hc
    obtain ⟨c', hc', rfl⟩ := hc
    exact (((((raised_normalizedDecoded ha).trans (raised_normalizedDecoded hb)).trans
      (raised_normalizedDecoded hc')).trans (raised_normalizedPort _ _)).trans
      (raised_normalizedDecoded hd)).trans (raised_normalizedPath hf)

theorem raised_parseUriHostport (ip : Bytes → Option Bool) (u : Uri) (f : Flags) (h : Bytes) :
    Raised f (Uri.parseUriHostport ip u f h).2 := by
  unfold Uri.parseUriHostport
  split
  · dsimp only
    split
    · exact Raised.ite (Raised.refl _) (Raised.set _ _)
    · split
      · exact Raised.ite (Raised.refl _) (Raised.set _ _)
      · exact Raised.set _ _
  · exact Raised.refl _

theorem raised_splitRequestUri (e : TxEnv) (t : Tx) : Raised t.flags (t.splitRequestUri e).2.flags := by
  unfold splitRequestUri
  split
  · split
    · exact Raised.refl _
    · dsimp only; exact raised_parseUriHostport _ _ _ _
  · split <;> exact Raised.refl _

theorem raised_finishRequestUri (e : TxEnv) (t : Tx) : Raised t.flags (t.finishRequestUri e).2.flags := by
  unfold finishRequestUri
  split
  · exact Raised.refl _
  · rename_i u hu
    have h : Raised t.flags u.flags := by
      split at hu
      · exact raised_normalizeParsedUri e t hu
      · simp only [Option.some.injEq] at hu
        rw [hu]
        exact Raised.refl _
    split
    · exact h
    · dsimp only
      unfold checkUriHost
      split
      · exact raised_ite h (h.trans (raised_setFlags _ _))
      · exact h

theorem raised_parseRequestLine (e : TxEnv) (t : Tx) : Raised t.flags (t.parseRequestLine e).2.flags := by
  unfold parseRequestLine
  have h := raised_splitRequestUri e t
  split
  · rename_i u hu; rw [hu] at h; exact h
  · rename_i u hu; rw [hu] at h; exact h.trans (raised_finishRequestUri e u)

theorem raised_foldl {α : Type} {f : Tx → α → Tx} (hf : ∀ t a, Raised t.flags (f t a).flags) (l : List α) :
    ∀ t : Tx, Raised t.flags (l.foldl f t).flags := by
  induction l with
  | nil => exact fun _ => Raised.refl _
  | cons a l ih => intro t; rw [List.foldl_cons]; exact (hf t a).trans (ih _)

theorem raised_acceptRequestHeader (t : Tx) (h : ParsedHeader) : Raised t.flags (t.acceptRequestHeader h).flags :=
  raised_setFlags t _

theorem raised_parseRequestHeaders (t : Tx) (d : Bytes) : Raised t.flags (t.parseRequestHeaders d).2.flags := by
  unfold parseRequestHeaders
  split
  · exact raised_foldl raised_acceptRequestHeader _ _
  · exact Raised.refl _

theorem raised_readRequestLine (e : TxEnv) (t : Tx) (l : Bytes) : Raised t.flags (t.readRequestLine e l).flags := by
  unfold readRequestLine
  dsimp only
  split
  · unfold readMethod readUriProtocol
    dsimp only
    repeat' split
    all_goals exact Raised.refl _
  · exact Raised.refl _

theorem raised_prependRequestDecompressor (t : Tx) (c : Encoding) : Raised t.flags (t.prependRequestDecompressor c).flags := by
  unfold prependRequestDecompressor
  repeat' split
  all_goals exact Raised.refl _

theorem raised_initRequestDecompressors (cfg : Config) (t : Tx) : Raised t.flags (t.initRequestDecompressors cfg).flags := by
  unfold initRequestDecompressors
  dsimp only
  split
  · split
    · exact Raised.refl _
    · refine Raised.trans ?_ (raised_prependRequestDecompressor _ _)
      exact Raised.refl _
    · refine Raised.trans ?_ (raised_foldl raised_prependRequestDecompressor _ _)
      exact Raised.refl _
  · exact Raised.refl _

theorem raised_storeNormalizedUri (e : TxEnv) (t : Tx) {u : Tx} (h : t.storeNormalizedUri e = some u) :
    Raised t.flags u.flags := by
  unfold storeNormalizedUri at h
  split at h
  · simp only [Option.some.injEq] at h
    rw [h]
    exact Raised.refl _
  · simp only [Option.map_eq_some_iff] at h
    obtain ⟨a, -, h⟩ := h
    subst h
    exact Raised.refl _

/-! ### The two together -/

theorem write_processRequestHeaders (e : TxEnv) (t : Tx) : ReqWrite t (t.processRequestHeaders e).2 :=
  ⟨answer_processRequestHeaders e t, raised_processRequestHeaders e t⟩

theorem write_initRequestDecompressors (cfg : Config) (t : Tx) : ReqWrite t (t.initRequestDecompressors cfg) :=
  ⟨answer_initRequestDecompressors cfg t, raised_initRequestDecompressors cfg t⟩

theorem write_parseRequestLine (e : TxEnv) (t : Tx) : ReqWrite t (t.parseRequestLine e).2 :=
  ⟨answer_parseRequestLine e t, raised_parseRequestLine e t⟩

theorem write_storeNormalizedUri (e : TxEnv) (t : Tx) {u : Tx} (h : t.storeNormalizedUri e = some u) : ReqWrite t u :=
  ⟨answer_storeNormalizedUri e t h, raised_storeNormalizedUri e t h⟩

theorem write_parseRequestHeaders (t : Tx) (d : Bytes) : ReqWrite t (t.parseRequestHeaders d).2 :=
  ⟨answer_parseRequestHeaders t d, raised_parseRequestHeaders t d⟩

theorem write_readRequestLine (e : TxEnv) (t : Tx) (l : Bytes) : ReqWrite t (t.readRequestLine e l) :=
  ⟨answer_readRequestLine e t l, raised_readRequestLine e t l⟩

end Tx

theorem RespWrite.refl (t : Tx) : RespWrite t t := ⟨rfl, Raised.refl _, id, id⟩

theorem RespWrite.trans {a b c : Tx} (h : RespWrite a b) (h' : RespWrite b c) : RespWrite a c :=
  ⟨h'.1.trans h.1, h.2.trans h'.2, fun x => h'.3 (h.3 x), fun x => h'.4 (h.4 x)⟩

theorem RespWrite.ite {c : Prop} [Decidable c] {a b t : Tx} (ha : RespWrite t a) (hb : RespWrite t b) :
    RespWrite t (if c then a else b) := by
  split <;> assumption

namespace Tx

theorem write_setFlags (t : Tx) (m : Flags) : RespWrite t (t.setFlags m) := ⟨rfl, Raised.set _ _, id, id⟩

theorem write_validateResponseLine (t : Tx) : RespWrite t t.validateResponseLine := by
  unfold validateResponseLine
  have h : RespWrite t (if t.responseProtocolNumber = .invalid then t.setFlags Flag.STATUS_LINE_INVALID else t) :=
    RespWrite.ite (write_setFlags _ _) (RespWrite.refl _)
  dsimp only
  generalize (if t.responseProtocolNumber = .invalid then t.setFlags Flag.STATUS_LINE_INVALID else t) = u at h
  exact RespWrite.ite h (h.trans ⟨rfl, Raised.set _ _, id, id⟩)

theorem write_acceptResponseHeader (t : Tx) (h : ParsedHeader) : RespWrite t (t.acceptResponseHeader h) :=
  ⟨rfl, Raised.set _ _, id, id⟩

theorem write_foldl {α : Type} {f : Tx → α → Tx} (hf : ∀ t a, RespWrite t (f t a)) (l : List α) :
    ∀ t : Tx, RespWrite t (l.foldl f t) := by
  induction l with
  | nil => exact RespWrite.refl
  | cons a l ih => intro t; rw [List.foldl_cons]; exact (hf t a).trans (ih _)

theorem write_parseResponseHeaders (t : Tx) (d : Bytes) : RespWrite t (t.parseResponseHeaders d).2 := by
  unfold parseResponseHeaders
  split
  · exact write_foldl write_acceptResponseHeader _ _
  · exact RespWrite.refl _

theorem write_readResponseLine (t : Tx) (l : Bytes) : RespWrite t (t.readResponseLine l) := by
  unfold readResponseLine
  dsimp only
  repeat' split
  all_goals exact ⟨rfl, Raised.refl _, id, id⟩

theorem write_prependResponseDecompressor (t : Tx) (c : Encoding) : RespWrite t (t.prependResponseDecompressor c) := by
  unfold prependResponseDecompressor
  repeat' split
  all_goals exact ⟨rfl, Raised.refl _, id, id⟩

theorem write_initResponseDecompressors (cfg : Config) (t : Tx) : RespWrite t (t.initResponseDecompressors cfg) := by
  unfold initResponseDecompressors
  dsimp only
  split
  · split
    · exact ⟨rfl, Raised.refl _, id, id⟩
    · refine RespWrite.trans ?_ (write_prependResponseDecompressor _ _)
      exact ⟨rfl, Raised.refl _, id, id⟩
    · refine RespWrite.trans ?_ (write_foldl write_prependResponseDecompressor _ _)
      exact ⟨rfl, Raised.refl _, id, id⟩
  · exact ⟨rfl, Raised.refl _, id, id⟩

end Tx

end Model
