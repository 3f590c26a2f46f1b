/-
Requests and responses that arrive in pieces: where they may be cut, and what becomes of the callbacks.
-/
import Verif.Spec.Answer

namespace Spec

open Model

/-- Bytes between which a cut is allowed. -/
def loose (b : Bytes) : List Token := b.map .byte

/-- A header block or a trailer: anything but the empty line at its end may be cut. -/
def blockTokens (hs : List HeaderLine) : List Token := loose (hs.flatMap HeaderLine.render) ++ [.line [13, 10]]

/-- A chunk: its data may be cut, but neither its size line nor the line end after the data. -/
def chunkTokens (c : BodyChunk) : List Token := .line c.line :: (loose c.data ++ [.line [13, 10]])

/-- A body. -/
def Body.tokens : Body → List Token
  | .absent => []
  | .sized content => loose content
  | .chunked chunks last trailer => chunks.flatMap chunkTokens ++ .line last :: blockTokens trailer

/-- A request. -/
def Request.tokens (r : Request) : List Token := loose (r.line ++ [13, 10]) ++ (blockTokens r.headers ++ r.body.tokens)

/-- Its line. -/
def Request.lineTokens (r : Request) : List Token := loose (r.line ++ [13, 10])

/-- A chunk of a response: its data and the line end after them may be cut, but not its size line. -/
def answerChunkTokens (c : BodyChunk) : List Token := .line c.line :: loose (c.data ++ [13, 10])

/-- The body of a response. -/
def Body.answerTokens : Body → List Token
  | .absent => []
  | .sized content => loose content
  | .chunked chunks last trailer => chunks.flatMap answerChunkTokens ++ .line last :: loose (renderBlock trailer)

/-- A response: the line end of the status line is not cut. -/
def Response.tokens (r : Response) : List Token :=
  loose r.line ++ .line [13, 10] :: (loose (renderBlock r.headers) ++ r.body.answerTokens)

/-- Its status line. -/
def Response.lineTokens (r : Response) : List Token := loose r.line ++ [.line [13, 10]]

/-- A callback for requests. -/
def _root_.Model.Event.ofRequest : Event → Bool
  | .tx h _ => match h with
    | .requestStart | .requestUriNormalize | .requestLine | .requestHeaders | .requestTrailer | .requestComplete => true
    | _ => false
  | .data h _ _ => match h with
    | .requestHeaderData | .requestTrailerData | .requestBodyDataTx | .requestBodyData => true
    | _ => false

/-- A callback for responses, or for complete transactions. -/
def _root_.Model.Event.ofResponse (ev : Event) : Bool := !ev.ofRequest

/-- The callbacks that are given raw header or trailer data. -/
def rawHooks : List DataHook := [.requestHeaderData, .requestTrailerData, .responseHeaderData, .responseTrailerData]

/-- The second list of callbacks is the first, except that raw header or trailer data, or data of a body, may have
been handed out in several pieces instead of one. Pieces of a body are not empty. -/
inductive Pieces : List Event → List Event → Prop where
  | nil : Pieces [] []
  | same {ev : Event} {evs evs' : List Event} : Pieces evs evs' → Pieces (ev :: evs) (ev :: evs')
  | raw {hk : DataHook} {k : Nat} {ds : List Bytes} {evs evs' : List Event} :
      hk ∈ rawHooks → ds ≠ [] → Pieces evs evs' →
      Pieces (.data hk k (.ofBytes ds.flatten) :: evs) (ds.map (fun d => .data hk k (.ofBytes d)) ++ evs')
  | body {k : Nat} {ds : List Bytes} {evs evs' : List Event} : ds ≠ [] → (∀ d ∈ ds, d ≠ []) → Pieces evs evs' →
      Pieces (bodyCallbacks k (some ds.flatten) ++ evs) (ds.flatMap (fun d => bodyCallbacks k (some d)) ++ evs')
  | answer {k : Nat} {ds : List Bytes} {evs evs' : List Event} : ds ≠ [] → (∀ d ∈ ds, d ≠ []) → Pieces evs evs' →
      Pieces (answerBodyCallbacks k ds.flatten ++ evs) (ds.flatMap (answerBodyCallbacks k) ++ evs')

end Spec
