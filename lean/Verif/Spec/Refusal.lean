/-
When a callback refuses: which refusals the parser obeys, and what the call that is under way answers.
-/
import Verif.Spec.Conn

namespace Spec

open Model

/-- What a call answers when a callback has refused with this status: `STOP` stops the stream, anything else fails it. -/
def answerTo : Status → StreamState
  | .stop => .stop
  | _ => .error

/-- The callbacks do not answer with the statuses by which the parser itself says that it needs more data. -/
def PlainAnswers (e : Env) : Prop :=
  ∀ past ev st, e.hook past ev = .error st → st ≠ .data ∧ st ≠ .dataBuffer ∧ st ≠ .dataOther

/-- The callbacks whose refusal is obeyed: all that are given a transaction, except the one for the start of a request;
those that are given the body of a request or response, when bodies of that kind are not decompressed. Those that are
given raw headers are not obeyed at the end of a call. -/
def Obeyed (cfg : Config) : Event → Prop
  | .tx h _ => h ≠ .requestStart
  | .data .requestBodyDataTx _ _ | .data .requestBodyData _ _ => cfg.requestDecompressionEnabled = false
  | .data .responseBodyDataTx _ _ | .data .responseBodyData _ _ => cfg.responseDecompressionEnabled = false
  | .data .requestHeaderData _ _ | .data .requestTrailerData _ _
  | .data .responseHeaderData _ _ | .data .responseTrailerData _ _ => False

/-- The calls that feed one side, with the status that side has afterwards. -/
inductive Feeding : Op → (Conn → StreamState) → Prop
  | request (c : Chunk) : Feeding (.request c) (·.req.status)
  | response (c : Chunk) : Feeding (.response c) (·.resp.status)
  | close : Feeding .requestClose (·.req.status)

end Spec
