import Verif.Common.Http

/-!
# Model of `linkerd/http/retry/src/peek_trailers.rs`

The inner body is a script of answers to `poll_frame` (`List BodyItem`; exhausted = end of stream).
-/
namespace Verif.PeekTrailers

/-- `http::Version`. -/
inductive Version where
  | http09 | http10 | http11 | http2 | http3
  deriving DecidableEq, Repr

/-- A stored frame or error: `Result<B::Data, B::Error>`. -/
abbrev Res (α : Type) := Except String α

/-- `Inner` (peek_trailers.rs:23-53). -/
inductive Peek where
  | empty
  | unary (data : Option (Res Bytes)) (trailers : Option (Res Trailers))
  | buffered (first second : Option (Res Bytes)) (inner : List BodyItem)
  | passthru (inner : List BodyItem)
  deriving Repr

/-- `peek_trailers` (70-85). -/
def Peek.peekTrailers : Peek → Option Trailers
  | .unary _ (some (.ok t)) => some t
  | _ => none

/-- `read_body` from its second await-free poll on (153-200): a first DATA frame has been read; look
at the next answer without waiting (`now_or_never` polls once, consuming that answer). -/
def readSecond (first : Bytes) : List BodyItem → Peek
  | [] => .unary (some (.ok first)) none
  | .err e :: _ => .unary (some (.ok first)) (some (.error e))
  | .frame (.data d) :: r => .buffered (some (.ok first)) (some (.ok d)) r
  | .frame (.trailers t) :: _ => .unary (some (.ok first)) (some (.ok t))
  | .frame .unknown :: r => .buffered (some (.ok first)) none r
  | .pending :: r => .buffered (some (.ok first)) none r

/-- `read_body` (118-208): wait for the first frame, then look at the second. The future completes
when the awaited first answer arrives; a script that is pending for ever never gets here. -/
def readBody : List BodyItem → Peek
  | [] => .empty
  | .pending :: r => readBody r
  | .err e :: _ => .unary (some (.error e)) none
  | .frame (.trailers t) :: _ => .unary none (some (.ok t))
  | .frame .unknown :: r => .buffered none none r
  | .frame (.data d) :: r => readSecond d r

/-- `map_response` (87-116); `eos` is the body's `is_end_stream()`. -/
def mapResponse (v : Version) (eos : Bool) (body : List BodyItem) : Peek :=
  match v with
  | .http09 | .http10 | .http11 => .passthru body
  | _ => if eos then .empty else readBody body

/-- What a poll of a body answers. -/
inductive Answer where
  | pending
  | frame (f : Frame)
  | err (e : String)
  | done
  deriving DecidableEq, Repr

/-- `poll_frame` of the scripted inner body. -/
def pollInner : List BodyItem → List BodyItem × Answer
  | [] => ([], .done)
  | .pending :: r => (r, .pending)
  | .frame f :: r => (r, .frame f)
  | .err e :: r => (r, .err e)

def dataAnswer : Res Bytes → Answer
  | .ok d => .frame (.data d)
  | .error e => .err e

def trailersAnswer : Res Trailers → Answer
  | .ok t => .frame (.trailers t)
  | .error e => .err e

/-- `poll_frame` (244-271). -/
def Peek.poll : Peek → Peek × Answer
  | .empty => (.empty, .done)
  | .passthru b => let (b', a) := pollInner b; (.passthru b', a)
  | .unary (some d) t => (.unary none t, dataAnswer d)
  | .unary none (some t) => (.unary none none, trailersAnswer t)
  | .unary none none => (.unary none none, .done)
  | .buffered (some f) s b => (.buffered none s b, dataAnswer f)
  | .buffered none (some s) b => (.buffered none none b, dataAnswer s)
  | .buffered none none b => let (b', a) := pollInner b; (.buffered none none b', a)

/-- Poll `n` times. -/
def Peek.polls (p : Peek) : Nat → List Answer
  | 0 => []
  | n + 1 => p.poll.2 :: p.poll.1.polls n

/-- `is_end_stream` (274-291); `eos` is the inner body's own answer. -/
def Peek.isEndStream (eos : List BodyItem → Bool) : Peek → Bool
  | .empty => true
  | .passthru b => eos b
  | .unary none none => true
  | .unary _ _ => false
  | .buffered none none b => eos b
  | .buffered _ _ _ => false

def okLen : Option (Res Bytes) → Nat
  | some (.ok d) => d.length
  | _ => 0

/-- `size_hint` (294-332) as (lower, upper); `hint` is the inner body's own. -/
def Peek.sizeHint (hint : List BodyItem → Nat × Option Nat) : Peek → Nat × Option Nat
  | .empty => (0, none)
  | .passthru b => hint b
  | .unary (some (.ok d)) _ => (d.length, some d.length)
  | .unary _ _ => (0, none)
  | .buffered f s b =>
    let (lo, up) := hint b
    (lo + okLen f + okLen s, up.map (fun u => u + okLen f + okLen s))

end Verif.PeekTrailers
