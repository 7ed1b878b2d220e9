import Verif.PeekTrailers.Model

/-! # What "the same body" means: the sequence of things a body yields, ignoring waiting -/
namespace Verif.PeekTrailers

/-- What the original body yields, in order (waiting left out). -/
def yields : List BodyItem → List Answer
  | [] => []
  | .pending :: r => yields r
  | .frame f :: r => .frame f :: yields r
  | .err e :: r => .err e :: yields r

/-- What a consumer saw, in order, waiting and ends of stream left out. -/
def seen (as : List Answer) : List Answer := as.filter (fun a => a != .pending && a != .done)

/-- A body as `http_body::Body` requires: trailers or an error come last, and (http-body 1.x) every
frame is DATA or TRAILERS. -/
def WellFormed : List BodyItem → Prop
  | [] => True
  | .pending :: r => WellFormed r
  | .frame (.data _) :: r => WellFormed r
  | .frame (.trailers _) :: r => yields r = []
  | .frame .unknown :: _ => False
  | .err _ :: r => yields r = []

end Verif.PeekTrailers
