/-!
# Classes of responses

Models `Class` (`linkerd/app/core/src/classify.rs:39–44`).  Statuses and gRPC codes are natural numbers;
the error carried by `Class::Error` is dropped.
-/

namespace Verif

/-- `Class` (app/core/src/classify.rs:39–44): `httpOk s` is `Http(Ok(s))`, and so on. -/
inductive Class where
  | httpOk (status : Nat)
  | httpErr (status : Nat)
  | grpcOk (code : Nat)
  | grpcErr (code : Nat)
  | error
  deriving DecidableEq, Repr

/-- `Class::is_failure` (app/core/src/classify.rs:239–244). -/
def Class.isFailure : Class → Bool
  | .httpErr _ | .grpcErr _ | .error => true
  | .httpOk _ | .grpcOk _ => false

/-- `Class::is_success` (app/core/src/classify.rs:233–236). -/
def Class.isSuccess (c : Class) : Bool := !c.isFailure

end Verif
