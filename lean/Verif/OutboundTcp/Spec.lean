import Verif.OutboundTcp.Model
/-!
What is expected of an outbound connection, and of the counters of routes.
-/
namespace Verif.OutboundTcp.Spec
open Verif.ClientPolicy
open Verif.Distribute (Answer)

/-- The services the proxy makes: their routers are made of policies. -/
def Made : Serving → Prop
  | .opaq _ _ r => ∃ policy backends, mkOpaq policy backends = some r
  | .tls _ _ r => ∃ routes backends, mkTls routes backends = some r

/-- The backend at a place takes part in the distribution: it is listed and, where weights count, has one. -/
def TakesPart {F : Type} (d : Built F) (i : Nat) (b : BuiltBackend F) : Prop :=
  match d with
  | .empty => False
  | .first l => l[i]? = some b
  | .random l => ∃ w, l[i]? = some (b, w) ∧ 0 < w

/-- It may get a connection: it is ready, and where the order counts, those listed before it are not. -/
def MayGet {F : Type} (d : Built F) (ready : Nat → Answer) (i : Nat) (b : BuiltBackend F) : Prop :=
  TakesPart d i b ∧ ready i = .ready ∧
  match d with
  | .first _ => ∀ j < i, ready j = .pending
  | _ => True

/-- No backend is available. -/
def NoneAvailable {F : Type} (d : Built F) (ready : Nat → Answer) : Prop := ∀ i b, TakesPart d i b → ready i = .pending

/-- The error a filter refuses a connection with. -/
def refusal : TcpFilter → Cause
  | .forbidden => .forbidden
  | .invalid m => .invalidBackend m
  | .internalError m => .invalidPolicy m

/-- What is told when the backend's future answers `a`. -/
def told (route : Meta) : Polled → Out
  | .pending => .pending
  | .ok => .closed none
  | .err e => .closed (some (.logical :: .route route :: e))

/-- What may become of a connection to this route, when the backends answer `ready` (a failed one with `failure`) and the future
of a backend that gets it answers `a`. -/
inductive Fate (rt : Matched) (ready : Nat → Answer) (failure : Error) (a : Polled) : Seen → Prop where
  | failed (i b) : TakesPart rt.distribution i b → ready i = .failed →
      Fate rt ready failure a ⟨.failed (.logical :: .route rt.labels.route :: failure), none⟩
  | refusedByRoute (f fs) : rt.filters = f :: fs →
      ((∃ i b, MayGet rt.distribution ready i b) ∨ NoneAvailable rt.distribution ready) →
      Fate rt ready failure a ⟨.closed (some [.logical, .route rt.labels.route, refusal f]), none⟩
  | unavailable : rt.filters = [] → NoneAvailable rt.distribution ready →
      Fate rt ready failure a ⟨.closed (some [.logical, .route rt.labels.route, .loadShed]), none⟩
  | refusedByBackend (i b f fs) : rt.filters = [] → MayGet rt.distribution ready i b → b.filters = f :: fs →
      Fate rt ready failure a ⟨.closed (some [.logical, .route rt.labels.route, refusal f]), none⟩
  | sent (i b) : rt.filters = [] → MayGet rt.distribution ready i b → b.filters = [] →
      Fate rt ready failure a ⟨told rt.labels.route a, some b.concrete⟩

/-- What is known of a connection from what was seen of it: nothing is to be expected of it, it was given to a service, or a
backend has it. -/
inductive View where
  | gone
  | given (sv : Serving)
  | served (route : Meta)

/-- The connection of an event. -/
def idOf : Op → Nat
  | .accept id _ => id
  | .poll id _ _ _ => id
  | .drop id => id

/-- What was seen of connection `id` is as it should be: it is given to a service; when its future is first polled, its fate is
decided; from then on its backend decides; and nothing more happens once it has ended. -/
def Obeys (id : Nat) : View → List (Op × Seen) → Prop
  | _, [] => True
  | v, (op, seen) :: t =>
    if idOf op ≠ id then Obeys id v t
    else
      match op, v with
      | .accept _ sv, _ => seen = ⟨.nothing, none⟩ ∧ Obeys id (.given sv) t
      | .drop _, _ => seen = ⟨.nothing, none⟩ ∧ Obeys id .gone t
      | .poll _ _ _ _, .gone => seen = ⟨.nothing, none⟩ ∧ Obeys id .gone t
      | .poll _ env failure a, .given sv =>
        match sv.select with
        | none => seen = ⟨.closed (some [.logical, .noRoute]), none⟩ ∧ Obeys id .gone t
        | some rt => Fate rt env.answer failure a seen ∧ Obeys id (if seen.out = .pending then .served rt.labels.route else .gone) t
      | .poll _ _ _ a, .served route =>
        seen = ⟨told route a, none⟩ ∧ Obeys id (if seen.out = .pending then .served route else .gone) t

/-! ### Counting -/

/-- The connections that were given to services. -/
def accepted (t : List (Op × Seen)) : List (Nat × Serving) :=
  t.filterMap fun e => match e.1 with
    | .accept id sv => some (id, sv)
    | _ => none

/-- It is a poll of this connection's future. -/
def polls (id : Nat) : Op → Bool
  | .poll id' _ _ _ => id' == id
  | _ => false

/-- Something is told, other than that the route could not be made ready. -/
def reaches : Out → Bool
  | .pending | .closed _ => true
  | _ => false

/-- The end is told, with an error of this kind or without one. -/
def ends (kind : Option Kind) : Out → Bool
  | .closed r => r.map Kind.of == kind
  | _ => false

/-- The connection reached its route. -/
def reached (id : Nat) (t : List (Op × Seen)) : Bool := t.any fun e => polls id e.1 && reaches e.2.out

/-- It ended, with an error of this kind or without one. -/
def ended (id : Nat) (kind : Option Kind) (t : List (Op × Seen)) : Bool := t.any fun e => polls id e.1 && ends kind e.2.out

/-- The route it was given to has labels equal to these. -/
def routedTo (k : Key) (sv : Serving) : Bool :=
  match sv.select with
  | some rt => rt.labels.key == k
  | none => false

/-- The value of a counter. -/
def value {κ : Type} [DecidableEq κ] (k : κ) (reg : List (κ × Labels × Nat)) : Nat :=
  match Assoc.lookup k reg with
  | some (_, n) => n
  | none => 0

end Verif.OutboundTcp.Spec
