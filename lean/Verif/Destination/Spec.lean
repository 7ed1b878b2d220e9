import Verif.Destination.Model
import Verif.ApiResolve.Props

/-! What the control plane says about the endpoints of a service. -/

namespace Verif.Destination

open Verif.ApiResolve (ApiUpdate toAddrMeta toSockAddr)

/-- Does a message say which endpoints there are? One that removes some does not, nor does one without an endpoint that can be
read. -/
def informs (env : Env) : Option ApiUpdate → Bool
  | some (.add addrs labels) => addrs.any fun pb => (toAddrMeta env.parseUrl env.parseAuthority labels pb).isSome
  | some (.noEndpoints _) => true
  | _ => false

/-- What the control plane has said, and whether its current session has yet to say which endpoints there are. -/
structure Known where
  set : ApiResolve.EpSet
  fresh : Bool

/-- What an event makes of it: a new session takes the place of the old one when it first says which endpoints there are;
nothing changes when a session is lost. -/
def Known.see (env : Env) (k : Known) : Event → Known
  | .session => { k with fresh := true }
  | .said m =>
    if k.fresh then
      if informs env m then ⟨ApiResolve.EpSet.message env.parseUrl env.parseAuthority (fun _ => none) m, false⟩ else k
    else { k with set := k.set.message env.parseUrl env.parseAuthority m }
  | .failed _ => k
  | .ended => k

/-- The endpoints of the service: what the control plane said last. -/
def known (env : Env) (events : List Event) : Known := events.foldl (Known.see env) ⟨fun _ => none, true⟩

/-- What the latest session has said so far. -/
def session (events : List Event) : List (Option ApiUpdate) :=
  events.foldl (fun ms e => match e with
    | .session => []
    | .said m => ms ++ [m]
    | _ => ms) []

end Verif.Destination
