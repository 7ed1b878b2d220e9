import Verif.Balancer.Model
import Verif.Queue.Props
import Verif.P2c.Props

/-! What can be said of a balancer from outside. -/

namespace Verif.Balancer

/-- What the discovery stream has had to offer. -/
def arrivals (ops : List Op) : List Queue.Item :=
  ops.filterMap fun o => match o with | .plain (.arrive i) => some i | _ => none

/-- The endpoints of the balancer's target: what the updates so far describe, of those before the stream ended. -/
def listed (ops : List Op) : EpSet := EpSet.described (Queue.updates (arrivals ops))

/-- Which requests were sent to which endpoints, in this order. -/
def sends (os : List Out) : List (Nat × P2c.Svc) :=
  os.filterMap fun o => match o with | .sent id s => some (id, s) | _ => none

/-- The services that were called, oldest first, according to the history of the pool's services. -/
def calledOf (log : List P2c.Ev) : List Nat :=
  (log.filterMap fun e => match e with | .called i => some i | _ => none).reverse

/-- How much time has passed. -/
def clock (ops : List Op) : Nat := (ops.map fun o => match o with | .plain (.tick d) => d | _ => 0).sum

/-- What an outcome, at some time, makes of the time since when a request has been kept waiting with no endpoint found ready
since. -/
def sees (now : Nat) (s : Option Nat) : Out → Option Nat
  | .queue .waiting => some (s.getD now)
  | .queue (.answered _ .failFast) => some (s.getD now)
  | .sent _ _ => none
  | .queue .recovered => none
  | _ => s

/-- Since when has a request been kept waiting, with no endpoint found ready since? -/
def waitingSince (cap timeout : Nat) (ops : List Op) : Option Nat :=
  go none [] ops
where
  go (s : Option Nat) (past : List Op) : List Op → Option Nat
    | [] => s
    | o :: os => go (sees (clock past) s (answer cap timeout past o)) (past ++ [o]) os

end Verif.Balancer
