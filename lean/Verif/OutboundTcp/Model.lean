import Verif.ClientPolicy.Router
import Verif.Distribute.Model
import Verif.Common.Assoc
/-!
# Routing outbound connections

What becomes of a connection that is forwarded as opaque bytes or as TLS: the stacks of `{opaq,tls}/logical.rs` and
`{opaq,tls}/logical/route.rs` (app/outbound/src), with `OneshotRoute` (router/src/lib.rs), `LoadShed` (stack/src/loadshed.rs),
`MapErr` (stack/src/map_err.rs) and the counters of `metrics/transport.rs`.  The routers are those of `ClientPolicy.Router`,
distributions those of `Distribute`.

`router::Cache` (router/src/cache.rs) keeps the service of a route; each connection gets a clone, whose distribution and
load shedding start afresh (distribute/src/service/first.rs:36–43, random.rs:50–59, stack/src/loadshed.rs:46–50), so that a
connection is served as by a new service.  What the backends answer comes with the events.
-/
namespace Verif.OutboundTcp
open Verif.ClientPolicy

abbrev Str := List Char

/-- The errors met here: those of filters (opaq/logical/route/filters.rs:97–111, tls/logical/route/filters.rs:97–111), of
`LoadShed`, `NoRoute`, the wrappers `RouteError` (route.rs:46–53) and `LogicalError` (logical.rs:39–45), and any others. -/
inductive Cause where
  | forbidden
  | invalidBackend (message : Str)
  | invalidPolicy (message : Str)
  | loadShed
  | noRoute
  | route (ref : Meta)
  | logical
  | other (n : Nat)
  deriving DecidableEq, Repr

/-- An error: its causes from the outside in. -/
abbrev Error := List Cause

/-- The errors of the filters of connections; the others do not come from them. -/
def causeOf : Refused → Cause
  | .forbidden => .forbidden
  | .invalidBackend m => .invalidBackend m
  | .invalidPolicy m => .invalidPolicy m
  | _ => .other 0

/-- `ErrorKind` (metrics/transport.rs:31–37). -/
inductive Kind where
  | forbidden | invalidBackend | invalidPolicy | unexpected
  deriving DecidableEq, Repr

/-- `ErrorKind::mk` (metrics/transport.rs:105–125). -/
def Kind.of : Error → Kind
  | [] => .unexpected
  | .forbidden :: _ => .forbidden
  | .invalidBackend _ :: _ => .invalidBackend
  | .invalidPolicy _ :: _ => .invalidPolicy
  | _ :: source => Kind.of source

/-- The last label: the address of an opaque connection (opaq/logical/route.rs:36–41), or the server's name of a TLS
connection if it is to be shown (tls/logical/route.rs:40–45, 145–155). -/
inductive Target where
  | addr (a : Addr.Addr)
  | host (h : Option Str)
  deriving DecidableEq, Repr

/-- `RouteLabels`. -/
structure Labels where
  parent : Meta
  route : Meta
  target : Target
  deriving DecidableEq, Repr

/-- What the equality of a `Meta` looks at (proxy/client-policy/src/lib.rs:396–410). -/
structure MetaKey where
  group : Str
  kind : Str
  name : Str
  deriving DecidableEq, Repr

def metaKey (m : Meta) : MetaKey := ⟨m.group, m.kind, m.name⟩

/-- What the equality of labels looks at: the derived `Eq` and `Hash` of `RouteLabels`. -/
structure Key where
  parent : MetaKey
  route : MetaKey
  target : Target
  deriving DecidableEq, Repr

def Labels.key (l : Labels) : Key := ⟨metaKey l.parent, metaKey l.route, l.target⟩

/-- `MatchedRoute` (opaq/logical/route.rs:22–34, tls/logical/route.rs:23–38): the labels hold the reference of the route. -/
structure Matched where
  labels : Labels
  filters : List TcpFilter
  distribution : Built TcpFilter

/-- The service of a logical target: its parent's metadata, its address or the server's name, and its router. -/
inductive Serving where
  | opaq (parent : Meta) (addr : Addr.Addr) (router : Router (Option (BuiltRoute TcpFilter Unit)))
  | tls (parent : Meta) (sni : Str) (router : Router (List (TlsRoute.Route (BuiltRoute TcpFilter Bool))))

/-- `SelectRoute::select` (opaq/logical/router.rs:185–194, tls/logical/router.rs:197–212) with the parameters of a matched
route (route.rs:117–146, tls route.rs:122–156). -/
def Serving.select : Serving → Option Matched
  | .opaq parent addr router =>
    match router.routes with
    | none => none
    | some rt => some ⟨⟨parent, rt.routeRef, .addr addr⟩, rt.filters, rt.distribution⟩
  | .tls parent sni router =>
    match TlsRoute.find router.routes sni with
    | none => none
    | some (_, rt) => some ⟨⟨parent, rt.routeRef, .host (if rt.params then some sni else none)⟩, rt.filters, rt.distribution⟩

/-- The backends of a route, in order. -/
def backendsOf {F : Type} : Built F → List (BuiltBackend F)
  | .empty => []
  | .first l => l
  | .random l => l.map (·.1)

/-- The distribution over them; a backend is known by its place. -/
def distOf {F : Type} : Built F → Distribute.Dist
  | .empty => .empty
  | .first l => .first (List.range l.length)
  | .random l => .random ((List.range l.length).zip (l.map (·.2)))

/-- What a backend's future answers. -/
inductive Polled where
  | pending
  | ok
  | err (e : Error)
  deriving DecidableEq, Repr

/-- Where a connection is: its future holds the error of the router, the service of a route that was not yet asked whether
it is ready, or the future of a backend. -/
inductive Conn where
  | noRoute
  | selected (rt : Matched)
  | serving (labels : Labels) (backend : Concrete)

/-- `TransportRouteMetricsFamily` (metrics/transport.rs:15–19): the labels a counter is shown with, and its value, by what the
equality of labels looks at; and the connections. -/
structure Sys where
  opened : List (Key × Labels × Nat)
  closed : List ((Key × Option Kind) × Labels × Nat)
  conns : List (Nat × Conn)

def init : Sys := ⟨[], [], []⟩

/-- `Family::get_or_create`. -/
def getOrCreate {κ : Type} [DecidableEq κ] (k : κ) (l : Labels) (reg : List (κ × Labels × Nat)) : List (κ × Labels × Nat) :=
  match Assoc.lookup k reg with
  | some _ => reg
  | none => Assoc.put k (l, 0) reg

/-- `Counter::inc`.  That a counter wraps around at 2^64 is left out. -/
def inc {κ : Type} [DecidableEq κ] (k : κ) (reg : List (κ × Labels × Nat)) : List (κ × Labels × Nat) :=
  match Assoc.lookup k reg with
  | some (l, n) => Assoc.put k (l, n + 1) reg
  | none => reg

/-- `TransportRouteMetricsFamily::metrics` (metrics/transport.rs:84–102). -/
def Sys.metrics (s : Sys) (l : Labels) : Sys :=
  { s with
    opened := getOrCreate l.key l s.opened
    closed := [none, some .forbidden, some .invalidBackend, some .invalidPolicy, some .unexpected].foldl
      (fun reg k => getOrCreate (l.key, k) l reg) s.closed }

/-- `inc_open` (metrics/transport.rs:232–234). -/
def Sys.incOpen (s : Sys) (l : Labels) : Sys := { s with opened := inc l.key s.opened }

/-- `inc_closed` (metrics/transport.rs:235–253). -/
def Sys.incClosed (s : Sys) (l : Labels) (err : Option Error) : Sys :=
  { s with closed := inc (l.key, err.map Kind.of) s.closed }

/-- What can happen. -/
inductive Op where
  /-- a connection is given to a service -/
  | accept (id : Nat) (sv : Serving)
  /-- its future is polled; what the backends answer when asked whether they are ready, with the error if one has failed, and
  what the future of the backend that has the connection answers -/
  | poll (id : Nat) (env : Distribute.Env) (failure : Error) (a : Polled)
  /-- its future is dropped -/
  | drop (id : Nat)

/-- What is told of a connection.  `failed` and `closed` are both the end of its future; `failed` is that the service of the
route could not be made ready. -/
inductive Out where
  | nothing
  | pending
  | failed (e : Error)
  | closed (e : Option Error)
  | panicked
  deriving DecidableEq, Repr

/-- What is seen of an event: what is told, and the backend that got the connection. -/
structure Seen where
  out : Out
  sent : Option Concrete := none

/-- The end of a call to a route: the counters (metrics/transport.rs:214–225); errors are wrapped by `RouteError` below
(route.rs:103–109) and by `LogicalError` above (opaq/logical.rs:75, tls/logical.rs:76). -/
def finish (s : Sys) (id : Nat) (l : Labels) (inner : Option Error) : Sys × Out :=
  let err := inner.map (Cause.route l.route :: ·)
  ({ s.incClosed l err with conns := Assoc.erase id s.conns }, .closed (err.map (Cause.logical :: ·)))

/-- The future of a backend is polled. -/
def pollServing (s : Sys) (id : Nat) (l : Labels) (a : Polled) : Sys × Out :=
  match a with
  | .pending => (s, .pending)
  | .ok => finish s id l none
  | .err e => finish s id l (some e)

/-- The service of the route is called (metrics/transport.rs:208–214) after `polled`, the answer of the distribution: the
route's filters, `LoadShed::call` (stack/src/loadshed.rs:87–94), `Distribute::call`, the backend's filters, the backend
(route.rs:90–102). -/
def callRoute (s : Sys) (id : Nat) (rt : Matched) (polled : Distribute.World × Distribute.Out) (a : Polled) : Sys × Seen :=
  let s := s.incOpen rt.labels
  let refuse (c : Cause) : Sys × Seen := let r := finish s id rt.labels (some [c]); (r.1, { out := r.2 })
  match applyTcp rt.filters with
  | .error r => refuse (causeOf r)
  | .ok () =>
    match polled.2 with
    | .pending => refuse .loadShed
    | _ =>
      match polled.1.call.2 with
      | .sent i _ =>
        match (backendsOf rt.distribution)[i]? with
        | none => (s, { out := .panicked })
        | some b =>
          match applyTcp b.filters with
          | .error r => refuse (causeOf r)
          | .ok () =>
            let s := { s with conns := Assoc.put id (.serving rt.labels b.concrete) s.conns }
            let r := pollServing s id rt.labels a
            (r.1, { out := r.2, sent := some b.concrete })
      | _ => (s, { out := .panicked })

/-- One event: `OneshotRoute::call` (router/src/lib.rs:134–146), which makes the service of the route and with it its
counters; `Oneshot::poll`, which asks the service whether it is ready and calls it (`LoadShed` is ready whenever the
distribution has not failed, stack/src/loadshed.rs:64–85); and the end of a future. -/
def step (s : Sys) : Op → Sys × Seen
  | .accept id sv =>
    match sv.select with
    | none => ({ s with conns := Assoc.put id .noRoute s.conns }, { out := .nothing })
    | some rt => ({ s.metrics rt.labels with conns := Assoc.put id (.selected rt) s.conns }, { out := .nothing })
  | .poll id env failure a =>
    match Assoc.lookup id s.conns with
    | none => (s, { out := .nothing })
    | some .noRoute => ({ s with conns := Assoc.erase id s.conns }, { out := .closed (some [.logical, .noRoute]) })
    | some (.selected rt) =>
      let w : Distribute.World := { dist := distOf rt.distribution }
      let polled := w.step (.poll env)
      match polled.2 with
      | .failed => ({ s with conns := Assoc.erase id s.conns }, { out := .failed (.logical :: .route rt.labels.route :: failure) })
      | .ready | .pending => callRoute s id rt polled a
      | _ => (s, { out := .panicked })
    | some (.serving l _) => let r := pollServing s id l a; (r.1, { out := r.2 })
  | .drop id => ({ s with conns := Assoc.erase id s.conns }, { out := .nothing })

/-- What is seen of a sequence of events. -/
def trace (s : Sys) : List Op → List (Op × Seen)
  | [] => []
  | op :: ops => (op, (step s op).2) :: trace (step s op).1 ops

/-- The state after it. -/
def after (s : Sys) (ops : List Op) : Sys := ops.foldl (fun s op => (step s op).1) s

end Verif.OutboundTcp
