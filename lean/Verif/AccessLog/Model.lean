import Verif.Common.Headers
import Verif.Common.Text
import Verif.Common.Assoc

/-!
# The access log

Model of `linkerd/http/access-log/src/lib.rs`, `linkerd/tracing/src/access_log.rs` and the parts of
`linkerd/tracing/src/lib.rs` that decide whether there is an access log. A request is known by a key (`Nat`); the operations
on a request are those of the future `AccessLogContext::call` returns: it is made, polled and dropped. The texts that
other crates make (`Display` of a socket address, of a URI and of a timestamp, `Debug` of a version) are given. The
JSON text of an object of fields is not modelled: in the JSON format a line is the object itself.
-/

namespace Verif.AccessLog

open Verif

abbrev Str := List Char

/-! ## Settings -/

/-- `Format`, tracing/src/access_log.rs:26-30. -/
inductive Format where
  | apache
  | json
deriving DecidableEq, Repr

/-- `Format::from_str`, tracing/src/access_log.rs:157-166. -/
def parseFormat (s : Str) : Option Format :=
  if Text.eqIgnoreCase s "json".toList then some .json
  else if Text.eqIgnoreCase s "apache".toList then some .apache
  else none

/-- The environment variables `Settings::from_env` reads, tracing/src/lib.rs:66-79, as far as the access log depends on
them: the log level (with its default filled in) and the format of the access log. -/
structure Settings where
  filter : Str
  accessLog : Option Str
deriving DecidableEq, Repr

/-- `access_log_format` (tracing/src/lib.rs:92-101), `init` (:152-177) and `build` (:189-233): the format of the access
log layer that is installed, if one is. With logging turned off no layer but that of log streams is installed.
Simplified: `trim` takes off blanks and tabs only. -/
def layer (s : Settings) : Option Format :=
  if Text.eqIgnoreCase (Text.trim s.filter) "off".toList then none
  else s.accessLog.bind parseFormat

/-! ## Lines -/

/-- What has been recorded of a span: the text of the Apache format, or the fields of the JSON object. -/
inductive Line where
  | text (s : Str)
  | object (fields : List (String × Str))
deriving DecidableEq, Repr

/-- `ApacheCommon::SKIPPED_FIELDS`, tracing/src/access_log.rs:105-115. -/
def skipped : List String :=
  ["trace_id", "request_bytes", "total_ns", "processing_ns", "response_bytes", "user_agent", "host"]

/-- `ApacheCommonVisitor::record_debug`, tracing/src/access_log.rs:142-152: what is added for one field. -/
def visit (name : String) (val : Str) : Str :=
  if name ∈ skipped then []
  else if name = "timestamp" then " [".toList ++ val ++ "]".toList
  else if name = "client.addr" then val
  else if name = "client.id" then " ".toList ++ val ++ " -".toList
  else if name = "method" then " \"".toList ++ val
  else if name = "version" then " ".toList ++ val ++ "\"".toList
  else " ".toList ++ val

/-- `add_fields`, tracing/src/access_log.rs:128-134 for the Apache format; `JsonFields::add_fields` of
`tracing-subscriber` for JSON, which puts the fields into the object there is. -/
def Line.add : Line → List (String × Str) → Line
  | .text s, fs => .text (s ++ fs.flatMap fun f => visit f.1 f.2)
  | .object o, fs => .object (fs.foldl (fun o f => Assoc.put f.1 f.2 o) o)

/-- `on_new_span`, tracing/src/access_log.rs:62-76: the first fields, formatted. -/
def Format.start : Format → List (String × Str) → Line
  | .apache, fs => Line.add (.text []) fs
  | .json, fs => Line.add (.object []) fs

/-! ## Requests -/

/-- What is known of a client, access-log/src/lib.rs:74-86. -/
structure Client where
  addr : Str
  id : Option Str
deriving DecidableEq, Repr

structure Request where
  method : Str
  uri : Str
  version : Str
  headers : HeaderMap
deriving DecidableEq, Repr

structure Response where
  status : Nat
  headers : HeaderMap
deriving DecidableEq, Repr

/-- `get_header`, access-log/src/lib.rs:103-109. -/
def getHeader (r : Request) (name : String) : Str := ((r.headers.get name).bind toStr).getD []

/-- `trace_id`, access-log/src/lib.rs:111-119. -/
def traceId (r : Request) : Str :=
  ((((r.headers.get "x-b3-traceid").or (r.headers.get "x-request-id")).or (r.headers.get "x-amzn-trace-id")).bind toStr).getD []

/-- The fields of the span that have a value when it is made, access-log/src/lib.rs:121-142. -/
def attrs (c : Client) (ts : Str) (r : Request) : List (String × Str) :=
  [ ("client.addr", c.addr),
    ("client.id", c.id.getD "-".toList),
    ("timestamp", ts),
    ("method", r.method),
    ("uri", r.uri),
    ("version", r.version),
    ("trace_id", traceId r),
    ("request_bytes", getHeader r "content-length"),
    ("user_agent", getHeader r "user-agent"),
    ("host", getHeader r "host") ]

/-- `ResponseFutureInner`, access-log/src/lib.rs:34-38; `line` is what the access log layer keeps with the span, if there
is such a layer. -/
structure Data where
  line : Option Line
  start : Nat
  processing : Nat
deriving DecidableEq, Repr

/-- What a poll of the inner future comes to. -/
inductive Poll where
  | pending
  | err
  | ok (r : Response)
deriving DecidableEq, Repr

/-- `AccessLogFuture`: not made yet, made (with its data, if the span is enabled), or dropped. -/
inductive Fut where
  | unmade
  | live (data : Option Data)
  | gone
deriving DecidableEq, Repr

/-- `call`, access-log/src/lib.rs:102-162. The span is enabled if there is an access log layer, or if another layer
(a log stream, `others`) asks for it. -/
def call (layer : Option Format) (others : Bool) (c : Client) (ts : Str) (r : Request) (now : Nat) : Fut :=
  if layer.isSome || others then
    .live (some { line := layer.map fun f => f.start (attrs c ts r), start := now, processing := 0 })
  else .live none

/-- The fields recorded of a response, access-log/src/lib.rs:198-206, in that order. -/
def recorded (r : Response) (total processing : Nat) : List (String × Str) :=
  (match (r.headers.get "content-length").bind toStr with
    | some v => [("response_bytes", v)]
    | none => []) ++
  [ ("status", Text.decimal r.status),
    ("total_ns", Text.decimal total),
    ("processing_ns", Text.decimal processing) ]

/-- `AccessLogFuture::poll`, access-log/src/lib.rs:171-209, begun at `a` and ended at `b`: what is kept, and what is
returned. -/
def poll (d : Option Data) (a b : Nat) (inner : Poll) : Option Data × Poll :=
  match d with
  | none => (none, inner)
  | some d =>
    match inner with
    | .pending => (some { d with processing := d.processing + (b - a) }, .pending)
    | .err => (some d, .err)
    | .ok r =>
      let total := b - d.start
      let processing := (b - a) + d.processing
      (some { d with line := d.line.map fun l => l.add (recorded r total processing) }, .ok r)

inductive Op where
  | call (k : Nat) (others : Bool) (c : Client) (ts : Str) (r : Request) (now : Nat)
  | poll (k : Nat) (a b : Nat) (inner : Poll)
  | drop (k : Nat)
deriving DecidableEq, Repr

/-- The requests, and what has been printed: each line with the key of its request, and what each poll returned. -/
structure St where
  futs : Nat → Fut
  out : List (Nat × Line)
  answers : List (Nat × Poll)

def init : St := { futs := fun _ => .unmade, out := [], answers := [] }

def setAt (f : Nat → Fut) (k : Nat) (v : Fut) : Nat → Fut := fun j => if j = k then v else f j

/-- A future dropped closes its span, and the layer prints its line: `on_close`, tracing/src/access_log.rs:96-102.
Simplified: spans of other layers that were opened within it and outlive it are not modelled. -/
def step (layer : Option Format) (s : St) : Op → St
  | .call k others c ts r now =>
    match s.futs k with
    | .unmade => { s with futs := setAt s.futs k (call layer others c ts r now) }
    | _ => s
  | .poll k a b inner =>
    match s.futs k with
    | .live d =>
      { s with futs := setAt s.futs k (.live (poll d a b inner).1), answers := s.answers ++ [(k, (poll d a b inner).2)] }
    | _ => s
  | .drop k =>
    match s.futs k with
    | .live (some { line := some l, .. }) => { s with futs := setAt s.futs k .gone, out := s.out ++ [(k, l)] }
    | .live _ => { s with futs := setAt s.futs k .gone }
    | _ => s

def run (layer : Option Format) (ops : List Op) : St := ops.foldl (step layer) init

end Verif.AccessLog
