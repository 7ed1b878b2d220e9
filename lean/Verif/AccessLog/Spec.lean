import Verif.AccessLog.Model

/-!
# What the access log should say

A request that was served is told by what its client and its message were, when it came, when it was worked on without
an answer, and how that ended. The line of a request is told from that alone.
-/

namespace Verif.AccessLog

open Verif

/-- The life of one request, from the call to the end of its response future. -/
structure Served where
  others : Bool
  client : Client
  ts : Str
  req : Request
  /-- When it was called. -/
  start : Nat
  /-- The polls that came to nothing: when each began and ended. -/
  waits : List (Nat × Nat)
  /-- The poll that gave a response or an error, unless the request was given up before. -/
  ending : Option (Nat × Nat × Option Response)
deriving DecidableEq, Repr

/-- The operations of that life but the last, which is to drop the future. -/
def Served.begun (s : Served) (k : Nat) : List Op :=
  .call k s.others s.client s.ts s.req s.start :: s.waits.map (fun w => .poll k w.1 w.2 .pending) ++
    match s.ending with
    | none => []
    | some (a, b, none) => [.poll k a b .err]
    | some (a, b, some r) => [.poll k a b (.ok r)]

def Served.ops (s : Served) (k : Nat) : List Op := s.begun k ++ [.drop k]

/-- The operations on one request. -/
def Op.key : Op → Nat
  | .call k .. => k
  | .poll k .. => k
  | .drop k => k

def about (k : Nat) (ops : List Op) : List Op := ops.filter fun o => o.key = k

def Served.response (s : Served) : Option Response := s.ending.bind fun e => e.2.2

/-- `ADDRESS IDENTITY - [TIME] "METHOD URI VERSION" STATUS`: the common log format. Without a response there is no status. -/
def Served.apacheLine (s : Served) : Str :=
  s.client.addr ++ " ".toList ++ s.client.id.getD "-".toList ++ " - [".toList ++ s.ts ++ "] \"".toList ++ s.req.method ++
    " ".toList ++ s.req.uri ++ " ".toList ++ s.req.version ++ "\"".toList ++
    match s.response with
    | some r => " ".toList ++ Text.decimal r.status
    | none => []

/-- What a reader of the log gets out of a line: its parts between blanks, less the brackets and quotes. -/
structure Entry where
  addr : Str
  id : Str
  ts : Str
  method : Str
  uri : Str
  version : Str
  status : Option Nat
deriving DecidableEq, Repr

def readParts (addr id ts method uri version : Str) (status : Option Nat) : Option Entry := do
  let ts ← Text.stripPrefix "[".toList ts
  let method ← Text.stripPrefix "\"".toList method
  if ts.getLast? = some ']' ∧ version.getLast? = some '"' then
    some { addr, id, ts := ts.dropLast, method, uri, version := version.dropLast, status }
  else none

def readLine (s : Str) : Option Entry :=
  match Text.split ' ' s with
  | [addr, id, dash, ts, method, uri, version] =>
    if dash = "-".toList then readParts addr id ts method uri version none else none
  | [addr, id, dash, ts, method, uri, version, status] =>
    if dash = "-".toList then
      (Text.parseUnsigned 65535 status).bind fun n => readParts addr id ts method uri version (some n)
    else none
  | _ => none

def Served.entry (s : Served) : Entry :=
  { addr := s.client.addr, id := s.client.id.getD "-".toList, ts := s.ts, method := s.req.method, uri := s.req.uri,
    version := s.req.version, status := s.response.map (·.status) }

/-- The value of a header that can be read: the first one, if it has only visible characters. -/
def readable (h : HeaderMap) (name : String) : Option Str :=
  match h.getAll name with
  | [] => none
  | v :: _ => if ∀ c ∈ v, visible c = true then some v else none

/-- The first of the headers that carry a trace that the request has. -/
def traceHeader (h : HeaderMap) : Option String :=
  ["x-b3-traceid", "x-request-id", "x-amzn-trace-id"].find? fun n => h.getAll n ≠ []

/-- How long the request was worked on: in the polls that came to nothing and the one that gave the response. -/
def Served.worked (s : Served) : Nat :=
  (s.waits.map fun w => w.2 - w.1).sum + match s.ending with
    | some (a, b, _) => b - a
    | none => 0

/-- When the request ended, counted from its call. -/
def Served.total (s : Served) : Nat :=
  match s.ending with
  | some (_, b, _) => b - s.start
  | none => 0

/-- What the JSON object has for each name. -/
def Served.field (s : Served) (name : String) : Option Str :=
  if name = "client.addr" then some s.client.addr
  else if name = "client.id" then some (s.client.id.getD "-".toList)
  else if name = "timestamp" then some s.ts
  else if name = "method" then some s.req.method
  else if name = "uri" then some s.req.uri
  else if name = "version" then some s.req.version
  else if name = "trace_id" then some (((traceHeader s.req.headers).bind (readable s.req.headers)).getD [])
  else if name = "request_bytes" then some ((readable s.req.headers "content-length").getD [])
  else if name = "user_agent" then some ((readable s.req.headers "user-agent").getD [])
  else if name = "host" then some ((readable s.req.headers "host").getD [])
  else match s.response with
    | none => none
    | some r =>
      if name = "response_bytes" then readable r.headers "content-length"
      else if name = "status" then some (Text.decimal r.status)
      else if name = "total_ns" then some (Text.decimal s.total)
      else if name = "processing_ns" then some (Text.decimal s.worked)
      else none

/-- The lines that were printed for a request. -/
def linesOf (k : Nat) (out : List (Nat × Line)) : List Line := (out.filter fun e => e.1 = k).map (·.2)

/-- The instants of a life, in the order in which they were read from the clock. -/
def Served.instants (s : Served) : List Nat :=
  s.start :: s.waits.flatMap (fun w => [w.1, w.2]) ++ match s.ending with
    | some (a, b, _) => [a, b]
    | none => []

/-- The requests whose futures were dropped, in that order. -/
def drops (ops : List Op) : List Nat := ops.filterMap fun
  | .drop k => some k
  | _ => none

/-- The polls of the requests' services and what came of them. -/
def polls (ops : List Op) : List (Nat × Poll) := ops.filterMap fun
  | .poll k _ _ inner => some (k, inner)
  | _ => none

/-- The user asked for an access log in this format: case does not matter. -/
def Asks (v : Str) : Format → Prop
  | .json => v.map Text.lower = ['j', 's', 'o', 'n']
  | .apache => v.map Text.lower = ['a', 'p', 'a', 'c', 'h', 'e']

/-- A history in which the futures are used as futures are: each request is called once, polled until there is an
answer, and dropped at most once. -/
def Sound (ops : List Op) : Prop :=
  ∀ k, about k ops = [] ∨ ∃ s : Served, about k ops = s.begun k ∨ about k ops = s.ops k

end Verif.AccessLog
