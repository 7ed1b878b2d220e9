import Verif.Io.Prefixed

/-!
# HTTP detection

Model of `linkerd/http/detect/src/lib.rs`. The parser of HTTP/1 request heads (`httparse`) is a parameter.
-/

namespace Verif.HttpDetect

open Verif.Io

/-- `Variant`. -/
inductive Variant where
  | http1
  | h2
  deriving DecidableEq, Repr

/-- `Detection`, lib.rs:25-29. -/
inductive Detection where
  | notHttp
  | http (v : Variant)
  | readTimeout
  deriving DecidableEq, Repr

/-- The errors of `detect`. -/
inductive Error where
  | closed
  | io
  deriving DecidableEq, Repr

/-- The answer of `httparse::Request::parse` without room for headers (external). -/
inductive Parsed where
  /-- `Ok(_)`, complete or not. -/
  | ok
  /-- `Err(TooManyHeaders)`. -/
  | tooManyHeaders
  /-- Any other error. -/
  | error
  deriving DecidableEq, Repr

/-- How the one read within the timeout ends: with some bytes (none at the end of the stream). -/
inductive First where
  | timeout
  | failed
  | read (k : Nat)
  deriving DecidableEq, Repr

/-- `H2_PREFACE`, lib.rs:60. -/
def h2Preface : Bytes := [80, 82, 73, 32, 42, 32, 72, 84, 84, 80, 47, 50, 46, 48]

/-- The length of `SMALLEST_POSSIBLE_HTTP1_REQ`, lib.rs:61. -/
abbrev smallestHttp1 : Nat := 14

/-- `READ_CAPACITY`, lib.rs:63. -/
abbrev readCapacity : Nat := 1024

/-- The bytes the first read puts in the buffer, lib.rs:161. -/
def firstBytes (io : Inner) : First → Bytes
  | .read k => io.unread.take (min readCapacity (max k 1))
  | _ => []

/-- `detect`, lib.rs:153-196. -/
def detect (parse : Bytes → Parsed) (buf : Bytes) : First → Except Error Detection
  | .timeout => .ok .readTimeout
  | .failed => .error .io
  | .read _ =>
    if buf.length = 0 then .error .closed
    else if buf.length ≥ h2Preface.length && buf.take h2Preface.length == h2Preface then .ok (.http .h2)
    else if buf.length ≥ smallestHttp1 then
      match parse buf with
      | .ok => .ok (.http .http1)
      | .tooManyHeaders => .ok (.http .http1)
      | .error => .ok .notHttp
    else .ok .notHttp

/-- `Detect::call`, lib.rs:115-141: the inner service is made for the detection and gets the stream. -/
def call (parse : Bytes → Parsed) (io : Inner) (f : First) : Except Error (Detection × PrefixedIo) :=
  let buf := firstBytes io f
  match detect parse buf f with
  | .error e => .error e
  | .ok d => .ok (d, ⟨buf, { io with unread := io.unread.drop buf.length }⟩)

end Verif.HttpDetect
