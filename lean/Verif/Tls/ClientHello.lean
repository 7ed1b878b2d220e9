import Verif.Dns.Model
import Verif.Io.Prefixed

/-!
# The server name of a TLS ClientHello

Model of `linkerd/tls/src/server/client_hello.rs`. An `untrusted::Reader` is the bytes it has still to read; a parser
gives its result and the rest, or `none` for `EndOfInput`.
-/

namespace Verif.Tls

open Verif.Io
open Verif.Dns (Str)

abbrev Parser (α : Type) := Bytes → Option (α × Bytes)

/-- `Reader::read_byte` (external). -/
def readByte : Parser Byte
  | [] => none
  | b :: r => some (b, r)

/-- `Reader::read_bytes` and `Reader::skip` (external). -/
def readBytes (n : Nat) : Parser Bytes := fun s => if s.length < n then none else some (s.take n, s.drop n)

/-- `Input::read_all` (external): the parser must leave nothing unread. -/
def readAll {α : Type} (f : Parser α) (s : Bytes) : Option α :=
  match f s with
  | some (v, []) => some v
  | _ => none

/-- `read_u16`, client_hello.rs:183-187. -/
def readU16 : Parser Nat := fun s =>
  (readByte s).bind fun (hi, s) => (readByte s).map fun (lo, s) => (hi.toNat * 256 + lo.toNat, s)

/-- `read_vector`, client_hello.rs:146-165. -/
def readVector {α : Type} (f : Parser (Option α)) : Parser (Option α) := fun s =>
  (readU16 s).bind fun (length, s) =>
    if length > 8192 then some (none, s)
    else (readBytes length s).bind fun (r, s) => (readAll f r).map fun v => (v, s)

/-- `skip_vector`, client_hello.rs:168-174. -/
def skipVector : Parser Bool := fun s =>
  (readVector (fun _ => some (some (), [])) s).map fun (v, s) => (v.isSome, s)

/-- `skip_vector_u8`, client_hello.rs:177-180. -/
def skipVectorU8 : Parser Unit := fun s =>
  (readByte s).bind fun (length, s) => (readBytes length.toNat s).map fun (_, s) => ((), s)

/-- The name within the extension, client_hello.rs:115-127. -/
def readServerName : Parser (Option Bytes) :=
  readVector fun s => readVector (fun s =>
    (readByte s).bind fun (t, s) =>
      if t ≠ 0 then some (none, s) else readVector (fun s => some (some s, [])) s) s

/-- The loop over the extensions, client_hello.rs:105-133. Each round reads at least four bytes, so the length of the
input bounds the number of rounds: that is the first argument. -/
def readExtensions : Nat → Parser (Option Bytes)
  | _, [] => some (none, [])
  | 0, _ :: _ => none
  | n + 1, s =>
    (readU16 s).bind fun (type, s) =>
      if type ≠ 0 then (skipVector s).bind fun (_, s) => readExtensions n s
      else (readServerName s).map fun (v, _) => (v, [])

/-- The body of the ClientHello, client_hello.rs:88-135. -/
def readHello : Parser (Option Bytes) := fun s =>
  (readByte s).bind fun (major, s) =>
    if major ≠ 3 then some (none, s)
    else (readByte s).bind fun (minor, s) =>
      if minor ≠ 3 then some (none, s)
      else (readBytes 32 s).bind fun (_, s) =>
        (skipVectorU8 s).bind fun (_, s) =>
          (skipVector s).bind fun (ok, s) =>
            if !ok then some (none, s)
            else (skipVectorU8 s).bind fun (_, s) =>
              readVector (fun s => readExtensions s.length s) s

/-- The handshake message, client_hello.rs:76-136. -/
def readHandshake : Parser (Option Bytes) := fun s =>
  (readByte s).bind fun (type, s) =>
    if type ≠ 1 then some (none, s)
    else (readByte s).bind fun (msb, s) =>
      if msb ≠ 0 then some (none, s)
      else readVector readHello s

/-- `extract_sni`, client_hello.rs:53-142, without its last `skip_to_end`, which `parse_sni` repeats. -/
def extractSni : Parser (Option Bytes) := fun s =>
  (readByte s).bind fun (type, s) =>
    if type ≠ 22 then some (none, s)
    else (readByte s).bind fun (major, s) =>
      if major ≠ 3 then some (none, s)
      else (readByte s).bind fun (minor, s) =>
        if minor ≠ 1 ∧ minor ≠ 3 then some (none, s)
        else readVector readHandshake s

/-- The text of some bytes. Bytes that are not ASCII, be they UTF-8 or not, become characters no DNS name has. -/
def textOf (bs : Bytes) : Str := bs.map fun b => Char.ofNat b.toNat

/-- `parse_sni`, client_hello.rs:21-48; `none` is `Incomplete`. -/
def parseSni (s : Bytes) : Option (Option Str) :=
  match extractSni s with
  | none => none
  | some (none, _) => some none
  | some (some sni, _) => some (Dns.Name.tryFrom (textOf sni))

end Verif.Tls
