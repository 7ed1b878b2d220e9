import Verif.Io.Read
import Verif.Tls.ClientHello

/-!
# Transport headers

Model of `linkerd/transport-header/src/{lib,server}.rs` and of the protobuf codec (`prost`, external) for the one
message it uses, `src/gen/transport.l5d.io.rs`. Whether bytes are UTF-8 is a parameter, `utf8`.
-/

namespace Verif.TransportHeader

open Verif.Io
open Verif.Tls (readBytes textOf)
open Verif.Dns (Str)

/-! ## Protobuf (external) -/

/-- `prost::encoding::encode_varint`: at most ten bytes. -/
def varintLoop : Nat → Nat → Bytes
  | 0, _ => []
  | k + 1, n => if n < 128 then [n.toUInt8] else (n % 128 + 128).toUInt8 :: varintLoop k (n / 128)

def varint (n : Nat) : Bytes := varintLoop 10 n

/-- `prost::encoding::decode_varint`: the tenth byte is at most one. -/
def readVarintLoop : Nat → Bytes → Option (Nat × Bytes)
  | 0, _ => none
  | _ + 1, [] => none
  | k + 1, b :: r =>
    if b.toNat < 128 then
      if k = 0 ∧ 2 ≤ b.toNat then none else some (b.toNat, r)
    else (readVarintLoop k r).map fun (v, r) => (b.toNat - 128 + 128 * v, r)

def readVarint (s : Bytes) : Option (Nat × Bytes) := readVarintLoop 10 s

/-- `prost::encoding::encode_key`. -/
def key (tag wire : Nat) : Bytes := varint (tag * 8 + wire)

/-- `prost::encoding::decode_key`: the tag and the wire type. -/
def readKey (s : Bytes) : Option ((Nat × Nat) × Bytes) :=
  (readVarint s).bind fun (k, s) =>
    if k ≥ 2 ^ 32 then none
    else if k % 8 > 5 then none
    else if k / 8 = 0 then none
    else some ((k / 8, k % 8), s)

/-- The bytes of a length-delimited field. -/
def readDelimited (s : Bytes) : Option (Bytes × Bytes) := (readVarint s).bind fun (len, s) => readBytes len s

mutual
  /-- `prost::encoding::skip_field`. The first argument bounds the recursion, the second is prost's limit on depth. -/
  def skipField : Nat → Nat → Nat → Nat → Bytes → Option Bytes
    | 0, _, _, _, _ => none
    | fuel + 1, depth, tag, wire, s =>
      if depth = 0 then none
      else if wire = 0 then (readVarint s).map (·.2)
      else if wire = 1 then (readBytes 8 s).map (·.2)
      else if wire = 2 then (readDelimited s).map (·.2)
      else if wire = 3 then skipGroup fuel depth tag s
      else if wire = 5 then (readBytes 4 s).map (·.2)
      else none
  def skipGroup : Nat → Nat → Nat → Bytes → Option Bytes
    | 0, _, _, _ => none
    | fuel + 1, depth, tag, s =>
      match readKey s with
      | none => none
      | some ((t, w), s) =>
        if w = 4 then (if t ≠ tag then none else some s)
        else
          match skipField fuel (depth - 1) t w s with
          | none => none
          | some s => skipGroup fuel depth tag s
end

/-- `skip_field` with recursion enough for the input. -/
def skip (depth tag wire : Nat) (s : Bytes) : Option Bytes := skipField (2 * s.length + 2) depth tag wire s

/-- `Message::merge`'s loop over the fields of a message. The first argument bounds the rounds by the input's length. -/
def mergeFields {α : Type} (field : α → Nat → Nat → Bytes → Option (α × Bytes)) : Nat → α → Bytes → Option α
  | _, m, [] => some m
  | 0, _, _ :: _ => none
  | n + 1, m, b :: s =>
    match readKey (b :: s) with
    | none => none
    | some ((tag, wire), r) =>
      match field m tag wire r with
      | none => none
      | some (m, r) => mergeFields field n m r

/-- A whole message. -/
def mergeAll {α : Type} (field : α → Nat → Nat → Bytes → Option (α × Bytes)) (m : α) (s : Bytes) : Option α :=
  mergeFields field s.length m s

/-! ## The messages, src/gen/transport.l5d.io.rs -/

/-- `session_protocol::Kind`, and the proxy's `SessionProtocol`, lib.rs:35-39. -/
inductive SessionProtocol where
  | http1
  | http2
  deriving DecidableEq, Repr

/-- `proto::Header`; the name is as bytes. -/
structure Proto where
  port : Int
  name : Bytes
  sessionProtocol : Option (Option SessionProtocol)
  deriving DecidableEq, Repr

/-- A field of the empty messages `Http1` and `Http2`. -/
def emptyField (_ : Unit) (tag wire : Nat) (s : Bytes) : Option (Unit × Bytes) :=
  (skip 98 tag wire s).map fun s => ((), s)

/-- A field of `SessionProtocol`. -/
def sessionField (k : Option SessionProtocol) (tag wire : Nat) (s : Bytes) :
    Option (Option SessionProtocol × Bytes) :=
  if tag = 1 ∨ tag = 2 then
    if wire ≠ 2 then none
    else
      match readDelimited s with
      | none => none
      | some (b, s) =>
        match mergeAll emptyField () b with
        | none => none
        | some () => some (some (if tag = 1 then .http1 else .http2), s)
  else (skip 99 tag wire s).map fun s => (k, s)

/-- `as i32`. -/
def toI32 (n : Nat) : Int :=
  let m : Nat := n % 2 ^ 32
  if m ≥ 2 ^ 31 then (m : Int) - 2 ^ 32 else m

/-- A field of `Header`. -/
def headerField (utf8 : Bytes → Bool) (h : Proto) (tag wire : Nat) (s : Bytes) : Option (Proto × Bytes) :=
  if tag = 1 then
    if wire ≠ 0 then none
    else (readVarint s).map fun (v, s) => ({ h with port := toI32 v }, s)
  else if tag = 2 then
    if wire ≠ 2 then none
    else
      match readDelimited s with
      | none => none
      | some (b, s) => if utf8 b then some ({ h with name := b }, s) else none
  else if tag = 3 then
    if wire ≠ 2 then none
    else
      match readDelimited s with
      | none => none
      | some (b, s) =>
        match mergeAll sessionField (h.sessionProtocol.getD none) b with
        | none => none
        | some k => some ({ h with sessionProtocol := some k }, s)
  else (skip 100 tag wire s).map fun s => (h, s)

/-- `proto::Header::decode`. -/
def Proto.decode (utf8 : Bytes → Bool) (s : Bytes) : Option Proto := mergeAll (headerField utf8) ⟨0, [], none⟩ s

/-- `SessionProtocol::encode`. -/
def encodeSession : Option SessionProtocol → Bytes
  | none => []
  | some .http1 => key 1 2 ++ varint 0
  | some .http2 => key 2 2 ++ varint 0

/-- The field `session_protocol`. -/
def encodeSessionField : Option (Option SessionProtocol) → Bytes
  | none => []
  | some k => key 3 2 ++ (varint (encodeSession k).length ++ encodeSession k)

/-- `as u64`. -/
def toU64 (i : Int) : Nat := (i % 2 ^ 64).toNat

/-- `proto::Header::encode`: fields with their default value are left out. -/
def Proto.encode (h : Proto) : Bytes :=
  (if h.port ≠ 0 then key 1 0 ++ varint (toU64 h.port) else []) ++
    ((if h.name ≠ [] then key 2 2 ++ (varint h.name.length ++ h.name) else []) ++
      encodeSessionField h.sessionProtocol)

/-! ## The header -/

/-- `TransportHeader`, lib.rs:24-33. The port is a `u16`, and the name one that `Name` holds. -/
structure Header where
  port : Nat
  name : Option Str
  protocol : Option SessionProtocol
  deriving DecidableEq, Repr

/-- The bytes of an ASCII text. -/
def bytesOf (s : Str) : Bytes := s.map fun c => c.toNat.toUInt8

/-- `PREFACE`, lib.rs:42. -/
def preface : Bytes :=
  [116, 114, 97, 110, 115, 112, 111, 114, 116, 46, 108, 53, 100, 46, 105, 111, 47, 118, 49, 13, 10, 13, 10]

/-- `PREFACE_AND_SIZE_LEN`, lib.rs:43. -/
abbrev prefaceAndSize : Nat := 27

/-- `put_u32` (external). -/
def be32 (n : Nat) : Bytes :=
  [(n / 2 ^ 24 % 256).toUInt8, (n / 2 ^ 16 % 256).toUInt8, (n / 2 ^ 8 % 256).toUInt8, (n % 256).toUInt8]

/-- `get_u32` (external), on at least four bytes. -/
def getU32 : Bytes → Nat
  | a :: b :: c :: d :: _ => a.toNat * 2 ^ 24 + b.toNat * 2 ^ 16 + c.toNat * 2 ^ 8 + d.toNat
  | _ => 0

/-- `to_proto`, lib.rs:87-108. -/
def Header.toProto (h : Header) : Proto :=
  ⟨h.port, bytesOf (h.name.getD []), h.protocol.map some⟩

/-- `encode_prefaced`, lib.rs:66-84, and `encode_prefaced_buf`, 59-63; `none` is the error. -/
def Header.encode (h : Header) : Option Bytes :=
  let msg := h.toProto.encode
  if msg.length > 2 ^ 32 - 1 then none else some (preface ++ (be32 msg.length ++ msg))

/-- `write`, lib.rs:46-56: `write_buf` takes at most the given number of bytes each time. The result is what was
written and whether all was. -/
def writeLoop : Bytes → List Nat → Bytes × Bool
  | [], _ => ([], true)
  | _, [] => ([], false)
  | buf, k :: ks =>
    let (w, done) := writeLoop (buf.drop k) ks
    (buf.take k ++ w, done)

/-- `decode`, lib.rs:163-194. -/
def decode (utf8 : Bytes → Bool) (msg : Bytes) : Option Header :=
  match Proto.decode utf8 msg with
  | none => none
  | some h =>
    let name := if h.name = [] then some none else (Dns.Name.tryFrom (textOf h.name)).map some
    match name with
    | none => none
    | some name =>
      if h.port ≤ 0 ∨ h.port > 65535 then none
      else some ⟨h.port.toNat, name, h.sessionProtocol.join⟩

/-- A loop that reads until the buffer has `n` bytes, lib.rs:122-126 and 147-154. -/
inductive Filled where
  | timeout
  | ioError
  | eof (buf : Bytes) (io : Inner)
  | full (buf : Bytes) (io : Inner) (reads : List ReadAnswer)
  deriving DecidableEq, Repr

def fill (n : Nat) (buf : Bytes) (io : Inner) (reads : List ReadAnswer) : Filled :=
  if buf.length ≥ n then .full buf io reads
  else
    match reads with
    | [] => .timeout
    | .failed :: _ => .ioError
    | .upTo k :: rest =>
      let got := io.unread.take (max k 1)
      let io' := { io with unread := io.unread.drop (max k 1) }
      if got.length = 0 then .eof buf io' else fill n (buf ++ got) io' rest

/-- How reading the header ends. -/
inductive ReadOut where
  | timeout
  | ioError
  /-- `Message length exceeds capacity`, or a message that cannot be decoded. -/
  | invalidData
  /-- `Full header message not provided`. -/
  | unexpectedEof
  /-- `Ok(None)`, with the buffer and the stream. -/
  | absent (p : PrefixedIo)
  | header (h : Header) (p : PrefixedIo)
  deriving DecidableEq, Repr

/-- `read_prefaced`, lib.rs:116-160, on the empty buffer of 64 KiB of server.rs:69. Neither loop fills that buffer
before its end, and `advance` takes from the capacity what it takes from the buffer, so the bound of line 137 is
64 KiB. -/
def readPrefaced (utf8 : Bytes → Bool) (io : Inner) (reads : List ReadAnswer) : ReadOut :=
  match fill prefaceAndSize [] io reads with
  | .timeout => .timeout
  | .ioError => .ioError
  | .eof buf io => .absent ⟨buf, io⟩
  | .full buf io reads =>
    if buf.take preface.length ≠ preface then .absent ⟨buf, io⟩
    else
      let msgLen := getU32 (buf.drop preface.length)
      if msgLen > (1024 * 64 - prefaceAndSize) + prefaceAndSize then .invalidData
      else
        match fill msgLen (buf.drop prefaceAndSize) io reads with
        | .timeout => .timeout
        | .ioError => .ioError
        | .eof _ _ => .unexpectedEof
        | .full buf io _ =>
          match decode utf8 (buf.take msgLen) with
          | none => .invalidData
          | some h => .header h ⟨buf.drop msgLen, io⟩

/-- How a call of the server ends. -/
inductive Called where
  | error
  | accepted (h : Header) (p : PrefixedIo)
  deriving DecidableEq, Repr

/-- `TransportHeaderServer::call`, server.rs:63-92. -/
def call (utf8 : Bytes → Bool) (io : Inner) (reads : List ReadAnswer) : Called :=
  match readPrefaced utf8 io reads with
  | .header h p => .accepted h p
  | _ => .error

end Verif.TransportHeader
