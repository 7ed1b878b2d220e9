/-!
# Prefixed I/O streams

Model of `linkerd/io/src/prefixed.rs`. The inner stream is what it has still to deliver and what was written to it;
how much it delivers or accepts at a time is the environment's choice.
-/

namespace Verif.Io

abbrev Byte := UInt8
abbrev Bytes := List Byte

/-- The inner stream (external): `unread` is what is still to be delivered before the end, `written` what it was
given. -/
structure Inner where
  unread : Bytes
  written : Bytes
  deriving DecidableEq, Repr

/-- What the inner stream does when it is polled. -/
inductive Ready where
  | pending
  | failed
  /-- At most this many bytes are moved. -/
  | upTo (k : Nat)
  deriving DecidableEq, Repr

/-- What a poll returns. -/
inductive Polled where
  | pending
  | failed
  /-- The bytes put in the buffer. -/
  | got (bs : Bytes)
  /-- The number of bytes taken. -/
  | took (k : Nat)
  deriving DecidableEq, Repr

/-- `AsyncRead::poll_read` of the inner stream (external): at least one byte, unless the buffer has no room or the
stream has ended. -/
def Inner.pollRead (io : Inner) (room : Nat) : Ready → Polled × Inner
  | .pending => (.pending, io)
  | .failed => (.failed, io)
  | .upTo k =>
    let n := min room (max k 1)
    (.got (io.unread.take n), { io with unread := io.unread.drop n })

/-- `AsyncWrite::poll_write` of the inner stream (external). -/
def Inner.pollWrite (io : Inner) (bs : Bytes) : Ready → Polled × Inner
  | .pending => (.pending, io)
  | .failed => (.failed, io)
  | .upTo k => (.took (min bs.length k), { io with written := io.written ++ bs.take k })

/-- `PrefixedIo`, prefixed.rs:9-14. -/
structure PrefixedIo where
  pre : Bytes
  io : Inner
  deriving DecidableEq, Repr

/-- `PrefixedIo::poll_read`, prefixed.rs:54-78. -/
def PrefixedIo.pollRead (p : PrefixedIo) (room : Nat) (r : Ready) : Polled × PrefixedIo :=
  let peeked := p.pre.length
  if peeked = 0 then
    let (out, io) := p.io.pollRead room r
    (out, { p with io := io })
  else
    let len := min room peeked
    (.got (p.pre.take len), { p with pre := if peeked = len then [] else p.pre.drop len })

/-- `PrefixedIo::peek`, prefixed.rs:35-43. -/
def PrefixedIo.peek (p : PrefixedIo) (room : Nat) : Bytes :=
  let sz := min p.pre.length room
  if sz = 0 then [] else p.pre.take sz

/-- `PrefixedIo::poll_write`, prefixed.rs:105-107 (`poll_write_vectored`, 110-116, is the same with the buffers
joined). -/
def PrefixedIo.pollWrite (p : PrefixedIo) (bs : Bytes) (r : Ready) : Polled × PrefixedIo :=
  let (out, io) := p.io.pollWrite bs r
  (out, { p with io := io })

/-- What the user of the stream does. -/
inductive Op where
  | read (room : Nat) (r : Ready)
  | write (bs : Bytes) (r : Ready)
  | peek (room : Nat)
  deriving DecidableEq, Repr

def PrefixedIo.step (p : PrefixedIo) : Op → Polled × PrefixedIo
  | .read room r => p.pollRead room r
  | .write bs r => p.pollWrite bs r
  | .peek room => (.got (p.peek room), p)

/-- The results, and the stream afterwards. -/
def PrefixedIo.run (p : PrefixedIo) : List Op → List (Op × Polled) × PrefixedIo
  | [] => ([], p)
  | o :: os =>
    let (out, p') := p.step o
    let (outs, p'') := p'.run os
    ((o, out) :: outs, p'')

end Verif.Io
