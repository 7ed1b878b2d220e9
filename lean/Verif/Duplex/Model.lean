import Verif.Io.Prefixed

/-!
# Copying between two sockets

Model of `linkerd/duplex/src/lib.rs`. The sockets answer each call from a list of answers; when it is used up, calls
are pending.
-/

namespace Verif.Duplex

open Verif.Io (Bytes)

/-- A socket's answer to a call. -/
inductive Answer where
  | pending
  | failed
  /-- For a read or a write: at most this many bytes. -/
  | ready (k : Nat)
  deriving DecidableEq, Repr

/-- What is read from a socket (external). -/
structure Source where
  /-- What the peer has still to send before it ends its stream. -/
  unread : Bytes
  /-- What was read. -/
  delivered : Bytes
  /-- Whether a read met the end. -/
  eof : Bool
  deriving DecidableEq, Repr

/-- What is written to a socket (external). -/
structure Sink where
  written : Bytes
  /-- How much was written when a flush last completed. -/
  flushed : Nat
  /-- Whether a shutdown was asked for. -/
  shutdownAsked : Bool
  /-- Whether a write took no bytes. -/
  zeroWrite : Bool
  /-- Whether a write was ever pending. -/
  pended : Bool
  /-- How many times a flush was asked for. -/
  flushCalls : Nat
  /-- How much was written when a flush was last asked for. -/
  flushAsked : Nat
  deriving DecidableEq, Repr

/-- `CopyBuf`, lib.rs:41-49: `data` is the array up to `write_pos`. -/
structure CopyBuf where
  data : Bytes
  readPos : Nat
  deriving DecidableEq, Repr

/-- The array's length, lib.rs:297. -/
abbrev capacity : Nat := 8 * 1024

/-- `CopyBuf::chunk`, lib.rs:315-317; `remaining` (311-313) is its length. -/
def CopyBuf.chunk (b : CopyBuf) : Bytes := b.data.drop b.readPos

/-- The fields of `HalfDuplex` (lib.rs:28-36) for what is read from its socket. -/
structure Reading where
  buf : Option CopyBuf
  flushing : Bool
  io : Source
  deriving DecidableEq, Repr

/-- The fields of `HalfDuplex` for what is written to its socket. -/
structure Writing where
  isShutdown : Bool
  io : Sink
  deriving DecidableEq, Repr

structure HalfDuplex where
  r : Reading
  w : Writing
  deriving DecidableEq, Repr

/-- `Buffered`, lib.rs:52-56, with the other outcomes of `poll_buffer`. -/
inductive Buffered where
  | pending
  | failed
  /-- `NotEmpty` or `Read(_)`. -/
  | some
  | eof
  deriving DecidableEq, Repr

/-- `poll_buffer`, lib.rs:210-237. -/
def pollBuffer (s : Reading) (as : List Answer) : Buffered × Reading × List Answer :=
  match s.buf with
  | none => (.eof, { s with buf := none }, as)
  | some b =>
    if b.chunk ≠ [] then (.some, s, as)
    else
      let s := { s with buf := some ⟨[], 0⟩ }
      match as with
      | [] => (.pending, s, [])
      | .pending :: as => (.pending, s, as)
      | .failed :: as => (.failed, s, as)
      | .ready k :: as =>
        let n := min capacity (max k 1)
        let got := s.io.unread.take n
        let io := { s.io with unread := s.io.unread.drop n, delivered := s.io.delivered ++ got }
        if got.length > 0 then (.some, { s with buf := some ⟨got, 0⟩, io := io }, as)
        else (.eof, { s with buf := none, io := { io with eof := true } }, as)

/-- How a flush is answered. -/
inductive Flush where
  | pending
  | failed
  | ready
  deriving DecidableEq, Repr

/-- `poll_flush`, lib.rs:241-253. -/
def pollFlush (s : Reading) (d : Writing) (as : List Answer) : Flush × Reading × Writing × List Answer :=
  let d := { d with io := { d.io with flushCalls := d.io.flushCalls + 1, flushAsked := d.io.written.length } }
  match as with
  | [] => (.pending, { s with flushing := true }, d, [])
  | .pending :: as => (.pending, { s with flushing := true }, d, as)
  | .failed :: as => (.failed, { s with flushing := false }, d, as)
  | .ready _ :: as =>
    (.ready, { s with flushing := false }, { d with io := { d.io with flushed := d.io.written.length } }, as)

/-- `Drained`, lib.rs:59-63, with the error. -/
inductive Drained where
  | empty
  | part
  | all
  | failed
  deriving DecidableEq, Repr

/-- The loop of `drain_into`, lib.rs:264-282. -/
def drainLoop (b : CopyBuf) (io : Sink) (sz : Nat) : List Answer → Drained × CopyBuf × Sink × List Answer
  | [] => if b.chunk = [] then (if sz = 0 then .empty else .all, b, io, []) else (.part, b, { io with pended := true }, [])
  | a :: as =>
    if b.chunk = [] then (if sz = 0 then .empty else .all, b, io, a :: as)
    else
      match a with
      | .pending => (.part, b, { io with pended := true }, as)
      | .failed => (.failed, b, io, as)
      | .ready k =>
        let n := min k b.chunk.length
        if n = 0 then (.failed, b, { io with zeroWrite := true }, as)
        else
          drainLoop { b with readPos := b.readPos + n } { io with written := io.written ++ b.chunk.take n } (sz + n) as

/-- `drain_into`, lib.rs:256-283. -/
def drainInto (s : Reading) (d : Writing) (as : List Answer) : Drained × Reading × Writing × List Answer :=
  match s.buf with
  | none => (.empty, s, d, as)
  | some b =>
    let (r, b, io, as) := drainLoop b d.io 0 as
    (r, { s with buf := some b }, { d with io := io }, as)

/-- What a poll gives; `panic` is a failed assertion. -/
inductive Res where
  | pending
  | failed
  | ready
  | panic
  deriving DecidableEq, Repr

/-- The shutdown of the destination, lib.rs:199-201. -/
def pollShutdown (d : Writing) (as : List Answer) : Res × Writing × List Answer :=
  let d := { d with io := { d.io with shutdownAsked := true } }
  match as with
  | [] => (.pending, d, [])
  | .pending :: as => (.pending, d, as)
  | .failed :: as => (.failed, d, as)
  | .ready _ :: as => (.ready, { d with isShutdown := true }, as)

/-- The loop of `copy_into`, lib.rs:144-204. Every round uses up an answer, so the number of answers bounds the rounds:
that is the first argument. -/
def copyLoop : Nat → Bool → Reading → Writing → List Answer → Res × Reading × Writing × List Answer
  | 0, _, s, d, as => (.panic, s, d, as)
  | n + 1, needsFlush, s, d, as =>
    match pollBuffer s as with
    | (.pending, s, as) =>
      if needsFlush then
        match pollFlush s d as with
        | (.failed, s, d, as) => (.failed, s, d, as)
        | (_, s, d, as) => (.pending, s, d, as)
      else (.pending, s, d, as)
    | (.failed, s, as) => (.failed, s, d, as)
    | (.some, s, as) =>
      match drainInto s d as with
      | (.all, s, d, as) => copyLoop n true s d as
      | (.part, s, d, as) =>
        match pollFlush s d as with
        | (.pending, s, d, as) => (.pending, s, d, as)
        | (.failed, s, d, as) => (.failed, s, d, as)
        | (.ready, s, d, as) =>
          match drainInto s d as with
          | (.part, s, d, as) => (.pending, s, d, as)
          | (.failed, s, d, as) => (.failed, s, d, as)
          | (_, s, d, as) => copyLoop n false s d as
      | (.empty, s, d, as) => (.panic, s, d, as)
      | (.failed, s, d, as) => (.failed, s, d, as)
    | (.eof, s, as) =>
      if d.isShutdown then (.panic, s, d, as)
      else
        let (r, d, as) := pollShutdown d as
        (r, s, d, as)

/-- `copy_into`, lib.rs:119-205. -/
def copyInto (s : Reading) (d : Writing) (as : List Answer) : Res × Reading × Writing × List Answer :=
  if d.isShutdown then (.ready, s, d, as)
  else if s.flushing then
    match pollFlush s d as with
    | (.pending, s, d, as) => (.pending, s, d, as)
    | (.failed, s, d, as) => (.failed, s, d, as)
    | (.ready, s, d, as) => copyLoop (as.length + 2) false s d as
  else copyLoop (as.length + 2) false s d as

/-- `Duplex`, lib.rs:22-25. -/
structure Duplex where
  halfIn : HalfDuplex
  halfOut : HalfDuplex
  deriving DecidableEq, Repr

/-- `HalfDuplex::new`, lib.rs:105-113, over a socket from which `sent` can be read. -/
def HalfDuplex.new (sent : Bytes) : HalfDuplex :=
  ⟨⟨some ⟨[], 0⟩, false, ⟨sent, [], false⟩⟩, ⟨false, ⟨[], 0, false, false, false, 0, 0⟩⟩⟩

/-- `Duplex::new`, lib.rs:70-75. -/
def Duplex.new (fromIn fromOut : Bytes) : Duplex := ⟨.new fromIn, .new fromOut⟩

/-- `Duplex::poll`, lib.rs:85-98. -/
def Duplex.poll (x : Duplex) (as : List Answer) : Res × Duplex :=
  match copyInto x.halfIn.r x.halfOut.w as with
  | (.panic, r, w, _) => (.panic, ⟨⟨r, x.halfIn.w⟩, ⟨x.halfOut.r, w⟩⟩)
  | (.failed, r, w, _) => (.failed, ⟨⟨r, x.halfIn.w⟩, ⟨x.halfOut.r, w⟩⟩)
  | (_, r, w, as) =>
    match copyInto x.halfOut.r x.halfIn.w as with
    | (.panic, r', w', _) => (.panic, ⟨⟨r, w'⟩, ⟨r', w⟩⟩)
    | (.failed, r', w', _) => (.failed, ⟨⟨r, w'⟩, ⟨r', w⟩⟩)
    | (_, r', w', _) => (if w'.isShutdown && w.isShutdown then .ready else .pending, ⟨⟨r, w'⟩, ⟨r', w⟩⟩)

/-- The polls of the future until it is done. -/
def Duplex.run (x : Duplex) : List (List Answer) → Res × Duplex
  | [] => (.pending, x)
  | as :: rest =>
    match x.poll as with
    | (.pending, x) => x.run rest
    | done => done

end Verif.Duplex
