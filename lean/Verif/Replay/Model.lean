import Verif.Common.Http

/-!
# Model of `linkerd/http/retry/src/replay.rs` and `replay/buffer.rs`

A `ReplayBody` wraps a request body so that it can be sent again. All clones share one `BodyState`;
the clone being polled owns it and puts it back when it is dropped.

The inner body is an arbitrary script (`List BodyItem`) of answers to `poll_frame`; an exhausted
script answers `None` (end of stream) forever.
-/
namespace Verif.Replay

/-- `Replay` (buffer.rs:18-21): the buffered chunks, oldest first. -/
abbrev Chunks := List Bytes

/-- `BodyState` (replay.rs:67-76). `rest` is what the inner body has still to answer.
Simplification: `usize` is `Nat` (`max_bytes + 1` at line 109 does not overflow). -/
structure BodyState where
  replay : Chunks
  trailers : Option Trailers
  rest : List BodyItem
  isCompleted : Bool
  maxBytes : Nat
  deriving DecidableEq, Repr

/-- `BodyState::is_capped` (replay.rs:360-365). -/
def BodyState.isCapped (s : BodyState) : Bool := s.maxBytes == 0

/-- `Replay::remaining` (buffer.rs:107-109). -/
def remaining (c : Chunks) : Nat := (c.map List.length).sum

/-- `BodyState::record_bytes` (buffer.rs:34-57): account for the chunk; if the limit is now used up
drop the buffer, otherwise append the chunk. The chunk itself is returned unchanged in both cases
(`Data::Initial(bytes)`), so the model returns only the new state. Simplification: the code keeps a buffer that holds
only empty chunks (line 41), which is a buffer without bytes all the same. -/
def BodyState.recordBytes (s : BodyState) (d : Bytes) : BodyState :=
  let max' := s.maxBytes - d.length
  if max' == 0 then
    { s with maxBytes := max', replay := [] }
  else
    { s with maxBytes := max', replay := s.replay ++ [d] }

/-- What a poll (or `is_capped`) tells the caller. `panic` is the `expect("missing body state")` of
`acquire_state` (replay.rs:125-130); `gone` is not a program outcome: the handle was already dropped,
which Rust's ownership rules out. -/
inductive Out where
  | pending
  | data (b : Bytes)
  | trailers (t : Trailers)
  | innerErr (e : String)
  | capped
  | eos
  | panic
  | gone
  | unit
  | isCapped (r : Option Bool)
  deriving DecidableEq, Repr

/-- `ReplayBody` (replay.rs:30-47): one clone. `alive = false` once it has been dropped. -/
structure Handle where
  state : Option BodyState
  replayBody : Bool
  replayTrailers : Bool
  alive : Bool
  deriving DecidableEq, Repr

/-- All clones of one body together with `SharedState::body` (replay.rs:53-65). -/
structure World where
  handles : List Handle
  shared : Option BodyState
  deriving Repr

/-- `ReplayBody::try_new` (replay.rs:91-115). `lower` is the body's declared lower size bound;
`none` stands for handing the body back (`Err(body)`). -/
def tryNew (script : List BodyItem) (lower maxBytes : Nat) : Option World :=
  if lower > maxBytes then none
  else some {
    shared := none
    handles := [{
      state := some { replay := [], trailers := none, rest := script,
                      isCompleted := false, maxBytes := maxBytes + 1 }
      replayBody := false, replayTrailers := false, alive := true }] }

/-- The part of `poll_frame` after the state was acquired (replay.rs:178-249).
Returns the clone's new flags, the new state and the answer. -/
def pollOwned (rb rt : Bool) (s : BodyState) : (Bool × Bool × BodyState) × Out :=
  -- 180-192
  if rb && decide (remaining s.replay > 0) then
    ((false, rt, s), .data s.replay.flatten)
  else if rb && s.isCapped then
    ((rb, rt, s), .capped)
  else
    -- 193-199
    match rt, s.trailers with
    | true, some t => ((rb, false, s), .trailers t)
    | _, _ =>
      let rt := false
      -- 207-209
      if s.isCompleted then ((rb, rt, s), .eos)
      else
        -- 214-249
        match s.rest with
        | [] => ((rb, rt, { s with isCompleted := true }), .eos)
        | .pending :: r => ((rb, rt, { s with rest := r }), .pending)
        | .err e :: r => ((rb, rt, { s with rest := r }), .innerErr e)
        | .frame (.data d) :: r =>
          ((rb, rt, ({ s with rest := r }).recordBytes d), .data d)
        | .frame (.trailers t) :: r =>
          ((rb, rt, { s with rest := r, trailers := some t, isCompleted := true }), .trailers t)
        | .frame .unknown :: r => ((rb, rt, { s with rest := r }), .eos)

/-- `poll_frame` (replay.rs:162-250) with `acquire_state` (125-130): use the owned state, or take the
shared one, or panic. -/
def World.poll (w : World) (i : Nat) : World × Out :=
  match w.handles[i]? with
  | none => (w, .gone)
  | some h =>
    if !h.alive then (w, .gone)
    else
      match h.state, w.shared with
      | some s, _ =>
        let ((rb, rt, s'), o) := pollOwned h.replayBody h.replayTrailers s
        ({ w with handles := w.handles.set i { h with state := some s', replayBody := rb, replayTrailers := rt } }, o)
      | none, some s =>
        let ((rb, rt, s'), o) := pollOwned h.replayBody h.replayTrailers s
        ({ handles := w.handles.set i { h with state := some s', replayBody := rb, replayTrailers := rt },
           shared := none }, o)
      | none, none => (w, .panic)

/-- `Clone for ReplayBody` (replay.rs:310-321). The new clone gets the next index. -/
def World.clone (w : World) (i : Nat) : World × Out :=
  match w.handles[i]? with
  | none => (w, .gone)
  | some h =>
    if !h.alive then (w, .gone)
    else ({ w with handles := w.handles ++
            [{ state := none, replayBody := true, replayTrailers := true, alive := true }] }, .unit)

/-- `Drop for ReplayBody` (replay.rs:323-330). -/
def World.drop (w : World) (i : Nat) : World × Out :=
  match w.handles[i]? with
  | none => (w, .gone)
  | some h =>
    if !h.alive then (w, .gone)
    else
      ({ handles := w.handles.set i { h with state := none, alive := false },
         shared := match h.state with
           | some s => some s
           | none => w.shared }, .unit)

/-- `ReplayBody::is_capped` (replay.rs:140-145). -/
def World.isCapped (w : World) (i : Nat) : World × Out :=
  match w.handles[i]? with
  | none => (w, .gone)
  | some h =>
    if !h.alive then (w, .gone)
    else (w, .isCapped ((h.state.map BodyState.isCapped).or (w.shared.map BodyState.isCapped)))

/-- What users of the body can do. -/
inductive Op where
  | poll (i : Nat)
  | clone (i : Nat)
  | drop (i : Nat)
  | isCapped (i : Nat)
  deriving DecidableEq, Repr

def World.step (w : World) : Op → World × Out
  | .poll i => w.poll i
  | .clone i => w.clone i
  | .drop i => w.drop i
  | .isCapped i => w.isCapped i

/-- Run a schedule, logging each operation with its answer. -/
def run : World → List Op → World × List (Op × Out)
  | w, [] => (w, [])
  | w, op :: ops =>
    let (w', o) := w.step op
    let (w'', log) := run w' ops
    (w'', (op, o) :: log)

/-! ## `is_end_stream` and `size_hint` (replay.rs:262-307) -/

/-- `is_end_stream` (replay.rs:262-283). `wasEmpty` is the initial body's answer at wrapping time
(line 102); `restEos` is what the inner body answers for the given remaining script. -/
def Handle.isEndStream (h : Handle) (wasEmpty : Bool) (restEos : List BodyItem → Bool) : Bool :=
  if wasEmpty then true
  else match h.state with
    | none => false
    | some s => !h.replayBody && !h.replayTrailers && restEos s.rest

/-- `size_hint` (replay.rs:286-307): the lower bound and, if there is one, the upper. `rest` is the inner body's report
for the given remaining script. -/
def Handle.sizeHint (h : Handle) (orig : Nat × Option Nat) (rest : List BodyItem → Nat × Option Nat) :
    Nat × Option Nat :=
  match h.state with
  | none => orig
  | some s => (remaining s.replay + (rest s.rest).1, (rest s.rest).2.map (remaining s.replay + ·))

/-! ## The replay buffer as a `Buf` (buffer.rs:106-177) -/

/-- `Replay::chunk` (buffer.rs:111-113). -/
def chunk (c : Chunks) : Bytes :=
  match c with
  | [] => []
  | b :: _ => b

/-- `Replay::chunks_vectored` (buffer.rs:115-132), for `n` slices: those it fills. Each chunk is a `Bytes`, which fills one
slice if it is not empty and there is one. -/
def chunksVectored : Chunks → Nat → List Bytes
  | _, 0 => []
  | [], _ => []
  | b :: bs, n + 1 => if b = [] then chunksVectored bs (n + 1) else b :: chunksVectored bs n

/-- `Replay::advance` (buffer.rs:134-152). `none` is the index-out-of-bounds panic of `self.bufs[0]`. -/
def advance : Chunks → Nat → Option Chunks
  | c, 0 => some c
  | [], _ + 1 => none
  | b :: bs, n + 1 =>
    if b.length > n + 1 then some (b.drop (n + 1) :: bs)
    else advance bs (n + 1 - b.length)

/-- Outcome of a buffer operation: finished, panicked, or still looping when the fuel ran out. -/
inductive CopyOut where
  | done (got : Bytes) (left : Chunks)
  | panic
  | looping
  deriving DecidableEq, Repr

/-- `buf.put(self.take(len))` (buffer.rs:171-172), the `bytes` crate's `BytesMut::put` loop over
`Take`: while the source has bytes left (at most `len`), append its current chunk (truncated to `len`)
and advance by that many bytes. `fuel` bounds the number of iterations of the loop. -/
def putLoop : Nat → Bytes → Chunks → Nat → CopyOut
  | 0, _, _, _ => .looping
  | fuel + 1, acc, c, len =>
    if min (remaining c) len = 0 then .done acc c
    else
      let s := (chunk c).take len
      match advance c s.length with
      | none => .panic
      | some c' => putLoop fuel (acc ++ s) c' (len - s.length)

/-- `Replay::copy_to_bytes` (buffer.rs:154-176). -/
def copyToBytes (fuel : Nat) (c : Chunks) (len : Nat) : CopyOut :=
  match c with
  | b :: bs =>
    if len ≤ b.length then
      .done (b.take len) (if (b.drop len).length = 0 then bs else b.drop len :: bs)
    else if len ≤ remaining c then putLoop fuel [] c len
    else .panic
  | [] => if len ≤ remaining c then putLoop fuel [] c len else .panic

end Verif.Replay
