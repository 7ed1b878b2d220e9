import Verif.Load.Ewma

/-!
# The load of an endpoint

Models the measuring side of `linkerd/load-biaser/src/lib.rs`: handles of requests in flight, their
measurement on drop, and the load metric.  The penalty of a failed response is modelled and bounded in
`Verif.RetryAfter`; here it is any duration.  The strong count of the shared state (line 415) is modelled as the
number of live handles; the `u32` conversions are exact.
-/

namespace Verif.Load

/-- A `Handle` (load-biaser/src/lib.rs:318–322) of a request. -/
structure Handle where
  id : ℕ
  sentAt : ℕ

/-- A `LoadBiaser` (load-biaser/src/lib.rs:294–299), with the clock. -/
structure World where
  rtt : Ewma
  handles : List Handle
  now : ℕ

/-- `with_completion` (load-biaser/src/lib.rs:359–380). -/
noncomputable def World.init (decay defaultRtt now : ℕ) : World :=
  { rtt := Ewma.newWithValue decay now (secs defaultRtt), handles := [], now }

/-- What happens to an endpoint. -/
inductive Op where
  /-- Time passes. -/
  | tick (d : ℕ)
  /-- A request is sent (`call`). -/
  | call (id : ℕ)
  /-- A request ends without penalty: its response completed, it failed in transport or was cancelled. -/
  | done (id : ℕ)
  /-- A request is answered with a failure that carries this penalty, in nanoseconds. -/
  | failed (id : ℕ) (penalty : ℕ)

/-- The projected round-trip time; the estimate of an endpoint is never infinite (`World.init`). -/
noncomputable def World.estimate (w : World) : ℝ := (w.rtt.getAt w.now).getD 0

/-- `Handle::drop` without a penalty (load-biaser/src/lib.rs:328–336). -/
noncomputable def World.measure (w : World) (h : Handle) : World :=
  { w with rtt := w.rtt.addPeak (secs (w.now - h.sentAt)) w.now }

/-- `Handle::drop` with a penalty (load-biaser/src/lib.rs:328–336). -/
noncomputable def World.penalise (w : World) (penalty : ℕ) : World :=
  { w with rtt := w.rtt.addPeak (max (secs penalty) w.estimate) w.now }

/-- One event. `call` (load-biaser/src/lib.rs:449–456); the end of a response (513–552) drops the handle, at
once for a failure or an error, on completion for a success. An event for a request that is not in
flight cannot happen and changes nothing. -/
noncomputable def World.step (w : World) : Op → World
  | .tick d => { w with now := w.now + d }
  | .call id => { w with handles := w.handles ++ [⟨id, w.now⟩] }
  | .done id =>
    match w.handles.find? (fun h => h.id == id) with
    | none => w
    | some h => { w.measure h with handles := w.handles.eraseP (fun h => h.id == id) }
  | .failed id p =>
    match w.handles.find? (fun h => h.id == id) with
    | none => w
    | some _ => { w.penalise p with handles := w.handles.eraseP (fun h => h.id == id) }

/-- A history. -/
noncomputable def World.run (w : World) (ops : List Op) : World := ops.foldl World.step w

/-- `load` (load-biaser/src/lib.rs:413–432). -/
noncomputable def World.load (w : World) : ℝ := w.estimate * ((w.handles.length : ℝ) + 1)

end Verif.Load
