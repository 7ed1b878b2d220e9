import Verif.Common.List

/-!
# C18 — endpoint gauges

After any history the pending gauge equals the number of live endpoint services currently pending and the
ready gauge the number currently ready; dropping an endpoint decrements exactly the gauge it was counted
in; neither gauge goes negative.

Models `linkerd/proxy/balance/gauge-endpoints/src/lib.rs`.
-/

namespace Verif.Gauge

/-- What the wrapped service answers to `poll_ready`. -/
inductive Poll where
  | ready
  | pending
  | err
  deriving DecidableEq, Repr

/-- A `GaugeBalancerEndpoint` (gauge-endpoints/src/lib.rs:49–56): its `state`, where `some true` is
`Some(Poll::Ready(()))` and `some false` is `Some(Poll::Pending)`. -/
abbrev Endpoint := Option Bool

/-- The gauges and all the endpoints ever created with them, in order; a dropped one is `none`. -/
structure World where
  ready : Int := 0
  pending : Int := 0
  endpoints : List (Option Endpoint) := []

/-- `poll_ready` (gauge-endpoints/src/lib.rs:141–165) on the state and the gauges. -/
def pollReady (state : Endpoint) (answer : Poll) (ready pending : Int) : Endpoint × Int × Int :=
  match state, answer with
  | some true, .pending => (some false, ready - 1, pending + 1)
  | some false, .ready => (some true, ready + 1, pending - 1)
  | none, .pending => (some false, ready, pending + 1)
  | none, .ready => (some true, ready + 1, pending)
  | s, _ => (s, ready, pending)

/-- `Drop` (gauge-endpoints/src/lib.rs:173–182). -/
def dropped (state : Endpoint) (ready pending : Int) : Int × Int :=
  match state with
  | some true => (ready - 1, pending)
  | some false => (ready, pending - 1)
  | none => (ready, pending)

/-- What can happen. `i` is the number of an endpoint, in order of creation. -/
inductive Op where
  | create
  | poll (i : Nat) (answer : Poll)
  | drop (i : Nat)
  deriving DecidableEq, Repr

/-- One event: `new_service` (gauge-endpoints/src/lib.rs:120–128), `poll_ready`, `drop`. -/
def World.step (w : World) : Op → World
  | .create => { w with endpoints := w.endpoints ++ [some none] }
  | .poll i a =>
    match w.endpoints[i]? with
    | some (some s) =>
      { ready := (pollReady s a w.ready w.pending).2.1
        pending := (pollReady s a w.ready w.pending).2.2
        endpoints := w.endpoints.set i (some (pollReady s a w.ready w.pending).1) }
    | _ => w
  | .drop i =>
    match w.endpoints[i]? with
    | some (some s) =>
      { ready := (dropped s w.ready w.pending).1
        pending := (dropped s w.ready w.pending).2
        endpoints := w.endpoints.set i none }
    | _ => w

/-- A history. -/
def World.run (ops : List Op) : World := ops.foldl World.step {}

/-! ### Specification -/

/-- What the history says of an endpoint. -/
inductive Status where
  | absent
  | live (last : Option Poll)
  | gone
  deriving DecidableEq, Repr

/-- The status of endpoint `i`: live between its creation and its drop, with the last answer that was not an
error. The first component counts creations. -/
def status (i : Nat) (ops : List Op) : Nat × Status :=
  ops.foldl (fun s o => match o with
    | .create => (s.1 + 1, if s.1 = i then .live none else s.2)
    | .poll j a => (s.1, match s.2 with
        | .live last => if j = i ∧ a ≠ .err then .live (some a) else .live last
        | x => x)
    | .drop j => (s.1, match s.2 with
        | .live last => if j = i then .gone else .live last
        | x => x)) (0, .absent)

/-- The number of live endpoints whose last answer was `a`. -/
def number (a : Poll) (ops : List Op) : Nat :=
  ((List.range (ops.countP (· = .create))).filter (fun i => (status i ops).2 = .live (some a))).length

/-! ### Proof -/

/-- Status of an entry. -/
def toStatus : Option (Option Endpoint) → Status
  | none => .absent
  | some none => .gone
  | some (some none) => .live none
  | some (some (some true)) => .live (some .ready)
  | some (some (some false)) => .live (some .pending)

def isReady (e : Option Endpoint) : Nat := if e = some (some true) then 1 else 0
def isPending (e : Option Endpoint) : Nat := if e = some (some false) then 1 else 0

structure Inv (w : World) : Prop where
  ready : w.ready = ((w.endpoints.map isReady).sum : Nat)
  pending : w.pending = ((w.endpoints.map isPending).sum : Nat)

theorem step_inv {w : World} (h : Inv w) (o : Op) : Inv (w.step o) := by
  have hr := h.ready
  have hp := h.pending
  cases o with
  | create =>
    simp only [World.step]
    constructor
    · simp [hr, isReady]
    · simp [hp, isPending]
  | poll i a =>
    simp only [World.step]
    split
    · rename_i s hs
      have h1 := sum_set isReady w.endpoints i (some s) (some (pollReady s a w.ready w.pending).1) hs
      have h2 := sum_set isPending w.endpoints i (some s) (some (pollReady s a w.ready w.pending).1) hs
      constructor
      · simp only
        rcases s with _ | _ | _ <;> cases a <;> simp [pollReady, isReady] at h1 ⊢ <;> omega
      · simp only
        rcases s with _ | _ | _ <;> cases a <;> simp [pollReady, isPending] at h2 ⊢ <;> omega
    · exact h
  | drop i =>
    simp only [World.step]
    split
    · rename_i s hs
      have h1 := sum_set isReady w.endpoints i (some s) none hs
      have h2 := sum_set isPending w.endpoints i (some s) none hs
      constructor
      · simp only
        rcases s with _ | _ | _ <;> simp [dropped, isReady] at h1 ⊢ <;> omega
      · simp only
        rcases s with _ | _ | _ <;> simp [dropped, isPending] at h2 ⊢ <;> omega
    · exact h

theorem run_snoc (ops : List Op) (o : Op) : World.run (ops ++ [o]) = (World.run ops).step o := by
  simp [World.run, List.foldl_append]

theorem run_inv (ops : List Op) : Inv (World.run ops) := by
  induction ops using snoc_induction with
  | nil => exact ⟨rfl, rfl⟩
  | snoc ops o ih => rw [run_snoc]; exact step_inv ih o

theorem status_eq (i : Nat) (ops : List Op) :
    status i ops = ((World.run ops).endpoints.length, toStatus ((World.run ops).endpoints[i]?)) := by
  induction ops using snoc_induction with
  | nil => rfl
  | snoc ops o ih =>
    have hs : status i (ops ++ [o]) = (match o with
      | .create => ((status i ops).1 + 1, if (status i ops).1 = i then .live none else (status i ops).2)
      | .poll j a => ((status i ops).1, match (status i ops).2 with
        | .live last => if j = i ∧ a ≠ .err then .live (some a) else .live last
        | x => x)
      | .drop j => ((status i ops).1, match (status i ops).2 with
        | .live last => if j = i then .gone else .live last
        | x => x)) := by
      simp only [status, List.foldl_append, List.foldl_cons, List.foldl_nil]
      cases o <;> rfl
    rw [hs, run_snoc, ih]
    generalize World.run ops = w
    cases o with
    | create =>
      simp only [World.step, List.length_append, List.length_singleton]
      congr 1
      by_cases h : w.endpoints.length = i
      · subst h; simp [toStatus]
      · rw [if_neg h]
        by_cases hlt : i < w.endpoints.length
        · rw [List.getElem?_append_left hlt]
        · have h1 : w.endpoints[i]? = none := List.getElem?_eq_none (by omega)
          have h2 : (w.endpoints ++ [some none])[i]? = none :=
            List.getElem?_eq_none (by rw [List.length_append, List.length_singleton]; omega)
          rw [h1, h2]
    | poll j a =>
      simp only [World.step]
      cases he : w.endpoints[j]? with
      | none =>
        simp only
        congr 1
        by_cases hij : j = i
        · subst hij; rw [he]; rfl
        · simp only [hij, false_and, if_false]
          cases toStatus w.endpoints[i]? <;> rfl
      | some e =>
        cases e with
        | none =>
          simp only
          congr 1
          by_cases hij : j = i
          · subst hij; rw [he]; rfl
          · simp only [hij, false_and, if_false]
            cases toStatus w.endpoints[i]? <;> rfl
        | some s =>
          simp only [List.length_set]
          congr 1
          by_cases hij : j = i
          · subst hij
            rw [he, List.getElem?_set_self (lt_of_getElem?_some he)]
            rcases s with _ | _ | _ <;> cases a <;> simp [toStatus, pollReady]
          · rw [List.getElem?_set_ne hij]
            simp only [hij, false_and, if_false]
            cases toStatus w.endpoints[i]? <;> rfl
    | drop j =>
      simp only [World.step]
      cases he : w.endpoints[j]? with
      | none =>
        simp only
        congr 1
        by_cases hij : j = i
        · subst hij; rw [he]; rfl
        · simp only [hij, if_false]
          cases toStatus w.endpoints[i]? <;> rfl
      | some e =>
        cases e with
        | none =>
          simp only
          congr 1
          by_cases hij : j = i
          · subst hij; rw [he]; rfl
          · simp only [hij, if_false]
            cases toStatus w.endpoints[i]? <;> rfl
        | some s =>
          simp only [List.length_set]
          congr 1
          by_cases hij : j = i
          · subst hij
            rw [he, List.getElem?_set_self (lt_of_getElem?_some he)]
            rcases s with _ | _ | _ <;> simp [toStatus]
          · rw [List.getElem?_set_ne hij]
            simp only [hij, if_false]
            cases toStatus w.endpoints[i]? <;> rfl

theorem created (ops : List Op) : ops.countP (· = .create) = (World.run ops).endpoints.length := by
  induction ops using snoc_induction with
  | nil => rfl
  | snoc ops o ih =>
    rw [run_snoc, List.countP_append, ih]
    cases o with
    | create => simp [World.step]
    | poll i a => simp only [World.step]; split <;> simp
    | drop i => simp only [World.step]; split <;> simp

theorem count_range (l : List (Option Endpoint)) (p : Option (Option Endpoint) → Bool) (f : Option Endpoint → Nat)
    (h : ∀ a, f a = if p (some a) then 1 else 0) :
    ((List.range l.length).filter (fun i => p l[i]?)).length = (l.map f).sum := by
  induction l using snoc_induction with
  | nil => rfl
  | snoc l a ih =>
    rw [List.length_append, List.length_singleton, List.range_succ, List.filter_append, List.length_append]
    have : (List.range l.length).filter (fun i => p (l ++ [a])[i]?) = (List.range l.length).filter (fun i => p l[i]?) := by
      apply List.filter_congr
      intro i hi
      rw [List.getElem?_append_left (by simpa using hi)]
    rw [this, ih]
    simp only [List.map_append, List.sum_append, List.map_cons, List.map_nil, List.sum_cons, List.sum_nil, h a,
      List.filter_cons, List.filter_nil]
    simp
    split <;> simp

theorem number_eq (a : Poll) (ops : List Op) (f : Option Endpoint → Nat)
    (h : ∀ e, f e = if toStatus (some e) = .live (some a) then 1 else 0) :
    number a ops = ((World.run ops).endpoints.map f).sum := by
  unfold number
  rw [created]
  simp only [status_eq]
  exact count_range _ (fun e => decide (toStatus e = .live (some a))) f (by simpa using h)

/-- The ready gauge is the number of live endpoints that last answered ready, the pending gauge that of
those that last answered pending. -/
theorem C18_gauges_count_endpoints (ops : List Op) :
    (World.run ops).ready = number .ready ops ∧ (World.run ops).pending = number .pending ops := by
  have h := run_inv ops
  constructor
  · rw [h.ready, number_eq .ready ops isReady]
    intro e
    rcases e with _ | _ | _ | _ <;> rfl
  · rw [h.pending, number_eq .pending ops isPending]
    intro e
    rcases e with _ | _ | _ | _ <;> rfl

/-- No gauge is ever negative. -/
theorem C18_gauges_are_never_negative (ops : List Op) : 0 ≤ (World.run ops).ready ∧ 0 ≤ (World.run ops).pending := by
  have := C18_gauges_count_endpoints ops
  omega

/-- Dropping an endpoint takes one off the gauge it was counted in, and off no other. -/
theorem C18_drop_decrements_its_gauge (ops : List Op) (i : Nat) :
    let w := World.run ops
    let w' := World.run (ops ++ [.drop i])
    match (status i ops).2 with
    | .live (some .ready) => w'.ready = w.ready - 1 ∧ w'.pending = w.pending
    | .live (some .pending) => w'.ready = w.ready ∧ w'.pending = w.pending - 1
    | _ => w'.ready = w.ready ∧ w'.pending = w.pending := by
  intro w w'
  have hw' : w' = w.step (.drop i) := run_snoc ops _
  rw [hw', status_eq]
  simp only [World.step]
  show match toStatus w.endpoints[i]? with | _ => _
  cases he : w.endpoints[i]? with
  | none => simp [toStatus]
  | some e => rcases e with _ | _ | _ | _ <;> simp [toStatus, dropped]

/-- When every endpoint has been dropped both gauges are zero. -/
theorem C18_gauges_return_to_zero (ops : List Op) (h : ∀ i last, (status i ops).2 ≠ .live last) :
    (World.run ops).ready = 0 ∧ (World.run ops).pending = 0 := by
  have := C18_gauges_count_endpoints ops
  have hz : ∀ a, number a ops = 0 := by
    intro a
    unfold number
    rw [List.length_eq_zero_iff, List.filter_eq_nil_iff]
    intro i _
    simp [h i (some a)]
  rw [this.1, this.2, hz, hz]
  simp

/-- Three endpoints: one ready, one pending, one never polled; the ready one is dropped. -/
example :
    let ops := [.create, .create, .create, .poll 0 .pending, .poll 0 .ready, .poll 1 .pending, .poll 0 .err]
    (World.run ops).ready = 1 ∧ (World.run ops).pending = 1 ∧ (status 0 ops).2 = .live (some .ready) ∧
    (status 2 ops).2 = .live none ∧ (World.run (ops ++ [.drop 0])).ready = 0 := by decide +kernel

end Verif.Gauge
