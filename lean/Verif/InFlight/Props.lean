import Verif.InFlight.Model
import Verif.RetryAfter.Props
import Verif.Load.Props
import Verif.Common.List

/-! # C113: the requests that count against an endpoint -/

namespace Verif.InFlight

/-! ### Specification -/

/-- What has become of a request, as its caller can tell: it was not sent yet, it waits for its response, it has
a response of which nothing was read, it is settled, or its caller is done with it. -/
inductive Status where
  | unsent
  | waiting
  | unread
  | settled
  | over
  deriving DecidableEq, Repr

/-- Does a response tell the endpoint's trouble? (`C16_penalised_responses` says which do.) -/
def troubled (cfg : Config) (r : RetryAfter.Response) (now : Nat) : Bool :=
  (RetryAfter.penalty cfg.date now cfg.penaltyMs cfg.maxDuration r).isSome

/-- What an operation makes of the status of request `id`, if `n` requests were sent before. -/
def Status.see (cfg : Config) (id n : Nat) : Status → Op → Status
  | .unsent, .call => if n = id then .waiting else .unsent
  | .waiting, .poll i .err _ => if i = id then .over else .waiting
  | .waiting, .poll i (.response r e) now =>
    if i = id then (if troubled cfg r now || e then .settled else .unread) else .waiting
  | .unread, .frame i f => if i = id ∧ f ≠ .pending then .settled else .unread
  | .waiting, .drop i => if i = id then .over else .waiting
  | .unread, .drop i => if i = id then .over else .unread
  | .settled, .drop i => if i = id then .over else .settled
  | s, _ => s

/-- Is a request sent? -/
def Op.isCall : Op → Bool
  | .call => true
  | _ => false

/-- How many requests are sent in a history. -/
def sentIn (ops : List Op) : Nat := (ops.filter Op.isCall).length

/-- The status of a request after a history. -/
def status (cfg : Config) (id : Nat) (ops : List Op) : Status := go .unsent 0 ops
where
  go (s : Status) (n : Nat) : List Op → Status
    | [] => s
    | o :: os => go (s.see cfg id n o) (n + sentIn [o]) os

/-- A request counts from when it is sent until something of its response was read, or is known to come to nothing. -/
def Status.counts : Status → Bool
  | .waiting | .unread => true
  | _ => false

/-- The time that passes in a history. -/
def clock (ops : List Op) : Nat := (ops.map fun o => match o with | .tick d => d | _ => 0).sum

/-- When a request was sent. -/
def sentAt (id : Nat) (ops : List Op) : Nat := go 0 0 ops
where
  go (t n : Nat) : List Op → Nat
    | [] => t
    | .call :: os => if n = id then t else go t (n + 1) os
    | .tick d :: os => go (t + d) n os
    | _ :: os => go t n os

/-- The requests that count, in the order in which they were sent. -/
def counting (cfg : Config) (ops : List Op) : List Nat :=
  (List.range (sentIn ops)).filter fun id => (status cfg id ops).counts

/-- How the load was told that a request is over. -/
def measured (id : Nat) (load : List Load.Op) : List Load.Op :=
  load.filter fun o => match o with | .done i => i == id | .failed i _ => i == id | _ => false

/-! ### Proofs -/

variable (cfg : Config)

theorem after_snoc (ops : List Op) (o : Op) : after cfg (ops ++ [o]) = (after cfg ops).step cfg o := by
  simp [after, List.foldl_append]

@[simp] theorem sentIn_tick (d : Nat) : sentIn [.tick d] = 0 := rfl
@[simp] theorem sentIn_call : sentIn [.call] = 1 := rfl
@[simp] theorem sentIn_poll (i : Nat) (a : Answer) (n : Nat) : sentIn [.poll i a n] = 0 := rfl
@[simp] theorem sentIn_frame (i : Nat) (f : Frame) : sentIn [.frame i f] = 0 := rfl
@[simp] theorem sentIn_drop (i : Nat) : sentIn [.drop i] = 0 := rfl

theorem sentIn_snoc (ops : List Op) (o : Op) : sentIn (ops ++ [o]) = sentIn ops + sentIn [o] := by
  simp [sentIn, List.filter_append]

theorem status_snoc (id : Nat) (ops : List Op) (o : Op) :
    status cfg id (ops ++ [o]) = (status cfg id ops).see cfg id (sentIn ops) o := by
  have : ∀ (s : Status) n, status.go cfg id s n (ops ++ [o]) = (status.go cfg id s n ops).see cfg id (n + sentIn ops) o := by
    induction ops with
    | nil => intro s n; simp [status.go, sentIn]
    | cons x xs ih =>
      intro s n
      have : sentIn (x :: xs) = sentIn [x] + sentIn xs := by
        simp only [sentIn, List.filter_cons]; cases x.isCall <;> simp [Nat.add_comm]
      simp only [List.cons_append, status.go, ih, this, Nat.add_assoc]
  simpa [status] using this .unsent 0

/-- What the stage of a request is. -/
def Status.stage : Status → Option Stage
  | .unsent => none
  | .waiting => some .waiting
  | .unread => some (.reading true)
  | .settled => some (.reading false)
  | .over => some .gone

theorem act_get (w : World) (id i : Nat) (f : Stage → Stage × Effect) :
    (w.act i f).requests[id]? = if i = id then (w.requests[id]?).map (fun s => (f s).1) else w.requests[id]? := by
  unfold World.act
  cases h : w.requests[i]? with
  | none =>
    dsimp only
    split
    · rename_i e; subst e; rw [h]; rfl
    · rfl
  | some s =>
    dsimp only
    rw [List.getElem?_set]
    split
    · rename_i e; subst e
      rw [h, if_pos (lt_of_getElem?_some h)]; rfl
    · rfl

theorem act_length (w : World) (i : Nat) (f : Stage → Stage × Effect) : (w.act i f).requests.length = w.requests.length := by
  unfold World.act; split <;> simp

theorem length_after (ops : List Op) : (after cfg ops).requests.length = sentIn ops := by
  induction ops using snoc_induction with
  | nil => rfl
  | snoc ops o ih =>
    rw [after_snoc, sentIn_snoc, ← ih]
    cases o <;> simp [World.step, act_length]

/-- Each request's stage is its status. -/
theorem stage_status (id : Nat) (ops : List Op) : (after cfg ops).requests[id]? = (status cfg id ops).stage := by
  induction ops using snoc_induction with
  | nil => rfl
  | snoc ops o ih =>
    rw [after_snoc, status_snoc]
    have hl := length_after cfg ops
    generalize status cfg id ops = s at ih
    generalize after cfg ops = w at ih hl
    cases o with
    | tick d => cases s <;> exact ih
    | call =>
      simp only [World.step, List.getElem?_append]
      have hlt : ∀ st, w.requests[id]? = some st → id < w.requests.length := fun st h => lt_of_getElem?_some h
      cases s with
      | unsent =>
        have hge : ¬ id < w.requests.length := by
          intro h
          rw [List.getElem?_eq_getElem h] at ih
          cases ih
        rw [if_neg hge, ← hl]
        simp only [Status.see]
        by_cases he : w.requests.length = id
        · rw [if_pos he, he, Nat.sub_self]; rfl
        · rw [if_neg he]
          have : id - w.requests.length ≠ 0 := by omega
          obtain ⟨k, hk⟩ := Nat.exists_eq_succ_of_ne_zero this
          rw [hk]; rfl
      | waiting => rw [if_pos (hlt _ ih)]; exact ih
      | unread => rw [if_pos (hlt _ ih)]; exact ih
      | settled => rw [if_pos (hlt _ ih)]; exact ih
      | over => rw [if_pos (hlt _ ih)]; exact ih
    | poll i a now =>
      simp only [World.step, act_get, ih]
      cases s <;> cases a <;> simp only [Status.see, Status.stage, Option.map_none, Option.map_some, Stage.poll, ite_self] <;>
        (try split) <;> (try rfl)
      rename_i r e he
      unfold troubled
      cases RetryAfter.penalty cfg.date now cfg.penaltyMs cfg.maxDuration r with
      | some p => rfl
      | none => cases e <;> rfl
    | frame i f =>
      simp only [World.step, act_get, ih]
      cases s <;> cases f <;> simp only [Status.see, Status.stage, Option.map_none, Option.map_some, Stage.frame, ite_self] <;>
        (try split) <;> (try rfl) <;> simp_all
    | drop i =>
      simp only [World.step, act_get, ih]
      cases s <;> simp only [Status.see, Status.stage, Option.map_none, Option.map_some, Stage.drop, ite_self] <;>
        (try split) <;> (try rfl)

theorem sentIn_cons (x : Op) (xs : List Op) : sentIn (x :: xs) = sentIn [x] + sentIn xs := by
  simp only [sentIn, List.filter_cons]; cases x.isCall <;> simp [Nat.add_comm]

theorem clock_snoc (ops : List Op) (o : Op) : clock (ops ++ [o]) = clock ops + clock [o] := by
  simp [clock]

/-- A request that was sent has been sent when it was. -/
theorem sentAt_snoc (id : Nat) (ops : List Op) (o : Op) (h : id < sentIn ops) : sentAt id (ops ++ [o]) = sentAt id ops := by
  have : ∀ t n, n ≤ id → id < n + sentIn ops → sentAt.go id t n (ops ++ [o]) = sentAt.go id t n ops := by
    clear h
    induction ops with
    | nil => intro t n h1 h2; simp [sentIn] at h2; omega
    | cons x xs ih =>
      intro t n h1 h2
      rw [sentIn_cons] at h2
      cases x with
      | call =>
        simp only [List.cons_append, sentAt.go]
        split
        · rfl
        · refine ih t (n + 1) (by omega) ?_
          simp at h2 ⊢; omega
      | tick d => exact ih (t + d) n h1 (by simpa using h2)
      | poll _ _ _ => exact ih t n h1 (by simpa using h2)
      | frame _ _ => exact ih t n h1 (by simpa using h2)
      | drop _ => exact ih t n h1 (by simpa using h2)
  exact this 0 0 (Nat.zero_le _) (by omega)

/-- A request is sent now. -/
theorem sentAt_call (ops : List Op) : sentAt (sentIn ops) (ops ++ [.call]) = clock ops := by
  have : ∀ t n, sentAt.go (n + sentIn ops) t n (ops ++ [.call]) = t + clock ops := by
    induction ops with
    | nil => intro t n; simp [sentAt.go, sentIn, clock]
    | cons x xs ih =>
      intro t n
      rw [sentIn_cons]
      cases x with
      | call =>
        have h := ih t (n + 1)
        simp only [List.cons_append, sentAt.go]
        rw [if_neg (by simp)]
        rw [show n + (sentIn [Op.call] + sentIn xs) = n + 1 + sentIn xs by simp; omega, h]
        simp [clock]
      | tick d =>
        have h := ih (t + d) n
        simp only [List.cons_append, sentAt.go]
        rw [show n + (sentIn [Op.tick d] + sentIn xs) = n + sentIn xs by simp, h]
        simp [clock]; omega
      | poll a b c =>
        have h := ih t n
        simp only [List.cons_append, sentAt.go]
        rw [show n + (sentIn [Op.poll a b c] + sentIn xs) = n + sentIn xs by simp, h]
        simp [clock]
      | frame a b =>
        have h := ih t n
        simp only [List.cons_append, sentAt.go]
        rw [show n + (sentIn [Op.frame a b] + sentIn xs) = n + sentIn xs by simp, h]
        simp [clock]
      | drop a =>
        have h := ih t n
        simp only [List.cons_append, sentAt.go]
        rw [show n + (sentIn [Op.drop a] + sentIn xs) = n + sentIn xs by simp, h]
        simp [clock]
  simpa [sentAt] using this 0 0

/-- A request was sent if there were so many. -/
theorem unsent_iff (id : Nat) (ops : List Op) : status cfg id ops = .unsent ↔ sentIn ops ≤ id := by
  have h := stage_status cfg id ops
  rw [← length_after cfg ops]
  cases hs : status cfg id ops <;> rw [hs] at h
  · simpa [Status.stage] using h
  all_goals
    have := lt_of_getElem?_some h
    simp; omega

/-- What a step of a request does. -/
def Op.act (cfg : Config) : Op → Option (Nat × (Stage → Stage × Effect))
  | .poll id a now => some (id, Stage.poll cfg a now)
  | .frame id f => some (id, Stage.frame f)
  | .drop id => some (id, Stage.drop)
  | _ => none

/-- What is left of a status after its request ended. -/
theorem effect_counts (id n : Nat) (o : Op) (f : Stage → Stage × Effect) (h : o.act cfg = some (id, f)) (s : Status) (st : Stage)
    (hs : s.stage = some st) :
    (s.see cfg id n o).counts = (s.counts && ((f st).2 == .keep)) ∧ ((f st).2 ≠ .keep → s.counts = true) := by
  cases o with
  | tick | call => cases h
  | poll i a now =>
    cases h
    cases s <;> cases hs <;> cases a <;> simp [Status.see, Status.counts, Stage.poll]
    rename_i r e
    unfold troubled
    cases RetryAfter.penalty cfg.date now cfg.penaltyMs cfg.maxDuration r <;> cases e <;> simp
  | frame i f =>
    cases h
    cases s <;> cases hs <;> cases f <;> simp [Status.see, Status.counts, Stage.frame]
  | drop i =>
    cases h
    cases s <;> cases hs <;> simp [Status.see, Status.counts, Stage.drop]

/-- A step of a request says nothing of the others. -/
theorem see_other (id i n : Nat) (o : Op) (f : Stage → Stage × Effect) (h : o.act cfg = some (i, f)) (hi : i ≠ id) (s : Status) :
    s.see cfg id n o = s := by
  cases o with
  | tick | call => cases h
  | poll i a now => cases h; cases s <;> cases a <;> simp [Status.see, hi]
  | frame i f => cases h; cases s <;> simp [Status.see, hi]
  | drop i => cases h; cases s <;> simp [Status.see, hi]

theorem see_tick (id n d : Nat) (s : Status) : s.see cfg id n (.tick d) = s := by cases s <;> rfl

theorem counting_nodup (ops : List Op) : (counting cfg ops).Nodup := List.nodup_range.filter _

theorem counting_act (ops : List Op) (o : Op) (i : Nat) (f : Stage → Stage × Effect) (h : o.act cfg = some (i, f)) :
    counting cfg (ops ++ [o]) =
      match (after cfg ops).requests[i]? with
      | some st => if (f st).2 = .keep then counting cfg ops else (counting cfg ops).filter (fun j => j != i)
      | none => counting cfg ops := by
  have hsent : sentIn (ops ++ [o]) = sentIn ops := by
    rw [sentIn_snoc]; cases o <;> cases h <;> rfl
  have hother : ∀ id, i ≠ id → (status cfg id (ops ++ [o])).counts = (status cfg id ops).counts := by
    intro id hi; rw [status_snoc, see_other cfg id i _ o f h hi]
  unfold counting
  rw [hsent]
  cases hg : (after cfg ops).requests[i]? with
  | none =>
    refine List.filter_congr fun id hid => hother id ?_
    rintro rfl
    rw [stage_status] at hg
    have : status cfg i ops = .unsent := by cases hs : status cfg i ops <;> rw [hs] at hg <;> first | rfl | cases hg
    have := (unsent_iff cfg i ops).1 this
    have := List.mem_range.1 hid
    omega
  | some st =>
    have hst : (status cfg i ops).stage = some st := by rw [← stage_status]; exact hg
    obtain ⟨h1, h2⟩ := effect_counts cfg i (sentIn ops) o f h _ st hst
    dsimp only
    split
    · rename_i hk
      refine List.filter_congr fun id _ => ?_
      by_cases hi : i = id
      · subst hi
        rw [status_snoc, h1, hk]; simp
      · exact hother id hi
    · rename_i hk
      rw [List.filter_filter]
      refine List.filter_congr fun id _ => ?_
      by_cases hi : i = id
      · subst hi
        rw [status_snoc, h1, beq_false_of_ne hk]; simp
      · rw [hother id hi, show (id != i) = true by simpa using Ne.symm hi]; simp

theorem counting_tick (ops : List Op) (d : Nat) : counting cfg (ops ++ [.tick d]) = counting cfg ops := by
  unfold counting
  rw [sentIn_snoc]
  exact List.filter_congr fun id _ => by rw [status_snoc, see_tick]

theorem counting_call (ops : List Op) : counting cfg (ops ++ [.call]) = counting cfg ops ++ [sentIn ops] := by
  unfold counting
  rw [sentIn_snoc, show sentIn [Op.call] = 1 from rfl, List.range_succ, List.filter_append]
  congr 1
  · refine List.filter_congr fun id hid => ?_
    have hid := List.mem_range.1 hid
    rw [status_snoc]
    cases hs : status cfg id ops
    · have := (unsent_iff cfg id ops).1 hs; omega
    all_goals rfl
  · have : status cfg (sentIn ops) ops = .unsent := (unsent_iff cfg _ ops).2 (Nat.le_refl _)
    rw [List.filter_cons, status_snoc, this]
    simp [Status.see, Status.counts]

theorem flights_snoc (now : Nat) (l : List Load.Op) (o : Load.Op) :
    Load.flights now (l ++ [o]) = match o with
      | .tick d => ((Load.flights now l).1, (Load.flights now l).2 + d)
      | .call id => ((Load.flights now l).1 ++ [(id, (Load.flights now l).2)], (Load.flights now l).2)
      | .done id => ((Load.flights now l).1.eraseP (fun h => h.1 == id), (Load.flights now l).2)
      | .failed id _ => ((Load.flights now l).1.eraseP (fun h => h.1 == id), (Load.flights now l).2) := by
  unfold Load.flights
  rw [List.foldl_append]
  cases o <;> rfl

theorem eraseP_map (l : List Nat) (g : Nat → Nat) (i : Nat) (hn : l.Nodup) :
    (l.map fun id => (id, g id)).eraseP (fun h => h.1 == i) = (l.filter fun j => j != i).map fun id => (id, g id) := by
  induction l with
  | nil => rfl
  | cons x xs ih =>
    have hn' := List.nodup_cons.1 hn
    simp only [List.map_cons, List.filter_cons]
    by_cases h : x = i
    · subst h
      rw [List.eraseP_cons_of_pos (by simp)]
      simp only [bne_self_eq_false, Bool.false_eq_true, if_false]
      rw [List.filter_eq_self.2]
      intro j hj
      simp only [bne_iff_ne, ne_eq]
      rintro rfl; exact hn'.1 hj
    · rw [List.eraseP_cons_of_neg (by simpa using h), ih hn'.2]
      simp [h]

theorem counting_lt {ops : List Op} {id : Nat} (h : id ∈ counting cfg ops) : id < sentIn ops := by
  unfold counting at h
  exact List.mem_range.1 (List.mem_filter.1 h).1

/-- What is in flight according to the load. -/
theorem flights_after (now : Nat) (ops : List Op) :
    Load.flights now (after cfg ops).load =
      ((counting cfg ops).map fun id => (id, now + sentAt id ops), now + clock ops) := by
  induction ops using snoc_induction with
  | nil => rfl
  | snoc ops o ih =>
    have hmap : ∀ l : List Nat, (∀ id ∈ l, id < sentIn ops) →
        (l.map fun id => (id, now + sentAt id (ops ++ [o]))) = l.map fun id => (id, now + sentAt id ops) := by
      intro l hl
      exact List.map_congr_left fun id hid => by rw [sentAt_snoc id ops o (hl id hid)]
    rw [after_snoc]
    cases ho : o.act cfg with
    | none =>
      cases o with
      | tick d =>
        simp only [World.step]
        rw [flights_snoc, ih, counting_tick, hmap _ (fun id h => counting_lt cfg h), clock_snoc]
        simp [clock, Nat.add_assoc]
      | call =>
        simp only [World.step]
        rw [flights_snoc, ih, counting_call, List.map_append, hmap _ (fun id h => counting_lt cfg h), clock_snoc,
          length_after, List.map_singleton, sentAt_call]
        simp [clock]
      | poll | frame | drop => cases ho
    | some p =>
      obtain ⟨i, f⟩ := p
      have hc := counting_act cfg ops o i f ho
      have hcl : clock [o] = 0 := by cases o <;> cases ho <;> rfl
      have hstep : (after cfg ops).step cfg o = (after cfg ops).act i f := by cases o <;> cases ho <;> rfl
      rw [hstep, clock_snoc, hcl, hmap _ (fun id h => by
        have := counting_lt cfg h
        have hs : sentIn (ops ++ [o]) = sentIn ops := by
          rw [sentIn_snoc]; cases o <;> cases ho <;> rfl
        omega), hc]
      unfold World.act
      cases hg : (after cfg ops).requests[i]? with
      | none => simpa using ih
      | some st =>
        dsimp only
        cases he : (f st).2 with
        | keep => simpa [Effect.ops] using ih
        | release =>
          simp only [Effect.ops, flights_snoc, ih, eraseP_map _ _ _ (counting_nodup cfg ops)]
          simp
        | penalise q =>
          simp only [Effect.ops, flights_snoc, ih, eraseP_map _ _ _ (counting_nodup cfg ops)]
          simp

/-! ### Theorems -/

/-- **A request counts against its endpoint from when it is sent until it fails, something of its response is read, its
response is known to be empty or to tell of trouble, or its caller gives it up; and so long only.** Whatever the
requests are, and in whatever order they are sent, answered, read and dropped, the endpoint's load is its estimated latency
times one more than the number of such requests. -/
theorem C113_load_counts_unanswered_requests (decay rtt now : Nat) (ops : List Op) :
    let w := (Load.World.init decay rtt now).run (after cfg ops).load
    w.load = w.estimate * (((counting cfg ops).length : ℝ) + 1) := by
  intro w
  have h := Load.C17_load_counts_requests_in_flight decay rtt now (after cfg ops).load
  rw [flights_after] at h
  simpa using h

/-- **No request is counted for ever.** When every request that was sent is over or settled, the load is the estimate. -/
theorem C113_nothing_is_leaked (decay rtt now : Nat) (ops : List Op)
    (h : ∀ id < sentIn ops, status cfg id ops = .over ∨ status cfg id ops = .settled) :
    let w := (Load.World.init decay rtt now).run (after cfg ops).load
    w.load = w.estimate := by
  intro w
  have hl := C113_load_counts_unanswered_requests cfg decay rtt now ops
  have : counting cfg ops = [] := by
    unfold counting
    rw [List.filter_eq_nil_iff]
    intro id hid
    rcases h id (List.mem_range.1 hid) with h | h <;> simp [h, Status.counts]
  rw [this] at hl
  simpa using hl

theorem measured_append (id : Nat) (a b : List Load.Op) : measured id (a ++ b) = measured id a ++ measured id b := by
  simp [measured]

theorem measured_effect (id i : Nat) (e : Effect) : measured id (e.ops i) = if i = id then e.ops i else [] := by
  by_cases h : i = id
  · subst h; cases e <;> simp [measured, Effect.ops]
  · cases e <;> simp [measured, Effect.ops, h]

/-- What a step adds to what was measured of a request. -/
theorem measured_step (id : Nat) (ops : List Op) (o : Op) :
    measured id (after cfg (ops ++ [o])).load = measured id (after cfg ops).load ++
      (match o.act cfg, (after cfg ops).requests[id]? with
       | some (i, f), some st => if i = id then (f st).2.ops id else []
       | _, _ => []) := by
  rw [after_snoc]
  cases ho : o.act cfg with
  | none =>
    cases o <;> cases ho <;> simp [World.step, measured]
  | some p =>
    obtain ⟨i, f⟩ := p
    have hstep : (after cfg ops).step cfg o = (after cfg ops).act i f := by cases o <;> cases ho <;> rfl
    rw [hstep]
    unfold World.act
    by_cases hi : i = id
    · subst hi
      cases hg : (after cfg ops).requests[i]? with
      | none => simp
      | some st =>
        dsimp only
        rw [measured_append, measured_effect, if_pos rfl]
    · cases hg : (after cfg ops).requests[i]? with
      | none => cases (after cfg ops).requests[id]? <;> simp [hi]
      | some st =>
        dsimp only
        rw [measured_append, measured_effect, if_neg hi]
        cases (after cfg ops).requests[id]? <;> simp [hi]

/-- **Each request is measured exactly once**: not before it is settled or over, and then never again, whatever becomes of
its response afterwards. -/
theorem C113_measured_exactly_once (id : Nat) (ops : List Op) :
    (measured id (after cfg ops).load).length =
      match status cfg id ops with
      | .settled | .over => 1
      | _ => 0 := by
  induction ops using snoc_induction with
  | nil => rfl
  | snoc ops o ih =>
    rw [measured_step, List.length_append, ih, status_snoc, stage_status]
    cases o with
    | tick d => cases status cfg id ops <;> rfl
    | call =>
      cases hs : status cfg id ops <;> simp [Op.act, Status.see]
      by_cases h : sentIn ops = id <;> simp [h]
    | poll i a now =>
      simp only [Op.act]
      by_cases hi : i = id
      · subst hi
        cases hs : status cfg i ops <;> cases a <;> simp [Status.see, Status.stage, Stage.poll, Effect.ops]
        rename_i r e
        unfold troubled
        cases RetryAfter.penalty cfg.date now cfg.penaltyMs cfg.maxDuration r <;> cases e <;> simp [Effect.ops]
      · cases hs : status cfg id ops <;> cases a <;> simp [Status.see, Status.stage, hi]
    | frame i f =>
      simp only [Op.act]
      by_cases hi : i = id
      · subst hi
        cases hs : status cfg i ops <;> cases f <;> simp [Status.see, Status.stage, Stage.frame, Effect.ops]
      · cases hs : status cfg id ops <;> simp [Status.see, Status.stage, hi]
    | drop i =>
      simp only [Op.act]
      by_cases hi : i = id
      · subst hi
        cases hs : status cfg i ops <;> simp [Status.see, Status.stage, Stage.drop, Effect.ops]
      · cases hs : status cfg id ops <;> simp [Status.see, Status.stage, hi]

/-- **An endpoint is penalised for a request exactly if it answered it with a response that tells of its trouble**, and
then by the penalty of that response (C16): not for what the response's body or trailers say, nor for requests that fail or
are given up. -/
theorem C113_penalised_for_troubled_responses (id p : Nat) (ops : List Op) :
    .failed id p ∈ measured id (after cfg ops).load ↔
      ∃ pre r e now post, ops = pre ++ .poll id (.response r e) now :: post ∧ status cfg id pre = .waiting ∧
        RetryAfter.penalty cfg.date now cfg.penaltyMs cfg.maxDuration r = some p := by
  induction ops using snoc_induction with
  | nil =>
    constructor
    · intro h; cases h
    · rintro ⟨pre, r, e, now, post, h, _⟩; cases pre <;> cases h
  | snoc ops o ih =>
    have hsplit : (∃ pre r e now post, ops ++ [o] = pre ++ .poll id (.response r e) now :: post ∧ status cfg id pre = .waiting ∧
          RetryAfter.penalty cfg.date now cfg.penaltyMs cfg.maxDuration r = some p) ↔
        (∃ pre r e now post, ops = pre ++ .poll id (.response r e) now :: post ∧ status cfg id pre = .waiting ∧
          RetryAfter.penalty cfg.date now cfg.penaltyMs cfg.maxDuration r = some p) ∨
        (∃ r e now, o = .poll id (.response r e) now ∧ status cfg id ops = .waiting ∧
          RetryAfter.penalty cfg.date now cfg.penaltyMs cfg.maxDuration r = some p) := by
      constructor
      · rintro ⟨pre, r, e, now, post, h, h2⟩
        rcases List.eq_nil_or_concat post with rfl | ⟨post', x, rfl⟩
        · obtain ⟨e1, h'⟩ := List.append_inj' h rfl
          subst e1
          obtain ⟨h', _⟩ := List.cons.inj h'
          subst h'
          exact .inr ⟨r, e, now, rfl, h2⟩
        · rw [List.concat_eq_append, ← List.cons_append, ← List.append_assoc] at h
          obtain ⟨e1, _⟩ := List.append_inj' h rfl
          subst e1
          exact .inl ⟨pre, r, e, now, post', rfl, h2⟩
      · rintro (⟨pre, r, e, now, post, rfl, h2⟩ | ⟨r, e, now, rfl, h2⟩)
        · exact ⟨pre, r, e, now, post ++ [o], by simp, h2⟩
        · exact ⟨ops, r, e, now, [], by simp, h2⟩
    rw [hsplit, measured_step, List.mem_append, ih, stage_status]
    refine or_congr Iff.rfl ?_
    cases o with
    | tick d => simp [Op.act]
    | call => simp [Op.act]
    | poll i a now =>
      simp only [Op.act]
      by_cases hi : i = id
      · subst hi
        cases hs : status cfg i ops <;> cases a <;> simp [Status.stage, Stage.poll, Effect.ops]
        rename_i r e
        cases hp : RetryAfter.penalty cfg.date now cfg.penaltyMs cfg.maxDuration r <;> cases e <;> simp [Effect.ops, hp, eq_comm]
      · cases hs : status cfg id ops <;> simp [Status.stage, hi]
    | frame i f =>
      simp only [Op.act]
      by_cases hi : i = id
      · subst hi
        cases hs : status cfg i ops <;> cases f <;> simp [Status.stage, Stage.frame, Effect.ops]
      · cases hs : status cfg id ops <;> simp [Status.stage, hi]
    | drop i =>
      simp only [Op.act]
      by_cases hi : i = id
      · subst hi
        cases hs : status cfg i ops <;> simp [Status.stage, Stage.drop, Effect.ops]
      · cases hs : status cfg id ops <;> simp [Status.stage, hi]

/-- **A penalty holds, whatever happens later**: the endpoint's estimate stays above the penalty as time lets it decay. -/
theorem C113_a_penalty_lasts (decay rtt now0 : Nat) (id p : Nat) (r : RetryAfter.Response) (e : Bool) (now : Nat) (pre post : List Op)
    (hw : status cfg id pre = .waiting)
    (hp : RetryAfter.penalty cfg.date now cfg.penaltyMs cfg.maxDuration r = some p) :
    Load.secs p * Load.decayed decay (clock post) ≤
      ((Load.World.init decay rtt now0).run (after cfg (pre ++ .poll id (.response r e) now :: post)).load).estimate := by
  have grow : ∀ (w : World) (post : List Op), ∃ l, (post.foldl (World.step cfg) w).load = w.load ++ l ∧ Load.elapsed l = clock post := by
    intro w post
    induction post using snoc_induction with
    | nil => exact ⟨[], by simp, rfl⟩
    | snoc post o ih =>
      obtain ⟨l, h1, h2⟩ := ih
      rw [List.foldl_append, List.foldl_cons, List.foldl_nil]
      generalize List.foldl (World.step cfg) w post = v at h1
      have : ∃ l', (v.step cfg o).load = v.load ++ l' ∧ Load.elapsed l' = clock [o] := by
        cases o with
        | tick d => exact ⟨[.tick d], rfl, rfl⟩
        | call => exact ⟨[.call v.requests.length], rfl, rfl⟩
        | poll i _ _ | frame i _ | drop i =>
          simp only [World.step, World.act]
          cases v.requests[i]? with
          | none => exact ⟨[], by simp, rfl⟩
          | some st => exact ⟨_, rfl, by generalize Prod.snd _ = ef; cases ef <;> rfl⟩
      obtain ⟨l', h3, h4⟩ := this
      exact ⟨l ++ l', by rw [h3, h1, List.append_assoc], by
        rw [clock_snoc, ← h2, ← h4]; simp [Load.elapsed]⟩
  have hst : (after cfg pre).requests[id]? = some .waiting := by rw [stage_status, hw]; rfl
  obtain ⟨l, h1, h2⟩ := grow ((after cfg pre).step cfg (.poll id (.response r e) now)) post
  have hload : (after cfg (pre ++ .poll id (.response r e) now :: post)).load = (after cfg pre).load ++ .failed id p :: l := by
    unfold after
    rw [List.foldl_append, List.foldl_cons]
    show (post.foldl (World.step cfg) ((after cfg pre).step cfg _)).load = _
    rw [h1]
    simp only [World.step, World.act, hst, Stage.poll, hp, Effect.ops]
    simp [after]
  rw [hload, ← h2]
  refine Load.C17_penalties_last decay rtt now0 _ l id p ⟨now0 + sentAt id pre, ?_⟩
  rw [flights_after]
  refine List.mem_map.2 ⟨id, ?_, rfl⟩
  unfold counting
  refine List.mem_filter.2 ⟨List.mem_range.2 ?_, by rw [hw]; rfl⟩
  rw [← length_after cfg]
  exact lt_of_getElem?_some hst

/-- **What is measured of a request that is answered is the time from when it was sent until the first of its response's body
was there**: when a frame settles a request, the endpoint's estimate takes in the time since the request was sent. -/
theorem C113_measures_the_time_to_the_first_frame (decay rtt now0 : Nat) (id : Nat) (f : Frame) (ops : List Op)
    (hw : status cfg id ops = .unread) (hf : f ≠ .pending) :
    ((Load.World.init decay rtt now0).run (after cfg (ops ++ [.frame id f])).load).rtt =
      ((Load.World.init decay rtt now0).run (after cfg ops).load).rtt.addPeak (Load.secs (clock ops - sentAt id ops)) (now0 + clock ops) := by
  have hst : (after cfg ops).requests[id]? = some (.reading true) := by rw [stage_status, hw]; rfl
  have hload : (after cfg (ops ++ [.frame id f])).load = (after cfg ops).load ++ [.done id] := by
    rw [after_snoc]
    simp only [World.step, World.act, hst]
    cases f <;> first | exact absurd rfl hf | rfl
  have hfl := Load.flights_eq decay rtt now0 (after cfg ops).load
  rw [flights_after] at hfl
  rw [hload, Load.run_append]
  generalize (Load.World.init decay rtt now0).run (after cfg ops).load = w at hfl
  simp only [Prod.mk.injEq] at hfl
  have hmem : id ∈ counting cfg ops := by
    unfold counting
    refine List.mem_filter.2 ⟨List.mem_range.2 ?_, by rw [hw]; rfl⟩
    rw [← length_after cfg]
    exact lt_of_getElem?_some hst
  have hfind : ∃ h, w.handles.find? (fun h => h.id == id) = some h ∧ h.sentAt = now0 + sentAt id ops := by
    cases hh : w.handles.find? (fun h => h.id == id) with
    | none =>
      rw [List.find?_eq_none] at hh
      have : (id, now0 + sentAt id ops) ∈ w.handles.map (fun h => (h.id, h.sentAt)) := by
        rw [hfl.1]; exact List.mem_map.2 ⟨id, hmem, rfl⟩
      obtain ⟨h, h1, h2⟩ := List.mem_map.1 this
      simp only [Prod.mk.injEq] at h2
      exact absurd (by simp [h2.1]) (hh h h1)
    | some h =>
      refine ⟨h, rfl, ?_⟩
      have h1 := List.mem_of_find?_eq_some hh
      have h2 : h.id = id := by simpa using List.find?_some hh
      have : (h.id, h.sentAt) ∈ (counting cfg ops).map (fun id => (id, now0 + sentAt id ops)) := by
        rw [← hfl.1]; exact List.mem_map.2 ⟨h, h1, rfl⟩
      obtain ⟨j, _, h3⟩ := List.mem_map.1 this
      simp only [Prod.mk.injEq] at h3
      rw [← h3.2, h3.1, h2]
  obtain ⟨h, h1, h2⟩ := hfind
  show (w.step (.done id)).rtt = _
  simp only [Load.World.step, h1, Load.World.measure]
  rw [hfl.2, h2]
  congr 2
  omega

/-- **The policy's penalties are applied.** Whatever is penalised is so by at least the policy's penalty in whole milliseconds (if
those fit into 32 bits), and by no more than that or the longest wait that the policy heeds. -/
theorem C113_penalties_are_those_of_the_policy (pol : Policy) (date : List Char → Option Nat) (id p : Nat) (ops : List Op)
    (hp : pol.penalty / 1000000 ≤ 4294967295)
    (h : .failed id p ∈ measured id (after (pol.config date).2.2 ops).load) :
    pol.penalty < p + 1000000 ∧ p ≤ max pol.penalty pol.maxRetryAfter := by
  obtain ⟨_, r, _, now, _, _, _, h⟩ := (C113_penalised_for_troubled_responses _ id p ops).1 h
  have := RetryAfter.C16_penalty_bounds _ _ _ _ _ _ h
  simp only [Policy.config, Nat.min_eq_left hp] at this
  omega

/-- **No load is zero**, whatever the policy and the history: so of two endpoints with the same estimate the one with more
unanswered requests has the greater load. -/
theorem C113_loads_are_positive (pol : Policy) (date : List Char → Option Nat) (now : Nat) (ops : List Op) :
    let c := pol.config date
    let w := (Load.World.init c.1 c.2.1 now).run (after c.2.2 ops).load
    0 < w.estimate ∧ 0 < w.load := by
  intro c w
  have h1 : 0 < w.estimate := by
    have hi := Load.init_inv c.1 c.2.1 now
    have hr := (Load.run_inv (decay := c.1) (after c.2.2 ops).load hi).2
    refine lt_of_lt_of_le (mul_pos ?_ (Load.decayed_pos _ _)) hr
    rw [Load.estimate_eq hi]
    refine mul_pos ?_ (Load.factor_pos _ _)
    have : 0 < c.2.1 := by show 0 < max pol.defaultRtt minDefaultRtt; unfold minDefaultRtt; omega
    unfold Load.secs
    positivity
  exact ⟨h1, mul_pos h1 (by positivity)⟩

/-! ### Examples -/

/-- No dates, a penalty of five seconds, capped at a minute. -/
def exCfg : Config := ⟨fun _ => none, 5000, 60000000000⟩

def exOk : RetryAfter.Response := ⟨200, [], none⟩
def exBusy : RetryAfter.Response := ⟨503, [("retry-after", "7".toList)], none⟩

/-- Four requests: the first is answered and read after 30, the second is told to come back, the third is given up, the
fourth's response is there, but nothing of it was read. -/
def exOps : List Op :=
  [.call, .tick 10, .call, .call, .poll 0 (.response exOk false) 0, .tick 20, .frame 0 .pending, .frame 0 .data,
   .poll 1 (.response exBusy false) 0, .drop 2, .call, .poll 3 (.response exOk false) 0, .frame 0 .trailers, .drop 0]

example : counting exCfg exOps = [3] ∧ sentIn exOps = 4 ∧ sentAt 3 exOps = 30 ∧ clock exOps = 30 := by decide +kernel

example : (List.range 5).map (fun id => status exCfg id exOps) = [.over, .settled, .over, .unread, .unsent] := by decide +kernel

/-- The first request has been measured once, though more was read of it, and it was dropped later. -/
example : (measured 0 (after exCfg exOps).load).length = 1 ∧ (measured 3 (after exCfg exOps).load).length = 0 := by
  constructor <;> rw [C113_measured_exactly_once] <;> decide +kernel

/-- The hypotheses of the theorems above are met. -/
example : status exCfg 0 (exOps.take 5) = .unread ∧ status exCfg 1 (exOps.take 8) = .waiting ∧
    RetryAfter.penalty exCfg.date 0 exCfg.penaltyMs exCfg.maxDuration exBusy = some 7000000000 := by decide +kernel

/-- **A failure that only trailers tell is not penalised**: a gRPC response whose status comes after its messages counts as
answered with its first frame. -/
theorem C113_limit_failures_in_trailers_are_not_penalised (id p : Nat) (ops : List Op) (f : Frame) (hf : f ≠ .pending)
    (h : status cfg id ops = .unread) : .failed id p ∉ measured id (after cfg (ops ++ [.frame id f])).load := by
  have h0 : measured id (after cfg ops).load = [] := by
    have := C113_measured_exactly_once cfg id ops
    rw [h] at this
    exact List.eq_nil_of_length_eq_zero this
  rw [measured_step, h0, stage_status, h]
  cases f <;> simp [Op.act, Status.stage, Stage.frame, Effect.ops]

/-- **The policy's decay of penalties has no effect**: penalties decay as the latency does. -/
theorem C113_limit_the_decay_of_penalties_is_ignored (pol : Policy) (date : List Char → Option Nat) (d : Nat) :
    ({ pol with penaltyDecay := d } : Policy).config date = pol.config date := rfl

end Verif.InFlight
