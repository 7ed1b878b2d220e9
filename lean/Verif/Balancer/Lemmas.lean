import Verif.Balancer.Spec

namespace Verif.Balancer

variable (cap timeout : Nat)

theorem after_snoc (ops : List Op) (o : Op) : after cap timeout (ops ++ [o]) = ((after cap timeout ops).step o).1 := by
  simp [after, List.foldl_append]

theorem go_append (w : World) (a b : List Op) : outs.go w (a ++ b) =
    outs.go w a ++ outs.go (a.foldl (fun w o => (w.step o).1) w) b := by
  induction a generalizing w with
  | nil => rfl
  | cons o a ih => simp only [List.cons_append, outs.go, List.foldl_cons, ih]

theorem outs_snoc (ops : List Op) (o : Op) : outs cap timeout (ops ++ [o]) =
    outs cap timeout ops ++ [answer cap timeout ops o] := by
  unfold outs
  rw [go_append]
  rfl

/-! ### The parts of a history -/

/-- Whether the queue dispatches. -/
def dispatches : Queue.Out → Bool
  | .answered _ .dispatched => true
  | _ => false

/-- What the pool is asked in a step. -/
def World.asked (w : World) (o : Op) : List P2c.Op :=
  (w.plan o).pool ++ (match (w.plan o).queue with
    | some q => if dispatches (w.queue.step q).2 then [.call] else []
    | none => [])

theorem run_append (w : P2c.World) (a b : List P2c.Op) : w.run (a ++ b) = (w.run a).run b := by
  simp [P2c.World.run, List.foldl_append]

theorem finish_queue (w : World) (o : Queue.Out) : (w.finish o).1.queue = w.queue := by
  unfold World.finish
  split
  · split <;> rfl
  · rfl

theorem finish_pool (w : World) (o : Queue.Out) : (w.finish o).1.pool = if dispatches o then w.pool.call.1 else w.pool := by
  unfold World.finish
  split
  · rename_i id
    simp only [dispatches, if_true]
    split <;> (rename_i h; rw [h])
  · rename_i h
    have : dispatches o = false := by
      cases o with
      | answered id a => cases a <;> first | rfl | exact absurd rfl (h id)
      | _ => rfl
    simp [this]

theorem step_parts (w : World) (o : Op) :
    (w.step o).1.queue = (match (w.plan o).queue with | some q => (w.queue.step q).1 | none => w.queue) ∧
    (w.step o).1.pool = w.pool.run (w.asked o) := by
  unfold World.asked
  rw [run_append]
  cases hq : (w.plan o).queue with
  | none => refine ⟨?_, ?_⟩ <;> (simp only [World.step, hq]; try rfl)
  | some q =>
    refine ⟨?_, ?_⟩
    · simp only [World.step, hq, finish_queue]
    · simp only [World.step, hq, finish_pool]
      split <;> rfl

/-- What the pool has been asked. -/
def poolHist (ops : List Op) : List P2c.Op := go (World.init cap timeout) ops
where
  go (w : World) : List Op → List P2c.Op
    | [] => []
    | o :: os => w.asked o ++ go (w.step o).1 os

/-- What the queue has been asked. -/
def queueHist (ops : List Op) : List Queue.Op := go (World.init cap timeout) ops
where
  go (w : World) : List Op → List Queue.Op
    | [] => []
    | o :: os => (w.plan o).queue.toList ++ go (w.step o).1 os

theorem poolHist_snoc (ops : List Op) (o : Op) : poolHist cap timeout (ops ++ [o]) =
    poolHist cap timeout ops ++ (after cap timeout ops).asked o := by
  have : ∀ (w : World), poolHist.go w (ops ++ [o]) = poolHist.go w ops ++ (ops.foldl (fun w o => (w.step o).1) w).asked o := by
    induction ops with
    | nil => intro w; simp [poolHist.go]
    | cons x xs ih => intro w; simp only [List.cons_append, poolHist.go, List.foldl_cons, ih, List.append_assoc]
  exact this _

theorem queueHist_snoc (ops : List Op) (o : Op) : queueHist cap timeout (ops ++ [o]) =
    queueHist cap timeout ops ++ ((after cap timeout ops).plan o).queue.toList := by
  have : ∀ (w : World), queueHist.go w (ops ++ [o]) = queueHist.go w ops ++
      ((ops.foldl (fun w o => (w.step o).1) w).plan o).queue.toList := by
    induction ops with
    | nil => intro w; simp [queueHist.go]
    | cons x xs ih => intro w; simp only [List.cons_append, queueHist.go, List.foldl_cons, ih, List.append_assoc]
  exact this _

theorem parts (ops : List Op) :
    (after cap timeout ops).pool = P2c.after (poolHist cap timeout ops) ∧
    (after cap timeout ops).queue = Queue.reach cap timeout (queueHist cap timeout ops) := by
  induction ops using snoc_induction with
  | nil => exact ⟨rfl, rfl⟩
  | snoc ops o ih =>
    obtain ⟨h1, h2⟩ := step_parts (after cap timeout ops) o
    rw [after_snoc, poolHist_snoc, queueHist_snoc, h1, h2]
    refine ⟨?_, ?_⟩
    · rw [P2c.after, run_append, ih.1]; rfl
    · cases hq : ((after cap timeout ops).plan o).queue with
      | none => simpa using ih.2
      | some q =>
        simp only [Option.toList_some]
        rw [Queue.reach_snoc, ih.2]

/-! ### Discovery -/

/-- What arrives with an operation of the queue. -/
def queueItems : Queue.Op → List Queue.Item
  | .arrive i => [i]
  | _ => []

/-- What arrives with an operation of the balancer. -/
def items : Op → List Queue.Item
  | .plain q => queueItems q
  | _ => []

theorem queue_same (w : Queue.World) (q : Queue.Op) (hq : q ≠ .discover) :
    (w.step q).1.calls = w.calls ∧ (w.step q).1.discoClosed = w.discoClosed ∧
    (w.step q).1.avail = w.avail ++ queueItems q := by
  cases q with
  | discover => exact absurd rfl hq
  | tick => exact ⟨rfl, rfl, (List.append_nil _).symm⟩
  | arrive i => exact ⟨rfl, rfl, rfl⟩
  | clone | drop | dropReserved | send | count =>
    simp only [Queue.World.step, queueItems, List.append_nil]; split <;> exact ⟨rfl, rfl, rfl⟩
  | reserve | sendRefused =>
    simp only [Queue.World.step, queueItems, List.append_nil]
    repeat' split
    all_goals exact ⟨rfl, rfl, rfl⟩
  | drive a =>
    simp only [Queue.World.step, queueItems, List.append_nil]
    cases w.phase with
    | idle =>
      simp only
      split
      · cases a with
        | ready => exact Queue.setReady_disco w
        | pending => exact ⟨rfl, rfl, rfl⟩
        | err e => exact Queue.setReady_disco w
      · cases a <;> exact ⟨rfl, rfl, rfl⟩
    | _ => exact ⟨rfl, rfl, rfl⟩
  | recv =>
    simp only [Queue.World.step, queueItems, List.append_nil]
    split
    · exact ⟨rfl, rfl, rfl⟩
    · split <;> exact ⟨rfl, rfl, rfl⟩
    · exact ⟨rfl, rfl, rfl⟩
  | drain =>
    simp only [Queue.World.step, queueItems, List.append_nil]
    split
    · exact ⟨rfl, rfl, rfl⟩
    · split <;> exact ⟨rfl, rfl, rfl⟩
    · exact ⟨rfl, rfl, rfl⟩
  | pollPool a fired =>
    simp only [Queue.World.step, queueItems, List.append_nil]
    cases w.phase with
    | holding id =>
      simp only
      split
      · cases a with
        | ready =>
          have h1 := Queue.dispatch_disco w.setReady id
          have h2 := Queue.setReady_disco w
          exact ⟨h1.1.trans h2.1, h1.2.1.trans h2.2.1, h1.2.2.trans h2.2.2⟩
        | err e => exact Queue.setReady_disco w
        | pending =>
          simp only
          split
          · rename_i w' he
            have h1 := Queue.dispatch_disco w' id
            have h2 := Queue.entered_disco he
            have h3 := Queue.arm_disco w
            exact ⟨h1.1.trans (h2.1.trans h3.1), h1.2.1.trans (h2.2.1.trans h3.2.1),
              h1.2.2.trans (h2.2.2.trans h3.2.2)⟩
          · exact Queue.arm_disco w
      · exact ⟨rfl, rfl, rfl⟩
    | _ => exact ⟨rfl, rfl, rfl⟩

/-- The update that is taken from the stream. -/
def hears (w : Queue.World) : List Update :=
  if w.discoClosed then [] else
  match w.phase, w.avail with
  | .idle, .update u :: _ => [u]
  | .holding _, .update u :: _ => [u]
  | _, _ => []

theorem discover_calls (w : Queue.World) : (w.step .discover).1.calls = w.calls ++ (hears w).flatMap Queue.poolCalls := by
  unfold hears
  simp only [Queue.World.step]
  split
  · simp
  · split <;> simp_all [Queue.World.close, Queue.World.failHeld]
    all_goals (split <;> simp_all)

theorem discover_told (w : Queue.World) (us : List Update) (items : List Queue.Item)
    (h1 : w.discoClosed = false → items = us.map .update ++ w.avail)
    (h2 : w.discoClosed = true → ∃ i rest, items = us.map .update ++ i :: rest ∧ ∀ u, i ≠ .update u) :
    ((w.step .discover).1.discoClosed = false → items = (us ++ hears w).map .update ++ (w.step .discover).1.avail) ∧
    ((w.step .discover).1.discoClosed = true →
      ∃ i rest, items = (us ++ hears w).map .update ++ i :: rest ∧ ∀ u, i ≠ .update u) := by
  unfold hears
  simp only [Queue.World.step]
  cases hc : w.discoClosed with
  | true => simpa [hc] using h2 hc
  | false =>
    have h := h1 hc
    cases hp : w.phase <;> cases ha : w.avail with
    | nil => simp [hc, h, ha]
    | cons i rest => cases i <;> simp [hc, h, ha, Queue.World.close, Queue.World.failHeld]

/-- What is heard in a step. -/
def hearsOf (w : World) : Op → List Update
  | .discover => hears w.queue
  | _ => []

/-- The updates that the worker has heard. -/
def heard (ops : List Op) : List Update := go (World.init cap timeout) ops
where
  go (w : World) : List Op → List Update
    | [] => []
    | o :: os => hearsOf w o ++ go (w.step o).1 os

theorem heard_snoc (ops : List Op) (o : Op) : heard cap timeout (ops ++ [o]) =
    heard cap timeout ops ++ hearsOf (after cap timeout ops) o := by
  have : ∀ (w : World), heard.go w (ops ++ [o]) = heard.go w ops ++
      hearsOf (ops.foldl (fun w o => (w.step o).1) w) o := by
    induction ops with
    | nil => intro w; simp [heard.go]
    | cons x xs ih => intro w; simp only [List.cons_append, heard.go, List.foldl_cons, ih, List.append_assoc]
  exact this _

theorem arrivals_snoc (ops : List Op) (o : Op) : arrivals (ops ++ [o]) =
    arrivals ops ++ items o := by
  unfold arrivals
  rw [List.filterMap_append]
  congr 1
  simp only [List.filterMap_cons, List.filterMap_nil]
  cases o with
  | plain q => cases q <;> rfl
  | _ => rfl

theorem plan_discover (w : World) (o : Op) (q : Queue.Op) (h : (w.plan o).queue = some q) :
    q = .discover ↔ o = .discover := by
  cases o with
  | discover => simp only [World.plan, Option.some.injEq] at h; simp [← h]
  | plain x =>
    simp only [World.plan] at h
    split at h
    · rename_i hx
      injection h with h; subst h
      simp only [reduceCtorEq, iff_false]
      rintro rfl; cases hx
    · cases h
  | drive f ps =>
    simp only [reduceCtorEq, iff_false]
    rintro rfl
    simp only [World.plan] at h
    repeat' split at h
    all_goals cases h
  | poll ps f =>
    simp only [reduceCtorEq, iff_false]
    rintro rfl
    simp only [World.plan] at h
    repeat' split at h
    all_goals cases h

theorem plan_arrive (w : World) (o : Op) (q : Queue.Op) (h : (w.plan o).queue = some q) :
    queueItems q = items o := by
  cases o with
  | discover => simp only [World.plan, Option.some.injEq] at h; subst h; rfl
  | plain x =>
    simp only [World.plan] at h
    split at h
    · injection h with h; subst h
      cases x <;> rfl
    · cases h
  | drive f ps =>
    simp only [World.plan] at h
    repeat' split at h
    all_goals (cases h <;> rfl)
  | poll ps f =>
    simp only [World.plan] at h
    repeat' split at h
    all_goals (cases h <;> rfl)

theorem plan_none (w : World) (o : Op) (h : (w.plan o).queue = none) :
    items o = [] ∧ o ≠ .discover := by
  cases o with
  | discover => cases h
  | plain x =>
    simp only [World.plan] at h
    refine ⟨?_, by simp⟩
    cases x <;> first | rfl | (simp [isPlain] at h)
  | _ => exact ⟨rfl, by simp⟩

/-- What the worker has heard, and what it has still to hear. -/
theorem heard_inv (ops : List Op) :
    let w := (after cap timeout ops).queue
    w.calls = (heard cap timeout ops).flatMap Queue.poolCalls ∧
    (w.discoClosed = false → arrivals ops = (heard cap timeout ops).map .update ++ w.avail) ∧
    (w.discoClosed = true → ∃ i rest, arrivals ops = (heard cap timeout ops).map .update ++ i :: rest ∧ ∀ u, i ≠ .update u) := by
  induction ops using snoc_induction with
  | nil => exact ⟨rfl, fun _ => rfl, fun h => by simp [after, World.init, Queue.World.init] at h⟩
  | snoc ops o ih =>
    simp only at ih ⊢
    obtain ⟨h1, h2, h3⟩ := ih
    rw [after_snoc, (step_parts _ o).1, heard_snoc, arrivals_snoc]
    generalize after cap timeout ops = w at *
    cases hq : (w.plan o).queue with
    | none =>
      obtain ⟨e, hne⟩ := plan_none w o hq
      have : hearsOf w o = [] := by
        cases o <;> first | rfl | exact absurd rfl hne
      rw [e, this, List.append_nil, List.append_nil]
      exact ⟨h1, h2, h3⟩
    | some q =>
      rw [← plan_arrive w o q hq]
      by_cases hd : o = .discover
      · subst hd
        simp only [World.plan, Option.some.injEq] at hq
        subst hq
        dsimp only [queueItems, hearsOf]
        rw [List.append_nil, discover_calls, h1]
        refine ⟨by simp, ?_⟩
        exact discover_told w.queue _ _ h2 h3
      · have hqd : q ≠ .discover := fun h => hd ((plan_discover w o q hq).1 h)
        obtain ⟨e1, e2, e3⟩ := queue_same w.queue q hqd
        have : hearsOf w o = [] := by
          cases o <;> first | rfl | exact absurd rfl hd
        rw [this, List.append_nil]
        dsimp only
        rw [e1, e2, e3]
        refine ⟨h1, ?_, ?_⟩
        · intro hc; rw [h2 hc]; simp
        · intro hc
          obtain ⟨i, rest, h4, h5⟩ := h3 hc
          exact ⟨i, rest ++ queueItems q, by rw [h4]; simp, h5⟩

/-- All has been heard. -/
theorem heard_all (ops : List Op) (h : (after cap timeout ops).queue.discoClosed = true ∨ (after cap timeout ops).queue.avail = []) :
    heard cap timeout ops = Queue.updates (arrivals ops) := by
  obtain ⟨-, h2, h3⟩ := heard_inv cap timeout ops
  symm
  cases hc : (after cap timeout ops).queue.discoClosed with
  | true =>
    obtain ⟨i, rest, h4, h5⟩ := h3 hc
    rw [h4]
    exact Queue.updates_map _ _ (by intro u l h; injection h with h _; exact h5 u h)
  | false =>
    rcases h with h | h
    · rw [hc] at h; cases h
    · rw [h2 hc, h]
      exact Queue.updates_map _ _ (by simp)

theorem updates_append (us : List Update) (rest : List Queue.Item) : Queue.updates (us.map .update ++ rest) = us ++ Queue.updates rest := by
  induction us with
  | nil => rfl
  | cons u us ih => simp [Queue.updates, ih]

/-- What has been heard are the first of the updates. -/
theorem heard_prefix (ops : List Op) : heard cap timeout ops <+: Queue.updates (arrivals ops) := by
  obtain ⟨-, h2, h3⟩ := heard_inv cap timeout ops
  cases hc : (after cap timeout ops).queue.discoClosed with
  | true =>
    obtain ⟨i, rest, h4, _⟩ := h3 hc
    rw [h4, updates_append]
    exact List.prefix_append _ _
  | false =>
    rw [h2 hc, updates_append]
    exact List.prefix_append _ _

/-! ### What the pool makes of it -/

theorem adds_find (us : List (Nat × Nat)) (k : Nat) :
    EpSet.empty.adds us k = (us.reverse.find? (fun u => u.1 = k)).map Prod.snd := by
  induction us using snoc_induction with
  | nil => rfl
  | snoc us e ih =>
    rw [List.reverse_append]
    simp only [List.reverse_cons, List.reverse_nil, List.nil_append, List.singleton_append, List.find?_cons]
    have : EpSet.empty.adds (us ++ [e]) k = if k = e.1 then some e.2 else EpSet.empty.adds us k := by
      unfold EpSet.adds
      rw [List.foldl_append]
      rfl
    rw [this]
    by_cases h : k = e.1
    · simp [h]
    · have h' : ¬ e.1 = k := fun hh => h hh.symm
      simp [h, h', ih]

theorem target_update (m : EpSet) (u : Update) :
    ((Queue.poolCalls u).map poolOp).foldl P2c.Spec.update m = m.update u := by
  cases u with
  | reset eps =>
    simp only [Queue.poolCalls, List.map_cons, List.map_nil, poolOp, List.foldl_cons, List.foldl_nil, P2c.Spec.update, EpSet.update]
    funext k
    exact (adds_find eps k).symm
  | doesNotExist => rfl
  | add eps =>
    simp only [Queue.poolCalls, List.map_map, EpSet.update, EpSet.adds, List.foldl_map]
    rfl
  | remove addrs =>
    simp only [Queue.poolCalls, List.map_map, EpSet.update, List.foldl_map]
    exact Queue.foldl_removes addrs m

/-- Operations of a pool that are no updates. -/
def isUpdate : P2c.Op → Bool
  | .reset _ | .add _ _ | .remove _ => true
  | _ => false

theorem foldl_update_other (m : Nat → Option Nat) (l : List P2c.Op) (h : ∀ o ∈ l, isUpdate o = false) :
    l.foldl P2c.Spec.update m = m := by
  induction l generalizing m with
  | nil => rfl
  | cons o l ih =>
    rw [List.foldl_cons, ih _ (fun x hx => h x (by simp [hx]))]
    have := h o (by simp)
    cases o <;> first | rfl | cases this

theorem plan_other (w : World) (o : Op) (h : o ≠ .discover) : ∀ x ∈ (w.plan o).pool, isUpdate x = false := by
  intro x hx
  cases o with
  | discover => exact absurd rfl h
  | plain q => simp [World.plan] at hx
  | drive f ps =>
    simp only [World.plan] at hx
    repeat' split at hx
    all_goals simp at hx
    all_goals (try (obtain ⟨_, _, rfl⟩ := hx; rfl))
    all_goals (subst hx; rfl)
  | poll ps f =>
    simp only [World.plan] at hx
    repeat' split at hx
    all_goals simp at hx
    all_goals (obtain ⟨_, _, rfl⟩ := hx; rfl)

theorem asked_discover (w : World) : w.asked .discover = ((hears w.queue).flatMap Queue.poolCalls).map poolOp := by
  unfold World.asked
  simp only [World.plan, discover_calls, List.drop_left]
  have : dispatches (w.queue.step .discover).2 = false := by
    simp only [Queue.World.step]
    repeat' split
    all_goals rfl
  simp [this]

theorem asked_other (w : World) (o : Op) (h : o ≠ .discover) : ∀ x ∈ w.asked o, isUpdate x = false := by
  intro x hx
  unfold World.asked at hx
  rcases List.mem_append.1 hx with hx | hx
  · exact plan_other w o h x hx
  · split at hx
    · split at hx
      · simp at hx; subst hx; rfl
      · cases hx
    · cases hx

/-- The pool lists what the worker has heard. -/
theorem target_heard (ops : List Op) : P2c.Spec.target (poolHist cap timeout ops) = EpSet.described (heard cap timeout ops) := by
  induction ops using snoc_induction with
  | nil => rfl
  | snoc ops o ih =>
    rw [poolHist_snoc, heard_snoc]
    unfold P2c.Spec.target at ih ⊢
    rw [List.foldl_append, ih]
    unfold EpSet.described
    rw [List.foldl_append]
    generalize List.foldl EpSet.update EpSet.empty (heard cap timeout ops) = m
    by_cases hd : o = .discover
    · subst hd
      rw [asked_discover]
      dsimp only [hearsOf]
      generalize hears (after cap timeout ops).queue = us
      induction us generalizing m with
      | nil => rfl
      | cons u us ihu =>
        simp only [List.flatMap_cons, List.map_append, List.foldl_append, List.foldl_cons]
        rw [target_update]
        exact ihu _
    · rw [foldl_update_other _ _ (asked_other _ o hd)]
      cases o <;> first | rfl | exact absurd rfl hd

end Verif.Balancer
