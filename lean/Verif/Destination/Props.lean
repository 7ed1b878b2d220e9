import Verif.Destination.Lemmas
import Mathlib.Data.Nat.Pairing

/-! # C112: a load balancer and the destination service -/

namespace Verif.Destination

open Verif.ApiResolve (SockAddr Metadata ApiUpdate mkUpdate)
open Verif.StreamWatch (Code)

variable (env : Env) (cap timeout : Nat)

theorem after_snoc (ops : List Op) (o : Op) :
    after env cap timeout (ops ++ [o]) = ((after env cap timeout ops).step env o).1 := by
  simp [after, List.foldl_append]

/-- What the balancer has been asked. -/
def hist (ops : List Op) : List Balancer.Op := go (World.init cap timeout) ops
where
  go (w : World) : List Op → List Balancer.Op
    | [] => []
    | o :: os => w.plan env o ++ go (w.step env o).1 os

theorem hist_snoc (ops : List Op) (o : Op) : hist env cap timeout (ops ++ [o]) =
    hist env cap timeout ops ++ (after env cap timeout ops).plan env o := by
  have : ∀ (w : World), hist.go env w (ops ++ [o]) = hist.go env w ops ++
      (ops.foldl (fun w o => (w.step env o).1) w).plan env o := by
    induction ops with
    | nil => intro w; simp [hist.go]
    | cons x xs ih => intro w; simp only [List.cons_append, hist.go, List.foldl_cons, ih, List.append_assoc]
  exact this _

theorem hist_append (a b : List Op) : ∃ x, hist env cap timeout (a ++ b) = hist env cap timeout a ++ x := by
  induction b using snoc_induction with
  | nil => exact ⟨[], by simp⟩
  | snoc b o ih =>
    obtain ⟨x, hx⟩ := ih
    exact ⟨_, by rw [← List.append_assoc, hist_snoc, hx, List.append_assoc]⟩

theorem balancer_hist (ops : List Op) :
    (after env cap timeout ops).balancer = Balancer.after cap timeout (hist env cap timeout ops) := by
  induction ops using snoc_induction with
  | nil => rfl
  | snoc ops o ih =>
    rw [after_snoc, hist_snoc]
    show ((after env cap timeout ops).plan env o).foldl _ (after env cap timeout ops).balancer = _
    rw [ih]
    simp [Balancer.after, List.foldl_append]

/-! ### Invariant -/

/-- A step of the balancer that is not about discovery. -/
def quiet : Balancer.Op → Bool
  | .plain (.arrive _) | .discover => false
  | _ => true

theorem quiet_step (b : Balancer.World) (o : Balancer.Op) (h : quiet o = true) :
    (b.step o).1.queue.avail = b.queue.avail ∧ (b.step o).1.queue.discoClosed = b.queue.discoClosed ∧ Balancer.items o = [] := by
  have hi : Balancer.items o = [] := by
    cases o with
    | plain q => cases q <;> first | rfl | cases h
    | _ => rfl
  rw [(Balancer.step_parts b o).1]
  cases hq : (b.plan o).queue with
  | none => exact ⟨rfl, rfl, hi⟩
  | some q =>
    have hne : q ≠ .discover := by
      intro hc
      have := (Balancer.plan_discover b o q hq).1 hc
      rw [this] at h; cases h
    obtain ⟨-, e2, e3⟩ := Balancer.queue_same b.queue q hne
    rw [Balancer.plan_arrive b o q hq, hi, List.append_nil] at e3
    exact ⟨e3, e2, hi⟩

/-- The worker takes what its discovery stream yields. -/
theorem take_step (b : Balancer.World) (i : Queue.Item) (ha : b.queue.avail = []) (hc : b.queue.discoClosed = false)
    (hp : b.queue.phase = .idle ∨ ∃ id, b.queue.phase = .holding id) :
    let b' := (((b.step (.plain (.arrive i))).1).step .discover).1.queue
    b'.avail = [] ∧ (b'.discoClosed = true ↔ ∀ u, i ≠ .update u) ∧ (∀ e, i = .fail e → b'.terminal = some e) := by
  dsimp only
  rw [(Balancer.step_parts _ .discover).1]
  have e1 : (b.step (.plain (.arrive i))).1.queue = { b.queue with avail := [i] } := by
    rw [(Balancer.step_parts b _).1]
    simp [Balancer.World.plan, Balancer.isPlain, Queue.World.step, ha]
  have e2 : ((b.step (.plain (.arrive i))).1.plan .discover).queue = some .discover := rfl
  rw [e2]
  dsimp only
  rw [e1]
  rcases hp with hp | ⟨id, hp⟩ <;> cases i <;>
    simp [Queue.World.step, hc, hp, Queue.World.close, Queue.World.failHeld]

structure Inv (w : World) (H : List Balancer.Op) : Prop where
  res : RInv env w.resolution w.events
  avail : w.balancer.queue.avail = []
  opened : w.balancer.queue.discoClosed = false → Balancer.arrivals H = w.resolution.emitted.map .update
  closed : w.balancer.queue.discoClosed = true → ∃ c, Rejected c ∧ Event.failed c ∈ w.events ∧
    Balancer.arrivals H = w.resolution.emitted.map .update ++ [.fail (errNo c)]
  dead : Dead w.resolution → w.balancer.queue.discoClosed = true

variable {env}

theorem listens_iff (w : World) : w.listens = true ↔ w.balancer.queue.discoClosed = false ∧
    (w.balancer.queue.phase = .idle ∨ ∃ id, w.balancer.queue.phase = .holding id) := by
  unfold World.listens
  rw [Bool.and_eq_true]
  cases w.balancer.queue.phase <;> simp

/-- The events of a poll that does not yield anything, or none. -/
theorem quiet_inv {w : World} {H : List Balancer.Op} (h : Inv env w H) (r : Recover.World) (evs : List Event)
    (plan : List Balancer.Op) (hplan : plan = [] ∨ ∃ o, plan = [o] ∧ quiet o = true)
    (hr : RInv env r (w.events ++ evs)) (he : r.emitted = w.resolution.emitted) (hd : Dead r → Dead w.resolution) :
    Inv env ⟨r, w.events ++ evs, plan.foldl (fun b o => (b.step o).1) w.balancer⟩ (H ++ plan) := by
  obtain ⟨h1, h2, h3, h4, h5⟩ := h
  rcases hplan with rfl | ⟨o, rfl, hq⟩
  · refine ⟨hr, h2, ?_, ?_, fun hx => h5 (hd hx)⟩
    · intro hc; rw [List.append_nil, h3 hc]; simp only [he]
    · intro hc
      obtain ⟨c, g1, g2, g3⟩ := h4 hc
      exact ⟨c, g1, List.mem_append_left _ g2, by rw [List.append_nil, g3]; simp only [he]⟩
  · obtain ⟨e1, e2, e3⟩ := quiet_step w.balancer o hq
    have e4 : Balancer.arrivals (H ++ [o]) = Balancer.arrivals H := by rw [Balancer.arrivals_snoc, e3, List.append_nil]
    refine ⟨hr, e1.trans h2, ?_, ?_, fun hx => e2.trans (h5 (hd hx))⟩
    · intro hc; rw [e4, h3 (e2.symm.trans hc)]; simp only [he]
    · intro hc
      obtain ⟨c, g1, g2, g3⟩ := h4 (e2.symm.trans hc)
      exact ⟨c, g1, List.mem_append_left _ g2, by rw [e4, g3]; simp only [he]⟩

theorem arrivals_take (H : List Balancer.Op) (i : Queue.Item) :
    Balancer.arrivals (H ++ [.plain (.arrive i), .discover]) = Balancer.arrivals H ++ [i] := by
  rw [Balancer.arrivals_append]; rfl

theorem asked_inv (hinj : ∀ a b, env.code a = env.code b → a = b) {w : World} {H : List Balancer.Op} (h : Inv env w H)
    (as : List Answers) (rest : List Balancer.Op) (hrest : rest = [] ∨ ∃ o, rest = [o] ∧ quiet o = true) :
    Inv env ⟨(w.asked env as).1, w.events ++ (w.asked env as).2.1,
        ((delivered (w.asked env as).2.2).getD rest).foldl (fun b o => (b.step o).1) w.balancer⟩
      (H ++ (delivered (w.asked env as).2.2).getD rest) := by
  unfold World.asked
  cases hl : w.listens with
  | false =>
    simp only [Bool.false_eq_true, if_false, delivered, Option.getD_none]
    refine quiet_inv h w.resolution [] rest hrest ?_ rfl id
    rw [List.append_nil]; exact h.res
  | true =>
    simp only [if_true]
    obtain ⟨hc, hp⟩ := (listens_iff w).1 hl
    have hnd : ¬ Dead w.resolution := fun hd => by rw [h.dead hd] at hc; cases hc
    obtain ⟨g1, g2, g3, g4, g5, g6⟩ := poll_ok hinj as h.res
    cases hr : (poll env w.resolution as).2.2 with
    | pending =>
      rw [hr] at g3 g5
      simp only [delivered, Option.getD_none]
      exact quiet_inv h _ _ rest hrest g1 (g3 (by simp)) (fun hd => (g5 hd).resolve_right (by simp))
    | panic => rw [hr] at g6; exact absurd (g6 rfl) hnd
    | item u =>
      rw [hr] at g2 g5
      have e := g2 u rfl
      obtain ⟨t1, t2, -⟩ := take_step w.balancer (.update u) h.avail hc hp
      have t2' : (((w.balancer.step (.plain (.arrive (.update u)))).1).step .discover).1.queue.discoClosed = false := by
        cases hx : (((w.balancer.step (.plain (.arrive (.update u)))).1).step .discover).1.queue.discoClosed with
        | false => rfl
        | true => exact absurd rfl (t2.1 hx u)
      simp only [delivered, Option.getD_some, List.foldl_cons, List.foldl_nil]
      refine ⟨g1, t1, ?_, ?_, ?_⟩
      · intro _
        rw [arrivals_take, h.opened hc]
        simp only [e, List.map_append, List.map_cons, List.map_nil]
      · intro hx; rw [t2'] at hx; cases hx
      · intro hd
        rcases g5 hd with hd | ⟨e', he'⟩
        · exact absurd hd hnd
        · simp at he'
    | err e =>
      rw [hr] at g3 g4
      obtain ⟨c, r1, r2, r3⟩ := g4 e rfl
      obtain ⟨t1, t2, -⟩ := take_step w.balancer (.fail e) h.avail hc hp
      simp only [delivered, Option.getD_some, List.foldl_cons, List.foldl_nil]
      refine ⟨g1, t1, ?_, ?_, fun _ => t2.2 (by simp)⟩
      · intro hx; rw [t2.2 (by simp)] at hx; cases hx
      · intro _
        refine ⟨c, r1, r3, ?_⟩
        rw [arrivals_take, h.opened hc, r2]
        simp only [g3 (by simp)]

variable (hinj : ∀ a b, env.code a = env.code b → a = b)
include hinj

theorem step_inv {w : World} {H : List Balancer.Op} (h : Inv env w H) (o : Op) :
    Inv env (w.step env o).1 (H ++ w.plan env o) := by
  cases o with
  | other o =>
    refine quiet_inv h w.resolution [] _ ?_ (by rw [List.append_nil]; exact h.res) rfl id
    simp only [World.plan]
    cases ho : isOther o with
    | false => exact .inl rfl
    | true =>
      refine .inr ⟨o, rfl, ?_⟩
      cases o with
      | plain q => cases q <;> first | rfl | cases ho
      | discover => cases ho
      | _ => rfl
  | discover as => exact asked_inv hinj h as [] (.inl rfl)
  | serve as passes fired => exact asked_inv hinj h as [.poll passes fired] (.inr ⟨_, rfl, rfl⟩)

theorem after_inv (ops : List Op) : Inv env (after env cap timeout ops) (hist env cap timeout ops) := by
  induction ops using snoc_induction with
  | nil =>
    refine ⟨⟨matches_empty env, ?_, ?_⟩, rfl, fun _ => rfl, ?_, ?_⟩
    · intro s i h; cases h
    · intro s e b h; cases h
    · intro h; cases h
    · rintro ⟨s, b, h⟩; cases h
  | snoc ops o ih =>
    rw [after_snoc, hist_snoc]
    exact step_inv hinj ih o

omit hinj in
theorem updates_map (us : List Update) (rest : List Queue.Item) : Queue.updates (us.map .update ++ rest) = us ++ Queue.updates rest := by
  induction us with
  | nil => rfl
  | cons u us ih => simp [Queue.updates, ih]

/-- What the balancer has been told of is what the control plane said. -/
theorem listed_known (ops : List Op) :
    Matches env (Balancer.listed (hist env cap timeout ops)) (known env (events env cap timeout ops)).set := by
  have h := after_inv cap timeout hinj ops
  have e : Balancer.listed (hist env cap timeout ops) = EpSet.described (after env cap timeout ops).resolution.emitted := by
    unfold Balancer.listed
    congr 1
    cases hc : (after env cap timeout ops).balancer.queue.discoClosed with
    | false =>
      rw [h.opened hc]
      simpa [Queue.updates] using updates_map (after env cap timeout ops).resolution.emitted []
    | true =>
      obtain ⟨c, -, -, g⟩ := h.closed hc
      rw [g, updates_map]
      simp [Queue.updates]
  rw [e]
  exact h.res.set

/-! ### The endpoints of the balancer -/

/-- **C112.** At all times, the endpoints among which the balancer chooses are exactly those that the control plane said last,
with the metadata that it gave. -/
theorem C112_endpoints_are_what_the_control_plane_says (ops : List Op) :
    let pool := (after env cap timeout ops).balancer.pool
    (∀ a, Assoc.lookup (env.code a) pool.endpoints =
      ((known env (events env cap timeout ops)).set a).map env.codeMeta) ∧
    ∀ x, Assoc.lookup x pool.endpoints ≠ none → ∃ a, env.code a = x := by
  have h := after_inv cap timeout hinj ops
  have e : (fun x => Assoc.lookup x (after env cap timeout ops).balancer.pool.endpoints) =
      Balancer.listed (hist env cap timeout ops) := by
    funext x
    have hav := h.avail
    rw [balancer_hist] at hav ⊢
    rw [(Balancer.parts cap timeout _).1, P2c.C11_endpoints_are_the_fold_of_updates, Balancer.target_heard,
      Balancer.heard_all cap timeout _ (.inr hav)]
    rfl
  obtain ⟨h1, h2⟩ := listed_known cap timeout hinj ops
  rw [← e] at h1 h2
  exact ⟨h1, h2⟩

omit hinj in
theorem known_quiet (evs more : List Event) (h : ∀ e ∈ more, ∀ m, e ≠ .said m) :
    (known env (evs ++ more)).set = (known env evs).set := by
  rw [known_append]
  generalize known env evs = k
  induction more generalizing k with
  | nil => rfl
  | cons e es ih =>
    rw [List.foldl_cons, ih (fun x hx => h x (List.mem_cons_of_mem _ hx))]
    cases e with
    | said m => exact absurd rfl (h _ (List.mem_cons_self ..) m)
    | _ => rfl

/-- **C112.** However often sessions are lost and begun, and however long the control plane is away, the balancer keeps the
endpoints it has for as long as the control plane says nothing about them. -/
theorem C112_endpoints_are_kept_while_the_control_plane_is_silent (ops more : List Op) (new : List Event)
    (he : events env cap timeout (ops ++ more) = events env cap timeout ops ++ new)
    (hn : ∀ e ∈ new, ∀ m, e ≠ .said m) (x : Nat) :
    Assoc.lookup x (after env cap timeout (ops ++ more)).balancer.pool.endpoints =
      Assoc.lookup x (after env cap timeout ops).balancer.pool.endpoints := by
  obtain ⟨h1, h2⟩ := C112_endpoints_are_what_the_control_plane_says cap timeout hinj ops
  obtain ⟨g1, g2⟩ := C112_endpoints_are_what_the_control_plane_says cap timeout hinj (ops ++ more)
  rw [he, known_quiet _ _ hn] at g1
  by_cases hx : ∃ a, env.code a = x
  · obtain ⟨a, rfl⟩ := hx
    rw [h1, g1]
  · have a1 := fun h => hx (h2 x h)
    have a2 := fun h => hx (g2 x h)
    rw [Decidable.not_not.1 a1, Decidable.not_not.1 a2]

omit hinj

theorem known_session (evs : List Event) :
    let k := known env evs
    (k.fresh = !(session evs).any (informs env)) ∧
    (k.fresh = false → k.set = (session evs).foldl (ApiResolve.EpSet.message env.parseUrl env.parseAuthority) (fun _ => none)) ∧
    (k.fresh = true → (session evs).foldl (ApiResolve.EpSet.message env.parseUrl env.parseAuthority) (fun _ => none) =
      fun _ => none) := by
  induction evs using snoc_induction with
  | nil => exact ⟨rfl, by simp [known], fun _ => rfl⟩
  | snoc evs e ih =>
    dsimp only at ih ⊢
    rw [known_append]
    simp only [List.foldl_cons, List.foldl_nil]
    cases e with
    | session =>
      have : session (evs ++ [.session]) = [] := by simp [session, List.foldl_append]
      rw [this]
      exact ⟨rfl, by simp [Known.see], fun _ => rfl⟩
    | failed c =>
      have : session (evs ++ [.failed c]) = session evs := by simp [session, List.foldl_append]
      rw [this]; exact ih
    | ended =>
      have : session (evs ++ [.ended]) = session evs := by simp [session, List.foldl_append]
      rw [this]; exact ih
    | said m =>
      have : session (evs ++ [.said m]) = session evs ++ [m] := by simp [session, List.foldl_append]
      rw [this, List.foldl_append, List.any_append]
      generalize known env evs = k at *
      obtain ⟨h1, h2, h3⟩ := ih
      obtain ⟨set, fresh⟩ := k
      dsimp only at h1 h2 h3
      cases fresh with
      | false =>
        have h1' : (session evs).any (informs env) = true := by simpa using h1.symm
        simp only [Known.see, Bool.false_eq_true, if_false, h1', Bool.true_or, Bool.not_true, List.foldl_cons, List.foldl_nil,
          ← h2 rfl, true_and]
        simp
      | true =>
        have h1' : (session evs).any (informs env) = false := by simpa using h1.symm
        rw [h3 rfl]
        cases hi : informs env m with
        | true => simp [Known.see, h1', hi]
        | false =>
          simp only [Known.see, if_true, hi, Bool.false_eq_true, if_false, h1', List.any_cons, List.any_nil, Bool.or_self,
            Bool.not_false, true_and, List.foldl_cons, List.foldl_nil]
          refine ⟨by simp, fun _ => ?_⟩
          rw [message_update]
          rw [informs_iff] at hi
          cases hu : mkUpdate env.parseUrl env.parseAuthority m with
          | none => rfl
          | some u =>
            rw [hu] at hi
            cases u with
            | remove addrs => funext a; simp [ApiResolve.EpSet.update]
            | _ => cases hi

/-- **C112.** Once the current session has said which endpoints there are, what the control plane said last is what this
session says, all of it from its beginning, and nothing of what earlier sessions said. -/
theorem C112_only_the_current_session_counts (evs : List Event) (h : (session evs).any (informs env) = true) :
    (known env evs).set =
      (session evs).foldl (ApiResolve.EpSet.message env.parseUrl env.parseAuthority) (fun _ => none) := by
  obtain ⟨h1, h2, -⟩ := known_session (env := env) evs
  exact h2 (by rw [h1, h]; rfl)

/-! ### Requests -/

theorem outs_mem (H plan : List Balancer.Op) (x : Balancer.Out)
    (h : x ∈ Balancer.outs.go (Balancer.after cap timeout H) plan) :
    ∃ pre o post, plan = pre ++ o :: post ∧ Balancer.answer cap timeout (H ++ pre) o = x := by
  induction plan generalizing H with
  | nil => cases h
  | cons o os ih =>
    rcases List.mem_cons.1 h with rfl | h
    · exact ⟨[], o, os, rfl, by simp [Balancer.answer]⟩
    · rw [← Balancer.after_snoc] at h
      obtain ⟨pre, p, post, e1, e2⟩ := ih _ h
      exact ⟨o :: pre, p, post, by rw [e1]; rfl, by rw [← e2]; simp⟩

/-- How a request comes to be sent. -/
theorem sent_how (ops : List Op) (o : Op) (os : List Balancer.Out) (id : Nat) (s : P2c.Svc)
    (h : answer env cap timeout ops o = .balancer os) (hs : .sent id s ∈ os) :
    ∃ as passes fired, o = .serve as passes fired ∧
      (after env cap timeout ops).plan env o = [.poll passes fired] ∧
      delivered ((after env cap timeout ops).asked env as).2.2 = none ∧
      Balancer.answer cap timeout (hist env cap timeout ops) (.poll passes fired) = .sent id s := by
  have hout : os = Balancer.outs.go (after env cap timeout ops).balancer ((after env cap timeout ops).plan env o) := by
    simp only [answer, World.step] at h
    split at h
    · cases h
    · injection h with h; exact h.symm
  rw [hout, balancer_hist] at hs
  obtain ⟨pre, x, post, e1, e2⟩ := outs_mem cap timeout _ _ _ hs
  obtain ⟨⟨passes, fired, rfl⟩, -⟩ := Balancer.sent_parts cap timeout _ _ _ _ e2
  have hmem : Balancer.Op.poll passes fired ∈ (after env cap timeout ops).plan env o := by rw [e1]; simp
  have hdel : ∀ r l, delivered r = some l → Balancer.Op.poll passes fired ∉ l := by
    intro r l hd
    cases r <;> simp only [delivered, Option.some.injEq, reduceCtorEq] at hd <;> subst hd <;> simp
  cases o with
  | other o =>
    simp only [World.plan] at hmem
    split at hmem
    · rename_i ho
      simp only [List.mem_singleton] at hmem
      subst hmem; cases ho
    · cases hmem
  | discover as =>
    simp only [World.plan] at hmem
    cases hd : delivered ((after env cap timeout ops).asked env as).2.2 with
    | none => rw [hd] at hmem; cases hmem
    | some l => rw [hd] at hmem; exact absurd hmem (hdel _ _ hd)
  | serve as passes' fired' =>
    simp only [World.plan] at hmem e1
    cases hd : delivered ((after env cap timeout ops).asked env as).2.2 with
    | some l => rw [hd] at hmem; exact absurd hmem (hdel _ _ hd)
    | none =>
      rw [hd] at hmem e1
      simp only [Option.getD_none, List.mem_singleton] at hmem
      injection hmem with h1 h2
      subst h1 h2
      simp only [Option.getD_none] at e1
      have : pre = [] := by
        cases pre with
        | nil => rfl
        | cons y ys => simp at e1
      subst this
      rw [List.append_nil] at e2
      exact ⟨as, passes, fired, rfl, by simp [World.plan, hd], hd, e2⟩

include hinj

/-- **C112.** A request is sent only to an address that the control plane lists, according to all that it has said up to then:
before the request is sent the control plane is asked once more, and has nothing to add. -/
theorem C112_requests_go_where_the_control_plane_says (ops : List Op) (o : Op) (os : List Balancer.Out) (id : Nat) (s : P2c.Svc)
    (h : answer env cap timeout ops o = .balancer os) (hs : .sent id s ∈ os) :
    (∃ a md, env.code a = s.addr ∧ (known env (events env cap timeout (ops ++ [o]))).set a = some md) ∧
    ∃ as passes fired, o = .serve as passes fired ∧ ((after env cap timeout ops).listens = true →
      (poll env (after env cap timeout ops).resolution as).2.2 = .pending) := by
  obtain ⟨as, passes, fired, rfl, hplan, hdel, hans⟩ := sent_how cap timeout ops o os id s h hs
  refine ⟨?_, as, passes, fired, rfl, ?_⟩
  · obtain ⟨hl, -⟩ := Balancer.C109_sent_to_a_listed_ready_endpoint cap timeout _ _ _ _ hans
    have he : Balancer.listed (hist env cap timeout (ops ++ [.serve as passes fired])) =
        Balancer.listed (hist env cap timeout ops) := by
      unfold Balancer.listed
      rw [hist_snoc, hplan, Balancer.arrivals_append]
      congr 2
      exact List.append_nil _
    obtain ⟨h1, h2⟩ := listed_known cap timeout hinj (ops ++ [.serve as passes fired])
    rw [he] at h1 h2
    obtain ⟨a, ha⟩ := h2 _ hl
    rw [← ha, h1] at hl
    cases hk : (known env (events env cap timeout (ops ++ [.serve as passes fired]))).set a with
    | none => rw [hk] at hl; exact absurd rfl hl
    | some md => exact ⟨a, md, ha, hk⟩
  · intro hlis
    have hnp := poll_ok hinj as (after_inv cap timeout hinj ops).res
    rw [World.asked, hlis, if_pos rfl] at hdel
    cases hr : (poll env (after env cap timeout ops).resolution as).2.2 with
    | pending => rfl
    | item u => rw [hr] at hdel; cases hdel
    | err e => rw [hr] at hdel; cases hdel
    | panic =>
      rw [hr] at hnp
      have := (after_inv cap timeout hinj ops).dead (hnp.panic rfl)
      rw [((listens_iff _).1 hlis).1] at this
      cases this

/-- **C112.** A connection made to an address that the control plane then takes off its list gets no request ever after, not
even if the address is listed again. -/
theorem C112_removed_endpoints_get_no_requests (pre post : List Op) (o : Op) (os : List Balancer.Out) (id : Nat) (s : P2c.Svc)
    (a : SockAddr) (ha : env.code a = s.addr) (hr : (known env (events env cap timeout pre)).set a = none)
    (hm : .made s ∈ (after env cap timeout pre).balancer.pool.log)
    (h : answer env cap timeout (pre ++ post) o = .balancer os) : .sent id s ∉ os := by
  intro hs
  obtain ⟨as, passes, fired, rfl, hplan, hdel, hans⟩ := sent_how cap timeout _ o os id s h hs
  obtain ⟨x, hx⟩ := hist_append env cap timeout pre post
  rw [hx] at hans
  rw [balancer_hist] at hm
  refine Balancer.C109_removed_endpoints_get_no_requests cap timeout _ x _ id s ?_ hm hans
  rw [← ha, (listed_known cap timeout hinj pre).1 a, hr]
  rfl

/-! ### Failures -/

/-- **C112.** The balancer gives up following the control plane only if a session, or a request for one, failed with one of
the two statuses that reject the target; no other failure, and no end of a session, stops it. -/
theorem C112_gives_up_only_when_rejected (ops : List Op)
    (h : (after env cap timeout ops).balancer.queue.discoClosed = true) :
    .failed .invalidArgument ∈ events env cap timeout ops ∨ .failed .failedPrecondition ∈ events env cap timeout ops := by
  obtain ⟨c, hc, hm, -⟩ := (after_inv cap timeout hinj ops).closed h
  rcases hc with rfl | rfl
  · exact .inl hm
  · exact .inr hm

/-- **C112.** When it does give up, it fails, with this status, the requests it holds and all later ones. -/
theorem C112_a_rejection_fails_the_requests (ops : List Op) (as : List Answers) (e : Nat)
    (hl : (after env cap timeout ops).listens = true)
    (hr : (poll env (after env cap timeout ops).resolution as).2.2 = .err e) (o : Op)
    (ho : o = .discover as ∨ ∃ passes fired, o = .serve as passes fired) :
    (after env cap timeout (ops ++ [o])).balancer.queue.terminal = some e ∧
    ∃ c, (c = .invalidArgument ∨ c = .failedPrecondition) ∧ e = errNo c ∧
      .failed c ∈ events env cap timeout (ops ++ [o]) := by
  have hi := after_inv cap timeout hinj ops
  obtain ⟨hc, hp⟩ := (listens_iff _).1 hl
  obtain ⟨-, -, t3⟩ := take_step (after env cap timeout ops).balancer (.fail e) hi.avail hc hp
  obtain ⟨c, r1, r2, r3⟩ := (poll_ok hinj as hi.res).err e (by rw [hr])
  refine ⟨?_, c, r1, r2, ?_⟩
  · rw [after_snoc]
    rcases ho with rfl | ⟨passes, fired, rfl⟩
    · simp only [World.step, World.plan, World.asked, hl, if_true, hr, delivered, Option.getD_some, List.foldl_cons, List.foldl_nil]
      exact t3 e rfl
    · simp only [World.step, World.plan, World.asked, hl, if_true, hr, delivered, Option.getD_some, List.foldl_cons, List.foldl_nil]
      exact t3 e rfl
  · unfold events
    rw [after_snoc]
    rcases ho with rfl | ⟨passes, fired, rfl⟩ <;>
      simpa only [World.step, World.polled, World.asked, hl, if_true] using r3

/-- **C112.** The resolution is never polled after it has failed, and nothing panics. -/
theorem C112_never_panics (ops : List Op) (o : Op) :
    ∃ os, answer env cap timeout ops o = .balancer os ∧ .panic ∉ os ∧ .queue .panic ∉ os := by
  have hi := after_inv cap timeout hinj ops
  have hnp : ((after env cap timeout ops).polled env o).2.2 ≠ .panic := by
    have key : ∀ as, ((after env cap timeout ops).asked env as).2.2 ≠ .panic := by
      intro as hx
      unfold World.asked at hx
      split at hx
      · rename_i hl
        have hd := (poll_ok hinj as hi.res).panic (by rw [hx])
        have := hi.dead hd
        rw [((listens_iff _).1 hl).1] at this
        cases this
      · cases hx
    cases o with
    | other o => simp [World.polled]
    | discover as => exact key as
    | serve as _ _ => exact key as
  refine ⟨Balancer.outs.go (after env cap timeout ops).balancer ((after env cap timeout ops).plan env o),
    by simp only [answer, World.step, hnp, if_false], ?_, ?_⟩
  · intro hx
    rw [balancer_hist] at hx
    obtain ⟨pre, x, post, -, e2⟩ := outs_mem cap timeout _ _ _ hx
    exact (Balancer.C109_never_panics cap timeout _ _).1 e2
  · intro hx
    rw [balancer_hist] at hx
    obtain ⟨pre, x, post, -, e2⟩ := outs_mem cap timeout _ _ _ hx
    exact (Balancer.C109_never_panics cap timeout _ _).2 e2

omit hinj

/-! ### Cases -/

/-- The number of a list of numbers. -/
def listCode : List Nat → Nat
  | [] => 0
  | x :: xs => Nat.pair x (listCode xs) + 1

/-- A numbering of addresses. -/
def addrCode : SockAddr → Nat
  | .v4 bits port => 2 * Nat.pair bits port
  | .v6 octets port => 2 * Nat.pair (listCode octets) port + 1

theorem listCode_inj : ∀ a b, listCode a = listCode b → a = b := by
  intro a
  induction a with
  | nil => intro b h; cases b <;> simp [listCode] at h ⊢
  | cons x xs ih =>
    intro b h
    cases b with
    | nil => simp [listCode] at h
    | cons y ys =>
      simp only [listCode, Nat.add_right_cancel_iff, Nat.pair_eq_pair] at h
      rw [h.1, ih _ h.2]

/-- There are numberings as are asked for. -/
theorem addrCode_inj : ∀ a b, addrCode a = addrCode b → a = b := by
  intro a b h
  cases a <;> cases b <;> simp only [addrCode] at h
  · have := Nat.pair_eq_pair.1 (Nat.eq_of_mul_eq_mul_left (by decide) h)
    rw [this.1, this.2]
  · omega
  · omega
  · have := Nat.pair_eq_pair.1 (Nat.eq_of_mul_eq_mul_left (by decide : 0 < 2) (Nat.succ.inj h))
    rw [listCode_inj _ _ this.1, this.2]

/-- Metadata are numbered by their weights, which is enough for the case below. -/
def caseEnv : Env := ⟨some, some, addrCode, Metadata.weight⟩

def entry (ip weight : Nat) : ApiResolve.ApiWeightedAddr := ⟨some ⟨some (some (.v4 ip)), 80⟩, weight, [], none, none, none, none⟩

/-- What the control plane answers if asked: in each round the same, whether asked for a session or for a message. -/
def saying (m : Option ApiUpdate) : Answers := ⟨.ok, .message m, .more⟩
def silent : Answers := ⟨.ok, .pending, .more⟩
def gone (c : Code) : Answers := ⟨.err c, .err c, .more⟩

/-- A session begins and lists two endpoints; a request is sent to the first. The control plane goes away, and a second request
is sent to the other. A new session begins with nothing that can be read, then says that there is but one endpoint, the
second; a third request is sent there. At last the target is rejected. -/
abbrev life : List Op :=
  [.discover [silent, saying (some (.add [entry 1 10, entry 2 20] []))],
   .other (.plain .reserve), .other (.plain .send), .other (.plain .count), .other (.plain .recv),
   .serve [silent] [{ finished := [(addrCode (.v4 1 80), true), (addrCode (.v4 2 80), true)] }] false,
   .discover [gone .unavailable, silent, ⟨.ok, .pending, .pending⟩],
   .other (.plain .reserve), .other (.plain .send), .other (.plain .count), .other (.plain .recv),
   .serve [⟨.ok, .pending, .pending⟩] [{}] false,
   .discover [silent, silent, silent, saying (some (.add [⟨none, 1, [], none, none, none, none⟩] [])),
     saying (some (.add [entry 2 20] []))],
   .other (.plain .reserve), .other (.plain .send), .other (.plain .count), .other (.plain .recv),
   .serve [silent] [{ finished := [(addrCode (.v4 2 80), true)] }] false,
   .discover [gone .invalidArgument, silent]]

def sentIn (out : Out) : List (Nat × P2c.Svc) :=
  match out with
  | .balancer os => Balancer.sends os
  | .panic => []

example : (sentIn (answer caseEnv 4 3 (life.take 5) life[5]), sentIn (answer caseEnv 4 3 (life.take 11) life[11]),
    sentIn (answer caseEnv 4 3 (life.take 17) life[17])) =
    ([(0, ⟨0, addrCode (.v4 1 80), 10⟩)], [(1, ⟨1, addrCode (.v4 2 80), 20⟩)], [(2, ⟨1, addrCode (.v4 2 80), 20⟩)]) := by
  decide +kernel
-- while the control plane is away
example : ((known caseEnv (events caseEnv 4 3 (life.take 12))).set (.v4 1 80)).map Metadata.weight = some 10 ∧
    (known caseEnv (events caseEnv 4 3 (life.take 12))).fresh = false := by decide +kernel
-- and when it is back
example : ((known caseEnv (events caseEnv 4 3 (life.take 13))).set (.v4 1 80)).map Metadata.weight = none ∧
    ((known caseEnv (events caseEnv 4 3 (life.take 13))).set (.v4 2 80)).map Metadata.weight = some 20 ∧
    (session (events caseEnv 4 3 (life.take 13))).any (informs caseEnv) = true ∧
    .made ⟨0, addrCode (.v4 1 80), 10⟩ ∈ (after caseEnv 4 3 (life.take 13)).balancer.pool.log := by decide +kernel
-- and when the target is rejected
example : (after caseEnv 4 3 (life.take 18)).listens = true ∧
    (poll caseEnv (after caseEnv 4 3 (life.take 18)).resolution [gone .invalidArgument, silent]).2.2 =
      .err (errNo .invalidArgument) ∧
    (after caseEnv 4 3 life).balancer.queue.discoClosed = true ∧
    (after caseEnv 4 3 life).balancer.queue.terminal = some (errNo .invalidArgument) := by decide +kernel

/-- A session lists two endpoints; the next begins by removing one of them. -/
abbrev removing : List Op :=
  [.discover [silent, saying (some (.add [entry 1 10, entry 2 20] []))],
   .discover [gone .unavailable, silent, silent, silent, silent, saying (some (.remove [⟨some (some (.v4 1)), 80⟩])), silent]]

/-- **C112**, limit. A new session that begins by removing an endpoint is not heeded until it lists some: until then
the balancer goes on using the endpoint that was removed. -/
theorem C112_limit_a_removal_that_begins_a_session_is_ignored :
    .said (some (.remove [⟨some (some (.v4 1)), 80⟩])) ∈ (events caseEnv 4 3 removing).getLast? ∧
    Assoc.lookup (addrCode (.v4 1 80)) (after caseEnv 4 3 removing).balancer.pool.endpoints = some 10 := by
  exact ⟨rfl, by decide +kernel⟩

end Verif.Destination
