import Verif.Destination.Props
import Verif.Balancer.Served

/-!
# C112: requests can be sent while the control plane is away
-/

namespace Verif.Destination

open Verif.ApiResolve (SockAddr Metadata ApiUpdate)
open Verif.StreamWatch (Code)

/-! ### Specification -/

/-- What came of each operation of a history. -/
def outs (env : Env) (cap timeout : Nat) : List Op → List Out := go (World.init cap timeout)
where
  go (w : World) : List Op → List Out
    | [] => []
    | o :: os => (w.step env o).2 :: go (w.step env o).1 os

/-- Is the request among those accepted? -/
def Accepted (os : List Out) (id : Nat) : Prop := ∃ bs, .balancer bs ∈ os ∧ .queue (.accepted id) ∈ bs

/-- Was the request sent to an endpoint? -/
def Sent (os : List Out) (id : Nat) : Prop := ∃ bs s, .balancer bs ∈ os ∧ .sent id s ∈ bs

/-- Steps of the worker that have nothing of the control plane: it takes a request, or polls its pool after a poll of the
resolution that came back with nothing. -/
def Op.away : Op → Prop
  | .other (.plain .recv) => True
  | .serve [] _ _ => True
  | _ => False

/-! ### Proofs -/

variable {env : Env} (cap timeout : Nat) (hinj : ∀ a b, env.code a = env.code b → a = b)

theorem outs_snoc (ops : List Op) (o : Op) : outs env cap timeout (ops ++ [o]) =
    outs env cap timeout ops ++ [answer env cap timeout ops o] := by
  have : ∀ (w : World), outs.go env w (ops ++ [o]) = outs.go env w ops ++
      [((ops.foldl (fun w o => (w.step env o).1) w).step env o).2] := by
    induction ops with
    | nil => intro w; rfl
    | cons x xs ih => intro w; simp only [List.cons_append, outs.go, List.foldl_cons, ih]
  exact this _

include hinj in
/-- What the balancer did, step by step. -/
theorem outs_hist (ops : List Op) (x : Balancer.Out) :
    x ∈ Balancer.outs cap timeout (hist env cap timeout ops) ↔ ∃ bs, .balancer bs ∈ outs env cap timeout ops ∧ x ∈ bs := by
  induction ops using snoc_induction with
  | nil => simp [hist, hist.go, outs, outs.go, Balancer.outs, Balancer.outs.go]
  | snoc ops o ih =>
    rw [hist_snoc, outs_snoc]
    obtain ⟨os, ho, -⟩ := C112_never_panics cap timeout hinj ops o
    have hb : os = Balancer.outs.go (after env cap timeout ops).balancer ((after env cap timeout ops).plan env o) := by
      simp only [answer, World.step] at ho
      split at ho
      · cases ho
      · injection ho with ho; exact ho.symm
    have hsp : Balancer.outs cap timeout (hist env cap timeout ops ++ (after env cap timeout ops).plan env o) =
        Balancer.outs cap timeout (hist env cap timeout ops) ++ os := by
      unfold Balancer.outs
      rw [Balancer.go_append, hb, balancer_hist]
      rfl
    rw [hsp, List.mem_append, ih, ho]
    constructor
    · rintro (⟨bs, h1, h2⟩ | h)
      · exact ⟨bs, List.mem_append_left _ h1, h2⟩
      · exact ⟨os, List.mem_append_right _ (by simp), h⟩
    · rintro ⟨bs, h1, h2⟩
      rcases List.mem_append.1 h1 with h1 | h1
      · exact .inl ⟨bs, h1, h2⟩
      · right
        have := List.mem_singleton.1 h1
        injection this with this
        rw [← this]; exact h2

/-- The balancer's steps can be made without the control plane. -/
theorem lift (more : List Balancer.Op) (ops : List Op) (h : ∀ o ∈ more, o.works ∧ o ≠ .discover) :
    ∃ l : List Op, (∀ o ∈ l, o.away) ∧ hist env cap timeout (ops ++ l) = hist env cap timeout ops ++ more ∧
      events env cap timeout (ops ++ l) = events env cap timeout ops := by
  induction more generalizing ops with
  | nil => exact ⟨[], by simp, by simp, by simp⟩
  | cons b more ih =>
    have hb : ∃ o : Op, o.away ∧ (after env cap timeout ops).plan env o = [b] ∧
        ((after env cap timeout ops).polled env o).2.1 = [] := by
      obtain ⟨h1, h2⟩ := h b (by simp)
      have ha : (after env cap timeout ops).asked env [] = ((after env cap timeout ops).resolution, [], .pending) := by
        unfold World.asked
        split <;> rfl
      cases b with
      | discover => exact absurd rfl h2
      | plain q =>
        cases q with
        | recv => exact ⟨.other (.plain .recv), trivial, rfl, rfl⟩
        | _ => cases h1
      | poll ps f =>
        refine ⟨.serve [] ps f, trivial, ?_, ?_⟩
        · simp only [World.plan, ha]; rfl
        · simp only [World.polled, ha]
      | drive fin ps => cases h1
    obtain ⟨o, g1, g2, g3⟩ := hb
    obtain ⟨l, k1, k2, k3⟩ := ih (ops ++ [o]) (fun x hx => h x (by simp [hx]))
    have he : ops ++ o :: l = ops ++ [o] ++ l := by simp
    refine ⟨o :: l, fun x hx => ?_, ?_, ?_⟩
    · rcases List.mem_cons.1 hx with rfl | hx
      · exact g1
      · exact k1 x hx
    · rw [he, k2, hist_snoc, g2]; simp
    · rw [he, k3]
      unfold events
      rw [after_snoc]
      show (after env cap timeout ops).events ++ ((after env cap timeout ops).polled env o).2.1 = _
      rw [g3, List.append_nil]

include hinj in
/-- **C112.** An outage of the control plane holds up no request: as long as the control plane has listed an address, has not
rejected the target, and no endpoint has failed, the balancer can, without another word from the control plane, send every
request that was accepted and is not answered yet. -/
theorem C112_an_outage_holds_up_no_request (ops : List Op) (a : SockAddr)
    (ha : (known env (events env cap timeout ops)).set a ≠ none)
    (hr : .failed .invalidArgument ∉ events env cap timeout ops ∧ .failed .failedPrecondition ∉ events env cap timeout ops)
    (hf : ∀ i, P2c.Ev.answered i .failed ∉ (after env cap timeout ops).balancer.pool.log) :
    ∃ more : List Op, (∀ o ∈ more, o.away) ∧ events env cap timeout (ops ++ more) = events env cap timeout ops ∧
      ∀ id, Accepted (outs env cap timeout ops) id →
        (∃ v, (id, v) ∈ (after env cap timeout ops).balancer.queue.answers) ∨ Sent (outs env cap timeout (ops ++ more)) id := by
  have hi := after_inv cap timeout hinj ops
  have hc : (after env cap timeout ops).balancer.queue.discoClosed = false := by
    cases e : (after env cap timeout ops).balancer.queue.discoClosed with
    | false => rfl
    | true =>
      rcases C112_gives_up_only_when_rejected cap timeout hinj ops e with h | h
      · exact absurd h hr.1
      · exact absurd h hr.2
  have hav := hi.avail
  have hno : ∀ e, Queue.Item.fail e ∉ Balancer.arrivals (hist env cap timeout ops) := by
    intro e h
    rw [hi.opened hc] at h
    obtain ⟨u, -, hu⟩ := List.mem_map.1 h
    cases hu
  have hl : Balancer.listed (hist env cap timeout ops) (env.code a) ≠ none := by
    rw [(listed_known cap timeout hinj ops).1 a]
    cases hk : (known env (events env cap timeout ops)).set a with
    | none => exact absurd hk ha
    | some md => simp
  rw [balancer_hist] at hf hav
  obtain ⟨more, h1, h2⟩ := Balancer.can_be_sent cap timeout _ _ hl hf hno
  obtain ⟨l, k1, k2, k3⟩ := lift (env := env) cap timeout more ops (fun o ho => ⟨(h1 o ho).1, (h1 o ho).2 hav⟩)
  refine ⟨l, k1, k3, fun id hid => ?_⟩
  rw [balancer_hist]
  rcases h2 id ((outs_hist cap timeout hinj ops _).2 hid) with h | ⟨s, hs⟩
  · exact .inl h
  · right
    rw [← k2] at hs
    have hm : Balancer.Out.sent id s ∈ Balancer.outs cap timeout (hist env cap timeout (ops ++ l)) := by
      unfold Balancer.sends at hs
      obtain ⟨x, hx, he⟩ := List.mem_filterMap.1 hs
      cases x <;> simp at he
      obtain ⟨rfl, rfl⟩ := he
      exact hx
    obtain ⟨bs, b1, b2⟩ := (outs_hist cap timeout hinj _ _).1 hm
    exact ⟨bs, s, b1, b2⟩

/-- The control plane has gone away while a request waits. -/
abbrev outage : List Op := life.take 9

example : ((known caseEnv (events caseEnv 4 3 outage)).set (.v4 2 80)).map Metadata.weight = some 20 ∧
    (after caseEnv 4 3 outage).balancer.queue.queue = [1] ∧
    Balancer.outs.go (after caseEnv 4 3 (life.take 8)).balancer [.plain .send] = [.queue (.accepted 1)] ∧
    (after caseEnv 4 3 outage).balancer.queue.answers = [(0, .dispatched)] := by decide +kernel

example : .failed .unavailable ∈ (events caseEnv 4 3 outage).getLast? ∧
    ((events caseEnv 4 3 outage).all fun e => match e with
      | .failed .invalidArgument => false
      | .failed .failedPrecondition => false
      | _ => true) = true ∧
    ((after caseEnv 4 3 outage).balancer.pool.log.all fun e => match e with | .answered _ .failed => false | _ => true) = true := by
  exact ⟨rfl, by decide +kernel, by decide +kernel⟩

example : sentIn (answer caseEnv 4 3 (outage ++ [.other (.plain .recv)]) (.serve [] [{}] false)) =
    [(1, ⟨1, addrCode (.v4 2 80), 20⟩)] := by decide +kernel

end Verif.Destination
