import Verif.Lifecycle.Model
import Verif.Admin.Props
import Verif.Identity.Props

/-!
# C96: the process starts once it has an identity, and stops without cutting anything off before its time
-/

namespace Verif.Lifecycle

open Verif

/-! ## Specification -/

/-- The certificates that were obtained. -/
def attempts : List Op → List Identity.Attempt
  | [] => []
  | .certificate a :: ops => a :: attempts ops
  | _ :: ops => attempts ops

/-- A valid certificate was obtained. -/
def Certified (ext : Identity.Ext) (s : Identity.Store) (ops : List Op) : Prop :=
  ∃ a ∈ attempts ops, Identity.Valid ext s.roots s.serverId a

section
variable {F : Type}

/-- Something tells the process to stop: a signal, or a client on the machine itself, if that is enabled. -/
def Stop (c : Cfg F) : Op → Prop
  | .sigterm => True
  | .request _ r => Admin.AsksToStop r ∧ Admin.Local r ∧ c.admin.enableShutdown = true
  | _ => False

/-- `main` is over. -/
def Over (st : St F) : Prop := ∃ since t g, st.main = .exited since t g

/-- A connection is open. -/
def Open (st : St F) (s : Server) (id : Nat) : Prop := ∃ cn ∈ st.conns, cn.server = s ∧ cn.id = id

/-- The poll of `main` at which it learned that it shall stop, at this time. -/
def Told (c : Cfg F) (s0 : St F) (ops : List Op) (since : Nat) : Prop :=
  ∃ pre post, ops = pre ++ .pollMain :: post ∧ (run c s0 pre).main = .running ∧ (run c s0 pre).now = since ∧ ∃ o ∈ pre, Stop c o

/-! ## Lemmas -/

theorem run_snoc (c : Cfg F) (st : St F) (ops : List Op) (o : Op) : run c st (ops ++ [o]) = step c (run c st ops) o := by
  simp [run]

theorem run_append (c : Cfg F) (st : St F) (a b : List Op) : run c st (a ++ b) = run c (run c st a) b := by
  simp [run]

theorem run_nil (c : Cfg F) (st : St F) : run c st [] = st := rfl

theorem run_cons (c : Cfg F) (st : St F) (o : Op) (ops : List Op) : run c st (o :: ops) = run c (step c st o) ops := rfl

theorem attempts_append (a b : List Op) : attempts (a ++ b) = attempts a ++ attempts b := by
  induction a with
  | nil => rfl
  | cons o a ih => cases o <;> simp [attempts, ih]

theorem set_ready (ext : Identity.Ext) (cr : Identity.Creds) (a : Identity.Attempt) (h : cr.ready = true) :
    (cr.setCertificate ext a).1.ready = true := by
  unfold Identity.Creds.setCertificate Identity.Creds.notifyReady
  cases Identity.Store.setCertificate ext cr.store a <;> simp_all

theorem certified_mono (ext : Identity.Ext) (s : Identity.Store) (a b : List Op) (h : Certified ext s a) : Certified ext s (a ++ b) := by
  obtain ⟨x, hx, hv⟩ := h
  exact ⟨x, by rw [attempts_append]; exact List.mem_append_left _ hx, hv⟩

theorem Told.mono {c : Cfg F} {s0 : St F} {ops : List Op} {since : Nat} (o : Op) (h : Told c s0 ops since) :
    Told c s0 (ops ++ [o]) since := by
  obtain ⟨pre, post, rfl, h1, h2, h3⟩ := h
  exact ⟨pre, post ++ [o], by simp, h1, h2, h3⟩

theorem step_over (c : Cfg F) (st : St F) (o : Op) (h : Over st) : step c st o = st := by
  obtain ⟨a, b, g, h⟩ := h
  unfold step
  rw [h]

theorem run_over (c : Cfg F) (ops : List Op) : ∀ (st : St F), Over st → run c st ops = st := by
  induction ops with
  | nil => intro st _; rfl
  | cons o ops ih => intro st h; show run c (step c st o) ops = st; rw [step_over c st o h]; exact ih st h

/-- What is known of every reachable state. -/
structure Inv (c : Cfg F) (s : Identity.Store) (s0 : St F) (ops : List Op) (st : St F) : Prop where
  creds : ¬ Over st → st.creds = (Identity.Creds.new s).run c.ext (attempts ops)
  why : st.creds.ready = true → Certified c.ext s ops
  latch : st.proc.latches = 0 → st.creds.ready = true
  one : st.proc.latches ≤ 1
  start : st.starting = false → st.creds.ready = true
  waiting : ∀ sv, st.loops sv = .waiting ↔ st.starting = true ∧ (sv = .inbound ∨ sv = .outbound)
  log : ∀ p ∈ st.log, p.1 = .inbound ∨ p.1 = .outbound → st.creds.ready = true
  listening : st.proc.listening = true
  sig : st.sigterm = true → Op.sigterm ∈ ops
  asked : st.proc.asked ≠ 0 → ∃ o ∈ ops, Stop c o
  signalled : st.signalled = true ↔ st.main ≠ .running
  draining : ∀ t, st.main = .draining t → t ≤ st.now ∧ Told c s0 ops t
  exited : ∀ since t g, st.main = .exited since t g → t = st.now ∧ since ≤ t ∧ Told c s0 ops since ∧
    (g = true → held st = false) ∧ (g = false → held st = true ∧ since + c.grace ≤ t)
  told : ∀ cn ∈ st.conns, cn.told = true → st.signalled = true
  gone : ∀ sv, st.loops sv = .ended → st.signalled = true ∨ (sv = .tap ∧ c.tap = false)

theorem serve_listening (x : Admin.Env F) (p : Admin.Proc F) (r : Admin.Req) : (Admin.serve x p r).2.listening = p.listening := by
  by_cases h : Admin.Local r
  · unfold Admin.serve
    cases Admin.endpointOf x r.path <;> dsimp only
    all_goals try rfl
    all_goals (repeat' split)
    all_goals try rfl
    all_goals first
      | (unfold Admin.levelServe; (repeat' split) <;> rfl)
      | (unfold Admin.streamServe Admin.streamStart; (repeat' split) <;> rfl)
      | (unfold Admin.shutdown; (repeat' split) <;> rfl)
  · rw [Admin.C95_others_change_nothing x p r h]

theorem drainStep_same (c : Cfg F) (st : St F) (since : Nat) :
    ∃ m, drainStep c st since = { st with main := m } ∧
      ((m = .exited since st.now true ∧ held st = false) ∨ (m = .exited since st.now false ∧ held st = true ∧ since + c.grace ≤ st.now) ∨
        (m = st.main ∧ held st = true ∧ ¬ since + c.grace ≤ st.now)) := by
  unfold drainStep
  cases hh : held st
  · exact ⟨_, rfl, .inl ⟨rfl, rfl⟩⟩
  · by_cases hg : since + c.grace ≤ st.now
    · exact ⟨_, by simp [hg], .inr (.inl ⟨rfl, rfl, hg⟩)⟩
    · exact ⟨st.main, by simp [hg], .inr (.inr ⟨rfl, rfl, hg⟩)⟩

theorem inv_init (c : Cfg F) (s : Identity.Store) (l : Option (Option F)) : Inv c s (init c s l) [] (init c s l) := by
  constructor
  · intro _; rfl
  · intro h; cases h
  · intro h; cases h
  · exact Nat.le_refl _
  · intro h; cases h
  · intro sv; cases sv <;> simp [init]; split <;> simp
  · intro p hp; cases hp
  · rfl
  · intro h; cases h
  · intro h; exact absurd rfl h
  · simp [init]
  · intro t h; cases h
  · intro a b g h; cases h
  · intro cn h; cases h
  · intro sv; cases sv <;> simp [init]

/-- Nothing changes. -/
theorem Inv.stay {c : Cfg F} {s : Identity.Store} {s0 st : St F} {ops : List Op} (h : Inv c s s0 ops st) (o : Op)
    (ho : Over st ∨ ∀ a, o ≠ .certificate a) : Inv c s s0 (ops ++ [o]) st where
  creds hv := by
    have hn : attempts [o] = [] := by
      rcases ho with ho | ho
      · exact absurd ho hv
      · cases o <;> first | rfl | exact absurd rfl (ho _)
    rw [attempts_append, hn, List.append_nil]; exact h.creds hv
  why hr := certified_mono _ _ _ _ (h.why hr)
  latch := h.latch
  one := h.one
  start := h.start
  waiting := h.waiting
  log := h.log
  listening := h.listening
  sig hs := List.mem_append_left _ (h.sig hs)
  asked ha := by obtain ⟨o', ho', hs⟩ := h.asked ha; exact ⟨o', List.mem_append_left _ ho', hs⟩
  signalled := h.signalled
  draining t ht := ⟨(h.draining t ht).1, (h.draining t ht).2.mono o⟩
  exited a b g hm := by
    obtain ⟨h1, h2, h3, h4⟩ := h.exited a b g hm
    exact ⟨h1, h2, h3.mono o, h4⟩
  told := h.told
  gone := h.gone

theorem inv_step (c : Cfg F) (s : Identity.Store) (s0 : St F) (ops : List Op) (o : Op) (h : Inv c s s0 ops (run c s0 ops)) :
    Inv c s s0 (ops ++ [o]) (step c (run c s0 ops) o) := by
  generalize hst : run c s0 ops = st at h
  by_cases hov : Over st
  · rw [step_over c st o hov]; exact h.stay o (.inl hov)
  · have hex : ∀ a b g, st.main ≠ .exited a b g := fun a b g e => hov ⟨a, b, g, e⟩
    have hstep : ∀ o', step c st o' = (match o' with
        | .connect s id => { st with backlog := fun s' => if s' = s ∧ st.loops s ≠ .ended then st.backlog s' ++ [id] else st.backlog s' }
        | .pollLoop s first k => pollLoop st s first k
        | .pollHttp s id => pollHttp st s id
        | .close s id => { st with conns := st.conns.filter fun c => ¬ (c.server = s ∧ c.id = id) }
        | .upgrade s id => if st.conns.any (fun c => c.server = s ∧ c.id = id) then { st with tunnels := st.tunnels ++ [id] } else st
        | .tunnelDone id => { st with tunnels := st.tunnels.filter (· ≠ id) }
        | .certificate a => { st with creds := (st.creds.setCertificate c.ext a).1 }
        | .pollLatch => pollLatch st
        | .pollStart => pollStart st
        | .request id r =>
          if st.conns.any (fun c => c.server = .admin ∧ c.id = id) then { st with proc := (Admin.serve c.admin st.proc r).2 } else st
        | .sigterm => { st with sigterm := true }
        | .pollMain => pollMain c st
        | .tick d => { st with now := st.now + d }) := by
      intro o'
      unfold step
      cases hm : st.main with
      | exited a b g => exact absurd hm (hex a b g)
      | running => rfl
      | draining t => rfl
    rw [hstep]
    cases o with
    | certificate a =>
      dsimp only
      have hcr := h.creds hov
      refine ⟨fun _ => ?_, fun hr => ?_, fun hl => set_ready _ _ _ (h.latch hl), h.one, fun hl => set_ready _ _ _ (h.start hl), h.waiting,
        fun p hp hs => set_ready _ _ _ (h.log p hp hs), h.listening, fun hs => List.mem_append_left _ (h.sig hs),
        fun ha => (h.asked ha).imp fun o' ho' => ⟨List.mem_append_left _ ho'.1, ho'.2⟩, h.signalled,
        fun t ht => ⟨(h.draining t ht).1, (h.draining t ht).2.mono _⟩, fun a b g hm => absurd hm (hex a b g), h.told, h.gone⟩
      · rw [attempts_append, show attempts [Op.certificate a] = [a] from rfl, Identity.Creds.run_snoc, ← hcr]
      · have : (st.creds.setCertificate c.ext a).1.ready = true := hr
        rw [hcr, ← Identity.Creds.run_snoc, Identity.C84_ready] at this
        unfold Certified
        rw [attempts_append]; exact this
    | connect sv id =>
      have k := h.stay (.connect sv id) (.inr (by simp))
      exact ⟨k.creds, k.why, k.latch, k.one, k.start, k.waiting, k.log, k.listening, k.sig, k.asked, k.signalled, k.draining,
        fun a b g hm => absurd hm (hex a b g), k.told, k.gone⟩
    | sigterm =>
      have k := h.stay .sigterm (.inr (by simp))
      exact ⟨k.creds, k.why, k.latch, k.one, k.start, k.waiting, k.log, k.listening, fun _ => by simp, k.asked, k.signalled, k.draining,
        fun a b g hm => absurd hm (hex a b g), k.told, k.gone⟩
    | tick d =>
      have k := h.stay (.tick d) (.inr (by simp))
      exact ⟨k.creds, k.why, k.latch, k.one, k.start, k.waiting, k.log, k.listening, k.sig, k.asked, k.signalled,
        fun t ht => ⟨Nat.le_trans (k.draining t ht).1 (Nat.le_add_right _ _), (k.draining t ht).2⟩,
        fun a b g hm => absurd hm (hex a b g), k.told, k.gone⟩
    | tunnelDone id =>
      have k := h.stay (.tunnelDone id) (.inr (by simp))
      exact ⟨k.creds, k.why, k.latch, k.one, k.start, k.waiting, k.log, k.listening, k.sig, k.asked, k.signalled, k.draining,
        fun a b g hm => absurd hm (hex a b g), k.told, k.gone⟩
    | close sv id =>
      have k := h.stay (.close sv id) (.inr (by simp))
      exact ⟨k.creds, k.why, k.latch, k.one, k.start, k.waiting, k.log, k.listening, k.sig, k.asked, k.signalled, k.draining,
        fun a b g hm => absurd hm (hex a b g), fun cn hcn => k.told cn (List.mem_filter.1 hcn).1, k.gone⟩
    | upgrade sv id =>
      have k := h.stay (.upgrade sv id) (.inr (by simp))
      dsimp only
      split
      · exact ⟨k.creds, k.why, k.latch, k.one, k.start, k.waiting, k.log, k.listening, k.sig, k.asked, k.signalled, k.draining,
          fun a b g hm => absurd hm (hex a b g), k.told, k.gone⟩
      · exact k
    | pollHttp sv id =>
      have k := h.stay (.pollHttp sv id) (.inr (by simp))
      dsimp only [pollHttp]
      split
      · rename_i hsig
        exact ⟨k.creds, k.why, k.latch, k.one, k.start, k.waiting, k.log, k.listening, k.sig, k.asked, k.signalled, k.draining,
          fun a b g hm => absurd hm (hex a b g), fun _ _ _ => hsig, k.gone⟩
      · exact k
    | pollLatch =>
      have k := h.stay .pollLatch (.inr (by simp))
      dsimp only [pollLatch]
      split
      · rename_i hr
        exact ⟨k.creds, k.why, fun _ => hr, Nat.le_trans (Nat.sub_le _ _) k.one, k.start, k.waiting, k.log, k.listening, k.sig, k.asked,
          k.signalled, k.draining, fun a b g hm => absurd hm (hex a b g), k.told, k.gone⟩
      · exact k
    | pollStart =>
      have k := h.stay .pollStart (.inr (by simp))
      dsimp only [pollStart]
      split
      · rename_i hr
        rw [Bool.and_eq_true] at hr
        refine ⟨k.creds, k.why, k.latch, k.one, fun _ => hr.2, fun sv => ?_, k.log, k.listening, k.sig, k.asked,
          k.signalled, k.draining, fun a b g hm => absurd hm (hex a b g), k.told, fun sv => ?_⟩
        · have := k.waiting sv
          cases sv <;> simp_all
        · have := k.gone sv
          cases sv <;> simp_all
      · exact k
    | request id r =>
      have k := h.stay (.request id r) (.inr (by simp))
      dsimp only
      split
      · refine ⟨k.creds, k.why, fun hl => k.latch (by rw [← Admin.serve_latches c.admin st.proc r]; exact hl), ?_, k.start, k.waiting,
          k.log, ?_, k.sig, fun ha => ?_, k.signalled, k.draining, fun a b g hm => absurd hm (hex a b g), k.told, k.gone⟩
        · rw [show (Admin.serve c.admin st.proc r).2.latches = _ from Admin.serve_latches c.admin st.proc r]; exact k.one
        · exact (serve_listening c.admin st.proc r).trans k.listening
        · by_cases he : (Admin.serve c.admin st.proc r).2.asked = st.proc.asked
          · exact k.asked (by rw [← he]; exact ha)
          · have := (Admin.C95_shutdown c.admin st.proc r).2.1.1 he
            exact ⟨_, List.mem_append_right _ (List.mem_singleton.2 rfl), this.1, this.2.1, this.2.2.1⟩
      · exact k
    | pollLoop sv first n =>
      have k := h.stay (.pollLoop sv first n) (.inr (by simp))
      have ka : st.loops sv = .running → Inv c s s0 (ops ++ [.pollLoop sv first n]) (accept st sv n) := by
        intro hrun
        refine ⟨k.creds, k.why, k.latch, k.one, k.start, k.waiting, fun p hp hs => ?_, k.listening, k.sig, k.asked,
          k.signalled, k.draining, fun a b g hm => absurd hm (hex a b g), fun cn hcn ht => ?_, k.gone⟩
        · simp only [accept, List.mem_append, List.mem_map] at hp
          rcases hp with hp | ⟨id, _, rfl⟩
          · exact k.log p hp hs
          · apply k.start
            by_cases hb : st.starting = true
            · have := (k.waiting sv).2 ⟨hb, hs⟩
              rw [hrun] at this; cases this
            · simpa using hb
        · simp only [accept, List.mem_append, List.mem_map] at hcn
          rcases hcn with hcn | ⟨id, _, rfl⟩
          · exact k.told cn hcn ht
          · cases ht
      have ke : ∀ st', Inv c s s0 (ops ++ [.pollLoop sv first n]) st' → st'.signalled = true → st'.loops sv = .running →
          (∀ a b g, st'.main ≠ .exited a b g) →
          Inv c s s0 (ops ++ [.pollLoop sv first n]) (endLoop st' sv) := by
        intro st' k hsig hrun hex
        refine ⟨k.creds, k.why, k.latch, k.one, k.start, fun sv' => ?_, k.log, k.listening, k.sig, k.asked,
          k.signalled, k.draining, fun a b g hm => absurd hm (hex a b g), k.told, fun sv' hs' => .inl hsig⟩
        dsimp only [endLoop]
        split
        · rename_i e; subst e
          have := k.waiting sv'
          rw [hrun] at this
          simp only [reduceCtorEq, false_iff] at this ⊢
          exact this
        · exact k.waiting sv'
      dsimp only [pollLoop]
      split
      · rename_i hrun
        split
        · split
          · exact ke _ (ka hrun) (by assumption) hrun hex
          · exact ka hrun
        · split
          · exact ke _ k (by assumption) hrun hex
          · exact ka hrun
      · exact k
    | pollMain =>
      have k := h.stay .pollMain (.inr (by simp))
      have kd : ∀ st' since, (∃ m, st' = { st with signalled := true, main := m }) → st'.main = .draining since → since ≤ st.now →
          Told c s0 (ops ++ [.pollMain]) since → Inv c s s0 (ops ++ [.pollMain]) (drainStep c st' since) := by
        rintro st' since ⟨m0, rfl⟩ hm0 hle htold
        obtain ⟨m, he, hm⟩ := drainStep_same c { st with signalled := true, main := m0 } since
        rw [he]
        dsimp only at hm0
        subst hm0
        refine ⟨fun _ => k.creds hov, k.why, k.latch, k.one, k.start, k.waiting, k.log, k.listening, k.sig, k.asked,
          ⟨fun _ => ?_, fun _ => rfl⟩, fun t ht => ?_, fun a b g hg => ?_, fun _ _ _ => rfl, fun _ _ => .inl rfl⟩
        · dsimp only
          rcases hm with ⟨rfl, -⟩ | ⟨rfl, -⟩ | ⟨rfl, -⟩ <;> simp
        · dsimp only at ht
          rcases hm with ⟨rfl, -⟩ | ⟨rfl, -⟩ | ⟨rfl, -⟩ <;> cases ht
          exact ⟨hle, htold⟩
        · dsimp only at hg
          rcases hm with ⟨rfl, hh⟩ | ⟨rfl, hh, hgr⟩ | ⟨rfl, -⟩ <;> cases hg
          · exact ⟨rfl, hle, htold, fun _ => hh, fun e => by cases e⟩
          · exact ⟨rfl, hle, htold, (fun e => by cases e), fun _ => ⟨hh, hgr⟩⟩
      dsimp only [pollMain]
      cases hm : st.main with
      | exited a b g => exact absurd hm (hex a b g)
      | draining since =>
        dsimp only
        have hsig : st.signalled = true := h.signalled.2 (by rw [hm]; simp)
        refine kd st since ⟨.draining since, ?_⟩ hm (h.draining since hm).1 ((h.draining since hm).2.mono _)
        cases st; simp_all
      | running =>
        dsimp only
        split
        · rename_i hs
          refine kd _ st.now ⟨.draining st.now, rfl⟩ rfl (Nat.le_refl _) ⟨ops, [], rfl, by rw [hst]; exact hm, by rw [hst], ?_⟩
          rw [Bool.or_eq_true] at hs
          rcases hs with hs | hs
          · exact ⟨_, h.sig hs, trivial⟩
          · exact h.asked (by simpa using hs)
        · exact k

theorem inv (c : Cfg F) (s : Identity.Store) (l : Option (Option F)) (ops : List Op) :
    Inv c s (init c s l) ops (run c (init c s l) ops) := by
  induction ops using snoc_induction with
  | nil => exact inv_init c s l
  | snoc ops o ih => rw [run_snoc]; exact inv_step c s _ ops o ih

/-! ## Starting -/

/-- C96. No connection is proxied before a valid certificate was obtained, whatever the schedule. -/
theorem C96_no_proxying_before_identity (c : Cfg F) (s : Identity.Store) (l : Option (Option F)) (ops : List Op) (sv : Server) (id : Nat)
    (h : (sv, id) ∈ (run c (init c s l) ops).log) (hsv : sv = .inbound ∨ sv = .outbound) : Certified c.ext s ops :=
  (inv c s l ops).why ((inv c s l ops).log _ h hsv)

/-- C96. The process does not tell that it is ready before then. -/
theorem C96_not_ready_before_identity (c : Cfg F) (s : Identity.Store) (l : Option (Option F)) (ops : List Op) (r : Admin.Req)
    (hp : r.path = "/ready".toList) (h : (Admin.serve c.admin (run c (init c s l) ops).proc r).1.status = 200) : Certified c.ext s ops :=
  (inv c s l ops).why ((inv c s l ops).latch ((Admin.C95_ready _ _ _ hp).1.1 h))

theorem ready_of_certified (c : Cfg F) (s : Identity.Store) (l : Option (Option F)) (ops : List Op) (h : Certified c.ext s ops)
    (hov : ¬ Over (run c (init c s l) ops)) : (run c (init c s l) ops).creds.ready = true := by
  rw [(inv c s l ops).creds hov, Identity.C84_ready]; exact h

theorem step_pollLatch (c : Cfg F) (st : St F) (h : ¬ Over st) : step c st .pollLatch = pollLatch st := by
  unfold step
  cases hm : st.main with
  | exited a b g => exact absurd ⟨a, b, g, hm⟩ h
  | running => rfl
  | draining t => rfl

theorem step_pollStart (c : Cfg F) (st : St F) (h : ¬ Over st) : step c st .pollStart = pollStart st := by
  unfold step
  cases hm : st.main with
  | exited a b g => exact absurd ⟨a, b, g, hm⟩ h
  | running => rfl
  | draining t => rfl

theorem step_pollMain (c : Cfg F) (st : St F) (h : ¬ Over st) : step c st .pollMain = pollMain c st := by
  unfold step
  cases hm : st.main with
  | exited a b g => exact absurd ⟨a, b, g, hm⟩ h
  | running => rfl
  | draining t => rfl

theorem step_pollLoop (c : Cfg F) (st : St F) (h : ¬ Over st) (sv : Server) (f : Bool) (k : Nat) :
    step c st (.pollLoop sv f k) = pollLoop st sv f k := by
  unfold step
  cases hm : st.main with
  | exited a b g => exact absurd ⟨a, b, g, hm⟩ h
  | running => rfl
  | draining t => rfl

/-- C96. Once a valid certificate was obtained, and the task that waits for it is polled, the process tells that it is ready, as long as it
lasts. -/
theorem C96_becomes_ready (c : Cfg F) (s : Identity.Store) (l : Option (Option F)) (ops : List Op) (h : Certified c.ext s ops)
    (hov : ¬ Over (run c (init c s l) ops)) (post : List Op) (r : Admin.Req) (hp : r.path = "/ready".toList) :
    (Admin.serve c.admin (run c (init c s l) (ops ++ .pollLatch :: post)).proc r).1.status = 200 := by
  rw [(Admin.C95_ready _ _ _ hp).1]
  have hr := ready_of_certified c s l ops h hov
  have h0 : (run c (init c s l) (ops ++ [.pollLatch])).proc.latches = 0 := by
    have h1 := (inv c s l ops).one
    rw [run_snoc, step_pollLatch _ _ hov, pollLatch, if_pos hr]
    show _ - 1 = 0
    omega
  rw [show ops ++ Op.pollLatch :: post = (ops ++ [.pollLatch]) ++ post by simp, run_append]
  generalize run c (init c s l) (ops ++ [.pollLatch]) = st at h0
  induction post generalizing st with
  | nil => exact h0
  | cons o post ih =>
    apply ih (step c st o)
    by_cases hov : Over st
    · rw [step_over c st o hov]; exact h0
    · unfold step
      cases hm : st.main with
      | exited a b g => exact absurd ⟨a, b, g, hm⟩ hov
      | _ =>
        dsimp only
        cases o <;> dsimp only
        all_goals first
          | exact h0
          | (unfold pollLoop; (repeat' split) <;> exact h0)
          | (unfold pollHttp; (repeat' split) <;> exact h0)
          | (unfold pollLatch; split <;> simp [h0])
          | (unfold pollStart; (repeat' split) <;> exact h0)
          | (unfold pollMain drainStep; (repeat' split) <;> exact h0)
          | (split
             · exact (Admin.serve_latches _ _ _).trans h0
             · exact h0)
          | (split <;> exact h0)

/-- C96. Once a valid certificate was obtained and `start_proxy` is polled, connections that wait are accepted, also those that came before. -/
theorem C96_starts (c : Cfg F) (s : Identity.Store) (l : Option (Option F)) (ops : List Op) (h : Certified c.ext s ops)
    (hm : (run c (init c s l) ops).main = .running) (sv : Server) (hsv : sv = .inbound ∨ sv = .outbound) (first : Bool) (id : Nat)
    (hid : id ∈ (run c (init c s l) ops).backlog sv) :
    ∃ k, (sv, id) ∈ (run c (init c s l) (ops ++ [.pollStart, .pollLoop sv first k])).log ∧
      Open (run c (init c s l) (ops ++ [.pollStart, .pollLoop sv first k])) sv id := by
  have hov : ¬ Over (run c (init c s l) ops) := by rintro ⟨a, b, g, e⟩; rw [hm] at e; cases e
  have hr := ready_of_certified c s l ops h hov
  have hi := inv c s l ops
  generalize hst : run c (init c s l) ops = st at *
  refine ⟨(st.backlog sv).length, ?_⟩
  have hsig : st.signalled = false := by
    cases e : st.signalled
    · rfl
    · exact absurd hm (hi.signalled.1 e)
  have hstart : (pollStart st).loops sv = .running ∧ (pollStart st).signalled = false ∧ (pollStart st).main = .running ∧
      (pollStart st).backlog = st.backlog := by
    unfold pollStart
    split
    · refine ⟨?_, hsig, hm, rfl⟩
      rcases hsv with rfl | rfl <;> rfl
    · rename_i hn
      rw [hr, Bool.and_true] at hn
      refine ⟨?_, hsig, hm, rfl⟩
      cases hl : st.loops sv with
      | running => rfl
      | waiting => exact absurd ((hi.waiting sv).1 hl).1 hn
      | ended =>
        rcases hi.gone sv hl with e | ⟨rfl, -⟩
        · rw [hsig] at e; cases e
        · rcases hsv with e | e <;> cases e
  obtain ⟨h1, h2, h3, h4⟩ := hstart
  have hov' : ¬ Over (pollStart st) := by rintro ⟨a, b, g, e⟩; rw [h3] at e; cases e
  have hrun : run c (init c s l) (ops ++ [.pollStart, .pollLoop sv first (st.backlog sv).length]) =
      accept (pollStart st) sv (st.backlog sv).length := by
    rw [run_append, hst]
    rw [run_cons, run_cons, run_nil, step_pollStart c st hov, step_pollLoop c _ hov', pollLoop, h1]
    simp [h2]
  rw [hrun]
  unfold accept Open
  rw [h4, List.take_length]
  exact ⟨List.mem_append_right _ (List.mem_map.2 ⟨id, hid, rfl⟩),
    ⟨sv, id, false⟩, List.mem_append_right _ (List.mem_map.2 ⟨id, hid, rfl⟩), rfl, rfl⟩

/-- C96. The admin server accepts connections whether or not there is a certificate, until the process is told to stop. -/
theorem C96_admin_always (c : Cfg F) (s : Identity.Store) (l : Option (Option F)) (ops : List Op)
    (hm : (run c (init c s l) ops).main = .running) (first : Bool) (id : Nat) :
    ∃ k, Open (run c (init c s l) (ops ++ [.connect .admin id, .pollLoop .admin first k])) .admin id := by
  have hov : ¬ Over (run c (init c s l) ops) := by rintro ⟨a, b, g, e⟩; rw [hm] at e; cases e
  have hi := inv c s l ops
  generalize hst : run c (init c s l) ops = st at *
  have hsig : st.signalled = false := by
    cases e : st.signalled
    · rfl
    · exact absurd hm (hi.signalled.1 e)
  have hl : st.loops .admin = .running := by
    cases hl : st.loops .admin with
    | running => rfl
    | waiting => exact absurd ((hi.waiting .admin).1 hl).2 (by simp)
    | ended =>
      rcases hi.gone _ hl with e | ⟨e, -⟩
      · rw [hsig] at e; cases e
      · cases e
  refine ⟨(st.backlog .admin).length + 1, ?_⟩
  rw [run_append, hst, run_cons, run_cons, run_nil]
  have h1 : step c st (.connect .admin id) =
      { st with backlog := fun s' => if s' = .admin ∧ st.loops .admin ≠ .ended then st.backlog s' ++ [id] else st.backlog s' } := by
    unfold step; rw [hm]
  have hov' : ¬ Over (step c st (.connect .admin id)) := by
    rw [h1]; rintro ⟨a, b, g, e⟩; dsimp only at e; rw [hm] at e; cases e
  rw [step_pollLoop c _ hov', h1, pollLoop]
  simp only [hl, hsig]
  simp only [Bool.false_eq_true, if_false, ite_self]
  unfold accept
  refine ⟨⟨.admin, id, false⟩, List.mem_append_right _ (List.mem_map.2 ⟨id, ?_, rfl⟩), rfl, rfl⟩
  simp [hl, List.take_of_length_le]

/-! ## Being told to stop -/

/-- C96. The process stops accepting and ends only after a signal, or a `POST` of `/shutdown` from the machine itself with that enabled. -/
theorem C96_who_can_stop (c : Cfg F) (s : Identity.Store) (l : Option (Option F)) (ops : List Op)
    (h : (run c (init c s l) ops).main ≠ .running ∨ (run c (init c s l) ops).signalled = true ∨
      (∃ sv, (run c (init c s l) ops).loops sv = .ended ∧ (sv = .tap → c.tap = true)) ∨
      ∃ cn ∈ (run c (init c s l) ops).conns, cn.told = true) : ∃ o ∈ ops, Stop c o := by
  have hi := inv c s l ops
  have hm : (run c (init c s l) ops).main ≠ .running := by
    rcases h with h | h | ⟨sv, h, ht⟩ | ⟨cn, hcn, ht⟩
    · exact h
    · exact hi.signalled.1 h
    · rcases hi.gone sv h with h | ⟨e, h⟩
      · exact hi.signalled.1 h
      · rw [ht e] at h; cases h
    · exact hi.signalled.1 (hi.told cn hcn ht)
  have key : ∀ since, Told c (init c s l) ops since → ∃ o ∈ ops, Stop c o := by
    rintro since ⟨pre, post, e, -, -, o, ho, hs⟩
    exact ⟨o, by rw [e]; exact List.mem_append_left _ ho, hs⟩
  cases e : (run c (init c s l) ops).main with
  | running => exact absurd e hm
  | draining t => exact key t (hi.draining t e).2
  | exited a b g => exact key a (hi.exited a b g e).2.2.1

/-- C96. It is heard: when it is told to stop, the next poll of `main` tells everything in the process. -/
theorem C96_stop_is_heard (c : Cfg F) (s : Identity.Store) (l : Option (Option F)) (ops : List Op) (o : Op) (ho : Stop c o)
    (hm : (run c (init c s l) ops).main = .running) (hopen : ∀ id r, o = .request id r → Open (run c (init c s l) ops) .admin id)
    : (run c (init c s l) (ops ++ [o, .pollMain])).signalled = true := by
  have hi := inv c s l ops
  rw [run_append]
  generalize run c (init c s l) ops = st at *
  show (step c (step c st o) .pollMain).signalled = true
  have key : (step c st o).main = .running ∧ ((step c st o).sigterm || (step c st o).proc.asked != 0) = true := by
    cases o with
    | sigterm => unfold step; rw [hm]; exact ⟨rfl, rfl⟩
    | request id r =>
      have hany : st.conns.any (fun c => c.server = .admin ∧ c.id = id) = true := by
        obtain ⟨cn, hcn, h1, h2⟩ := hopen id r rfl
        rw [List.any_eq_true]; exact ⟨cn, hcn, by simp [h1, h2]⟩
      have e : step c st (.request id r) = { st with proc := (Admin.serve c.admin st.proc r).2 } := by
        unfold step; rw [hm]; simp only [hany, if_true]
      rw [e]
      refine ⟨hm, ?_⟩
      obtain ⟨h1, h2, -⟩ := Admin.C95_shutdown c.admin st.proc r
      have hne := h2.2 ⟨ho.1, ho.2.1, ho.2.2, hi.listening⟩
      rw [if_neg hne] at h1
      rw [Bool.or_eq_true]; right
      simp [h1]
    | _ => exact absurd ho id
  have hov : ¬ Over (step c st o) := by rintro ⟨a, b, g, e⟩; rw [key.1] at e; cases e
  rw [step_pollMain c _ hov, pollMain, key.1]
  simp only [key.2, if_true]
  obtain ⟨m, e, -⟩ := drainStep_same c { step c st o with signalled := true, main := .draining (step c st o).now } (step c st o).now
  rw [e]

/-! ## Stopping -/

/-- A listener that is closed stays so and accepts nothing. -/
theorem ended_for_ever (c : Cfg F) (sv : Server) (ops : List Op) : ∀ (st : St F), st.loops sv = .ended →
    (st.starting = true → sv ≠ .inbound ∧ sv ≠ .outbound) →
    (run c st ops).loops sv = .ended ∧ (run c st ops).log.filter (·.1 = sv) = st.log.filter (·.1 = sv) := by
  induction ops with
  | nil => intro st h _; exact ⟨h, rfl⟩
  | cons o ops ih =>
    intro st h hs
    rw [run_cons]
    have key : (step c st o).loops sv = .ended ∧ ((step c st o).starting = true → sv ≠ .inbound ∧ sv ≠ .outbound) ∧
        (step c st o).log.filter (·.1 = sv) = st.log.filter (·.1 = sv) := by
      by_cases hov : Over st
      · rw [step_over c st o hov]; exact ⟨h, hs, rfl⟩
      · unfold step
        cases hm : st.main with
        | exited a b g => exact absurd ⟨a, b, g, hm⟩ hov
        | _ =>
          dsimp only
          cases o <;> dsimp only
          case pollLoop sv' f k =>
            have hacc : sv' ≠ sv → ((accept st sv' k).loops sv = .ended ∧ ((accept st sv' k).starting = true → sv ≠ .inbound ∧ sv ≠ .outbound) ∧
                (accept st sv' k).log.filter (·.1 = sv) = st.log.filter (·.1 = sv)) := by
              intro hne
              refine ⟨h, hs, ?_⟩
              simp only [accept, List.filter_append]
              refine (congrArg _ (List.filter_eq_nil_iff.2 ?_)).trans (List.append_nil _)
              intro p hp
              obtain ⟨id, -, rfl⟩ := List.mem_map.1 hp
              simpa using hne
            have hend : ∀ st' : St F, (st'.loops sv = .ended ∧ (st'.starting = true → sv ≠ .inbound ∧ sv ≠ .outbound) ∧
                st'.log.filter (·.1 = sv) = st.log.filter (·.1 = sv)) →
                ((endLoop st' sv').loops sv = .ended ∧ ((endLoop st' sv').starting = true → sv ≠ .inbound ∧ sv ≠ .outbound) ∧
                (endLoop st' sv').log.filter (·.1 = sv) = st.log.filter (·.1 = sv)) := by
              intro st' hh
              refine ⟨?_, hh.2⟩
              dsimp only [endLoop]
              split
              · rfl
              · exact hh.1
            unfold pollLoop
            split
            · rename_i hr
              have hne : sv' ≠ sv := by rintro rfl; rw [h] at hr; cases hr
              (repeat' split) <;> first | exact hend _ (hacc hne) | exact hacc hne | exact hend _ ⟨h, hs, rfl⟩
            · exact ⟨h, hs, rfl⟩
          case pollStart =>
            unfold pollStart
            split
            · rename_i hst
              rw [Bool.and_eq_true] at hst
              have := hs hst.1
              refine ⟨?_, (fun e => by cases e), rfl⟩
              cases sv <;> simp_all
            · exact ⟨h, hs, rfl⟩
          all_goals first
            | exact ⟨h, hs, rfl⟩
            | (unfold pollHttp; (repeat' split) <;> exact ⟨h, hs, rfl⟩)
            | (unfold pollLatch; split <;> exact ⟨h, hs, rfl⟩)
            | (unfold pollMain drainStep; (repeat' split) <;> exact ⟨h, hs, rfl⟩)
            | (split <;> exact ⟨h, hs, rfl⟩)
    obtain ⟨h1, h2⟩ := ih _ key.1 key.2.1
    exact ⟨h1, h2.trans key.2.2⟩

/-- C96. Once the process was told to stop, a listener that runs accepts in one more poll of its task at most: after that it is closed, and
accepts nothing whatever happens. It may accept nothing in that one. -/
theorem C96_stops_accepting (c : Cfg F) (s : Identity.Store) (l : Option (Option F)) (pre post : List Op) (sv : Server) (first : Bool)
    (k : Nat) (hs : (run c (init c s l) pre).signalled = true) (hw : (run c (init c s l) pre).loops sv ≠ .waiting) :
    (run c (init c s l) (pre ++ .pollLoop sv first k :: post)).log.filter (·.1 = sv) =
      (run c (init c s l) (pre ++ [.pollLoop sv first k])).log.filter (·.1 = sv) ∧
    (run c (init c s l) (pre ++ [.pollLoop sv false k])).log = (run c (init c s l) pre).log ∧
    (¬ Over (run c (init c s l) pre) → (run c (init c s l) (pre ++ .pollLoop sv first k :: post)).loops sv = .ended) := by
  have hi := inv c s l pre
  rw [show pre ++ Op.pollLoop sv first k :: post = (pre ++ [.pollLoop sv first k]) ++ post by simp, run_append, run_snoc, run_snoc]
  generalize run c (init c s l) pre = st at *
  by_cases hov : Over st
  · rw [step_over c st _ hov, step_over c st _ hov, run_over c post st hov]
    exact ⟨rfl, rfl, fun h => absurd hov h⟩
  · rw [step_pollLoop c st hov, step_pollLoop c st hov]
    have hsl : st.starting = true → sv ≠ .inbound ∧ sv ≠ .outbound := by
      intro h
      constructor <;> rintro rfl <;> exact hw ((hi.waiting _).2 ⟨h, by simp⟩)
    have hend : ∀ f, (pollLoop st sv f k).loops sv = .ended ∧ ((pollLoop st sv f k).starting = st.starting) := by
      intro f
      unfold pollLoop
      split
      · cases f <;> simp [hs, endLoop, accept]
      · rename_i hn
        cases hl : st.loops sv with
        | running => exact absurd hl hn
        | waiting => exact absurd hl hw
        | ended => exact ⟨rfl, rfl⟩
    obtain ⟨h1, h2⟩ := ended_for_ever c sv post (pollLoop st sv first k) (hend first).1 (by rw [(hend first).2]; exact hsl)
    refine ⟨h2, ?_, fun _ => h1⟩
    unfold pollLoop
    split
    · simp [hs, endLoop]
    · rfl

/-- C96. `main` ends only when it has been told to stop, and then only if nothing is left of what it serves but tap streams, or if the
whole grace period has passed. -/
theorem C96_no_early_exit (c : Cfg F) (s : Identity.Store) (l : Option (Option F)) (ops : List Op) (since t : Nat) (g : Bool)
    (h : (run c (init c s l) ops).main = .exited since t g) :
    Told c (init c s l) ops since ∧ since ≤ t ∧
    (g = true → (∀ sv id, Open (run c (init c s l) ops) sv id → sv = .tap) ∧ (run c (init c s l) ops).tunnels = [] ∧
      ∀ sv, (run c (init c s l) ops).loops sv ≠ .running) ∧
    (g = false → since + c.grace ≤ t) := by
  obtain ⟨h1, h2, h3, h4, h5⟩ := (inv c s l ops).exited since t g h
  refine ⟨h3, h2, fun hg => ?_, fun hg => (h5 hg).2⟩
  have := h4 hg
  unfold held at this
  simp only [Bool.or_eq_false_iff, beq_eq_false_iff_ne, Bool.not_eq_false', List.isEmpty_iff, List.any_eq_false, bne_iff_ne, ne_eq,
    Decidable.not_not] at this
  obtain ⟨⟨⟨⟨⟨⟨-, a⟩, b⟩, d⟩, e⟩, f⟩, t⟩ := this
  refine ⟨?_, t, fun sv => by cases sv <;> assumption⟩
  rintro sv id ⟨cn, hcn, rfl, -⟩
  exact f cn hcn

/-- C96. Whatever happens elsewhere, and whoever tells the process to stop, a connection that is open stays so until its own task ends, or
`main` does. -/
theorem C96_connections_survive (c : Cfg F) (s : Identity.Store) (l : Option (Option F)) (pre post : List Op) (sv : Server) (id : Nat)
    (h : Open (run c (init c s l) pre) sv id) (hp : Op.close sv id ∉ post) : Open (run c (init c s l) (pre ++ post)) sv id := by
  rw [run_append]
  generalize run c (init c s l) pre = st at h
  induction post generalizing st with
  | nil => exact h
  | cons o post ih =>
    rw [run_cons]
    refine ih (fun hm => hp (List.mem_cons_of_mem _ hm)) _ ?_
    by_cases hov : Over st
    · rw [step_over c st o hov]; exact h
    · unfold step
      cases hm : st.main with
      | exited a b g => exact absurd ⟨a, b, g, hm⟩ hov
      | _ =>
        dsimp only
        have hacc : ∀ sv' k, Open (accept st sv' k) sv id := by
          intro sv' k
          obtain ⟨cn, hcn, hh⟩ := h
          exact ⟨cn, List.mem_append_left _ hcn, hh⟩
        cases o <;> dsimp only
        case close sv' id' =>
          obtain ⟨cn, hcn, h1, h2⟩ := h
          refine ⟨cn, List.mem_filter.2 ⟨hcn, ?_⟩, h1, h2⟩
          have : ¬ (cn.server = sv' ∧ cn.id = id') := by
            rintro ⟨e1, e2⟩
            apply hp
            rw [← h1, ← h2, e1, e2]; exact List.mem_cons_self
          exact decide_eq_true this
        case pollHttp sv' id' =>
          unfold pollHttp
          split
          · obtain ⟨cn, hcn, h1, h2⟩ := h
            refine ⟨_, List.mem_map.2 ⟨cn, hcn, rfl⟩, ?_⟩
            split <;> exact ⟨h1, h2⟩
          · exact h
        all_goals first
          | exact h
          | (unfold pollLoop; (repeat' split) <;> first | exact h | exact hacc _ _)
          | (unfold pollLatch; split <;> exact h)
          | (unfold pollStart; (repeat' split) <;> exact h)
          | (unfold pollMain drainStep; (repeat' split) <;> exact h)
          | (split <;> exact h)

/-- C96. When `main` is polled, it ends exactly if nothing is left or the grace period is over; and it says which. -/
theorem C96_exits (c : Cfg F) (s : Identity.Store) (l : Option (Option F)) (ops : List Op) (since : Nat)
    (h : (run c (init c s l) ops).main = .draining since) :
    (since + c.grace ≤ (run c (init c s l) ops).now → Over (run c (init c s l) (ops ++ [.pollMain]))) ∧
    ((run c (init c s l) ops).starting = false → (∀ sv, (run c (init c s l) ops).loops sv ≠ .running) →
      (∀ sv id, Open (run c (init c s l) ops) sv id → sv = .tap) → (run c (init c s l) ops).tunnels = [] →
      (run c (init c s l) (ops ++ [.pollMain])).main = .exited since (run c (init c s l) ops).now true) := by
  have hov : ¬ Over (run c (init c s l) ops) := by rintro ⟨a, b, g, e⟩; rw [h] at e; cases e
  rw [run_snoc, step_pollMain c _ hov, pollMain, h]
  generalize run c (init c s l) ops = st
  dsimp only
  constructor
  · intro hg
    obtain ⟨m, e, hm⟩ := drainStep_same c st since
    rw [e]
    rcases hm with ⟨rfl, -⟩ | ⟨rfl, -⟩ | ⟨-, -, hn⟩
    · exact ⟨_, _, _, rfl⟩
    · exact ⟨_, _, _, rfl⟩
    · exact absurd hg hn
  · intro h1 h2 h3 h4
    have hh : held st = false := by
      unfold held
      simp only [Bool.or_eq_false_iff, beq_eq_false_iff_ne, Bool.not_eq_false', List.isEmpty_iff, List.any_eq_false, bne_iff_ne, ne_eq,
        Decidable.not_not]
      exact ⟨⟨⟨⟨⟨⟨h1, h2 _⟩, h2 _⟩, h2 _⟩, h2 _⟩, fun cn hcn => h3 cn.server cn.id ⟨cn, hcn, rfl, rfl⟩⟩, h4⟩
    unfold drainStep
    rw [hh]; rfl

/-- Steps that only bring to an end what is there: no time passes, and nothing new comes. -/
def Finish : Op → Prop
  | .pollLoop .. => True
  | .close .. => True
  | .tunnelDone _ => True
  | .pollMain => True
  | _ => False

theorem run_closes (c : Cfg F) (cs : List Conn) : ∀ (st : St F), ¬ Over st →
    ∃ X, run c st (cs.map fun cn => .close cn.server cn.id) = { st with conns := X } ∧ ∀ cn ∈ X, cn ∈ st.conns ∧ cn ∉ cs := by
  induction cs with
  | nil => intro st _; exact ⟨st.conns, rfl, fun cn h => ⟨h, by simp⟩⟩
  | cons d cs ih =>
    intro st hov
    have e : step c st (.close d.server d.id) = { st with conns := st.conns.filter fun c => ¬ (c.server = d.server ∧ c.id = d.id) } := by
      unfold step
      cases hm : st.main with
      | exited a b g => exact absurd ⟨a, b, g, hm⟩ hov
      | _ => rfl
    obtain ⟨X, hX, hmem⟩ := ih _ (show ¬ Over (step c st (.close d.server d.id)) by rw [e]; exact hov)
    rw [e] at hX hmem
    refine ⟨X, by rw [List.map_cons, run_cons, e]; exact hX, fun cn h => ?_⟩
    obtain ⟨h1, h2⟩ := hmem cn h
    have h1 := List.mem_filter.1 h1
    refine ⟨h1.1, ?_⟩
    rw [List.mem_cons]
    rintro (rfl | h)
    · exact absurd h1.2 (by simp)
    · exact h2 h

theorem run_tunnels (c : Cfg F) (ts : List Nat) : ∀ (st : St F), ¬ Over st →
    ∃ X, run c st (ts.map .tunnelDone) = { st with tunnels := X } ∧ ∀ t ∈ X, t ∈ st.tunnels ∧ t ∉ ts := by
  induction ts with
  | nil => intro st _; exact ⟨st.tunnels, rfl, fun t h => ⟨h, by simp⟩⟩
  | cons d ts ih =>
    intro st hov
    have e : step c st (.tunnelDone d) = { st with tunnels := st.tunnels.filter (· ≠ d) } := by
      unfold step
      cases hm : st.main with
      | exited a b g => exact absurd ⟨a, b, g, hm⟩ hov
      | _ => rfl
    obtain ⟨X, hX, hmem⟩ := ih _ (show ¬ Over (step c st (.tunnelDone d)) by rw [e]; exact hov)
    rw [e] at hX hmem
    refine ⟨X, by rw [List.map_cons, run_cons, e]; exact hX, fun t h => ?_⟩
    obtain ⟨h1, h2⟩ := hmem t h
    have h1 := List.mem_filter.1 h1
    refine ⟨h1.1, ?_⟩
    rw [List.mem_cons]
    rintro (rfl | h)
    · exact absurd h1.2 (by simp)
    · exact h2 h

theorem run_loops (c : Cfg F) (svs : List Server) : ∀ (st : St F), ¬ Over st → st.signalled = true →
    ∃ L B, run c st (svs.map fun sv => .pollLoop sv false 0) = { st with loops := L, backlog := B } ∧
      (∀ sv, L sv = .running → st.loops sv = .running ∧ sv ∉ svs) := by
  induction svs with
  | nil => intro st _ _; exact ⟨st.loops, st.backlog, rfl, fun sv h => ⟨h, by simp⟩⟩
  | cons d svs ih =>
    intro st hov hs
    have e : ∃ L B, step c st (.pollLoop d false 0) = { st with loops := L, backlog := B } ∧ L d ≠ .running ∧
        ∀ sv, L sv = .running → st.loops sv = .running := by
      rw [step_pollLoop c st hov, pollLoop]
      split
      · refine ⟨fun s' => if s' = d then .ended else st.loops s', fun s' => if s' = d then [] else st.backlog s',
          by simp [hs, endLoop], by simp, fun sv h => ?_⟩
        dsimp only at h
        split at h
        · cases h
        · exact h
      · exact ⟨st.loops, st.backlog, rfl, by assumption, fun _ h => h⟩
    obtain ⟨L, B, e, hd, hk⟩ := e
    obtain ⟨L', B', h1, h2⟩ := ih (step c st (.pollLoop d false 0)) (by rw [e]; exact hov) (by rw [e]; exact hs)
    rw [e] at h1 h2
    refine ⟨L', B', by rw [List.map_cons, run_cons, e]; exact h1, fun sv h => ?_⟩
    obtain ⟨h3, h4⟩ := h2 sv h
    refine ⟨hk sv h3, ?_⟩
    rw [List.mem_cons]
    rintro (rfl | h)
    · exact hd h3
    · exact h4 h

/-- C96. From every state in which it is stopping and has started, the process ends gracefully as soon as the connections and tunnels that
are open end: no time need pass. -/
theorem C96_ends_with_its_connections (c : Cfg F) (s : Identity.Store) (l : Option (Option F)) (ops : List Op) (since : Nat)
    (h : (run c (init c s l) ops).main = .draining since) (hst : (run c (init c s l) ops).starting = false) :
    ∃ fin, (∀ o ∈ fin, Finish o) ∧
      (run c (init c s l) (ops ++ fin)).main = .exited since (run c (init c s l) ops).now true := by
  have hi := inv c s l ops
  have hov : ¬ Over (run c (init c s l) ops) := by rintro ⟨a, b, g, e⟩; rw [h] at e; cases e
  have hsig : (run c (init c s l) ops).signalled = true := hi.signalled.2 (by rw [h]; simp)
  generalize hrun : run c (init c s l) ops = st at *
  obtain ⟨L, B, h1, h2⟩ := run_loops c [.inbound, .outbound, .admin, .tap] st hov hsig
  obtain ⟨X, h3, h4⟩ := run_closes c st.conns { st with loops := L, backlog := B } hov
  obtain ⟨T, h5, h6⟩ := run_tunnels c st.tunnels { st with loops := L, backlog := B, conns := X } hov
  refine ⟨([.inbound, .outbound, .admin, .tap].map fun sv => .pollLoop sv false 0) ++ ((st.conns.map fun cn => .close cn.server cn.id) ++
    ((st.tunnels.map .tunnelDone) ++ [.pollMain])), ?_, ?_⟩
  · intro o ho
    simp only [List.mem_append, List.mem_map, List.mem_singleton] at ho
    rcases ho with ⟨_, _, rfl⟩ | ⟨_, _, rfl⟩ | ⟨_, _, rfl⟩ | rfl <;> trivial
  · rw [run_append, hrun, run_append, h1, run_append, h3, run_append, h5, run_cons, run_nil]
    rw [step_pollMain c _ (by rintro ⟨a, b, g, e⟩; have e : st.main = _ := e; rw [h] at e; cases e), pollMain]
    simp only [h]
    have hX : X = [] := by
      cases X with
      | nil => rfl
      | cons a X => exact absurd (h4 a List.mem_cons_self).1 (h4 a List.mem_cons_self).2
    have hT : T = [] := by
      cases T with
      | nil => rfl
      | cons a T => exact absurd (h6 a List.mem_cons_self).1 (h6 a List.mem_cons_self).2
    have hL : ∀ sv, (L sv == .running) = false := by
      intro sv
      rw [beq_eq_false_iff_ne]
      intro e
      exact (h2 sv e).2 (by cases sv <;> simp)
    simp [drainStep, held, hX, hT, hL, hst]

/-- C96. A connection is asked to end gracefully only when the process was told to stop, and then whenever it is polled; and it is served on. -/
theorem C96_asked_to_end (c : Cfg F) (s : Identity.Store) (l : Option (Option F)) (ops : List Op) (sv : Server) (id : Nat)
    (hov : ¬ Over (run c (init c s l) ops)) :
    (∀ cn ∈ (run c (init c s l) ops).conns, cn.told = true → (run c (init c s l) ops).signalled = true) ∧
    ((run c (init c s l) ops).signalled = true → ∀ cn ∈ (run c (init c s l) (ops ++ [.pollHttp sv id])).conns,
      cn.server = sv → cn.id = id → cn.told = true) ∧
    ∀ sv' id', Open (run c (init c s l) (ops ++ [.pollHttp sv id])) sv' id' ↔ Open (run c (init c s l) ops) sv' id' := by
  have hi := inv c s l ops
  rw [run_snoc]
  generalize run c (init c s l) ops = st at *
  have e : step c st (.pollHttp sv id) = pollHttp st sv id := by
    unfold step
    cases hm : st.main with
    | exited a b g => exact absurd ⟨a, b, g, hm⟩ hov
    | _ => rfl
  rw [e]
  refine ⟨hi.told, fun hs cn hcn h1 h2 => ?_, fun sv' id' => ?_⟩
  · unfold pollHttp at hcn
    rw [if_pos hs] at hcn
    obtain ⟨d, -, rfl⟩ := List.mem_map.1 hcn
    by_cases hd : d.server = sv ∧ d.id = id
    · rw [if_pos hd]
    · rw [if_neg hd] at h1 h2; exact absurd ⟨h1, h2⟩ hd
  · unfold pollHttp Open
    split
    · simp only [List.mem_map]
      constructor
      · rintro ⟨_, ⟨d, hd, rfl⟩, h⟩
        refine ⟨d, hd, ?_⟩
        split at h <;> exact h
      · rintro ⟨d, hd, h⟩
        refine ⟨_, ⟨d, hd, rfl⟩, ?_⟩
        split <;> exact h
    · exact Iff.rfl

/-! ## Limits -/

/-- A process that never obtained a certificate takes the whole grace period to stop, though it has proxied nothing: the task that waits for
the certificate holds it up. -/
theorem C96_limit_waits_for_identity (c : Cfg F) (s : Identity.Store) (l : Option (Option F)) (ops : List Op) (h : ¬ Certified c.ext s ops)
    (since t : Nat) (g : Bool) (hm : (run c (init c s l) ops).main = .exited since t g) : since + c.grace ≤ t := by
  have hi := inv c s l ops
  obtain ⟨-, -, -, h4, h5⟩ := hi.exited since t g hm
  cases g with
  | false => exact (h5 rfl).2
  | true =>
    have := h4 rfl
    unfold held at this
    simp only [Bool.or_eq_false_iff] at this
    exact absurd (hi.why (hi.start this.1.1.1.1.1.1)) h

end

/-! ## Concrete cases -/

def exCfg : Cfg HttpRoute.Str := ⟨Identity.exExt, Admin.sampleEnv, 30, true⟩
def exInit : St HttpRoute.Str := init exCfg Identity.exStore (some none)
def exCert : Identity.Attempt := ⟨[1], [], [1], 90, 10⟩

theorem ex_valid : Identity.Valid Identity.exExt Identity.exStore.roots Identity.exStore.serverId exCert :=
  ((Identity.C84_only_valid_certificates Identity.exExt (Identity.Creds.new Identity.exStore) exCert).1).1 (by decide +kernel)

/-- Two connections come early, are accepted after the certificate, and the process is told to stop by one who may. -/
def exOps : List Op :=
  [.connect .inbound 1, .connect .admin 2, .pollLoop .inbound true 5, .pollLoop .admin true 5, .certificate exCert, .pollStart, .pollLatch,
    .pollLoop .inbound false 5, .upgrade .inbound 1, .request 2 (Admin.ask "POST" "/shutdown" none Admin.here []), .pollMain, .tick 3]

example : Certified exCfg.ext Identity.exStore exOps := ⟨exCert, by simp [exOps, attempts], ex_valid⟩
example : (run exCfg exInit exOps).log = [(.admin, 2), (.inbound, 1)] ∧ (run exCfg exInit exOps).main = .draining 0 := by decide +kernel
example : (run exCfg exInit (exOps.take 4)).log = [(.admin, 2)] ∧ (run exCfg exInit (exOps.take 4)).proc.latches = 1 := by decide +kernel
example : (run exCfg exInit (exOps.take 6)).main = .running ∧ 1 ∈ (run exCfg exInit (exOps.take 6)).backlog .inbound := by decide +kernel

/-- It ends gracefully once the connections, the tunnel and the tasks have ended, and not before. -/
def exFinish : List Op :=
  [.pollLoop .inbound true 1, .pollLoop .outbound true 1, .pollLoop .admin true 1, .pollLoop .tap true 1, .pollMain, .close .inbound 1,
    .close .admin 2, .pollMain, .tunnelDone 1]

example : (run exCfg exInit (exOps ++ exFinish)).main = .draining 0 := by decide +kernel
example : (run exCfg exInit (exOps ++ exFinish ++ [.pollMain])).main = .exited 0 3 true := by decide +kernel
example : (run exCfg exInit (exOps ++ exFinish.take 4 ++ [.tick 26, .pollMain, .tick 1, .pollMain])).main = .exited 0 30 false := by
  decide +kernel

/-- After it was told to stop, one poll may still accept what came; later polls do not. -/
example : (run exCfg exInit (exOps ++ [.connect .inbound 8, .pollLoop .inbound true 1, .connect .inbound 9, .pollLoop .inbound true 1])).log =
    [(.admin, 2), (.inbound, 1), (.inbound, 8)] := by decide +kernel

/-- From elsewhere it is not told to stop. -/
example : (run exCfg exInit (exOps.take 9 ++ [.request 2 (Admin.ask "POST" "/shutdown" none Admin.there []), .pollMain])).main = .running := by
  decide +kernel

/-- Without a certificate. -/
example : (run exCfg exInit [.sigterm, .pollMain, .pollLoop .admin true 1, .pollLoop .tap true 1, .tick 29, .pollMain, .tick 1, .pollMain]).main =
    .exited 0 30 false ∧ ¬ Certified exCfg.ext Identity.exStore [.sigterm, .pollMain, .tick 29] := by
  refine ⟨by decide +kernel, ?_⟩
  rintro ⟨a, ha, -⟩
  cases ha

/-- A stream of a tap is cut off as if it was not there. -/
theorem C96_limit_tap_is_cut : ∃ ops, (run exCfg exInit ops).main = .exited 0 0 true ∧ Open (run exCfg exInit ops) .tap 7 :=
  ⟨[.connect .tap 7, .pollLoop .tap true 1, .certificate exCert, .pollStart, .sigterm, .pollMain, .pollLoop .inbound true 1,
    .pollLoop .outbound true 1, .pollLoop .admin true 1, .pollLoop .tap true 1, .pollMain], by decide +kernel,
    ⟨.tap, 7, false⟩, by decide +kernel, rfl, rfl⟩

end Verif.Lifecycle
