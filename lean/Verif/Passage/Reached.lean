import Verif.Passage.Live

/-!
# C117: the server can always be reached
-/

namespace Verif.Passage

open Verif.Io (Bytes)
open Verif.Duplex (Calm)

/-! ## Specification -/

/-- The network carries, a proxy looks at what it accepted and connects, or a proxy copies without a failure. Neither
application does anything. -/
def Op.proceeds : Op → Prop
  | .open _ _ _ => True
  | op => op.moves

/-! ## Proofs -/

/-- When the whole header has arrived, a proxy can go on: reads bring it what has arrived, and a detection that takes too
long ends. -/
theorem look_possible {c : Config} (hc : c.Ok) {i : Nat} {received : Bytes} (hs : c.headerBytes i <+: received) :
    ∃ reads first out, look c i received reads first = some out := by
  cases ht : c.tag i with
  | none =>
    by_cases hd : c.detects i = true
    · exact ⟨[], .timeout, _, by simp only [look, ht, hd]; rfl⟩
    · exact ⟨[], .timeout, _, by simp only [look, ht, hd]; rfl⟩
  | some t =>
    obtain ⟨hv, hp⟩ := hc.valid i t ht
    obtain ⟨pay, rfl⟩ := hs
    obtain ⟨bytes, hb, -, hr⟩ := TransportHeader.C36_round_trip c.utf8 hc.ascii t hv hp pay []
    have hbytes : c.headerBytes i = bytes := by simp [Config.headerBytes, ht, hb]
    obtain ⟨p, h1, -⟩ := hr (List.replicate ((bytes ++ pay).length + 1) (.upTo 1))
      (fun r h => by rw [(List.mem_replicate.1 h).2]; intro e; cases e) (by rw [List.length_replicate]; omega)
    refine ⟨List.replicate ((bytes ++ pay).length + 1) (.upTo 1), .timeout, (some t, p.pre ++ p.io.unread), ?_⟩
    simp only [look, ht, hbytes, TransportHeader.call, h1]

/-- A proxy that has finished had connected. -/
def OverOpened (w : World) : Prop := ∀ i, w.hop i = .over → w.opened (i + 1) = true

theorem OverOpened.same {w w' : World} (h : OverOpened w) (hh : ∀ i, w'.hop i = .over → w.hop i = .over)
    (ho : ∀ i, w.opened i = true → w'.opened i = true) : OverOpened w' :=
  fun i e => ho _ (h i (hh i e))

theorem OverOpened.step {c : Config} {w : World} (hi : WInv c w) (h : OverOpened w) (op : Op) (hc : op.calm) :
    OverOpened (w.step c op) := by
  cases op with
  | clientWrites bs => exact h
  | clientEnds => exact h
  | clientDrops => exact h
  | serverWrites bs => simp only [World.step]; split <;> exact h
  | serverEnds => simp only [World.step]; split <;> exact h
  | serverDrops => simp only [World.step]; split <;> exact h
  | carryUp i k => exact h.same (over_upd (feedIn_over _ _).1) (fun _ => id)
  | carryDown i k =>
    refine h.same (fun j => ?_) (fun _ => id)
    simp only [World.step]
    split
    · exact id
    · exact over_upd (feedOut_over _ _).1 j
  | carryUpEnd i => exact h
  | carryDownEnd i => exact h
  | «open» i reads first =>
    simp only [World.step]
    split
    · split
      · exact h
      · refine h.same (over_upd (fun e => by cases e)) (fun j hj => ?_)
        simp only [upd]; split
        · rfl
        · exact hj
    · exact h
  | poll i as =>
    simp only [World.step]
    split
    · rename_i hd x hh
      have hcalm := Duplex.poll_calm x as hc
      obtain ⟨hi', _⟩ := hi.used i (by rw [hh]; intro e; cases e)
      have hl := (hi.loc i hi').relaying _ _ hh
      have hg := Duplex.poll_good _ _ x as hl.2.2.2.1
      rcases hp : x.poll as with ⟨res, y⟩
      rw [hp] at hcalm hg
      dsimp only at hcalm ⊢
      split
      · cases res with
        | pending => exact h.same (over_upd (fun e => by cases e)) (fun _ => id)
        | ready =>
          intro j hj
          by_cases e : j = i
          · subst e; exact hl.2.1
          · dsimp only at hj
            rw [upd_ne _ _ e] at hj
            exact h j hj
        | failed => exact absurd rfl hcalm
        | panic => exact absurd rfl hg.sane
      · exact h
    · exact h
  | giveUp i => exact hc.elim

/-- What holds after a calm run. -/
structure Fine (c : Config) (w : World) : Prop where
  inv : WInv c w
  noDrop : NoDrop w
  over : OverOk w
  overOpened : OverOpened w

theorem Fine.step {c : Config} (hc : c.Ok) {w : World} (h : Fine c w) (op : Op) (ho : op.calm) : Fine c (w.step c op) :=
  ⟨h.inv.step hc op, NoDrop.step h.inv h.noDrop op ho, OverOk.step h.inv h.over op ho,
    OverOpened.step h.inv h.overOpened op ho⟩

theorem Fine.run {c : Config} (hc : c.Ok) (ops : List Op) (h : ∀ op ∈ ops, op.calm) : Fine c (World.run c ops) := by
  induction ops using Verif.snoc_induction with
  | nil => exact ⟨WInv.init c, fun _ => ⟨rfl, rfl⟩, fun i hi => (by cases hi), fun i hi => (by cases hi)⟩
  | snoc ops op ih =>
    rw [World.run, List.foldl_append]
    exact (ih fun o ho => h o (List.mem_append_left _ ho)).step hc op (h op (List.mem_append_right _ List.mem_cons_self))

/-- The header of a connection is the first that is written to it. -/
theorem Fine.header {c : Config} (hc : c.Ok) {w : World} (h : Fine c w) (i : Nat) (hi : i ≤ c.n)
    (ho : w.opened i = true) : c.headerBytes i <+: (w.up i).sent := by
  cases i with
  | zero => simp [Config.headerBytes, hc.first]
  | succ i => exact (h.inv.loc i (by omega)).start ho

/-- A proxy whose connection was opened can open the next. -/
theorem open_next {c : Config} (hc : c.Ok) {w : World} (h : Fine c w) (i : Nat) (hi : i < c.n)
    (ho : w.opened i = true) :
    ∃ more : List Op, (∀ op ∈ more, op.proceeds ∧ op.calm) ∧
      (more.foldl (World.step c) w).opened (i + 1) = true ∧
      ((more.foldl (World.step c) w).up 0).writer = (w.up 0).writer ∧
      (more.foldl (World.step c) w).down = w.down := by
  cases hh : w.hop i with
  | over => exact ⟨[], by simp, h.overOpened i hh, rfl, rfl⟩
  | relaying hd x => exact ⟨[], by simp, ((h.inv.loc i hi).relaying _ _ hh).2.1, rfl, rfl⟩
  | opening =>
    obtain ⟨h1, h2⟩ := carry_all (h.inv.okUp i) (h.noDrop i).1
    have hrec : ((w.step c (.carryUp i (w.up i).sent.length)).up i).received = (w.up i).sent := by
      simp only [World.step, upd_self, Pipe.received, h1, h2, List.take_length]
    obtain ⟨reads, first, out, hl⟩ := look_possible hc (h.header hc i (by omega) ho)
    refine ⟨[.carryUp i (w.up i).sent.length, .open i reads first], ?_, ?_⟩
    · intro op hop
      simp only [List.mem_cons, List.not_mem_nil, or_false] at hop
      rcases hop with rfl | rfl
      · exact ⟨trivial, trivial⟩
      · exact ⟨trivial, trivial⟩
    · have hop : (w.step c (.carryUp i (w.up i).sent.length)).hop i = .opening := by
        simp only [World.step, upd_self, hh, feedIn]
      have hopd : (w.step c (.carryUp i (w.up i).sent.length)).opened = w.opened := rfl
      have hdown : (w.step c (.carryUp i (w.up i).sent.length)).down = w.down := rfl
      have hw0 : ((w.step c (.carryUp i (w.up i).sent.length)).up 0).writer = (w.up 0).writer :=
        up0_step c w (.carryUp i (w.up i).sent.length)
      rw [List.foldl_cons, List.foldl_cons, List.foldl_nil]
      generalize w.step c (.carryUp i (w.up i).sent.length) = w1 at *
      obtain ⟨hd, rest⟩ := out
      have hstep : w1.step c (.open i reads first) =
          { w1 with
            up := upd w1.up (i + 1) { w1.up (i + 1) with sent := c.headerBytes (i + 1) }
            opened := upd w1.opened (i + 1) true
            hop := upd w1.hop i (.relaying hd (Duplex.Duplex.new rest [])) } := by
        simp only [World.step]
        rw [if_pos (by simp [hi, hopd, ho, hop]), hrec, hl]
      rw [hstep]
      refine ⟨by simp [upd], ?_, hdown⟩
      dsimp only
      rw [upd_ne _ _ (by omega)]
      exact hw0

theorem Op.proceeds_of_moves {op : Op} (h : op.moves) : op.proceeds := by
  cases op <;> first | exact h | trivial

theorem reach_server {c : Config} (hc : c.Ok) {w : World} (h : Fine c w) (k : Nat) (hk : k ≤ c.n) :
    ∃ more : List Op, (∀ op ∈ more, op.proceeds ∧ op.calm) ∧
      (more.foldl (World.step c) w).opened k = true ∧
      ((more.foldl (World.step c) w).up 0).writer = (w.up 0).writer ∧
      (more.foldl (World.step c) w).down = w.down ∧ Fine c (more.foldl (World.step c) w) := by
  induction k with
  | zero => exact ⟨[], by simp, h.inv.opened0, rfl, rfl, h⟩
  | succ k ih =>
    obtain ⟨m1, g1, g2, g3, g4, g5⟩ := ih (by omega)
    obtain ⟨m2, k1, k2, k3, k4⟩ := open_next hc g5 k (by omega) g2
    refine ⟨m1 ++ m2, fun op ho => ?_, ?_⟩
    · rcases List.mem_append.1 ho with ho | ho
      · exact g1 op ho
      · exact k1 op ho
    · rw [List.foldl_append]
      refine ⟨k2, k3.trans g3, k4.trans g4, ?_⟩
      clear k2 k3 k4 g1 g2 g3 g4
      generalize m1.foldl (World.step c) w = w1 at *
      induction m2 generalizing w1 with
      | nil => exact g5
      | cons op m2 ih2 =>
        exact ih2 (fun o ho => k1 o (List.mem_cons_of_mem _ ho)) _ (g5.step hc op (k1 op List.mem_cons_self).2)

/-- **C117, delivery from the start.** As long as nothing has failed, wherever the connection has got to: the network
and the proxies alone can still bring it to the server, and bring everything that either application has written to the
other, and the ends of the streams that were ended; and when both were, every proxy can finish. -/
theorem C117_everything_can_arrive_from_the_start (c : Config) (hc : c.Ok) (hn : c.tag c.n = none) (ops : List Op)
    (hcalm : ∀ op ∈ ops, op.calm) :
    ∃ more : List Op, (∀ op ∈ more, op.proceeds) ∧
      (World.run c (ops ++ more)).opened c.n = true ∧
      ((World.run c (ops ++ more)).up c.n).received = ((World.run c ops).up 0).sent ∧
      ((World.run c (ops ++ more)).down 0).received = ((World.run c ops).down c.n).sent ∧
      (((World.run c ops).up 0).ended = true → ((World.run c (ops ++ more)).up c.n).endArrived = true) ∧
      (((World.run c ops).down c.n).ended = true → ((World.run c (ops ++ more)).down 0).endArrived = true) ∧
      (((World.run c ops).up 0).ended = true → ((World.run c ops).down c.n).ended = true →
        ∀ i, i < c.n → (World.run c (ops ++ more)).hop i = .over) := by
  obtain ⟨m1, g1, g2, g3, g4, -⟩ := reach_server hc (Fine.run hc ops hcalm) c.n (Nat.le_refl _)
  have e1 : World.run c (ops ++ m1) = m1.foldl (World.step c) (World.run c ops) := by
    rw [World.run, List.foldl_append]; rfl
  rw [← e1] at g2 g3 g4
  have hcalm' : ∀ op ∈ ops ++ m1, op.calm := fun op ho => by
    rcases List.mem_append.1 ho with ho | ho
    · exact hcalm op ho
    · exact (g1 op ho).2
  obtain ⟨m2, k1, k2⟩ := C117_everything_can_still_arrive c hc hn (ops ++ m1) hcalm' g2
  have hw : ((World.run c (ops ++ m1)).up 0).sent = ((World.run c ops).up 0).sent ∧
      ((World.run c (ops ++ m1)).up 0).ended = ((World.run c ops).up 0).ended := by
    simp only [Pipe.writer, Prod.mk.injEq] at g3
    exact ⟨g3.1, g3.2.1⟩
  rw [hw.1, hw.2, g4, List.append_assoc] at k2
  refine ⟨m1 ++ m2, fun op ho => ?_, ?_, k2⟩
  · rcases List.mem_append.1 ho with ho | ho
    · exact (g1 op ho).1
    · exact Op.proceeds_of_moves (k1 op ho)
  · rw [← List.append_assoc, World.run, List.foldl_append]
    have l := Live.run hc (ops ++ m1) hcalm' g2
    exact (Reach.live hc l ⟨m2, k1, rfl⟩).1.reached

/-- The client has written and ended before anything was accepted. -/
example : (∀ op ∈ [Op.clientWrites [1, 2, 3], Op.clientEnds], op.calm) ∧
    (World.run two [.clientWrites [1, 2, 3], .clientEnds]).opened two.n = false ∧
    ((World.run two [.clientWrites [1, 2, 3], .clientEnds]).up 0).sent = [1, 2, 3] := by
  refine ⟨?_, by decide +kernel⟩
  intro op h
  simp only [List.mem_cons, List.not_mem_nil, or_false] at h
  rcases h with h | h <;> subst h <;> trivial

end Verif.Passage
