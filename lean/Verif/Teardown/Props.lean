import Verif.Teardown.Model
import Verif.Mesh.Props
import Verif.ErrorRespond.Props
import Verif.Common.List

/-!
# C122. An error closes the connections it concerns, gracefully, and no others
-/

namespace Verif.Teardown

open Verif

/-! ## One connection -/

/-- A request that was taken and not answered yet was told to close its connection. -/
def Asked (http2 : Bool) (ops : List Op) : Prop :=
  ∃ pre i post, ops = pre ++ .close i :: post ∧ i ∈ ((Conn.new http2).run pre).pending

theorem run_append (c : Conn) (a b : List Op) : c.run (a ++ b) = (c.run a).run b := by
  unfold Conn.run; rw [List.foldl_append]

theorem run_snoc (c : Conn) (a : List Op) (o : Op) : c.run (a ++ [o]) = (c.run a).step o := by
  rw [run_append]; rfl

theorem asked_snoc {http2 : Bool} {ops : List Op} {o : Op} :
    Asked http2 (ops ++ [o]) ↔ Asked http2 ops ∨ ∃ i, o = .close i ∧ i ∈ ((Conn.new http2).run ops).pending := by
  constructor
  · rintro ⟨pre, i, post, h, hp⟩
    rcases List.eq_nil_or_concat post with rfl | ⟨post', z, rfl⟩
    · have := List.append_inj' h rfl
      obtain ⟨rfl, h2⟩ := this
      cases h2
      exact .inr ⟨i, rfl, hp⟩
    · rw [List.concat_eq_append, ← List.cons_append, ← List.append_assoc] at h
      obtain ⟨rfl, -⟩ := List.append_inj' h rfl
      exact .inl ⟨pre, i, post', rfl, hp⟩
  · rintro (⟨pre, i, post, rfl, hp⟩ | ⟨i, rfl, hp⟩)
    · exact ⟨pre, i, post ++ [o], by simp, hp⟩
    · exact ⟨ops, i, [], rfl, hp⟩

/-- Why a connection may be closed. -/
def Reason (h2 : Bool) (ops : List Op) : Prop :=
  Asked h2 ops ∨ .drained ∈ ops ∨ .gone ∈ ops ∨ (h2 = false ∧ ∃ i, .answer i true ∈ ops)

theorem Reason.snoc {h2 : Bool} {ops : List Op} (o : Op) (h : Reason h2 ops) : Reason h2 (ops ++ [o]) := by
  rcases h with h | h | h | ⟨h, i, hi⟩
  · exact .inl (asked_snoc.2 (.inl h))
  · exact .inr (.inl (by simp [h]))
  · exact .inr (.inr (.inl (by simp [h])))
  · exact .inr (.inr (.inr ⟨h, i, by simp [hi]⟩))

/-- What holds of a connection after events. -/
structure Inv (h2 : Bool) (ops : List Op) (c : Conn) : Prop where
  version : c.http2 = h2
  asked : Asked h2 ops → c.phase = .serving → c.notify = .notified
  due : c.phase = .serving → c.notify ≠ .waiting → c.due = true
  why : c.notify = .notified → Asked h2 ops
  only : c.phase ≠ .serving → Reason h2 ops
  alone : h2 = false → c.phase = .closing → c.last = true
  parts : .gone ∉ ops → ∀ i, i ∈ c.taken ↔ i ∈ c.pending ∨ i ∈ c.answered
  done : c.phase = .ended → c.pending = []
  rest : c.phase ≠ .ended → c.last = true → c.pending ≠ []
  serving : c.phase = .serving → c.last = true → False
  one : h2 = false → c.pending.length ≤ 1
  nodup : c.pending.Nodup
  known : ∀ i ∈ c.pending, i ∈ c.taken

theorem settle_ended {c : Conn} (h : c.last = true) (hp : c.pending = []) : c.settle = { c with phase := .ended } := by
  unfold Conn.settle; simp [h, hp]

theorem settle_rest {c : Conn} (h : c.last = true → c.pending ≠ []) : c.settle = c := by
  unfold Conn.settle
  rw [if_neg]
  simp only [Bool.and_eq_true, List.isEmpty_iff]
  exact fun ⟨a, b⟩ => h a b

/-- A connection that settles: the invariant but for what is decided by that. -/
theorem Inv.settled {h2 : Bool} {ops : List Op} {c : Conn} (hv : c.http2 = h2) (ha : Asked h2 ops → c.phase = .serving → c.notify = .notified)
    (hd : c.phase = .serving → c.notify ≠ .waiting → c.due = true) (hw : c.notify = .notified → Asked h2 ops)
    (ho : c.phase ≠ .serving ∨ c.last = true → Reason h2 ops) (hal : h2 = false → c.phase = .closing → c.last = true)
    (hp : .gone ∉ ops → ∀ i, i ∈ c.taken ↔ i ∈ c.pending ∨ i ∈ c.answered) (he : c.phase = .ended → c.pending = [])
    (hs : c.phase = .serving → c.last = true → c.pending = []) (h1 : h2 = false → c.pending.length ≤ 1) (hn : c.pending.Nodup)
    (hk : ∀ i ∈ c.pending, i ∈ c.taken) : Inv h2 ops c.settle := by
  by_cases hq : c.last = true ∧ c.pending = []
  · rw [settle_ended hq.1 hq.2]
    exact ⟨hv, fun _ h => (nomatch h), fun h => (nomatch h), hw, fun _ => ho (.inr hq.1), fun _ h => (nomatch h), hp, fun _ => hq.2,
      fun h => absurd rfl h, fun h => (nomatch h), h1, hn, hk⟩
  · have hr : c.last = true → c.pending ≠ [] := fun a b => hq ⟨a, b⟩
    rw [settle_rest hr]
    exact ⟨hv, ha, hd, hw, fun h => ho (.inl h), hal, hp, he, fun _ => hr, fun a b => hr b (hs a b), h1, hn, hk⟩

theorem Inv.shutdown {h2 : Bool} {ops : List Op} {c : Conn} (hc : Inv h2 ops c) {c' : Conn} {ops' : List Op}
    (heq : c' = { c with notify := c'.notify, due := c'.due }) (hw : c'.notify = .notified → Asked h2 ops') (hr : Reason h2 ops')
    (hg : .gone ∉ ops' → .gone ∉ ops) : Inv h2 ops' c'.shutdown := by
  rw [heq]
  unfold Conn.shutdown
  refine Inv.settled hc.version (fun _ h => by cases h) (fun h => by cases h) hw (fun _ => hr) (fun h _ => ?_) (fun h => hc.parts (hg h))
    (fun h => by cases h) (fun h => by cases h) hc.one hc.nodup hc.known
  show (c.last || !c.http2) = true
  rw [hc.version, h]; simp

theorem notifyOne_fst (n : Notify) : n.notifyOne.1 = .notified := by cases n <;> rfl

theorem Inv.step {h2 : Bool} {ops : List Op} {c : Conn} (hc : Inv h2 ops c) (hcr : c = (Conn.new h2).run ops) (o : Op) :
    Inv h2 (ops ++ [o]) (c.step o) := by
  have hgone : .gone ∉ ops ++ [o] → .gone ∉ ops := fun h hm => h (by simp [hm])
  -- an event that changes nothing
  have same : (∀ i, o = .close i → i ∉ c.pending ∨ c.phase = .ended) → Inv h2 (ops ++ [o]) c := by
    intro h
    refine ⟨hc.version, fun ha hp => ?_, hc.due, fun hn => asked_snoc.2 (.inl (hc.why hn)), fun hp => (hc.only hp).snoc o, hc.alone,
      fun hg => hc.parts (hgone hg), hc.done, hc.rest, hc.serving, hc.one, hc.nodup, hc.known⟩
    rcases asked_snoc.1 ha with ha | ⟨i, rfl, hi⟩
    · exact hc.asked ha hp
    · rw [← hcr] at hi
      rcases h i rfl with h | h
      · exact absurd hi h
      · rw [hp] at h; cases h
  by_cases hend : c.phase = .ended
  · have : c.step o = c := by unfold Conn.step; rw [hend]
    rw [this]
    exact same fun _ _ => .inr hend
  cases o with
  | take i =>
    have e : c.step (.take i) = if c.last || (!c.http2 && !c.pending.isEmpty) || c.taken.contains i then c
        else { c with pending := c.pending ++ [i], taken := c.taken ++ [i] } := by
      unfold Conn.step
      cases hph : c.phase with
      | ended => exact absurd hph hend
      | serving => rfl
      | closing => rfl
    rw [e]
    have hna : ∀ j, (Op.take i) = .close j → j ∉ c.pending ∨ c.phase = .ended := fun _ h => by cases h
    split
    · exact same hna
    · rename_i hif
      simp only [Bool.or_eq_true, Bool.and_eq_true, Bool.not_eq_true', not_or, not_and, Bool.not_eq_true, List.contains_eq_mem, decide_eq_false_iff_not] at hif
      obtain ⟨⟨g1, g2⟩, g3⟩ := hif
      have base := same hna
      refine ⟨base.version, base.asked, base.due, base.why, base.only, base.alone, fun hg j => ?_, fun h => absurd h hend, fun _ h => ?_,
        base.serving, fun h => ?_, ?_, fun j hj => ?_⟩
      · have := base.parts hg j
        simp only [List.mem_append, List.mem_cons, List.not_mem_nil, or_false]
        rw [this]
        constructor
        · rintro ((h | h) | h)
          · exact .inl (.inl h)
          · exact .inr h
          · exact .inl (.inr h)
        · rintro ((h | h) | h)
          · exact .inl (.inl h)
          · exact .inr h
          · exact .inl (.inr h)
      · rw [g1] at h; cases h
      · have := g2 (by rw [hc.version, h])
        have hp : c.pending = [] := by
          cases hcp : c.pending with
          | nil => rfl
          | cons a b => rw [hcp] at g2; simp [hc.version, h] at g2
        rw [hp]; simp
      · rw [List.nodup_append]
        refine ⟨hc.nodup, by simp, fun a ha b hb => ?_⟩
        simp only [List.mem_cons, List.not_mem_nil, or_false] at hb
        rintro rfl
        exact g3 (hb ▸ hc.known a ha)
      · simp only [List.mem_append, List.mem_cons, List.not_mem_nil, or_false] at hj ⊢
        exact hj.imp (hc.known j) id
  | close i =>
    have e : c.step (.close i) = if c.pending.contains i then
        { c with notify := c.notify.notifyOne.1, due := c.due || c.notify.notifyOne.2 } else c := by
      unfold Conn.step
      cases hph : c.phase with
      | ended => exact absurd hph hend
      | serving => rfl
      | closing => rfl
    rw [e]
    split
    · rename_i hif
      have hi : i ∈ c.pending := by simpa using hif
      have hask : Asked h2 (ops ++ [.close i]) := asked_snoc.2 (.inr ⟨i, rfl, by rw [← hcr]; exact hi⟩)
      refine ⟨hc.version, fun _ _ => notifyOne_fst _, fun hp _ => ?_, fun _ => hask, fun _ => .inl hask, hc.alone, fun hg => hc.parts (hgone hg), hc.done,
        hc.rest, hc.serving, hc.one, hc.nodup, hc.known⟩
      show (c.due || c.notify.notifyOne.2) = true
      cases hn : c.notify with
      | empty => rw [hc.due hp (by rw [hn]; exact Notify.noConfusion)]; rfl
      | waiting => simp [Notify.notifyOne]
      | notified => rw [hc.due hp (by rw [hn]; exact Notify.noConfusion)]; rfl
    · rename_i hif
      exact same fun j hj => by cases hj; exact .inl (by simpa using hif)
  | answer i hd =>
    have e : c.step (.answer i hd) = if c.pending.contains i then
        { c with pending := c.pending.filter (· ≠ i), answered := c.answered ++ [i], last := c.last || (hd && !c.http2) }.settle else c := by
      unfold Conn.step
      cases hph : c.phase with
      | ended => exact absurd hph hend
      | serving => rfl
      | closing => rfl
    rw [e]
    have base := same (fun _ h => by cases h)
    split
    · rename_i hif
      have hi : i ∈ c.pending := by simpa using hif
      have hone : h2 = false → c.pending.filter (· ≠ i) = [] := by
        intro h
        have hl := hc.one h
        cases hcp : c.pending with
        | nil => rfl
        | cons a b =>
          rw [hcp] at hl hi
          cases b with
          | cons _ _ => simp at hl
          | nil =>
            simp only [List.mem_cons, List.not_mem_nil, or_false] at hi
            subst hi; simp
      have hlast : (c.last || (hd && !c.http2)) = true → c.last = true ∨ (hd = true ∧ h2 = false) := by
        rw [hc.version]; cases c.last <;> cases hd <;> cases h2 <;> simp
      refine Inv.settled base.version base.asked base.due base.why ?_ (fun a b => ?_) (fun hg j => ?_) (fun h => absurd h hend) (fun a b => ?_)
        (fun h => ?_) (hc.nodup.filter _) (fun j hj => hc.known j (List.mem_filter.1 hj).1)
      · rintro (h | h)
        · exact base.only h
        · rcases hlast h with h | ⟨h1, h2'⟩
          · by_cases hp : c.phase = .serving
            · exact absurd (hc.serving hp h) id
            · exact base.only hp
          · subst h1
            exact .inr (.inr (.inr ⟨h2', i, by simp⟩))
      · show (c.last || (hd && !c.http2)) = true
        rw [hc.alone a b]; rfl
      · have := base.parts hg j
        simp only [List.mem_filter, List.mem_append, List.mem_cons, List.not_mem_nil, or_false, decide_eq_true_eq]
        rw [this]
        by_cases hj : j = i
        · subst hj; simp [hi]
        · simp [hj]
      · rcases hlast b with h | ⟨-, h⟩
        · exact absurd (hc.serving a h) id
        · exact hone h
      · show (c.pending.filter (· ≠ i)).length ≤ 1
        rw [hone h]; simp
    · exact base
  | look =>
    have hna : ∀ j, Op.look = .close j → j ∉ c.pending ∨ c.phase = .ended := fun _ h => by cases h
    cases hph : c.phase with
    | ended => exact absurd hph hend
    | closing =>
      have e : c.step .look = c := by unfold Conn.step; rw [hph]
      rw [e]; exact same hna
    | serving =>
      have e : c.step .look = if c.notify.poll.2 then { c with notify := c.notify.poll.1, due := false }.shutdown
          else { c with notify := c.notify.poll.1, due := false } := by unfold Conn.step; rw [hph]
      rw [e]
      have base := same hna
      split
      · rename_i hif
        have hn : c.notify = .notified := by
          cases hn : c.notify <;> rw [hn] at hif <;> first | rfl | cases hif
        refine hc.shutdown rfl (fun h => ?_) (.inl (base.why hn)) hgone
        rw [hn] at h
        cases h
      · rename_i hif
        have hn : c.notify ≠ .notified := fun hn => by rw [hn] at hif; exact hif rfl
        have hw : c.notify.poll.1 = .waiting := by
          cases hn' : c.notify <;> first | rfl | exact absurd hn' hn
        rw [hw]
        exact ⟨base.version, fun a b => absurd (base.asked a b) hn, fun _ h => absurd rfl h, fun h => (by cases h), base.only, base.alone, base.parts,
          base.done, base.rest, base.serving, base.one, base.nodup, base.known⟩
  | drained =>
    cases hph : c.phase with
    | ended => exact absurd hph hend
    | closing =>
      have e : c.step .drained = c := by unfold Conn.step; rw [hph]
      rw [e]; exact same fun _ h => by cases h
    | serving =>
      have e : c.step .drained = { c with due := false }.shutdown := by unfold Conn.step; rw [hph]
      rw [e]
      exact hc.shutdown rfl (fun h => asked_snoc.2 (.inl (hc.why h))) (.inr (.inl (by simp))) hgone
  | acknowledged =>
    have hna : ∀ j, Op.acknowledged = .close j → j ∉ c.pending ∨ c.phase = .ended := fun _ h => by cases h
    cases hph : c.phase with
    | ended => exact absurd hph hend
    | serving =>
      have e : c.step .acknowledged = c := by unfold Conn.step; rw [hph]
      rw [e]; exact same hna
    | closing =>
      have e : c.step .acknowledged = { c with last := true }.settle := by unfold Conn.step; rw [hph]
      rw [e]
      have base := same hna
      have hns : c.phase ≠ .serving := by rw [hph]; exact Phase.noConfusion
      exact Inv.settled base.version base.asked base.due base.why (fun _ => base.only hns) (fun _ _ => rfl) base.parts
        (fun h => absurd h hend) (fun h => absurd h hns) base.one base.nodup base.known
  | gone =>
    have e : c.step .gone = { c with phase := .ended, pending := [] } := by
      unfold Conn.step
      cases hph : c.phase with
      | ended => exact absurd hph hend
      | serving => rfl
      | closing => rfl
    rw [e]
    have base := same (fun _ h => by cases h)
    exact ⟨base.version, fun _ h => (by cases h), fun h => (by cases h), base.why, fun _ => .inr (.inr (.inl (by simp))), fun _ h => (by cases h),
      fun h => absurd (by simp) h, fun _ => rfl, fun h => absurd rfl h, fun h => (by cases h), fun _ => by simp, by simp, fun _ h => (by cases h)⟩

theorem inv (h2 : Bool) (ops : List Op) : Inv h2 ops ((Conn.new h2).run ops) := by
  induction ops using snoc_induction with
  | nil =>
    refine ⟨rfl, ?_, fun _ _ => rfl, fun h => (by cases h), fun h => absurd rfl h, fun _ h => (by cases h), fun _ i => ?_, fun _ => rfl,
      fun _ h => (by cases h), fun _ h => (by cases h), fun _ => by simp [Conn.run, Conn.new], by simp [Conn.run, Conn.new],
      fun i h => (by simp [Conn.run, Conn.new] at h)⟩
    · rintro ⟨pre, i, post, h, -⟩
      simp at h
    · simp [Conn.run, Conn.new]
  | snoc ops o ih =>
    rw [run_snoc]
    exact ih.step rfl o

/-- C122. A request that is told to close its connection is never missed, whenever that happens: the connection is being closed, or its task
is still to be run and closes it as it looks. -/
theorem C122_no_close_is_missed (h2 : Bool) (ops : List Op) (ha : Asked h2 ops) :
    (((Conn.new h2).run ops).phase = .serving → ((Conn.new h2).run ops).due = true) ∧ ((Conn.new h2).run (ops ++ [.look])).phase ≠ .serving := by
  have hi := inv h2 ops
  refine ⟨fun hp => hi.due hp (by rw [hi.asked ha hp]; exact Notify.noConfusion), fun hp => ?_⟩
  have hi' := inv h2 (ops ++ [.look])
  have hn := hi'.asked (asked_snoc.2 (.inl ha)) hp
  rw [run_snoc] at hn hp
  generalize (Conn.new h2).run ops = c at hi hn hp
  cases hph : c.phase with
  | ended => have e : c.step .look = c := by unfold Conn.step; rw [hph]
             rw [e, hph] at hp; cases hp
  | closing => have e : c.step .look = c := by unfold Conn.step; rw [hph]
               rw [e, hph] at hp; cases hp
  | serving =>
    have hc := hi.asked ha hph
    have e : c.step .look = { c with notify := .empty, due := false }.shutdown := by unfold Conn.step; rw [hph, hc]; rfl
    rw [e] at hn
    unfold Conn.shutdown Conn.settle at hn
    split at hn <;> cases hn

/-- C122. The end of the process closes every connection alike. -/
theorem C122_end_of_the_process (h2 : Bool) (ops : List Op) : ((Conn.new h2).run (ops ++ [.drained])).phase ≠ .serving := by
  rw [run_snoc]
  generalize (Conn.new h2).run ops = c
  unfold Conn.step
  cases hp : c.phase with
  | serving =>
    dsimp only
    unfold Conn.shutdown Conn.settle
    split <;> exact Phase.noConfusion
  | closing => simp [hp]
  | ended => simp [hp]

/-- C122. A connection is closed only because one of its own requests was told to close it, the process ends, the client is gone, or, of HTTP/1,
a response said that it is the last. -/
theorem C122_closed_only_for_a_reason (h2 : Bool) (ops : List Op) (hp : ((Conn.new h2).run ops).phase ≠ .serving) :
    Asked h2 ops ∨ .drained ∈ ops ∨ .gone ∈ ops ∨ (h2 = false ∧ ∃ i, .answer i true ∈ ops) :=
  (inv h2 ops).only hp

/-- C122. A connection that is closed does not lose requests: unless the client is gone, every request that was taken has its response when the
connection ends. -/
theorem C122_requests_taken_are_answered (h2 : Bool) (ops : List Op) (hg : .gone ∉ ops) (hp : ((Conn.new h2).run ops).phase = .ended) (i : Nat)
    (hi : i ∈ ((Conn.new h2).run ops).taken) : i ∈ ((Conn.new h2).run ops).answered := by
  have h := inv h2 ops
  rcases (h.parts hg i).1 hi with h1 | h1
  · rw [h.done hp] at h1; cases h1
  · exact h1

/-- It takes nothing more. -/
theorem step_last {c : Conn} (h : c.last = true) (o : Op) : (c.step o).last = true ∧ (c.step o).taken = c.taken := by
  have hs : ∀ d : Conn, d.last = true → d.settle.last = true ∧ d.settle.taken = d.taken := by
    intro d hd
    unfold Conn.settle
    split <;> exact ⟨hd, rfl⟩
  have hsh : ∀ d : Conn, d.last = true → d.shutdown.last = true ∧ d.shutdown.taken = d.taken := by
    intro d hd
    unfold Conn.shutdown
    exact hs _ (by simp [hd])
  unfold Conn.step
  cases c.phase <;> cases o <;> dsimp only <;>
    first
    | exact ⟨h, rfl⟩
    | exact hs _ rfl
    | exact hsh _ h
    | (split <;> first | exact ⟨h, rfl⟩ | exact hs _ (by simp [h]) | exact hsh _ h | (rename_i hn; simp [h] at hn))

theorem run_last {c : Conn} (h : c.last = true) (ops : List Op) : (c.run ops).last = true ∧ (c.run ops).taken = c.taken := by
  induction ops generalizing c with
  | nil => exact ⟨h, rfl⟩
  | cons o ops ih =>
    have := step_last h o
    exact ⟨(ih this.1).1, (ih this.1).2.trans this.2⟩

/-- An ended connection stays as it is. -/
theorem run_ended {c : Conn} (h : c.phase = .ended) (ops : List Op) : c.run ops = c := by
  induction ops with
  | nil => rfl
  | cons o ops ih =>
    have e : c.step o = c := by unfold Conn.step; rw [h]
    show (c.step o).run ops = c
    rw [e, ih]

/-- C122. An HTTP/1 connection that is being closed takes no further request, and neither does an HTTP/2 connection once its client has
acknowledged that. -/
theorem C122_no_request_is_taken_after (h2 : Bool) (ops more : List Op) :
    (h2 = false → ((Conn.new h2).run ops).phase ≠ .serving → ((Conn.new h2).run (ops ++ more)).taken = ((Conn.new h2).run ops).taken) ∧
    (((Conn.new h2).run ops).phase = .closing →
      ((Conn.new h2).run (ops ++ .acknowledged :: more)).taken = ((Conn.new h2).run ops).taken) := by
  have hi := inv h2 ops
  constructor
  · intro h hp
    rw [run_append]
    cases hph : ((Conn.new h2).run ops).phase with
    | serving => exact absurd hph hp
    | closing => exact (run_last (hi.alone h hph) more).2
    | ended => rw [run_ended hph]
  · intro hph
    rw [run_append]
    show (((Conn.new h2).run ops).step .acknowledged |>.run more).taken = _
    generalize (Conn.new h2).run ops = c at hph
    have e : c.step .acknowledged = { c with last := true }.settle := by
      unfold Conn.step; rw [hph]
    rw [e]
    have hl : ({ c with last := true } : Conn).settle.last = true ∧ ({ c with last := true } : Conn).settle.taken = c.taken := by
      unfold Conn.settle; split <;> exact ⟨rfl, rfl⟩
    rw [(run_last hl.1 more).2, hl.2]

/-- C122. An HTTP/1 response that says that it is the last is: the connection ends with it. -/
theorem C122_last_response_ends (ops : List Op) (i : Nat) (hi : i ∈ ((Conn.new false).run ops).pending) :
    ((Conn.new false).run (ops ++ [.answer i true])).phase = .ended ∧ i ∈ ((Conn.new false).run (ops ++ [.answer i true])).answered := by
  have h := inv false ops
  rw [run_snoc]
  generalize (Conn.new false).run ops = c at hi h
  have hend : c.phase ≠ .ended := fun he => by rw [h.done he] at hi; cases hi
  have e : c.step (.answer i true) =
      { c with pending := c.pending.filter (· ≠ i), answered := c.answered ++ [i], last := c.last || (true && !c.http2) }.settle := by
    unfold Conn.step
    cases hph : c.phase with
    | ended => exact absurd hph hend
    | serving => simp [hi]
    | closing => simp [hi]
  have hf : c.pending.filter (· ≠ i) = [] := by
    have hl := h.one rfl
    cases hcp : c.pending with
    | nil => rfl
    | cons a b =>
      rw [hcp] at hl hi
      cases b with
      | cons _ _ => simp at hl
      | nil =>
        simp only [List.mem_cons, List.not_mem_nil, or_false] at hi
        subst hi; simp
  rw [e, settle_ended (by simp [h.version]) hf]
  exact ⟨rfl, by simp⟩

/-- Answers to all that is pending, in a connection that is being closed. -/
theorem answers_end {c : Conn} (hn : c.pending.Nodup) (hp : c.phase = .closing) (hl : c.last = true) (hne : c.pending ≠ []) :
    (c.run (c.pending.map fun i => .answer i false)).phase = .ended := by
  generalize hps : c.pending = ps at *
  induction ps generalizing c with
  | nil => exact absurd rfl hne
  | cons a ps ih =>
    show ((c.step (.answer a false)).run (ps.map fun i => .answer i false)).phase = .ended
    have ha : a ∉ ps := (List.nodup_cons.1 hn).1
    have e : c.step (.answer a false) = { c with pending := ps, answered := c.answered ++ [a], last := true }.settle := by
      unfold Conn.step
      rw [hp]
      simp [hps, hl]
      rw [List.filter_eq_self.2 (fun b hb => by simp; rintro rfl; exact ha hb)]
    rw [e]
    cases ps with
    | nil => rw [settle_ended rfl rfl]; rfl
    | cons b ps =>
      rw [settle_rest (fun _ => List.cons_ne_nil _ _)]
      exact ih hp rfl rfl (List.nodup_cons.1 hn).2 (List.cons_ne_nil _ _)

/-- C122. A connection that is being closed ends as soon as the requests it took have their responses; an HTTP/2 one, when its client has
acknowledged its end. -/
theorem C122_closing_ends (h2 : Bool) (ops : List Op) (hp : ((Conn.new h2).run ops).phase = .closing) :
    ((Conn.new h2).run (ops ++ .acknowledged :: ((Conn.new h2).run ops).pending.map fun i => .answer i false)).phase = .ended ∧
    (h2 = false → ((Conn.new h2).run (ops ++ ((Conn.new h2).run ops).pending.map fun i => .answer i false)).phase = .ended) := by
  have h := inv h2 ops
  rw [run_append, run_append]
  generalize (Conn.new h2).run ops = c at h hp
  constructor
  · show ((c.step .acknowledged).run _).phase = _
    have e : c.step .acknowledged = { c with last := true }.settle := by unfold Conn.step; rw [hp]
    rw [e]
    by_cases hpe : c.pending = []
    · rw [settle_ended (c := { c with last := true }) rfl hpe, hpe]; rfl
    · rw [settle_rest (c := { c with last := true }) (fun _ => hpe)]
      exact answers_end (c := { c with last := true }) h.nodup hp rfl hpe
  · intro hh
    have hl := h.alone hh hp
    exact answers_end h.nodup hp hl (h.rest (by rw [hp]; exact Phase.noConfusion) hl)

/-! ## Many connections -/

/-- C122. What happens to one connection has no effect on another: each goes on as if it were alone. -/
theorem C122_other_connections_go_on (w : List Conn) (es : List (Nat × Op)) (k : Nat) :
    (World.run w es)[k]? = (w[k]?).map fun c => c.run ((es.filter fun e => e.1 = k).map (·.2)) := by
  induction es generalizing w with
  | nil => simp [World.run, Conn.run]
  | cons e es ih =>
    show (World.run (World.step w e) es)[k]? = _
    rw [ih]
    unfold World.step
    by_cases hk : e.1 = k
    · subst hk
      cases hw : w[e.1]? with
      | none => simp [hw]
      | some c =>
        have hlt : e.1 < w.length := by
          rcases Nat.lt_or_ge e.1 w.length with h | h
          · exact h
          · rw [List.getElem?_eq_none h] at hw; cases hw
        simp [hlt, Conn.run]
    · cases hw : w[e.1]? with
      | none => simp [hk]
      | some c => simp [hk]

/-! ## An error of the server's proxy -/

open Verif.Mesh Verif.ErrorRespond
open Verif.ServerPolicy (Tls Id)
open Verif.Endpoint (Ep)
open Verif.InboundHttp (Env Variant)

/-- With no more than `close` in `connection`, few headers are the connection's. -/
theorem not_level {h : HeaderMap} (hc : h.getAll "connection" = [] ∨ h.getAll "connection" = ["close".toList]) {n : String}
    (hn : n ∉ ["connection", "upgrade", "proxy-connection", "keep-alive", "close"]) : ¬ H1.ConnectionLevel h n := by
  simp only [List.mem_cons, List.not_mem_nil, or_false, not_or] at hn
  obtain ⟨n1, n2, n3, n4, n5⟩ := hn
  rintro (h1 | h1 | h1 | h1 | ⟨v, o, hv, -, ho, h1⟩)
  · exact n1 h1
  · exact n2 h1
  · exact n3 h1
  · exact n4 h1
  · rw [HeaderMap.get_eq_head] at hv
    rcases hc with hc | hc <;> rw [hc] at hv <;> cases hv
    have hs : Text.split ',' "close".toList = ["close".toList] := by decide +kernel
    rw [hs] at ho
    simp only [List.mem_cons, List.not_mem_nil, or_false] at ho
    subst ho
    refine n5 (h1.trans ?_)
    decide +kernel

/-- The version that is written for a version of HTTP/1. -/
def protoOf : H1.Version → Option (List Char)
  | .http11 => some "HTTP/1.1".toList
  | .http10 => some "HTTP/1.0".toList
  | _ => none

/-- What a failed request is answered with by the server's proxy. -/
theorem fail_parts {y : Hyper} (hy : y.Fair) {l : Layer} {tls : Tls} {v : Variant} {hd : HeaderMap} {r : H1.Req} {err : Error} {p : H1.Rsp} {cl : Bool}
    (h : fail y l tls v hd r err = some (p, cl)) :
    ∃ s, l.rescue err = some s ∧ cl = s.close ∧
      (GrpcRequest (l.seen hd r) → p.status = 200) ∧ (¬ GrpcRequest (l.seen hd r) → p.status = s.httpStatus) ∧
      p.headers.getAll "l5d-proxy-connection" = (if InboundHttp.emits tls = true ∧ s.close = true then ["close".toList] else []) ∧
      ¬ H1.ConnectionLevel p.headers "l5d-proxy-connection" ∧
      p.version = (if (l = .endpoint ∧ (H1.downgrade r).2 = true) ∧ (protoOf (l.seen hd r).version).isSome = true then .h2 else (l.seen hd r).version) ∧
      p.headers.getAll "l5d-orig-proto" = (if l = .endpoint ∧ (H1.downgrade r).2 = true then (protoOf (l.seen hd r).version).toList else []) := by
  unfold fail at h
  cases hs : l.rescue err with
  | none => rw [C49_unrescued _ _ _ _ hs] at h; cases h
  | some s =>
    obtain ⟨p0, hp0, hv0, hcl, hst, hg, hcon, horig⟩ : ∃ p0 : ErrorRespond.Rsp,
        (newRespond (InboundHttp.emits tls) (l.seen hd r)).respond l.rescue (some err) = .synthetic p0 s.close ∧ p0.version = (l.seen hd r).version ∧
        p0.headers.getAll "l5d-proxy-connection" = (if InboundHttp.emits tls = true ∧ s.close = true then ["close".toList] else []) ∧
        (GrpcRequest (l.seen hd r) → p0.status = 200) ∧ (¬ GrpcRequest (l.seen hd r) → p0.status = s.httpStatus) ∧
        (p0.headers.getAll "connection" = [] ∨ p0.headers.getAll "connection" = ["close".toList]) ∧
        p0.headers.getAll "l5d-orig-proto" = [] := by
      have hcli : (l.seen hd r).client = true := by cases l <;> rfl
      by_cases hg : GrpcRequest (l.seen hd r)
      · obtain ⟨p0, g1, g2, g3, g4⟩ := C49_grpc (InboundHttp.emits tls) _ l.rescue err s hg hs
        refine ⟨p0, by rw [g1, hcli, Bool.and_true], by rw [g2, hg.1], ?_, fun _ => g3, fun h => absurd hg h, ?_, ?_⟩
        · rw [g4]; simp [grpcHeaders]
        · rw [g4]; simp [grpcHeaders]
        · rw [g4]; simp [grpcHeaders]
      · obtain ⟨p0, g1, g2, g3, g4⟩ := C49_http (InboundHttp.emits tls) _ l.rescue err s hg hs
        refine ⟨p0, by rw [g1, hcli, Bool.and_true], g2, ?_, fun h => absurd h hg, fun _ => g3, ?_, ?_⟩
        · rw [g4]; simp [httpHeaders]
        · rw [g4]
          simp only [httpHeaders]
          rw [if_neg (by decide), if_neg (by decide)]
          split
          · exact .inr rfl
          · left; simp
        · rw [g4]; simp [httpHeaders]
    rw [hp0] at h
    simp only [Option.some.injEq, Prod.mk.injEq] at h
    obtain ⟨h, rfl⟩ := h
    -- the way through `Downgrade`
    obtain ⟨q, hq, q1, q2, q3, q4, q5⟩ : ∃ q : H1.Rsp, H1.downgradeResponse (decide (l = .endpoint) && (H1.downgrade r).2) ⟨p0.version, p0.status, p0.headers⟩ = q ∧
        q.status = p0.status ∧
        q.headers.getAll "l5d-proxy-connection" = p0.headers.getAll "l5d-proxy-connection" ∧
        q.headers.getAll "connection" = p0.headers.getAll "connection" ∧
        q.version = (if (l = .endpoint ∧ (H1.downgrade r).2 = true) ∧ (protoOf p0.version).isSome = true then .h2 else p0.version) ∧
        q.headers.getAll "l5d-orig-proto" = (if l = .endpoint ∧ (H1.downgrade r).2 = true then (protoOf p0.version).toList else []) := by
      refine ⟨_, rfl, ?_⟩
      by_cases hb : l = .endpoint ∧ (H1.downgrade r).2 = true
      · have hb' : (decide (l = .endpoint) && (H1.downgrade r).2) = true := by simp [hb]
        rw [hb']
        cases hv : p0.version <;>
          simp [H1.downgradeResponse, hb, protoOf, HeaderMap.getAll_remove, HeaderMap.getAll_insert, H1.origProto, horig]
      · have hb' : (decide (l = .endpoint) && (H1.downgrade r).2) = false := by simpa using hb
        rw [hb', if_neg (fun h => hb h.1), if_neg hb]
        exact ⟨rfl, rfl, rfl, rfl, horig⟩
    rw [hq] at h
    have hcq : q.headers.getAll "connection" = [] ∨ q.headers.getAll "connection" = ["close".toList] := by rw [q3]; exact hcon
    refine ⟨s, rfl, rfl, fun a => ?_, fun a => ?_, ?_, ?_, ?_, ?_⟩
    · rw [← h]; exact q1.trans (hst a)
    · rw [← h]; exact q1.trans (hg a)
    · rw [← h, ← hcl, ← q2]
      cases v with
      | http1 => exact hy.response1 _ _ (by decide)
      | h2 => exact hy.response2 _ _ (by decide) (not_level hcq (by decide))
    · rw [← h]
      cases v with
      | http1 =>
        intro hl
        rcases hy.connection _ _ hl with hl | hl
        · exact absurd hl (by decide)
        · exact not_level hcq (by decide) hl
      | h2 => exact not_level (.inl (hy.clean2 _).2) (by decide)
    · rw [← h]; show q.version = _; rw [q4, hv0]
    · rw [← h, ← hv0, ← q5]
      cases v with
      | http1 => exact hy.response1 _ _ (by decide)
      | h2 => exact hy.response2 _ _ (by decide) (not_level hcq (by decide))

/-- What an error of the server's proxy is to the client's proxy and its application: `s` is how it is to be answered, `closedFar` and `closed`
are whether the connections that the server's proxy and the client's proxy took the request on are told to close. -/
structure Crossed (e : Ep) (asked : H1.Version) (grpc : Prop) (s : Synthetic) (closedFar : Bool) (p : H1.Rsp) (closed : Bool) : Prop where
  far : closedFar = s.close
  status : (grpc → p.status = 200) ∧ (¬ grpc → p.status = s.httpStatus)
  version : p.version = asked
  closes : closed = true ↔ s.close = true ∧ e.close = true ∧ Endpoint.Meshed e
  told : closed = true → asked = .http11 → p.headers.getAll "connection" = ["close".toList]
  hidden : p.headers.getAll "l5d-proxy-error" = [] ∧ p.headers.getAll "l5d-proxy-connection" = []

theorem crossed_of {e : Ep} {me : Id} {asked : H1.Version} {grpc : Prop} {s : Synthetic} {q p : H1.Rsp} {cf closed : Bool} (hf : cf = s.close)
    (hs : (grpc → q.status = 200) ∧ (¬ grpc → q.status = s.httpStatus)) (hv : q.version = asked)
    (hh : q.headers.getAll "l5d-proxy-connection" =
      (if InboundHttp.emits (tlsOf me e) = true ∧ s.close = true then ["close".toList] else []))
    (h : Endpoint.receiveResponse e q = (p, closed)) : Crossed e asked grpc s cf p closed := by
  have hc := Endpoint.C80_closes_iff e q
  obtain ⟨r1, r2, r3, r4, -, r6⟩ := Endpoint.C80_response e q
  rw [h] at hc r1 r2 r3 r4 r6
  simp only at hc r1 r2 r3 r4 r6
  have hem : InboundHttp.emits (tlsOf me e) = true ↔ Endpoint.Meshed e := by
    by_cases hm : Endpoint.Meshed e
    · rw [tlsOf_meshed hm]; simp [InboundHttp.emits, hm]
    · rw [tlsOf_not_meshed hm]; simp [InboundHttp.emits, hm]
  refine ⟨hf, by rw [r1]; exact hs, r2.trans hv, ?_, fun a b => ?_, r3, r4⟩
  · rw [hc, hh]
    by_cases hm : Endpoint.Meshed e <;> by_cases hs : s.close = true <;> simp [hem, hm, hs]
  · rw [r6, if_pos ⟨a, by rw [hv]; exact b⟩]

/-- C122. When the server's proxy fails a request of an HTTP/1 client, the client gets the answer to that error in its own version of HTTP, by whatever
version the proxies speak; and its connection is closed exactly if the error is one that closes connections and the request was forwarded to
one meshed endpoint. Then an HTTP/1.1 response says so. -/
theorem C122_error_crosses_http1 (x : Env) (parseUrl : Dns.Str → Option Dns.Str) (y y' : Hyper) (hy : y.Fair) (hy' : y'.Fair) (c : Client) (v : Via)
    (e : Ep) (ts : Times) (r : H1.Req) (wire : Wire) (me : Id)
    (hc : c.variant = .http1) (hr : r.version.isHttp1) (hf : Fresh r) (hwr : Written r) (hk : v.Keeps "connection")
    (hw : wire ∈ outbound x parseUrl y c v e ts r)
    (l : Layer) (hd : HeaderMap) (err : Error) (p1 : H1.Rsp) (closedFar : Bool) (connect : Bool) (handle : H1.Handle) (p2 : H1.Rsp) (closed : Bool)
    (h1 : fail y' l (tlsOf me e) wire.variant hd wire.req err = some (p1, closedFar)) (h2 : back e wire connect handle p1 = some (p2, closed)) :
    ∃ s, l.rescue err = some s ∧ Crossed e r.version (GrpcRequest (l.seen hd wire.req)) s closedFar p2 closed := by
  obtain ⟨s, f1, f2, f3, f4, f5, f6, f7, f8⟩ := fail_parts hy' h1
  refine ⟨s, f1, ?_⟩
  simp only [back, Option.map_eq_some_iff] at h2
  obtain ⟨q2, hq2, h2⟩ := h2
  obtain ⟨q, hq, ⟨g1, g2, g3⟩ | ⟨u, hu, hna, g1, g2, g3⟩⟩ := carried hc hr hf hwr hw
  · have e1 := send1_parts g1
    have hver : wire.req.version = r.version := by rw [e1]; exact hq.version
    have hne : wire.req.version ≠ .h2 := by rw [hver]; rcases hr with h | h <;> rw [h] <;> exact H1.Version.noConfusion
    have hdn := (H1.C44_not_upgraded wire.req (.inl hne)).1
    rw [g2] at hq2
    obtain ⟨t1, t2, t3, -⟩ := received1 hq2
    rw [g3] at h2
    refine crossed_of (me := me) f2 ⟨fun a => t2.trans (f3 a), fun a => t2.trans (f4 a)⟩ ?_ ?_ h2
    · rw [t1, f7, hdn]
      have : (l.seen hd wire.req).version = r.version := by
        cases l
        · exact hver
        · simp only [Layer.seen, hdn]; exact hver
      simp [this]
    · rw [t3 _ (by decide) (.inl f6), f5]
  · have e1 := send2_parts g1
    rw [g2] at hq2
    simp only [received, Option.some.injEq] at hq2
    subst hq2
    rw [g3] at h2
    simp only at h2
    have hqc := hq.plain hna hk
    obtain ⟨-, -, sv, hp, rfl⟩ := upgraded hu
    obtain ⟨sv', hp', v1, -⟩ := proto_back (v := q.version) (by rw [hq.version]; exact hr) q.wasAbsolute
    rw [hp] at hp'; cases hp'
    have hget : wire.req.headers.get H1.origProto = some sv := by
      rw [e1, HeaderMap.get_eq_head]
      show (HeaderMap.getAll (y.request2 _) _).head? = _
      rw [hy.request2 _ _ (by decide) (not_level (.inl (by simp [HeaderMap.getAll_remove, HeaderMap.getAll_insert, hqc])) (by decide))]
      simp [HeaderMap.getAll_remove, HeaderMap.getAll_insert, H1.origProto]
    have hv2 : wire.req.version = .h2 := by rw [e1]
    have hdn := H1.downgrade_h2 wire.req sv hv2 hget
    refine crossed_of (q := H1.upgradeResponse r.version p1) (me := me) f2 ⟨f3, f4⟩ ?_ ?_ h2
    · show H1.versionOf r.version (p1.headers.get H1.origProto) = r.version
      rw [HeaderMap.get_eq_head, show H1.origProto = "l5d-orig-proto" from rfl, f8, hdn]
      cases l with
      | server => rfl
      | endpoint =>
        simp only [Layer.seen, hdn, v1, hq.version]
        rcases hr with h | h <;> rw [h] <;> decide +kernel
    · show HeaderMap.getAll (p1.headers.remove H1.origProto) _ = _
      rw [HeaderMap.getAll_remove, if_neg (by decide), f5]

/-- C122. And so for HTTP/2 clients. -/
theorem C122_error_crosses_http2 (x : Env) (parseUrl : Dns.Str → Option Dns.Str) (y y' : Hyper) (hy : y.Fair) (hy' : y'.Fair) (c : Client) (v : Via)
    (e : Ep) (ts : Times) (r : H1.Req) (wire : Wire) (me : Id)
    (hc : c.variant = .h2) (hr : r.version = .h2) (hcon : r.headers.getAll "connection" = []) (hor : r.headers.getAll "l5d-orig-proto" = [])
    (hk : v.Keeps "connection") (hko : v.Keeps "l5d-orig-proto") (hw : wire ∈ outbound x parseUrl y c v e ts r)
    (l : Layer) (hd : HeaderMap) (err : Error) (p1 : H1.Rsp) (closedFar : Bool) (connect : Bool) (handle : H1.Handle) (p2 : H1.Rsp) (closed : Bool)
    (h1 : fail y' l (tlsOf me e) wire.variant hd wire.req err = some (p1, closedFar)) (h2 : back e wire connect handle p1 = some (p2, closed)) :
    ∃ s, l.rescue err = some s ∧ Crossed e .h2 (GrpcRequest (l.seen hd wire.req)) s closedFar p2 closed := by
  obtain ⟨s, f1, f2, f3, f4, f5, f6, f7, f8⟩ := fail_parts hy' h1
  refine ⟨s, f1, ?_⟩
  simp only [back, Option.map_eq_some_iff] at h2
  obtain ⟨q2, hq2, h2⟩ := h2
  obtain ⟨q, q1, q2', q3, -, q5, g1, g2, g3⟩ := carried2 hc hr hw
  have e1 := send2_parts g1
  rw [g2] at hq2
  simp only [received, Option.some.injEq] at hq2
  subst hq2
  rw [g3] at h2
  have qc : q.headers.getAll "connection" = [] := by
    rw [q5 "connection" ⟨by decide, by decide, .inr (by decide)⟩ hk, hcon]
  have ho : wire.req.headers.get "l5d-orig-proto" = none := by
    rw [e1, HeaderMap.get_eq_head]
    show (HeaderMap.getAll (y.request2 _) _).head? = _
    rw [hy.request2 _ _ (by decide) (not_level (.inl qc) (by decide)), q5 _ ⟨by decide, by decide, .inr (by decide)⟩ hko, hor]; rfl
  have hdn := (H1.C44_not_upgraded wire.req (.inr ho)).1
  have hv2 : wire.req.version = .h2 := by rw [e1]
  refine crossed_of (me := me) f2 ⟨f3, f4⟩ ?_ f5 h2
  rw [f7, hdn]
  have : (l.seen hd wire.req).version = .h2 := by
    cases l
    · exact hv2
    · simp only [Layer.seen, hdn]; exact hv2
  simp [this]

/-- C122. Which errors these are: an application that cannot be reached is a 502 that closes connections, one that does not answer in time a 504 that
does, and a request that is not allowed a 403 that does not. -/
theorem C122_some_errors (err : Error) (s : Synthetic) :
    (.io ∈ err.chain → Layer.rescue .endpoint err = some s → s.httpStatus = 502 ∧ s.close = true) ∧
    (.connectTimeout ∈ err.chain → .io ∉ err.chain → Layer.rescue .endpoint err = some s → s.httpStatus = 504 ∧ s.close = true) ∧
    (.routeUnauthorized ∈ err.chain → .routeNotFound ∉ err.chain → Layer.rescue .server err = some s → s.httpStatus = 403 ∧ s.close = false) ∧
    (err.chain ≠ [] → (∀ c ∈ err.chain, c = .loadShed) → Layer.rescue .server err = some s → s.httpStatus = 503 ∧ s.close = true) := by
  have hc : ∀ c, err.isCausedBy c = true ↔ c ∈ err.chain := fun c => by unfold Error.isCausedBy; simp
  refine ⟨fun h hr => ?_, fun h hn hr => ?_, fun h hn hr => ?_, fun hne h hr => ?_⟩
  · simp only [Layer.rescue, inboundEndpoint, (hc _).2 h, if_true, Option.some.injEq] at hr
    subst hr; exact ⟨rfl, rfl⟩
  · rw [← hc, Bool.not_eq_true] at hn
    simp only [Layer.rescue, inboundEndpoint, hn, (hc _).2 h, if_true, Bool.false_eq_true, if_false, Option.some.injEq] at hr
    subst hr; exact ⟨rfl, rfl⟩
  · rw [← hc, Bool.not_eq_true] at hn
    simp only [Layer.rescue, inboundServer, hn, (hc _).2 h, if_true, Bool.false_eq_true, if_false, Option.some.injEq] at hr
    subst hr; exact ⟨rfl, rfl⟩
  · have hno : ∀ c, c ≠ .loadShed → err.isCausedBy c = false := by
      intro c hcn
      rw [← Bool.not_eq_true, hc]
      exact fun hm => hcn (h c hm)
    have hyes : err.isCausedBy .loadShed = true := by
      cases hch : err.chain with
      | nil => exact absurd hch hne
      | cons a l => rw [hc, hch, h a (by rw [hch]; simp)]; simp
    unfold Layer.rescue inboundServer at hr
    simp only [hno .routeNotFound (by decide), hno .routeUnauthorized (by decide), hno .invalidRedirect (by decide), hno .invalidPolicy (by decide),
      hno .rateLimit (by decide), hno .gatewayDomainInvalid (by decide), hno .gatewayLoop (by decide), hno .failFast (by decide), hyes, Bool.false_eq_true,
      if_false, if_true] at hr
    split at hr
    · rename_i hcr
      unfold Error.causeRef at hcr
      obtain ⟨c, hm, hx⟩ := List.exists_of_findSome?_eq_some hcr
      rw [h c hm] at hx
      cases hx
    · cases hr
      exact ⟨rfl, rfl⟩

theorem finish_close {h2 : Bool} {ops : List Op} {i : Nat} (hi : i ∈ ((Conn.new h2).run ops).pending) (p : H1.Rsp) :
    Asked h2 (ops ++ finish i p true) :=
  ⟨ops, i, _, rfl, hi⟩

theorem close_pending {c : Conn} {i : Nat} (hi : i ∈ c.pending) : (c.step (.close i)).pending = c.pending := by
  unfold Conn.step
  cases c.phase <;> simp [hi]

/-- C122. So an error of the server's proxy that closes connections closes that of the application, if its request was forwarded to one
meshed endpoint: an HTTP/1.1 connection ends with the response to the request, and an HTTP/2 connection is being closed as soon as its task
runs. -/
theorem C122_application_is_disconnected (h2 : Bool) (ops : List Op) (i : Nat) (hi : i ∈ ((Conn.new h2).run ops).pending)
    (e : Ep) (grpc : Prop) (s : Synthetic) (cf : Bool) (p : H1.Rsp) (closed : Bool)
    (h : Crossed e (if h2 then .h2 else .http11) grpc s cf p closed) (hs : s.close = true) (hc : e.close = true) (hm : Endpoint.Meshed e) :
    ((Conn.new h2).run (ops ++ finish i p closed ++ [.look])).phase ≠ .serving ∧
    (h2 = false → ((Conn.new h2).run (ops ++ finish i p closed)).phase = .ended ∧ i ∈ ((Conn.new h2).run (ops ++ finish i p closed)).answered) := by
  have hcl := h.closes.2 ⟨hs, hc, hm⟩
  subst hcl
  refine ⟨(C122_no_close_is_missed h2 _ (finish_close hi p)).2, fun hh => ?_⟩
  subst hh
  have ht := h.told rfl rfl
  have e1 : finish i p true = [.close i] ++ [.answer i true] := by unfold finish; rw [ht]; rfl
  rw [e1, ← List.append_assoc]
  exact C122_last_response_ends (ops ++ [.close i]) i (by rw [run_snoc, close_pending hi]; exact hi)

/-- A response that does not close leaves a connection that is served as it is. -/
theorem stays {h2 : Bool} {ops : List Op} {i : Nat} (hp : ((Conn.new h2).run ops).phase = .serving) {p : H1.Rsp}
    (hh : h2 = true ∨ "close".toList ∉ p.headers.getAll "connection") (hno : ¬ Asked h2 ops) :
    ((Conn.new h2).run (ops ++ finish i p false ++ [.look])).phase = .serving := by
  have e1 : finish i p false = [.answer i ((p.headers.getAll "connection").contains "close".toList)] := rfl
  have hna : ¬ Asked h2 (ops ++ finish i p false) := by
    rw [e1]
    intro ha
    rcases asked_snoc.1 ha with ha | ⟨j, hj, -⟩
    · exact hno ha
    · cases hj
  have hpa : ((Conn.new h2).run (ops ++ finish i p false)).phase = .serving := by
    rw [e1, run_snoc]
    have hi := inv h2 ops
    generalize (Conn.new h2).run ops = c at hi hp
    have hl : c.last = false := by
      cases hl : c.last with
      | false => rfl
      | true => exact absurd (hi.serving hp hl) id
    have hb : ((p.headers.getAll "connection").contains "close".toList && !c.http2) = false := by
      rw [hi.version]
      rcases hh with hh | hh
      · rw [hh]; simp
      · have : (p.headers.getAll "connection").contains "close".toList = false := by
          rw [List.contains_eq_mem, decide_eq_false_iff_not]; exact hh
        rw [this]; rfl
    unfold Conn.step
    rw [hp]
    dsimp only
    split
    · rw [settle_rest]
      · intro hl'
        simp only [hl, hb, Bool.or_false] at hl'
        cases hl'
    · exact hp
  rw [run_snoc]
  have hi := inv h2 (ops ++ finish i p false)
  generalize (Conn.new h2).run (ops ++ finish i p false) = c at hi hpa
  have hn : c.notify ≠ .notified := fun h => hna (hi.why h)
  unfold Conn.step
  rw [hpa]
  dsimp only
  rw [if_neg (by cases hc : c.notify <;> first | exact absurd hc hn | exact Bool.noConfusion)]

/-- C122. And any other response leaves a connection that is served as it is: the connection of an application is kept when the endpoint is one of a
balancer, when it is not meshed, and when the error is none that closes connections. -/
theorem C122_application_stays_connected (h2 : Bool) (ops : List Op) (i : Nat) (hp : ((Conn.new h2).run ops).phase = .serving)
    (e : Ep) (v : H1.Version) (grpc : Prop) (s : Synthetic) (cf : Bool) (p : H1.Rsp) (closed : Bool) (h : Crossed e v grpc s cf p closed)
    (hn : ¬ (s.close = true ∧ e.close = true ∧ Endpoint.Meshed e)) (hh : h2 = true ∨ "close".toList ∉ p.headers.getAll "connection")
    (hno : ¬ Asked h2 ops) :
    ((Conn.new h2).run (ops ++ finish i p closed ++ [.look])).phase = .serving := by
  have hcl : closed = false := by
    cases hc : closed with
    | false => rfl
    | true => exact absurd (h.closes.1 hc) hn
  subst hcl
  exact stays hp hh hno

/-! ## Examples -/

/-- Three requests on an HTTP/2 connection, one of which closes it: the other two are answered, and one that comes late is not taken. -/
example : let c := (Conn.new true).run [.take 1, .take 2, .look, .take 3, .close 2, .answer 2 false, .look, .acknowledged, .take 4, .answer 1 false, .answer 3 false]
    c.phase = .ended ∧ c.taken = [1, 2, 3] ∧ c.answered = [2, 1, 3] := by decide +kernel

/-- A request may close its connection before the task has ever looked. -/
example : Asked true [.take 1, .close 1, .close 1, .answer 1 false] ∧
    ((Conn.new true).run [.take 1, .close 1, .close 1, .answer 1 false]).phase = .serving ∧
    ((Conn.new true).run [.take 1, .close 1, .close 1, .answer 1 false, .look]).phase = .closing := by
  refine ⟨⟨[.take 1], 1, _, rfl, by decide +kernel⟩, by decide +kernel, by decide +kernel⟩

/-- An HTTP/1 connection. -/
example : ((Conn.new false).run [.look, .take 1, .answer 1 false, .take 2, .close 2, .look]).phase = .closing ∧
    ((Conn.new false).run [.look, .take 1, .answer 1 false, .take 2, .close 2, .look, .answer 2 false]).phase = .ended ∧
    ((Conn.new false).run [.look, .take 1, .answer 1 true, .take 2]).taken = [1] := by decide +kernel

/-- Two connections. -/
example : (World.run [Conn.new true, Conn.new false] [(0, .take 1), (1, .take 2), (0, .close 1), (0, .look)]).map (·.phase) =
    [.closing, .serving] := by decide +kernel

def exPlain : H1.Req := exRequest ⟨none, none, some "/a".toList⟩ [("host", "web:80".toList)]

/-- What becomes of a request that the server's proxy fails. -/
def failed (e : Ep) (l : Layer) (err : Error) : List (Option (H1.Rsp × Bool × Bool)) :=
  (outbound InboundHttp.sampleEnv (fun _ => none) plainHyper (exClient .http1)
      .endpoint e exTimes exPlain).map fun wire =>
    (fail plainHyper l (tlsOf exMe e) wire.variant wire.req.headers wire.req err).bind fun p1 =>
      (back e wire false .none p1.1).map fun p2 => (p2.1, p1.2, p2.2)

/-- An application that cannot be reached: the response says so, and the connections are closed. -/
example : failed (exEp true) .endpoint ⟨[.io], "refused".toList⟩ =
      [some (⟨.http11, 502, [("content-length", "0".toList), ("connection", "close".toList)]⟩, true, true)] ∧
    failed (exEp false) .endpoint ⟨[.io], "refused".toList⟩ =
      [some (⟨.http11, 502, [("content-length", "0".toList), ("connection", "close".toList)]⟩, true, true)] := by decide +kernel

/-- A request that is not allowed closes nothing; without TLS, only the connection to the server's proxy is closed. -/
example : failed (exEp true) .server ⟨[.routeUnauthorized], "no".toList⟩ = [some (⟨.http11, 403, [("content-length", "0".toList)]⟩, false, false)] ∧
    failed exPlainEp .server ⟨[.loadShed], "busy".toList⟩ = [some (⟨.http11, 503, [("content-length", "0".toList)]⟩, true, false)] := by decide +kernel

/-- C122, limit. Until its task runs, a connection may take further requests, and an HTTP/2 connection does until its client has acknowledged its
end; a client that never does keeps it. -/
theorem C122_limit_requests_until_acknowledged :
    ((Conn.new true).run [.take 1, .close 1, .answer 1 false, .take 2, .look, .take 3]).taken = [1, 2, 3] ∧
    ((Conn.new true).run [.take 1, .close 1, .answer 1 false, .look]).phase = .closing := by decide +kernel

/-- C122, limit. A response may close the connection of a request whatever the request is answered with in the end: a first attempt that fails so closes it, though
a second one succeeds. -/
theorem C122_limit_attempts :
    let c := (Conn.new true).run [.take 1, .look, .close 1, .look, .answer 1 false]
    c.phase = .closing ∧ c.answered = [1] := by decide +kernel

end Verif.Teardown
