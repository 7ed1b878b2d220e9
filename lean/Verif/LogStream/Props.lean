import Verif.LogStream.Lemmas

/-!
# Streams of logs: theorems (C111)
-/

namespace Verif.LogStream

variable {E : Type}

/-- **C111.** Streams do not disturb one another: whatever streams come and go, and however their slots and filters are
shared, a stream is what it would be if it were the only one and were offered every event. -/
theorem C111_each_stream_is_as_if_alone (cap : Nat) (ops : List (Op E)) (h : FiltersOk ops) (u : Nat) :
    (run cap ops).streams[u]?.map Stream.forget = alone cap u ops :=
  (refines cap ops h u).2

/-! ## One stream -/

structure Told (cap : Nat) (t : Stream E) (w : Wanted E) : Prop where
  filter : w.filter = some t.filter
  live : t.live = !w.closed
  order : (linesSent t.body ++ t.onTheWay).Sublist w.events
  count : w.events.length = (linesSent t.body).length + t.onTheWay.length + toldDropped t.body + t.untold
  bound : t.queue.length ≤ cap
  busy : t.phase ≠ .waiting → t.queue ≠ []
  rest : 2 ≤ cap → t.dropped > 0 → t.onTheWay ≠ []

structure Matches (cap u : Nat) (a : Alone E) (w : Wanted E) : Prop where
  adds : a.adds = w.adds
  unmade : a.stream = none → w.filter = none ∧ w.events = [] ∧ w.closed = false
  made : ∀ t, a.stream = some t → Told cap t w
  before : a.adds ≤ u → a.stream = none

theorem linesSent_append (a b : List (Item E)) : linesSent (a ++ b) = linesSent a ++ linesSent b := by
  simp [linesSent]

theorem toldDropped_append (a b : List (Item E)) : toldDropped (a ++ b) = toldDropped a + toldDropped b := by
  simp [toldDropped]

theorem told_write {cap : Nat} {t : Stream E} {w : Wanted E} (h : Told cap t w) (e : E) :
    Told cap (t.write cap e) { w with events := w.events ++ [e] } := by
  obtain ⟨hf, hl, ho, hc, hb, hw, hr⟩ := h
  unfold Stream.write
  split
  · rename_i hlt
    have hway : Stream.onTheWay { t with queue := t.queue ++ [e] } = t.onTheWay ++ [e] := by
      unfold Stream.onTheWay
      cases hp : t.phase with
      | telling n =>
        have := hw (by rw [hp]; simp)
        cases hq : t.queue with
        | nil => exact absurd hq this
        | cons x q => rfl
      | _ => rfl
    refine ⟨hf, hl, ?_, ?_, ?_, ?_, ?_⟩
    · rw [hway, ← List.append_assoc]
      exact List.Sublist.append ho (List.Sublist.refl _)
    · rw [hway]
      simp only [List.length_append, List.length_singleton, hc, Stream.untold]
      omega
    · simp; omega
    · intro _; simp
    · intro _ _; rw [hway]; simp
  · rename_i hlt
    refine ⟨hf, hl, ?_, ?_, hb, hw, ?_⟩
    · exact List.Sublist.trans ho (List.sublist_append_left _ _)
    · simp only [List.length_append, List.length_singleton, hc, Stream.untold, Stream.onTheWay]
      omega
    · intro h2 _
      show t.onTheWay ≠ []
      unfold Stream.onTheWay
      intro he
      split at he
      · have : t.queue.tail.length = 0 := by rw [he]; rfl
        rw [List.length_tail] at this
        omega
      · have : t.queue.length = 0 := by rw [he]; rfl
        omega

theorem told_recv {cap : Nat} {t : Stream E} {w : Wanted E} (h : Told cap t w) : Told cap t.recv w := by
  obtain ⟨f, i, q, d, p, b, l⟩ := t
  obtain ⟨hf, hl, ho, hc, hb, hw, hr⟩ := h
  cases p <;> cases q <;> exact ⟨hf, hl, ho, hc, hb, by simp [Stream.recv] at hw ⊢, hr⟩

theorem told_sent {cap : Nat} {t : Stream E} {w : Wanted E} (h : Told cap t w) : Told cap t.sent w := by
  obtain ⟨f, i, q, d, p, b, l⟩ := t
  cases p with
  | waiting => cases q <;> exact h
  | sending =>
    cases q with
    | nil => exact h
    | cons e q =>
      obtain ⟨hf, hl, ho, hc, hb, hw, hr⟩ := h
      dsimp only [Stream.onTheWay, Stream.untold] at ho hc hb hw hf hl hr
      have ho' : (linesSent (b ++ [Item.line e]) ++ q).Sublist w.events := by
        rw [linesSent_append, List.append_assoc]; exact ho
      have hc' : w.events.length = (linesSent (b ++ [Item.line e])).length + q.length + toldDropped (b ++ [Item.line e]) + d := by
        rw [linesSent_append, toldDropped_append, hc]
        simp [linesSent, toldDropped]
        omega
      simp only [Stream.sent]
      split
      · exact ⟨hf, hl, ho', by dsimp only [Stream.onTheWay, Stream.untold, List.tail_cons]; omega, hb, by simp, by simp⟩
      · exact ⟨hf, hl, ho', by dsimp only [Stream.onTheWay, Stream.untold]; omega,
          by simp only [List.length_cons] at hb ⊢; omega, by simp, by dsimp only; intro _ hd; omega⟩
  | telling n =>
    cases q with
    | nil => exact h
    | cons e q =>
      obtain ⟨hf, hl, ho, hc, hb, hw, hr⟩ := h
      dsimp only [Stream.onTheWay, Stream.untold, List.tail_cons] at ho hc hb hw hf hl hr
      refine ⟨hf, hl, ?_, ?_, by simp only [Stream.sent, List.length_cons] at hb ⊢; omega, by simp [Stream.sent], hr⟩
      · simp only [Stream.sent, Stream.onTheWay, linesSent_append]
        simpa [linesSent] using ho
      · simp only [Stream.sent, Stream.onTheWay, Stream.untold, linesSent_append, toldDropped_append, hc]
        simp [linesSent, toldDropped]
        omega

theorem wanted_snoc (u : Nat) (ops : List (Op E)) (o : Op E) : wanted u (ops ++ [o]) = (wanted u ops).see u o := by
  simp [wanted]

theorem matches_run (cap u : Nat) (ops : List (Op E)) : Matches cap u (aloneSt cap u ops) (wanted u ops) := by
  induction ops using snoc_induction with
  | nil => exact ⟨rfl, fun _ => ⟨rfl, rfl, rfl⟩, (fun _ h => nomatch h), fun _ => rfl⟩
  | snoc ops o ih =>
    rw [aloneSt_snoc, wanted_snoc]
    generalize aloneSt cap u ops = a at ih ⊢
    generalize wanted u ops = w at ih ⊢
    obtain ⟨n, st⟩ := a
    obtain ⟨ha, hn, hs, hb⟩ := ih
    dsimp only at ha hn hs hb
    cases o with
    | add f =>
      simp only [Alone.see, Wanted.see]
      refine ⟨by rw [ha], ?_, ?_, ?_⟩
      · intro hnone
        dsimp only at hnone ⊢
        split at hnone
        · cases hnone
        · rename_i hne
          rw [if_neg (by rw [← ha]; exact hne)]
          exact hn hnone
      · intro t ht
        dsimp only at ht
        split at ht
        · rename_i he
          obtain ⟨h1, h2, h3⟩ := hn (hb (by omega))
          cases ht
          refine ⟨?_, ?_, ?_, ?_, ?_, ?_, ?_⟩ <;> simp [← ha, he, h2, h3, linesSent, toldDropped, Stream.onTheWay, Stream.untold]
        · rename_i hne
          obtain ⟨hf, hl, ho, hc, hbd, hw, hr⟩ := hs t ht
          exact ⟨by dsimp only; rw [if_neg (by rw [← ha]; exact hne)]; exact hf, hl, ho, hc, hbd, hw, hr⟩
      · intro hle
        dsimp only at hle ⊢
        rw [if_neg (by omega)]
        exact hb (by omega)
    | event e =>
      cases st with
      | none =>
        obtain ⟨h1, h2, h3⟩ := hn rfl
        simp only [Alone.see, Wanted.see, h1, Option.map_none]
        exact ⟨ha, fun _ => ⟨h1, h2, h3⟩, (fun _ h => nomatch h), fun _ => rfl⟩
      | some t =>
        have ht := hs t rfl
        have hbf : ¬ n ≤ u := fun h => nomatch hb h
        simp only [Alone.see, Wanted.see, ht.filter, Option.map_some, ht.live]
        by_cases hc : (!w.closed && t.filter.enabled e) = true
        · rw [if_pos hc, if_pos hc]
          exact ⟨ha, (fun h => nomatch h), fun t' h' => by cases h'; rw [← ht.filter]; exact told_write ht e, fun h => absurd h hbf⟩
        · rw [if_neg hc, if_neg hc]
          exact ⟨ha, (fun h => nomatch h), fun t' h' => by cases h'; exact ht, fun h => absurd h hbf⟩
    | recv v =>
      refine ⟨ha, ?_, ?_, ?_⟩
      · intro h; cases st with
        | none => exact hn rfl
        | some t => cases h
      · intro t' ht'; cases st with
        | none => cases ht'
        | some t =>
          have ht := hs t rfl
          simp only [Alone.see, Option.map_some, Option.some.injEq] at ht'
          subst ht'
          split
          · exact told_recv ht
          · exact ht
      · intro h
        have := hb h
        subst this
        rfl
    | sent v =>
      refine ⟨ha, ?_, ?_, ?_⟩
      · intro h; cases st with
        | none => exact hn rfl
        | some t => cases h
      · intro t' ht'; cases st with
        | none => cases ht'
        | some t =>
          have ht := hs t rfl
          simp only [Alone.see, Option.map_some, Option.some.injEq] at ht'
          subst ht'
          split
          · exact told_sent ht
          · exact ht
      · intro h
        have := hb h
        subst this
        rfl
    | close v =>
      cases st with
      | none =>
        obtain ⟨h1, h2, h3⟩ := hn rfl
        have he : w.see u (.close v) = w := by simp [Wanted.see, h1]
        rw [he]
        exact ⟨ha, fun _ => ⟨h1, h2, h3⟩, (fun _ h => nomatch h), fun _ => rfl⟩
      | some t =>
        have ht := hs t rfl
        have hbf : ¬ n ≤ u := fun h => nomatch hb h
        by_cases hv : v = u
        · have he : w.see u (.close v) = { w with closed := true } := by simp [Wanted.see, hv, ht.filter]
          rw [he]
          refine ⟨ha, (fun h => nomatch h), ?_, fun h => absurd h hbf⟩
          intro t' ht'
          simp only [Alone.see, Option.map_some, Option.some.injEq, hv, if_true] at ht'
          subst ht'
          exact ⟨ht.filter, rfl, ht.order, ht.count, ht.bound, ht.busy, ht.rest⟩
        · have he : w.see u (.close v) = w := by simp [Wanted.see, hv]
          rw [he]
          refine ⟨ha, (fun h => nomatch h), ?_, fun h => absurd h hbf⟩
          intro t' ht'
          simp only [Alone.see, Option.map_some, Option.some.injEq, hv, if_false] at ht'
          subst ht'
          exact ht

theorem told_of (cap : Nat) (ops : List (Op E)) (h : FiltersOk ops) (u : Nat) (t : Stream E)
    (ht : (run cap ops).streams[u]? = some t) : Told cap t.forget (wanted u ops) := by
  have := (refines cap ops h u).2
  rw [ht] at this
  exact (matches_run cap u ops).made t.forget this.symm

/-- **C111.** What a client is sent, and what is on its way to it, are events that came while its stream was open and that
its filter lets through, in the order in which they came and each no more often than it came. -/
theorem C111_only_what_was_asked_for_in_order (cap : Nat) (ops : List (Op E)) (h : FiltersOk ops) (u : Nat) (t : Stream E)
    (ht : (run cap ops).streams[u]? = some t) : (linesSent t.body ++ t.onTheWay).Sublist (wanted u ops).events :=
  (told_of cap ops h u t ht).order

/-- **C111.** No loss is silent: the events asked for are those sent, those on their way, those the client was told
were dropped, and those it is yet to be told of. -/
theorem C111_every_event_is_accounted_for (cap : Nat) (ops : List (Op E)) (h : FiltersOk ops) (u : Nat) (t : Stream E)
    (ht : (run cap ops).streams[u]? = some t) :
    (wanted u ops).events.length =
      (linesSent t.body).length + t.onTheWay.length + toldDropped t.body + t.untold :=
  (told_of cap ops h u t ht).count

/-- **C111.** A stream that no one reads holds no more than its capacity. -/
theorem C111_memory_is_bounded (cap : Nat) (ops : List (Op E)) (h : FiltersOk ops) (u : Nat) (t : Stream E)
    (ht : (run cap ops).streams[u]? = some t) : t.queue.length ≤ cap :=
  (told_of cap ops h u t ht).bound

/-- **C111.** An event is dropped only if the stream is full; if it is not, its line is put behind those that are waiting. -/
theorem C111_dropped_only_when_full (cap : Nat) (ops : List (Op E)) (h : FiltersOk ops) (u : Nat) (t : Stream E) (e : E)
    (ht : (run cap ops).streams[u]? = some t) (hl : t.live = true) (he : t.filter.enabled e = true) :
    (run cap (ops ++ [.event e])).streams[u]? =
      some (if t.queue.length = cap then { t with dropped := t.dropped + 1 } else { t with queue := t.queue ++ [e] }) := by
  rw [run_snoc, event_getElem? (inv_run cap ops h), ht]
  have hb : t.queue.length ≤ cap := C111_memory_is_bounded cap ops h u t ht
  simp only [Option.map_some, hl, he, Bool.and_self, if_true, Stream.write]
  by_cases hq : t.queue.length = cap
  · rw [if_pos hq, if_neg (by omega)]
  · rw [if_neg hq, if_pos (by omega)]

/-- **C111.** If a stream is never full when an event comes that it asked for, nothing is lost: what was sent and what is on
its way are all the events asked for. -/
theorem C111_nothing_lost_if_never_full (cap : Nat) (ops : List (Op E)) (h : FiltersOk ops) (u : Nat) (t : Stream E)
    (ht : (run cap ops).streams[u]? = some t)
    (hroom : ∀ p q e, ops = p ++ .event e :: q → ∀ t', (run cap p).streams[u]? = some t' → t'.queue.length < cap) :
    linesSent t.body ++ t.onTheWay = (wanted u ops).events := by
  have key : ∀ p q, ops = p ++ q → ∀ t', (aloneSt cap u p).stream = some t' →
      t'.dropped = 0 ∧ toldDropped t'.body = 0 ∧ ∀ n, t'.phase ≠ .telling n := by
    intro p
    induction p using snoc_induction with
    | nil => intro q _ t' ht'; cases ht'
    | snoc p o ih =>
      intro q hq t' ht'
      have hq' : ops = p ++ (o :: q) := by simpa using hq
      have ih := ih (o :: q) hq'
      have hok : FiltersOk p := fun f hf => h f (by rw [hq']; simp [hf])
      have hroom' := hroom p q
      rw [aloneSt_snoc] at ht'
      have hr := refines cap p hok u
      cases hst : (aloneSt cap u p).stream with
      | none =>
        cases o with
        | add f =>
          simp only [Alone.see, hst] at ht'
          split at ht'
          · cases ht'; exact ⟨rfl, rfl, by simp⟩
          · cases ht'
        | _ => simp [Alone.see, hst] at ht'
      | some t0 =>
        obtain ⟨h1, h2, h3⟩ := ih t0 hst
        cases o with
        | add f =>
          simp only [Alone.see, hst] at ht'
          split at ht'
          · cases ht'; exact ⟨rfl, rfl, by simp⟩
          · cases ht'; exact ⟨h1, h2, h3⟩
        | event e =>
          simp only [Alone.see, hst, Option.map_some, Option.some.injEq] at ht'
          subst ht'
          split
          · rw [hst] at hr
            cases hs' : (run cap p).streams[u]? with
            | none => rw [hs'] at hr; cases hr.2
            | some t1 =>
              rw [hs'] at hr
              have hlt := hroom' e hq' t1 hs'
              have : t0.queue = t1.queue := by
                have := hr.2
                simp only [Option.map_some, Option.some.injEq] at this
                rw [← this]; rfl
              unfold Stream.write
              rw [if_pos (by rw [this]; exact hlt)]
              exact ⟨h1, h2, h3⟩
          · exact ⟨h1, h2, h3⟩
        | recv v =>
          simp only [Alone.see, hst, Option.map_some, Option.some.injEq] at ht'
          subst ht'
          split
          · unfold Stream.recv
            split
            · exact ⟨h1, h2, by simp⟩
            · exact ⟨h1, h2, h3⟩
          · exact ⟨h1, h2, h3⟩
        | sent v =>
          simp only [Alone.see, hst, Option.map_some, Option.some.injEq] at ht'
          subst ht'
          split
          · unfold Stream.sent
            split
            · rw [if_neg (by omega)]
              refine ⟨h1, ?_, by simp⟩
              dsimp only
              rw [toldDropped_append, h2]; rfl
            · rename_i n _ _ hp _
              exact absurd hp (h3 n)
            · exact ⟨h1, h2, h3⟩
          · exact ⟨h1, h2, h3⟩
        | close v =>
          simp only [Alone.see, hst, Option.map_some, Option.some.injEq] at ht'
          subst ht'
          split <;> exact ⟨h1, h2, h3⟩
  have hr := refines cap ops h u
  rw [ht] at hr
  obtain ⟨h1, h2, h3⟩ := key ops [] (by simp) t.forget hr.2.symm
  have hT := told_of cap ops h u t ht
  have hu : t.forget.untold = 0 := by
    unfold Stream.untold
    rw [h1]
    cases hp : t.forget.phase with
    | telling n => exact absurd hp (h3 n)
    | _ => rfl
  have hc := hT.count
  rw [h2, hu] at hc
  exact hT.order.eq_of_length (by rw [List.length_append]; omega)

/-- **C111.** Whenever a line has been sent, the client is next told of every line that was dropped up to then: after
that, either all losses have been told, or the task is about to tell the rest. -/
theorem C111_losses_are_told_with_the_next_line (cap : Nat) (ops : List (Op E)) (u : Nat) (t : Stream E)
    (ht : (run cap ops).streams[u]? = some t) (hl : t.live = true) (hp : t.phase = .sending) (hq : t.queue ≠ []) :
    ∃ t' e, (run cap (ops ++ [.sent u])).streams[u]? = some t' ∧ t'.body = t.body ++ [.line e] ∧ t'.dropped = 0 ∧
      t'.phase = (if t.dropped = 0 then .waiting else .telling t.dropped) := by
  rw [run_snoc, show step cap (run cap ops) (.sent u) = (run cap ops).task u Stream.sent from rfl, task_getElem?, ht]
  simp only [Option.map_some, hl, and_self, if_true]
  cases hq' : t.queue with
  | nil => exact absurd hq' hq
  | cons e q =>
    refine ⟨_, e, rfl, ?_⟩
    unfold Stream.sent
    rw [hp, hq']
    by_cases hd : t.dropped = 0
    · simp [hd]
    · have : t.dropped > 0 := by omega
      simp [hd, this]

/-- **C111.** A stream that was closed is offered nothing more, and what it held is not changed by anything that
happens later. -/
theorem C111_closed_streams_are_left_alone (cap : Nat) (ops more : List (Op E)) (h : FiltersOk (ops ++ more)) (u : Nat)
    (t : Stream E) (ht : (run cap ops).streams[u]? = some t) (hl : t.live = false) :
    (run cap (ops ++ more)).streams[u]?.map Stream.forget = some t.forget ∧
      u ∉ (run cap (ops ++ more)).slab.writers := by
  have h0 : FiltersOk ops := fun f hf => h f (List.mem_append_left _ hf)
  have hlen : u < (aloneSt cap u ops).adds := by
    rw [← (refines cap ops h0 u).1]; exact lt_of_getElem?_some ht
  have hs : (aloneSt cap u ops).stream = some t.forget := by
    rw [← (refines cap ops h0 u).2, ht]; rfl
  have key : ∀ more : List (Op E), (aloneSt cap u (ops ++ more)).stream = some t.forget ∧ u < (aloneSt cap u (ops ++ more)).adds := by
    intro more
    induction more using snoc_induction with
    | nil => rw [List.append_nil]; exact ⟨hs, hlen⟩
    | snoc more o ih =>
      rw [← List.append_assoc, aloneSt_snoc]
      obtain ⟨i1, i2⟩ := ih
      have hfl : t.forget.live = false := hl
      cases o with
      | add f =>
        refine ⟨?_, by simp only [Alone.see]; omega⟩
        simp only [Alone.see]
        rw [if_neg (by omega)]; exact i1
      | close v =>
        refine ⟨?_, i2⟩
        simp only [Alone.see, i1, Option.map_some, Option.some.injEq]
        split
        · simp [Stream.forget, hl]
        · rfl
      | _ => exact ⟨by simp [Alone.see, i1, hfl], i2⟩
  have hf := (refines cap (ops ++ more) h u).2
  rw [(key more).1] at hf
  refine ⟨hf, ?_⟩
  intro hm
  obtain ⟨t', ht', hl'⟩ := ((inv_run cap (ops ++ more) h).writers u).1 hm
  rw [ht'] at hf
  simp only [Option.map_some, Option.some.injEq] at hf
  have : t'.live = t.live := congrArg Stream.live (a₁ := t'.forget) (a₂ := t.forget) hf
  rw [hl', hl] at this
  cases this

/-- **C111.** The proxy makes events for streams only if one wants them: without an open stream whose filter lets the event
through, nothing changes. -/
theorem C111_unwanted_events_change_nothing (cap : Nat) (ops : List (Op E)) (h : FiltersOk ops) (e : E)
    (hno : ∀ (u : Nat) (t : Stream E), (run cap ops).streams[u]? = some t → t.live = true → t.filter.enabled e = false) :
    (run cap (ops ++ [.event e])).streams = (run cap ops).streams := by
  apply List.ext_getElem?
  intro v
  rw [run_snoc, event_getElem? (inv_run cap ops h)]
  cases ht : (run cap ops).streams[v]? with
  | none => rfl
  | some t =>
    simp only [Option.map_some, Option.some.injEq]
    split
    · rename_i hc
      simp only [Bool.and_eq_true] at hc
      rw [hno v t ht hc.1] at hc
      cases hc.2
    · rfl

/-- **C111.** No loss stays untold: with two places or more (there are 512) a client that has been sent all there is to send
has been told of every line that was dropped. -/
theorem C111_no_loss_stays_untold (cap : Nat) (hcap : 2 ≤ cap) (ops : List (Op E)) (h : FiltersOk ops) (u : Nat) (t : Stream E)
    (ht : (run cap ops).streams[u]? = some t) (hq : t.queue = []) :
    (wanted u ops).events.length = (linesSent t.body).length + toldDropped t.body := by
  have hT := told_of cap ops h u t ht
  have hw : t.onTheWay = [] := by
    unfold Stream.onTheWay
    rw [hq]
    cases t.phase <;> rfl
  have hd : ¬ t.dropped > 0 := fun hd => hT.rest hcap hd hw
  have hp : t.phase = .waiting := by
    cases hp : t.phase with
    | waiting => rfl
    | _ => exact absurd hq (hT.busy (by show t.phase ≠ _; rw [hp]; simp))
  have hu : t.untold = 0 := by
    unfold Stream.untold
    rw [hp]
    dsimp only
    omega
  have hc := C111_every_event_is_accounted_for cap ops h u t ht
  rw [hw, hu] at hc
  simpa using hc

/-! ## Examples -/

/-- Events are numbers; a filter lets through those above a level. -/
def above (n : Nat) : Filter Nat :=
  { interest := fun e => if e > n then .always else .never, enabled := fun e => e > n }

theorem above_ok (n : Nat) : (above n).Ok where
  never := by intro e h; simp only [above] at h ⊢; split at h <;> simp_all
  always := by intro e h; simp only [above] at h ⊢; split at h <;> simp_all

/-- Two streams, the first of which is closed and its slot used by a third; the channels have two places. -/
def history : List (Op Nat) :=
  [ .add (above 5), .add (above 0), .event 3, .event 7, .event 9, .recv 1, .sent 1, .sent 1, .close 0, .add (above 1), .event 1,
    .event 2, .recv 2, .sent 2, .event 8, .recv 1, .sent 1 ]

theorem history_ok : FiltersOk history := by
  intro f hf
  simp only [history, List.mem_cons, Op.add.injEq, reduceCtorEq, List.not_mem_nil, or_false, false_or] at hf
  rcases hf with rfl | rfl | rfl <;> exact above_ok _

example : (run 2 history).streams.map (fun t => (t.idx, t.queue, t.dropped, t.body, t.live)) =
    [ (0, [7, 9], 0, [], false),
      (1, [7, 1], 0, [.line 3, .droppedEvents 1, .line 7], true),
      (0, [8], 0, [.line 2], true) ] := by decide

example : (wanted 1 history).events = [3, 7, 9, 1, 2, 8] ∧ (wanted 0 history).events = [7, 9] ∧
    (wanted 2 history).events = [2, 8] := by decide

example : (run 2 history).streams[2]?.map Stream.forget = alone 2 2 history := C111_each_stream_is_as_if_alone 2 history history_ok 2

/-- The first stream is closed after nine steps, and its slot is used again. -/
example : ∃ t, (run 2 (history.take 9)).streams[0]? = some t ∧ t.live = false ∧
    (run 2 (history.take 9 ++ history.drop 9)).streams[0]?.map Stream.forget = some t.forget :=
  ⟨_, rfl, rfl, (C111_closed_streams_are_left_alone 2 (history.take 9) (history.drop 9) (by rw [List.take_append_drop]; exact history_ok)
    0 _ rfl rfl).1⟩

/-- The second stream is full when the third event comes. -/
example : ∃ t, (run 2 (history.take 4)).streams[1]? = some t ∧ t.queue.length = 2 ∧ t.live = true ∧ t.filter.enabled 9 = true :=
  ⟨_, rfl, by decide⟩

/-- A reader that keeps up loses nothing. -/
def keepsUp : List (Op Nat) := [.add (above 0), .event 3, .event 7, .recv 0, .sent 0, .event 9]

example : ∀ p q e, keepsUp = p ++ .event e :: q → ∀ t, (run 3 p).streams[0]? = some t → t.queue.length < 3 := by
  intro p q e hp t ht
  have hq : ∀ n, n < 6 → ∀ t, (run 3 (keepsUp.take n)).streams[0]? = some t → t.queue.length < 3 := by
    intro n hn
    match n, hn with
    | 0, _ => intro t h; cases h
    | 1, _ => intro t h; cases h; decide
    | 2, _ => intro t h; cases h; decide
    | 3, _ => intro t h; cases h; decide
    | 4, _ => intro t h; cases h; decide
    | 5, _ => intro t h; cases h; decide
  have hl : p.length < 6 := by
    have := congrArg List.length hp
    simp [keepsUp] at this
    omega
  have hpt : keepsUp.take p.length = p := by rw [hp]; simp
  have := hq p.length hl t
  rw [hpt] at this
  exact this ht

/-- The history goes on until the second stream has nothing to send: six events were asked for, four lines were sent. -/
example : ∃ t, (run 2 (history ++ [.sent 1, .recv 1, .sent 1])).streams[1]? = some t ∧ t.queue = [] ∧
    t.body = [.line 3, .droppedEvents 1, .line 7, .droppedEvents 2, .line 1] := ⟨_, rfl, by decide⟩

end Verif.LogStream
