import Verif.Passage.Props

/-!
# C117: what was written can always be delivered
-/

namespace Verif.Duplex

open Verif.Io (Bytes)

/-! ## Answers under which a copy moves everything -/

theorem drainLoop_all (b : CopyBuf) (io : Sink) (rest : List Answer) (hc : b.chunk ≠ []) :
    drainLoop b io 0 (.ready b.chunk.length :: rest) =
      (.all, { b with readPos := b.readPos + b.chunk.length }, { io with written := io.written ++ b.chunk }, rest) := by
  have hl : 0 < b.chunk.length := List.length_pos_iff.2 hc
  have he : ({ b with readPos := b.readPos + b.chunk.length } : CopyBuf).chunk = [] := by
    simp only [CopyBuf.chunk, List.length_drop]
    apply List.drop_eq_nil_of_le
    simp only [CopyBuf.chunk, List.length_drop] at hl
    omega
  have hn : ¬ min b.chunk.length b.chunk.length = 0 := by omega
  rw [drainLoop, if_neg hc]
  dsimp only
  rw [if_neg hn, Nat.min_self, List.take_length]
  have hz : ¬ 0 + b.chunk.length = 0 := by omega
  cases rest with
  | nil => simp only [drainLoop, he, if_true, if_neg hz]
  | cons a rest => simp only [drainLoop, he, if_true, if_neg hz]

theorem chunk_spent (b : CopyBuf) : ({ b with readPos := b.readPos + b.chunk.length } : CopyBuf).chunk = [] := by
  simp only [CopyBuf.chunk, List.length_drop]
  apply List.drop_eq_nil_of_le
  omega

/-- From a buffer that is spent. -/
theorem copyLoop_moves_spent (m : Nat) : ∀ (nf : Bool) (s : Reading) (d : Writing) (b : CopyBuf), s.io.unread.length ≤ m →
    s.buf = some b → b.chunk = [] → ∃ pre s' d', Calm pre ∧
      (∀ n as, pre.length + as.length < n → copyLoop n nf s d (pre ++ as) = (.pending, s', d', as)) ∧
      pend s' = [] ∧ s'.io.unread = [] ∧ s'.io.eof = s.io.eof := by
  induction m with
  | zero =>
    intro nf s d b hm hb hc
    have hu : s.io.unread = [] := List.length_eq_zero_iff.1 (Nat.le_zero.1 hm)
    cases nf with
    | false =>
      refine ⟨[.pending], { s with buf := some ⟨[], 0⟩ }, d, by simp [Calm], fun n as hn => ?_, rfl, hu, rfl⟩
      obtain ⟨n, rfl⟩ : ∃ k, n = k + 1 := ⟨n - 1, by omega⟩
      simp [copyLoop, pollBuffer, hb, hc]
    | true =>
      refine ⟨[.pending, .pending], { s with buf := some ⟨[], 0⟩, flushing := true },
        { d with io := { d.io with flushCalls := d.io.flushCalls + 1, flushAsked := d.io.written.length } },
        by simp [Calm], fun n as hn => ?_, rfl, hu, rfl⟩
      obtain ⟨n, rfl⟩ : ∃ k, n = k + 1 := ⟨n - 1, by omega⟩
      simp [copyLoop, pollBuffer, pollFlush, hb, hc]
  | succ m ih =>
    intro nf s d b hm hb hc
    by_cases hu : s.io.unread = []
    · exact ih nf s d b (by simp [hu]) hb hc
    · let got := s.io.unread.take 8192
      have hgl : got.length > 0 := by
        have := List.length_pos_iff.2 hu
        simp only [got, List.length_take]; omega
      let s1 : Reading := { s with buf := some ⟨got, 0⟩, io := { s.io with
        unread := s.io.unread.drop 8192, delivered := s.io.delivered ++ got } }
      have hpb : ∀ as, pollBuffer s (.ready 8192 :: as) = (.some, s1, as) := by
        intro as
        unfold pollBuffer
        simp only [hb, hc, ne_eq, not_true_eq_false, if_false]
        have : min capacity (max 8192 1) = 8192 := by simp [capacity]
        rw [this, if_pos hgl]
      have hch : (⟨got, 0⟩ : CopyBuf).chunk = got := by simp [CopyBuf.chunk]
      have hcne : (⟨got, 0⟩ : CopyBuf).chunk ≠ [] := by rw [hch]; exact List.ne_nil_of_length_pos hgl
      let d1 : Writing := { d with io := { d.io with written := d.io.written ++ got } }
      let s2 : Reading := { s1 with buf := some ⟨got, 0 + got.length⟩ }
      have hdi : ∀ as, drainInto s1 d (.ready got.length :: as) = (.all, s2, d1, as) := by
        intro as
        have := drainLoop_all ⟨got, 0⟩ d.io as hcne
        rw [hch] at this
        unfold drainInto
        simp only [s1, this, s2, d1]
      have hsp : (⟨got, 0 + got.length⟩ : CopyBuf).chunk = [] := by
        have := chunk_spent ⟨got, 0⟩
        rwa [hch] at this
      obtain ⟨pre, s', d', c1, c2, c3, c4, c5⟩ := ih true s2 d1 ⟨got, 0 + got.length⟩
        (by simp only [s2, s1, List.length_drop]; omega) rfl hsp
      refine ⟨.ready 8192 :: .ready got.length :: pre, s', d', ?_, fun n as hn => ?_, c3, c4, c5⟩
      · intro a ha
        rcases List.mem_cons.1 ha with rfl | ha
        · simp
        · rcases List.mem_cons.1 ha with rfl | ha
          · simp; intro e; rw [e] at hgl; simp at hgl
          · exact c1 a ha
      · obtain ⟨n, rfl⟩ : ∃ k, n = k + 1 := ⟨n - 1, by omega⟩
        simp only [List.length_cons] at hn
        simp only [List.cons_append, copyLoop, hpb, hdi]
        exact c2 n as (by omega)

theorem copyLoop_moves (nf : Bool) (s : Reading) (d : Writing) (b : CopyBuf) (hb : s.buf = some b) :
    ∃ pre s' d', Calm pre ∧
      (∀ n as, pre.length + as.length < n → copyLoop n nf s d (pre ++ as) = (.pending, s', d', as)) ∧
      pend s' = [] ∧ s'.io.unread = [] ∧ s'.io.eof = s.io.eof := by
  by_cases hc : b.chunk = []
  · exact copyLoop_moves_spent _ nf s d b (Nat.le_refl _) hb hc
  · obtain ⟨pre, s', d', c1, c2, c3, c4, c5⟩ := copyLoop_moves_spent _ true
      { s with buf := some { b with readPos := b.readPos + b.chunk.length } }
      { d with io := { d.io with written := d.io.written ++ b.chunk } } _ (Nat.le_refl _) rfl (chunk_spent b)
    refine ⟨.ready b.chunk.length :: pre, s', d', ?_, fun n as hn => ?_, c3, c4, c5⟩
    · intro a ha
      rcases List.mem_cons.1 ha with rfl | ha
      · simp; exact hc
      · exact c1 a ha
    · obtain ⟨n, rfl⟩ : ∃ k, n = k + 1 := ⟨n - 1, by omega⟩
      simp only [List.length_cons] at hn
      have hpb : pollBuffer s (.ready b.chunk.length :: (pre ++ as)) = (.some, s, .ready b.chunk.length :: (pre ++ as)) := by
        unfold pollBuffer
        simp only [hb]
        rw [if_pos hc]
      have hdi : drainInto s d (.ready b.chunk.length :: (pre ++ as)) =
          (.all, { s with buf := some { b with readPos := b.readPos + b.chunk.length } },
            { d with io := { d.io with written := d.io.written ++ b.chunk } }, pre ++ as) := by
        unfold drainInto
        simp only [hb, drainLoop_all b d.io (pre ++ as) hc]
      simp only [List.cons_append, copyLoop, hpb, hdi]
      exact c2 n as (by omega)

theorem copyInto_flushed (s : Reading) (d : Writing) (hs : d.isShutdown = false) (hf : s.flushing = true)
    (as : List Answer) :
    copyInto s d (.ready 1 :: as) =
      copyLoop (as.length + 2) false { s with flushing := false } (pollFlush s d [.ready 1]).2.2.1 as := by
  unfold copyInto
  rw [if_neg (by rw [hs]; simp), if_pos hf]
  rfl

/-- There are answers, none of them a failure, under which a direction moves all it can without seeing an end. -/
theorem copyInto_moves {all : Bytes} (s : Reading) (d : Writing) (h : Inv all s d) :
    ∃ pre r s' d', Calm pre ∧ (∀ as, copyInto s d (pre ++ as) = (r, s', d', as)) ∧ (r = .pending ∨ r = .ready) ∧
      pend s' = [] ∧ s'.io.unread = [] ∧ s'.io.eof = s.io.eof := by
  cases hb : s.buf with
  | none =>
    have hu := (h.eof hb).2
    have hp : pend s = [] := by simp [pend, hb]
    cases hs : d.isShutdown with
    | true => exact ⟨[], .ready, s, d, by simp [Calm], fun as => by simp [copyInto, hs], .inr rfl, hp, hu, rfl⟩
    | false =>
      cases hf : s.flushing with
      | true =>
        exact ⟨[.pending], .pending, { s with flushing := true }, _, by simp [Calm],
          fun as => by simp only [copyInto, hs, hf, List.cons_append, pollFlush]; rfl, .inl rfl,
          by simp [pend, hb], hu, rfl⟩
      | false =>
        refine ⟨[.pending], .pending, { s with buf := none }, { d with io := { d.io with shutdownAsked := true } },
          by simp [Calm], fun as => ?_, .inl rfl, rfl, hu, rfl⟩
        simp [copyInto, hs, hf, copyLoop, pollBuffer, hb, pollShutdown]
  | some b =>
    have hs : d.isShutdown = false := by
      cases hs : d.isShutdown with
      | false => rfl
      | true => have := h.asked (h.shut hs); rw [hb] at this; cases this
    cases hf : s.flushing with
    | false =>
      obtain ⟨pre, s', d', c1, c2, c3, c4, c5⟩ := copyLoop_moves false s d b hb
      refine ⟨pre, .pending, s', d', c1, fun as => ?_, .inl rfl, c3, c4, c5⟩
      simp only [copyInto, hs, hf, Bool.false_eq_true, if_false]
      exact c2 _ as (by simp)
    | true =>
      obtain ⟨pre, s', d', c1, c2, c3, c4, c5⟩ := copyLoop_moves false { s with flushing := false }
        (pollFlush s d [.ready 1]).2.2.1 b hb
      refine ⟨.ready 1 :: pre, .pending, s', d', ?_, fun as => ?_, .inl rfl, c3, c4, c5⟩
      · intro a ha
        rcases List.mem_cons.1 ha with rfl | ha
        · simp
        · exact c1 a ha
      · rw [List.cons_append, copyInto_flushed s d hs hf]
        exact c2 ((pre ++ as).length + 2) as (by rw [List.length_append]; omega)

/-- There are answers under which a direction that has moved everything sees the end and passes it on. -/
theorem copyInto_finishes {all : Bytes} (s : Reading) (d : Writing) (h : Inv all s d) (hp : pend s = [])
    (hu : s.io.unread = []) :
    ∃ pre s' d', Calm pre ∧ (∀ as, copyInto s d (pre ++ as) = (.ready, s', d', as)) ∧ d'.isShutdown = true ∧
      d'.io.shutdownAsked = true := by
  cases hs : d.isShutdown with
  | true => exact ⟨[], s, d, by simp [Calm], fun as => by simp [copyInto, hs], hs, h.shut hs⟩
  | false =>
    have core : ∀ (s : Reading) (d : Writing), d.isShutdown = false → pend s = [] → s.io.unread = [] →
        ∃ pre s' d', Calm pre ∧ (∀ as n, copyLoop (n + 1) false s d (pre ++ as) = (.ready, s', d', as)) ∧
          d'.isShutdown = true ∧ d'.io.shutdownAsked = true := by
      intro s d hs hp hu
      cases hb : s.buf with
      | none =>
        refine ⟨[.ready 1], { s with buf := none }, ⟨true, { d.io with shutdownAsked := true }⟩, by simp [Calm],
          fun as n => ?_, rfl, rfl⟩
        simp [copyLoop, pollBuffer, hb, pollShutdown, hs]
      | some b =>
        have hc : b.chunk = [] := by simpa [pend, hb] using hp
        refine ⟨[.ready 1, .ready 1], { s with buf := none, io := { s.io with eof := true } },
          ⟨true, { d.io with shutdownAsked := true }⟩, by simp [Calm], fun as n => ?_, rfl, rfl⟩
        simp [copyLoop, pollBuffer, hb, hc, hu, pollShutdown, hs]
    cases hf : s.flushing with
    | false =>
      obtain ⟨pre, s', d', c1, c2, c3⟩ := core s d hs hp hu
      refine ⟨pre, s', d', c1, fun as => ?_, c3⟩
      simp only [copyInto, hs, hf, Bool.false_eq_true, if_false]
      exact c2 as _
    | true =>
      obtain ⟨pre, s', d', c1, c2, c3⟩ := core { s with flushing := false } (pollFlush s d [.ready 1]).2.2.1 hs
        (by simpa [pend] using hp) hu
      refine ⟨.ready 1 :: pre, s', d', ?_, fun as => ?_, c3⟩
      · intro a ha
        rcases List.mem_cons.1 ha with rfl | ha
        · simp
        · exact c1 a ha
      · rw [List.cons_append, copyInto_flushed s d hs hf]
        exact c2 as _

/-- Both directions under answers that are known for each. -/
theorem poll_both_ways (x : Duplex) {pre1 pre2 : List Answer} {r1 r2 : Res} {s1 s2 : Reading} {d1 d2 : Writing}
    (h1 : ∀ as, copyInto x.halfIn.r x.halfOut.w (pre1 ++ as) = (r1, s1, d1, as))
    (h2 : ∀ as, copyInto x.halfOut.r x.halfIn.w (pre2 ++ as) = (r2, s2, d2, as))
    (hr1 : r1 = .pending ∨ r1 = .ready) (hr2 : r2 = .pending ∨ r2 = .ready) :
    x.poll (pre1 ++ pre2) =
      (if d2.isShutdown && d1.isShutdown then .ready else .pending, ⟨⟨s1, d2⟩, ⟨s2, d1⟩⟩) := by
  have e2 := h2 []
  rw [List.append_nil] at e2
  unfold Duplex.poll
  rw [h1 pre2]
  rcases hr1 with rfl | rfl <;> rcases hr2 with rfl | rfl <;> simp only [e2]

theorem Calm.append {a b : List Answer} (ha : Calm a) (hb : Calm b) : Calm (a ++ b) := by
  intro x hx
  rcases List.mem_append.1 hx with hx | hx
  · exact ha x hx
  · exact hb x hx

end Verif.Duplex

namespace Verif.Passage

open Verif.Io (Bytes)
open Verif.Duplex (Duplex Answer Res Good Inv Calm Reading Writing copyInto pend)

/-! ## Specification -/

/-- The network carries bytes or the end of a stream, or a proxy copies without a failure. Neither application does
anything. -/
def Op.moves : Op → Prop
  | .carryUp _ _ => True
  | .carryDown _ _ => True
  | .carryUpEnd _ => True
  | .carryDownEnd _ => True
  | .poll _ as => Calm as
  | _ => False

/-! ## Proofs -/

theorem Op.moves_calm {op : Op} (h : op.moves) : op.calm := by
  cases op <;> first | exact h.elim | trivial | exact h

/-- What was sent and has arrived stays so. -/
structure PipeMono (p p' : Pipe) : Prop where
  sent : p.sent <+: p'.sent
  arrived : p.arrived ≤ p'.arrived
  ended : p.ended = true → p'.ended = true
  endArrived : p.endArrived = true → p'.endArrived = true

theorem PipeMono.refl (p : Pipe) : PipeMono p p := ⟨List.prefix_rfl, Nat.le_refl _, id, id⟩

theorem PipeMono.trans {a b d : Pipe} (h : PipeMono a b) (h' : PipeMono b d) : PipeMono a d :=
  ⟨h.sent.trans h'.sent, Nat.le_trans h.arrived h'.arrived, h'.ended ∘ h.ended, h'.endArrived ∘ h.endArrived⟩

theorem PipeMono.received {p p' : Pipe} (h : PipeMono p p') (hp : p.Ok) : p.received <+: p'.received := by
  obtain ⟨t, ht⟩ := h.sent
  have e : p'.sent.take p.arrived = p.sent.take p.arrived := by rw [← ht, List.take_append_of_le_length hp.le]
  unfold Pipe.received
  rw [← e]
  exact List.take_prefix_take_left h.arrived

theorem PipeMono.carry (p : Pipe) (k : Nat) : PipeMono p (p.carry k) :=
  ⟨List.prefix_rfl, Nat.le_add_right _ _, id, id⟩

theorem PipeMono.carryEnd (p : Pipe) : PipeMono p p.carryEnd := by
  unfold Pipe.carryEnd
  split
  · exact ⟨List.prefix_rfl, Nat.le_refl _, id, fun _ => rfl⟩
  · exact .refl p

theorem mono_upd {f : Nat → Pipe} {i : Nat} {p : Pipe} (h : PipeMono (f i) p) (j : Nat) : PipeMono (f j) (upd f i p j) := by
  unfold upd
  split
  · rename_i e; rw [e]; exact h
  · exact .refl _

structure Mono (c : Config) (w w' : World) : Prop where
  client : (w'.up 0).writer = (w.up 0).writer
  server : (w'.down c.n).writer = (w.down c.n).writer
  up : ∀ i, PipeMono (w.up i) (w'.up i)
  down : ∀ i, PipeMono (w.down i) (w'.down i)
  opened : w'.opened = w.opened
  over : ∀ i, w.hop i = .over → w'.hop i = .over

theorem Mono.refl (c : Config) (w : World) : Mono c w w := ⟨rfl, rfl, fun _ => .refl _, fun _ => .refl _, rfl, fun _ => id⟩

theorem Mono.trans {c : Config} {a b d : World} (h : Mono c a b) (h' : Mono c b d) : Mono c a d :=
  ⟨h'.client.trans h.client, h'.server.trans h.server, fun i => (h.up i).trans (h'.up i),
    fun i => (h.down i).trans (h'.down i), h'.opened.trans h.opened, fun i e => h'.over i (h.over i e)⟩

theorem writer_upd {f : Nat → Pipe} {i : Nat} {p : Pipe} (h : p.writer = (f i).writer) (j : Nat) :
    (upd f i p j).writer = (f j).writer := by
  unfold upd
  split
  · rename_i e; rw [e]; exact h
  · rfl

/-- A proxy that is done has passed both ends on. -/
def OverOk (w : World) : Prop := ∀ i, w.hop i = .over → (w.up (i + 1)).ended = true ∧ (w.down i).ended = true

theorem OverOk.same {w w' : World} (h : OverOk w) (hh : ∀ i, w'.hop i = .over → w.hop i = .over)
    (hu : ∀ i, (w.up i).ended = true → (w'.up i).ended = true)
    (hd : ∀ i, (w.down i).ended = true → (w'.down i).ended = true) : OverOk w' :=
  fun i e => ⟨hu _ (h i (hh i e)).1, hd _ (h i (hh i e)).2⟩

theorem ended_upd {f : Nat → Pipe} {i : Nat} {p : Pipe} (h : (f i).ended = true → p.ended = true) (j : Nat) :
    (f j).ended = true → (upd f i p j).ended = true := by
  unfold upd
  split
  · rename_i e; rw [e]; exact h
  · exact id

theorem over_upd {f : Nat → Hop} {i : Nat} {s : Hop} (h : s = .over → f i = .over) (j : Nat) :
    upd f i s j = .over → f j = .over := by
  unfold upd
  split
  · rename_i e; rw [e]; exact h
  · exact id

theorem upd_over {f : Nat → Hop} {i : Nat} {s : Hop} (h : f i = .over → s = .over) (j : Nat) :
    f j = .over → upd f i s j = .over := by
  unfold upd
  split
  · rename_i e; rw [e]; exact h
  · exact id

theorem feedIn_over (bs : Bytes) (s : Hop) : feedIn bs s = .over ↔ s = .over := by cases s <;> simp [feedIn]

theorem feedOut_over (bs : Bytes) (s : Hop) : feedOut bs s = .over ↔ s = .over := by cases s <;> simp [feedOut]

theorem Pipe.write_ended (p : Pipe) (bs : Bytes) : (p.write bs).ended = p.ended := by unfold Pipe.write; split <;> rfl

theorem Pipe.finish_ended (p : Pipe) : p.ended = true → p.finish.ended = true := by
  unfold Pipe.finish; split
  · exact id
  · exact fun _ => rfl

/-- What a proxy's copy has written only grows. -/
theorem poll_mono {c : Config} {w : World} (hw : WInv c w) {i : Nat} {h : Option TransportHeader.Header} {x y : Duplex}
    {as : List Answer} {res : Res} (hh : w.hop i = .relaying h x) (hp : x.poll as = (res, y)) :
    PipeMono (w.up (i + 1)) { w.up (i + 1) with
      sent := c.headerBytes (i + 1) ++ y.halfOut.w.io.written, ended := y.halfOut.w.io.shutdownAsked } ∧
    PipeMono (w.down i) { w.down i with sent := y.halfIn.w.io.written, ended := y.halfIn.w.io.shutdownAsked } := by
  obtain ⟨hi, _⟩ := hw.used i (by rw [hh]; intro e; cases e)
  obtain ⟨r1, r2, r3, r4, r5, r6, r7, r8, r9, r10⟩ := (hw.loc i hi).relaying _ _ hh
  obtain ⟨g1, g2⟩ := Duplex.poll_grows x as
  rw [hp] at g1 g2
  refine ⟨⟨?_, Nat.le_refl _, fun e => ?_, id⟩, ⟨?_, Nat.le_refl _, fun e => ?_, id⟩⟩
  · rw [r5]; exact (List.prefix_append_right_inj _).2 g1.1
  · rw [r6] at e; exact g1.2 e
  · rw [r7]; exact g2.1
  · rw [r8] at e; exact g2.2 e

theorem OverOk.step {c : Config} {w : World} (hi : WInv c w) (h : OverOk w) (op : Op) (hc : op.calm) :
    OverOk (w.step c op) := by
  cases op with
  | clientWrites bs =>
    exact h.same (fun _ => id) (ended_upd (by rw [Pipe.write_ended]; exact id)) (fun _ => id)
  | clientEnds => exact h.same (fun _ => id) (ended_upd (Pipe.finish_ended _)) (fun _ => id)
  | clientDrops => exact hc.elim
  | serverWrites bs =>
    simp only [World.step]; split
    · exact h.same (fun _ => id) (fun _ => id) (ended_upd (by rw [Pipe.write_ended]; exact id))
    · exact h
  | serverEnds =>
    simp only [World.step]; split
    · exact h.same (fun _ => id) (fun _ => id) (ended_upd (Pipe.finish_ended _))
    · exact h
  | serverDrops => exact hc.elim
  | carryUp i k =>
    exact h.same (over_upd (feedIn_over _ _).1) (ended_upd (PipeMono.carry _ _).ended) (fun _ => id)
  | carryDown i k =>
    refine h.same (fun j => ?_) (fun _ => id) (ended_upd (PipeMono.carry _ _).ended)
    simp only [World.step]
    split
    · exact id
    · exact over_upd (feedOut_over _ _).1 j
  | carryUpEnd i => exact h.same (fun _ => id) (ended_upd (PipeMono.carryEnd _).ended) (fun _ => id)
  | carryDownEnd i => exact h.same (fun _ => id) (fun _ => id) (ended_upd (PipeMono.carryEnd _).ended)
  | «open» i reads first =>
    simp only [World.step]
    split
    · split
      · exact h
      · exact h.same (over_upd (fun e => by cases e)) (ended_upd id) (fun _ => id)
    · exact h
  | poll i as =>
    simp only [World.step]
    split
    · rename_i hd x hh
      have hcalm := Duplex.poll_calm x as hc
      obtain ⟨hi', _⟩ := hi.used i (by rw [hh]; intro e; cases e)
      have hg := Duplex.poll_good _ _ x as ((hi.loc i hi').relaying _ _ hh).2.2.2.1
      rcases hp : x.poll as with ⟨res, y⟩
      obtain ⟨m1, m2⟩ := poll_mono hi hh hp
      rw [hp] at hcalm hg
      dsimp only at hcalm ⊢
      split
      · cases res with
        | pending =>
          exact h.same (over_upd (fun e => by cases e)) (ended_upd m1.ended) (ended_upd m2.ended)
        | ready =>
          intro j hj
          by_cases e : j = i
          · subst e
            simp only [World.wrote, upd_self]
            exact ⟨hg.inv.shut (hg.done rfl).1, hg.inv'.shut (hg.done rfl).2⟩
          · dsimp only at hj
            rw [upd_ne _ _ e] at hj
            simp only [World.wrote]
            exact ⟨ended_upd (f := w.up) m1.ended _ (h j hj).1, ended_upd (f := w.down) m2.ended _ (h j hj).2⟩
        | failed => exact absurd rfl hcalm
        | panic => exact absurd rfl hg.sane
      · exact h
    · exact h
  | giveUp i => exact hc.elim

theorem Mono.step {c : Config} {w : World} (hi : WInv c w) (op : Op) (hm : op.moves) : Mono c w (w.step c op) := by
  have hcl := up0_step c w op
  cases op with
  | carryUp i k =>
    exact ⟨hcl, rfl, mono_upd (.carry _ _), fun _ => .refl _, rfl, upd_over (feedIn_over _ _).2⟩
  | carryDown i k =>
    refine ⟨hcl, writer_upd (f := w.down) (i := i) (p := (w.down i).carry k) rfl _, fun _ => .refl _, mono_upd (.carry _ _), rfl, fun j => ?_⟩
    simp only [World.step]
    split
    · exact id
    · exact upd_over (feedOut_over _ _).2 j
  | carryUpEnd i => exact ⟨hcl, rfl, mono_upd (.carryEnd _), fun _ => .refl _, rfl, fun _ => id⟩
  | carryDownEnd i =>
    exact ⟨hcl, writer_upd (by unfold Pipe.carryEnd; split <;> rfl) _, fun _ => .refl _, mono_upd (.carryEnd _), rfl,
      fun _ => id⟩
  | poll i as =>
    dsimp only at hcl
    simp only [World.step] at hcl ⊢
    split
    · rename_i hd x hh
      simp only [hh] at hcl
      have hcalm := Duplex.poll_calm x as hm
      obtain ⟨hi', _⟩ := hi.used i (by rw [hh]; intro e; cases e)
      have hg := Duplex.poll_good _ _ x as ((hi.loc i hi').relaying _ _ hh).2.2.2.1
      rcases hp : x.poll as with ⟨res, y⟩
      obtain ⟨m1, m2⟩ := poll_mono hi hh hp
      rw [hp] at hcalm hg hcl
      dsimp only at hcalm hcl ⊢
      split
      · rename_i hal
        rw [if_pos hal] at hcl
        have hs : (upd w.down i { w.down i with sent := y.halfIn.w.io.written, ended := y.halfIn.w.io.shutdownAsked }
            c.n).writer = (w.down c.n).writer := by rw [upd_ne _ _ (by omega)]
        cases res with
        | pending =>
          exact ⟨hcl, hs, mono_upd m1, mono_upd m2, rfl, upd_over (fun e => by rw [hh] at e; cases e)⟩
        | ready =>
          exact ⟨hcl, hs, mono_upd m1, mono_upd m2, rfl, upd_over (fun _ => rfl)⟩
        | failed => exact absurd rfl hcalm
        | panic => exact absurd rfl hg.sane
      · exact .refl c w
    · exact .refl c w
  | _ => exact hm.elim

/-! ### What can be reached -/

/-- What holds after a calm run in which the server was reached. -/
structure Live (c : Config) (w : World) : Prop where
  inv : WInv c w
  noDrop : NoDrop w
  over : OverOk w
  reached : w.opened c.n = true

theorem Live.opened {c : Config} {w : World} (h : Live c w) (k : Nat) : ∀ i, i + k = c.n → w.opened i = true := by
  induction k with
  | zero => intro i hi; rw [show i = c.n by omega]; exact h.reached
  | succ k ih =>
    intro i hi
    have ho := ih (i + 1) (by omega)
    refine (h.inv.used i fun hop => ?_).2
    rw [((h.inv.loc i (by omega)).opening hop).2.2.2.2] at ho
    cases ho

theorem Live.hop {c : Config} {w : World} (h : Live c w) (i : Nat) (hi : i < c.n) : w.hop i ≠ .opening := by
  intro hop
  have ho := h.opened (c.n - (i + 1)) (i + 1) (by omega)
  rw [((h.inv.loc i hi).opening hop).2.2.2.2] at ho
  cases ho

/-- `w'` can be reached from `w` while the applications do nothing. -/
def Reach (c : Config) (w w' : World) : Prop :=
  ∃ more : List Op, (∀ op ∈ more, op.moves) ∧ more.foldl (World.step c) w = w'

theorem Reach.refl (c : Config) (w : World) : Reach c w w := ⟨[], by simp, rfl⟩

theorem Reach.trans {c : Config} {a b d : World} (h : Reach c a b) (h' : Reach c b d) : Reach c a d := by
  obtain ⟨m, h1, h2⟩ := h
  obtain ⟨m', h1', h2'⟩ := h'
  refine ⟨m ++ m', fun op ho => ?_, by rw [List.foldl_append, h2, h2']⟩
  rcases List.mem_append.1 ho with ho | ho
  · exact h1 op ho
  · exact h1' op ho

theorem Reach.one (c : Config) (w : World) (op : Op) (h : op.moves) : Reach c w (w.step c op) :=
  ⟨[op], by simpa using h, rfl⟩

theorem Reach.live {c : Config} (hc : c.Ok) {w w' : World} (h : Live c w) (hr : Reach c w w') :
    Live c w' ∧ Mono c w w' := by
  obtain ⟨m, h1, rfl⟩ := hr
  induction m generalizing w with
  | nil => exact ⟨h, .refl c w⟩
  | cons op m ih =>
    have hop := h1 op List.mem_cons_self
    have hmono := Mono.step h.inv op hop
    have hl : Live c (w.step c op) :=
      ⟨h.inv.step hc op, NoDrop.step h.inv h.noDrop op (Op.moves_calm hop), OverOk.step h.inv h.over op (Op.moves_calm hop),
        by rw [hmono.opened]; exact h.reached⟩
    obtain ⟨l, m'⟩ := ih hl (fun o ho => h1 o (List.mem_cons_of_mem _ ho))
    exact ⟨l, hmono.trans m'⟩

theorem carry_all {p : Pipe} (hp : p.Ok) (hd : p.dropped = false) :
    (p.carry p.sent.length).sent = p.sent ∧ (p.carry p.sent.length).arrived = p.sent.length := by
  refine ⟨rfl, ?_⟩
  have := hp.le
  simp only [Pipe.carry, Pipe.take]
  split
  · rename_i he
    rcases hp.fin he with h1 | ⟨_, h2⟩
    · rw [hd] at h1; cases h1
    · omega
  · omega

/-- The network can carry everything that was written towards the server on a connection. -/
theorem carry_up {c : Config} {w : World} (h : Live c w) (i : Nat) :
    ∃ w', Reach c w w' ∧ (w'.up i).received = (w.up i).sent ∧ ((w.up i).ended = true → (w'.up i).endArrived = true) := by
  obtain ⟨h1, h2⟩ := carry_all (h.inv.okUp i) (h.noDrop i).1
  refine ⟨_, (Reach.one c w (.carryUp i (w.up i).sent.length) trivial).trans
    (Reach.one c _ (.carryUpEnd i) trivial), ?_, fun he => ?_⟩
  · simp only [World.step, upd_self]
    unfold Pipe.carryEnd Pipe.received
    split <;> simp [h1, h2]
  · simp only [World.step, upd_self]
    unfold Pipe.carryEnd
    have : ((w.up i).carry (w.up i).sent.length).ended = true := he
    rw [if_pos (by simp [this, h1, h2])]

theorem carry_down {c : Config} {w : World} (h : Live c w) (i : Nat) :
    ∃ w', Reach c w w' ∧ (w'.down i).received = (w.down i).sent ∧
      ((w.down i).ended = true → (w'.down i).endArrived = true) := by
  obtain ⟨h1, h2⟩ := carry_all (h.inv.okDown i) (h.noDrop i).2
  refine ⟨_, (Reach.one c w (.carryDown i (w.down i).sent.length) trivial).trans
    (Reach.one c _ (.carryDownEnd i) trivial), ?_, fun he => ?_⟩
  · simp only [World.step, upd_self]
    unfold Pipe.carryEnd Pipe.received
    split <;> simp [h1, h2]
  · simp only [World.step, upd_self]
    unfold Pipe.carryEnd
    have : ((w.down i).carry (w.down i).sent.length).ended = true := he
    rw [if_pos (by simp [this, h1, h2])]

/-- A poll under answers that are known for each direction. -/
theorem poll_reach {c : Config} {w : World} {i : Nat} {h : Option TransportHeader.Header} {x : Duplex}
    (hh : w.hop i = .relaying h x) {pre1 pre2 : List Answer} {r1 r2 : Res} {s1 s2 : Reading} {d1 d2 : Writing}
    (c1 : Calm pre1) (c2 : Calm pre2)
    (h1 : ∀ as, copyInto x.halfIn.r x.halfOut.w (pre1 ++ as) = (r1, s1, d1, as))
    (h2 : ∀ as, copyInto x.halfOut.r x.halfIn.w (pre2 ++ as) = (r2, s2, d2, as))
    (hr1 : r1 = .pending ∨ r1 = .ready) (hr2 : r2 = .pending ∨ r2 = .ready)
    (e1 : s1.io.eof = true → (w.up i).endArrived = true) (e2 : s2.io.eof = true → (w.down (i + 1)).endArrived = true) :
    ∃ w', Reach c w w' ∧
      (w'.up (i + 1)).sent = c.headerBytes (i + 1) ++ d1.io.written ∧ (w'.up (i + 1)).ended = d1.io.shutdownAsked ∧
      (w'.down i).sent = d2.io.written ∧ (w'.down i).ended = d2.io.shutdownAsked ∧
      (d1.isShutdown = true → d2.isShutdown = true → w'.hop i = .over) ∧
      (∀ j, j ≠ i + 1 → w'.up j = w.up j) ∧ (∀ j, j ≠ i → w'.down j = w.down j) := by
  refine ⟨_, Reach.one c w (.poll i (pre1 ++ pre2)) (Duplex.Calm.append c1 c2), ?_⟩
  have hal : allowed w i ⟨⟨s1, d2⟩, ⟨s2, d1⟩⟩ = true := by
    simp only [allowed, Bool.and_eq_true, Bool.or_eq_true, Bool.not_eq_true']
    constructor
    · cases he : s1.io.eof with
      | false => exact .inl rfl
      | true => exact .inr (e1 he)
    · cases he : s2.io.eof with
      | false => exact .inl rfl
      | true => exact .inr (e2 he)
  simp only [World.step, hh, Duplex.poll_both_ways x h1 h2 hr1 hr2, hal, if_true]
  cases hd2 : d2.isShutdown <;> cases hd1 : d1.isShutdown <;>
    simp (config := { contextual := true }) [World.wrote, upd_self, upd_ne]

/-- What a direction has written when nothing is left in between. -/
theorem written_all {all : Bytes} {s : Reading} {d : Writing} (h : Inv all s d) (hp : pend s = [])
    (hu : s.io.unread = []) : d.io.written = all := by
  have h1 := h.bytes
  have h2 := h.whole
  rw [hp, List.append_nil] at h1
  rw [hu, List.append_nil] at h2
  rw [h1, h2]

theorem nothing_left {all : Bytes} {s : Reading} {d : Writing} (h : Inv all s d) (hw : d.io.written = all) :
    pend s = [] ∧ s.io.unread = [] := by
  have h1 := congrArg List.length h.bytes
  have h2 := congrArg List.length h.whole
  rw [List.length_append] at h1 h2
  rw [hw] at h1
  exact ⟨List.length_eq_zero_iff.1 (by omega), List.length_eq_zero_iff.1 (by omega)⟩

/-- Nothing is left in a direction whose end was passed on. -/
theorem asked_empty {all : Bytes} {s : Reading} {d : Writing} (h : Inv all s d) (ha : d.io.shutdownAsked = true) :
    pend s = [] ∧ s.io.unread = [] := by
  have hb := h.asked ha
  exact ⟨by simp [pend, hb], (h.eof hb).2⟩

/-- A proxy can pass on everything that it was sent, in both directions. -/
theorem push {c : Config} (hc : c.Ok) {w : World} (h : Live c w) (i : Nat) (hi : i < c.n) :
    ∃ w', Reach c w w' ∧
      (w'.up (i + 1)).sent.drop (c.headerBytes (i + 1)).length = (w.up i).received.drop (c.headerBytes i).length ∧
      (w'.down i).sent = (w.down (i + 1)).received ∧ w'.up i = w.up i ∧ w'.down (i + 1) = w.down (i + 1) := by
  cases hh : w.hop i with
  | opening => exact absurd hh (h.hop i hi)
  | over =>
    obtain ⟨o1, o2⟩ := h.over i hh
    exact ⟨w, .refl c w, ((h.inv.loc i hi).upF o1).2, ((h.inv.loc i hi).downF o2).2, rfl, rfl⟩
  | relaying hd x =>
    obtain ⟨r1, r2, r3, r4, r5, r6, r7, r8, r9, r10⟩ := (h.inv.loc i hi).relaying _ _ hh
    obtain ⟨p1, q1, s1, d1, a1, a2, a3, a4, a5, a6⟩ := Duplex.copyInto_moves _ _ r4.inv
    obtain ⟨p2, q2, s2, d2, b1, b2, b3, b4, b5, b6⟩ := Duplex.copyInto_moves _ _ r4.inv'
    obtain ⟨w', z1, z2, z3, z4, z5, z6, z7, z8⟩ := poll_reach (c := c) hh a1 b1 a2 b2 a3 b3
      (by rw [a6]; exact r9) (by rw [b6]; exact r10)
    have i1 := (Duplex.copyInto_spec _ _ _ (p1 ++ []) r4.inv).inv
    have i2 := (Duplex.copyInto_spec _ _ _ (p2 ++ []) r4.inv').inv
    rw [a2] at i1
    rw [b2] at i2
    refine ⟨w', z1, ?_, ?_, z7 i (by omega), z8 (i + 1) (by omega)⟩
    · rw [z2, List.drop_left]; exact written_all i1 a4 a5
    · rw [z4]; exact written_all i2 b4 b5

/-- A proxy to which an end has come can pass it on. -/
theorem pushEndUp {c : Config} (hc : c.Ok) {w : World} (h : Live c w) (i : Nat) (hi : i < c.n)
    (he : (w.up i).endArrived = true) :
    ∃ w', Reach c w w' ∧ (w'.up (i + 1)).ended = true := by
  obtain ⟨w1, g1, g2, g3, g4, g5⟩ := push hc h i hi
  obtain ⟨l1, m1⟩ := g1.live hc h
  cases hh : w1.hop i with
  | opening => exact absurd hh (l1.hop i hi)
  | over => exact ⟨w1, g1, (l1.over i hh).1⟩
  | relaying hd x =>
    obtain ⟨r1, r2, r3, r4, r5, r6, r7, r8, r9, r10⟩ := (l1.inv.loc i hi).relaying _ _ hh
    have hw : x.halfOut.w.io.written = (w1.up i).received.drop (c.headerBytes i).length := by
      rw [g4, ← g2, r5, List.drop_left]
    have hnl := nothing_left r4.inv hw
    obtain ⟨p1, s1, d1, a1, a2, a3, a4⟩ := Duplex.copyInto_finishes _ _ r4.inv hnl.1 hnl.2
    obtain ⟨p2, q2, s2, d2, b1, b2, b3, b4, b5, b6⟩ := Duplex.copyInto_moves _ _ r4.inv'
    obtain ⟨w', z1, z2, z3, z4, z5, z6, z7, z8⟩ := poll_reach (c := c) hh a1 b1 a2 b2 (.inr rfl) b3
      (fun _ => by rw [g4]; exact he) (by rw [b6]; exact r10)
    exact ⟨w', g1.trans z1, by rw [z3]; exact a4⟩

theorem pushEndDown {c : Config} (hc : c.Ok) {w : World} (h : Live c w) (i : Nat) (hi : i < c.n)
    (he : (w.down (i + 1)).endArrived = true) :
    ∃ w', Reach c w w' ∧ (w'.down i).ended = true := by
  obtain ⟨w1, g1, g2, g3, g4, g5⟩ := push hc h i hi
  obtain ⟨l1, m1⟩ := g1.live hc h
  cases hh : w1.hop i with
  | opening => exact absurd hh (l1.hop i hi)
  | over => exact ⟨w1, g1, (l1.over i hh).2⟩
  | relaying hd x =>
    obtain ⟨r1, r2, r3, r4, r5, r6, r7, r8, r9, r10⟩ := (l1.inv.loc i hi).relaying _ _ hh
    have hw : x.halfIn.w.io.written = (w1.down (i + 1)).received := by rw [g5, ← g3, r7]
    have hnl := nothing_left r4.inv' hw
    obtain ⟨p2, s2, d2, a1, a2, a3, a4⟩ := Duplex.copyInto_finishes _ _ r4.inv' hnl.1 hnl.2
    obtain ⟨p1, q1, s1, d1, b1, b2, b3, b4, b5, b6⟩ := Duplex.copyInto_moves _ _ r4.inv
    obtain ⟨w', z1, z2, z3, z4, z5, z6, z7, z8⟩ := poll_reach (c := c) hh b1 a1 b2 a2 b3 (.inr rfl)
      (by rw [b6]; exact r9) (fun _ => by rw [g5]; exact he)
    exact ⟨w', g1.trans z1, by rw [z5]; exact a4⟩

/-- A proxy to which both ends have come can finish. -/
theorem finish_hop {c : Config} {w : World} (h : Live c w) (i : Nat) (hi : i < c.n)
    (hu : (w.up (i + 1)).ended = true) (hd : (w.down i).ended = true) :
    ∃ w', Reach c w w' ∧ w'.hop i = .over := by
  cases hh : w.hop i with
  | opening => exact absurd hh (h.hop i hi)
  | over => exact ⟨w, .refl c w, hh⟩
  | relaying hd' x =>
    obtain ⟨r1, r2, r3, r4, r5, r6, r7, r8, r9, r10⟩ := (h.inv.loc i hi).relaying _ _ hh
    rw [r6] at hu
    rw [r8] at hd
    have e1 := asked_empty r4.inv hu
    have e2 := asked_empty r4.inv' hd
    obtain ⟨p1, s1, d1, a1, a2, a3, a4⟩ := Duplex.copyInto_finishes _ _ r4.inv e1.1 e1.2
    obtain ⟨p2, s2, d2, b1, b2, b3, b4⟩ := Duplex.copyInto_finishes _ _ r4.inv' e2.1 e2.2
    obtain ⟨w', z1, z2, z3, z4, z5, z6, z7, z8⟩ := poll_reach (c := c) hh a1 b1 a2 b2 (.inr rfl) (.inr rfl)
      (fun _ => r9 (r4.inv.all_written hu).1) (fun _ => r10 (r4.inv'.all_written hd).1)
    exact ⟨w', z1, z6 a3 b3⟩

/-! ### Along the chain -/

/-- Everything has arrived at connection `i`, from the client. -/
def UpTo (c : Config) (w : World) (i : Nat) : Prop :=
  (w.up i).received.drop (c.headerBytes i).length = (w.up 0).sent ∧ ((w.up 0).ended = true → (w.up i).endArrived = true)

/-- Everything has arrived at connection `i`, from the server. -/
def DownTo (c : Config) (w : World) (i : Nat) : Prop :=
  (w.down i).received = (w.down c.n).sent ∧ ((w.down c.n).ended = true → (w.down i).endArrived = true)

theorem Mono.client_sent {c : Config} {w w' : World} (m : Mono c w w') :
    (w'.up 0).sent = (w.up 0).sent ∧ (w'.up 0).ended = (w.up 0).ended :=
  ⟨congrArg Prod.fst m.client, congrArg (fun x => x.2.1) m.client⟩

theorem Mono.server_sent {c : Config} {w w' : World} (m : Mono c w w') :
    (w'.down c.n).sent = (w.down c.n).sent ∧ (w'.down c.n).ended = (w.down c.n).ended :=
  ⟨congrArg Prod.fst m.server, congrArg (fun x => x.2.1) m.server⟩

theorem prefix_between {α : Type} {a b d : List α} (h : a <+: b) (h' : b <+: d) (e : a = d) : b = d := by
  subst e
  exact List.IsPrefix.eq_of_length h' (Nat.le_antisymm h'.length_le h.length_le)

theorem UpTo.keep {c : Config} (hc : c.Ok) {w w' : World} (h : Live c w) (h' : Live c w') (m : Mono c w w') {i : Nat}
    (hi : i ≤ c.n) (hu : UpTo c w i) : UpTo c w' i := by
  refine ⟨?_, fun e => (m.up i).endArrived (hu.2 (by rw [← m.client_sent.2]; exact e))⟩
  refine prefix_between (drop_prefix ((m.up i).received (h.inv.okUp i)) _) (h'.inv.upChain hc i hi) ?_
  rw [m.client_sent.1]
  exact hu.1

theorem DownTo.keep {c : Config} {w w' : World} (h : Live c w) (h' : Live c w') (m : Mono c w w') {i : Nat}
    (hi : i ≤ c.n) (hu : DownTo c w i) : DownTo c w' i := by
  refine ⟨?_, fun e => (m.down i).endArrived (hu.2 (by rw [← m.server_sent.2]; exact e))⟩
  refine prefix_between ((m.down i).received (h.inv.okDown i)) (h'.inv.downChain (c.n - i) i (by omega)) ?_
  rw [m.server_sent.1]
  exact hu.1

theorem reach_up {c : Config} (hc : c.Ok) {w : World} (h : Live c w) (i : Nat) (hi : i ≤ c.n) :
    ∃ w', Reach c w w' ∧ ∀ j, j ≤ i → UpTo c w' j := by
  induction i with
  | zero =>
    obtain ⟨w1, g1, g2, g3⟩ := carry_up h 0
    obtain ⟨l1, m1⟩ := g1.live hc h
    refine ⟨w1, g1, fun j hj => ?_⟩
    rw [Nat.le_zero.1 hj]
    refine ⟨?_, fun e => g3 (by rw [← m1.client_sent.2]; exact e)⟩
    simp only [Config.headerBytes, hc.first, List.length_nil, List.drop_zero]
    rw [g2, m1.client_sent.1]
  | succ i ih =>
    obtain ⟨w1, g1, g2⟩ := ih (by omega)
    obtain ⟨l1, m1⟩ := g1.live hc h
    obtain ⟨w2, k1, k2, k3, k4, k5⟩ := push hc l1 i (by omega)
    obtain ⟨l2, m2⟩ := k1.live hc l1
    have fin : ∃ w3, Reach c w2 w3 ∧ ((w3.up 0).ended = true → (w3.up (i + 1)).ended = true) := by
      cases he : (w2.up 0).ended with
      | false => exact ⟨w2, .refl c w2, fun e => by rw [he] at e; cases e⟩
      | true =>
        obtain ⟨w3, n1, n2⟩ := pushEndUp hc l2 i (by omega)
          ((UpTo.keep hc l1 l2 m2 (by omega) (g2 i (Nat.le_refl _))).2 he)
        exact ⟨w3, n1, fun _ => n2⟩
    obtain ⟨w3, n1, n2⟩ := fin
    obtain ⟨l3, m3⟩ := n1.live hc l2
    obtain ⟨w4, q1, q2, q3⟩ := carry_up l3 (i + 1)
    obtain ⟨l4, m4⟩ := q1.live hc l3
    have m14 := m2.trans (m3.trans m4)
    refine ⟨w4, g1.trans (k1.trans (n1.trans q1)), fun j hj => ?_⟩
    by_cases e : j = i + 1
    · subst e
      refine ⟨?_, fun e => q3 (n2 (by rw [← m4.client_sent.2]; exact e))⟩
      refine prefix_between (a := (w2.up (i + 1)).sent.drop (c.headerBytes (i + 1)).length) ?_
        (l4.inv.upChain hc (i + 1) hi) ?_
      · rw [q2]; exact drop_prefix (m3.up (i + 1)).sent _
      · rw [k2, m14.client_sent.1]; exact (g2 i (Nat.le_refl _)).1
    · exact UpTo.keep hc l1 l4 m14 (by omega) (g2 j (by omega))

theorem reach_down {c : Config} (hc : c.Ok) {w : World} (h : Live c w) (k : Nat) :
    ∀ i, i + k = c.n → ∃ w', Reach c w w' ∧ ∀ j, i ≤ j → j ≤ c.n → DownTo c w' j := by
  induction k with
  | zero =>
    intro i hi
    obtain ⟨w1, g1, g2, g3⟩ := carry_down h c.n
    obtain ⟨l1, m1⟩ := g1.live hc h
    refine ⟨w1, g1, fun j hj hj' => ?_⟩
    rw [show j = c.n by omega]
    exact ⟨by rw [g2, m1.server_sent.1], fun e => g3 (by rw [← m1.server_sent.2]; exact e)⟩
  | succ k ih =>
    intro i hi
    obtain ⟨w1, g1, g2⟩ := ih (i + 1) (by omega)
    obtain ⟨l1, m1⟩ := g1.live hc h
    obtain ⟨w2, k1, k2, k3, k4, k5⟩ := push hc l1 i (by omega)
    obtain ⟨l2, m2⟩ := k1.live hc l1
    have hnext := g2 (i + 1) (Nat.le_refl _) (by omega)
    have fin : ∃ w3, Reach c w2 w3 ∧ ((w3.down c.n).ended = true → (w3.down i).ended = true) := by
      cases he : (w2.down c.n).ended with
      | false => exact ⟨w2, .refl c w2, fun e => by rw [he] at e; cases e⟩
      | true =>
        obtain ⟨w3, n1, n2⟩ := pushEndDown hc l2 i (by omega) ((DownTo.keep l1 l2 m2 (by omega) hnext).2 he)
        exact ⟨w3, n1, fun _ => n2⟩
    obtain ⟨w3, n1, n2⟩ := fin
    obtain ⟨l3, m3⟩ := n1.live hc l2
    obtain ⟨w4, q1, q2, q3⟩ := carry_down l3 i
    obtain ⟨l4, m4⟩ := q1.live hc l3
    have m14 := m2.trans (m3.trans m4)
    refine ⟨w4, g1.trans (k1.trans (n1.trans q1)), fun j hj hj' => ?_⟩
    by_cases e : j = i
    · subst e
      refine ⟨?_, fun e => q3 (n2 (by rw [← m4.server_sent.2]; exact e))⟩
      refine prefix_between (a := (w2.down j).sent) ?_ (l4.inv.downChain (c.n - j) j (by omega)) ?_
      · rw [q2]; exact (m3.down j).sent
      · rw [k3, m14.server_sent.1]; exact hnext.1
    · exact DownTo.keep l1 l4 m14 (by omega) (g2 j (by omega) hj')

theorem reach_over {c : Config} (hc : c.Ok) {w : World} (h : Live c w) (hu : ∀ i, i ≤ c.n → (w.up i).endArrived = true)
    (hd : ∀ i, i ≤ c.n → (w.down i).endArrived = true) (k : Nat) (hk : k ≤ c.n) :
    ∃ w', Reach c w w' ∧ ∀ i, i < k → w'.hop i = .over := by
  induction k with
  | zero => exact ⟨w, .refl c w, fun i hi => by omega⟩
  | succ k ih =>
    obtain ⟨w1, g1, g2⟩ := ih (by omega)
    obtain ⟨l1, m1⟩ := g1.live hc h
    have eu : (w1.up (k + 1)).ended = true := by
      rcases (l1.inv.okUp (k + 1)).fin ((m1.up _).endArrived (hu _ hk)) with e | e
      · rw [(l1.noDrop _).1] at e; cases e
      · exact e.1
    have ed : (w1.down k).ended = true := by
      rcases (l1.inv.okDown k).fin ((m1.down _).endArrived (hd _ (by omega))) with e | e
      · rw [(l1.noDrop _).2] at e; cases e
      · exact e.1
    obtain ⟨w2, k1, k2⟩ := finish_hop l1 k (by omega) eu ed
    obtain ⟨_, m2⟩ := k1.live hc l1
    refine ⟨w2, g1.trans k1, fun i hi => ?_⟩
    by_cases e : i = k
    · rw [e]; exact k2
    · exact m2.over i (g2 i (by omega))

theorem Live.run {c : Config} (hc : c.Ok) (ops : List Op) (h : ∀ op ∈ ops, op.calm)
    (ho : (World.run c ops).opened c.n = true) : Live c (World.run c ops) := by
  refine ⟨WInv.run hc ops, NoDrop.run hc ops h, ?_, ho⟩
  clear ho
  induction ops using Verif.snoc_induction with
  | nil => intro i hi; cases hi
  | snoc ops op ih =>
    rw [World.run, List.foldl_append]
    exact OverOk.step (WInv.run hc ops) (ih fun o ho => h o (List.mem_append_left _ ho)) op
      (h op (List.mem_append_right _ List.mem_cons_self))

/-- **C117, delivery.** Nothing is ever stuck: at any moment after the connection has reached the server and while
nothing has failed, the network and the proxies alone can bring everything that either application has written to the
other, and the ends of the streams that were ended; and when both were, every proxy can finish. -/
theorem C117_everything_can_still_arrive (c : Config) (hc : c.Ok) (hn : c.tag c.n = none) (ops : List Op)
    (hcalm : ∀ op ∈ ops, op.calm) (ho : (World.run c ops).opened c.n = true) :
    ∃ more : List Op, (∀ op ∈ more, op.moves) ∧
      ((World.run c (ops ++ more)).up c.n).received = ((World.run c ops).up 0).sent ∧
      ((World.run c (ops ++ more)).down 0).received = ((World.run c ops).down c.n).sent ∧
      (((World.run c ops).up 0).ended = true → ((World.run c (ops ++ more)).up c.n).endArrived = true) ∧
      (((World.run c ops).down c.n).ended = true → ((World.run c (ops ++ more)).down 0).endArrived = true) ∧
      (((World.run c ops).up 0).ended = true → ((World.run c ops).down c.n).ended = true →
        ∀ i, i < c.n → (World.run c (ops ++ more)).hop i = .over) := by
  have l0 := Live.run hc ops hcalm ho
  obtain ⟨w1, g1, u1⟩ := reach_up hc l0 c.n (Nat.le_refl _)
  obtain ⟨l1, m1⟩ := g1.live hc l0
  obtain ⟨w2, g2, d2⟩ := reach_down hc l1 c.n 0 (by omega)
  obtain ⟨l2, m2⟩ := g2.live hc l1
  have u2 : ∀ i, i ≤ c.n → UpTo c w2 i := fun i hi => (u1 i hi).keep hc l1 l2 m2 hi
  have last : ∃ w3, Reach c w2 w3 ∧ (((World.run c ops).up 0).ended = true →
      ((World.run c ops).down c.n).ended = true → ∀ i, i < c.n → w3.hop i = .over) := by
    by_cases he : ((World.run c ops).up 0).ended = true ∧ ((World.run c ops).down c.n).ended = true
    · obtain ⟨w3, g3, o3⟩ := reach_over hc l2
        (fun i hi => (u2 i hi).2 (by rw [(m1.trans m2).client_sent.2]; exact he.1))
        (fun i hi => (d2 i (Nat.zero_le _) hi).2 (by rw [(m1.trans m2).server_sent.2]; exact he.2)) c.n (Nat.le_refl _)
      exact ⟨w3, g3, fun _ _ => o3⟩
    · exact ⟨w2, .refl c w2, fun e1 e2 => absurd ⟨e1, e2⟩ he⟩
  obtain ⟨w3, g3, o3⟩ := last
  obtain ⟨l3, m3⟩ := g3.live hc l2
  have m := m1.trans (m2.trans m3)
  have u3 := (u2 c.n (Nat.le_refl _)).keep hc l2 l3 m3 (Nat.le_refl _)
  have d3 := (d2 0 (Nat.le_refl _) (Nat.zero_le _)).keep l2 l3 m3 (Nat.zero_le _)
  obtain ⟨more, hm, he⟩ := g1.trans (g2.trans g3)
  refine ⟨more, hm, ?_⟩
  have hrun : World.run c (ops ++ more) = w3 := by rw [World.run, List.foldl_append]; exact he
  rw [hrun]
  refine ⟨?_, ?_, fun e => u3.2 (by rw [m.client_sent.2]; exact e), fun e => d3.2 (by rw [m.server_sent.2]; exact e), o3⟩
  · have := u3.1
    rw [m.client_sent.1] at this
    simpa [Config.headerBytes, hn] using this
  · rw [d3.1, m.server_sent.1]

/-- A connection on which both applications have written and the server has ended, and on which most is on the way. -/
def underWay : List Op := talk.take 6 ++ [.clientWrites [4], .serverWrites [7, 8], .serverEnds]

example : (∀ op ∈ underWay, op.calm) ∧ (World.run two underWay).opened two.n = true ∧
    ((World.run two underWay).up 0).sent = [1, 2, 3, 4] ∧ ((World.run two underWay).up 2).received = [] ∧
    ((World.run two underWay).down 2).sent = [7, 8] ∧ ((World.run two underWay).down 2).ended = true := by
  refine ⟨?_, by decide +kernel⟩
  intro op h
  simp only [underWay, talk, List.take, List.cons_append, List.nil_append, List.mem_cons, List.not_mem_nil, or_false] at h
  rcases h with h | h | h | h | h | h | h | h | h <;> subst h <;> simp [Op.calm, Calm]

end Verif.Passage
