import Verif.Duplex.Model

/-!
# C40: the copy forwards bytes exactly and half-closes in order
-/

namespace Verif.Duplex

open Verif.Io (Bytes)

/-! ## One direction -/

/-- What was read and is still to be written. -/
def pend (s : Reading) : Bytes :=
  match s.buf with
  | none => []
  | some b => b.chunk

/-- What holds in one direction: `all` is what the source sends. -/
structure Inv (all : Bytes) (s : Reading) (d : Writing) : Prop where
  whole : s.io.delivered ++ s.io.unread = all
  bytes : d.io.written ++ pend s = s.io.delivered
  eof : s.buf = none → s.io.eof = true ∧ s.io.unread = []
  asked : d.io.shutdownAsked = true → s.buf = none
  shut : d.isShutdown = true → d.io.shutdownAsked = true

theorem pollBuffer_spec (all : Bytes) (s : Reading) (d : Writing) (as : List Answer) (h : Inv all s d) :
    match pollBuffer s as with
    | (r, s', as') => Inv all s' d ∧ as'.length ≤ as.length ∧ (r = .some → pend s' ≠ []) ∧
        (r = .eof → s'.buf = none) ∧ s'.flushing = s.flushing := by
  unfold pollBuffer
  cases hb : s.buf with
  | none =>
    dsimp only
    have hs : ({ s with buf := none } : Reading) = s := by rw [← hb]
    rw [hs]
    exact ⟨h, Nat.le_refl _, by simp, fun _ => rfl, rfl⟩
  | some b =>
    dsimp only
    by_cases hc : b.chunk = []
    · rw [if_neg (by simpa using hc)]
      have hna : d.io.shutdownAsked = true → False := by
        intro ha; have := h.asked ha; rw [hb] at this; cases this
      have hpend : pend s = [] := by simp [pend, hb, hc]
      have hbytes := h.bytes
      rw [hpend, List.append_nil] at hbytes
      have hreset : Inv all { s with buf := some ⟨[], 0⟩ } d :=
        ⟨h.whole, by simpa [pend, CopyBuf.chunk] using hbytes, by simp, fun ha => (hna ha).elim, h.shut⟩
      match as with
      | [] => exact ⟨hreset, Nat.le_refl _, by simp, by simp, rfl⟩
      | .pending :: as => exact ⟨hreset, by simp, by simp, by simp, rfl⟩
      | .failed :: as => exact ⟨hreset, by simp, by simp, by simp, rfl⟩
      | .ready k :: as =>
        dsimp only
        have e := List.take_append_drop (min capacity (max k 1)) s.io.unread
        split
        · rename_i hpos
          refine ⟨⟨?_, ?_, by simp, fun ha => (hna ha).elim, h.shut⟩, by simp, fun _ => ?_, by simp, rfl⟩
          · dsimp only; rw [List.append_assoc, e]; exact h.whole
          · simp only [pend, CopyBuf.chunk, List.drop_zero]; rw [hbytes]
          · simp only [pend, CopyBuf.chunk, List.drop_zero]
            exact List.ne_nil_of_length_pos hpos
        · rename_i hpos
          have hu : s.io.unread = [] := by
            rw [List.length_take] at hpos
            simp only [capacity] at hpos
            exact List.length_eq_zero_iff.1 (by omega)
          refine ⟨⟨?_, ?_, fun _ => ⟨rfl, ?_⟩, fun _ => rfl, h.shut⟩, by simp, by simp, by simp, rfl⟩
          · simpa [hu] using h.whole
          · simpa [pend, hu] using hbytes
          · simp [hu]
    · rw [if_pos (by simpa using hc)]
      refine ⟨h, Nat.le_refl _, fun _ => ?_, by simp, rfl⟩
      simp [pend, hb, hc]

theorem drainLoop_spec (b : CopyBuf) (io : Sink) (sz : Nat) (as : List Answer) :
    match drainLoop b io sz as with
    | (r, b', io', as') =>
      io'.written ++ b'.chunk = io.written ++ b.chunk ∧ io'.shutdownAsked = io.shutdownAsked ∧
        io'.flushed = io.flushed ∧ (io'.zeroWrite = true → r = .failed ∨ io.zeroWrite = true) ∧
        (r = .all ∨ r = .empty → b'.chunk = []) ∧ (r = .empty → b.chunk = [] ∧ sz = 0) ∧
        as'.length ≤ as.length ∧ (b.chunk ≠ [] → as'.length < as.length ∨ (as = [] ∧ r = .part)) := by
  induction as generalizing b io sz with
  | nil =>
    unfold drainLoop
    by_cases hc : b.chunk = []
    · rw [if_pos hc]
      by_cases hz : sz = 0 <;> simp [hc, hz]
    · rw [if_neg hc]; simp [hc]
  | cons a as ih =>
    unfold drainLoop
    by_cases hc : b.chunk = []
    · rw [if_pos hc]
      by_cases hz : sz = 0 <;> simp [hc, hz]
    · rw [if_neg hc]
      cases a with
      | pending => simp [hc]
      | failed => simp [hc]
      | ready k =>
        dsimp only
        by_cases hn : min k b.chunk.length = 0
        · rw [if_pos hn]; simp [hc]
        · rw [if_neg hn]
          have hi := ih { b with readPos := b.readPos + min k b.chunk.length }
            { io with written := io.written ++ b.chunk.take (min k b.chunk.length) } (sz + min k b.chunk.length)
          rcases hd : drainLoop { b with readPos := b.readPos + min k b.chunk.length }
            { io with written := io.written ++ b.chunk.take (min k b.chunk.length) } (sz + min k b.chunk.length) as
            with ⟨r, b', io', as'⟩
          rw [hd] at hi
          dsimp only at hi ⊢
          obtain ⟨h1, h2, h3, h4, h5, h6, h7, h8⟩ := hi
          have hchunk : ({ b with readPos := b.readPos + min k b.chunk.length } : CopyBuf).chunk =
              b.chunk.drop (min k b.chunk.length) := by simp [CopyBuf.chunk, List.drop_drop]
          refine ⟨?_, h2, h3, h4, h5, fun hr => ?_, by simp; omega, fun _ => .inl (by simp; omega)⟩
          · rw [h1, hchunk, List.append_assoc, List.take_append_drop]
          · exact absurd (h6 hr).2 (by omega)

theorem drainInto_spec (all : Bytes) (s : Reading) (d : Writing) (as : List Answer) (h : Inv all s d)
    (hp : pend s ≠ []) :
    match drainInto s d as with
    | (r, s', d', as') => Inv all s' d' ∧ r ≠ .empty ∧ (r = .all → pend s' = []) ∧
        (d'.io.zeroWrite = true → r = .failed ∨ d.io.zeroWrite = true) ∧ d'.isShutdown = d.isShutdown ∧
        as'.length ≤ as.length ∧ (as'.length < as.length ∨ (as = [] ∧ r = .part)) := by
  unfold drainInto
  cases hb : s.buf with
  | none => simp [pend, hb] at hp
  | some b =>
    dsimp only
    have hc : b.chunk ≠ [] := by simpa [pend, hb] using hp
    have hi := drainLoop_spec b d.io 0 as
    rcases hd : drainLoop b d.io 0 as with ⟨r, b', io', as'⟩
    rw [hd] at hi
    dsimp only at hi ⊢
    obtain ⟨h1, h2, h3, h4, h5, h6, h7, h8⟩ := hi
    have hna : d.io.shutdownAsked = true → False := by
      intro ha; have := h.asked ha; rw [hb] at this; cases this
    refine ⟨⟨h.whole, ?_, by simp, ?_, ?_⟩, ?_, ?_, h4, rfl, h7, h8 hc⟩
    · have := h.bytes
      simp only [pend, hb] at this
      simpa [pend, h1] using this
    · intro ha; dsimp only at ha; rw [h2] at ha; exact (hna ha).elim
    · intro hs; dsimp only at hs ⊢; rw [h2]; exact h.shut hs
    · intro hr; exact hc (h6 hr).1
    · intro hr; simp [pend, h5 (.inl hr)]

theorem pollFlush_spec (all : Bytes) (s : Reading) (d : Writing) (as : List Answer) (h : Inv all s d) :
    match pollFlush s d as with
    | (r, s', d', as') => Inv all s' d' ∧ d'.io.zeroWrite = d.io.zeroWrite ∧ d'.isShutdown = d.isShutdown ∧
        as'.length ≤ as.length ∧ s'.buf = s.buf ∧ s'.io = s.io ∧ (as = [] → r = .pending) := by
  unfold pollFlush
  dsimp only
  have h1 : ∀ f, Inv all { s with flushing := f }
      { d with io := { d.io with flushCalls := d.io.flushCalls + 1, flushAsked := d.io.written.length } } :=
    fun f => ⟨h.whole, h.bytes, h.eof, h.asked, h.shut⟩
  match as with
  | [] => exact ⟨h1 _, rfl, rfl, Nat.le_refl _, rfl, rfl, fun _ => rfl⟩
  | .pending :: as => exact ⟨h1 _, rfl, rfl, by simp, rfl, rfl, by simp⟩
  | .failed :: as => exact ⟨h1 _, rfl, rfl, by simp, rfl, rfl, by simp⟩
  | .ready k :: as => exact ⟨⟨h.whole, h.bytes, h.eof, h.asked, h.shut⟩, rfl, rfl, by simp, rfl, rfl, by simp⟩

/-- What a copy in one direction leaves. -/
structure Copied (all : Bytes) (d : Writing) (as : List Answer) (x : Res × Reading × Writing × List Answer) : Prop where
  inv : Inv all x.2.1 x.2.2.1
  sane : x.1 ≠ .panic
  zero : x.2.2.1.io.zeroWrite = true → x.1 = .failed ∨ d.io.zeroWrite = true
  fewer : x.2.2.2.length ≤ as.length
  done : x.1 = .ready → x.2.2.1.isShutdown = true

theorem copyLoop_spec (all : Bytes) (n : Nat) (nf : Bool) (s : Reading) (d : Writing) (as : List Answer)
    (h : Inv all s d) (hs : d.isShutdown = false) (hn : as.length < n) :
    Copied all d as (copyLoop n nf s d as) := by
  induction n generalizing nf s d as with
  | zero => omega
  | succ n ih =>
    unfold copyLoop
    have h1 := pollBuffer_spec all s d as h
    rcases hb : pollBuffer s as with ⟨r, s1, as1⟩
    rw [hb] at h1
    dsimp only at h1
    obtain ⟨i1, l1, p1, e1, -⟩ := h1
    cases r with
    | pending =>
      dsimp only
      cases nf with
      | false => exact ⟨i1, by simp, fun hz => .inr hz, l1, by simp⟩
      | true =>
        have h2 := pollFlush_spec all s1 d as1 i1
        rcases hf : pollFlush s1 d as1 with ⟨f, s2, d2, as2⟩
        rw [hf] at h2
        dsimp only at h2
        obtain ⟨i2, z2, -, l2, -⟩ := h2
        simp only [if_true]
        cases f <;> exact ⟨i2, by simp, fun hz => .inr (by rw [← z2]; exact hz), by simp only; omega, by simp⟩
    | failed => exact ⟨i1, by simp, fun hz => .inr hz, l1, by simp⟩
    | eof =>
      dsimp only
      rw [if_neg (by simp [hs])]
      have hbuf := e1 rfl
      have i2 : Inv all s1 { d with io := { d.io with shutdownAsked := true } } :=
        ⟨i1.whole, i1.bytes, i1.eof, fun _ => hbuf, fun _ => rfl⟩
      match as1, l1 with
      | [], l1 => exact ⟨i2, by simp [pollShutdown], fun hz => .inr hz, l1, by simp [pollShutdown]⟩
      | .pending :: as1, l1 =>
        exact ⟨i2, by simp [pollShutdown], fun hz => .inr hz, by simp [pollShutdown] at l1 ⊢; omega, by simp [pollShutdown]⟩
      | .failed :: as1, l1 =>
        exact ⟨i2, by simp [pollShutdown], fun hz => .inr hz, by simp [pollShutdown] at l1 ⊢; omega, by simp [pollShutdown]⟩
      | .ready k :: as1, l1 =>
        exact ⟨⟨i1.whole, i1.bytes, i1.eof, fun _ => hbuf, fun _ => rfl⟩, by simp [pollShutdown], fun hz => .inr hz,
          by simp [pollShutdown] at l1 ⊢; omega, fun _ => rfl⟩
    | some =>
      dsimp only
      have h2 := drainInto_spec all s1 d as1 i1 (p1 rfl)
      rcases hd : drainInto s1 d as1 with ⟨r2, s2, d2, as2⟩
      rw [hd] at h2
      dsimp only at h2
      obtain ⟨i2, ne2, -, z2, sh2, l2, f2⟩ := h2
      cases r2 with
      | empty => exact absurd rfl ne2
      | failed => exact ⟨i2, by simp, fun _ => .inl rfl, by simp only; omega, by simp⟩
      | all =>
        dsimp only
        have hlt : as2.length < as1.length := by rcases f2 with f | f; exact f; simp at f
        have := ih true s2 d2 as2 i2 (by rw [sh2, hs]) (by omega)
        refine ⟨this.inv, this.sane, fun hz => ?_, by have := this.fewer; omega, this.done⟩
        rcases this.zero hz with h | h
        · exact .inl h
        · rcases z2 h with h | h
          · cases h
          · exact .inr h
      | part =>
        dsimp only
        have h3 := pollFlush_spec all s2 d2 as2 i2
        rcases hf : pollFlush s2 d2 as2 with ⟨f, s3, d3, as3⟩
        rw [hf] at h3
        dsimp only at h3
        obtain ⟨i3, z3, sh3, l3, b3, io3, nil3⟩ := h3
        have hz3 : d3.io.zeroWrite = true → d.io.zeroWrite = true := by
          intro hz
          rw [z3] at hz
          rcases z2 hz with h | h
          · cases h
          · exact h
        cases f with
        | pending => exact ⟨i3, by simp, fun hz => .inr (hz3 hz), by simp only; omega, by simp⟩
        | failed => exact ⟨i3, by simp, fun hz => .inr (hz3 hz), by simp only; omega, by simp⟩
        | ready =>
          dsimp only
          have hlt : as2.length < as1.length := by
            rcases f2 with f | ⟨rfl, -⟩
            · exact f
            · have : as2 = [] := List.length_eq_zero_iff.1 (Nat.le_zero.1 l2)
              have := nil3 this
              cases this
          by_cases hp3 : pend s3 = []
          · -- nothing was left to write: `part` says otherwise, but the loop would go on all the same
            have hsome : ∃ b, s3.buf = some b := by
              cases hb3 : s3.buf with
              | some b => exact ⟨b, rfl⟩
              | none =>
                rw [b3] at hb3
                unfold drainInto at hd
                cases hb1 : s1.buf with
                | none => simp [hb1] at hd
                | some b =>
                  simp only [hb1, Prod.mk.injEq] at hd
                  rw [← hd.2.1] at hb3
                  simp at hb3
            obtain ⟨b, hb'⟩ := hsome
            have hcb : b.chunk = [] := by simpa [pend, hb'] using hp3
            have hdl : drainLoop b d3.io 0 as3 = (.empty, b, d3.io, as3) := by
              cases as3 <;> simp [drainLoop, hcb]
            have hdi : drainInto s3 d3 as3 = (.empty, s3, d3, as3) := by
              unfold drainInto
              simp only [hb', hdl]
              rw [show ({ s3 with buf := some b } : Reading) = s3 by rw [← hb']]
            rw [hdi]
            dsimp only
            have := ih false s3 d3 as3 i3 (by rw [sh3, sh2, hs]) (by omega)
            refine ⟨this.inv, this.sane, fun hz => ?_, by have := this.fewer; omega, this.done⟩
            rcases this.zero hz with h | h
            · exact .inl h
            · exact .inr (hz3 h)
          · have h4 := drainInto_spec all s3 d3 as3 i3 hp3
            rcases hd4 : drainInto s3 d3 as3 with ⟨r4, s4, d4, as4⟩
            rw [hd4] at h4
            dsimp only at h4
            obtain ⟨i4, ne4, -, z4, sh4, l4, -⟩ := h4
            cases r4 with
            | empty => exact absurd rfl ne4
            | failed => exact ⟨i4, by simp, fun _ => .inl rfl, by simp only; omega, by simp⟩
            | part =>
              refine ⟨i4, by simp, fun hz => .inr ?_, by simp only; omega, by simp⟩
              rcases z4 hz with h | h
              · cases h
              · exact hz3 h
            | all =>
              dsimp only
              have := ih false s4 d4 as4 i4 (by rw [sh4, sh3, sh2, hs]) (by omega)
              refine ⟨this.inv, this.sane, fun hz => ?_, by have := this.fewer; omega, this.done⟩
              rcases this.zero hz with h | h
              · exact .inl h
              · rcases z4 h with h | h
                · cases h
                · exact .inr (hz3 h)

theorem copyInto_spec (all : Bytes) (s : Reading) (d : Writing) (as : List Answer) (h : Inv all s d) :
    Copied all d as (copyInto s d as) := by
  unfold copyInto
  split
  · rename_i hs; exact ⟨h, by simp, fun hz => .inr hz, Nat.le_refl _, fun _ => hs⟩
  rename_i hs
  have hs : d.isShutdown = false := by simpa using hs
  split
  · have h2 := pollFlush_spec all s d as h
    rcases hf : pollFlush s d as with ⟨f, s2, d2, as2⟩
    rw [hf] at h2
    dsimp only at h2
    obtain ⟨i2, z2, sh2, l2, -⟩ := h2
    cases f with
    | pending => exact ⟨i2, by simp, fun hz => .inr (by rw [← z2]; exact hz), l2, by simp⟩
    | failed => exact ⟨i2, by simp, fun hz => .inr (by rw [← z2]; exact hz), l2, by simp⟩
    | ready =>
      have := copyLoop_spec all (as2.length + 2) false s2 d2 as2 i2 (by rw [sh2, hs]) (by omega)
      dsimp only
      refine ⟨this.inv, this.sane, fun hz => ?_, by have := this.fewer; omega, this.done⟩
      rcases this.zero hz with h | h
      · exact .inl h
      · exact .inr (by rw [← z2]; exact h)
  · exact copyLoop_spec all (as.length + 2) false s d as h hs (by omega)

/-! ## Both directions -/

/-- What holds of the future: both directions, and that no write took nothing unless the copy failed. -/
structure Good (fromIn fromOut : Bytes) (x : Res × Duplex) : Prop where
  inv : Inv fromIn x.2.halfIn.r x.2.halfOut.w
  inv' : Inv fromOut x.2.halfOut.r x.2.halfIn.w
  sane : x.1 ≠ .panic
  zero : x.2.halfOut.w.io.zeroWrite = true ∨ x.2.halfIn.w.io.zeroWrite = true → x.1 = .failed
  done : x.1 = .ready → x.2.halfOut.w.isShutdown = true ∧ x.2.halfIn.w.isShutdown = true

theorem poll_good (fromIn fromOut : Bytes) (x : Duplex) (as : List Answer) (h : Good fromIn fromOut (.pending, x)) :
    Good fromIn fromOut (x.poll as) := by
  unfold Duplex.poll
  have h1 := copyInto_spec fromIn x.halfIn.r x.halfOut.w as h.inv
  have nz : x.halfOut.w.io.zeroWrite = true ∨ x.halfIn.w.io.zeroWrite = true → False := by
    intro hz; have := h.zero hz; cases this
  rcases hc : copyInto x.halfIn.r x.halfOut.w as with ⟨r, s, d, as1⟩
  rw [hc] at h1
  have i' := h.inv'
  have key : r = .pending ∨ r = .ready → Good fromIn fromOut (match copyInto x.halfOut.r x.halfIn.w as1 with
      | (.panic, r', w', _) => (.panic, (⟨⟨s, w'⟩, ⟨r', d⟩⟩ : Duplex))
      | (.failed, r', w', _) => (.failed, ⟨⟨s, w'⟩, ⟨r', d⟩⟩)
      | (_, r', w', _) => (if w'.isShutdown && d.isShutdown then .ready else .pending, ⟨⟨s, w'⟩, ⟨r', d⟩⟩)) := by
    intro hr
    have hz1 : d.io.zeroWrite = true → False := by
      intro hz
      rcases h1.zero hz with h | h
      · rcases hr with rfl | rfl <;> cases h
      · exact nz (.inl h)
    have h2 := copyInto_spec fromOut x.halfOut.r x.halfIn.w as1 i'
    rcases hc2 : copyInto x.halfOut.r x.halfIn.w as1 with ⟨r2, s2, d2, as2⟩
    rw [hc2] at h2
    have hz2 : d2.io.zeroWrite = true → r2 = .failed := by
      intro hz
      rcases h2.zero hz with h | h
      · exact h
      · exact (nz (.inr h)).elim
    have fin : r2 = .pending ∨ r2 = .ready → Good fromIn fromOut
        (if d2.isShutdown && d.isShutdown then .ready else .pending, (⟨⟨s, d2⟩, ⟨s2, d⟩⟩ : Duplex)) := by
      intro hr2
      refine ⟨h1.inv, h2.inv, by dsimp only; split <;> simp, fun hz => ?_, fun hd => ?_⟩
      · rcases hz with hz | hz
        · exact (hz1 hz).elim
        · have := hz2 hz; rcases hr2 with rfl | rfl <;> cases this
      · dsimp only at hd ⊢
        split at hd
        · rename_i hsh; simp only [Bool.and_eq_true] at hsh; exact ⟨hsh.2, hsh.1⟩
        · cases hd
    cases r2 with
    | panic => exact absurd rfl h2.sane
    | failed => exact ⟨h1.inv, h2.inv, by simp, fun _ => rfl, by simp⟩
    | pending => exact fin (.inl rfl)
    | ready => exact fin (.inr rfl)
  cases r with
  | panic => exact absurd rfl h1.sane
  | failed => exact ⟨h1.inv, i', by simp, fun _ => rfl, by simp⟩
  | pending => exact key (.inl rfl)
  | ready => exact key (.inr rfl)

theorem new_good (fromIn fromOut : Bytes) : Good fromIn fromOut (.pending, Duplex.new fromIn fromOut) := by
  constructor
  · constructor <;> simp [Duplex.new, HalfDuplex.new, pend, CopyBuf.chunk]
  · constructor <;> simp [Duplex.new, HalfDuplex.new, pend, CopyBuf.chunk]
  · simp
  · simp [Duplex.new, HalfDuplex.new]
  · simp

theorem run_good (fromIn fromOut : Bytes) (x : Duplex) (h : Good fromIn fromOut (.pending, x))
    (polls : List (List Answer)) : Good fromIn fromOut (x.run polls) := by
  induction polls generalizing x with
  | nil => exact h
  | cons as polls ih =>
    unfold Duplex.run
    have h1 := poll_good fromIn fromOut x as h
    rcases hp : x.poll as with ⟨r, y⟩
    rw [hp] at h1
    cases r with
    | pending => exact ih y h1
    | failed => exact h1
    | ready => exact h1
    | panic => exact h1

/-! ## The properties -/

/-- At all times, in each direction, what was written is the beginning of what was read, and what was read is the
beginning of what was sent. -/
theorem C40_bytes_are_forwarded_in_order (fromIn fromOut : Bytes) (polls : List (List Answer)) :
    let x := ((Duplex.new fromIn fromOut).run polls).2
    (x.halfOut.w.io.written <+: x.halfIn.r.io.delivered ∧ x.halfIn.r.io.delivered <+: fromIn) ∧
      (x.halfIn.w.io.written <+: x.halfOut.r.io.delivered ∧ x.halfOut.r.io.delivered <+: fromOut) := by
  have h := run_good fromIn fromOut _ (new_good fromIn fromOut) polls
  exact ⟨⟨⟨_, h.inv.bytes⟩, ⟨_, h.inv.whole⟩⟩, ⟨⟨_, h.inv'.bytes⟩, ⟨_, h.inv'.whole⟩⟩⟩

theorem Inv.all_written {all : Bytes} {s : Reading} {d : Writing} (h : Inv all s d) (ha : d.io.shutdownAsked = true) :
    s.io.eof = true ∧ d.io.written = all := by
  have hb := h.asked ha
  obtain ⟨h1, h2⟩ := h.eof hb
  refine ⟨h1, ?_⟩
  have hw := h.bytes
  have hall := h.whole
  rw [h2, List.append_nil] at hall
  simp only [pend, hb, List.append_nil] at hw
  rw [hw, hall]

/-- A socket is asked to shut down only once the other's stream has ended and everything it sent has been written; so
nothing is written after that. -/
theorem C40_shut_down_after_everything (fromIn fromOut : Bytes) (polls : List (List Answer)) :
    let x := ((Duplex.new fromIn fromOut).run polls).2
    (x.halfOut.w.io.shutdownAsked = true → x.halfIn.r.io.eof = true ∧ x.halfOut.w.io.written = fromIn) ∧
      (x.halfIn.w.io.shutdownAsked = true → x.halfOut.r.io.eof = true ∧ x.halfIn.w.io.written = fromOut) := by
  have h := run_good fromIn fromOut _ (new_good fromIn fromOut) polls
  exact ⟨h.inv.all_written, h.inv'.all_written⟩

/-- The copy completes only when both sockets have been shut down, and so everything was forwarded both ways. -/
theorem C40_completes_when_both_are_shut_down (fromIn fromOut : Bytes) (polls : List (List Answer))
    (hr : ((Duplex.new fromIn fromOut).run polls).1 = .ready) :
    let x := ((Duplex.new fromIn fromOut).run polls).2
    x.halfOut.w.isShutdown = true ∧ x.halfIn.w.isShutdown = true ∧ x.halfOut.w.io.written = fromIn ∧
      x.halfIn.w.io.written = fromOut := by
  have h := run_good fromIn fromOut _ (new_good fromIn fromOut) polls
  obtain ⟨h1, h2⟩ := h.done hr
  exact ⟨h1, h2, (h.inv.all_written (h.inv.shut h1)).2, (h.inv'.all_written (h.inv'.shut h2)).2⟩

/-- A write that takes no bytes ends the copy with an error. -/
theorem C40_zero_write_fails (fromIn fromOut : Bytes) (polls : List (List Answer)) :
    let x := (Duplex.new fromIn fromOut).run polls
    x.2.halfOut.w.io.zeroWrite = true ∨ x.2.halfIn.w.io.zeroWrite = true → x.1 = .failed :=
  (run_good fromIn fromOut _ (new_good fromIn fromOut) polls).zero

/-- None of the assertions in the code fails, and the number of rounds the model allows is enough. -/
theorem C40_never_panics (fromIn fromOut : Bytes) (polls : List (List Answer)) :
    ((Duplex.new fromIn fromOut).run polls).1 ≠ .panic :=
  (run_good fromIn fromOut _ (new_good fromIn fromOut) polls).sane

/-! ## Progress -/

/-- Every call is answered, with at least one byte. -/
def Willing (as : List Answer) : Prop := ∀ a ∈ as, ∃ k, 1 ≤ k ∧ a = .ready k

theorem drainLoop_willing (b : CopyBuf) (io : Sink) (sz : Nat) (as : List Answer) (hw : Willing as)
    (hl : b.chunk.length ≤ as.length) (hc : b.chunk ≠ [] ∨ sz ≠ 0) :
    ∃ b' io' as', drainLoop b io sz as = (.all, b', io', as') ∧ b'.chunk = [] ∧
      as.length - b.chunk.length ≤ as'.length ∧ Willing as' ∧ io'.shutdownAsked = io.shutdownAsked := by
  induction as generalizing b io sz with
  | nil =>
    have : b.chunk = [] := List.length_eq_zero_iff.1 (by simpa using hl)
    have hz : sz ≠ 0 := by rcases hc with h | h; exact absurd this h; exact h
    exact ⟨b, io, [], by simp [drainLoop, this, hz], this, by simp, hw, rfl⟩
  | cons a as ih =>
    by_cases hb : b.chunk = []
    · have hz : sz ≠ 0 := by rcases hc with h | h; exact absurd hb h; exact h
      exact ⟨b, io, a :: as, by simp [drainLoop, hb, hz], hb, by simp, hw, rfl⟩
    · obtain ⟨k, hk, rfl⟩ := hw a (by simp)
      have hlen : 0 < b.chunk.length := List.length_pos_iff.2 hb
      have hn : ¬ min k b.chunk.length = 0 := by omega
      have hchunk : ({ b with readPos := b.readPos + min k b.chunk.length } : CopyBuf).chunk =
          b.chunk.drop (min k b.chunk.length) := by simp [CopyBuf.chunk, List.drop_drop]
      simp only [List.length_cons] at hl
      obtain ⟨b', io', as', h1, h2, h3, h4, h5⟩ := ih { b with readPos := b.readPos + min k b.chunk.length }
        { io with written := io.written ++ b.chunk.take (min k b.chunk.length) } (sz + min k b.chunk.length)
        (fun x hx => hw x (by simp [hx])) (by rw [hchunk, List.length_drop]; omega) (.inr (by omega))
      refine ⟨b', io', as', ?_, h2, ?_, h4, h5⟩
      · rw [drainLoop, if_neg hb]
        dsimp only
        rw [if_neg hn, h1]
      · rw [hchunk, List.length_drop] at h3
        simp only [List.length_cons]
        omega

theorem copyLoop_willing (n : Nat) (nf : Bool) (s : Reading) (d : Writing) (as : List Answer) (hs : d.isShutdown = false)
    (hw : Willing as) (hn : as.length < n) (hl : pend s ++ s.io.unread = [] ∧ s.buf = none ∧ 1 ≤ as.length ∨
      s.buf ≠ none ∧ (pend s).length + 2 * s.io.unread.length + 2 ≤ as.length) :
    ∃ s' d' as', copyLoop n nf s d as = (.ready, s', d', as') ∧ Willing as' ∧
      as.length - ((pend s).length + 2 * s.io.unread.length + 2) ≤ as'.length := by
  induction n generalizing nf s d as with
  | zero => omega
  | succ n ih =>
    -- shutting down
    have shut : ∀ (as : List Answer), Willing as → 1 ≤ as.length → ∃ d' as', pollShutdown d as = (.ready, d', as') ∧
        Willing as' ∧ as'.length = as.length - 1 := by
      intro as hw hl
      match as, hl with
      | a :: as, _ =>
        obtain ⟨k, -, rfl⟩ := hw a (by simp)
        exact ⟨_, as, rfl, fun x hx => hw x (by simp [hx]), by simp⟩
    -- draining a buffer that has bytes
    have drain : ∀ (s : Reading) (as : List Answer) (b : CopyBuf), s.buf = some b → b.chunk ≠ [] → Willing as →
        as.length < n + 1 → b.chunk.length + 2 * s.io.unread.length + 2 ≤ as.length →
        ∃ s' d' as', (match drainInto s d as with
          | (.all, s, d, as) => copyLoop n true s d as
          | (.part, s, d, as) =>
            match pollFlush s d as with
            | (.pending, s, d, as) => (.pending, s, d, as)
            | (.failed, s, d, as) => (.failed, s, d, as)
            | (.ready, s, d, as) =>
              match drainInto s d as with
              | (.part, s, d, as) => (.pending, s, d, as)
              | (.failed, s, d, as) => (.failed, s, d, as)
              | (_, s, d, as) => copyLoop n false s d as
          | (.empty, s, d, as) => (.panic, s, d, as)
          | (.failed, s, d, as) => (.failed, s, d, as)) = (.ready, s', d', as') ∧ Willing as' ∧
          as.length - (b.chunk.length + 2 * s.io.unread.length + 2) ≤ as'.length := by
      intro s as b hb hc hw hlt hl
      obtain ⟨b', io', as1, h1, h2, h3, h4, h5⟩ := drainLoop_willing b d.io 0 as hw (by omega) (.inl hc)
      have hsp := drainLoop_spec b d.io 0 as
      rw [h1] at hsp
      dsimp only at hsp
      have hlt1 : as1.length < as.length := by
        rcases hsp.2.2.2.2.2.2.2 hc with h | h
        · exact h
        · simp at h
      have hd : drainInto s d as = (.all, { s with buf := some b' }, { d with io := io' }, as1) := by
        unfold drainInto
        simp only [hb, h1]
      rw [hd]
      dsimp only
      obtain ⟨s', d', as', e1, e2, e3⟩ := ih true { s with buf := some b' } { d with io := io' } as1 hs h4
        (by omega) (.inr ⟨by simp, by simp only [pend, h2, List.length_nil]; omega⟩)
      exact ⟨s', d', as', e1, e2, by simp only [pend, h2, List.length_nil] at e3; omega⟩
    unfold copyLoop
    rcases hl with ⟨hempty, hbuf, hone⟩ | ⟨hbuf, hl⟩
    · have hpb : pollBuffer s as = (.eof, s, as) := by
        unfold pollBuffer
        simp only [hbuf]
        rw [show ({ s with buf := none } : Reading) = s by rw [← hbuf]]
      rw [hpb]
      dsimp only
      rw [if_neg (by simp [hs])]
      obtain ⟨d', as', h1, h2, h3⟩ := shut as hw hone
      rw [h1]
      exact ⟨s, d', as', rfl, h2, by omega⟩
    · obtain ⟨b, hb⟩ : ∃ b, s.buf = some b := by
        cases hb : s.buf with
        | none => exact absurd hb hbuf
        | some b => exact ⟨b, rfl⟩
      have hpend : pend s = b.chunk := by simp [pend, hb]
      rw [hpend] at hl ⊢
      by_cases hc : b.chunk = []
      · match as, hl with
        | a :: as, hl =>
          obtain ⟨k, hk, rfl⟩ := hw a (by simp)
          have hw' : Willing as := fun x hx => hw x (by simp [hx])
          simp only [hc, List.length_nil, List.length_cons] at hl
          have hcap : 1 ≤ min capacity (max k 1) := by simp only [capacity]; omega
          by_cases hu : s.io.unread = []
          · have hpb : pollBuffer s (.ready k :: as) = (.eof, { s with buf := none, io := { s.io with eof := true } }, as) := by
              unfold pollBuffer
              simp only [hb, hc, ne_eq, not_true_eq_false, if_false, hu, List.take_nil, List.drop_nil, List.length_nil,
                Nat.lt_irrefl, List.append_nil, gt_iff_lt]
            rw [hpb]
            dsimp only
            rw [if_neg (by simp [hs])]
            obtain ⟨d', as', h1, h2, h3⟩ := shut as hw' (by omega)
            rw [h1]
            exact ⟨_, d', as', rfl, h2, by simp only [List.length_cons]; omega⟩
          · have hul : 0 < s.io.unread.length := List.length_pos_iff.2 hu
            have hgot : (s.io.unread.take (min capacity (max k 1))).length > 0 := by rw [List.length_take]; omega
            have hpb : pollBuffer s (.ready k :: as) = (.some, { s with
                buf := some ⟨s.io.unread.take (min capacity (max k 1)), 0⟩,
                io := { s.io with unread := s.io.unread.drop (min capacity (max k 1)),
                                  delivered := s.io.delivered ++ s.io.unread.take (min capacity (max k 1)) } }, as) := by
              unfold pollBuffer
              simp only [hb, hc, ne_eq, not_true_eq_false, if_false]
              rw [if_pos hgot]
            rw [hpb]
            dsimp only
            have hch : (⟨s.io.unread.take (min capacity (max k 1)), 0⟩ : CopyBuf).chunk =
                s.io.unread.take (min capacity (max k 1)) := by simp [CopyBuf.chunk]
            simp only [List.length_cons] at hn
            obtain ⟨s', d', as', h1, h2, h3⟩ := drain ({ s with
                buf := some ⟨s.io.unread.take (min capacity (max k 1)), 0⟩,
                io := { s.io with unread := s.io.unread.drop (min capacity (max k 1)),
                                  delivered := s.io.delivered ++ s.io.unread.take (min capacity (max k 1)) } }) as _ rfl
              (by rw [hch]; exact List.ne_nil_of_length_pos hgot) hw' (by omega)
              (by rw [hch, List.length_take]; rw [List.length_drop]; omega)
            refine ⟨s', d', as', h1, h2, ?_⟩
            rw [hch, List.length_take] at h3
            simp only [List.length_drop] at h3
            simp only [hc, List.length_nil, List.length_cons]
            omega
      · have hpb : pollBuffer s as = (.some, s, as) := by
          unfold pollBuffer
          simp only [hb]
          rw [if_pos hc]
        rw [hpb]
        dsimp only
        exact drain s as b hb hc hw hn hl

/-- If every call is answered, a single poll forwards everything and completes. -/
theorem C40_completes (fromIn fromOut : Bytes) (as : List Answer) (hw : Willing as)
    (hl : 2 * fromIn.length + 2 * fromOut.length + 4 ≤ as.length) :
    ((Duplex.new fromIn fromOut).poll as).1 = .ready := by
  have h1 := copyInto_spec fromIn (HalfDuplex.new fromIn).r (HalfDuplex.new fromOut).w as
    (new_good fromIn fromOut).inv
  obtain ⟨s, d, as1, e1, hw1, l1⟩ := copyLoop_willing (as.length + 2) false (HalfDuplex.new fromIn).r
    (HalfDuplex.new fromOut).w as rfl hw (by omega)
    (.inr ⟨by simp [HalfDuplex.new], by simp [HalfDuplex.new, pend, CopyBuf.chunk]; omega⟩)
  have c1 : copyInto (HalfDuplex.new fromIn).r (HalfDuplex.new fromOut).w as = (.ready, s, d, as1) := by
    unfold copyInto
    rw [if_neg (by simp [HalfDuplex.new]), if_neg (by simp [HalfDuplex.new]), e1]
  rw [c1] at h1
  have h2 := copyInto_spec fromOut (HalfDuplex.new fromOut).r (HalfDuplex.new fromIn).w as1
    (new_good fromIn fromOut).inv'
  have l1' : as.length - (2 * fromIn.length + 2) ≤ as1.length := by
    simpa [HalfDuplex.new, pend, CopyBuf.chunk] using l1
  obtain ⟨s2, d2, as2, e2, -, -⟩ := copyLoop_willing (as1.length + 2) false (HalfDuplex.new fromOut).r
    (HalfDuplex.new fromIn).w as1 rfl hw1 (by omega)
    (.inr ⟨by simp [HalfDuplex.new], by simp [HalfDuplex.new, pend, CopyBuf.chunk]; omega⟩)
  have c2 : copyInto (HalfDuplex.new fromOut).r (HalfDuplex.new fromIn).w as1 = (.ready, s2, d2, as2) := by
    unfold copyInto
    rw [if_neg (by simp [HalfDuplex.new]), if_neg (by simp [HalfDuplex.new]), e2]
  rw [c2] at h2
  unfold Duplex.poll
  simp only [Duplex.new, c1, c2]
  have d1 := h1.done rfl
  have d2' := h2.done rfl
  dsimp only at d1 d2'
  rw [if_pos (by simp [d1, d2'])]

/-! ## A gap -/

/-- Bytes that were written after a flush may wait, unflushed, for as long as the source stays silent: after a write
that was pending and the flush that follows it, the rest is written, and the copy then waits for more to read without
flushing and without having noted that a flush is due. -/
theorem C40_last_bytes_may_stay_unflushed :
    let x := (Duplex.new [1, 2, 3, 4] []).run [[.ready 4, .ready 2, .pending, .ready 0, .ready 2, .pending, .pending]]
    x.1 = .pending ∧ x.2.halfIn.r.io.delivered = [1, 2, 3, 4] ∧ x.2.halfOut.w.io.written = [1, 2, 3, 4] ∧
      x.2.halfOut.w.io.flushed = 2 ∧ x.2.halfIn.r.flushing = false := by
  decide +kernel

/-- Without a pending write, the copy flushes before it waits. -/
example :
    let x := (Duplex.new [1, 2, 3, 4] []).run [[.ready 4, .ready 4, .pending, .ready 0, .pending]]
    x.1 = .pending ∧ x.2.halfOut.w.io.written = [1, 2, 3, 4] ∧ x.2.halfOut.w.io.flushed = 4 := by decide +kernel

/-! ## Concrete copies -/

example : (Duplex.new [1, 2, 3] [9]).run [[.ready 2, .ready 1, .ready 5, .pending, .ready 1, .ready 1],
    [.ready 0, .ready 5, .ready 7, .ready 5, .ready 0, .ready 1, .ready 5, .ready 2, .ready 0]] =
    (.ready, ⟨⟨⟨none, false, ⟨[], [1, 2, 3], true⟩⟩, ⟨true, ⟨[9], 0, true, false, true, 2, 0⟩⟩⟩,
      ⟨⟨none, false, ⟨[], [9], true⟩⟩, ⟨true, ⟨[1, 2, 3], 2, true, false, false, 1, 2⟩⟩⟩⟩) := by decide +kernel

example : ((Duplex.new [1, 2, 3] []).run [[.ready 3, .ready 0]]).1 = .failed := by decide +kernel

example : Willing (List.replicate 20 (.ready 3)) := by
  intro a ha; exact ⟨3, by decide, List.eq_of_mem_replicate ha⟩

end Verif.Duplex
