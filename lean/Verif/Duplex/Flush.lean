import Verif.Duplex.Props

/-!
# C40: the copy holds a bounded number of bytes, and flushes before it waits
-/

namespace Verif.Duplex

open Verif.Io (Bytes)

/-! ## The buffer -/

theorem drainLoop_data (b : CopyBuf) (io : Sink) (sz : Nat) (as : List Answer) :
    (drainLoop b io sz as).2.1.data = b.data := by
  induction as generalizing b io sz with
  | nil => unfold drainLoop; split <;> rfl
  | cons a as ih =>
    unfold drainLoop
    split
    · rfl
    · cases a with
      | pending => rfl
      | failed => rfl
      | ready k =>
        dsimp only
        split
        · rfl
        · exact ih _ _ _

/-- The buffer is no longer than the array. -/
def Small (s : Reading) : Prop := ∀ b, s.buf = some b → b.data.length ≤ 8192

theorem pollBuffer_small (s : Reading) (as : List Answer) (h : Small s) : Small (pollBuffer s as).2.1 := by
  unfold pollBuffer
  cases hb : s.buf with
  | none => intro b e; cases e
  | some b =>
    dsimp only
    split
    · exact h
    · match as with
      | [] => intro b e; cases e; simp
      | .pending :: as => intro b e; cases e; simp
      | .failed :: as => intro b e; cases e; simp
      | .ready k :: as =>
        dsimp only
        split
        · intro b e; cases e; simp only [List.length_take, capacity]; omega
        · intro b e; cases e

theorem drainInto_small (s : Reading) (d : Writing) (as : List Answer) (h : Small s) :
    Small (drainInto s d as).2.1 := by
  unfold drainInto
  cases hb : s.buf with
  | none => exact h
  | some b =>
    intro b' e
    dsimp only at e
    have hd := drainLoop_data b d.io 0 as
    cases e
    rw [hd]
    exact h b hb

theorem pollFlush_small (s : Reading) (d : Writing) (as : List Answer) (h : Small s) :
    Small (pollFlush s d as).2.1 := by
  unfold pollFlush
  match as with
  | [] => exact h
  | .pending :: as => exact h
  | .failed :: as => exact h
  | .ready k :: as => exact h

theorem copyLoop_small (n : Nat) (nf : Bool) (s : Reading) (d : Writing) (as : List Answer) (h : Small s) :
    Small (copyLoop n nf s d as).2.1 := by
  induction n generalizing nf s d as with
  | zero => exact h
  | succ n ih =>
    unfold copyLoop
    have h1 := pollBuffer_small s as h
    rcases hb : pollBuffer s as with ⟨r, s1, as1⟩
    rw [hb] at h1
    cases r with
    | pending =>
      dsimp only at h1 ⊢
      split
      · have h2 := pollFlush_small s1 d as1 h1
        rcases hf : pollFlush s1 d as1 with ⟨f, s2, d2, as2⟩
        rw [hf] at h2
        cases f <;> exact h2
      · exact h1
    | failed => exact h1
    | eof =>
      dsimp only
      split <;> exact h1
    | some =>
      dsimp only at h1 ⊢
      have h2 := drainInto_small s1 d as1 h1
      rcases hd : drainInto s1 d as1 with ⟨r2, s2, d2, as2⟩
      rw [hd] at h2
      cases r2 with
      | empty => exact h2
      | failed => exact h2
      | all => exact ih _ _ _ _ h2
      | part =>
        dsimp only at h2 ⊢
        have h3 := pollFlush_small s2 d2 as2 h2
        rcases hf : pollFlush s2 d2 as2 with ⟨f, s3, d3, as3⟩
        rw [hf] at h3
        cases f with
        | pending => exact h3
        | failed => exact h3
        | ready =>
          dsimp only at h3 ⊢
          have h4 := drainInto_small s3 d3 as3 h3
          rcases hd4 : drainInto s3 d3 as3 with ⟨r4, s4, d4, as4⟩
          rw [hd4] at h4
          cases r4 with
          | part => exact h4
          | failed => exact h4
          | all => exact ih _ _ _ _ h4
          | empty => exact ih _ _ _ _ h4

theorem copyInto_small (s : Reading) (d : Writing) (as : List Answer) (h : Small s) :
    Small (copyInto s d as).2.1 := by
  unfold copyInto
  split
  · exact h
  · split
    · have h2 := pollFlush_small s d as h
      rcases hf : pollFlush s d as with ⟨f, s2, d2, as2⟩
      rw [hf] at h2
      cases f with
      | pending => exact h2
      | failed => exact h2
      | ready => exact copyLoop_small _ _ _ _ _ h2
    · exact copyLoop_small _ _ _ _ _ h

theorem poll_small (x : Duplex) (as : List Answer) (h : Small x.halfIn.r ∧ Small x.halfOut.r) :
    Small (x.poll as).2.halfIn.r ∧ Small (x.poll as).2.halfOut.r := by
  unfold Duplex.poll
  have h1 := copyInto_small x.halfIn.r x.halfOut.w as h.1
  rcases hc : copyInto x.halfIn.r x.halfOut.w as with ⟨r, s, d, as1⟩
  rw [hc] at h1
  have h2 := copyInto_small x.halfOut.r x.halfIn.w as1 h.2
  rcases hc2 : copyInto x.halfOut.r x.halfIn.w as1 with ⟨r2, s2, d2, as2⟩
  rw [hc2] at h2
  cases r <;> first | exact ⟨h1, h.2⟩ | (simp only [hc2]; cases r2 <;> exact ⟨h1, h2⟩)

theorem run_small (x : Duplex) (polls : List (List Answer)) (h : Small x.halfIn.r ∧ Small x.halfOut.r) :
    Small (x.run polls).2.halfIn.r ∧ Small (x.run polls).2.halfOut.r := by
  induction polls generalizing x with
  | nil => exact h
  | cons as polls ih =>
    unfold Duplex.run
    have h1 := poll_small x as h
    rcases hp : x.poll as with ⟨r, y⟩
    rw [hp] at h1
    cases r with
    | pending => exact ih y h1
    | failed => exact h1
    | ready => exact h1
    | panic => exact h1

/-- In each direction the copy never holds more than 8192 bytes that it has read and not yet written: a peer that does
not read makes the other wait. -/
theorem C40_holds_a_bounded_number_of_bytes (fromIn fromOut : Bytes) (polls : List (List Answer)) :
    let x := ((Duplex.new fromIn fromOut).run polls).2
    x.halfIn.r.io.delivered.length ≤ x.halfOut.w.io.written.length + 8192 ∧
      x.halfOut.r.io.delivered.length ≤ x.halfIn.w.io.written.length + 8192 := by
  have h := run_good fromIn fromOut _ (new_good fromIn fromOut) polls
  have hsm := run_small (Duplex.new fromIn fromOut) polls
    ⟨by intro b e; cases e; simp, by intro b e; cases e; simp⟩
  have key : ∀ {all : Bytes} {s : Reading} {d : Writing}, Inv all s d → Small s →
      s.io.delivered.length ≤ d.io.written.length + 8192 := by
    intro all s d hi hs
    have e := congrArg List.length hi.bytes
    rw [List.length_append] at e
    have : (pend s).length ≤ 8192 := by
      unfold pend
      split
      · simp
      · rename_i b hb
        have := hs b hb
        simp only [CopyBuf.chunk, List.length_drop]
        omega
    omega
  exact ⟨key h.inv hsm.1, key h.inv' hsm.2⟩

/-! ## Flushing -/

/-- A write was pending, or the shutdown was asked for. -/
def Exempt (io : Sink) : Prop := io.pended = true ∨ io.shutdownAsked = true

/-- Everything written was flushed. -/
def Flushed (io : Sink) : Prop := io.flushed = io.written.length ∧ io.flushAsked = io.written.length

/-- What holds of a direction between polls. -/
def Owes (s : Reading) (d : Writing) : Prop :=
  Exempt d.io ∨ (Flushed d.io ∧ s.flushing = false) ∨ (s.flushing = true ∧ d.io.flushAsked = d.io.written.length)

theorem drainLoop_flush (b : CopyBuf) (io : Sink) (sz : Nat) (as : List Answer) :
    (Exempt io → Exempt (drainLoop b io sz as).2.2.1) ∧
      ((drainLoop b io sz as).1 = .part → Exempt (drainLoop b io sz as).2.2.1) ∧
      (drainLoop b io sz as).2.2.1.flushCalls = io.flushCalls := by
  induction as generalizing b io sz with
  | nil =>
    unfold drainLoop
    split
    · exact ⟨id, by dsimp only; split <;> simp, rfl⟩
    · exact ⟨fun _ => .inl rfl, fun _ => .inl rfl, rfl⟩
  | cons a as ih =>
    unfold drainLoop
    split
    · exact ⟨id, by dsimp only; split <;> simp, rfl⟩
    · cases a with
      | pending => exact ⟨fun _ => .inl rfl, fun _ => .inl rfl, rfl⟩
      | failed => exact ⟨id, by simp, rfl⟩
      | ready k =>
        dsimp only
        split
        · exact ⟨id, by simp, rfl⟩
        · exact ih _ { io with written := io.written ++ b.chunk.take (min k b.chunk.length) } _

theorem drainInto_flush (s : Reading) (d : Writing) (as : List Answer) :
    (Exempt d.io → Exempt (drainInto s d as).2.2.1.io) ∧
      ((drainInto s d as).1 = .part → Exempt (drainInto s d as).2.2.1.io) ∧
      (drainInto s d as).2.2.1.io.flushCalls = d.io.flushCalls ∧
      (drainInto s d as).2.1.flushing = s.flushing := by
  unfold drainInto
  cases s.buf with
  | none => exact ⟨id, by simp, rfl, rfl⟩
  | some b =>
    have h := drainLoop_flush b d.io 0 as
    exact ⟨h.1, h.2.1, h.2.2, rfl⟩

theorem pollFlush_flush (s : Reading) (d : Writing) (as : List Answer) :
    (Exempt d.io → Exempt (pollFlush s d as).2.2.1.io) ∧
      ((pollFlush s d as).1 = .ready → Flushed (pollFlush s d as).2.2.1.io ∧ (pollFlush s d as).2.1.flushing = false) ∧
      ((pollFlush s d as).1 = .pending → (pollFlush s d as).2.1.flushing = true ∧
        (pollFlush s d as).2.2.1.io.flushAsked = (pollFlush s d as).2.2.1.io.written.length) ∧
      (pollFlush s d as).2.2.1.io.flushCalls = d.io.flushCalls + 1 := by
  unfold pollFlush
  match as with
  | [] => exact ⟨id, by simp, fun _ => ⟨rfl, rfl⟩, rfl⟩
  | .pending :: as => exact ⟨id, by simp, fun _ => ⟨rfl, rfl⟩, rfl⟩
  | .failed :: as => exact ⟨id, by simp, by simp, rfl⟩
  | .ready k :: as => exact ⟨id, fun _ => ⟨⟨rfl, rfl⟩, rfl⟩, by simp, rfl⟩

theorem pollBuffer_flushing (s : Reading) (as : List Answer) : (pollBuffer s as).2.1.flushing = s.flushing := by
  unfold pollBuffer
  cases s.buf with
  | none => rfl
  | some b =>
    dsimp only
    split
    · rfl
    · match as with
      | [] => rfl
      | .pending :: as => rfl
      | .failed :: as => rfl
      | .ready k :: as => dsimp only; split <;> rfl

theorem copyLoop_flush (n : Nat) (nf : Bool) (s : Reading) (d : Writing) (as : List Answer)
    (h : Exempt d.io ∨ (s.flushing = false ∧ (nf = true ∨ Flushed d.io))) :
    ((copyLoop n nf s d as).1 = .pending → Owes (copyLoop n nf s d as).2.1 (copyLoop n nf s d as).2.2.1) ∧
      ((copyLoop n nf s d as).1 = .ready → Exempt (copyLoop n nf s d as).2.2.1.io) ∧
      d.io.flushCalls ≤ (copyLoop n nf s d as).2.2.1.io.flushCalls := by
  induction n generalizing nf s d as with
  | zero => exact ⟨by simp [copyLoop], by simp [copyLoop], Nat.le_refl _⟩
  | succ n ih =>
    unfold copyLoop
    have h1 := pollBuffer_flushing s as
    rcases hb : pollBuffer s as with ⟨r, s1, as1⟩
    rw [hb] at h1
    dsimp only at h1
    rw [← h1] at h
    cases r with
    | failed => exact ⟨by simp, by simp, Nat.le_refl _⟩
    | pending =>
      dsimp only
      cases nf with
      | false =>
        refine ⟨fun _ => ?_, by simp, Nat.le_refl _⟩
        rcases h with h | ⟨hf, h | h⟩
        · exact .inl h
        · cases h
        · exact .inr (.inl ⟨h, hf⟩)
      | true =>
        simp only [if_true]
        have h2 := pollFlush_flush s1 d as1
        rcases hf : pollFlush s1 d as1 with ⟨f, s2, d2, as2⟩
        rw [hf] at h2
        dsimp only at h2
        obtain ⟨-, a2, b2, c2⟩ := h2
        cases f with
        | failed => exact ⟨by simp, by simp, by simp only; omega⟩
        | pending => exact ⟨fun _ => .inr (.inr (b2 rfl)), by simp, by simp only; omega⟩
        | ready => exact ⟨fun _ => .inr (.inl (a2 rfl)), by simp, by simp only; omega⟩
    | eof =>
      dsimp only
      split
      · exact ⟨by simp, by simp, Nat.le_refl _⟩
      · match as1 with
        | [] => exact ⟨fun _ => .inl (.inr rfl), fun _ => .inr rfl, Nat.le_refl _⟩
        | .pending :: as1 => exact ⟨fun _ => .inl (.inr rfl), fun _ => .inr rfl, Nat.le_refl _⟩
        | .failed :: as1 => exact ⟨fun _ => .inl (.inr rfl), fun _ => .inr rfl, Nat.le_refl _⟩
        | .ready k :: as1 => exact ⟨fun _ => .inl (.inr rfl), fun _ => .inr rfl, Nat.le_refl _⟩
    | some =>
      dsimp only
      have h2 := drainInto_flush s1 d as1
      rcases hd : drainInto s1 d as1 with ⟨r2, s2, d2, as2⟩
      rw [hd] at h2
      dsimp only at h2
      obtain ⟨x2, p2, c2, f2⟩ := h2
      cases r2 with
      | empty => exact ⟨by simp, by simp, by simp only; omega⟩
      | failed => exact ⟨by simp, by simp, by simp only; omega⟩
      | all =>
        dsimp only
        have := ih true s2 d2 as2 (by
          rcases h with h | h
          · exact .inl (x2 h)
          · exact .inr ⟨by rw [f2]; exact h.1, .inl rfl⟩)
        exact ⟨this.1, this.2.1, by omega⟩
      | part =>
        dsimp only
        have e2 := p2 rfl
        have h3 := pollFlush_flush s2 d2 as2
        rcases hf : pollFlush s2 d2 as2 with ⟨f, s3, d3, as3⟩
        rw [hf] at h3
        dsimp only at h3
        obtain ⟨x3, -, -, c3⟩ := h3
        have e3 := x3 e2
        cases f with
        | pending => exact ⟨fun _ => .inl e3, fun _ => e3, by simp only; omega⟩
        | failed => exact ⟨fun _ => .inl e3, fun _ => e3, by simp only; omega⟩
        | ready =>
          dsimp only
          have h4 := drainInto_flush s3 d3 as3
          rcases hd4 : drainInto s3 d3 as3 with ⟨r4, s4, d4, as4⟩
          rw [hd4] at h4
          dsimp only at h4
          obtain ⟨x4, -, c4, -⟩ := h4
          have e4 := x4 e3
          have := ih false s4 d4 as4 (.inl e4)
          cases r4 with
          | part => exact ⟨fun _ => .inl e4, fun _ => e4, by simp only; omega⟩
          | failed => exact ⟨fun _ => .inl e4, fun _ => e4, by simp only; omega⟩
          | all => exact ⟨this.1, this.2.1, by dsimp only; omega⟩
          | empty => exact ⟨this.1, this.2.1, by dsimp only; omega⟩

theorem copyInto_flush (s : Reading) (d : Writing) (as : List Answer) (h : Owes s d)
    (hsh : d.isShutdown = true → d.io.shutdownAsked = true) :
    ((copyInto s d as).1 = .pending ∨ (copyInto s d as).1 = .ready →
        Owes (copyInto s d as).2.1 (copyInto s d as).2.2.1) ∧
      (¬ Exempt d.io → d.io.flushed < d.io.written.length →
        d.io.flushCalls < (copyInto s d as).2.2.1.io.flushCalls) := by
  unfold copyInto
  split
  · rename_i hs
    exact ⟨fun _ => h, fun hx => absurd (.inr (hsh hs)) hx⟩
  · split
    · have h2 := pollFlush_flush s d as
      rcases hf : pollFlush s d as with ⟨f, s2, d2, as2⟩
      rw [hf] at h2
      dsimp only at h2
      obtain ⟨x2, a2, b2, c2⟩ := h2
      cases f with
      | pending => exact ⟨fun _ => .inr (.inr (b2 rfl)), fun _ _ => by simp only; omega⟩
      | failed => exact ⟨by simp, fun _ _ => by simp only; omega⟩
      | ready =>
        dsimp only
        have := copyLoop_flush (as2.length + 2) false s2 d2 as2 (.inr ⟨(a2 rfl).2, .inr (a2 rfl).1⟩)
        exact ⟨fun hr => hr.elim this.1 (fun hr => .inl (this.2.1 hr)), fun _ _ => by have := this.2.2; omega⟩
    · rename_i hfl
      have hfl : s.flushing = false := by simpa using hfl
      have h' : Exempt d.io ∨ (Flushed d.io ∧ s.flushing = false) := by
        rcases h with h | h | h
        · exact .inl h
        · exact .inr h
        · rw [hfl] at h; cases h.1
      have := copyLoop_flush (as.length + 2) false s d as (h'.imp id (fun h => ⟨h.2, .inr h.1⟩))
      refine ⟨fun hr => hr.elim this.1 (fun hr => .inl (this.2.1 hr)), fun hx hlt => ?_⟩
      rcases h' with h | h
      · exact absurd h hx
      · have := h.1.1; omega

/-- Both directions, while the copy is not done. -/
structure Both (x : Res × Duplex) : Prop where
  there : x.1 = .pending → Owes x.2.halfIn.r x.2.halfOut.w
  back : x.1 = .pending → Owes x.2.halfOut.r x.2.halfIn.w

theorem poll_both (fromIn fromOut : Bytes) (x : Duplex) (as : List Answer) (hg : Good fromIn fromOut (.pending, x))
    (h : Both (.pending, x)) :
    Both (x.poll as) ∧
      ((x.poll as).1 ≠ .failed →
        (¬ Exempt x.halfOut.w.io → x.halfOut.w.io.flushed < x.halfOut.w.io.written.length →
          x.halfOut.w.io.flushCalls < (x.poll as).2.halfOut.w.io.flushCalls) ∧
        (¬ Exempt x.halfIn.w.io → x.halfIn.w.io.flushed < x.halfIn.w.io.written.length →
          x.halfIn.w.io.flushCalls < (x.poll as).2.halfIn.w.io.flushCalls)) := by
  have sane := (poll_good fromIn fromOut x as hg).sane
  unfold Duplex.poll at sane ⊢
  have h1 := copyInto_flush x.halfIn.r x.halfOut.w as (h.there rfl) hg.inv.shut
  rcases hc : copyInto x.halfIn.r x.halfOut.w as with ⟨r, s, d, as1⟩
  rw [hc] at h1 sane
  dsimp only at h1 sane
  have h2 := copyInto_flush x.halfOut.r x.halfIn.w as1 (h.back rfl) hg.inv'.shut
  rcases hc2 : copyInto x.halfOut.r x.halfIn.w as1 with ⟨r2, s2, d2, as2⟩
  rw [hc2] at h2
  dsimp only at h2
  cases r with
  | panic => exact absurd rfl sane
  | failed => exact ⟨⟨by simp, by simp⟩, by simp⟩
  | pending =>
    simp only [hc2] at sane ⊢
    cases r2 with
    | panic => exact absurd rfl sane
    | failed => exact ⟨⟨by simp, by simp⟩, by simp⟩
    | pending => exact ⟨⟨fun _ => h1.1 (.inl rfl), fun _ => h2.1 (.inl rfl)⟩, fun _ => ⟨h1.2, h2.2⟩⟩
    | ready => exact ⟨⟨fun _ => h1.1 (.inl rfl), fun _ => h2.1 (.inr rfl)⟩, fun _ => ⟨h1.2, h2.2⟩⟩
  | ready =>
    simp only [hc2] at sane ⊢
    cases r2 with
    | panic => exact absurd rfl sane
    | failed => exact ⟨⟨by simp, by simp⟩, by simp⟩
    | pending => exact ⟨⟨fun _ => h1.1 (.inr rfl), fun _ => h2.1 (.inl rfl)⟩, fun _ => ⟨h1.2, h2.2⟩⟩
    | ready => exact ⟨⟨fun _ => h1.1 (.inr rfl), fun _ => h2.1 (.inr rfl)⟩, fun _ => ⟨h1.2, h2.2⟩⟩

theorem run_both (fromIn fromOut : Bytes) (x : Duplex) (hg : Good fromIn fromOut (.pending, x)) (h : Both (.pending, x))
    (polls : List (List Answer)) : Both (x.run polls) := by
  induction polls generalizing x with
  | nil => exact h
  | cons as polls ih =>
    unfold Duplex.run
    have g1 := poll_good fromIn fromOut x as hg
    have h1 := (poll_both fromIn fromOut x as hg h).1
    rcases hp : x.poll as with ⟨r, y⟩
    rw [hp] at h1 g1
    cases r with
    | pending => exact ih y g1 h1
    | failed => exact h1
    | ready => exact h1
    | panic => exact h1

/-- While the copy waits, in a direction in which no write was ever pending and the shutdown was not asked for, all that
was written has been followed by a flush; and for as long as that flush has not completed, each poll asks for it again
(unless the copy fails). `C40_last_bytes_may_stay_unflushed` shows what a pending write does to this. -/
theorem C40_flushes_before_waiting (fromIn fromOut : Bytes) (polls : List (List Answer)) (x : Duplex)
    (hr : (Duplex.new fromIn fromOut).run polls = (.pending, x)) :
    (x.halfOut.w.io.pended = false → x.halfOut.w.io.shutdownAsked = false →
      x.halfOut.w.io.flushAsked = x.halfOut.w.io.written.length ∧
      ∀ as, (x.poll as).1 ≠ .failed → x.halfOut.w.io.flushed < x.halfOut.w.io.written.length →
        x.halfOut.w.io.flushCalls < (x.poll as).2.halfOut.w.io.flushCalls) ∧
    (x.halfIn.w.io.pended = false → x.halfIn.w.io.shutdownAsked = false →
      x.halfIn.w.io.flushAsked = x.halfIn.w.io.written.length ∧
      ∀ as, (x.poll as).1 ≠ .failed → x.halfIn.w.io.flushed < x.halfIn.w.io.written.length →
        x.halfIn.w.io.flushCalls < (x.poll as).2.halfIn.w.io.flushCalls) := by
  have hg := run_good fromIn fromOut _ (new_good fromIn fromOut) polls
  have hb := run_both fromIn fromOut _ (new_good fromIn fromOut)
    ⟨fun _ => .inr (.inl ⟨⟨rfl, rfl⟩, rfl⟩), fun _ => .inr (.inl ⟨⟨rfl, rfl⟩, rfl⟩)⟩ polls
  rw [hr] at hg hb
  have key : ∀ {s : Reading} {d : Writing}, Owes s d → ¬ Exempt d.io → d.io.flushAsked = d.io.written.length := by
    intro s d ho hx
    rcases ho with h | h | h
    · exact absurd h hx
    · exact h.1.2
    · exact h.2
  have nx : ∀ {io : Sink}, io.pended = false → io.shutdownAsked = false → ¬ Exempt io := by
    intro io h1 h2 hx
    rcases hx with hx | hx
    · rw [h1] at hx; cases hx
    · rw [h2] at hx; cases hx
  refine ⟨fun h1 h2 => ⟨key (hb.there rfl) (nx h1 h2), fun as hf => ?_⟩,
    fun h1 h2 => ⟨key (hb.back rfl) (nx h1 h2), fun as hf => ?_⟩⟩
  · exact ((poll_both fromIn fromOut x as hg hb).2 hf).1 (nx h1 h2)
  · exact ((poll_both fromIn fromOut x as hg hb).2 hf).2 (nx h1 h2)

/-- A flush that is pending: asked for after all four bytes, not complete, and asked for again by the next poll. -/
example :
    let r := (Duplex.new [1, 2, 3, 4] []).run [[.ready 4, .ready 4, .pending, .pending, .pending]]
    r.1 = .pending ∧ r.2.halfOut.w.io.pended = false ∧ r.2.halfOut.w.io.shutdownAsked = false ∧
      r.2.halfOut.w.io.flushed = 0 ∧ r.2.halfOut.w.io.written.length = 4 ∧ r.2.halfOut.w.io.flushCalls = 1 ∧
      (r.2.poll [.pending]).1 = .pending ∧ (r.2.poll [.pending]).2.halfOut.w.io.flushCalls = 2 := by decide +kernel

end Verif.Duplex
