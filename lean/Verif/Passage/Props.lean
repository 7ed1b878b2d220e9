import Verif.Passage.Invariant

/-!
# C117: bytes through any number of proxies
-/

namespace Verif.Duplex

open Verif.Io (Bytes)

/-! ## Copies fail only when a socket does -/

/-- No call fails, and no write takes nothing. -/
def Calm (as : List Answer) : Prop := ∀ a ∈ as, a ≠ .failed ∧ a ≠ .ready 0

theorem Calm.tail {a : Answer} {as : List Answer} (h : Calm (a :: as)) : Calm as :=
  fun x hx => h x (List.mem_cons_of_mem _ hx)

theorem pollBuffer_calm (s : Reading) (as : List Answer) (h : Calm as) :
    (pollBuffer s as).1 ≠ .failed ∧ Calm (pollBuffer s as).2.2 := by
  unfold pollBuffer
  split
  · exact ⟨by simp, h⟩
  · split
    · exact ⟨by simp, h⟩
    · dsimp only
      split
      · exact ⟨by simp, h⟩
      · exact ⟨by simp, h.tail⟩
      · exact absurd rfl (h _ List.mem_cons_self).1
      · split
        · exact ⟨by simp, h.tail⟩
        · exact ⟨by simp, h.tail⟩

theorem pollFlush_calm (s : Reading) (d : Writing) (as : List Answer) (h : Calm as) :
    (pollFlush s d as).1 ≠ .failed ∧ Calm (pollFlush s d as).2.2.2 := by
  unfold pollFlush
  split
  · exact ⟨by simp, h⟩
  · exact ⟨by simp, h.tail⟩
  · exact absurd rfl (h _ List.mem_cons_self).1
  · exact ⟨by simp, h.tail⟩

theorem drainLoop_calm (b : CopyBuf) (io : Sink) (sz : Nat) (as : List Answer) (h : Calm as) :
    (drainLoop b io sz as).1 ≠ .failed ∧ Calm (drainLoop b io sz as).2.2.2 := by
  induction as generalizing b io sz with
  | nil =>
    unfold drainLoop
    split
    · split <;> exact ⟨by simp, h⟩
    · exact ⟨by simp, h⟩
  | cons a as ih =>
    unfold drainLoop
    split
    · split <;> exact ⟨by simp, h⟩
    · rename_i hc
      cases a with
      | pending => exact ⟨by simp, h.tail⟩
      | failed => exact absurd rfl (h _ List.mem_cons_self).1
      | ready k =>
        dsimp only
        split
        · rename_i hz
          exfalso
          have hk : k ≠ 0 := by rintro rfl; exact (h _ List.mem_cons_self).2 rfl
          have : b.chunk.length ≠ 0 := fun e => hc (List.length_eq_zero_iff.1 e)
          omega
        · exact ih _ _ _ h.tail

theorem drainInto_calm (s : Reading) (d : Writing) (as : List Answer) (h : Calm as) :
    (drainInto s d as).1 ≠ .failed ∧ Calm (drainInto s d as).2.2.2 := by
  unfold drainInto
  split
  · exact ⟨by simp, h⟩
  · rename_i b _
    exact drainLoop_calm b d.io 0 as h

theorem pollShutdown_calm (d : Writing) (as : List Answer) (h : Calm as) :
    (pollShutdown d as).1 ≠ .failed ∧ Calm (pollShutdown d as).2.2 := by
  unfold pollShutdown
  dsimp only
  split
  · exact ⟨by simp, h⟩
  · exact ⟨by simp, h.tail⟩
  · exact absurd rfl (h _ List.mem_cons_self).1
  · exact ⟨by simp, h.tail⟩

theorem copyLoop_calm (n : Nat) (nf : Bool) (s : Reading) (d : Writing) (as : List Answer) (h : Calm as) :
    (copyLoop n nf s d as).1 ≠ .failed ∧ Calm (copyLoop n nf s d as).2.2.2 := by
  induction n generalizing nf s d as with
  | zero => exact ⟨by simp [copyLoop], h⟩
  | succ n ih =>
    unfold copyLoop
    have h1 := pollBuffer_calm s as h
    generalize pollBuffer s as = p at h1 ⊢
    rcases p with ⟨r, s, as⟩
    obtain ⟨n1, h1⟩ := h1
    dsimp only at n1 h1
    cases r with
    | pending =>
      dsimp only
      split
      · have h2 := pollFlush_calm s d as h1
        generalize pollFlush s d as = q at h2 ⊢
        rcases q with ⟨r, s, d', as⟩
        cases r with
        | failed => exact absurd rfl h2.1
        | pending => exact ⟨by simp, h2.2⟩
        | ready => exact ⟨by simp, h2.2⟩
      · exact ⟨by simp, h1⟩
    | failed => exact absurd rfl n1
    | some =>
      dsimp only
      have h2 := drainInto_calm s d as h1
      generalize drainInto s d as = q at h2 ⊢
      rcases q with ⟨r, s, d1, as⟩
      cases r with
      | empty => exact ⟨by simp, h2.2⟩
      | failed => exact absurd rfl h2.1
      | all => exact ih true s d1 as h2.2
      | part =>
        dsimp only at h2 ⊢
        have h3 := pollFlush_calm s d1 as h2.2
        generalize pollFlush s d1 as = q at h3 ⊢
        rcases q with ⟨r, s, d2, as⟩
        cases r with
        | pending => exact ⟨by simp, h3.2⟩
        | failed => exact absurd rfl h3.1
        | ready =>
          dsimp only at h3 ⊢
          have h4 := drainInto_calm s d2 as h3.2
          generalize drainInto s d2 as = q at h4 ⊢
          rcases q with ⟨r, s, d3, as⟩
          cases r with
          | part => exact ⟨by simp, h4.2⟩
          | failed => exact absurd rfl h4.1
          | all => exact ih false s d3 as h4.2
          | empty => exact ih false s d3 as h4.2
    | eof =>
      dsimp only
      split
      · exact ⟨by simp, h1⟩
      · exact pollShutdown_calm d as h1

theorem copyInto_calm (s : Reading) (d : Writing) (as : List Answer) (h : Calm as) :
    (copyInto s d as).1 ≠ .failed ∧ Calm (copyInto s d as).2.2.2 := by
  unfold copyInto
  split
  · exact ⟨by simp, h⟩
  · split
    · have h2 := pollFlush_calm s d as h
      generalize pollFlush s d as = q at h2 ⊢
      rcases q with ⟨r, s, d1, as⟩
      cases r with
      | pending => exact ⟨by simp, h2.2⟩
      | failed => exact absurd rfl h2.1
      | ready => exact copyLoop_calm _ _ s d1 as h2.2
    · exact copyLoop_calm _ _ s d as h

theorem poll_calm (x : Duplex) (as : List Answer) (h : Calm as) : (x.poll as).1 ≠ .failed := by
  unfold Duplex.poll
  have h1 := copyInto_calm x.halfIn.r x.halfOut.w as h
  generalize copyInto x.halfIn.r x.halfOut.w as = q at h1 ⊢
  rcases q with ⟨r, s, d, as1⟩
  have h2 := copyInto_calm x.halfOut.r x.halfIn.w as1 h1.2
  have last : ∀ {p : Res × Reading × Writing × List Answer}, p.1 ≠ .failed →
      (match p with
        | (.panic, r', w', _) => (Res.panic, (⟨⟨s, w'⟩, ⟨r', d⟩⟩ : Duplex))
        | (.failed, r', w', _) => (.failed, ⟨⟨s, w'⟩, ⟨r', d⟩⟩)
        | (_, r', w', _) => (if w'.isShutdown && d.isShutdown then .ready else .pending, ⟨⟨s, w'⟩, ⟨r', d⟩⟩)).1 ≠
        .failed := by
    intro p hp
    rcases p with ⟨r, s', d', as2⟩
    cases r with
    | failed => exact absurd rfl hp
    | panic => simp
    | pending => dsimp only; split <;> simp
    | ready => dsimp only; split <;> simp
  cases r with
  | panic => simp
  | failed => exact absurd rfl h1.1
  | pending => exact last h2.1
  | ready => exact last h2.1

end Verif.Duplex

namespace Verif.Passage

open Verif.Io (Bytes)
open Verif.Duplex (Duplex Answer Res Good Inv Calm)
open Verif.TransportHeader (Header)

/-! ## Specification

`(w.up 0).sent` is what the client's application wrote and `(w.up c.n).received` is what the server's application can
read; `(w.down c.n).sent` and `(w.down 0).received` are the same for the other direction. -/

/-- Nothing fails in this step: no application drops its socket, no proxy gives up, and no call of a copy fails. -/
def Op.calm : Op → Prop
  | .clientDrops => False
  | .serverDrops => False
  | .giveUp _ => False
  | .poll _ as => Calm as
  | _ => True

/-! ## Proofs -/

theorem drop_prefix {α : Type} {a b : List α} (h : a <+: b) (k : Nat) : a.drop k <+: b.drop k := by
  obtain ⟨t, rfl⟩ := h
  rw [List.drop_append]
  exact List.prefix_append _ _

theorem WInv.upChain {c : Config} (hc : c.Ok) {w : World} (h : WInv c w) (i : Nat) (hi : i ≤ c.n) :
    ((w.up i).received.drop (c.headerBytes i).length) <+: (w.up 0).sent := by
  induction i with
  | zero =>
    simp only [Config.headerBytes, hc.first, List.length_nil, List.drop_zero]
    exact Pipe.received_prefix _
  | succ i ih =>
    exact (drop_prefix (Pipe.received_prefix _) _).trans ((h.loc i (by omega)).upP.trans (ih (by omega)))

theorem WInv.downChain {c : Config} {w : World} (h : WInv c w) (k : Nat) :
    ∀ i, i + k = c.n → (w.down i).received <+: (w.down c.n).sent := by
  induction k with
  | zero => intro i hi; rw [show i = c.n by omega]; exact Pipe.received_prefix _
  | succ k ih =>
    intro i hi
    exact (Pipe.received_prefix _).trans ((h.loc i (by omega)).downP.trans (ih (i + 1) (by omega)))

/-- **C117, bytes.** Whatever the proxies, the network and the applications do, at any moment: what the server's
application has received is a prefix of what the client's application wrote, and the other way round. No byte is added,
lost in the middle, repeated or reordered, and nothing of the proxies' own headers reaches an application. -/
theorem C117_bytes_arrive_as_they_were_sent (c : Config) (hc : c.Ok) (hn : c.tag c.n = none) (ops : List Op) :
    ((World.run c ops).up c.n).received <+: ((World.run c ops).up 0).sent ∧
    ((World.run c ops).down 0).received <+: ((World.run c ops).down c.n).sent := by
  have h := WInv.run hc ops
  refine ⟨?_, h.downChain c.n 0 (by omega)⟩
  have := h.upChain hc c.n (Nat.le_refl _)
  simpa [Config.headerBytes, hn] using this

/-- **C117, on the way.** The same holds at each proxy: after the header of its connection, it has received a prefix of
what the client wrote, and from the other side a prefix of what the server wrote. -/
theorem C117_bytes_on_the_way (c : Config) (hc : c.Ok) (ops : List Op) (i : Nat) (hi : i ≤ c.n) :
    (((World.run c ops).up i).received.drop (c.headerBytes i).length) <+: ((World.run c ops).up 0).sent ∧
    ((World.run c ops).down i).received <+: ((World.run c ops).down c.n).sent :=
  ⟨(WInv.run hc ops).upChain hc i hi, (WInv.run hc ops).downChain (c.n - i) i (by omega)⟩

theorem WInv.upEnd {c : Config} (hc : c.Ok) {w : World} (h : WInv c w) (hd : ∀ i, i ≤ c.n → (w.up i).dropped = false)
    (i : Nat) (hi : i ≤ c.n) (he : (w.up i).endArrived = true) :
    ((w.up i).received.drop (c.headerBytes i).length) = (w.up 0).sent ∧ (w.up 0).ended = true := by
  have full : ∀ j, j ≤ c.n → (w.up j).endArrived = true → (w.up j).ended = true ∧ (w.up j).received = (w.up j).sent := by
    intro j hj hje
    rcases (h.okUp j).fin hje with h1 | ⟨h1, h2⟩
    · rw [hd j hj] at h1; cases h1
    · exact ⟨h1, by simp [Pipe.received, h2]⟩
  induction i with
  | zero =>
    obtain ⟨h1, h2⟩ := full 0 hi he
    simp only [Config.headerBytes, hc.first, List.length_nil, List.drop_zero]
    exact ⟨h2, h1⟩
  | succ i ih =>
    obtain ⟨h1, h2⟩ := full (i + 1) hi he
    obtain ⟨h3, h4⟩ := (h.loc i (by omega)).upF h1
    rw [h2, h4]
    exact ih (by omega) h3

theorem WInv.downEnd {c : Config} {w : World} (h : WInv c w) (hd : ∀ i, i ≤ c.n → (w.down i).dropped = false) (k : Nat) :
    ∀ i, i + k = c.n → (w.down i).endArrived = true →
      (w.down i).received = (w.down c.n).sent ∧ (w.down c.n).ended = true := by
  have full : ∀ j, j ≤ c.n → (w.down j).endArrived = true →
      (w.down j).ended = true ∧ (w.down j).received = (w.down j).sent := by
    intro j hj hje
    rcases (h.okDown j).fin hje with h1 | ⟨h1, h2⟩
    · rw [hd j hj] at h1; cases h1
    · exact ⟨h1, by simp [Pipe.received, h2]⟩
  induction k with
  | zero =>
    intro i hi he
    have e : i = c.n := by omega
    rw [e] at he ⊢
    obtain ⟨h1, h2⟩ := full c.n (Nat.le_refl _) he
    exact ⟨h2, h1⟩
  | succ k ih =>
    intro i hi he
    obtain ⟨h1, h2⟩ := full i (by omega) he
    obtain ⟨h3, h4⟩ := (h.loc i (by omega)).downF h1
    rw [h2, h4]
    exact ih (i + 1) (by omega) h3

/-- No socket was dropped. -/
def NoDrop (w : World) : Prop := ∀ i, (w.up i).dropped = false ∧ (w.down i).dropped = false

theorem NoDrop.up {w : World} (h : NoDrop w) {i : Nat} {p : Pipe} (hp : p.dropped = false) :
    NoDrop { w with up := upd w.up i p } :=
  fun j => ⟨upd_all (P := fun p : Pipe => p.dropped = false) (fun j => (h j).1) hp j, (h j).2⟩

theorem NoDrop.down {w : World} (h : NoDrop w) {i : Nat} {p : Pipe} (hp : p.dropped = false) :
    NoDrop { w with down := upd w.down i p } :=
  fun j => ⟨(h j).1, upd_all (P := fun p : Pipe => p.dropped = false) (fun j => (h j).2) hp j⟩

theorem NoDrop.hop {w : World} (h : NoDrop w) (s : Nat → Hop) (o : Nat → Bool) :
    NoDrop { w with hop := s, opened := o } := h

theorem Pipe.write_dropped (p : Pipe) (bs : Bytes) : (p.write bs).dropped = p.dropped := by
  unfold Pipe.write; split <;> rfl

theorem Pipe.finish_dropped (p : Pipe) : p.finish.dropped = p.dropped := by unfold Pipe.finish; split <;> rfl

theorem Pipe.carryEnd_dropped (p : Pipe) : p.carryEnd.dropped = p.dropped := by unfold Pipe.carryEnd; split <;> rfl

theorem NoDrop.step {c : Config} {w : World} (hi : WInv c w) (h : NoDrop w) (op : Op) (hc : op.calm) :
    NoDrop (w.step c op) := by
  cases op with
  | clientWrites bs => exact h.up (by rw [Pipe.write_dropped]; exact (h 0).1)
  | clientEnds => exact h.up (by rw [Pipe.finish_dropped]; exact (h 0).1)
  | clientDrops => exact hc.elim
  | serverWrites bs =>
    simp only [World.step]; split
    · exact h.down (by rw [Pipe.write_dropped]; exact (h _).2)
    · exact h
  | serverEnds =>
    simp only [World.step]; split
    · exact h.down (by rw [Pipe.finish_dropped]; exact (h _).2)
    · exact h
  | serverDrops => exact hc.elim
  | carryUp i k => exact (h.up (i := i) (p := (w.up i).carry k) (h i).1).hop _ _
  | carryDown i k => exact (h.down (i := i) (p := (w.down i).carry k) (h i).2).hop _ _
  | carryUpEnd i => exact h.up (by rw [Pipe.carryEnd_dropped]; exact (h i).1)
  | carryDownEnd i => exact h.down (by rw [Pipe.carryEnd_dropped]; exact (h i).2)
  | «open» i reads first =>
    simp only [World.step]
    split
    · split
      · exact h
      · exact (h.up (i := i + 1) (p := { w.up (i + 1) with sent := c.headerBytes (i + 1) }) (h (i + 1)).1).hop _ _
    · exact h
  | poll i as =>
    simp only [World.step]
    split
    · rename_i hd x hh
      have hcalm := Duplex.poll_calm x as hc
      obtain ⟨hi', _⟩ := hi.used i (by rw [hh]; intro e; cases e)
      have hsane := (Duplex.poll_good _ _ x as ((hi.loc i hi').relaying _ _ hh).2.2.2.1).sane
      rcases hp : x.poll as with ⟨res, y⟩
      rw [hp] at hcalm hsane
      dsimp only at hcalm ⊢
      have hw : NoDrop (w.wrote c i y) :=
        (h.up (i := i + 1) (p := { w.up (i + 1) with
          sent := c.headerBytes (i + 1) ++ y.halfOut.w.io.written, ended := y.halfOut.w.io.shutdownAsked })
          (h (i + 1)).1).down (h i).2
      split
      · cases res with
        | pending => exact hw.hop _ _
        | ready => exact hw.hop _ _
        | failed => exact absurd rfl hcalm
        | panic => exact absurd rfl hsane
      · exact h
    · exact h
  | giveUp i => exact hc.elim

theorem NoDrop.run {c : Config} (hc : c.Ok) (ops : List Op) (h : ∀ op ∈ ops, op.calm) : NoDrop (World.run c ops) := by
  induction ops using Verif.snoc_induction with
  | nil => exact fun _ => ⟨rfl, rfl⟩
  | snoc ops op ih =>
    rw [World.run, List.foldl_append]
    exact NoDrop.step (WInv.run hc ops) (ih fun o ho => h o (List.mem_append_left _ ho)) op
      (h op (List.mem_append_right _ List.mem_cons_self))

/-- **C117, the end.** Unless something on the way drops a connection, an application that sees the end of the stream has
received everything the other application wrote, and that application has ended its stream. So a proxy passes the end
on only after all bytes. -/
theorem C117_an_end_comes_after_everything (c : Config) (hc : c.Ok) (hn : c.tag c.n = none) (ops : List Op)
    (hcalm : ∀ op ∈ ops, op.calm) :
    (((World.run c ops).up c.n).endArrived = true →
      ((World.run c ops).up c.n).received = ((World.run c ops).up 0).sent ∧ ((World.run c ops).up 0).ended = true) ∧
    (((World.run c ops).down 0).endArrived = true →
      ((World.run c ops).down 0).received = ((World.run c ops).down c.n).sent ∧
        ((World.run c ops).down c.n).ended = true) := by
  have h := WInv.run hc ops
  have hd := NoDrop.run hc ops hcalm
  refine ⟨fun he => ?_, fun he => h.downEnd (fun i _ => (hd i).2) c.n 0 (by omega) he⟩
  have := h.upEnd hc (fun i _ => (hd i).1) c.n (Nat.le_refl _) he
  simpa [Config.headerBytes, hn] using this

/-- **C117, one direction.** What happens in one direction does not matter to the other: if no socket that carries bytes
towards the server was dropped, then the above holds for the server. -/
theorem C117_directions_are_apart (c : Config) (hc : c.Ok) (hn : c.tag c.n = none) (ops : List Op)
    (hd : ∀ i, i ≤ c.n → ((World.run c ops).up i).dropped = false)
    (he : ((World.run c ops).up c.n).endArrived = true) :
    ((World.run c ops).up c.n).received = ((World.run c ops).up 0).sent ∧ ((World.run c ops).up 0).ended = true := by
  have := (WInv.run hc ops).upEnd hc hd c.n (Nat.le_refl _) he
  simpa [Config.headerBytes, hn] using this

/-- **C117, headers.** A proxy that has begun to copy acts on exactly the header that the proxy before it wrote, or on
none if none was written, no matter how the bytes were cut into pieces. -/
theorem C117_headers_are_read_by_the_next_proxy (c : Config) (hc : c.Ok) (ops : List Op) (i : Nat) (h : Option Header)
    (x : Duplex) (hh : (World.run c ops).hop i = .relaying h x) : h = c.tag i := by
  have hi := WInv.run hc ops
  exact ((hi.loc i (hi.used i (by rw [hh]; intro e; cases e)).1).relaying _ _ hh).1

/-- **C117, nothing is sent early.** Until a connection is opened nothing is written to it, and a connection begins with
its header. -/
theorem C117_connections_begin_with_the_header (c : Config) (hc : c.Ok) (ops : List Op) (i : Nat) (hi : i < c.n) :
    ((World.run c ops).opened (i + 1) = true → c.headerBytes (i + 1) <+: ((World.run c ops).up (i + 1)).sent) ∧
    ((World.run c ops).hop i = .opening → ((World.run c ops).up (i + 1)).sent = []) ∧
    ((World.run c ops).opened (i + 1) = false → ((World.run c ops).down (i + 1)).sent = []) := by
  have h := WInv.run hc ops
  exact ⟨(h.loc i hi).start, fun ho => ((h.loc i hi).opening ho).1, h.closed (i + 1)⟩

/-! ## What the applications write -/

/-- What the client writes: its writes until it ends or drops its stream. -/
def clientWrote : List Op → Bytes
  | [] => []
  | .clientWrites bs :: ops => bs ++ clientWrote ops
  | .clientEnds :: _ => []
  | .clientDrops :: _ => []
  | _ :: ops => clientWrote ops

/-- What the writer of a pipe has done to it. -/
def Pipe.writer (p : Pipe) : Bytes × Bool × Bool := (p.sent, p.ended, p.dropped)

theorem up0_step (c : Config) (w : World) (op : Op) :
    ((w.step c op).up 0).writer = match op with
      | .clientWrites bs => ((w.up 0).write bs).writer
      | .clientEnds => (w.up 0).finish.writer
      | .clientDrops => (w.up 0).drop.writer
      | _ => (w.up 0).writer := by
  have ne : ∀ i (p : Pipe), upd w.up (i + 1) p 0 = w.up 0 := fun i p => upd_ne _ _ (by omega)
  have rd : ∀ i (p : Pipe), p.writer = (w.up i).writer → (upd w.up i p 0).writer = (w.up 0).writer := by
    intro i p hp
    unfold upd; split
    · rename_i e; rw [hp, ← e]
    · rfl
  cases op with
  | clientWrites bs => simp only [World.step, upd_self]
  | clientEnds => simp only [World.step, upd_self]
  | clientDrops => simp only [World.step, upd_self]
  | serverWrites bs => simp only [World.step]; split <;> rfl
  | serverEnds => simp only [World.step]; split <;> rfl
  | serverDrops => simp only [World.step]; split <;> rfl
  | carryUp i k => exact rd i _ rfl
  | carryDown i k => rfl
  | carryUpEnd i => exact rd i _ (by unfold Pipe.carryEnd; split <;> rfl)
  | carryDownEnd i => rfl
  | «open» i reads first =>
    simp only [World.step]
    split
    · split
      · rfl
      · dsimp only; rw [ne]
    · rfl
  | poll i as =>
    simp only [World.step]
    split
    · rename_i x _
      generalize x.poll as = p
      rcases p with ⟨res, y⟩
      dsimp only
      split
      · cases res <;> simp only [World.wrote, World.dropped, upd_twice, ne]
      · rfl
    · rfl
  | giveUp i =>
    simp only [World.step]
    split
    · simp only [World.dropped, ne]
    · rfl

theorem clientWrote_eq (c : Config) (ops : List Op) : ∀ w : World,
    ((ops.foldl (World.step c) w).up 0).sent =
      (w.up 0).sent ++ if (w.up 0).ended || (w.up 0).dropped then [] else clientWrote ops := by
  induction ops with
  | nil => intro w; simp [clientWrote]
  | cons op ops ih =>
    intro w
    rw [List.foldl_cons, ih]
    have hs := up0_step c w op
    generalize w.step c op = w' at hs ⊢
    have h1 : (w'.up 0).sent = (w'.up 0).writer.1 := rfl
    have h2 : (w'.up 0).ended = (w'.up 0).writer.2.1 := rfl
    have h3 : (w'.up 0).dropped = (w'.up 0).writer.2.2 := rfl
    rw [h1, h2, h3, hs]
    cases op with
    | clientWrites bs =>
      by_cases hc : ((w.up 0).ended || (w.up 0).dropped) = true
      · simp [Pipe.write, Pipe.writer, hc]
      · simp only [Bool.not_eq_true] at hc
        simp [Pipe.write, Pipe.writer, hc, clientWrote]
    | clientEnds =>
      by_cases hc : (w.up 0).dropped = true
      · simp [Pipe.finish, Pipe.writer, hc, clientWrote]
      · simp only [Bool.not_eq_true] at hc
        simp [Pipe.finish, Pipe.writer, hc, clientWrote]
    | clientDrops => simp [Pipe.drop, Pipe.writer, clientWrote]
    | _ => rfl

/-- **C117, the client's bytes.** What the theorems call the bytes the client wrote are its writes until it ends or drops
its stream, and nothing else. -/
theorem C117_what_the_client_wrote (c : Config) (ops : List Op) :
    ((World.run c ops).up 0).sent = clientWrote ops :=
  clientWrote_eq c ops .init

/-- **C117, the server's bytes.** Only the server's application adds to the bytes the server wrote: once the connection
has reached it and until it ends or drops its stream. -/
theorem C117_what_the_server_wrote (c : Config) (hc : c.Ok) (ops : List Op) (op : Op) :
    ((World.run c (ops ++ [op])).down c.n).sent = ((World.run c ops).down c.n).sent ++
      match op with
      | .serverWrites bs =>
        if (World.run c ops).opened c.n = true ∧ ((World.run c ops).down c.n).ended = false ∧
          ((World.run c ops).down c.n).dropped = false then bs else []
      | _ => [] := by
  have h := WInv.run hc ops
  rw [World.run, List.foldl_append]
  change (((World.run c ops).step c op).down c.n).sent = _
  generalize World.run c ops = w at h ⊢
  have ne : ∀ i (p : Pipe), i < c.n → upd w.down i p c.n = w.down c.n := fun i p hi => upd_ne _ _ (by omega)
  have rd : ∀ i (p : Pipe), p.sent = (w.down i).sent → (upd w.down i p c.n).sent = (w.down c.n).sent := by
    intro i p hp
    unfold upd; split
    · rename_i e; rw [hp, ← e]
    · rfl
  cases op with
  | clientWrites bs => simp [World.step]
  | clientEnds => simp [World.step]
  | clientDrops => simp [World.step]
  | serverWrites bs =>
    simp only [World.step]
    cases ho : w.opened c.n <;> cases h1 : (w.down c.n).ended <;> cases h2 : (w.down c.n).dropped <;>
      simp [upd_self, Pipe.write, h1, h2]
  | serverEnds =>
    simp only [World.step]; split
    · simp only [upd_self, Pipe.finish]; split <;> simp
    · simp
  | serverDrops =>
    simp only [World.step]; split
    · simp [upd_self, Pipe.drop]
    · simp
  | carryUp i k => simp [World.step]
  | carryDown i k => exact (rd i ((w.down i).carry k) rfl).trans (List.append_nil _).symm
  | carryUpEnd i => simp [World.step]
  | carryDownEnd i =>
    exact (rd i (w.down i).carryEnd (by unfold Pipe.carryEnd; split <;> rfl)).trans (List.append_nil _).symm
  | «open» i reads first =>
    simp only [World.step, List.append_nil]
    split
    · split <;> rfl
    · rfl
  | poll i as =>
    simp only [World.step, List.append_nil]
    split
    · rename_i hd x hh
      obtain ⟨hi, _⟩ := h.used i (by rw [hh]; intro e; cases e)
      generalize x.poll as = p
      rcases p with ⟨res, y⟩
      dsimp only
      split
      · cases res <;> simp only [World.wrote, World.dropped, upd_twice, ne _ _ hi]
      · rfl
    · rfl
  | giveUp i =>
    simp only [World.step, List.append_nil]
    split
    · rename_i hcond
      simp only [Bool.and_eq_true, decide_eq_true_eq] at hcond
      simp only [World.dropped, ne _ _ hcond.1.1]
    · rfl

/-! ## Examples -/

/-- Two proxies: the first detects the protocol, and writes a header for the second. -/
def two : Config where
  n := 2
  tag i := if i = 1 then some ⟨80, none, none⟩ else none
  detects i := i == 0
  utf8 _ := true
  parse _ := .error

theorem two_ok : two.Ok := by
  refine ⟨fun _ _ => rfl, rfl, fun i h hi => ?_⟩
  unfold two at hi
  dsimp only at hi
  split at hi
  · cases hi; exact ⟨⟨by decide, fun n hn => by cases hn⟩, by decide⟩
  · cases hi

/-- The client writes and ends; the server answers after it has seen the end. -/
def talk : List Op :=
  [.clientWrites [1, 2, 3], .carryUp 0 2, .open 0 [] (.read 10), .poll 0 [.ready 5, .ready 1, .ready 9, .pending],
   .carryUp 1 40, .open 1 [.upTo 30, .upTo 30, .upTo 30, .upTo 30] .timeout,
   .poll 1 [.ready 9, .ready 9, .pending],
   .carryUp 0 9, .clientEnds, .carryUpEnd 0, .poll 0 [.ready 9, .ready 9, .ready 9, .ready 9],
   .carryUp 1 9, .carryUpEnd 1, .poll 1 [.ready 9, .ready 9, .ready 9, .ready 9, .ready 9],
   .carryUp 2 9, .carryUpEnd 2, .serverWrites [7, 8], .serverEnds, .carryDown 2 9, .carryDownEnd 2,
   .poll 1 [.ready 9, .ready 9, .ready 9, .ready 9], .carryDown 1 9, .carryDownEnd 1,
   .poll 0 [.ready 9, .ready 9, .ready 9, .ready 9, .ready 9], .carryDown 0 9, .carryDownEnd 0]

example : two.Ok ∧ two.tag two.n = none := ⟨two_ok, rfl⟩

example : ∀ op ∈ talk, op.calm := by
  intro op h
  simp only [talk, List.mem_cons, List.not_mem_nil, or_false] at h
  rcases h with h | h | h | h | h | h | h | h | h | h | h | h | h | h | h | h | h | h | h | h | h | h | h | h | h | h <;>
    subst h <;> simp [Op.calm, Calm]

/-- Everything arrives, with its end, in both directions. -/
example : ((World.run two talk).up 2).received = [1, 2, 3] ∧ ((World.run two talk).up 2).endArrived = true ∧
    ((World.run two talk).down 0).received = [7, 8] ∧ ((World.run two talk).down 0).endArrived = true ∧
    (World.run two talk).hop 0 = .over ∧ (World.run two talk).hop 1 = .over := by decide +kernel

/-- Before that, the server answers on a connection whose other direction has ended. -/
example : ((World.run two (talk.take 17)).down 2).sent = [7, 8] ∧
    ((World.run two (talk.take 17)).up 2).endArrived = true := by decide +kernel

/-- The second proxy has read the header. -/
example : ∃ x, (World.run two (talk.take 6)).hop 1 = .relaying (some ⟨80, none, none⟩) x := by
  cases h : (World.run two (talk.take 6)).hop 1 with
  | opening => exact absurd h (by decide +kernel)
  | over => exact absurd h (by decide +kernel)
  | relaying hd x =>
    exact ⟨x, by rw [C117_headers_are_read_by_the_next_proxy two two_ok _ 1 hd x h]; rfl⟩

/-- A connection on which the first proxy gives up after it has passed on a part. -/
def cutOff : List Op :=
  [.clientWrites [1, 2, 3], .carryUp 0 2, .open 0 [] (.read 10), .poll 0 [.ready 5, .ready 1, .ready 9, .pending],
   .carryUp 1 40, .open 1 [.upTo 30, .upTo 30, .upTo 30, .upTo 30] .timeout, .carryUp 0 9, .clientEnds, .giveUp 0,
   .carryUpEnd 1, .poll 1 [.ready 9, .ready 9, .ready 9, .ready 9], .carryUp 2 9, .carryUpEnd 2]

/-- **C117, limit.** When a proxy gives up in the middle, the proxies after it may pass this on as an ordinary end: the
server sees a stream that was shut down in order, on a connection that nobody dropped, and yet bytes are missing. -/
theorem C117_limit_a_drop_may_look_like_an_end :
    ∃ (c : Config) (ops : List Op), c.Ok ∧ c.tag c.n = none ∧
      ((World.run c ops).up c.n).endArrived = true ∧ ((World.run c ops).up c.n).ended = true ∧
      ((World.run c ops).up c.n).dropped = false ∧
      ((World.run c ops).up c.n).received ≠ ((World.run c ops).up 0).sent :=
  ⟨two, cutOff, two_ok, rfl, by decide +kernel⟩

end Verif.Passage
