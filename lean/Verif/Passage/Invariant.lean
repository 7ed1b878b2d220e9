import Verif.Common.List
import Verif.Passage.Model
import Verif.Duplex.Props
import Verif.HttpDetect.Props
import Verif.TransportHeader.Props

/-!
# The invariant of a connection through proxies
-/

namespace Verif.Duplex

open Verif.Io (Bytes)

/-! ## What was written stays written -/

/-- A sink only gains bytes, and stays shut down. -/
def Grows (d d' : Writing) : Prop :=
  d.io.written <+: d'.io.written ∧ (d.io.shutdownAsked = true → d'.io.shutdownAsked = true)

theorem Grows.refl (d : Writing) : Grows d d := ⟨List.prefix_rfl, id⟩

theorem Grows.trans {a b c : Writing} (h : Grows a b) (h' : Grows b c) : Grows a c :=
  ⟨h.1.trans h'.1, fun x => h'.2 (h.2 x)⟩

theorem pollFlush_grows (s : Reading) (d : Writing) (as : List Answer) : Grows d (pollFlush s d as).2.2.1 := by
  unfold pollFlush
  split <;> exact ⟨List.prefix_rfl, id⟩

theorem drainLoop_grows (b : CopyBuf) (io : Sink) (sz : Nat) (as : List Answer) :
    io.written <+: (drainLoop b io sz as).2.2.1.written ∧
      (drainLoop b io sz as).2.2.1.shutdownAsked = io.shutdownAsked := by
  induction as generalizing b io sz with
  | nil => unfold drainLoop; split <;> exact ⟨List.prefix_rfl, rfl⟩
  | cons a as ih =>
    unfold drainLoop
    split
    · exact ⟨List.prefix_rfl, rfl⟩
    · split
      · exact ⟨List.prefix_rfl, rfl⟩
      · exact ⟨List.prefix_rfl, rfl⟩
      · dsimp only
        split
        · exact ⟨List.prefix_rfl, rfl⟩
        · obtain ⟨h1, h2⟩ := ih { b with readPos := b.readPos + min _ b.chunk.length }
            { io with written := io.written ++ b.chunk.take (min _ b.chunk.length) } (sz + min _ b.chunk.length)
          exact ⟨(List.prefix_append _ _).trans h1, h2⟩

theorem drainInto_grows (s : Reading) (d : Writing) (as : List Answer) : Grows d (drainInto s d as).2.2.1 := by
  unfold drainInto
  split
  · exact .refl d
  · rename_i b _
    obtain ⟨h1, h2⟩ := drainLoop_grows b d.io 0 as
    exact ⟨h1, fun h => by rw [← h]; exact h2⟩

theorem pollShutdown_grows (d : Writing) (as : List Answer) : Grows d (pollShutdown d as).2.1 := by
  unfold pollShutdown
  dsimp only
  split <;> exact ⟨List.prefix_rfl, fun _ => rfl⟩

theorem copyLoop_grows (n : Nat) (nf : Bool) (s : Reading) (d : Writing) (as : List Answer) :
    Grows d (copyLoop n nf s d as).2.2.1 := by
  induction n generalizing nf s d as with
  | zero => exact .refl d
  | succ n ih =>
    unfold copyLoop
    generalize pollBuffer s as = p
    rcases p with ⟨r, s, as⟩
    cases r with
    | pending =>
      dsimp only
      split
      · have h := pollFlush_grows s d as
        generalize pollFlush s d as = q at h ⊢
        rcases q with ⟨r, s, d', as⟩
        cases r <;> exact h
      · exact .refl d
    | failed => exact .refl d
    | some =>
      dsimp only
      have h := drainInto_grows s d as
      generalize drainInto s d as = q at h ⊢
      rcases q with ⟨r, s, d1, as⟩
      cases r with
      | empty => exact h
      | failed => exact h
      | all => exact h.trans (ih true s d1 as)
      | part =>
        dsimp only at h ⊢
        have h' := h.trans (pollFlush_grows s d1 as)
        generalize pollFlush s d1 as = q at h' ⊢
        rcases q with ⟨r, s, d2, as⟩
        cases r with
        | pending => exact h'
        | failed => exact h'
        | ready =>
          dsimp only at h' ⊢
          have h'' := h'.trans (drainInto_grows s d2 as)
          generalize drainInto s d2 as = q at h'' ⊢
          rcases q with ⟨r, s, d3, as⟩
          cases r with
          | part => exact h''
          | failed => exact h''
          | all => exact h''.trans (ih false s d3 as)
          | empty => exact h''.trans (ih false s d3 as)
    | eof =>
      dsimp only
      split
      · exact .refl d
      · exact pollShutdown_grows d as

theorem copyInto_grows (s : Reading) (d : Writing) (as : List Answer) : Grows d (copyInto s d as).2.2.1 := by
  unfold copyInto
  split
  · exact .refl d
  · split
    · have h := pollFlush_grows s d as
      generalize pollFlush s d as = q at h ⊢
      rcases q with ⟨r, s, d1, as⟩
      cases r with
      | pending => exact h
      | failed => exact h
      | ready => exact h.trans (copyLoop_grows _ _ s d1 as)
    · exact copyLoop_grows _ _ s d as

theorem poll_grows (x : Duplex) (as : List Answer) :
    Grows x.halfOut.w (x.poll as).2.halfOut.w ∧ Grows x.halfIn.w (x.poll as).2.halfIn.w := by
  unfold Duplex.poll
  have h := copyInto_grows x.halfIn.r x.halfOut.w as
  generalize copyInto x.halfIn.r x.halfOut.w as = q at h ⊢
  rcases q with ⟨r, s, d, as1⟩
  have h' := copyInto_grows x.halfOut.r x.halfIn.w as1
  cases r with
  | panic => exact ⟨h, .refl _⟩
  | failed => exact ⟨h, .refl _⟩
  | pending =>
    dsimp only at h ⊢
    generalize copyInto x.halfOut.r x.halfIn.w as1 = q at h' ⊢
    rcases q with ⟨r, s', d', as2⟩
    cases r <;> exact ⟨h, h'⟩
  | ready =>
    dsimp only at h ⊢
    generalize copyInto x.halfOut.r x.halfIn.w as1 = q at h' ⊢
    rcases q with ⟨r, s', d', as2⟩
    cases r <;> exact ⟨h, h'⟩

/-- More bytes can be read later, as long as the end was not met. -/
theorem Inv.feed {all : Bytes} {s : Reading} {d : Writing} (h : Inv all s d) (bs : Bytes)
    (he : bs = [] ∨ s.io.eof = false) :
    Inv (all ++ bs) { s with io := { s.io with unread := s.io.unread ++ bs } } d := by
  refine ⟨?_, h.bytes, fun hb => ?_, h.asked, h.shut⟩
  · rw [← h.whole, List.append_assoc]
  · obtain ⟨h1, h2⟩ := h.eof hb
    rcases he with he | he
    · exact ⟨h1, by dsimp only; rw [he, h2]; rfl⟩
    · rw [h1] at he; cases he

end Verif.Duplex

namespace Verif.Passage

open Verif.Io (Bytes)
open Verif.Duplex (Duplex Answer Res Good Inv)
open Verif.TransportHeader (Header Reads be32 preface)

/-! ## Pipes -/

structure Pipe.Ok (p : Pipe) : Prop where
  le : p.arrived ≤ p.sent.length
  fin : p.endArrived = true → p.dropped = true ∨ (p.ended = true ∧ p.arrived = p.sent.length)

theorem Pipe.fresh_ok : Pipe.fresh.Ok := ⟨Nat.le_refl _, fun h => by cases h⟩

theorem Pipe.received_prefix (p : Pipe) : p.received <+: p.sent := List.take_prefix _ _

/-- The writer adds bytes and flags: the reader sees no difference. -/
theorem Pipe.Ok.writes {p p' : Pipe} (h : p.Ok) (hs : p.sent <+: p'.sent) (ha : p'.arrived = p.arrived)
    (hd : p.dropped = true → p'.dropped = true) (hfin : p'.endArrived = p.endArrived)
    (hend : p.ended = true → p'.ended = true ∧ (p.dropped = true ∨ p'.sent = p.sent)) :
    p'.Ok ∧ p'.received = p.received := by
  obtain ⟨r, hr⟩ := hs
  refine ⟨⟨?_, fun he => ?_⟩, ?_⟩
  · rw [ha, ← hr, List.length_append]; have := h.le; omega
  · rw [hfin] at he
    rcases h.fin he with h1 | ⟨h1, h2⟩
    · exact .inl (hd h1)
    · obtain ⟨h3, h4⟩ := hend h1
      rcases h4 with h4 | h4
      · exact .inl (hd h4)
      · exact .inr ⟨h3, by rw [ha, h4]; exact h2⟩
  · simp only [Pipe.received]
    rw [ha, ← hr, List.take_append_of_le_length h.le]

theorem Pipe.Ok.write {p : Pipe} (h : p.Ok) (bs : Bytes) :
    (p.write bs).Ok ∧ (p.write bs).received = p.received := by
  unfold Pipe.write
  split
  · exact ⟨h, rfl⟩
  · rename_i hn
    exact h.writes (p' := { p with sent := p.sent ++ bs }) (List.prefix_append _ _) rfl id rfl
      (fun he => by simp [he] at hn)

theorem Pipe.Ok.finish {p : Pipe} (h : p.Ok) : p.finish.Ok ∧ p.finish.received = p.received := by
  unfold Pipe.finish
  split
  · exact ⟨h, rfl⟩
  · exact h.writes (p' := { p with ended := true }) List.prefix_rfl rfl id rfl (fun _ => ⟨rfl, .inr rfl⟩)

theorem Pipe.Ok.drop {p : Pipe} (h : p.Ok) : p.drop.Ok ∧ p.drop.received = p.received :=
  h.writes (p' := p.drop) List.prefix_rfl rfl (fun _ => rfl) rfl (fun he => ⟨he, .inr rfl⟩)

theorem Pipe.Ok.carry {p : Pipe} (h : p.Ok) (k : Nat) :
    (p.carry k).Ok ∧ (p.carry k).received = p.received ++ p.arrives k ∧
      (p.arrives k = [] ∨ p.endArrived = false) := by
  have hl : p.take k ≤ p.sent.length - p.arrived := by
    unfold Pipe.take; split <;> omega
  refine ⟨⟨?_, fun he => ?_⟩, ?_, ?_⟩
  · have := h.le
    simp only [Pipe.carry]; omega
  · have he' : p.endArrived = true := he
    have : p.take k = 0 := by simp [Pipe.take, he']
    rcases h.fin he' with h1 | ⟨h1, h2⟩
    · exact .inl h1
    · exact .inr ⟨h1, by simp only [Pipe.carry]; omega⟩
  · simp only [Pipe.received, Pipe.carry, Pipe.arrives]
    exact List.take_add
  · cases he : p.endArrived with
    | true => left; simp [Pipe.arrives, Pipe.take, he]
    | false => exact .inr rfl

theorem Pipe.Ok.carryEnd {p : Pipe} (h : p.Ok) :
    p.carryEnd.Ok ∧ p.carryEnd.received = p.received ∧ p.carryEnd.sent = p.sent ∧ p.carryEnd.ended = p.ended ∧
      (p.endArrived = true → p.carryEnd.endArrived = true) := by
  unfold Pipe.carryEnd
  split
  · rename_i hc
    refine ⟨⟨h.le, fun _ => ?_⟩, rfl, rfl, rfl, fun _ => rfl⟩
    simp only [Bool.or_eq_true, Bool.and_eq_true, beq_iff_eq] at hc
    exact hc
  · exact ⟨h, rfl, rfl, rfl, id⟩

/-! ## What a proxy looks at -/

structure Config.Ok (c : Config) : Prop where
  ascii : TransportHeader.Ascii c.utf8
  first : c.tag 0 = none
  valid : ∀ i h, c.tag i = some h → h.Valid ∧ h.port ≠ 0

/-- A proxy reads the header that was written to the connection, and no more. -/
theorem look_spec {c : Config} (hc : c.Ok) {i : Nat} {received sent : Bytes} (hr : received <+: sent)
    (hs : c.headerBytes i <+: sent) {reads : List Io.ReadAnswer} {first : HttpDetect.First} {h : Option Header}
    {rest : Bytes} (hl : look c i received reads first = some (h, rest)) :
    h = c.tag i ∧ received = c.headerBytes i ++ rest := by
  unfold look at hl
  cases ht : c.tag i with
  | none =>
    rw [ht] at hl
    have hb : c.headerBytes i = [] := by simp [Config.headerBytes, ht]
    rw [hb]
    dsimp only at hl
    split at hl
    · split at hl
      · cases hl
      · cases hl
      · rename_i p _ hcall
        cases hl
        exact ⟨rfl, by have := (HttpDetect.C41_no_byte_is_lost _ _ _ _ _ hcall).1; exact this.symm⟩
    · cases hl; exact ⟨rfl, rfl⟩
  | some t =>
    rw [ht] at hl
    dsimp only at hl
    obtain ⟨hv, hp⟩ := hc.valid i t ht
    split at hl
    · rename_i h' p hcall
      cases hl
      have hread : TransportHeader.readPrefaced c.utf8 ⟨received, []⟩ reads = .header h' p := by
        unfold TransportHeader.call at hcall
        split at hcall
        · rename_i e; cases hcall; exact e
        · cases hcall
      have hR : Reads c.utf8 received (.header h' p) := by
        rcases TransportHeader.C36_reads c.utf8 ⟨received, []⟩ reads with e | e | e
        · rw [hread] at e; cases e
        · rw [hread] at e; cases e
        · rw [hread] at e; exact e
      obtain ⟨more, hm⟩ := hr
      obtain ⟨pay, hpay⟩ := hs
      have hbytes : c.headerBytes i =
          preface ++ (be32 t.toProto.encode.length ++ t.toProto.encode) := by
        simp only [Config.headerBytes, ht, TransportHeader.encode_some t hv, Option.getD_some]
      have hml := TransportHeader.message_length t hv
      have target : Reads c.utf8 sent (.header t ⟨pay, ⟨[], []⟩⟩) :=
        .header t t.toProto.encode _ (by rw [← hpay, hbytes]; simp [Io.PrefixedIo.unread]) (by omega)
          (by rw [TransportHeader.decode_encode c.utf8 hc.ascii t hv, if_neg hp])
      have got : Reads c.utf8 sent (.header h' ⟨p.unread ++ more, ⟨[], []⟩⟩) := by
        cases hR with
        | header _ msg _ e1 e2 e3 =>
          exact .header h' msg _ (by rw [← hm, e1]; simp [Io.PrefixedIo.unread]) e2 e3
      obtain ⟨q, h1, h2⟩ := (TransportHeader.C36_independent_of_segmentation c.utf8 _ _ _ target got).1 t _ rfl
      cases h1
      refine ⟨rfl, ?_⟩
      have h2' : p.unread ++ more = pay := by simpa [Io.PrefixedIo.unread] using h2
      have : received ++ more = (c.headerBytes i ++ p.unread) ++ more := by
        rw [List.append_assoc, h2', hpay, hm]
      exact List.append_cancel_right this
    · cases hl

/-! ## One proxy -/

/-- What holds around proxy `i`: of what has arrived from either side, what it has written to either side, and what it
does. -/
structure Local (c : Config) (i : Nat) (inR : Bytes) (inE : Bool) (outR : Bytes) (outE : Bool)
    (upS : Bytes) (upE : Bool) (downS : Bytes) (downE : Bool) (o : Bool) (hop : Hop) : Prop where
  start : o = true → c.headerBytes (i + 1) <+: upS
  upP : upS.drop (c.headerBytes (i + 1)).length <+: inR.drop (c.headerBytes i).length
  upF : upE = true → inE = true ∧
    upS.drop (c.headerBytes (i + 1)).length = inR.drop (c.headerBytes i).length
  downP : downS <+: outR
  downF : downE = true → outE = true ∧ downS = outR
  opening : hop = .opening → upS = [] ∧ upE = false ∧ downS = [] ∧ downE = false ∧ o = false
  relaying : ∀ h x, hop = .relaying h x →
    h = c.tag i ∧ o = true ∧ (c.headerBytes i).length ≤ inR.length ∧
    Good (inR.drop (c.headerBytes i).length) outR (.pending, x) ∧
    upS = c.headerBytes (i + 1) ++ x.halfOut.w.io.written ∧ upE = x.halfOut.w.io.shutdownAsked ∧
    downS = x.halfIn.w.io.written ∧ downE = x.halfIn.w.io.shutdownAsked ∧
    (x.halfIn.r.io.eof = true → inE = true) ∧ (x.halfOut.r.io.eof = true → outE = true)

theorem Local.feedUp {c : Config} {i : Nat} {inR : Bytes} {inE : Bool} {outR : Bytes} {outE : Bool} {upS : Bytes}
    {upE : Bool} {downS : Bytes} {downE o : Bool} {hop : Hop}
    (h : Local c i inR inE outR outE upS upE downS downE o hop) (bs : Bytes) (hb : bs = [] ∨ inE = false) :
    Local c i (inR ++ bs) inE outR outE upS upE downS downE o (feedIn bs hop) := by
  refine ⟨h.start, h.upP.trans ?_, fun he => ?_, h.downP, h.downF, fun hh => h.opening ?_, fun hd x hh => ?_⟩
  · rw [List.drop_append]; exact List.prefix_append _ _
  · obtain ⟨h1, h2⟩ := h.upF he
    rcases hb with hb | hb
    · rw [hb, List.append_nil]; exact ⟨h1, h2⟩
    · rw [h1] at hb; cases hb
  · cases hop with
    | opening => rfl
    | relaying _ _ => cases hh
    | over => cases hh
  · cases hop with
    | opening => cases hh
    | over => cases hh
    | relaying hd' y =>
      obtain ⟨r1, r2, r3, r4, r5, r6, r7, r8, r9, r10⟩ := h.relaying _ _ rfl
      simp only [feedIn, Hop.relaying.injEq] at hh
      obtain ⟨rfl, rfl⟩ := hh
      refine ⟨r1, r2, by rw [List.length_append]; omega, ?_, r5, r6, r7, r8, r9, r10⟩
      rw [List.drop_append_of_le_length r3]
      refine ⟨r4.inv.feed bs ?_, r4.inv', r4.sane, r4.zero, fun hx => by cases hx⟩
      rcases hb with hb | hb
      · exact .inl hb
      · right
        cases he : y.halfIn.r.io.eof with
        | false => rfl
        | true => rw [r9 he] at hb; cases hb

theorem Local.feedDown {c : Config} {i : Nat} {inR : Bytes} {inE : Bool} {outR : Bytes} {outE : Bool} {upS : Bytes}
    {upE : Bool} {downS : Bytes} {downE o : Bool} {hop : Hop}
    (h : Local c i inR inE outR outE upS upE downS downE o hop) (bs : Bytes) (hb : bs = [] ∨ outE = false) :
    Local c i inR inE (outR ++ bs) outE upS upE downS downE o (feedOut bs hop) := by
  refine ⟨h.start, h.upP, h.upF, h.downP.trans (List.prefix_append _ _), fun he => ?_, fun hh => h.opening ?_,
    fun hd x hh => ?_⟩
  · obtain ⟨h1, h2⟩ := h.downF he
    rcases hb with hb | hb
    · rw [hb, List.append_nil]; exact ⟨h1, h2⟩
    · rw [h1] at hb; cases hb
  · cases hop with
    | opening => rfl
    | relaying _ _ => cases hh
    | over => cases hh
  · cases hop with
    | opening => cases hh
    | over => cases hh
    | relaying hd' y =>
      obtain ⟨r1, r2, r3, r4, r5, r6, r7, r8, r9, r10⟩ := h.relaying _ _ rfl
      simp only [feedOut, Hop.relaying.injEq] at hh
      obtain ⟨rfl, rfl⟩ := hh
      refine ⟨r1, r2, r3, ⟨r4.inv, r4.inv'.feed bs ?_, r4.sane, r4.zero, fun hx => by cases hx⟩, r5, r6, r7, r8, r9,
        r10⟩
      rcases hb with hb | hb
      · exact .inl hb
      · right
        cases he : y.halfOut.r.io.eof with
        | false => rfl
        | true => rw [r10 he] at hb; cases hb

theorem Local.ends {c : Config} {i : Nat} {inR : Bytes} {inE inE' : Bool} {outR : Bytes} {outE outE' : Bool} {upS : Bytes}
    {upE : Bool} {downS : Bytes} {downE o : Bool} {hop : Hop}
    (h : Local c i inR inE outR outE upS upE downS downE o hop) (h1 : inE = true → inE' = true)
    (h2 : outE = true → outE' = true) :
    Local c i inR inE' outR outE' upS upE downS downE o hop := by
  refine ⟨h.start, h.upP, fun he => ?_, h.downP, fun he => ?_, h.opening, fun hd x hh => ?_⟩
  · exact ⟨h1 (h.upF he).1, (h.upF he).2⟩
  · exact ⟨h2 (h.downF he).1, (h.downF he).2⟩
  · obtain ⟨r1, r2, r3, r4, r5, r6, r7, r8, r9, r10⟩ := h.relaying _ _ hh
    exact ⟨r1, r2, r3, r4, r5, r6, r7, r8, fun e => h1 (r9 e), fun e => h2 (r10 e)⟩

theorem Local.over {c : Config} {i : Nat} {inR : Bytes} {inE : Bool} {outR : Bytes} {outE : Bool} {upS : Bytes}
    {upE : Bool} {downS : Bytes} {downE o : Bool} {hop : Hop}
    (h : Local c i inR inE outR outE upS upE downS downE o hop) :
    Local c i inR inE outR outE upS upE downS downE o .over :=
  ⟨h.start, h.upP, h.upF, h.downP, h.downF, fun hh => (by cases hh), fun _ _ hh => (by cases hh)⟩

/-- A proxy that copies has written what its copy says. -/
theorem Local.copies {c : Config} {i : Nat} {inR : Bytes} {inE : Bool} {outR : Bytes} {outE : Bool} {x : Duplex}
    {res : Res} (hg : Good (inR.drop (c.headerBytes i).length) outR (res, x))
    (hl : (c.headerBytes i).length ≤ inR.length)
    (hi : x.halfIn.r.io.eof = true → inE = true) (ho : x.halfOut.r.io.eof = true → outE = true) :
    Local c i inR inE outR outE (c.headerBytes (i + 1) ++ x.halfOut.w.io.written) x.halfOut.w.io.shutdownAsked
      x.halfIn.w.io.written x.halfIn.w.io.shutdownAsked true .over ∧
    (res = .pending → Local c i inR inE outR outE (c.headerBytes (i + 1) ++ x.halfOut.w.io.written)
      x.halfOut.w.io.shutdownAsked x.halfIn.w.io.written x.halfIn.w.io.shutdownAsked true (.relaying (c.tag i) x)) := by
  have hp : x.halfOut.w.io.written <+: inR.drop (c.headerBytes i).length :=
    List.IsPrefix.trans ⟨_, hg.inv.bytes⟩ ⟨_, hg.inv.whole⟩
  have hp' : x.halfIn.w.io.written <+: outR := List.IsPrefix.trans ⟨_, hg.inv'.bytes⟩ ⟨_, hg.inv'.whole⟩
  have base : Local c i inR inE outR outE (c.headerBytes (i + 1) ++ x.halfOut.w.io.written)
      x.halfOut.w.io.shutdownAsked x.halfIn.w.io.written x.halfIn.w.io.shutdownAsked true .over := by
    refine ⟨fun _ => List.prefix_append _ _, ?_, fun he => ?_, hp', fun he => ?_, fun hh => (by cases hh),
      fun _ _ hh => (by cases hh)⟩
    · rw [List.drop_left]; exact hp
    · rw [List.drop_left]
      obtain ⟨h1, h2⟩ := hg.inv.all_written he
      exact ⟨hi h1, h2⟩
    · obtain ⟨h1, h2⟩ := hg.inv'.all_written he
      exact ⟨ho h1, h2⟩
  refine ⟨base, fun hres => ⟨base.start, base.upP, base.upF, base.downP, base.downF, fun hh => (by cases hh),
    fun h y hh => ?_⟩⟩
  cases hh
  subst hres
  exact ⟨rfl, rfl, hl, hg, rfl, rfl, rfl, rfl, hi, ho⟩

/-! ## The world -/

abbrev LocalAt (c : Config) (w : World) (i : Nat) : Prop :=
  Local c i (w.up i).received (w.up i).endArrived (w.down (i + 1)).received (w.down (i + 1)).endArrived
    (w.up (i + 1)).sent (w.up (i + 1)).ended (w.down i).sent (w.down i).ended (w.opened (i + 1)) (w.hop i)

structure WInv (c : Config) (w : World) : Prop where
  okUp : ∀ i, (w.up i).Ok
  okDown : ∀ i, (w.down i).Ok
  opened0 : w.opened 0 = true
  closed : ∀ i, w.opened i = false → (w.down i).sent = []
  used : ∀ i, w.hop i ≠ .opening → i < c.n ∧ w.opened i = true
  loc : ∀ i, i < c.n → LocalAt c w i

theorem upd_self {α : Type} (f : Nat → α) (i : Nat) (a : α) : upd f i a i = a := by simp [upd]

theorem upd_ne {α : Type} (f : Nat → α) {i j : Nat} (a : α) (h : j ≠ i) : upd f i a j = f j := by simp [upd, h]

theorem upd_all {α : Type} {P : α → Prop} {f : Nat → α} {i : Nat} {a : α} (h : ∀ j, P (f j)) (ha : P a) (j : Nat) :
    P (upd f i a j) := by
  unfold upd; split
  · exact ha
  · exact h j

theorem WInv.init (c : Config) : WInv c .init := by
  refine ⟨fun _ => Pipe.fresh_ok, fun _ => Pipe.fresh_ok, rfl, fun _ _ => rfl, fun i h => absurd rfl h, fun i hi => ?_⟩
  refine ⟨fun h => ?_, ?_, fun h => ?_, List.prefix_rfl, fun h => ?_, fun _ => ⟨rfl, rfl, rfl, rfl, ?_⟩, fun h x hx => ?_⟩
  · simp [World.init] at h
  · simp [World.init, Pipe.fresh]
  · cases h
  · cases h
  · simp [World.init]
  · cases hx

/-- The client's application writes, ends or drops. -/
theorem WInv.client {c : Config} {w : World} (h : WInv c w) {p : Pipe} (hp : p.Ok)
    (hr : p.received = (w.up 0).received) (he : p.endArrived = (w.up 0).endArrived) :
    WInv c { w with up := upd w.up 0 p } := by
  refine ⟨upd_all h.okUp hp, h.okDown, h.opened0, h.closed, h.used, fun i hi => ?_⟩
  have hl := h.loc i hi
  unfold LocalAt at hl ⊢
  dsimp only
  rw [upd_ne w.up p (show i + 1 ≠ 0 by omega)]
  by_cases h0 : i = 0
  · subst h0; rw [upd_self, hr, he]; exact hl
  · rw [upd_ne w.up p h0]; exact hl

/-- The server's application writes, ends or drops. -/
theorem WInv.server {c : Config} {w : World} (h : WInv c w) (ho : w.opened c.n = true) {p : Pipe} (hp : p.Ok)
    (hr : p.received = (w.down c.n).received) (he : p.endArrived = (w.down c.n).endArrived) :
    WInv c { w with down := upd w.down c.n p } := by
  refine ⟨h.okUp, upd_all h.okDown hp, h.opened0, fun i hi => ?_, h.used, fun i hi => ?_⟩
  · have hi : w.opened i = false := hi
    have : i ≠ c.n := by rintro rfl; rw [ho] at hi; cases hi
    dsimp only
    rw [upd_ne w.down p this]; exact h.closed i hi
  · have hl := h.loc i hi
    unfold LocalAt at hl ⊢
    dsimp only
    rw [upd_ne w.down p (show i ≠ c.n by omega)]
    by_cases h0 : i + 1 = c.n
    · rw [h0, upd_self, hr, he, ← h0]; exact hl
    · rw [upd_ne w.down p h0]; exact hl

theorem feedIn_opening {bs : Bytes} {s : Hop} (h : feedIn bs s ≠ .opening) : s ≠ .opening := by
  rintro rfl; exact h rfl

theorem feedOut_opening {bs : Bytes} {s : Hop} (h : feedOut bs s ≠ .opening) : s ≠ .opening := by
  rintro rfl; exact h rfl

theorem upd_opening {c : Config} {w : World} (h : WInv c w) {i : Nat} {s : Hop} (hs : s ≠ .opening → w.hop i ≠ .opening)
    {j : Nat} (hj : upd w.hop i s j ≠ .opening) : j < c.n ∧ w.opened j = true := by
  unfold upd at hj
  split at hj
  · rename_i e; subst e; exact h.used j (hs hj)
  · exact h.used j hj

theorem WInv.carryUp {c : Config} {w : World} (h : WInv c w) (i k : Nat) : WInv c (w.step c (.carryUp i k)) := by
  obtain ⟨h1, h2, h3⟩ := (h.okUp i).carry k
  refine ⟨upd_all h.okUp h1, h.okDown, h.opened0, h.closed, fun j hj => upd_opening h feedIn_opening hj, fun j hj => ?_⟩
  have hl := h.loc j hj
  unfold LocalAt at hl ⊢
  simp only [World.step]
  have hw : (upd w.up i ((w.up i).carry k) (j + 1)).sent = (w.up (j + 1)).sent ∧
      (upd w.up i ((w.up i).carry k) (j + 1)).ended = (w.up (j + 1)).ended := by
    unfold upd; split
    · rename_i e; rw [e]; exact ⟨rfl, rfl⟩
    · exact ⟨rfl, rfl⟩
  rw [hw.1, hw.2]
  by_cases e : j = i
  · subst e
    rw [upd_self, upd_self, h2]
    exact hl.feedUp _ h3
  · rw [upd_ne _ _ e, upd_ne _ _ e]; exact hl

theorem WInv.carryDown {c : Config} {w : World} (h : WInv c w) (i k : Nat) : WInv c (w.step c (.carryDown i k)) := by
  obtain ⟨h1, h2, h3⟩ := (h.okDown i).carry k
  have hhop : ∀ j, (w.step c (.carryDown i k)).hop j =
      if j + 1 = i then feedOut ((w.down i).arrives k) (w.hop j) else w.hop j := by
    intro j
    simp only [World.step]
    by_cases h0 : i = 0
    · rw [if_pos h0, if_neg (by omega)]
    · rw [if_neg h0]
      unfold upd
      by_cases e : j + 1 = i
      · have e' : j = i - 1 := by omega
        rw [if_pos e, if_pos e', ← e']
      · rw [if_neg e, if_neg (show j ≠ i - 1 by omega)]
  refine ⟨h.okUp, upd_all h.okDown h1, h.opened0, fun j hj => ?_, fun j hj => ?_, fun j hj => ?_⟩
  · simp only [World.step]
    unfold upd; split
    · rename_i e; subst e; exact h.closed j hj
    · exact h.closed j hj
  · rw [hhop] at hj
    refine h.used j ?_
    split at hj
    · exact feedOut_opening hj
    · exact hj
  have hl := h.loc j hj
  unfold LocalAt at hl ⊢
  rw [hhop]
  simp only [World.step]
  have hw : (upd w.down i ((w.down i).carry k) j).sent = (w.down j).sent ∧
      (upd w.down i ((w.down i).carry k) j).ended = (w.down j).ended := by
    unfold upd; split
    · rename_i e; rw [e]; exact ⟨rfl, rfl⟩
    · exact ⟨rfl, rfl⟩
  rw [hw.1, hw.2]
  by_cases e : j + 1 = i
  · rw [if_pos e, ← e, upd_self]
    rw [← e] at h2 h3
    rw [h2]
    exact hl.feedDown _ h3
  · rw [if_neg e, upd_ne _ _ e]; exact hl

theorem WInv.carryUpEnd {c : Config} {w : World} (h : WInv c w) (i : Nat) : WInv c (w.step c (.carryUpEnd i)) := by
  obtain ⟨h1, h2, h3, h4, h5⟩ := (h.okUp i).carryEnd
  refine ⟨upd_all h.okUp h1, h.okDown, h.opened0, h.closed, h.used, fun j hj => ?_⟩
  have hl := h.loc j hj
  unfold LocalAt at hl ⊢
  simp only [World.step]
  have hw : (upd w.up i (w.up i).carryEnd (j + 1)).sent = (w.up (j + 1)).sent ∧
      (upd w.up i (w.up i).carryEnd (j + 1)).ended = (w.up (j + 1)).ended := by
    unfold upd; split
    · rename_i e; rw [e]; exact ⟨h3, h4⟩
    · exact ⟨rfl, rfl⟩
  rw [hw.1, hw.2]
  by_cases e : j = i
  · subst e
    rw [upd_self, h2]
    exact hl.ends h5 id
  · rw [upd_ne _ _ e]; exact hl

theorem WInv.carryDownEnd {c : Config} {w : World} (h : WInv c w) (i : Nat) : WInv c (w.step c (.carryDownEnd i)) := by
  obtain ⟨h1, h2, h3, h4, h5⟩ := (h.okDown i).carryEnd
  refine ⟨h.okUp, upd_all h.okDown h1, h.opened0, fun j hj => ?_, h.used, fun j hj => ?_⟩
  · simp only [World.step]
    unfold upd; split
    · rename_i e; subst e; rw [h3]; exact h.closed j hj
    · exact h.closed j hj
  have hl := h.loc j hj
  unfold LocalAt at hl ⊢
  simp only [World.step]
  have hw : (upd w.down i (w.down i).carryEnd j).sent = (w.down j).sent ∧
      (upd w.down i (w.down i).carryEnd j).ended = (w.down j).ended := by
    unfold upd; split
    · rename_i e; rw [e]; exact ⟨h3, h4⟩
    · exact ⟨rfl, rfl⟩
  rw [hw.1, hw.2]
  by_cases e : j + 1 = i
  · rw [← e, upd_self]
    rw [← e] at h2 h5
    rw [h2]
    exact hl.ends id h5
  · rw [upd_ne _ _ e]; exact hl

/-- Proxy `i` writes to its two connections and changes what it does. -/
theorem WInv.acts {c : Config} {w : World} (h : WInv c w) {i : Nat} (hi : i < c.n) (ho : w.opened i = true)
    {u d : Pipe} {s : Hop} {o : Bool} (hu : u.Ok) (hur : u.received = (w.up (i + 1)).received)
    (hue : u.endArrived = (w.up (i + 1)).endArrived) (hd : d.Ok) (hdr : d.received = (w.down i).received)
    (hde : d.endArrived = (w.down i).endArrived) (hop : w.opened (i + 1) = true → o = true)
    (hl : Local c i (w.up i).received (w.up i).endArrived (w.down (i + 1)).received (w.down (i + 1)).endArrived
      u.sent u.ended d.sent d.ended o s) :
    WInv c { w with up := upd w.up (i + 1) u, down := upd w.down i d, opened := upd w.opened (i + 1) o,
                    hop := upd w.hop i s } := by
  refine ⟨upd_all h.okUp hu, upd_all h.okDown hd, ?_, fun j hj => ?_, fun j hj => ?_, fun j hj => ?_⟩
  · dsimp only; rw [upd_ne _ _ (by omega)]; exact h.opened0
  · replace hj : upd w.opened (i + 1) o j = false := hj
    have hj' : w.opened j = false := by
      by_cases e : j = i + 1
      · rw [e, upd_self] at hj
        cases hw : w.opened j with
        | false => rfl
        | true => rw [e] at hw; rw [hop hw] at hj; cases hj
      · rw [upd_ne _ _ e] at hj; exact hj
    have : j ≠ i := by rintro rfl; rw [ho] at hj'; cases hj'
    dsimp only
    rw [upd_ne _ _ this]; exact h.closed j hj'
  · have hj : upd w.hop i s j ≠ .opening := hj
    have : j < c.n ∧ w.opened j = true := by
      by_cases e : j = i
      · subst e; exact ⟨hi, ho⟩
      · rw [upd_ne _ _ e] at hj; exact h.used j hj
    refine ⟨this.1, ?_⟩
    dsimp only
    unfold upd; split
    · rename_i e; rw [e] at this; exact hop this.2
    · exact this.2
  · have hlj := h.loc j hj
    unfold LocalAt at hlj ⊢
    dsimp only
    by_cases e : j = i
    · subst e
      rw [upd_self, upd_self, upd_self, upd_self, upd_ne _ _ (show j ≠ j + 1 by omega),
        upd_ne _ _ (show j + 1 ≠ j by omega)]
      exact hl
    · rw [upd_ne w.hop s e, upd_ne w.down d e, upd_ne w.up u (show j + 1 ≠ i + 1 by omega),
        upd_ne w.opened o (show j + 1 ≠ i + 1 by omega)]
      have e1 : (upd w.up (i + 1) u j).received = (w.up j).received ∧
          (upd w.up (i + 1) u j).endArrived = (w.up j).endArrived := by
        unfold upd; split
        · rename_i e; rw [e]; exact ⟨hur, hue⟩
        · exact ⟨rfl, rfl⟩
      have e2 : (upd w.down i d (j + 1)).received = (w.down (j + 1)).received ∧
          (upd w.down i d (j + 1)).endArrived = (w.down (j + 1)).endArrived := by
        unfold upd; split
        · rename_i e; rw [e]; exact ⟨hdr, hde⟩
        · exact ⟨rfl, rfl⟩
      rw [e1.1, e1.2, e2.1, e2.2]
      exact hlj

theorem upd_id {α : Type} (f : Nat → α) (i : Nat) : upd f i (f i) = f := by
  funext j; unfold upd; split
  · rename_i e; rw [e]
  · rfl

theorem upd_twice {α : Type} (f : Nat → α) (i : Nat) (a b : α) : upd (upd f i a) i b = upd f i b := by
  funext j; unfold upd; split <;> simp_all

theorem WInv.drops {c : Config} {w : World} (h : WInv c w) {i : Nat} (hi : i < c.n) (ho : w.opened i = true) :
    WInv c (w.dropped i) := by
  have hu := (h.okUp (i + 1)).drop
  have hd := (h.okDown i).drop
  have := h.acts (s := .over) (o := w.opened (i + 1)) hi ho hu.1 hu.2 rfl hd.1 hd.2 rfl id (h.loc i hi).over
  rw [upd_id] at this
  exact this

/-- A proxy in which a connection was opened has its header on the way. -/
theorem WInv.started {c : Config} (hc : c.Ok) {w : World} (h : WInv c w) {i : Nat} (hi : i ≤ c.n)
    (ho : w.opened i = true) : c.headerBytes i <+: (w.up i).sent := by
  cases i with
  | zero => simp [Config.headerBytes, hc.first]
  | succ i => exact (h.loc i (by omega)).start ho

theorem WInv.opens {c : Config} (hc : c.Ok) {w : World} (h : WInv c w) (i : Nat) (reads : List Io.ReadAnswer)
    (first : HttpDetect.First) : WInv c (w.step c (.open i reads first)) := by
  simp only [World.step]
  split
  · rename_i hcond
    simp only [Bool.and_eq_true, decide_eq_true_eq, beq_iff_eq] at hcond
    obtain ⟨⟨hi, ho⟩, hh⟩ := hcond
    split
    · exact h
    · rename_i hd rest hlook
      obtain ⟨hd1, hr⟩ := look_spec hc (w.up i).received_prefix (h.started hc (by omega) ho) hlook
      obtain ⟨o1, o2, o3, o4, o5⟩ := (h.loc i hi).opening hh
      have hdown : (w.down (i + 1)).received = [] := by
        have := h.closed (i + 1) o5
        simp [Pipe.received, this]
      have hu := (h.okUp (i + 1)).writes (p' := { w.up (i + 1) with sent := c.headerBytes (i + 1) })
        (by rw [o1]; exact List.nil_prefix) rfl id rfl (fun he => by rw [o2] at he; cases he)
      have hdrop : (w.up i).received.drop (c.headerBytes i).length = rest := by rw [hr, List.drop_left]
      have hg := Duplex.new_good rest []
      rw [← hdrop, ← hdown] at hg
      have hl := (Local.copies (c := c) (inE := (w.up i).endArrived) (outE := (w.down (i + 1)).endArrived) hg
        (by rw [hr, List.length_append]; omega)
        (by simp [Duplex.Duplex.new, Duplex.HalfDuplex.new])
        (by simp [Duplex.Duplex.new, Duplex.HalfDuplex.new])).2 rfl
      rw [hdown, hdrop, ← hd1] at hl
      have hd0 : ({ w.down i with sent := [], ended := false } : Pipe) = w.down i := by
        rw [← o3, ← o4]
      have := h.acts (s := .relaying hd (Duplex.new rest [])) (o := true) (d := w.down i) hi ho hu.1 hu.2 rfl (h.okDown i)
        rfl rfl (fun _ => rfl) (by
          rw [hdown, o2, o3, o4]
          simpa [Duplex.Duplex.new, Duplex.HalfDuplex.new] using hl)
      rw [upd_id] at this
      exact this
  · exact h

theorem WInv.polls {c : Config} {w : World} (h : WInv c w) (i : Nat) (as : List Answer) :
    WInv c (w.step c (.poll i as)) := by
  simp only [World.step]
  split
  · rename_i hd x hh
    obtain ⟨hi, ho⟩ := h.used i (by rw [hh]; intro e; cases e)
    obtain ⟨r1, r2, r3, r4, r5, r6, r7, r8, r9, r10⟩ := (h.loc i hi).relaying _ _ hh
    have hg := Duplex.poll_good _ _ x as r4
    obtain ⟨g1, g2⟩ := Duplex.poll_grows x as
    have a1 := r4.inv.all_written
    have a2 := r4.inv'.all_written
    rcases hp : x.poll as with ⟨res, y⟩
    rw [hp] at hg g1 g2
    dsimp only at hg g1 g2 ⊢
    split
    · rename_i hal
      simp only [allowed, Bool.and_eq_true, Bool.or_eq_true, Bool.not_eq_true'] at hal
      have hl := Local.copies hg r3 (inE := (w.up i).endArrived) (outE := (w.down (i + 1)).endArrived)
        (fun e => by rcases hal.1 with f | f; · rw [e] at f; cases f
                     · exact f)
        (fun e => by rcases hal.2 with f | f; · rw [e] at f; cases f
                     · exact f)
      have hu := (h.okUp (i + 1)).writes (p' := { w.up (i + 1) with
          sent := c.headerBytes (i + 1) ++ y.halfOut.w.io.written, ended := y.halfOut.w.io.shutdownAsked })
        (by rw [r5]; exact (List.prefix_append_right_inj _).2 g1.1) rfl id rfl (fun he => by
          rw [r6] at he
          refine ⟨g1.2 he, .inr ?_⟩
          rw [r5]
          dsimp only
          rw [(a1 he).2, (hg.inv.all_written (g1.2 he)).2])
      have hdn := (h.okDown i).writes (p' := { w.down i with
          sent := y.halfIn.w.io.written, ended := y.halfIn.w.io.shutdownAsked })
        (by rw [r7]; exact g2.1) rfl id rfl (fun he => by
          rw [r8] at he
          refine ⟨g2.2 he, .inr ?_⟩
          rw [r7]
          dsimp only
          rw [(a2 he).2, (hg.inv'.all_written (g2.2 he)).2])
      have done := h.acts (s := .over) (o := true) hi ho hu.1 hu.2 rfl hdn.1 hdn.2 rfl (fun _ => rfl) hl.1
      have hopen : upd w.opened (i + 1) true = w.opened := by
        have e := upd_id w.opened (i + 1)
        rw [show w.opened (i + 1) = true from r2] at e
        exact e
      rw [hopen] at done
      cases res with
      | pending =>
        have := h.acts (s := .relaying hd y) (o := true) hi ho hu.1 hu.2 rfl hdn.1 hdn.2 rfl (fun _ => rfl)
          (by rw [r1]; exact hl.2 rfl)
        rw [hopen] at this
        exact this
      | ready => exact done
      | failed =>
        have := done.drops hi ho
        simp only [World.dropped] at this
        rw [upd_twice w.hop] at this
        exact this
      | panic => exact absurd rfl hg.sane
    · exact h
  · exact h

theorem WInv.step {c : Config} (hc : c.Ok) {w : World} (h : WInv c w) (op : Op) : WInv c (w.step c op) := by
  cases op with
  | clientWrites bs => exact h.client ((h.okUp 0).write bs).1 ((h.okUp 0).write bs).2 (by unfold Pipe.write; split <;> rfl)
  | clientEnds => exact h.client (h.okUp 0).finish.1 (h.okUp 0).finish.2 (by unfold Pipe.finish; split <;> rfl)
  | clientDrops => exact h.client (h.okUp 0).drop.1 (h.okUp 0).drop.2 rfl
  | serverWrites bs =>
    simp only [World.step]; split
    · rename_i ho
      exact h.server ho ((h.okDown _).write bs).1 ((h.okDown _).write bs).2 (by unfold Pipe.write; split <;> rfl)
    · exact h
  | serverEnds =>
    simp only [World.step]; split
    · rename_i ho
      exact h.server ho (h.okDown _).finish.1 (h.okDown _).finish.2 (by unfold Pipe.finish; split <;> rfl)
    · exact h
  | serverDrops =>
    simp only [World.step]; split
    · rename_i ho
      exact h.server ho (h.okDown _).drop.1 (h.okDown _).drop.2 rfl
    · exact h
  | carryUp i k => exact h.carryUp i k
  | carryDown i k => exact h.carryDown i k
  | carryUpEnd i => exact h.carryUpEnd i
  | carryDownEnd i => exact h.carryDownEnd i
  | «open» i reads first => exact h.opens hc i reads first
  | poll i as => exact h.polls i as
  | giveUp i =>
    simp only [World.step]; split
    · rename_i hcond
      simp only [Bool.and_eq_true, decide_eq_true_eq] at hcond
      exact h.drops hcond.1.1 hcond.1.2
    · exact h

theorem WInv.run {c : Config} (hc : c.Ok) (ops : List Op) : WInv c (World.run c ops) := by
  induction ops using Verif.snoc_induction with
  | nil => exact .init c
  | snoc ops op ih =>
    rw [World.run, List.foldl_append]
    exact ih.step hc op

end Verif.Passage
