import Verif.Io.PrefixedProps
import Verif.Tls.ClientHelloProps
import Verif.Tls.Detect

/-!
# C38: TLS is terminated for the proxy's own name only, and no byte is lost

# C63: a target that asks for TLS is never connected to in the clear
-/

namespace Verif.Tls

open Verif.Io
open Verif.Dns (Str)

/-- The server name in everything the client sends before it ends its stream. -/
def sentName (all : Bytes) : Option Str := (parseSni all).join

theorem bufferSni_spec (buf : Bytes) (io : Inner) (reads : List ReadAnswer) (sni : Option Str) (p : PrefixedIo)
    (hbuf : parseSni buf = none) (h : bufferSni buf io reads = .done sni p) :
    p.pre ++ p.io.unread = buf ++ io.unread ∧ p.io.written = io.written ∧ sni = sentName (buf ++ io.unread) ∧
      (parseSni (buf ++ io.unread) = none → p.io.unread = []) := by
  induction reads generalizing buf io with
  | nil => simp [bufferSni] at h
  | cons r reads ih =>
    cases r with
    | failed => simp [bufferSni] at h
    | upTo k =>
      have e := List.take_append_drop (max k 1) io.unread
      by_cases hz : (io.unread.take (max k 1)).length = 0
      · simp only [bufferSni, hz, if_true, Detected.done.injEq] at h
        obtain ⟨rfl, rfl⟩ := h
        have hu : io.unread = [] := by
          rw [List.length_take] at hz
          exact List.length_eq_zero_iff.1 (by omega)
        simp [hu, sentName, hbuf]
      · simp only [bufferSni, hz, if_false] at h
        cases hp : parseSni (buf ++ io.unread.take (max k 1)) with
        | some v =>
          simp only [hp, Detected.done.injEq] at h
          obtain ⟨rfl, rfl⟩ := h
          have hf := C37_verdict_is_final _ (io.unread.drop (max k 1)) v hp
          rw [List.append_assoc, e] at hf
          refine ⟨by dsimp only; rw [List.append_assoc, e], rfl, ?_, ?_⟩
          · simp [sentName, hf]
          · simp [hf]
        | none =>
          simp only [hp] at h
          have := ih _ _ hp h
          dsimp only at this
          rwa [List.append_assoc, e] at this

theorem parse_nil : parseSni [] = none := rfl

theorem detectSni_spec (peeked : Nat) (io : Inner) (reads : List ReadAnswer) (sni : Option Str) (p : PrefixedIo)
    (h : detectSni peeked io reads = .done sni p) :
    p.unread = io.unread ∧ p.io.written = io.written ∧ sni = sentName io.unread ∧
      (parseSni io.unread = none → p.io.unread = []) := by
  have main : bufferSni [] io reads = .done sni p → _ := bufferSni_spec [] io reads sni p parse_nil
  simp only [List.nil_append] at main
  simp only [detectSni] at h
  split at h
  · rename_i hpos
    cases hp : parseSni (io.unread.take peeked) with
    | some v =>
      simp only [hp, Detected.done.injEq] at h
      obtain ⟨rfl, rfl⟩ := h
      have hf := C37_verdict_is_final _ (io.unread.drop peeked) v hp
      rw [List.take_append_drop] at hf
      exact ⟨rfl, rfl, by simp [sentName, hf], by simp [hf]⟩
    | none =>
      simp only [hp] at h
      exact main h
  · exact main h

/-- Whatever the connection is passed on as, the stream passed on delivers exactly what the client sent, and nothing
was written to the client. -/
theorem C38_no_byte_is_lost (localName : Str) (peeked : Nat) (io : Inner) (reads : List ReadAnswer) (peer : Peer)
    (p : PrefixedIo) (h : call localName peeked io reads = .accepted peer p) :
    p.unread = io.unread ∧ p.io.written = io.written := by
  unfold call at h
  cases hd : detectSni peeked io reads with
  | timeout => simp [hd] at h
  | ioError => simp [hd] at h
  | done sni q =>
    have := detectSni_spec _ _ _ _ _ hd
    rw [hd] at h
    cases sni with
    | none => simp only [Called.accepted.injEq] at h; rw [← h.2]; exact ⟨this.1, this.2.1⟩
    | some s =>
      dsimp only at h
      split at h <;> (simp only [Called.accepted.injEq] at h; rw [← h.2]; exact ⟨this.1, this.2.1⟩)

/-- What the connection is passed on as depends on what the client sends and on nothing else: not on how the bytes
arrive, and not on what `peek` shows. TLS is terminated exactly for the proxy's own name. -/
theorem C38_decision (localName : Str) (peeked : Nat) (io : Inner) (reads : List ReadAnswer) (peer : Peer)
    (p : PrefixedIo) (h : call localName peeked io reads = .accepted peer p) :
    (peer = .terminated ↔ sentName io.unread = some localName) ∧
      (∀ s, peer = .passthru s ↔ sentName io.unread = some s ∧ s ≠ localName) ∧
      (peer = .noClientHello ↔ sentName io.unread = none) := by
  unfold call at h
  cases hd : detectSni peeked io reads with
  | timeout => simp [hd] at h
  | ioError => simp [hd] at h
  | done sni q =>
    have := (detectSni_spec _ _ _ _ _ hd).2.2.1
    rw [hd] at h
    rw [← this]
    cases sni with
    | none => simp only [Called.accepted.injEq] at h; simp [← h.1]
    | some s =>
      dsimp only at h
      split at h
      · rename_i he
        simp only [Called.accepted.injEq] at h
        subst he
        simp only [← h.1]
        simp +contextual [eq_comm]
      · rename_i he
        simp only [Called.accepted.injEq] at h
        simp only [← h.1]
        refine ⟨by simpa using he, fun x => ?_, by simp⟩
        simp only [Peer.passthru.injEq, Option.some.injEq]
        constructor
        · rintro rfl; exact ⟨rfl, he⟩
        · exact fun h => h.1

/-- The proxy's name in a well-formed ClientHello: TLS is terminated. Another: it is not. -/
theorem C38_client_hello (localName : Str) (peeked : Nat) (io : Inner) (reads : List ReadAnswer) (peer : Peer)
    (p : PrefixedIo) (hello : Hello) (hw : hello.WellFormed) (t : Bytes) (hio : io.unread = hello.record ++ t)
    (h : call localName peeked io reads = .accepted peer p) :
    peer = .terminated ↔ Dns.Name.tryFrom (textOf hello.name) = some localName := by
  rw [(C38_decision _ _ _ _ _ _ h).1, hio, sentName, C37_name_is_found hello hw t]
  rfl

/-- A stream that does not begin like a TLS handshake record is passed on as such. -/
theorem C38_not_tls (localName : Str) (peeked : Nat) (io : Inner) (reads : List ReadAnswer) (peer : Peer)
    (p : PrefixedIo) (b : Byte) (t : Bytes) (hb : b ≠ 22) (hio : io.unread = b :: t)
    (h : call localName peeked io reads = .accepted peer p) : peer = .noClientHello := by
  rw [(C38_decision _ _ _ _ _ _ h).2.2, hio, sentName, C37_not_tls b t hb]
  rfl

theorem bufferSni_done (buf : Bytes) (io : Inner) (reads : List ReadAnswer) (hok : ∀ r ∈ reads, r ≠ .failed)
    (hlen : io.unread.length < reads.length) : ∃ sni p, bufferSni buf io reads = .done sni p := by
  induction reads generalizing buf io with
  | nil => simp at hlen
  | cons r reads ih =>
    cases r with
    | failed => exact absurd rfl (hok _ (by simp))
    | upTo k =>
      by_cases hz : (io.unread.take (max k 1)).length = 0
      · exact ⟨none, _, by simp only [bufferSni, hz, if_true]; rfl⟩
      · simp only [bufferSni, hz, if_false]
        cases hp : parseSni (buf ++ io.unread.take (max k 1)) with
        | some v => exact ⟨v, _, rfl⟩
        | none =>
          refine ih _ _ (fun r hr => hok r (by simp [hr])) ?_
          rw [List.length_take] at hz
          rw [List.length_drop]
          simp only [List.length_cons] at hlen
          omega

/-- The connection is passed on if no read fails and the client's stream is read to its end in time. -/
theorem C38_accepts (localName : Str) (peeked : Nat) (io : Inner) (reads : List ReadAnswer)
    (hok : ∀ r ∈ reads, r ≠ .failed) (hlen : io.unread.length < reads.length) :
    ∃ peer p, call localName peeked io reads = .accepted peer p := by
  have : ∃ sni p, detectSni peeked io reads = .done sni p := by
    simp only [detectSni]
    split
    · split
      · exact ⟨_, _, rfl⟩
      · exact bufferSni_done [] io reads hok hlen
    · exact bufferSni_done [] io reads hok hlen
  obtain ⟨sni, p, h⟩ := this
  unfold call
  rw [h]
  cases sni with
  | none => exact ⟨_, _, rfl⟩
  | some s =>
    dsimp only
    split <;> exact ⟨_, _, rfl⟩

/-- What is buffered is not bounded: after a handshake record that is not a ClientHello, everything the client sends is
put in the buffer until the client ends its stream or the timeout passes. -/
theorem C38_buffers_without_bound (localName : Str) (peeked : Nat) (io : Inner) (reads : List ReadAnswer) (peer : Peer)
    (p : PrefixedIo) (minor type x : Byte) (b t : Bytes) (hm : minor = 1 ∨ minor = 3) (htype : type ≠ 1)
    (hb : (type :: x :: b).length ≤ 8192) (hio : io.unread = [22, 3, minor] ++ vec16 (type :: x :: b) ++ t)
    (h : call localName peeked io reads = .accepted peer p) : p.pre = io.unread := by
  have hn : parseSni io.unread = none := by
    rw [hio]; exact C37_other_handshakes_wait_forever minor type x b t hm htype hb
  unfold call at h
  cases hd : detectSni peeked io reads with
  | timeout => simp [hd] at h
  | ioError => simp [hd] at h
  | done sni q =>
    obtain ⟨h1, -, -, h2⟩ := detectSni_spec _ _ _ _ _ hd
    have hq : q.pre = io.unread := by rw [PrefixedIo.unread, h2 hn, List.append_nil] at h1; exact h1
    rw [hd] at h
    cases sni with
    | none => simp only [Called.accepted.injEq] at h; rw [← h.2]; exact hq
    | some s =>
      dsimp only at h
      split at h <;> (simp only [Called.accepted.injEq] at h; rw [← h.2]; exact hq)

/-- Where a server name is required, the connection is passed on under the name the client sent, with all its bytes,
and refused if there is none. -/
theorem C38_required_sni (peeked : Nat) (io : Inner) (reads : List ReadAnswer) :
    (∀ s p, callRequired peeked io reads = .accepted s p →
      sentName io.unread = some s ∧ p.unread = io.unread ∧ p.io.written = io.written) ∧
      (callRequired peeked io reads = .noSniFound → sentName io.unread = none) ∧
      ((∀ r ∈ reads, r ≠ .failed) → io.unread.length < reads.length → sentName io.unread = none →
        callRequired peeked io reads = .noSniFound) := by
  unfold callRequired
  cases hd : detectSni peeked io reads with
  | timeout =>
    refine ⟨by simp, by simp, fun hok hlen _ => ?_⟩
    obtain ⟨a, b, h⟩ := C38_accepts [] peeked io reads hok hlen
    simp [call, hd] at h
  | ioError =>
    refine ⟨by simp, by simp, fun hok hlen _ => ?_⟩
    obtain ⟨a, b, h⟩ := C38_accepts [] peeked io reads hok hlen
    simp [call, hd] at h
  | done sni q =>
    obtain ⟨h1, h2, h3, -⟩ := detectSni_spec _ _ _ _ _ hd
    cases sni with
    | none => simp [← h3]
    | some s =>
      refine ⟨fun s' p h => ?_, by simp, fun _ _ h => by rw [h] at h3; cases h3⟩
      simp only [CalledSni.accepted.injEq] at h
      rw [← h.1, ← h.2]
      exact ⟨h3.symm, h1, h2⟩

/-! ## The client's side -/

/-- The polls of a connection to a target, with the answers they get, until the future is done. -/
def Connect.polls (c : Connect) : List (PollAnswer × (Nat → PollAnswer)) → ConnectOut × Connect
  | [] => (.pending, c)
  | (a, hs) :: rest =>
    match c.poll a hs with
    | (.pending, c) => c.polls rest
    | done => done

theorem polls_handshake (io : Nat) (as : List (PollAnswer × (Nat → PollAnswer))) (s : Nat) (hs md : Bool)
    (h : ((Connect.handshake (some io)).polls as).1 = .connected s hs md) :
    hs = true ∧ md = true ∧ ∃ a ∈ as, a.2 io = .ready s := by
  induction as with
  | nil => simp [Connect.polls] at h
  | cons a as ih =>
    obtain ⟨a, f⟩ := a
    simp only [Connect.polls, Connect.poll] at h
    cases hf : f io with
    | pending =>
      simp only [hf] at h
      obtain ⟨h1, h2, x, hx, h3⟩ := ih h
      exact ⟨h1, h2, x, by simp [hx], h3⟩
    | failed => simp [hf] at h
    | ready t =>
      simp only [hf, ConnectOut.connected.injEq] at h
      exact ⟨h.2.1.symm, h.2.2.symm, (a, f), by simp, by rw [← h.1]; exact hf⟩

/-- A connection to a target that asks for TLS is only ever used through a handshake over a connection made to it, and
is reported as TLS; to a target that does not, it is the plain connection and is not reported as TLS. -/
theorem C63_tls_as_asked (tls : Bool) (as : List (PollAnswer × (Nat → PollAnswer))) (s : Nat) (hs md : Bool)
    (h : ((Connect.new tls).polls as).1 = .connected s hs md) :
    hs = tls ∧ md = tls ∧
      ∃ io, (∃ a ∈ as, a.1 = .ready io) ∧ (tls = false → s = io) ∧
        (tls = true → ∃ a ∈ as, a.2 io = .ready s) := by
  induction as with
  | nil => simp [Connect.polls] at h
  | cons a as ih =>
    obtain ⟨a, f⟩ := a
    cases a with
    | pending =>
      simp only [Connect.polls, Connect.poll, Connect.new] at h
      obtain ⟨h1, h2, io, ⟨x, hx, hx'⟩, h3, h4⟩ := ih h
      refine ⟨h1, h2, io, ⟨x, by simp [hx], hx'⟩, h3, fun ht => ?_⟩
      obtain ⟨y, hy, hy'⟩ := h4 ht
      exact ⟨y, by simp [hy], hy'⟩
    | failed => simp [Connect.polls, Connect.poll, Connect.new] at h
    | ready io =>
      cases tls with
      | false =>
        simp only [Connect.polls, Connect.poll, Connect.new, ConnectOut.connected.injEq] at h
        exact ⟨h.2.1.symm, h.2.2.symm, io, ⟨(.ready io, f), by simp, rfl⟩, fun _ => h.1.symm, by simp⟩
      | true =>
        simp only [Connect.polls, Connect.poll, Connect.new] at h
        cases hf : f io with
        | pending =>
          simp only [hf] at h
          obtain ⟨h1, h2, x, hx, h3⟩ := polls_handshake io as s hs md h
          exact ⟨h1, h2, io, ⟨(.ready io, f), by simp, rfl⟩, by simp, fun _ => ⟨x, by simp [hx], h3⟩⟩
        | failed => simp [hf] at h
        | ready t =>
          simp only [hf, ConnectOut.connected.injEq] at h
          exact ⟨h.2.1.symm, h.2.2.symm, io, ⟨(.ready io, f), by simp, rfl⟩, by simp,
            fun _ => ⟨(.ready io, f), by simp, by rw [← h.1]; exact hf⟩⟩

/-- A failed connection or handshake is an error and never a connection, and polling until the future is done does not
panic. -/
theorem C63_never_panics (tls : Bool) (as : List (PollAnswer × (Nat → PollAnswer))) :
    ((Connect.new tls).polls as).1 ≠ .panic := by
  have hh : ∀ io as, ((Connect.handshake (some io)).polls as).1 ≠ .panic := by
    intro io as
    induction as with
    | nil => simp [Connect.polls]
    | cons a as ih =>
      obtain ⟨a, f⟩ := a
      simp only [Connect.polls, Connect.poll]
      cases hf : f io with
      | pending => exact ih
      | failed => simp
      | ready t => simp
  induction as with
  | nil => simp [Connect.polls]
  | cons a as ih =>
    obtain ⟨a, f⟩ := a
    cases a with
    | pending => simp only [Connect.polls, Connect.poll, Connect.new]; exact ih
    | failed => simp [Connect.polls, Connect.poll, Connect.new]
    | ready io =>
      cases tls with
      | false => simp [Connect.polls, Connect.poll, Connect.new]
      | true =>
        simp only [Connect.polls, Connect.poll, Connect.new]
        cases hf : f io with
        | pending => exact hh io as
        | failed => simp
        | ready t => simp

/-! ## Concrete connections -/

example : call "web.svc".toList 0 ⟨sampleHello.record ++ [1, 2], []⟩ [.upTo 7, .upTo 50, .upTo 500] =
    .accepted .terminated ⟨sampleHello.record ++ [1, 2], ⟨[], []⟩⟩ := by decide +kernel

example : call "me".toList 0 ⟨sampleHello.record ++ [1, 2], []⟩ [.upTo sampleHello.record.length] =
    .accepted (.passthru "web.svc".toList) ⟨sampleHello.record, ⟨[1, 2], []⟩⟩ := by decide +kernel

example : call "me".toList 0 ⟨[71, 69, 84], []⟩ [.upTo 2] = .accepted .noClientHello ⟨[71, 69], ⟨[84], []⟩⟩ := by
  decide +kernel

/-- A ServerHello-like record, then more. -/
example : call "me".toList 0 ⟨[22, 3, 3, 0, 2, 2, 0, 9, 9, 9], []⟩ [.upTo 7, .upTo 2, .upTo 5, .upTo 5] =
    .accepted .noClientHello ⟨[22, 3, 3, 0, 2, 2, 0, 9, 9, 9], ⟨[], []⟩⟩ := by decide +kernel

example : callRequired 0 ⟨[71, 69, 84], []⟩ [.upTo 2] = .noSniFound := by decide +kernel

example : ((Connect.new true).polls
    [(.pending, fun _ => .pending), (.ready 5, fun _ => .pending), (.pending, fun io => .ready (io + 100))]).1 =
    .connected 105 true true := by decide

example : ((Connect.new true).polls [(.ready 5, fun _ => .failed)]).1 = .failed := by decide

end Verif.Tls
