import Verif.HttpDetect.Props
import Verif.InboundDetect.Model
import Verif.Tls.DetectProps

/-!
# C42: inbound connections go where the policy's protocol says
-/

namespace Verif.InboundDetect

open Verif.Io
open Verif.HttpDetect (Variant Detection)
open Verif.Dns (Str)
open Verif.Tls (sentName)

/-! ## Specification -/

/-- What TLS detection can make of a connection: its status, and the stream it continues with. -/
inductive Detected (e : Env) (io : Inner) : Status → Inner → Prop where
  | established (s : Inner) (h : sentName io.unread = some e.localName) (hs : e.handshake io = some s) :
    Detected e io .established s
  | passthru (sni : Str) (h : sentName io.unread = some sni) (hn : sni ≠ e.localName) : Detected e io (.passthru sni) io
  | none (h : sentName io.unread = none) : Detected e io .noClientHello io

/-- What HTTP detection can make of a stream. -/
def Found (e : Env) (io : Inner) (d : Detection) : Prop := ∃ p, HttpDetect.call e.parse io e.first = .ok (d, p)

/-- Where a connection goes under a protocol that does not change. -/
inductive Goes (e : Env) (io : Inner) : Protocol → Outcome → Prop where
  /-- Opaque: forwarded as it is, without detection. -/
  | opaqueTcp : Goes e io .opaqueTcp (.forward .portSkipped io)
  /-- TLS: forwarded once TLS has been detected. -/
  | tls (st : Status) (s : Inner) (h : Detected e io st s) : Goes e io .tls (.forward st s)
  /-- HTTP/2 and gRPC: the HTTP stack. -/
  | http2 (st : Status) (s : Inner) (h : Detected e io st s) : Goes e io .http2 (.http .h2 st s)
  | grpc (st : Status) (s : Inner) (h : Detected e io st s) : Goes e io .grpc (.http .h2 st s)
  /-- HTTP/1 without TLS: the HTTP stack. -/
  | http1 (st : Status) (s : Inner) (h : Detected e io st s) (hs : st.isSome = false) :
    Goes e io .http1 (.http .http1 st s)
  /-- HTTP/1 with TLS: the version is detected, and is HTTP/1 if nothing is received in time. -/
  | http1Tls (st : Status) (s : Inner) (v : Variant) (h : Detected e io st s) (hs : st.isSome = true)
    (hd : Found e s (.http v)) : Goes e io .http1 (.http v st s)
  | http1NotHttp (st : Status) (s : Inner) (h : Detected e io st s) (hs : st.isSome = true) (hd : Found e s .notHttp) :
    Goes e io .http1 (.forward st s)
  | http1Timeout (st : Status) (s : Inner) (h : Detected e io st s) (hs : st.isSome = true)
    (hd : Found e s .readTimeout) : Goes e io .http1 (.http .http1 st s)
  /-- Detect: as detected, forwarded if it is not HTTP or nothing is received in time. -/
  | detectHttp (st : Status) (s : Inner) (v : Variant) (h : Detected e io st s) (hd : Found e s (.http v)) :
    Goes e io .detect (.http v st s)
  | detectOther (st : Status) (s : Inner) (h : Detected e io st s) (hd : Found e s .notHttp ∨ Found e s .readTimeout) :
    Goes e io .detect (.forward st s)
  /-- The connection fails if TLS detection or its handshake fails, or if HTTP detection does. -/
  | tlsError (p : Protocol) (hp : p ≠ .opaqueTcp)
    (h : Tls.call e.localName e.peeked io e.reads = .timeoutError ∨ Tls.call e.localName e.peeked io e.reads = .ioError ∨
      (sentName io.unread = some e.localName ∧ e.handshake io = Option.none)) : Goes e io p .error
  | httpError (p : Protocol) (st : Status) (s : Inner) (x : HttpDetect.Error) (h : Detected e io st s)
    (hp : p = .detect ∨ (p = .http1 ∧ st.isSome = true)) (hd : HttpDetect.call e.parse s e.first = .error x) :
    Goes e io p .error

/-! ## Proofs -/

theorem flat_eq (io : Inner) (p : PrefixedIo) (h1 : p.unread = io.unread) (h2 : p.io.written = io.written) :
    flat p = io := by
  obtain ⟨u, w⟩ := io
  simp only [flat, PrefixedIo.unread] at *
  rw [h1, h2]

theorem flat_http (e : Env) (s : Inner) (d : Detection) (p : PrefixedIo)
    (h : HttpDetect.call e.parse s e.first = .ok (d, p)) : flat p = s := by
  obtain ⟨h1, h2, -⟩ := HttpDetect.C41_no_byte_is_lost e.parse s e.first d p h
  exact flat_eq s p h1 h2

/-- The stages after TLS detection; `none` is a failure in it. -/
theorem accept_cases (e : Env) (io : Inner) (ha : e.atAccept ≠ .opaqueTcp) :
    (accept e io = .error ∧ (Tls.call e.localName e.peeked io e.reads = .timeoutError ∨
      Tls.call e.localName e.peeked io e.reads = .ioError ∨
        (sentName io.unread = some e.localName ∧ e.handshake io = none))) ∨
      ∃ st s, Detected e io st s ∧ accept e io = switchTls e st s := by
  have hacc : accept e io = match Tls.call e.localName e.peeked io e.reads with
    | .timeoutError => .error
    | .ioError => .error
    | .accepted .terminated p =>
      match e.handshake (flat p) with
      | none => .error
      | some io => switchTls e .established io
    | .accepted (.passthru sni) p => switchTls e (.passthru sni) (flat p)
    | .accepted .noClientHello p => switchTls e .noClientHello (flat p) := by
    unfold accept
    cases h : e.atAccept <;> first | rfl | exact absurd h ha
  rw [hacc]
  cases hc : Tls.call e.localName e.peeked io e.reads with
  | timeoutError => exact .inl ⟨rfl, .inl rfl⟩
  | ioError => exact .inl ⟨rfl, .inr (.inl rfl)⟩
  | accepted peer p =>
    obtain ⟨h1, h2⟩ := Tls.C38_no_byte_is_lost _ _ _ _ _ _ hc
    obtain ⟨d1, d2, d3⟩ := Tls.C38_decision _ _ _ _ _ _ hc
    have hf := flat_eq io p h1 h2
    cases peer with
    | terminated =>
      dsimp only
      rw [hf]
      cases hh : e.handshake io with
      | none => exact .inl ⟨rfl, .inr (.inr ⟨d1.1 rfl, rfl⟩)⟩
      | some s => exact .inr ⟨_, s, .established s (d1.1 rfl) hh, rfl⟩
    | passthru sni =>
      dsimp only
      rw [hf]
      exact .inr ⟨_, io, .passthru sni ((d2 sni).1 rfl).1 ((d2 sni).1 rfl).2, rfl⟩
    | noClientHello =>
      dsimp only
      rw [hf]
      exact .inr ⟨_, io, .none (d3.1 rfl), rfl⟩

/-- While the policy's protocol stays the same, every connection goes where that protocol says, or fails as it must; it
never aborts. The stream it goes with delivers exactly what the client sent (or what the TLS handshake decrypts). -/
theorem C42_dispatch (e : Env) (io : Inner) (p : Protocol) (h1 : e.atAccept = p) (h2 : e.afterTls = p)
    (h3 : e.atHttp = p) (h4 : e.atTimeout = p) : Goes e io p (accept e io) := by
  by_cases ho : p = .opaqueTcp
  · subst ho
    have : accept e io = .forward .portSkipped io := by unfold accept; rw [h1]
    rw [this]
    exact .opaqueTcp
  · rcases accept_cases e io (by rw [h1]; exact ho) with ⟨ha, hb⟩ | ⟨st, s, hd, ha⟩
    · rw [ha]; exact .tlsError p ho hb
    · rw [ha]
      have http : ∀ q, (q = .detect ∨ (q = .http1 ∧ st.isSome = true)) → e.atTimeout = q →
          Goes e io q (detectHttp e st s) := by
        intro q hq ht
        unfold detectHttp
        cases hh : HttpDetect.call e.parse s e.first with
        | error x => exact .httpError q st s x hd hq hh
        | ok r =>
          obtain ⟨d, pf⟩ := r
          have hf := flat_http e s d pf hh
          cases d with
          | http v =>
            dsimp only
            rw [hf]
            rcases hq with rfl | ⟨rfl, hs⟩
            · exact .detectHttp st s v hd ⟨pf, hh⟩
            · exact .http1Tls st s v hd hs ⟨pf, hh⟩
          | notHttp =>
            dsimp only
            rw [hf]
            rcases hq with rfl | ⟨rfl, hs⟩
            · exact .detectOther st s hd (.inl ⟨pf, hh⟩)
            · exact .http1NotHttp st s hd hs ⟨pf, hh⟩
          | readTimeout =>
            dsimp only
            rw [hf, ht]
            rcases hq with rfl | ⟨rfl, hs⟩
            · exact .detectOther st s hd (.inr ⟨pf, hh⟩)
            · exact .http1Timeout st s hd hs ⟨pf, hh⟩
      unfold switchTls
      rw [h2]
      unfold switchHttp
      rw [h3]
      cases p with
      | opaqueTcp => exact absurd rfl ho
      | detect => exact http _ (.inl rfl) h4
      | http1 =>
        dsimp only
        by_cases hs : st.isSome = true
        · rw [if_pos hs]; exact http _ (.inr ⟨rfl, hs⟩) h4
        · rw [if_neg hs]; exact .http1 st s hd (by simpa using hs)
      | http2 => exact .http2 st s hd
      | grpc => exact .grpc st s hd
      | tls => exact .tls st s hd

/-- What the code does if the policy changes meanwhile: the connection's task aborts exactly if the protocol was not
opaque when the connection was accepted, TLS detection ended well, the protocol was not TLS then, and is opaque or TLS
when HTTP detection is decided on. -/
theorem C42_aborts_iff (e : Env) (io : Inner) :
    accept e io = .panic ↔ e.atAccept ≠ .opaqueTcp ∧ (∃ p peer, Tls.call e.localName e.peeked io e.reads = .accepted peer p ∧
      (peer = .terminated → (e.handshake io).isSome)) ∧ e.afterTls ≠ .tls ∧
        (e.atHttp = .opaqueTcp ∨ e.atHttp = .tls) := by
  have sw : ∀ st s, switchTls e st s = .panic ↔ e.afterTls ≠ .tls ∧ (e.atHttp = .opaqueTcp ∨ e.atHttp = .tls) := by
    intro st s
    have hdet : detectHttp e st s ≠ .panic := by
      unfold detectHttp
      cases HttpDetect.call e.parse s e.first with
      | error x => simp
      | ok r =>
        obtain ⟨d, pf⟩ := r
        cases d with
        | http v => simp
        | notHttp => simp
        | readTimeout => dsimp only; split <;> simp
    have hhttp : switchHttp e st s = .panic ↔ (e.atHttp = .opaqueTcp ∨ e.atHttp = .tls) := by
      unfold switchHttp
      cases hp : e.atHttp with
      | http1 =>
        dsimp only
        by_cases hs : st.isSome = true
        · rw [if_pos hs]; simp [hdet]
        · rw [if_neg hs]; simp
      | detect => simp [hdet]
      | _ => simp
    unfold switchTls
    cases ha : e.afterTls <;> simp [hhttp]
  by_cases ho : e.atAccept = .opaqueTcp
  · have : accept e io = .forward .portSkipped io := by unfold accept; rw [ho]
    simp [this, ho]
  · have hacc : accept e io = match Tls.call e.localName e.peeked io e.reads with
      | .timeoutError => .error
      | .ioError => .error
      | .accepted .terminated p =>
        match e.handshake (flat p) with
        | none => .error
        | some io => switchTls e .established io
      | .accepted (.passthru sni) p => switchTls e (.passthru sni) (flat p)
      | .accepted .noClientHello p => switchTls e .noClientHello (flat p) := by
      unfold accept
      cases h : e.atAccept <;> first | rfl | exact absurd h ho
    rw [hacc]
    cases hc : Tls.call e.localName e.peeked io e.reads with
    | timeoutError => simp
    | ioError => simp
    | accepted peer p =>
      obtain ⟨h1, h2⟩ := Tls.C38_no_byte_is_lost _ _ _ _ _ _ hc
      have hf := flat_eq io p h1 h2
      cases peer with
      | terminated =>
        dsimp only
        rw [hf]
        cases hh : e.handshake io with
        | none => simp
        | some s => simp [sw, ho]
      | passthru sni =>
        exact (sw _ _).trans ⟨fun h => ⟨ho, ⟨p, _, rfl, by simp⟩, h⟩, fun h => h.2.2⟩
      | noClientHello =>
        exact (sw _ _).trans ⟨fun h => ⟨ho, ⟨p, _, rfl, by simp⟩, h⟩, fun h => h.2.2⟩

/-- It can happen: the port becomes opaque while TLS detection waits for the client's first bytes. -/
theorem C42_change_to_opaque_aborts : ∃ (e : Env) (io : Inner),
    e.atAccept = .detect ∧ e.afterTls = .opaqueTcp ∧ e.atHttp = .opaqueTcp ∧ accept e io = .panic :=
  ⟨⟨.detect, .opaqueTcp, .opaqueTcp, .opaqueTcp, "me".toList, 0, [.upTo 5], fun _ => none, fun _ => .ok, .read 10⟩,
    ⟨[71, 69, 84], []⟩, rfl, rfl, rfl, by decide +kernel⟩

/-- Under any changes of the policy, a connection that reaches a stack does so with the bytes the client sent (or those
the handshake decrypts). -/
theorem C42_no_byte_is_lost (e : Env) (io : Inner) (st : Status) (s : Inner)
    (h : accept e io = .forward st s ∨ ∃ v, accept e io = .http v st s) :
    s = io ∨ (st = .established ∧ e.handshake io = some s ∧ sentName io.unread = some e.localName) := by
  have keep : ∀ st' s', (switchTls e st' s' = .forward st s ∨ ∃ v, switchTls e st' s' = .http v st s) →
      st = st' ∧ s = s' := by
    intro st' s' h
    have hdet : (detectHttp e st' s' = .forward st s ∨ ∃ v, detectHttp e st' s' = .http v st s) → st = st' ∧ s = s' := by
      intro h
      unfold detectHttp at h
      cases hh : HttpDetect.call e.parse s' e.first with
      | error x => simp [hh] at h
      | ok r =>
        obtain ⟨d, pf⟩ := r
        have hf := flat_http e s' d pf hh
        simp only [hh, hf] at h
        cases d with
        | http v => simp at h; exact ⟨h.1.symm, hf ▸ h.2.symm⟩
        | notHttp => simp at h; exact ⟨h.1.symm, hf ▸ h.2.symm⟩
        | readTimeout => dsimp only at h; split at h <;> (simp at h; exact ⟨h.1.symm, hf ▸ h.2.symm⟩)
    have hhttp : (switchHttp e st' s' = .forward st s ∨ ∃ v, switchHttp e st' s' = .http v st s) → st = st' ∧ s = s' := by
      intro h
      unfold switchHttp at h
      cases hp : e.atHttp with
      | detect => simp only [hp] at h; exact hdet h
      | http1 =>
        simp only [hp] at h
        by_cases hs : st'.isSome = true
        · simp only [hs, if_true] at h; exact hdet h
        · simp [hs] at h; exact ⟨h.1.symm, h.2.symm⟩
      | http2 => simp [hp] at h; exact ⟨h.1.symm, h.2.symm⟩
      | grpc => simp [hp] at h; exact ⟨h.1.symm, h.2.symm⟩
      | opaqueTcp => simp [hp] at h
      | tls => simp [hp] at h
    unfold switchTls at h
    cases hp : e.afterTls with
    | tls => simp [hp] at h; exact ⟨h.1.symm, h.2.symm⟩
    | _ => simp only [hp] at h; exact hhttp h
  by_cases ho : e.atAccept = .opaqueTcp
  · have : accept e io = .forward .portSkipped io := by unfold accept; rw [ho]
    rw [this] at h
    simp at h
    exact .inl h.2.symm
  · rcases accept_cases e io ho with ⟨ha, -⟩ | ⟨st', s', hd, ha⟩
    · simp [ha] at h
    · rw [ha] at h
      obtain ⟨rfl, rfl⟩ := keep _ _ h
      cases hd with
      | established _ h1 h2 => exact .inr ⟨rfl, h2, h1⟩
      | passthru => exact .inl rfl
      | none => exact .inl rfl

/-! ## Concrete connections -/

def env (p : Protocol) (reads : List ReadAnswer) (f : HttpDetect.First) : Env :=
  ⟨p, p, p, p, "web.svc".toList, 0, reads, fun io => some ⟨[71, 69, 84] ++ io.unread.take 0, []⟩,
    fun _ => .ok, f⟩

def get : Inner := ⟨"GET / HTTP/1.1".toList.map fun c => c.toNat.toUInt8, []⟩

example : accept (env .detect [.upTo 3] (.read 100)) get = .http .http1 .noClientHello get := by decide +kernel
example : accept (env .detect [.upTo 3] .timeout) get = .forward .noClientHello get := by decide +kernel
example : accept (env .opaqueTcp [] .timeout) get = .forward .portSkipped get := by decide +kernel
example : accept (env .tls [.upTo 3] .timeout) get = .forward .noClientHello get := by decide +kernel
example : accept (env .grpc [.upTo 3] .timeout) get = .http .h2 .noClientHello get := by decide +kernel
example : accept (env .http1 [.upTo 3] .timeout) get = .http .http1 .noClientHello get := by decide +kernel
example : accept (env .http1 [.upTo 300] .timeout) ⟨Tls.sampleHello.record, []⟩ =
    .http .http1 .established ⟨[71, 69, 84], []⟩ := by decide +kernel
example : accept (env .http1 [.upTo 300] (.read 9)) ⟨Tls.sampleHello.record, []⟩ =
    .forward .established ⟨[71, 69, 84], []⟩ := by decide +kernel

end Verif.InboundDetect
