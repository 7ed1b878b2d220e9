import Verif.Proven.Props
import Verif.Tap.Props

/-!
# C123: who may tap

The tap server, app/src/tap.rs:41-99: TLS detection with the proxy's own identity, then `AcceptPermittedClients`.
-/

namespace Verif.Proven

open Verif.Io
open Verif.Identity (Ext Der Str)

/-- What becomes of a connection to the tap server. -/
inductive Tapped where
  /-- It is closed: detection timed out or failed, or the handshake did. -/
  | closed
  /-- Every call is answered with `Unauthenticated`. -/
  | unauthenticated
  | served
  deriving DecidableEq, Repr

/-- app/src/tap.rs:64-87 with `DetectTls::call` (tls/src/server.rs:166-204) and `AcceptPermittedClients::call` (proxy/tap/src/accept.rs:83-107). -/
def tapServer (ext : Ext) (roots : List Der) (now : Int) (p : Peer) (permitted : ApiResolve.Id) (localName : Str) (peeked : Nat) (io : Inner)
    (reads : List ReadAnswer) : Tapped :=
  let answer (t : Tap.ConnTls) : Tapped := if Tap.permitted permitted t then .served else .unauthenticated
  match Tls.call localName peeked io reads with
  | .accepted .terminated _ =>
    match Identity.accepted ext (serverSide ext roots now p) with
    | some (client, _) => answer (.established client)
    | none => .closed
  | .accepted (.passthru _) _ => answer .passthru
  | .accepted .noClientHello _ => answer .noTls
  | _ => .closed

theorem policyId_inj (a b : ApiResolve.Id) (h : policyId a = policyId b) : a = b := by
  cases a <;> cases b <;> cases h <;> rfl

/-- **Taps** are served to a connection exactly if it is TLS for this proxy and its client has shown, in the handshake, to be the permitted one. -/
theorem C123_taps (ext : Ext) (roots : List Der) (now : Int) (p : Peer) (permitted : ApiResolve.Id) (localName : Str) (peeked : Nat) (io : Inner)
    (reads : List ReadAnswer) :
    tapServer ext roots now p permitted localName peeked io reads = .served ↔
      (∃ q, Tls.call localName peeked io reads = .accepted .terminated q) ∧ p.agrees = true ∧ Shown ext roots now p (policyId permitted) := by
  have hs : ∀ c, (Identity.accepted ext (serverSide ext roots now p)).map Prod.fst = some (some c) ↔
      p.agrees = true ∧ Shown ext roots now p (policyId c) := by
    intro c
    constructor
    · intro h
      rw [Option.map_eq_some_iff] at h
      obtain ⟨⟨i, a⟩, hi, e⟩ := h
      have := session_some ext roots now p (policyId c) a (by
        unfold session
        rw [hi]
        dsimp only at e
        subst e
        rfl)
      exact ⟨this.2.1, this.1⟩
    · rintro ⟨ha, hsh⟩
      have h := session_of_shown ext roots now p _ ha hsh
      unfold session at h
      rw [Option.map_eq_some_iff] at h
      obtain ⟨⟨i, a⟩, hi, e⟩ := h
      cases i with
      | none => cases e
      | some i =>
        simp only [Option.map_some, Prod.mk.injEq, Option.some.injEq] at e
        rw [hi, ← policyId_inj _ _ e.1]
        rfl
  unfold tapServer
  cases hc : Tls.call localName peeked io reads with
  | accepted peer q =>
    cases peer with
    | terminated =>
      rw [← hs]
      cases Identity.accepted ext (serverSide ext roots now p) with
      | none => simp
      | some x =>
        obtain ⟨client, a⟩ := x
        cases client with
        | none => simp [Tap.permitted]
        | some c => simp [Tap.permitted, @eq_comm _ permitted]
    | passthru sni => simp [Tap.permitted]
    | noClientHello => simp [Tap.permitted]
  | _ => simp

example : tapServer exExt [[0]] 0 (exPeer [1]) (.dns "a.b".toList) ((Tls.sentName Tls.sampleHello.record).getD []) 0 exIo
      [.upTo 4096, .upTo 4096] = .served ∧
    tapServer exExt [[0]] 0 (exPeer [2]) (.dns "a.b".toList) ((Tls.sentName Tls.sampleHello.record).getD []) 0 exIo
      [.upTo 4096, .upTo 4096] = .unauthenticated ∧
    tapServer exExt [[0]] 0 (exPeer [3]) (.dns "a.b".toList) ((Tls.sentName Tls.sampleHello.record).getD []) 0 exIo
      [.upTo 4096, .upTo 4096] = .closed ∧
    tapServer exExt [[0]] 0 (exPeer [1]) (.dns "a.b".toList) "x".toList 0 exIo [.upTo 4096, .upTo 4096] = .unauthenticated := by
  decide +kernel

end Verif.Proven
