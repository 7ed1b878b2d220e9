import Verif.Teardown.Props

/-!
# An error of the client's own proxy

The outbound server's `ServerRescue` answers the errors of everything below it (outbound/src/http/server.rs:28-58): nothing above it
changes responses, so its answers are what the connection's server writes.
-/

namespace Verif.Teardown

open Verif Verif.ErrorRespond

/-- A request that the client's own proxy fails: `NewRespondService` with the outbound server's rescue (outbound/src/http/server.rs:46-48,
errors/respond.rs:301-420). Requests of applications carry their connection's handle (proxy/http/src/client_handle.rs:76-79), and not the
extension of requests that another proxy has upgraded. What is simplified: tracing and boxing (server.rs:50-51) leave responses as they are. -/
def failOwn (emit h2 : Bool) (h : HeaderMap) (err : Error) : Option (H1.Rsp × Bool) :=
  match (newRespond emit ⟨if h2 then .h2 else .http11, h, false, true⟩).respond outboundServer (some err) with
  | .synthetic p close => some (⟨p.version, p.status, p.headers⟩, close)
  | _ => none

/-- What the answer looks like. -/
theorem failOwn_parts {emit h2 : Bool} {h : HeaderMap} {err : Error} {s : Synthetic} (hs : outboundServer err = some s) :
    ∃ p, failOwn emit h2 h err = some (p, s.close) ∧ p.version = (if h2 then .h2 else .http11) ∧
      p.headers.getAll "connection" = (if s.close = true ∧ h2 = false then ["close".toList] else []) ∧
      (GrpcRequest ⟨if h2 then .h2 else .http11, h, false, true⟩ → p.status = 200) ∧
      (¬ GrpcRequest ⟨if h2 then .h2 else .http11, h, false, true⟩ → p.status = s.httpStatus) := by
  unfold failOwn
  by_cases hg : GrpcRequest ⟨if h2 then .h2 else .http11, h, false, true⟩
  · obtain ⟨p, g1, g2, g3, g4⟩ := C49_grpc emit _ outboundServer err s hg hs
    rw [g1]
    have hv : h2 = true := by
      cases h2 with
      | true => rfl
      | false => cases hg.1
    refine ⟨_, by rw [Bool.and_true], by rw [g2, hv]; rfl, ?_, fun _ => g3, fun h => absurd hg h⟩
    rw [g4, hv]; simp [grpcHeaders]
  · obtain ⟨p, g1, g2, g3, g4⟩ := C49_http emit _ outboundServer err s hg hs
    rw [g1]
    refine ⟨_, by rw [Bool.and_true], g2, ?_, fun h => absurd h hg, fun _ => g3⟩
    rw [g4]
    simp only [httpHeaders]
    rw [if_neg (by decide), if_neg (by decide)]
    cases h2 <;> cases s.close <;> simp

/-- C122. An error of the client's own proxy closes the application's connection exactly if it is an error that closes connections: with an
HTTP/1.1 response that says so and that the connection ends with, or, of an HTTP/2 connection, as soon as its task runs. -/
theorem C122_own_error (h2 : Bool) (ops : List Op) (i : Nat) (hi : i ∈ ((Conn.new h2).run ops).pending) (emit : Bool) (h : HeaderMap)
    (err : Error) (s : Synthetic) (hs : outboundServer err = some s) :
    ∃ p closed, failOwn emit h2 h err = some (p, closed) ∧ p.version = (if h2 then .h2 else .http11) ∧
      (GrpcRequest ⟨if h2 then .h2 else .http11, h, false, true⟩ → p.status = 200) ∧
      (¬ GrpcRequest ⟨if h2 then .h2 else .http11, h, false, true⟩ → p.status = s.httpStatus) ∧
      (s.close = true →
        ((Conn.new h2).run (ops ++ finish i p closed ++ [.look])).phase ≠ .serving ∧
        (h2 = false → p.headers.getAll "connection" = ["close".toList] ∧
          ((Conn.new h2).run (ops ++ finish i p closed)).phase = .ended ∧
          i ∈ ((Conn.new h2).run (ops ++ finish i p closed)).answered)) ∧
      (s.close = false → ((Conn.new h2).run ops).phase = .serving → ¬ Asked h2 ops →
        ((Conn.new h2).run (ops ++ finish i p closed ++ [.look])).phase = .serving) := by
  obtain ⟨p, h1, hv, hc, hg, hn⟩ := failOwn_parts (emit := emit) (h2 := h2) (h := h) hs
  refine ⟨p, s.close, h1, hv, hg, hn, fun hcl => ?_, fun hcl hp hno => ?_⟩
  · rw [hcl] at hc ⊢
    refine ⟨(C122_no_close_is_missed h2 _ (finish_close hi p)).2, fun hh => ?_⟩
    subst hh
    simp only [and_self, if_true] at hc
    refine ⟨hc, ?_⟩
    have e1 : finish i p true = [.close i] ++ [.answer i true] := by unfold finish; rw [hc]; rfl
    rw [e1, ← List.append_assoc]
    exact C122_last_response_ends (ops ++ [.close i]) i (by rw [run_snoc, close_pending hi]; exact hi)
  · rw [hcl] at hc ⊢
    refine stays hp (.inr ?_) hno
    rw [hc]; simp

/-- C122. Which of these errors close: no endpoint that is ready in time, too many requests and the timeout of a profile's route do, with 504,
503 and 504; the timeouts of a policy's route and a request that no route takes do not, with 504 and 404. -/
theorem C122_own_errors (err : Error) :
    (.failFast ∈ err.chain → ∃ s, outboundServer err = some s ∧ s.httpStatus = 504 ∧ s.close = true) ∧
    (.loadShed ∈ err.chain → .failFast ∉ err.chain → ∃ s, outboundServer err = some s ∧ s.httpStatus = 503 ∧ s.close = true) ∧
    (err.chain = [.profileTimeout] → ∃ s, outboundServer err = some s ∧ s.httpStatus = 504 ∧ s.close = true) ∧
    (.streamResponseTimeout ∈ err.chain → .failFast ∉ err.chain → .loadShed ∉ err.chain →
      ∃ s, outboundServer err = some s ∧ s.httpStatus = 504 ∧ s.close = false) ∧
    (err.chain = [.noRoute] → ∃ s, outboundServer err = some s ∧ s.httpStatus = 404 ∧ s.close = false) ∧
    (err.chain = [] → ∃ s, outboundServer err = some s ∧ s.httpStatus = 500 ∧ s.close = true) := by
  have hc : ∀ c, err.isCausedBy c = true ↔ c ∈ err.chain := fun c => by unfold Error.isCausedBy; simp
  have hn : ∀ c, err.isCausedBy c = false ↔ c ∉ err.chain := fun c => by rw [← hc, Bool.not_eq_true]
  unfold outboundServer
  refine ⟨fun h => ?_, fun h h1 => ?_, fun h => ?_, fun h h1 h2 => ?_, fun h => ?_, fun h => ?_⟩
  · rw [(hc _).2 h, if_pos rfl]; exact ⟨_, rfl, rfl, rfl⟩
  · rw [(hc _).2 h, (hn _).2 h1, if_neg (by decide), if_pos rfl]; exact ⟨_, rfl, rfl, rfl⟩
  · obtain ⟨ch, t⟩ := err; cases h; exact ⟨_, rfl, rfl, rfl⟩
  · rw [(hc _).2 h, (hn _).2 h1, (hn _).2 h2, if_neg (by decide), if_neg (by decide), if_pos rfl]; exact ⟨_, rfl, rfl, rfl⟩
  · obtain ⟨ch, t⟩ := err; cases h; exact ⟨_, rfl, rfl, rfl⟩
  · obtain ⟨ch, t⟩ := err; cases h; exact ⟨_, rfl, rfl, rfl⟩

/-- Two requests of a connection, of which the second finds no endpoint in time, and a connection whose request no route takes. -/
example : ((failOwn false false [] ⟨[.failFast], []⟩).map fun r =>
      (r.1.status, ((Conn.new false).run ([.take 1, .answer 1 false, .take 2] ++ finish 2 r.1 r.2)).phase)) = some (504, .ended) ∧
    ((failOwn false false [] ⟨[.noRoute], []⟩).map fun r =>
      (r.1.status, ((Conn.new false).run ([.take 1] ++ finish 1 r.1 r.2 ++ [.look])).phase)) = some (404, .serving) ∧
    ((failOwn true true [("content-type", "application/grpc".toList)] ⟨[.loadShed], []⟩).map fun r =>
      (r.1.status, ((Conn.new true).run ([.take 1, .take 2] ++ finish 1 r.1 r.2 ++ [.look])).phase)) = some (200, .closing) := by
  decide +kernel

end Verif.Teardown
