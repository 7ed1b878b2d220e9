import Verif.Reconnect.Model

/-! # C20: the reconnecting service -/

namespace Verif.Reconnect

open Attempts

/-! ### Proofs -/

/-- The state agrees with what the history says. -/
structure Inv (w : World) : Prop where
  lawful : Lawful w.log
  built : (past w.log).begun = w.built
  made : (past w.log).made = w.made
  state : match w.state with
    | .disconnected none => (past w.log).current = none ∧ (past w.log).owesWait = false ∧ (past w.log).backoff = none
    | .disconnected (some b) => (past w.log).current = none ∧ (past w.log).owesWait = true ∧
        (past w.log).backoff = some b
    | .pending k b => (past w.log).current = some k ∧ (past w.log).owesWait = false ∧ (past w.log).backoff = b
    | .connected k => (past w.log).current = some k ∧ (past w.log).owesWait = false ∧ (past w.log).backoff = none

theorem round_inv {w : World} (h : Inv w) (a : Answers) : Inv (w.round a).1 := by
  obtain ⟨hl, hb, hm, hs⟩ := h
  unfold World.round
  cases hst : w.state with
  | connected k =>
    rw [hst] at hs
    simp only
    split
    · exact ⟨lawful_snoc hl hs.1, by simpa [past_snoc, Past.next] using hb, by simpa [past_snoc, Past.next] using hm,
        by simpa [past_snoc, Past.next, hst] using hs⟩
    · exact ⟨lawful_snoc hl hs.1, by simpa [past_snoc, Past.next] using hb, by simpa [past_snoc, Past.next] using hm,
        by simpa [past_snoc, Past.next, hst] using ⟨hs.1, hs.2.1⟩⟩
    · split
      · refine ⟨lawful_snoc hl ⟨hs.1, by simp [hm]⟩, by simpa [past_snoc, Past.next] using hb,
          by simpa [past_snoc, Past.next] using hm, ?_⟩
        simp [past_snoc, Past.next, hs.2.2]
      · exact ⟨lawful_snoc hl ⟨hs.1, by simp⟩, by simpa [past_snoc, Past.next] using hb,
          by simpa [past_snoc, Past.next] using hm, by simpa [past_snoc, Past.next, hst] using hs⟩
  | pending k b =>
    rw [hst] at hs
    simp only
    split
    · exact ⟨lawful_snoc hl hs.1, by simpa [past_snoc, Past.next] using hb, by simpa [past_snoc, Past.next] using hm,
        by simpa [past_snoc, Past.next, hst] using hs⟩
    · exact ⟨lawful_snoc hl hs.1, by simpa [past_snoc, Past.next] using hb, by simpa [past_snoc, Past.next] using hm,
        by simpa [past_snoc, Past.next] using ⟨hs.1, hs.2.1⟩⟩
    · split
      · refine ⟨lawful_snoc hl ⟨hs.1, by simp [hm]⟩, by simpa [past_snoc, Past.next] using hb,
          by simpa [past_snoc, Past.next] using hm, ?_⟩
        simp [past_snoc, Past.next, hs.2.2]
      · exact ⟨lawful_snoc hl ⟨hs.1, by simp⟩, by simpa [past_snoc, Past.next] using hb,
          by simpa [past_snoc, Past.next] using hm, by simpa [past_snoc, Past.next, hst] using hs⟩
  | disconnected b =>
    rw [hst] at hs
    cases b with
    | none =>
      refine ⟨lawful_snoc hl ⟨hs.1, hs.2.1, hb.symm⟩, ?_, ?_, ?_⟩ <;>
        simp [World.build, past_snoc, Past.next, hb, hm, hs.2.1, hs.2.2]
    | some b =>
      simp only
      split
      · exact ⟨lawful_snoc hl hs.2, by simpa [past_snoc, Past.next] using hb, by simpa [past_snoc, Past.next] using hm,
          by simpa [past_snoc, Past.next, hst] using hs⟩
      · refine ⟨lawful_snoc (lawful_snoc hl hs.2) ?_, ?_, ?_, ?_⟩ <;>
          simp [-List.append_assoc, World.build, past_snoc, Past.next, Past.allows, hb, hm, hs.1, hs.2.2]
      · refine ⟨lawful_snoc (lawful_snoc hl hs.2) ?_, ?_, ?_, ?_⟩ <;>
          simp [-List.append_assoc, World.build, past_snoc, Past.next, Past.allows, hb, hm, hs.1]

theorem pollReady_inv {w : World} (h : Inv w) (as : List Answers) : Inv (w.pollReady as).1 := by
  induction as generalizing w with
  | nil => exact h
  | cons a as ih =>
    have hr := round_inv h a
    unfold World.pollReady
    split
    · rename_i w' r heq; rw [heq] at hr; exact hr
    · rename_i w' heq; rw [heq] at hr; exact ih hr

theorem after_snoc (w : World) (ps : List (List Answers)) (as : List Answers) :
    w.after (ps ++ [as]) = ((w.after ps).pollReady as).1 := by
  simp [World.after, List.foldl_append]

theorem init_inv : Inv World.init := ⟨lawful_nil, rfl, rfl, ⟨rfl, rfl, rfl⟩⟩

theorem after_inv (ps : List (List Answers)) : Inv (World.init.after ps) := by
  induction ps using snoc_induction with
  | nil => exact init_inv
  | snoc ps as ih => rw [after_snoc]; exact pollReady_inv ih as

/-- Whatever the inner services, the recovery policy and the backoffs answer: a new connection is attempted
only when there is none and, after a failure, only after a backoff wait; a run of failures goes through one
backoff sequence, whereas the first failure after a success starts a fresh one; only the connection in use
is polled. -/
theorem C20_attempts_are_lawful (polls : List (List Answers)) : Lawful (World.init.after polls).log :=
  (after_inv polls).lawful

/-- The rounds of one poll: the log only grows, and what the poll returns is what its last event says. -/
theorem pollReady_result (w : World) (as : List Answers) :
    ∃ evs, (w.pollReady as).1.log = w.log ++ evs ∧
      match (w.pollReady as).2 with
      | .ready => ∃ k, (w.pollReady as).1.state = .connected k ∧ evs.getLast? = some (.success k)
      | .err e => ∃ k, evs.getLast? = some (.failure k e none)
      | .pending => ∀ k, evs.getLast? ≠ some (.success k) ∧ ∀ e, evs.getLast? ≠ some (.failure k e none) := by
  induction as generalizing w with
  | nil => exact ⟨[], by simp [World.pollReady], by simp [World.pollReady]⟩
  | cons a as ih =>
    have again : ∀ w' : World, ∀ l, w'.log = w.log ++ l →
        (∀ k, l.getLast? ≠ some (.success k) ∧ ∀ e, l.getLast? ≠ some (.failure k e none)) →
        ∃ evs, (w'.pollReady as).1.log = w.log ++ evs ∧
          match (w'.pollReady as).2 with
          | .ready => ∃ k, (w'.pollReady as).1.state = .connected k ∧ evs.getLast? = some (.success k)
          | .err e => ∃ k, evs.getLast? = some (.failure k e none)
          | .pending => ∀ k, evs.getLast? ≠ some (.success k) ∧ ∀ e, evs.getLast? ≠ some (.failure k e none) := by
      intro w' l hl hn
      obtain ⟨evs, h1, h2⟩ := ih w'
      refine ⟨l ++ evs, by rw [h1, hl, List.append_assoc], ?_⟩
      revert h2
      cases (w'.pollReady as).2 with
      | ready =>
        rintro ⟨k, h2, h3⟩
        exact ⟨k, h2, by rw [List.getLast?_append, h3]; rfl⟩
      | err e =>
        rintro ⟨k, h3⟩
        exact ⟨k, by rw [List.getLast?_append, h3]; rfl⟩
      | pending =>
        intro h2
        rw [List.getLast?_append]
        cases he : evs.getLast? with
        | none => simpa using hn
        | some x => rw [he] at h2; simpa using h2
    unfold World.pollReady World.round
    cases hst : w.state with
    | connected k =>
      simp only
      cases a.svc with
      | pending => exact ⟨[.pending k], rfl, by simp⟩
      | ready => exact ⟨[.success k], rfl, k, rfl, rfl⟩
      | err e =>
        cases a.recoverable with
        | true => exact again _ [.failure k e (some w.made)] rfl (by simp)
        | false => exact ⟨[.failure k e none], rfl, k, rfl⟩
    | pending k b =>
      simp only
      cases a.svc with
      | pending => exact ⟨[.pending k], rfl, by simp⟩
      | ready => exact ⟨[.success k], rfl, k, rfl, rfl⟩
      | err e =>
        cases a.recoverable with
        | true => exact again _ [.failure k e (some w.made)] rfl (by simp)
        | false => exact ⟨[.failure k e none], rfl, k, rfl⟩
    | disconnected b =>
      cases b with
      | none => exact again _ [.attempt w.built] rfl (by simp)
      | some b =>
        simp only
        cases a.backoff with
        | pending => exact ⟨[.idle b], rfl, by simp⟩
        | more => exact again _ [.waited b, .attempt w.built] (by simp [World.build]) (by simp)
        | done => exact again _ [.ended b, .attempt w.built] (by simp [World.build]) (by simp)

/-- A service reported ready can be called: the request goes to the inner service that was just found
established, and that is the connection in use. -/
theorem C20_calls_reach_a_connected_service (polls : List (List Answers)) (as : List Answers)
    (h : ((World.init.after polls).pollReady as).2 = .ready) :
    ∃ k, (World.init.after (polls ++ [as])).call = some k ∧
      (World.init.after (polls ++ [as])).log.getLast? = some (.success k) ∧
      (past (World.init.after (polls ++ [as])).log).current = some k := by
  obtain ⟨evs, h1, h2⟩ := pollReady_result (World.init.after polls) as
  rw [h] at h2
  obtain ⟨k, h3, h4⟩ := h2
  have hi := (after_inv (polls ++ [as])).state
  rw [after_snoc] at hi ⊢
  rw [h3] at hi
  refine ⟨k, by simp [World.call, h3], ?_, hi.1⟩
  rw [h1, List.getLast?_append, h4]
  rfl

/-- A poll fails exactly when the inner service fails with an error that the recovery policy declares
unrecoverable, and then with that error; recoverable errors never surface. -/
theorem C20_unrecoverable_errors_surface (polls : List (List Answers)) (as : List Answers) (e : Err) :
    ((World.init.after polls).pollReady as).2 = .err e ↔
    ∃ evs k, (World.init.after (polls ++ [as])).log = (World.init.after polls).log ++ evs ∧
      evs.getLast? = some (.failure k e none) := by
  obtain ⟨evs, h1, h2⟩ := pollReady_result (World.init.after polls) as
  rw [after_snoc]
  constructor
  · intro h
    rw [h] at h2
    obtain ⟨k, h2⟩ := h2
    exact ⟨evs, k, h1, h2⟩
  · rintro ⟨evs', k, h3, h4⟩
    rw [h1] at h3
    have := List.append_cancel_left h3
    subst this
    revert h2
    cases ((World.init.after polls).pollReady as).2 with
    | pending => intro h2; exact absurd h4 ((h2 k).2 e)
    | ready => rintro ⟨k', _, h2⟩; rw [h4] at h2; simp at h2
    | err e' => rintro ⟨k', h2⟩; rw [h4] at h2; simp at h2; rw [h2.2]

/-- A lost connection is replaced: if the error is recoverable and the backoff elapses, another service is
built, and reported ready once it is. -/
theorem C20_lost_connections_are_replaced (w : World) (k : Nat) (hst : w.state = .connected k) (e : Err)
    (x : Answers) (y : Poll) :
    let as : List Answers := [⟨.err e, true, x.backoff⟩, ⟨y, true, .more⟩, ⟨.ready, true, .more⟩]
    (w.pollReady as).1.log = w.log ++ [.failure k e (some w.made), .waited w.made, .attempt w.built,
      .success w.built] ∧
    (w.pollReady as).2 = .ready ∧ (w.pollReady as).1.call = some w.built := by
  simp [World.pollReady, World.round, hst, World.build, World.call]

/-- Service 0 fails to connect twice, waiting on backoff 0 each time; service 2 connects, is lost, and backoff 2 is
used; service 3's failure is unrecoverable. -/
def scenario : List (List Answers) :=
  let e (n : Nat) : Answers := ⟨.err n, true, .more⟩
  [[e 1, e 1, e 1, e 2, e 1, ⟨.ready, true, .pending⟩], [e 3, ⟨.ready, true, .pending⟩], [e 1, ⟨.err 4, false, .more⟩]]

example :
    (World.init.after scenario).log =
      [.attempt 0, .failure 0 1 (some 0), .waited 0, .attempt 1, .failure 1 2 (some 1), .waited 0, .attempt 2,
       .success 2, .failure 2 3 (some 2), .idle 2, .waited 2, .attempt 3, .failure 3 4 none] ∧
    ((World.init.after (scenario.take 0)).pollReady (scenario[0]!)).2 = .ready ∧
    ((World.init.after (scenario.take 2)).pollReady (scenario[2]!)).2 = .err 4 := by
  decide +kernel

end Verif.Reconnect
