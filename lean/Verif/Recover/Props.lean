import Verif.Recover.Model

/-! # C21: the recovering resolution -/

namespace Verif.Recover

open Attempts

/-! ### Specification -/

/-- What the latest session has said so far. -/
def World.session (w : World) : List Update := w.sessions.headD []

/-- Has the latest session said something that describes endpoints? A session that only removes has not. -/
def informed (s : List Update) : Bool := s.any (fun u => match u with | .remove _ => false | _ => true)

/-! ### Proofs -/

structure Inv (w : World) : Prop where
  lawful : Lawful w.log
  begun : (past w.log).begun = w.begun
  made : (past w.log).made = w.made
  ne : w.sessions ≠ []
  state : match w.state with
    | .disconnected b => (past w.log).current = none ∧ (past w.log).owesWait = false ∧ (past w.log).backoff = b
    | .backoff b => (past w.log).current = none ∧ (past w.log).owesWait = true ∧ (past w.log).backoff = some b
    | .connecting k b => (past w.log).current = some k ∧ (past w.log).owesWait = false ∧ (past w.log).backoff = b ∧
        w.session = []
    | .connected k i => (past w.log).current = some k ∧ (past w.log).owesWait = false ∧
        (past w.log).backoff = none ∧ i = !informed w.session
    | .recover k _ b => (past w.log).current = some k ∧ (past w.log).owesWait = false ∧ (past w.log).backoff = b
  told : informed w.session = true → EpSet.described w.emitted = EpSet.described w.session
  quiet : informed w.session = false → EpSet.described w.session = EpSet.empty

theorem described_snoc (us : List Update) (u : Update) :
    EpSet.described (us ++ [u]) = (EpSet.described us).update u := by
  simp [EpSet.described, List.foldl_append]

theorem informed_snoc (us : List Update) (u : Update) : informed (us ++ [u]) = (informed us || informed [u]) := by
  simp [informed, List.any_append]

theorem round_inv {w : World} (h : Inv w) (a : Answers) : Inv (w.round a).1 := by
  obtain ⟨hl, hb, hm, hne, hs, ht, hq⟩ := h
  unfold World.round
  cases hst : w.state with
  | connected s i =>
    rw [hst] at hs
    obtain ⟨h1, h2, h3, h4⟩ := hs
    simp only
    cases a.stream with
    | pending =>
      exact ⟨lawful_snoc hl h1, by simpa [past_snoc, Past.next] using hb, by simpa [past_snoc, Past.next] using hm,
        hne, by simp only [past_snoc, Past.next, hst]; exact ⟨h1, h2, h3, h4⟩, ht, hq⟩
    | err e => exact ⟨hl, hb, hm, hne, ⟨h1, h2, h3⟩, ht, hq⟩
    | done => exact ⟨hl, hb, hm, hne, ⟨h1, h2, h3⟩, ht, hq⟩
    | update u =>
      obtain ⟨x, rest, hx⟩ : ∃ x rest, w.sessions = x :: rest := by
        cases hw : w.sessions with
        | nil => exact absurd hw hne
        | cons x rest => exact ⟨x, rest, rfl⟩
      have hsess : w.session = x := by simp [World.session, hx]
      rw [hsess] at h4 ht hq
      have key : ∀ w'' : World, w''.log = w.log ++ [.success s] → w''.begun = w.begun → w''.made = w.made →
          w''.sessions = (x ++ [u]) :: rest →
          (∃ i', w''.state = .connected s i' ∧ i' = !informed (x ++ [u])) →
          (informed (x ++ [u]) = true → EpSet.described w''.emitted = EpSet.described (x ++ [u])) →
          (informed (x ++ [u]) = false → EpSet.described (x ++ [u]) = EpSet.empty) → Inv w'' := by
        rintro w'' g1 g2 g3 g4 ⟨i', g5, g6⟩ g7 g8
        have gs : w''.session = x ++ [u] := by simp [World.session, g4]
        refine ⟨g1 ▸ lawful_snoc hl h1, ?_, ?_, by simp [g4], ?_, by rw [gs]; exact g7, by rw [gs]; exact g8⟩
        · simpa [g1, g2, past_snoc, Past.next] using hb
        · simpa [g1, g3, past_snoc, Past.next] using hm
        · rw [g5, gs]
          simpa [g1, past_snoc, Past.next] using ⟨h1, h2, g6⟩
      have hear : World.hear { w with log := w.log ++ [.success s] } u =
          { w with log := w.log ++ [.success s], sessions := (x ++ [u]) :: rest } := by
        simp [World.hear, hx]
      simp only [hst] at hear
      simp only [hear]
      cases i with
      | false =>
        have hi : informed x = true := by simpa using h4
        have hi' : informed (x ++ [u]) = true := by simp [informed_snoc, hi]
        simp only
        refine key _ rfl rfl rfl rfl ⟨false, rfl, by simp [hi']⟩ ?_ ?_
        · intro _
          simp only [passedOn]
          rw [described_snoc, described_snoc, ht hi]
          simp
        · rw [hi']; simp
      | true =>
        have hi : informed x = false := by simpa using h4
        have hdx := hq hi
        cases u with
        | remove addrs =>
          simp only
          have hi' : informed (x ++ [.remove addrs]) = false := by
            rw [informed_snoc, hi]; rfl
          refine key _ rfl rfl rfl rfl ⟨true, rfl, by simp [hi']⟩ ?_ ?_
          · rw [hi']; simp
          · intro _
            rw [described_snoc, hdx]
            funext b
            simp [EpSet.update, EpSet.empty]
        | reset eps =>
          simp only
          have hi' : informed (x ++ [.reset eps]) = true := by simp [informed_snoc, informed]
          refine key _ rfl rfl rfl rfl ⟨false, rfl, by simp [hi']⟩ ?_ ?_
          · intro _; simp only [passedOn, if_true]; rw [described_snoc, described_snoc]; rfl
          · rw [hi']; simp
        | doesNotExist =>
          simp only
          have hi' : informed (x ++ [.doesNotExist]) = true := by simp [informed_snoc, informed]
          refine key _ rfl rfl rfl rfl ⟨false, rfl, by simp [hi']⟩ ?_ ?_
          · intro _; simp only [passedOn, if_true]; rw [described_snoc, described_snoc]; rfl
          · rw [hi']; simp
        | add eps =>
          simp only
          have hi' : informed (x ++ [.add eps]) = true := by simp [informed_snoc, informed]
          refine key _ rfl rfl rfl rfl ⟨false, rfl, by simp [hi']⟩ ?_ ?_
          · intro _; simp only [passedOn, if_true]; rw [described_snoc, described_snoc, hdx]; rfl
          · rw [hi']; simp
  | disconnected b =>
    rw [hst] at hs
    refine ⟨lawful_snoc hl ⟨hs.1, hs.2.1, hb.symm⟩, ?_, ?_, by simp, ?_, ?_, ?_⟩
    · simp [past_snoc, Past.next, hb]
    · simpa [past_snoc, Past.next] using hm
    · simpa [past_snoc, Past.next, World.session] using hs.2
    · simp [World.session, informed]
    · simp [World.session, EpSet.described]
  | connecting s b =>
    rw [hst] at hs
    simp only
    cases a.connect with
    | pending =>
      exact ⟨lawful_snoc hl hs.1, by simpa [past_snoc, Past.next] using hb, by simpa [past_snoc, Past.next] using hm,
        hne, by simpa [past_snoc, Past.next, hst, World.session] using hs, ht, hq⟩
    | ok =>
      refine ⟨lawful_snoc hl hs.1, by simpa [past_snoc, Past.next] using hb, by simpa [past_snoc, Past.next] using hm,
        hne, ?_, ht, hq⟩
      have hsess : World.session { w with state := .connected s true, log := w.log ++ [.success s] } = [] := hs.2.2.2
      refine ⟨?_, ?_, ?_, ?_⟩
      · simpa [past_snoc, Past.next] using hs.1
      · simpa [past_snoc, Past.next] using hs.2.1
      · simp [past_snoc, Past.next]
      · rw [hsess]; simp [informed]
    | err e => exact ⟨hl, hb, hm, hne, ⟨hs.1, hs.2.1, hs.2.2.1⟩, ht, hq⟩
  | recover s e b =>
    rw [hst] at hs
    cases e with
    | none => exact ⟨hl, hb, hm, hne, by rw [hst]; exact hs, ht, hq⟩
    | some e =>
      simp only
      split
      · refine ⟨lawful_snoc hl ⟨hs.1, by simp [hm]⟩, by simpa [past_snoc, Past.next] using hb,
          by simpa [past_snoc, Past.next] using hm, hne, ?_, ht, hq⟩
        simp [past_snoc, Past.next, hs.2.2]
      · exact ⟨lawful_snoc hl ⟨hs.1, by simp⟩, by simpa [past_snoc, Past.next] using hb,
          by simpa [past_snoc, Past.next] using hm, hne, by simpa [past_snoc, Past.next] using hs, ht, hq⟩
  | backoff b =>
    rw [hst] at hs
    simp only
    cases a.backoff with
    | pending =>
      exact ⟨lawful_snoc hl hs.2, by simpa [past_snoc, Past.next] using hb, by simpa [past_snoc, Past.next] using hm,
        hne, by simpa [past_snoc, Past.next, hst] using hs, ht, hq⟩
    | more =>
      exact ⟨lawful_snoc hl hs.2, by simpa [past_snoc, Past.next] using hb, by simpa [past_snoc, Past.next] using hm,
        hne, by simpa [past_snoc, Past.next] using ⟨hs.1, hs.2.2⟩, ht, hq⟩
    | done =>
      exact ⟨lawful_snoc hl hs.2, by simpa [past_snoc, Past.next] using hb, by simpa [past_snoc, Past.next] using hm,
        hne, by simpa [past_snoc, Past.next] using hs.1, ht, hq⟩

theorem poll_inv {w : World} (h : Inv w) (as : List Answers) : Inv (w.poll as).1 := by
  induction as generalizing w with
  | nil => exact h
  | cons a as ih =>
    have hr := round_inv h a
    unfold World.poll
    split
    · rename_i w' r heq; rw [heq] at hr; exact hr
    · rename_i w' heq; rw [heq] at hr; exact ih hr

theorem after_snoc (w : World) (ps : List (List Answers)) (as : List Answers) :
    w.after (ps ++ [as]) = ((w.after ps).poll as).1 := by
  simp [World.after, List.foldl_append]

theorem init_inv : Inv World.init := by
  refine ⟨?_, rfl, rfl, by simp [World.init], ⟨rfl, rfl, rfl, rfl⟩, by simp [World.init, World.session, informed],
    fun _ => rfl⟩
  exact lawful_snoc lawful_nil ⟨rfl, rfl, rfl⟩

theorem after_inv (ps : List (List Answers)) : Inv (World.init.after ps) := by
  induction ps using snoc_induction with
  | nil => exact init_inv
  | snoc ps as ih => rw [after_snoc]; exact poll_inv ih as

/-- However often the stream was lost before: once the latest session has described any endpoints, the
endpoint set that a consumer has built from everything it was ever given is the one the latest session
describes on its own. Endpoints of an earlier session do not linger. -/
theorem C21_consumer_agrees_with_session (polls : List (List Answers)) :
    let w := World.init.after polls
    informed w.session = true → EpSet.described w.emitted = EpSet.described w.session :=
  (after_inv polls).told

/-- Sessions are requested one at a time, after a failure only after a backoff wait; a run of failed
requests goes through one backoff sequence, and losing an established session starts a fresh one. -/
theorem C21_attempts_are_lawful (polls : List (List Answers)) : Lawful (World.init.after polls).log :=
  (after_inv polls).lawful

/-- What a poll returns and what it adds to the history. -/
theorem poll_result (w : World) (as : List Answers) :
    ∃ evs, (w.poll as).1.log = w.log ++ evs ∧
      (∀ e, (w.poll as).2 = .err e → ∃ k, evs.getLast? = some (.failure k e none)) ∧
      ((∀ e, (w.poll as).2 ≠ .err e) → ∀ k e, evs.getLast? ≠ some (.failure k e none)) := by
  induction as generalizing w with
  | nil => exact ⟨[], by simp [World.poll], by simp [World.poll], by simp⟩
  | cons a as ih =>
    have again : ∀ w' : World, ∀ l, w'.log = w.log ++ l → (∀ k e, l.getLast? ≠ some (.failure k e none)) →
        ∃ evs, (w'.poll as).1.log = w.log ++ evs ∧
          (∀ e, (w'.poll as).2 = .err e → ∃ k, evs.getLast? = some (.failure k e none)) ∧
          ((∀ e, (w'.poll as).2 ≠ .err e) → ∀ k e, evs.getLast? ≠ some (.failure k e none)) := by
      intro w' l hl hn
      obtain ⟨evs, h1, h2, h3⟩ := ih w'
      refine ⟨l ++ evs, by rw [h1, hl, List.append_assoc], ?_, ?_⟩
      · intro e he
        obtain ⟨k, hk⟩ := h2 e he
        exact ⟨k, by rw [List.getLast?_append, hk]; rfl⟩
      · intro he k e
        have := h3 he k e
        rw [List.getLast?_append]
        cases hx : evs.getLast? with
        | none => simpa using hn k e
        | some x => rw [hx] at this; simpa using this
    unfold World.poll World.round
    cases hst : w.state with
    | connected s i =>
      simp only
      cases a.stream with
      | pending => exact ⟨[.pending s], rfl, by simp, by simp⟩
      | err e => exact again _ [] (by simp) (by simp)
      | done => exact again _ [] (by simp) (by simp)
      | update u =>
        have hlog : ∀ w' : World, (w'.hear u).log = w'.log := by
          intro w'; unfold World.hear; split <;> rfl
        cases i with
        | false =>
          refine ⟨[.success s], ?_, by simp, by simp⟩
          simp only [hlog]
        | true =>
          cases u with
          | remove addrs => exact again _ [.success s] (by simp only [hlog]) (by simp)
          | _ => refine ⟨[.success s], ?_, by simp, by simp⟩
                 simp only [hlog]
    | disconnected b => exact again _ [.attempt w.begun] rfl (by simp)
    | connecting s b =>
      simp only
      cases a.connect with
      | pending => exact ⟨[.pending s], rfl, by simp, by simp⟩
      | ok => exact again _ [.success s] rfl (by simp)
      | err e => exact again _ [] (by simp) (by simp)
    | recover s e b =>
      cases e with
      | none => exact ⟨[], by simp, by simp, by simp⟩
      | some e =>
        simp only
        cases a.recoverable with
        | true => exact again _ [.failure s e (some w.made)] rfl (by simp)
        | false => refine ⟨[.failure s e none], rfl, ?_, by simp⟩
                   intro e' he
                   simp at he
                   exact ⟨s, by simp [he]⟩
    | backoff b =>
      simp only
      cases a.backoff with
      | pending => exact ⟨[.idle b], rfl, by simp, by simp⟩
      | more => exact again _ [.waited b] rfl (by simp)
      | done => exact again _ [.ended b] rfl (by simp)

/-- The stream yields an error exactly when a session failed, or could not be had, with an error that the
recovery policy declares unrecoverable, and then that error. -/
theorem C21_unrecoverable_errors_surface (polls : List (List Answers)) (as : List Answers) :
    ∃ evs, (World.init.after (polls ++ [as])).log = (World.init.after polls).log ++ evs ∧
      ∀ e, ((World.init.after polls).poll as).2 = .err e ↔ ∃ k, evs.getLast? = some (.failure k e none) := by
  obtain ⟨evs, h1, h2, h3⟩ := poll_result (World.init.after polls) as
  refine ⟨evs, by rw [after_snoc]; exact h1, ?_⟩
  intro e
  constructor
  · exact h2 e
  · rintro ⟨k, hk⟩
    cases hr : ((World.init.after polls).poll as).2 with
    | err e' =>
      obtain ⟨k', hk'⟩ := h2 e' hr
      rw [hk] at hk'
      simp at hk'
      rw [hk'.2]
    | pending => exact absurd hk (h3 (by simp [hr]) k e)
    | item u => exact absurd hk (h3 (by simp [hr]) k e)
    | panic => exact absurd hk (h3 (by simp [hr]) k e)

/-- A consumer is given each update of a session once, in order, the first one as a reset. -/
theorem C21_updates_are_passed_on (w : World) (a : Answers) (s : Nat) (i : Bool) (u : Update)
    (hst : w.state = .connected s i) (ha : a.stream = .update u) (hr : ∀ addrs, ¬ (i = true ∧ u = .remove addrs)) :
    (w.round a).2 = some (.item (if i then (match u with | .add eps => .reset eps | _ => u) else u)) ∧
    (w.round a).1.emitted = w.emitted ++ [if i then (match u with | .add eps => .reset eps | _ => u) else u] := by
  unfold World.round
  rw [hst]
  simp only [ha]
  cases i with
  | false => simp [passedOn]
  | true =>
    cases u with
    | remove addrs => exact absurd ⟨rfl, rfl⟩ (hr addrs)
    | _ => simp [passedOn]

/-- A session that fails or ends is replaced: if the error is recoverable and the backoff elapses, another
session is requested, and its first update is passed on. -/
theorem C21_lost_sessions_are_replaced (w : World) (s : Nat) (i : Bool) (hst : w.state = .connected s i)
    (lost : Stream) (e : Err) (hl : lost = .err e ∨ (lost = .done ∧ e = eos)) (c : Connect) (x : Answers)
    (eps : List (Addr × Ep)) :
    let as : List Answers := [⟨c, lost, true, .more⟩, ⟨c, lost, true, .more⟩, ⟨c, lost, true, .more⟩, x,
      ⟨.ok, lost, true, .more⟩, ⟨c, .update (.add eps), true, .more⟩]
    (w.poll as).1.log = w.log ++ [.failure s e (some w.made), .waited w.made, .attempt w.begun, .success w.begun,
      .success w.begun] ∧
    (w.poll as).2 = .item (.reset eps) := by
  rcases hl with rfl | ⟨rfl, rfl⟩ <;> simp [World.poll, World.round, hst, World.hear, passedOn]

/-- Two endpoints are learnt; the session is lost; its successor cannot be had at first; then it knows only one of
the endpoints, and so does the consumer. An unrecoverable error follows. -/
def scenario : List (List Answers) :=
  let a (s : Stream) : Answers := ⟨.ok, s, true, .more⟩
  [[a .pending, a (.update (.add [(1, 10), (2, 20)]))], [a (.err 5), a .pending, a .pending, a .pending,
    ⟨.err 6, .pending, true, .more⟩, a .pending, a .pending, a .pending, a .pending, a (.update (.add [(2, 21)]))],
   [a (.update (.add [(3, 30)]))], [a .done, ⟨.ok, .pending, false, .more⟩]]

example :
    let w := World.init.after (scenario.take 3)
    informed w.session = true ∧
    w.emitted = [.reset [(1, 10), (2, 20)], .reset [(2, 21)], .add [(3, 30)]] ∧
    w.log = [.attempt 0, .success 0, .success 0, .failure 0 5 (some 0), .waited 0, .attempt 1,
      .failure 1 6 (some 1), .waited 0, .attempt 2, .success 2, .success 2, .success 2] ∧
    [1, 2, 3].map (EpSet.described w.emitted) = [none, some 21, some 30] ∧
    (w.poll (scenario[3]!)).2 = .err eos := by
  decide +kernel

end Verif.Recover
