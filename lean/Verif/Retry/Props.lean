import Verif.Retry.Lemmas
import Verif.Retry.Spec

/-!
# Property theorems: the retry loop (C03)
-/
namespace Verif.Retry
variable {R E : Type}

theorem sends_append (a b : List Ev) : sends (a ++ b) = sends a ++ sends b := by
  induction a with
  | nil => rfl
  | cons x a ih => cases x <;> simp [sends, ih]

theorem sends_prep (p : Params) (i : Nat) : sends (prep p i) = [] := by
  unfold prep; split <;> rfl

theorem sends_rounds (p : Params) (n k : Nat) : sends (rounds p n k) = List.range' n k := by
  induction k generalizing n with
  | zero => rfl
  | succ k ih =>
    rw [rounds_succ, sends_append, sends_append, sends_prep, ih, List.range'_succ]
    rfl

/-- Everything about one run: either only the initial attempt is made, or the loop is entered. -/
theorem run_cases (p : Params) (retryable : Except E R → Bool) (env : Env R E) :
    ((retryable (env.result 0) = false ∨ env.capped 0 ≠ some false) ∧
      sendWithRetries p retryable env = { answer := env.result 0, log := [.send 0], metrics := {} }) ∨
    ∃ k tail ans m', k ≤ p.maxRetries ∧
      sendWithRetries p retryable env =
        { answer := ans, log := [.send 0] ++ rounds p 1 k ++ tail, metrics := m' } ∧
      (∀ i, i < k → retryable (env.result i) = true ∧
        env.capped i = some false ∧ env.ready (i + 1) = .ready) ∧
      Stop p retryable env p.maxRetries 1 {} k tail ans m' := by
  unfold sendWithRetries
  by_cases hr : retryable (env.result 0) = true
  · by_cases hc : env.capped 0 = some false
    · right
      obtain ⟨k, tail, ans, m', h1, h2, h3, h4⟩ :=
        loop_spec p retryable env p.maxRetries 1 {} [.send 0] (Nat.le_refl _) (by simpa using hr) (by simpa using hc)
      refine ⟨k, tail, ans, m', h1, ?_, ?_, h4⟩
      · simpa [hr, hc] using h2
      · intro i hi
        have := h3 i hi
        have e : 1 + i - 1 = i := by omega
        rw [e, Nat.add_comm 1 i] at this
        exact this
    · left; simp [hr, hc]
  · left
    have hr : retryable (env.result 0) = false := by simpa using hr
    simp [hr]

theorem Stop.sends_tail {p : Params} {retryable : Except E R → Bool} {env : Env R E} {todo n k : Nat}
    {m m' : Metrics} {tail ans} (h : Stop p retryable env todo n m k tail ans m') : sends tail = [] := by
  cases h <;> first | rfl | exact sends_prep _ _

/-- C03 (bound). The request is sent once, then at most `max_retries` more times, numbered in order. -/
theorem C03_attempts_bounded (p : Params) (retryable : Except E R → Bool) (env : Env R E) :
    ∃ k, k ≤ p.maxRetries ∧ sends (sendWithRetries p retryable env).log = List.range (k + 1) := by
  rcases run_cases p retryable env with ⟨_, h⟩ | ⟨k, tail, ans, m', hk, h, _, hs⟩
  · exact ⟨0, Nat.zero_le _, by rw [h]; rfl⟩
  · refine ⟨k, hk, ?_⟩
    rw [h]
    simp only [sends_append, sends_rounds, hs.sends_tail, List.append_nil]
    rw [List.range_eq_range', List.range'_succ]; rfl

/-- C03 (guard). A further attempt is made only after a retryable result, with the request body
replayable (neither over the limit nor still in use), and on a service that is ready right away. -/
theorem C03_resend_only_when_allowed (p : Params) (retryable : Except E R → Bool) (env : Env R E)
    (n : Nat) (h : Ev.send (n + 1) ∈ (sendWithRetries p retryable env).log) :
    retryable (env.result n) = true ∧ env.capped n = some false ∧ env.ready (n + 1) = .ready := by
  have hmem : ∀ l : List Ev, ∀ n, Ev.send n ∈ l ↔ n ∈ sends l := by
    intro l n
    induction l with
    | nil => simp [sends]
    | cons x l ih => cases x <;> simp [sends, ih]
  rcases run_cases p retryable env with ⟨_, he⟩ | ⟨k, tail, ans, m', hk, he, hall, hs⟩
  · rw [he] at h; simp at h
  · rw [he, hmem] at h
    simp only [sends_append, sends_rounds, hs.sends_tail, List.append_nil] at h
    simp only [sends, List.mem_append, List.mem_cons, List.not_mem_nil, or_false, List.mem_range'_1] at h
    exact hall n (by omega)

/-- C03 (wait). With a backoff configured, each further attempt is immediately preceded by waiting for
the backoff and then checking readiness. -/
theorem C03_resend_waits (p : Params) (retryable : Except E R → Bool) (env : Env R E)
    (hb : p.backoff = true) (n : Nat)
    (h : Ev.send (n + 1) ∈ (sendWithRetries p retryable env).log) :
    [Ev.wait (n + 1), .checkReady (n + 1), .send (n + 1)] <:+: (sendWithRetries p retryable env).log := by
  rcases run_cases p retryable env with ⟨_, he⟩ | ⟨k, tail, ans, m', hk, he, hall, hs⟩
  · rw [he] at h; simp at h
  · rw [he] at h ⊢
    have key : ∀ a k, Ev.send (n + 1) ∈ rounds p a k →
        [Ev.wait (n + 1), .checkReady (n + 1), .send (n + 1)] <:+: rounds p a k := by
      intro a k
      induction k generalizing a with
      | zero => simp [rounds]
      | succ k ih =>
        rw [rounds_succ]
        intro hm
        have hp : prep p a = [.wait a, .checkReady a] := by simp [prep, hb]
        rw [hp] at hm ⊢
        simp only [List.cons_append, List.nil_append, List.mem_cons, reduceCtorEq, Ev.send.injEq, false_or] at hm
        rcases hm with rfl | hm
        · exact ⟨[], rounds p (n + 1 + 1) k, by simp⟩
        · obtain ⟨x, y, hxy⟩ := ih (a + 1) hm
          exact ⟨[.wait a, .checkReady a, .send a] ++ x, y, by rw [← hxy]; simp [List.append_assoc]⟩
    have hin : Ev.send (n + 1) ∈ rounds p 1 k := by
      rcases List.mem_append.1 h with h | h
      · rcases List.mem_append.1 h with h | h
        · simp at h
        · exact h
      · have hmem : ∀ l : List Ev, ∀ n, Ev.send n ∈ l → n ∈ sends l := by
          intro l n
          induction l with
          | nil => simp
          | cons x l ih => cases x <;> simp [sends] <;> grind
        have := hmem _ _ h
        rw [hs.sends_tail] at this; cases this
    obtain ⟨x, y, hxy⟩ := key 1 k hin
    exact ⟨[.send 0] ++ x, y ++ tail, by rw [← hxy]; simp [List.append_assoc]⟩

/-- C03 (answer). The caller gets the result of the last attempt made - or, if the service itself
fails while it is made ready for one more attempt, that failure. -/
theorem C03_answer_is_last_attempt (p : Params) (retryable : Except E R → Bool) (env : Env R E) :
    ∃ k, sends (sendWithRetries p retryable env).log = List.range (k + 1) ∧
      ((sendWithRetries p retryable env).answer = env.result k ∨
       ∃ e, env.ready (k + 1) = .failed e ∧ (sendWithRetries p retryable env).answer = .error e) := by
  rcases run_cases p retryable env with ⟨_, h⟩ | ⟨k, tail, ans, m', hk, h, _, hs⟩
  · exact ⟨0, by rw [h]; rfl, Or.inl (by rw [h])⟩
  · refine ⟨k, ?_, ?_⟩
    · rw [h]
      simp only [sends_append, sends_rounds, hs.sends_tail, List.append_nil]
      rw [List.range_eq_range', List.range'_succ]; rfl
    · rw [h]
      have e1 : 1 + k - 1 = k := by omega
      cases hs with
      | final => left; rw [e1]
      | capped => left; rw [e1]
      | limit => left; rw [e1]
      | overflow => left; rw [e1]
      | failed _ _ _ e hr => right; exact ⟨e, by rw [Nat.add_comm]; exact hr, rfl⟩

/-- The failure case of `C03_answer_is_last_attempt` is real: a response that had been received is
discarded when the service fails to become ready (the `?` on line 308). -/
theorem C03_ready_failure_discards_response :
    (sendWithRetries { maxRetries := 3, backoff := false } (fun _ => true)
      { result := fun _ => Except.ok (503 : Nat), capped := fun _ => some false,
        ready := fun _ => .failed "closed" }).answer = .error "closed" := rfl

/-- C03 (stop). Attempts stop only for one of the documented reasons. -/
theorem C03_stops_only_for_reason (p : Params) (retryable : Except E R → Bool) (env : Env R E) (k : Nat)
    (hk : sends (sendWithRetries p retryable env).log = List.range (k + 1)) :
    retryable (env.result k) = false ∨ env.capped k ≠ some false ∨ k = p.maxRetries ∨
      env.ready (k + 1) ≠ .ready := by
  rcases run_cases p retryable env with ⟨h0, h⟩ | ⟨k', tail, ans, m', hk', h, _, hs⟩
  · rw [h] at hk
    have : k = 0 := by
      have := congrArg List.length hk
      simp [sends] at this; omega
    subst this
    rcases h0 with h0 | h0
    · exact Or.inl h0
    · exact Or.inr (Or.inl h0)
  · have : k = k' := by
      have := congrArg List.length hk
      rw [h] at this
      simp [sends_append, sends_rounds, hs.sends_tail, sends] at this; omega
    subst this
    have e1 : 1 + k - 1 = k := by omega
    have e2 : 1 + k = k + 1 := by omega
    cases hs with
    | final _ h' => left; rw [← e1]; exact h'
    | capped _ _ h' => right; left; rw [← e1]; exact h'
    | limit h' => right; right; left; exact h'
    | overflow _ _ _ h' => right; right; right; rw [← e2, h']; simp
    | failed _ _ _ _ h' => right; right; right; rw [← e2, h']; simp

/-- C03 (accounting). With `k` retries sent: `requests = k`; `successes` counts a final non-retryable
response to a retry; `overflow` counts stopping because the service was not ready; `limit_exceeded`
counts running out of attempts; and at most one of the latter three is counted. -/
theorem C03_metrics_agree (p : Params) (retryable : Except E R → Bool) (env : Env R E) (k : Nat)
    (hk : sends (sendWithRetries p retryable env).log = List.range (k + 1)) :
    let m := (sendWithRetries p retryable env).metrics
    let replayable := retryable (env.result k) = true ∧ env.capped k = some false
    m.requests = k ∧
    m.successes = (if 1 ≤ k ∧ retryable (env.result k) = false ∧ isOk (env.result k) = true then 1 else 0) ∧
    (m.limitExceeded = 1 ↔ replayable ∧ k = p.maxRetries) ∧
    (m.overflow = 1 ↔ replayable ∧ k < p.maxRetries ∧ env.ready (k + 1) = .notReady) ∧
    m.successes + m.limitExceeded + m.overflow ≤ 1 := by
  rcases run_cases p retryable env with ⟨h0, h⟩ | ⟨k', tail, ans, m', hk', h, _, hs⟩
  · rw [h] at hk
    have : k = 0 := by
      have := congrArg List.length hk
      simp [sends] at this; omega
    subst this
    rw [h]
    rcases h0 with h0 | h0 <;> simp [h0]
  · have : k = k' := by
      have := congrArg List.length hk
      rw [h] at this
      simp [sends_append, sends_rounds, hs.sends_tail, sends] at this; omega
    subst this
    rw [h]
    have e1 : 1 + k - 1 = k := by omega
    have e2 : 1 + k = k + 1 := by omega
    cases hs with
    | final hk h' =>
      rw [e1] at h' ⊢
      by_cases ho : isOk (env.result k) = true <;> simp [h', ho, addReq, hk]
    | capped hk h' hc => rw [e1] at h' hc; simp [h', hc, addReq]
    | limit hk h' hc => rw [e1] at h' hc; subst hk; simp [h', hc, addReq]
    | overflow hk h' hc hr => rw [e1] at h' hc; rw [e2] at hr; simp [h', hc, hr, addReq]; omega
    | failed hk h' hc e hr => rw [e1] at h' hc; rw [e2] at hr; simp [h', hc, hr, addReq]; omega

/-- C03 (no policy). Without a policy, or with a body too large to buffer, the request is sent exactly
once and its result returned, and nothing is counted. -/
theorem C03_without_policy_passthrough (policy : Option (Params × (Except E R → Bool))) (tooLarge : Bool)
    (env : Env R E) (h : policy = none ∨ tooLarge = true) :
    call policy tooLarge env = { answer := env.result 0, log := [.send 0], metrics := {} } := by
  cases policy with
  | none => rfl
  | some p =>
    rcases h with h | h
    · cases h
    · obtain ⟨p, r⟩ := p; simp [call, h]

/-- A run with two retries, the second of which succeeds. -/
example :
    let env : Env Nat String :=
      { result := fun n => .ok (if n = 2 then 200 else 503), capped := fun _ => some false, ready := fun _ => .ready }
    let o := sendWithRetries { maxRetries := 3, backoff := true } (fun r => match r with | .ok 503 => true | _ => false) env
    sends o.log = [0, 1, 2] ∧ isOk o.answer ∧ o.metrics = { requests := 2, successes := 1 } ∧
      Ev.send 2 ∈ o.log := by decide

end Verif.Retry
