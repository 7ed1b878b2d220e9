import Verif.Retry.Model

namespace Verif.Retry
variable {R E : Type}

/-- The events of the preparation of send `i`. -/
def prep (p : Params) (i : Nat) : List Ev :=
  (if p.backoff then [.wait i] else []) ++ [.checkReady i]

/-- The events of the `k` resends starting with number `n`. -/
def rounds (p : Params) (n k : Nat) : List Ev :=
  (List.range' n k).flatMap (fun i => prep p i ++ [.send i])

theorem rounds_succ (p : Params) (n k : Nat) :
    rounds p n (k + 1) = prep p n ++ [.send n] ++ rounds p (n + 1) k := by
  simp [rounds, List.range'_succ]

/-- The metrics after `k` resends. -/
def addReq (m : Metrics) (k : Nat) : Metrics := { m with requests := m.requests + k }

/-- Why the loop stopped after `k` resends starting with number `n`, what is logged last, what is
answered and what is counted. -/
inductive Stop (p : Params) (retryable : Except E R → Bool) (env : Env R E) (todo n : Nat) (m : Metrics) (k : Nat) :
    List Ev → Except E R → Metrics → Prop
  | final (hk : 1 ≤ k) (h : retryable (env.result (n + k - 1)) = false) :
      Stop p retryable env todo n m k [] (env.result (n + k - 1))
        (if isOk (env.result (n + k - 1)) then
          { addReq m k with successes := m.successes + 1 } else addReq m k)
  | capped (hk : 1 ≤ k) (h : retryable (env.result (n + k - 1)) = true)
      (hc : env.capped (n + k - 1) ≠ some false) :
      Stop p retryable env todo n m k [] (env.result (n + k - 1)) (addReq m k)
  | limit (hk : k = todo) (h : retryable (env.result (n + k - 1)) = true)
      (hc : env.capped (n + k - 1) = some false) :
      Stop p retryable env todo n m k [] (env.result (n + k - 1))
        { addReq m k with limitExceeded := m.limitExceeded + 1 }
  | overflow (hk : k < todo) (h : retryable (env.result (n + k - 1)) = true)
      (hc : env.capped (n + k - 1) = some false) (hr : env.ready (n + k) = .notReady) :
      Stop p retryable env todo n m k (prep p (n + k)) (env.result (n + k - 1))
        { addReq m k with overflow := m.overflow + 1 }
  | failed (hk : k < todo) (h : retryable (env.result (n + k - 1)) = true)
      (hc : env.capped (n + k - 1) = some false) (e : E) (hr : env.ready (n + k) = .failed e) :
      Stop p retryable env todo n m k (prep p (n + k)) (.error e) (addReq m k)

theorem loop_spec (p : Params) (retryable : Except E R → Bool) (env : Env R E)
    (todo n : Nat) (m : Metrics) (log : List Ev) (hn : 1 ≤ n)
    (h0 : retryable (env.result (n - 1)) = true) (hc0 : env.capped (n - 1) = some false) :
    ∃ k tail ans m', k ≤ todo ∧
      loop p retryable env todo n (env.result (n - 1)) m log =
        { answer := ans, log := log ++ rounds p n k ++ tail, metrics := m' } ∧
      (∀ i, i < k → retryable (env.result (n + i - 1)) = true ∧
        env.capped (n + i - 1) = some false ∧ env.ready (n + i) = .ready) ∧
      Stop p retryable env todo n m k tail ans m' := by
  induction todo generalizing n m log with
  | zero =>
    have hs := Stop.limit (p := p) (todo := 0) (m := m) (k := 0) (n := n) rfl (by simpa using h0) (by simpa using hc0)
    refine ⟨0, _, _, _, Nat.le_refl _, ?_, by simp, hs⟩
    simp [loop, rounds, addReq]
  | succ todo ih =>
    have hlog : ∀ l : List Ev, (if p.backoff then log ++ [.wait n] else log) ++ [.checkReady n] ++ l =
        log ++ prep p n ++ l := by
      intro l; unfold prep; split <;> simp
    cases hr : env.ready n with
    | failed e =>
      refine ⟨0, prep p n, .error e, addReq m 0, Nat.zero_le _, ?_, by simp, ?_⟩
      · simp only [loop, hr, rounds, List.range'_zero, List.flatMap_nil, List.append_nil]
        have := hlog []
        simp only [List.append_nil] at this
        rw [this]; simp [addReq]
      · exact Stop.failed (k := 0) (n := n) (Nat.succ_pos _) (by simpa using h0) (by simpa using hc0) e (by simpa using hr)
    | notReady =>
      have hs := Stop.overflow (p := p) (todo := todo + 1) (m := m) (k := 0) (n := n) (Nat.succ_pos _) (by simpa using h0) (by simpa using hc0) (by simpa using hr)
      refine ⟨0, _, _, _, Nat.zero_le _, ?_, by simp, hs⟩
      · simp only [loop, hr, rounds, List.range'_zero, List.flatMap_nil, List.append_nil]
        have := hlog []
        simp only [List.append_nil] at this
        rw [this]; simp [addReq]
    | ready =>
      by_cases hret : retryable (env.result n) = true
      · by_cases hcap : env.capped n = some false
        · obtain ⟨k, tail, ans, m', hk, heq, hall, hstop⟩ :=
            ih (n + 1) { m with requests := m.requests + 1 } (log ++ prep p n ++ [.send n]) (by omega)
              (by simpa using hret) (by simpa using hcap)
          refine ⟨k + 1, tail, ans, m', by omega, ?_, ?_, ?_⟩
          · simp only [loop, hr, hret, hcap, Bool.not_true, Bool.false_eq_true, if_false, ne_eq,
              not_true_eq_false]
            rw [hlog [.send n]]
            simp only [Nat.add_sub_cancel] at heq
            rw [heq, rounds_succ]
            simp [List.append_assoc]
          · intro i hi
            cases i with
            | zero => exact ⟨by simpa using h0, by simpa using hc0, by simpa using hr⟩
            | succ i =>
              have := hall i (by omega)
              have e1 : n + (i + 1) - 1 = n + 1 + i - 1 := by omega
              have e2 : n + (i + 1) = n + 1 + i := by omega
              rw [e1, e2]; exact this
          · have e1 : n + 1 + k - 1 = n + (k + 1) - 1 := by omega
            have e2 : n + 1 + k = n + (k + 1) := by omega
            have e3 : addReq { m with requests := m.requests + 1 } k = addReq m (k + 1) := by
              simp [addReq]; omega
            cases hstop with
            | final hk' h =>
              rw [e1] at *; rw [e3]
              exact Stop.final (by omega) h
            | capped hk' h hc =>
              rw [e1] at *; rw [e3]
              exact Stop.capped (by omega) h hc
            | limit hk' h hc =>
              rw [e1] at *; rw [e3]
              exact Stop.limit (by omega) h hc
            | overflow hk' h hc hr' =>
              rw [e1] at *; rw [e3, e2] at *
              exact Stop.overflow (by omega) h hc hr'
            | failed hk' h hc e hr' =>
              rw [e1] at *; rw [e3, e2] at *
              exact Stop.failed (by omega) h hc e hr'
        · refine ⟨1, [], env.result n, addReq m 1, by omega, ?_, ?_, ?_⟩
          · simp only [loop, hr, hret, Bool.not_true, Bool.false_eq_true, if_false, ne_eq, hcap,
              not_false_eq_true, if_true]
            rw [hlog [.send n], rounds_succ]
            simp [rounds, addReq, List.append_assoc]
          · intro i hi
            have : i = 0 := by omega
            subst this
            exact ⟨by simpa using h0, by simpa using hc0, by simpa using hr⟩
          · exact Stop.capped (k := 1) (n := n) (Nat.le_refl _) (by simpa using hret) (by simpa using hcap)
      · have hret' : retryable (env.result n) = false := by simpa using hret
        have hs := Stop.final (p := p) (retryable := retryable) (env := env) (todo := todo + 1) (k := 1) (n := n) (m := m) (Nat.le_refl _) (by simpa using hret')
        refine ⟨1, _, _, _, by omega, ?_, ?_, hs⟩
        · simp only [loop, hr, hret', Bool.not_false, if_true]
          rw [hlog [.send n], rounds_succ]
          simp [rounds, addReq, List.append_assoc]
        · intro i hi
          have : i = 0 := by omega
          subst this
          exact ⟨by simpa using h0, by simpa using hc0, by simpa using hr⟩

end Verif.Retry
