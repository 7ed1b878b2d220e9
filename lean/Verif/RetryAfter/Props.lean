import Verif.RetryAfter.Model

/-!
# C16 — server-provided retry delays are parsed safely and capped

A Retry-After header or gRPC pushback value is honoured only for the documented statuses,
malformed/negative values are ignored, and the resulting delay never exceeds the configured cap.
-/

namespace Verif.RetryAfter
open Text

/-- A delay in a header value: a decimal number, possibly with a plus sign, with blanks around it. -/
def Delay (s : List Char) (n : Nat) : Prop :=
  Numeral (trim s) n ∨ ∃ r, trim s = '+' :: r ∧ Numeral r n

theorem parseValue_iff (date : List Char → Option Nat) (now : Nat) (s : List Char) (max d : Nat) :
    parseValue date now s max = some d ↔
      (∃ n, n ≤ u64Max ∧ Delay s n ∧ d = min (n * 1000000000) max) ∨
      ((¬ ∃ n, n ≤ u64Max ∧ Delay s n) ∧ ∃ t, date (trim s) = some t ∧ d = min (t - now) max) := by
  unfold parseValue
  simp only
  cases hp : parseUnsigned u64Max (trim s) with
  | some n =>
    obtain ⟨h1, h2⟩ := (parseUnsigned_iff _ _ _).1 hp
    simp only [Option.some.injEq]
    constructor
    · intro h; exact Or.inl ⟨n, h1, h2, h.symm⟩
    · rintro (⟨m, h3, h4, h5⟩ | ⟨h3, _⟩)
      · have := (parseUnsigned_iff _ _ _).2 ⟨h3, h4⟩
        rw [hp] at this; cases this; exact h5.symm
      · exact absurd ⟨n, h1, h2⟩ h3
  | none =>
    have hno : ¬ ∃ n, n ≤ u64Max ∧ Delay s n := by
      rintro ⟨n, h1, h2⟩
      have := (parseUnsigned_iff _ _ _).2 ⟨h1, h2⟩
      rw [hp] at this; cases this
    simp only
    have heq : (match date (trim s) with
        | some t => if now ≤ t then some (min (t - now) max) else some 0
        | none => none) = (date (trim s)).map (fun t => min (t - now) max) := by
      cases date (trim s) with
      | none => rfl
      | some t =>
        simp only [Option.map_some]
        split
        · rfl
        · congr 1; omega
    refine Iff.trans (b := (date (trim s)).map (fun t => min (t - now) max) = some d) (by rw [← heq]; exact Iff.rfl) ?_
    rw [Option.map_eq_some_iff]
    constructor
    · rintro ⟨t, h1, h2⟩; exact Or.inr ⟨hno, t, h1, h2.symm⟩
    · rintro (⟨n, h1, h2, _⟩ | ⟨_, t, h1, h2⟩)
      · exact absurd ⟨n, h1, h2⟩ hno
      · exact ⟨t, h1, h2.symm⟩

/-- Exactly which responses carry a delay, and which: a 429 or 503 with a readable `retry-after` that is a
number of seconds (up to `u64::MAX`), or else a date — the time until it, zero if it has passed — always
cut at the cap. Everything else is ignored. -/
theorem C16_retry_after_meaning (date : List Char → Option Nat) (now status : Nat) (h : HeaderMap) (max d : Nat) :
    parseRetryAfter date now status h max = some d ↔
      (status = 429 ∨ status = 503) ∧
      ∃ s, h.get "retry-after" = some s ∧ (∀ c ∈ s, visible c = true) ∧
        ((∃ n, n ≤ u64Max ∧ Delay s n ∧ d = min (n * 1000000000) max) ∨
         ((¬ ∃ n, n ≤ u64Max ∧ Delay s n) ∧ ∃ t, date (trim s) = some t ∧ d = min (t - now) max)) := by
  unfold parseRetryAfter
  by_cases hs : status ≠ 429 ∧ status ≠ 503
  · rw [if_pos hs]
    constructor
    · intro h; cases h
    · rintro ⟨h | h, _⟩
      · exact absurd h hs.1
      · exact absurd h hs.2
  · rw [if_neg hs]
    have hs' : status = 429 ∨ status = 503 := by omega
    simp only [hs', true_and]
    cases hg : h.get "retry-after" with
    | none => simp
    | some v =>
      simp only [Option.bind_some, toStr, List.all_eq_true, Option.some.injEq, exists_eq_left']
      by_cases hv : ∀ c ∈ v, visible c = true
      · rw [if_pos hv]
        simp only [Option.bind_some]
        rw [parseValue_iff]
        constructor
        · intro h; exact ⟨hv, h⟩
        · intro h; exact h.2
      · rw [if_neg hv]
        constructor
        · intro h; cases h
        · intro h; exact absurd h.1 hv

/-- Which headers carry a gRPC pushback: a readable, non-negative 32-bit number of milliseconds. -/
theorem C16_pushback_meaning (h : HeaderMap) (max d : Nat) :
    parsePushback h max = some d ↔
      ∃ s ms, h.get "grpc-retry-pushback-ms" = some s ∧ (∀ c ∈ s, visible c = true) ∧
        ((ms ≤ 2147483647 ∧ Delay s ms) ∨ (ms = 0 ∧ ∃ r, trim s = '-' :: r ∧ Numeral r 0)) ∧
        d = min (ms * 1000000) max := by
  unfold parsePushback
  cases hg : h.get "grpc-retry-pushback-ms" with
  | none => simp
  | some v =>
    simp only [Option.bind_some, toStr, List.all_eq_true]
    by_cases hv : ∀ c ∈ v, visible c = true
    · rw [if_pos hv]
      simp only [Option.bind_some]
      have key : ∀ ms : Nat, parseI32 (trim v) = some (ms : Int) ↔
          ((ms ≤ 2147483647 ∧ Delay v ms) ∨ (ms = 0 ∧ ∃ r, trim v = '-' :: r ∧ Numeral r 0)) := by
        intro ms
        rw [parseI32_nonneg, parseUnsigned_iff]; rfl
      constructor
      · intro hh
        cases hp : parseI32 (trim v) with
        | none => rw [hp] at hh; cases hh
        | some i =>
          rw [hp] at hh
          simp only at hh
          by_cases hi : i < 0
          · rw [if_pos hi] at hh; cases hh
          · rw [if_neg hi] at hh
            simp only [Option.some.injEq] at hh
            obtain ⟨m, rfl⟩ : ∃ m : Nat, i = m := ⟨i.toNat, by omega⟩
            refine ⟨v, m, rfl, hv, (key m).1 hp, ?_⟩
            rw [← hh]; simp [fromMillis]
      · rintro ⟨s, ms, h1, h2, h3, h4⟩
        cases h1
        rw [(key ms).2 h3]
        simp only
        rw [if_neg (by omega), h4]
        simp [fromMillis]
    · rw [if_neg hv]
      constructor
      · intro h; cases h
      · rintro ⟨s, ms, h1, h2, _⟩; cases h1; exact absurd h2 hv

/-- No delay exceeds the cap, whatever the headers say. -/
theorem C16_never_exceeds_the_cap (date : List Char → Option Nat) (now status : Nat) (h : HeaderMap) (max d : Nat) :
    (parseRetryAfter date now status h max = some d → d ≤ max) ∧ (parsePushback h max = some d → d ≤ max) := by
  constructor
  · intro hh
    obtain ⟨_, s, _, _, ⟨n, _, _, rfl⟩ | ⟨_, t, _, rfl⟩⟩ := (C16_retry_after_meaning _ _ _ _ _ _).1 hh <;> omega
  · intro hh
    obtain ⟨s, ms, _, _, _, rfl⟩ := (C16_pushback_meaning _ _ _).1 hh
    omega

theorem blank_trim_decimal (a b : List Char) (n : Nat) (ha : ∀ c ∈ a, blank c = true) (hb : ∀ c ∈ b, blank c = true) :
    trim (a ++ decimal n ++ b) = decimal n := by
  have hd : ∀ c ∈ decimal n, blank c = false := by
    intro c hc
    have := (numeral_decimal n).2.1 c hc
    simp only [blank, Bool.or_eq_false_iff, beq_eq_false_iff_ne]
    constructor <;> (intro e; subst e; exact absurd this (by decide))
  exact trim_padded a _ b ha hb (fun c hc => hd c (List.mem_of_head? hc)) (fun c hc => hd c (List.mem_of_getLast? hc))

/-- What a server writes is what is read: a number of seconds, or of milliseconds for gRPC, is honoured
exactly, up to the cap. -/
theorem C16_written_delays_are_read (date : List Char → Option Nat) (now n max : Nat) (a b : List Char)
    (ha : ∀ c ∈ a, blank c = true) (hb : ∀ c ∈ b, blank c = true) :
    (n ≤ u64Max → ∀ status, (status = 429 ∨ status = 503) →
      parseRetryAfter date now status [("retry-after", a ++ decimal n ++ b)] max = some (min (n * 1000000000) max)) ∧
    (n ≤ 2147483647 → parsePushback [("grpc-retry-pushback-ms", a ++ decimal n ++ b)] max = some (min (n * 1000000) max)) := by
  have htr := blank_trim_decimal a b n ha hb
  have hdel : Delay (a ++ decimal n ++ b) n := Or.inl (by rw [htr]; exact numeral_decimal n)
  have hvis : ∀ c ∈ a ++ decimal n ++ b, visible c = true := by
    have hbl : ∀ c, blank c = true → visible c = true := by
      intro c hc
      simp only [blank, Bool.or_eq_true, beq_iff_eq] at hc
      rcases hc with rfl | rfl <;> decide
    intro c hc
    simp only [List.mem_append] at hc
    rcases hc with (hc | hc) | hc
    · exact hbl c (ha c hc)
    · have := (numeral_decimal n).2.1 c hc
      have e1 : '0'.toNat = 48 := rfl
      have e2 : '9'.toNat = 57 := rfl
      simp only [visible, Bool.or_eq_true, Bool.and_eq_true, decide_eq_true_eq]
      left; omega
    · exact hbl c (hb c hc)
  constructor
  · intro hn status hs
    exact (C16_retry_after_meaning _ _ _ _ _ _).2 ⟨hs, _, rfl, hvis, Or.inl ⟨n, hn, hdel, rfl⟩⟩
  · intro hn
    exact (C16_pushback_meaning _ _ _).2 ⟨_, n, rfl, hvis, Or.inl ⟨hn, hdel⟩, rfl⟩

/-- A negative pushback is ignored. -/
theorem C16_negative_pushback_is_ignored (n max : Nat) (hn : 0 < n) :
    parsePushback [("grpc-retry-pushback-ms", '-' :: decimal n)] max = none := by
  cases h : parsePushback [("grpc-retry-pushback-ms", '-' :: decimal n)] max with
  | none => rfl
  | some d =>
    obtain ⟨s, ms, h1, _, h3, _⟩ := (C16_pushback_meaning _ _ _).1 h
    cases h1
    have hd : ∀ c ∈ decimal n, blank c = false := by
      intro c hc
      have := (numeral_decimal n).2.1 c hc
      simp only [blank, Bool.or_eq_false_iff, beq_eq_false_iff_ne]
      constructor <;> (intro e; subst e; exact absurd this (by decide))
    have hm : ∀ c ∈ '-' :: decimal n, blank c = false := by
      intro c hc
      rcases List.mem_cons.1 hc with rfl | hc
      · decide
      · exact hd c hc
    have ht : trim ('-' :: decimal n) = '-' :: decimal n := by
      have := trim_padded [] ('-' :: decimal n) [] (by simp) (by simp)
        (fun c hc => hm c (List.mem_of_head? hc)) (fun c hc => hm c (List.mem_of_getLast? hc))
      simpa using this
    unfold Delay at h3
    rw [ht] at h3
    rcases h3 with ⟨_, h4 | ⟨r, h4, _⟩⟩ | ⟨_, r, h4, h5⟩
    · exact absurd (h4.2.1 '-' (by simp)) (by decide)
    · cases h4
    · cases h4
      have e := (numeral_decimal n).2.2
      rw [← h5.2.2] at e
      omega

/-! ### The hint as the load balancer uses it -/

/-- Reading the hint from the cache is the same as parsing it with the cap: caching changes nothing. -/
theorem C16_caching_is_transparent (date : List Char → Option Nat) (now max : Nat) (hmax : max ≤ durationMax)
    (hd : ∀ s t, date s = some t → t ≤ durationMax) (status : Nat) (h : HeaderMap) :
    ((Response.mk status h none).attach date now).rateLimitHint date now max =
      (Response.mk status h none).rateLimitHint date now max := by
  have hr : parseRetryAfter date now status h max = (parseRetryAfter date now status h durationMax).map (fun d => min d max) := by
    cases h1 : parseRetryAfter date now status h durationMax with
    | none =>
      simp only [Option.map_none]
      cases h2 : parseRetryAfter date now status h max with
      | none => rfl
      | some d =>
        obtain ⟨a, s, b, c, hh⟩ := (C16_retry_after_meaning _ _ _ _ _ _).1 h2
        rcases hh with ⟨n, e1, e2, _⟩ | ⟨e1, t, e2, _⟩
        · rw [(C16_retry_after_meaning date now status h durationMax _).2 ⟨a, s, b, c, Or.inl ⟨n, e1, e2, rfl⟩⟩] at h1
          cases h1
        · rw [(C16_retry_after_meaning date now status h durationMax _).2 ⟨a, s, b, c, Or.inr ⟨e1, t, e2, rfl⟩⟩] at h1
          cases h1
    | some d =>
      obtain ⟨a, s, b, c, hh⟩ := (C16_retry_after_meaning _ _ _ _ _ _).1 h1
      simp only [Option.map_some]
      rcases hh with ⟨n, e1, e2, e3⟩ | ⟨e1, t, e2, e3⟩
      · rw [(C16_retry_after_meaning date now status h max _).2 ⟨a, s, b, c, Or.inl ⟨n, e1, e2, rfl⟩⟩]
        congr 1; omega
      · rw [(C16_retry_after_meaning date now status h max _).2 ⟨a, s, b, c, Or.inr ⟨e1, t, e2, rfl⟩⟩]
        congr 1; omega
  have hp : parsePushback h max = (parsePushback h durationMax).map (fun d => min d max) := by
    cases h1 : parsePushback h durationMax with
    | none =>
      simp only [Option.map_none]
      cases h2 : parsePushback h max with
      | none => rfl
      | some d =>
        obtain ⟨s, ms, a, b, c, _⟩ := (C16_pushback_meaning _ _ _).1 h2
        rw [(C16_pushback_meaning h durationMax _).2 ⟨s, ms, a, b, c, rfl⟩] at h1
        cases h1
    | some d =>
      obtain ⟨s, ms, a, b, c, e⟩ := (C16_pushback_meaning _ _ _).1 h1
      rw [(C16_pushback_meaning h max _).2 ⟨s, ms, a, b, c, rfl⟩]
      simp only [Option.map_some]
      congr 1; omega
  unfold Response.attach
  simp only
  cases h1 : parseRetryAfter date now status h durationMax with
  | some d => rw [h1] at hr; simp only [Response.rateLimitHint, hr, Option.map_some]
  | none =>
    rw [h1] at hr
    simp only
    by_cases hg : status = 200 ∧ isGrpc h = true
    · rw [if_pos hg]
      cases h2 : parsePushback h durationMax with
      | some d => rw [h2] at hp; simp only [Response.rateLimitHint, hr, Option.map_none, hp, Option.map_some, if_pos hg]
      | none => rfl
    · rw [if_neg hg]

/-- A penalty is charged exactly for failures: 429, 5xx, and gRPC trailers-only responses with a code that
is the server's fault. -/
theorem C16_penalised_responses (date : List Char → Option Nat) (now penaltyMs maxDuration : Nat) (r : Response) :
    (penalty date now penaltyMs maxDuration r).isSome = true ↔
      r.status = 429 ∨ (500 ≤ r.status ∧ r.status < 600) ∨
      (r.status = 200 ∧ isGrpc r.headers = true ∧
        ∃ v code, r.headers.get "grpc-status" = some v ∧ toStr v = some v ∧ parseUnsigned 65535 v = some code ∧
          code ∈ [2, 4, 8, 13, 14, 15]) := by
  have hp : (penalty date now penaltyMs maxDuration r).isSome = r.failureHint.isSome := by
    unfold penalty; cases r.failureHint <;> rfl
  rw [hp]
  unfold Response.failureHint
  by_cases h1 : r.status = 429
  · simp [h1]
  rw [if_neg h1]
  by_cases h2 : r.status = 503
  · simp [h2]
  rw [if_neg h2]
  by_cases h3 : 500 ≤ r.status ∧ r.status < 600
  · simp [h3]
  rw [if_neg h3]
  by_cases h4 : r.status = 200 ∧ isGrpc r.headers = true
  · rw [if_pos h4]
    simp only [h1, h3, false_or, h4.1, h4.2, true_and]
    cases hg : r.headers.get "grpc-status" with
    | none => simp
    | some v =>
      simp only [Option.bind_some, Option.some.injEq, exists_eq_left', exists_and_left]
      have ht : toStr v = some v ∨ toStr v = none := by unfold toStr; split <;> simp
      rcases ht with ht | ht
      · rw [ht]
        simp only [Option.bind_some, true_and]
        cases parseUnsigned 65535 v with
        | none => simp
        | some code =>
          simp only [Option.bind_some, Option.some.injEq, exists_eq_left']
          unfold grpcHint
          simp only [List.mem_cons, List.not_mem_nil, or_false]
          by_cases c0 : code = 0
          · simp [c0]
          by_cases c8 : code = 8
          · simp [c8]
          by_cases c14 : code = 14
          · simp [c14]
          by_cases ci : code = 2 ∨ code = 4 ∨ code = 13 ∨ code = 15
          · simp [c0, c8, c14, ci]
          · simp [c0, c8, c14, ci]
      · rw [ht]; simp
  · rw [if_neg h4]
    simp only [h1, h3, false_or, Option.isSome_none, Bool.false_eq_true, false_iff]
    rintro ⟨a, b, _⟩
    exact h4 ⟨a, b⟩

/-- A penalty is at least the base penalty and at most the greater of it and the cap, and without a hint
it is the base penalty. -/
theorem C16_penalty_bounds (date : List Char → Option Nat) (now penaltyMs maxDuration : Nat) (r : Response) (d : Nat)
    (h : penalty date now penaltyMs maxDuration r = some d) :
    penaltyMs * 1000000 ≤ d ∧ d ≤ max (penaltyMs * 1000000) maxDuration := by
  have hle : ∀ (r : Response) (x : Nat), r.rateLimitHint date now maxDuration = some x → x ≤ maxDuration := by
    intro r x hx
    unfold Response.rateLimitHint at hx
    split at hx
    · cases hx; omega
    · split at hx
      · rename_i y hy; cases hx; exact (C16_never_exceeds_the_cap _ _ _ _ _ _).1 hy
      · split at hx
        · exact (C16_never_exceeds_the_cap date now 0 _ _ _).2 hx
        · cases hx
  unfold penalty at h
  split at h
  · rename_i hint _
    cases h
    unfold effectiveRtt
    simp only
    split
    · rename_i x hx
      have : x ≤ maxDuration := by
        cases hint <;> simp only at hx
        · exact hle _ _ hx
        · exact hle _ _ hx
        · cases hx
      unfold fromMillis; omega
    · unfold fromMillis; omega
  · cases h

/-- A 503 that asks for two minutes, capped at one; a date in the past; a header that is no number. -/
example :
    parseRetryAfter (fun _ => none) 0 503 [("retry-after", [' ', '1', '2', '0'])] (60 * 1000000000) = some (60 * 1000000000) ∧
    parseRetryAfter (fun _ => some 5) 9 429 [("retry-after", ['W', 'e', 'd'])] 60 = some 0 ∧
    parseRetryAfter (fun _ => none) 9 429 [("retry-after", ['-', '1'])] 60 = none ∧
    parseRetryAfter (fun _ => none) 9 500 [("retry-after", ['1'])] 60 = none ∧
    parsePushback [("grpc-retry-pushback-ms", ['1', '5'])] (60 * 1000000000) = some 15000000 ∧
    penalty (fun _ => none) 0 5000 (300 * 1000000000) ⟨503, [("retry-after", ['9'])], none⟩ = some 9000000000 ∧
    penalty (fun _ => none) 0 5000 (300 * 1000000000) ⟨500, [("retry-after", ['9'])], none⟩ = some 5000000000 := by
  decide +kernel

end Verif.RetryAfter
