import Verif.Retry.Policy

/-!
# Property theorems: the route retry policy (C55, C56, C57)
-/
namespace Verif.Retry.Policy
open Verif.Text

/-! ## C55 - what is retried -/

/-- C55. A response is retried exactly when its HTTP status is in a configured range, or its gRPC
status (from the header, else from trailers that could be peeked) is a configured code. -/
theorem C55_response_retried_iff (p : RetryPolicy) (r : Rsp) :
    isRetryable p (.ok r) = true ↔
      (∃ ranges, p.httpStatuses = some ranges ∧ ∃ lo hi, (lo, hi) ∈ ranges ∧ lo ≤ r.status ∧ r.status ≤ hi) ∨
      (∃ codes c, p.grpcStatuses = some codes ∧ grpcStatus r = some c ∧ c ∈ codes) := by
  have hh : ∀ ranges : Ranges, ranges.has r.status = true ↔ ∃ lo hi, (lo, hi) ∈ ranges ∧ lo ≤ r.status ∧ r.status ≤ hi := by
    intro ranges
    simp only [Ranges.has, List.any_eq_true, Bool.and_eq_true, decide_eq_true_eq, Prod.exists]
  simp only [isRetryable]
  cases hg : p.grpcStatuses with
  | none =>
    cases hs : p.httpStatuses with
    | none => simp
    | some s => simp [hh]
  | some codes =>
    cases hc : grpcStatus r with
    | none =>
      cases hs : p.httpStatuses with
      | none => simp
      | some s => simp [hh]
    | some c =>
      by_cases hmem : c ∈ codes
      · simp [hmem]
      · cases hs : p.httpStatuses with
        | none => simp [hmem]
        | some s => simp [hmem, hh]

/-- C55. The gRPC status looked at is the header's when there is one - even if it is unreadable -
and otherwise the peeked trailers'; a value that is no code of gRPC's, but a number, reads as 2 (unknown). -/
theorem C55_grpc_status_source (r : Rsp) (n : Nat) :
    (n ≤ 16 → r.grpcHeader = some (decimal n) → grpcStatus r = some n) ∧
    (n ≤ 16 → r.grpcHeader = none → r.peeked = some (some (decimal n)) → grpcStatus r = some n) ∧
    (16 < n → n ≤ 2147483647 → r.grpcHeader = some (decimal n) ∨ (r.grpcHeader = none ∧ r.peeked = some (some (decimal n))) → grpcStatus r = some 2) ∧
    (r.grpcHeader = none → r.peeked = none ∨ r.peeked = some none → grpcStatus r = none) ∧
    (∀ v, parseI32 v = none → r.grpcHeader = some v ∨ (r.grpcHeader = none ∧ r.peeked = some (some v)) → grpcStatus r = none) := by
  have hc : n ≤ 16 → codeOfInt (n : Int) = n := by intro hn; unfold codeOfInt; rw [if_pos (by omega)]; simp
  have hc2 : 16 < n → codeOfInt (n : Int) = 2 := by intro hn; unfold codeOfInt; rw [if_neg (by omega)]
  refine ⟨?_, ?_, ?_, ?_, ?_⟩
  · intro hn h; simp [grpcStatus, h, parseI32_decimal n (by omega), hc hn]
  · intro hn h h'; simp [grpcStatus, h, h', parseI32_decimal n (by omega), hc hn]
  · rintro hn hm (h | ⟨h, h'⟩)
    · simp [grpcStatus, h, parseI32_decimal n hm, hc2 hn]
    · simp [grpcStatus, h, h', parseI32_decimal n hm, hc2 hn]
  · rintro h (h' | h') <;> simp [grpcStatus, h, h']
  · rintro v hv (h | ⟨h, h'⟩)
    · simp [grpcStatus, h, hv]
    · simp [grpcStatus, h, h', hv]

/-- C55. Load-shedding errors are never retried; otherwise fail-fast errors are, and so are
response-header timeouts and refused HTTP/2 streams; nothing else is. -/
theorem C55_error_retried_iff (p : RetryPolicy) (chain : List Cause) :
    isRetryable p (.error chain) = true ↔
      Cause.loadShed ∉ chain ∧
        (Cause.failFast ∈ chain ∨
         (∃ pre post, chain = pre ++ .headersTimeout :: post ∧ Cause.otherTimeout ∉ pre) ∨
         (∃ pre post, chain = pre ++ .h2 true :: post ∧ Cause.h2 false ∉ pre)) := by
  have ht : ∀ c : List Cause, firstTimeout c = some true ↔
      ∃ pre post, c = pre ++ .headersTimeout :: post ∧ Cause.otherTimeout ∉ pre := by
    intro c
    induction c with
    | nil => simp [firstTimeout]
    | cons x c ih =>
      by_cases hx : x = .headersTimeout
      · subst hx
        simp only [firstTimeout, true_iff]
        exact ⟨[], c, rfl, by simp⟩
      · by_cases hy : x = .otherTimeout
        · subst hy
          simp only [firstTimeout, Option.some.injEq, Bool.false_eq_true, false_iff]
          rintro ⟨pre, post, he, hn⟩
          cases pre with
          | nil => simp at he
          | cons y pre => simp at he; rw [← he.1] at hn; simp at hn
        · have hf : firstTimeout (x :: c) = firstTimeout c := by cases x <;> simp_all [firstTimeout]
          rw [hf, ih]
          constructor
          · rintro ⟨pre, post, he, hn⟩
            refine ⟨x :: pre, post, by simp [he], ?_⟩
            simp only [List.mem_cons, not_or]
            exact ⟨fun h => hy h.symm, hn⟩
          · rintro ⟨pre, post, he, hn⟩
            cases pre with
            | nil => simp at he; exact absurd he.1 hx
            | cons y pre =>
              simp at he hn
              exact ⟨pre, post, he.2, hn.2⟩
  have hh : ∀ c : List Cause, firstH2 c = some true ↔
      ∃ pre post, c = pre ++ .h2 true :: post ∧ Cause.h2 false ∉ pre := by
    intro c
    induction c with
    | nil => simp [firstH2]
    | cons x c ih =>
      by_cases hx : x = .h2 true
      · subst hx
        simp only [firstH2, true_iff]
        exact ⟨[], c, rfl, by simp⟩
      · by_cases hy : x = .h2 false
        · subst hy
          simp only [firstH2, Option.some.injEq, Bool.false_eq_true, false_iff]
          rintro ⟨pre, post, he, hn⟩
          cases pre with
          | nil => simp at he
          | cons y pre => simp at he; rw [← he.1] at hn; simp at hn
        · have hf : firstH2 (x :: c) = firstH2 c := by
            cases x with
            | h2 b => cases b <;> simp_all
            | _ => simp [firstH2]
          rw [hf, ih]
          constructor
          · rintro ⟨pre, post, he, hn⟩
            refine ⟨x :: pre, post, by simp [he], ?_⟩
            simp only [List.mem_cons, not_or]
            exact ⟨fun h => hy h.symm, hn⟩
          · rintro ⟨pre, post, he, hn⟩
            cases pre with
            | nil => simp at he; exact absurd he.1 hx
            | cons y pre =>
              simp at he hn
              exact ⟨pre, post, he.2, hn.2⟩
  simp only [isRetryable, retryableError]
  rw [← ht, ← hh]
  by_cases h1 : Cause.loadShed ∈ chain
  · simp [h1]
  · by_cases h2 : Cause.failFast ∈ chain
    · simp [h1, h2]
    · simp only [List.contains_iff_mem, h1, h2, if_false, not_false_eq_true, true_and, false_or]
      by_cases h3 : firstTimeout chain = some true
      · simp [h3]
      · by_cases h4 : firstH2 chain = some true <;> simp [h3, h4]

/-- A policy used in the examples: 5xx and UNAVAILABLE, two retries. -/
def samplePolicy : RetryPolicy := ⟨some 7, some [(500, 599)], some [14], 2, 1024, none⟩

example : isRetryable samplePolicy (.ok ⟨200, none, some (some ['1', '4'])⟩) = true ∧
    isRetryable samplePolicy (.ok ⟨404, some ['0'], none⟩) = false ∧
    isRetryable samplePolicy (.error [.other, .failFast]) = true ∧
    isRetryable samplePolicy (.error [.loadShed, .failFast]) = false := by decide

/-! ## C56 - attempts are numbered and the header timeout is lifted exactly on the last one -/

theorem extOf_attempt (p : RetryPolicy) (t : Option (Option Nat)) (n : Nat) :
    (extOf p { attempt := some 1, timeouts := t } n).attempt = some (Nat.min (n + 1) 65535) := by
  induction n with
  | zero => rfl
  | succ n ih =>
    simp only [extOf, setExtensions, ih, Option.some.injEq]
    simp only [Nat.min_def]
    repeat' split
    all_goals omega

/-- C56. Send number `n` (from 0) carries attempt number `n + 1`. -/
theorem C56_attempt_numbers (p : RetryPolicy) (t : Option (Option Nat)) (n : Nat) (hn : n < 65535) :
    (extOf p { attempt := some 1, timeouts := t } n).attempt = some (n + 1) := by
  rw [extOf_attempt]; simp only [Nat.min_def]
  rw [if_pos (by omega)]

/-- C56. With at least one retry configured, every attempt that can still be retried keeps the
response-headers timeout and the last permitted attempt has none. -/
theorem C56_header_timeout_lifted_on_last (p : RetryPolicy) (timeout : Nat) (n : Nat)
    (hr : 0 < p.maxRetries) (hmax : p.maxRetries < 65535) (hn : n ≤ p.maxRetries) :
    (extOf p { attempt := some 1, timeouts := some (some timeout) } n).timeouts =
      some (if n < p.maxRetries then some timeout else none) := by
  induction n with
  | zero => simp [extOf, hr]
  | succ n ih =>
    have ha := C56_attempt_numbers p (some (some timeout)) n (by omega)
    have hmin : Nat.min (n + 1 + 1) 65535 = n + 1 + 1 := by simp only [Nat.min_def]; split <;> omega
    simp only [extOf, setExtensions, ha, ih (by omega), hmin, Option.map_some]
    have e1 : n < p.maxRetries := by omega
    simp only [e1, if_true]
    congr 1

/-- C56 does not extend to a limit of zero: the only attempt keeps the header timeout although it
cannot be retried (the first attempt never goes through `set_extensions`). -/
theorem C56_zero_limit_keeps_timeout (p : RetryPolicy) (timeout : Nat) :
    (extOf p { attempt := some 1, timeouts := some (some timeout) } 0).timeouts = some (some timeout) := rfl

example : (extOf samplePolicy ⟨some 1, some (some 7)⟩ 1) = ⟨some 2, some (some 7)⟩ ∧
    (extOf samplePolicy ⟨some 1, some (some 7)⟩ 2) = ⟨some 3, some none⟩ := by decide

/-! ## C57 - request headers configure retries and timeouts -/

/-- The retry conditions a user can write. -/
inductive Cond where
  | all5xx
  | gatewayError
  | code (n : Nat)
  | range (lo hi : Nat)

/-- How they are written. -/
def Cond.text : Cond → List Char
  | .all5xx => ['5', 'x', 'x']
  | .gatewayError => ['g', 'a', 't', 'e', 'w', 'a', 'y', '-', 'e', 'r', 'r', 'o', 'r']
  | .code n => decimal n
  | .range lo hi => decimal lo ++ '-' :: decimal hi

/-- What they mean. -/
def Cond.statuses : Cond → Nat × Nat
  | .all5xx => (500, 599)
  | .gatewayError => (502, 504)
  | .code n => (n, n)
  | .range lo hi => (lo, hi)

/-- Codes are three-digit HTTP statuses and ranges are not empty. -/
def Cond.Ok : Cond → Prop
  | .code n => 100 ≤ n ∧ n < 600
  | .range lo hi => 100 ≤ lo ∧ lo ≤ hi ∧ hi < 600
  | _ => True

theorem toCode_decimal (n : Nat) (h : 100 ≤ n ∧ n < 600) : toCode (decimal n) = some n := by
  unfold toCode
  rw [parseUnsigned_decimal, if_pos (by omega)]
  simp [h]

theorem splitOnce_append (c : Char) (a b : List Char) (h : c ∉ a) : splitOnce c (a ++ c :: b) = some (a, b) := by
  induction a with
  | nil => simp [splitOnce]
  | cons x a ih =>
    simp only [List.mem_cons, not_or] at h
    have hx : x ≠ c := fun e => h.1 e.symm
    simp [splitOnce, hx, ih h.2]

theorem lower_fixes_digits (s : List Char) (h : ∀ c ∈ s, (digit? c).isSome) : s.map lower = s := by
  induction s with
  | nil => rfl
  | cons c s ih =>
    have hc := h c (by simp)
    have : lower c = c := by
      unfold digit? at hc
      split at hc
      · rename_i hd
        unfold lower
        rw [if_neg]
        have e1 : ('9' : Char).toNat = 57 := rfl
        have e2 : ('A' : Char).toNat = 65 := rfl
        rw [e1] at hd; rw [e2]; omega
      · cases hc
    simp [this, ih (fun c hc => h c (by simp [hc]))]

theorem httpCondition_text (c : Cond) (h : c.Ok) : httpCondition c.text = some c.statuses := by
  have nodig : ∀ (s : List Char) (t : List Char), (∃ x ∈ t, digit? (lower x) = none) → (∀ c ∈ s, (digit? c).isSome) →
      eqIgnoreCase s t = false := by
    intro s t ⟨x, hx, hd⟩ hs
    unfold eqIgnoreCase
    rw [beq_eq_false_iff_ne]
    intro he
    rw [lower_fixes_digits s hs] at he
    have : lower x ∈ s := by rw [he]; exact List.mem_map_of_mem hx
    have := hs _ this
    rw [hd] at this; cases this
  cases c with
  | all5xx => decide
  | gatewayError => decide
  | code n =>
    simp only [Cond.text, httpCondition]
    have e1 := nodig (decimal n) ['5', 'x', 'x'] ⟨'x', by simp, by decide⟩ (decimal_digit n)
    have e2 := nodig (decimal n) ['g', 'a', 't', 'e', 'w', 'a', 'y', '-', 'e', 'r', 'r', 'o', 'r'] ⟨'g', by simp, by decide⟩ (decimal_digit n)
    simp [e1, e2, toCode_decimal n h, Cond.statuses]
  | range lo hi =>
    obtain ⟨h1, h2, h3⟩ := h
    simp only [Cond.text, httpCondition]
    have hmem : '-' ∈ decimal lo ++ '-' :: decimal hi := by simp
    have hnd : '-' ∉ decimal lo := not_digit_of '-' (by decide) lo
    have hlow : (decimal lo ++ '-' :: decimal hi).map lower = decimal lo ++ '-' :: decimal hi := by
      rw [List.map_append, List.map_cons, lower_fixes_digits _ (decimal_digit lo), lower_fixes_digits _ (decimal_digit hi)]
      rfl
    have e1 : eqIgnoreCase (decimal lo ++ '-' :: decimal hi) ['5', 'x', 'x'] = false := by
      unfold eqIgnoreCase
      rw [hlow, beq_eq_false_iff_ne]
      intro he
      rw [he] at hmem
      revert hmem; decide
    have e2 : eqIgnoreCase (decimal lo ++ '-' :: decimal hi) ['g', 'a', 't', 'e', 'w', 'a', 'y', '-', 'e', 'r', 'r', 'o', 'r'] = false := by
      unfold eqIgnoreCase
      rw [hlow, beq_eq_false_iff_ne]
      intro he
      have hx : 'g' ∈ decimal lo ++ '-' :: decimal hi := by rw [he]; decide
      rcases List.mem_append.1 hx with hx | hx
      · exact not_digit_of 'g' (by decide) lo hx
      · rcases List.mem_cons.1 hx with hx | hx
        · cases hx
        · exact not_digit_of 'g' (by decide) hi hx
    have e3 : toCode (decimal lo ++ '-' :: decimal hi) = none := by
      unfold toCode
      rw [parseUnsigned_none_of_mem _ '-' (by decide) (by decide) _ hmem]
    simp only [e1, e2, e3, Bool.false_eq_true, if_false, splitOnce_append '-' _ _ hnd, toCode_decimal lo ⟨h1, by omega⟩,
      toCode_decimal hi ⟨by omega, h3⟩, h2, if_true, Cond.statuses]

theorem text_no_comma (c : Cond) : ',' ∉ c.text := by
  cases c with
  | all5xx => decide
  | gatewayError => decide
  | code n => exact not_digit_of ',' (by decide) n
  | range lo hi =>
    intro h
    rcases List.mem_append.1 h with h | h
    · exact not_digit_of ',' (by decide) lo h
    · rcases List.mem_cons.1 h with h | h
      · cases h
      · exact not_digit_of ',' (by decide) hi h

/-- C57 (conditions). A comma-separated list of conditions is read as exactly those status ranges. -/
theorem C57_http_conditions_roundtrip (cs : List Cond) (hne : cs ≠ []) (hok : ∀ c ∈ cs, c.Ok) :
    parseHttpConditions (join ',' (cs.map Cond.text)) = cs.map Cond.statuses := by
  unfold parseHttpConditions
  rw [split_join ',' _ (by simpa using hne) (by intro p hp; obtain ⟨c, _, rfl⟩ := List.mem_map.1 hp; exact text_no_comma c)]
  clear hne
  induction cs with
  | nil => rfl
  | cons c cs ih =>
    simp [httpCondition_text c (hok c (by simp)), ih (fun x hx => hok x (by simp [hx]))]

/-- C57 (conditions). Whatever the header says, only statuses 100-599 in non-empty ranges come out,
and items are read independently of each other (a bad item never affects its neighbours). -/
theorem C57_http_conditions_safe (s t : List Char) :
    (∀ lo hi, (lo, hi) ∈ parseHttpConditions s → 100 ≤ lo ∧ lo ≤ hi ∧ hi < 600) ∧
    parseHttpConditions (s ++ ',' :: t) = parseHttpConditions s ++ parseHttpConditions t := by
  constructor
  · intro lo hi h
    obtain ⟨c, _, hc⟩ := List.mem_filterMap.1 h
    have hto : ∀ s n, toCode s = some n → 100 ≤ n ∧ n < 600 := by
      intro s n h
      unfold toCode at h
      split at h
      · split at h
        · cases h; assumption
        · cases h
      · cases h
    unfold httpCondition at hc
    split at hc
    · simp at hc; omega
    · split at hc
      · simp at hc; omega
      · split at hc
        · rename_i code hcode
          have := hto _ _ hcode
          simp at hc; omega
        · split at hc
          · split at hc
            · rename_i a b ha hb _ _ s' e' hs he
              split at hc
              · have := hto _ _ hs; have := hto _ _ he
                simp at hc; omega
              · cases hc
            · cases hc
          · cases hc
  · simp [parseHttpConditions, split_append_sep]

/-- The gRPC conditions a user can write, by name, with their status codes. -/
def grpcSpec : List (List Char × Nat) :=
  [ (['c', 'a', 'n', 'c', 'e', 'l', 'l', 'e', 'd'], 1),
    (['d', 'e', 'a', 'd', 'l', 'i', 'n', 'e', '-', 'e', 'x', 'c', 'e', 'e', 'd', 'e', 'd'], 4),
    (['r', 'e', 's', 'o', 'u', 'r', 'c', 'e', '-', 'e', 'x', 'h', 'a', 'u', 's', 't', 'e', 'd'], 8),
    (['i', 'n', 't', 'e', 'r', 'n', 'a', 'l'], 13),
    (['u', 'n', 'a', 'v', 'a', 'i', 'l', 'a', 'b', 'l', 'e'], 14) ]

/-- C57 (conditions). A comma-separated list of gRPC condition names is read as exactly those codes,
and what comes out is always one of the five documented codes. -/
theorem C57_grpc_conditions_roundtrip (cs : List (List Char × Nat)) (hne : cs ≠ []) (hok : ∀ c ∈ cs, c ∈ grpcSpec) :
    parseGrpcConditions (join ',' (cs.map (·.1))) = cs.map (·.2) ∧
    (∀ s, ∀ c ∈ parseGrpcConditions s, c ∈ [1, 4, 8, 13, 14]) := by
  have hname : ∀ c ∈ grpcSpec, ',' ∉ c.1 ∧ grpcCondition c.1 = some c.2 := by decide +kernel
  constructor
  · unfold parseGrpcConditions
    rw [split_join ',' _ (by simpa using hne) (by
      intro p hp; obtain ⟨c, hc, rfl⟩ := List.mem_map.1 hp; exact (hname c (hok c hc)).1)]
    clear hne
    induction cs with
    | nil => rfl
    | cons c cs ih =>
      simp [(hname c (hok c (by simp))).2, ih (fun x hx => hok x (by simp [hx]))]
  · intro s c hc
    obtain ⟨t, _, ht⟩ := List.mem_filterMap.1 hc
    unfold grpcCondition at ht
    cases hf : grpcNames.find? (fun x => eqIgnoreCase t x.1) with
    | none => rw [hf] at ht; cases ht
    | some x =>
      rw [hf] at ht
      have hx := List.mem_of_find?_eq_some hf
      cases ht
      have : ∀ x ∈ grpcNames, x.2 ∈ [1, 4, 8, 13, 14] := by decide +kernel
      exact this x hx

example : parseGrpcConditions (join ',' [['c', 'a', 'n', 'c', 'e', 'l', 'l', 'e', 'd'], ['i', 'n', 't', 'e', 'r', 'n', 'a', 'l']]) = [1, 13] := by
  decide +kernel

theorem dropWhile_replicate_append (a : Nat) (c : Char) (s : List Char) (hc : isSpace c = true)
    (hs : ∀ x r, s = x :: r → isSpace x = false) : (List.replicate a c ++ s).dropWhile isSpace = s := by
  induction a with
  | zero =>
    cases s with
    | nil => rfl
    | cons x r => simp [hs x r rfl]
  | succ a ih => simp [List.replicate_succ, hc, ih]

theorem trim_padded (a b : Nat) (s : List Char) (hf : ∀ x r, s = x :: r → isSpace x = false)
    (hl : ∀ x r, s = r ++ [x] → isSpace x = false) :
    trim (List.replicate a ' ' ++ s ++ List.replicate b ' ') = s := by
  unfold trim
  by_cases hs : s = []
  · subst hs
    have : (List.replicate a ' ' ++ [] ++ List.replicate b ' ') = List.replicate (a + b) ' ' ++ [] := by
      simp [List.replicate_append_replicate]
    rw [this, dropWhile_replicate_append _ _ [] (by decide) (by intro x r h; cases h)]; rfl
  · rw [List.append_assoc, dropWhile_replicate_append _ _ _ (by decide) (by
      intro x r h
      cases s with
      | nil => exact absurd rfl hs
      | cons y s => simp at h; exact hf x s (by rw [h.1]))]
    rw [List.reverse_append, List.reverse_replicate, dropWhile_replicate_append _ _ _ (by decide) (by
      intro x r h
      refine hl x r.reverse ?_
      have := congrArg List.reverse h
      simpa using this), List.reverse_reverse]

theorem splitAfterLastDigit_decimal (n : Nat) (unit : List Char) (hu : ∀ c ∈ unit, digit? c = none) :
    splitAfterLastDigit (decimal n ++ unit) = some (decimal n, unit) := by
  have hlast : ∃ r d, decimal n = r ++ [d] ∧ (digit? d).isSome := by
    have hne := decimal_ne_nil n
    refine ⟨(decimal n).dropLast, (decimal n).getLast hne, (List.dropLast_concat_getLast hne).symm, ?_⟩
    exact decimal_digit n _ (List.getLast_mem hne)
  have htake : ((decimal n ++ unit).reverse.takeWhile (fun c => (digit? c).isNone)).reverse = unit := by
    obtain ⟨r, d, hd, hs⟩ := hlast
    rw [List.reverse_append, hd]
    rw [List.takeWhile_append_of_pos (by intro c hc; simp [hu c (by simpa using hc)])]
    have hs' : (digit? d).isNone = false := by
      cases h : digit? d with
      | none => rw [h] at hs; cases hs
      | some _ => rfl
    simp [List.takeWhile_cons, hs']
  unfold splitAfterLastDigit
  simp only [htake]
  have : (decimal n ++ unit).take ((decimal n ++ unit).length - unit.length) = decimal n := by
    simp
  rw [this, if_neg (decimal_ne_nil n)]

/-- C57 (durations). An amount with a unit is read exactly (blanks around it do not matter), unless
it or its milliseconds do not fit 64 bits, in which case the header is ignored; a bare amount is
refused unless it is zero. -/
theorem C57_duration_roundtrip (n a b : Nat) :
    (∀ unit ms, (unit, ms) ∈ [(['m', 's'], 1), (['s'], 1000), (['m'], 60000), (['h'], 3600000), (['d'], 86400000)] →
      parseDuration (List.replicate a ' ' ++ (decimal n ++ unit) ++ List.replicate b ' ') =
        if n * ms < 2 ^ 64 then some (n * ms) else none) ∧
    parseDuration (List.replicate a ' ' ++ decimal n ++ List.replicate b ' ') = if n = 0 then some 0 else none := by
  have hspace : ∀ c : Char, isSpace c = true → digit? c = none := by
    intro c h
    simp only [isSpace, Bool.or_eq_true, decide_eq_true_eq] at h
    rcases h with rfl | rfl <;> decide
  have hfirst : ∀ unit x r, decimal n ++ unit = x :: r → isSpace x = false := by
    intro unit x r h
    cases hd : decimal n with
    | nil => exact absurd hd (decimal_ne_nil n)
    | cons y t =>
      rw [hd] at h; simp at h
      have hy := decimal_digit n y (by rw [hd]; simp)
      rw [h.1] at hy
      cases hx : isSpace x with
      | false => rfl
      | true => rw [hspace x hx] at hy; cases hy
  constructor
  · intro unit ms hu
    have hunit : (∀ c ∈ unit, digit? c = none) ∧ (∀ c ∈ unit, isSpace c = false) ∧ unit ≠ [] ∧
        unitMs n unit = some ms ∧ 0 < ms := by
      simp only [List.mem_cons, Prod.mk.injEq, List.not_mem_nil, or_false] at hu
      rcases hu with ⟨rfl, rfl⟩ | ⟨rfl, rfl⟩ | ⟨rfl, rfl⟩ | ⟨rfl, rfl⟩ | ⟨rfl, rfl⟩ <;>
        refine ⟨by decide, by decide, by decide, by rfl, by decide⟩
    obtain ⟨h1, h2, h3, h4, h5⟩ := hunit
    unfold parseDuration
    rw [trim_padded a b _ (hfirst unit) (by
      intro x r h
      have : x ∈ unit := by
        have hl := congrArg List.getLast? h
        rw [List.getLast?_append] at hl
        cases hu' : unit.getLast? with
        | none => exact absurd (List.getLast?_eq_none_iff.1 hu') h3
        | some y => rw [hu'] at hl; simp at hl; subst hl; exact List.mem_of_getLast? hu'
      exact h2 x this), splitAfterLastDigit_decimal n unit h1]
    simp only [parseUnsigned_decimal]
    by_cases hn : n ≤ 2 ^ 64 - 1
    · rw [if_pos hn]; simp only [h4]
      by_cases hm : n * ms < 2 ^ 64
      · rw [if_pos hm, if_pos (by omega)]
      · rw [if_neg hm, if_neg (by omega)]
    · rw [if_neg hn]
      have : n ≤ n * ms := Nat.le_mul_of_pos_right n h5
      rw [if_neg (by omega)]
  · unfold parseDuration
    rw [trim_padded a b (decimal n) (by intro x r h; exact hfirst [] x r (by simpa using h)) (by
      intro x r h
      have hx := decimal_digit n x (by rw [h]; simp)
      cases hx' : isSpace x with
      | false => rfl
      | true => rw [hspace x hx'] at hx; cases hx)]
    have := splitAfterLastDigit_decimal n [] (by simp)
    rw [List.append_nil] at this
    rw [this]
    simp only [parseUnsigned_decimal]
    by_cases hn : n ≤ 2 ^ 64 - 1
    · rw [if_pos hn]
      by_cases h0 : n = 0
      · subst h0; decide
      · simp [unitMs, h0]
    · rw [if_neg hn, if_neg (by omega)]

example : parseDuration [' ', '1', '5', '0', 'm', 's'] = some 150 ∧ parseDuration ['2', 'm'] = some 120000 ∧
    parseDuration ['2'] = none := by decide +kernel

/-- The first value of a header. -/
def lookup (name : List Char) (h : Headers) : Option (List Char) := (h.find? (fun x => x.1 = name)).map (·.2)

/-- The headers that configure retries and timeouts. -/
def controlHeaders : List (List Char) :=
  ["l5d-retry-http".toList, "l5d-retry-grpc".toList, "l5d-retry-limit".toList, "l5d-retry-timeout".toList,
   "l5d-timeout".toList, "l5d-request-timeout".toList, "l5d-response-timeout".toList]

theorem lookup_filter_ne (n m : List Char) (h : Headers) (hne : n ≠ m) :
    ((h.filter (fun x => x.1 ≠ m)).find? (fun x => x.1 = n)) = h.find? (fun x => x.1 = n) := by
  rw [List.find?_filter]
  congr 1
  funext x
  grind

/-- C57 (headers). Where overrides are not allowed the request keeps its headers and the route's
settings apply. -/
theorem C57_disallowed_headers_inert (retry : Option RetryPolicy) (response idle request : Option Nat) (h : Headers) :
    setRequestExtensions retry response idle request false h =
      (retry, ⟨retry.bind (·.timeout), response, idle, request⟩, 1, h) := rfl

theorem configureRetry_headers (retry : Option RetryPolicy) (h : Headers) :
    (configureRetry retry true h).2 = h.filter (fun x => decide (x.1 ∉ [hRetryHttp, hRetryGrpc, hRetryLimit, hRetryTimeout])) := by
  unfold configureRetry
  simp only [Bool.not_true, Bool.false_eq_true, if_false, remove, List.filter_filter]
  have : ∀ x : List Char × List Char, (decide (x.1 ≠ hRetryTimeout) && (decide (x.1 ≠ hRetryLimit) && (decide (x.1 ≠ hRetryGrpc) && decide (x.1 ≠ hRetryHttp)))) =
      decide (x.1 ∉ [hRetryHttp, hRetryGrpc, hRetryLimit, hRetryTimeout]) := by
    intro x; rw [Bool.eq_iff_iff]; grind
  cases retry with
  | some r => simp only [this]
  | none => dsimp only; split <;> simp only [this]

/-- C57 (headers). Where overrides are allowed, the request is forwarded without exactly the control
headers. -/
theorem C57_control_headers_removed (retry : Option RetryPolicy) (response idle request : Option Nat) (h : Headers) :
    (setRequestExtensions retry response idle request true h).2.2.2 =
      h.filter (fun x => decide (x.1 ∉ controlHeaders)) := by
  have e : controlHeaders = [hRetryHttp, hRetryGrpc, hRetryLimit, hRetryTimeout, hTimeout, hRequestTimeout, hResponseTimeout] := by
    decide +kernel
  rw [e]
  have hcr := configureRetry_headers retry h
  have hct : ∀ h' : Headers, (configureTimeouts response idle request true h').2 =
      h'.filter (fun x => decide (x.1 ∉ [hTimeout, hRequestTimeout, hResponseTimeout])) := by
    intro h'
    simp only [configureTimeouts, remove, Bool.not_true, Bool.false_eq_true, if_false, List.filter_filter]
    congr 1; funext x; rw [Bool.eq_iff_iff]; grind
  simp only [setRequestExtensions, hct, hcr, List.filter_filter]
  congr 1
  funext x
  rw [Bool.eq_iff_iff]; grind

/-- C57 (headers). Where overrides are allowed, each header replaces the setting it names when its
value can be read, and leaves everything else alone. `l5d-request-timeout` wins over `l5d-timeout`. -/
theorem C57_allowed_headers_override (r : RetryPolicy) (response idle request : Option Nat) (h : Headers) :
    let out := setRequestExtensions (some r) response idle request true h
    let timeout := ((lookup hRetryTimeout h).bind parseDuration).or r.timeout
    out.1 = some
      { timeout := timeout
        httpStatuses := ((lookup hRetryHttp h).map parseHttpConditions).or r.httpStatuses
        grpcStatuses := ((lookup hRetryGrpc h).map parseGrpcConditions).or r.grpcStatuses
        maxRetries := match (lookup hRetryLimit h).bind (parseUnsigned (2 ^ 64 - 1)) with
          | some n => n
          | none => r.maxRetries
        maxRequestBytes := r.maxRequestBytes
        backoff := r.backoff } ∧
    out.2.1 =
      { responseHeaders := timeout
        responseEnd := ((lookup hResponseTimeout h).bind parseDuration).or response
        idle := idle
        limit := ((lookup hRequestTimeout h).bind parseDuration).or (((lookup hTimeout h).bind parseDuration).or request) } := by
  have find_filter : ∀ (n : List Char) (ms : List (List Char)) (h : Headers), n ∉ ms →
      (h.filter (fun x => decide (x.1 ∉ ms))).find? (fun x => x.1 = n) = h.find? (fun x => x.1 = n) := by
    intro n ms h hn
    rw [List.find?_filter]
    congr 1; funext x; grind
  have hcr := configureRetry_headers (some r) h
  have hr : (configureRetry (some r) true h).1 = some
      { timeout := ((lookup hRetryTimeout h).bind parseDuration).or r.timeout
        httpStatuses := ((lookup hRetryHttp h).map parseHttpConditions).or r.httpStatuses
        grpcStatuses := ((lookup hRetryGrpc h).map parseGrpcConditions).or r.grpcStatuses
        maxRetries := match (lookup hRetryLimit h).bind (parseUnsigned (2 ^ 64 - 1)) with
          | some n => n
          | none => r.maxRetries
        maxRequestBytes := r.maxRequestBytes
        backoff := r.backoff } := by
    unfold configureRetry
    simp only [Bool.not_true, Bool.false_eq_true, if_false, remove, lookup]
    rw [lookup_filter_ne hRetryTimeout hRetryLimit _ (by decide), lookup_filter_ne hRetryTimeout hRetryGrpc _ (by decide),
      lookup_filter_ne hRetryTimeout hRetryHttp _ (by decide), lookup_filter_ne hRetryLimit hRetryGrpc _ (by decide),
      lookup_filter_ne hRetryLimit hRetryHttp _ (by decide), lookup_filter_ne hRetryGrpc hRetryHttp _ (by decide)]
    simp only [Option.some.injEq, RetryPolicy.mk.injEq, true_and, and_true]
    cases Option.bind (Option.map (fun x => x.2) (List.find? (fun x => decide (x.1 = hRetryLimit)) h)) (parseUnsigned (2 ^ 64 - 1)) <;> rfl
  have ht : ∀ h' : Headers, (configureTimeouts response idle request true h').1 =
      { responseHeaders := none
        responseEnd := ((lookup hResponseTimeout h').bind parseDuration).or response
        idle := idle
        limit := ((lookup hRequestTimeout h').bind parseDuration).or (((lookup hTimeout h').bind parseDuration).or request) } := by
    intro h'
    unfold configureTimeouts
    simp only [Bool.not_true, Bool.false_eq_true, if_false, remove, lookup]
    rw [lookup_filter_ne hResponseTimeout hRequestTimeout _ (by decide), lookup_filter_ne hResponseTimeout hTimeout _ (by decide),
      lookup_filter_ne hRequestTimeout hTimeout _ (by decide)]
    generalize Option.bind (Option.map (fun x => x.2) (List.find? (fun x => decide (x.1 = hTimeout)) h')) parseDuration = a
    generalize Option.bind (Option.map (fun x => x.2) (List.find? (fun x => decide (x.1 = hRequestTimeout)) h')) parseDuration = b
    generalize Option.bind (Option.map (fun x => x.2) (List.find? (fun x => decide (x.1 = hResponseTimeout)) h')) parseDuration = c
    cases a <;> cases b <;> cases c <;> rfl
  have hl : ∀ n, n ∉ [hRetryHttp, hRetryGrpc, hRetryLimit, hRetryTimeout] →
      lookup n (configureRetry (some r) true h).2 = lookup n h := by
    intro n hn
    unfold lookup
    rw [hcr, find_filter n _ h hn]
  simp only [setRequestExtensions, ht, hr, hl _ (show hTimeout ∉ [hRetryHttp, hRetryGrpc, hRetryLimit, hRetryTimeout] by decide),
    hl _ (show hRequestTimeout ∉ [hRetryHttp, hRetryGrpc, hRetryLimit, hRetryTimeout] by decide),
    hl _ (show hResponseTimeout ∉ [hRetryHttp, hRetryGrpc, hRetryLimit, hRetryTimeout] by decide), Option.bind_some, and_self]

/-- A request that asks for two retries of 503s within 150ms and a 5s overall timeout. -/
def sampleHeaders : Headers :=
  [("accept".toList, "*/*".toList), (hRetryLimit, ['2']), (hRetryHttp, ['5', '0', '3']), (hRetryTimeout, ['1', '5', '0', 'm', 's']),
   (hTimeout, ['5', 's'])]

example : setRequestExtensions none none none none true sampleHeaders =
    (some ⟨some 150, some [(503, 503)], none, 2, 64 * 1024, some (25, 250)⟩, ⟨some 150, none, none, some 5000⟩, 1,
      [("accept".toList, "*/*".toList)]) := by
  decide +kernel

/-- C57 (headers). On a route without a retry policy, a request gets one exactly when it carries a
readable retry header: its own conditions, one retry unless it says otherwise. -/
theorem C57_headers_enable_retries (h : Headers) :
    (configureRetry none true h).1 =
      if (lookup hRetryHttp h).isSome ∨ (lookup hRetryGrpc h).isSome ∨
          ((lookup hRetryLimit h).bind (parseUnsigned (2 ^ 64 - 1))).isSome ∨
          ((lookup hRetryTimeout h).bind parseDuration).isSome then
        some { timeout := (lookup hRetryTimeout h).bind parseDuration
               httpStatuses := (lookup hRetryHttp h).map parseHttpConditions
               grpcStatuses := (lookup hRetryGrpc h).map parseGrpcConditions
               maxRetries := match (lookup hRetryLimit h).bind (parseUnsigned (2 ^ 64 - 1)) with
                 | some n => n
                 | none => 1
               maxRequestBytes := 65536
               backoff := some (25, 250) }
      else none := by
  unfold configureRetry
  simp only [Bool.not_true, Bool.false_eq_true, if_false, remove]
  rw [lookup_filter_ne hRetryTimeout hRetryLimit _ (by decide), lookup_filter_ne hRetryTimeout hRetryGrpc _ (by decide),
    lookup_filter_ne hRetryTimeout hRetryHttp _ (by decide), lookup_filter_ne hRetryLimit hRetryGrpc _ (by decide),
    lookup_filter_ne hRetryLimit hRetryHttp _ (by decide), lookup_filter_ne hRetryGrpc hRetryHttp _ (by decide)]
  have hl : ∀ n, Option.map (fun x => x.2) (List.find? (fun x => decide (x.1 = n)) h) = lookup n h := fun _ => rfl
  simp only [hl]
  generalize lookup hRetryHttp h = a
  generalize lookup hRetryGrpc h = b
  generalize Option.bind (lookup hRetryLimit h) (parseUnsigned (2 ^ 64 - 1)) = c
  generalize Option.bind (lookup hRetryTimeout h) parseDuration = d
  cases a <;> cases b <;> cases c <;> cases d <;> simp

/-- A surprise of C57: a condition list none of whose items can be read still replaces the route's
conditions - by nothing, so HTTP statuses are no longer retried. A blank after a comma is enough to
make an item unreadable. -/
theorem C57_unreadable_conditions_disable_retries :
    (configureRetry (some ⟨none, some [(500, 599)], none, 1, 0, none⟩) true [(hRetryHttp, ['n', 'o', 'n', 'e'])]).1 =
      some ⟨none, some [], none, 1, 0, none⟩ ∧
    parseHttpConditions ['5', '0', '0', ',', ' ', '5', '0', '3'] = [(500, 500)] := by
  decide +kernel

end Verif.Retry.Policy
