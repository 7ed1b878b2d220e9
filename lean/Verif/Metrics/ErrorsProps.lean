import Verif.Metrics.Errors
import Verif.Metrics.TextProps
import Verif.ErrorRespond.Props
import Verif.Common.List
/-!
# What is counted of errors (C101)
-/
namespace Verif.Metrics.Errors
open Verif.Metrics
open Verif.ErrorRespond (Cause Error Rescue refusal inboundEndpoint outboundEndpoint inboundServer outboundServer)
open Verif.Assoc (lookup)

theorem inMk_cons (c : Cause) (l : List Cause) : inMk (c :: l) = (inNamed c).getD (inMk l) := by
  cases c <;> rfl

theorem outMk_cons (c : Cause) (l : List Cause) : outMk (c :: l) = (outNamed c).getD (outMk l) := by
  cases c <;> rfl

theorem outermost_cons (named : Cause → Option α) (c : Cause) (l : List Cause) (a : α) :
    Outermost named (c :: l) a ↔ named c = some a ∨ named c = none ∧ Outermost named l a := by
  constructor
  · rintro ⟨pre, x, post, h1, h2, h3⟩
    cases pre with
    | nil => cases h1; exact .inl h3
    | cons y pre =>
      simp only [List.cons_append, List.cons.injEq] at h1
      obtain ⟨rfl, rfl⟩ := h1
      exact .inr ⟨h2 _ List.mem_cons_self, pre, x, post, rfl, fun z hz => h2 z (List.mem_cons_of_mem _ hz), h3⟩
  · rintro (h | ⟨h, pre, x, post, rfl, h2, h3⟩)
    · exact ⟨[], c, l, rfl, (fun _ h => by cases h), h⟩
    · refine ⟨c :: pre, x, post, rfl, fun z hz => ?_, h3⟩
      rcases List.mem_cons.1 hz with e | hz
      · exact e ▸ h
      · exact h2 z hz

theorem kind_iff {β : Type} (named : Cause → Option β) (mk : List Cause → β) (dflt : β) (h0 : mk [] = dflt)
    (hc : ∀ c l, mk (c :: l) = (named c).getD (mk l)) (l : List Cause) (k : β) :
    mk l = k ↔ Outermost named l k ∨ ((∀ c ∈ l, named c = none) ∧ k = dflt) := by
  induction l with
  | nil =>
    rw [h0]
    constructor
    · exact fun h => .inr ⟨(fun _ h => by cases h), h.symm⟩
    · rintro (⟨pre, x, post, h, -⟩ | ⟨-, h⟩)
      · cases pre <;> cases h
      · exact h.symm
  | cons c l ih =>
    rw [hc, outermost_cons]
    cases hn : named c with
    | some b =>
      simp only [Option.getD_some, Option.some.injEq, reduceCtorEq, false_and, or_false, List.forall_mem_cons, hn]
    | none =>
      simp only [Option.getD_none, ih, reduceCtorEq, true_and, false_or, List.forall_mem_cons, hn]

/-- The kind of an inbound error is that of its outermost cause that has one; refusals by a policy have none; and all other
errors are unexpected. -/
theorem C101_inbound_kind (e : Error) (k : Option InError) :
    inMk e.chain = k ↔ Outermost inNamed e.chain k ∨ ((∀ c ∈ e.chain, inNamed c = none) ∧ k = some .unexpected) :=
  kind_iff inNamed inMk _ rfl inMk_cons _ _

/-- The same of outbound errors. -/
theorem C101_outbound_kind (e : Error) (k : OutError) :
    outMk e.chain = k ↔ Outermost outNamed e.chain k ∨ ((∀ c ∈ e.chain, outNamed c = none) ∧ k = .unexpected) :=
  kind_iff outNamed outMk _ rfl outMk_cons _ _

/-- Further context changes nothing. -/
theorem C101_context (e : Error) (names : List ErrorRespond.Str) :
    inMk (names.map .other ++ e.chain) = inMk e.chain ∧ outMk (names.map .other ++ e.chain) = outMk e.chain := by
  induction names with
  | nil => exact ⟨rfl, rfl⟩
  | cons n names ih => exact ih

/-! ## Counting -/

variable {T K R : Type} [DecidableEq K]

theorem run_snoc (key : T → Error → Option K) (ops : List (Op T R)) (op : Op T R) :
    run key (ops ++ [op]) = (step key (run key ops) op).1 := by
  simp [run, List.foldl_append]

theorem view_snoc (ops : List (Op T R)) (op : Op T R) : view (ops ++ [op]) = see (view ops) op := by
  simp [view, List.foldl_append]

/-- What the counters hold. -/
def Counts (key : T → Error → Option K) (fs : List (T × Error)) (reg : List (K × Nat)) : Prop :=
  ∀ k, lookup k reg = if fs.countP (fun f => key f.1 f.2 = some k) = 0 then none else some (fs.countP (fun f => key f.1 f.2 = some k) % 2 ^ 64)

theorem Counts.monitor {key : T → Error → Option K} {fs : List (T × Error)} {reg : List (K × Nat)} (h : Counts key fs reg) (l : T) (e : Error) :
    Counts key (fs ++ [(l, e)]) (monitorError key l e reg) := by
  intro k
  have hk := h k
  have hc : (fs ++ [(l, e)]).countP (fun f => decide (key f.1 f.2 = some k))
      = fs.countP (fun f => decide (key f.1 f.2 = some k)) + if key l e = some k then 1 else 0 := by
    rw [List.countP_append]
    congr 1
    by_cases h : key l e = some k <;> simp [h]
  rw [hc]
  generalize fs.countP (fun f => decide (key f.1 f.2 = some k)) = n at hk
  unfold monitorError
  cases hke : key l e with
  | none => rw [if_neg (c := none = some k) nofun]; exact hk
  | some k' =>
    simp only [Assoc.lookup_put, Option.some.injEq]
    by_cases e' : k = k'
    · subst e'
      rw [if_pos rfl, if_pos rfl, if_neg (Nat.succ_ne_zero n), hk]
      by_cases hn : n = 0
      · subst hn; rfl
      · rw [if_neg hn]
        simp only [Option.getD_some, add64]
        congr 1
        omega
    · rw [if_neg e', if_neg (Ne.symm e')]
      exact hk

/-- The state is what is seen. -/
structure Rel (key : T → Error → Option K) (v : View T) (s : Sys T K) : Prop where
  svc : ∀ i, lookup i s.mons = v.svc i
  fut : ∀ i, lookup i s.futs = v.fut i
  reg : Counts key v.failures s.reg

theorem lookup_put_set {f : Nat → Option T} {l : List (Nat × T)} (h : ∀ i, lookup i l = f i) (i : Nat) (x : T) (j : Nat) :
    lookup j (Assoc.put i x l) = set f i (some x) j := by
  simp only [Assoc.lookup_put, set, h]

theorem lookup_erase_set {f : Nat → Option T} {l : List (Nat × T)} (h : ∀ i, lookup i l = f i) (i : Nat) (j : Nat) :
    lookup j (Assoc.erase i l) = set f i none j := by
  simp only [Assoc.lookup_erase, set, h]

theorem Rel.step {key : T → Error → Option K} {v : View T} {s : Sys T K} (h : Rel key v s) (op : Op T R) :
    Rel key (see v op) (Errors.step key s op).1 := by
  obtain ⟨h1, h2, h3⟩ := h
  cases op with
  | new id labels => exact ⟨lookup_put_set h1 id labels, h2, h3⟩
  | clone id other =>
    simp only [Errors.step, see, ← h1 id]
    cases lookup id s.mons with
    | none => exact ⟨h1, h2, h3⟩
    | some l => exact ⟨lookup_put_set h1 other l, h2, h3⟩
  | call id fut =>
    simp only [Errors.step, see, ← h1 id]
    cases lookup id s.mons with
    | none => exact ⟨h1, h2, h3⟩
    | some l => exact ⟨h1, lookup_put_set h2 fut l, h3⟩
  | drop id => exact ⟨lookup_erase_set h1 id, h2, h3⟩
  | cancel fut => exact ⟨h1, lookup_erase_set h2 fut, h3⟩
  | ready id a =>
    simp only [Errors.step]
    cases hl : lookup id s.mons with
    | none =>
      cases a with
      | err e =>
        refine ⟨h1, h2, ?_⟩
        simp only [see, ← h1 id, hl, Option.map_none, Option.toList_none, List.append_nil]
        exact h3
      | _ => exact ⟨h1, h2, h3⟩
    | some l =>
      cases a with
      | pending => exact ⟨h1, h2, h3⟩
      | ok u => exact ⟨h1, h2, h3⟩
      | err e =>
        refine ⟨h1, h2, ?_⟩
        simp only [see, ← h1 id, hl]
        exact h3.monitor l e
  | poll fut a =>
    simp only [Errors.step]
    cases hl : lookup fut s.futs with
    | none =>
      have hs : ∀ i, lookup i s.futs = set v.fut fut none i := fun i => by
        simp only [set, ← h2]
        split
        · rename_i e; rw [e, hl]
        · rfl
      cases a with
      | pending => exact ⟨h1, h2, h3⟩
      | ok r => exact ⟨h1, hs, h3⟩
      | err e =>
        refine ⟨h1, hs, ?_⟩
        simp only [see, ← h2 fut, hl, Option.map_none, Option.toList_none, List.append_nil]
        exact h3
    | some l =>
      cases a with
      | pending => exact ⟨h1, h2, h3⟩
      | ok r => exact ⟨h1, lookup_erase_set h2 fut, h3⟩
      | err e =>
        refine ⟨h1, lookup_erase_set h2 fut, ?_⟩
        simp only [see, ← h2 fut, hl]
        exact h3.monitor l e

theorem rel_run (key : T → Error → Option K) (ops : List (Op T R)) : Rel key (view ops) (run key ops) := by
  induction ops using snoc_induction with
  | nil => exact ⟨fun _ => rfl, fun _ => rfl, fun _ => rfl⟩
  | snoc ops op ih => rw [run_snoc, view_snoc]; exact ih.step op

/-- Each error that comes out of a monitored service, as it is not ready or as its response's future fails, is counted once
under its kind and the labels of that service, and nothing else is: a key is there if such an error came out, with how many. -/
theorem C101_counted (key : T → Error → Option K) (ops : List (Op T R)) (k : K) :
    lookup k (run key ops).reg
      = if (failures ops).countP (fun f => key f.1 f.2 = some k) = 0 then none
        else some ((failures ops).countP (fun f => key f.1 f.2 = some k) % 2 ^ 64) :=
  (rel_run key ops).reg k

/-- What the inner service answers is passed on: a service that is there answers as its inner one. -/
theorem C101_transparent (key : T → Error → Option K) (ops : List (Op T R)) :
    (∀ id a, ((view ops).svc id).isSome → (step (R := R) key (run key ops) (.ready id a)).2 = .ready a)
    ∧ (∀ fut a, ((view ops).fut fut).isSome → (step (R := R) key (run key ops) (.poll fut a)).2 = .rsp a) := by
  have h := rel_run key ops
  constructor
  · intro id a hi
    rw [← h.svc] at hi
    obtain ⟨l, hl⟩ := Option.isSome_iff_exists.1 hi
    simp only [step, hl]
    cases a <;> rfl
  · intro id a hi
    rw [← h.fut] at hi
    obtain ⟨l, hl⟩ := Option.isSome_iff_exists.1 hi
    simp only [step, hl]
    cases a <;> rfl

/-- What the four registries hold, by kind and labels. -/
theorem C101_registries :
    (∀ (ops : List (Op (SockAddr × ServerLabel) R)) k a s, (lookup (k, (a, s)) (run inHttpKey ops).reg).getD 0
      = (failures ops).countP (fun f => f.1 = (a, s) ∧ inMk f.2.chain = some k) % 2 ^ 64)
    ∧ (∀ (ops : List (Op SockAddr R)) k a, (lookup (k, a) (run inTcpKey ops).reg).getD 0
      = (failures ops).countP (fun f => f.1 = a ∧ inMk f.2.chain = some k) % 2 ^ 64)
    ∧ (∀ (ops : List (Op Unit R)) k, (lookup k (run outHttpKey ops).reg).getD 0
      = (failures ops).countP (fun f => outMk f.2.chain = k) % 2 ^ 64)
    ∧ (∀ (ops : List (Op SockAddr R)) k a, (lookup (a, k) (run outTcpKey ops).reg).getD 0
      = (failures ops).countP (fun f => f.1 = a ∧ outMk f.2.chain = k) % 2 ^ 64) := by
  have key : ∀ {T K : Type} [DecidableEq K] (key : T → Error → Option K) (ops : List (Op T R)) (k : K) (p : T × Error → Bool),
      (∀ f, decide (key f.1 f.2 = some k) = p f) → (lookup k (run key ops).reg).getD 0 = (failures ops).countP p % 2 ^ 64 := by
    intro T K _ key ops k p hp
    rw [C101_counted, show (fun f => decide (key f.1 f.2 = some k)) = p from funext hp]
    split
    · rename_i h; rw [h]; rfl
    · rfl
  refine ⟨fun ops k a s => key _ _ _ _ fun f => ?_, fun ops k a => key _ _ _ _ fun f => ?_, fun ops k => key _ _ _ _ fun f => ?_,
    fun ops k a => key _ _ _ _ fun f => ?_⟩
  · rw [decide_eq_decide, inHttpKey]
    cases inMk f.2.chain <;> simp [and_comm]
  · rw [decide_eq_decide, inTcpKey]
    cases inMk f.2.chain <;> simp [and_comm]
  · rw [decide_eq_decide, outHttpKey, Option.some.injEq]
  · rw [decide_eq_decide, outTcpKey]; simp

/-! ## Errors and answers -/

open Verif.InboundPolicy in
/-- **Limit.** Of the refusals of the inbound policy only two are left to the policy's own counters: redirects, rate limits
and injected failures are counted as unexpected errors of the proxy too. -/
theorem C101_limit_refusals (locText : HttpRoute.Uri → ErrorRespond.Str) (o : Outcome) (c : Cause) (hc : refusal locText o = some c)
    (names : List ErrorRespond.Str) : inMk (names.map .other ++ [c]) = match o with
      | .routeNotFound | .unauthorized => none
      | _ => some .unexpected := by
  rw [show inMk (names.map .other ++ [c]) = inMk [c] from (C101_context ⟨[c], []⟩ names).1]
  cases o <;> simp only [refusal, Option.some.injEq, reduceCtorEq] at hc <;> subst hc <;> rfl

/-- What the monitor of a server sees of an endpoint's error: nothing if it is answered by the endpoint's rescue. -/
theorem C101_limit_rescued (context : List ErrorRespond.Str) (e : Error) :
    (.io ∈ e.chain ∨ .connectTimeout ∈ e.chain → seen inboundEndpoint context e = none ∧ seen outboundEndpoint context e = none)
    ∧ (∀ f, seen inboundEndpoint context e = some f → inMk f.chain = inMk e.chain ∧ inMk f.chain ≠ some .io)
    ∧ (∀ f, seen outboundEndpoint context e = some f → outMk f.chain = outMk e.chain ∧ outMk f.chain ≠ .io) := by
  have hin : ∀ l : List Cause, inMk l = some .io → .io ∈ l := fun l h => by
    rcases (kind_iff inNamed inMk _ rfl inMk_cons l _).1 h with ⟨pre, c, post, rfl, -, hn⟩ | ⟨-, h⟩
    · cases c <;> first | (simp; done) | cases hn
    · cases h
  have hout : ∀ l : List Cause, outMk l = .io → .io ∈ l := fun l h => by
    rcases (kind_iff outNamed outMk _ rfl outMk_cons l _).1 h with ⟨pre, c, post, rfl, -, hn⟩ | ⟨-, h⟩
    · cases c <;> first | (simp; done) | cases hn
    · cases h
  have hi : inboundEndpoint e = none → .io ∉ e.chain := fun h hm => by
    simp [inboundEndpoint, (ErrorRespond.isCausedBy_iff _ _).2 hm] at h
  have ho : outboundEndpoint e = none → .io ∉ e.chain := fun h hm => by
    simp only [outboundEndpoint, (ErrorRespond.isCausedBy_iff _ _).2 hm, if_true] at h
    split at h <;> cases h
  refine ⟨fun h => ?_, fun f hf => ?_, fun f hf => ?_⟩
  · have h1 : inboundEndpoint e ≠ none := by
      simp only [inboundEndpoint]
      rcases h with h | h
      · simp [(ErrorRespond.isCausedBy_iff _ _).2 h]
      · split <;> simp [(ErrorRespond.isCausedBy_iff _ _).2 h]
    have h2 : outboundEndpoint e ≠ none := by
      simp only [outboundEndpoint]
      split
      · simp
      · rcases h with h | h
        · simp [(ErrorRespond.isCausedBy_iff _ _).2 h]
        · split <;> simp [(ErrorRespond.isCausedBy_iff _ _).2 h]
    obtain ⟨x, hx⟩ := Option.ne_none_iff_exists'.1 h1
    obtain ⟨y, hy⟩ := Option.ne_none_iff_exists'.1 h2
    simp only [seen, hx, hy, and_self]
  · unfold seen at hf
    split at hf
    · cases hf
    · rename_i h
      cases hf
      simp only [(C101_context e context).1, true_and]
      exact fun h' => hi h (hin _ h')
  · unfold seen at hf
    split at hf
    · cases hf
    · rename_i h
      cases hf
      simp only [(C101_context e context).2, true_and]
      exact fun h' => ho h (hout _ h')

/-- **Limit.** A response timeout set by a policy's route is an unexpected error, where one of a service profile is a
response timeout; clients are told of both that the gateway timed out. -/
theorem C101_limit_policy_timeout (text : ErrorRespond.Str) :
    outMk [.streamResponseTimeout] = .unexpected ∧ outMk [.profileTimeout] = .responseTimeout
    ∧ (outboundServer ⟨[.streamResponseTimeout], text⟩).map (·.httpStatus) = some 504
    ∧ (outboundServer ⟨[.profileTimeout], text⟩).map (·.httpStatus) = some 504 := ⟨rfl, rfl, rfl, rfl⟩

/-! ## It happens -/

/-- Two hosts. -/
def host (n : Nat) : SockAddr := ⟨[if n = 1 then 'a' else 'b'], false, 80⟩

/-- Two targets, with requests that fail, succeed and are cancelled. -/
def sample : List (Op SockAddr Nat) :=
  [.new 1 (host 1), .new 2 (host 2), .clone 1 3, .ready 1 (.ok ()), .call 1 7, .call 3 8, .call 2 9, .drop 3,
   .poll 7 .pending, .poll 8 (.err ⟨[.other [], .failFast], []⟩), .poll 7 (.ok 200), .ready 1 (.err ⟨[.failFast, .io], []⟩),
   .poll 9 (.err ⟨[.serverUnauthorized], []⟩), .ready 2 (.err ⟨[.redirect 302 []], []⟩)]

example : (failures sample).length = 4 ∧ (run inTcpKey sample).reg
    = [((.failFast, host 1), 2), ((.unexpected, host 2), 1)] := by decide +kernel

example : Outermost inNamed [.other [], .gatewayLoop, .io] (some .gatewayLoop) :=
  ⟨[.other []], .gatewayLoop, [.io], rfl, by simp [inNamed], rfl⟩

example : refusal (fun _ => []) (InboundPolicy.Outcome.injected (503, [])) = some (.inboundInjected 503 []) := rfl

example : ((view sample).svc 2).isSome ∧ ((view (sample.take 8)).fut 8).isSome := by decide +kernel

end Verif.Metrics.Errors
