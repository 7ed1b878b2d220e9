import Verif.ClientPolicy.Lemmas
import Verif.ClientPolicy.Router
import Verif.HttpRoute.ApiProps

/-!
# C70: outbound policies are read as written

`Spec.PolicyWritten` says what a policy message means, and `Spec.BadPolicy` what makes it unreadable.
-/

namespace Verif.ClientPolicy

open Verif Verif.HttpRoute Verif.HttpRoute.Api
open Verif.ClientPolicy.Spec
open Verif.Profiles (ApiDuration)

variable (env : Env)

/-- A policy that was read is what the message says. -/
theorem C70_read_is_written (labels : Bool) (p : ApiPolicy) (x : ClientPolicy)
    (h : ClientPolicy.read env labels p = some x) : PolicyWritten env labels p x := by
  unfold ClientPolicy.read at h
  simp only [Option.bind_eq_some_iff, Option.map_eq_some_iff] at h
  obtain ⟨m, hm, proto, hp, pr, hpr, rfl⟩ := h
  exact ⟨(meta_some _ _).1 hm, ⟨proto, hp, protocol_written env labels _ _ hpr⟩⟩

/-- A message is refused exactly if something in it cannot be read. -/
theorem C70_refused_iff (labels : Bool) (p : ApiPolicy) : ClientPolicy.read env labels p = none ↔ BadPolicy env p := by
  unfold ClientPolicy.read BadPolicy Lacks
  cases hm : readMeta p.metadata with
  | none => simp [(meta_none _).1 hm]
  | some m =>
    have hb : ¬ BadMeta p.metadata := by rw [← meta_none, hm]; simp
    cases hp : p.protocol with
    | none => simp
    | some proto => simp [hb, protocol_none]

/-- What the proxy uses: the policy as written; or, whenever something cannot be read, the invalid policy, rather than
a part of what was written. -/
theorem C70_received (labels : Bool) (timeout : Nat) (p : ApiPolicy) :
    (BadPolicy env p → received env labels timeout p = .invalid timeout) ∧
    (¬ BadPolicy env p → PolicyWritten env labels p (received env labels timeout p)) := by
  unfold received
  refine ⟨fun h => ?_, fun h => ?_⟩
  · rw [(C70_refused_iff env labels p).2 h]; rfl
  · cases e : ClientPolicy.read env labels p with
    | none => exact absurd ((C70_refused_iff env labels p).1 e) h
    | some x => exact C70_read_is_written env labels p x e

/-- The invalid policy: every HTTP request has a route, whose only filter is the error, and so has every connection that is
not HTTP; there is no backend. -/
theorem C70_invalid_policy_has_only_errors (timeout : Nat) :
    ∃ h o, (ClientPolicy.invalid timeout).protocol = .detect timeout h h (some o) ∧
      (∀ req, ∃ s pol, find httpMatcher h.routes req = some (s, pol) ∧
        pol.filters = [.internalError "invalid client policy configuration".toList] ∧ pol.distribution.backends = [] ∧
        pol.meta_ = .default "invalid".toList ∧ pol.params = { timeouts := {}, retry := none, allowHeaders := false, exportHostnameLabels := false }) ∧
      (ClientPolicy.invalid timeout).parent = .default "invalid".toList ∧ o.meta_ = .default "invalid".toList ∧
      o.filters = [.internalError "invalid client policy configuration".toList] ∧ o.distribution.backends = [] ∧
      (ClientPolicy.invalid timeout).backends = [] :=
  ⟨invalidHttp, _, rfl, fun _ => ⟨_, _, rfl, rfl, rfl, rfl, rfl⟩, rfl, rfl, rfl, rfl, rfl⟩

/-- The policy used where nothing is known routes nothing. -/
theorem C70_empty_policy_has_no_routes (timeout : Nat) :
    ∃ h, (ClientPolicy.empty timeout).protocol = .detect timeout h h none ∧ (ClientPolicy.empty timeout).backends = [] ∧
      ∀ req, find httpMatcher h.routes req = none := ⟨⟨[], none⟩, rfl, rfl, fun _ => rfl⟩

/-- Backends are the same if they have the same group, kind and name, queue and dispatcher, whatever the namespace, the
section and the port. -/
theorem C70_same_backend (a b : Backend) : a.same b = true ↔
    (∃ group kind name, Identified a.meta_ group kind name ∧ Identified b.meta_ group kind name) ∧
      a.capacity = b.capacity ∧ a.failfast = b.failfast ∧ a.dispatcher = b.dispatcher := by
  rw [Backend.same_iff, Meta.same_named]

/-- The backends of a policy are those its routes name, each once. -/
theorem C70_backends (labels : Bool) (p : ApiPolicy) (x : ClientPolicy) (h : ClientPolicy.read env labels p = some x) :
    (∀ b ∈ x.backends, Uses x.protocol b) ∧ (∀ b, Uses x.protocol b → ∃ c ∈ x.backends, c.same b = true) ∧
      x.backends.Pairwise fun a b => a.same b = false := by
  unfold ClientPolicy.read at h
  simp only [Option.bind_eq_some_iff, Option.map_eq_some_iff] at h
  obtain ⟨m, hm, proto, hp, pr, hpr, rfl⟩ := h
  obtain ⟨h1, h2, -, h4⟩ := distinct_inv pr.used [] List.Pairwise.nil
  refine ⟨fun b hb => ?_, fun b hb => h4 b ((uses_iff pr b).2 hb), h1⟩
  rcases h2 b hb with h | h
  · cases h
  · exact (uses_iff pr b).1 h

/-- A backoff that was read is one of the
values `ExponentialBackoff::try_new` accepts (C05). -/
theorem C70_backoffs_are_valid (b : ApiBackoff) (x : Backoff.Backoff) (h : BackoffWritten b x) :
    Backoff.tryNew x.min x.max x.jitter = some x := by
  have e := (backoff_some b x).2 h
  unfold readBackoff at e
  simp only [Option.bind_eq_some_iff] at e
  obtain ⟨min, -, max, -, e⟩ := e
  have : x.min = min ∧ x.max = max ∧ x.jitter = b.jitter := by
    unfold Backoff.tryNew at e
    repeat' split at e
    all_goals first | cases e; done | (cases e; exact ⟨rfl, rfl, rfl⟩)
  rw [this.1, this.2.1, this.2.2]
  exact e

/-- A rule written with both fields for the request timeout has the newer one; with only the older one, that. -/
theorem C70_request_timeout (t : Option ApiTimeouts) (old : Option ApiDuration) (x : Timeouts) (h : RuleTimeouts t old x) :
    (∀ (a : ApiTimeouts) (d : ApiDuration), t = some a → a.request = some d → ∃ ns, x.request = some ns ∧ Dur d ns) ∧
    (∀ d, (∀ a, t = some a → a.request = none) → old = some d → ∃ ns, x.request = some ns ∧ Dur d ns) ∧
    ((∀ a, t = some a → a.request = none) → old = none → x.request = none) := by
  obtain ⟨y, o, hy, ho, -, -, hr⟩ := h
  have hz : (∀ a, t = some a → a.request = none) → ∀ z, y = some z → z.request = none := by
    intro hn z e
    rcases hy with ⟨-, e'⟩ | ⟨a, b, ea, eb, hw⟩
    · rw [e] at e'; cases e'
    · rw [eb] at e; cases e
      rcases hw.request with ⟨-, h⟩ | ⟨c, d, h1, -⟩
      · exact h
      · rw [hn a ea] at h1; cases h1
  refine ⟨?_, ?_, ?_⟩
  · intro a d ea ed
    rcases hy with ⟨e, -⟩ | ⟨a', b, ea', eb, hw⟩
    · rw [ea] at e; cases e
    · rw [ea] at ea'; cases ea'
      rcases hw.request with ⟨h1, -⟩ | ⟨c, ns, h1, h2, h3⟩
      · rw [ed] at h1; cases h1
      · rw [ed] at h1; cases h1
        exact ⟨ns, (hr ns).2 (.inl ⟨b, eb, h2⟩), h3⟩
  · intro d hn e
    rcases ho with ⟨e', -⟩ | ⟨d', ns, e', eo, hd⟩
    · rw [e] at e'; cases e'
    · rw [e] at e'; cases e'
      exact ⟨ns, (hr ns).2 (.inr ⟨hz hn, eo⟩), hd⟩
  · intro hn e
    rcases ho with ⟨-, eo⟩ | ⟨d', ns, e', -⟩
    · cases hx : x.request with
      | none => rfl
      | some v =>
        rcases (hr v).1 hx with ⟨z, ez, hv⟩ | ⟨-, h⟩
        · rw [hz hn z ez] at hv; cases hv
        · rw [eo] at h; cases h
    · rw [e] at e'; cases e'

/-! ## Examples -/

def exEnv : Env := ⟨exParsers, some, some⟩

def exMeta : ApiMeta := .resource "core".toList "Service".toList "web".toList "prod".toList [] 80

def exBackend (path : Str) : ApiBackend where
  metadata := some exMeta
  kind := some (.balancer (some path) (some (.peakEwma (some ⟨0, 30000000⟩) (some ⟨10, 0⟩))))
  queue := some (100, some ⟨3, 0⟩)

def exRule (distribution : ApiDistribution (Option ApiHttpFilter)) :
    ApiRule ApiHttpMatch (Option ApiHttpFilter) (ApiRetry (List (Nat × Nat))) where
  matches_ := [{}]
  backends := some distribution
  filters := []
  timeouts := some { response := some ⟨2, 0⟩ }
  retry := some ⟨some [(500, 504)], 3, 65535, none, none⟩
  allowHeaders := true
  requestTimeout := some ⟨5, 0⟩

def exPolicy (distribution : ApiDistribution (Option ApiHttpFilter)) : ApiPolicy where
  metadata := some exMeta
  protocol := some (.http1 { routes := [⟨some (.default "rt".toList), [], [exRule distribution]⟩], accrual := none })

def exPath : Str := "web.prod.svc.cluster.local:80".toList

/-- A readable policy: its route has the older request timeout, the newer response timeout and the listed statuses, and
its two backends are one. -/
example : ∃ x h rt ru, ClientPolicy.read exEnv true (exPolicy (.random
      [(1, some ⟨some (exBackend exPath), []⟩), (2, some ⟨some (exBackend exPath), []⟩)])) = some x ∧
    x.protocol = .http1 h ∧ h.routes = [rt] ∧ rt.rules = [ru] ∧
    ru.policy.params.timeouts = ⟨some 2000000000, none, some 5000000000⟩ ∧
    ru.policy.params.retry = some ⟨3, 65535, [(500, 504)], none, none⟩ ∧
    ru.policy.distribution.backends.length = 2 ∧ x.backends.length = 1 :=
  ⟨_, _, _, _, rfl, rfl, rfl, rfl, rfl, rfl, rfl, rfl⟩

/-- An unreadable one: a distribution without backends. -/
example : ClientPolicy.read exEnv true (exPolicy (.first [])) = none ∧ BadPolicy exEnv (exPolicy (.first [])) := by
  refine ⟨rfl, (C70_refused_iff exEnv true _).1 rfl⟩

/-- Backends that differ only in their namespace are the same. -/
example : Backend.same ⟨.resource "core".toList "Service".toList "web".toList "a".toList none none, 1, 1, .fail []⟩
    ⟨.resource "core".toList "Service".toList "web".toList "b".toList none none, 1, 1, .fail []⟩ = true := by decide

example : BackoffWritten ⟨some ⟨1, 0⟩, some ⟨2, 0⟩, .fin 1 2⟩ ⟨1000000000, 2000000000, .fin 1 2⟩ :=
  (backoff_some _ _).1 (by decide)

end Verif.ClientPolicy
