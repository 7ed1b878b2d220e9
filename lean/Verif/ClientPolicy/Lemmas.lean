import Verif.Backoff.Props
import Verif.ClientPolicy.Spec
import Verif.HttpRoute.ApiProps

/-!
# Each reading function against the specification
-/

namespace Verif.ClientPolicy

open Verif Verif.HttpRoute Verif.HttpRoute.Api Spec
open Verif.Profiles (ApiDuration)

variable {α β : Type}

theorem readAll_each {f : α → Option β} {R : α → β → Prop} (h : ∀ a b, f a = some b ↔ R a b) {l : List α} {r : List β} :
    readAll f l = some r ↔ Each R l r := by
  rw [readAll_some, Each]
  constructor
  · rintro ⟨h1, h2⟩
    refine ⟨h1, fun i a ha => ?_⟩
    obtain ⟨b, hb, hf⟩ := h2 i a ha
    exact ⟨b, hb, (h a b).1 hf⟩
  · rintro ⟨h1, h2⟩
    refine ⟨h1, fun i a ha => ?_⟩
    obtain ⟨b, hb, hf⟩ := h2 i a ha
    exact ⟨b, hb, (h a b).2 hf⟩

theorem readOpt_opt {f : α → Option β} {R : α → β → Prop} (h : ∀ a b, f a = some b ↔ R a b) {o : Option α}
    {r : Option β} : readOpt f o = some r ↔ Opt R o r := by
  unfold Opt
  cases o with
  | none => simp [readOpt, eq_comm]
  | some a => simp [readOpt, Option.map_eq_some_iff, ← h, eq_comm, and_comm]

theorem bind_req {f : α → Option β} {R : α → β → Prop} (h : ∀ a b, f a = some b ↔ R a b) {o : Option α} {b : β} :
    o.bind f = some b ↔ Req R o b := by
  unfold Req
  simp [Option.bind_eq_some_iff, h]

theorem readAll_bad {f : α → Option β} {Bad : α → Prop} (h : ∀ a, f a = none ↔ Bad a) {l : List α} :
    readAll f l = none ↔ ∃ a ∈ l, Bad a := by simp [readAll_none, h]

theorem readOpt_has {f : α → Option β} {Bad : α → Prop} (h : ∀ a, f a = none ↔ Bad a) {o : Option α} :
    readOpt f o = none ↔ Has Bad o := by simp [readOpt_none, Has, h]

theorem bind_lacks {f : α → Option β} {Bad : α → Prop} (h : ∀ a, f a = none ↔ Bad a) {o : Option α} :
    o.bind f = none ↔ Lacks Bad o := by
  unfold Lacks
  cases o <;> simp [h]

theorem isEmpty_each {R : α → β → Prop} {l : List α} {r : List β} (h : Each R l r) : r.isEmpty = true ↔ l = [] := by
  have := h.1
  cases l <;> cases r <;> simp_all

/-! ## Durations -/

theorem dur (d : ApiDuration) (ns : Nat) : d.toDuration = some ns ↔ Dur d ns := by
  unfold ApiDuration.toDuration Dur
  dsimp only
  split
  · rw [Option.some.injEq]; omega
  · simp only [reduceCtorEq, false_iff]; omega

theorem badDur (d : ApiDuration) : d.toDuration = none ↔ BadDur d := by
  unfold ApiDuration.toDuration BadDur
  dsimp only
  split
  · simp only [reduceCtorEq, false_iff]; omega
  · simp only [true_iff]; omega

theorem duration_req {d : Option ApiDuration} {ns : Nat} : duration d = some ns ↔ Req Dur d ns := bind_req dur
theorem duration_lacks {d : Option ApiDuration} : duration d = none ↔ Lacks BadDur d := bind_lacks badDur

theorem durationOr_some {d : Option ApiDuration} {dflt ns : Nat} : durationOr d dflt = some ns ↔ DurOr d dflt ns := by
  unfold durationOr DurOr Req
  cases d with
  | none => simp [eq_comm]
  | some d => simp [dur]

theorem durationOr_none {d : Option ApiDuration} {dflt : Nat} : durationOr d dflt = none ↔ Has BadDur d := by
  unfold durationOr Has
  cases d with
  | none => simp
  | some d => simp [badDur]

/-! ## Metadata -/

theorem meta_some (m : Option ApiMeta) (x : Meta) : readMeta m = some x ↔ MetaWritten m x := by
  unfold MetaWritten
  rcases m with _ | (name | ⟨group, kind, name, ns, sect, port⟩)
  · simp [readMeta]
  · simp [readMeta, eq_comm]
  · simp only [readMeta]
    by_cases hb : group = [] ∨ kind = [] ∨ name = [] ∨ ns = []
    · simp only [hb, if_true, reduceCtorEq, false_iff, Option.some.injEq, false_and, exists_false, false_or]
      rintro ⟨g, k, n, nn, s, p, s', p', h, h1, h2, h3, h4, -⟩
      injection h with h h' h'' h''' 
      subst h h' h'' h'''
      rcases hb with h | h | h | h
      · exact h1 h
      · exact h2 h
      · exact h3 h
      · exact h4 h
    · simp only [hb, if_false, Option.some.injEq, reduceCtorEq, false_and, exists_false, false_or]
      have hs : ∀ s, nonEmpty sect = some s ↔ s = sect ∧ sect ≠ [] := by
        intro s; unfold nonEmpty; split <;> simp_all [eq_comm]
      have hp : ∀ p, portOf port = some p ↔ p = port ∧ 0 < port ∧ port < 65536 := by
        intro p
        unfold portOf u16
        by_cases h : port < 65536
        · simp only [h, if_true]
          by_cases h0 : port = 0
          · simp [h0]
          · simp [h0, eq_comm]; omega
        · simp [h]
      constructor
      · rintro rfl
        refine ⟨group, kind, name, ns, sect, port, _, _, rfl, ?_, ?_, ?_, ?_, rfl, hs, hp⟩ <;>
          exact fun h => hb (by simp [h])
      · rintro ⟨g, k, n, nn, s, p, s', p', h, h1, h2, h3, h4, rfl, h5, h6⟩
        injection h with h h' h'' h''' h4' h5'
        subst h h' h'' h''' h4' h5'
        have e1 : nonEmpty sect = s' := Option.ext fun a => by rw [hs, h5]
        rw [e1]
        congr 1
        exact Option.ext fun a => by rw [hp, h6]

theorem meta_none (m : Option ApiMeta) : readMeta m = none ↔ BadMeta m := by
  unfold BadMeta
  rcases m with _ | (name | ⟨group, kind, name, ns, sect, port⟩)
  · simp [readMeta]
  · simp [readMeta]
  · simp only [readMeta, ite_eq_left_iff, reduceCtorEq, imp_false, Classical.not_not, false_or, Option.some.injEq]
    constructor
    · intro h; exact ⟨_, _, _, _, _, _, rfl, h⟩
    · rintro ⟨g, k, n, nn, s, p, h, h1⟩
      injection h with h h' h'' h'''
      subst h h' h'' h'''
      exact h1

/-! ## Backoffs -/

theorem backoff_some (b : ApiBackoff) (x : Backoff.Backoff) : readBackoff b = some x ↔ BackoffWritten b x := by
  unfold readBackoff BackoffWritten
  simp only [Option.bind_eq_some_iff, duration_req, Backoff.C05_try_new_validates]
  constructor
  · rintro ⟨min, h1, max, h2, rfl, h3, h4, h5⟩
    exact ⟨h1, h2, rfl, h3, h4, h5⟩
  · rintro ⟨h1, h2, h3, h4, h5, h6⟩
    exact ⟨_, h1, _, h2, by rw [← h3], h4, h5, h6⟩

theorem tryNew_none (min max : Nat) (j : Backoff.Jitter) :
    Backoff.tryNew min max j = none ↔ (max < min ∨ max = 0) ∨ ¬ ∃ n d, j = .fin n d ∧ 0 ≤ n ∧ n ≤ 100 * (d : Int) := by
  have := fun b => Backoff.C05_try_new_validates min max j b
  constructor
  · intro h
    rcases Classical.em (max < min ∨ max = 0) with h1 | h1
    · exact .inl h1
    · refine .inr fun h2 => ?_
      have := (this { min, max, jitter := j }).2 ⟨rfl, by omega, by omega, h2⟩
      rw [h] at this; cases this
  · intro h
    cases h1 : Backoff.tryNew min max j with
    | none => rfl
    | some b =>
      obtain ⟨_, h2, h3, h4⟩ := (this b).1 h1
      rcases h with h | h
      · omega
      · exact absurd h4 h

theorem backoff_none (b : ApiBackoff) : readBackoff b = none ↔ BadBackoff b := by
  unfold readBackoff BadBackoff
  rw [← duration_lacks, ← duration_lacks]
  simp only [← duration_req]
  cases h1 : duration b.min with
  | none => simp
  | some min =>
    cases h2 : duration b.max with
    | none => simp
    | some max =>
      simp only [Option.bind_some, tryNew_none, reduceCtorEq, Option.some.injEq, false_or]
      constructor
      · rintro (h | h)
        · exact .inl ⟨_, _, rfl, rfl, h⟩
        · exact .inr h
      · rintro (⟨_, _, rfl, rfl, h⟩ | h)
        · exact .inl h
        · exact .inr h

/-! ## Loads and dispatchers -/

theorem load_some (l : Option ApiLoad) (x : Load) : readLoad l = some x ↔ LoadWritten l x := by
  unfold LoadWritten
  rcases l with _ | (⟨rtt, decay⟩ | ⟨rtt, decay, pen, mra, pd⟩)
  · simp [readLoad]
  · simp only [readLoad, Option.bind_eq_some_iff, Option.map_eq_some_iff, duration_req, Option.some.injEq, reduceCtorEq,
      false_and, exists_false, or_false]
    constructor
    · rintro ⟨a, h1, b, h2, rfl⟩
      exact ⟨_, _, _, _, rfl, rfl, h1, h2⟩
    · rintro ⟨_, _, a, b, h, rfl, h1, h2⟩
      cases h
      exact ⟨_, h1, _, h2, rfl⟩
  · simp only [readLoad, Option.bind_eq_some_iff, Option.map_eq_some_iff, durationOr_some, Option.some.injEq, reduceCtorEq,
      false_and, exists_false, false_or, ms, sec, Nat.reduceMul]
    constructor
    · rintro ⟨a, h1, b, h2, c, h3, d, h4, e, h5, rfl⟩
      exact ⟨_, _, _, _, _, _, _, _, _, _, rfl, rfl, h1, h2, h3, h4, h5⟩
    · rintro ⟨_, _, _, _, _, a, b, c, d, e, h, rfl, h1, h2, h3, h4, h5⟩
      cases h
      exact ⟨_, h1, _, h2, _, h3, _, h4, _, h5, rfl⟩

theorem load_none (l : Option ApiLoad) : readLoad l = none ↔ BadLoad l := by
  unfold BadLoad
  rcases l with _ | (⟨rtt, decay⟩ | ⟨rtt, decay, pen, mra, pd⟩)
  · simp [readLoad]
  · have : readLoad (some (.peakEwma rtt decay)) = none ↔ duration rtt = none ∨ duration decay = none := by
      simp only [readLoad]
      cases duration rtt <;> cases duration decay <;> simp
    rw [this, duration_lacks, duration_lacks]
    constructor
    · intro h; exact .inr (.inl ⟨_, _, rfl, h⟩)
    · rintro (h | ⟨_, _, h, h'⟩ | ⟨_, _, _, _, _, h, _⟩)
      · cases h
      · cases h; exact h'
      · cases h
  · have : readLoad (some (.penaltyPeakEwma rtt decay pen mra pd)) = none ↔
        durationOr rtt (30 * ms) = none ∨ durationOr decay (10 * sec) = none ∨ durationOr pen (5 * sec) = none ∨
          durationOr pd (10 * sec) = none ∨ durationOr mra (300 * sec) = none := by
      simp only [readLoad]
      cases durationOr rtt (30 * ms) <;> cases durationOr decay (10 * sec) <;> cases durationOr pen (5 * sec) <;>
        cases durationOr pd (10 * sec) <;> cases durationOr mra (300 * sec) <;> simp
    rw [this]
    simp only [durationOr_none]
    constructor
    · intro h; exact .inr (.inr ⟨_, _, _, _, _, rfl, h⟩)
    · rintro (h | ⟨_, _, h, _⟩ | ⟨_, _, _, _, _, h, h'⟩)
      · cases h
      · cases h
      · cases h; exact h'

variable (env : Env)

theorem dispatcher_written (m : Meta) (k : Option ApiKind) (x : Dispatcher) (h : readDispatcher env m k = some x) :
    DispatcherWritten env m k x := by
  unfold DispatcherWritten
  rcases k with _ | (⟨path, load⟩ | ep)
  · simp only [readDispatcher, Option.some.injEq] at h
    refine .inr (.inr ⟨rfl, ?_⟩)
    rw [← h]
    congr 1
    by_cases hn : m.ns = [] <;> simp [hn]
  · simp only [readDispatcher, Option.bind_eq_some_iff, Option.map_eq_some_iff, load_some] at h
    obtain ⟨p, rfl, l, h1, rfl⟩ := h
    exact .inl ⟨_, _, _, rfl, h1, rfl⟩
  · simp only [readDispatcher, Option.map_eq_some_iff] at h
    obtain ⟨⟨a, md⟩, h1, rfl⟩ := h
    exact .inr (.inl ⟨_, _, _, rfl, h1, rfl⟩)

theorem dispatcher_none (m : Meta) (k : Option ApiKind) : readDispatcher env m k = none ↔ BadKind env k := by
  unfold BadKind
  rcases k with _ | (⟨path, load⟩ | ep)
  · simp [readDispatcher]
  · have : readDispatcher env m (some (.balancer path load)) = none ↔ path = none ∨ readLoad load = none := by
      simp only [readDispatcher]
      cases path <;> cases readLoad load <;> simp
    rw [this, load_none]
    constructor
    · intro h; exact .inl ⟨_, _, rfl, h⟩
    · rintro (⟨_, _, h, h'⟩ | ⟨_, h, _⟩)
      · cases h; exact h'
      · cases h
  · simp [readDispatcher]

theorem dispatcher_some (m : Meta) (k : Option ApiKind) (x : Dispatcher) :
    readDispatcher env m k = some x ↔ DispatcherWritten env m k x := by
  refine ⟨dispatcher_written env m k x, ?_⟩
  rintro (⟨p, l, l', rfl, h, rfl⟩ | ⟨ep, a, md, rfl, h, rfl⟩ | ⟨rfl, rfl⟩)
  · simp [readDispatcher, (load_some l l').2 h]
  · simp [readDispatcher, h]
  · simp only [readDispatcher, Option.some.injEq]
    congr 1
    by_cases hn : m.ns = [] <;> simp [hn]

theorem backend_some (b : ApiBackend) (x : Backend) : readBackend env b = some x ↔ BackendWritten env b x := by
  unfold readBackend
  simp only [Option.bind_eq_some_iff, Option.map_eq_some_iff, duration_req, meta_some, dispatcher_some]
  constructor
  · rintro ⟨m, h1, d, h2, q, h3, ff, h4, rfl⟩
    exact ⟨h1, h2, q.2, h3, h4⟩
  · rintro ⟨h1, h2, ff, h3, h4⟩
    exact ⟨_, h1, _, h2, _, h3, _, h4, rfl⟩

theorem backend_none (b : ApiBackend) : readBackend env b = none ↔ BadBackend env b := by
  unfold readBackend BadBackend
  rw [← meta_none]
  have hq : Lacks (fun q => Lacks BadDur q.2) b.queue ↔
      b.queue.bind (fun q => duration q.2) = none := (bind_lacks fun q => duration_lacks).symm
  rw [hq]
  cases readMeta b.metadata with
  | none => simp
  | some m =>
    rw [← dispatcher_none env m]
    simp only [Option.bind_some, reduceCtorEq, false_or]
    cases readDispatcher env m b.kind with
    | none => simp
    | some d =>
      cases b.queue with
      | none => simp
      | some q => cases h : duration q.2 <;> simp [h]

variable {A F N M S R : Type}

theorem routeBackend_some {conv : A → Option F} {filter : A → F → Prop} (hf : ∀ a b, conv a = some b ↔ filter a b)
    (b : ApiRouteBackend A) (x : RouteBackend F) :
    readRouteBackend env conv b = some x ↔ RouteBackendWritten env filter b x := by
  unfold readRouteBackend
  simp only [Option.bind_eq_some_iff, Option.map_eq_some_iff, backend_some, readAll_each hf]
  constructor
  · rintro ⟨bk, h1, bk', h2, fs, h3, rfl⟩
    exact ⟨⟨bk, h1, h2⟩, h3⟩
  · rintro ⟨⟨bk, h1, h2⟩, h3⟩
    exact ⟨_, h1, _, h2, _, h3, rfl⟩

theorem routeBackend_none {conv : A → Option F} {bad : A → Prop} (hb : ∀ a, conv a = none ↔ bad a)
    (b : ApiRouteBackend A) : readRouteBackend env conv b = none ↔ BadRouteBackend env bad b := by
  unfold readRouteBackend BadRouteBackend
  rw [← bind_lacks (backend_none env), ← readAll_bad hb]
  cases b.backend with
  | none => simp
  | some bk => cases h : readBackend env bk <;> cases h2 : readAll conv b.filters <;> simp [h]

theorem weighted_some {conv : A → Option F} {filter : A → F → Prop} (hf : ∀ a b, conv a = some b ↔ filter a b)
    (b : Nat × Option (ApiRouteBackend A)) (x : RouteBackend F × Nat) :
    readWeighted env conv b = some x ↔ x.2 = b.1 ∧ Req (RouteBackendWritten env filter) b.2 x.1 := by
  unfold readWeighted
  simp only [Option.bind_eq_some_iff, Option.map_eq_some_iff, routeBackend_some env hf]
  constructor
  · rintro ⟨rb, h1, rb', h2, rfl⟩
    exact ⟨rfl, rb, h1, h2⟩
  · rintro ⟨h, rb, h1, h2⟩
    exact ⟨_, h1, _, h2, by rw [← h]⟩

theorem weighted_none {conv : A → Option F} {bad : A → Prop} (hb : ∀ a, conv a = none ↔ bad a)
    (b : Nat × Option (ApiRouteBackend A)) :
    readWeighted env conv b = none ↔ Lacks (BadRouteBackend env bad) b.2 := by
  rw [← bind_lacks (routeBackend_none env hb)]
  unfold readWeighted
  cases b.2 with
  | none => simp
  | some rb => simp

theorem distribution_some {conv : A → Option F} {filter : A → F → Prop} (hf : ∀ a b, conv a = some b ↔ filter a b)
    (d : Option (ApiDistribution A)) (x : Distribution F) :
    readDistribution env conv d = some x ↔ DistributionWritten env filter d x := by
  unfold DistributionWritten
  rcases d with _ | (_ | l | l)
  · simp [readDistribution]
  · simp [readDistribution, eq_comm]
  · simp only [readDistribution, Option.bind_eq_some_iff, readAll_each (routeBackend_some env hf)]
    constructor
    · rintro ⟨l', h1, h2⟩
      by_cases he : l'.isEmpty = true
      · rw [if_pos he] at h2; cases h2
      · rw [if_neg he] at h2
        cases h2
        exact .inr (.inl ⟨l, l', rfl, rfl, fun h => he ((isEmpty_each h1).2 h), h1⟩)
    · rintro (⟨h, -⟩ | ⟨_, l', h, rfl, h1, h2⟩ | ⟨_, l', h, -⟩)
      · cases h
      · cases h
        exact ⟨l', h2, by rw [if_neg fun h => h1 ((isEmpty_each h2).1 h)]⟩
      · cases h
  · simp only [readDistribution, Option.bind_eq_some_iff, readAll_each (weighted_some env hf)]
    constructor
    · rintro ⟨l', h1, h2⟩
      by_cases he : l'.isEmpty = true
      · rw [if_pos he] at h2; cases h2
      · rw [if_neg he] at h2
        cases h2
        exact .inr (.inr ⟨l, l', rfl, rfl, fun h => he ((isEmpty_each h1).2 h), h1⟩)
    · rintro (⟨h, -⟩ | ⟨_, l', h, -⟩ | ⟨_, l', h, rfl, h1, h2⟩)
      · cases h
      · cases h
      · cases h
        exact ⟨l', h2, by rw [if_neg fun h => h1 ((isEmpty_each h2).1 h)]⟩

theorem distribution_none {conv : A → Option F} {bad : A → Prop} (hb : ∀ a, conv a = none ↔ bad a)
    (d : Option (ApiDistribution A)) : readDistribution env conv d = none ↔ BadDistribution env bad d := by
  unfold BadDistribution
  rcases d with _ | (_ | l | l)
  · simp [readDistribution]
  · simp [readDistribution]
  · have h := readAll_bad (routeBackend_none env hb) (l := l)
    simp only [readDistribution, reduceCtorEq, Option.some.injEq, ApiDistribution.first.injEq, false_or, false_and,
      exists_false, or_false, exists_eq_left', ← h]
    cases hr : readAll (readRouteBackend env conv) l with
    | none => simp
    | some r =>
      have hl := (readAll_some.1 hr).1
      cases l <;> cases r <;> simp_all
  · have h := readAll_bad (weighted_none env hb) (l := l)
    simp only [readDistribution, reduceCtorEq, Option.some.injEq, ApiDistribution.random.injEq, false_or, false_and,
      exists_false, exists_eq_left', ← h]
    cases hr : readAll (readWeighted env conv) l with
    | none => simp
    | some r =>
      have hl := (readAll_some.1 hr).1
      cases l <;> cases r <;> simp_all

/-! ## Rules -/

theorem timeouts_some (t : ApiTimeouts) (x : Timeouts) : readTimeouts t = some x ↔ TimeoutsWritten t x := by
  unfold readTimeouts
  simp only [Option.bind_eq_some_iff, Option.map_eq_some_iff, readOpt_opt dur]
  constructor
  · rintro ⟨a, h1, b, h2, c, h3, rfl⟩
    exact ⟨h1, h2, h3⟩
  · rintro ⟨h1, h2, h3⟩
    exact ⟨_, h1, _, h2, _, h3, rfl⟩

theorem timeouts_none (t : ApiTimeouts) : readTimeouts t = none ↔ BadTimeouts t := by
  unfold readTimeouts BadTimeouts
  rw [← readOpt_has badDur, ← readOpt_has badDur, ← readOpt_has badDur]
  cases readOpt ApiDuration.toDuration t.response <;> cases readOpt ApiDuration.toDuration t.idle <;>
    cases readOpt ApiDuration.toDuration t.request <;> simp

theorem ruleTimeouts_iff (y : Option Timeouts) (o : Option Nat) (x : Timeouts) :
    ({ y.getD {} with request := (y.getD {}).request.or o } : Timeouts) = x ↔
      ((∀ v, x.response = some v ↔ ∃ z, y = some z ∧ z.response = some v) ∧
      (∀ v, x.idle = some v ↔ ∃ z, y = some z ∧ z.idle = some v) ∧
      (∀ v, x.request = some v ↔
        (∃ z, y = some z ∧ z.request = some v) ∨ ((∀ z, y = some z → z.request = none) ∧ o = some v))) := by
  obtain ⟨r, i, q⟩ := x
  cases y with
  | none =>
    simp only [Option.getD_none, Timeouts.mk.injEq, Option.or, reduceCtorEq, false_and, exists_false, iff_false, false_or,
      false_imp_iff, implies_true, true_and]
    constructor
    · rintro ⟨rfl, rfl, rfl⟩; simp
    · rintro ⟨h1, h2, h3⟩
      exact ⟨(Option.eq_none_iff_forall_ne_some.2 h1).symm, (Option.eq_none_iff_forall_ne_some.2 h2).symm,
        Option.ext fun a => (h3 a).symm⟩
  | some z =>
    obtain ⟨zr, zi, zq⟩ := z
    simp only [Option.getD_some, Timeouts.mk.injEq, Option.some.injEq, exists_eq_left', forall_eq']
    constructor
    · rintro ⟨rfl, rfl, rfl⟩
      refine ⟨by simp, by simp, ?_⟩
      cases zq <;> simp
    · rintro ⟨h1, h2, h3⟩
      refine ⟨Option.ext fun a => (h1 a).symm, Option.ext fun a => (h2 a).symm, Option.ext fun a => ?_⟩
      rw [h3]
      cases zq <;> simp

theorem rule_some {convM : N → Option M} {conv : A → Option F} {convR : S → Option R} {match_ : N → M → Prop}
    {filter : A → F → Prop} {retry : S → R → Prop} (hm : ∀ a b, convM a = some b ↔ match_ a b)
    (hf : ∀ a b, conv a = some b ↔ filter a b) (hr : ∀ a b, convR a = some b ↔ retry a b) (labels : Bool) (m : Meta)
    (r : ApiRule N A S) (x : Rule M (RoutePolicy F (RouteParams R))) :
    readRule env convM conv convR labels m r = some x ↔ RuleWritten env match_ filter retry labels m r x := by
  unfold readRule
  simp only [Option.bind_eq_some_iff, Option.map_eq_some_iff, readAll_each hm, readAll_each hf, distribution_some env hf,
    readOpt_opt hr, readOpt_opt timeouts_some, readOpt_opt dur]
  constructor
  · rintro ⟨ms, h1, fs, h2, d, h3, rt, h4, ts, h5, old, h6, rfl⟩
    exact ⟨h1, h2, h3, rfl, ⟨ts, old, h5, h6, (ruleTimeouts_iff ts old _).1 rfl⟩, h4, rfl, rfl⟩
  · rintro ⟨h1, h2, h3, h4, ⟨ts, old, h5, h6, h7⟩, h8, h9, h10⟩
    refine ⟨_, h1, _, h2, _, h3, _, h8, _, h5, _, h6, ?_⟩
    have := (ruleTimeouts_iff ts old _).2 h7
    obtain ⟨ms, ⟨mt, fs, d, ⟨ts', rt, ah, lb⟩⟩⟩ := x
    dsimp only at h4 h9 h10 this ⊢
    rw [h4, h9, h10, this]

theorem rule_none {convM : N → Option M} {conv : A → Option F} {convR : S → Option R} {badMatch : N → Prop}
    {bad : A → Prop} {badRetry : S → Prop} (hm : ∀ a, convM a = none ↔ badMatch a) (hf : ∀ a, conv a = none ↔ bad a)
    (hr : ∀ a, convR a = none ↔ badRetry a) (labels : Bool) (m : Meta) (r : ApiRule N A S) :
    readRule env convM conv convR labels m r = none ↔ BadRule env badMatch bad badRetry r := by
  unfold readRule BadRule
  rw [← readAll_bad hm, ← readAll_bad hf, ← distribution_none env hf, ← readOpt_has hr, ← readOpt_has timeouts_none,
    ← readOpt_has badDur]
  cases readAll convM r.matches_ <;> cases readAll conv r.filters <;> cases readDistribution env conv r.backends <;>
    cases readOpt convR r.retry <;> cases readOpt readTimeouts r.timeouts <;>
    cases readOpt ApiDuration.toDuration r.requestTimeout <;> simp

theorem host_none (h : Option ApiHost) : readHost h = none ↔ h = none := by
  rcases h with _ | (h | h) <;> simp [readHost]

theorem sni_none (h : Option ApiHost) : readSni h = none ↔ h = none := by
  rcases h with _ | (h | h) <;> simp [readSni]

theorem route_some {convM : N → Option M} {conv : A → Option F} {convR : S → Option R} {match_ : N → M → Prop}
    {filter : A → F → Prop} {retry : S → R → Prop} (hm : ∀ a b, convM a = some b ↔ match_ a b)
    (hf : ∀ a b, conv a = some b ↔ filter a b) (hr : ∀ a b, convR a = some b ↔ retry a b) (labels : Bool)
    (r : ApiRoute N A S) (x : Route M (RoutePolicy F (RouteParams R))) :
    readRoute env convM conv convR labels r = some x ↔ RouteWritten env match_ filter retry labels r x := by
  unfold readRoute
  simp only [Option.bind_eq_some_iff, Option.map_eq_some_iff, meta_some,
    readAll_each (rule_some env hm hf hr labels _),
    readAll_each (f := readHost) (R := fun h h' => readHost h = some h') (fun _ _ => Iff.rfl)]
  constructor
  · rintro ⟨mt, h1, hs, h2, rs, h3, rfl⟩
    exact ⟨h2, mt, h1, h3⟩
  · rintro ⟨h2, mt, h1, h3⟩
    exact ⟨_, h1, _, h2, _, h3, rfl⟩

theorem route_none {convM : N → Option M} {conv : A → Option F} {convR : S → Option R} {badMatch : N → Prop}
    {bad : A → Prop} {badRetry : S → Prop} (hm : ∀ a, convM a = none ↔ badMatch a) (hf : ∀ a, conv a = none ↔ bad a)
    (hr : ∀ a, convR a = none ↔ badRetry a) (labels : Bool) (r : ApiRoute N A S) :
    readRoute env convM conv convR labels r = none ↔ BadRoute env badMatch bad badRetry r := by
  unfold readRoute BadRoute
  have hh : none ∈ r.hosts ↔ readAll readHost r.hosts = none := by
    rw [readAll_bad host_none]; simp
  rw [← meta_none, hh]
  cases readMeta r.metadata with
  | none => simp
  | some m =>
    rw [← readAll_bad (rule_none env hm hf hr labels m)]
    simp only [Option.bind_some, reduceCtorEq, false_or]
    cases readAll readHost r.hosts <;> cases readAll (readRule env convM conv convR labels m) r.rules <;> simp

/-! ## Filters -/

theorem httpFilter_some (f : Option ApiHttpFilter) (x : HttpFilter) :
    readHttpFilter env f = some x ↔ HttpFilterWritten env f x := by
  unfold HttpFilterWritten
  rcases f with _ | (a | a | a | a) <;> simp [readHttpFilter, Option.map_eq_some_iff, @eq_comm _ x, and_comm]

theorem httpFilter_none (f : Option ApiHttpFilter) : readHttpFilter env f = none ↔ BadHttpFilter env f := by
  unfold BadHttpFilter
  rcases f with _ | (a | a | a | a) <;> simp [readHttpFilter]

theorem grpcFilter_some (f : Option ApiGrpcFilter) (x : GrpcFilter) :
    readGrpcFilter env f = some x ↔ GrpcFilterWritten env f x := by
  unfold GrpcFilterWritten
  rcases f with _ | (a | a) <;> simp [readGrpcFilter, Option.map_eq_some_iff, @eq_comm _ x, and_comm]

theorem grpcFilter_none (f : Option ApiGrpcFilter) : readGrpcFilter env f = none ↔ BadGrpcFilter env f := by
  unfold BadGrpcFilter
  rcases f with _ | (a | a) <;> simp [readGrpcFilter]

theorem tcpFilter_some (f : Option ApiTcpFilter) (x : TcpFilter) : readTcpFilter f = some x ↔ TcpFilterWritten f x := by
  unfold TcpFilterWritten
  rcases f with _ | (a | a) <;> simp [readTcpFilter, eq_comm]

theorem tcpFilter_none (f : Option ApiTcpFilter) : readTcpFilter f = none ↔ f = none := by
  rcases f with _ | (a | a) <;> simp [readTcpFilter]

/-! ## Retries -/

theorem range_some (r x : Nat × Nat) : readRange r = some x ↔ x = r ∧ GoodRange r := by
  obtain ⟨a, b⟩ := r
  unfold readRange GoodRange u16
  dsimp only
  by_cases ha : a < 65536
  · by_cases hb : b < 65536
    · simp only [ha, hb, if_true]
      split
      · simp only [reduceCtorEq, false_iff]; omega
      · rw [Option.some.injEq, eq_comm]
        constructor
        · intro h; exact ⟨h, by omega, by omega, by omega⟩
        · exact fun h => h.1
    · simp only [ha, hb, if_true, if_false, reduceCtorEq, false_iff]; omega
  · simp only [ha, if_false, reduceCtorEq, false_iff]; omega

theorem range_none (r : Nat × Nat) : readRange r = none ↔ ¬ GoodRange r := by
  have := range_some r r
  constructor
  · intro h hg
    rw [h] at this
    exact absurd (this.2 ⟨rfl, hg⟩) (by simp)
  · intro hg
    cases h : readRange r with
    | none => rfl
    | some x => exact absurd ((range_some r x).1 h).2 hg

theorem ranges_some (l r : List (Nat × Nat)) : readAll readRange l = some r ↔ r = l ∧ ∀ p ∈ l, GoodRange p := by
  induction l generalizing r with
  | nil => simp [readAll, eq_comm]
  | cons a l ih =>
    rw [readAll_cons_some]
    constructor
    · rintro ⟨b, r', h1, h2, rfl⟩
      obtain ⟨rfl, h⟩ := (range_some a b).1 h1
      obtain ⟨rfl, h'⟩ := (ih r').1 h2
      refine ⟨rfl, fun p hp => ?_⟩
      rcases List.mem_cons.1 hp with rfl | hp
      · exact h
      · exact h' p hp
    · rintro ⟨rfl, h⟩
      exact ⟨a, l, (range_some a a).2 ⟨rfl, h a (by simp)⟩, (ih l).2 ⟨rfl, fun p hp => h p (by simp [hp])⟩, rfl⟩

theorem u16_some (n m : Nat) : u16 n = some m ↔ m = n ∧ n ≤ 65535 := by
  unfold u16
  split
  · rw [Option.some.injEq]; omega
  · simp only [reduceCtorEq, false_iff]; omega

theorem u16_none (n : Nat) : u16 n = none ↔ 65535 < n := by
  unfold u16
  split
  · simp only [reduceCtorEq, false_iff]; omega
  · simp only [true_iff]; omega

theorem httpRetry_some (r : ApiRetry (List (Nat × Nat))) (x : HttpRetry) :
    readHttpRetry r = some x ↔ HttpRetryWritten r x := by
  unfold readHttpRetry
  simp only [Option.bind_eq_some_iff, Option.map_eq_some_iff, ranges_some, u16_some, readOpt_opt backoff_some,
    readOpt_opt dur]
  constructor
  · rintro ⟨c, h1, rs, ⟨rfl, h2⟩, mr, h3, b, h4, t, h5, rfl⟩
    exact ⟨⟨rs, h1, rfl, h2⟩, h3, rfl, h4, h5⟩
  · rintro ⟨⟨rs, h1, h2, h3⟩, h4, h5, h6, h7⟩
    refine ⟨rs, h1, rs, ⟨rfl, h3⟩, _, h4, _, h6, _, h7, ?_⟩
    rw [← h5, ← h2]

theorem httpRetry_none (r : ApiRetry (List (Nat × Nat))) : readHttpRetry r = none ↔ BadHttpRetry r := by
  unfold readHttpRetry BadHttpRetry
  have hc : Lacks (fun ranges => ∃ p ∈ ranges, ¬ GoodRange p) r.conditions ↔
      r.conditions.bind (readAll readRange) = none := (bind_lacks fun _ => readAll_bad range_none).symm
  rw [hc, ← u16_none, ← readOpt_has backoff_none, ← readOpt_has badDur]
  cases r.conditions with
  | none => simp
  | some c =>
    simp only [Option.bind_some]
    cases readAll readRange c <;> cases u16 r.maxRetries <;> cases readOpt readBackoff r.backoff <;>
      cases readOpt ApiDuration.toDuration r.timeout <;> simp

theorem codes_iff (c : GrpcConditions) (code : Nat) : code ∈ c.codes ↔
    (code = 1 ∧ c.cancelled = true) ∨ (code = 4 ∧ c.deadlineExceeded = true) ∨ (code = 8 ∧ c.resourceExhausted = true) ∨
      (code = 13 ∧ c.internal = true) ∨ (code = 14 ∧ c.unavailable = true) := by
  obtain ⟨a, b, c, d, e⟩ := c
  unfold GrpcConditions.codes
  cases a <;> cases b <;> cases c <;> cases d <;> cases e <;> simp [or_assoc]

theorem grpcRetry_written (r : ApiRetry GrpcConditions) (x : GrpcRetry) (h : readGrpcRetry r = some x) :
    GrpcRetryWritten r x := by
  unfold readGrpcRetry at h
  simp only [Option.bind_eq_some_iff, Option.map_eq_some_iff, readOpt_opt backoff_some, readOpt_opt dur] at h
  obtain ⟨c, h1, b, h2, t, h3, rfl⟩ := h
  exact ⟨⟨c, h1, codes_iff c⟩, rfl, rfl, h2, h3⟩

theorem grpcRetry_none (r : ApiRetry GrpcConditions) : readGrpcRetry r = none ↔ BadGrpcRetry r := by
  unfold readGrpcRetry BadGrpcRetry
  rw [← readOpt_has backoff_none, ← readOpt_has badDur]
  cases r.conditions <;> cases readOpt readBackoff r.backoff <;>
      cases readOpt ApiDuration.toDuration r.timeout <;> simp

/-! ## Failure accrual -/

theorem nearest_unique {t : Rat} {n m : Nat} (h1 : Nearest t n) (h2 : Nearest t m) : n = m := by
  obtain ⟨a, b⟩ := h1
  obtain ⟨c, d⟩ := h2
  have e1 : (n : Rat) < (m : Rat) + 1 := by grind
  have e2 : (m : Rat) < (n : Rat) + 1 := by grind
  have f1 : n < m + 1 := by exact_mod_cast e1
  have f2 : m < n + 1 := by exact_mod_cast e2
  omega

theorem basisPoints_nearest (t : Rat) (h : 0 ≤ t) : Nearest t (basisPoints t) := by
  unfold Nearest basisPoints
  have h0 : 0 ≤ (t * 10000 + 1 / 2).floor := by
    rw [Rat.le_floor_iff]
    have : (0 : Rat) ≤ t * 10000 := Rat.mul_nonneg h (by decide)
    grind
  have h1 := Rat.floor_le (t * 10000 + 1 / 2)
  have h2 := Rat.lt_floor_add_one (t * 10000 + 1 / 2)
  obtain ⟨n, hn⟩ := Int.eq_ofNat_of_zero_le h0
  rw [hn] at h1 h2 ⊢
  simp only [Int.toNat_natCast] at *
  rw [Rat.intCast_add] at h2
  have e : ((n : Int) : Rat) = (n : Rat) := rfl
  rw [e] at h1 h2
  constructor <;> grind

theorem accrual_some (a : Option ApiAccrual) (x : FailureAccrual) : readAccrual a = some x ↔ AccrualWritten a x := by
  unfold AccrualWritten
  rcases a with _ | (⟨n, b⟩ | ⟨t, decay, minR, maxF, b⟩)
  · simp [readAccrual]
  · simp only [readAccrual, Option.map_eq_some_iff, bind_req backoff_some]
    constructor
    · rintro ⟨b', h, rfl⟩
      exact .inl ⟨_, _, _, rfl, rfl, h⟩
    · rintro (⟨_, _, b', h, rfl, h'⟩ | ⟨_, _, _, _, _, _, _, _, h, _⟩)
      · cases h; exact ⟨_, h', rfl⟩
      · cases h
  · cases t with
    | none =>
      simp only [readAccrual, reduceCtorEq, false_iff]
      rintro (⟨_, _, _, h, -⟩ | ⟨_, _, _, _, _, _, _, _, h, -⟩) <;> cases h
    | some t =>
      simp only [readAccrual]
      constructor
      · intro h
        by_cases ht : 0 ≤ t ∧ t ≤ 1
        · rw [if_neg (by simpa using ht)] at h
          simp only [Option.bind_eq_some_iff, durationOr_some] at h
          obtain ⟨w, h1, h2⟩ := h
          by_cases hw : basisPoints t ≠ 0 ∧ w < 10 * ms
          · rw [if_pos hw] at h2; cases h2
          · rw [if_neg hw] at h2
            by_cases hm : minR > 1000000
            · rw [if_pos hm] at h2; cases h2
            · rw [if_neg hm] at h2
              simp only [Option.map_eq_some_iff, bind_req backoff_some] at h2
              obtain ⟨b', h3, rfl⟩ := h2
              refine .inr ⟨_, _, _, _, _, _, _, _, rfl, rfl, ht.1, ht.2, basisPoints_nearest t ht.1, h1, ?_, by omega, h3⟩
              intro h0
              simp only [ms] at hw
              omega
        · rw [if_pos (by simpa using ht)] at h; cases h
      · rintro (⟨_, _, _, h, -⟩ | ⟨_, _, _, _, _, t', w, b', h, rfl, h1, h2, h3, h4, h5, h6, h7⟩)
        · cases h
        · cases h
          have e := nearest_unique h3 (basisPoints_nearest _ h1)
          subst e
          rw [if_neg (by simp [h1, h2])]
          simp only [Option.bind_eq_some_iff, durationOr_some]
          refine ⟨w, h4, ?_⟩
          rw [if_neg (by simp only [ms]; rintro ⟨g1, g2⟩; have := h5 g1; omega), if_neg (by omega)]
          simp only [Option.map_eq_some_iff, bind_req backoff_some]
          exact ⟨b', h7, rfl⟩

theorem accrual_none (a : Option ApiAccrual) : readAccrual a = none ↔ BadAccrual a := by
  unfold BadAccrual
  rcases a with _ | (⟨n, b⟩ | ⟨t, decay, minR, maxF, b⟩)
  · simp [readAccrual]
  · simp only [readAccrual, Option.map_eq_none_iff, bind_lacks backoff_none]
    constructor
    · intro h; exact .inr (.inl ⟨_, _, rfl, h⟩)
    · rintro (h | ⟨_, _, h, h'⟩ | ⟨_, _, _, _, _, h, -⟩)
      · cases h
      · cases h; exact h'
      · cases h
  · have key : readAccrual (some (.unified t decay minR maxF b)) = none ↔
        (Lacks (fun t => ¬ (0 ≤ t ∧ t ≤ 1)) t ∨ Has BadDur decay ∨
          (∃ t' n, t = some t' ∧ Nearest t' n ∧ n ≠ 0 ∧ Has (fun d => ∃ ns, Dur d ns ∧ ns < 10000000) decay) ∨
          1000000 < minR ∨ Lacks BadBackoff b) := by
      cases t with
      | none => simp [readAccrual, Lacks]
      | some t =>
        simp only [readAccrual]
        by_cases ht : 0 ≤ t ∧ t ≤ 1
        · have hl : ¬ Lacks (fun t : Rat => ¬ (0 ≤ t ∧ t ≤ 1)) (some t) := fun h => h t rfl ht
          rw [if_neg (by simpa using ht), ← durationOr_none (dflt := 10 * sec), ← bind_lacks backoff_none]
          have hn : (∃ t' n, some t = some t' ∧ Nearest t' n ∧ n ≠ 0 ∧
              Has (fun d => ∃ ns, Dur d ns ∧ ns < 10000000) decay) ↔
              basisPoints t ≠ 0 ∧ ∃ w, durationOr decay (10 * sec) = some w ∧ w < 10 * ms := by
            constructor
            · rintro ⟨t', n, h, h1, h2, d, rfl, ns, h3, h4⟩
              cases h
              rw [nearest_unique h1 (basisPoints_nearest t ht.1)] at h2
              exact ⟨h2, ns, (dur d ns).2 h3, h4⟩
            · rintro ⟨h1, w, h2, h3⟩
              refine ⟨t, _, rfl, basisPoints_nearest t ht.1, h1, ?_⟩
              cases decay with
              | none =>
                simp only [durationOr, Option.some.injEq] at h2
                simp only [sec, ms] at h2 h3
                omega
              | some d => exact ⟨d, rfl, w, (dur d w).1 h2, h3⟩
          rw [hn]
          cases durationOr decay (10 * sec) with
          | none => simp
          | some w =>
            simp only [Option.bind_some, hl, false_or, reduceCtorEq, Option.some.injEq, exists_eq_left']
            by_cases hw : basisPoints t ≠ 0 ∧ w < 10 * ms
            · simp [hw]
            · rw [if_neg hw]
              by_cases hm : minR > 1000000
              · simp only [hm, if_true, true_or, or_true]
              · rw [if_neg hm]
                have : ¬ 1000000 < minR := hm
                simp only [Option.map_eq_none_iff, hw, this, false_or]
        · rw [if_pos (by simpa using ht)]
          simp only [true_iff]
          exact .inl fun a h => by cases h; exact ht
    rw [key]
    constructor
    · intro h; exact .inr (.inr ⟨_, _, _, _, _, rfl, h⟩)
    · rintro (h | ⟨_, _, h, h'⟩ | ⟨_, _, _, _, _, h, h'⟩)
      · cases h
      · cases h
      · cases h; exact h'

/-! ## Protocols -/

theorem Each.mono {P Q : α → β → Prop} (h : ∀ a b, P a b → Q a b) {l : List α} {r : List β} (e : Each P l r) :
    Each Q l r :=
  ⟨e.1, fun i a ha => let ⟨b, hb, hp⟩ := e.2 i a ha; ⟨b, hb, h a b hp⟩⟩

theorem Opt.mono {P Q : α → β → Prop} (h : ∀ a b, P a b → Q a b) {o : Option α} {r : Option β} (e : Opt P o r) :
    Opt Q o r := by
  rcases e with e | ⟨a, b, h1, h2, h3⟩
  · exact .inl e
  · exact .inr ⟨a, b, h1, h2, h a b h3⟩

theorem RouteWritten.mono {match_ : N → M → Prop} {filter : A → F → Prop} {P Q : S → R → Prop}
    (h : ∀ a b, P a b → Q a b) {labels : Bool} {r : ApiRoute N A S} {x : Route M (RoutePolicy F (RouteParams R))}
    (e : RouteWritten env match_ filter P labels r x) : RouteWritten env match_ filter Q labels r x := by
  obtain ⟨h1, m, h2, h3⟩ := e
  refine ⟨h1, m, h2, Each.mono (fun a b e => ?_) h3⟩
  exact ⟨e.1, e.2, e.3, e.4, e.5, Opt.mono h e.6, e.7, e.8⟩

theorem http_some (labels : Bool) (h : ApiHttp) (x : Http) : readHttp env labels h = some x ↔ HttpWritten env labels h x := by
  unfold readHttp
  simp only [Option.bind_eq_some_iff, Option.map_eq_some_iff, readOpt_opt accrual_some,
    readAll_each (route_some env (match_ := fun m m' => readHttpMatch env.ps m = some m') (fun _ _ => Iff.rfl)
      (httpFilter_some env) httpRetry_some labels)]
  constructor
  · rintro ⟨rs, h1, a, h2, rfl⟩
    exact ⟨h1, h2⟩
  · rintro ⟨h1, h2⟩
    exact ⟨_, h1, _, h2, rfl⟩

theorem http_none (labels : Bool) (h : ApiHttp) : readHttp env labels h = none ↔ Spec.BadHttp env h := by
  unfold readHttp Spec.BadHttp
  rw [← readOpt_has accrual_none,
    ← readAll_bad (route_none env (badMatch := fun m => readHttpMatch env.ps m = none) (fun _ => Iff.rfl)
      (httpFilter_none env) httpRetry_none labels)]
  cases readAll (readRoute env (readHttpMatch env.ps) (readHttpFilter env) readHttpRetry labels) h.routes <;>
    cases readOpt readAccrual h.accrual <;> simp

theorem grpc_written (labels : Bool) (g : ApiGrpc) (x : Grpc) (h : readGrpc env labels g = some x) :
    GrpcWritten env labels g x := by
  unfold readGrpc at h
  simp only [Option.bind_eq_some_iff, Option.map_eq_some_iff, readOpt_opt accrual_some,
    readAll_each (route_some env (match_ := fun m m' => readGrpcMatch env.ps m = some m') (fun _ _ => Iff.rfl)
      (grpcFilter_some env) (retry := fun a b => readGrpcRetry a = some b) (fun _ _ => Iff.rfl) labels)] at h
  obtain ⟨rs, h1, a, h2, rfl⟩ := h
  exact ⟨Each.mono (fun _ _ e => RouteWritten.mono env grpcRetry_written e) h1, h2⟩

theorem grpc_none (labels : Bool) (g : ApiGrpc) : readGrpc env labels g = none ↔ BadGrpc env g := by
  unfold readGrpc BadGrpc
  rw [← readOpt_has accrual_none,
    ← readAll_bad (route_none env (badMatch := fun m => readGrpcMatch env.ps m = none) (fun _ => Iff.rfl)
      (grpcFilter_none env) grpcRetry_none labels)]
  cases readAll (readRoute env (readGrpcMatch env.ps) (readGrpcFilter env) readGrpcRetry labels) g.routes <;>
    cases readOpt readAccrual g.accrual <;> simp

theorem onlyRule_some {P : Type} (params : P) (r : ApiTcpRoute) (x : RoutePolicy TcpFilter P) :
    (readMeta r.metadata).bind (fun m => onlyRule env params m r.rules) = some x ↔ TcpRuleWritten env params r x := by
  simp only [Option.bind_eq_some_iff, meta_some]
  constructor
  · rintro ⟨m, h1, h2⟩
    unfold onlyRule at h2
    split at h2
    · rename_i ru hr
      simp only [readTcpRule, Option.bind_eq_some_iff, Option.map_eq_some_iff, distribution_some env tcpFilter_some,
        readAll_each tcpFilter_some] at h2
      obtain ⟨d, h3, fs, h4, rfl⟩ := h2
      exact ⟨⟨ru, hr, h3, h4⟩, h1, rfl⟩
    · cases h2
  · rintro ⟨⟨ru, hr, h3, h4⟩, h1, h5⟩
    refine ⟨_, h1, ?_⟩
    rw [hr]
    simp only [onlyRule, readTcpRule, Option.bind_eq_some_iff, Option.map_eq_some_iff,
      distribution_some env tcpFilter_some, readAll_each tcpFilter_some]
    exact ⟨_, h3, _, h4, by rw [← h5]⟩

theorem tcpRule_none {P : Type} (params : P) (m : Meta) (ru : ApiTcpRule) :
    readTcpRule env params m ru = none ↔ BadDistribution env (· = none) ru.backends ∨ none ∈ ru.filters := by
  unfold readTcpRule
  have hh : none ∈ ru.filters ↔ readAll readTcpFilter ru.filters = none := by
    rw [readAll_bad tcpFilter_none]; simp
  rw [hh, ← distribution_none env tcpFilter_none]
  cases readDistribution env readTcpFilter ru.backends <;> cases readAll readTcpFilter ru.filters <;> simp

theorem onlyRule_none {P : Type} (params : P) (r : ApiTcpRoute) :
    (readMeta r.metadata).bind (fun m => onlyRule env params m r.rules) = none ↔ BadTcpRoute env r := by
  unfold BadTcpRoute
  rw [← meta_none]
  cases readMeta r.metadata with
  | none => simp
  | some m =>
    simp only [Option.bind_some, reduceCtorEq, false_or]
    unfold onlyRule
    split
    · rename_i ru hr
      rw [tcpRule_none, hr]
      simp
    · rename_i hr
      simp only [true_iff]
      refine .inl fun hl => ?_
      obtain ⟨ru, h⟩ := List.length_eq_one_iff.1 hl
      exact hr ru h

theorem opaq_some (routes : List ApiTcpRoute) (x : Option OpaqPolicy) :
    readOpaq env routes = some x ↔ OpaqWritten env routes x := by
  unfold OpaqWritten
  unfold readOpaq
  split
  · simp [eq_comm]
  · rename_i r
    simp only [Option.map_eq_some_iff, readOpaqRoute, onlyRule_some]
    constructor
    · rintro ⟨p, h, rfl⟩; exact .inr ⟨_, _, rfl, rfl, h⟩
    · rintro (⟨h, _⟩ | ⟨r', p, h, rfl, h'⟩)
      · cases h
      · cases h; exact ⟨p, h', rfl⟩
  · rename_i h1 h2
    simp only [reduceCtorEq, false_iff]
    rintro (⟨h, _⟩ | ⟨r, p, h, _⟩)
    · exact h1 h
    · exact h2 r h

theorem opaq_none (routes : List ApiTcpRoute) : readOpaq env routes = none ↔ BadOpaq env routes := by
  unfold BadOpaq readOpaq
  split
  · simp
  · rename_i r
    simp only [Option.map_eq_none_iff, readOpaqRoute, onlyRule_none]
    simp
  · rename_i h1 h2
    simp only [true_iff]
    left
    match routes, h1, h2 with
    | [], h1, _ => exact absurd rfl h1
    | [r], _, h2 => exact absurd rfl (h2 r)
    | _ :: _ :: _, _, _ => simp

theorem tlsRoute_some (labels : Bool) (r : ApiTcpRoute) (x : TlsRoute.Route TlsPolicy) :
    readTlsRoute env labels r = some x ↔ TlsRouteWritten env labels r x := by
  constructor
  · intro h
    simp only [readTlsRoute, Option.bind_eq_some_iff, Option.map_eq_some_iff,
      readAll_each (f := readSni) (R := fun s s' => readSni s = some s') (fun _ _ => Iff.rfl)] at h
    obtain ⟨m, h1, ss, h2, p, h3, rfl⟩ := h
    exact ⟨h2, (onlyRule_some env labels r p).1 (by simp [h1, h3])⟩
  · rintro ⟨h1, h2⟩
    have h3 := (onlyRule_some env labels r x.policy).2 h2
    simp only [Option.bind_eq_some_iff] at h3
    obtain ⟨m, h4, h5⟩ := h3
    simp only [readTlsRoute, Option.bind_eq_some_iff, Option.map_eq_some_iff,
      readAll_each (f := readSni) (R := fun s s' => readSni s = some s') (fun _ _ => Iff.rfl)]
    exact ⟨m, h4, _, h1, _, h5, rfl⟩

theorem tlsRoute_none (labels : Bool) (r : ApiTcpRoute) :
    readTlsRoute env labels r = none ↔ BadTcpRoute env r ∨ none ∈ r.snis := by
  have hh : none ∈ r.snis ↔ readAll readSni r.snis = none := by
    rw [readAll_bad sni_none]; simp
  rw [hh, ← onlyRule_none env labels r]
  unfold readTlsRoute
  cases readMeta r.metadata with
  | none => simp
  | some m =>
    simp only [Option.bind_some]
    cases readAll readSni r.snis <;> cases onlyRule env labels m r.rules <;> simp

theorem protocol_written (labels : Bool) (p : ApiProtocol) (x : Protocol) (h : readProtocol env labels p = some x) :
    ProtocolWritten env labels p x := by
  unfold ProtocolWritten
  cases p with
  | detect t h1 h2 o =>
    simp only [readProtocol, Option.bind_eq_some_iff, Option.map_eq_some_iff] at h
    obtain ⟨t', a1, h1', ⟨h1m, b1, a2⟩, h2', ⟨h2m, b2, a3⟩, o', ⟨om, b3, a4⟩, rfl⟩ := h
    refine .inl ⟨_, _, _, _, _, _, _, _, rfl, rfl, duration_req.1 a1, ⟨_, b1, (http_some env labels _ _).1 a2⟩,
      ⟨_, b2, (http_some env labels _ _).1 a3⟩, ⟨_, b3, (opaq_some env _ _).1 a4⟩⟩
  | http1 h' =>
    simp only [readProtocol, Option.map_eq_some_iff, http_some] at h
    obtain ⟨y, h1, rfl⟩ := h
    exact .inr (.inl ⟨_, _, rfl, rfl, h1⟩)
  | http2 h' =>
    simp only [readProtocol, Option.map_eq_some_iff, http_some] at h
    obtain ⟨y, h1, rfl⟩ := h
    exact .inr (.inr (.inl ⟨_, _, rfl, rfl, h1⟩))
  | grpc g =>
    simp only [readProtocol, Option.map_eq_some_iff] at h
    obtain ⟨y, h1, rfl⟩ := h
    exact .inr (.inr (.inr (.inl ⟨_, _, rfl, rfl, grpc_written env labels _ _ h1⟩)))
  | opaq o =>
    simp only [readProtocol, Option.map_eq_some_iff, opaq_some] at h
    obtain ⟨y, h1, rfl⟩ := h
    exact .inr (.inr (.inr (.inr (.inl ⟨_, _, rfl, rfl, h1⟩))))
  | tls t =>
    simp only [readProtocol, Option.map_eq_some_iff, readAll_each (tlsRoute_some env labels)] at h
    obtain ⟨y, h1, rfl⟩ := h
    exact .inr (.inr (.inr (.inr (.inr ⟨_, _, rfl, rfl, h1⟩))))

theorem protocol_none (labels : Bool) (p : ApiProtocol) : readProtocol env labels p = none ↔ BadProtocol env p := by
  unfold BadProtocol
  cases p with
  | detect t h1 h2 o =>
    simp only [reduceCtorEq, false_and, exists_false, or_false, ApiProtocol.detect.injEq, false_or]
    have key : readProtocol env labels (.detect t h1 h2 o) = none ↔
        duration t = none ∨ h1.bind (readHttp env labels) = none ∨ h2.bind (readHttp env labels) = none ∨
          o.bind (readOpaq env) = none := by
      simp only [readProtocol]
      cases duration t <;> cases h1.bind (readHttp env labels) <;> cases h2.bind (readHttp env labels) <;>
        cases o.bind (readOpaq env) <;> simp
    rw [key, duration_lacks, bind_lacks (http_none env labels), bind_lacks (http_none env labels),
      bind_lacks (opaq_none env)]
    constructor
    · intro h; exact ⟨_, _, _, _, ⟨rfl, rfl, rfl, rfl⟩, h⟩
    · rintro ⟨_, _, _, _, ⟨rfl, rfl, rfl, rfl⟩, h⟩; exact h
  | http1 h => simp [readProtocol, http_none]
  | http2 h => simp [readProtocol, http_none]
  | grpc g => simp [readProtocol, grpc_none]
  | opaq o => simp [readProtocol, opaq_none]
  | tls t =>
    simp only [readProtocol, Option.map_eq_none_iff, readAll_bad (tlsRoute_none env labels)]
    simp

/-! ## Backends -/

theorem Meta.same_iff (a b : Meta) : a.same b = true ↔ a.group = b.group ∧ a.kind = b.kind ∧ a.name = b.name := by
  simp [Meta.same, and_assoc]

theorem named_iff (m : Meta) (g k n : Str) : Identified m g k n ↔ g = m.group ∧ k = m.kind ∧ n = m.name := by
  unfold Identified
  cases m with
  | default name =>
    constructor
    · rintro (⟨e, rfl, rfl⟩ | ⟨_, _, _, e⟩)
      · cases e; exact ⟨rfl, rfl, rfl⟩
      · cases e
    · rintro ⟨rfl, rfl, rfl⟩; exact .inl ⟨rfl, rfl, rfl⟩
  | resource g' k' n' ns sec port =>
    constructor
    · rintro (⟨e, _, _⟩ | ⟨_, _, _, e⟩)
      · cases e
      · cases e; exact ⟨rfl, rfl, rfl⟩
    · rintro ⟨rfl, rfl, rfl⟩; exact .inr ⟨ns, sec, port, rfl⟩

theorem Meta.same_named (a b : Meta) : a.same b = true ↔ ∃ g k n, Identified a g k n ∧ Identified b g k n := by
  rw [Meta.same_iff]
  constructor
  · rintro ⟨h1, h2, h3⟩
    exact ⟨a.group, a.kind, a.name, (named_iff _ _ _ _).2 ⟨rfl, rfl, rfl⟩, (named_iff _ _ _ _).2 ⟨h1, h2, h3⟩⟩
  · rintro ⟨g, k, n, ha, hb⟩
    obtain ⟨rfl, rfl, rfl⟩ := (named_iff _ _ _ _).1 ha
    exact (named_iff _ _ _ _).1 hb

theorem Backend.same_iff (a b : Backend) : a.same b = true ↔
    a.meta_.same b.meta_ = true ∧ a.capacity = b.capacity ∧ a.failfast = b.failfast ∧ a.dispatcher = b.dispatcher := by
  simp [Backend.same, and_assoc]

theorem Backend.same_refl (a : Backend) : a.same a = true := by simp [Backend.same_iff, Meta.same_iff]

theorem Backend.same_symm {a b : Backend} (h : a.same b = true) : b.same a = true := by
  simp only [Backend.same_iff, Meta.same_iff] at h ⊢
  obtain ⟨⟨h1, h2, h3⟩, h4, h5, h6⟩ := h
  exact ⟨⟨h1.symm, h2.symm, h3.symm⟩, h4.symm, h5.symm, h6.symm⟩

theorem Backend.same_trans {a b c : Backend} (h : a.same b = true) (h' : b.same c = true) : a.same c = true := by
  simp only [Backend.same_iff, Meta.same_iff] at h h' ⊢
  obtain ⟨⟨h1, h2, h3⟩, h4, h5, h6⟩ := h
  obtain ⟨⟨g1, g2, g3⟩, g4, g5, g6⟩ := h'
  exact ⟨⟨h1.trans g1, h2.trans g2, h3.trans g3⟩, h4.trans g4, h5.trans g5, h6.trans g6⟩

theorem distinct_inv (l acc : List Backend) (hacc : acc.Pairwise fun a b => a.same b = false) :
    let r := l.foldl (fun set b => if set.any (·.same b) then set else set ++ [b]) acc
    (r.Pairwise fun a b => a.same b = false) ∧ (∀ b ∈ r, b ∈ acc ∨ b ∈ l) ∧ (∀ b ∈ acc, b ∈ r) ∧
      ∀ b ∈ l, ∃ c ∈ r, c.same b = true := by
  induction l generalizing acc with
  | nil => exact ⟨hacc, fun b hb => .inl hb, fun b hb => hb, by simp⟩
  | cons x l ih =>
    simp only [List.foldl_cons]
    by_cases hx : acc.any (·.same x) = true
    · rw [if_pos hx]
      obtain ⟨h1, h2, h3, h4⟩ := ih acc hacc
      refine ⟨h1, fun b hb => (h2 b hb).imp_right (by simp +contextual), h3, ?_⟩
      intro b hb
      rcases List.mem_cons.1 hb with rfl | hb
      · obtain ⟨c, hc, hs⟩ := List.any_eq_true.1 hx
        exact ⟨c, h3 c hc, hs⟩
      · exact h4 b hb
    · rw [if_neg hx]
      have hn : ∀ a ∈ acc, a.same x = false := by
        intro a ha
        cases h : a.same x with
        | false => rfl
        | true => exact absurd (List.any_eq_true.2 ⟨a, ha, h⟩) hx
      obtain ⟨h1, h2, h3, h4⟩ := ih (acc ++ [x]) (by
        rw [List.pairwise_append]
        exact ⟨hacc, by simp, fun a ha b hb => by simp at hb; subst hb; exact hn a ha⟩)
      refine ⟨h1, ?_, fun b hb => h3 b (by simp [hb]), ?_⟩
      · intro b hb
        rcases h2 b hb with h | h
        · rcases List.mem_append.1 h with h | h
          · exact .inl h
          · simp at h; subst h; exact .inr (by simp)
        · exact .inr (by simp [h])
      · intro b hb
        rcases List.mem_cons.1 hb with rfl | hb
        · exact ⟨b, h3 b (by simp), Backend.same_refl b⟩
        · exact h4 b hb

theorem inDist_iff (d : Distribution F) (b : Backend) : b ∈ d.backends ↔ InDist d b := by
  unfold InDist
  cases d with
  | empty => simp [Distribution.backends]
  | first l => simp [Distribution.backends]
  | random l => simp [Distribution.backends]

theorem inRoutes_iff {P : Type} (routes : List (Route M (RoutePolicy F P))) (b : Backend) :
    b ∈ routeBackends routes ↔ InRoutes routes b := by
  simp [routeBackends, InRoutes, inDist_iff]

theorem uses_iff (p : Protocol) (b : Backend) : b ∈ p.used ↔ Uses p b := by
  have ho : ∀ o : Option OpaqPolicy, b ∈ opaqBackends o ↔ InOpaq o b := by
    intro o
    unfold InOpaq
    cases o <;> simp [opaqBackends, inDist_iff]
  cases p <;> simp [Protocol.used, Uses, inRoutes_iff, inDist_iff, ho, or_assoc]

end Verif.ClientPolicy
