import Verif.ClientPolicy.Props
import Verif.Distribute.Props
import Verif.TlsRoute.Props

/-!
# C71: routers built from outbound policies

`DispatchFor`, `DistributionFor` and `RouteFor` say what is made of a backend, a distribution and a route, and `Unusable`,
`BadWeights` when nothing can be made (a panic).
-/

namespace Verif.ClientPolicy

open Verif Verif.HttpRoute Verif.HttpRoute.Api
open Verif.ClientPolicy.Spec

variable {F P Q M S : Type}

namespace Spec

/-- What `mk_dispatch` makes of a backend. A balancer's address is the path; in a router of connections only round-trip
times count. An endpoint is known by its pod, when its labels name it. -/
def DispatchFor (tcp : Bool) (b : Backend) (c : Concrete) : Prop :=
  (∃ load path name, b.dispatcher = .balance load path ∧ Addr.NameAddr.parse path = .ok name ∧ c.backendRef = b.meta_ ∧
    ((tcp = false ∧ c.target = .balance name load) ∨
     (tcp = true ∧ ∃ decay rtt, c.target = .balance name (.peakEwma decay rtt) ∧
       (load = .peakEwma decay rtt ∨ ∃ p pd ra, load = .penaltyPeakEwma decay rtt p pd ra)))) ∨
  (∃ addr md, b.dispatcher = .forward addr md ∧ sockPort addr ≠ 0 ∧ c.target = .forward addr md ∧
    ((∃ ns pod, Assoc.lookup "dst_namespace".toList md.labels = some ns ∧ Assoc.lookup "dst_pod".toList md.labels = some pod ∧
        c.backendRef = .resource "core".toList "Pod".toList pod ns none (some (sockPort addr))) ∨
     ((Assoc.lookup "dst_namespace".toList md.labels = none ∨ Assoc.lookup "dst_pod".toList md.labels = none) ∧
        c.backendRef = .default "unknown".toList))) ∨
  ∃ msg, b.dispatcher = .fail msg ∧ c.target = .fail msg ∧ c.backendRef = .default "fail".toList

/-- A backend no target can be made of: a balancer whose path is not the name and port of an authority, or an endpoint with
port 0. -/
def Unusable (b : Backend) : Prop :=
  (∃ load path e, b.dispatcher = .balance load path ∧ Addr.NameAddr.parse path = .error e) ∨
  ∃ addr md, b.dispatcher = .forward addr md ∧ sockPort addr = 0

/-- The weights of at least two backends are all zero, or do not fit 32 bits together. -/
def BadWeights (d : Distribution F) : Prop :=
  ∃ l, d = .random l ∧ 2 ≤ l.length ∧ ((l.map (·.2)).sum = 0 ∨ 2 ^ 32 ≤ (l.map (·.2)).sum)

def BackendFor (tcp : Bool) (rb : RouteBackend F) (b : BuiltBackend F) : Prop :=
  b.filters = rb.filters ∧ DispatchFor tcp rb.backend b.concrete

def DistributionFor (tcp : Bool) (d : Distribution F) (b : Built F) : Prop :=
  (d = .empty ∧ b = .empty) ∨ (d = .first [] ∧ b = .empty) ∨
  (∃ l l', d = .first l ∧ l ≠ [] ∧ b = .first l' ∧ Each (BackendFor tcp) l l') ∨
  (∃ l l', d = .random l ∧ l.length < 2 ∧ b = .first l' ∧ Each (fun x y => BackendFor tcp x.1 y) l l') ∨
  ∃ l l', d = .random l ∧ 2 ≤ l.length ∧ b = .random l' ∧ Each (fun x y => BackendFor tcp x.1 y.1 ∧ y.2 = x.2) l l'

structure RouteFor (tcp : Bool) (p : RoutePolicy F P) (b : BuiltRoute F P) : Prop where
  routeRef : b.routeRef = p.meta_
  filters : b.filters = p.filters
  distribution : DistributionFor tcp p.distribution b.distribution
  params : b.params = p.params

/-- The target is one of the distribution's. -/
def InBuilt (d : Built F) (c : Concrete) : Prop :=
  (∃ l b, d = .first l ∧ b ∈ l ∧ b.concrete = c) ∨ ∃ l b w, d = .random l ∧ (b, w) ∈ l ∧ b.concrete = c

end Spec

/-! ## Building -/

theorem dispatch_some (tcp : Bool) (b : Backend) (c : Concrete) : mkDispatch tcp b = some c ↔ DispatchFor tcp b c := by
  obtain ⟨m, cap, ff, d⟩ := b
  obtain ⟨t, r⟩ := c
  unfold mkDispatch DispatchFor
  cases d with
  | balance load path =>
    simp only [reduceCtorEq, false_and, exists_false, or_false, Dispatcher.balance.injEq]
    cases hp : Addr.NameAddr.parse path with
    | error e =>
      simp only [reduceCtorEq, false_iff]
      rintro ⟨load', path', name, ⟨rfl, rfl⟩, e', -⟩
      rw [hp] at e'; cases e'
    | ok a =>
      simp only [Option.some.injEq, Concrete.mk.injEq]
      cases tcp with
      | false =>
        simp only [Bool.false_eq_true, if_false, true_and, false_and, or_false]
        constructor
        · rintro ⟨rfl, rfl⟩; exact ⟨load, path, a, ⟨rfl, rfl⟩, hp, rfl, rfl⟩
        · rintro ⟨load', path', name, ⟨rfl, rfl⟩, e', rfl, rfl⟩
          rw [hp] at e'; cases e'; exact ⟨rfl, rfl⟩
      | true =>
        simp only [if_true, true_and, reduceCtorEq, false_and, false_or]
        constructor
        · rintro ⟨rfl, rfl⟩
          refine ⟨load, path, a, ⟨rfl, rfl⟩, hp, rfl, ?_⟩
          cases load with
          | peakEwma d r => exact ⟨d, r, rfl, .inl rfl⟩
          | penaltyPeakEwma d r p pd ra => exact ⟨d, r, rfl, .inr ⟨p, pd, ra, rfl⟩⟩
        · rintro ⟨load', path', name, ⟨rfl, rfl⟩, e', rfl, d, r, rfl, hl⟩
          rw [hp] at e'; cases e'
          rcases hl with rfl | ⟨p, pd, ra, rfl⟩ <;> exact ⟨rfl, rfl⟩
  | forward addr md =>
    by_cases h0 : sockPort addr = 0
    · simp [h0]
    · simp only [h0, if_false]
      simp only [Option.some.injEq, Concrete.mk.injEq, reduceCtorEq, false_and, exists_false, false_or, or_false,
        Dispatcher.forward.injEq]
      unfold endpointRef
      cases h1 : Assoc.lookup "dst_namespace".toList md.labels with
      | none =>
        simp only
        constructor
        · rintro ⟨rfl, rfl⟩
          exact ⟨addr, md, ⟨rfl, rfl⟩, h0, rfl, .inr ⟨.inl h1, rfl⟩⟩
        · rintro ⟨a, m', ⟨rfl, rfl⟩, -, ht, ⟨ns, pod, e, -⟩ | ⟨-, e⟩⟩
          · rw [h1] at e; cases e
          · exact ⟨ht.symm, e.symm⟩
      | some ns =>
        cases h2 : Assoc.lookup "dst_pod".toList md.labels with
        | none =>
          simp only
          constructor
          · rintro ⟨rfl, rfl⟩
            exact ⟨addr, md, ⟨rfl, rfl⟩, h0, rfl, .inr ⟨.inr h2, rfl⟩⟩
          · rintro ⟨a, m', ⟨rfl, rfl⟩, -, ht, ⟨ns, pod, -, e, -⟩ | ⟨-, e⟩⟩
            · rw [h2] at e; cases e
            · exact ⟨ht.symm, e.symm⟩
        | some pod =>
          simp only
          constructor
          · rintro ⟨rfl, rfl⟩
            exact ⟨addr, md, ⟨rfl, rfl⟩, h0, rfl, .inl ⟨ns, pod, h1, h2, rfl⟩⟩
          · rintro ⟨a, m', ⟨rfl, rfl⟩, -, ht, ⟨ns', pod', e1, e2, e⟩ | ⟨e | e, -⟩⟩
            · rw [h1] at e1; rw [h2] at e2; cases e1; cases e2; exact ⟨ht.symm, e.symm⟩
            · rw [h1] at e; cases e
            · rw [h2] at e; cases e
  | fail msg =>
    simp [@eq_comm _ t, @eq_comm _ r]

theorem dispatch_none (tcp : Bool) (b : Backend) : mkDispatch tcp b = none ↔ Unusable b := by
  obtain ⟨m, cap, ff, d⟩ := b
  unfold mkDispatch Unusable
  cases d with
  | balance load path =>
    cases hp : Addr.NameAddr.parse path with
    | error e =>
      simp only [hp, true_iff]
      exact .inl ⟨load, path, e, rfl, hp⟩
    | ok a =>
      simp only [hp, reduceCtorEq, false_iff]
      rintro (⟨load', path', e, h, e'⟩ | ⟨_, _, h, -⟩)
      · cases h; rw [hp] at e'; cases e'
      · exact h
  | forward addr md => simp
  | fail msg => simp

theorem mkBackend_some (tcp : Bool) (rb : RouteBackend F) (b : BuiltBackend F) :
    mkBackend tcp rb = some b ↔ BackendFor tcp rb b := by
  obtain ⟨f, c⟩ := b
  unfold mkBackend BackendFor
  simp only [Option.map_eq_some_iff, dispatch_some, BuiltBackend.mk.injEq]
  constructor
  · rintro ⟨a, h, rfl, rfl⟩; exact ⟨rfl, h⟩
  · rintro ⟨rfl, h⟩; exact ⟨c, h, rfl, rfl⟩

theorem mkBackend_none (tcp : Bool) (rb : RouteBackend F) : mkBackend tcp rb = none ↔ Unusable rb.backend := by
  simp [mkBackend, dispatch_none]

theorem mkWeighted_some (tcp : Bool) (rb : RouteBackend F × Nat) (b : BuiltBackend F × Nat) :
    mkWeighted tcp rb = some b ↔ BackendFor tcp rb.1 b.1 ∧ b.2 = rb.2 := by
  obtain ⟨b, w⟩ := b
  simp only [mkWeighted, Option.map_eq_some_iff, mkBackend_some, Prod.mk.injEq]
  constructor
  · rintro ⟨a, h, rfl, rfl⟩; exact ⟨h, rfl⟩
  · rintro ⟨h, rfl⟩; exact ⟨b, h, rfl, rfl⟩

theorem weights_eq {l : List (RouteBackend F × Nat)} {l' : List (BuiltBackend F × Nat)} {tcp : Bool}
    (h : Each (fun x y => BackendFor tcp x.1 y.1 ∧ y.2 = x.2) l l') : l'.map (·.2) = l.map (·.2) := by
  obtain ⟨hl, he⟩ := h
  apply List.ext_getElem?
  intro i
  simp only [List.getElem?_map]
  cases hi : l[i]? with
  | none =>
    have : l'[i]? = none := by rw [List.getElem?_eq_none_iff] at hi ⊢; omega
    simp [this]
  | some a =>
    obtain ⟨b, hb, -, e⟩ := he i a hi
    simp [hb, e]

theorem randomOf_some (l : List (BuiltBackend F × Nat)) (b : Built F) : randomOf l = some b ↔
    (l.length < 2 ∧ b = .first (l.map (·.1))) ∨
    (2 ≤ l.length ∧ 0 < (l.map (·.2)).sum ∧ (l.map (·.2)).sum ≤ Distribute.u32Max ∧ b = .random l) := by
  unfold randomOf
  by_cases h : l.length < 2
  · simp [h, @eq_comm _ b, Nat.not_le.2 h]
  · rw [if_neg h]
    have := Distribute.validate_ok (l.map (·.2))
    cases hv : Distribute.validate (l.map (·.2)) with
    | error e =>
      rw [hv] at this
      simp only [reduceCtorEq, false_iff] at this ⊢
      rintro (⟨h', -⟩ | ⟨-, h1, h2, -⟩)
      · exact h h'
      · exact this ⟨h1, h2⟩
    | ok u =>
      obtain ⟨h1, h2⟩ := this.1 hv
      simp [h, h1, h2, Nat.not_lt.1 h, @eq_comm _ b]

theorem mkDistribution_written (tcp : Bool) (d : Distribution F) (b : Built F) (h : mkDistribution tcp d = some b) :
    DistributionFor tcp d b := by
  unfold mkDistribution at h
  unfold DistributionFor
  cases d with
  | empty => cases h; exact .inl ⟨rfl, rfl⟩
  | first l =>
    simp only [Option.map_eq_some_iff] at h
    obtain ⟨l', hl, rfl⟩ := h
    have he := (readAll_each (mkBackend_some tcp)).1 hl
    cases l with
    | nil => cases hl; exact .inr (.inl ⟨rfl, rfl⟩)
    | cons x l =>
      refine .inr (.inr (.inl ⟨_, l', rfl, by simp, ?_, he⟩))
      have := he.1
      cases l' with
      | nil => simp at this
      | cons => rfl
  | random l =>
    simp only [Option.bind_eq_some_iff] at h
    obtain ⟨l', hl, h⟩ := h
    have he := (readAll_each (mkWeighted_some tcp)).1 hl
    rcases (randomOf_some l' b).1 h with ⟨h2, rfl⟩ | ⟨h2, -, -, rfl⟩
    · refine .inr (.inr (.inr (.inl ⟨l, _, rfl, by have := he.1; omega, rfl, by simpa using he.1, ?_⟩)))
      intro i a hi
      obtain ⟨y, hy, hb, -⟩ := he.2 i a hi
      exact ⟨y.1, by simp [hy], hb⟩
    · exact .inr (.inr (.inr (.inr ⟨l, l', rfl, by have := he.1; omega, rfl, he⟩)))

theorem mkDistribution_none (tcp : Bool) (d : Distribution F) :
    mkDistribution tcp d = none ↔ (∃ b, InDist d b ∧ Unusable b) ∨ BadWeights d := by
  unfold mkDistribution InDist BadWeights
  cases d with
  | empty => simp
  | first l =>
    simp only [Option.map_eq_none_iff, readAll_none, mkBackend_none]
    constructor
    · rintro ⟨rb, h, hu⟩; exact .inl ⟨_, .inl ⟨l, rb, rfl, h, rfl⟩, hu⟩
    · rintro (⟨b, ⟨l', rb, e, h, rfl⟩ | ⟨l', rb, w, e, -⟩, hu⟩ | ⟨l', e, -⟩)
      · cases e; exact ⟨rb, h, hu⟩
      · cases e
      · cases e
  | random l =>
    simp only
    cases hl : readAll (mkWeighted tcp) l with
    | none =>
      simp only [Option.bind_none, true_iff]
      obtain ⟨x, hx, hn⟩ := readAll_none.1 hl
      rw [mkWeighted, Option.map_eq_none_iff, mkBackend_none] at hn
      exact .inl ⟨_, .inr ⟨l, x.1, x.2, rfl, hx, rfl⟩, hn⟩
    | some l' =>
      have he := (readAll_each (mkWeighted_some tcp)).1 hl
      have hw := weights_eq he
      have hu : ¬ ∃ b, ((∃ l_1 rb, Distribution.random l = .first l_1 ∧ rb ∈ l_1 ∧ rb.backend = b) ∨
          ∃ l_1 rb w, Distribution.random l = .random l_1 ∧ (rb, w) ∈ l_1 ∧ rb.backend = b) ∧ Unusable b := by
        rintro ⟨b, ⟨l_1, rb, e, -⟩ | ⟨l_1, rb, w, e, h, rfl⟩, hu⟩
        · cases e
        · cases e
          have : readAll (mkWeighted tcp) l = none :=
            readAll_none.2 ⟨(rb, w), h, by simp only [mkWeighted, Option.map_eq_none_iff, mkBackend_none]; exact hu⟩
          rw [hl] at this; cases this
      simp only [Option.bind_some, hu, false_or]
      have hlen := he.1
      constructor
      · intro hn
        refine ⟨l, rfl, ?_⟩
        apply Decidable.byContradiction
        intro hc
        by_cases h2 : l'.length < 2
        · rw [(randomOf_some l' _).2 (.inl ⟨h2, rfl⟩)] at hn; cases hn
        · have hp : 0 < (l'.map (·.2)).sum ∧ (l'.map (·.2)).sum ≤ Distribute.u32Max := by
            rw [hw]
            have : Distribute.u32Max = 2 ^ 32 - 1 := by decide
            omega
          rw [(randomOf_some l' _).2 (.inr ⟨by omega, hp.1, hp.2, rfl⟩)] at hn
          cases hn
      · rintro ⟨l_1, e, h2, h⟩
        cases e
        cases hr : randomOf l' with
        | none => rfl
        | some b =>
          rcases (randomOf_some l' b).1 hr with ⟨h3, -⟩ | ⟨-, h3, h4, -⟩
          · omega
          · rw [hw] at h3 h4
            have : Distribute.u32Max = 2 ^ 32 - 1 := by decide
            omega

theorem mkPolicy_for (tcp : Bool) (p : RoutePolicy F P) (b : BuiltRoute F P) (h : mkPolicy tcp p = some b) :
    RouteFor tcp p b := by
  unfold mkPolicy at h
  rw [Option.map_eq_some_iff] at h
  obtain ⟨d, hd, rfl⟩ := h
  exact ⟨rfl, rfl, mkDistribution_written tcp _ _ hd, rfl⟩

theorem mkPolicy_none (tcp : Bool) (p : RoutePolicy F P) :
    mkPolicy tcp p = none ↔ (∃ b, InDist p.distribution b ∧ Unusable b) ∨ BadWeights p.distribution := by
  simp [mkPolicy, mkDistribution_none]

/-! ## Finding a route in what was built -/

theorem foldl_best_map {α β : Type} (f : α → β) (c : α → α → Ordering) (d : β → β → Ordering)
    (h : ∀ a b, d (f a) (f b) = c a b) (x : α) (l : List α) :
    (l.map f).foldl (fun a b => if (d a b).isGE then a else b) (f x) =
      f (l.foldl (fun a b => if (c a b).isGE then a else b) x) := by
  induction l generalizing x with
  | nil => rfl
  | cons y l ih =>
    simp only [List.map_cons, List.foldl_cons, h]
    by_cases hc : (c x y).isGE = true
    · simp only [hc, if_true]; exact ih x
    · simp only [hc]; exact ih y

theorem best_map {α β : Type} (f : α → β) (c : α → α → Ordering) (d : β → β → Ordering)
    (h : ∀ a b, d (f a) (f b) = c a b) (l : List α) : Select.best d (l.map f) = (Select.best c l).map f := by
  cases l with
  | nil => rfl
  | cons x l => simp only [List.map_cons, Select.best, Option.map_some, foldl_best_map f c d h]

def mapRule (g : P → Q) (r : Rule M P) : Rule M Q := ⟨r.matches_, g r.policy⟩

def mapRoute (g : P → Q) (r : Route M P) : Route M Q := ⟨r.hosts, r.rules.map (mapRule g)⟩

theorem ruleMatch_map (mt : Matcher M S) (req : Request) (g : P → Q) (r : Rule M P) :
    ruleMatch mt req (mapRule g r) = (ruleMatch mt req r).map fun x => (x.1, g x.2) := by
  unfold ruleMatch mapRule
  by_cases h : r.matches_.isEmpty = true
  · simp [h]
  · simp only [h, if_false, Option.map_map, Bool.false_eq_true]; rfl

theorem routeMatch_map (mt : Matcher M S) (req : Request) (g : P → Q) (r : Route M P) :
    routeMatch mt req (mapRoute g r) = (routeMatch mt req r).map fun x => (x.1, g x.2) := by
  unfold routeMatch mapRoute
  simp only
  cases hostMatch req r.hosts with
  | none => rfl
  | some host =>
    simp only [List.filterMap_map]
    have : (ruleMatch mt req ∘ mapRule g : Rule M P → _) = fun r => (ruleMatch mt req r).map fun x => (x.1, g x.2) := by
      funext r; exact ruleMatch_map mt req g r
    rw [this, ← List.map_filterMap, best_map (fun x : S × P => (x.1, g x.2)) (fun a b => mt.cmp a.1 b.1) _ (fun _ _ => rfl)]
    cases Select.best (fun a b => mt.cmp a.1 b.1) (r.rules.filterMap (ruleMatch mt req)) <;> rfl

theorem find_map (mt : Matcher M S) (req : Request) (g : P → Q) (routes : List (Route M P)) :
    find mt (routes.map (mapRoute g)) req = (find mt routes req).map fun x => (x.1, g x.2) := by
  unfold find
  rw [List.filterMap_map]
  have : (routeMatch mt req ∘ mapRoute g : Route M P → _) = fun r => (routeMatch mt req r).map fun x => (x.1, g x.2) := by
    funext r; exact routeMatch_map mt req g r
  rw [this, ← List.map_filterMap]
  exact best_map (fun x : (Option HostMatch × S) × P => (x.1, g x.2)) (fun a b => cmpRoute mt.cmp a.1 b.1) _
    (fun _ _ => rfl) _

theorem readAll_eq_map {α β γ : Type} {f : α → Option β} {u : α → γ} {v : β → γ} (h : ∀ a b, f a = some b → u a = v b)
    {l : List α} {r : List β} (e : readAll f l = some r) : l.map u = r.map v := by
  induction l generalizing r with
  | nil => cases e; rfl
  | cons a l ih =>
    obtain ⟨b, r', h1, h2, rfl⟩ := readAll_cons_some.1 e
    simp [h a b h1, ih h2]

theorem mkRoutes_map {routes : List (Route M (RoutePolicy F P))} {rs : List (Route M (BuiltRoute F P))}
    (h : readAll mkRoute routes = some rs) : routes.map (mapRoute (mkPolicy false)) = rs.map (mapRoute some) := by
  refine readAll_eq_map ?_ h
  intro rt rt' e
  unfold mkRoute at e
  rw [Option.map_eq_some_iff] at e
  obtain ⟨rules, hr, rfl⟩ := e
  unfold mapRoute
  simp only [Route.mk.injEq, true_and]
  refine readAll_eq_map ?_ hr
  intro ru ru' e
  unfold mkRule at e
  rw [Option.map_eq_some_iff] at e
  obtain ⟨p, hp, rfl⟩ := e
  simp [mapRule, hp]

theorem select_eq (mt : Matcher M S) {routes : List (Route M (RoutePolicy F P))} {rs : List (Route M (BuiltRoute F P))}
    (h : readAll mkRoute routes = some rs) (req : Request) :
    (find mt routes req).map (fun x => (x.1, mkPolicy false x.2)) = (find mt rs req).map fun x => (x.1, some x.2) := by
  rw [← find_map, ← find_map, mkRoutes_map h]

theorem mkRoutes_none (routes : List (Route M (RoutePolicy F P))) : readAll mkRoute routes = none ↔
    (∃ b, InRoutes routes b ∧ Unusable b) ∨ ∃ rt ∈ routes, ∃ ru ∈ rt.rules, BadWeights ru.policy.distribution := by
  simp only [readAll_none, mkRoute, Option.map_eq_none_iff, mkRule, mkPolicy_none, InRoutes]
  constructor
  · rintro ⟨rt, h1, ru, h2, ⟨b, h3, h4⟩ | h⟩
    · exact .inl ⟨b, ⟨rt, h1, ru, h2, h3⟩, h4⟩
    · exact .inr ⟨rt, h1, ru, h2, h⟩
  · rintro (⟨b, ⟨rt, h1, ru, h2, h3⟩, h4⟩ | ⟨rt, h1, ru, h2, h⟩)
    · exact ⟨rt, h1, ru, h2, .inl ⟨b, h3, h4⟩⟩
    · exact ⟨rt, h1, ru, h2, .inr h⟩

/-! ## The properties -/

/-- A request is routed to what was made of the route the policy selects for it (C22), and to nothing if the policy selects
none. -/
theorem C71_selects_the_policys_route (mt : Matcher M S) (routes : List (Route M (RoutePolicy F P))) (backends : List Backend)
    (r : Router (List (Route M (BuiltRoute F P)))) (h : mkRouter routes backends = some r) (req : Request) :
    (find mt routes req = none → select mt r req = none) ∧
    ∀ s p, find mt routes req = some (s, p) → ∃ b, select mt r req = some (s, b) ∧ RouteFor false p b := by
  unfold mkRouter at h
  simp only [Option.bind_eq_some_iff, Option.map_eq_some_iff] at h
  obtain ⟨rs, hrs, bs, -, rfl⟩ := h
  have e := select_eq mt hrs req
  unfold select
  simp only
  refine ⟨fun hn => ?_, fun s p hp => ?_⟩
  · rw [hn] at e
    simpa using e.symm
  · rw [hp] at e
    simp only [Option.map_some] at e
    obtain ⟨⟨s', b⟩, h1, h2⟩ := Option.map_eq_some_iff.1 e.symm
    simp only [Prod.mk.injEq] at h2
    obtain ⟨rfl, h2⟩ := h2
    exact ⟨b, h1, mkPolicy_for false p b h2.symm⟩

/-- Building a router of requests panics exactly if the policy has an unusable backend, whether a route of this router
names it or not, or a route with bad weights. -/
theorem C71_panics_iff (routes : List (Route M (RoutePolicy F P))) (backends : List Backend) :
    mkRouter routes backends = none ↔
      (∃ b, (InRoutes routes b ∨ b ∈ backends) ∧ Unusable b) ∨
      ∃ rt ∈ routes, ∃ ru ∈ rt.rules, BadWeights ru.policy.distribution := by
  have h1 := mkRoutes_none routes
  have h2 : readAll (mkDispatch false) backends = none ↔ ∃ b ∈ backends, Unusable b := by
    simp [readAll_none, dispatch_none]
  unfold mkRouter
  cases e1 : readAll mkRoute routes with
  | none =>
    simp only [Option.bind_none, true_iff]
    rcases h1.1 e1 with ⟨b, hb, hu⟩ | h
    · exact .inl ⟨b, .inl hb, hu⟩
    · exact .inr h
  | some rs =>
    have h1 : ¬ _ := fun h => by have := h1.2 h; rw [e1] at this; cases this
    simp only [Option.bind_some, Option.map_eq_none_iff, h2]
    constructor
    · rintro ⟨b, hb, hu⟩; exact .inl ⟨b, .inr hb, hu⟩
    · rintro (⟨b, hb | hb, hu⟩ | h)
      · exact absurd (.inl ⟨b, hb, hu⟩) h1
      · exact ⟨b, hb, hu⟩
      · exact absurd (.inr h) h1

/-- Whether a backend is usable does not depend on which of the same backends it is. -/
theorem unusable_same {a b : Backend} (h : a.same b = true) (hu : Unusable a) : Unusable b := by
  rw [Backend.same_iff] at h
  unfold Unusable at hu ⊢
  rwa [h.2.2.2] at hu

theorem dispatch_same {tcp : Bool} {a b : Backend} {c d : Concrete} (h : a.same b = true) (ha : mkDispatch tcp a = some c)
    (hb : mkDispatch tcp b = some d) : c.same d = true := by
  rw [Backend.same_iff] at h
  obtain ⟨hm, -, -, hd⟩ := h
  unfold mkDispatch at ha hb
  rw [hd] at ha
  unfold Concrete.same
  cases hx : b.dispatcher with
  | balance load path =>
    rw [hx] at ha hb
    simp only at ha hb
    cases hp : Addr.NameAddr.parse path with
    | error e => rw [hp] at ha; cases ha
    | ok n => rw [hp] at ha hb; cases ha; cases hb; simp [hm]
  | forward addr md =>
    rw [hx] at ha hb
    simp only at ha hb
    by_cases h0 : sockPort addr = 0
    · rw [if_pos h0] at ha; cases ha
    · rw [if_neg h0] at ha hb; cases ha; cases hb; simp [Meta.same_iff]
  | fail msg =>
    rw [hx] at ha hb
    cases ha; cases hb; simp [Meta.same_iff]

theorem inBuilt_of (tcp : Bool) {d : Distribution F} {b : Built F} (h : DistributionFor tcp d b) {c : Concrete}
    (hc : InBuilt b c) : ∃ bk, InDist d bk ∧ DispatchFor tcp bk c := by
  have key : ∀ {α β : Type} {R : α → β → Prop} {l : List α} {l' : List β}, Each R l l' → ∀ y ∈ l', ∃ x ∈ l, R x y := by
    intro α β R l l' he y hy
    obtain ⟨i, hi, rfl⟩ := List.getElem_of_mem hy
    have hi' : i < l.length := by have := he.1; omega
    obtain ⟨b, hb, hr⟩ := he.2 i l[i] (List.getElem?_eq_getElem hi')
    rw [List.getElem?_eq_getElem hi] at hb
    cases hb
    exact ⟨_, List.getElem_mem _, hr⟩
  unfold DistributionFor at h
  unfold InBuilt at hc
  rcases h with ⟨rfl, rfl⟩ | ⟨rfl, rfl⟩ | ⟨l, l', rfl, -, rfl, he⟩ | ⟨l, l', rfl, -, rfl, he⟩ | ⟨l, l', rfl, -, rfl, he⟩
  · rcases hc with ⟨_, _, e, -⟩ | ⟨_, _, _, e, -⟩ <;> cases e
  · rcases hc with ⟨_, _, e, -⟩ | ⟨_, _, _, e, -⟩ <;> cases e
  · rcases hc with ⟨_, y, e, hy, rfl⟩ | ⟨_, _, _, e, -⟩
    · cases e
      obtain ⟨x, hx, -, hd⟩ := key he y hy
      exact ⟨_, .inl ⟨l, x, rfl, hx, rfl⟩, hd⟩
    · cases e
  · rcases hc with ⟨_, y, e, hy, rfl⟩ | ⟨_, _, _, e, -⟩
    · cases e
      obtain ⟨x, hx, -, hd⟩ := key he y hy
      exact ⟨_, .inr ⟨l, x.1, x.2, rfl, hx, rfl⟩, hd⟩
    · cases e
  · rcases hc with ⟨_, _, e, -⟩ | ⟨_, y, w, e, hy, rfl⟩
    · cases e
    · cases e
      obtain ⟨x, hx, ⟨-, hd⟩, -⟩ := key he _ hy
      exact ⟨_, .inr ⟨l, x.1, x.2, rfl, hx, rfl⟩, hd⟩

/-- C71. Targets are the same if requests go to the same place, for backends of the same group, kind and name. -/
theorem C71_same_target (a b : Concrete) : a.same b = true ↔ a.target = b.target ∧
    ∃ group kind name, Identified a.backendRef group kind name ∧ Identified b.backendRef group kind name := by
  unfold Concrete.same
  rw [Bool.and_eq_true, Meta.same_named, beq_iff_eq]

/-- Every target of every route is one of the targets the router keeps services for, if every backend of its routes is one of
the policy's (which C70 shows of policies as read): so the cache of services has it (C58). -/
theorem C71_every_target_is_cached (routes : List (Route M (RoutePolicy F P))) (backends : List Backend)
    (hb : ∀ b, InRoutes routes b → ∃ c ∈ backends, c.same b = true)
    (r : Router (List (Route M (BuiltRoute F P)))) (h : mkRouter routes backends = some r)
    (rt : Route M (BuiltRoute F P)) (hrt : rt ∈ r.routes) (ru : Rule M (BuiltRoute F P)) (hru : ru ∈ rt.rules)
    (c : Concrete) (hc : InBuilt ru.policy.distribution c) : ∃ d ∈ r.backends, d.same c = true := by
  unfold mkRouter at h
  simp only [Option.bind_eq_some_iff, Option.map_eq_some_iff] at h
  obtain ⟨rs, hrs, bs, hbs, rfl⟩ := h
  obtain ⟨rt0, h1, e1⟩ := mem_of_readAll hrs hrt
  unfold mkRoute at e1
  rw [Option.map_eq_some_iff] at e1
  obtain ⟨rules, hr, rfl⟩ := e1
  obtain ⟨ru0, h2, e2⟩ := mem_of_readAll hr hru
  unfold mkRule at e2
  rw [Option.map_eq_some_iff] at e2
  obtain ⟨p, hp, rfl⟩ := e2
  obtain ⟨bk, hbk, hd⟩ := inBuilt_of false (mkPolicy_for false _ _ hp).distribution hc
  obtain ⟨b', hb', hs⟩ := hb bk ⟨rt0, h1, ru0, h2, hbk⟩
  obtain ⟨d, hdm, hd'⟩ := readAll_mem hbs hb'
  exact ⟨d, hdm, dispatch_same hs hd' ((dispatch_some false bk c).2 hd)⟩

/-- C71. The same for connections: the targets of opaque routes, and of routes of TLS, are among those the router keeps services for. -/
theorem C71_every_tcp_target_is_cached (backends : List Backend) :
    (∀ o r, (∀ b, InOpaq o b → ∃ c ∈ backends, c.same b = true) → mkOpaq o backends = some r → ∀ rt, r.routes = some rt →
      ∀ c, InBuilt rt.distribution c → ∃ d ∈ r.backends, d.same c = true) ∧
    (∀ (routes : List (TlsRoute.Route TlsPolicy)) r, (∀ b, (∃ rt ∈ routes, InDist rt.policy.distribution b) → ∃ c ∈ backends, c.same b = true) →
      mkTls routes backends = some r → ∀ rt ∈ r.routes, ∀ c, InBuilt rt.policy.distribution c → ∃ d ∈ r.backends, d.same c = true) := by
  constructor
  · intro o r hb h rt hrt c hc
    unfold mkOpaq at h
    simp only [Option.bind_eq_some_iff, Option.map_eq_some_iff] at h
    obtain ⟨o', ho, bs, hbs, rfl⟩ := h
    cases hrt
    cases o with
    | none => cases ho
    | some p =>
      simp only [readOpt, Option.map_eq_some_iff] at ho
      obtain ⟨b, hbb, e⟩ := ho
      cases e
      obtain ⟨bk, hbk, hd⟩ := inBuilt_of true (mkPolicy_for true _ _ hbb).distribution hc
      obtain ⟨b', hb', hs⟩ := hb bk ⟨p, rfl, hbk⟩
      obtain ⟨d, hdm, hd'⟩ := readAll_mem hbs hb'
      exact ⟨d, hdm, dispatch_same hs hd' ((dispatch_some true bk c).2 hd)⟩
  · intro routes r hb h rt hrt c hc
    unfold mkTls at h
    simp only [Option.bind_eq_some_iff, Option.map_eq_some_iff] at h
    obtain ⟨rs, hrs, bs, hbs, rfl⟩ := h
    obtain ⟨rt0, h1, e1⟩ := mem_of_readAll hrs hrt
    unfold mkTlsRoute at e1
    rw [Option.map_eq_some_iff] at e1
    obtain ⟨p, hp, rfl⟩ := e1
    obtain ⟨bk, hbk, hd⟩ := inBuilt_of true (mkPolicy_for true _ _ hp).distribution hc
    obtain ⟨b', hb', hs⟩ := hb bk ⟨rt0, h1, hbk⟩
    obtain ⟨d, hdm, hd'⟩ := readAll_mem hbs hb'
    exact ⟨d, hdm, dispatch_same hs hd' ((dispatch_some true bk c).2 hd)⟩

/-- The HTTP routers of a policy as read, with all of its backends. -/
theorem C71_http_routers_of_a_read_policy (env : Env) (labels : Bool) (p : ApiPolicy) (x : ClientPolicy)
    (hx : ClientPolicy.read env labels p = some x) (h : Http)
    (hp : x.protocol = .http1 h ∨ x.protocol = .http2 h ∨ ∃ t h' o, x.protocol = .detect t h h' o ∨ x.protocol = .detect t h' h o) :
    (mkRouter h.routes x.backends = none ↔ (∃ b, Uses x.protocol b ∧ Unusable b) ∨
      ∃ rt ∈ h.routes, ∃ ru ∈ rt.rules, BadWeights ru.policy.distribution) ∧
    ∀ r, mkRouter h.routes x.backends = some r → ∀ rt ∈ r.routes, ∀ ru ∈ rt.rules, ∀ c, InBuilt ru.policy.distribution c →
      ∃ d ∈ r.backends, d.same c = true := by
  obtain ⟨hb1, hb2, -⟩ := C70_backends env labels p x hx
  have hin : ∀ b, InRoutes h.routes b → Uses x.protocol b := by
    intro b hb
    rcases hp with e | e | ⟨t, h', o, e | e⟩ <;> rw [e]
    · exact hb
    · exact hb
    · exact .inl hb
    · exact .inr (.inl hb)
  refine ⟨?_, fun r hr rt hrt ru hru c hc =>
    C71_every_target_is_cached h.routes x.backends (fun b hb => hb2 b (hin b hb)) r hr rt hrt ru hru c hc⟩
  rw [C71_panics_iff]
  constructor
  · rintro (⟨b, hb | hb, hu⟩ | h)
    · exact .inl ⟨b, hin b hb, hu⟩
    · exact .inl ⟨b, hb1 b hb, hu⟩
    · exact .inr h
  · rintro (⟨b, hb, hu⟩ | h)
    · obtain ⟨c, hc, hs⟩ := hb2 b hb
      exact .inl ⟨c, .inr hc, unusable_same (Backend.same_symm hs) hu⟩
    · exact .inr h

/-- Routers of connections: the only route, or none; the TLS route the policy selects (C27). -/
theorem C71_opaque_route (o : Option OpaqPolicy) (backends : List Backend) (r : Router (Option (BuiltRoute TcpFilter Unit)))
    (h : mkOpaq o backends = some r) : Opt (RouteFor true) o r.routes := by
  unfold mkOpaq at h
  simp only [Option.bind_eq_some_iff, Option.map_eq_some_iff] at h
  obtain ⟨o', ho, bs, -, rfl⟩ := h
  unfold Opt
  cases o with
  | none => cases ho; exact .inl ⟨rfl, rfl⟩
  | some p =>
    simp only [readOpt, Option.map_eq_some_iff] at ho
    obtain ⟨b, hb, rfl⟩ := ho
    exact .inr ⟨p, b, rfl, rfl, mkPolicy_for true p b hb⟩

theorem tlsRouteMatch_map {P Q : Type} (sni : Str) (g : P → Q) (r : TlsRoute.Route P) :
    TlsRoute.routeMatch sni ⟨r.snis, g r.policy⟩ = (TlsRoute.routeMatch sni r).map fun x => (x.1, g x.2) := by
  unfold TlsRoute.routeMatch
  simp only
  split
  · rfl
  · rw [Option.map_map]; rfl

theorem tlsFind_map {P Q : Type} (sni : Str) (g : P → Q) (routes : List (TlsRoute.Route P)) :
    TlsRoute.find (routes.map fun r => ⟨r.snis, g r.policy⟩) sni = (TlsRoute.find routes sni).map fun x => (x.1, g x.2) := by
  unfold TlsRoute.find
  rw [List.filterMap_map]
  have : (TlsRoute.routeMatch sni ∘ fun r : TlsRoute.Route P => (⟨r.snis, g r.policy⟩ : TlsRoute.Route Q)) =
      fun r => (TlsRoute.routeMatch sni r).map fun x => (x.1, g x.2) := by
    funext r; exact tlsRouteMatch_map sni g r
  rw [this, ← List.map_filterMap]
  exact best_map (fun x : Option TlsRoute.SniMatch × P => (x.1, g x.2)) (fun a b => TlsRoute.cmpRoute a.1 b.1) _
    (fun _ _ => rfl) _

theorem C71_tls_route (routes : List (TlsRoute.Route TlsPolicy)) (backends : List Backend)
    (r : Router (List (TlsRoute.Route (BuiltRoute TcpFilter Bool)))) (h : mkTls routes backends = some r) (sni : Str) :
    (TlsRoute.find routes sni = none → TlsRoute.find r.routes sni = none) ∧
    ∀ s p, TlsRoute.find routes sni = some (s, p) → ∃ b, TlsRoute.find r.routes sni = some (s, b) ∧ RouteFor true p b := by
  unfold mkTls at h
  simp only [Option.bind_eq_some_iff, Option.map_eq_some_iff] at h
  obtain ⟨rs, hrs, bs, -, rfl⟩ := h
  have hm : routes.map (fun r => (⟨r.snis, mkPolicy true r.policy⟩ : TlsRoute.Route _)) =
      rs.map fun r => ⟨r.snis, some r.policy⟩ := by
    refine readAll_eq_map ?_ hrs
    intro a b e
    unfold mkTlsRoute at e
    rw [Option.map_eq_some_iff] at e
    obtain ⟨p, hp, rfl⟩ := e
    simp [hp]
  have e := congrArg (TlsRoute.find · sni) hm
  simp only [tlsFind_map] at e
  refine ⟨fun hn => ?_, fun s p hp => ?_⟩
  · rw [hn] at e
    simpa using e.symm
  · rw [hp] at e
    simp only [Option.map_some] at e
    obtain ⟨⟨s', b⟩, h1, h2⟩ := Option.map_eq_some_iff.1 e.symm
    simp only [Prod.mk.injEq] at h2
    obtain ⟨rfl, h2⟩ := h2
    exact ⟨b, h1, mkPolicy_for true p b h2.symm⟩

/-! ## Policies that are accepted and whose router panics -/

/-- Whether routers can be built of a policy that was read. -/
def Routable (x : ClientPolicy) : Prop := ∀ h, x.protocol = .http1 h → (mkRouter h.routes x.backends).isSome = true

/-- A balancer's path is not checked when the policy is read: `web` is not the name and port of an authority. -/
theorem C71_limit_bad_path_panics : ∃ x, ClientPolicy.read exEnv true (exPolicy (.first
    [⟨some (exBackend "web".toList), []⟩])) = some x ∧ ¬ Routable x := by
  refine ⟨_, rfl, fun h => ?_⟩
  have := h _ rfl
  revert this
  decide +kernel

/-- Nor are weights. -/
theorem C71_limit_bad_weights_panic : ∃ x, ClientPolicy.read exEnv true (exPolicy (.random
    [(0, some ⟨some (exBackend exPath), []⟩), (0, some ⟨some (exBackend exPath), []⟩)])) = some x ∧ ¬ Routable x := by
  refine ⟨_, rfl, fun h => ?_⟩
  have := h _ rfl
  revert this
  decide +kernel

/-- With usable backends the router is built, and a request goes to the balancer at the backend's address. -/
example : ∃ x h r, ClientPolicy.read exEnv true (exPolicy (.random
      [(1, some ⟨some (exBackend exPath), []⟩), (2, some ⟨some (exBackend exPath), []⟩)])) = some x ∧
    x.protocol = .http1 h ∧ mkRouter h.routes x.backends = some r ∧ r.backends.length = 1 ∧
    (select httpMatcher r ⟨"GET".toList, none, "/".toList, none, []⟩).isSome = true := by
  refine ⟨_, _, _, rfl, rfl, rfl, rfl, by decide +kernel⟩

end Verif.ClientPolicy
