import Verif.OutboundTcp.CountProps
/-!
# C106 — where connections go, said of the policy; and what is not as one would hope
-/
namespace Verif.OutboundTcp
open Verif.ClientPolicy Verif.OutboundTcp.Spec
open Verif.ClientPolicy.Spec (RouteFor DistributionFor DispatchFor BackendFor Each)

namespace Spec

/-- The policy's route lists this backend at this place, with a weight if there are several with weights. -/
def Lists {F : Type} (d : ClientPolicy.Distribution F) (i : Nat) (rb : RouteBackend F) : Prop :=
  match d with
  | .empty => False
  | .first l => l[i]? = some rb
  | .random l => ∃ w, l[i]? = some (rb, w) ∧ (2 ≤ l.length → 0 < w)

/-- The policy's route sends connections to this target: it has no filters and lists a backend without filters whose target it
is. -/
def SendsTo {P : Type} (p : RoutePolicy TcpFilter P) (c : Concrete) : Prop :=
  p.filters = [] ∧ ∃ i rb, Lists p.distribution i rb ∧ rb.filters = [] ∧ DispatchFor true rb.backend c

end Spec

theorem each_get {α β : Type} {R : α → β → Prop} {l : List α} {l' : List β} (he : Each R l l') {i : Nat} {y : β} (h : l'[i]? = some y) :
    ∃ x, l[i]? = some x ∧ R x y := by
  have hi := (List.getElem?_eq_some_iff.1 h).1
  have hi' : i < l.length := by have := he.1; omega
  obtain ⟨b, hb, hr⟩ := he.2 i l[i] (List.getElem?_eq_getElem hi')
  rw [h] at hb
  cases hb
  exact ⟨_, List.getElem?_eq_getElem hi', hr⟩

theorem lists_of {F : Type} {tcp : Bool} {d : ClientPolicy.Distribution F} {d' : Built F} (h : DistributionFor tcp d d') {i : Nat}
    {b : BuiltBackend F} (hb : TakesPart d' i b) : ∃ rb, Lists d i rb ∧ BackendFor tcp rb b := by
  unfold DistributionFor at h
  rcases h with ⟨rfl, rfl⟩ | ⟨rfl, rfl⟩ | ⟨l, l', rfl, -, rfl, he⟩ | ⟨l, l', rfl, hlt, rfl, he⟩ | ⟨l, l', rfl, -, rfl, he⟩
  · exact hb.elim
  · exact hb.elim
  · exact each_get he hb
  · obtain ⟨⟨x, w⟩, hx, hr⟩ := each_get he hb
    exact ⟨x, ⟨w, hx, fun h => by omega⟩, hr⟩
  · obtain ⟨w, hb, hw⟩ := hb
    obtain ⟨⟨x, w'⟩, hx, hr, e⟩ := each_get he hb
    exact ⟨x, ⟨w', hx, fun _ => by simp only at e; omega⟩, hr⟩

theorem sends_of {P : Type} {p : RoutePolicy TcpFilter P} {b : BuiltRoute TcpFilter P} (h : RouteFor true p b) {l : Labels} {env : Nat → Distribute.Answer}
    {failure : Error} {a : Polled} {seen : Seen} {c : Concrete}
    (hf : Fate ⟨l, b.filters, b.distribution⟩ env failure a seen) (hc : seen.sent = some c) : SendsTo p c := by
  cases hf with
  | failed => cases hc
  | refusedByRoute => cases hc
  | unavailable => cases hc
  | refusedByBackend => cases hc
  | sent i bk hfs hg hbf =>
    cases hc
    obtain ⟨rb, hl, hbk⟩ := lists_of h.distribution hg.1
    exact ⟨h.filters.symm.trans hfs, i, rb, hl, hbk.1.symm.trans hbf, hbk.2⟩

/-- What is sent is sent when the future of a connection is first polled after the connection was given to a service. -/
theorem sent_given {id : Nat} {v : View} {t : List (Op × Seen)} (h : Obeys id v t) {op : Op} {seen : Seen} {c : Concrete}
    (hm : (op, seen) ∈ t) (hid : idOf op = id) (hc : seen.sent = some c) :
    ∃ sv rt env failure a, (v = .given sv ∨ .accept id sv ∈ t.map (·.1)) ∧ sv.select = some rt ∧ Fate rt env failure a seen := by
  induction t generalizing v with
  | nil => cases hm
  | cons e t ih =>
    obtain ⟨op', seen'⟩ := e
    have weaken : ∀ {v'}, (v' = .gone ∨ (∃ r, v' = .served r) ∨ v' = v ∨ ∃ j sv, op' = .accept j sv ∧ j = id ∧ v' = .given sv) → Obeys id v' t → (op, seen) ∈ t →
        ∃ sv rt env failure a, (v = .given sv ∨ .accept id sv ∈ ((op', seen') :: t).map (·.1)) ∧ sv.select = some rt ∧ Fate rt env failure a seen := by
      intro v' hv' ho hmem
      obtain ⟨sv, rt, env, f, a, h1, h2, h3⟩ := ih ho hmem
      refine ⟨sv, rt, env, f, a, ?_, h2, h3⟩
      rcases h1 with h1 | h1
      · rcases hv' with hv' | ⟨r, hv'⟩ | hv' | ⟨j, sv', e1, e2, hv'⟩
        · rw [h1] at hv'; cases hv'
        · rw [h1] at hv'; cases hv'
        · exact .inl (hv'.symm.trans h1)
        · rw [h1] at hv'; cases hv'; subst e1; subst e2; exact .inr (by simp)
      · exact .inr (by simp only [List.map_cons]; exact List.mem_cons_of_mem _ h1)
    simp only [Obeys] at h
    by_cases hid' : idOf op' = id
    · rw [if_neg (by simpa using hid')] at h
      have split : ∀ {R : Prop}, ((op, seen) = (op', seen') → R) → ((op, seen) ∈ t → R) → R :=
        fun h1 h2 => (List.mem_cons.1 hm).elim h1 h2
      cases op' with
      | accept j sv =>
        obtain ⟨h1, h2⟩ := h
        refine split (fun e => ?_) (weaken (.inr (.inr (.inr ⟨j, sv, rfl, hid', rfl⟩))) h2)
        cases e; rw [h1] at hc; cases hc
      | drop j =>
        obtain ⟨h1, h2⟩ := h
        refine split (fun e => ?_) (weaken (.inl rfl) h2)
        cases e; rw [h1] at hc; cases hc
      | poll j env failure a =>
        cases v with
        | gone =>
          obtain ⟨h1, h2⟩ := h
          refine split (fun e => ?_) (weaken (.inl rfl) h2)
          cases e; rw [h1] at hc; cases hc
        | served r =>
          obtain ⟨h1, h2⟩ := h
          refine split (fun e => ?_) (fun hmem => weaken ?_ h2 hmem)
          · cases e; rw [h1] at hc; cases hc
          · by_cases hp : seen'.out = .pending
            · rw [if_pos hp]; exact .inr (.inl ⟨_, rfl⟩)
            · rw [if_neg hp]; exact .inl rfl
        | given sv =>
          dsimp only at h
          cases hs : sv.select with
          | none =>
            rw [hs] at h
            obtain ⟨h1, h2⟩ := h
            refine split (fun e => ?_) (weaken (.inl rfl) h2)
            cases e; rw [h1] at hc; cases hc
          | some rt =>
            rw [hs] at h
            obtain ⟨h1, h2⟩ := h
            refine split (fun e => ?_) (fun hmem => weaken ?_ h2 hmem)
            · cases e
              exact ⟨sv, rt, _, _, _, .inl rfl, hs, h1⟩
            · by_cases hp : seen'.out = .pending
              · rw [if_pos hp]; exact .inr (.inl ⟨_, rfl⟩)
              · rw [if_neg hp]; exact .inl rfl
    · rw [if_pos hid'] at h
      rcases List.mem_cons.1 hm with e | e
      · cases e; exact absurd hid hid'
      · exact weaken (.inr (.inr (.inl rfl))) h e

/-- **C106.** A connection only ever goes to a backend listed by the route the policy it was given to selects for it: an opaque
one to a backend of the policy's route, a TLS one to a backend of the route that its server's name selects.  Neither the route nor
the backend has filters then. -/
theorem C106_where (ops : List Op) (hm : ∀ j sv, .accept j sv ∈ ops → Made sv) (op : Op) (seen : Seen) (c : Concrete)
    (h : (op, seen) ∈ trace init ops) (hc : seen.sent = some c) :
    ∃ sv, .accept (idOf op) sv ∈ ops ∧
      match sv with
      | .opaq _ _ r => ∀ policy backends, mkOpaq policy backends = some r → ∃ p, policy = some p ∧ SendsTo p c
      | .tls _ sni r => ∀ routes backends, mkTls routes backends = some r → ∃ m p, TlsRoute.find routes sni = some (m, p) ∧ SendsTo p c := by
  obtain ⟨sv, rt, env, failure, a, h1, h2, h3⟩ := sent_given (C106_connection ops hm (idOf op)) h rfl hc
  have hops : ∀ s, (trace s ops).map (·.1) = ops := by
    clear hm h h1 h2 h3 hc
    induction ops with
    | nil => intro s; rfl
    | cons o ops ih => intro s; simp only [trace, List.map_cons, ih]
  rw [hops] at h1
  rcases h1 with h1 | h1
  · cases h1
  refine ⟨sv, h1, ?_⟩
  cases sv with
  | opaq parent addr r =>
    intro policy backends hmk
    have hr := C71_opaque_route policy backends r hmk
    simp only [Serving.select] at h2
    rcases hr with ⟨rfl, hn⟩ | ⟨p, b, rfl, hb, hf⟩
    · rw [hn] at h2; cases h2
    · rw [hb] at h2
      cases h2
      exact ⟨p, rfl, sends_of hf h3 hc⟩
  | tls parent sni r =>
    intro routes backends hmk
    obtain ⟨hn, hsome⟩ := C71_tls_route routes backends r hmk sni
    simp only [Serving.select] at h2
    cases hfd : TlsRoute.find routes sni with
    | none => rw [hn hfd] at h2; cases h2
    | some mp =>
      obtain ⟨m, p⟩ := mp
      obtain ⟨b, hb, hf⟩ := hsome m p hfd
      rw [hb] at h2
      cases h2
      exact ⟨m, p, rfl, sends_of hf h3 hc⟩

/-- The kind of an error is that of its outermost cause that came from a filter, and `unexpected` if there is none: the wrappers
of the route and the target do not matter. -/
theorem C106_kind (e : Error) :
    (∃ pre f post, e = pre ++ refusal f :: post ∧ (∀ c ∈ pre, ∀ f', c ≠ refusal f') ∧
      Kind.of e = match f with | .forbidden => .forbidden | .invalid _ => .invalidBackend | .internalError _ => .invalidPolicy) ∨
    ((∀ c ∈ e, ∀ f', c ≠ refusal f') ∧ Kind.of e = .unexpected) := by
  induction e with
  | nil => exact .inr ⟨by simp, rfl⟩
  | cons c e ih =>
    have other : (∀ f', c ≠ refusal f') → Kind.of (c :: e) = Kind.of e →
        (∃ pre f post, c :: e = pre ++ refusal f :: post ∧ (∀ c ∈ pre, ∀ f', c ≠ refusal f') ∧
          Kind.of (c :: e) = match f with | .forbidden => .forbidden | .invalid _ => .invalidBackend | .internalError _ => .invalidPolicy) ∨
        ((∀ c' ∈ c :: e, ∀ f', c' ≠ refusal f') ∧ Kind.of (c :: e) = .unexpected) := by
      intro h1 h2
      rw [h2]
      rcases ih with ⟨pre, f, post, rfl, h3, h4⟩ | ⟨h3, h4⟩
      · refine .inl ⟨c :: pre, f, post, rfl, ?_, h4⟩
        intro c' hc'
        rcases List.mem_cons.1 hc' with rfl | hc'
        · exact h1
        · exact h3 c' hc'
      · refine .inr ⟨?_, h4⟩
        intro c' hc'
        rcases List.mem_cons.1 hc' with rfl | hc'
        · exact h1
        · exact h3 c' hc'
    cases c with
    | forbidden => exact .inl ⟨[], .forbidden, e, rfl, by simp, rfl⟩
    | invalidBackend m => exact .inl ⟨[], .invalid m, e, rfl, by simp, rfl⟩
    | invalidPolicy m => exact .inl ⟨[], .internalError m, e, rfl, by simp, rfl⟩
    | loadShed => exact other (by intro f'; cases f' <;> simp [refusal]) rfl
    | noRoute => exact other (by intro f'; cases f' <;> simp [refusal]) rfl
    | route r => exact other (by intro f'; cases f' <;> simp [refusal]) rfl
    | logical => exact other (by intro f'; cases f' <;> simp [refusal]) rfl
    | other n => exact other (by intro f'; cases f' <;> simp [refusal]) rfl

/-- Connections share counters exactly if their parents agree in group, kind and name, their routes do, and they have the same
address or the same name of a server to be shown. -/
theorem C106_labels_apart (l l' : Labels) :
    l.key = l'.key ↔
      (l.parent.group = l'.parent.group ∧ l.parent.kind = l'.parent.kind ∧ l.parent.name = l'.parent.name) ∧
      (l.route.group = l'.route.group ∧ l.route.kind = l'.route.kind ∧ l.route.name = l'.route.name) ∧ l.target = l'.target := by
  simp [Labels.key, metaKey]

/-! ### Examples and limits -/

def exMeta (ns : Str) : Meta := .resource "core".toList "Service".toList "web".toList ns none none

def exBackend (filters : List TcpFilter) (msg : Str) : RouteBackend TcpFilter :=
  ⟨filters, ⟨.default "b".toList, 1, 1, .fail msg⟩⟩

/-- A policy with one TLS route for every name, over these backends. -/
def exRoutes (filters : List TcpFilter) (bs : List (RouteBackend TcpFilter)) : List (TlsRoute.Route TlsPolicy) :=
  [⟨[], ⟨.default "r".toList, filters, .first bs, false⟩⟩]

def exRouter (filters : List TcpFilter) (bs : List (RouteBackend TcpFilter)) : Router (List (TlsRoute.Route (BuiltRoute TcpFilter Bool))) :=
  (mkTls (exRoutes filters bs) []).getD ⟨[], []⟩

def exServing (ns : Str) (filters : List TcpFilter) (bs : List (RouteBackend TcpFilter)) : Serving :=
  .tls (exMeta ns) "x".toList (exRouter filters bs)

def exTarget (msg : Str) : Concrete := ⟨.fail msg, .default "fail".toList⟩

def ready : Distribute.Env := { answer := fun _ => .ready }

/-- The example's services are made of policies. -/
theorem ex_made (ns : Str) (filters : List TcpFilter) (m : Str) (fs : List TcpFilter) : Made (exServing ns filters [exBackend fs m]) :=
  ⟨exRoutes filters [exBackend fs m], [], rfl⟩

/-- A connection without filters in its way goes to the first backend that is ready, and is counted when it ends. -/
example :
    let ops : List Op := [.accept 1 (exServing "a".toList [] [exBackend [] "m".toList, exBackend [] "n".toList]),
      .poll 1 { answer := fun i => if i = 0 then .pending else .ready } [] .pending, .poll 1 ready [] (.err [.other 3])]
    ((trace init ops).map (·.2.out) = [.nothing, .pending, .closed (some [.logical, .route (.default "r".toList), .other 3])]) ∧
    ((trace init ops).map (fun e => e.2.sent.map (·.target)) = [none, some (.fail "n".toList), none]) ∧
    (after init ops).opened.map (·.2.2) = [1] ∧ (after init ops).closed.map (·.2.2) = [0, 0, 0, 0, 1] := by
  decide +kernel

/-- **Limit.** A connection whose route cannot be made ready is counted nowhere. -/
theorem C106_limit_failed_uncounted : ∃ ops : List Op, (∀ j sv, .accept j sv ∈ ops → Made sv) ∧
    (∃ e, (trace init ops).map (·.2.out) = [.nothing, .failed e]) ∧
    (∀ k, value k (after init ops).opened = 0) ∧ ∀ k, value k (after init ops).closed = 0 := by
  refine ⟨[.accept 1 (exServing "a".toList [] [exBackend [] "m".toList]), .poll 1 { answer := fun _ => .failed } [.other 1] .ok],
    ?_, ⟨[.logical, .route (.default "r".toList), .other 1], by decide +kernel⟩, ?_, ?_⟩
  · intro j sv h
    simp only [List.mem_cons, Op.accept.injEq, List.not_mem_nil, or_false, reduceCtorEq] at h
    obtain ⟨rfl, rfl⟩ := h
    exact ex_made _ _ _ _
  · intro k
    have e : ∀ p ∈ (after init [.accept 1 (exServing "a".toList [] [exBackend [] "m".toList]),
        .poll 1 { answer := fun _ => .failed } [.other 1] .ok]).opened, p.2.2 = 0 := by decide +kernel
    unfold value
    split
    · rename_i l n hl; exact e _ (Assoc.mem_of_lookup hl)
    · rfl
  · intro k
    have e : ∀ p ∈ (after init [.accept 1 (exServing "a".toList [] [exBackend [] "m".toList]),
        .poll 1 { answer := fun _ => .failed } [.other 1] .ok]).closed, p.2.2 = 0 := by decide +kernel
    unfold value
    split
    · rename_i l n hl; exact e _ (Assoc.mem_of_lookup hl)
    · rfl

/-- **Limit.** Services of the same name in different namespaces share the counters of routes of the same name; they are shown
with the namespace of the first. -/
theorem C106_limit_namespaces_share : ∃ ops : List Op, (∀ j sv, .accept j sv ∈ ops → Made sv) ∧
    (trace init ops).map (·.2.out) = [.nothing, .nothing, .closed none, .closed none] ∧
    (∃ sv sv' rt rt', accepted (trace init ops) = [(1, sv), (2, sv')] ∧ sv.select = some rt ∧ sv'.select = some rt' ∧
      rt.labels.parent.ns = "a".toList ∧ rt'.labels.parent.ns = "b".toList) ∧
    (after init ops).opened.map (fun e => (e.2.1.parent.ns, e.2.2)) = [("a".toList, 2)] := by
  refine ⟨[.accept 1 (exServing "a".toList [] [exBackend [] "m".toList]), .accept 2 (exServing "b".toList [] [exBackend [] "m".toList]),
      .poll 1 ready [] .ok, .poll 2 ready [] .ok], ?_, by decide +kernel, ⟨_, _, _, _, rfl, rfl, rfl, by decide +kernel, by decide +kernel⟩, by decide +kernel⟩
  intro j sv h
  simp only [List.mem_cons, Op.accept.injEq, List.not_mem_nil, or_false, reduceCtorEq] at h
  rcases h with ⟨rfl, rfl⟩ | ⟨rfl, rfl⟩ <;> exact ex_made _ _ _ _

/-- **Limit.** A connection whose future is dropped stays among those opened and is never among those closed. -/
theorem C106_limit_dropped_never_closed : ∃ ops : List Op, (∀ j sv, .accept j sv ∈ ops → Made sv) ∧
    (after init ops).conns.length = 0 ∧ (after init ops).opened.map (·.2.2) = [1] ∧
    (after init ops).closed.map (·.2.2) = [0, 0, 0, 0, 0] := by
  refine ⟨[.accept 1 (exServing "a".toList [] [exBackend [] "m".toList]), .poll 1 ready [] .pending, .drop 1], ?_, by decide +kernel,
    by decide +kernel, by decide +kernel⟩
  intro j sv h
  simp only [List.mem_cons, Op.accept.injEq, List.not_mem_nil, or_false, reduceCtorEq] at h
  obtain ⟨rfl, rfl⟩ := h
  exact ex_made _ _ _ _

/-- **Limit.** A backend that refuses connections is chosen like any other: a connection is refused although another backend that
is ready would have taken it. -/
theorem C106_limit_refusing_backend_chosen :
    (trace init [.accept 1 (exServing "a".toList [] [exBackend [.forbidden] "m".toList, exBackend [] "n".toList]),
      .poll 1 ready [] .ok]).map (·.2.out) = [.nothing, .closed (some [.logical, .route (.default "r".toList), .forbidden])] := by
  decide +kernel

end Verif.OutboundTcp
