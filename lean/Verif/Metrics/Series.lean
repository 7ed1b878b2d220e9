import Verif.Metrics.Lemmas
import Verif.Common.Assoc
/-!
# The labels written are the labels meant
-/
namespace Verif.Metrics
open Verif.Text (decimal join)
open Verif.Assoc (lookup)

/-- The text is that of the labels. -/
structure Tells (text : Str) (l : Labels) : Prop where
  some : l ≠ []
  eq : text = labelText l

theorem Tells.one (k v : Str) : Tells (pair k v) [(k, v)] := ⟨by simp, rfl⟩

theorem Tells.comma {s t : Str} {a b : Labels} (hs : Tells s a) (ht : Tells t b) : Tells (s ++ ',' :: t) (a ++ b) :=
  ⟨by simp [hs.some], by rw [hs.eq, ht.eq, labelText_append hs.some ht.some]⟩

theorem Tells.both {s t : Str} {a b : Labels} (hs : Tells s a) (ht : Tells t b) : Tells (Metrics.both s t) (a ++ b) :=
  hs.comma ht

theorem dirTells (d : Direction) : Tells d.fmt d.says := by cases d <;> exact Tells.one _ _

theorem addrText (a : SockAddr) : a.text
    = (if a.v6 then "[".toList ++ a.ip ++ "]".toList else a.ip) ++ ":".toList ++ decimal a.port := by
  have e1 : "[".toList = ['['] := by decide +kernel
  have e2 : "]".toList = [']'] := by decide +kernel
  have e3 : ":".toList = [':'] := by decide +kernel
  unfold SockAddr.text
  rw [e1, e2, e3]
  split <;> simp

theorem addrTells (a : SockAddr) : Tells a.fmt a.says := by
  unfold SockAddr.fmt SockAddr.says
  rw [addrText]
  exact ((Tells.one _ _).comma (Tells.one _ _)).comma (Tells.one _ _)

theorem serverTlsTells (t : ServerTls) : Tells t.fmt t.says := by
  cases t with
  | none why =>
    cases why
    · exact Tells.one _ _
    all_goals exact (Tells.one _ _).comma (Tells.one _ _)
  | established id => cases id <;> exact (Tells.one _ _).comma (Tells.one _ _)
  | passthru s => exact (Tells.one _ _).comma (Tells.one _ _)

theorem clientTlsTells (t : ClientTls) : Tells t.fmt t.says := by
  cases t with
  | none why =>
    cases why
    · exact Tells.one _ _
    all_goals exact (Tells.one _ _).comma (Tells.one _ _)
  | some id => exact (Tells.one _ _).comma (Tells.one _ _)

theorem metaTells (m : Meta) (g k n : L) :
    Tells (m.fmt g k n) [(g.name, m.group), (k.name, m.kind), (n.name, m.name)] :=
  ((Tells.one _ _).comma (Tells.one _ _)).comma (Tells.one _ _)

theorem serverTells (s : ServerLabel) : Tells s.fmt s.says := (metaTells _ _ _ _).comma (Tells.one _ _)

theorem authzTells (m : Meta) : Tells (m.fmt .authzGroup .authzKind .authzName) (authzSays m) := metaTells _ _ _ _

theorem serverAuthzTells (s : ServerAuthz) : Tells s.fmt s.says := (serverTells _).comma (authzTells _)

theorem routeTells (r : Route) : Tells r.fmt r.says := (serverTells _).comma (metaTells _ _ _ _)

theorem routeAuthzTells (r : RouteAuthz) : Tells r.fmt r.says := (routeTells _).comma (authzTells _)

theorem rateLimitTells (r : RateLimit) : Tells r.fmt r.says := by
  unfold RateLimit.fmt RateLimit.says
  cases h : r.rateLimit with
  | none =>
    rw [List.append_nil]
    exact (serverTells _).comma (Tells.one _ _)
  | some m =>
    have := ((serverTells r.server).comma (metaTells m .ratelimitGroup .ratelimitKind .ratelimitName)).comma
      (Tells.one L.ratelimitScope.name r.scope)
    refine ⟨this.some, Eq.trans ?_ this.eq⟩
    simp only [List.append_assoc, List.cons_append]

theorem underscore : "_".toList = ['_'] := by decide +kernel

theorem given_cons (p : Str) (k v : Str) (l : List (Str × Str)) :
    given p ((k, v) :: l) = (p ++ '_' :: k, v) :: given p l := by
  unfold given
  rw [List.map_cons, underscore]
  simp

theorem prefixed_rest (p : Str) (l : List (Str × Str)) (s : Str) (a : Labels) (h : Tells s a) :
    Tells (s ++ l.flatMap fun e => ',' :: pair (p ++ '_' :: e.1) e.2) (a ++ given p l) := by
  induction l generalizing s a with
  | nil => simpa [given] using h
  | cons e l ih =>
    obtain ⟨k, v⟩ := e
    have := ih _ _ (h.comma (Tells.one (p ++ '_' :: k) v))
    rw [given_cons]
    simpa using this

/-- Labels with those the control plane gave, if any, at the end. -/
theorem givenTells (p : Str) (l : List (Str × Str)) (s : Str) (a : Labels) (h : Tells s a) :
    Tells (s ++ (match prefixLabels p l with
      | some t => ',' :: t
      | none => [])) (a ++ given p l) := by
  cases l with
  | nil => simpa [given, prefixLabels] using h
  | cons e l =>
    obtain ⟨k, v⟩ := e
    have := prefixed_rest p l _ _ (h.comma (Tells.one (p ++ '_' :: k) v))
    rw [given_cons]
    simpa [prefixLabels] using this

theorem optTells (k : L) (o : Option Str) (s : Str) (a : Labels) (h : Tells s a) :
    Tells ((match o with
      | some v => pair k.name v ++ [',']
      | none => []) ++ s) (opt k.name o ++ a) := by
  cases o with
  | none => simpa [opt] using h
  | some v =>
    have := (Tells.one k.name v).comma h
    simpa [opt] using this

theorem outboundTells (o : OutboundEndpoint) : Tells o.fmt o.says := by
  have := givenTells "dst".toList o.labels _ _
    (optTells .authority o.authority _ _ ((addrTells o.targetAddr).both (clientTlsTells o.serverId)))
  unfold OutboundEndpoint.fmt OutboundEndpoint.says
  rw [List.append_assoc (opt _ _)]
  exact this

theorem inboundTells (i : InboundEndpoint) : Tells i.fmt i.says := by
  have := optTells .authority i.authority _ _
    (((addrTells i.targetAddr).both (serverTlsTells i.tls)).both (routeAuthzTells i.policy))
  unfold InboundEndpoint.fmt InboundEndpoint.says
  rw [List.append_assoc (opt _ _), List.append_assoc (opt _ _)]
  exact this

theorem endpointTells (e : Endpoint) : Tells e.fmt e.says := by
  cases e with
  | inbound i => exact (dirTells _).both (inboundTells i)
  | outbound o => exact (dirTells _).both (outboundTells o)

theorem profileRouteTells (p : ProfileRoute) : Tells p.fmt p.says :=
  givenTells "rt".toList p.labels _ _ ((dirTells p.direction).comma (Tells.one _ _))

theorem controlTells (c : Control) : Tells c.fmt c.says := (Tells.one _ _).comma (clientTlsTells _)

theorem stackTells (s : Stack) : Tells s.fmt s.says := by
  have := ((dirTells s.direction).comma (Tells.one L.protocol.name s.protocol)).comma (Tells.one L.stackName.name s.stackName)
  unfold Stack.fmt Stack.says
  rw [show [("protocol".toList, s.protocol), ("name".toList, s.stackName)]
    = [(L.protocol.name, s.protocol)] ++ [(L.stackName.name, s.stackName)] from rfl, ← List.append_assoc]
  exact this

theorem transportTells (k : TransportKey) : Tells k.fmt k.says := by
  cases k with
  | server d t a p =>
    have h := ((dirTells d).comma (Tells.one L.peer.name "src".toList)).comma ((addrTells a).both (serverTlsTells t))
    unfold TransportKey.fmt TransportKey.says
    cases p with
    | none =>
      simp only [Option.map_none, bothOpt, List.append_nil]
      rw [List.append_assoc (_ ++ _)]
      exact h
    | some s =>
      have := h.comma (serverTells s)
      refine ⟨by simp [Direction.says], ?_⟩
      have e := this.eq
      simp only [Option.map_some, bothOpt, List.append_assoc, List.cons_append] at e ⊢
      exact e
  | outboundClient o => exact ((dirTells _).comma (Tells.one _ _)).comma (outboundTells o)
  | inboundClient => exact ((dirTells _).comma (Tells.one _ _)).comma (clientTlsTells (.none .loopback))

theorem eosTells (e : Option Str) : Tells (eosFmt e) (eosSays e) := by cases e <;> exact Tells.one _ _

theorem clsTells (c : Cls) : Tells c.fmt c.says := by
  cases c <;> exact ((Tells.one _ _).comma (Tells.one _ _)).comma (Tells.one _ _)

theorem authzKeyTells {α : Type} (fmt : α → Str) (says : α → Labels) (h : ∀ a, Tells (fmt a) (says a)) (k : AuthzKey α) :
    Tells (k.fmt fmt) (k.says says) := by
  unfold AuthzKey.says
  rw [List.append_assoc]
  exact (addrTells _).both ((h _).both (serverTlsTells _))

theorem bothOpt_status {s : Str} {a : Labels} (h : Tells s a) (st : Option Nat) :
    Tells (bothOpt s (st.map statusFmt)) (a ++ statusSays st) := by
  cases st with
  | none => simpa [bothOpt, statusSays, opt] using h
  | some n => exact h.comma (Tells.one _ _)

theorem optBoth_status {s : Str} {a : Labels} (h : Tells s a) (st : Option Nat) (c : Cls) :
    Tells (both s (optBoth (st.map statusFmt) c.fmt)) (a ++ statusSays st ++ c.says) := by
  cases st with
  | none => rw [show statusSays none = [] from rfl, List.append_nil]; exact h.both (clsTells c)
  | some n =>
    rw [List.append_assoc]
    exact h.both ((Tells.one _ _).comma (clsTells c))

/-! ## Names are told apart -/

/-- The label with a name. -/
def ofName (s : Str) : Option L :=
  [L.direction, .peer, .authority, .targetAddr, .targetIp, .targetPort, .tls, .noTlsReason, .clientId, .sni, .serverId,
   .srvGroup, .srvKind, .srvName, .srvPort, .routeGroup, .routeKind, .routeName, .authzGroup, .authzKind, .authzName,
   .ratelimitGroup, .ratelimitKind, .ratelimitName, .ratelimitScope, .addr, .dst, .classification, .grpcStatus, .error,
   .statusCode, .errno, .protocol, .stackName, .ready, .skipped, .le].find? fun l => l.name == s

theorem ofName_name (l : L) : ofName l.name = some l := by cases l <;> decide +kernel

theorem name_inj {a b : L} : a.name = b.name ↔ a = b :=
  ⟨fun h => by have := ofName_name a; rw [h, ofName_name b] at this; exact (Option.some.inj this).symm, fun h => h ▸ rfl⟩

theorem lookup_name (l l' : L) (v : Str) (r : Labels) :
    lookup l.name ((l'.name, v) :: r) = if l' = l then some v else lookup l.name r := by
  simp only [lookup, name_inj]

theorem name_not_given (l : L) (p : Str) (hp : p = "dst".toList ∨ p = "rt".toList) (k : Str) : p ++ '_' :: k ≠ l.name := by
  intro h
  have h4 : ((p ++ ['_']).isPrefixOf l.name) = true := by
    rw [← h]; simp
  rcases hp with rfl | rfl <;> cases l <;> revert h4 <;> decide +kernel

theorem lookup_given_other (l : L) (p : Str) (hp : p = "dst".toList ∨ p = "rt".toList) (g : List (Str × Str)) :
    lookup l.name (given p g) = none := by
  induction g with
  | nil => rfl
  | cons e g ih =>
    obtain ⟨k, v⟩ := e
    rw [given_cons, lookup, if_neg (name_not_given l p hp k), ih]

theorem lookup_given (p k : Str) (g : List (Str × Str)) : lookup (p ++ '_' :: k) (given p g) = lookup k g := by
  induction g with
  | nil => rfl
  | cons e g ih =>
    obtain ⟨k', v⟩ := e
    rw [given_cons, lookup, lookup, ih]
    by_cases h : k' = k
    · rw [if_pos h, if_pos (by rw [h])]
    · rw [if_neg h, if_neg (fun e => h (by simpa using List.append_cancel_left e))]

end Verif.Metrics
