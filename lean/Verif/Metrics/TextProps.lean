import Verif.Metrics.Series
import Verif.Metrics.Histogram
/-!
# C97: what `/metrics` writes reads back

For every registry: what the reports write is proper Prometheus text, and a reader of it gets exactly the
samples meant — every series with its labels and its number, a histogram's buckets cumulative, its count and
its sum — as long as no label's value holds a quote, a backslash or a line break.  Keys that differ are
different series.
-/
namespace Verif.Metrics
open Verif.Assoc (lookup)

/-- A line written with these labels reads back as a sample with the labels meant. -/
def ReadsAs (text : Str) (l : Labels) : Prop :=
  ∀ (name : Str) (n : Nat), nameOk name = true → Writable l → readDoc (fmtLabeled name text n) = some [⟨name, l, shown n⟩]

theorem Tells.readsAs {s : Str} {l : Labels} (h : Tells s l) : ReadsAs s l := by
  intro name n hn hl
  rw [h.eq]
  exact (reads_labeled name hn l hl n).doc

/-! ## Labels -/

/-- The series of an endpoint's requests. -/
theorem C97_labels_endpoint (e : Endpoint) : ReadsAs e.fmt e.says := (endpointTells e).readsAs

/-- The series of a class of an endpoint's responses. -/
theorem C97_labels_response (e : Endpoint) (status : Option Nat) (c : Cls) :
    ReadsAs (both e.fmt (optBoth (status.map statusFmt) c.fmt)) (e.says ++ statusSays status ++ c.says) :=
  (optBoth_status (endpointTells e) status c).readsAs

/-- The series of a profile's route. -/
theorem C97_labels_profile_route (p : ProfileRoute) : ReadsAs p.fmt p.says := (profileRouteTells p).readsAs

/-- The series of a part of the control plane. -/
theorem C97_labels_control (c : Control) : ReadsAs c.fmt c.says := (controlTells c).readsAs

/-- The series of a layer. -/
theorem C97_labels_stack (s : Stack) : ReadsAs s.fmt s.says := (stackTells s).readsAs

/-- The series of a kind of connection, and of how one ended. -/
theorem C97_labels_transport (k : TransportKey) (eos : Option Str) :
    ReadsAs k.fmt k.says ∧ ReadsAs (both k.fmt (eosFmt eos)) (k.says ++ eosSays eos) :=
  ⟨(transportTells k).readsAs, ((transportTells k).both (eosTells eos)).readsAs⟩

/-- The series of the authorizations of connections and requests, and of rate limits. -/
theorem C97_labels_authz (server : AuthzKey ServerLabel) (serverAuthz : AuthzKey ServerAuthz) (route : AuthzKey Route)
    (routeAuthz : AuthzKey RouteAuthz) (limit : AuthzKey RateLimit) :
    ReadsAs (server.fmt ServerLabel.fmt) (server.says ServerLabel.says)
    ∧ ReadsAs (serverAuthz.fmt ServerAuthz.fmt) (serverAuthz.says ServerAuthz.says)
    ∧ ReadsAs (route.fmt Route.fmt) (route.says Route.says)
    ∧ ReadsAs (routeAuthz.fmt RouteAuthz.fmt) (routeAuthz.says RouteAuthz.says)
    ∧ ReadsAs (limit.fmt RateLimit.fmt) (limit.says RateLimit.says) :=
  ⟨(authzKeyTells _ _ serverTells _).readsAs, (authzKeyTells _ _ serverAuthzTells _).readsAs,
   (authzKeyTells _ _ routeTells _).readsAs, (authzKeyTells _ _ routeAuthzTells _).readsAs,
   (authzKeyTells _ _ rateLimitTells _).readsAs⟩

/-- A resource is told by its group, kind and name; one that is a default has no group and is of the kind `default`. -/
theorem C97_resources (g k n : Str) (port : Nat) :
    ServerLabel.says ⟨.resource g k n, port⟩ = [("srv_group".toList, g), ("srv_kind".toList, k), ("srv_name".toList, n),
      ("srv_port".toList, Text.decimal port)]
    ∧ ServerLabel.says ⟨.default n, port⟩ = [("srv_group".toList, []), ("srv_kind".toList, "default".toList),
      ("srv_name".toList, n), ("srv_port".toList, Text.decimal port)]
    ∧ routeSays (.resource g k n) = [("route_group".toList, g), ("route_kind".toList, k), ("route_name".toList, n)]
    ∧ routeSays (.default n) = [("route_group".toList, []), ("route_kind".toList, "default".toList), ("route_name".toList, n)]
    ∧ authzSays (.resource g k n) = [("authz_group".toList, g), ("authz_kind".toList, k), ("authz_name".toList, n)]
    ∧ authzSays (.default n)
      = [("authz_group".toList, []), ("authz_kind".toList, "default".toList), ("authz_name".toList, n)] :=
  ⟨rfl, rfl, rfl, rfl, rfl, rfl⟩

/-- A number without labels reads back. -/
theorem C97_unlabeled (name : Str) (hn : nameOk name = true) (n : Nat) :
    readDoc (fmtNumber name n) = some [⟨name, [], shown n⟩] := by
  refine (Reads.line (line := name ++ ' ' :: Text.decimal (shown n)) ?_ ?_).doc
  · simp only [List.mem_append, List.mem_cons, not_or]
    exact ⟨newline_not_name hn, by decide, newline_not_decimal _⟩
  · obtain ⟨d, t, h, hd⟩ := nameOk_ne_hash hn (Text.decimal (shown n)) ' '
    rw [readLine_sample d t h hd]
    unfold readSample
    rw [takeWhile_name (nameOk_all hn) ' ' (by decide), dropWhile_name (nameOk_all hn) ' ' (by decide)]
    simp only [hn, if_true, Text.digits_decimal, Option.map_some]

example : readDoc (fmtNumber "process_open_fds".toList 7) = some [⟨"process_open_fds".toList, [], 7⟩] := by
  decide +kernel

/-! ## Reports -/

theorem rows_map {T M : Type} (fmt : T → Str) (says : T → Labels) (h : ∀ t, Tells (fmt t) (says t)) (reg : List (T × M))
    (f : M → Value) :
    ((reg.map fun e => (fmt e.1, e.2)).map fun (k, m) => (k, f m))
      = (((reg.map fun e => (says e.1, e.2)).map fun (l, m) => (l, f m)).map fun r => (labelText r.1, r.2)) := by
  simp only [List.map_map]
  refine List.map_congr_left fun e _ => ?_
  simp [(h e.1).eq]

theorem prefixed_ok (pfx name : Str) (h : pfx = [] ∨ nameOk pfx = true) (hn : nameOk name = true) :
    nameOk (prefixed pfx name) = true := by
  unfold prefixed
  split
  · exact hn
  · rename_i hp
    refine nameOk_append (h.resolve_left hp) ?_
    simp only [List.all_cons, nameOk_all hn, Bool.and_true]
    decide

theorem prefixed_eq (pfx name : Str) : prefixed pfx name = (if pfx = [] then [] else pfx ++ ['_']) ++ name := by
  unfold prefixed
  split <;> simp

/-- The prefix of a report's metrics, as it appears: nothing, or the prefix and an underscore. -/
def shownPrefix (pfx : Str) : Str := if pfx = [] then [] else pfx ++ "_".toList

theorem prefixed_eq' (pfx name : Str) : prefixed pfx name = shownPrefix pfx ++ name := by
  rw [prefixed_eq, shownPrefix, underscore]

theorem http_report {T : Type} (fmt : T → Str) (says : T → Labels) (hf : ∀ t, Tells (fmt t) (says t))
    (pfx : Str) (hp : pfx = [] ∨ nameOk pfx = true) (latencies : Bool) (reg : List (T × HttpMetrics))
    (hw : ∀ e ∈ reg, Writable (says e.1))
    (hc : ∀ e ∈ reg, ∀ s ∈ e.2.byStatus, ∀ c ∈ s.2.byClass, ∀ p ∈ c.1.says, plain p.2 = true) :
    readDoc (httpReport pfx latencies (reg.map fun e => (fmt e.1, e.2)))
      = some (httpSamples (shownPrefix pfx) latencies (reg.map fun e => (says e.1, e.2))) := by
  unfold httpReport
  by_cases hr : reg = []
  · subst hr
    simp only [List.map_nil, if_true, readDoc_nil]
    cases latencies <;> rfl
  rw [if_neg (by simpa using hr)]
  have hs : ∀ (s : Option Nat), ∀ p ∈ statusSays s, nameOk p.1 = true ∧ plain p.2 = true := by
    intro s p hp
    cases s with
    | none => cases hp
    | some n =>
      rw [show statusSays (some n) = [("status_code".toList, Text.decimal n)] from rfl, List.mem_singleton] at hp
      subst hp
      exact ⟨show nameOk "status_code".toList = true by decide +kernel, plain_decimal n⟩
  have hcn : ∀ (c : Cls), ∀ p ∈ c.says, nameOk p.1 = true := by
    intro c p hp
    have : p.1 ∈ ["classification".toList, "grpc_status".toList, "error".toList] := by
      cases c <;> simp only [Cls.says, List.mem_cons, List.not_mem_nil, or_false] at hp ⊢ <;>
        rcases hp with rfl | rfl | rfl <;> simp
    have hall : ∀ k ∈ ["classification".toList, "grpc_status".toList, "error".toList], nameOk k = true := by decide +kernel
    exact hall _ this
  -- rows
  have e1 : rowsByTarget (reg.map fun e => (fmt e.1, e.2))
      = ((reg.map fun e => (says e.1, e.2)).map fun (l, m) => (l, Value.counter m.total)).map fun r => (labelText r.1, r.2) :=
    rows_map fmt says hf reg fun m => .counter m.total
  have e2 : rowsByStatus (reg.map fun e => (fmt e.1, e.2))
      = ((reg.map fun e => (says e.1, e.2)).flatMap fun (l, m) => m.byStatus.map fun (s, sm) =>
          (l ++ statusSays s, Value.hist sm.latency)).map fun r => (labelText r.1, r.2) := by
    unfold rowsByStatus
    simp only [List.flatMap_map, List.map_flatMap, List.map_map]
    refine congrArg (List.flatMap · reg) (funext fun e => List.map_congr_left fun x _ => ?_)
    simp [(bothOpt_status (hf e.1) x.1).eq]
  have e3 : rowsByClass (reg.map fun e => (fmt e.1, e.2))
      = ((reg.map fun e => (says e.1, e.2)).flatMap fun (l, m) => m.byStatus.flatMap fun (s, sm) =>
          sm.byClass.map fun (c, n) => (l ++ statusSays s ++ c.says, Value.counter n)).map fun r => (labelText r.1, r.2) := by
    unfold rowsByClass
    simp only [List.flatMap_map, List.map_flatMap, List.map_map]
    refine congrArg (List.flatMap · reg) (funext fun e =>
      congrArg (List.flatMap · e.2.byStatus) (funext fun x => List.map_congr_left fun y _ => ?_))
    simp [(optBoth_status (hf e.1) x.1 y.1).eq]
  have r1 := reads_family (shownPrefix pfx ++ "request_total".toList) "Total count of HTTP requests.".toList .counter
    (by rw [← prefixed_eq']; exact prefixed_ok pfx _ hp (by decide +kernel)) (by decide +kernel)
    ((reg.map fun e => (says e.1, e.2)).map fun (l, m) => (l, Value.counter m.total)) (by
      intro r hr
      simp only [List.map_map, List.mem_map] at hr
      obtain ⟨e, he, rfl⟩ := hr
      exact hw e he)
  have r2 := reads_family (shownPrefix pfx ++ "response_latency_ms".toList)
    "Elapsed times between a request's headers being received and its response stream completing".toList .histogram
    (by rw [← prefixed_eq']; exact prefixed_ok pfx _ hp (by decide +kernel)) (by decide +kernel)
    ((reg.map fun e => (says e.1, e.2)).flatMap fun (l, m) => m.byStatus.map fun (s, sm) =>
          (l ++ statusSays s, Value.hist sm.latency)) (by
      intro r hr
      simp only [List.flatMap_map, List.mem_flatMap, List.mem_map] at hr
      obtain ⟨e, he, x, hx, rfl⟩ := hr
      exact (hw e he).append (hs x.1))
  have r3 := reads_family (shownPrefix pfx ++ "response_total".toList) "Total count of HTTP responses.".toList .counter
    (by rw [← prefixed_eq']; exact prefixed_ok pfx _ hp (by decide +kernel)) (by decide +kernel)
    ((reg.map fun e => (says e.1, e.2)).flatMap fun (l, m) => m.byStatus.flatMap fun (s, sm) =>
          sm.byClass.map fun (c, n) => (l ++ statusSays s ++ c.says, Value.counter n)) (by
      intro r hr
      simp only [List.flatMap_map, List.mem_flatMap, List.mem_map] at hr
      obtain ⟨e, he, x, hx, y, hy, rfl⟩ := hr
      exact ((hw e he).append (hs x.1)).append fun p hp => ⟨hcn _ p hp, hc e he x hx y hy p hp⟩)
  rw [e1, e2, e3, prefixed_eq', prefixed_eq', prefixed_eq']
  unfold httpSamples
  cases latencies with
  | true => exact ((r1.append r2).append r3).doc
  | false => exact ((r1.append Reads.nil).append r3).doc

/-- What a reader gets of the HTTP metrics of endpoints, of profiles' routes and of the control plane: every
target's requests, every status's latencies (if asked for), every class's responses; nothing more. -/
theorem C97_http_reports (pfx : Str) (hp : pfx = [] ∨ nameOk pfx = true) (latencies : Bool) :
    (∀ reg : List (Endpoint × HttpMetrics), (∀ e ∈ reg, Writable e.1.says) →
      (∀ e ∈ reg, ∀ s ∈ e.2.byStatus, ∀ c ∈ s.2.byClass, ∀ p ∈ c.1.says, plain p.2 = true) →
      readDoc (httpReport pfx latencies (reg.map fun e => (e.1.fmt, e.2)))
        = some (httpSamples (shownPrefix pfx) latencies (reg.map fun e => (e.1.says, e.2))))
    ∧ (∀ reg : List (ProfileRoute × HttpMetrics), (∀ e ∈ reg, Writable e.1.says) →
      (∀ e ∈ reg, ∀ s ∈ e.2.byStatus, ∀ c ∈ s.2.byClass, ∀ p ∈ c.1.says, plain p.2 = true) →
      readDoc (httpReport pfx latencies (reg.map fun e => (e.1.fmt, e.2)))
        = some (httpSamples (shownPrefix pfx) latencies (reg.map fun e => (e.1.says, e.2))))
    ∧ (∀ reg : List (Control × HttpMetrics), (∀ e ∈ reg, Writable e.1.says) →
      (∀ e ∈ reg, ∀ s ∈ e.2.byStatus, ∀ c ∈ s.2.byClass, ∀ p ∈ c.1.says, plain p.2 = true) →
      readDoc (httpReport pfx latencies (reg.map fun e => (e.1.fmt, e.2)))
        = some (httpSamples (shownPrefix pfx) latencies (reg.map fun e => (e.1.says, e.2)))) :=
  ⟨http_report _ _ endpointTells pfx hp latencies, http_report _ _ profileRouteTells pfx hp latencies,
   http_report _ _ controlTells pfx hp latencies⟩

/-- The same of the metrics of transports. -/
theorem C97_tcp_report (reg : List (TransportKey × TcpMetrics)) (hw : ∀ e ∈ reg, Writable e.1.says)
    (hc : ∀ e ∈ reg, ∀ x ∈ e.2.byEos, plain (x.1.getD []) = true) :
    readDoc (tcpReport (reg.map fun e => (e.1.fmt, e.2))) = some (tcpSamples (reg.map fun e => (e.1.says, e.2))) := by
  unfold tcpReport
  by_cases hr : reg = []
  · subst hr; rfl
  rw [if_neg (by simpa using hr)]
  have hrows : ∀ f : TcpMetrics → Value,
      ∀ r ∈ (reg.map fun e => (e.1.says, e.2)).map fun (l, m) => (l, f m), Writable r.1 := by
    intro f r hr
    simp only [List.map_map, List.mem_map] at hr
    obtain ⟨e, he, rfl⟩ := hr
    exact hw e he
  have e5 : ((reg.map fun e => (e.1.fmt, e.2)).flatMap fun (k, m) => m.byEos.map fun (e, n) =>
        (both k (eosFmt e), Value.counter n))
      = ((reg.map fun e => (e.1.says, e.2)).flatMap fun (l, m) => m.byEos.map fun (e, n) =>
          (l ++ eosSays e, Value.counter n)).map fun r => (labelText r.1, r.2) := by
    simp only [List.flatMap_map, List.map_flatMap, List.map_map]
    refine congrArg (List.flatMap · reg) (funext fun e => List.map_congr_left fun x _ => ?_)
    simp [((transportTells e.1).both (eosTells x.1)).eq]
  have r5 := reads_family "tcp_close_total".toList "Total count of closed connections".toList .counter
    (by decide +kernel) (by decide +kernel)
    ((reg.map fun e => (e.1.says, e.2)).flatMap fun (l, m) => m.byEos.map fun (e, n) => (l ++ eosSays e, Value.counter n)) (by
      intro r hr
      simp only [List.flatMap_map, List.mem_flatMap, List.mem_map] at hr
      obtain ⟨e, he, x, hx, rfl⟩ := hr
      refine (hw e he).append fun p hp => ?_
      rw [show eosSays x.1 = [("errno".toList, x.1.getD [])] from rfl, List.mem_singleton] at hp
      subst hp
      exact ⟨show nameOk "errno".toList = true by decide +kernel, hc e he x hx⟩)
  have hm := rows_map TransportKey.fmt _ transportTells reg
  rw [hm fun m => .counter m.openTotal, hm fun m => .gauge m.openConnections, hm fun m => .counter m.readBytes,
    hm fun m => .counter m.writeBytes, e5]
  have r1 := reads_family "tcp_open_total".toList "Total count of opened connections".toList .counter
    (by decide +kernel) (by decide +kernel) _ (hrows fun m => .counter m.openTotal)
  have r2 := reads_family "tcp_open_connections".toList "Number of currently-open connections".toList .gauge
    (by decide +kernel) (by decide +kernel) _ (hrows fun m => .gauge m.openConnections)
  have r3 := reads_family "tcp_read_bytes_total".toList "Total count of bytes read from peers".toList .counter
    (by decide +kernel) (by decide +kernel) _ (hrows fun m => .counter m.readBytes)
  have r4 := reads_family "tcp_write_bytes_total".toList "Total count of bytes written to peers".toList .counter
    (by decide +kernel) (by decide +kernel) _ (hrows fun m => .counter m.writeBytes)
  unfold tcpSamples
  exact ((((r1.append r2).append r3).append r4).append r5).doc

theorem Writable.snoc {l : Labels} (h : Writable l) (k v : Str) (hk : nameOk k = true) (hv : plain v = true) :
    Writable (l ++ [(k, v)]) :=
  h.append fun p hp => by rw [List.mem_singleton] at hp; subst hp; exact ⟨hk, hv⟩

/-- The same of the retries of a profile's routes. -/
theorem C97_retry_report (pfx : Str) (hp : pfx = [] ∨ nameOk pfx = true) (reg : List (ProfileRoute × (Nat × Nat)))
    (hw : ∀ e ∈ reg, Writable e.1.says) :
    readDoc (retryReport pfx (reg.map fun e => (e.1.fmt, e.2)))
      = some (retrySamples (shownPrefix pfx) (reg.map fun e => (e.1.says, e.2))) := by
  unfold retryReport
  by_cases hr : reg = []
  · subst hr; rfl
  rw [if_neg (by simpa using hr)]
  have e : ((reg.map fun e => (e.1.fmt, e.2)).flatMap fun (t, m) =>
        [(t, Value.counter m.1), (both t (pair L.skipped.name "no_budget".toList), .counter m.2)])
      = ((reg.map fun e => (e.1.says, e.2)).flatMap fun (l, m) =>
        [(l, Value.counter m.1), (l ++ [("skipped".toList, "no_budget".toList)], .counter m.2)]).map
          fun r => (labelText r.1, r.2) := by
    simp only [List.flatMap_map, List.map_flatMap]
    refine congrArg (List.flatMap · reg) (funext fun e => ?_)
    have h1 := (profileRouteTells e.1).eq
    have h2 := ((profileRouteTells e.1).both (Tells.one L.skipped.name "no_budget".toList)).eq
    show [(e.1.fmt, _), (both e.1.fmt _, _)] = [(labelText e.1.says, _), (labelText (e.1.says ++ _), _)]
    rw [h2, h1]
    rfl
  rw [e, prefixed_eq']
  refine (reads_family _ _ _ (by rw [← prefixed_eq']; exact prefixed_ok pfx _ hp (by decide +kernel))
    (by decide +kernel) _ ?_).doc
  intro r hr
  simp only [List.flatMap_map, List.mem_flatMap, List.mem_cons, List.not_mem_nil, or_false] at hr
  obtain ⟨e, he, rfl | rfl⟩ := hr
  · exact hw e he
  · exact (hw e he).snoc _ _ (by decide +kernel) (by decide +kernel)

/-- The same of the layers. -/
theorem C97_stack_report (reg : List (Stack × StackMetrics)) (hw : ∀ e ∈ reg, Writable e.1.says) :
    readDoc (stackReport (reg.map fun e => (e.1.fmt, e.2))) = some (stackSamples (reg.map fun e => (e.1.says, e.2))) := by
  unfold stackReport
  by_cases hr : reg = []
  · subst hr; rfl
  rw [if_neg (by simpa using hr)]
  have hrows : ∀ f : StackMetrics → Value,
      ∀ r ∈ (reg.map fun e => (e.1.says, e.2)).map fun (l, m) => (l, f m), Writable r.1 := by
    intro f r hr
    simp only [List.map_map, List.mem_map] at hr
    obtain ⟨e, he, rfl⟩ := hr
    exact hw e he
  have hr3 : ∀ (w : Str) (f : StackMetrics → Value),
      ((reg.map fun e => (e.1.fmt, e.2)).map fun (k, m) => (both k (readyFmt w), f m))
        = ((reg.map fun e => (e.1.says, e.2)).map fun (l, m) => (l ++ [("ready".toList, w)], f m)).map
          fun r => (labelText r.1, r.2) := by
    intro w f
    simp only [List.map_map]
    refine List.map_congr_left fun e _ => ?_
    have := ((stackTells e.1).both (Tells.one L.ready.name w)).eq
    simp only [Function.comp]
    rw [show readyFmt w = pair L.ready.name w from rfl, this]
    rfl
  have hr3' : ∀ (w : Str) (_ : plain w = true) (f : StackMetrics → Value),
      ∀ r ∈ (reg.map fun e => (e.1.says, e.2)).map fun (l, m) => (l ++ [("ready".toList, w)], f m), Writable r.1 := by
    intro w hp f r hr
    simp only [List.map_map, List.mem_map] at hr
    obtain ⟨e, he, rfl⟩ := hr
    exact (hw e he).snoc _ _ (by decide +kernel) hp
  have hm := rows_map Stack.fmt _ stackTells reg
  rw [hm fun m => .counter m.create, hm fun m => .counter m.dropped, hm fun m => .counter m.pollMillis,
    hr3 _ fun m => .counter m.ready, hr3 _ fun m => .counter m.notReady, hr3 _ fun m => .counter m.errors, ← List.map_append, ← List.map_append]
  have r1 := reads_family "stack_create_total".toList "Total number of services created".toList .counter
    (by decide +kernel) (by decide +kernel) _ (hrows fun m => .counter m.create)
  have r2 := reads_family "stack_drop_total".toList "Total number of services dropped".toList .counter
    (by decide +kernel) (by decide +kernel) _ (hrows fun m => .counter m.dropped)
  have r3 := reads_family "stack_poll_total".toList "Total number of stack polls".toList .counter
    (by decide +kernel) (by decide +kernel)
    (((reg.map fun e => (e.1.says, e.2)).map fun (l, m) => (l ++ [("ready".toList, "true".toList)], Value.counter m.ready))
       ++ ((reg.map fun e => (e.1.says, e.2)).map fun (l, m) => (l ++ [("ready".toList, "false".toList)], Value.counter m.notReady))
       ++ ((reg.map fun e => (e.1.says, e.2)).map fun (l, m) => (l ++ [("ready".toList, "error".toList)], Value.counter m.errors)))
    (by
      intro r hr
      rcases List.mem_append.1 hr with h | h
      · rcases List.mem_append.1 h with h | h
        · exact hr3' "true".toList (by decide +kernel) (fun m => .counter m.ready) r h
        · exact hr3' "false".toList (by decide +kernel) (fun m => .counter m.notReady) r h
      · exact hr3' "error".toList (by decide +kernel) (fun m => .counter m.errors) r h)
  have r4 := reads_family "stack_poll_total_ms".toList
    "Total number of milliseconds this service has spent awaiting readiness".toList .counter
    (by decide +kernel) (by decide +kernel) _ (hrows fun m => .counter m.pollMillis)
  unfold stackSamples
  exact (((r1.append r2).append r3).append r4).doc

theorem counter_report {T : Type} (fmt : T → Str) (says : T → Labels) (hf : ∀ t, Tells (fmt t) (says t))
    (name help : Str) (hn : nameOk name = true) (hh : '\n' ∉ help) (reg : List (T × Nat))
    (hw : ∀ e ∈ reg, Writable (says e.1)) :
    Reads (counterReport name help (reg.map fun e => (fmt e.1, e.2))) (counts name says reg) := by
  unfold counterReport
  by_cases hr : reg = []
  · subst hr; exact Reads.nil
  rw [if_neg (by simpa using hr), rows_map fmt says hf reg Value.counter]
  have := (reads_family name help .counter hn hh
    ((reg.map fun e => (says e.1, e.2)).map fun (l, m) => (l, Value.counter m)) (by
      intro r hr
      simp only [List.map_map, List.mem_map] at hr
      obtain ⟨e, he, rfl⟩ := hr
      exact hw e he))
  refine (?_ : _ = counts name says reg) ▸ this
  clear this hr hw
  induction reg with
  | nil => rfl
  | cons e reg ih => simpa [rowsSamples, Value.samples, counts] using ih

/-- The same of the inbound authorizations: each counter has its own name. -/
theorem C97_http_authz_report (allow : List (AuthzKey RouteAuthz × Nat)) (deny : List (AuthzKey Route × Nat))
    (notFound : List (AuthzKey ServerLabel × Nat)) (limited : List (AuthzKey RateLimit × Nat))
    (h1 : ∀ e ∈ allow, Writable (e.1.says RouteAuthz.says)) (h2 : ∀ e ∈ deny, Writable (e.1.says Route.says))
    (h3 : ∀ e ∈ notFound, Writable (e.1.says ServerLabel.says)) (h4 : ∀ e ∈ limited, Writable (e.1.says RateLimit.says)) :
    readDoc (httpAuthzReport allow deny notFound limited)
      = some (counts "inbound_http_authz_allow_total".toList (AuthzKey.says RouteAuthz.says) allow
          ++ counts "inbound_http_authz_deny_total".toList (AuthzKey.says Route.says) deny
          ++ counts "inbound_http_route_not_found_total".toList (AuthzKey.says ServerLabel.says) notFound
          ++ counts "inbound_http_local_ratelimit_total".toList (AuthzKey.says RateLimit.says) limited) := by
  unfold httpAuthzReport
  exact ((((counter_report (AuthzKey.fmt RouteAuthz.fmt) _ (authzKeyTells _ _ routeAuthzTells) _ _ (by decide +kernel)
      (by decide +kernel) allow h1).append
    (counter_report (AuthzKey.fmt Route.fmt) _ (authzKeyTells _ _ routeTells) _ _ (by decide +kernel) (by decide +kernel) deny h2)).append
    (counter_report (AuthzKey.fmt ServerLabel.fmt) _ (authzKeyTells _ _ serverTells) _ _ (by decide +kernel) (by decide +kernel)
      notFound h3)).append
    (counter_report (AuthzKey.fmt RateLimit.fmt) _ (authzKeyTells _ _ rateLimitTells) _ _ (by decide +kernel) (by decide +kernel)
      limited h4)).doc

/-- The same of the authorizations of connections. -/
theorem C97_tcp_authz_report (allow : List (AuthzKey ServerAuthz × Nat)) (deny terminate : List (AuthzKey ServerLabel × Nat))
    (h1 : ∀ e ∈ allow, Writable (e.1.says ServerAuthz.says)) (h2 : ∀ e ∈ deny, Writable (e.1.says ServerLabel.says))
    (h3 : ∀ e ∈ terminate, Writable (e.1.says ServerLabel.says)) :
    readDoc (tcpAuthzReport allow deny terminate)
      = some (counts "inbound_tcp_authz_allow_total".toList (AuthzKey.says ServerAuthz.says) allow
          ++ counts "inbound_tcp_authz_deny_total".toList (AuthzKey.says ServerLabel.says) deny
          ++ counts "inbound_tcp_authz_terminate_total".toList (AuthzKey.says ServerLabel.says) terminate) := by
  unfold tcpAuthzReport
  exact (((counter_report (AuthzKey.fmt ServerAuthz.fmt) _ (authzKeyTells _ _ serverAuthzTells) _ _ (by decide +kernel)
      (by decide +kernel) allow h1).append
    (counter_report (AuthzKey.fmt ServerLabel.fmt) _ (authzKeyTells _ _ serverTells) _ _ (by decide +kernel) (by decide +kernel)
      deny h2)).append
    (counter_report (AuthzKey.fmt ServerLabel.fmt) _ (authzKeyTells _ _ serverTells) _ _ (by decide +kernel) (by decide +kernel)
      terminate h3)).doc

theorem inErrorTells (e : InError) : Tells e.fmt e.says := by cases e <;> exact Tells.one _ _

theorem outErrorTells (e : OutError) : Tells e.fmt e.says := by cases e <;> exact Tells.one _ _

/-- The same of errors. -/
theorem C97_error_reports :
    (∀ reg : List ((InError × (SockAddr × ServerLabel)) × Nat),
      (∀ e ∈ reg, Writable (e.1.1.says ++ (e.1.2.1.says ++ e.1.2.2.says))) →
      readDoc (inboundHttpErrors reg) = some (counts "inbound_http_errors_total".toList
        (fun k => k.1.says ++ (k.2.1.says ++ k.2.2.says)) reg))
    ∧ (∀ reg : List ((InError × SockAddr) × Nat), (∀ e ∈ reg, Writable (e.1.1.says ++ e.1.2.says)) →
      readDoc (inboundTcpErrors reg) = some (counts "inbound_tcp_errors_total".toList (fun k => k.1.says ++ k.2.says) reg))
    ∧ (∀ reg : List (OutError × Nat), (∀ e ∈ reg, Writable e.1.says) →
      readDoc (outboundHttpErrors reg) = some (counts "outbound_http_errors_total".toList OutError.says reg))
    ∧ (∀ reg : List ((SockAddr × OutError) × Nat), (∀ e ∈ reg, Writable (e.1.1.says ++ e.1.2.says)) →
      readDoc (outboundTcpErrors reg) = some (counts "outbound_tcp_errors_total".toList (fun k => k.1.says ++ k.2.says) reg)) := by
  refine ⟨fun reg hw => ?_, fun reg hw => ?_, fun reg hw => ?_, fun reg hw => ?_⟩
  · exact (counter_report (fun k : InError × (SockAddr × ServerLabel) => both k.1.fmt (both k.2.1.fmt k.2.2.fmt)) _
      (fun k => (inErrorTells _).both ((addrTells _).both (serverTells _))) _ _ (by decide +kernel) (by decide +kernel) reg hw).doc
  · exact (counter_report (fun k : InError × SockAddr => both k.1.fmt k.2.fmt) _
      (fun k => (inErrorTells _).both (addrTells _)) _ _ (by decide +kernel) (by decide +kernel) reg hw).doc
  · exact (counter_report OutError.fmt _ outErrorTells _ _ (by decide +kernel) (by decide +kernel) reg hw).doc
  · exact (counter_report (fun k : SockAddr × OutError => both k.1.fmt k.2.fmt) _
      (fun k => (addrTells _).both (outErrorTells _)) _ _ (by decide +kernel) (by decide +kernel) reg hw).doc

/-! ## Histograms -/

/-- Whether a value is under a bound, as the reader of `le` understands it. -/
def under (v : Nat) : Bound → Bool
  | .le c => decide (v ≤ c)
  | .inf => true

/-- A histogram of latencies never fails, and tells exactly, for each bound, how many values were not above it;
how many values there were; and their sum. -/
theorem C97_histogram (vs : List Nat) (hv : ∀ v ∈ vs, v ≤ 2 ^ 53) (hn : vs.length ≤ 2 ^ 53) (hs : vs.sum ≤ 2 ^ 53)
    (name : Str) (l : Labels) :
    ∃ h, observe vs = some h ∧
      h.samples name l
        = (latencyBounds.map fun b =>
            ⟨name ++ "_bucket".toList, l ++ [("le".toList, b.text)], vs.countP fun v => under v b⟩)
          ++ [⟨name ++ "_count".toList, l, vs.length⟩, ⟨name ++ "_sum".toList, l, vs.sum⟩] := by
  obtain ⟨h, ho, hc⟩ := counted vs (by omega)
  refine ⟨h, ho, ?_⟩
  have hshown : ∀ n, n ≤ 2 ^ 53 → shown n = n := by
    intro n h; unfold shown maxPrecise; omega
  have hlen : h.buckets.length = latencyBounds.length := by rw [← hc.bounds, List.length_map]
  unfold Hist.samples
  congr 1
  · refine List.ext_getElem (by simp [hlen]) ?_
    intro i h1 h2
    simp only [List.length_map, List.length_range] at h1 h2
    have hb : latencyBounds[i]? = some latencyBounds[i] := by simp [h2]
    have hbi : h.buckets[i]?.map Prod.fst = some latencyBounds[i] := by
      rw [← List.getElem?_map, hc.bounds]; exact hb
    have hcnt := hc.counts i _ hb
    have hle : vs.countP (fun v => (latencyBounds[i]).fits v) ≤ vs.length := List.countP_le_length
    have e1 : (h.buckets[i]?.map fun b => b.1.text) = some (latencyBounds[i]).text := by
      cases hx : h.buckets[i]? with
      | none => rw [hx] at hbi; simp at hbi
      | some x => rw [hx] at hbi; simp only [Option.map_some, Option.some.injEq] at hbi ⊢; rw [hbi]
    have e2 : vs.countP (fun v => (latencyBounds[i]).fits v) = vs.countP (fun v => under v latencyBounds[i]) := by
      refine List.countP_congr fun v hvm => ?_
      cases latencyBounds[i] with
      | le c => simp [Bound.fits, under, hshown v (hv v hvm)]
      | inf => simp [Bound.fits, under]
    simp only [List.getElem_map, List.getElem_range, e1, Option.getD_some]
    rw [show ((h.buckets.take (i + 1)).map Prod.snd).sum = upTo h.buckets (i + 1) from rfl, hcnt, ← e2,
      Nat.mod_eq_of_lt (by omega), hshown _ (by omega)]
  · rw [hc.total, hc.sum, Nat.mod_eq_of_lt (by omega), Nat.mod_eq_of_lt (by omega), hshown _ hn, hshown _ hs]

/-- A latency is counted in whole milliseconds, rounded down. -/
theorem C97_milliseconds (secs nanos : Nat) (hn : nanos < 1000000000) (hs : secs < 2 ^ 54) :
    msOf secs nanos = (secs * 1000000000 + nanos) / 1000000 := by
  unfold msOf; omega

/-- Numbers up to 2^53 are told as they are. -/
theorem C97_exact (n : Nat) (h : n ≤ 2 ^ 53) : shown n = n := by
  unfold shown maxPrecise; omega

/-! ## Different keys are different series -/

theorem decimal_inj {a b : Nat} (h : Text.decimal a = Text.decimal b) : a = b := by
  have := Text.digits_decimal a
  rw [h, Text.digits_decimal b] at this
  exact (Option.some.inj this).symm

/-- A bucket's bound is written as a number, or as `+Inf`. -/
theorem C97_bounds_are_numbers (b : Bound) : (∃ c, b = .le c ∧ Text.Numeral b.text c) ∨ (b = .inf ∧ b.text = ['+', 'I', 'n', 'f']) := by
  cases b with
  | le c => exact .inl ⟨c, rfl, Text.numeral_decimal c⟩
  | inf => exact .inr ⟨rfl, by decide +kernel⟩

theorem addr_of_text {a b : SockAddr} (ha : a.Proper) (hb : b.Proper) (hi : a.ip = b.ip)
    (hp : Text.decimal a.port = Text.decimal b.port) : a = b := by
  obtain ⟨ip, v6, port⟩ := a
  obtain ⟨ip', v6', port'⟩ := b
  simp only [SockAddr.Proper] at *
  have := decimal_inj hp
  subst hi this
  cases v6 <;> cases v6' <;> simp_all

theorem lk_dir (l : L) (d : Direction) :
    lookup l.name d.says = if l = .direction then some (match d with | .inbound => "inbound".toList | .outbound => "outbound".toList) else none := by
  rw [show d.says = [(L.direction.name, match d with | .inbound => "inbound".toList | .outbound => "outbound".toList)] from rfl,
    lookup_name]
  simp only [lookup, eq_comm]

theorem lk_auth (l : L) (o : Option Str) : lookup l.name (opt "authority".toList o) = if l = .authority then o else none := by
  cases o with
  | none => rw [show opt "authority".toList none = [] from rfl]; simp [lookup]
  | some v =>
    rw [show opt "authority".toList (some v) = [(L.authority.name, v)] from rfl, lookup_name]
    simp only [lookup, eq_comm]

theorem lk_addr (l : L) (a : SockAddr) (h : l ≠ .targetAddr) :
    lookup l.name a.says
      = if l = .targetIp then some a.ip else if l = .targetPort then some (Text.decimal a.port) else none := by
  rw [show a.says = [(L.targetAddr.name, _), (L.targetIp.name, a.ip), (L.targetPort.name, Text.decimal a.port)] from rfl,
    lookup_name, lookup_name, lookup_name, if_neg (Ne.symm h)]
  simp only [lookup, eq_comm]

/-- The labels of TLS. -/
def L.ofTls : L → Bool
  | .tls | .noTlsReason | .clientId | .sni | .serverId => true
  | _ => false

theorem lk_tls (l : L) (t : ServerTls) (h : l.ofTls = false) : lookup l.name t.says = none := by
  have : ∀ m : L, m.ofTls = true → ¬ m = l := fun m hm e => by rw [e, h] at hm; cases hm
  rcases t with (_ | _ | _ | _) | _ | _
  · rw [show ServerTls.says (.none .disabled) = [(L.tls.name, _)] from rfl, lookup_name, if_neg (this _ rfl)]; rfl
  · rw [show ServerTls.says (.none .loopback) = [(L.tls.name, _), (L.noTlsReason.name, _)] from rfl, lookup_name, lookup_name,
      if_neg (this _ rfl), if_neg (this _ rfl)]; rfl
  · rw [show ServerTls.says (.none .portSkipped) = [(L.tls.name, _), (L.noTlsReason.name, _)] from rfl, lookup_name, lookup_name,
      if_neg (this _ rfl), if_neg (this _ rfl)]; rfl
  · rw [show ServerTls.says (.none .noClientHello) = [(L.tls.name, _), (L.noTlsReason.name, _)] from rfl, lookup_name,
      lookup_name, if_neg (this _ rfl), if_neg (this _ rfl)]; rfl
  · rw [show ServerTls.says (.established _) = [(L.tls.name, _), (L.clientId.name, _)] from rfl, lookup_name, lookup_name,
      if_neg (this _ rfl), if_neg (this _ rfl)]; rfl
  · rw [show ServerTls.says (.passthru _) = [(L.tls.name, _), (L.sni.name, _)] from rfl, lookup_name, lookup_name,
      if_neg (this _ rfl), if_neg (this _ rfl)]; rfl

theorem lk_ctls (l : L) (t : ClientTls) (h : l.ofTls = false) : lookup l.name t.says = none := by
  have : ∀ m : L, m.ofTls = true → ¬ m = l := fun m hm e => by rw [e, h] at hm; cases hm
  rcases t with (_ | _ | _ | _) | _
  · rw [show ClientTls.says (.none .disabled) = [(L.tls.name, _)] from rfl, lookup_name, if_neg (this _ rfl)]; rfl
  · rw [show ClientTls.says (.none .loopback) = [(L.tls.name, _), (L.noTlsReason.name, _)] from rfl, lookup_name, lookup_name,
      if_neg (this _ rfl), if_neg (this _ rfl)]; rfl
  · rw [show ClientTls.says (.none .notProvided) = [(L.tls.name, _), (L.noTlsReason.name, _)] from rfl, lookup_name, lookup_name,
      if_neg (this _ rfl), if_neg (this _ rfl)]; rfl
  · rw [show ClientTls.says (.none .ingress) = [(L.tls.name, _), (L.noTlsReason.name, _)] from rfl, lookup_name,
      lookup_name, if_neg (this _ rfl), if_neg (this _ rfl)]; rfl
  · rw [show ClientTls.says (.some _) = [(L.tls.name, _), (L.serverId.name, _)] from rfl, lookup_name, lookup_name,
      if_neg (this _ rfl), if_neg (this _ rfl)]; rfl

/-- The values of the label `tls`. -/
inductive W | disabled | noIdentity | yes | opaq
  deriving DecidableEq

/-- Their texts. -/
def W.text : W → Str
  | .disabled => "disabled".toList
  | .noIdentity => "no_identity".toList
  | .yes => "true".toList
  | .opaq => "opaque".toList

theorem W.text_inj {a b : W} (h : a.text = b.text) : a = b := by
  have : ∀ a b : W, a.text = b.text → a = b := by intro a b; cases a <;> cases b <;> decide +kernel
  exact this a b h

/-- The value of a server's `tls`. -/
def ServerTls.w : ServerTls → W
  | .none .disabled => .disabled
  | .none _ => .noIdentity
  | .established _ => .yes
  | .passthru _ => .opaq

/-- The value of a client's `tls`. -/
def ClientTls.w : ClientTls → W
  | .none .disabled => .disabled
  | .none _ => .noIdentity
  | .some _ => .yes

/-- Why there was no TLS. -/
def NoServerTls.word : NoServerTls → Str
  | .disabled => []
  | .loopback => "loopback".toList
  | .portSkipped => "port_skipped".toList
  | .noClientHello => "no_tls_from_remote".toList

/-- Why there was no TLS. -/
def NoClientTls.word : NoClientTls → Str
  | .disabled => []
  | .loopback => "loopback".toList
  | .notProvided => "not_provided_by_service_discovery".toList
  | .ingress => "ingress_without_override".toList

theorem NoServerTls.word_inj {a b : NoServerTls} (h : a.word = b.word) : a = b := by
  have : ∀ a b : NoServerTls, a.word = b.word → a = b := by intro a b; cases a <;> cases b <;> decide +kernel
  exact this a b h

theorem NoClientTls.word_inj {a b : NoClientTls} (h : a.word = b.word) : a = b := by
  have : ∀ a b : NoClientTls, a.word = b.word → a = b := by intro a b; cases a <;> cases b <;> decide +kernel
  exact this a b h

theorem serverTls_of_lookups (t t' : ServerTls) (ht : t.Named) (ht' : t'.Named)
    (h : ∀ l : L, l.ofTls = true → lookup l.name t.says = lookup l.name t'.says) : t = t' := by
  have key : ∀ t : ServerTls, lookup L.tls.name t.says = some t.w.text := by
    intro t
    rcases t with (_ | _ | _ | _) | _ | _ <;>
      (show lookup L.tls.name ((L.tls.name, _) :: _) = _; rw [lookup_name, if_pos rfl]; rfl)
  have reason : ∀ n, n ≠ NoServerTls.disabled → lookup L.noTlsReason.name (ServerTls.says (.none n)) = some n.word := by
    intro n hn
    cases n
    · exact absurd rfl hn
    all_goals
      show lookup L.noTlsReason.name ((L.tls.name, _) :: (L.noTlsReason.name, _) :: []) = _
      rw [lookup_name, lookup_name, if_neg (by decide), if_pos rfl]; rfl
  have cid : ∀ id, lookup L.clientId.name (ServerTls.says (.established id)) = some (id.getD []) := by
    intro id
    show lookup L.clientId.name ((L.tls.name, _) :: (L.clientId.name, _) :: []) = _
    rw [lookup_name, lookup_name, if_neg (by decide), if_pos rfl]
  have sni : ∀ s, lookup L.sni.name (ServerTls.says (.passthru s)) = some s := by
    intro id
    show lookup L.sni.name ((L.tls.name, _) :: (L.sni.name, _) :: []) = _
    rw [lookup_name, lookup_name, if_neg (by decide), if_pos rfl]
  have h1 := h .tls rfl
  rw [key, key] at h1
  have h1 := W.text_inj (Option.some.inj h1)
  rcases t with n | id | s
  · rcases t' with n' | id' | s'
    · by_cases hn : n = .disabled
      · subst hn
        cases n' <;> first | rfl | cases h1
      · by_cases hn' : n' = .disabled
        · subst hn'
          cases n <;> first | rfl | cases h1
        · have h2 := h .noTlsReason rfl
          rw [reason n hn, reason n' hn'] at h2
          rw [NoServerTls.word_inj (Option.some.inj h2)]
    · cases n <;> cases h1
    · cases n <;> cases h1
  · rcases t' with n' | id' | s'
    · cases n' <;> cases h1
    · have h2 := h .clientId rfl
      rw [cid, cid] at h2
      have h2 := Option.some.inj h2
      cases id with
      | none => cases id' with
        | none => rfl
        | some i => exact absurd h2.symm ht'
      | some i => cases id' with
        | none => exact absurd h2 ht
        | some i' => exact congrArg _ (congrArg _ h2)
    · cases h1
  · rcases t' with n' | id' | s'
    · cases n' <;> cases h1
    · cases h1
    · have h2 := h .sni rfl
      rw [sni, sni] at h2
      rw [Option.some.inj h2]

theorem clientTls_of_lookups (t t' : ClientTls)
    (h : ∀ l : L, l.ofTls = true → lookup l.name t.says = lookup l.name t'.says) : t = t' := by
  have key : ∀ t : ClientTls, lookup L.tls.name t.says = some t.w.text := by
    intro t
    rcases t with (_ | _ | _ | _) | _ <;>
      (show lookup L.tls.name ((L.tls.name, _) :: _) = _; rw [lookup_name, if_pos rfl]; rfl)
  have reason : ∀ n, n ≠ NoClientTls.disabled → lookup L.noTlsReason.name (ClientTls.says (.none n)) = some n.word := by
    intro n hn
    cases n
    · exact absurd rfl hn
    all_goals
      show lookup L.noTlsReason.name ((L.tls.name, _) :: (L.noTlsReason.name, _) :: []) = _
      rw [lookup_name, lookup_name, if_neg (by decide), if_pos rfl]; rfl
  have sid : ∀ id, lookup L.serverId.name (ClientTls.says (.some id)) = some id := by
    intro id
    show lookup L.serverId.name ((L.tls.name, _) :: (L.serverId.name, _) :: []) = _
    rw [lookup_name, lookup_name, if_neg (by decide), if_pos rfl]
  have h1 := h .tls rfl
  rw [key, key] at h1
  have h1 := W.text_inj (Option.some.inj h1)
  rcases t with n | id
  · rcases t' with n' | id'
    · by_cases hn : n = .disabled
      · subst hn
        cases n' <;> first | rfl | cases h1
      · by_cases hn' : n' = .disabled
        · subst hn'
          cases n <;> first | rfl | cases h1
        · have h2 := h .noTlsReason rfl
          rw [reason n hn, reason n' hn'] at h2
          rw [NoClientTls.word_inj (Option.some.inj h2)]
    · cases n <;> cases h1
  · rcases t' with n' | id'
    · cases n' <;> cases h1
    · have h2 := h .serverId rfl
      rw [sid, sid] at h2
      rw [Option.some.inj h2]

/-- The labels of policies. -/
def L.ofPolicy : L → Bool
  | .srvGroup | .srvKind | .srvName | .srvPort | .routeGroup | .routeKind | .routeName | .authzGroup | .authzKind
  | .authzName => true
  | _ => false

theorem policy_list (r : RouteAuthz) : r.says =
    [(L.srvGroup.name, r.route.server.policy.group), (L.srvKind.name, r.route.server.policy.kind),
     (L.srvName.name, r.route.server.policy.name), (L.srvPort.name, Text.decimal r.route.server.port),
     (L.routeGroup.name, r.route.route.group), (L.routeKind.name, r.route.route.kind), (L.routeName.name, r.route.route.name),
     (L.authzGroup.name, r.authz.group), (L.authzKind.name, r.authz.kind), (L.authzName.name, r.authz.name)] := rfl

theorem lk_policy (l : L) (r : RouteAuthz) (h : l.ofPolicy = false) : lookup l.name r.says = none := by
  have : ∀ m : L, m.ofPolicy = true → ¬ m = l := fun m hm e => by rw [e, h] at hm; cases hm
  rw [policy_list]
  simp only [lookup_name]
  iterate 10 rw [if_neg (this _ rfl)]
  rfl

theorem policy_of_lookups (r r' : RouteAuthz)
    (h : ∀ l : L, l.ofPolicy = true → lookup l.name r.says = lookup l.name r'.says) : r.same r' := by
  simp only [policy_list] at h
  have hsg := h .srvGroup rfl
  have hsk := h .srvKind rfl
  have hsn := h .srvName rfl
  have hsp := h .srvPort rfl
  have hrg := h .routeGroup rfl
  have hrk := h .routeKind rfl
  have hrn := h .routeName rfl
  have hag := h .authzGroup rfl
  have hak := h .authzKind rfl
  have han := h .authzName rfl
  simp only [lookup_name, reduceCtorEq, if_true, if_false, Option.some.injEq] at hsg hsk hsn hsp hrg hrk hrn hag hak han
  exact ⟨⟨hsg, hsk, hsn⟩, decimal_inj hsp, ⟨hrg, hrk, hrn⟩, ⟨hag, hak, han⟩⟩

theorem inbound_lookup (l : L) (i : InboundEndpoint) (hl : l ≠ .targetAddr) : lookup l.name (Endpoint.inbound i).says
    = ((((if l = .direction then some "inbound".toList else none).or (if l = .authority then i.authority else none)).or
        (if l = .targetIp then some i.targetAddr.ip else if l = .targetPort then some (Text.decimal i.targetAddr.port) else none)).or
        (lookup l.name i.tls.says)).or (lookup l.name i.policy.says) := by
  show lookup l.name (Direction.says .inbound ++ (opt "authority".toList i.authority ++ i.targetAddr.says ++ i.tls.says ++ i.policy.says)) = _
  simp only [Assoc.lookup_append, lk_dir, lk_auth, lk_addr l _ hl, Option.or_assoc]

theorem outbound_lookup (l : L) (o : OutboundEndpoint) (hl : l ≠ .targetAddr) : lookup l.name (Endpoint.outbound o).says
    = (((if l = .direction then some "outbound".toList else none).or (if l = .authority then o.authority else none)).or
        (if l = .targetIp then some o.targetAddr.ip else if l = .targetPort then some (Text.decimal o.targetAddr.port) else none)).or
        (lookup l.name o.serverId.says) := by
  show lookup l.name (Direction.says .outbound ++ (opt "authority".toList o.authority ++ o.targetAddr.says ++ o.serverId.says ++ given "dst".toList o.labels)) = _
  simp only [Assoc.lookup_append, lk_dir, lk_auth, lk_addr l _ hl, Option.or_assoc, lookup_given_other l _ (Or.inl rfl),
    Option.or_none]

theorem inbound_ne_outbound : "inbound".toList ≠ "outbound".toList := by decide +kernel

theorem or_left_none {a b : Option Str} (h : a = none) : a.or b = b := by rw [h]; rfl

/-- Two endpoints whose series have the same labels are the same key, but for where the endpoint is. -/
theorem C97_distinct_endpoints (a b : Endpoint) (ha : a.Named) (hb : b.Named)
    (h : ∀ n, lookup n a.says = lookup n b.says) : a.same b := by
  have dir : ∀ e : Endpoint, lookup L.direction.name e.says
      = some (match e with | .inbound _ => "inbound".toList | .outbound _ => "outbound".toList) := by
    intro e
    cases e with
    | inbound i => rw [inbound_lookup _ _ (by decide), if_pos rfl]; rfl
    | outbound i => rw [outbound_lookup _ _ (by decide), if_pos rfl]; rfl
  have hd := h L.direction.name
  rw [dir, dir] at hd
  cases a with
  | inbound i =>
    cases b with
    | outbound o => exact absurd (Option.some.inj hd) inbound_ne_outbound
    | inbound j =>
      have k : ∀ l : L, l ≠ .targetAddr → _ := fun l hl =>
        (inbound_lookup l i hl).symm.trans ((h l.name).trans (inbound_lookup l j hl))
      have hau := k .authority (by decide)
      have hip := k .targetIp (by decide)
      have hpo := k .targetPort (by decide)
      rw [lk_tls _ _ rfl, lk_tls _ _ rfl, lk_policy _ _ rfl, lk_policy _ _ rfl] at hau hip hpo
      simp only [reduceCtorEq, if_true, if_false, Option.or_none, Option.none_or, Option.some.injEq] at hau hip hpo
      refine ⟨serverTls_of_lookups _ _ ha.1 hb.1 fun l hl => ?_, hau, addr_of_text ha.2 hb.2 hip hpo,
        policy_of_lookups _ _ fun l hl => ?_⟩
      · have := k l (by rintro rfl; cases hl)
        rw [lk_policy l _ (by cases l <;> first | rfl | exact absurd hl (by decide)), lk_policy l _ (by cases l <;> first | rfl | exact absurd hl (by decide))] at this
        cases l <;> first
          | exact absurd hl (by decide)
          | simpa only [reduceCtorEq, if_true, if_false, Option.or_none, Option.none_or] using this
      · have := k l (by rintro rfl; cases hl)
        rw [lk_tls l _ (by cases l <;> first | rfl | exact absurd hl (by decide)), lk_tls l _ (by cases l <;> first | rfl | exact absurd hl (by decide))] at this
        cases l <;> first
          | exact absurd hl (by decide)
          | simpa only [reduceCtorEq, if_true, if_false, Option.or_none, Option.none_or] using this
  | outbound o =>
    cases b with
    | inbound j => exact absurd (Option.some.inj hd).symm inbound_ne_outbound
    | outbound o' =>
      have k : ∀ l : L, l ≠ .targetAddr → _ := fun l hl =>
        (outbound_lookup l o hl).symm.trans ((h l.name).trans (outbound_lookup l o' hl))
      have hau := k .authority (by decide)
      have hip := k .targetIp (by decide)
      have hpo := k .targetPort (by decide)
      rw [lk_ctls _ _ rfl, lk_ctls _ _ rfl] at hau hip hpo
      simp only [reduceCtorEq, if_true, if_false, Option.or_none, Option.none_or, Option.some.injEq] at hau hip hpo
      refine ⟨clientTls_of_lookups _ _ fun l hl => ?_, hau, addr_of_text ha hb hip hpo, fun key => ?_⟩
      · have := k l (by rintro rfl; cases hl)
        cases l <;> first
          | exact absurd hl (by decide)
          | simpa only [reduceCtorEq, if_true, if_false, Option.or_none, Option.none_or] using this
      · have := h ("dst".toList ++ '_' :: key)
        have e : ∀ o : OutboundEndpoint, lookup ("dst".toList ++ '_' :: key) (Endpoint.outbound o).says = lookup key o.labels := by
          intro o
          show lookup _ (Direction.says .outbound ++ (opt "authority".toList o.authority ++ o.targetAddr.says ++ o.serverId.says
            ++ given "dst".toList o.labels)) = _
          simp only [Assoc.lookup_append, lookup_given]
          have n : ∀ l : L, ¬ l.name = "dst".toList ++ '_' :: key := fun l e => name_not_given l _ (Or.inl rfl) key e.symm
          have n1 : lookup ("dst".toList ++ '_' :: key) (Direction.says .outbound) = none := by
            show lookup _ [(L.direction.name, _)] = none
            rw [lookup, if_neg (n _)]; rfl
          have n2 : lookup ("dst".toList ++ '_' :: key) (opt "authority".toList o.authority) = none := by
            cases o.authority with
            | none => rfl
            | some v =>
              show lookup _ [(L.authority.name, _)] = none
              rw [lookup, if_neg (n _)]; rfl
          have n3 : lookup ("dst".toList ++ '_' :: key) o.targetAddr.says = none := by
            show lookup _ [(L.targetAddr.name, _), (L.targetIp.name, _), (L.targetPort.name, _)] = none
            rw [lookup, lookup, lookup, if_neg (n _), if_neg (n _), if_neg (n _)]; rfl
          have n4 : lookup ("dst".toList ++ '_' :: key) o.serverId.says = none := by
            rcases o.serverId with (_ | _ | _ | _) | _
            · show lookup _ [(L.tls.name, _)] = none
              rw [lookup, if_neg (n _)]; rfl
            · show lookup _ [(L.tls.name, _), (L.noTlsReason.name, _)] = none
              rw [lookup, lookup, if_neg (n _), if_neg (n _)]; rfl
            · show lookup _ [(L.tls.name, _), (L.noTlsReason.name, _)] = none
              rw [lookup, lookup, if_neg (n _), if_neg (n _)]; rfl
            · show lookup _ [(L.tls.name, _), (L.noTlsReason.name, _)] = none
              rw [lookup, lookup, if_neg (n _), if_neg (n _)]; rfl
            · show lookup _ [(L.tls.name, _), (L.serverId.name, _)] = none
              rw [lookup, lookup, if_neg (n _), if_neg (n _)]; rfl
          rw [n1, n2, n3, n4]; rfl
        rw [e, e] at this
        exact this

/-- Two kinds of response whose series have the same labels have the same status and the same class: success or
failure, the gRPC status, the error. -/
theorem C97_distinct_responses (s s' : Option Nat) (c c' : Cls) (hc : c ≠ .error []) (hc' : c' ≠ .error [])
    (h : ∀ n, lookup n (statusSays s ++ c.says) = lookup n (statusSays s' ++ c'.says)) :
    s = s' ∧ (match c, c' with
      | .http ok _, .http ok' _ => ok = ok'
      | .grpc ok g, .grpc ok' g' => ok = ok' ∧ g = g'
      | .error m, .error m' => m = m'
      | _, _ => False) := by
  have list : ∀ c : Cls, ∃ a g e, c.says = [(L.classification.name, a), (L.grpcStatus.name, g), (L.error.name, e)] ∧
      (match c with
      | .http ok _ => a = (if ok then "success".toList else "failure".toList) ∧ g = [] ∧ e = []
      | .grpc ok n => a = (if ok then "success".toList else "failure".toList) ∧ g = Text.decimal n ∧ e = []
      | .error m => g = [] ∧ e = m) := by
    intro c
    cases c with
    | http ok n => exact ⟨_, _, _, rfl, rfl, rfl, rfl⟩
    | grpc ok n => exact ⟨_, _, _, rfl, rfl, rfl, rfl⟩
    | error m => exact ⟨_, _, _, rfl, rfl, rfl⟩
  obtain ⟨a, g, e, hl, hv⟩ := list c
  obtain ⟨a', g', e', hl', hv'⟩ := list c'
  have st : ∀ (l : L) (s : Option Nat), lookup l.name (statusSays s) = if l = .statusCode then s.map Text.decimal else none := by
    intro l s
    cases s with
    | none => rw [show statusSays none = [] from rfl]; simp [lookup]
    | some n =>
      rw [show statusSays (some n) = [(L.statusCode.name, Text.decimal n)] from rfl, lookup_name]
      simp only [lookup, eq_comm, Option.map_some]
  have k : ∀ l : L, _ := fun l => h l.name
  simp only [hl, hl', Assoc.lookup_append, st, lookup_name] at k
  have k1 := k .statusCode
  have k2 := k .classification
  have k3 := k .grpcStatus
  have k4 := k .error
  simp only [reduceCtorEq, if_true, if_false, Option.none_or, Option.some.injEq, lookup, Option.or_none] at k1 k2 k3 k4
  refine ⟨?_, ?_⟩
  · cases s <;> cases s' <;> simp only [Option.map_some, Option.map_none, Option.some.injEq, reduceCtorEq] at k1
    · rfl
    · rw [decimal_inj k1]
  · have word : ∀ ok ok' : Bool, (if ok then "success".toList else "failure".toList) = (if ok' then "success".toList else "failure".toList)
        → ok = ok' := by intro a b; cases a <;> cases b <;> decide +kernel
    have nd := Text.decimal_ne_nil
    subst k2 k3 k4
    cases c with
    | http ok n =>
      cases c' with
      | http ok' n' => exact word _ _ (hv.1.symm.trans hv'.1)
      | grpc ok' n' => exact absurd (hv'.2.1.symm.trans hv.2.1) (nd _)
      | error m => exact hc' (by rw [← hv'.2, hv.2.2])
    | grpc ok n =>
      cases c' with
      | http ok' n' => exact absurd (hv.2.1.symm.trans hv'.2.1) (nd _)
      | grpc ok' n' => exact ⟨word _ _ (hv.1.symm.trans hv'.1), decimal_inj (hv.2.1.symm.trans hv'.2.1)⟩
      | error m => exact absurd (hv.2.1.symm.trans hv'.1) (nd _)
    | error m =>
      cases c' with
      | http ok' n' => exact hc (by rw [← hv.2, hv'.2.2])
      | grpc ok' n' => exact absurd (hv'.2.1.symm.trans hv.1) (nd _)
      | error m' => exact hv.2.symm.trans hv'.2

/-! ## Limits -/

/-- A control plane's label is written as it is: with a quote and a line break in it the report tells of series
there are none of; with a quote alone it cannot be read at all. -/
theorem C97_limit_unescaped :
    readDoc (fmtLabeled "a_total".toList
      (ProfileRoute.fmt ⟨.outbound, "svc:80".toList, [("x".toList, "1\"} 9\nforged_total{y=\"2".toList)]⟩) 7)
      = some [⟨"a_total".toList, [("direction".toList, "outbound".toList), ("dst".toList, "svc:80".toList),
                ("rt_x".toList, "1".toList)], 9⟩,
              ⟨"forged_total".toList, [("y".toList, "2".toList)], 7⟩]
    ∧ readDoc (fmtLabeled "a_total".toList
        (ProfileRoute.fmt ⟨.outbound, "svc:80".toList, [("x".toList, "1\"".toList)]⟩) 7) = none := by
  decide +kernel

/-- Where an endpoint is, is part of its key and not of its series: two keys can be written as one series, twice. -/
theorem C97_limit_zone (o : OutboundEndpoint) (z : Zone) (n m : Nat) (name : Str) :
    fmtLabeled name (Endpoint.outbound o).fmt n ++ fmtLabeled name (Endpoint.outbound { o with zone := z }).fmt m
      = fmtLabeled name (Endpoint.outbound o).fmt n ++ fmtLabeled name (Endpoint.outbound o).fmt m := rfl

/-- A number above 2^53 is told as if it had started again. -/
theorem C97_limit_wraps : shown (2 ^ 53 + 1) = 0 ∧ shown (2 ^ 53 + 8) = 7 := by decide

/-! ## Not vacuous -/

/-- An outbound endpoint. -/
def exOut : Endpoint := .outbound
  { serverId := .some "b.ns.serviceaccount.identity".toList, authority := some "b.ns.svc:80".toList,
    labels := [("namespace".toList, "ns".toList), ("pod".toList, "b-1".toList)], zone := .isLocal,
    targetAddr := ⟨"2001:db8::1".toList, true, 8080⟩ }

/-- An inbound endpoint. -/
def exIn : Endpoint := .inbound
  { tls := .established (some "a.ns.serviceaccount.identity".toList), authority := none,
    targetAddr := ⟨"10.0.0.1".toList, false, 80⟩,
    policy := ⟨⟨⟨.resource "policy.linkerd.io".toList "server".toList "s".toList, 80⟩, .default "default".toList⟩,
      .resource "policy.linkerd.io".toList "serverauthorization".toList "all".toList⟩ }

instance : DecidablePred Writable := fun l => by unfold Writable; infer_instance

example : Writable exOut.says ∧ Writable exIn.says ∧ exOut.Named ∧ exIn.Named := by
  refine ⟨by decide +kernel, by decide +kernel, ?_, ?_⟩
  · show (true = true ↔ _); decide +kernel
  · exact ⟨show _ ≠ [] by decide +kernel, show (false = true ↔ _) by decide +kernel⟩

example : (fmtLabeled "request_total".toList exOut.fmt 3)
    = ("request_total{direction=\"outbound\",authority=\"b.ns.svc:80\",target_addr=\"[2001:db8::1]:8080\","
        ++ "target_ip=\"2001:db8::1\",target_port=\"8080\",tls=\"true\",server_id=\"b.ns.serviceaccount.identity\","
        ++ "dst_namespace=\"ns\",dst_pod=\"b-1\"} 3\n").toList := by decide +kernel

/-- A registry with two targets. -/
def exReg : List (Endpoint × HttpMetrics) :=
  [(exOut, ⟨3, [(some 200, ⟨Hist.new latencyBounds, [(.http true 200, 2)]⟩), (none, ⟨Hist.new latencyBounds, [(.error "x".toList, 1)]⟩)]⟩),
   (exIn, ⟨0, []⟩)]

example : (∀ e ∈ exReg, Writable e.1.says)
    ∧ (∀ e ∈ exReg, ∀ s ∈ e.2.byStatus, ∀ c ∈ s.2.byClass, ∀ p ∈ c.1.says, plain p.2 = true)
    ∧ (httpSamples [] false (exReg.map fun e => (e.1.says, e.2))).map (fun s => (s.name, s.value))
      = [("request_total".toList, 3), ("request_total".toList, 0), ("response_total".toList, 2), ("response_total".toList, 1)] := by
  decide +kernel

example : (observe [0, 3, 3, 70000]).map (fun h => (h.samples "l".toList []).map Sample.value)
    = some ((latencyBounds.map fun b => [0, 3, 3, 70000].countP fun v => under v b) ++ [4, 70006]) := by decide +kernel

example : (latencyBounds.map fun b => [0, 3, 3, 70000].countP fun v => under v b)
    = [1, 1, 3, 3, 3, 3, 3, 3, 3, 3, 3, 3, 3, 3, 3, 3, 3, 3, 3, 3, 3, 3, 3, 3, 3, 4] := by decide +kernel

example : msOf 1 999999 = 1000 ∧ msOf 1 1999999 = 1001 := by decide

end Verif.Metrics
