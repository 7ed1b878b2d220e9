import Verif.Env.ConfigWhole
/-!
# Which variables are read
-/
namespace Verif.Env
open Verif.Dns (Str)

/-- The variables that are read. -/
def readNames : List String :=
  ["LINKERD2_PROXY_CONTROL_STREAM_INITIAL_TIMEOUT",
   "LINKERD2_PROXY_CONTROL_STREAM_IDLE_TIMEOUT",
   "LINKERD2_PROXY_CONTROL_STREAM_LIFETIME",
   "LINKERD2_PROXY_TAP_SVC_NAME",
   "LINKERD2_PROXY_CONTROL_LISTEN_ADDR",
   "LINKERD2_PROXY_OUTBOUND_LISTEN_ADDRS",
   "LINKERD2_PROXY_OUTBOUND_LISTEN_ADDR",
   "LINKERD2_PROXY_INGRESS_MODE",
   "LINKERD2_PROXY_OUTBOUND_DISABLE_INFORMATIONAL_HEADERS",
   "LINKERD2_PROXY_OUTBOUND_ACCEPT_KEEPALIVE",
   "LINKERD2_PROXY_OUTBOUND_ACCEPT_USER_TIMEOUT",
   "LINKERD2_PROXY_OUTBOUND_TCP_LISTEN_BACKLOG",
   "LINKERD2_PROXY_OUTBOUND_DISCOVERY_IDLE_TIMEOUT",
   "LINKERD2_PROXY_OUTBOUND_MAX_IDLE_CONNS_PER_ENDPOINT",
   "LINKERD2_PROXY_OUTBOUND_CONNECT_KEEPALIVE",
   "LINKERD2_PROXY_OUTBOUND_CONNECT_USER_TIMEOUT",
   "LINKERD2_PROXY_OUTBOUND_HTTP1_CONNECTION_POOL_IDLE_TIMEOUT",
   "LINKERD2_PROXY_OUTBOUND_CONNECT_TIMEOUT",
   "LINKERD2_PROXY_OUTBOUND_DETECT_TIMEOUT",
   "LINKERD2_PROXY_OUTBOUND_TCP_QUEUE_CAPACITY",
   "LINKERD2_PROXY_OUTBOUND_TCP_FAILFAST_TIMEOUT",
   "LINKERD2_PROXY_OUTBOUND_HTTP_QUEUE_CAPACITY",
   "LINKERD2_PROXY_OUTBOUND_HTTP_FAILFAST_TIMEOUT",
   "LINKERD2_PROXY_OUTBOUND_MAX_IN_FLIGHT",
   "LINKERD2_PROXY_POLICY_CLUSTER_NETWORKS",
   "LINKERD2_PROXY_INBOUND_DEFAULT_POLICY",
   "LINKERD2_PROXY_INBOUND_PORTS",
   "LINKERD2_PROXY_INBOUND_PORTS_DISABLE_PROTOCOL_DETECTION",
   "LINKERD2_PROXY_INBOUND_LISTEN_ADDR",
   "LINKERD2_PROXY_INBOUND_ACCEPT_KEEPALIVE",
   "LINKERD2_PROXY_INBOUND_ACCEPT_USER_TIMEOUT",
   "LINKERD2_PROXY_INBOUND_TCP_LISTEN_BACKLOG",
   "LINKERD2_PROXY_INBOUND_DISCOVERY_IDLE_TIMEOUT",
   "LINKERD2_PROXY_MAX_IDLE_CONNS_PER_ENDPOINT",
   "LINKERD2_PROXY_INBOUND_HTTP1_CONNECTION_POOL_IDLE_TIMEOUT",
   "LINKERD2_PROXY_INBOUND_CONNECT_KEEPALIVE",
   "LINKERD2_PROXY_INBOUND_CONNECT_USER_TIMEOUT",
   "LINKERD2_PROXY_INBOUND_CONNECT_TIMEOUT",
   "LINKERD2_PROXY_INBOUND_DETECT_TIMEOUT",
   "LINKERD2_PROXY_INBOUND_METRICS_AUTHORITY_LABELS",
   "LINKERD2_PROXY_INBOUND_MAX_IN_FLIGHT",
   "LINKERD2_PROXY_DESTINATION_PROFILE_INITIAL_TIMEOUT",
   "LINKERD2_PROXY_INBOUND_HTTP_QUEUE_CAPACITY",
   "LINKERD2_PROXY_INBOUND_HTTP_FAILFAST_TIMEOUT",
   "LINKERD2_PROXY_IDENTITY_LOCAL_NAME",
   "LINKERD2_PROXY_IDENTITY_SERVER_ID",
   "LINKERD2_PROXY_IDENTITY_SERVER_NAME",
   "LINKERD2_PROXY_IDENTITY_DISABLED",
   "LINKERD2_PROXY_IDENTITY_TRUST_ANCHORS",
   "LINKERD2_PROXY_IDENTITY_DIR",
   "LINKERD2_PROXY_IDENTITY_TOKEN_FILE",
   "LINKERD2_PROXY_IDENTITY_MIN_REFRESH",
   "LINKERD2_PROXY_IDENTITY_MAX_REFRESH",
   "LINKERD2_PROXY_IDENTITY_SPIRE_WORKLOAD_API_ADDRESS",
   "LINKERD2_PROXY_IDENTITY_SPIRE_SOCKET",
   "LINKERD2_PROXY_TRACE_SERVICE_NAME",
   "LINKERD2_PROXY_TRACE_ATTRIBUTES_PATH",
   "LINKERD2_PROXY_TRACE_EXTRA_ATTRIBUTES",
   "OTEL_RESOURCE_ATTRIBUTES",
   "HOSTNAME",
   "LINKERD2_PROXY_HTTP2_INITIAL_STREAM_WINDOW_SIZE",
   "LINKERD2_PROXY_HTTP2_INITIAL_CONNECTION_WINDOW_SIZE",
   "LINKERD2_PROXY_DESTINATION_PROFILE_SUFFIXES",
   "LINKERD2_PROXY_DESTINATION_PROFILE_NETWORKS",
   "LINKERD2_PROXY_INBOUND_IPS",
   "LINKERD2_PROXY_INBOUND_GATEWAY_SUFFIXES",
   "LINKERD2_PROXY_ADMIN_LISTEN_ADDR",
   "LINKERD2_PROXY_DESTINATION_CONTEXT",
   "LINKERD2_PROXY_POLICY_WORKLOAD",
   "LINKERD2_PROXY_OUTBOUND_METRICS_HOSTNAME_LABELS",
   "LINKERD2_PROXY_METRICS_RETAIN_IDLE",
   "LINKERD2_PROXY_SHUTDOWN_ENDPOINT_ENABLED",
   "LINKERD2_PROXY_DNS_MIN_TTL",
   "LINKERD2_PROXY_DNS_MAX_TTL",
   "LINKERD2_PROXY_SHUTDOWN_GRACE_PERIOD",
   "LINKERD2_PROXY_OUTBOUND_SERVER_HTTP2_ADAPTIVE_FLOW_CONTROL",
   "LINKERD2_PROXY_OUTBOUND_SERVER_HTTP2_INITIAL_STREAM_WINDOW_SIZE",
   "LINKERD2_PROXY_OUTBOUND_SERVER_HTTP2_INITIAL_CONNECTION_WINDOW_SIZE",
   "LINKERD2_PROXY_OUTBOUND_SERVER_HTTP2_MAX_CONCURRENT_STREAMS",
   "LINKERD2_PROXY_OUTBOUND_SERVER_HTTP2_MAX_FRAME_SIZE",
   "LINKERD2_PROXY_OUTBOUND_SERVER_HTTP2_MAX_HEADER_LIST_SIZE",
   "LINKERD2_PROXY_OUTBOUND_SERVER_HTTP2_MAX_PENDING_ACCEPT_RESET_STREAMS",
   "LINKERD2_PROXY_OUTBOUND_SERVER_HTTP2_MAX_SEND_BUF_SIZE",
   "LINKERD2_PROXY_OUTBOUND_SERVER_HTTP2_KEEP_ALIVE_TIMEOUT",
   "LINKERD2_PROXY_OUTBOUND_SERVER_HTTP2_KEEP_ALIVE_INTERVAL",
   "LINKERD2_PROXY_INBOUND_SERVER_HTTP2_ADAPTIVE_FLOW_CONTROL",
   "LINKERD2_PROXY_INBOUND_SERVER_HTTP2_INITIAL_STREAM_WINDOW_SIZE",
   "LINKERD2_PROXY_INBOUND_SERVER_HTTP2_INITIAL_CONNECTION_WINDOW_SIZE",
   "LINKERD2_PROXY_INBOUND_SERVER_HTTP2_MAX_CONCURRENT_STREAMS",
   "LINKERD2_PROXY_INBOUND_SERVER_HTTP2_MAX_FRAME_SIZE",
   "LINKERD2_PROXY_INBOUND_SERVER_HTTP2_MAX_HEADER_LIST_SIZE",
   "LINKERD2_PROXY_INBOUND_SERVER_HTTP2_MAX_PENDING_ACCEPT_RESET_STREAMS",
   "LINKERD2_PROXY_INBOUND_SERVER_HTTP2_MAX_SEND_BUF_SIZE",
   "LINKERD2_PROXY_INBOUND_SERVER_HTTP2_KEEP_ALIVE_TIMEOUT",
   "LINKERD2_PROXY_INBOUND_SERVER_HTTP2_KEEP_ALIVE_INTERVAL",
   "LINKERD2_PROXY_DESTINATION_SVC_ADDR",
   "LINKERD2_PROXY_DESTINATION_SVC_NAME",
   "LINKERD2_PROXY_POLICY_SVC_ADDR",
   "LINKERD2_PROXY_POLICY_SVC_NAME",
   "LINKERD2_PROXY_TRACE_COLLECTOR_SVC_ADDR",
   "LINKERD2_PROXY_TRACE_COLLECTOR_SVC_NAME",
   "LINKERD2_PROXY_IDENTITY_SVC_ADDR",
   "LINKERD2_PROXY_IDENTITY_SVC_NAME",
   "LINKERD2_PROXY_LINKERD2_PROXY_IDENTITY_SPIRE_EXP_BACKOFF_MIN",
   "LINKERD2_PROXY_LINKERD2_PROXY_IDENTITY_SPIRE_EXP_BACKOFF_MAX",
   "LINKERD2_PROXY_LINKERD2_PROXY_IDENTITY_SPIRE_EXP_BACKOFF_JITTER",
   "LINKERD2_PROXY_OUTBOUND_CONNECT_EXP_BACKOFF_MIN",
   "LINKERD2_PROXY_OUTBOUND_CONNECT_EXP_BACKOFF_MAX",
   "LINKERD2_PROXY_OUTBOUND_CONNECT_EXP_BACKOFF_JITTER",
   "LINKERD2_PROXY_INBOUND_CONNECT_EXP_BACKOFF_MIN",
   "LINKERD2_PROXY_INBOUND_CONNECT_EXP_BACKOFF_MAX",
   "LINKERD2_PROXY_INBOUND_CONNECT_EXP_BACKOFF_JITTER"]

/-- Nothing but these variables matters. -/
theorem config_local (x : Ext) (env env' : Strings) (h : ∀ n ∈ readNames, env n = env' n) :
    parseConfig x env = parseConfig x env' := by
  have p : ∀ n ∈ readNames, ∀ {α : Type} (f : Str → Except ParseError α), parse env n f = parse env' n f := by
    intro n hn α f
    unfold parse
    rw [h n hn]
  have hl : env "LINKERD2_PROXY_IDENTITY_LOCAL_NAME" = env' "LINKERD2_PROXY_IDENTITY_LOCAL_NAME" := h _ (by simp [readNames])
  have tls : parseTlsParams x env = parseTlsParams x env' := by
    unfold parseTlsParams
    rw [hl, h "LINKERD2_PROXY_IDENTITY_DISABLED" (by simp [readNames]),
      p "LINKERD2_PROXY_IDENTITY_TRUST_ANCHORS" (by simp [readNames])]
    congr 1
    funext v
    cases v with
    | some s =>
      simp only [Option.isSome_some, if_true, p "LINKERD2_PROXY_IDENTITY_LOCAL_NAME" (by simp [readNames])]
    | none =>
      simp only [Option.isSome_none, Bool.false_eq_true, if_false,
        p "LINKERD2_PROXY_IDENTITY_SERVER_ID" (by simp [readNames]),
        p "LINKERD2_PROXY_IDENTITY_SERVER_NAME" (by simp [readNames])]
  simp only [parseConfig, mkReceiveLimits, parseFlowControl, parseKeepAlive, parseServer, parseBackoff, parseControlAddr,
    parseTap, parseOutboundAddr, parseOutbound, parsePolicy, parseInbound, tls, parseLinkerdIdentity,
    parseIdentityConfig, traceAttributes, quiet, parseTracing, parseDeprecated,
    h "LINKERD2_PROXY_TRACE_SERVICE_NAME" (by simp [readNames]), h "LINKERD2_PROXY_TRACE_ATTRIBUTES_PATH" (by simp [readNames]),
    h "LINKERD2_PROXY_TRACE_EXTRA_ATTRIBUTES" (by simp [readNames]), h "OTEL_RESOURCE_ATTRIBUTES" (by simp [readNames]),
    h "HOSTNAME" (by simp [readNames]), h "LINKERD2_PROXY_DESTINATION_CONTEXT" (by simp [readNames]),
    h "LINKERD2_PROXY_POLICY_WORKLOAD" (by simp [readNames]),
    p "LINKERD2_PROXY_CONTROL_STREAM_INITIAL_TIMEOUT" (by simp [readNames]),
    p "LINKERD2_PROXY_CONTROL_STREAM_IDLE_TIMEOUT" (by simp [readNames]),
    p "LINKERD2_PROXY_CONTROL_STREAM_LIFETIME" (by simp [readNames]),
    p "LINKERD2_PROXY_TAP_SVC_NAME" (by simp [readNames]),
    p "LINKERD2_PROXY_CONTROL_LISTEN_ADDR" (by simp [readNames]),
    p "LINKERD2_PROXY_OUTBOUND_LISTEN_ADDRS" (by simp [readNames]),
    p "LINKERD2_PROXY_OUTBOUND_LISTEN_ADDR" (by simp [readNames]),
    p "LINKERD2_PROXY_INGRESS_MODE" (by simp [readNames]),
    p "LINKERD2_PROXY_OUTBOUND_DISABLE_INFORMATIONAL_HEADERS" (by simp [readNames]),
    p "LINKERD2_PROXY_OUTBOUND_ACCEPT_KEEPALIVE" (by simp [readNames]),
    p "LINKERD2_PROXY_OUTBOUND_ACCEPT_USER_TIMEOUT" (by simp [readNames]),
    p "LINKERD2_PROXY_OUTBOUND_TCP_LISTEN_BACKLOG" (by simp [readNames]),
    p "LINKERD2_PROXY_OUTBOUND_DISCOVERY_IDLE_TIMEOUT" (by simp [readNames]),
    p "LINKERD2_PROXY_OUTBOUND_MAX_IDLE_CONNS_PER_ENDPOINT" (by simp [readNames]),
    p "LINKERD2_PROXY_OUTBOUND_CONNECT_KEEPALIVE" (by simp [readNames]),
    p "LINKERD2_PROXY_OUTBOUND_CONNECT_USER_TIMEOUT" (by simp [readNames]),
    p "LINKERD2_PROXY_OUTBOUND_HTTP1_CONNECTION_POOL_IDLE_TIMEOUT" (by simp [readNames]),
    p "LINKERD2_PROXY_OUTBOUND_CONNECT_TIMEOUT" (by simp [readNames]),
    p "LINKERD2_PROXY_OUTBOUND_DETECT_TIMEOUT" (by simp [readNames]),
    p "LINKERD2_PROXY_OUTBOUND_TCP_QUEUE_CAPACITY" (by simp [readNames]),
    p "LINKERD2_PROXY_OUTBOUND_TCP_FAILFAST_TIMEOUT" (by simp [readNames]),
    p "LINKERD2_PROXY_OUTBOUND_HTTP_QUEUE_CAPACITY" (by simp [readNames]),
    p "LINKERD2_PROXY_OUTBOUND_HTTP_FAILFAST_TIMEOUT" (by simp [readNames]),
    p "LINKERD2_PROXY_OUTBOUND_MAX_IN_FLIGHT" (by simp [readNames]),
    p "LINKERD2_PROXY_POLICY_CLUSTER_NETWORKS" (by simp [readNames]),
    p "LINKERD2_PROXY_INBOUND_DEFAULT_POLICY" (by simp [readNames]),
    p "LINKERD2_PROXY_INBOUND_PORTS" (by simp [readNames]),
    p "LINKERD2_PROXY_INBOUND_PORTS_DISABLE_PROTOCOL_DETECTION" (by simp [readNames]),
    p "LINKERD2_PROXY_INBOUND_LISTEN_ADDR" (by simp [readNames]),
    p "LINKERD2_PROXY_INBOUND_ACCEPT_KEEPALIVE" (by simp [readNames]),
    p "LINKERD2_PROXY_INBOUND_ACCEPT_USER_TIMEOUT" (by simp [readNames]),
    p "LINKERD2_PROXY_INBOUND_TCP_LISTEN_BACKLOG" (by simp [readNames]),
    p "LINKERD2_PROXY_INBOUND_DISCOVERY_IDLE_TIMEOUT" (by simp [readNames]),
    p "LINKERD2_PROXY_MAX_IDLE_CONNS_PER_ENDPOINT" (by simp [readNames]),
    p "LINKERD2_PROXY_INBOUND_HTTP1_CONNECTION_POOL_IDLE_TIMEOUT" (by simp [readNames]),
    p "LINKERD2_PROXY_INBOUND_CONNECT_KEEPALIVE" (by simp [readNames]),
    p "LINKERD2_PROXY_INBOUND_CONNECT_USER_TIMEOUT" (by simp [readNames]),
    p "LINKERD2_PROXY_INBOUND_CONNECT_TIMEOUT" (by simp [readNames]),
    p "LINKERD2_PROXY_INBOUND_DETECT_TIMEOUT" (by simp [readNames]),
    p "LINKERD2_PROXY_INBOUND_METRICS_AUTHORITY_LABELS" (by simp [readNames]),
    p "LINKERD2_PROXY_INBOUND_MAX_IN_FLIGHT" (by simp [readNames]),
    p "LINKERD2_PROXY_DESTINATION_PROFILE_INITIAL_TIMEOUT" (by simp [readNames]),
    p "LINKERD2_PROXY_INBOUND_HTTP_QUEUE_CAPACITY" (by simp [readNames]),
    p "LINKERD2_PROXY_INBOUND_HTTP_FAILFAST_TIMEOUT" (by simp [readNames]),
    p "LINKERD2_PROXY_IDENTITY_LOCAL_NAME" (by simp [readNames]),
    p "LINKERD2_PROXY_IDENTITY_SERVER_ID" (by simp [readNames]),
    p "LINKERD2_PROXY_IDENTITY_SERVER_NAME" (by simp [readNames]),
    p "LINKERD2_PROXY_IDENTITY_DISABLED" (by simp [readNames]),
    p "LINKERD2_PROXY_IDENTITY_TRUST_ANCHORS" (by simp [readNames]),
    p "LINKERD2_PROXY_IDENTITY_DIR" (by simp [readNames]),
    p "LINKERD2_PROXY_IDENTITY_TOKEN_FILE" (by simp [readNames]),
    p "LINKERD2_PROXY_IDENTITY_MIN_REFRESH" (by simp [readNames]),
    p "LINKERD2_PROXY_IDENTITY_MAX_REFRESH" (by simp [readNames]),
    p "LINKERD2_PROXY_IDENTITY_SPIRE_WORKLOAD_API_ADDRESS" (by simp [readNames]),
    p "LINKERD2_PROXY_IDENTITY_SPIRE_SOCKET" (by simp [readNames]),
    p "LINKERD2_PROXY_TRACE_SERVICE_NAME" (by simp [readNames]),
    p "LINKERD2_PROXY_TRACE_ATTRIBUTES_PATH" (by simp [readNames]),
    p "LINKERD2_PROXY_TRACE_EXTRA_ATTRIBUTES" (by simp [readNames]),
    p "OTEL_RESOURCE_ATTRIBUTES" (by simp [readNames]),
    p "HOSTNAME" (by simp [readNames]),
    p "LINKERD2_PROXY_HTTP2_INITIAL_STREAM_WINDOW_SIZE" (by simp [readNames]),
    p "LINKERD2_PROXY_HTTP2_INITIAL_CONNECTION_WINDOW_SIZE" (by simp [readNames]),
    p "LINKERD2_PROXY_DESTINATION_PROFILE_SUFFIXES" (by simp [readNames]),
    p "LINKERD2_PROXY_DESTINATION_PROFILE_NETWORKS" (by simp [readNames]),
    p "LINKERD2_PROXY_INBOUND_IPS" (by simp [readNames]),
    p "LINKERD2_PROXY_INBOUND_GATEWAY_SUFFIXES" (by simp [readNames]),
    p "LINKERD2_PROXY_ADMIN_LISTEN_ADDR" (by simp [readNames]),
    p "LINKERD2_PROXY_DESTINATION_CONTEXT" (by simp [readNames]),
    p "LINKERD2_PROXY_POLICY_WORKLOAD" (by simp [readNames]),
    p "LINKERD2_PROXY_OUTBOUND_METRICS_HOSTNAME_LABELS" (by simp [readNames]),
    p "LINKERD2_PROXY_METRICS_RETAIN_IDLE" (by simp [readNames]),
    p "LINKERD2_PROXY_SHUTDOWN_ENDPOINT_ENABLED" (by simp [readNames]),
    p "LINKERD2_PROXY_DNS_MIN_TTL" (by simp [readNames]),
    p "LINKERD2_PROXY_DNS_MAX_TTL" (by simp [readNames]),
    p "LINKERD2_PROXY_SHUTDOWN_GRACE_PERIOD" (by simp [readNames]),
    p ("LINKERD2_PROXY_OUTBOUND_SERVER_HTTP2" ++ "_ADAPTIVE_FLOW_CONTROL") (by simp [readNames]),
    p ("LINKERD2_PROXY_OUTBOUND_SERVER_HTTP2" ++ "_INITIAL_STREAM_WINDOW_SIZE") (by simp [readNames]),
    p ("LINKERD2_PROXY_OUTBOUND_SERVER_HTTP2" ++ "_INITIAL_CONNECTION_WINDOW_SIZE") (by simp [readNames]),
    p ("LINKERD2_PROXY_OUTBOUND_SERVER_HTTP2" ++ "_MAX_CONCURRENT_STREAMS") (by simp [readNames]),
    p ("LINKERD2_PROXY_OUTBOUND_SERVER_HTTP2" ++ "_MAX_FRAME_SIZE") (by simp [readNames]),
    p ("LINKERD2_PROXY_OUTBOUND_SERVER_HTTP2" ++ "_MAX_HEADER_LIST_SIZE") (by simp [readNames]),
    p ("LINKERD2_PROXY_OUTBOUND_SERVER_HTTP2" ++ "_MAX_PENDING_ACCEPT_RESET_STREAMS") (by simp [readNames]),
    p ("LINKERD2_PROXY_OUTBOUND_SERVER_HTTP2" ++ "_MAX_SEND_BUF_SIZE") (by simp [readNames]),
    p ("LINKERD2_PROXY_OUTBOUND_SERVER_HTTP2" ++ "_KEEP_ALIVE" ++ "_TIMEOUT") (by simp [readNames]),
    p ("LINKERD2_PROXY_OUTBOUND_SERVER_HTTP2" ++ "_KEEP_ALIVE" ++ "_INTERVAL") (by simp [readNames]),
    p ("LINKERD2_PROXY_INBOUND_SERVER_HTTP2" ++ "_ADAPTIVE_FLOW_CONTROL") (by simp [readNames]),
    p ("LINKERD2_PROXY_INBOUND_SERVER_HTTP2" ++ "_INITIAL_STREAM_WINDOW_SIZE") (by simp [readNames]),
    p ("LINKERD2_PROXY_INBOUND_SERVER_HTTP2" ++ "_INITIAL_CONNECTION_WINDOW_SIZE") (by simp [readNames]),
    p ("LINKERD2_PROXY_INBOUND_SERVER_HTTP2" ++ "_MAX_CONCURRENT_STREAMS") (by simp [readNames]),
    p ("LINKERD2_PROXY_INBOUND_SERVER_HTTP2" ++ "_MAX_FRAME_SIZE") (by simp [readNames]),
    p ("LINKERD2_PROXY_INBOUND_SERVER_HTTP2" ++ "_MAX_HEADER_LIST_SIZE") (by simp [readNames]),
    p ("LINKERD2_PROXY_INBOUND_SERVER_HTTP2" ++ "_MAX_PENDING_ACCEPT_RESET_STREAMS") (by simp [readNames]),
    p ("LINKERD2_PROXY_INBOUND_SERVER_HTTP2" ++ "_MAX_SEND_BUF_SIZE") (by simp [readNames]),
    p ("LINKERD2_PROXY_INBOUND_SERVER_HTTP2" ++ "_KEEP_ALIVE" ++ "_TIMEOUT") (by simp [readNames]),
    p ("LINKERD2_PROXY_INBOUND_SERVER_HTTP2" ++ "_KEEP_ALIVE" ++ "_INTERVAL") (by simp [readNames]),
    p ("LINKERD2_PROXY_DESTINATION_SVC" ++ "_ADDR") (by simp [readNames]),
    p ("LINKERD2_PROXY_DESTINATION_SVC" ++ "_NAME") (by simp [readNames]),
    p ("LINKERD2_PROXY_POLICY_SVC" ++ "_ADDR") (by simp [readNames]),
    p ("LINKERD2_PROXY_POLICY_SVC" ++ "_NAME") (by simp [readNames]),
    p ("LINKERD2_PROXY_TRACE_COLLECTOR_SVC" ++ "_ADDR") (by simp [readNames]),
    p ("LINKERD2_PROXY_TRACE_COLLECTOR_SVC" ++ "_NAME") (by simp [readNames]),
    p ("LINKERD2_PROXY_IDENTITY_SVC" ++ "_ADDR") (by simp [readNames]),
    p ("LINKERD2_PROXY_IDENTITY_SVC" ++ "_NAME") (by simp [readNames]),
    p ("LINKERD2_PROXY_" ++ "LINKERD2_PROXY_IDENTITY_SPIRE" ++ "_EXP_BACKOFF_MIN") (by simp [readNames]),
    p ("LINKERD2_PROXY_" ++ "LINKERD2_PROXY_IDENTITY_SPIRE" ++ "_EXP_BACKOFF_MAX") (by simp [readNames]),
    p ("LINKERD2_PROXY_" ++ "LINKERD2_PROXY_IDENTITY_SPIRE" ++ "_EXP_BACKOFF_JITTER") (by simp [readNames]),
    p ("LINKERD2_PROXY_" ++ "OUTBOUND_CONNECT" ++ "_EXP_BACKOFF_MIN") (by simp [readNames]),
    p ("LINKERD2_PROXY_" ++ "OUTBOUND_CONNECT" ++ "_EXP_BACKOFF_MAX") (by simp [readNames]),
    p ("LINKERD2_PROXY_" ++ "OUTBOUND_CONNECT" ++ "_EXP_BACKOFF_JITTER") (by simp [readNames]),
    p ("LINKERD2_PROXY_" ++ "INBOUND_CONNECT" ++ "_EXP_BACKOFF_MIN") (by simp [readNames]),
    p ("LINKERD2_PROXY_" ++ "INBOUND_CONNECT" ++ "_EXP_BACKOFF_MAX") (by simp [readNames]),
    p ("LINKERD2_PROXY_" ++ "INBOUND_CONNECT" ++ "_EXP_BACKOFF_JITTER") (by simp [readNames])]

end Verif.Env
