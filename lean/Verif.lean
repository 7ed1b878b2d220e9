import Verif.Retry.PolicyProps
import Verif.PeekTrailers.Props
import Verif.Backoff.Props
import Verif.Retry.Body
import Verif.Retry.Props
import Verif.Common.Text
import Verif.Replay.Props
import Verif.Replay.Sizes
import Verif.IdleCache.Props
import Verif.Gate.Props
import Verif.Ready.FailFastProps
import Verif.Ready.SwitchReadyProps
import Verif.Ready.LoadShed
import Verif.P2c.Props
import Verif.P2c.Counts
import Verif.P2c.Served
import Verif.Distribute.Props
import Verif.Distribute.Cache
import Verif.Breaker.WindowProps
import Verif.Breaker.Props
import Verif.RetryAfter.Props
import Verif.Load.Props
import Verif.Gauge.Endpoints
import Verif.Queue.Props
import Verif.Queue.Served
import Verif.Reconnect.Props
import Verif.Recover.Props
import Verif.HttpRoute.Props
import Verif.HttpRoute.FilterProps
import Verif.TlsRoute.Props
import Verif.ServerPolicy.AuthzProps
import Verif.ServerPolicy.RateLimitProps
import Verif.ServerPolicy.Policy
import Verif.InboundPolicy.TcpProps
import Verif.InboundPolicy.HttpProps
import Verif.InboundPolicy.StoreProps
import Verif.InboundPolicy.PolicyProps
import Verif.StreamWatch.Model
import Verif.StreamWatch.Props
import Verif.Dns.Model
import Verif.Dns.Props
import Verif.Addr.Model
import Verif.Addr.Props
import Verif.Io.Prefixed
import Verif.Io.PrefixedProps
import Verif.HttpDetect.Model
import Verif.HttpDetect.Props
import Verif.Workers.Model
import Verif.Workers.Props
import Verif.Io.Read
import Verif.Tls.ClientHello
import Verif.Tls.ClientHelloProps
import Verif.Tls.Detect
import Verif.Tls.DetectProps
import Verif.TransportHeader.Model
import Verif.TransportHeader.Props
import Verif.Duplex.Model
import Verif.Duplex.Props
import Verif.Duplex.Flush
import Verif.InboundDetect.Model
import Verif.InboundDetect.Props
import Verif.H1.Model
import Verif.H1.Props
import Verif.Classify.Model
import Verif.Classify.Props
import Verif.StreamTimeouts.Model
import Verif.StreamTimeouts.Props
import Verif.ErrorRespond.Model
import Verif.ErrorRespond.Props
import Verif.ProfileRetry.Model
import Verif.ProfileRetry.Props
import Verif.ProfileRetry.Tps
import Verif.ProfileRetry.TpsProps
import Verif.ApiResolve.Model
import Verif.ApiResolve.Props
import Verif.Profiles.Model
import Verif.Profiles.Props
import Verif.Profiles.RouterProps
import Verif.Common.ReadAll
import Verif.HttpRoute.Api
import Verif.HttpRoute.ApiProps
import Verif.ClientPolicy.Model
import Verif.ClientPolicy.Spec
import Verif.ClientPolicy.Lemmas
import Verif.ClientPolicy.Router
import Verif.ClientPolicy.Props
import Verif.ClientPolicy.RouterProps
import Verif.ClientPolicy.FilterProps
import Verif.Outbound.Model
import Verif.Outbound.Props
import Verif.Outbound.DiscoverProps
import Verif.Outbound.ProfileProps
import Verif.Follow.Model
import Verif.Follow.Props
import Verif.Outbound.FollowProps
import Verif.Endpoint.Model
import Verif.Endpoint.Props
import Verif.Endpoint.Http
import Verif.Endpoint.HttpProps
import Verif.Gateway.Model
import Verif.Gateway.Props
import Verif.Prom.Model
import Verif.Prom.Lemmas
import Verif.Prom.Props
import Verif.Prom.Durations
import Verif.Identity.Model
import Verif.Identity.Props
import Verif.Identity.Certify
import Verif.Identity.CertifyProps
import Verif.Tap.Match
import Verif.Tap.MatchProps
import Verif.Tap.Model
import Verif.Tap.Spec
import Verif.Tap.Sessions
import Verif.Tap.Track
import Verif.Tap.Inv
import Verif.Tap.Props
import Verif.Trace.Codec
import Verif.Trace.Model
import Verif.Trace.Lemmas
import Verif.Trace.Props
import Verif.Trace.Export
import Verif.Trace.ExportProps
import Verif.InboundHttp.Model
import Verif.InboundHttp.Props
import Verif.DnsResolve.Model
import Verif.DnsResolve.Props
import Verif.DnsResolve.Timed
import Verif.Admin.Model
import Verif.Admin.Props
import Verif.Lifecycle.Model
import Verif.Lifecycle.Props
import Verif.Metrics.Text
import Verif.Metrics.Reader
import Verif.Metrics.Lemmas
import Verif.Metrics.Series
import Verif.Metrics.Histogram
import Verif.Metrics.TextProps
import Verif.Metrics.Store
import Verif.Metrics.StoreLemmas
import Verif.Metrics.Requests
import Verif.Metrics.RequestsSpec
import Verif.Metrics.RequestsLemmas
import Verif.Metrics.RequestsInv
import Verif.Metrics.RequestsRun
import Verif.Metrics.RequestsExch
import Verif.Metrics.RequestsProps
import Verif.Metrics.Transport
import Verif.Metrics.TransportSpec
import Verif.Metrics.TransportLemmas
import Verif.Metrics.TransportRun
import Verif.Metrics.TransportProps
import Verif.Metrics.Track
import Verif.Metrics.TrackSpec
import Verif.Metrics.TrackInv
import Verif.Metrics.TrackProps
import Verif.Metrics.Errors
import Verif.Metrics.ErrorsProps
import Verif.Env.Values
import Verif.Env.ValuesProps
import Verif.Env.Config
import Verif.Env.ConfigSpec
import Verif.Env.ConfigSound
import Verif.Env.ConfigWhole
import Verif.Env.ConfigNames
import Verif.Env.ConfigProps
import Verif.Env.AttrProps
import Verif.TonicStream.Model
import Verif.TonicStream.Props
import Verif.Discover.Model
import Verif.Discover.Props
import Verif.OutboundTcp.Model
import Verif.OutboundTcp.Spec
import Verif.OutboundTcp.Props
import Verif.OutboundTcp.CountProps
import Verif.OutboundTcp.PolicyProps
import Verif.OutboundHttp.Model
import Verif.OutboundHttp.Spec
import Verif.OutboundHttp.Props
import Verif.OutboundHttp.PolicyProps
import Verif.Circuit.Model
import Verif.Circuit.Spec
import Verif.Circuit.Lemmas
import Verif.Circuit.Reports
import Verif.Circuit.Props
import Verif.Circuit.Limits
import Verif.Balancer.Model
import Verif.Balancer.Spec
import Verif.Balancer.Lemmas
import Verif.Balancer.Props
import Verif.Balancer.Served
import Verif.AccessLog.Model
import Verif.AccessLog.Spec
import Verif.AccessLog.Props
import Verif.LogStream.Model
import Verif.LogStream.Spec
import Verif.LogStream.Lemmas
import Verif.LogStream.Props
import Verif.Destination.Model
import Verif.Destination.Spec
import Verif.Destination.Lemmas
import Verif.Destination.Props
import Verif.Destination.Served
import Verif.InFlight.Model
import Verif.InFlight.Props
import Verif.Retain.Model
import Verif.Retain.Props
import Verif.Arrival.Model
import Verif.Arrival.Props
import Verif.Arrival.Served
import Verif.Accept.Model
import Verif.Accept.Props
import Verif.Passage.Model
import Verif.Passage.Invariant
import Verif.Passage.Props
import Verif.Passage.Live
import Verif.Passage.Reached
import Verif.Lookup.Model
import Verif.Lookup.Watch
import Verif.Lookup.Props
import Verif.RouteMetrics.Model
import Verif.RouteMetrics.Layers
import Verif.RouteMetrics.Props
import Verif.Mesh.Model
import Verif.Mesh.Props
import Verif.RetryMetrics.Model
import Verif.RetryMetrics.Props
import Verif.RetryMetrics.Frames
import Verif.Teardown.Model
import Verif.Teardown.Props
import Verif.Teardown.Own
import Verif.Ready.FailFastTask
import Verif.ServerPolicy.Gcra
import Verif.Proven.Model
import Verif.Proven.Props
import Verif.Proven.Tap
import Verif.Proven.Client
import Verif.ProfileRoute.Model
import Verif.ProfileRoute.Props
import Verif.ProfileRoute.InTime
import Verif.ProfileRoute.Shared
import Verif.ProfileRoute.Apart
import Verif.Zone.Model
import Verif.Zone.Props
import Verif.ConnCount.Model
import Verif.ConnCount.Props
