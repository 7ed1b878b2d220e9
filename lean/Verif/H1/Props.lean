import Verif.Common.List
import Verif.H1.Model

/-!
# C44, C45, C64, C65: HTTP/1 messages through the proxy
-/

namespace Verif.H1

/-- Header maps that say the same: every name has the same values, in the same order. -/
def Same (h g : HeaderMap) : Prop := ∀ n, h.getAll n = g.getAll n

/-- A header map that has lost exactly the names of a set. -/
def Without (h g : HeaderMap) (gone : String → Prop) : Prop :=
  ∀ n, (gone n → g.getAll n = []) ∧ (¬ gone n → g.getAll n = h.getAll n)

/-- HTTP/1.0 and HTTP/1.1. -/
def Version.isHttp1 (v : Version) : Prop := v = .http10 ∨ v = .http11

/-! ## C44 -/

theorem downgrade_h2 (r : Req) (v : Str) (hv : r.version = .h2) (hg : r.headers.get origProto = some v) :
    downgrade r = ({ r with
          headers := r.headers.remove origProto
          version :=
            if "HTTP/1.1".toList.isPrefixOf v then .http11
            else if "HTTP/1.0".toList.isPrefixOf v then .http10
            else .h2
          wasAbsolute := r.wasAbsolute || wasAbsoluteForm v
          wasUpgrade := true }, true) := by
  unfold downgrade
  rw [if_pos hv, hg]

/-- An HTTP/1 request without an HTTP/1.1 upgrade goes over HTTP/2, and at the other proxy it is what it was: method,
URI, version, form, and headers except `transfer-encoding` (and the proxies' own header, which it cannot bring along).
It is marked as upgraded. -/
theorem C44_request_round_trip (r : Req) (hv : r.version.isHttp1) (hu : r.http11Upgrade = false) :
    ∃ w, upgrade r = .h2 w r.version ∧ w.version = .h2 ∧
      ∃ d, downgrade (wire w) = (d, true) ∧ d.version = r.version ∧ d.method = r.method ∧ d.uri = r.uri ∧
        d.wasAbsolute = r.wasAbsolute ∧ d.wasUpgrade = true ∧
          Without r.headers d.headers (fun n => n = "transfer-encoding" ∨ n = "l5d-orig-proto") := by
  have key : ∀ v : Str, Without r.headers
      ((((r.headers.insert origProto v).remove "transfer-encoding")).remove origProto)
      (fun n => n = "transfer-encoding" ∨ n = "l5d-orig-proto") := by
    intro v n
    rw [HeaderMap.getAll_remove, HeaderMap.getAll_remove, HeaderMap.getAll_insert]
    by_cases h1 : n = "transfer-encoding" <;> by_cases h2 : n = "l5d-orig-proto" <;> simp [h1, h2, origProto]
  have hget : ∀ v : Str, ((r.headers.insert origProto v).remove "transfer-encoding").get origProto = some v := by
    intro v
    rw [HeaderMap.get_remove, HeaderMap.get_insert]
    simp [origProto]
  obtain ⟨m, ver, u, hs, ab, up, h11⟩ := r
  simp only at hu
  subst hu
  rcases hv with hv | hv <;> simp only at hv <;> subst hv <;> cases ab <;>
    exact ⟨_, rfl, rfl, _, downgrade_h2 _ _ rfl (hget _), by simp only; decide +kernel, rfl, rfl,
      by simp only [wire]; decide +kernel, rfl, key _⟩

/-- The response comes back with its version and status, and with its headers except `transfer-encoding` and the
proxies' own header. -/
theorem C44_response_round_trip (orig : Version) (r : Rsp) (hv : r.version.isHttp1) :
    (downgradeResponse true r).version = .h2 ∧
      (upgradeResponse orig (downgradeResponse true r)).version = r.version ∧
        (upgradeResponse orig (downgradeResponse true r)).status = r.status ∧
          Without r.headers (upgradeResponse orig (downgradeResponse true r)).headers
            (fun n => n = "transfer-encoding" ∨ n = "l5d-orig-proto") := by
  have key : ∀ v : Str, Without r.headers
      ((((r.headers.insert origProto v).remove "transfer-encoding")).remove origProto)
      (fun n => n = "transfer-encoding" ∨ n = "l5d-orig-proto") := by
    intro v n
    rw [HeaderMap.getAll_remove, HeaderMap.getAll_remove, HeaderMap.getAll_insert]
    by_cases h1 : n = "transfer-encoding" <;> by_cases h2 : n = "l5d-orig-proto" <;> simp [h1, h2, origProto]
  have hget : ∀ v : Str, ((r.headers.insert origProto v).remove "transfer-encoding").get origProto = some v := by
    intro v
    rw [HeaderMap.get_remove, HeaderMap.get_insert]
    simp [origProto]
  obtain ⟨ver, st, hs⟩ := r
  rcases hv with hv | hv <;> simp only at hv <;> subst hv <;>
    exact ⟨rfl, by simp only [downgradeResponse, upgradeResponse, if_true, hget]; simp [versionOf], rfl, key _⟩

/-- Whatever the other proxy answers, the response to an upgraded request is an HTTP/1 response without the proxies' own
header: its version is the one the header names, else the request's. All else is as received. -/
theorem C44_response_is_http1 (orig : Version) (r : Rsp) (ho : orig.isHttp1) :
    (upgradeResponse orig r).version.isHttp1 ∧ (upgradeResponse orig r).status = r.status ∧
      Without r.headers (upgradeResponse orig r).headers (fun n => n = "l5d-orig-proto") ∧
        (r.headers.get "l5d-orig-proto" = none → (upgradeResponse orig r).version = orig) := by
  refine ⟨?_, rfl, ?_, ?_⟩
  · simp only [upgradeResponse]
    unfold versionOf
    split
    · exact ho
    · split
      · exact .inr rfl
      · split
        · exact .inl rfl
        · exact ho
  · intro n
    simp only [upgradeResponse, HeaderMap.getAll_remove, origProto]
    by_cases h : n = "l5d-orig-proto" <;> simp [h]
  · intro h
    simp only [upgradeResponse, origProto, h]
    rfl

/-- Nothing happens to requests that were not upgraded, nor to their responses: those over HTTP/1, and those over HTTP/2
without the proxies' header. -/
theorem C44_not_upgraded (r : Req) (h : r.version ≠ .h2 ∨ r.headers.get "l5d-orig-proto" = none) :
    downgrade r = (r, false) ∧ ∀ p, downgradeResponse (downgrade r).2 p = p := by
  have hd : downgrade r = (r, false) := by
    unfold downgrade
    by_cases hv : r.version = .h2
    · rw [if_pos hv]
      rcases h with h | h
      · exact absurd hv h
      · rw [show origProto = "l5d-orig-proto" from rfl, h]
    · rw [if_neg hv]
  exact ⟨hd, fun p => by rw [hd]; rfl⟩

/-- A request that asks for an HTTP/1.1 upgrade is not converted. -/
theorem C44_http11_upgrade_stays (r : Req) (h : r.http11Upgrade = true) : upgrade r = .http1 r := by
  unfold upgrade; rw [if_pos h]

/-- What a received header does, whoever wrote it: only the beginning of the version and the place of the form count. -/
theorem C44_received_header (r : Req) (v : Str) (hv : r.version = .h2) (hg : r.headers.get "l5d-orig-proto" = some v) :
    (downgrade r).2 = true ∧ (downgrade r).1.wasUpgrade = true ∧
      ((downgrade r).1.version = .http11 ↔ "HTTP/1.1".toList <+: v) ∧
        ((downgrade r).1.version = .http10 ↔ "HTTP/1.0".toList <+: v) ∧
          ((downgrade r).1.wasAbsolute = true ↔ r.wasAbsolute = true ∨
            ∃ a b, a.length = 10 ∧ v = a ++ "absolute-form".toList ++ b) ∧
              Without r.headers (downgrade r).1.headers (fun n => n = "l5d-orig-proto") := by
  have hd := downgrade_h2 r v hv hg
  have hex : ("HTTP/1.1".toList <+: v) → ¬ ("HTTP/1.0".toList <+: v) := by
    rintro ⟨a, rfl⟩ ⟨b, hb⟩
    simp at hb
  rw [hd]
  refine ⟨rfl, rfl, ?_, ?_, ?_, ?_⟩
  · dsimp only
    by_cases h1 : "HTTP/1.1".toList <+: v
    · rw [if_pos (List.isPrefixOf_iff_prefix.2 h1)]; exact ⟨fun _ => h1, fun _ => rfl⟩
    · rw [if_neg (fun h => h1 (List.isPrefixOf_iff_prefix.1 h))]
      refine ⟨fun h => ?_, fun h => absurd h h1⟩
      split at h <;> simp at h
  · dsimp only
    by_cases h1 : "HTTP/1.1".toList <+: v
    · rw [if_pos (List.isPrefixOf_iff_prefix.2 h1)]
      exact ⟨fun h => by simp at h, fun h => absurd h (hex h1)⟩
    · rw [if_neg (fun h => h1 (List.isPrefixOf_iff_prefix.1 h))]
      by_cases h0 : "HTTP/1.0".toList <+: v
      · rw [if_pos (List.isPrefixOf_iff_prefix.2 h0)]; exact ⟨fun _ => h0, fun _ => rfl⟩
      · rw [if_neg (fun h => h0 (List.isPrefixOf_iff_prefix.1 h))]
        exact ⟨fun h => by simp at h, fun h => absurd h h0⟩
  · dsimp only
    rw [Bool.or_eq_true]
    refine or_congr Iff.rfl ?_
    unfold wasAbsoluteForm
    rw [Bool.and_eq_true, decide_eq_true_eq, beq_iff_eq]
    constructor
    · rintro ⟨hl, ht⟩
      refine ⟨v.take 10, (v.drop 10).drop 13, by simp; omega, ?_⟩
      rw [← ht, List.append_assoc, List.take_append_drop, List.take_append_drop]
    · rintro ⟨a, b, ha, rfl⟩
      have hd : ((a ++ "absolute-form".toList ++ b).drop 10) = "absolute-form".toList ++ b := by
        rw [List.append_assoc, ← ha, List.drop_left]
      refine ⟨?_, ?_⟩
      · simp only [List.length_append, ha]
        have : "absolute-form".toList.length = 13 := by decide
        omega
      · rw [hd]
        have : (13 : Nat) = "absolute-form".toList.length := by decide
        rw [this, List.take_left]
  · intro n
    simp only [HeaderMap.getAll_remove, origProto]
    by_cases h : n = "l5d-orig-proto" <;> simp [h]

/-- The client panics only on a request that is not HTTP/1. -/
theorem C44_upgrade_panics_iff (r : Req) : upgrade r = .panic ↔ r.http11Upgrade = false ∧ ¬ r.version.isHttp1 := by
  unfold upgrade Version.isHttp1
  cases hu : r.http11Upgrade with
  | true => simp
  | false => cases hv : r.version <;> cases ha : r.wasAbsolute <;> simp [protoHeader]

/-- An error is reported as a downgraded HTTP/2 error exactly if it or one of its sources is an HTTP/2 error with a
reason; the reason is that of the first. -/
theorem C44_h2_errors_are_wrapped (es : List Cause) (reason : Nat) :
    downgradeH2Error es = some reason ↔
      ∃ pre post, es = pre ++ .h2 (some reason) :: post ∧ ∀ e ∈ pre, ∀ n, e ≠ .h2 (some n) := by
  induction es with
  | nil => simp [downgradeH2Error]
  | cons e es ih =>
    have cons : downgradeH2Error (e :: es) = match e.reason with
      | some r => some r
      | none => downgradeH2Error es := rfl
    rw [cons]
    rcases e with ⟨_ | n⟩ | _
    · refine Iff.trans (show _ ↔ _ from Iff.rfl) (ih.trans ⟨?_, ?_⟩)
      · rintro ⟨pre, post, rfl, h⟩
        exact ⟨.h2 none :: pre, post, rfl, by simp; exact h⟩
      · rintro ⟨pre, post, h, hp⟩
        cases pre with
        | nil => simp at h
        | cons x pre =>
          simp at h
          exact ⟨pre, post, h.2, fun e he => hp e (List.mem_cons_of_mem _ he)⟩
    · simp only [Cause.reason, Option.some.injEq]
      constructor
      · rintro rfl
        exact ⟨[], es, rfl, by simp⟩
      · rintro ⟨pre, post, h, hp⟩
        cases pre with
        | nil => simp at h; exact h.1
        | cons x pre =>
          simp at h
          exact absurd h.1.symm (hp x (List.mem_cons_self ..) n)
    · refine Iff.trans (show _ ↔ _ from Iff.rfl) (ih.trans ⟨?_, ?_⟩)
      · rintro ⟨pre, post, rfl, h⟩
        exact ⟨.other :: pre, post, rfl, by simp; exact h⟩
      · rintro ⟨pre, post, h, hp⟩
        cases pre with
        | nil => simp at h
        | cons x pre =>
          simp at h
          exact ⟨pre, post, h.2, fun e he => hp e (List.mem_cons_of_mem _ he)⟩

def hdr (s : String) : Str := s.toList

def sampleReq : Req :=
  ⟨hdr "GET", .http10, ⟨some (hdr "http"), some (hdr "web"), some (hdr "/a")⟩,
    [("host", hdr "web"), ("transfer-encoding", hdr "chunked"), ("x", hdr "1")], true, false, false⟩

example : sampleReq.version.isHttp1 := .inl rfl
example : (match upgrade sampleReq with
    | .h2 w _ => some (downgrade (wire w))
    | _ => none) = some ({ sampleReq with headers := [("host", hdr "web"), ("x", hdr "1")], wasUpgrade := true }, true) := by
  decide +kernel
example : downgradeH2Error [.other, .h2 none, .h2 (some 8), .h2 (some 1)] = some 8 := by decide +kernel

/-! ## C45 -/

/-- The URIs that exist: with a scheme come an authority and a path; an authority and a path come with a scheme. -/
def Uri.Valid (u : Uri) : Prop :=
  (u.scheme.isSome → u.authority.isSome ∧ u.pathAndQuery.isSome) ∧
    (u.authority.isSome → u.pathAndQuery.isSome → u.scheme.isSome)

instance (u : Uri) : Decidable u.Valid := by unfold Uri.Valid; infer_instance

theorem fromParts_valid (u : Uri) : Uri.fromParts u = if u.Valid then some u else none := by
  obtain ⟨s, a, p⟩ := u
  cases s <;> cases a <;> cases p <;> simp [Uri.fromParts, Uri.Valid]

theorem setAuthority_valid (u : Uri) (a : Str) (h : u.Valid) :
    setAuthority u a = some { u with
      authority := some a
      scheme := if u.pathAndQuery.isSome then some "http".toList else u.scheme } := by
  obtain ⟨s, au, p⟩ := u
  cases s <;> cases au <;> cases p <;> simp_all [setAuthority, Uri.fromParts, Uri.Valid]

/-- Requests that are left alone: HTTP/2 requests, requests that came in absolute form, and requests with an
authority. -/
theorem C45_unchanged (parse : Str → Option Str) (default : Option Str) (r : Req)
    (h : ¬ r.version.isHttp1 ∨ r.wasAbsolute = true ∨ r.uri.authority ≠ none) : normalize parse default r = .call r := by
  unfold normalize
  rw [if_neg]
  rintro ⟨h1, h2, h3⟩
  rcases h with h | h | h
  · exact h h1
  · simp [h] at h2
  · exact h h3

/-- All other requests get the authority of their `Host` header, if it is one, else the default, and fail if there is
neither. Nothing else of the request changes, but that a URI with a path gets the scheme `http`. -/
theorem C45_authority (parse : Str → Option Str) (default : Option Str) (r : Req) (hv : r.version.isHttp1)
    (ha : r.wasAbsolute = false) (hu : r.uri.authority = none) (hw : r.uri.Valid) :
    (∀ host a, r.headers.get "host" = some host → toStr host = some host → parse host = some a →
      normalize parse default r = .call { r with uri :=
        ⟨if r.uri.pathAndQuery.isSome then some "http".toList else none, some a, r.uri.pathAndQuery⟩ }) ∧
    ((∀ host, r.headers.get "host" = some host → toStr host = some host → parse host = none) →
      (∀ a, default = some a → normalize parse default r = .call { r with uri :=
        ⟨if r.uri.pathAndQuery.isSome then some "http".toList else none, some a, r.uri.pathAndQuery⟩ }) ∧
      (default = none → normalize parse default r = .noAuthority)) := by
  have hs : r.uri.scheme = none := by
    obtain ⟨m, v, ⟨s, a, p⟩, hs, ab, up, h11⟩ := r
    cases s <;> simp_all [Uri.Valid]
  have hn : ∀ o, (authorityFromHeader parse r.headers "host").or default = o →
      normalize parse default r = match o with
      | none => .noAuthority
      | some a => .call { r with uri :=
        ⟨if r.uri.pathAndQuery.isSome then some "http".toList else none, some a, r.uri.pathAndQuery⟩ } := by
    intro o ho
    unfold normalize
    rw [if_pos ⟨hv, ha, hu⟩, ho]
    cases o with
    | none => rfl
    | some a =>
      dsimp only
      rw [setAuthority_valid _ _ hw, hs]
  have htext : ∀ v s, toStr v = some s → s = v := by
    intro v s h
    unfold toStr at h
    split at h <;> simp at h
    exact h.symm
  refine ⟨?_, ?_⟩
  · intro host a h1 h2 h3
    rw [hn (some a) (by simp [authorityFromHeader, h1, h2, h3])]
  · intro h
    have hno : authorityFromHeader parse r.headers "host" = none := by
      unfold authorityFromHeader
      cases hg : r.headers.get "host" with
      | none => rfl
      | some v =>
        dsimp only
        cases ht : toStr v with
        | none => rfl
        | some s =>
          have := htext v s ht
          subst this
          exact h s hg ht
    rw [hno, Option.none_or] at hn
    exact ⟨fun a ha => by rw [hn (some a) ha], fun h0 => by rw [hn none h0]⟩

/-- Where absolute forms are marked before requests are normalized, every HTTP/1 request that goes on has an authority,
and one that came in absolute form goes on as it came, but for the mark. -/
theorem C45_every_request_has_an_authority (parse : Str → Option Str) (default : Option Str) (r : Req)
    (hv : r.version.isHttp1) (ha : r.wasAbsolute = false) (hw : r.uri.Valid) :
    normalize parse default (markAbsolute r) ≠ .panic ∧
      (∀ q, normalize parse default (markAbsolute r) = .call q → q.uri.authority.isSome ∧ q.uri.Valid ∧
        (q.wasAbsolute = true ↔ r.uri.scheme.isSome)) ∧
      (r.uri.scheme.isSome → normalize parse default (markAbsolute r) = .call { r with wasAbsolute := true }) := by
  by_cases hs : r.uri.scheme.isSome
  · have hm : markAbsolute r = { r with wasAbsolute := true } := by
      unfold markAbsolute; rw [if_pos ⟨hv, hs⟩]
    have hc : normalize parse default (markAbsolute r) = .call { r with wasAbsolute := true } := by
      rw [hm]; exact C45_unchanged _ _ _ (.inr (.inl rfl))
    rw [hc]
    refine ⟨by simp, ?_, fun _ => rfl⟩
    intro q hq
    cases hq
    exact ⟨(hw.1 hs).1, hw, by simp [hs]⟩
  · have hm : markAbsolute r = r := by
      unfold markAbsolute; rw [if_neg (fun h => hs h.2)]
    rw [hm]
    by_cases hu : r.uri.authority = none
    · have hs' : r.uri.scheme = none := by simpa using hs
      have : (∃ a, normalize parse default r = .call { r with uri :=
          ⟨if r.uri.pathAndQuery.isSome then some "http".toList else none, some a, r.uri.pathAndQuery⟩ }) ∨
          normalize parse default r = .noAuthority := by
        unfold normalize
        rw [if_pos ⟨hv, ha, hu⟩]
        cases (authorityFromHeader parse r.headers "host").or default with
        | none => exact .inr rfl
        | some a =>
          dsimp only
          rw [setAuthority_valid _ _ hw, hs']
          exact .inl ⟨a, rfl⟩
      rcases this with ⟨a, h⟩ | h
      · rw [h]
        refine ⟨by simp, ?_, fun h => absurd h hs⟩
        intro q hq
        cases hq
        refine ⟨rfl, ?_, by simp [hs', ha]⟩
        cases hp : r.uri.pathAndQuery <;> simp [Uri.Valid]
      · rw [h]; exact ⟨by simp, by simp, fun h => absurd h hs⟩
    · have := C45_unchanged parse default r (.inr (.inr hu))
      rw [this]
      refine ⟨by simp, ?_, fun h => absurd h hs⟩
      intro q hq
      cases hq
      exact ⟨by simpa using Option.isSome_iff_ne_none.2 hu, hw, by simp [ha, hs]⟩

theorem getAll_foldl_remove (ns : List String) (h : HeaderMap) (n : String) :
    (ns.foldl HeaderMap.remove h).getAll n = if n ∈ ns then [] else h.getAll n := by
  induction ns generalizing h with
  | nil => simp
  | cons m ns ih =>
    rw [List.foldl_cons, ih, HeaderMap.getAll_remove]
    by_cases h1 : n ∈ ns
    · simp [h1]
    · by_cases h2 : n = m <;> simp [h1, h2]

/-- An authority override replaces the authority and removes exactly the configured headers; without one the request is
unchanged. -/
theorem C45_override (authority : Option Str) (strip : List String) (r : Req) (hw : r.uri.Valid) :
    ∃ q, overrideAuthority authority strip r = some q ∧
      (authority = none → q = r) ∧
      ∀ a, authority = some a → q.uri.authority = some a ∧ q.uri.pathAndQuery = r.uri.pathAndQuery ∧ q.uri.Valid ∧
        Without r.headers q.headers (fun n => n ∈ strip) ∧ { q with uri := r.uri, headers := r.headers } = r := by
  cases authority with
  | none => exact ⟨r, rfl, fun _ => rfl, by simp⟩
  | some a =>
    unfold overrideAuthority
    dsimp only
    rw [setAuthority_valid _ _ hw]
    refine ⟨_, rfl, by simp, ?_⟩
    intro b hb
    simp only [Option.some.injEq] at hb
    subst hb
    refine ⟨rfl, rfl, ?_, ?_, rfl⟩
    · obtain ⟨m, v, ⟨s, a, p⟩, hs, ab, up, h11⟩ := r
      cases s <;> cases p <;> simp_all [Uri.Valid]
    · intro n
      rw [getAll_foldl_remove]
      by_cases h : n ∈ strip <;> simp [h]

def originReq : Req :=
  ⟨hdr "GET", .http11, ⟨none, none, some (hdr "/a")⟩, [("host", hdr "web")], false, false, false⟩

example : normalize some none (markAbsolute originReq) =
    .call { originReq with uri := ⟨some (hdr "http"), some (hdr "web"), some (hdr "/a")⟩ } := by decide +kernel
example : normalize (fun _ => none) none (markAbsolute originReq) = .noAuthority := by decide +kernel
example : normalize some none (markAbsolute { sampleReq with wasAbsolute := false }) = .call sampleReq := by decide +kernel
example : originReq.uri.Valid := by decide +kernel

/-! ## C64 -/

/-- The headers that belong to a connection: `connection`, those its first value lists, `upgrade`, `proxy-connection` and
`keep-alive`. -/
def ConnectionLevel (h : HeaderMap) (n : String) : Prop :=
  n = "connection" ∨ n = "upgrade" ∨ n = "proxy-connection" ∨ n = "keep-alive" ∨
    ∃ v o, h.get "connection" = some v ∧ toStr v = some v ∧ o ∈ Text.split ',' v ∧
      n = String.ofList ((Text.trim o).map Text.lower)

theorem C64_connection_headers_are_removed (h : HeaderMap) :
    Without h (stripConnection h) (ConnectionLevel h) := by
  have htext : ∀ v s, toStr v = some s → s = v := by
    intro v s h
    unfold toStr at h
    split at h <;> simp at h
    exact h.symm
  intro n
  cases hc : h.get "connection" with
  | none =>
    have hs : (stripConnection h).getAll n =
        if n = "keep-alive" then [] else if n = "proxy-connection" then [] else if n = "upgrade" then []
          else h.getAll n := by
      simp only [stripConnection, hc, HeaderMap.getAll_remove]
    rw [hs]
    have hl : ConnectionLevel h n ↔ n = "connection" ∨ n = "upgrade" ∨ n = "proxy-connection" ∨ n = "keep-alive" := by
      simp [ConnectionLevel, hc]
    rw [hl]
    refine ⟨?_, ?_⟩
    · rintro (rfl | rfl | rfl | rfl)
      · have := HeaderMap.get_eq_head h "connection"
        rw [hc] at this
        have hnil : h.getAll "connection" = [] := by
          cases hg : h.getAll "connection" with
          | nil => rfl
          | cons a b => rw [hg] at this; simp at this
        simp [hnil]
      all_goals simp
    · intro hn
      simp only [not_or] at hn
      simp [hn]
  | some v =>
    have hs : (stripConnection h).getAll n =
        if n = "keep-alive" then [] else if n = "proxy-connection" then [] else if n = "upgrade" then []
          else if n ∈ options v then [] else if n = "connection" then [] else h.getAll n := by
      simp only [stripConnection, hc, HeaderMap.getAll_remove, getAll_foldl_remove]
    rw [hs]
    have hl : ConnectionLevel h n ↔ n = "connection" ∨ n = "upgrade" ∨ n = "proxy-connection" ∨ n = "keep-alive" ∨
        n ∈ options v := by
      unfold ConnectionLevel options
      rw [hc]
      cases ht : toStr v with
      | none => simp [ht]
      | some s =>
        have := htext v s ht
        subst this
        simp only [List.mem_map, Option.some.injEq]
        constructor
        · rintro (h | h | h | h | ⟨w, o, rfl, -, ho, rfl⟩)
          · exact .inl h
          · exact .inr (.inl h)
          · exact .inr (.inr (.inl h))
          · exact .inr (.inr (.inr (.inl h)))
          · exact .inr (.inr (.inr (.inr ⟨o, ho, rfl⟩)))
        · rintro (h | h | h | h | ⟨o, ho, rfl⟩)
          · exact .inl h
          · exact .inr (.inl h)
          · exact .inr (.inr (.inl h))
          · exact .inr (.inr (.inr (.inl h)))
          · exact .inr (.inr (.inr (.inr ⟨s, o, rfl, ht, ho, rfl⟩)))
    rw [hl]
    refine ⟨?_, ?_⟩
    · rintro (h | h | h | h | h) <;> simp [h]
    · intro hn
      simp only [not_or] at hn
      simp [hn]

/-- Only the first `Connection` header counts: a header that a second one lists is forwarded. -/
theorem C64_second_connection_header_is_not_read :
    (stripConnection [("connection", hdr "close"), ("connection", hdr "x-secret"), ("x-secret", hdr "1")]).getAll
      "x-secret" = [hdr "1"] := by decide +kernel

/-- An HTTP/1.1 request asks for an upgrade if it has an `upgrade` header whose first value is not `h2c`, or has none and is
a `CONNECT`. -/
def AsksForUpgrade (r : Req) : Prop :=
  r.version = .http11 ∧
    ((∃ u, r.headers.get "upgrade" = some u ∧ u ≠ "h2c".toList) ∨
      (r.headers.get "upgrade" = none ∧ r.method = "CONNECT".toList))

/-- A request is malformed if it is a `CONNECT` that is not HTTP/1.1 or names more than an authority, or is another
request that names nothing but an authority. -/
def Malformed (r : Req) : Prop :=
  if r.method = "CONNECT".toList then r.version ≠ .http11 ∨ r.uri.scheme.isSome ∨ r.uri.pathAndQuery.isSome
  else r.uri.scheme = none ∧ r.uri.pathAndQuery = none

/-- What the HTTP/1 server does with a request: malformed ones are refused, those that ask for an upgrade go on as they
are with a handle of the upgrade, and all others go on without their connection-level headers. -/
theorem C64_requests (r : Req) :
    (serve r = none ↔ Malformed r) ∧
      (¬ Malformed r → AsksForUpgrade r → serve r = some { r with http11Upgrade := true }) ∧
        (¬ Malformed r → ¬ AsksForUpgrade r →
          ∃ hs, serve r = some { r with headers := hs } ∧ Without r.headers hs (ConnectionLevel r.headers)) := by
  have hb : isBadRequest r = true ↔ Malformed r := by
    obtain ⟨m, v, ⟨s, a, p⟩, hs, ab, up, h11⟩ := r
    unfold isBadRequest Malformed isOriginForm
    by_cases hm : m = "CONNECT".toList
    · simp only [hm, if_true]
      by_cases hv : v = .http11
      · cases s <;> cases p <;> simp [hv]
      · simp [hv]
    · simp only [hm, if_false]
      cases s <;> cases p <;> simp
  have hw : wantsUpgrade r = true ↔ AsksForUpgrade r := by
    unfold wantsUpgrade AsksForUpgrade
    by_cases hv : r.version = .http11
    · cases hg : r.headers.get "upgrade" <;> simp [hv]
    · simp [hv]
  unfold serve
  by_cases h1 : Malformed r
  · rw [if_pos (hb.2 h1)]; exact ⟨by simp [h1], fun h => absurd h1 h, fun h => absurd h1 h⟩
  · rw [if_neg (fun h => h1 (hb.1 h))]
    by_cases h2 : AsksForUpgrade r
    · rw [if_pos (hw.2 h2)]
      exact ⟨by simp [h1], fun _ _ => rfl, fun _ h => absurd h2 h⟩
    · rw [if_neg (fun h => h2 (hw.1 h))]
      exact ⟨by simp [h1], fun _ h => absurd h h2, fun _ _ => ⟨_, rfl, C64_connection_headers_are_removed _⟩⟩

/-- What the HTTP/1 client does with a response. An upgrade is an HTTP/1.1 response with status 101, or with a 2xx status
to a `CONNECT`: it keeps its headers and the connections are spliced, once, if the server asked for it. Every other
response loses its connection-level headers. A successful response to a `CONNECT` never has a body's length. -/
theorem C64_responses (connect : Bool) (handle : Handle) (r : Rsp) :
    let up := r.version = .http11 ∧ (r.status = 101 ∨ (connect = true ∧ 200 ≤ r.status ∧ r.status < 300))
    ((∃ q, clientResponse connect handle r = .spliced q) ↔ up ∧ handle = .original) ∧
      (clientResponse connect handle r = .alreadyInserted ↔ up ∧ handle = .clone) ∧
        ∀ q, (clientResponse connect handle r = .plain q ∨ clientResponse connect handle r = .spliced q) →
          q.version = r.version ∧ q.status = r.status ∧
            (¬ up → ∀ n, ConnectionLevel (stripConnect connect r).headers n → q.headers.getAll n = []) ∧
              (connect = true → 200 ≤ r.status → r.status < 300 →
                q.headers.getAll "content-length" = [] ∧ q.headers.getAll "transfer-encoding" = []) ∧
                (connect = false → up → q = r) := by
  intro up
  have hver : (stripConnect connect r).version = r.version := by unfold stripConnect; split <;> rfl
  have hst : (stripConnect connect r).status = r.status := by unfold stripConnect; split <;> rfl
  have hu : isUpgrade (stripConnect connect r) connect = true ↔ up := by
    unfold isUpgrade
    rw [hver, hst]
    simp only [up, isSuccess]
    cases r.version <;> simp
  have hcl : connect = true → 200 ≤ r.status → r.status < 300 →
      (stripConnect connect r).headers.getAll "content-length" = [] ∧
        (stripConnect connect r).headers.getAll "transfer-encoding" = [] := by
    intro h1 h2 h3
    unfold stripConnect
    rw [if_pos (by simp [h1, isSuccess, h2, h3])]
    constructor
    · rw [HeaderMap.getAll_remove, HeaderMap.getAll_remove]; simp
    · rw [HeaderMap.getAll_remove]; simp
  have hmono : ∀ (h : HeaderMap) n, h.getAll n = [] → (stripConnection h).getAll n = [] := by
    intro h n hn
    obtain ⟨h1, h2⟩ := C64_connection_headers_are_removed h n
    by_cases hc : ConnectionLevel h n
    · exact h1 hc
    · rw [h2 hc, hn]
  have hsame : connect = false → stripConnect connect r = r := by
    intro h; unfold stripConnect; simp [h]
  by_cases hup : up
  · have hi : isUpgrade (stripConnect connect r) connect = true := hu.2 hup
    have hrest : ∀ q, q = stripConnect connect r →
        q.version = r.version ∧ q.status = r.status ∧
            (¬ up → ∀ n, ConnectionLevel (stripConnect connect r).headers n → q.headers.getAll n = []) ∧
              (connect = true → 200 ≤ r.status → r.status < 300 →
                q.headers.getAll "content-length" = [] ∧ q.headers.getAll "transfer-encoding" = []) ∧
                (connect = false → up → q = r) := by
      rintro q rfl
      exact ⟨hver, hst, fun h => absurd hup h, hcl, fun h _ => hsame h⟩
    cases handle with
    | none =>
      have : clientResponse connect .none r = .plain (stripConnect connect r) := by simp [clientResponse, hi]
      rw [this]
      exact ⟨by simp, by simp, fun q hq => hrest q (by simpa [eq_comm] using hq)⟩
    | original =>
      have : clientResponse connect .original r = .spliced (stripConnect connect r) := by simp [clientResponse, hi]
      rw [this]
      exact ⟨by simp [hup], by simp, fun q hq => hrest q (by simpa [eq_comm] using hq)⟩
    | clone =>
      have : clientResponse connect .clone r = .alreadyInserted := by simp [clientResponse, hi]
      rw [this]
      exact ⟨by simp, by simp [hup], by simp⟩
  · have hi : ¬ isUpgrade (stripConnect connect r) connect = true := fun h => hup (hu.1 h)
    have : clientResponse connect handle r =
        .plain { stripConnect connect r with headers := stripConnection (stripConnect connect r).headers } := by
      simp [clientResponse, hi]
    rw [this]
    refine ⟨by simp [hup], by simp [hup], ?_⟩
    intro q hq
    have hq : q = { stripConnect connect r with headers := stripConnection (stripConnect connect r).headers } := by
      simpa [eq_comm] using hq
    subst hq
    refine ⟨hver, hst, fun _ n hn => ((C64_connection_headers_are_removed _) n).1 hn, ?_, fun _ h => absurd h hup⟩
    intro h1 h2 h3
    exact ⟨hmono _ _ (hcl h1 h2 h3).1, hmono _ _ (hcl h1 h2 h3).2⟩

example : serve { originReq with headers := [("connection", hdr "close, X-Foo"), ("x-foo", hdr "1"), ("y", hdr "2")] } =
    some { originReq with headers := [("y", hdr "2")] } := by decide +kernel
example : serve { originReq with headers := [("upgrade", hdr "websocket"), ("connection", hdr "upgrade")] } =
    some { originReq with headers := [("upgrade", hdr "websocket"), ("connection", hdr "upgrade")], http11Upgrade := true } := by
  decide +kernel
example : serve { originReq with headers := [("upgrade", hdr "h2c")] } = some { originReq with headers := [] } := by
  decide +kernel
example : serve { originReq with method := hdr "CONNECT" } = none := by decide +kernel
example : clientResponse true .original ⟨.http11, 200, [("content-length", hdr "0")]⟩ = .spliced ⟨.http11, 200, []⟩ := by
  decide +kernel

/-! ## C65 -/

/-- A handle's first use in a history: whether it was inserted (not dropped). -/
def inserted (ins drp : HalfOp) (ops : List HalfOp) : Bool :=
  match ops.find? (fun o => o == ins || o == drp) with
  | some o => o == ins
  | none => false

/-- Whether a handle is gone. -/
def used (ins drp : HalfOp) (ops : List HalfOp) : Bool := ops.any (fun o => o == ins || o == drp)

theorem find?_snoc {α : Type} (p : α → Bool) (l : List α) (a : α) :
    (l ++ [a]).find? p = (l.find? p).or (if p a then some a else none) := by
  rw [List.find?_append]
  simp [List.find?_cons]
  cases p a <;> simp

/-- The two connections of an upgrade are joined exactly if both the server's and the client's handle were used to insert
their connection, and once both are; they are joined at most once, in every history. Clones never count. -/
theorem C65_joined_iff_both_inserted (ops : List HalfOp) :
    (after ops).spawned = if inserted .insertServer .dropServer ops = true ∧ inserted .insertClient .dropClient ops = true
      then 1 else 0 := by
  have inv : ∀ ops : List HalfOp,
      (after ops).serverHandle = !used .insertServer .dropServer ops ∧
      (after ops).clientHandle = !used .insertClient .dropClient ops ∧
      ((used .insertServer .dropServer ops && used .insertClient .dropClient ops) = false →
        (after ops).server = inserted .insertServer .dropServer ops ∧
        (after ops).client = inserted .insertClient .dropClient ops ∧ (after ops).spawned = 0) ∧
      ((used .insertServer .dropServer ops && used .insertClient .dropClient ops) = true →
        (after ops).spawned =
          if inserted .insertServer .dropServer ops = true ∧ inserted .insertClient .dropClient ops = true
          then 1 else 0) := by
    intro ops
    induction ops using snoc_induction with
    | nil => simp [after, halves, used, inserted]
    | snoc ops o ih =>
      have hstep : after (ops ++ [o]) = halfStep (after ops) o := by simp [after]
      have hi : ∀ ins drp, inserted ins drp (ops ++ [o]) =
          if used ins drp ops then inserted ins drp ops else (o == ins) := by
        intro ins drp
        unfold inserted used
        rw [find?_snoc]
        cases hf : ops.find? (fun o => o == ins || o == drp) with
        | some x =>
          have : ops.any (fun o => o == ins || o == drp) = true := by
            rw [List.any_eq_true]
            exact ⟨x, List.mem_of_find?_eq_some hf, by simpa using List.find?_some hf⟩
          simp [this]
        | none =>
          have : ops.any (fun o => o == ins || o == drp) = false := by
            rw [List.any_eq_false]
            simpa using hf
          simp only [this, Option.none_or]
          by_cases h1 : o = ins <;> by_cases h2 : o = drp <;> simp [h1, h2]
      have hu : ∀ ins drp, used ins drp (ops ++ [o]) = (used ins drp ops || (o == ins || o == drp)) := by
        intro ins drp; simp [used]
      have hnone : ∀ ins drp, used ins drp ops = false → inserted ins drp ops = false := by
        intro ins drp h
        unfold inserted
        have : ops.find? (fun o => o == ins || o == drp) = none := by
          unfold used at h
          rw [List.any_eq_false] at h
          simpa using h
        rw [this]
      have n1 := hnone .insertServer .dropServer
      have n2 := hnone .insertClient .dropClient
      rw [hstep]
      simp only [hi, hu]
      obtain ⟨i1, i2, i3, i4⟩ := ih
      generalize used .insertServer .dropServer ops = us at *
      generalize used .insertClient .dropClient ops = uc at *
      generalize inserted .insertServer .dropServer ops = is at *
      generalize inserted .insertClient .dropClient ops = ic at *
      generalize after ops = a at *
      obtain ⟨sh, ch, s, c, n⟩ := a
      simp only at i1 i2 i3 i4
      subst i1 i2
      cases o <;> cases us <;> cases uc <;> simp at i3 i4 n1 n2 ⊢ <;>
        simp_all [halfStep, dropInner] <;> split <;> simp_all
  obtain ⟨-, -, h3, h4⟩ := inv ops
  cases hb : (used .insertServer .dropServer ops && used .insertClient .dropClient ops) with
  | true => exact h4 hb
  | false =>
    rw [(h3 hb).2.2, if_neg]
    rintro ⟨h1, h2⟩
    have : ∀ ins drp, inserted ins drp ops = true → used ins drp ops = true := by
      intro ins drp h
      unfold inserted at h
      unfold used
      cases hf : ops.find? (fun o => o == ins || o == drp) with
      | none => simp [hf] at h
      | some x =>
        rw [List.any_eq_true]
        exact ⟨x, List.mem_of_find?_eq_some hf, by simpa using List.find?_some hf⟩
    rw [this _ _ h1, this _ _ h2] at hb
    simp at hb

example : (after [.insertClone, .insertServer, .insertClient, .insertClient]).spawned = 1 := by decide +kernel
example : (after [.insertServer, .insertClone, .dropClient]).spawned = 0 := by decide +kernel

end Verif.H1
