import Verif.Trace.Lemmas

/-!
# C90: traces are continued

A request that belongs to a trace, by any of the three ways of saying so, is sent on in the same trace: the next hop reads the
same trace and the same flags, with the proxy's own span as the parent. Nothing else of the request is changed. The span is
told, once, if the request is sampled and answered, and spans of any number of proxies link up. No credentials are in it.
-/

namespace Verif.Trace

open Verif
open Verif.H1 (Req Uri Version)

/-! ## Reading -/

/-- C90. What a `traceparent` says: `00-TRACE-PARENT-FLAGS` in hexadecimal, where neither id is all zeros; ids that are too short
are filled up with zeros, and only the first byte of the flags counts. -/
theorem C90_reads_w3c (s : Str) (c : Context) :
    parseW3c s = .found c ↔ c.kind = .w3c ∧ ∃ (a b f : Str) (t p fs : Bytes),
      s = "00-".toList ++ a ++ '-' :: (b ++ '-' :: f) ∧ '-' ∉ a ∧ '-' ∉ b ∧
      (∃ ch ∈ a, ch ≠ '0') ∧ (∃ ch ∈ b, ch ≠ '0') ∧
      hexDecode a = some t ∧ hexDecode b = some p ∧ hexDecode f = some (c.flags :: fs) ∧
      c.traceId = List.replicate (16 - t.length) 0 ++ t ∧ c.parentId = List.replicate (8 - p.length) 0 ++ p := by
  constructor
  · intro h
    rcases parseW3c_cases s with h' | ⟨a, b, f, t, p, ⟨h1, h2, h3, h4, h5, h6, h7⟩, h'⟩
    · rw [h'] at h; simp at h
    · rw [h'] at h
      unfold parseFlags at h
      split at h
      · simp at h
      · simp at h
      · rename_i fl fs hf
        simp only [Read.found.injEq] at h
        subst h
        obtain ⟨t', ht, rfl⟩ := (decodeId_eq_some ..).1 h6
        obtain ⟨p', hp, rfl⟩ := (decodeId_eq_some ..).1 h7
        refine ⟨rfl, a, b, f, t', p', fs, h1, h2, h3, ?_, ?_, ht, hp, hf, rfl, rfl⟩
        · simpa using h4
        · simpa using h5
  · rintro ⟨hk, a, b, f, t, p, fs, h1, h2, h3, h4, h5, h6, h7, h8, h9, h10⟩
    rw [parseW3c_of_parts (a := a) (b := b) (f := f) (trace := c.traceId) (parent := c.parentId)
      ⟨h1, h2, h3, by simpa using h4, by simpa using h5, (decodeId_eq_some ..).2 ⟨t, h6, h9⟩,
        (decodeId_eq_some ..).2 ⟨p, h7, h10⟩⟩]
    unfold parseFlags
    rw [h8]
    simp only [← hk]

example : parseW3c "00-4bf92f3577b34da6a3ce929d0e0e4736-00f067aa0ba902b7-01".toList =
    .found ⟨.w3c, [0x4b, 0xf9, 0x2f, 0x35, 0x77, 0xb3, 0x4d, 0xa6, 0xa3, 0xce, 0x92, 0x9d, 0x0e, 0x0e, 0x47, 0x36],
      [0x00, 0xf0, 0x67, 0xaa, 0x0b, 0xa9, 0x02, 0xb7], 1⟩ := by decide +kernel

/-- C90. It is the first `traceparent` that counts. -/
theorem C90_reads_w3c_header (h : HeaderMap) (c : Context) :
    unpackW3c h = .found c ↔ ∃ v, h.get "traceparent" = some v ∧ (∀ ch ∈ v, visible ch = true) ∧ parseW3c v = .found c := by
  unfold unpackW3c getStr toStr
  cases hg : h.get "traceparent" with
  | none => simp
  | some v =>
    by_cases hv : v.all visible = true
    · simp only [Option.bind_some, hv, if_true, Option.some.injEq, exists_eq_left']
      simp only [List.all_eq_true] at hv
      exact ⟨fun h => ⟨hv, h⟩, fun h => h.2⟩
    · simp only [Option.bind_some, hv, Option.some.injEq, exists_eq_left']
      simp only [List.all_eq_true] at hv
      simp [hv]

/-- C90. What the B3 headers say: both ids in hexadecimal; the request is sampled if `x-b3-sampled` is `1`. -/
theorem C90_reads_b3 (h : HeaderMap) (c : Context) :
    unpackHttp h = some c ↔ c.kind = .b3Http ∧ ∃ (a b : Str) (t p : Bytes),
      getStr h "x-b3-traceid" = some a ∧ getStr h "x-b3-spanid" = some b ∧
      hexDecode a = some t ∧ hexDecode b = some p ∧
      c.traceId = List.replicate (16 - t.length) 0 ++ t ∧ c.parentId = List.replicate (8 - p.length) 0 ++ p ∧
      c.flags = if getStr h "x-b3-sampled" = some "1".toList then 1 else 0 := by
  unfold unpackHttp headerId
  cases hb : getStr h "x-b3-spanid" with
  | none => simp
  | some b =>
    simp only [Option.bind_some]
    cases hp : decodeId b 8 with
    | none =>
      simp only [reduceCtorEq, false_iff]
      rintro ⟨-, a, b', t, p, -, hb', -, h4, -, h6, -⟩
      simp only [Option.some.injEq] at hb'
      subst hb'
      rw [(decodeId_eq_some b 8 _).2 ⟨p, h4, h6⟩] at hp
      simp at hp
    | some p =>
      obtain ⟨p', hp', rfl⟩ := (decodeId_eq_some ..).1 hp
      cases ha : getStr h "x-b3-traceid" with
      | none => simp
      | some a =>
        simp only [Option.bind_some]
        cases ht : decodeId a 16 with
        | none =>
          simp only [reduceCtorEq, false_iff]
          rintro ⟨-, a', b', t, p, ha', -, h3, -, h5, -⟩
          simp only [Option.some.injEq] at ha'
          subst ha'
          rw [(decodeId_eq_some a 16 _).2 ⟨t, h3, h5⟩] at ht
          simp at ht
        | some t =>
          obtain ⟨t', ht', rfl⟩ := (decodeId_eq_some ..).1 ht
          simp only [Option.some.injEq]
          constructor
          · rintro rfl
            exact ⟨rfl, a, b, t', p', rfl, rfl, ht', hp', rfl, rfl, rfl⟩
          · rintro ⟨hk, a', b', t, p, rfl, rfl, h3, h4, h5, h6, h7⟩
            rw [ht'] at h3
            rw [hp'] at h4
            cases h3
            cases h4
            obtain ⟨k, t, p, f⟩ := c
            simp only at hk h5 h6 h7
            rw [hk, h5, h6, h7]

/-- C90. What a binary context says, after the version: fields, of which the last of each kind counts, until one of an unknown
kind. -/
theorem C90_reads_grpc (h : HeaderMap) (c : Context) :
    unpackGrpc h = some c ↔ ∃ (s : Str) (v : UInt8) (rest : Bytes),
      getStr h "grpc-trace-bin" = some s ∧ b64Decode s = some (v :: rest) ∧ Fields rest ⟨.b3Grpc, [], [], 0⟩ c := by
  unfold unpackGrpc
  simp only [Option.bind_eq_some_iff, parseGrpc_iff]
  constructor
  · rintro ⟨bs, ⟨s, h1, h2⟩, v, rest, rfl, hf⟩
    exact ⟨s, v, rest, h1, h2, hf⟩
  · rintro ⟨s, v, rest, h1, h2, hf⟩
    exact ⟨v :: rest, ⟨s, h1, h2⟩, v, rest, rfl, hf⟩

/-- C90. The newest way counts first: W3C, then gRPC, then B3. -/
theorem C90_precedence (h : HeaderMap) (c : Context) :
    unpack h = .found c ↔ unpackW3c h = .found c ∨ (unpackW3c h = .absent ∧ (unpackGrpc h = some c ∨
      (unpackGrpc h = none ∧ unpackHttp h = some c))) := unpack_found h c

/-! ## Writing -/

/-- What reading and writing keep: a context that was read has all of its ids, but that a binary one may lack them. -/
def Full (c : Context) : Prop := c.kind = .b3Grpc → c.traceId.length = 16

/-- The ids a proxy may draw: eight bytes. A `traceparent` may not have zeros only. -/
def Fresh (k : Kind) (span : Bytes) : Prop := span.length = 8 ∧ (k = .w3c → ∃ b ∈ span, b ≠ 0)

/-- A context that was read from a `traceparent` has all of its ids. -/
theorem w3c_ids {h : HeaderMap} {c : Context} (hu : unpackW3c h = .found c) :
    16 ≤ c.traceId.length ∧ c.traceId.all (· == 0) = false := by
  unfold unpackW3c at hu
  split at hu
  · simp at hu
  · rename_i s _
    rcases parseW3c_cases s with h' | ⟨a, b, f, t, p, ⟨h1, h2, h3, h4, h5, h6, h7⟩, h'⟩
    · rw [h'] at hu; simp at hu
    · rw [h'] at hu
      unfold parseFlags at hu
      split at hu
      · simp at hu
      · simp at hu
      · simp only [Read.found.injEq] at hu
        subst hu
        exact ⟨decodeId_length h6, decodeId_nonzero h6 h4⟩

/-- C90. The trace is continued: the next hop reads the same trace and flags, and the proxy's span as the parent. -/
theorem C90_continues (h : HeaderMap) (c : Context) (span : Bytes) (hu : unpack h = .found c) (hf : Full c)
    (hs : Fresh c.kind span) : unpack (increment h c span) = .found { c with parentId := span } := by
  rw [unpack_found] at hu
  rw [increment_eq, unpack_found]
  have ht : toStr (text c span) = some (text c span) := toStr_of_printed _ (text_printed c span)
  rcases hu with hu | ⟨hw, hu | ⟨hg, hu⟩⟩
  · -- W3C
    have hk := unpackW3c_kind hu
    obtain ⟨hl, hz⟩ := w3c_ids hu
    refine Or.inl ?_
    unfold unpackW3c
    rw [getStr_insert, hk, if_pos (show "traceparent" = Kind.w3c.header from rfl), ht]
    simp only [text, hk]
    refine (parseW3c_of_parts (a := hexEncode c.traceId) (b := hexEncode span) (f := hexEncode [c.flags])
      (trace := c.traceId) (parent := span) ⟨rfl, dash_not_hex _, dash_not_hex _, ?_, ?_, ?_, ?_⟩).trans ?_
    · rw [hexEncode_zeros, hz]
    · rw [hexEncode_zeros]
      obtain ⟨b, hb, hb0⟩ := hs.2 hk
      rw [Bool.eq_false_iff, ne_eq, List.all_eq_true]
      intro hall
      exact hb0 (by simpa using hall b hb)
    · exact decodeId_encode _ _ hl
    · exact decodeId_encode _ _ (by rw [hs.1]; exact Nat.le_refl _)
    · unfold parseFlags
      rw [hexDecode_encode]
  · -- gRPC
    have hk := unpackGrpc_kind hu
    refine Or.inr ⟨?_, Or.inl ?_⟩
    · unfold unpackW3c at hw ⊢
      rw [getStr_insert, hk, if_neg (by decide)]
      exact hw
    · rw [C90_reads_grpc]
      refine ⟨text c span, 0, (0 : UInt8) :: (c.traceId ++ 1 :: (span ++ [2, c.flags])), ?_, ?_, ?_⟩
      · rw [getStr_insert, hk, if_pos (show "grpc-trace-bin" = Kind.b3Grpc.header from rfl), ht]
      · simp only [text, hk, b64Decode_encode, grpcBytes]
      · refine .trace _ _ _ _ (hf hk) (.parent _ _ _ _ hs.1 (.flags _ _ _ _ ?_))
        have : (⟨.b3Grpc, c.traceId, span, c.flags⟩ : Context) = { c with parentId := span } := by rw [← hk]
        simp only
        rw [this]
        exact .done _
  · -- B3
    have hk := unpackHttp_kind hu
    refine Or.inr ⟨?_, Or.inr ⟨?_, ?_⟩⟩
    · unfold unpackW3c at hw ⊢
      rw [getStr_insert, hk, if_neg (by decide)]
      exact hw
    · unfold unpackGrpc at hg ⊢
      rw [getStr_insert, hk, if_neg (by decide)]
      exact hg
    · rw [C90_reads_b3] at hu ⊢
      obtain ⟨-, a, b, t, p, h1, h2, h3, h4, h5, h6, h7⟩ := hu
      refine ⟨hk, a, hexEncode span, t, span, ?_, ?_, h3, hexDecode_encode _, h5, ?_, ?_⟩
      · rw [getStr_insert, hk, if_neg (by decide)]; exact h1
      · rw [getStr_insert, hk, if_pos (show "x-b3-spanid" = Kind.b3Http.header from rfl), ht]; simp only [text, hk]
      · simp [hs.1]
      · rw [getStr_insert, hk, if_neg (show ¬ "x-b3-sampled" = Kind.b3Http.header by decide)]; exact h7

/-- The header of a way of saying it. -/
def headerOf : Kind → String
  | .b3Http => "x-b3-spanid"
  | .b3Grpc => "grpc-trace-bin"
  | .w3c => "traceparent"

/-- C90. Nothing but that one header of a request is ever changed. -/
theorem C90_nothing_else_changes (x : Ext) (enabled : Bool) (now : Nat) (span : Bytes) (r r' : Req) (o : Option Open)
    (h : call x enabled now span r = .sent r' o) :
    { r' with headers := r.headers } = r ∧
      (r' = r ∨ ∃ c, enabled = true ∧ unpack r.headers = .found c ∧
        ∀ n, n ≠ headerOf c.kind → r'.headers.getAll n = r.headers.getAll n) := by
  unfold call at h
  split at h
  · rename_i he
    split at h
    · simp at h
    · simp only [Called.sent.injEq] at h; rw [← h.1]; exact ⟨rfl, Or.inl rfl⟩
    · rename_i c hu
      have hc : r' = { r with headers := increment r.headers c span } := by
        simp only at h
        split at h <;> (simp only [Called.sent.injEq] at h; exact h.1.symm)
      subst hc
      refine ⟨rfl, Or.inr ⟨c, he, hu, ?_⟩⟩
      intro n hn
      rw [increment_eq, HeaderMap.getAll_insert, if_neg]
      intro hn'
      exact hn hn'
  · simp only [Called.sent.injEq] at h; rw [← h.1]; exact ⟨rfl, Or.inl rfl⟩

/-- C90. A request that belongs to no trace, and any request if no collector is configured, is not touched, and leaves no span. -/
theorem C90_untouched (x : Ext) (enabled : Bool) (now : Nat) (span : Bytes) (r : Req)
    (h : enabled = false ∨ (unpackW3c r.headers = .absent ∧ unpackGrpc r.headers = none ∧ unpackHttp r.headers = none)) :
    call x enabled now span r = .sent r none := by
  unfold call
  rcases h with rfl | h
  · simp
  · rw [(unpack_absent _).2 h]
    split <;> rfl

/-! ## Spans -/

/-- C90. A span is told exactly if the request is in a trace and sampled, and the response comes. It names the trace, the
parent that the client sent, and the span that the next hop is told is its parent. -/
theorem C90_span_iff (x : Ext) (enabled server : Bool) (start stop : Nat) (span : Bytes) (r r' : Req) (o : Option Open)
    (e : End) (s : Span) (h : call x enabled start span r = .sent r' o) :
    finish server o stop e = some s ↔
      ∃ c status, enabled = true ∧ unpack r.headers = .found c ∧ c.flags.toNat % 2 = 1 ∧ e = .ok status ∧
        s = ⟨c.traceId, span, c.parentId, path r.uri, start, stop,
          Assoc.insert "http.response.status_code" (Text.decimal status) (requestLabels x r'), server⟩ := by
  unfold call at h
  cases enabled with
  | false => simp only [Bool.false_eq_true, if_false, Called.sent.injEq] at h; rw [← h.2]; cases e <;> simp [finish]
  | true =>
    simp only [if_true] at h
    cases hu : unpack r.headers with
    | panic => simp [hu] at h
    | absent => simp only [hu, Called.sent.injEq] at h; rw [← h.2]; cases e <;> simp [finish]
    | found c =>
      simp only [hu] at h
      by_cases hc : c.sampled = true
      · simp only [hc, if_true, Called.sent.injEq] at h
        obtain ⟨rfl, rfl⟩ := h
        have hc' : c.flags.toNat % 2 = 1 := by simpa [Context.sampled] using hc
        cases e with
        | ok st =>
          simp only [finish, Option.map_some, Option.some.injEq, End.ok.injEq, true_and]
          constructor
          · intro h
            exact ⟨c, st, by rw [Read.found.injEq], hc', rfl, h.symm⟩
          · rintro ⟨c', st', h1, -, h2, h3⟩
            rw [Read.found.injEq] at h1
            subst h1
            subst h2
            exact h3.symm
        | failed => simp [finish]
        | dropped => simp [finish]
      · simp only [hc, Called.sent.injEq, Bool.false_eq_true, if_false] at h
        have hc' : ¬ c.flags.toNat % 2 = 1 := by simpa [Context.sampled] using hc
        rw [← h.2]
        constructor
        · intro h
          cases e <;> simp [finish] at h
        · rintro ⟨c', _, -, h1, h2, -⟩
          rw [Read.found.injEq] at h1
          subst h1
          exact absurd h2 hc'

/-- Proxies one after the other, each with its time and the id it draws: the request that comes out, with the spans that were
begun. -/
def hops (x : Ext) : List (Nat × Bytes) → Req → Option (Req × List Open)
  | [], r => some (r, [])
  | (now, span) :: rest, r =>
    match call x true now span r with
    | .panic => none
    | .sent r' o => (hops x rest r').map fun p => (p.1, o.toList ++ p.2)

/-- Spans that link up: each has the one before as its parent. -/
def linked (trace : Bytes) : Bytes → List Bytes → List (Bytes × Bytes × Bytes)
  | _, [] => []
  | parent, span :: spans => (trace, parent, span) :: linked trace span spans

/-- C90. Over any number of proxies, the trace and its flags stay the same, and the spans link up, from the client's to the
server's. -/
theorem C90_links_up (x : Ext) (hs : List (Nat × Bytes)) (r : Req) (c : Context) (hu : unpack r.headers = .found c)
    (hf : Full c) (hfresh : ∀ p ∈ hs, Fresh c.kind p.2) :
    ∃ r' os, hops x hs r = some (r', os) ∧
      unpack r'.headers = .found { c with parentId := ((hs.map (·.2)).getLast?).getD c.parentId } ∧
      os.map (fun o => (o.traceId, o.parentId, o.spanId)) =
        if c.flags.toNat % 2 = 1 then linked c.traceId c.parentId (hs.map (·.2)) else [] := by
  induction hs generalizing r c with
  | nil => exact ⟨r, [], rfl, by simpa using hu, by simp [linked]⟩
  | cons p hs ih =>
    obtain ⟨now, span⟩ := p
    have hcont := C90_continues r.headers c span hu hf (hfresh _ (List.mem_cons_self ..))
    have hlast : (((now, span) :: hs).map (·.2)).getLast?.getD c.parentId =
        ((hs.map (·.2)).getLast?).getD span := by
      simp only [List.map_cons]
      cases hq : hs.map (·.2) with
      | nil => rfl
      | cons a l => simp [List.getLast?_cons_cons, List.getLast?_cons]
    obtain ⟨r', os, h1, h2, h3⟩ := ih { r with headers := increment r.headers c span } { c with parentId := span }
      hcont hf (fun q hq => hfresh q (List.mem_cons_of_mem _ hq))
    by_cases hc : c.flags.toNat % 2 = 1
    · have hc' : c.sampled = true := by simpa [Context.sampled] using hc
      refine ⟨r', ⟨c.traceId, span, c.parentId, path r.uri, now,
        requestLabels x { r with headers := increment r.headers c span }⟩ :: os, ?_, ?_, ?_⟩
      · simp only [hops, call, if_true, hu, hc', h1]; rfl
      · rw [h2, hlast]
      · simp only [hc, if_true] at h3
        simp [hc, linked, h3]
    · have hc' : c.sampled = false := by simpa [Context.sampled] using hc
      refine ⟨r', os, ?_, ?_, ?_⟩
      · simp only [hops, call, if_true, hu, hc', Bool.false_eq_true, if_false, h1]; rfl
      · rw [h2, hlast]
      · simp only [hc, if_false] at h3
        simp [hc, h3]

/-! ## Labels -/

/-- C90. A label of a URL never shows credentials: of what is before an `@`, at most whether there is a password can be told. -/
theorem C90_credentials_are_hidden (creds host : Str) (h : '@' ∉ host) :
    authorityLabel (creds ++ '@' :: host) = "REDACTED@".toList ++ authorityLabel host ∨
      authorityLabel (creds ++ '@' :: host) = "REDACTED:REDACTED@".toList ++ authorityLabel host := by
  have hh : hostOf (creds ++ '@' :: host) = hostOf host := by
    unfold hostOf
    rw [Text.split_append_sep, Text.split_of_no_sep _ _ h]
    simp
  have hp : portOf (creds ++ '@' :: host) = portOf host := by
    unfold portOf
    by_cases hc : ':' ∈ host
    · -- the last colon is the host's
      have hsplit : ∃ q qs, Text.split ':' host = q :: qs ∧ qs ≠ [] := by
        cases hq : Text.split ':' host with
        | nil => exact absurd hq (Text.split_ne_nil _ _)
        | cons q qs =>
          refine ⟨q, qs, rfl, ?_⟩
          rintro rfl
          have h1 := Text.join_split ':' host
          have h2 := Text.split_no_sep ':' host
          rw [hq] at h1 h2
          simp only [Text.join] at h1
          rw [← h1] at hc
          exact h2 q (List.mem_cons_self ..) hc
      obtain ⟨q, qs, hq, hne⟩ := hsplit
      have hlen : ∃ ps, Text.split ':' (creds ++ '@' :: host) = ps ++ qs ∧ ps ≠ [] := by
        have e : Text.join ':' (q :: qs) = host := by rw [← hq, Text.join_split]
        have hj : host = q ++ ':' :: Text.join ':' qs := by
          rw [← e]
          cases qs with
          | nil => exact absurd rfl hne
          | cons a l => rfl
        have e2 : creds ++ '@' :: host = (creds ++ '@' :: q) ++ ':' :: Text.join ':' qs := by
          rw [hj]; simp
        rw [e2, Text.split_append_sep, Text.split_join ':' qs hne (fun p hp => Text.split_no_sep ':' host p (by
          rw [hq]; exact List.mem_cons_of_mem _ hp))]
        exact ⟨_, rfl, Text.split_ne_nil _ _⟩
      obtain ⟨ps, hps, hpne⟩ := hlen
      rw [hps, hq]
      cases ps with
      | nil => exact absurd rfl hpne
      | cons p ps =>
        cases qs with
        | nil => exact absurd rfl hne
        | cons a l =>
          have e1 : (p :: ps ++ a :: l).getLast? = (a :: l).getLast? := by
            rw [List.getLast?_append]
            simp [List.getLast?_cons]
          have e2 : (q :: a :: l).getLast? = (a :: l).getLast? := List.getLast?_cons_cons ..
          rw [show (p :: ps ++ a :: l) = p :: (ps ++ a :: l) from rfl] at e1 ⊢
          cases hpl : ps ++ a :: l with
          | nil => simp at hpl
          | cons b m =>
            rw [hpl] at e1
            simp only [e1, e2]
    · rw [Text.split_of_no_sep _ _ hc]
      simp only
      by_cases hcc : ':' ∈ creds
      · -- the last part has an `@`
        cases hq : Text.split ':' (creds ++ '@' :: host) with
        | nil => exact absurd hq (Text.split_ne_nil _ _)
        | cons a l =>
          have hat : ∀ last, (a :: l).getLast? = some last → '@' ∈ last := by
            intro last hlast
            obtain ⟨pre, hpre⟩ : ∃ pre, a :: l = pre ++ [last] := by
              rw [List.getLast?_eq_some_iff] at hlast; exact hlast
            have hjoin := Text.join_split ':' (creds ++ '@' :: host)
            rw [hq, hpre] at hjoin
            have hsuf : last <:+ creds ++ '@' :: host := by
              rw [← hjoin]
              clear hq hlast hjoin hpre
              induction pre with
              | nil => exact List.suffix_rfl
              | cons b pre ih =>
                cases hp : pre ++ [last] with
                | nil => simp at hp
                | cons d m =>
                  rw [hp] at ih
                  simp only [List.cons_append, hp, Text.join]
                  exact List.IsSuffix.trans ih ⟨b ++ [':'], by simp⟩
            have hns : ':' ∉ last := Text.split_no_sep ':' (creds ++ '@' :: host) last (by rw [hq, hpre]; simp)
            obtain ⟨pfx, hpfx⟩ := hsuf
            by_cases hlen : last.length ≤ host.length
            · exfalso
              -- then the piece before it would end in a colon, within the host or the `@`
              have hpe : pre ≠ [] := by
                rintro rfl
                have : a :: l = [last] := hpre
                have hj : last = creds ++ '@' :: host := by
                  rw [this] at hq
                  have := Text.join_split ':' (creds ++ '@' :: host)
                  rw [hq] at this
                  simpa [Text.join] using this
                exact hns (by rw [hj]; simp [hcc])
              have hcolon : ∃ pfx', creds ++ '@' :: host = pfx' ++ ':' :: last := by
                rw [← hjoin]
                clear hq hlast hjoin hpre hpfx
                induction pre with
                | nil => exact absurd rfl hpe
                | cons b pre ih =>
                  cases pre with
                  | nil => exact ⟨b, rfl⟩
                  | cons d m =>
                    obtain ⟨w, hw⟩ := ih (by simp)
                    refine ⟨b ++ ':' :: w, ?_⟩
                    show b ++ ':' :: Text.join ':' (d :: m ++ [last]) = _
                    rw [hw]
                    simp
              obtain ⟨w, hw⟩ := hcolon
              have h1 : (creds ++ '@' :: host).drop (creds.length + 1 + (host.length - last.length)) = last := by
                rw [hw]
                have : creds.length + 1 + (host.length - last.length) = w.length + 1 := by
                  have := congrArg List.length hw
                  simp at this
                  omega
                rw [this, List.drop_append]
                simp
              have h2 : (creds ++ '@' :: host)[creds.length + (host.length - last.length)]? = some ':' := by
                rw [hw]
                have : creds.length + (host.length - last.length) = w.length := by
                  have := congrArg List.length hw
                  simp at this
                  omega
                rw [this]
                simp
              by_cases hz : host.length - last.length = 0
              · rw [hz] at h2
                simp at h2
              · rw [List.getElem?_append_right (by omega)] at h2
                have : creds.length + (host.length - last.length) - creds.length = (host.length - last.length - 1) + 1 := by
                  omega
                rw [this, List.getElem?_cons_succ] at h2
                exact hc (List.mem_of_getElem? h2)
            · have : ('@' :: host) <:+ last := by
                have hs1 : ('@' :: host) <:+ creds ++ '@' :: host := ⟨creds, rfl⟩
                have hs2 : last <:+ creds ++ '@' :: host := ⟨pfx, hpfx⟩
                exact List.suffix_of_suffix_length_le hs1 hs2 (by simp; omega)
              exact this.subset (List.mem_cons_self ..)
          cases l with
          | nil => rfl
          | cons b m =>
            simp only
            cases hlast : (a :: b :: m).getLast? with
            | none => simp at hlast
            | some last =>
              simp only [Option.getD_some]
              exact Text.parseUnsigned_none_of_mem _ '@' (by decide) (by decide) _ (hat last hlast)
      · rw [Text.split_of_no_sep]
        simp [hcc, hc]
  unfold authorityLabel
  rw [hh, hp]
  have hr0 : redacted host = [] := by unfold redacted; rw [(splitOnce_none _ _).2 h]
  have hr : redacted (creds ++ '@' :: host) = "REDACTED@".toList ∨
      redacted (creds ++ '@' :: host) = "REDACTED:REDACTED@".toList := by
    unfold redacted
    cases hq : splitOnce '@' (creds ++ '@' :: host) with
    | none => rw [splitOnce_none] at hq; simp at hq
    | some p =>
      obtain ⟨p1, p2⟩ := p
      simp only
      split
      · exact Or.inr rfl
      · exact Or.inl rfl
  rw [hr0]
  rcases hr with hr | hr
  · left; rw [hr]; simp
  · right; rw [hr]; simp

example : authorityLabel "user:secret@example.com:8080".toList = "REDACTED:REDACTED@example.com:8080".toList := by
  decide +kernel

/-- The headers that a span may tell of. -/
def told : List String :=
  ["x-forwarded-host", ":authority", "host", "user-agent", "content-length", "content-type", "l5d-orig-proto"]

/-- C90. The labels of a request tell nothing of its other headers. -/
theorem C90_other_headers_are_hidden (x : Ext) (r : Req) (h : HeaderMap) (he : ∀ n ∈ told, h.get n = r.headers.get n) :
    requestLabels x { r with headers := h } = requestLabels x r := by
  have := he "x-forwarded-host" (by simp [told])
  have := he ":authority" (by simp [told])
  have := he "host" (by simp [told])
  have := he "user-agent" (by simp [told])
  have := he "content-length" (by simp [told])
  have := he "content-type" (by simp [told])
  have := he "l5d-orig-proto" (by simp [told])
  simp only [requestLabels, hostHeader, *]

/-- A label that there is a value for. -/
theorem lookup_insertOpt (k j : String) (v : Option Str) (l : Labels) :
    Assoc.lookup j (insertOpt k v l) = if j = k then v.or (Assoc.lookup j l) else Assoc.lookup j l := by
  unfold insertOpt
  cases v with
  | none => by_cases h : j = k <;> simp [h]
  | some v => rw [Assoc.lookup_insert]; by_cases h : j = k <;> simp [h]

/-- C90. What the labels of a request are. -/
theorem C90_labels (x : Ext) (r : Req) :
    Assoc.lookup "http.request.method" (requestLabels x r) = some r.method ∧
    Assoc.lookup "url.scheme" (requestLabels x r) = r.uri.scheme ∧
    Assoc.lookup "url.path" (requestLabels x r) = some (path r.uri) ∧
    Assoc.lookup "url.query" (requestLabels x r) = query r.uri ∧
    Assoc.lookup "url.full" (requestLabels x r) = some (urlLabel r.uri) ∧
    Assoc.lookup "network.transport" (requestLabels x r) = some "tcp".toList ∧
    Assoc.lookup "user_agent.original" (requestLabels x r) = (r.headers.get "user-agent").map x.lossy ∧
    Assoc.lookup "http.request.header.content-length" (requestLabels x r) = (r.headers.get "content-length").map x.lossy ∧
    Assoc.lookup "http.request.header.content-type" (requestLabels x r) = (r.headers.get "content-type").map x.lossy ∧
    Assoc.lookup "http.request.header.l5d-orig-proto" (requestLabels x r) =
      (r.headers.get "l5d-orig-proto").map x.lossy := by
  refine ⟨?_, ?_, ?_, ?_, ?_, ?_, ?_, ?_, ?_, ?_⟩ <;>
    simp [requestLabels, lookup_insertOpt, Assoc.lookup_insert, Assoc.lookup]

/-- The path and the query of a URL are all of it. -/
theorem path_query (s a : Option Str) (q : Str) (hq : q.head? ≠ some '?') (hne : q ≠ []) :
    path ⟨s, a, some q⟩ ++ queryLabel (query ⟨s, a, some q⟩) = q := by
  have ht : q.takeWhile (· != '?') ≠ [] := by
    cases q with
    | nil => exact absurd rfl hne
    | cons c q =>
      have : c ≠ '?' := by simpa using hq
      simp [List.takeWhile_cons, this]
  simp only [path, query, Option.bind_some, if_neg ht]
  cases hs : splitOnce '?' q with
  | none =>
    rw [splitOnce_none] at hs
    simp only [Option.map_none, queryLabel, List.append_nil]
    have : ∀ l : Str, '?' ∉ l → l.takeWhile (· != '?') = l := by
      intro l
      induction l with
      | nil => intro _; rfl
      | cons c l ih =>
        intro h
        simp only [List.mem_cons, not_or] at h
        have hc : c ≠ '?' := fun e => h.1 e.symm
        simp [List.takeWhile_cons, hc, ih h.2]
    exact this q hs
  | some p =>
    obtain ⟨x, y⟩ := p
    obtain ⟨rfl, hx⟩ := (splitOnce_eq_some ..).1 hs
    simp only [Option.map_some, queryLabel]
    have : ∀ l : Str, '?' ∉ l → (l ++ '?' :: y).takeWhile (· != '?') = l := by
      intro l
      induction l with
      | nil => intro _; simp
      | cons c l ih =>
        intro h
        simp only [List.mem_cons, not_or] at h
        have hc : c ≠ '?' := fun e => h.1 e.symm
        simp [List.takeWhile_cons, hc, ih h.2]
    rw [this x hx]

/-- C90. A URL without credentials is shown as it is. -/
theorem C90_urls_are_shown (s host q : Str) (port : Nat) (hp : port ≤ 65535) (h1 : '@' ∉ host) (h2 : ':' ∉ host)
    (h3 : host.head? ≠ some '[') (hq : q.head? ≠ some '?') (hne : q ≠ []) :
    urlLabel ⟨some s, some (host ++ ':' :: Text.decimal port), some q⟩ =
      s ++ "://".toList ++ (host ++ ':' :: Text.decimal port) ++ q := by
  have hat : '@' ∉ host ++ ':' :: Text.decimal port := by
    have := Text.not_digit_of '@' (by decide) port
    simp [h1, this]
  have hc : ':' ∉ Text.decimal port := Text.not_digit_of ':' (by decide) port
  have hred : redacted (host ++ ':' :: Text.decimal port) = [] := by
    unfold redacted; rw [(splitOnce_none _ _).2 hat]
  have htw : ∀ l : Str, ':' ∉ l → (l ++ ':' :: Text.decimal port).takeWhile (· != ':') = l := by
    intro l
    induction l with
    | nil => intro _; simp
    | cons c l ih =>
      intro h
      simp only [List.mem_cons, not_or] at h
      have hc : c ≠ ':' := fun e => h.1 e.symm
      simp [List.takeWhile_cons, hc, ih h.2]
  have hhost : hostOf (host ++ ':' :: Text.decimal port) = host := by
    unfold hostOf
    rw [Text.split_of_no_sep _ _ hat]
    simp only [List.getLast?_singleton, Option.getD_some]
    cases host with
    | nil => simp
    | cons c l =>
      have hb : c ≠ '[' := by simpa using h3
      split
      · rename_i heq
        simp only [List.cons_append, List.cons.injEq] at heq
        exact absurd heq.1 hb
      · exact htw (c :: l) h2
  have hport : portOf (host ++ ':' :: Text.decimal port) = some port := by
    unfold portOf
    rw [Text.split_append_sep, Text.split_of_no_sep _ _ h2, Text.split_of_no_sep _ _ hc]
    simp only [List.singleton_append, List.getLast?_cons_cons, List.getLast?_singleton, Option.getD_some]
    rw [Text.parseUnsigned_decimal, if_pos hp]
  have := path_query (some s) (some (host ++ ':' :: Text.decimal port)) q hq hne
  simp only [urlLabel, authorityLabel, hred, hhost, hport, List.nil_append, List.append_assoc]
  rw [this]

/-- C90. The server is the host that the request names: the one that was forwarded for, or else its own. -/
theorem C90_server_labels (x : Ext) (r : Req) (u : Uri) (v a : Str) (hn : r.headers.get ":authority" = none)
    (hv : toStr v = some v)
    (h : r.headers.get "x-forwarded-host" = some v ∨
      (r.headers.get "x-forwarded-host" = none ∧ r.headers.get "host" = some v))
    (hu : x.parseUri v = some u) (ha : u.authority = some a) :
    Assoc.lookup "server.address" (requestLabels x r) = some (hostOf a) ∧
      Assoc.lookup "server.port" (requestLabels x r) = (portOf a).map Text.decimal := by
  have hh : hostHeader x r.headers = some u := by
    unfold hostHeader
    rcases h with h | ⟨h, h'⟩
    · simp [h, hv, hu]
    · simp [h, h', hn, hv, hu]
  refine ⟨?_, ?_⟩ <;>
    simp [requestLabels, lookup_insertOpt, Assoc.lookup_insert, Assoc.lookup, hh, ha]

/-! ## Limits -/

/-- C90, a limit. A `traceparent` with nothing after the last dash makes the task that handles the request panic: any client can
send one. -/
theorem C90_limit_no_flags_panic (x : Ext) (now : Nat) (span : Bytes) (r : Req) :
    call x true now span r = .panic ↔
      ∃ (a b : Str) (t p : Bytes), getStr r.headers "traceparent" = some ("00-".toList ++ a ++ '-' :: (b ++ ['-'])) ∧
        '-' ∉ a ∧ '-' ∉ b ∧ (∃ ch ∈ a, ch ≠ '0') ∧ (∃ ch ∈ b, ch ≠ '0') ∧ hexDecode a = some t ∧ hexDecode b = some p := by
  have hcall : call x true now span r = .panic ↔ unpack r.headers = .panic := by
    unfold call
    simp only [if_true]
    cases hu : unpack r.headers with
    | panic => simp
    | absent => simp
    | found c =>
      simp only [reduceCtorEq, iff_false]
      split <;> simp
  rw [hcall, unpack_panic]
  unfold unpackW3c
  cases hg : getStr r.headers "traceparent" with
  | none => simp
  | some s =>
    simp only [Option.some.injEq]
    constructor
    · intro h
      rcases parseW3c_cases s with h' | ⟨a, b, f, t, p, ⟨h1, h2, h3, h4, h5, h6, h7⟩, h'⟩
      · rw [h'] at h; simp at h
      · rw [h'] at h
        have hf : f = [] := by
          unfold parseFlags at h
          split at h
          · simp at h
          · rename_i hd
            cases f with
            | nil => rfl
            | cons c f =>
              cases f with
              | nil => simp [hexDecode] at hd
              | cons d f =>
                unfold hexDecode at hd
                split at hd <;> simp at hd
          · simp at h
        subst hf
        obtain ⟨t', ht, -⟩ := (decodeId_eq_some ..).1 h6
        obtain ⟨p', hp, -⟩ := (decodeId_eq_some ..).1 h7
        exact ⟨a, b, t', p', h1, h2, h3, by simpa using h4, by simpa using h5, ht, hp⟩
    · rintro ⟨a, b, t, p, h1, h2, h3, h4, h5, h6, h7⟩
      rw [parseW3c_of_parts (a := a) (b := b) (f := []) ⟨h1, h2, h3, by simpa using h4, by simpa using h5,
        (decodeId_eq_some ..).2 ⟨t, h6, rfl⟩, (decodeId_eq_some ..).2 ⟨p, h7, rfl⟩⟩]
      rfl

/-- A request with one header. -/
def exReq (name : String) (v : String) : Req :=
  ⟨"GET".toList, .http11, ⟨none, none, some "/a?b=c".toList⟩, [(name, v.toList)], false, false, false⟩

def exExt : Ext := ⟨fun _ => none, id⟩

example : call exExt true 0 [1, 2, 3, 4, 5, 6, 7, 8] (exReq "traceparent" "00-01-01-") = .panic := by decide +kernel

/-- The theorems' hypotheses hold for a request in a trace: two proxies, whose spans link up. -/
example : (hops exExt [(5, [1, 2, 3, 4, 5, 6, 7, 8]), (6, [8, 7, 6, 5, 4, 3, 2, 1])]
    (exReq "traceparent" "00-4bf92f3577b34da6a3ce929d0e0e4736-00f067aa0ba902b7-01")).map (fun p =>
      (p.1.headers, p.2.map fun o => (o.parentId, o.spanId))) =
    some ([("traceparent", "00-4bf92f3577b34da6a3ce929d0e0e4736-0807060504030201-01".toList)],
      [([0x00, 0xf0, 0x67, 0xaa, 0x0b, 0xa9, 0x02, 0xb7], [1, 2, 3, 4, 5, 6, 7, 8]),
       ([1, 2, 3, 4, 5, 6, 7, 8], [8, 7, 6, 5, 4, 3, 2, 1])]) := by decide +kernel

example : Fresh .w3c [1, 2, 3, 4, 5, 6, 7, 8] := ⟨rfl, fun _ => ⟨1, by decide, by decide⟩⟩

/-- C90, a limit. Requests that fail leave no span, though the next hop was told of one: its own span has a parent that no one
tells of. -/
theorem C90_limit_failures_leave_no_span (server : Bool) (o : Option Open) (now : Nat) :
    finish server o now .failed = none ∧ finish server o now .dropped = none := ⟨rfl, rfl⟩

/-- C90, a limit. A binary context without a trace id is taken for one, and what is sent instead cannot be read by the next
hop. -/
theorem C90_limit_binary_without_trace_id :
    ∃ (h : HeaderMap) (c : Context), unpack h = .found c ∧ c.sampled = true ∧ c.traceId = [] ∧
      unpack (increment h c [1, 2, 3, 4, 5, 6, 7, 8]) = .absent :=
  ⟨[("grpc-trace-bin", b64Encode [0, 2, 1])], ⟨.b3Grpc, [], [], 1⟩, by decide +kernel⟩

/-- C90, a limit. If the id that is drawn is all zeros, the next hop does not read a W3C context any more. -/
theorem C90_limit_zero_span :
    ∃ (h : HeaderMap) (c : Context), unpack h = .found c ∧ unpack (increment h c [0, 0, 0, 0, 0, 0, 0, 0]) = .absent :=
  ⟨[("traceparent", "00-4bf92f3577b34da6a3ce929d0e0e4736-00f067aa0ba902b7-01".toList)],
    ⟨.w3c, [0x4b, 0xf9, 0x2f, 0x35, 0x77, 0xb3, 0x4d, 0xa6, 0xa3, 0xce, 0x92, 0x9d, 0x0e, 0x0e, 0x47, 0x36],
      [0x00, 0xf0, 0x67, 0xaa, 0x0b, 0xa9, 0x02, 0xb7], 1⟩, by decide +kernel⟩


/-- C90. A span is named after the path of its request: what is before the `?`, and `/` if that is empty. -/
theorem C90_path (u : Uri) :
    (u.pathAndQuery = none → path u = []) ∧
    (∀ p q, u.pathAndQuery = some (p ++ '?' :: q) → '?' ∉ p → path u = if p = [] then ['/'] else p) ∧
    (∀ p, u.pathAndQuery = some p → '?' ∉ p → path u = if p = [] then ['/'] else p) := by
  have htake : ∀ (p q : Str), '?' ∉ p → (p ++ '?' :: q).takeWhile (· != '?') = p := by
    intro p q h
    induction p with
    | nil => rfl
    | cons c p ih =>
      simp only [List.mem_cons, not_or] at h
      have hc : (c != '?') = true := by simp; exact fun e => h.1 e.symm
      rw [List.cons_append, List.takeWhile_cons, if_pos hc, ih h.2]
  have hall : ∀ (p : Str), '?' ∉ p → p.takeWhile (· != '?') = p := by
    intro p h
    induction p with
    | nil => rfl
    | cons c p ih =>
      simp only [List.mem_cons, not_or] at h
      have hc : (c != '?') = true := by simp; exact fun e => h.1 e.symm
      rw [List.takeWhile_cons, if_pos hc, ih h.2]
  refine ⟨fun h => by simp [path, h], fun p q h hp => ?_, fun p h hp => ?_⟩
  · simp only [path, h, htake p q hp]; rfl
  · simp only [path, h, hall p hp]; rfl

example : path ⟨none, none, some "/a/b?c=d".toList⟩ = "/a/b".toList ∧ path ⟨none, none, some "?c=d".toList⟩ = "/".toList := by
  decide +kernel

end Verif.Trace
