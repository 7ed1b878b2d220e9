import Verif.ApiResolve.Model
import Verif.Dns.Props

/-!
# C51: discovery messages
-/

namespace Verif.ApiResolve

/-! ## Addresses -/

/-- The number that octets stand for, the first being the most significant. -/
def number (octets : List Nat) : Nat := octets.foldl (fun n o => n * 256 + o) 0

/-- The eight octets of a `u64`, as the code computes them. -/
def eight (x : Nat) : List Nat :=
  [asU8 (x >>> 56), asU8 (x >>> 48), asU8 (x >>> 40), asU8 (x >>> 32), asU8 (x >>> 24), asU8 (x >>> 16),
    asU8 (x >>> 8), asU8 x]

theorem number_eight (x : Nat) (h : x < 2 ^ 64) : number (eight x) = x := by
  simp only [number, eight, List.foldl, asU8, Nat.shiftRight_eq_div_pow]
  omega

theorem eight_lt (x : Nat) : ∀ o ∈ eight x, o < 256 := by
  intro o ho
  simp only [eight, List.mem_cons, List.not_mem_nil, or_false] at ho
  rcases ho with rfl | rfl | rfl | rfl | rfl | rfl | rfl | rfl <;> exact Nat.mod_lt _ (by omega)

theorem toSockAddr_v6 (first last port : Nat) :
    toSockAddr ⟨some (some (.v6 first last)), port⟩ = some (.v6 (eight first ++ eight last) (asU16 port)) := rfl

theorem foldl_number (l : List Nat) (n : Nat) :
    l.foldl (fun n o => n * 256 + o) n = n * 256 ^ l.length + number l := by
  induction l generalizing n with
  | nil => simp [number]
  | cons a l ih =>
    simp only [number, List.foldl_cons, List.length_cons]
    rw [ih, ih (0 * 256 + a)]
    rw [Nat.pow_succ, Nat.add_mul, Nat.zero_mul, Nat.zero_add, Nat.add_assoc]
    congr 1
    rw [Nat.mul_assoc, Nat.mul_comm 256]

theorem number_append (l g : List Nat) : number (l ++ g) = number l * 256 ^ g.length + number g := by
  unfold number
  rw [List.foldl_append, foldl_number g]
  rfl

/-- An address is read exactly if the message has an IP: an IPv4 address keeps its 32 bits, and the sixteen octets of an
IPv6 address are those of the 128-bit number that the message gives in two halves. Every port in range is kept. -/
theorem C51_addresses (pb : ApiAddr) (hp : pb.port < 65536) :
    (∀ bits, pb.ip = some (some (.v4 bits)) → toSockAddr pb = some (.v4 bits pb.port)) ∧
    (∀ first last, pb.ip = some (some (.v6 first last)) → first < 2 ^ 64 → last < 2 ^ 64 →
      ∃ octets, toSockAddr pb = some (.v6 octets pb.port) ∧ octets.length = 16 ∧ (∀ o ∈ octets, o < 256) ∧
        number octets = first * 2 ^ 64 + last) ∧
    (toSockAddr pb = none ↔ pb.ip = none ∨ pb.ip = some none) := by
  have hport : asU16 pb.port = pb.port := Nat.mod_eq_of_lt hp
  refine ⟨?_, ?_, ?_⟩
  · intro bits h; simp [toSockAddr, h, hport]
  · intro first last h h1 h2
    obtain ⟨ip, port⟩ := pb
    simp only at h hport
    subst h
    refine ⟨eight first ++ eight last, by rw [toSockAddr_v6, hport], rfl, ?_, ?_⟩
    · intro o ho
      rcases List.mem_append.1 ho with ho | ho
      · exact eight_lt _ o ho
      · exact eight_lt _ o ho
    · have hl : (eight last).length = 8 := rfl
      rw [number_append, number_eight _ h1, number_eight _ h2, hl]
  · unfold toSockAddr
    split <;> simp_all

/-- A port out of range is not refused: its lower sixteen bits are used. -/
theorem C51_port_is_truncated (bits port : Nat) :
    toSockAddr ⟨some (some (.v4 bits)), port⟩ = some (.v4 bits (port % 65536)) := rfl

/-! ## Updates -/

/-- A set of endpoints. -/
abbrev EpSet := SockAddr → Option Metadata

/-- What an update says about the set of endpoints. -/
def EpSet.update (m : EpSet) : Update → EpSet
  | .reset eps => fun a => Assoc.lookup a eps.reverse
  | .add eps => fun a => (Assoc.lookup a eps.reverse).or (m a)
  | .remove addrs => fun a => if a ∈ addrs then none else m a
  | .doesNotExist => fun _ => none

/-- What a message says: entries that cannot be read say nothing. -/
def EpSet.message (parseUrl parseAuthority : Str → Option Str) (m : EpSet) : Option ApiUpdate → EpSet
  | none => m
  | some (.add addrs labels) => fun a =>
    (addrs.reverse.findSome? fun pb =>
      match toAddrMeta parseUrl parseAuthority labels pb with
      | some (a', meta_) => if a' = a then some meta_ else none
      | none => none).or (m a)
  | some (.remove addrs) => fun a => if ∃ pb ∈ addrs, toSockAddr pb = some a then none else m a
  | some (.noEndpoints _) => fun _ => none

theorem lookup_filterMap {α : Type} (f : α → Option (SockAddr × Metadata)) (l : List α) (a : SockAddr) :
    Assoc.lookup a (l.filterMap f) =
      l.findSome? fun x => match f x with
        | some (a', m) => if a' = a then some m else none
        | none => none := by
  induction l with
  | nil => rfl
  | cons x l ih =>
    rw [List.filterMap_cons, List.findSome?_cons]
    cases hx : f x with
    | none => simpa using ih
    | some e =>
      obtain ⟨a', m⟩ := e
      simp only [Assoc.lookup]
      by_cases h : a' = a
      · simp [h]
      · simp [h, ih]

/-- Whatever messages a stream brings, the updates say of the endpoints exactly what the messages say: an entry that
cannot be read is as if it were not there, a message nothing of which can be read as if it had not come. -/
theorem C51_updates_say_what_messages_say (parseUrl parseAuthority : Str → Option Str) (msgs : List (Option ApiUpdate))
    (m : EpSet) :
    (updates parseUrl parseAuthority msgs).foldl EpSet.update m = msgs.foldl (EpSet.message parseUrl parseAuthority) m := by
  induction msgs generalizing m with
  | nil => rfl
  | cons x msgs ih =>
    rw [List.foldl_cons, ← ih]
    unfold updates
    rw [List.filterMap_cons]
    have key : (match mkUpdate parseUrl parseAuthority x with
        | none => m
        | some u => m.update u) = m.message parseUrl parseAuthority x := by
      match x with
      | none => rfl
      | some (.noEndpoints true) => rfl
      | some (.noEndpoints false) => rfl
      | some (.add addrs labels) =>
        have hl : ∀ a, Assoc.lookup a (addrs.filterMap (toAddrMeta parseUrl parseAuthority labels)).reverse =
            addrs.reverse.findSome? fun pb =>
              match toAddrMeta parseUrl parseAuthority labels pb with
              | some (a', meta_) => if a' = a then some meta_ else none
              | none => none := by
          intro a; rw [← List.filterMap_reverse, lookup_filterMap]
        simp only [mkUpdate]
        by_cases he : (addrs.filterMap (toAddrMeta parseUrl parseAuthority labels)).isEmpty = true
        · rw [if_pos he]
          funext a
          have := hl a
          rw [List.isEmpty_iff.1 he] at this
          simp only [EpSet.message]
          rw [← this]; rfl
        · rw [if_neg he]
          funext a
          simp only [EpSet.message, EpSet.update, hl]
      | some (.remove addrs) =>
        simp only [mkUpdate]
        by_cases he : (addrs.filterMap toSockAddr).isEmpty = true
        · rw [if_pos he]
          funext a
          have hn : ¬ ∃ pb ∈ addrs, toSockAddr pb = some a := by
            rintro ⟨pb, hpb, h⟩
            have : a ∈ addrs.filterMap toSockAddr := List.mem_filterMap.2 ⟨pb, hpb, h⟩
            rw [List.isEmpty_iff.1 he] at this
            simp at this
          simp only [EpSet.message]
          rw [if_neg hn]
        · rw [if_neg he]
          funext a
          simp only [EpSet.message, EpSet.update, List.mem_filterMap]
    rw [← key]
    cases mkUpdate parseUrl parseAuthority x with
    | none => rfl
    | some u => rfl

/-- In particular updates are never empty additions or removals; a service without endpoints is told apart from one that
does not exist. -/
theorem C51_kinds (parseUrl parseAuthority : Str → Option Str) (msg : Option ApiUpdate) :
    (∀ eps, mkUpdate parseUrl parseAuthority msg = some (.add eps) → eps ≠ []) ∧
    (∀ addrs, mkUpdate parseUrl parseAuthority msg = some (.remove addrs) → addrs ≠ []) ∧
    (∀ eps, mkUpdate parseUrl parseAuthority msg = some (.reset eps) ↔ eps = [] ∧ msg = some (.noEndpoints true)) ∧
    (mkUpdate parseUrl parseAuthority msg = some .doesNotExist ↔ msg = some (.noEndpoints false)) := by
  match msg with
  | none => simp [mkUpdate]
  | some (.noEndpoints true) => simp [mkUpdate, eq_comm]
  | some (.noEndpoints false) => simp [mkUpdate]
  | some (.add addrs labels) =>
    simp only [mkUpdate]
    split
    · simp
    · rename_i h
      refine ⟨?_, by simp, by simp, by simp⟩
      intro eps he
      simp only [Option.some.injEq, Update.add.injEq] at he
      subst he
      intro hc; exact h (List.isEmpty_iff.2 hc)
  | some (.remove addrs) =>
    simp only [mkUpdate]
    split
    · simp
    · rename_i h
      refine ⟨by simp, ?_, by simp, by simp⟩
      intro eps he
      simp only [Option.some.injEq, Update.remove.injEq] at he
      subst he
      intro hc; exact h (List.isEmpty_iff.2 hc)

/-! ## Endpoints -/

theorem lookup_collect (l : Labels) (k : Str) : Assoc.lookup k (collect l) = Assoc.lookup k l.reverse := by
  unfold collect
  induction l using snoc_induction with
  | nil => rfl
  | snoc l e ih =>
    rw [List.foldl_append]
    simp only [List.foldl_cons, List.foldl_nil]
    rw [Assoc.lookup_insert, List.reverse_append]
    simp only [List.reverse_cons, List.reverse_nil, List.nil_append, List.cons_append, Assoc.lookup]
    rw [ih]
    by_cases h : k = e.1
    · simp [h]
    · have : ¬ e.1 = k := fun h' => h h'.symm
      simp [h, this]

theorem lookup_append (l g : Labels) (k : Str) :
    Assoc.lookup k (l ++ g) = (Assoc.lookup k l).or (Assoc.lookup k g) := by
  induction l with
  | nil => rfl
  | cons e l ih =>
    obtain ⟨a, v⟩ := e
    simp only [List.cons_append, Assoc.lookup]
    split
    · rfl
    · exact ih

theorem lookup_reverse (l : Labels) (h : Assoc.Distinct l) (k : Str) : Assoc.lookup k l.reverse = Assoc.lookup k l := by
  induction l with
  | nil => rfl
  | cons e l ih =>
    obtain ⟨a, v⟩ := e
    simp only [Assoc.Distinct, List.map_cons, List.nodup_cons] at h
    rw [List.reverse_cons, lookup_append, ih h.2]
    simp only [Assoc.lookup]
    by_cases ha : a = k
    · subst ha
      have : Assoc.lookup a l = none := by
        cases hl : Assoc.lookup a l with
        | none => rfl
        | some v' => exact absurd (List.mem_map.2 ⟨(a, v'), Assoc.mem_of_lookup hl, rfl⟩) h.1
      simp [this]
    · simp [ha]

/-- An endpoint's labels are its own and those of its set, its own coming first. -/
theorem C51_own_labels_override (parseUrl parseAuthority : Str → Option Str) (set : Labels) (pb : ApiWeightedAddr)
    (a : SockAddr) (m : Metadata) (h : toAddrMeta parseUrl parseAuthority set pb = some (a, m))
    (hs : Assoc.Distinct set) (ho : Assoc.Distinct pb.labels) (k : Str) :
    Assoc.lookup k m.labels = (Assoc.lookup k pb.labels).or (Assoc.lookup k set) := by
  unfold toAddrMeta at h
  split at h
  · simp at h
  · simp only [Option.some.injEq, Prod.mk.injEq] at h
    obtain ⟨-, rfl⟩ := h
    simp only [lookup_collect, List.reverse_append, lookup_append, lookup_reverse _ hs, lookup_reverse _ ho]

/-- The other fields: an endpoint has the weight of the message, the protocol hint of the message, the transport port if it
is between 1 and 65534, and the zone of its own labels. -/
theorem C51_fields (parseUrl parseAuthority : Str → Option Str) (set : Labels) (pb : ApiWeightedAddr)
    (a : SockAddr) (m : Metadata) (h : toAddrMeta parseUrl parseAuthority set pb = some (a, m)) :
    (∃ addr, pb.addr = some addr ∧ toSockAddr addr = some a) ∧ m.weight = pb.weight ∧
    (m.hint = .http2 ↔ ∃ hint, pb.hint = some hint ∧ hint.protocol = some true) ∧
    (m.hint = .opaq ↔ ∃ hint, pb.hint = some hint ∧ hint.protocol = some false) ∧
    (∀ port, m.taggedPort = some port ↔
      (∃ hint, pb.hint = some hint ∧ hint.opaqueTransport = some port) ∧ 1 ≤ port ∧ port ≤ 65534) ∧
    (m.zoneLocal = some true ↔ ∃ v, Assoc.lookup "zone_locality".toList pb.labels = some v ∧
      Text.eqIgnoreCase v "local".toList = true) ∧
    m.authority = pb.authority.bind parseAuthority := by
  unfold toAddrMeta at h
  split at h
  · simp at h
  · rename_i addr haddr
    simp only [Option.some.injEq, Prod.mk.injEq] at h
    obtain ⟨rfl, rfl⟩ := h
    refine ⟨?_, rfl, ?_, ?_, ?_, ?_, rfl⟩
    · cases hp : pb.addr with
      | none => simp [hp] at haddr
      | some x => exact ⟨x, rfl, by simpa [hp] using haddr⟩
    · match hh : pb.hint with
      | none => simp [hintOf]
      | some ⟨none, _⟩ => simp [hintOf]
      | some ⟨some true, _⟩ => simp [hintOf]
      | some ⟨some false, _⟩ => simp [hintOf]
    · match hh : pb.hint with
      | none => simp [hintOf]
      | some ⟨none, _⟩ => simp [hintOf]
      | some ⟨some true, _⟩ => simp [hintOf]
      | some ⟨some false, _⟩ => simp [hintOf]
    · intro port
      match hh : pb.hint with
      | none => simp [taggedPortOf]
      | some ⟨p, none⟩ => simp [taggedPortOf]
      | some ⟨p, some q⟩ =>
        simp only [taggedPortOf]
        by_cases hq : q > 0 ∧ q < 65535
        · rw [if_pos hq]
          have : asU16 q = q := Nat.mod_eq_of_lt (by omega)
          simp only [this, Option.some.injEq]
          constructor
          · rintro rfl; exact ⟨⟨_, rfl, rfl⟩, by omega, by omega⟩
          · rintro ⟨⟨x, rfl, hx⟩, -⟩; simpa using hx
        · rw [if_neg hq]
          simp only [reduceCtorEq, Option.some.injEq, false_iff, not_and]
          rintro ⟨x, rfl, hx⟩ h1
          simp only [Option.some.injEq] at hx
          omega
    · unfold zoneLocality
      cases Assoc.lookup "zone_locality".toList pb.labels with
      | none => simp
      | some v =>
        simp only [Option.bind_some, Option.some.injEq, exists_eq_left']
        split
        · simp_all
        · split <;> simp_all

/-- The transport port 65535 is a port, but not taken. -/
theorem C51_port_65535_is_ignored (p : Option Bool) : taggedPortOf (some ⟨p, some 65535⟩) = none := by
  simp [taggedPortOf]

/-- What an endpoint is authenticated by: the identity of the message if it can be read - a DNS name without a final dot, or
a URI - and the server's name, which is that of the message or, for a DNS identity, the identity itself. -/
theorem C51_identity (parseUrl : Str → Option Str) (pb : ApiTlsIdentity) (t : ClientTls) :
    toIdentity parseUrl pb = some t ↔
      (∃ id, pb.strategy = some id ∧
        ((∃ s n labels, id = .dnsLike s ∧ Dns.DnsName s labels ∧ n = s.map Text.lower ∧ n.getLast? ≠ some '.' ∧
          t.serverId = .dns n) ∨ (∃ s u, id = .uriLike s ∧ parseUrl s = some u ∧ t.serverId = .uri u))) ∧
      ((∃ s labels, pb.serverName = some s ∧ Dns.DnsName s labels ∧ t.serverName = s.map Text.lower) ∨
        (pb.serverName = none ∧ t.serverId = .dns t.serverName)) := by
  have hdns : ∀ s id, parseDnsName s = some id ↔
      ∃ n labels, Dns.DnsName s labels ∧ n = s.map Text.lower ∧ n.getLast? ≠ some '.' ∧ id = .dns n := by
    intro s id
    unfold parseDnsName
    cases hn : Dns.Name.tryFrom s with
    | none =>
      simp only [reduceCtorEq, false_iff]
      rintro ⟨n, labels, h1, h2, -⟩
      rw [(Dns.C33_kept_in_lower_case s n).2 ⟨⟨labels, h1⟩, h2⟩] at hn
      simp at hn
    | some n =>
      obtain ⟨⟨labels, h1⟩, h2⟩ := (Dns.C33_kept_in_lower_case s n).1 hn
      by_cases hd : n.getLast? = some '.'
      · simp only [hd, if_true, reduceCtorEq, false_iff]
        rintro ⟨n', labels', -, h3, h4, -⟩
        rw [h3, ← h2] at h4
        exact h4 hd
      · simp only [hd, if_false, Option.some.injEq]
        constructor
        · rintro rfl; exact ⟨n, labels, h1, h2, hd, rfl⟩
        · rintro ⟨n', labels', -, h3, -, rfl⟩
          rw [h2, h3]
  have hname : ∀ s n, Dns.Name.tryFrom s = some n ↔ ∃ labels, Dns.DnsName s labels ∧ n = s.map Text.lower := by
    intro s n
    rw [Dns.C33_kept_in_lower_case]
    constructor
    · rintro ⟨⟨l, h⟩, h2⟩; exact ⟨l, h, h2⟩
    · rintro ⟨l, h, h2⟩; exact ⟨⟨l, h⟩, h2⟩
  obtain ⟨tid, tname⟩ := t
  -- the identity
  have hid : ∀ id, (pb.strategy.bind fun
      | .dnsLike name => parseDnsName name
      | .uriLike uri => (parseUrl uri).map Id.uri) = some id ↔
      (∃ i, pb.strategy = some i ∧
        ((∃ s n labels, i = .dnsLike s ∧ Dns.DnsName s labels ∧ n = s.map Text.lower ∧ n.getLast? ≠ some '.' ∧
          id = .dns n) ∨ (∃ s u, i = .uriLike s ∧ parseUrl s = some u ∧ id = .uri u))) := by
    intro id
    match pb.strategy with
    | none => simp
    | some (.dnsLike s) => simp [hdns]
    | some (.uriLike s) => simp [eq_comm]
  rw [← hid]
  unfold toIdentity
  dsimp only
  generalize (pb.strategy.bind _) = o
  cases o with
  | none => simp
  | some id =>
    simp only [Option.some.injEq]
    cases hs : pb.serverName with
    | some s =>
      simp only [Option.map_eq_some_iff, ClientTls.mk.injEq, hname]
      constructor
      · rintro ⟨n, ⟨l, h1, h2⟩, rfl, rfl⟩; exact ⟨rfl, .inl ⟨s, l, rfl, h1, h2⟩⟩
      · rintro ⟨rfl, ⟨s', l, h0, h1, h2⟩ | ⟨h, -⟩⟩
        · simp only [Option.some.injEq] at h0
          subst h0
          exact ⟨tname, ⟨l, h1, h2⟩, rfl, rfl⟩
        · simp at h
    | none =>
      cases id with
      | dns n =>
        simp only [Option.map_some, Option.some.injEq, ClientTls.mk.injEq, reduceCtorEq, false_and, exists_const, false_or, true_and]
        constructor
        · rintro ⟨rfl, rfl⟩; exact ⟨rfl, rfl⟩
        · rintro ⟨rfl, h⟩; simpa using h
      | uri u =>
        simp only [Option.map_none, reduceCtorEq, false_and, exists_const, false_or, true_and, false_iff, not_and]
        rintro rfl h
        simp at h

/-- An endpoint whose identity cannot be read is not refused: it is used without an identity, that is without TLS. Here the
identity is a DNS name with a final dot, and a URI without a server name. -/
theorem C51_unreadable_identity_is_no_identity (parseUrl parseAuthority : Str → Option Str) :
    (∃ a m, toAddrMeta parseUrl parseAuthority [] ⟨some ⟨some (some (.v4 1)), 80⟩, 1, [],
      some ⟨some (.dnsLike "a.b.".toList), none⟩, none, none, none⟩ = some (a, m) ∧ m.identity = none) ∧
    (∃ a m, toAddrMeta parseUrl parseAuthority [] ⟨some ⟨some (some (.v4 1)), 80⟩, 1, [],
      some ⟨some (.uriLike "spiffe://a/b".toList), none⟩, none, none, none⟩ = some (a, m) ∧ m.identity = none) := by
  refine ⟨⟨_, _, rfl, ?_⟩, ⟨_, _, rfl, ?_⟩⟩
  · have : parseDnsName "a.b.".toList = none := by decide +kernel
    simp only [Option.bind_some, toIdentity, this]
  · cases h : parseUrl "spiffe://a/b".toList <;>
      simp only [Option.bind_some, toIdentity, h, Option.map_some, Option.map_none]

/-- HTTP/2 settings: a window is set only if both are positive, keep-alive only if both durations are given and not
negative; zero means unset. -/
theorem C51_http2 (pb : ApiH2) :
    ((toH2 pb).flowControl = some .adaptive ↔ ∃ f, pb.flowControl = some f ∧ f.adaptive = true) ∧
    (∀ c s, (toH2 pb).flowControl = some (.fixed c s) ↔
      0 < c ∧ 0 < s ∧ pb.flowControl = some ⟨false, c, s⟩) ∧
    (∀ i t w, (toH2 pb).keepAlive = some (i, t, w) ↔
      pb.keepAlive = some ⟨some (i : Int), some (t : Int), w⟩) ∧
    (∀ n, (toH2 pb).maxFrameSize = some n ↔ 0 < n ∧ ∃ x, pb.internals = some x ∧ x.maxFrameSize = n) ∧
    (∀ n, (toH2 pb).maxSendBufSize = some n ↔ 0 < n ∧ ∃ x, pb.internals = some x ∧ x.maxSendBufSize = n) ∧
    (∀ n, (toH2 pb).maxConcurrentResetStreams = some n ↔
      0 < n ∧ ∃ x, pb.internals = some x ∧ x.maxConcurrentResetStreams = n) := by
  have hpos : ∀ (o : Option ApiInternals) (f : ApiInternals → Nat) (n : Nat),
      (o.bind fun i => positive (f i)) = some n ↔ 0 < n ∧ ∃ x, o = some x ∧ f x = n := by
    intro o f n
    cases o with
    | none => simp
    | some x =>
      simp only [Option.bind_some, positive, Option.some.injEq, exists_eq_left']
      by_cases h : f x > 0
      · simp only [h, if_true, Option.some.injEq]
        constructor
        · rintro rfl; exact ⟨h, rfl⟩
        · exact fun h => h.2
      · simp only [h, if_false, reduceCtorEq, false_iff]
        rintro ⟨h1, rfl⟩; exact h h1
  have hdur : ∀ (d : Option Int) (n : Nat), d.bind duration = some n ↔ d = some (n : Int) := by
    intro d n
    cases d with
    | none => simp
    | some d =>
      simp only [Option.bind_some, duration, Option.some.injEq]
      by_cases h : 0 ≤ d
      · simp only [h, if_true, Option.some.injEq]; omega
      · simp only [h, if_false, reduceCtorEq, false_iff]; omega
  refine ⟨?_, ?_, ?_, fun n => hpos _ _ n, fun n => hpos _ _ n, fun n => hpos _ _ n⟩
  · simp only [toH2]
    cases pb.flowControl with
    | none => simp
    | some f =>
      obtain ⟨ad, c, s⟩ := f
      cases ad with
      | true => simp [toFlowControl]
      | false =>
        simp only [Option.bind_some, toFlowControl, Bool.false_eq_true, if_false]
        split
        · split <;> simp
        · simp
  · intro c s
    simp only [toH2]
    cases pb.flowControl with
    | none => simp
    | some f =>
      obtain ⟨ad, c', s'⟩ := f
      cases ad with
      | true => simp [toFlowControl]
      | false =>
        simp only [Option.bind_some, toFlowControl, Bool.false_eq_true, if_false, Option.some.injEq,
          ApiFlowControl.mk.injEq, true_and]
        by_cases h1 : c' > 0
        · by_cases h2 : s' > 0
          · simp only [h1, h2, if_true, Option.some.injEq, FlowControl.fixed.injEq]
            constructor
            · rintro ⟨rfl, rfl⟩; exact ⟨h1, h2, rfl, rfl⟩
            · rintro ⟨-, -, h⟩; exact h
          · simp only [h1, h2, if_true, if_false, reduceCtorEq, false_iff]
            rintro ⟨-, h, -, rfl⟩; exact h2 h
        · simp only [h1, if_false, reduceCtorEq, false_iff]
          rintro ⟨h, -, rfl, -⟩; exact h1 h
  · intro i t w
    simp only [toH2]
    cases pb.keepAlive with
    | none => simp
    | some k =>
      obtain ⟨ki, kt, kw⟩ := k
      simp only [Option.bind_some, toKeepAlive, Option.some.injEq, ApiKeepAlive.mk.injEq]
      rw [← hdur ki i, ← hdur kt t]
      cases h1 : ki.bind duration with
      | none => simp
      | some i' =>
        cases h2 : kt.bind duration with
        | none => simp
        | some t' => simp

/-! ## Concrete messages -/

private def up (s : Str) : Option Str := some s

example : toSockAddr ⟨some (some (.v6 0x20010db800000000 0x1)), 8080⟩ =
    some (.v6 [0x20, 0x01, 0x0d, 0xb8, 0, 0, 0, 0, 0, 0, 0, 0, 0, 0, 0, 1] 8080) := by decide +kernel
example : (updates up up
    [none, some (.add [⟨none, 1, [], none, none, none, none⟩] []),
     some (.add [⟨some ⟨some (some (.v4 1)), 80⟩, 7, [("a".toList, "own".toList)],
        some ⟨some (.dnsLike "Foo.ns".toList), none⟩, some ⟨some true, some 4143⟩, none, none⟩]
        [("a".toList, "set".toList), ("b".toList, "set".toList)]),
     some (.noEndpoints true), some (.noEndpoints false), some (.remove [⟨none, 1⟩])]) =
    [.add [(.v4 1 80, ⟨[("a".toList, "own".toList), ("b".toList, "set".toList)], .http2, some 4143,
      some ⟨.dns "foo.ns".toList, "foo.ns".toList⟩, none, 7, .default, none⟩)], .reset [], .doesNotExist] := by
  decide +kernel
example : Assoc.Distinct [("a".toList, "x".toList), ("b".toList, "x".toList)] := by
  simp [Assoc.Distinct]

end Verif.ApiResolve
