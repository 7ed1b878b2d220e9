import Verif.Addr.Model
import Verif.Dns.Props
import Verif.ServerPolicy.AuthzProps

/-!
# C35: address matching; C62: addresses survive being written and read
-/

namespace Verif.Addr

open Verif.Text Verif.Dns
open Verif.ServerPolicy (Ip IpNet Within)

/-! ## C35 -/

/-- The last labels of a name, or all of it: what a configured suffix stands for. -/
def Covers : Suffix → List Str → Prop
  | .root, _ => True
  | .name s, nl => ∃ sl, DnsName s sl ∧ sl <:+ nl

/-- A name matches exactly when its last labels are one of the configured suffixes. -/
theorem C35_name_matches_iff (m : AddrMatch) (a : NameAddr) (nl : List Str) (hn : DnsName a.name nl)
    (hm : ∀ s, .name s ∈ m.names → ∃ sl, DnsName s sl) :
    m.matches (.name a) = true ↔ ∃ sfx ∈ m.names, Covers sfx nl := by
  simp only [AddrMatch.matches, nameMatches, List.any_eq_true]
  constructor
  · rintro ⟨sfx, h1, h2⟩
    refine ⟨sfx, h1, ?_⟩
    cases sfx with
    | root => trivial
    | name s =>
      obtain ⟨sl, hs⟩ := hm s h1
      exact ⟨sl, hs, (C34_contains_iff _ _ _ _ hn hs).1 h2⟩
  · rintro ⟨sfx, h1, h2⟩
    refine ⟨sfx, h1, ?_⟩
    cases sfx with
    | root => rfl
    | name s =>
      obtain ⟨sl, hs, h3⟩ := h2
      exact (C34_contains_iff _ _ _ _ hn hs).2 h3

/-- An IP address matches exactly when it has the leading bits of a configured network of its family. -/
theorem C35_ip_matches_iff (m : AddrMatch) (a : SocketAddr) :
    m.matches (.socket a) = true ↔ ∃ net ∈ m.nets, Within net a.ip := by
  simp only [AddrMatch.matches, ipMatches, List.any_eq_true]
  constructor
  · rintro ⟨net, h1, h2⟩
    refine ⟨net, h1, (ServerPolicy.contains_iff net a.ip).1 ?_⟩
    cases net <;> cases hi : a.ip <;> simp_all
  · rintro ⟨net, h1, h2⟩
    refine ⟨net, h1, ?_⟩
    have := (ServerPolicy.contains_iff net a.ip).2 h2
    cases net <;> cases hi : a.ip <;> simp_all [Within]

/-- A match without names matches no name, one without networks no IP address, and an empty one nothing. -/
theorem C35_empty (m : AddrMatch) :
    (m.names = [] → ∀ n, m.matches (.name n) = false) ∧ (m.nets = [] → ∀ a, m.matches (.socket a) = false) ∧
    (m.isEmpty = true → ∀ a, m.matches a = false) := by
  refine ⟨fun h n => by simp [AddrMatch.matches, nameMatches, h], fun h n => by simp [AddrMatch.matches, ipMatches, h],
    fun h a => ?_⟩
  simp only [AddrMatch.isEmpty, Bool.and_eq_true, List.isEmpty_iff] at h
  cases a <;> simp [AddrMatch.matches, nameMatches, ipMatches, h]

/-- A match accepts at least what each of its parts accepts: adding names or networks never takes an address away. -/
theorem C35_monotone (m m' : AddrMatch) (hn : m.names ⊆ m'.names) (ha : m.nets ⊆ m'.nets) (a : Addr)
    (h : m.matches a = true) : m'.matches a = true := by
  cases a with
  | name n =>
    simp only [AddrMatch.matches, nameMatches, List.any_eq_true] at h ⊢
    obtain ⟨s, h1, h2⟩ := h
    exact ⟨s, hn h1, h2⟩
  | socket n =>
    rw [C35_ip_matches_iff] at h ⊢
    obtain ⟨s, h1, h2⟩ := h
    exact ⟨s, ha h1, h2⟩

/-! ## C62 -/

theorem takeWhile_append_stop (c : Char) (a b : Str) (h : c ∉ a) :
    (a ++ c :: b).takeWhile (· != c) = a ∧ (a ++ c :: b).dropWhile (· != c) = c :: b := by
  induction a with
  | nil => simp
  | cons x a ih =>
    have hx : x ≠ c := fun he => h (by simp [he])
    have := ih (fun hm => h (by simp [hm]))
    simp [hx, this]

theorem rsplit2_some (s l r : Str) :
    rsplit2 ':' s = (r, some l) ↔ s = l ++ ':' :: r ∧ ':' ∉ r := by
  constructor
  · intro h
    unfold rsplit2 at h
    split at h
    · simp at h
    · rename_i x rest hd
      simp only [Prod.mk.injEq, Option.some.injEq] at h
      obtain ⟨rfl, rfl⟩ := h
      have hx : x = ':' := by
        have := List.head?_dropWhile_not (fun c : Char => c != ':') s.reverse
        rw [hd] at this
        simpa using this
      subst hx
      refine ⟨?_, ?_⟩
      · have := List.takeWhile_append_dropWhile (p := fun c : Char => c != ':') (l := s.reverse)
        rw [hd] at this
        have := congrArg List.reverse this
        simpa using this.symm
      · intro hm
        rw [List.mem_reverse] at hm
        have := List.all_takeWhile (p := fun c : Char => c != ':') (l := s.reverse)
        rw [List.all_eq_true] at this
        simpa using this _ hm
  · rintro ⟨rfl, h⟩
    have hr : (l ++ ':' :: r).reverse = r.reverse ++ ':' :: l.reverse := by simp
    have h' : ':' ∉ r.reverse := by simpa using h
    obtain ⟨h1, h2⟩ := takeWhile_append_stop ':' r.reverse l.reverse h'
    simp only [rsplit2, hr, h1, h2, List.reverse_reverse]

theorem ofHost_iff (host : Str) (port : Nat) (a : NameAddr) :
    NameAddr.ofHost host port = .ok a ↔ (∃ labels, DnsName host labels) ∧ a = ⟨host.map lower, port⟩ := by
  unfold NameAddr.ofHost
  cases hn : Name.tryFrom host with
  | none =>
    have : ¬ ∃ labels, DnsName host labels := fun h => by
      rw [(C33_kept_in_lower_case host _).2 ⟨h, rfl⟩] at hn; cases hn
    cases hb : host.isEmpty <;> simp [this]
  | some n =>
    obtain ⟨h1, rfl⟩ := (C33_kept_in_lower_case host n).1 hn
    have hne : host.isEmpty = false := by
      cases host with
      | nil => exact absurd hn (by decide)
      | cons a b => rfl
    simp [hne, h1, eq_comm]

/-- A host-port pair is read as a name exactly when it is a DNS name, a colon and a port number (in decimal, perhaps
with a plus sign); the name is kept in lower case. -/
theorem C62_parse_iff (s : Str) (a : NameAddr) :
    NameAddr.parse s = .ok a ↔ ∃ host port, s = host ++ ':' :: port ∧ (∃ labels, DnsName host labels) ∧
      a.name = host.map lower ∧ a.port ≤ 65535 ∧ (Numeral port a.port ∨ ∃ r, port = '+' :: r ∧ Numeral r a.port) := by
  have nocolon : ∀ p n, Numeral p n → ':' ∉ p := by
    intro p n hp hm
    have := hp.2.1 _ hm
    exact absurd this (by decide)
  unfold NameAddr.parse
  constructor
  · intro h
    obtain ⟨r, l?⟩ : Str × Option Str := rsplit2 ':' s
    generalize hr : rsplit2 ':' s = parts at h
    obtain ⟨r, l?⟩ := parts
    dsimp only at h
    cases hp : parseUnsigned 65535 r with
    | none => simp [hp] at h
    | some port =>
      cases l? with
      | none => simp [hp] at h
      | some host =>
        simp only [hp, ofHost_iff] at h
        obtain ⟨h1, rfl⟩ := h
        obtain ⟨h2, _⟩ := (rsplit2_some s host r).1 hr
        obtain ⟨h3, h4⟩ := (parseUnsigned_iff 65535 r port).1 hp
        exact ⟨host, r, h2, h1, rfl, h3, h4⟩
  · rintro ⟨host, port, h1, h2, h3, h4, h5⟩
    have hc : ':' ∉ port := by
      rcases h5 with h | ⟨r, rfl, h⟩
      · exact nocolon _ _ h
      · have := nocolon _ _ h
        simp [this]
    rw [(rsplit2_some s host port).2 ⟨h1, hc⟩]
    simp only [(parseUnsigned_iff 65535 port a.port).2 ⟨h4, h5⟩]
    rw [ofHost_iff]
    refine ⟨h2, ?_⟩
    cases a
    simp_all

/-- A name as the proxy keeps it: in lower case. -/
def Kept (n : Str) : Prop := Name.tryFrom n = some n

theorem kept_without_dot (n : Str) (labels : List Str) (h : DnsName n labels) (hk : Kept n) :
    Name.tryFrom (Name.withoutTrailingDot n) = some (Name.withoutTrailingDot n) := by
  have hl := ((C33_kept_in_lower_case n n).1 hk).2
  rw [C33_without_trailing_dot n labels h]
  have hlen : (join '.' labels).length ≤ 253 := by
    rcases h.spells with h1 | h1
    · rw [← h1]; exact h.size
    · have := h.size; rw [h1, List.length_append] at this; omega
  refine (C33_kept_in_lower_case _ _).2 ⟨⟨labels, hlen, .inl rfl, h.labels, h.last⟩, ?_⟩
  rcases h.spells with h1 | h1
  · rw [h1] at hl; exact hl
  · rw [h1, List.map_append] at hl
    exact (List.append_inj' hl rfl).1

/-- A name address that is written and read is the same name, but for its final dot, and the same port. -/
theorem C62_text_round_trip (a : NameAddr) (labels : List Str) (h : DnsName a.name labels) (hk : Kept a.name)
    (hp : a.port ≤ 65535) :
    NameAddr.parse a.display = .ok ⟨Name.withoutTrailingDot a.name, a.port⟩ := by
  have hw := kept_without_dot a.name labels h hk
  have hv := (C33_kept_in_lower_case _ _).1 hw
  exact (C62_parse_iff _ _).2 ⟨_, _, rfl, hv.1, hv.2, hp, .inl (numeral_decimal _)⟩

/-- So too over an HTTP authority that is read with the default port 80. -/
theorem C62_authority_round_trip (a : NameAddr) (labels : List Str) (h : DnsName a.name labels) (hk : Kept a.name) :
    NameAddr.ofAuthority a.authority 80 = .ok ⟨Name.withoutTrailingDot a.name, a.port⟩ := by
  have hv := (C33_kept_in_lower_case _ _).1 (kept_without_dot a.name labels h hk)
  unfold NameAddr.ofAuthority NameAddr.authority
  split
  · rename_i hp
    exact (ofHost_iff _ _ _).2 ⟨hv.1, by rw [← hv.2, hp]; rfl⟩
  · exact (ofHost_iff _ _ _).2 ⟨hv.1, by rw [← hv.2]; rfl⟩

/-- The authority names the port exactly when it is not 80. -/
theorem C62_authority_port (a : NameAddr) : a.authority.port = none ↔ a.port = 80 := by
  unfold NameAddr.authority
  split <;> simp_all

/-- With a default other than 80, an address on port 80 that was written as an authority is read with the wrong
port, and where a port is required it is not read at all. -/
theorem C62_port_80_depends_on_the_default (a : NameAddr) (labels : List Str) (h : DnsName a.name labels)
    (hk : Kept a.name) (hp : a.port = 80) (d : Nat) :
    NameAddr.ofAuthority a.authority d = .ok ⟨Name.withoutTrailingDot a.name, d⟩ ∧
    NameAddr.ofAuthorityWithPort a.authority = .error .missingPort := by
  have hv := (C33_kept_in_lower_case _ _).1 (kept_without_dot a.name labels h hk)
  refine ⟨?_, by simp [NameAddr.ofAuthorityWithPort, NameAddr.authority, hp]⟩
  unfold NameAddr.ofAuthority NameAddr.authority
  rw [if_pos hp]
  exact (ofHost_iff _ _ _).2 ⟨hv.1, by rw [← hv.2]; rfl⟩

/-- Text that reads as an IP address is one; otherwise it must be a name, with the port that is given. -/
theorem C62_ip_first (parseIp : Str → Option Ip) (host : Str) (port : Nat) (a : Addr) :
    Addr.ofHost parseIp host port = .ok a ↔
      (∃ ip, parseIp host = some ip ∧ a = .socket ⟨ip, port⟩) ∨
      (parseIp host = none ∧ (∃ labels, DnsName host labels) ∧ a = .name ⟨host.map lower, port⟩) := by
  unfold Addr.ofHost
  cases hi : parseIp host with
  | some ip => simp [eq_comm]
  | none =>
    cases ho : NameAddr.ofHost host port with
    | error e =>
      have : ¬ ∃ labels, DnsName host labels := fun h => by
        rw [(ofHost_iff host port _).2 ⟨h, rfl⟩] at ho; cases ho
      simp [Except.map, this]
    | ok n =>
      obtain ⟨h1, rfl⟩ := (ofHost_iff host port n).1 ho
      simp [Except.map, h1, eq_comm]

/-- Which failure is reported: a port that cannot be read comes before everything else. -/
theorem C62_errors (s : Str) :
    (NameAddr.parse s = .error .missingPort ↔ parseUnsigned 65535 (rsplit2 ':' s).1 = none) ∧
    (':' ∉ s → ∀ a, NameAddr.parse s ≠ .ok a) := by
  constructor
  · unfold NameAddr.parse
    cases hp : parseUnsigned 65535 (rsplit2 ':' s).1 with
    | none => simp [hp]
    | some p =>
      cases hl : (rsplit2 ':' s).2 with
      | none => simp [hl, hp]
      | some host =>
        simp only [hl, hp, reduceCtorEq, iff_false]
        unfold NameAddr.ofHost
        split
        · simp
        · split <;> simp
  · intro h a ha
    obtain ⟨host, port, h1, _⟩ := (C62_parse_iff s a).1 ha
    exact h (by simp [h1])

/-! ## Concrete cases -/

example : (NameAddr.parse "Web.Svc.:8080".toList).toOption = some ⟨"web.svc.".toList, 8080⟩ := by decide +kernel
example : NameAddr.display ⟨"web.svc.".toList, 8080⟩ = "web.svc:8080".toList := by decide +kernel
example : Kept "web.svc.".toList ∧ (⟨"web.svc.".toList, 80⟩ : NameAddr).authority = ⟨"web.svc".toList, none⟩ := by
  unfold Kept; decide +kernel
example : (AddrMatch.mk [.name "svc.cluster.local".toList] [.v4 (10 * 2 ^ 24) 8]).matches
      (.name ⟨"web.svc.cluster.local".toList, 80⟩) = true ∧
    (AddrMatch.mk [.name "svc.cluster.local".toList] [.v4 (10 * 2 ^ 24) 8]).matches
      (.socket ⟨.v4 (10 * 2 ^ 24 + 77), 80⟩) = true ∧
    (AddrMatch.mk [.name "svc.cluster.local".toList] [.v4 (10 * 2 ^ 24) 8]).matches
      (.name ⟨"websvc.cluster.local".toList, 80⟩) = false := by decide +kernel

/-- Loopback addresses: the name `localhost.`, the block 127.0.0.0/8 and `::1`. -/
theorem C62_loopback (n : NameAddr) (p a : Nat) :
    ((Addr.name n).isLoopback = true ↔ n.name.map Text.lower = "localhost.".toList) ∧
    ((Addr.socket ⟨.v4 a, p⟩).isLoopback = true ↔ 127 * 2 ^ 24 ≤ a ∧ a < 128 * 2 ^ 24) ∧
    ((Addr.socket ⟨.v6 a, p⟩).isLoopback = true ↔ a = 1) := by
  refine ⟨?_, ?_, ?_⟩
  · simp only [Addr.isLoopback, Name.isLocalhost, eqIgnoreCase, beq_iff_eq]
    have : List.map Text.lower "localhost.".toList = "localhost.".toList := by decide +kernel
    rw [this]
  · simp only [Addr.isLoopback, isLoopbackIp, beq_iff_eq]; omega
  · simp only [Addr.isLoopback, isLoopbackIp, beq_iff_eq]

example : (Addr.socket ⟨.v4 (127 * 2 ^ 24 + 5), 80⟩).isLoopback = true := by decide +kernel
example : (Addr.name ⟨"localhost".toList, 80⟩).isLoopback = false := by decide +kernel

end Verif.Addr
