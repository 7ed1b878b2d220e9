import Verif.DnsResolve.Model
import Verif.Backoff.Props

/-!
# Property theorems: the addresses of the control plane (C93, C94)
-/

namespace Verif.DnsResolve

open Verif
open Verif.Addr (SocketAddr NameAddr)
open Verif.ServerPolicy (Ip)

/-! ## What is looked up -/

/-- The label of an IPv4 address in the target of an SRV record, with the octets `a`, `b`, `c` and `d`. -/
def label4 (a b c d : Nat) : Str := Text.decimal a ++ '-' :: Text.decimal b ++ '-' :: Text.decimal c ++ '-' :: Text.decimal d

theorem octet_decimal (n : Nat) (h : n < 256) : octet (Text.decimal n) = some n := by
  have hp := Text.parseUnsigned_decimal 255 n
  rw [if_pos (by omega)] at hp
  have key : (Text.decimal n).length ≤ 3 ∧ (Text.decimal n).head? ≠ some '+' ∧
      ((Text.decimal n).head? = some '0' → (Text.decimal n).tail = []) := by
    have dig : ∀ k, k < 10 → Char.ofNat (48 + k) ≠ '+' ∧ (Char.ofNat (48 + k) = '0' → k = 0) := by decide
    by_cases h1 : n < 10
    · rw [Text.decimal, if_pos h1]
      exact ⟨by simp, by simpa using (dig n h1).1, by simp⟩
    · rw [Text.decimal, if_neg h1]
      by_cases h2 : n / 10 < 10
      · rw [Text.decimal, if_pos h2]
        refine ⟨by simp, by simpa using (dig _ h2).1, fun e => ?_⟩
        simp only [List.cons_append, List.nil_append, List.head?_cons, Option.some.injEq] at e
        have := (dig _ h2).2 e
        omega
      · rw [Text.decimal, if_neg h2]
        have h3 : n / 10 / 10 < 10 := by omega
        rw [Text.decimal, if_pos h3]
        refine ⟨by simp, by simpa using (dig _ h3).1, fun e => ?_⟩
        simp only [List.cons_append, List.nil_append, List.head?_cons, Option.some.injEq] at e
        have := (dig _ h3).2 e
        omega
  unfold octet
  cases hs : Text.decimal n with
  | nil => exact absurd hs (Text.decimal_ne_nil n)
  | cons c r =>
    rw [hs] at key hp
    simp only [List.head?_cons, List.tail_cons, ne_eq, Option.some.injEq] at key
    simp only
    rw [if_neg key.2.1, if_neg (fun e => e.2 (key.2.2 e.1)), if_neg (by have := key.1; omega), hp]

theorem replace_of_not_mem (a b : Char) (s : Str) (h : a ∉ s) : replace a b s = s := by
  unfold replace
  induction s with
  | nil => rfl
  | cons c s ih =>
    simp only [List.mem_cons, not_or] at h
    rw [List.map_cons, ih h.2, if_neg (fun e => h.1 e.symm)]

theorem replace_append (a b : Char) (s t : Str) : replace a b (s ++ t) = replace a b s ++ replace a b t := List.map_append ..

theorem replace_cons (a b : Char) (s : Str) : replace a b (a :: s) = b :: replace a b s := by simp [replace]

theorem not_mem_decimal (c : Char) (hc : Text.digit? c = none) (n : Nat) : c ∉ Text.decimal n := by
  intro h
  have := Text.decimal_digit n c h
  rw [hc] at this
  cases this

theorem parse4_decimal (a b c d : Nat) (ha : a < 256) (hb : b < 256) (hc : c < 256) (hd : d < 256) :
    parse4 (Text.decimal a ++ '.' :: Text.decimal b ++ '.' :: Text.decimal c ++ '.' :: Text.decimal d) =
      some (((a * 256 + b) * 256 + c) * 256 + d) := by
  have hn : ∀ n, '.' ∉ Text.decimal n := not_mem_decimal '.' (by decide)
  unfold parse4
  simp only [List.append_assoc, List.cons_append]
  rw [Text.split_append _ _ _ (hn a), Text.split_append _ _ _ (hn b), Text.split_append _ _ _ (hn c), Text.split_of_no_sep _ _ (hn d)]
  simp only [octet_decimal _ ha, octet_decimal _ hb, octet_decimal _ hc, octet_decimal _ hd]

/-- C93. An SRV record whose target begins with the label `a-b-c-d` is the IPv4 address `a.b.c.d` at its port, for all addresses and
ports. -/
theorem C93_srv_v4 (parse6 : Str → Option Nat) (a b c d port : Nat) (ha : a < 256) (hb : b < 256) (hc : c < 256) (hd : d < 256)
    (rest : List (Option Str)) :
    srvAddr parse6 (some (label4 a b c d) :: rest) port = some ⟨.v4 (((a * 256 + b) * 256 + c) * 256 + d), port⟩ := by
  have hr : replace '-' '.' (label4 a b c d) =
      Text.decimal a ++ '.' :: Text.decimal b ++ '.' :: Text.decimal c ++ '.' :: Text.decimal d := by
    have hn : ∀ n, replace '-' '.' (Text.decimal n) = Text.decimal n :=
      fun n => replace_of_not_mem _ _ _ (not_mem_decimal '-' (by decide) n)
    unfold label4
    simp only [replace_append, replace_cons, hn]
  simp only [srvAddr, hr, parseIp, parse4_decimal a b c d ha hb hc hd, Option.some_or]

/-- C93. One whose target begins with an IPv6 address with `-` for `:` is that address, provided that no text without a `:` is an IPv6
address, and that the text does not have four parts. -/
theorem C93_srv_v6 (parse6 : Str → Option Nat) (h6 : ∀ s, ':' ∉ s → parse6 s = none) (t : Str) (ip port : Nat)
    (hp : parse6 t = some ip) (hd : '-' ∉ t ∧ '.' ∉ t)
    (hf : (Text.split ':' t).length = 4 → [] ∈ Text.split ':' t) (rest : List (Option Str)) :
    srvAddr parse6 (some (replace ':' '-' t) :: rest) port = some ⟨.v6 ip, port⟩ := by
  have h1 : replace '-' ':' (replace ':' '-' t) = t := by
    unfold replace
    rw [List.map_map]
    have : ∀ c ∈ t, ((fun c => if c = '-' then ':' else c) ∘ fun c => if c = ':' then '-' else c) c = c := by
      intro c hc
      simp only [Function.comp]
      by_cases e : c = ':'
      · simp [e]
      · have : c ≠ '-' := by rintro rfl; exact hd.1 hc
        rw [if_neg e, if_neg this]
    exact (List.map_congr_left this).trans (List.map_id _)
  have h2 : replace '-' '.' (replace ':' '-' t) = replace ':' '.' t := by
    unfold replace
    rw [List.map_map]
    refine List.map_congr_left fun c hc => ?_
    simp only [Function.comp]
    by_cases e : c = ':'
    · simp [e]
    · have : c ≠ '-' := by rintro rfl; exact hd.1 hc
      rw [if_neg e, if_neg this, if_neg e]
  have hs : ∀ t : Str, '.' ∉ t → Text.split '.' (replace ':' '.' t) = Text.split ':' t := by
    intro t
    induction t with
    | nil => intro; rfl
    | cons c t ih =>
      intro h
      simp only [List.mem_cons, not_or] at h
      have e : replace ':' '.' (c :: t) = (if c = ':' then '.' else c) :: replace ':' '.' t := rfl
      rw [e]
      unfold Text.split
      by_cases hc : c = ':'
      · rw [if_pos (by rw [if_pos hc]), if_pos hc, ih h.2]
      · rw [if_neg (by rw [if_neg hc]; exact fun e => h.1 e.symm), if_neg hc, ih h.2, if_neg hc]
  have h4 : parse4 (replace ':' '.' t) = none := by
    unfold parse4
    rw [hs t hd.2]
    split
    · rename_i a b c d heq
      rw [heq] at hf
      have := hf rfl
      simp only [List.mem_cons, List.not_mem_nil, or_false] at this
      rcases this with rfl | rfl | rfl | rfl
      · simp [octet]
      · simp [octet]
      · simp [octet]
      · simp [octet]
    · rfl
  have h5 : parse4 t = none := by
    unfold parse4
    rw [Text.split_of_no_sep _ _ hd.2]
  have h6' : parse6 (replace ':' '.' t) = none := by
    refine h6 _ ?_
    unfold replace
    simp only [List.mem_map, not_exists, not_and]
    intro c _
    by_cases e : c = ':'
    · rw [if_pos e]; decide
    · rw [if_neg e]; exact e
  simp only [srvAddr, h1, h2, parseIp, h4, h6', h5, hp, Option.map_none, Option.map_some, Option.none_or]

/-- C93. A record that is not an address makes the lookup of SRV records fail; other records are passed over. -/
theorem C93_srv_addresses (parse6 : Str → Option Nat) (rs : List Record) :
    (∀ as, srvAddrs parse6 rs = some as ↔
      as.map some = (rs.filter fun r => r != .other).map (fun r => match r with | .srv t p => srvAddr parse6 t p | .other => none)) ∧
    (srvAddrs parse6 rs = none ↔ ∃ t p, .srv t p ∈ rs ∧ srvAddr parse6 t p = none) := by
  induction rs with
  | nil =>
    refine ⟨fun as => ?_, by simp [srvAddrs]⟩
    cases as <;> simp [srvAddrs]
  | cons r rs ih =>
    cases r with
    | other => simpa [srvAddrs] using ih
    | srv t p =>
      cases h : srvAddr parse6 t p with
      | none =>
        constructor
        · intro as
          simp only [srvAddrs, h, reduceCtorEq, false_iff]
          cases as <;> simp [h]
        · simp only [srvAddrs, h, true_iff]
          exact ⟨t, p, by simp, h⟩
      | some a =>
        constructor
        · intro as
          cases as with
          | nil => simp [srvAddrs, h]
          | cons a' as =>
            have := ih.1 as
            simp only [srvAddrs, h, Option.map_eq_some_iff, List.cons.injEq, List.map_cons]
            simp only [ne_eq, reduceCtorEq, not_false_eq_true, bne_iff_ne, List.filter_cons_of_pos, List.map_cons,
              List.cons.injEq, h, Option.some.injEq]
            rw [← this]
            constructor
            · rintro ⟨as', e, rfl, rfl⟩; exact ⟨rfl, e⟩
            · rintro ⟨rfl, e⟩; exact ⟨as, e, rfl, rfl⟩
        · simp only [srvAddrs, h, Option.map_eq_none_iff, ih.2]
          constructor
          · rintro ⟨t', p', hm, hn⟩; exact ⟨t', p', List.mem_cons_of_mem _ hm, hn⟩
          · rintro ⟨t', p', hm, hn⟩
            rcases List.mem_cons.1 hm with e | hm
            · cases e; rw [h] at hn; cases hn
            · exact ⟨t', p', hm, hn⟩

/-- C93. A name resolves to what its SRV records say if they can be looked up and are all addresses, and else to its A and AAAA records
at the port that was asked for. It fails exactly if both fail. -/
theorem C93_srv_then_a (parse6 : Str → Option Nat) (srv : Except NetError (Found Record)) (a : Except NetError (Found Ip)) (port : Nat) :
    (∀ rs u as, srv = .ok ⟨rs, u⟩ → srvAddrs parse6 rs = some as →
      resolveAddrs parse6 srv a port = ([.srvResolved], .ok ⟨as, u⟩)) ∧
    ((∃ e, srv = .error e) ∨ (∃ rs u, srv = .ok ⟨rs, u⟩ ∧ srvAddrs parse6 rs = none) →
      (∀ ips u, a = .ok ⟨ips, u⟩ →
        resolveAddrs parse6 srv a port = ([.srvNotFound, .aResolved], .ok ⟨ips.map fun ip => ⟨ip, port⟩, u⟩)) ∧
      (∀ e, a = .error e → ∃ se, resolveAddrs parse6 srv a port = ([.srvNotFound, .aNotFound], .error ⟨e, se⟩) ∧
        ∀ e', se = .resolve e' ↔ srv = .error e')) := by
  refine ⟨?_, ?_⟩
  · rintro rs u as rfl h
    simp only [resolveAddrs, resolveSrv, h]
  · intro h
    have : ∃ se, resolveSrv parse6 srv = .error se ∧ ∀ e', se = .resolve e' ↔ srv = .error e' := by
      rcases h with ⟨e, rfl⟩ | ⟨rs, u, rfl, h⟩
      · exact ⟨.resolve e, rfl, by simp⟩
      · exact ⟨.invalid, by simp [resolveSrv, h], by simp⟩
    obtain ⟨se, hs, hse⟩ := this
    refine ⟨?_, ?_⟩
    · rintro ips u rfl
      simp only [resolveAddrs, hs]
    · rintro e rfl
      exact ⟨se, by simp only [resolveAddrs, hs], hse⟩

/-- C93. How long a failure is to be remembered: as the answer for A records says, or else the one for SRV records; at least five
seconds. -/
theorem C93_negative_ttl (e : Error) (d : Nat) :
    e.negativeTtl = some d ↔
      ∃ secs, d = max (5 * 1000000000) (secs * 1000000000) ∧
        (e.a = .noRecords (some secs) ∨
          ((∀ s, e.a ≠ .noRecords (some s)) ∧ e.srv = .resolve (.noRecords (some secs)))) := by
  have hmax : ∀ n : Nat, (if n < 5 * 1000000000 then 5 * 1000000000 else n) = max (5 * 1000000000) n := by
    intro n
    by_cases h : n < 5 * 1000000000
    · rw [if_pos h]; omega
    · rw [if_neg h]; omega
  have hof : ∀ (x : NetError) d, negativeTtlOf x = some d ↔
      ∃ secs, d = max (5 * 1000000000) (secs * 1000000000) ∧ x = .noRecords (some secs) := by
    intro x d
    unfold negativeTtlOf
    split
    · rename_i secs
      simp only [Option.some.injEq, withMinimumDuration, minimumTtl, NetError.noRecords.injEq]
      constructor
      · rintro rfl
        refine ⟨secs, ?_, rfl⟩
        exact hmax _
      · rintro ⟨s, rfl, rfl⟩
        exact hmax _
    · rename_i h
      simp only [reduceCtorEq, false_iff]
      rintro ⟨s, -, rfl⟩
      exact h s rfl
  unfold Error.negativeTtl
  split
  · rename_i ttl h
    obtain ⟨secs, hd, he⟩ := (hof _ _).1 h
    constructor
    · rintro ⟨⟩
      exact ⟨secs, hd, .inl he⟩
    · rintro ⟨s, hd', h' | ⟨h', -⟩⟩
      · rw [he] at h'; cases h'; rw [hd, hd']
      · exact absurd he (h' _)
  · rename_i h
    have hne : ∀ s, e.a ≠ .noRecords (some s) := by
      intro s hs
      have := (hof e.a _).2 ⟨s, rfl, hs⟩
      rw [h] at this
      cases this
    split
    · rename_i se hse
      rw [hof]
      constructor
      · rintro ⟨s, hd, rfl⟩; exact ⟨s, hd, .inr ⟨hne, hse⟩⟩
      · rintro ⟨s, hd, h' | ⟨-, h'⟩⟩
        · exact absurd h' (hne s)
        · rw [hse] at h'; cases h'; exact ⟨s, hd, rfl⟩
    · rename_i hse
      simp only [reduceCtorEq, false_iff]
      rintro ⟨s, -, h' | ⟨-, h'⟩⟩
      · exact hne s h'
      · rw [hse] at h'; cases h'

/-- C93. Socket addresses and `localhost.` are not looked up. -/
theorem C93_what_is_looked_up (a : Addr.Addr) :
    (∀ s, a = .socket s → plan a = .fixed s) ∧
    (∀ n, a = .name n → Text.eqIgnoreCase n.name "localhost.".toList = true → plan a = .fixed ⟨.v4 0x7f000001, n.port⟩) ∧
    (∀ n, a = .name n → Text.eqIgnoreCase n.name "localhost.".toList = false → plan a = .dns n) := by
  refine ⟨?_, ?_, ?_⟩
  · rintro s rfl; rfl
  · rintro n rfl h; simp only [plan, Dns.Name.isLocalhost, h, if_true, localhost]
  · rintro n rfl h; simp only [plan, Dns.Name.isLocalhost, h]; rfl

/-- C93. A request to the control plane is sent with the scheme `http` and the authority that is configured, and is otherwise unchanged;
a request with a path never panics. -/
theorem C93_origin (authority : Str) (r : H1.Req) :
    (∀ q, addOrigin authority r = some q ↔ r.uri.pathAndQuery ≠ none ∧
      q = { r with uri := ⟨some "http".toList, some authority, r.uri.pathAndQuery⟩ }) ∧
    (addOrigin authority r = none ↔ r.uri.pathAndQuery = none) := by
  unfold addOrigin H1.Uri.fromParts
  cases h : r.uri.pathAndQuery with
  | none => simp
  | some p => simp [eq_comm]

/-- C93. Whatever DNS says, the control plane is connected to at that address with the identity that is configured. -/
theorem C93_identity_is_fixed {τ : Type} (identity : τ) (as : List SocketAddr) :
    ∀ t ∈ as.map (targetOf identity), t.tls = identity ∧ t.addr ∈ as := by
  intro t ht
  obtain ⟨a, ha, rfl⟩ := List.mem_map.1 ht
  exact ⟨rfl, ha⟩

/-- C93, a limit. An answer to the lookup of SRV records with records of other types only leaves the control plane without addresses:
A records are not asked for. -/
theorem C93_limit_other_records (parse6 : Str → Option Nat) (a : Except NetError (Found Ip)) (port u : Nat) :
    resolveAddrs parse6 (.ok ⟨[.other], u⟩) a port = ([.srvResolved], .ok ⟨[], u⟩) := rfl

/-! Concrete cases. -/

example : srvAddr (fun _ => none) [some "10-0-0-7".toList, some "linkerd-dst".toList] 8086 =
    some ⟨.v4 (10 * 2 ^ 24 + 7), 8086⟩ := by decide +kernel

example : srvAddr (fun _ => none) [some "010-0-0-7".toList] 8086 = none ∧ srvAddr (fun _ => none) [some "10-0-7".toList] 8086 = none ∧
    srvAddr (fun _ => none) [some "10-0-0-256".toList] 8086 = none ∧ srvAddr (fun _ => none) [] 8086 = none := by
  decide +kernel

example : srvAddr (fun s => if s = "fd00::7".toList then some 7 else none) [some "fd00--7".toList] 8086 = some ⟨.v6 7, 8086⟩ := by
  decide +kernel

example : (resolveAddrs (fun _ => none) (.ok ⟨[.srv [some "web".toList] 1], 9⟩) (.ok ⟨[.v4 1, .v4 2], 7⟩) 80).1 =
    [.srvNotFound, .aResolved] := by decide +kernel

example : Error.negativeTtl ⟨.other, .resolve (.noRecords (some 30))⟩ = some 30000000000 ∧
    Error.negativeTtl ⟨.noRecords (some 1), .resolve (.noRecords (some 30))⟩ = some 5000000000 := by decide +kernel

end Verif.DnsResolve
