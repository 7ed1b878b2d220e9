import Verif.ServerPolicy.Authz

/-!
# C28: inbound authorization is exactly network and identity match
-/

namespace Verif.ServerPolicy

open Verif.HttpRoute (Str)

/-! ## Specification -/

/-- The address has the network's leading bits. -/
def Within (net : IpNet) (ip : Ip) : Prop :=
  match net, ip with
  | .v4 a len, .v4 b => ∀ i, 32 - len ≤ i → a.testBit i = b.testBit i
  | .v6 a len, .v6 b => ∀ i, 128 - len ≤ i → a.testBit i = b.testBit i
  | _, _ => False

/-- The client is in one of the networks and in none of that network's exceptions. -/
def FromNetwork (nets : List Network) (ip : Ip) : Prop :=
  ∃ n ∈ nets, Within n.net ip ∧ ∀ x ∈ n.except, ¬ Within x ip

/-- What a policy entry asks of the client's TLS. -/
def TlsMeets (a : Authentication) (tls : Tls) : Prop :=
  match a with
  | .unauthenticated => True
  | .tlsUnauthenticated => ∃ id, tls = .established id
  | .tlsAuthenticated identities suffixes => ∃ id, tls = .established (some id) ∧
      (id.text ∈ identities ∨ ∃ name, id = .dns name ∧ ∃ s ∈ suffixes, s <:+ name)

/-- A policy entry admits a client. -/
def Admits (a : Authorization) (ip : Ip) (tls : Tls) : Prop :=
  FromNetwork a.networks ip ∧ TlsMeets a.authentication tls

/-! ## Lemmas -/

theorem div_eq_iff_testBit (k a b : Nat) : a / 2 ^ k = b / 2 ^ k ↔ ∀ i, k ≤ i → a.testBit i = b.testBit i := by
  constructor
  · intro h i hi
    have := congrArg (Nat.testBit · (i - k)) h
    simp only [← Nat.shiftRight_eq_div_pow, Nat.testBit_shiftRight] at this
    rwa [show k + (i - k) = i by omega] at this
  · intro h
    apply Nat.eq_of_testBit_eq
    intro i
    simp only [← Nat.shiftRight_eq_div_pow, Nat.testBit_shiftRight]
    exact h _ (by omega)

theorem range_iff (k a b : Nat) :
    networkAddr k a ≤ b ∧ b ≤ broadcastAddr k a ↔ a / 2 ^ k = b / 2 ^ k := by
  have hpos : 0 < 2 ^ k := Nat.two_pow_pos k
  simp only [networkAddr, broadcastAddr]
  generalize 2 ^ k = m at *
  have ha := Nat.div_add_mod a m
  have hb := Nat.div_add_mod b m
  have hma := Nat.mod_lt a hpos
  have hmb := Nat.mod_lt b hpos
  have e : a - a % m = m * (a / m) := by omega
  rw [e]
  constructor
  · rintro ⟨h1, h2⟩
    have l1 : m * (a / m) < m * (b / m + 1) := by rw [Nat.mul_add]; omega
    have l2 : m * (b / m) < m * (a / m + 1) := by rw [Nat.mul_add]; omega
    have l1 := Nat.lt_of_mul_lt_mul_left l1
    have l2 := Nat.lt_of_mul_lt_mul_left l2
    omega
  · intro h
    rw [h]
    omega

theorem contains_iff (net : IpNet) (ip : Ip) : net.contains ip = true ↔ Within net ip := by
  cases net <;> cases ip <;> simp [IpNet.contains, Within, range_iff, div_eq_iff_testBit]

theorem network_iff (n : Network) (ip : Ip) :
    n.contains ip = true ↔ Within n.net ip ∧ ∀ x ∈ n.except, ¬ Within x ip := by
  simp only [Network.contains, Bool.and_eq_true, contains_iff, Bool.not_eq_true', List.any_eq_false]

theorem endsWith_iff (s t : Str) : endsWith s t = true ↔ t <:+ s := by
  simp only [endsWith, Bool.and_eq_true, decide_eq_true_eq, beq_iff_eq]
  constructor
  · rintro ⟨_, h⟩
    exact ⟨s.take (s.length - t.length), by
      have := List.take_append_drop (s.length - t.length) s
      rwa [h] at this⟩
  · rintro ⟨p, rfl⟩
    simp

theorem tls_iff (a : Authorization) (tls : Tls) :
    isTlsAuthorized tls a = true ↔ TlsMeets a.authentication tls := by
  unfold isTlsAuthorized TlsMeets
  cases a.authentication with
  | unauthenticated => simp
  | tlsUnauthenticated => cases tls <;> simp
  | tlsAuthenticated ids sfx =>
    rcases tls with (_ | (n | u)) | _ | _ <;> simp [Id.text, Suffix.contains, endsWith_iff]

/-! ## Theorems -/

/-- A policy entry authorizes a client exactly when the client comes from one of its networks and its TLS
meets what the entry asks. -/
theorem C28_authorized_iff (a : Authorization) (ip : Ip) (tls : Tls) :
    isAuthorized a ip tls = true ↔ Admits a ip tls := by
  unfold isAuthorized Admits FromNetwork
  by_cases h : a.networks.any (·.contains ip) = true
  · rw [if_neg (by simpa using h), tls_iff]
    simp only [List.any_eq_true, network_iff] at h
    simp [h]
  · rw [if_pos (by simpa using h)]
    simp only [List.any_eq_true, network_iff] at h
    simp [h]

/-- A client that gave no identity never satisfies an entry that asks for one, whatever the entry's
identities and suffixes. -/
theorem C28_no_identity_is_refused (a : Authorization) (ids : List Str) (sfx : List Suffix) (ip : Ip) (tls : Tls)
    (ha : a.authentication = .tlsAuthenticated ids sfx) (ht : ∀ id, tls ≠ .established (some id)) :
    isAuthorized a ip tls = false := by
  rw [← Bool.not_eq_true, C28_authorized_iff]
  rintro ⟨_, h⟩
  simp only [ha, TlsMeets] at h
  obtain ⟨id, h, _⟩ := h
  exact ht id h

/-- A list of entries admits a client exactly when some entry of it does: nobody, if it is empty. -/
theorem C28_refused_iff (l : List Authorization) (ip : Ip) (tls : Tls) :
    admitting l ip tls = none ↔ ∀ a ∈ l, ¬ Admits a ip tls := by
  simp [admitting, List.find?_eq_none, ← C28_authorized_iff]

/-- The entry that is named as the one authorizing the client is the first that admits it. -/
theorem C28_named_entry_is_the_first (l : List Authorization) (ip : Ip) (tls : Tls) (a : Authorization) :
    admitting l ip tls = some a ↔
      ∃ before after, l = before ++ a :: after ∧ Admits a ip tls ∧ ∀ b ∈ before, ¬ Admits b ip tls := by
  simp only [admitting, List.find?_eq_some_iff_append, ← C28_authorized_iff]
  constructor
  · rintro ⟨h, x, y, e, hx⟩
    exact ⟨x, y, e, h, fun b hb => by simpa using hx b hb⟩
  · rintro ⟨x, y, e, h, hx⟩
    exact ⟨h, x, y, e, fun b hb => by simpa using hx b hb⟩

/-- A suffix given by its labels admits exactly the names that end in these labels and have at least one
more in front; given no labels, it admits every name. -/
theorem C28_suffix_is_by_labels (parts : List Str) (name : Str) (hp : ∀ p ∈ parts, '.' ∉ p) :
    (Suffix.ofParts parts).contains name = true ↔
      parts = [] ∨ ∃ front, front ≠ [] ∧ Text.split '.' name = front ++ parts := by
  simp only [Suffix.contains, endsWith_iff, Suffix.ofParts]
  by_cases he : parts = []
  · simp [he]
  rw [if_neg (by simpa using he)]
  simp only [he, false_or]
  constructor
  · rintro ⟨p, hpe⟩
    refine ⟨Text.split '.' p, Text.split_ne_nil _ _, ?_⟩
    rw [← hpe, Text.split_append_sep, Text.split_join _ _ he hp]
  · rintro ⟨front, hf, hs⟩
    have hfd : ∀ q ∈ front, '.' ∉ q := fun q hq => Text.split_no_sep '.' name q (by rw [hs]; simp [hq])
    refine ⟨Text.join '.' front, ?_⟩
    apply Text.split_inj '.'
    rw [Text.split_append_sep, Text.split_join _ _ he hp, Text.split_join _ _ hf hfd, hs]

/-- An identity that is a URI is admitted only by its exact text: suffixes do not apply to it. -/
theorem C28_uri_needs_its_exact_text (a : Authorization) (ids : List Str) (sfx : List Suffix) (ip : Ip) (uri : Str)
    (ha : a.authentication = .tlsAuthenticated ids sfx) :
    isAuthorized a ip (.established (some (.uri uri))) = true ↔ FromNetwork a.networks ip ∧ uri ∈ ids := by
  rw [C28_authorized_iff]
  simp [Admits, ha, TlsMeets, Id.text]

/-- The network of a single address has no other. -/
theorem C28_single_address (a b : Nat) :
    (Network.single (.v4 a)).contains (.v4 b) = true ↔ a = b := by
  simp only [network_iff, Network.single, Within]
  constructor
  · rintro ⟨h, _⟩
    exact Nat.eq_of_testBit_eq (fun i => h i (by omega))
  · rintro rfl; simp

/-- The network `0.0.0.0/0` has every IPv4 address, and no IPv6 address. -/
theorem C28_whole_network (a b : Nat) (hb : b < 2 ^ 32) (ha : a < 2 ^ 32) :
    (IpNet.v4 a 0).contains (.v4 b) = true ∧ (IpNet.v4 a 0).contains (.v6 b) = false := by
  refine ⟨?_, rfl⟩
  rw [contains_iff]
  intro i hi
  rw [Nat.testBit_lt_two_pow (Nat.lt_of_lt_of_le ha (Nat.pow_le_pow_right (by omega) hi)),
    Nat.testBit_lt_two_pow (Nat.lt_of_lt_of_le hb (Nat.pow_le_pow_right (by omega) hi))]

/-! ## A concrete policy -/

/-- `10.0.0.0/8` except `10.1.0.0/16`, for identities ending in `.ns.id` or equal to `x`. -/
def sampleAuthz : Authorization :=
  { networks := [⟨.v4 (10 * 2 ^ 24) 8, [.v4 (10 * 2 ^ 24 + 2 ^ 16) 16]⟩]
    authentication := .tlsAuthenticated ["x".toList] [Suffix.ofParts ["ns".toList, "id".toList]]
    meta_ := .default "sample".toList }

example : isAuthorized sampleAuthz (.v4 (10 * 2 ^ 24 + 5)) (.established (some (.dns "web.ns.id".toList))) = true := by
  decide +kernel

example : isAuthorized sampleAuthz (.v4 (10 * 2 ^ 24 + 2 ^ 16 + 5)) (.established (some (.dns "web.ns.id".toList))) = false := by
  decide +kernel

example : isAuthorized sampleAuthz (.v4 (11 * 2 ^ 24)) (.established (some (.dns "x".toList))) = false := by
  decide +kernel

example : isAuthorized sampleAuthz (.v4 (10 * 2 ^ 24 + 5)) (.established none) = false := by decide +kernel

example : admitting [sampleAuthz] (.v4 (10 * 2 ^ 24 + 5)) (.established (some (.dns "x".toList))) = some sampleAuthz := by
  decide +kernel

example : admitting [] (.v4 1) .none = none := rfl

end Verif.ServerPolicy
