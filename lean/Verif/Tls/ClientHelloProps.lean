import Verif.Dns.Props
import Verif.Tls.ClientHello

/-!
# C37: reading the server name does not depend on how the bytes arrive
-/

namespace Verif.Tls

open Verif.Io
open Verif.Dns (Str)

/-! ## Specification: the ClientHello of RFC 5246 and RFC 6066 -/

/-- A big-endian 16-bit number. -/
def be16 (n : Nat) : Bytes := [(n / 256).toUInt8, (n % 256).toUInt8]

/-- A vector with a 16-bit length, and with an 8-bit length. -/
def vec16 (b : Bytes) : Bytes := be16 b.length ++ b
def vec8 (b : Bytes) : Bytes := b.length.toUInt8 :: b

/-- An extension. -/
def extension (e : Nat × Bytes) : Bytes := be16 e.1 ++ vec16 e.2

/-- The contents of the server name extension: a list with one host name. -/
def serverName (name : Bytes) : Bytes := vec16 (0 :: vec16 name)

/-- A ClientHello with a server name. -/
structure Hello where
  /-- The record's minor version. -/
  minor : Byte
  random : Bytes
  session : Bytes
  ciphers : Bytes
  compression : Bytes
  /-- The extensions before the server name, which are of other types. -/
  before : List (Nat × Bytes)
  name : Bytes
  /-- The extensions after it. -/
  after : List (Nat × Bytes)

/-- The extensions. -/
def Hello.extensions (h : Hello) : Bytes :=
  (h.before.flatMap extension) ++ extension (0, serverName h.name) ++ (h.after.flatMap extension)

/-- The message without its header. -/
def Hello.body (h : Hello) : Bytes :=
  [3, 3] ++ h.random ++ vec8 h.session ++ vec16 h.ciphers ++ vec8 h.compression ++ vec16 h.extensions

/-- The TLS record. -/
def Hello.record (h : Hello) : Bytes := [22, 3, h.minor] ++ vec16 ([1, 0] ++ vec16 h.body)

/-- What the protocol and the proxy's limit of 8192 bytes ask for. -/
structure Hello.WellFormed (h : Hello) : Prop where
  minor : h.minor = 1 ∨ h.minor = 3
  random : h.random.length = 32
  session : h.session.length < 256
  compression : h.compression.length < 256
  types : ∀ e ∈ h.before, e.1 ≠ 0 ∧ e.1 < 65536
  size : ([1, 0] ++ vec16 h.body).length ≤ 8192

/-! ## Longer input -/

theorem readByte_append {s : Bytes} {v : Byte} {r : Bytes} (h : readByte s = some (v, r)) (t : Bytes) :
    readByte (s ++ t) = some (v, r ++ t) := by
  cases s with
  | nil => simp [readByte] at h
  | cons a s => simp only [readByte, Option.some.injEq, Prod.mk.injEq] at h; obtain ⟨rfl, rfl⟩ := h; rfl

theorem readBytes_append {n : Nat} {s v r : Bytes} (h : readBytes n s = some (v, r)) (t : Bytes) :
    readBytes n (s ++ t) = some (v, r ++ t) := by
  unfold readBytes at h ⊢
  split at h
  · cases h
  · rename_i hl
    simp only [Option.some.injEq, Prod.mk.injEq] at h
    obtain ⟨rfl, rfl⟩ := h
    have h1 : ¬ (s ++ t).length < n := by simp; omega
    rw [if_neg h1, List.take_append_of_le_length (by omega), List.drop_append_of_le_length (by omega)]

theorem readU16_append {s : Bytes} {v : Nat} {r : Bytes} (h : readU16 s = some (v, r)) (t : Bytes) :
    readU16 (s ++ t) = some (v, r ++ t) := by
  simp only [readU16, Option.bind_eq_some_iff, Option.map_eq_some_iff] at h ⊢
  obtain ⟨⟨hi, s1⟩, h1, ⟨lo, s2⟩, h2, h3⟩ := h
  simp only [Prod.mk.injEq] at h3
  obtain ⟨rfl, rfl⟩ := h3
  exact ⟨_, readByte_append h1 t, _, readByte_append h2 t, rfl⟩

theorem readVector_append {α : Type} (f : Parser (Option α)) {s : Bytes} {v : Option α} {r : Bytes}
    (h : readVector f s = some (v, r)) (t : Bytes) : readVector f (s ++ t) = some (v, r ++ t) := by
  simp only [readVector, Option.bind_eq_some_iff] at h ⊢
  obtain ⟨⟨len, s1⟩, h1, h2⟩ := h
  refine ⟨_, readU16_append h1 t, ?_⟩
  dsimp only at h2 ⊢
  split at h2
  · rename_i hl
    rw [if_pos hl]
    simp only [Option.some.injEq, Prod.mk.injEq] at h2
    obtain ⟨rfl, rfl⟩ := h2
    rfl
  · rename_i hl
    rw [if_neg hl]
    simp only [Option.bind_eq_some_iff, Option.map_eq_some_iff] at h2 ⊢
    obtain ⟨⟨b, s2⟩, h3, w, h4, h5⟩ := h2
    simp only [Prod.mk.injEq] at h5
    obtain ⟨rfl, rfl⟩ := h5
    exact ⟨_, readBytes_append h3 t, _, h4, rfl⟩

theorem extractSni_append {s : Bytes} {v : Option Bytes} {r : Bytes} (h : extractSni s = some (v, r)) (t : Bytes) :
    extractSni (s ++ t) = some (v, r ++ t) := by
  have done : ∀ {v : Option Bytes} {x r : Bytes}, some ((none : Option Bytes), x) = some (v, r) →
      some ((none : Option Bytes), x ++ t) = some (v, r ++ t) := by
    intro v x r h
    simp only [Option.some.injEq, Prod.mk.injEq] at h ⊢
    exact ⟨h.1, by rw [h.2]⟩
  simp only [extractSni, Option.bind_eq_some_iff] at h ⊢
  obtain ⟨⟨b1, s1⟩, h1, h⟩ := h
  refine ⟨_, readByte_append h1 t, ?_⟩
  dsimp only at h ⊢
  split at h
  · rename_i hc; rw [if_pos hc]; exact done h
  rename_i hc
  rw [if_neg hc]
  simp only [Option.bind_eq_some_iff] at h ⊢
  obtain ⟨⟨b2, s2⟩, h2, h⟩ := h
  refine ⟨_, readByte_append h2 t, ?_⟩
  dsimp only at h ⊢
  split at h
  · rename_i hc; rw [if_pos hc]; exact done h
  rename_i hc
  rw [if_neg hc]
  simp only [Option.bind_eq_some_iff] at h ⊢
  obtain ⟨⟨b3, s3⟩, h3, h⟩ := h
  refine ⟨_, readByte_append h3 t, ?_⟩
  dsimp only at h ⊢
  split at h
  · rename_i hc; rw [if_pos hc]; exact done h
  rename_i hc
  rw [if_neg hc]
  exact readVector_append _ h t

/-- A verdict (a name, or none) that is reached on some input is the verdict on all longer input. -/
theorem C37_verdict_is_final (s t : Bytes) (v : Option Str) (h : parseSni s = some v) : parseSni (s ++ t) = some v := by
  unfold parseSni at h ⊢
  cases he : extractSni s with
  | none => simp [he] at h
  | some p =>
    obtain ⟨o, r⟩ := p
    rw [extractSni_append he t]
    rw [he] at h
    cases o <;> exact h

/-- So the verdict does not depend on where the input was cut: any two cuts of one stream that lead to a verdict lead
to the same. -/
theorem C37_independent_of_segmentation (s t u : Bytes) (v w : Option Str) (hs : s <+: u) (ht : t <+: u)
    (h1 : parseSni s = some v) (h2 : parseSni t = some w) : v = w := by
  obtain ⟨a, rfl⟩ := hs
  obtain ⟨b, hb⟩ := ht
  have e1 := C37_verdict_is_final s a v h1
  have e2 := C37_verdict_is_final t b w h2
  rw [hb, e1] at e2
  exact Option.some.inj e2

/-! ## Well-formed messages -/

theorem toUInt8_toNat (n : Nat) (h : n < 256) : n.toUInt8.toNat = n := by
  simp [Nat.toUInt8, UInt8.toNat_ofNat']
  omega

theorem readU16_be16 (n : Nat) (h : n < 65536) (r : Bytes) : readU16 (be16 n ++ r) = some (n, r) := by
  simp only [readU16, be16, List.cons_append, List.nil_append, readByte, Option.bind_some, Option.map_some,
    Option.some.injEq, Prod.mk.injEq, and_true]
  rw [toUInt8_toNat _ (by omega), toUInt8_toNat _ (by omega)]
  omega

theorem readBytes_exact (b r : Bytes) : readBytes b.length (b ++ r) = some (b, r) := by
  simp [readBytes]

theorem readVector_vec16 {α : Type} (f : Parser (Option α)) (b r : Bytes) (h : b.length ≤ 8192) :
    readVector f (vec16 b ++ r) = (readAll f b).map fun v => (v, r) := by
  have h1 : ¬ b.length > 8192 := by omega
  simp only [readVector, vec16, List.append_assoc, readU16_be16 _ (by omega : b.length < 65536), Option.bind_some,
    if_neg h1, readBytes_exact]

theorem skipVector_vec16 (b r : Bytes) (h : b.length ≤ 8192) : skipVector (vec16 b ++ r) = some (true, r) := by
  simp [skipVector, readVector_vec16 _ b r h, readAll]

theorem skipVectorU8_vec8 (b r : Bytes) (h : b.length < 256) : skipVectorU8 (vec8 b ++ r) = some ((), r) := by
  simp only [skipVectorU8, vec8, List.cons_append, readByte, Option.bind_some, toUInt8_toNat _ h, readBytes_exact,
    Option.map_some]

theorem length_vec16 (b : Bytes) : (vec16 b).length = b.length + 2 := by simp [vec16, be16]

theorem length_extension (e : Nat × Bytes) : (extension e).length = e.2.length + 4 := by
  simp [extension, length_vec16, be16]

theorem readServerName_eq (name r : Bytes) (h : (serverName name).length ≤ 8192) :
    readServerName (vec16 (serverName name) ++ r) = some (some name, r) := by
  have hn : (0 :: vec16 name : Bytes).length ≤ 8192 := by rw [serverName, length_vec16] at h; omega
  have hn' : name.length ≤ 8192 := by rw [List.length_cons, length_vec16] at hn; omega
  rw [readServerName, readVector_vec16 _ _ _ h]
  have e1 : readVector (fun s : Bytes => some (some s, ([] : Bytes))) (vec16 name) = some (some name, []) := by
    have := readVector_vec16 (fun s : Bytes => some (some s, ([] : Bytes))) name [] hn'
    rw [List.append_nil] at this
    rw [this]
    rfl
  have e2 : readVector (fun s : Bytes => (readByte s).bind fun (t, s) =>
      if t ≠ 0 then some (none, s) else readVector (fun s => some (some s, [])) s) (serverName name) =
      some (some name, []) := by
    have := readVector_vec16 (fun s : Bytes => (readByte s).bind fun (t, s) =>
      if t ≠ 0 then some (none, s) else readVector (fun s => some (some s, [])) s) (0 :: vec16 name) [] hn
    rw [List.append_nil] at this
    rw [serverName, this]
    simp only [readAll, readByte, Option.bind_some, ne_eq, not_true_eq_false, if_false, e1, Option.map_some]
  simp only [readAll, e2, Option.map_some]

theorem readExtensions_eq (before : List (Nat × Bytes)) (name after : Bytes) (n : Nat)
    (ht : ∀ e ∈ before, e.1 ≠ 0 ∧ e.1 < 65536)
    (hl : (before.flatMap extension ++ (extension (0, serverName name) ++ after)).length ≤ 8192)
    (hn : (before.flatMap extension ++ (extension (0, serverName name) ++ after)).length ≤ n) :
    readExtensions n (before.flatMap extension ++ (extension (0, serverName name) ++ after)) = some (some name, []) := by
  induction before generalizing n with
  | nil =>
    simp only [List.flatMap_nil, List.nil_append] at hl hn ⊢
    have hlen : (serverName name).length ≤ 8192 := by
      rw [List.length_append, length_extension] at hl; dsimp only at hl; omega
    cases n with
    | zero => rw [List.length_append, length_extension] at hn; omega
    | succ n =>
      have e : extension (0, serverName name) ++ after = be16 0 ++ (vec16 (serverName name) ++ after) := by
        simp [extension]
      rw [e]
      have hne : ∃ a l, be16 0 ++ (vec16 (serverName name) ++ after) = a :: l := ⟨_, _, rfl⟩
      obtain ⟨a, l, hal⟩ := hne
      rw [hal, readExtensions, ← hal, readU16_be16 0 (by omega)]
      · simp only [Option.bind_some, ne_eq, not_true_eq_false, if_false, readServerName_eq name after hlen,
          Option.map_some]
      · simp
  | cons x before ih =>
    simp only [List.flatMap_cons, List.append_assoc] at hl hn ⊢
    have hx := ht x (by simp)
    cases n with
    | zero => rw [List.length_append, length_extension] at hn; omega
    | succ n =>
      generalize hrest : before.flatMap extension ++ (extension (0, serverName name) ++ after) = rest at hl hn ih ⊢
      have e : extension x ++ rest = be16 x.1 ++ (vec16 x.2 ++ rest) := by simp [extension]
      have hxl : x.2.length ≤ 8192 := by rw [List.length_append, length_extension] at hl; omega
      rw [e]
      have hne : ∃ a l, be16 x.1 ++ (vec16 x.2 ++ rest) = a :: l := ⟨_, _, rfl⟩
      obtain ⟨a, l, hal⟩ := hne
      rw [hal, readExtensions, ← hal, readU16_be16 x.1 hx.2]
      · simp only [Option.bind_some, hx.1, ne_eq, not_false_eq_true, if_true, skipVector_vec16 x.2 rest hxl]
        rw [List.length_append, length_extension] at hl hn
        exact ih n (fun e he => ht e (by simp [he])) (by omega) (by omega)
      · simp

theorem readHello_eq (h : Hello) (hw : h.WellFormed) : readHello h.body = some (some h.name, []) := by
  have hsize := hw.size
  simp only [List.cons_append, List.nil_append, List.length_cons, length_vec16] at hsize
  have hb : h.body.length = 2 + h.random.length + (h.session.length + 1) + (h.ciphers.length + 2) +
      (h.compression.length + 1) + (h.extensions.length + 2) := by
    simp only [Hello.body, List.length_append, length_vec16, vec8, List.length_cons, List.length_nil]
  have e : h.body = 3 :: 3 :: (h.random ++ (vec8 h.session ++ (vec16 h.ciphers ++ (vec8 h.compression ++
      (vec16 h.extensions ++ []))))) := by
    simp [Hello.body]
  have er := readBytes_exact h.random
  rw [hw.random] at er
  have hx : readExtensions h.extensions.length h.extensions = some (some h.name, []) := by
    have := readExtensions_eq h.before h.name (h.after.flatMap extension) h.extensions.length hw.types
    rw [Hello.extensions, List.append_assoc] at this ⊢
    apply this
    · rw [Hello.extensions, List.append_assoc] at hb; omega
    · exact Nat.le_refl _
  rw [e]
  simp only [readHello, readByte, Option.bind_some, ne_eq, not_true_eq_false, if_false, er,
    skipVectorU8_vec8 _ _ hw.session, skipVector_vec16 h.ciphers _ (by omega), Bool.not_true, Bool.false_eq_true,
    skipVectorU8_vec8 _ _ hw.compression, readVector_vec16 _ h.extensions _ (by omega), readAll, hx, Option.map_some]

/-- The server name of a well-formed ClientHello is found, wherever the extension stands among the others and
whatever follows the record: the name, if it is a DNS name, and otherwise none. -/
theorem C37_name_is_found (h : Hello) (hw : h.WellFormed) (t : Bytes) :
    parseSni (h.record ++ t) = some (Dns.Name.tryFrom (textOf h.name)) := by
  have hsize := hw.size
  have hbody : h.body.length ≤ 8192 := by
    simp only [List.cons_append, List.nil_append, List.length_cons, length_vec16] at hsize; omega
  have e1 : readVector readHello (vec16 h.body) = some (some h.name, []) := by
    have := readVector_vec16 readHello h.body [] hbody
    rw [List.append_nil] at this
    rw [this, readAll, readHello_eq h hw]
    rfl
  have e2 : readHandshake ([1, 0] ++ vec16 h.body) = some (some h.name, []) := by
    simp only [readHandshake, List.cons_append, List.nil_append, readByte, Option.bind_some, ne_eq, not_true_eq_false,
      if_false, e1]
  have hm : ¬ (h.minor ≠ 1 ∧ h.minor ≠ 3) := by rcases hw.minor with h | h <;> simp [h]
  have e3 : extractSni (h.record ++ t) = some (some h.name, t) := by
    have er : h.record ++ t = 22 :: 3 :: h.minor :: (vec16 ([1, 0] ++ vec16 h.body) ++ t) := by
      simp [Hello.record]
    rw [er]
    simp only [extractSni, readByte, Option.bind_some, ne_eq, not_true_eq_false, if_false]
    rw [if_neg hm, readVector_vec16 _ _ _ hsize, readAll, e2]
    rfl
  simp only [parseSni, e3]

theorem readVector_short {α : Type} (f : Parser (Option α)) (b p : Bytes) (h : b.length ≤ 8192)
    (hp : p <+: vec16 b) (hne : p ≠ vec16 b) : readVector f p = none := by
  obtain ⟨t, ht⟩ := hp
  have hlen : p.length < b.length + 2 := by
    rcases Nat.lt_or_ge p.length (b.length + 2) with h | h
    · exact h
    · have := congrArg List.length ht
      rw [List.length_append, length_vec16] at this
      have : t = [] := List.length_eq_zero_iff.1 (by omega)
      subst this
      exact absurd (by simpa using ht) hne
  match p, ht, hlen with
  | [], _, _ => rfl
  | [a], _, _ => rfl
  | a :: c :: p, ht, hlen =>
    have e : vec16 b = (b.length / 256).toUInt8 :: (b.length % 256).toUInt8 :: b := rfl
    rw [e] at ht
    simp only [List.cons_append, List.cons.injEq] at ht
    obtain ⟨rfl, rfl, _⟩ := ht
    have := readU16_be16 b.length (by omega) p
    simp only [be16, List.cons_append, List.nil_append] at this
    have hl : ¬ b.length > 8192 := by omega
    have hp : p.length < b.length := by simp only [List.length_cons] at hlen; omega
    simp only [readVector, this, Option.bind_some, if_neg hl, readBytes, if_pos hp, Option.bind_none]

/-- On every proper prefix of the record more input is asked for. -/
theorem C37_waits_for_the_record (h : Hello) (hw : h.WellFormed) (p : Bytes) (hp : p <+: h.record)
    (hne : p ≠ h.record) : parseSni p = none := by
  have hm : ¬ (h.minor ≠ 1 ∧ h.minor ≠ 3) := by rcases hw.minor with h | h <;> simp [h]
  have er : h.record = 22 :: 3 :: h.minor :: vec16 ([1, 0] ++ vec16 h.body) := by simp [Hello.record]
  have : extractSni p = none := by
    rw [er] at hp hne
    obtain ⟨t, ht⟩ := hp
    match p, ht with
    | [], _ => rfl
    | [a], ht => simp at ht; rw [ht.1]; rfl
    | [a, b], ht => simp at ht; rw [ht.1, ht.2.1]; rfl
    | a :: b :: c :: p, ht =>
      simp only [List.cons_append, List.cons.injEq] at ht
      obtain ⟨rfl, rfl, rfl, ht⟩ := ht
      have hs := readVector_short readHandshake ([1, 0] ++ vec16 h.body) p hw.size ⟨t, ht⟩
        (fun he => hne (by rw [he]))
      simp only [extractSni, readByte, Option.bind_some, ne_eq, not_true_eq_false, if_false]
      rw [if_neg hm, hs]
  simp only [parseSni, this]

/-! ## Other input -/

/-- Input that does not begin like a TLS handshake record is rejected by its first three bytes. -/
theorem C37_not_tls (b : Byte) (s : Bytes) (h : b ≠ 22) : parseSni (b :: s) = some none := by
  simp [parseSni, extractSni, readByte, h]

/-- Once the record is complete, more input changes nothing, not even "incomplete": if the record's contents are not
as expected, more input is asked for until the stream ends. -/
theorem C37_complete_records_are_decided (minor : Byte) (b t : Bytes) (hm : minor = 1 ∨ minor = 3)
    (hb : b.length ≤ 8192) :
    parseSni ([22, 3, minor] ++ vec16 b ++ t) = parseSni ([22, 3, minor] ++ vec16 b) := by
  have hm' : ¬ (minor ≠ 1 ∧ minor ≠ 3) := by rcases hm with h | h <;> simp [h]
  have e : ∀ t, extractSni ([22, 3, minor] ++ vec16 b ++ t) = (readAll readHandshake b).map fun v => (v, t) := by
    intro t
    simp only [List.cons_append, List.nil_append, List.append_assoc, extractSni, readByte, Option.bind_some, ne_eq,
      not_true_eq_false, if_false]
    rw [if_neg hm', readVector_vec16 _ _ _ hb]
  have e0 := e []
  rw [List.append_nil] at e0
  unfold parseSni
  rw [e, e0]
  cases readAll readHandshake b with
  | none => rfl
  | some v => cases v <;> rfl

/-- An instance: a complete record whose message is not a ClientHello is never rejected. -/
theorem C37_other_handshakes_wait_forever (minor type x : Byte) (b t : Bytes) (hm : minor = 1 ∨ minor = 3)
    (htype : type ≠ 1) (hb : (type :: x :: b).length ≤ 8192) :
    parseSni ([22, 3, minor] ++ vec16 (type :: x :: b) ++ t) = none := by
  rw [C37_complete_records_are_decided minor _ t hm hb]
  have hm' : ¬ (minor ≠ 1 ∧ minor ≠ 3) := by rcases hm with h | h <;> simp [h]
  have : extractSni ([22, 3, minor] ++ vec16 (type :: x :: b)) = none := by
    simp only [List.cons_append, List.nil_append, extractSni, readByte, Option.bind_some, ne_eq, not_true_eq_false,
      if_false]
    have e := readVector_vec16 readHandshake (type :: x :: b) [] hb
    rw [List.append_nil] at e
    rw [if_neg hm', e]
    simp [readAll, readHandshake, readByte, htype]
  simp only [parseSni, this]

/-! ## A concrete message -/

def sampleHello : Hello where
  minor := 1
  random := List.replicate 32 7
  session := [1, 2]
  ciphers := [0x13, 0x01]
  compression := [0]
  before := [(43, [2, 3, 4])]
  name := [119, 101, 98, 46, 83, 118, 99]
  after := [(16, [])]

example : sampleHello.WellFormed :=
  ⟨.inl rfl, by decide, by decide, by decide, by decide, by decide +kernel⟩

example : parseSni (sampleHello.record ++ [1, 2, 3]) = some (some "web.svc".toList) := by decide +kernel

end Verif.Tls
