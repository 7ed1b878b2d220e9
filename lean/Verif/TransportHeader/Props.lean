import Verif.Dns.Props
import Verif.Io.PrefixedProps
import Verif.TransportHeader.Model

/-!
# C36: transport headers are read back as they were written, and the payload is untouched
-/

namespace Verif.TransportHeader

open Verif.Io hiding readBytes
open Verif.Tls (readBytes textOf)
open Verif.Dns (Str)

/-! ## Variable-length integers -/

theorem toUInt8_toNat (n : Nat) (h : n < 256) : n.toUInt8.toNat = n := by
  simp [Nat.toUInt8, UInt8.toNat_ofNat']
  omega

theorem readVarintLoop_eq (k n : Nat) (r : Bytes) (h : n < 2 ^ (7 * k + 1)) :
    readVarintLoop (k + 1) (varintLoop (k + 1) n ++ r) = some (n, r) := by
  induction k generalizing n with
  | zero =>
    have : n < 128 := by simp at h; omega
    simp only [varintLoop, this, if_true, List.cons_append, List.nil_append, readVarintLoop]
    rw [toUInt8_toNat n (by omega)]
    simp at h
    rw [if_pos this, if_neg (by omega)]
  | succ k ih =>
    rw [varintLoop]
    split
    · rename_i hn
      simp only [List.cons_append, List.nil_append, readVarintLoop]
      rw [toUInt8_toNat n (by omega), if_pos hn, if_neg (by omega)]
    · rename_i hn
      have e : 2 ^ (7 * (k + 1) + 1) = 128 * 2 ^ (7 * k + 1) := by
        rw [show 7 * (k + 1) + 1 = 7 + (7 * k + 1) by omega, Nat.pow_add]
      have := ih (n / 128) (by rw [e] at h; omega)
      rw [List.cons_append, readVarintLoop, toUInt8_toNat _ (by omega), if_neg (by omega), this]
      simp only [Option.map_some, Option.some.injEq, Prod.mk.injEq, and_true]
      omega

theorem readVarint_eq (n : Nat) (r : Bytes) (h : n < 2 ^ 64) : readVarint (varint n ++ r) = some (n, r) :=
  readVarintLoop_eq 9 n r h

theorem readVarintLoop_shrinks (k : Nat) (s r : Bytes) (v : Nat) (h : readVarintLoop k s = some (v, r)) :
    r.length < s.length := by
  induction k generalizing s v with
  | zero => simp [readVarintLoop] at h
  | succ k ih =>
    cases s with
    | nil => simp [readVarintLoop] at h
    | cons b s =>
      rw [readVarintLoop] at h
      split at h
      · split at h
        · cases h
        · simp only [Option.some.injEq, Prod.mk.injEq] at h; simp [h.2]
      · simp only [Option.map_eq_some_iff] at h
        obtain ⟨⟨v', r'⟩, h1, h2⟩ := h
        simp only [Prod.mk.injEq] at h2
        rw [← h2.2]
        have := ih s v' (by rw [h1, h2.2])
        rw [h2.2]
        simp only [List.length_cons]
        omega

theorem readVarint_shrinks {s r : Bytes} {v : Nat} (h : readVarint s = some (v, r)) : r.length < s.length :=
  readVarintLoop_shrinks 10 s r v h

theorem readKey_eq (tag wire : Nat) (r : Bytes) (ht : 0 < tag) (ht' : tag < 2 ^ 29) (hw : wire ≤ 5) :
    readKey (key tag wire ++ r) = some ((tag, wire), r) := by
  have h1 : (tag * 8 + wire) % 8 = wire := by omega
  have h2 : (tag * 8 + wire) / 8 = tag := by omega
  simp only [readKey, key, readVarint_eq (tag * 8 + wire) r (by omega), Option.bind_some]
  rw [if_neg (by omega), h1, if_neg (by omega), h2, if_neg (by omega)]

theorem readKey_shrinks {s r : Bytes} {k : Nat × Nat} (h : readKey s = some (k, r)) : r.length < s.length := by
  simp only [readKey, Option.bind_eq_some_iff] at h
  obtain ⟨⟨v, s'⟩, h1, h2⟩ := h
  dsimp only at h2
  split at h2
  · cases h2
  · split at h2
    · cases h2
    · split at h2
      · cases h2
      · simp only [Option.some.injEq, Prod.mk.injEq] at h2
        rw [← h2.2]
        exact readVarint_shrinks h1

theorem readBytes_shrinks {n : Nat} {s v r : Bytes} (h : readBytes n s = some (v, r)) : r.length ≤ s.length := by
  unfold readBytes at h
  split at h
  · cases h
  · simp only [Option.some.injEq, Prod.mk.injEq] at h; rw [← h.2]; simp

theorem readDelimited_shrinks {s v r : Bytes} (h : readDelimited s = some (v, r)) : r.length ≤ s.length := by
  simp only [readDelimited, Option.bind_eq_some_iff] at h
  obtain ⟨⟨n, s'⟩, h1, h2⟩ := h
  have := readVarint_shrinks h1
  have h3 := readBytes_shrinks h2
  dsimp only at h3
  omega

theorem readDelimited_eq (b r : Bytes) (h : b.length < 2 ^ 64) :
    readDelimited (varint b.length ++ (b ++ r)) = some (b, r) := by
  simp [readDelimited, readVarint_eq _ _ h, readBytes]

theorem skip_shrinks' (fuel : Nat) :
    (∀ depth tag wire s r, skipField fuel depth tag wire s = some r → r.length ≤ s.length) ∧
      (∀ depth tag s r, skipGroup fuel depth tag s = some r → r.length ≤ s.length) := by
  induction fuel with
  | zero => simp [skipField, skipGroup]
  | succ fuel ih =>
    constructor
    · intro depth tag wire s r h
      rw [skipField] at h
      split at h
      · cases h
      split at h
      · simp only [Option.map_eq_some_iff] at h
        obtain ⟨⟨v, r'⟩, h1, rfl⟩ := h
        exact Nat.le_of_lt (readVarint_shrinks h1)
      split at h
      · simp only [Option.map_eq_some_iff] at h
        obtain ⟨⟨v, r'⟩, h1, rfl⟩ := h
        exact readBytes_shrinks h1
      split at h
      · simp only [Option.map_eq_some_iff] at h
        obtain ⟨⟨v, r'⟩, h1, rfl⟩ := h
        exact readDelimited_shrinks h1
      split at h
      · exact ih.2 _ _ _ _ h
      split at h
      · simp only [Option.map_eq_some_iff] at h
        obtain ⟨⟨v, r'⟩, h1, rfl⟩ := h
        exact readBytes_shrinks h1
      · cases h
    · intro depth tag s r h
      rw [skipGroup] at h
      cases hk : readKey s with
      | none => simp [hk] at h
      | some p =>
        obtain ⟨⟨t, w⟩, s'⟩ := p
        have hs := readKey_shrinks hk
        simp only [hk] at h
        split at h
        · split at h
          · cases h
          · cases h; omega
        · cases hf : skipField fuel (depth - 1) t w s' with
          | none => simp [hf] at h
          | some s'' =>
            simp only [hf] at h
            have h1 := ih.1 _ _ _ _ _ hf
            have h2 := ih.2 _ _ _ _ h
            omega

theorem skip_shrinks {depth tag wire : Nat} {s r : Bytes} (h : skip depth tag wire s = some r) :
    r.length ≤ s.length := (skip_shrinks' _).1 _ _ _ _ _ h

/-! ## Messages -/

/-- Reading a field does not give bytes back. -/
def Shrinks {α : Type} (field : α → Nat → Nat → Bytes → Option (α × Bytes)) : Prop :=
  ∀ m t w s m' r, field m t w s = some (m', r) → r.length ≤ s.length

theorem mergeFields_fuel {α : Type} {field : α → Nat → Nat → Bytes → Option (α × Bytes)} (hf : Shrinks field)
    (a b : Nat) (m : α) (s : Bytes) (ha : s.length ≤ a) (hb : s.length ≤ b) :
    mergeFields field a m s = mergeFields field b m s := by
  induction a generalizing b m s with
  | zero =>
    have : s = [] := List.length_eq_zero_iff.1 (by omega)
    subst this
    simp [mergeFields]
  | succ a ih =>
    cases s with
    | nil => simp [mergeFields]
    | cons x s =>
      cases b with
      | zero => simp at hb
      | succ b =>
        rw [mergeFields, mergeFields]
        cases hk : readKey (x :: s) with
        | none => rfl
        | some p =>
          obtain ⟨⟨t, w⟩, r⟩ := p
          have h1 := readKey_shrinks hk
          dsimp only
          cases hfr : field m t w r with
          | none => rfl
          | some q =>
            obtain ⟨m', r'⟩ := q
            have h2 := hf _ _ _ _ _ _ hfr
            exact ih b m' r' (by simp only [List.length_cons] at *; omega) (by simp only [List.length_cons] at *; omega)

theorem key_ne_nil (t w : Nat) : ∃ a l, key t w = a :: l := by
  unfold key varint
  rw [varintLoop]
  split <;> exact ⟨_, _, rfl⟩

theorem mergeAll_key {α : Type} {field : α → Nat → Nat → Bytes → Option (α × Bytes)} (hf : Shrinks field) (m : α)
    (t w : Nat) (r : Bytes) (ht : 0 < t) (ht' : t < 2 ^ 29) (hw : w ≤ 5) :
    mergeAll field m (key t w ++ r) = (field m t w r).bind fun (m', r') => mergeAll field m' r' := by
  obtain ⟨a, l, hal⟩ := key_ne_nil t w
  have hk := readKey_eq t w r ht ht' hw
  rw [hal, List.cons_append] at hk ⊢
  simp only [mergeAll, List.length_cons, mergeFields, hk]
  cases hfr : field m t w r with
  | none => rfl
  | some q =>
    obtain ⟨m', r'⟩ := q
    have h1 := hf _ _ _ _ _ _ hfr
    have h2 := readKey_shrinks hk
    exact mergeFields_fuel hf _ _ m' r' (by simp only [List.length_cons] at h2; omega) (Nat.le_refl _)

theorem mergeAll_nil {α : Type} (field : α → Nat → Nat → Bytes → Option (α × Bytes)) (m : α) :
    mergeAll field m [] = some m := by simp [mergeAll, mergeFields]

theorem empty_shrinks : Shrinks emptyField := by
  intro m t w s m' r h
  simp only [emptyField, Option.map_eq_some_iff, Prod.mk.injEq] at h
  obtain ⟨r', h1, -, rfl⟩ := h
  exact skip_shrinks h1

theorem session_shrinks : Shrinks sessionField := by
  intro m t w s m' r h
  unfold sessionField at h
  split at h
  · split at h
    · cases h
    · cases hd : readDelimited s with
      | none => simp [hd] at h
      | some p =>
        obtain ⟨b, s'⟩ := p
        simp only [hd] at h
        cases he : mergeAll emptyField () b with
        | none => simp [he] at h
        | some u =>
          simp only [he, Option.some.injEq, Prod.mk.injEq] at h
          rw [← h.2]
          exact readDelimited_shrinks hd
  · simp only [Option.map_eq_some_iff, Prod.mk.injEq] at h
    obtain ⟨r', h1, -, rfl⟩ := h
    exact skip_shrinks h1

theorem header_shrinks (utf8 : Bytes → Bool) : Shrinks (headerField utf8) := by
  intro m t w s m' r h
  unfold headerField at h
  split at h
  · split at h
    · cases h
    · simp only [Option.map_eq_some_iff, Prod.mk.injEq] at h
      obtain ⟨⟨v, r'⟩, h1, -, rfl⟩ := h
      exact Nat.le_of_lt (readVarint_shrinks h1)
  split at h
  · split at h
    · cases h
    · cases hd : readDelimited s with
      | none => simp [hd] at h
      | some p =>
        obtain ⟨b, s'⟩ := p
        simp only [hd] at h
        split at h
        · simp only [Option.some.injEq, Prod.mk.injEq] at h
          rw [← h.2]
          exact readDelimited_shrinks hd
        · cases h
  split at h
  · split at h
    · cases h
    · cases hd : readDelimited s with
      | none => simp [hd] at h
      | some p =>
        obtain ⟨b, s'⟩ := p
        simp only [hd] at h
        cases he : mergeAll sessionField (m.sessionProtocol.getD none) b with
        | none => simp [he] at h
        | some u =>
          simp only [he, Option.some.injEq, Prod.mk.injEq] at h
          rw [← h.2]
          exact readDelimited_shrinks hd
  · simp only [Option.map_eq_some_iff, Prod.mk.injEq] at h
    obtain ⟨r', h1, -, rfl⟩ := h
    exact skip_shrinks h1

theorem session_round_trip (k : SessionProtocol) : mergeAll sessionField none (encodeSession (some k)) = some (some k) := by
  cases k <;> decide +kernel

theorem toI32_toU64 (i : Int) (h : 0 ≤ i) (h' : i < 2 ^ 31) : toI32 (toU64 i) = i ∧ toU64 i < 2 ^ 64 := by
  unfold toI32 toU64
  dsimp only
  constructor
  · split <;> omega
  · omega

theorem proto_round_trip (utf8 : Bytes → Bool) (p : Proto) (h0 : 0 ≤ p.port) (h1 : p.port < 2 ^ 31)
    (hu : utf8 p.name = true) (hl : p.name.length < 2 ^ 64) (hs : p.sessionProtocol ≠ some none) :
    Proto.decode utf8 p.encode = some p := by
  obtain ⟨port, name, sp⟩ := p
  have e := toI32_toU64 port h0 h1
  dsimp only at h0 h1 hu hl hs
  have es : ∀ (q : Proto), q.sessionProtocol = none → mergeAll (headerField utf8) q (encodeSessionField sp) =
      some { q with sessionProtocol := sp } := by
    intro q hq
    match sp, hs with
    | none, _ => rw [encodeSessionField, mergeAll_nil]; rw [← hq]
    | some none, hs => exact absurd rfl hs
    | some (some k), _ =>
      rw [encodeSessionField]
      rw [mergeAll_key (header_shrinks utf8) _ 3 2 _ (by omega) (by omega) (by omega)]
      have hd := readDelimited_eq (encodeSession (some k)) [] (by cases k <;> decide)
      rw [List.append_nil] at hd
      have : headerField utf8 q 3 2 (varint (encodeSession (some k)).length ++ encodeSession (some k)) =
          some ({ q with sessionProtocol := some (some k) }, []) := by
        simp only [headerField, hd, hq, Option.getD_none, session_round_trip]
        simp
      rw [this, Option.bind_some]
      exact mergeAll_nil _ _
  have en : ∀ (q : Proto) (r : Bytes), q.name = [] → mergeAll (headerField utf8) q
      ((if name ≠ [] then key 2 2 ++ (varint name.length ++ name) else []) ++ r) =
        mergeAll (headerField utf8) { q with name := name } r := by
    intro q r hq
    by_cases hn : name = []
    · subst hn
      simp only [ne_eq, not_true_eq_false, if_false, List.nil_append]
      rw [show ({ q with name := [] } : Proto) = q by rw [← hq]]
    · rw [if_pos hn, List.append_assoc, mergeAll_key (header_shrinks utf8) _ 2 2 _ (by omega) (by omega) (by omega),
        List.append_assoc]
      have : headerField utf8 q 2 2 (varint name.length ++ (name ++ r)) = some ({ q with name := name }, r) := by
        simp only [headerField, readDelimited_eq name r hl, hu]
        simp
      rw [this, Option.bind_some]
  have ep : ∀ (q : Proto) (r : Bytes), q.port = 0 → mergeAll (headerField utf8) q
      ((if port ≠ 0 then key 1 0 ++ varint (toU64 port) else []) ++ r) =
        mergeAll (headerField utf8) { q with port := port } r := by
    intro q r hq
    by_cases hn : port = 0
    · subst hn
      simp only [ne_eq, not_true_eq_false, if_false, List.nil_append]
      rw [show ({ q with port := 0 } : Proto) = q by rw [← hq]]
    · rw [if_pos hn, List.append_assoc, mergeAll_key (header_shrinks utf8) _ 1 0 _ (by omega) (by omega) (by omega)]
      have : headerField utf8 q 1 0 (varint (toU64 port) ++ r) = some ({ q with port := port }, r) := by
        simp only [headerField, readVarint_eq _ r e.2]
        simp [e.1]
      rw [this, Option.bind_some]
  simp only [Proto.decode, Proto.encode]
  rw [ep _ _ rfl, en _ _ rfl, es _ rfl]

/-! ## Names -/

theorem byte_ascii (st st' : Dns.Scan) (c : Char) (h : st.byte c = some st') : c.toNat < 128 := by
  unfold Dns.Scan.byte at h
  split at h
  · rename_i hc; subst hc; decide
  split at h
  · rename_i hc; have := (Dns.isDigit_iff c).1 hc; omega
  split at h
  · rename_i hc
    simp only [Bool.or_eq_true, beq_iff_eq] at hc
    rcases hc with hc | rfl
    · have := (Dns.isAlpha_iff c).1 hc; omega
    · decide
  split at h
  · rename_i hc; subst hc; decide
  · cases h

theorem bytes_ascii (st st' : Dns.Scan) (s : Str) (h : st.bytes s = some st') : ∀ c ∈ s, c.toNat < 128 := by
  induction s generalizing st with
  | nil => simp
  | cons x s ih =>
    simp only [Dns.Scan.bytes, Option.bind_eq_some_iff] at h
    obtain ⟨st1, h1, h2⟩ := h
    intro c hc
    simp only [List.mem_cons] at hc
    rcases hc with rfl | hc
    · exact byte_ascii _ _ _ h1
    · exact ih _ h2 c hc

theorem name_parts (s n : Str) (h : Dns.Name.tryFrom s = some n) :
    (∀ c ∈ s, c.toNat < 128) ∧ s.length ≤ 253 ∧ s ≠ [] := by
  have hv : Dns.isValid s = true := by
    simp only [Dns.Name.tryFrom, Dns.NameRef.tryFrom] at h
    cases hv : Dns.isValid s with
    | true => rfl
    | false => simp [hv] at h
  unfold Dns.isValid at hv
  split at hv
  · cases hv
  split at hv
  · cases hv
  rename_i h1 h2
  cases hs : Dns.Scan.bytes ⟨0, false, false⟩ s with
  | none => simp [hs] at hv
  | some st => exact ⟨bytes_ascii _ _ _ hs, by omega, by simpa using h2⟩

theorem textOf_bytesOf (s : Str) (h : ∀ c ∈ s, c.toNat < 128) : textOf (bytesOf s) = s := by
  induction s with
  | nil => rfl
  | cons c s ih =>
    have hc := h c (by simp)
    simp only [bytesOf, textOf, List.map_cons, List.cons.injEq]
    refine ⟨?_, ih (fun x hx => h x (by simp [hx]))⟩
    rw [toUInt8_toNat _ (by omega)]
    simp

theorem bytesOf_ascii (s : Str) (h : ∀ c ∈ s, c.toNat < 128) : ∀ b ∈ bytesOf s, b.toNat < 128 := by
  intro b hb
  simp only [bytesOf, List.mem_map] at hb
  obtain ⟨c, hc, rfl⟩ := hb
  have := h c hc
  rw [toUInt8_toNat _ (by omega)]
  exact this

/-! ## Specification -/

/-- What a `TransportHeader` can be: its port is a `u16` and its name was read by `Name`. -/
structure Header.Valid (h : Header) : Prop where
  port : h.port < 65536
  name : ∀ n, h.name = some n → ∃ s, Dns.Name.tryFrom s = some n

/-- ASCII is UTF-8. -/
def Ascii (utf8 : Bytes → Bool) : Prop := ∀ b : Bytes, (∀ x ∈ b, x.toNat < 128) → utf8 b = true

theorem toProto_round_trip (utf8 : Bytes → Bool) (ha : Ascii utf8) (h : Header) (hv : h.Valid) :
    Proto.decode utf8 h.toProto.encode = some h.toProto := by
  have hn : (∀ c ∈ h.name.getD [], c.toNat < 128) ∧ (h.name.getD []).length ≤ 253 := by
    cases hname : h.name with
    | none => simp
    | some n =>
      obtain ⟨s, hs⟩ := hv.name n hname
      have := name_parts n n (Dns.C33_idempotent s n hs)
      exact ⟨this.1, this.2.1⟩
  have hp := hv.port
  apply proto_round_trip
  · simp [Header.toProto]
  · simp only [Header.toProto]; omega
  · exact ha _ (bytesOf_ascii _ hn.1)
  · have : (bytesOf (h.name.getD [])).length = (h.name.getD []).length := by simp [bytesOf]
    simp only [Header.toProto]
    omega
  · simp only [Header.toProto]
    cases h.protocol <;> simp

/-- A header's message is read back, unless the port is zero. -/
theorem decode_encode (utf8 : Bytes → Bool) (ha : Ascii utf8) (h : Header) (hv : h.Valid) :
    decode utf8 h.toProto.encode = if h.port = 0 then none else some h := by
  simp only [decode, toProto_round_trip utf8 ha h hv]
  have hname : (if h.toProto.name = [] then some none
      else (Dns.Name.tryFrom (textOf h.toProto.name)).map some) = some h.name := by
    cases hn : h.name with
    | none => simp [Header.toProto, hn, bytesOf]
    | some n =>
      obtain ⟨s, hs⟩ := hv.name n hn
      have hi := Dns.C33_idempotent s n hs
      obtain ⟨h1, h2, h3⟩ := name_parts n n hi
      have hne : h.toProto.name ≠ [] := by
        simpa [Header.toProto, hn, bytesOf] using h3
      rw [if_neg hne]
      simp [Header.toProto, hn, textOf_bytesOf n h1, hi]
  rw [hname]
  dsimp only
  have hp := hv.port
  by_cases hz : h.port = 0
  · rw [if_pos hz, if_pos (by simp [Header.toProto, hz])]
  · rw [if_neg hz, if_neg (by simp only [Header.toProto]; omega)]
    simp only [Header.toProto, Option.some.injEq]
    obtain ⟨port, name, protocol⟩ := h
    cases protocol <;> simp

/-! ## Reading -/

theorem fill_full {n : Nat} {buf : Bytes} (io : Inner) (reads : List ReadAnswer) (h : buf.length ≥ n) :
    fill n buf io reads = .full buf io reads := by
  cases reads <;> (unfold fill; rw [if_pos h])

theorem fill_nil {n : Nat} {buf : Bytes} (io : Inner) (h : ¬ buf.length ≥ n) : fill n buf io [] = .timeout := by
  unfold fill; rw [if_neg h]

theorem fill_failed {n : Nat} {buf : Bytes} (io : Inner) (reads : List ReadAnswer) (h : ¬ buf.length ≥ n) :
    fill n buf io (.failed :: reads) = .ioError := by
  unfold fill; rw [if_neg h]

theorem fill_upTo {n : Nat} {buf : Bytes} (io : Inner) (k : Nat) (reads : List ReadAnswer) (h : ¬ buf.length ≥ n) :
    fill n buf io (.upTo k :: reads) = if (io.unread.take (max k 1)).length = 0
      then .eof buf { io with unread := io.unread.drop (max k 1) }
      else fill n (buf ++ io.unread.take (max k 1)) { io with unread := io.unread.drop (max k 1) } reads := by
  conv => lhs; unfold fill
  rw [if_neg h]

theorem fill_spec (n : Nat) (buf : Bytes) (io : Inner) (reads : List ReadAnswer) :
    match fill n buf io reads with
    | .timeout => True
    | .ioError => True
    | .eof b i => b = buf ++ io.unread ∧ i.unread = [] ∧ i.written = io.written ∧ b.length < n
    | .full b i _ => n ≤ b.length ∧ b ++ i.unread = buf ++ io.unread ∧ i.written = io.written := by
  induction reads generalizing buf io with
  | nil =>
    by_cases h : buf.length ≥ n
    · rw [fill_full io [] h]; exact ⟨h, rfl, rfl⟩
    · rw [fill_nil io h]; trivial
  | cons r reads ih =>
    by_cases h : buf.length ≥ n
    · rw [fill_full io _ h]; exact ⟨h, rfl, rfl⟩
    · cases r with
      | failed => rw [fill_failed io reads h]; trivial
      | upTo k =>
        rw [fill_upTo io k reads h]
        have e := List.take_append_drop (max k 1) io.unread
        by_cases hz : (io.unread.take (max k 1)).length = 0
        · rw [if_pos hz]
          have hu : io.unread = [] := by
            rw [List.length_take] at hz
            exact List.length_eq_zero_iff.1 (by omega)
          simp only [hu, List.append_nil, List.drop_nil, true_and]
          omega
        · rw [if_neg hz]
          have := ih (buf ++ io.unread.take (max k 1)) { io with unread := io.unread.drop (max k 1) }
          rwa [List.append_assoc, e] at this

theorem fill_live (n : Nat) (buf : Bytes) (io : Inner) (reads : List ReadAnswer) (hok : ∀ r ∈ reads, r ≠ .failed)
    (hlen : io.unread.length < reads.length) :
    (∃ b i, fill n buf io reads = .eof b i) ∨
      ∃ b i rs, fill n buf io reads = .full b i rs ∧ (∀ r ∈ rs, r ≠ .failed) ∧ i.unread.length < rs.length := by
  induction reads generalizing buf io with
  | nil => simp at hlen
  | cons r reads ih =>
    unfold fill
    split
    · exact .inr ⟨_, _, _, rfl, hok, hlen⟩
    · cases r with
      | failed => exact absurd rfl (hok _ (by simp))
      | upTo k =>
        dsimp only
        by_cases hz : (io.unread.take (max k 1)).length = 0
        · rw [if_pos hz]; exact .inl ⟨_, _, rfl⟩
        · rw [if_neg hz]
          refine ih _ _ (fun r hr => hok r (by simp [hr])) ?_
          rw [List.length_take] at hz
          simp only [List.length_cons] at hlen
          simp only [List.length_drop]
          omega

/-- How reading must end, given all the client sends. -/
inductive Reads (utf8 : Bytes → Bool) (all : Bytes) : ReadOut → Prop where
  /-- There is no preface: all bytes are kept. -/
  | absent (p : PrefixedIo) (h : all.length < 27 ∨ ¬ preface <+: all) (hp : p.unread = all) : Reads utf8 all (.absent p)
  /-- A header, and the payload after it. -/
  | header (hd : Header) (msg : Bytes) (p : PrefixedIo)
    (h : all = preface ++ (be32 msg.length ++ (msg ++ p.unread))) (hl : msg.length ≤ 65536)
    (hm : decode utf8 msg = some hd) : Reads utf8 all (.header hd p)
  /-- A message that cannot be decoded. -/
  | malformed (msg rest : Bytes) (h : all = preface ++ (be32 msg.length ++ (msg ++ rest))) (hl : msg.length ≤ 65536)
    (hm : decode utf8 msg = none) : Reads utf8 all .invalidData
  /-- A message that is announced as too long. -/
  | tooLong (len : Nat) (rest : Bytes) (h : all = preface ++ (be32 len ++ rest)) (hl : 65536 < len) (hl' : len < 2 ^ 32) :
    Reads utf8 all .invalidData
  /-- A message that is cut off. -/
  | cut (len : Nat) (rest : Bytes) (h : all = preface ++ (be32 len ++ rest)) (hl : len ≤ 65536)
    (hr : rest.length < len) : Reads utf8 all .unexpectedEof

theorem be32_getU32 (s : Bytes) (h : 4 ≤ s.length) : be32 (getU32 s) = s.take 4 ∧ getU32 s < 2 ^ 32 := by
  match s, h with
  | a :: b :: c :: d :: r, _ =>
    have ha := a.toNat_lt
    have hb := b.toNat_lt
    have hc := c.toNat_lt
    have hd := d.toNat_lt
    have ext : ∀ (x : Byte) (n : Nat), n = x.toNat → n.toUInt8 = x := by
      rintro x n rfl
      simp [Nat.toUInt8]
    simp only [getU32, be32, List.take_succ_cons, List.take_zero, List.cons.injEq, and_true]
    refine ⟨⟨ext a _ ?_, ext b _ ?_, ext c _ ?_, ext d _ ?_⟩, ?_⟩ <;> omega

theorem getU32_be32 (n : Nat) (h : n < 2 ^ 32) (r : Bytes) : getU32 (be32 n ++ r) = n := by
  simp only [be32, List.cons_append, List.nil_append, getU32]
  repeat rw [toUInt8_toNat _ (by omega)]
  omega

theorem preface_take (all : Bytes) (h : all.take preface.length = preface) : preface <+: all :=
  ⟨all.drop preface.length, by
    have := List.take_append_drop preface.length all
    rwa [h] at this⟩

/-- However the bytes arrive, reading ends as what the client sends says, unless a read fails or the timeout passes
first. Nothing is written to the client. -/
theorem C36_reads (utf8 : Bytes → Bool) (io : Inner) (reads : List ReadAnswer) :
    readPrefaced utf8 io reads = .timeout ∨ readPrefaced utf8 io reads = .ioError ∨
      Reads utf8 io.unread (readPrefaced utf8 io reads) := by
  unfold readPrefaced
  have h1 := fill_spec prefaceAndSize [] io reads
  cases hf : fill prefaceAndSize [] io reads with
  | timeout => exact .inl rfl
  | ioError => exact .inr (.inl rfl)
  | eof b i =>
    rw [hf] at h1
    dsimp only at h1 ⊢
    obtain ⟨h2, h3, -, h4⟩ := h1
    rw [List.nil_append] at h2
    exact .inr (.inr (.absent _ (.inl (by rw [← h2]; exact h4)) (by simp [PrefixedIo.unread, h2, h3])))
  | full b i rs =>
    rw [hf] at h1
    dsimp only at h1 ⊢
    obtain ⟨h2, h3, -⟩ := h1
    rw [List.nil_append] at h3
    have hpl : preface.length = 23 := rfl
    by_cases hp : b.take preface.length = preface
    · rw [if_neg (by simpa using hp)]
      have hb : b = preface ++ b.drop preface.length := by
        have := List.take_append_drop preface.length b
        rw [hp] at this; exact this.symm
      have hdl : 4 ≤ (b.drop preface.length).length := by rw [List.length_drop, hpl]; simp only [prefaceAndSize] at h2; omega
      obtain ⟨h4, h5⟩ := be32_getU32 _ hdl
      have hdd : b.drop preface.length = be32 (getU32 (b.drop preface.length)) ++ b.drop prefaceAndSize := by
        rw [h4]
        have := List.take_append_drop 4 (b.drop preface.length)
        rw [List.drop_drop, hpl] at this
        rw [hpl]
        exact this.symm
      have hall : io.unread = preface ++ (be32 (getU32 (b.drop preface.length)) ++
          (b.drop prefaceAndSize ++ i.unread)) := by
        rw [← h3]
        conv => lhs; rw [hb, hdd]
        simp only [List.append_assoc]
      generalize hlen : getU32 (b.drop preface.length) = len at *
      by_cases hbig : len > 65536
      · rw [if_pos (by omega)]
        exact .inr (.inr (.tooLong len _ hall hbig h5))
      · rw [if_neg (by omega)]
        have g1 := fill_spec len (b.drop prefaceAndSize) i rs
        cases hg : fill len (b.drop prefaceAndSize) i rs with
        | timeout => exact .inl rfl
        | ioError => exact .inr (.inl rfl)
        | eof b' i' =>
          rw [hg] at g1
          dsimp only at g1 ⊢
          exact .inr (.inr (.cut len _ hall (by omega) (by rw [← g1.1]; exact g1.2.2.2)))
        | full b' i' rs' =>
          rw [hg] at g1
          dsimp only at g1 ⊢
          obtain ⟨g2, g3, -⟩ := g1
          have hml : (b'.take len).length = len := by rw [List.length_take]; omega
          have hrest : io.unread = preface ++ (be32 (b'.take len).length ++ (b'.take len ++
              (b'.drop len ++ i'.unread))) := by
            rw [hall, hml, ← g3, ← List.append_assoc (b'.take len), List.take_append_drop]
          cases hd : decode utf8 (b'.take len) with
          | none => exact .inr (.inr (.malformed _ _ hrest (by omega) hd))
          | some h => exact .inr (.inr (.header h _ _ hrest (by omega) hd))
    · rw [if_pos (by simpa using hp)]
      refine .inr (.inr (.absent _ (.inr ?_) (by simpa [PrefixedIo.unread] using h3)))
      rintro ⟨t, ht⟩
      apply hp
      have hbl : preface.length ≤ b.length := by rw [hpl]; simp only [prefaceAndSize] at h2; omega
      rw [← List.take_append_of_le_length hbl (l₂ := i.unread), h3, ← ht, List.take_left]

/-- If no read fails and the stream is read to its end in time, reading ends as it must. -/
theorem C36_reads_in_time (utf8 : Bytes → Bool) (io : Inner) (reads : List ReadAnswer)
    (hok : ∀ r ∈ reads, r ≠ .failed) (hlen : io.unread.length < reads.length) :
    Reads utf8 io.unread (readPrefaced utf8 io reads) := by
  rcases C36_reads utf8 io reads with h | h | h
  case inr.inr => exact h
  all_goals
    exfalso
    unfold readPrefaced at h
    rcases fill_live prefaceAndSize [] io reads hok hlen with ⟨b, i, hf⟩ | ⟨b, i, rs, hf, hok', hlen'⟩
    · simp [hf] at h
    · simp only [hf] at h
      split at h
      · cases h
      split at h
      · cases h
      rcases fill_live (getU32 (b.drop preface.length)) (b.drop prefaceAndSize) i rs hok' hlen' with
        ⟨b', i', hg⟩ | ⟨b', i', rs', hg, -⟩
      · simp [hg] at h
      · simp only [hg] at h
        split at h <;> cases h

theorem prefixed_unique (len len' : Nat) (a b : Bytes) (hl : len < 2 ^ 32) (hl' : len' < 2 ^ 32)
    (h : preface ++ (be32 len ++ a) = preface ++ (be32 len' ++ b)) : len = len' ∧ a = b := by
  have h1 := List.append_cancel_left h
  have h2 := congrArg getU32 h1
  rw [getU32_be32 _ hl, getU32_be32 _ hl'] at h2
  subst h2
  exact ⟨rfl, List.append_cancel_left h1⟩

/-- What the client sends determines how reading ends: two readers of one stream that both end, end alike and with the
same bytes to come, however differently the bytes arrived. -/
theorem C36_independent_of_segmentation (utf8 : Bytes → Bool) (all : Bytes) (a b : ReadOut) (ha : Reads utf8 all a)
    (hb : Reads utf8 all b) :
    (∀ h p, a = .header h p → ∃ q, b = .header h q ∧ q.unread = p.unread) ∧
      (∀ p, a = .absent p → ∃ q, b = .absent q ∧ q.unread = p.unread) ∧
      (a = .invalidData → b = .invalidData) ∧ (a = .unexpectedEof → b = .unexpectedEof) := by
  have noPreface : ∀ len (rest : Bytes), all = preface ++ (be32 len ++ rest) →
      ¬ (all.length < 27 ∨ ¬ preface <+: all) := by
    rintro len rest rfl (h | h)
    · simp [preface, be32] at h; omega
    · exact h ⟨_, rfl⟩
  cases ha with
  | absent p h hp =>
    cases hb with
    | absent q _ hq =>
      refine ⟨by simp, fun p' hp' => ?_, by simp, by simp⟩
      cases hp'; exact ⟨q, rfl, by rw [hq, hp]⟩
    | header _ msg _ e => exact absurd h (noPreface _ _ e)
    | malformed msg _ e => exact absurd h (noPreface _ _ e)
    | tooLong _ _ e => exact absurd h (noPreface _ _ e)
    | cut _ _ e => exact absurd h (noPreface _ _ e)
  | header hd msg p e hl hm =>
    cases hb with
    | absent _ h => exact absurd h (noPreface _ _ e)
    | header hd' msg' p' e' hl' hm' =>
      obtain ⟨h1, h2⟩ := prefixed_unique _ _ _ _ (by omega) (by omega) (e.symm.trans e')
      obtain ⟨h3, h4⟩ := List.append_inj h2 h1
      subst h3
      rw [hm] at hm'
      cases hm'
      refine ⟨fun h q hq => ?_, by simp, by simp, by simp⟩
      cases hq; exact ⟨_, rfl, h4.symm⟩
    | malformed msg' _ e' hl' hm' =>
      obtain ⟨h1, h2⟩ := prefixed_unique _ _ _ _ (by omega) (by omega) (e.symm.trans e')
      obtain ⟨h3, h4⟩ := List.append_inj h2 h1
      rw [h3, hm'] at hm; cases hm
    | tooLong len _ e' hl' hl'' =>
      have := (prefixed_unique _ _ _ _ (by omega) hl'' (e.symm.trans e')).1; omega
    | cut len _ e' hl' hr =>
      obtain ⟨h1, h2⟩ := prefixed_unique _ _ _ _ (by omega) (by omega) (e.symm.trans e')
      have := congrArg List.length h2
      rw [List.length_append] at this; omega
  | malformed msg rest e hl hm =>
    cases hb with
    | absent _ h => exact absurd h (noPreface _ _ e)
    | header hd' msg' p' e' hl' hm' =>
      obtain ⟨h1, h2⟩ := prefixed_unique _ _ _ _ (by omega) (by omega) (e.symm.trans e')
      obtain ⟨h3, h4⟩ := List.append_inj h2 h1
      rw [h3, hm'] at hm; cases hm
    | malformed => simp
    | tooLong => simp
    | cut len _ e' hl' hr =>
      obtain ⟨h1, h2⟩ := prefixed_unique _ _ _ _ (by omega) (by omega) (e.symm.trans e')
      have := congrArg List.length h2
      rw [List.length_append] at this; omega
  | tooLong len rest e hl hl' =>
    cases hb with
    | absent _ h => exact absurd h (noPreface _ _ e)
    | header hd' msg' p' e' hl2 hm' =>
      have := (prefixed_unique _ _ _ _ hl' (by omega) (e.symm.trans e')).1; omega
    | malformed => simp
    | tooLong => simp
    | cut len' _ e' hl2 hr =>
      have := (prefixed_unique _ _ _ _ hl' (by omega) (e.symm.trans e')).1; omega
  | cut len rest e hl hr =>
    cases hb with
    | absent _ h => exact absurd h (noPreface _ _ e)
    | header hd' msg' p' e' hl2 hm' =>
      obtain ⟨h1, h2⟩ := prefixed_unique _ _ _ _ (by omega) (by omega) (e.symm.trans e')
      have := congrArg List.length h2
      rw [List.length_append] at this; omega
    | malformed msg' _ e' hl2 hm' =>
      obtain ⟨h1, h2⟩ := prefixed_unique _ _ _ _ (by omega) (by omega) (e.symm.trans e')
      have := congrArg List.length h2
      rw [List.length_append] at this; omega
    | tooLong len' _ e' hl2 hl'' =>
      have := (prefixed_unique _ _ _ _ (by omega) hl'' (e.symm.trans e')).1; omega
    | cut => simp

/-! ## Round trip -/

theorem varint_length (n : Nat) : (varint n).length ≤ 10 := by
  have : ∀ k n, (varintLoop k n).length ≤ k := by
    intro k
    induction k with
    | zero => simp [varintLoop]
    | succ k ih =>
      intro n
      rw [varintLoop]
      split
      · simp
      · simp [ih]
  exact this 10 n

theorem message_length (h : Header) (hv : h.Valid) : h.toProto.encode.length ≤ 1000 := by
  have hn : (bytesOf (h.name.getD [])).length ≤ 253 := by
    cases hname : h.name with
    | none => simp [bytesOf]
    | some n =>
      obtain ⟨s, hs⟩ := hv.name n hname
      have := name_parts n n (Dns.C33_idempotent s n hs)
      simpa [bytesOf] using this.2.1
  have k1 := varint_length (1 * 8 + 0)
  have k2 := varint_length (2 * 8 + 2)
  have k3 := varint_length (3 * 8 + 2)
  have v1 := varint_length (toU64 h.toProto.port)
  have v2 := varint_length h.toProto.name.length
  have hsess : ∀ k : Option SessionProtocol, (encodeSession k).length ≤ 20 := by
    intro k
    match k with
    | none => decide
    | some .http1 => decide
    | some .http2 => decide
  simp only [Proto.encode, List.length_append, key]
  have a1 : (if h.toProto.port ≠ 0 then varint (1 * 8 + 0) ++ varint (toU64 h.toProto.port) else []).length ≤ 20 := by
    split
    · rw [List.length_append]; omega
    · simp
  have a2 : (if h.toProto.name ≠ [] then varint (2 * 8 + 2) ++ (varint h.toProto.name.length ++ h.toProto.name)
      else []).length ≤ 273 := by
    split
    · simp only [List.length_append]
      have : h.toProto.name.length ≤ 253 := hn
      omega
    · simp
  have a3 : (encodeSessionField h.toProto.sessionProtocol).length ≤ 40 := by
    cases h.toProto.sessionProtocol with
    | none => simp [encodeSessionField]
    | some k =>
      have := hsess k
      have := varint_length (encodeSession k).length
      simp only [encodeSessionField, key, List.length_append]
      omega
  omega

/-- Every header can be encoded, as the preface, the length and the message. -/
theorem encode_some (h : Header) (hv : h.Valid) :
    h.encode = some (preface ++ (be32 h.toProto.encode.length ++ h.toProto.encode)) := by
  have := message_length h hv
  simp only [Header.encode]
  rw [if_neg (by omega)]

/-- A header with a port other than zero, written before any payload, is read back as it was, and the payload is what
the stream delivers next. This holds however the bytes arrive. -/
theorem C36_round_trip (utf8 : Bytes → Bool) (ha : Ascii utf8) (h : Header) (hv : h.Valid) (hp : h.port ≠ 0)
    (payload : Bytes) (written : Bytes) :
    ∃ bytes, h.encode = some bytes ∧
      (∀ reads, readPrefaced utf8 ⟨bytes ++ payload, written⟩ reads = .timeout ∨
        readPrefaced utf8 ⟨bytes ++ payload, written⟩ reads = .ioError ∨
        ∃ p, readPrefaced utf8 ⟨bytes ++ payload, written⟩ reads = .header h p ∧ p.unread = payload) ∧
      (∀ reads, (∀ r ∈ reads, r ≠ .failed) → (bytes ++ payload).length < reads.length →
        ∃ p, readPrefaced utf8 ⟨bytes ++ payload, written⟩ reads = .header h p ∧ p.unread = payload) := by
  refine ⟨_, encode_some h hv, ?_⟩
  have hm : decode utf8 h.toProto.encode = some h := by rw [decode_encode utf8 ha h hv, if_neg hp]
  have hml := message_length h hv
  have target : Reads utf8 (preface ++ (be32 h.toProto.encode.length ++ h.toProto.encode) ++ payload)
      (.header h ⟨payload, ⟨[], []⟩⟩) :=
    .header h _ _ (by simp [PrefixedIo.unread]) (by omega) hm
  have key : ∀ out, Reads utf8 (preface ++ (be32 h.toProto.encode.length ++ h.toProto.encode) ++ payload) out →
      ∃ p, out = .header h p ∧ p.unread = payload := by
    intro out hout
    obtain ⟨q, h1, h2⟩ := (C36_independent_of_segmentation utf8 _ _ out target hout).1 h _ rfl
    exact ⟨q, h1, by rw [h2]; simp [PrefixedIo.unread]⟩
  refine ⟨fun reads => ?_, fun reads hok hlen => ?_⟩
  · rcases C36_reads utf8 ⟨_, written⟩ reads with h | h | h
    · exact .inl h
    · exact .inr (.inl h)
    · exact .inr (.inr (key _ h))
  · exact key _ (C36_reads_in_time utf8 ⟨_, written⟩ reads hok hlen)

/-- A header with port zero is written, but never accepted by the reader. -/
theorem C36_port_zero_is_refused (utf8 : Bytes → Bool) (ha : Ascii utf8) (h : Header) (hv : h.Valid) (hp : h.port = 0)
    (payload written : Bytes) :
    ∃ bytes, h.encode = some bytes ∧ ∀ reads, call utf8 ⟨bytes ++ payload, written⟩ reads = .error := by
  refine ⟨_, encode_some h hv, fun reads => ?_⟩
  have hm : decode utf8 h.toProto.encode = none := by rw [decode_encode utf8 ha h hv, if_pos hp]
  have hml := message_length h hv
  have target : Reads utf8 (preface ++ (be32 h.toProto.encode.length ++ h.toProto.encode) ++ payload) .invalidData :=
    .malformed _ payload (by simp) (by omega) hm
  unfold call
  rcases C36_reads utf8 ⟨_, written⟩ reads with h | h | h
  · rw [h]
  · rw [h]
  · rw [(C36_independent_of_segmentation utf8 _ _ _ target h).2.2.1 rfl]

/-- What is written is the encoding, however little is taken at a time. -/
theorem C36_writes (buf : Bytes) (takes : List Nat) :
    (writeLoop buf takes).1 <+: buf ∧ ((writeLoop buf takes).2 = true → (writeLoop buf takes).1 = buf) ∧
      ((∀ k ∈ takes, 1 ≤ k) → buf.length ≤ takes.length → (writeLoop buf takes).2 = true) := by
  induction takes generalizing buf with
  | nil =>
    cases buf with
    | nil => simp [writeLoop]
    | cons b buf => simp [writeLoop]
  | cons k takes ih =>
    cases buf with
    | nil => simp [writeLoop]
    | cons b buf =>
      have e : writeLoop (b :: buf) (k :: takes) = ((b :: buf).take k ++ (writeLoop ((b :: buf).drop k) takes).1,
          (writeLoop ((b :: buf).drop k) takes).2) := by rw [writeLoop]; simp
      obtain ⟨⟨t, ht⟩, h2, h3⟩ := ih ((b :: buf).drop k)
      rw [e]
      dsimp only
      refine ⟨⟨t, by rw [List.append_assoc, ht, List.take_append_drop]⟩, fun h => ?_, fun h1 hl => ?_⟩
      · rw [h2 h, List.take_append_drop]
      · have := h1 k (by simp)
        refine h3 (fun x hx => h1 x (by simp [hx])) ?_
        rw [List.length_drop]
        simp only [List.length_cons] at hl ⊢
        omega

/-! ## The server -/

/-- A connection is passed on exactly with the header its stream begins with, whose port and name are valid, and with
the bytes after it. -/
theorem C36_server (utf8 : Bytes → Bool) (io : Inner) (reads : List ReadAnswer) (h : Header) (p : PrefixedIo)
    (hc : call utf8 io reads = .accepted h p) :
    (∃ msg, io.unread = preface ++ (be32 msg.length ++ (msg ++ p.unread)) ∧ decode utf8 msg = some h) ∧
      1 ≤ h.port ∧ h.Valid := by
  have hr : readPrefaced utf8 io reads = .header h p := by
    unfold call at hc
    split at hc
    · rename_i e; cases hc; exact e
    · cases hc
  rcases C36_reads utf8 io reads with e | e | e
  · rw [hr] at e; cases e
  · rw [hr] at e; cases e
  · rw [hr] at e
    cases e with
    | header _ msg _ e1 e2 e3 =>
      refine ⟨⟨msg, e1, e3⟩, ?_⟩
      unfold decode at e3
      split at e3
      · cases e3
      · rename_i q hq
        dsimp only at e3
        split at e3
        · cases e3
        · rename_i nm hnm
          split at e3
          · cases e3
          · rename_i hport
            cases e3
            refine ⟨by dsimp only; omega, by dsimp only; omega, fun n hn => ?_⟩
            dsimp only at hn
            subst hn
            split at hnm
            · cases hnm
            · simp only [Option.map_eq_some_iff, Option.some.injEq] at hnm
              obtain ⟨x, hx, rfl⟩ := hnm
              exact ⟨_, hx⟩

/-- Without the preface the connection is refused. -/
theorem C36_server_refuses (utf8 : Bytes → Bool) (io : Inner) (reads : List ReadAnswer)
    (h : ¬ preface <+: io.unread) : call utf8 io reads = .error := by
  cases hc : call utf8 io reads with
  | error => rfl
  | accepted hd p =>
    obtain ⟨⟨msg, e, -⟩, -⟩ := C36_server utf8 io reads hd p hc
    exact absurd ⟨_, e.symm⟩ h

/-! ## Fields of later versions -/

/-- Fields the reader does not know are ignored, wherever they stand between fields: here numbers and
length-delimited ones before the rest of the message. -/
theorem C36_unknown_fields_are_ignored (utf8 : Bytes → Bool) (tag : Nat) (ht : 4 ≤ tag) (ht' : tag < 2 ^ 29)
    (p : Proto) (r : Bytes) :
    (∀ v, v < 2 ^ 64 → mergeAll (headerField utf8) p (key tag 0 ++ (varint v ++ r)) = mergeAll (headerField utf8) p r) ∧
      (∀ b : Bytes, b.length < 2 ^ 64 → mergeAll (headerField utf8) p (key tag 2 ++ (varint b.length ++ (b ++ r))) =
        mergeAll (headerField utf8) p r) := by
  have h1 : ¬ tag = 1 := by omega
  have h2 : ¬ tag = 2 := by omega
  have h3 : ¬ tag = 3 := by omega
  constructor
  · intro v hv
    rw [mergeAll_key (header_shrinks utf8) p tag 0 _ (by omega) ht' (by omega)]
    simp [headerField, h1, h2, h3, skip, skipField, readVarint_eq v r hv]
  · intro b hb
    rw [mergeAll_key (header_shrinks utf8) p tag 2 _ (by omega) ht' (by omega)]
    simp [headerField, h1, h2, h3, skip, skipField, readDelimited_eq b r hb]

/-! ## A concrete header -/

def sample : Header := ⟨4143, some "web.ns.svc".toList, some .http2⟩

def asciiOnly (b : Bytes) : Bool := b.all fun x => x.toNat < 128

example : Ascii asciiOnly := by
  intro b h; simpa [asciiOnly] using h

example : sample.Valid := ⟨by decide, fun n h => ⟨n, by cases h; decide +kernel⟩⟩

example : sample.encode = some (preface ++ [0, 0, 0, 19] ++
    [8, 0xaf, 0x20, 18, 10, 119, 101, 98, 46, 110, 115, 46, 115, 118, 99, 26, 2, 18, 0]) := by decide +kernel

example : readPrefaced asciiOnly ⟨(sample.encode.getD []) ++ [1, 2, 3], []⟩
    [.upTo 5, .upTo 24, .upTo 9, .upTo 10, .upTo 10] = .header sample ⟨[1, 2], ⟨[3], []⟩⟩ := by decide +kernel

example : readPrefaced asciiOnly ⟨[71, 69, 84], []⟩ [.upTo 2, .upTo 2, .upTo 2] = .absent ⟨[71, 69, 84], ⟨[], []⟩⟩ := by
  decide +kernel

example : (⟨0, none, none⟩ : Header).Valid := ⟨by decide, by simp⟩

end Verif.TransportHeader
