import Verif.Trace.Model

/-!
# Lemmas on trace contexts
-/

namespace Verif.Trace

open Verif
open Verif.HttpRoute.Api (headerValue)

theorem splitOnce_eq_some (sep : Char) (s a b : Str) : splitOnce sep s = some (a, b) ↔ s = a ++ sep :: b ∧ sep ∉ a := by
  induction s generalizing a with
  | nil => simp [splitOnce]
  | cons c s ih =>
    unfold splitOnce
    by_cases hc : c = sep
    · subst hc
      simp only [if_pos, Option.some.injEq, Prod.mk.injEq]
      constructor
      · rintro ⟨rfl, rfl⟩; simp
      · rintro ⟨h, hn⟩
        cases a with
        | nil => simpa using h
        | cons d a => simp only [List.cons_append, List.cons.injEq] at h; simp [← h.1] at hn
    · rw [if_neg hc]
      cases a with
      | nil =>
        simp only [List.nil_append, List.cons.injEq, hc, false_and, iff_false]
        cases splitOnce sep s <;> simp
      | cons d a =>
        have hs : sep ≠ c := fun h => hc h.symm
        constructor
        · intro h
          cases hq : splitOnce sep s with
          | none => simp [hq] at h
          | some p =>
            obtain ⟨p1, p2⟩ := p
            simp only [hq, Option.map_some, Option.some.injEq, Prod.mk.injEq, List.cons.injEq] at h
            obtain ⟨⟨rfl, rfl⟩, rfl⟩ := h
            obtain ⟨h1, h2⟩ := (ih _).1 hq
            exact ⟨by rw [h1]; rfl, by simp [hs, h2]⟩
        · rintro ⟨h, hn⟩
          simp only [List.cons_append, List.cons.injEq] at h
          obtain ⟨rfl, h⟩ := h
          simp only [List.mem_cons, not_or] at hn
          rw [(ih a).2 ⟨h, hn.2⟩]
          rfl

theorem splitOnce_append (sep : Char) (a b : Str) (h : sep ∉ a) : splitOnce sep (a ++ sep :: b) = some (a, b) :=
  (splitOnce_eq_some ..).2 ⟨rfl, h⟩

theorem splitOnce_none (sep : Char) (s : Str) : splitOnce sep s = none ↔ sep ∉ s := by
  induction s with
  | nil => simp [splitOnce]
  | cons c s ih =>
    unfold splitOnce
    by_cases hc : c = sep
    · simp [hc]
    · have hs : sep ≠ c := fun h => hc h.symm
      simp [hc, hs, ih]

/-! ### Ids -/

theorem decodeId_eq_some (s : Str) (n : Nat) (b : Bytes) :
    decodeId s n = some b ↔ ∃ d, hexDecode s = some d ∧ b = List.replicate (n - d.length) 0 ++ d := by
  unfold decodeId
  cases hexDecode s with
  | none => simp
  | some d =>
    simp only [Option.map_some, Option.some.injEq, exists_eq_left']
    by_cases h : d.length < n
    · simp only [h, if_true]; exact eq_comm
    · have : n - d.length = 0 := by omega
      simp only [h, if_false, this, List.replicate_zero, List.nil_append]; exact eq_comm

theorem decodeId_encode (b : Bytes) (n : Nat) (h : n ≤ b.length) : decodeId (hexEncode b) n = some b := by
  rw [decodeId_eq_some]
  refine ⟨b, hexDecode_encode b, ?_⟩
  have : n - b.length = 0 := by omega
  simp [this]

theorem hexVal_zero (c : Char) : hexVal c = some 0 ↔ c = '0' := by
  constructor
  · intro h
    unfold hexVal at h
    have h0 : c.toNat = 48 := by
      split at h
      · simp only [Option.some.injEq] at h; omega
      · split at h
        · simp only [Option.some.injEq] at h; omega
        · split at h
          · simp only [Option.some.injEq] at h; omega
          · simp at h
    apply Char.ext
    apply UInt32.toNat_inj.1
    exact h0
  · rintro rfl; decide

theorem hexVal_lt {c : Char} {n : Nat} (h : hexVal c = some n) : n < 16 := by
  unfold hexVal at h
  split at h
  · simp only [Option.some.injEq] at h; omega
  · split at h
    · simp only [Option.some.injEq] at h; omega
    · split at h
      · simp only [Option.some.injEq] at h; omega
      · simp at h

theorem hexDecode_zeros (s : Str) (d : Bytes) (h : hexDecode s = some d) : s.all (· == '0') = d.all (· == 0) := by
  induction s using hexDecode.induct generalizing d with
  | case1 => simp only [hexDecode, Option.some.injEq] at h; subst h; rfl
  | case2 => simp [hexDecode] at h
  | case3 a b s x y bs h3 h1 h2 ih =>
    simp only [hexDecode, h1, h2, h3, Option.some.injEq] at h
    subst h
    have hx := hexVal_lt h1
    have hy := hexVal_lt h2
    simp only [List.all_cons, ih bs h3, ← Bool.and_assoc]
    congr 1
    rw [Bool.eq_iff_iff]
    simp only [Bool.and_eq_true, beq_iff_eq]
    rw [← hexVal_zero, ← hexVal_zero, h1, h2, ← UInt8.toNat_inj]
    simp only [UInt8.toNat_ofNat', UInt8.toNat_zero, Option.some.injEq]
    omega
  | case4 a b s hn ih =>
    unfold hexDecode at h
    split at h
    · rename_i h1 h2 h3; exact absurd h3 (fun h3 => hn _ _ _ h1 h2 h3)
    · simp at h

theorem decodeId_nonzero {s : Str} {n : Nat} {b : Bytes} (h : decodeId s n = some b) (hs : s.all (· == '0') = false) :
    b.all (· == 0) = false := by
  obtain ⟨d, hd, rfl⟩ := (decodeId_eq_some ..).1 h
  rw [List.all_append, ← hexDecode_zeros s d hd, hs, Bool.and_false]

theorem decodeId_length {s : Str} {n : Nat} {b : Bytes} (h : decodeId s n = some b) : n ≤ b.length := by
  obtain ⟨d, hd, rfl⟩ := (decodeId_eq_some ..).1 h
  simp; omega

/-! ### Values of headers -/

theorem toStr_of_printed (s : Str) (h : ∀ c ∈ s, printed c = true) : toStr s = some s := by
  unfold toStr
  rw [if_pos]
  rw [List.all_eq_true]
  intro c hc
  have := h c hc
  simp only [printed, Bool.and_eq_true, decide_eq_true_eq] at this
  simp only [visible, Bool.or_eq_true, Bool.and_eq_true, decide_eq_true_eq]
  exact Or.inl ⟨by omega, this.2⟩

theorem headerValue_of_printed (s : Str) (h : ∀ c ∈ s, printed c = true) : headerValue s = some s := by
  unfold headerValue
  rw [if_pos]
  rw [List.all_eq_true]
  intro c hc
  have := h c hc
  simp only [printed, Bool.and_eq_true, decide_eq_true_eq] at this
  simp only [Bool.or_eq_true, Bool.and_eq_true, decide_eq_true_eq, bne_iff_ne]
  exact Or.inl ⟨by omega, by omega⟩

theorem printed_of_hexChar {c : Char} (h : hexChar c = true) : printed c = true := by
  simp only [hexChar, Bool.or_eq_true, Bool.and_eq_true, decide_eq_true_eq] at h
  simp only [printed, Bool.and_eq_true, decide_eq_true_eq]
  omega

theorem hexEncode_printed (b : Bytes) : ∀ c ∈ hexEncode b, printed c = true :=
  fun c hc => printed_of_hexChar (hexEncode_chars b c hc)

theorem dash_not_hex (b : Bytes) : '-' ∉ hexEncode b := fun h => by
  have := hexEncode_chars b _ h
  revert this; decide

theorem w3cText_printed (c : Context) (span : Bytes) : ∀ ch ∈ w3cText c span, printed ch = true := by
  intro ch h
  simp only [w3cText, List.mem_append, List.mem_cons] at h
  rcases h with (h | h) | rfl | h | rfl | h
  · revert ch; decide
  · exact hexEncode_printed _ _ h
  · decide
  · exact hexEncode_printed _ _ h
  · decide
  · exact hexEncode_printed _ _ h

/-- The header a kind of context is written to. -/
def Kind.header : Kind → String
  | .b3Http => "x-b3-spanid"
  | .b3Grpc => "grpc-trace-bin"
  | .w3c => "traceparent"

/-- The value it is written as. -/
def text (c : Context) (span : Bytes) : Str :=
  match c.kind with
  | .b3Grpc => b64Encode (grpcBytes c span)
  | .b3Http => hexEncode span
  | .w3c => w3cText c span

theorem text_printed (c : Context) (span : Bytes) : ∀ ch ∈ text c span, printed ch = true := by
  unfold text
  cases c.kind
  · exact hexEncode_printed _
  · exact b64Encode_chars _
  · exact w3cText_printed _ _

theorem increment_eq (h : HeaderMap) (c : Context) (span : Bytes) :
    increment h c span = h.insert c.kind.header (text c span) := by
  have := headerValue_of_printed _ (text_printed c span)
  unfold text at this
  unfold increment text Kind.header setIfValid
  cases hk : c.kind <;> simp only [hk] at this ⊢ <;> rw [this]

theorem getStr_insert (h : HeaderMap) (n m : String) (v : Str) :
    getStr (h.insert n v) m = if m = n then toStr v else getStr h m := by
  unfold getStr
  rw [HeaderMap.get_insert]
  split <;> rfl

/-! ### Kinds -/

theorem unpackW3c_kind {h : HeaderMap} {c : Context} (hu : unpackW3c h = .found c) : c.kind = .w3c := by
  unfold unpackW3c at hu
  split at hu
  · simp at hu
  · unfold parseW3c at hu
    split at hu
    · simp at hu
    · split at hu
      · simp at hu
      · split at hu
        · simp at hu
        · split at hu
          · simp at hu
          · unfold parseFlags at hu
            split at hu
            · simp at hu
            · simp at hu
            · simp only [Read.found.injEq] at hu; rw [← hu]

theorem parseGrpcField_kind {id : UInt8} {buf rest : Bytes} {c c' : Context} (h : parseGrpcField id buf c = .ok c' rest) :
    c'.kind = c.kind := by
  unfold parseGrpcField at h
  split at h
  · split at h
    · simp only [Field.ok.injEq] at h; rw [← h.1]
    · simp at h
  · split at h
    · split at h
      · simp only [Field.ok.injEq] at h; rw [← h.1]
      · simp at h
    · split at h
      · split at h
        · simp only [Field.ok.injEq] at h; rw [← h.1]
        · simp at h
      · simp at h

theorem parseGrpcFields_kind (fuel : Nat) (buf : Bytes) (c c' : Context) (h : parseGrpcFields fuel buf c = some c') :
    c'.kind = c.kind := by
  induction fuel generalizing buf c with
  | zero => cases buf <;> simp only [parseGrpcFields, Option.some.injEq] at h <;> rw [← h]
  | succ n ih =>
    cases buf with
    | nil => simp only [parseGrpcFields, Option.some.injEq] at h; rw [← h]
    | cons id buf =>
      simp only [parseGrpcFields] at h
      split at h
      · rename_i hf; rw [ih _ _ h, parseGrpcField_kind hf]
      · simp only [Option.some.injEq] at h; rw [← h]
      · simp at h

theorem unpackGrpc_kind {h : HeaderMap} {c : Context} (hu : unpackGrpc h = some c) : c.kind = .b3Grpc := by
  unfold unpackGrpc at hu
  simp only [Option.bind_eq_some_iff] at hu
  obtain ⟨bs, _, hp⟩ := hu
  unfold parseGrpc at hp
  split at hp
  · simp at hp
  · exact parseGrpcFields_kind _ _ _ _ hp

theorem unpackHttp_kind {h : HeaderMap} {c : Context} (hu : unpackHttp h = some c) : c.kind = .b3Http := by
  unfold unpackHttp at hu
  split at hu
  · simp at hu
  · split at hu
    · simp at hu
    · simp only [Option.some.injEq] at hu; rw [← hu]

/-- What `unpack` finds, by where it finds it. -/
theorem unpack_found (h : HeaderMap) (c : Context) :
    unpack h = .found c ↔ unpackW3c h = .found c ∨ (unpackW3c h = .absent ∧ (unpackGrpc h = some c ∨
      (unpackGrpc h = none ∧ unpackHttp h = some c))) := by
  unfold unpack Read.orElse
  cases unpackW3c h with
  | panic => simp
  | found d => simp
  | absent =>
    cases unpackGrpc h with
    | some d => simp [Read.ofOption]
    | none =>
      cases unpackHttp h <;> simp [Read.ofOption]

theorem unpack_absent (h : HeaderMap) :
    unpack h = .absent ↔ unpackW3c h = .absent ∧ unpackGrpc h = none ∧ unpackHttp h = none := by
  unfold unpack Read.orElse
  cases unpackW3c h with
  | panic => simp
  | found d => simp
  | absent =>
    cases unpackGrpc h with
    | some d => simp [Read.ofOption]
    | none => cases unpackHttp h <;> simp [Read.ofOption]

theorem unpack_panic (h : HeaderMap) : unpack h = .panic ↔ unpackW3c h = .panic := by
  unfold unpack Read.orElse
  cases unpackW3c h with
  | panic => simp
  | found d => simp
  | absent =>
    cases unpackGrpc h with
    | some d => simp [Read.ofOption]
    | none => cases unpackHttp h <;> simp [Read.ofOption]

/-! ### W3C -/

theorem parseField_eq_some (s : Str) (n : Nat) (b : Bytes) (rest : Str) :
    parseField s n = some (b, rest) ↔
      ∃ a, s = a ++ '-' :: rest ∧ '-' ∉ a ∧ a.all (· == '0') = false ∧ decodeId a n = some b := by
  unfold parseField
  cases hq : splitOnce '-' s with
  | none =>
    simp only [reduceCtorEq, false_iff, not_exists]
    rintro a ⟨rfl, h, -⟩
    rw [splitOnce_append _ _ _ h] at hq
    simp at hq
  | some p =>
    obtain ⟨id, r⟩ := p
    obtain ⟨h1, h2⟩ := (splitOnce_eq_some ..).1 hq
    simp only
    constructor
    · intro h
      split at h
      · simp at h
      · rename_i hz
        cases hd : decodeId id n with
        | none => simp [hd] at h
        | some d =>
          simp only [hd, Option.map_some, Option.some.injEq, Prod.mk.injEq] at h
          obtain ⟨rfl, rfl⟩ := h
          exact ⟨id, h1, h2, by simpa using hz, hd⟩
    · rintro ⟨a, ha, h3, h4, h5⟩
      have := splitOnce_append '-' a rest h3
      rw [← ha, hq] at this
      simp only [Option.some.injEq, Prod.mk.injEq] at this
      obtain ⟨rfl, rfl⟩ := this
      rw [h4, h5]; rfl

/-- The parts of a `traceparent`. -/
def Parts (s a b f : Str) (trace parent : Bytes) : Prop :=
  s = "00-".toList ++ a ++ '-' :: (b ++ '-' :: f) ∧ '-' ∉ a ∧ '-' ∉ b ∧ a.all (· == '0') = false ∧
    b.all (· == '0') = false ∧ decodeId a 16 = some trace ∧ decodeId b 8 = some parent

theorem parseW3c_of_parts {s a b f : Str} {trace parent : Bytes} (h : Parts s a b f trace parent) :
    parseW3c s = parseFlags trace parent f := by
  obtain ⟨rfl, h1, h2, h3, h4, h5, h6⟩ := h
  have e : "00-".toList ++ a ++ '-' :: (b ++ '-' :: f) = "00".toList ++ '-' :: (a ++ '-' :: (b ++ '-' :: f)) := by
    simp
  unfold parseW3c
  rw [e, splitOnce_append _ _ _ (by decide)]
  simp only [ne_eq, not_true_eq_false, if_false]
  rw [(parseField_eq_some _ 16 trace (b ++ '-' :: f)).2 ⟨a, rfl, h1, h3, h5⟩]
  simp only
  rw [(parseField_eq_some _ 8 parent f).2 ⟨b, rfl, h2, h4, h6⟩]

theorem parseW3c_cases (s : Str) :
    parseW3c s = .absent ∨ ∃ a b f trace parent, Parts s a b f trace parent ∧ parseW3c s = parseFlags trace parent f := by
  unfold parseW3c
  split
  · exact Or.inl rfl
  · rename_i v r hs
    split
    · exact Or.inl rfl
    · rename_i hv
      split
      · exact Or.inl rfl
      · rename_i t r1 h1
        split
        · exact Or.inl rfl
        · rename_i p r2 h2
          refine Or.inr ?_
          obtain ⟨hs, -⟩ := (splitOnce_eq_some ..).1 hs
          obtain ⟨a, rfl, ha1, ha2, ha3⟩ := (parseField_eq_some ..).1 h1
          obtain ⟨b, rfl, hb1, hb2, hb3⟩ := (parseField_eq_some ..).1 h2
          have hv : v = "00".toList := by simpa using hv
          subst hv
          exact ⟨a, b, r2, t, p, ⟨by rw [hs]; simp, ha1, hb1, ha2, hb2, ha3, hb3⟩, rfl⟩

/-! ### gRPC -/

/-- How the fields of a binary context are read: the last of each counts, and an unknown one ends it. -/
inductive Fields : Bytes → Context → Context → Prop
  | done (c : Context) : Fields [] c c
  | unknown (id : UInt8) (rest : Bytes) (c : Context) (h : id ≠ 0 ∧ id ≠ 1 ∧ id ≠ 2) : Fields (id :: rest) c c
  | trace (id rest : Bytes) (c c' : Context) (h : id.length = 16) (hr : Fields rest { c with traceId := id } c') :
      Fields (0 :: (id ++ rest)) c c'
  | parent (id rest : Bytes) (c c' : Context) (h : id.length = 8) (hr : Fields rest { c with parentId := id } c') :
      Fields (1 :: (id ++ rest)) c c'
  | flags (f : UInt8) (rest : Bytes) (c c' : Context) (hr : Fields rest { c with flags := f } c') :
      Fields (2 :: f :: rest) c c'

theorem fields_of_parse (fuel : Nat) (buf : Bytes) (c c' : Context) (hf : buf.length ≤ fuel)
    (h : parseGrpcFields fuel buf c = some c') : Fields buf c c' := by
  induction fuel generalizing buf c with
  | zero =>
    cases buf with
    | nil => simp only [parseGrpcFields, Option.some.injEq] at h; rw [← h]; exact .done _
    | cons => simp at hf
  | succ n ih =>
    cases buf with
    | nil => simp only [parseGrpcFields, Option.some.injEq] at h; rw [← h]; exact .done _
    | cons id buf =>
      simp only [List.length_cons] at hf
      simp only [parseGrpcFields] at h
      by_cases h1 : id = 1
      · subst h1
        by_cases hl : 8 ≤ buf.length
        · simp only [parseGrpcField, if_true, hl] at h
          have := Fields.parent (buf.take 8) (buf.drop 8) c c' (by simp; omega) (ih _ _ (by simp; omega) h)
          rwa [List.take_append_drop] at this
        · simp [parseGrpcField, hl] at h
      · by_cases h0 : id = 0
        · subst h0
          by_cases hl : 16 ≤ buf.length
          · simp only [parseGrpcField, if_true, hl, show ((0 : UInt8) = 1) = False by decide, if_false] at h
            have := Fields.trace (buf.take 16) (buf.drop 16) c c' (by simp; omega) (ih _ _ (by simp; omega) h)
            rwa [List.take_append_drop] at this
          · simp [parseGrpcField, hl] at h
        · by_cases h2 : id = 2
          · subst h2
            cases buf with
            | nil => simp [parseGrpcField] at h
            | cons f rest =>
              simp only [parseGrpcField, show ((2 : UInt8) = 1) = False by decide,
                show ((2 : UInt8) = 0) = False by decide, if_true, if_false] at h
              exact .flags f rest c c' (ih _ _ (by simp at hf; omega) h)
          · simp only [parseGrpcField, h0, h1, h2, if_false, Option.some.injEq] at h
            rw [← h]
            exact .unknown _ _ _ ⟨h0, h1, h2⟩

theorem parse_of_fields {buf : Bytes} {c c' : Context} (h : Fields buf c c') (fuel : Nat) (hf : buf.length ≤ fuel) :
    parseGrpcFields fuel buf c = some c' := by
  induction h generalizing fuel with
  | done c => cases fuel <;> simp [parseGrpcFields]
  | unknown id rest c h =>
    cases fuel with
    | zero => simp at hf
    | succ n => simp [parseGrpcFields, parseGrpcField, h]
  | trace id rest c c' h hr ih =>
    cases fuel with
    | zero => simp at hf
    | succ n =>
      simp only [List.length_cons, List.length_append] at hf
      simp only [parseGrpcFields, parseGrpcField, show ((0 : UInt8) = 1) = False by decide, if_false, if_true,
        List.length_append, h, show 16 ≤ 16 + rest.length by omega]
      rw [List.take_left' h, List.drop_left' h]
      exact ih n (by omega)
  | parent id rest c c' h hr ih =>
    cases fuel with
    | zero => simp at hf
    | succ n =>
      simp only [List.length_cons, List.length_append] at hf
      simp only [parseGrpcFields, parseGrpcField, if_true,
        List.length_append, h, show 8 ≤ 8 + rest.length by omega]
      rw [List.take_left' h, List.drop_left' h]
      exact ih n (by omega)
  | flags f rest c c' hr ih =>
    cases fuel with
    | zero => simp at hf
    | succ n =>
      simp only [List.length_cons] at hf
      simp only [parseGrpcFields, parseGrpcField, show ((2 : UInt8) = 1) = False by decide,
        show ((2 : UInt8) = 0) = False by decide, if_true, if_false]
      exact ih n (by omega)

theorem parseGrpc_iff (buf : Bytes) (c : Context) :
    parseGrpc buf = some c ↔ ∃ v rest, buf = v :: rest ∧ Fields rest ⟨.b3Grpc, [], [], 0⟩ c := by
  cases buf with
  | nil => simp [parseGrpc]
  | cons v rest =>
    simp only [parseGrpc, List.cons.injEq]
    constructor
    · intro h
      exact ⟨v, rest, ⟨rfl, rfl⟩, fields_of_parse _ _ _ _ (Nat.le_refl _) h⟩
    · rintro ⟨_, _, ⟨rfl, rfl⟩, h⟩
      exact parse_of_fields h _ (Nat.le_refl _)

end Verif.Trace
