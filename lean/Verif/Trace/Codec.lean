import Verif.Common.Http

/-!
# Hexadecimal and base64

Models of `hex::{encode, decode}` (crate `hex`) and of `base64::engine::general_purpose::STANDARD` (crate `base64`: padding is
required, unused bits must be zero), neither in `/repo`.
-/

namespace Verif.Trace

abbrev Str := List Char

/-! ## Hexadecimal -/

/-- A digit of `hex::encode`. -/
def hexDigit (n : Nat) : Char := if n < 10 then Char.ofNat (48 + n) else Char.ofNat (87 + n)

/-- What a digit is worth for `hex::decode`: either case will do. -/
def hexVal (c : Char) : Option Nat :=
  if 48 ≤ c.toNat ∧ c.toNat ≤ 57 then some (c.toNat - 48)
  else if 97 ≤ c.toNat ∧ c.toNat ≤ 102 then some (c.toNat - 87)
  else if 65 ≤ c.toNat ∧ c.toNat ≤ 70 then some (c.toNat - 55)
  else none

/-- `hex::encode`. -/
def hexEncode : Bytes → Str
  | [] => []
  | b :: bs => hexDigit (b.toNat / 16) :: hexDigit (b.toNat % 16) :: hexEncode bs

/-- `hex::decode`; `none` is an error. -/
def hexDecode : Str → Option Bytes
  | [] => some []
  | [_] => none
  | a :: b :: s =>
    match hexVal a, hexVal b, hexDecode s with
    | some x, some y, some bs => some (UInt8.ofNat (16 * x + y) :: bs)
    | _, _, _ => none

theorem hexVal_digit (n : Nat) (h : n < 16) : hexVal (hexDigit n) = some n := by
  have : ∀ n : Fin 16, hexVal (hexDigit n.1) = some n.1 := by decide
  exact this ⟨n, h⟩

theorem hexDigit_zero (n : Nat) (h : n < 16) : hexDigit n = '0' ↔ n = 0 := by
  have : ∀ n : Fin 16, hexDigit n.1 = '0' ↔ n.1 = 0 := by decide
  exact this ⟨n, h⟩

theorem ofNat_div_mod (b : UInt8) : UInt8.ofNat (16 * (b.toNat / 16) + b.toNat % 16) = b := by
  have : 16 * (b.toNat / 16) + b.toNat % 16 = b.toNat := by omega
  rw [this, UInt8.ofNat_toNat]

theorem toNat_lt (b : UInt8) : b.toNat < 256 := UInt8.toNat_lt b

/-- What is written is read back. -/
theorem hexDecode_encode (bs : Bytes) : hexDecode (hexEncode bs) = some bs := by
  induction bs with
  | nil => rfl
  | cons b bs ih =>
    have := toNat_lt b
    simp only [hexEncode, hexDecode, hexVal_digit _ (show b.toNat / 16 < 16 by omega),
      hexVal_digit _ (show b.toNat % 16 < 16 by omega), ih, ofNat_div_mod]

/-- The characters that hexadecimal text is made of. -/
def hexChar (c : Char) : Bool := (48 ≤ c.toNat && c.toNat ≤ 57) || (97 ≤ c.toNat && c.toNat ≤ 102)

theorem hexChar_digit (n : Nat) (h : n < 16) : hexChar (hexDigit n) = true := by
  have : ∀ n : Fin 16, hexChar (hexDigit n.1) = true := by decide
  exact this ⟨n, h⟩

theorem hexEncode_chars (bs : Bytes) : ∀ c ∈ hexEncode bs, hexChar c = true := by
  induction bs with
  | nil => simp [hexEncode]
  | cons b bs ih =>
    have := toNat_lt b
    intro c hc
    simp only [hexEncode, List.mem_cons] at hc
    rcases hc with rfl | rfl | hc
    · exact hexChar_digit _ (by omega)
    · exact hexChar_digit _ (by omega)
    · exact ih c hc

theorem hexEncode_zeros (bs : Bytes) : (hexEncode bs).all (· == '0') = bs.all (· == 0) := by
  induction bs with
  | nil => rfl
  | cons b bs ih =>
    have hb := toNat_lt b
    simp only [hexEncode, List.all_cons, ih, ← Bool.and_assoc]
    congr 1
    rw [Bool.eq_iff_iff]
    simp only [Bool.and_eq_true, beq_iff_eq, hexDigit_zero _ (show b.toNat / 16 < 16 by omega),
      hexDigit_zero _ (show b.toNat % 16 < 16 by omega)]
    rw [← UInt8.toNat_inj]
    simp only [UInt8.toNat_zero]
    omega

theorem hexEncode_length (bs : Bytes) : (hexEncode bs).length = 2 * bs.length := by
  induction bs with
  | nil => rfl
  | cons b bs ih => simp [hexEncode, ih]; omega

/-! ## Base64 -/

/-- The alphabet. -/
def b64Char (n : Nat) : Char :=
  if n < 26 then Char.ofNat (65 + n)
  else if n < 52 then Char.ofNat (71 + n)
  else if n < 62 then Char.ofNat (n - 4)
  else if n = 62 then '+' else '/'

def b64Val (c : Char) : Option Nat :=
  if 65 ≤ c.toNat ∧ c.toNat ≤ 90 then some (c.toNat - 65)
  else if 97 ≤ c.toNat ∧ c.toNat ≤ 122 then some (c.toNat - 71)
  else if 48 ≤ c.toNat ∧ c.toNat ≤ 57 then some (c.toNat + 4)
  else if c = '+' then some 62
  else if c = '/' then some 63
  else none

/-- `STANDARD.encode`. -/
def b64Encode : Bytes → Str
  | [] => []
  | [a] => [b64Char (a.toNat / 4), b64Char (a.toNat % 4 * 16), '=', '=']
  | [a, b] => [b64Char (a.toNat / 4), b64Char (a.toNat % 4 * 16 + b.toNat / 16), b64Char (b.toNat % 16 * 4), '=']
  | a :: b :: c :: bs =>
    b64Char (a.toNat / 4) :: b64Char (a.toNat % 4 * 16 + b.toNat / 16) ::
      b64Char (b.toNat % 16 * 4 + c.toNat / 64) :: b64Char (c.toNat % 64) :: b64Encode bs

/-- The last group, with padding. -/
def b64Last (x y z : Char) : Option Bytes :=
  if z = '=' then
    match b64Val x, b64Val y with
    | some x, some y => if y % 16 = 0 then some [UInt8.ofNat (x * 4 + y / 16)] else none
    | _, _ => none
  else
    match b64Val x, b64Val y, b64Val z with
    | some x, some y, some z =>
      if z % 4 = 0 then some [UInt8.ofNat (x * 4 + y / 16), UInt8.ofNat (y % 16 * 16 + z / 4)] else none
    | _, _, _ => none

/-- `STANDARD.decode`; `none` is an error. -/
def b64Decode : Str → Option Bytes
  | [] => some []
  | x :: y :: z :: w :: s =>
    if w = '=' then if s = [] then b64Last x y z else none
    else
      match b64Val x, b64Val y, b64Val z, b64Val w, b64Decode s with
      | some x, some y, some z, some w, some bs =>
        some (UInt8.ofNat (x * 4 + y / 16) :: UInt8.ofNat (y % 16 * 16 + z / 4) :: UInt8.ofNat (z % 4 * 64 + w) :: bs)
      | _, _, _, _, _ => none
  | _ => none

theorem b64Val_char (n : Nat) (h : n < 64) : b64Val (b64Char n) = some n ∧ b64Char n ≠ '=' := by
  have : ∀ n : Fin 64, b64Val (b64Char n.1) = some n.1 ∧ b64Char n.1 ≠ '=' := by decide
  exact this ⟨n, h⟩

theorem ofNat_eq {n : Nat} {b : UInt8} (h : n = b.toNat) : UInt8.ofNat n = b := by rw [h, UInt8.ofNat_toNat]

/-- What is written is read back. -/
theorem b64Decode_encode (bs : Bytes) : b64Decode (b64Encode bs) = some bs := by
  induction bs using b64Encode.induct with
  | case1 => rfl
  | case2 a =>
    have ha := toNat_lt a
    simp only [b64Encode, b64Decode, if_pos, b64Last, (b64Val_char _ (show a.toNat / 4 < 64 by omega)).1,
      (b64Val_char _ (show a.toNat % 4 * 16 < 64 by omega)).1]
    rw [if_pos (by omega), ofNat_eq (b := a) (by omega)]
  | case3 a b =>
    have ha := toNat_lt a
    have hb := toNat_lt b
    simp only [b64Encode, b64Decode, if_pos, b64Last, (b64Val_char _ (show a.toNat / 4 < 64 by omega)).1,
      (b64Val_char _ (show a.toNat % 4 * 16 + b.toNat / 16 < 64 by omega)).1,
      (b64Val_char _ (show b.toNat % 16 * 4 < 64 by omega)).1,
      if_neg (b64Val_char _ (show b.toNat % 16 * 4 < 64 by omega)).2]
    rw [if_pos (by omega), ofNat_eq (b := a) (by omega), ofNat_eq (b := b) (by omega)]
  | case4 a b c bs ih =>
    have ha := toNat_lt a
    have hb := toNat_lt b
    have hc := toNat_lt c
    simp only [b64Encode, b64Decode, (b64Val_char _ (show a.toNat / 4 < 64 by omega)).1,
      (b64Val_char _ (show a.toNat % 4 * 16 + b.toNat / 16 < 64 by omega)).1,
      (b64Val_char _ (show b.toNat % 16 * 4 + c.toNat / 64 < 64 by omega)).1,
      (b64Val_char _ (show c.toNat % 64 < 64 by omega)).1,
      if_neg (b64Val_char _ (show c.toNat % 64 < 64 by omega)).2, ih]
    rw [ofNat_eq (b := a) (by omega), ofNat_eq (b := b) (by omega), ofNat_eq (b := c) (by omega)]

/-- The characters that base64 text is made of are printed ones. -/
def printed (c : Char) : Bool := 32 < c.toNat && c.toNat < 127

theorem printed_b64Char (n : Nat) (h : n < 64) : printed (b64Char n) = true := by
  have : ∀ n : Fin 64, printed (b64Char n.1) = true := by decide
  exact this ⟨n, h⟩

theorem b64Encode_chars (bs : Bytes) : ∀ c ∈ b64Encode bs, printed c = true := by
  induction bs using b64Encode.induct with
  | case1 => simp [b64Encode]
  | case2 a =>
    have ha := toNat_lt a
    simp only [b64Encode, List.mem_cons, List.not_mem_nil, or_false]
    rintro c (rfl | rfl | rfl | rfl)
    · exact printed_b64Char _ (by omega)
    · exact printed_b64Char _ (by omega)
    · rfl
    · rfl
  | case3 a b =>
    have ha := toNat_lt a
    have hb := toNat_lt b
    simp only [b64Encode, List.mem_cons, List.not_mem_nil, or_false]
    rintro c (rfl | rfl | rfl | rfl)
    · exact printed_b64Char _ (by omega)
    · exact printed_b64Char _ (by omega)
    · exact printed_b64Char _ (by omega)
    · rfl
  | case4 a b d bs ih =>
    have ha := toNat_lt a
    have hb := toNat_lt b
    have hd := toNat_lt d
    simp only [b64Encode, List.mem_cons]
    rintro c (rfl | rfl | rfl | rfl | h)
    · exact printed_b64Char _ (by omega)
    · exact printed_b64Char _ (by omega)
    · exact printed_b64Char _ (by omega)
    · exact printed_b64Char _ (by omega)
    · exact ih c h

end Verif.Trace
