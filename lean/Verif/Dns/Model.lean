import Verif.Common.Text

/-!
# DNS names and suffixes

Model of `linkerd/dns/name/src/{name,suffix}.rs`. A name is a list of characters: bytes that are not ASCII are
rejected one by one in the code (name.rs:234), as characters that are not ASCII are here.
-/

namespace Verif.Dns

open Verif.Text

abbrev Str := List Char

/-- `MAX_LABEL_LENGTH`, name.rs:189. -/
abbrev maxLabel : Nat := 63

/-- The variables of the loop, name.rs:184-186. -/
structure Scan where
  len : Nat
  numeric : Bool
  hyphen : Bool
  deriving DecidableEq, Repr

/-- The body of the loop, name.rs:191-237; `none` is `return false`. -/
def Scan.byte (s : Scan) (c : Char) : Option Scan :=
  if c = '-' then
    if s.len = 0 then none
    else if s.len + 1 > maxLabel then none
    else some ⟨s.len + 1, false, true⟩
  else if c.isDigit then
    if s.len + 1 > maxLabel then none
    else some ⟨s.len + 1, if s.len = 0 then true else s.numeric, false⟩
  else if c.isAlpha || c == '_' then
    if s.len + 1 > maxLabel then none
    else some ⟨s.len + 1, false, false⟩
  else if c = '.' then
    if s.hyphen then none
    else if s.len = 0 then none
    else some { s with len := 0 }
  else none

/-- The loop, name.rs:188-242. -/
def Scan.bytes (s : Scan) : Str → Option Scan
  | [] => some s
  | c :: cs => (s.byte c).bind fun s' => s'.bytes cs

/-- `is_valid_dns_id`, name.rs:176-253. The first `read_byte` of an empty input fails. -/
def isValid (s : Str) : Bool :=
  if s.length > 253 then false
  else if s.isEmpty then false
  else match Scan.bytes ⟨0, false, false⟩ s with
    | none => false
    | some st => if st.hyphen then false else if st.numeric then false else true

/-- `NameRef::try_from_ascii`, name.rs:116-124: all that is accepted is ASCII and so UTF-8. -/
def NameRef.tryFrom (s : Str) : Option Str := if isValid s then some s else none

/-- `NameRef::to_owned`, name.rs:131-135, and `Name::try_from_ascii`, name.rs:56-59. -/
def Name.tryFrom (s : Str) : Option Str := (NameRef.tryFrom s).map (·.map lower)

/-- `NameRef::eq`, name.rs:148-152. -/
def NameRef.eq (a b : Str) : Bool := eqIgnoreCase a b

/-- `Name::is_localhost`, name.rs:77-79. -/
def Name.isLocalhost (n : Str) : Bool := eqIgnoreCase n "localhost.".toList

/-- `Name::without_trailing_dot`, name.rs:82-84. -/
def Name.withoutTrailingDot (n : Str) : Str := trimEnd '.' n

/-- `Suffix`, suffix.rs:5-8. -/
inductive Suffix where
  | root
  | name (n : Str)
  deriving DecidableEq, Repr

/-- `Suffix::from_str`, suffix.rs:28-34. -/
def Suffix.parse (s : Str) : Option Suffix := if s = ['.'] then some .root else (Name.tryFrom s).map .name

/-- `Suffix::contains`, suffix.rs:38-55. -/
def Suffix.contains : Suffix → Str → Bool
  | .root, _ => true
  | .name sfx, n =>
    let n := Name.withoutTrailingDot n
    let sfx := Name.withoutTrailingDot sfx
    sfx.isSuffixOf n &&
      (n.length == sfx.length ||
        let hd := n.take (n.length - sfx.length)
        hd.getLast? == some '.')

end Verif.Dns
