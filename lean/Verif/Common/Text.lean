/-!
# Shared text helpers: splitting, decimal numbers, ASCII case

Models of the `core::str` functions the code uses, with their laws. Text is a list of characters
(or of bytes), so that everything is by plain list recursion.
-/
namespace Verif.Text

variable {α : Type} [DecidableEq α]

/-- `str::split(sep)`: the maximal separator-free runs, in order (never empty). -/
def split (sep : α) : List α → List (List α)
  | [] => [[]]
  | c :: cs =>
    if c = sep then [] :: split sep cs
    else match split sep cs with
      | [] => [[c]]
      | p :: ps => (c :: p) :: ps

/-- Put the parts back together with the separator in between. -/
def join (sep : α) : List (List α) → List α
  | [] => []
  | [p] => p
  | p :: q :: ps => p ++ sep :: join sep (q :: ps)

theorem split_ne_nil (sep : α) (s : List α) : split sep s ≠ [] := by
  cases s with
  | nil => simp [split]
  | cons c cs =>
    simp only [split]
    split
    · simp
    · split <;> simp

theorem join_split (sep : α) (s : List α) : join sep (split sep s) = s := by
  induction s with
  | nil => rfl
  | cons c cs ih =>
    simp only [split]
    split
    · rename_i h
      subst h
      cases hs : split c cs with
      | nil => exact absurd hs (split_ne_nil _ _)
      | cons p ps => rw [hs] at ih; simp [join, ih]
    · cases hs : split sep cs with
      | nil => exact absurd hs (split_ne_nil _ _)
      | cons p ps =>
        rw [hs] at ih
        cases ps with
        | nil => simp [join] at ih ⊢; exact ih
        | cons q qs => simp [join] at ih ⊢; exact ih

theorem split_no_sep (sep : α) (s : List α) : ∀ p ∈ split sep s, sep ∉ p := by
  induction s with
  | nil => simp [split]
  | cons c cs ih =>
    simp only [split]
    split
    · intro p hp
      rcases List.mem_cons.1 hp with rfl | hp
      · simp
      · exact ih p hp
    · rename_i hc
      cases hs : split sep cs with
      | nil => exact absurd hs (split_ne_nil _ _)
      | cons q qs =>
        rw [hs] at ih
        intro p hp
        rcases List.mem_cons.1 hp with rfl | hp
        · have := ih q (by simp)
          simp only [List.mem_cons, not_or]
          exact ⟨fun h => hc h.symm, this⟩
        · exact ih p (by simp [hp])

theorem split_of_no_sep (sep : α) (s : List α) (h : sep ∉ s) : split sep s = [s] := by
  induction s with
  | nil => rfl
  | cons c cs ih =>
    simp only [List.mem_cons, not_or] at h
    simp only [split]
    rw [if_neg (fun e => h.1 e.symm), ih h.2]

theorem split_append (sep : α) (p s : List α) (h : sep ∉ p) :
    split sep (p ++ sep :: s) = p :: split sep s := by
  induction p with
  | nil => simp [split]
  | cons c cs ih =>
    simp only [List.mem_cons, not_or] at h
    simp only [List.cons_append, split]
    rw [if_neg (fun e => h.1 e.symm), ih h.2]

theorem split_join (sep : α) (ps : List (List α)) (hne : ps ≠ []) (h : ∀ p ∈ ps, sep ∉ p) :
    split sep (join sep ps) = ps := by
  induction ps with
  | nil => exact absurd rfl hne
  | cons p ps ih =>
    cases ps with
    | nil => exact split_of_no_sep sep p (h p (by simp))
    | cons q qs =>
      simp only [join]
      rw [split_append sep _ _ (h p (by simp)), ih (by simp) (fun x hx => h x (by simp [hx]))]

/-- Splitting is injective. -/
theorem split_inj (sep : α) {s t : List α} (h : split sep s = split sep t) : s = t := by
  rw [← join_split sep s, ← join_split sep t, h]

theorem split_append_sep (sep : α) (a b : List α) :
    split sep (a ++ sep :: b) = split sep a ++ split sep b := by
  induction a with
  | nil => simp [split]
  | cons c cs ih =>
    simp only [List.cons_append, split]
    split
    · simp [ih]
    · cases hs : split sep cs with
      | nil => exact absurd hs (split_ne_nil _ _)
      | cons p ps => simp [ih, hs]

/-- `str::strip_prefix`. -/
def stripPrefix : List α → List α → Option (List α)
  | [], s => some s
  | _ :: _, [] => none
  | p :: ps, c :: cs => if p = c then stripPrefix ps cs else none

theorem stripPrefix_eq_some (p s r : List α) : stripPrefix p s = some r ↔ s = p ++ r := by
  induction p generalizing s with
  | nil => simp [stripPrefix]
  | cons a p ih =>
    cases s with
    | nil => simp [stripPrefix]
    | cons c cs =>
      simp only [stripPrefix]
      split
      · rename_i h; subst h; simp [ih]
      · rename_i h
        simp only [List.cons_append, List.cons.injEq]
        constructor
        · intro h'; cases h'
        · rintro ⟨h', _⟩; exact absurd h'.symm h

theorem stripPrefix_eq_none (p s : List α) : stripPrefix p s = none ↔ ¬ p <+: s := by
  cases h : stripPrefix p s with
  | none =>
    simp only [true_iff]
    rintro ⟨r, hr⟩
    have := (stripPrefix_eq_some p s r).2 hr.symm
    rw [h] at this; cases this
  | some r =>
    simp only [reduceCtorEq, false_iff, Classical.not_not]
    exact ⟨r, ((stripPrefix_eq_some p s r).1 h).symm⟩

/-- `str::trim_end_matches(c)`: drop all trailing `c`s. -/
def trimEnd (c : α) (s : List α) : List α := (s.reverse.dropWhile (· == c)).reverse

theorem trimEnd_spec (c : α) (s : List α) :
    ∃ n, s = trimEnd c s ++ List.replicate n c ∧ (trimEnd c s).getLast? ≠ some c := by
  have key : ∀ l : List α, ∃ n, l = List.replicate n c ++ l.dropWhile (· == c) ∧
      (l.dropWhile (· == c)).head? ≠ some c := by
    intro l
    induction l with
    | nil => exact ⟨0, by simp⟩
    | cons a l ih =>
      by_cases h : a = c
      · obtain ⟨n, h1, h2⟩ := ih
        subst h
        refine ⟨n + 1, ?_, ?_⟩
        · simp only [List.dropWhile, beq_self_eq_true, List.replicate_succ, List.cons_append]
          rw [← h1]
        · simpa [List.dropWhile] using h2
      · refine ⟨0, ?_, ?_⟩ <;> simp [h]
  obtain ⟨n, h1, h2⟩ := key s.reverse
  refine ⟨n, ?_, ?_⟩
  · have := congrArg List.reverse h1
    rw [List.reverse_reverse, List.reverse_append, List.reverse_replicate] at this
    exact this
  · simpa [trimEnd, List.getLast?_reverse] using h2

theorem trimEnd_append_replicate (c : α) (s : List α) (n : Nat) (h : s.getLast? ≠ some c) :
    trimEnd c (s ++ List.replicate n c) = s := by
  unfold trimEnd
  rw [List.reverse_append, List.reverse_replicate]
  have : ∀ (n : Nat) (l : List α), l.head? ≠ some c →
      (List.replicate n c ++ l).dropWhile (· == c) = l := by
    intro n
    induction n with
    | zero =>
      intro l hl
      cases l with
      | nil => simp
      | cons a l => simp at hl; simp [hl]
    | succ n ih => intro l hl; simp [List.replicate_succ, ih l hl]
  rw [this n _ (by simpa using h), List.reverse_reverse]

/-! ## Decimal numbers -/

/-- The value of an ASCII digit. -/
def digit? (c : Char) : Option Nat :=
  if '0'.toNat ≤ c.toNat ∧ c.toNat ≤ '9'.toNat then some (c.toNat - '0'.toNat) else none

/-- All characters must be digits. -/
def digits (acc : Nat) : List Char → Option Nat
  | [] => some acc
  | c :: cs => match digit? c with
    | none => none
    | some d => digits (acc * 10 + d) cs

/-- `str::parse::<uN>()` for an unsigned type with maximum `max`: an optional `+`, then at least one
digit, and nothing else; too large values are errors. -/
def parseUnsigned (max : Nat) (s : List Char) : Option Nat :=
  let s := match s with
    | '+' :: r => r
    | s => s
  if s = [] then none
  else match digits 0 s with
    | some n => if n ≤ max then some n else none
    | none => none

/-- `str::parse::<i32>()`. -/
def parseI32 (s : List Char) : Option Int :=
  match s with
  | '-' :: r =>
    if r = [] then none
    else match digits 0 r with
      | some n => if n ≤ 2147483648 then some (-(n : Int)) else none
      | none => none
  | s => (parseUnsigned 2147483647 s).map Int.ofNat

/-- The usual decimal rendering. -/
def decimal (n : Nat) : List Char :=
  if n < 10 then [Char.ofNat (48 + n)] else decimal (n / 10) ++ [Char.ofNat (48 + n % 10)]
termination_by n
decreasing_by omega

theorem digit?_ofNat (d : Nat) (h : d < 10) : digit? (Char.ofNat (48 + d)) = some d := by
  have hall : ∀ d, d < 10 → digit? (Char.ofNat (48 + d)) = some d := by decide
  exact hall d h

theorem digits_append (acc : Nat) (s t : List Char) :
    digits acc (s ++ t) = (digits acc s).bind (fun a => digits a t) := by
  induction s generalizing acc with
  | nil => rfl
  | cons c cs ih =>
    simp only [List.cons_append, digits]
    cases digit? c with
    | none => rfl
    | some d => simp [ih]

theorem digits_decimal (n : Nat) : digits 0 (decimal n) = some n := by
  induction n using Nat.strongRecOn with
  | ind n ih =>
    unfold decimal
    split
    · rename_i h
      simp [digits, digit?_ofNat n h]
    · rename_i h
      rw [digits_append, ih (n / 10) (by omega)]
      simp only [Option.bind_some, digits, digit?_ofNat (n % 10) (by omega)]
      congr 1; omega

theorem decimal_ne_nil (n : Nat) : decimal n ≠ [] := by
  unfold decimal; split <;> simp

/-- Every character of a decimal rendering is a digit. -/
theorem decimal_digit (n : Nat) : ∀ c ∈ decimal n, (digit? c).isSome := by
  induction n using Nat.strongRecOn with
  | ind n ih =>
    unfold decimal
    split
    · rename_i h
      simp [digit?_ofNat n h]
    · rename_i h
      intro c hc
      rcases List.mem_append.1 hc with hc | hc
      · exact ih (n / 10) (by omega) c hc
      · simp at hc; subst hc; simp [digit?_ofNat (n % 10) (by omega)]

theorem not_digit_of (c : Char) (h : digit? c = none) (n : Nat) : c ∉ decimal n := by
  intro hc
  have := decimal_digit n c hc
  rw [h] at this; cases this

theorem parseUnsigned_decimal (max n : Nat) :
    parseUnsigned max (decimal n) = if n ≤ max then some n else none := by
  have hp : ∀ r, decimal n ≠ '+' :: r := by
    intro r hr
    have := not_digit_of '+' (by decide) n
    rw [hr] at this; simp at this
  unfold parseUnsigned
  have hm : (match decimal n with | '+' :: r => r | s => s) = decimal n := by
    split
    · rename_i r hr; exact absurd hr (hp _)
    · rfl
  rw [hm]
  simp only [decimal_ne_nil, if_false, digits_decimal]

theorem parseI32_decimal (n : Nat) (h : n ≤ 2147483647) : parseI32 (decimal n) = some (n : Int) := by
  have hp : ∀ r, decimal n ≠ '-' :: r := by
    intro r hr
    have := not_digit_of '-' (by decide) n
    rw [hr] at this; simp at this
  unfold parseI32
  split
  · rename_i r hr; exact absurd hr (hp _)
  · rw [parseUnsigned_decimal, if_pos h]; rfl

theorem digits_none_of_mem (c : Char) (hc : digit? c = none) (s : List Char) (h : c ∈ s) (acc : Nat) :
    digits acc s = none := by
  induction s generalizing acc with
  | nil => cases h
  | cons x s ih =>
    rcases List.mem_cons.1 h with rfl | h
    · simp [digits, hc]
    · simp only [digits]
      cases digit? x with
      | none => rfl
      | some d => exact ih h _

/-- Text with a character that is neither a digit nor `+` is not a number. -/
theorem parseUnsigned_none_of_mem (max : Nat) (c : Char) (hc : digit? c = none) (hp : c ≠ '+') (s : List Char)
    (h : c ∈ s) : parseUnsigned max s = none := by
  have key : ∀ t : List Char, c ∈ t → (if t = [] then none
      else match digits 0 t with
        | some n => if n ≤ max then some n else none
        | none => none) = none := by
    intro t ht
    rw [digits_none_of_mem c hc t ht]; simp
  unfold parseUnsigned
  apply key
  split
  · rename_i r
    rcases List.mem_cons.1 h with h | h
    · exact absurd h hp
    · exact h
  · exact h

/-- What it means for text to be a numeral: digits only, at least one, of that value. -/
def Numeral (s : List Char) (n : Nat) : Prop :=
  s ≠ [] ∧ (∀ c ∈ s, '0'.toNat ≤ c.toNat ∧ c.toNat ≤ '9'.toNat) ∧ n = s.foldl (fun a c => a * 10 + (c.toNat - '0'.toNat)) 0

theorem digits_iff (acc : Nat) (s : List Char) (n : Nat) :
    digits acc s = some n ↔ (∀ c ∈ s, '0'.toNat ≤ c.toNat ∧ c.toNat ≤ '9'.toNat) ∧
      n = s.foldl (fun a c => a * 10 + (c.toNat - '0'.toNat)) acc := by
  induction s generalizing acc with
  | nil => simp [digits, eq_comm]
  | cons c cs ih =>
    simp only [digits, digit?]
    by_cases h : '0'.toNat ≤ c.toNat ∧ c.toNat ≤ '9'.toNat
    · rw [if_pos h]
      simp only [ih, List.foldl_cons]
      constructor
      · rintro ⟨h1, h2⟩
        refine ⟨?_, h2⟩
        intro x hx
        rcases List.mem_cons.1 hx with rfl | hx
        · exact h
        · exact h1 x hx
      · rintro ⟨h1, h2⟩
        exact ⟨fun x hx => h1 x (by simp [hx]), h2⟩
    · rw [if_neg h]
      constructor
      · intro h'; cases h'
      · rintro ⟨h1, _⟩; exact absurd (h1 c (by simp)) h

theorem numeral_decimal (n : Nat) : Numeral (decimal n) n := by
  have := (digits_iff 0 (decimal n) n).1 (digits_decimal n)
  exact ⟨decimal_ne_nil n, this⟩

/-- A number is an optional plus sign and a numeral in range. -/
theorem parseUnsigned_iff (max : Nat) (s : List Char) (n : Nat) :
    parseUnsigned max s = some n ↔ n ≤ max ∧ (Numeral s n ∨ ∃ r, s = '+' :: r ∧ Numeral r n) := by
  have key : ∀ t : List Char, (if t = [] then none
      else match digits 0 t with
        | some n => if n ≤ max then some n else none
        | none => none) = some n ↔ n ≤ max ∧ Numeral t n := by
    intro t
    by_cases ht : t = []
    · simp [ht, Numeral]
    · rw [if_neg ht]
      cases hd : digits 0 t with
      | none =>
        simp only [Numeral]
        constructor
        · intro h; cases h
        · rintro ⟨_, h⟩
          rw [(digits_iff 0 t n).2 ⟨h.2.1, h.2.2⟩] at hd; cases hd
      | some m =>
        have hm := (digits_iff 0 t m).1 hd
        simp only [Numeral]
        constructor
        · intro h
          split at h
          · cases h; exact ⟨by assumption, ht, hm⟩
          · cases h
        · rintro ⟨h1, _, h2, h3⟩
          have : m = n := by rw [hm.2, h3]
          subst this
          rw [if_pos h1]
  unfold parseUnsigned
  simp only
  rw [key]
  split
  · rename_i r
    constructor
    · rintro ⟨h1, h2⟩; exact ⟨h1, Or.inr ⟨r, rfl, h2⟩⟩
    · rintro ⟨h1, h2 | ⟨r', h2, h3⟩⟩
      · have := h2.2.1 '+' (by simp)
        exact absurd this (by decide)
      · cases h2; exact ⟨h1, h3⟩
  · rename_i hne
    constructor
    · rintro ⟨h1, h2⟩; exact ⟨h1, Or.inl h2⟩
    · rintro ⟨h1, h2 | ⟨r, h2, _⟩⟩
      · exact ⟨h1, h2⟩
      · exact absurd h2 (hne r)

/-- A non-negative `i32` is an unsigned number (or a minus sign and zeros); a negative one has a minus sign. -/
theorem parseI32_nonneg (s : List Char) (n : Nat) :
    parseI32 s = some (n : Int) ↔ parseUnsigned 2147483647 s = some n ∨ (n = 0 ∧ ∃ r, s = '-' :: r ∧ Numeral r 0) := by
  unfold parseI32
  split
  · rename_i r
    have hnu : parseUnsigned 2147483647 ('-' :: r) = none :=
      parseUnsigned_none_of_mem _ '-' (by decide) (by decide) _ (by simp)
    rw [hnu]
    by_cases hr : r = []
    · simp [hr, Numeral]
    · rw [if_neg hr]
      cases hd : digits 0 r with
      | none =>
        simp only
        constructor
        · intro h; cases h
        · rintro (h | ⟨_, r', h, hn⟩)
          · cases h
          · cases h; rw [(digits_iff 0 r 0).2 hn.2] at hd; cases hd
      | some m =>
        simp only
        have hm := (digits_iff 0 r m).1 hd
        constructor
        · intro h
          split at h
          · simp only [Option.some.injEq] at h
            have h0 : m = 0 := by omega
            have h1 : n = 0 := by omega
            subst h0
            exact Or.inr ⟨h1, r, rfl, hr, hm⟩
          · cases h
        · rintro (h | ⟨h0, r', h, hn⟩)
          · cases h
          · cases h
            have : m = 0 := by rw [hm.2, ← hn.2.2]
            subst this; subst h0; rfl
  · rename_i hne
    cases hp : parseUnsigned 2147483647 s with
    | none =>
      simp only [Option.map_none]
      constructor
      · intro h; cases h
      · rintro (h | ⟨_, r, h, _⟩)
        · cases h
        · exact absurd h (hne r)
    | some m =>
      simp only [Option.map_some, Option.some.injEq]
      constructor
      · intro h; left; simp only [Int.ofNat_eq_natCast] at h; exact Int.ofNat.inj h
      · rintro (h | ⟨_, r, h, _⟩)
        · rw [h]; rfl
        · exact absurd h (hne r)

/-! ## Trimming -/

/-- The white space that can occur in the text of a header value. -/
def blank (c : Char) : Bool := c == ' ' || c == '\t'

/-- `str::trim` on the text of a header value. -/
def trim (s : List Char) : List Char := ((s.dropWhile blank).reverse.dropWhile blank).reverse

theorem dropWhile_append_all {p : α → Bool} (a s : List α) (ha : ∀ c ∈ a, p c = true) :
    (a ++ s).dropWhile p = s.dropWhile p := by
  induction a with
  | nil => rfl
  | cons x a ih =>
    simp only [List.cons_append, List.dropWhile]
    rw [ha x (by simp)]
    exact ih (fun c hc => ha c (by simp [hc]))

theorem trim_padded (a s b : List Char) (ha : ∀ c ∈ a, blank c = true) (hb : ∀ c ∈ b, blank c = true)
    (hs : ∀ c, s.head? = some c → blank c = false) (hs' : ∀ c, s.getLast? = some c → blank c = false) :
    trim (a ++ s ++ b) = s := by
  have dw : ∀ l : List Char, (∀ c, l.head? = some c → blank c = false) → l.dropWhile blank = l := by
    intro l hl
    cases l with
    | nil => rfl
    | cons x l => rw [List.dropWhile_cons_of_neg (by simp [hl x rfl])]
  unfold trim
  by_cases hnil : s = []
  · subst hnil
    have : (a ++ [] ++ b).dropWhile blank = [] := by
      rw [List.append_nil, dropWhile_append_all a b ha]
      have := dropWhile_append_all b [] hb
      simpa using this
    rw [this]; rfl
  · rw [List.append_assoc, dropWhile_append_all a _ ha, dw (s ++ b)]
    · rw [List.reverse_append, dropWhile_append_all b.reverse _ (fun c hc => hb c (by simpa using hc)), dw s.reverse]
      · simp
      · intro c hc; exact hs' c (by simpa using hc)
    · intro c hc
      cases s with
      | nil => exact absurd rfl hnil
      | cons x s => exact hs c (by simpa using hc)

/-! ## ASCII case -/

/-- `u8::to_ascii_lowercase` on characters. -/
def lower (c : Char) : Char :=
  if 'A'.toNat ≤ c.toNat ∧ c.toNat ≤ 'Z'.toNat then Char.ofNat (c.toNat + 32) else c

/-- `str::eq_ignore_ascii_case`. -/
def eqIgnoreCase (a b : List Char) : Bool := a.map lower == b.map lower

end Verif.Text
