import Verif.Common.List
import Verif.Dns.Model

/-!
# C33 and C34: which DNS names are accepted, and which suffixes contain them
-/

namespace Verif.Dns

open Verif.Text

/-! ## Specification -/

/-- A DNS label: 1 to 63 letters, digits, hyphens or underscores, the first and the last not a hyphen. -/
structure Label (l : Str) : Prop where
  nonempty : l ≠ []
  short : l.length ≤ 63
  chars : ∀ c ∈ l, c.isAlpha = true ∨ c.isDigit = true ∨ c = '_' ∨ c = '-'
  first : l.head? ≠ some '-'
  last : l.getLast? ≠ some '-'

/-- `s` spells the labels, separated by dots, with or without a final dot. -/
def Spells (s : Str) (labels : List Str) : Prop := s = join '.' labels ∨ s = join '.' labels ++ ['.']

/-- A DNS name. -/
structure DnsName (s : Str) (ls : List Str) : Prop where
  size : s.length ≤ 253
  spells : Spells s ls
  labels : ∀ l ∈ ls, Label l
  last : ∃ l, ls.getLast? = some l ∧ ∃ c ∈ l, Char.isDigit c = false

/-! ## The scan -/

/-- The start of a label. -/
structure Pre (l : Str) : Prop where
  short : l.length ≤ 63
  chars : ∀ c ∈ l, c.isAlpha = true ∨ c.isDigit = true ∨ c = '_' ∨ c = '-'
  first : l.head? ≠ some '-'

/-- Labels that are each followed by a dot. -/
def dotted (ls : List Str) : Str := ls.flatMap (· ++ ['.'])

/-- The label `numeric` tells about. -/
def recent (ls : List Str) (cur : Str) : Str := if cur = [] then ls.getLast?.getD [] else cur

/-- The scan's state after some labels and the start of another. -/
def stateAt (ls : List Str) (cur : Str) : Scan :=
  ⟨cur.length, (recent ls cur) ≠ [] && (recent ls cur).all Char.isDigit, cur.getLast? == some '-'⟩

theorem bytes_snoc (st : Scan) (s : Str) (c : Char) : st.bytes (s ++ [c]) = (st.bytes s).bind (·.byte c) := by
  induction s generalizing st with
  | nil => simp [Scan.bytes]
  | cons a s ih =>
    simp only [List.cons_append, Scan.bytes]
    cases st.byte a with
    | none => rfl
    | some st' => simp [ih]

theorem not_digit_hyphen : Char.isDigit '-' = false := by decide
theorem not_digit_dot : Char.isDigit '.' = false := by decide
theorem not_alpha_dot : Char.isAlpha '.' = false := by decide
theorem not_alpha_hyphen : Char.isAlpha '-' = false := by decide

theorem alpha_not_digit (c : Char) (h : c.isAlpha = true) : c.isDigit = false := by
  simp only [Char.isAlpha, Char.isUpper, Char.isLower, Bool.or_eq_true, decide_eq_true_eq, Bool.and_eq_true] at h
  simp only [Char.isDigit, Bool.and_eq_false_iff, decide_eq_false_iff_not, ge_iff_le, UInt32.le_iff_toNat_le] at *
  simp at *
  omega

theorem Pre.no_dot {l : Str} (h : Pre l) : '.' ∉ l := by
  intro hm
  rcases h.chars _ hm with h | h | h | h
  · simp [not_alpha_dot] at h
  · simp [not_digit_dot] at h
  · exact absurd h (by decide)
  · exact absurd h (by decide)

theorem Label.pre {l : Str} (h : Label l) : Pre l := ⟨h.short, h.chars, h.first⟩

theorem pre_snoc (cur : Str) (c : Char) : Pre (cur ++ [c]) ↔
    Pre cur ∧ cur.length < 63 ∧ (c.isAlpha = true ∨ c.isDigit = true ∨ c = '_' ∨ c = '-') ∧ (cur = [] → c ≠ '-') := by
  constructor
  · rintro ⟨h1, h2, h3⟩
    refine ⟨⟨by simp at h1; omega, fun c hc => h2 c (by simp [hc]), ?_⟩, by simp at h1; omega, h2 c (by simp), ?_⟩
    · cases cur with
      | nil => simp
      | cons a l => simpa using h3
    · rintro rfl
      simpa using h3
  · rintro ⟨⟨h1, h2, h3⟩, h4, h5, h6⟩
    refine ⟨by simp; omega, ?_, ?_⟩
    · intro d hd
      rcases List.mem_append.1 hd with h | h
      · exact h2 d h
      · simp at h; subst h; exact h5
    · cases cur with
      | nil => simpa using h6 rfl
      | cons a l => simpa using h3

/-- One step within a label. -/
theorem byte_label (ls : List Str) (cur : Str) (c : Char) (hc : c ≠ '.') (st : Scan) :
    (stateAt ls cur).byte c = some st ↔
      (cur.length < 63 ∧ (c.isAlpha = true ∨ c.isDigit = true ∨ c = '_' ∨ c = '-') ∧ (cur = [] → c ≠ '-')) ∧
      stateAt ls (cur ++ [c]) = st := by
  have hlen : (cur.length = 0) ↔ cur = [] := List.length_eq_zero_iff
  by_cases h1 : c = '-'
  · subst h1
    by_cases h0 : cur = []
    · subst h0; simp [Scan.byte, stateAt]
    · by_cases h2 : cur.length < 63
      · have : ¬ (cur.length + 1 > 63) := by omega
        simp [Scan.byte, stateAt, h0, hlen, h2, this, recent, not_digit_hyphen]
      · have : cur.length + 1 > 63 := by omega
        simp [Scan.byte, stateAt, h0, hlen, h2, this]
  · have hb : (c == '-') = false := by simpa using h1
    by_cases h3 : c.isDigit = true
    · by_cases h2 : cur.length < 63
      · have : ¬ (cur.length + 1 > 63) := by omega
        by_cases h0 : cur = []
        · subst h0; simp [Scan.byte, stateAt, h1, h3, recent, hb]
        · simp [Scan.byte, stateAt, h0, hlen, h2, this, recent, h1, h3, hb]
      · have : cur.length + 1 > 63 := by omega
        simp [Scan.byte, stateAt, h1, h3, h2, this]
    · by_cases h4 : c.isAlpha = true ∨ c = '_'
      · have h4' : (c.isAlpha || c == '_') = true := by simpa using h4
        by_cases h2 : cur.length < 63
        · have : ¬ (cur.length + 1 > 63) := by omega
          have h5 : c.isAlpha = true ∨ c = '_' ∨ c = '-' := by rcases h4 with h | h <;> simp [h]
          simp only [Scan.byte, stateAt, h1, h3, if_false, h4', if_true, this, recent]
          simp [h2, h1, h3, h4, hb]
        · have : cur.length + 1 > 63 := by omega
          simp only [Scan.byte, stateAt, h1, h3, if_false, h4', if_true, this]
          simp [h2]
      · have h4' : (c.isAlpha || c == '_') = false := by simpa [not_or] using h4
        simp only [not_or] at h4
        simp [Scan.byte, h1, h3, h4, hc]

/-- A step at a dot. -/
theorem byte_dot (ls : List Str) (cur : Str) (st : Scan) :
    (stateAt ls cur).byte '.' = some st ↔ (cur ≠ [] ∧ cur.getLast? ≠ some '-') ∧ stateAt (ls ++ [cur]) [] = st := by
  have e1 : ('.' : Char) ≠ '-' := by decide
  have e2 : (('.' : Char).isAlpha || ('.' : Char) == '_') = false := by decide
  by_cases h0 : cur = []
  · subst h0; simp [Scan.byte, e1, e2, not_digit_dot, stateAt]
  · by_cases h1 : cur.getLast? = some '-'
    · simp [Scan.byte, e1, e2, not_digit_dot, stateAt, h1]
    · have hb : (cur.getLast? == some '-') = false := by simpa using h1
      simp [Scan.byte, e1, e2, not_digit_dot, stateAt, hb, h1, h0, recent]

theorem scan_iff (s : Str) (st : Scan) :
    Scan.bytes ⟨0, false, false⟩ s = some st ↔
      ∃ ls cur, s = dotted ls ++ cur ∧ (∀ l ∈ ls, Label l) ∧ Pre cur ∧ st = stateAt ls cur := by
  induction s using snoc_induction generalizing st with
  | nil =>
    constructor
    · intro h
      refine ⟨[], [], rfl, by simp, ⟨by simp, by simp, by simp⟩, ?_⟩
      simp only [Scan.bytes, Option.some.injEq] at h
      rw [← h]; rfl
    · rintro ⟨ls, cur, h1, h2, h3, rfl⟩
      have h4 := List.append_eq_nil_iff.1 h1.symm
      cases ls with
      | nil => rw [h4.2]; rfl
      | cons l ls => simp [dotted] at h4
  | snoc s c ih =>
    rw [bytes_snoc]
    constructor
    · intro h
      cases hs : Scan.bytes ⟨0, false, false⟩ s with
      | none => simp [hs] at h
      | some st0 =>
        obtain ⟨ls, cur, h1, h2, h3, rfl⟩ := (ih st0).1 hs
        rw [hs, Option.bind_some] at h
        by_cases hc : c = '.'
        · subst hc
          obtain ⟨⟨h4, h5⟩, h6⟩ := (byte_dot ls cur st).1 h
          refine ⟨ls ++ [cur], [], by simp [h1, dotted], ?_, ⟨by simp, by simp, by simp⟩, h6.symm⟩
          intro l hl
          rcases List.mem_append.1 hl with hl | hl
          · exact h2 l hl
          · simp at hl; subst hl
            exact ⟨h4, h3.short, h3.chars, h3.first, h5⟩
        · obtain ⟨h4, h5⟩ := (byte_label ls cur c hc st).1 h
          exact ⟨ls, cur ++ [c], by simp [h1], h2, (pre_snoc cur c).2 ⟨h3, h4⟩, h5.symm⟩
    · rintro ⟨ls, cur, h1, h2, h3, rfl⟩
      rcases List.eq_nil_or_concat cur with rfl | ⟨cur', c', rfl⟩
      · rcases List.eq_nil_or_concat ls with rfl | ⟨ls', l, rfl⟩
        · simp [dotted] at h1
        · have h4 : s ++ [c] = (dotted ls' ++ l) ++ ['.'] := by simpa [dotted] using h1
          obtain ⟨h5, h6⟩ := List.append_inj' h4 rfl
          simp only [List.cons.injEq, and_true] at h6
          subst h6
          have hl := h2 l (by simp)
          rw [(ih (stateAt ls' l)).2 ⟨ls', l, h5, fun x hx => h2 x (by simp [hx]), hl.pre, rfl⟩, Option.bind_some]
          exact (byte_dot ls' l _).2 ⟨⟨hl.nonempty, hl.last⟩, by simp⟩
      · rw [List.concat_eq_append] at h1 h3 ⊢
        rw [← List.append_assoc] at h1
        obtain ⟨h5, h6⟩ := List.append_inj' h1 rfl
        simp only [List.cons.injEq, and_true] at h6
        subst h6
        have hp := (pre_snoc cur' c).1 h3
        have hc : c ≠ '.' := fun h => h3.no_dot (by simp [h])
        rw [(ih (stateAt ls cur')).2 ⟨ls, cur', h5, h2, hp.1, rfl⟩, Option.bind_some]
        exact (byte_label ls cur' c hc _).2 ⟨hp.2, rfl⟩

theorem dotted_append (ls : List Str) (l : Str) : dotted ls ++ l = join '.' (ls ++ [l]) := by
  induction ls with
  | nil => simp [dotted, join]
  | cons a ls ih =>
    have : dotted (a :: ls) ++ l = a ++ '.' :: (dotted ls ++ l) := by simp [dotted]
    rw [this, ih]
    cases ls <;> simp [join]

/-! ## C33 -/

/-- Exactly the DNS names are accepted. -/
theorem C33_accepted_iff (s : Str) : (NameRef.tryFrom s).isSome ↔ ∃ labels, DnsName s labels := by
  have h0 : (NameRef.tryFrom s).isSome ↔ isValid s = true := by simp [NameRef.tryFrom]
  rw [h0, isValid]
  by_cases hlen : s.length > 253
  · simp only [hlen, if_true]
    refine ⟨by simp, ?_⟩
    rintro ⟨labels, h⟩
    have := h.size
    omega
  simp only [hlen, if_false]
  by_cases hs : s = []
  · subst hs
    simp only [List.isEmpty_nil, if_true]
    refine ⟨by simp, ?_⟩
    rintro ⟨labels, h⟩
    obtain ⟨l, hl, c, hc, _⟩ := h.last
    have hmem : l ∈ labels := List.mem_of_getLast? hl
    rcases h.spells with h1 | h1
    · cases labels with
      | nil => simp at hl
      | cons a rest =>
        cases rest with
        | nil => simp [join] at h1; simp at hl; subst hl; rw [h1] at hc; simp at hc
        | cons b rest => simp [join] at h1
    · simp at h1
  have hs' : s.isEmpty = false := by simpa using hs
  simp only [hs', Bool.false_eq_true, if_false]
  constructor
  · intro h
    cases hb : Scan.bytes ⟨0, false, false⟩ s with
    | none => simp [hb] at h
    | some st =>
      obtain ⟨ls, cur, h1, h2, h3, h4⟩ := (scan_iff s st).1 hb
      simp only [hb] at h
      have hyp : st.hyphen = false := by cases hh : st.hyphen <;> simp_all
      have num : st.numeric = false := by cases hh : st.numeric <;> simp_all
      subst h4
      simp only [stateAt] at hyp num
      rcases List.eq_nil_or_concat cur with rfl | ⟨x, y, hxy⟩
      · rcases List.eq_nil_or_concat ls with rfl | ⟨ls', l, rfl⟩
        · simp [dotted] at h1; exact absurd h1 hs
        · rw [List.concat_eq_append] at h1 h2 num
          refine ⟨ls' ++ [l], ⟨by omega, .inr ?_, h2, l, by simp, ?_⟩⟩
          · rw [← dotted_append, h1]; simp [dotted]
          · have hl := h2 l (by simp)
            simp [recent, hl.nonempty] at num
            exact num
      · have hcur : cur ≠ [] := by rw [hxy]; simp
        refine ⟨ls ++ [cur], ⟨by omega, .inl (by rw [← dotted_append, h1]), ?_, cur, by simp, ?_⟩⟩
        · intro l hl
          rcases List.mem_append.1 hl with hl | hl
          · exact h2 l hl
          · simp at hl; subst hl
            exact ⟨hcur, h3.short, h3.chars, h3.first, by simpa using hyp⟩
        · simp [recent, hcur] at num
          exact num
  · rintro ⟨labels, h⟩
    obtain ⟨l, hl, c, hc, hcd⟩ := h.last
    obtain ⟨ls, rfl⟩ : ∃ ls, labels = ls ++ [l] := by
      rcases List.eq_nil_or_concat labels with rfl | ⟨a, b, rfl⟩
      · simp at hl
      · rw [List.concat_eq_append] at hl ⊢; simp at hl; subst hl; exact ⟨a, rfl⟩
    have hlab := h.labels l (by simp)
    have hcd' : ∃ c ∈ l, ¬ c.isDigit = true := ⟨c, hc, by simp [hcd]⟩
    rcases h.spells with h1 | h1
    · rw [← dotted_append] at h1
      rw [(scan_iff s (stateAt ls l)).2 ⟨ls, l, h1, fun x hx => h.labels x (by simp [hx]), hlab.pre, rfl⟩]
      have := hlab.last
      simp [stateAt, this, recent, hlab.nonempty]
      exact ⟨c, hc, hcd⟩
    · rw [← dotted_append] at h1
      rw [(scan_iff s (stateAt (ls ++ [l]) [])).2 ⟨ls ++ [l], [], by simp [h1, dotted], h.labels,
        ⟨by simp, by simp, by simp⟩, rfl⟩]
      simp [stateAt, recent, hlab.nonempty]
      exact ⟨c, hc, hcd⟩

/-! ### Lower case -/

theorem toNat_lower (c : Char) : (lower c).toNat =
    if 65 ≤ c.toNat ∧ c.toNat ≤ 90 then c.toNat + 32 else c.toNat := by
  have a : 'A'.toNat = 65 := rfl
  have z : 'Z'.toNat = 90 := rfl
  unfold lower
  rw [a, z]
  split
  · rename_i h
    have : (c.toNat + 32).isValidChar := .inl (by omega)
    simp only [Char.ofNat, this, dif_pos]
    rfl
  · rfl

theorem char_ext {a b : Char} (h : a.toNat = b.toNat) : a = b := by
  have := congrArg Char.ofNat h
  simpa using this

theorem lower_lower (c : Char) : lower (lower c) = lower c := by
  apply char_ext
  have h1 := toNat_lower (lower c)
  have h2 := toNat_lower c
  rw [h1]
  split at h2 <;> split <;> omega

theorem lower_eq_iff (c d : Char) (hd : ¬ (97 ≤ d.toNat ∧ d.toNat ≤ 122)) (hd' : ¬ (65 ≤ d.toNat ∧ d.toNat ≤ 90)) :
    lower c = d ↔ c = d := by
  constructor
  · intro h
    have h1 := congrArg Char.toNat h
    rw [toNat_lower] at h1
    apply char_ext
    split at h1 <;> omega
  · rintro rfl
    apply char_ext
    rw [toNat_lower]
    split <;> omega

theorem isDigit_iff (c : Char) : c.isDigit = true ↔ 48 ≤ c.toNat ∧ c.toNat ≤ 57 := by
  simp [Char.isDigit, UInt32.le_iff_toNat_le]

theorem isAlpha_iff (c : Char) :
    c.isAlpha = true ↔ 65 ≤ c.toNat ∧ c.toNat ≤ 90 ∨ 97 ≤ c.toNat ∧ c.toNat ≤ 122 := by
  simp [Char.isAlpha, Char.isUpper, Char.isLower, UInt32.le_iff_toNat_le]

theorem isDigit_lower (c : Char) : (lower c).isDigit = c.isDigit := by
  rw [Bool.eq_iff_iff, isDigit_iff, isDigit_iff, toNat_lower]
  split <;> omega

theorem isAlpha_lower (c : Char) : (lower c).isAlpha = c.isAlpha := by
  rw [Bool.eq_iff_iff, isAlpha_iff, isAlpha_iff, toNat_lower]
  split <;> omega

theorem lower_hyphen (c : Char) : lower c = '-' ↔ c = '-' := lower_eq_iff c '-' (by decide) (by decide)
theorem lower_dot (c : Char) : lower c = '.' ↔ c = '.' := lower_eq_iff c '.' (by decide) (by decide)
theorem lower_underscore (c : Char) : lower c = '_' ↔ c = '_' := lower_eq_iff c '_' (by decide) (by decide)

/-- The scan does not see case. -/
theorem byte_lower (st : Scan) (c : Char) : st.byte (lower c) = st.byte c := by
  have : (lower c == '_') = (c == '_') := by
    rw [Bool.eq_iff_iff]; simp [lower_underscore]
  simp only [Scan.byte, lower_hyphen, lower_dot, isDigit_lower, isAlpha_lower, this]

theorem bytes_lower (st : Scan) (s : Str) : st.bytes (s.map lower) = st.bytes s := by
  induction s generalizing st with
  | nil => rfl
  | cons c s ih =>
    simp only [List.map_cons, Scan.bytes, byte_lower]
    cases st.byte c with
    | none => rfl
    | some st' => simp [ih]

theorem isValid_lower (s : Str) : isValid (s.map lower) = isValid s := by
  simp [isValid, bytes_lower]

/-- A name that is kept is the accepted input in lower case. -/
theorem C33_kept_in_lower_case (s n : Str) :
    Name.tryFrom s = some n ↔ (∃ labels, DnsName s labels) ∧ n = s.map lower := by
  rw [← C33_accepted_iff]
  simp only [Name.tryFrom, NameRef.tryFrom]
  cases isValid s <;> simp [eq_comm]

/-- Reading a name that was read before gives the same name. -/
theorem C33_idempotent (s n : Str) (h : Name.tryFrom s = some n) : Name.tryFrom n = some n := by
  simp only [Name.tryFrom, NameRef.tryFrom] at h ⊢
  cases hv : isValid s with
  | false => simp [hv] at h
  | true =>
    simp [hv] at h
    subst h
    simp [isValid_lower, hv, Function.comp_def, lower_lower]

/-- Two spellings are equal as borrowed names exactly when the names kept for them are the same. -/
theorem C33_equal_up_to_case (a b n m : Str) (ha : Name.tryFrom a = some n) (hb : Name.tryFrom b = some m) :
    NameRef.eq a b = true ↔ n = m := by
  rw [((C33_kept_in_lower_case a n).1 ha).2, ((C33_kept_in_lower_case b m).1 hb).2]
  simp [NameRef.eq, eqIgnoreCase]

/-! ### The final dot -/

theorem join_getLast? (labels : List Str) (l : Str) (h : labels.getLast? = some l) (hne : l ≠ []) :
    (join '.' labels).getLast? = l.getLast? := by
  induction labels with
  | nil => simp at h
  | cons a rest ih =>
    cases rest with
    | nil => simp at h; subst h; rfl
    | cons b rest =>
      have hj : join '.' (a :: b :: rest) = a ++ '.' :: join '.' (b :: rest) := rfl
      have h' : (b :: rest).getLast? = some l := by simpa using h
      have := ih h'
      have hx : join '.' (b :: rest) ≠ [] := by
        intro he
        rw [he] at this
        cases l with
        | nil => exact hne rfl
        | cons x l => simp [List.getLast?_cons] at this
      rw [hj, List.getLast?_append, ← this]
      cases hq : join '.' (b :: rest) with
      | nil => exact absurd hq hx
      | cons x y => simp [List.getLast?_cons]

theorem label_last_ne_dot {l : Str} (h : Label l) : l.getLast? ≠ some '.' := by
  intro hl
  exact h.pre.no_dot (List.mem_of_getLast? hl)

/-- Without its final dot, a name is its labels. -/
theorem C33_without_trailing_dot (s : Str) (labels : List Str) (h : DnsName s labels) :
    Name.withoutTrailingDot s = join '.' labels := by
  obtain ⟨l, hl, _⟩ := h.last
  have hlab := h.labels l (List.mem_of_getLast? hl)
  have hlast : (join '.' labels).getLast? ≠ some '.' := by
    rw [join_getLast? labels l hl hlab.nonempty]
    exact label_last_ne_dot hlab
  rcases h.spells with h1 | h1
  · rw [h1]
    have := trimEnd_append_replicate '.' (join '.' labels) 0 hlast
    rwa [List.replicate_zero, List.append_nil] at this
  · rw [h1]
    exact trimEnd_append_replicate '.' (join '.' labels) 1 hlast

/-- A name has one list of labels. -/
theorem C33_labels_unique (s : Str) (a b : List Str) (ha : DnsName s a) (hb : DnsName s b) : a = b := by
  have h : join '.' a = join '.' b := by
    rw [← C33_without_trailing_dot s a ha, ← C33_without_trailing_dot s b hb]
  have na : a ≠ [] := by obtain ⟨l, hl, _⟩ := ha.last; rintro rfl; simp at hl
  have nb : b ≠ [] := by obtain ⟨l, hl, _⟩ := hb.last; rintro rfl; simp at hl
  have := congrArg (split '.') h
  rwa [split_join '.' a na fun p hp => (ha.labels p hp).pre.no_dot,
    split_join '.' b nb fun p hp => (hb.labels p hp).pre.no_dot] at this

/-- Only the fully qualified `localhost.` counts as the local host; `localhost` does not. -/
theorem C33_localhost_needs_the_final_dot :
    Name.isLocalhost "localhost.".toList = true ∧ Name.isLocalhost "LOCALHOST.".toList = true ∧
    (NameRef.tryFrom "localhost".toList).isSome = true ∧ Name.isLocalhost "localhost".toList = false := by
  decide +kernel

/-! ## C34 -/

theorem suffix_split (n s : Str) : (s.isSuffixOf n && (n.length == s.length ||
    (n.take (n.length - s.length)).getLast? == some '.')) = true ↔ n = s ∨ ∃ p, n = p ++ '.' :: s := by
  rw [Bool.and_eq_true, List.isSuffixOf_iff_suffix, Bool.or_eq_true, beq_iff_eq, beq_iff_eq]
  constructor
  · rintro ⟨⟨p, rfl⟩, h⟩
    rcases h with h | h
    · left
      have : p = [] := by
        rw [List.length_append] at h
        exact List.length_eq_zero_iff.1 (by omega)
      simp [this]
    · right
      have ht : (p ++ s).take ((p ++ s).length - s.length) = p := by
        rw [List.length_append, Nat.add_sub_cancel, List.take_left]
      rw [ht] at h
      obtain ⟨p', rfl⟩ := List.getLast?_eq_some_iff.1 h
      exact ⟨p', by simp⟩
  · rintro (rfl | ⟨p, rfl⟩)
    · exact ⟨List.suffix_refl _, .inl rfl⟩
    · refine ⟨⟨p ++ ['.'], by simp⟩, .inr ?_⟩
      have : p ++ '.' :: s = (p ++ ['.']) ++ s := by simp
      rw [this, List.length_append, Nat.add_sub_cancel, List.take_left]
      simp

/-- A suffix contains a name exactly when its labels are the name's last labels; the final dots do not
matter. -/
theorem C34_contains_iff (n s : Str) (nl sl : List Str) (hn : DnsName n nl) (hs : DnsName s sl) :
    (Suffix.name s).contains n = true ↔ sl <:+ nl := by
  rw [Suffix.contains]
  simp only [C33_without_trailing_dot n nl hn, C33_without_trailing_dot s sl hs, suffix_split]
  have nn : nl ≠ [] := by obtain ⟨l, hl, _⟩ := hn.last; rintro rfl; simp at hl
  have ns : sl ≠ [] := by obtain ⟨l, hl, _⟩ := hs.last; rintro rfl; simp at hl
  have sn : split '.' (join '.' nl) = nl := split_join '.' nl nn fun p hp => (hn.labels p hp).pre.no_dot
  have ss : split '.' (join '.' sl) = sl := split_join '.' sl ns fun p hp => (hs.labels p hp).pre.no_dot
  constructor
  · rintro (h | ⟨p, h⟩)
    · rw [← sn, ← ss, h]
      exact List.suffix_refl _
    · have := congrArg (split '.') h
      rw [sn, split_append_sep, ss] at this
      exact ⟨_, this.symm⟩
  · rintro ⟨pre, rfl⟩
    cases hp : pre with
    | nil => left; rfl
    | cons a rest =>
      right
      refine ⟨join '.' pre, ?_⟩
      rw [← hp]
      have : pre ≠ [] := by rw [hp]; simp
      clear hp hn sn nn
      induction pre with
      | nil => exact absurd rfl this
      | cons a pre ih =>
        cases pre with
        | nil =>
          cases sl with
          | nil => exact absurd rfl ns
          | cons b sl => rfl
        | cons b pre =>
          have := ih (by simp)
          simp only [List.cons_append] at this ⊢
          simp only [join, this]
          simp

theorem Label.lower {l : Str} (h : Label l) : Label (l.map lower) := by
  refine ⟨by simpa using h.nonempty, by simpa using h.short, ?_, ?_, ?_⟩
  · intro c hc
    obtain ⟨d, hd, rfl⟩ := List.mem_map.1 hc
    rw [isAlpha_lower, isDigit_lower, lower_underscore, lower_hyphen]
    exact h.chars d hd
  · intro hh
    rw [List.head?_map, Option.map_eq_some_iff] at hh
    obtain ⟨d, hd, he⟩ := hh
    rw [lower_hyphen] at he
    subst he
    exact h.first hd
  · intro hh
    rw [List.getLast?_map, Option.map_eq_some_iff] at hh
    obtain ⟨d, hd, he⟩ := hh
    rw [lower_hyphen] at he
    subst he
    exact h.last hd

theorem join_lower (ls : List Str) : (join '.' ls).map lower = join '.' (ls.map (·.map lower)) := by
  induction ls with
  | nil => rfl
  | cons a ls ih =>
    cases ls with
    | nil => rfl
    | cons b ls =>
      have hd : lower '.' = '.' := (lower_dot _).2 rfl
      simp only [join, List.map_append, List.map_cons, hd] at ih ⊢
      rw [ih]

theorem DnsName.lower {s : Str} {ls : List Str} (h : DnsName s ls) :
    DnsName (s.map lower) (ls.map (·.map Text.lower)) := by
  refine ⟨by simpa using h.size, ?_, ?_, ?_⟩
  · have hd : Text.lower '.' = '.' := (lower_dot _).2 rfl
    rcases h.spells with h1 | h1
    · left; rw [h1, join_lower]
    · right; rw [h1, List.map_append, join_lower]; simp [hd]
  · intro l hl
    obtain ⟨m, hm, rfl⟩ := List.mem_map.1 hl
    exact (h.labels m hm).lower
  · obtain ⟨l, hl, c, hc, hd⟩ := h.last
    refine ⟨l.map Text.lower, by simp [List.getLast?_map, hl], Text.lower c, List.mem_map_of_mem hc, ?_⟩
    rw [isDigit_lower, hd]

/-- The same from the text of the configuration and of the name: containment is by whole labels and does not see
case. -/
theorem C34_contains_as_read (a b n : Str) (x : Suffix) (al bl : List Str) (ha : DnsName a al) (hb : DnsName b bl)
    (hx : Suffix.parse a = some x) (hn : Name.tryFrom b = some n) :
    x.contains n = true ↔ al.map (·.map lower) <:+ bl.map (·.map lower) := by
  have hdot : a ≠ ['.'] := by
    rintro rfl
    have := (C33_accepted_iff ['.']).2 ⟨al, ha⟩
    exact absurd this (by decide +kernel)
  rw [Suffix.parse, if_neg hdot, (C33_kept_in_lower_case a _).2 ⟨⟨al, ha⟩, rfl⟩, Option.map_some,
    Option.some.injEq] at hx
  subst hx
  rw [((C33_kept_in_lower_case b n).1 hn).2]
  exact C34_contains_iff _ _ _ _ hb.lower ha.lower

/-- The root contains every name. -/
theorem C34_root (n : Str) : Suffix.root.contains n = true := rfl

/-- Which suffixes can be configured: the single dot is the root, all else must be a DNS name. -/
theorem C34_parse (s : Str) (x : Suffix) :
    Suffix.parse s = some x ↔ (s = ['.'] ∧ x = .root) ∨
      (s ≠ ['.'] ∧ (∃ labels, DnsName s labels) ∧ x = .name (s.map lower)) := by
  unfold Suffix.parse
  by_cases h : s = ['.']
  · simp [h, eq_comm]
  · rw [if_neg h, Option.map_eq_some_iff]
    simp only [C33_kept_in_lower_case, h, false_and, false_or, ne_eq, not_false_eq_true, true_and]
    constructor
    · rintro ⟨a, ⟨h1, rfl⟩, rfl⟩; exact ⟨h1, rfl⟩
    · rintro ⟨h1, rfl⟩; exact ⟨_, ⟨h1, rfl⟩, rfl⟩

/-- Every suffix contains itself, and containment is transitive. -/
theorem C34_order (a b c : Str) (al bl cl : List Str) (ha : DnsName a al) (hb : DnsName b bl) (hc : DnsName c cl) :
    (Suffix.name a).contains a = true ∧
    ((Suffix.name a).contains b = true → (Suffix.name b).contains c = true → (Suffix.name a).contains c = true) := by
  rw [C34_contains_iff a a al al ha ha, C34_contains_iff b a bl al hb ha, C34_contains_iff c b cl bl hc hb,
    C34_contains_iff c a cl al hc ha]
  exact ⟨List.suffix_refl _, fun h1 h2 => h1.trans h2⟩

/-! ## Concrete cases -/

theorem sample_label : ∀ l ∈ ["web".toList, "default".toList, "svc".toList], Label l := by
  have key : ∀ l ∈ ["web".toList, "default".toList, "svc".toList],
      l ≠ [] ∧ l.length ≤ 63 ∧ (l.all fun c => c.isAlpha) = true ∧ l.head? ≠ some '-' ∧ l.getLast? ≠ some '-' := by
    decide +kernel
  intro l hl
  obtain ⟨h1, h2, h3, h4, h5⟩ := key l hl
  exact ⟨h1, h2, fun c hc => .inl (List.all_eq_true.1 h3 c hc), h4, h5⟩

example : DnsName "web.default.svc.".toList ["web".toList, "default".toList, "svc".toList] :=
  ⟨by decide +kernel, .inr (by decide +kernel), sample_label, "svc".toList, by decide +kernel, 's', by decide +kernel,
    by decide⟩

example : DnsName "default.svc".toList ["default".toList, "svc".toList] :=
  ⟨by decide +kernel, .inl (by decide +kernel), fun l hl => sample_label l (List.mem_cons_of_mem _ hl), "svc".toList,
    by decide +kernel, 's', by decide +kernel, by decide⟩

example : (Suffix.name "default.svc".toList).contains "web.default.svc.".toList = true ∧
    (Suffix.name "ault.svc".toList).contains "web.default.svc.".toList = false := by decide +kernel

example : [isValid "1.2.3".toList, isValid "a.1.".toList, isValid "a..b".toList, isValid "-a".toList,
    isValid "1.a".toList, isValid "a_b.c1".toList] = [false, false, false, false, true, true] := by decide +kernel

end Verif.Dns
