import Verif.Env.Values
/-!
# C102: what the values of environment variables say

The specification says what text means by how it is written: text is put together from white space, numerals, units and
separators, and stands for a duration, a set of ports, a list.
-/
namespace Verif.Env
open Verif.Text
open Verif.Dns (Str Suffix)
open Verif.Addr (SocketAddr)
open Verif.ServerPolicy (Ip IpNet)

/-! ## Specification -/

/-- What is true of Unicode's white space and digits. -/
structure Lib.Sane (l : Lib) : Prop where
  ascii : ∀ c : Char, '0'.toNat ≤ c.toNat ∧ c.toNat ≤ '9'.toNat → l.digit c = true
  apart : ∀ c, l.digit c = true → l.white c = false
  letters : ∀ c ∈ ['m', 's', 'h', 'd'], l.digit c = false ∧ l.white c = false
  plus : l.digit '+' = false ∧ l.white '+' = false
  comma : l.white ',' = false
  dash : l.white '-' = false

/-- All white space. -/
def Blank (l : Lib) (s : Str) : Prop := ∀ c ∈ s, l.white c = true

/-- `t` is what there is between the white space around it. -/
def Trimmed (l : Lib) (s t : Str) : Prop :=
  ∃ a b, s = a ++ t ++ b ∧ Blank l a ∧ Blank l b ∧ (∀ c, t.head? = some c → l.white c = false) ∧
    (∀ c, t.getLast? = some c → l.white c = false)

/-- How many seconds a unit longer than a millisecond has. -/
def TimeUnit.seconds : TimeUnit → Nat
  | .ms => 0
  | .s => 1
  | .m => 60
  | .h => 3600
  | .d => 86400

/-- How many nanoseconds a unit has. -/
def TimeUnit.nanos : TimeUnit → Nat
  | .ms => 10 ^ 6
  | u => u.seconds * 10 ^ 9

/-- Text that writes a number and perhaps a unit, with white space around them. -/
def Written (l : Lib) (s : Str) (n : Nat) (u : Option TimeUnit) : Prop :=
  ∃ a ds b, Blank l a ∧ Blank l b ∧ Numeral ds n ∧ s = a ++ ds ++ (u.map TimeUnit.text).getD [] ++ b

/-- What a number and its unit mean: only zero needs none, and seconds are counted in 64 bits. -/
def Means (n : Nat) : Option TimeUnit → Nat → Prop
  | none, ns => n = 0 ∧ ns = 0
  | some .ms, ns => ns = n * 10 ^ 6
  | some u, ns => ns = n * u.seconds % 2 ^ 64 * 10 ^ 9

/-- A port number, perhaps with a plus sign. -/
def Port (t : Str) (n : Nat) : Prop := n ≤ 65535 ∧ (Numeral t n ∨ ∃ r, t = '+' :: r ∧ Numeral r n)

/-- An entry of a list of ports: a port, or two with a dash. -/
def Entry (l : Lib) (part : Str) (lo hi : Nat) : Prop :=
  ∃ t, Trimmed l part t ∧
    ((Port t lo ∧ hi = lo) ∨
      ∃ a b x y, t = a ++ '-' :: b ∧ Trimmed l a x ∧ Trimmed l b y ∧ Port x lo ∧ Port y hi ∧ lo ≤ hi)

/-! ## Trimming -/

private theorem dropWhile_head {p : Char → Bool} (s : Str) (c : Char) (h : (s.dropWhile p).head? = some c) :
    p c = false := by
  induction s with
  | nil => cases h
  | cons x s ih =>
    by_cases hx : p x = true
    · rw [List.dropWhile_cons_of_pos hx] at h; exact ih h
    · rw [List.dropWhile_cons_of_neg hx] at h
      simp only [List.head?_cons, Option.some.injEq] at h
      subst h; simpa using hx

private theorem dropWhile_self {p : Char → Bool} (s : Str) (h : ∀ c, s.head? = some c → p c = false) :
    s.dropWhile p = s := by
  cases s with
  | nil => rfl
  | cons x s => rw [List.dropWhile_cons_of_neg (by simp [h x rfl])]

private theorem dropWhile_split {p : Char → Bool} (s : Str) : ∃ a, (∀ c ∈ a, p c = true) ∧ s = a ++ s.dropWhile p := by
  refine ⟨s.takeWhile p, fun c hc => ?_, (List.takeWhile_append_dropWhile).symm⟩
  induction s with
  | nil => cases hc
  | cons x s ih =>
    by_cases hx : p x = true
    · rw [List.takeWhile_cons_of_pos hx] at hc
      rcases List.mem_cons.1 hc with rfl | hc
      · exact hx
      · exact ih hc
    · rw [List.takeWhile_cons_of_neg hx] at hc; cases hc

theorem trim_trimmed (l : Lib) (s : Str) : Trimmed l s (trim l.white s) := by
  obtain ⟨a, ha, hs⟩ := dropWhile_split (p := l.white) s
  obtain ⟨b, hb, hr⟩ := dropWhile_split (p := l.white) (s.dropWhile l.white).reverse
  have hr' := congrArg List.reverse hr
  rw [List.reverse_reverse, List.reverse_append] at hr'
  refine ⟨a, b.reverse, ?_, ha, fun c hc => hb c (by simpa using hc), fun c hc => ?_, fun c hc => ?_⟩
  · unfold trim
    rw [List.append_assoc, ← hr']; exact hs
  · unfold trim at hc
    cases ht : ((s.dropWhile l.white).reverse.dropWhile l.white).reverse with
    | nil => rw [ht] at hc; cases hc
    | cons x t =>
      rw [ht] at hc hr'
      apply dropWhile_head s
      rw [hr']; simpa using hc
  · unfold trim at hc
    rw [List.getLast?_reverse] at hc
    exact dropWhile_head _ _ hc

theorem trim_of_trimmed (l : Lib) (s t : Str) (h : Trimmed l s t) : trim l.white s = t := by
  obtain ⟨a, b, rfl, ha, hb, hh, hl⟩ := h
  unfold trim
  by_cases ht : t = []
  · subst ht
    have : (a ++ [] ++ b).dropWhile l.white = [] := by
      rw [List.append_nil, dropWhile_append_all a b ha]
      simpa using dropWhile_append_all b [] hb
    rw [this]; rfl
  · rw [List.append_assoc, dropWhile_append_all a _ ha, dropWhile_self (t ++ b)]
    · rw [List.reverse_append, dropWhile_append_all b.reverse _ (fun c hc => hb c (by simpa using hc)),
        dropWhile_self t.reverse]
      · simp
      · intro c hc; exact hl c (by simpa using hc)
    · intro c hc
      cases t with
      | nil => exact absurd rfl ht
      | cons x s => exact hh c (by simpa using hc)

theorem trim_iff (l : Lib) (s t : Str) : trim l.white s = t ↔ Trimmed l s t :=
  ⟨fun h => h ▸ trim_trimmed l s, trim_of_trimmed l s t⟩

/-! ## Durations -/

private theorem numeral_digit {l : Lib} (hl : l.Sane) {ds : Str} {n : Nat} (h : Numeral ds n) :
    ∀ c ∈ ds, l.digit c = true := fun c hc => hl.ascii c (h.2.1 c hc)

private theorem takeWhile_run {p : Char → Bool} (ds r : Str) (h : ∀ c ∈ ds, p c = true)
    (hr : ∀ c, r.head? = some c → p c = false) : (ds ++ r).takeWhile p = ds ∧ (ds ++ r).dropWhile p = r := by
  constructor
  · induction ds with
    | nil =>
      cases r with
      | nil => rfl
      | cons x r => rw [List.nil_append, List.takeWhile_cons_of_neg (by simp [hr x rfl])]
    | cons x ds ih =>
      rw [List.cons_append, List.takeWhile_cons_of_pos (h x (by simp)), ih (fun c hc => h c (by simp [hc]))]
  · rw [dropWhile_append_all ds r h, dropWhile_self r hr]

private theorem unit_found {l : Lib} (hl : l.Sane) (u : TimeUnit) (b : Str) (hb : Blank l b) :
    TimeUnit.all.find? (takes l (u.text ++ b)) = some u := by
  have hall : b.all l.white = true := List.all_eq_true.2 hb
  have hs := (hl.letters 's' (by simp)).2
  cases u <;> simp [TimeUnit.all, takes, TimeUnit.text, stripPrefix, hall]
  cases b with
  | nil => simp [stripPrefix]
  | cons x b =>
    have hx : x ≠ 's' := by
      intro he; subst he
      have := hb 's' (by simp)
      rw [hs] at this; cases this
    simp [stripPrefix, Ne.symm hx]

private theorem no_unit {l : Lib} (hl : l.Sane) (b : Str) (hb : Blank l b) :
    TimeUnit.all.find? (takes l b) = none := by
  rw [List.find?_eq_none]
  intro u _
  cases b with
  | nil => cases u <;> simp [takes, TimeUnit.text, stripPrefix]
  | cons x b =>
    have hx : ∀ c ∈ ['m', 's', 'h', 'd'], c ≠ x := by
      intro c hc he
      subst he
      have := hb c (by simp)
      rw [(hl.letters c hc).2] at this; cases this
    have h1 := hx 'm' (by simp)
    have h2 := hx 's' (by simp)
    have h3 := hx 'h' (by simp)
    have h4 := hx 'd' (by simp)
    cases u <;> simp [takes, TimeUnit.text, stripPrefix, h1, h2, h3, h4]

private theorem captures_iff {l : Lib} (hl : l.Sane) (s ds : Str) (u : Option TimeUnit) :
    captures l s = some (ds, u) ↔ ds ≠ [] ∧ (∀ c ∈ ds, l.digit c = true) ∧
      ∃ a b, Blank l a ∧ Blank l b ∧ s = a ++ ds ++ (u.map TimeUnit.text).getD [] ++ b := by
  constructor
  · intro h
    unfold captures at h
    simp only at h
    obtain ⟨a, ha, hs⟩ := dropWhile_split (p := l.white) s
    generalize hr : s.dropWhile l.white = r at h hs
    have htd : r.takeWhile l.digit ++ r.dropWhile l.digit = r := List.takeWhile_append_dropWhile
    have hdig : ∀ c ∈ r.takeWhile l.digit, l.digit c = true := by
      intro c hc
      have := List.all_takeWhile (p := l.digit) (l := r)
      exact List.all_eq_true.1 this c hc
    generalize htk : r.takeWhile l.digit = t at h htd hdig
    generalize r.dropWhile l.digit = rest at h htd
    by_cases hnil : t = []
    · rw [if_pos hnil] at h; cases h
    · rw [if_neg hnil] at h
      split at h
      · rename_i v hv
        cases h
        refine ⟨hnil, hdig, ?_⟩
        have := List.find?_some hv
        unfold takes at this
        split at this
        · rename_i b hb
          rw [stripPrefix_eq_some] at hb
          refine ⟨a, b, ha, List.all_eq_true.1 this, ?_⟩
          rw [hs, ← htd, hb]; simp
        · cases this
      · split at h
        · rename_i hw
          cases h
          exact ⟨hnil, hdig, a, rest, ha, List.all_eq_true.1 hw, by rw [hs, ← htd]; simp⟩
        · cases h
  · rintro ⟨hnil, hdig, a, b, ha, hb, rfl⟩
    unfold captures
    simp only
    have hdrop : (a ++ ds ++ (u.map TimeUnit.text).getD [] ++ b).dropWhile l.white =
        ds ++ ((u.map TimeUnit.text).getD [] ++ b) := by
      rw [List.append_assoc, List.append_assoc, dropWhile_append_all a _ ha, dropWhile_self]
      intro c hc
      cases ds with
      | nil => exact absurd rfl hnil
      | cons x ds =>
        simp only [List.cons_append, List.head?_cons, Option.some.injEq] at hc
        subst hc
        exact hl.apart x (hdig x (by simp))
    have hhead : ∀ c, ((u.map TimeUnit.text).getD [] ++ b).head? = some c → l.digit c = false := by
      intro c hc
      cases u with
      | none =>
        simp only [Option.map_none, Option.getD_none, List.nil_append] at hc
        cases hd : l.digit c with
        | false => rfl
        | true =>
          have h1 := hl.apart c hd
          rw [hb c (List.mem_of_mem_head? hc)] at h1; cases h1
      | some u =>
        have h1 := (hl.letters 'm' (by simp)).1
        have h2 := (hl.letters 's' (by simp)).1
        have h3 := (hl.letters 'h' (by simp)).1
        have h4 := (hl.letters 'd' (by simp)).1
        cases u <;> simp [TimeUnit.text] at hc <;> subst hc <;> assumption
    rw [hdrop, (takeWhile_run ds _ hdig hhead).1, (takeWhile_run ds _ hdig hhead).2, if_neg hnil]
    cases u with
    | some u =>
      simp only [Option.map_some, Option.getD_some]
      rw [unit_found hl u b hb]
    | none =>
      simp only [Option.map_none, Option.getD_none, List.nil_append]
      rw [no_unit hl b hb, if_pos (List.all_eq_true.2 hb)]

private theorem mul64_60 (n : Nat) : mul64 (mul64 n 60) 60 = n * 3600 % 2 ^ 64 := by
  unfold mul64; omega

private theorem mul64_24 (n : Nat) : mul64 (mul64 (mul64 n 60) 60) 24 = n * 86400 % 2 ^ 64 := by
  unfold mul64; omega

private theorem toDuration_iff (n : Nat) (hn : n < 2 ^ 64) (u : Option TimeUnit) (ns : Nat) : toDuration n u = .ok ns ↔ Means n u ns := by
  cases u with
  | none =>
    simp only [toDuration, Means]
    by_cases h : n = 0
    · rw [if_pos h]; simp [h, eq_comm]
    · rw [if_neg h]; simp [h]
  | some u =>
    cases u <;> simp only [toDuration, Means, Except.ok.injEq, TimeUnit.seconds, mul64_60, mul64_24] <;>
      (try simp only [mul64]) <;> constructor <;> intro h <;> omega

/-- **C102.** A value is a duration if and only if it is a number of 64 bits with a unit - only zero needs none - and
white space around them, and it is that many milliseconds, or seconds, minutes, hours or days counted in seconds of
64 bits. -/
theorem C102_duration (l : Lib) (hl : l.Sane) (s : Str) (ns : Nat) :
    parseDuration l s = .ok ns ↔ ∃ n u, Written l s n u ∧ n < 2 ^ 64 ∧ Means n u ns := by
  have key : ∀ ds u, captures l s = some (ds, u) → ∀ n, (parseNumber (2 ^ 64 - 1) ds = .ok n ↔ n < 2 ^ 64 ∧ Numeral ds n) := by
    intro ds u hc n
    obtain ⟨hnil, hdig, _⟩ := (captures_iff hl s ds u).1 hc
    have : parseNumber (2 ^ 64 - 1) ds = .ok n ↔ parseUnsigned (2 ^ 64 - 1) ds = some n := by
      unfold parseNumber
      cases parseUnsigned (2 ^ 64 - 1) ds <;> simp
    rw [this, parseUnsigned_iff]
    constructor
    · rintro ⟨h1, h2 | ⟨r, h2, _⟩⟩
      · exact ⟨by omega, h2⟩
      · subst h2
        have := hdig '+' (by simp)
        rw [hl.plus.1] at this; cases this
    · rintro ⟨h1, h2⟩; exact ⟨by omega, Or.inl h2⟩
  unfold parseDuration
  constructor
  · intro h
    cases hc : captures l s with
    | none => rw [hc] at h; cases h
    | some p =>
      obtain ⟨ds, u⟩ := p
      rw [hc] at h
      simp only at h
      cases hn : parseNumber (2 ^ 64 - 1) ds with
      | error e => rw [hn] at h; cases h
      | ok n =>
        rw [hn] at h
        simp only at h
        obtain ⟨h1, h2⟩ := (key ds u hc n).1 hn
        obtain ⟨_, _, a, b, ha, hb, hs⟩ := (captures_iff hl s ds u).1 hc
        exact ⟨n, u, ⟨a, ds, b, ha, hb, h2, hs⟩, h1, (toDuration_iff n h1 u ns).1 h⟩
  · rintro ⟨n, u, ⟨a, ds, b, ha, hb, hd, hs⟩, hlt, hm⟩
    have hc : captures l s = some (ds, u) :=
      (captures_iff hl s ds u).2 ⟨hd.1, numeral_digit hl hd, a, b, ha, hb, hs⟩
    have hn := (key ds u hc n).2 ⟨hlt, hd⟩
    rw [hc]
    simp only
    rw [hn]
    exact (toDuration_iff n hlt u ns).2 hm

/-- **C102.** However a duration is written in a unit, it reads back exactly, as long as its seconds fit 64 bits. -/
theorem C102_duration_exact (l : Lib) (hl : l.Sane) (a b : Str) (ha : Blank l a) (hb : Blank l b) (n : Nat) (u : TimeUnit)
    (hn : n < 2 ^ 64) (hfit : n * u.seconds < 2 ^ 64) :
    parseDuration l (a ++ decimal n ++ u.text ++ b) = .ok (n * u.nanos) := by
  refine (C102_duration l hl _ _).2 ⟨n, some u, ⟨a, decimal n, b, ha, hb, numeral_decimal n, rfl⟩, hn, ?_⟩
  cases u with
  | ms => rfl
  | _ => all_goals (simp only [Means, Nat.mod_eq_of_lt hfit, TimeUnit.nanos, Nat.mul_assoc])

/-- **C102.** Zero needs no unit, and nothing else does without. -/
theorem C102_duration_bare (l : Lib) (hl : l.Sane) (a b : Str) (ha : Blank l a) (hb : Blank l b) (n : Nat) :
    (parseDuration l (a ++ decimal n ++ b) = .ok 0 ↔ n = 0) ∧
      (n ≠ 0 → ∃ e, parseDuration l (a ++ decimal n ++ b) = .error e) := by
  have hcap : captures l (a ++ decimal n ++ b) = some (decimal n, none) :=
    (captures_iff hl _ _ _).2 ⟨decimal_ne_nil n, numeral_digit hl (numeral_decimal n), a, b, ha, hb, by simp⟩
  have hp : parseDuration l (a ++ decimal n ++ b) =
      match parseNumber (2 ^ 64 - 1) (decimal n) with
      | .error e => .error e
      | .ok m => toDuration m none := by
    unfold parseDuration; rw [hcap]; rfl
  rw [hp]
  unfold parseNumber
  rw [parseUnsigned_decimal]
  by_cases h : n = 0
  · subst h; simp [toDuration]
  · refine ⟨⟨fun h' => ?_, fun h' => absurd h' h⟩, fun _ => ?_⟩
    · split at h'
      · cases h'
      · rename_i m hm
        split at hm
        · rename_i k hk
          split at hk
          · cases hk; cases hm; simp [toDuration, h] at h'
          · cases hk
        · cases hm
    · split
      · exact ⟨_, rfl⟩
      · rename_i m hm
        split at hm
        · rename_i k hk
          split at hk
          · cases hk; cases hm; exact ⟨.notADuration, by simp [toDuration, h]⟩
          · cases hk
        · cases hm

/-- Where an empty value is allowed, it means no duration. -/
theorem C102_duration_optional (l : Lib) (s : Str) :
    parseDurationOpt l s = if s = [] then .ok none else (parseDuration l s).map some := by
  cases s <;> simp [parseDurationOpt]

/-! ## Lists -/

theorem collect_ok (f : Str → Except ParseError α) (ss : List Str) (as : List α) :
    collect f ss = .ok as ↔ ss.map f = as.map .ok := by
  induction ss generalizing as with
  | nil => cases as <;> simp [collect]
  | cons s ss ih =>
    simp only [collect]
    cases hf : f s with
    | error e =>
      cases as with
      | nil => simp
      | cons a as => simp [hf]
    | ok a =>
      simp only
      cases hc : collect f ss with
      | error e =>
        cases as with
        | nil => simp
        | cons b bs =>
          simp only [reduceCtorEq, List.map_cons, List.cons.injEq, false_iff, not_and]
          intro _ h
          rw [(ih bs).2 h] at hc; cases hc
      | ok cs =>
        cases as with
        | nil => simp
        | cons b bs =>
          simp only [Except.ok.injEq, List.cons.injEq, List.map_cons, hf]
          constructor
          · rintro ⟨rfl, rfl⟩; exact ⟨rfl, (ih cs).1 hc⟩
          · rintro ⟨h1, h2⟩
            have := (ih bs).2 h2
            rw [hc] at this
            cases h1; cases this; exact ⟨rfl, rfl⟩

theorem parseList_ok (l : Lib) (f : Str → Except ParseError α) (ss : List Str) (as : List α) :
    parseList l f ss = .ok as ↔
      (ss.map (trim l.white)).filterMap (fun t => if t = [] then none else some (f t)) = as.map .ok := by
  induction ss generalizing as with
  | nil => cases as <;> simp [parseList]
  | cons s ss ih =>
    simp only [parseList, List.map_cons]
    by_cases ht : trim l.white s = []
    · rw [List.filterMap_cons_none (by simp [ht]), ← ih]; simp [ht]
    · rw [List.filterMap_cons_some (b := f (trim l.white s)) (by simp [ht])]
      have hne : (trim l.white s).isEmpty = false := by
        cases h : trim l.white s with
        | nil => exact absurd h ht
        | cons => rfl
      rw [hne]
      simp only [Bool.false_eq_true, if_false]
      cases hf : f (trim l.white s) with
      | error e =>
        cases as <;> simp
      | ok a =>
        simp only
        cases hc : parseList l f ss with
        | error e =>
          cases as with
          | nil => simp
          | cons b bs =>
            simp only [reduceCtorEq, List.map_cons, List.cons.injEq, false_iff, not_and]
            intro _ h
            rw [(ih bs).2 h] at hc; cases hc
        | ok cs =>
          cases as with
          | nil => simp
          | cons b bs =>
            simp only [Except.ok.injEq, List.cons.injEq, List.map_cons]
            constructor
            · rintro ⟨rfl, rfl⟩; exact ⟨rfl, (ih cs).1 hc⟩
            · rintro ⟨h1, h2⟩
              have := (ih bs).2 h2
              rw [hc] at this
              cases this; exact ⟨h1, rfl⟩

theorem parseList_mem (l : Lib) (f : Str → Except ParseError α) (ss : List Str) (as : List α)
    (h : parseList l f ss = .ok as) (a : α) : a ∈ as ↔ ∃ s ∈ ss, ∃ t, Trimmed l s t ∧ t ≠ [] ∧ f t = .ok a := by
  rw [parseList_ok] at h
  have h1 : a ∈ as ↔ (.ok a : Except ParseError α) ∈ as.map .ok := by simp
  rw [h1, ← h]
  simp only [List.mem_filterMap, List.mem_map]
  constructor
  · rintro ⟨t, ⟨s, hs, rfl⟩, ht⟩
    split at ht
    · cases ht
    · rename_i hne
      exact ⟨s, hs, _, trim_trimmed l s, hne, by simpa using ht⟩
  · rintro ⟨s, hs, t, ht, hne, hf⟩
    exact ⟨t, ⟨s, hs, (trim_iff l s t).2 ht⟩, by simp [hne, hf]⟩

theorem parseList_accepts (l : Lib) (f : Str → Except ParseError α) (ss : List Str) :
    (∃ as, parseList l f ss = .ok as) ↔ ∀ s ∈ ss, ∀ t, Trimmed l s t → t ≠ [] → ∃ a, f t = .ok a := by
  induction ss with
  | nil => simp [parseList]
  | cons s ss ih =>
    simp only [parseList, List.mem_cons, forall_eq_or_imp]
    have htr : (∀ t, Trimmed l s t → t ≠ [] → ∃ a, f t = .ok a) ↔
        (trim l.white s ≠ [] → ∃ a, f (trim l.white s) = .ok a) := by
      constructor
      · intro h; exact h _ (trim_trimmed l s)
      · intro h t ht; rw [← trim_of_trimmed l s t ht]; exact h
    rw [htr, ← ih]
    by_cases ht : trim l.white s = []
    · simp [ht]
    · have hne : (trim l.white s).isEmpty = false := by
        cases h : trim l.white s with
        | nil => exact absurd h ht
        | cons => rfl
      rw [hne]
      simp only [Bool.false_eq_true, if_false, ne_eq, ht, not_false_eq_true, true_imp_iff]
      cases hf : f (trim l.white s) with
      | error e => simp
      | ok a =>
        cases hc : parseList l f ss <;> simp

/-! ## Ports -/

private theorem parseNumber_ok (max : Nat) (s : Str) (n : Nat) :
    parseNumber max s = .ok n ↔ n ≤ max ∧ (Numeral s n ∨ ∃ r, s = '+' :: r ∧ Numeral r n) := by
  rw [← parseUnsigned_iff]
  unfold parseNumber
  cases parseUnsigned max s <;> simp

private theorem dash_not_port {t : Str} {n : Nat} (h : Port t n) : '-' ∉ t := by
  have key : ∀ r, Numeral r n → '-' ∉ r := fun r hr hm => absurd (hr.2.1 '-' hm) (by decide)
  rcases h.2 with h' | ⟨r, rfl, h'⟩
  · exact key t h'
  · simp only [List.mem_cons, not_or]
    exact ⟨by decide, key r h'⟩

private theorem dash_not_trimmed {l : Lib} (hl : l.Sane) {s t : Str} (h : Trimmed l s t) (hd : '-' ∉ t) : '-' ∉ s := by
  obtain ⟨a, b, rfl, ha, hb, _⟩ := h
  have hw := hl.dash
  simp only [List.mem_append, not_or]
  refine ⟨⟨fun hm => ?_, hd⟩, fun hm => ?_⟩
  · rw [ha _ hm] at hw; cases hw
  · rw [hb _ hm] at hw; cases hw

theorem splitOnce_none (sep : Char) (s : Str) (h : sep ∉ s) : splitOnce sep s = (s, none) := by
  unfold splitOnce
  have : s.dropWhile (· != sep) = [] := by
    have := dropWhile_append_all (p := (· != sep)) s [] (by
      intro c hc
      simp only [bne_iff_ne, ne_eq]
      intro he; subst he; exact h hc)
    simpa using this
  rw [this]

theorem splitOnce_some (sep : Char) (a b : Str) (h : sep ∉ a) : splitOnce sep (a ++ sep :: b) = (a, some b) := by
  have hall : ∀ c ∈ a, (c != sep) = true := by
    intro c hc
    simp only [bne_iff_ne, ne_eq]
    intro he; subst he; exact h hc
  obtain ⟨h1, h2⟩ := takeWhile_run (p := (· != sep)) a (sep :: b) hall (by intro c hc; simp at hc; subst hc; simp)
  unfold splitOnce
  rw [h1, h2]

theorem splitOnce_spec (sep : Char) (s : Str) :
    (sep ∉ s ∧ splitOnce sep s = (s, none)) ∨
      ∃ a b, s = a ++ sep :: b ∧ sep ∉ a ∧ splitOnce sep s = (a, some b) := by
  by_cases h : sep ∈ s
  · right
    obtain ⟨a, b, h1, h2⟩ := List.eq_append_cons_of_mem h
    exact ⟨a, b, h1, h2, by rw [h1, splitOnce_some sep a b h2]⟩
  · exact Or.inl ⟨h, splitOnce_none sep s h⟩

private theorem parsePortRange_ok {l : Lib} (hl : l.Sane) (part t : Str) (ht : Trimmed l part t) (lo hi : Nat) :
    parsePortRange l t = .ok (lo, hi) ↔ Entry l part lo hi := by
  have huniq : ∀ t', Trimmed l part t' → t' = t := fun t' ht' => by
    rw [← trim_of_trimmed l part t' ht', trim_of_trimmed l part t ht]
  -- `t` has no white space around it
  have htt : trim l.white t = t := by
    obtain ⟨a, b, _, _, _, h1, h2⟩ := ht
    exact trim_of_trimmed l t t ⟨[], [], by simp, by simp [Blank], by simp [Blank], h1, h2⟩
  unfold parsePortRange
  simp only
  rcases splitOnce_spec '-' t with ⟨hno, hsp⟩ | ⟨a, b, hab, hna, hsp⟩
  · rw [hsp, htt]
    simp only
    constructor
    · intro h
      cases hn : parseNumber 65535 t with
      | error e => rw [hn] at h; cases h
      | ok n =>
        rw [hn] at h
        cases h
        exact ⟨t, ht, Or.inl ⟨(parseNumber_ok _ _ _).1 hn, rfl⟩⟩
    · rintro ⟨t', ht', h | ⟨a, b, x, y, h, _⟩⟩
      · obtain rfl := huniq t' ht'
        obtain ⟨h1, rfl⟩ := h
        rw [(parseNumber_ok 65535 t' hi).2 h1]
      · obtain rfl := huniq t' ht'
        exact absurd (by rw [h]; simp) hno
  · rw [hsp]
    simp only
    constructor
    · intro h
      cases hn : parseNumber 65535 (trim l.white a) with
      | error e => rw [hn] at h; cases h
      | ok n =>
        rw [hn] at h
        simp only at h
        cases hm : parseNumber 65535 (trim l.white b) with
        | error e => rw [hm] at h; cases h
        | ok m =>
          rw [hm] at h
          simp only at h
          split at h
          · cases h
          · cases h
            exact ⟨t, ht, Or.inr ⟨a, b, _, _, hab, trim_trimmed l a, trim_trimmed l b, (parseNumber_ok _ _ _).1 hn,
              (parseNumber_ok _ _ _).1 hm, by omega⟩⟩
    · rintro ⟨t', ht', h | ⟨a', b', x, y, h, hx, hy, hpx, hpy, hle⟩⟩
      · obtain rfl := huniq t' ht'
        exact absurd (by rw [hab]; simp) (dash_not_port h.1)
      · obtain rfl := huniq t' ht'
        have hna' : '-' ∉ a' := dash_not_trimmed hl hx (dash_not_port hpx)
        have : (a', some b') = (a, some b) := by
          rw [← splitOnce_some '-' a' b' hna', ← h, hsp]
        cases this
        rw [trim_of_trimmed l _ _ hx, trim_of_trimmed l _ _ hy, (parseNumber_ok 65535 x lo).2 hpx,
          (parseNumber_ok 65535 y hi).2 hpy]
        simp only
        rw [if_neg (by omega)]

private theorem entry_nonempty {l : Lib} {part : Str} {lo hi : Nat} (h : Entry l part lo hi) : ¬ Trimmed l part [] := by
  intro he
  obtain ⟨t, ht, h⟩ := h
  have : t = [] := by rw [← trim_of_trimmed l part t ht, trim_of_trimmed l part [] he]
  subst this
  rcases h with ⟨⟨_, h | ⟨r, h, _⟩⟩, _⟩ | ⟨a, b, _, _, h, _⟩
  · exact h.1 rfl
  · cases h
  · simp at h

private theorem parsePortRangeSet_eq (l : Lib) (s : Str) :
    parsePortRangeSet l s = parseList l (parsePortRange l) (split ',' s) := by
  unfold parsePortRangeSet
  cases s with
  | nil => simp [split, parseList, trim]
  | cons => rfl

/-- **C102.** The ports of a list are those of its entries, and no others. -/
theorem C102_ports (l : Lib) (hl : l.Sane) (s : Str) (rs : PortRanges) (h : parsePortRangeSet l s = .ok rs) (p : Nat) :
    rs.has p = true ↔ ∃ part ∈ split ',' s, ∃ lo hi, Entry l part lo hi ∧ lo ≤ p ∧ p ≤ hi := by
  rw [parsePortRangeSet_eq] at h
  unfold PortRanges.has
  rw [List.any_eq_true]
  constructor
  · rintro ⟨⟨lo, hi⟩, hm, hp⟩
    obtain ⟨part, hpart, t, ht, _, hf⟩ := (parseList_mem l _ _ _ h _).1 hm
    simp only [Bool.and_eq_true, decide_eq_true_eq] at hp
    exact ⟨part, hpart, lo, hi, (parsePortRange_ok hl part t ht lo hi).1 hf, hp⟩
  · rintro ⟨part, hpart, lo, hi, he, hp⟩
    refine ⟨(lo, hi), (parseList_mem l _ _ _ h _).2 ⟨part, hpart, trim l.white part, trim_trimmed l part, ?_, ?_⟩, by simpa using hp⟩
    · intro h0
      exact entry_nonempty he ((trim_iff l part []).1 h0)
    · exact (parsePortRange_ok hl part _ (trim_trimmed l part) lo hi).2 he

/-- **C102.** A list of ports is accepted if and only if all between its commas is blank or an entry. -/
theorem C102_ports_accepted (l : Lib) (hl : l.Sane) (s : Str) :
    (∃ rs, parsePortRangeSet l s = .ok rs) ↔ ∀ part ∈ split ',' s, Blank l part ∨ ∃ lo hi, Entry l part lo hi := by
  simp only [parsePortRangeSet_eq]
  rw [parseList_accepts]
  constructor
  · intro h part hp
    by_cases ht : trim l.white part = []
    · obtain ⟨a, b, hs, ha, hb, _⟩ := (trim_iff l part []).1 ht
      left
      subst hs
      intro c hc
      simp only [List.append_nil, List.mem_append] at hc
      exact hc.elim (ha c) (hb c)
    · right
      obtain ⟨⟨lo, hi⟩, hf⟩ := h part hp _ (trim_trimmed l part) ht
      exact ⟨lo, hi, (parsePortRange_ok hl part _ (trim_trimmed l part) lo hi).1 hf⟩
  · intro h part hp t ht hne
    rcases h part hp with hb | ⟨lo, hi, he⟩
    · exfalso
      apply hne
      rw [← trim_of_trimmed l part t ht]
      exact trim_of_trimmed l part [] ⟨part, [], by simp, hb, by simp [Blank], by simp, by simp⟩
    · exact ⟨(lo, hi), (parsePortRange_ok hl part t ht lo hi).2 he⟩

/-- How a range of ports is written. -/
def writeRange (r : Nat × Nat) : Str := if r.1 = r.2 then decimal r.1 else decimal r.1 ++ '-' :: decimal r.2

private theorem decimal_trimmed {l : Lib} (hl : l.Sane) (n : Nat) : Trimmed l (decimal n) (decimal n) := by
  have hd : ∀ c ∈ decimal n, l.white c = false := fun c hc => hl.apart c (numeral_digit hl (numeral_decimal n) c hc)
  exact ⟨[], [], by simp, by simp [Blank], by simp [Blank], fun c hc => hd c (List.mem_of_mem_head? hc),
    fun c hc => hd c (List.mem_of_getLast? hc)⟩

private theorem decimal_port (n : Nat) (h : n ≤ 65535) : Port (decimal n) n := ⟨h, Or.inl (numeral_decimal n)⟩

private theorem trimmed_ends {l : Lib} (t : Str) (h1 : ∀ c, t.head? = some c → l.white c = false)
    (h2 : ∀ c, t.getLast? = some c → l.white c = false) : Trimmed l t t :=
  ⟨[], [], by simp, by simp [Blank], by simp [Blank], h1, h2⟩

private theorem writeRange_entry {l : Lib} (hl : l.Sane) (r : Nat × Nat) (h1 : r.1 ≤ r.2) (h2 : r.2 ≤ 65535) :
    Entry l (writeRange r) r.1 r.2 := by
  unfold writeRange
  split
  · rename_i he
    exact ⟨_, decimal_trimmed hl _, Or.inl ⟨decimal_port _ (by omega), he.symm⟩⟩
  · have hd : ∀ n, ∀ c ∈ decimal n, l.white c = false := fun n c hc => hl.apart c (numeral_digit hl (numeral_decimal n) c hc)
    refine ⟨_, trimmed_ends _ (fun c hc => ?_) (fun c hc => ?_), Or.inr ⟨decimal r.1, decimal r.2, _, _, rfl,
      decimal_trimmed hl _, decimal_trimmed hl _, decimal_port _ (by omega), decimal_port _ h2, h1⟩⟩
    · cases hdec : decimal r.1 with
      | nil => exact absurd hdec (decimal_ne_nil _)
      | cons x xs =>
        rw [hdec] at hc
        simp only [List.cons_append, List.head?_cons, Option.some.injEq] at hc
        subst hc
        exact hd r.1 x (by rw [hdec]; simp)
    · have : (decimal r.1 ++ '-' :: decimal r.2).getLast? = (decimal r.2).getLast? := by
        cases hdec : decimal r.2 with
        | nil => exact absurd hdec (decimal_ne_nil _)
        | cons x xs => simp [List.getLast?_append, List.getLast?_cons]
      rw [this] at hc
      exact hd r.2 c (List.mem_of_getLast? hc)

private theorem comma_not_written (r : Nat × Nat) : ',' ∉ writeRange r := by
  have h : ∀ n, ',' ∉ decimal n := not_digit_of ',' (by decide)
  unfold writeRange
  split
  · exact h _
  · simp [h]

/-- **C102.** Written with commas, any ranges of ports read back as the same ports. -/
theorem C102_ports_round_trip (l : Lib) (hl : l.Sane) (rs : PortRanges) (hrs : ∀ r ∈ rs, r.1 ≤ r.2 ∧ r.2 ≤ 65535) :
    ∃ rs', parsePortRangeSet l (join ',' (rs.map writeRange)) = .ok rs' ∧ ∀ p, rs'.has p = rs.has p := by
  cases hne : rs with
  | nil => exact ⟨[], by simp [join, parsePortRangeSet], fun _ => rfl⟩
  | cons r0 rs0 =>
    rw [← hne]
    have hsplit : split ',' (join ',' (rs.map writeRange)) = rs.map writeRange := by
      apply split_join
      · rw [hne]; simp
      · intro p hp
        obtain ⟨r, _, rfl⟩ := List.mem_map.1 hp
        exact comma_not_written r
    obtain ⟨rs', h⟩ := (C102_ports_accepted l hl (join ',' (rs.map writeRange))).2 (by
      rw [hsplit]
      intro part hp
      obtain ⟨r, hr, rfl⟩ := List.mem_map.1 hp
      exact Or.inr ⟨r.1, r.2, writeRange_entry hl r (hrs r hr).1 (hrs r hr).2⟩)
    refine ⟨rs', h, fun p => ?_⟩
    rw [Bool.eq_iff_iff, C102_ports l hl _ _ h p, hsplit]
    unfold PortRanges.has
    rw [List.any_eq_true]
    constructor
    · rintro ⟨part, hp, lo, hi, he, hle⟩
      obtain ⟨r, hr, rfl⟩ := List.mem_map.1 hp
      have h1 := (parsePortRange_ok hl _ _ (trim_trimmed l _) lo hi).2 he
      have h2 := (parsePortRange_ok hl _ _ (trim_trimmed l _) _ _).2 (writeRange_entry hl r (hrs r hr).1 (hrs r hr).2)
      rw [h1] at h2
      cases h2
      exact ⟨r, hr, by simpa using hle⟩
    · rintro ⟨r, hr, hle⟩
      exact ⟨_, List.mem_map.2 ⟨r, hr, rfl⟩, r.1, r.2, writeRange_entry hl r (hrs r hr).1 (hrs r hr).2, by simpa using hle⟩

/-! ## Suffixes, networks and addresses -/

/-- **C102.** The suffixes of a list: the root for a dot, else the names between the commas, white space around them
ignored; one that is no name makes the value invalid. -/
theorem C102_suffixes (l : Lib) (s : Str) :
    (∀ sfxs, parseDnsSuffixes l s = .ok sfxs → ∀ sfx, sfx ∈ sfxs ↔
      ∃ part ∈ split ',' s, ∃ t, Trimmed l part t ∧ t ≠ [] ∧ Suffix.parse t = some sfx) ∧
    ((∃ sfxs, parseDnsSuffixes l s = .ok sfxs) ↔
      ∀ part ∈ split ',' s, ∀ t, Trimmed l part t → t ≠ [] → (Suffix.parse t).isSome) := by
  have hp : ∀ t sfx, parseDnsSuffix t = .ok sfx ↔ Suffix.parse t = some sfx := by
    intro t sfx
    unfold parseDnsSuffix
    by_cases h : t = ['.']
    · rw [if_pos h]; simp [Suffix.parse, h]
    · rw [if_neg h]; cases Suffix.parse t <;> simp
  constructor
  · intro sfxs h sfx
    simp only [parseList_mem l _ _ _ h, hp]
  · rw [parseDnsSuffixes, parseList_accepts]
    simp only [hp, Option.isSome_iff_exists]

/-- **C102.** The networks of a list are those between its commas, white space around them ignored; one that is no
network makes the value invalid. -/
theorem C102_networks (l : Lib) (s : Str) :
    (∀ nets, parseNetworks l s = .ok nets → ∀ n, n ∈ nets ↔
      ∃ part ∈ split ',' s, ∃ t, Trimmed l part t ∧ t ≠ [] ∧ l.net t = some n) ∧
    ((∃ nets, parseNetworks l s = .ok nets) ↔
      ∀ part ∈ split ',' s, ∀ t, Trimmed l part t → t ≠ [] → (l.net t).isSome) := by
  have hp : ∀ t n, parseNet l t = .ok n ↔ l.net t = some n := by
    intro t n; unfold parseNet; cases l.net t <;> simp
  constructor
  · intro nets h n
    simp only [parseList_mem l _ _ _ h, hp]
  · rw [parseNetworks, parseList_accepts]
    simp only [hp, Option.isSome_iff_exists]

/-- **C102.** The addresses to listen on are, in order, what is between the commas: one or two, each an IP address with
a port, with nothing around it. -/
theorem C102_listen_addrs (l : Lib) (s : Str) (as : List SocketAddr) :
    parseSocketAddrs l s = .ok as ↔ as.length ≤ 2 ∧ (split ',' s).map l.socket = as.map some := by
  have hp : ∀ t a, parseSocketAddr l t = .ok a ↔ l.socket t = some a := by
    intro t a
    unfold parseSocketAddr parseAddr Addr.Addr.parse
    cases hs : l.socket t with
    | some b => simp
    | none => cases Addr.NameAddr.parse t <;> simp [Except.map]
  have hm : ∀ (ss : List Str) (as : List SocketAddr),
      ss.map (parseSocketAddr l) = as.map .ok ↔ ss.map l.socket = as.map some := by
    intro ss
    induction ss with
    | nil => intro as; cases as <;> simp
    | cons t ss ih =>
      intro as
      cases as with
      | nil => simp
      | cons a as => simp only [List.map_cons, List.cons.injEq, hp, ih]
  unfold parseSocketAddrs
  simp only
  split
  · rename_i hgt
    simp only [reduceCtorEq, false_iff, not_and]
    intro hle h
    have := congrArg List.length h
    simp only [List.length_map] at this
    omega
  · rename_i hgt
    rw [collect_ok, hm]
    constructor
    · intro h
      have := congrArg List.length h
      simp only [List.length_map] at this
      exact ⟨by omega, h⟩
    · exact fun h => h.2

/-- **C102.** The addresses a proxy accepts connections for are what is between the commas, with nothing around it. -/
theorem C102_ips (l : Lib) (s : Str) (as : List Ip) :
    parseIpSet l s = .ok as ↔ (split ',' s).map l.ip = as.map some := by
  unfold parseIpSet
  rw [collect_ok]
  generalize split ',' s = ss
  induction ss generalizing as with
  | nil => cases as <;> simp
  | cons t ss ih =>
    cases as with
    | nil => simp
    | cons a as =>
      simp only [List.map_cons, List.cons.injEq, ih, parseIp]
      cases l.ip t <;> simp

/-- **C102.** Yes and no are `true` and `false`, exactly. -/
theorem C102_bool (s : Str) (b : Bool) : parseBool s = .ok b ↔ s = (if b then "true".toList else "false".toList) := by
  have hne : "true".toList ≠ "false".toList := by decide
  unfold parseBool
  generalize "true".toList = y at hne ⊢
  generalize "false".toList = n at hne ⊢
  by_cases h : s = y
  · subst h; cases b <;> simp [hne]
  · rw [if_neg h]
    by_cases h' : s = n
    · subst h'; cases b <;> simp [h]
    · rw [if_neg h']; cases b <;> simp [h, h']

/-- **C102.** A number is an optional plus sign and a numeral, not above the maximum of its type. -/
theorem C102_number (max : Nat) (s : Str) (n : Nat) :
    parseNumber max s = .ok n ↔ n ≤ max ∧ (Numeral s n ∨ ∃ r, s = '+' :: r ∧ Numeral r n) := parseNumber_ok max s n

/-! ## Limits and examples -/

/-- Results can be compared. -/
instance [DecidableEq ε] [DecidableEq α] : DecidableEq (Except ε α) := fun a b =>
  match a, b with
  | .ok x, .ok y => if h : x = y then isTrue (h ▸ rfl) else isFalse fun e => h (Except.ok.inj e)
  | .error x, .error y => if h : x = y then isTrue (h ▸ rfl) else isFalse fun e => h (Except.error.inj e)
  | .ok _, .error _ => isFalse nofun
  | .error _, .ok _ => isFalse nofun

/-- ASCII's white space and digits; no addresses. -/
def asciiLib : Lib where
  white c := c == ' ' || c == '\t' || c == '\n' || c == '\r'
  digit c := decide ('0'.toNat ≤ c.toNat) && decide (c.toNat ≤ '9'.toNat)
  ip s := if s = "10.0.0.1".toList then some (.v4 167772161) else none
  socket s := if s = "10.0.0.1:80".toList then some ⟨.v4 167772161, 80⟩ else none
  net s := if s = "10.0.0.0/8".toList then some (.v4 167772160 8) else none

theorem asciiLib_sane : asciiLib.Sane where
  ascii c h := by simp only [asciiLib, Bool.and_eq_true, decide_eq_true_eq]; exact h
  apart c h := by
    simp only [asciiLib, Bool.and_eq_true, decide_eq_true_eq] at h
    simp only [asciiLib, Bool.or_eq_false_iff, beq_eq_false_iff_ne, ne_eq]
    refine ⟨⟨⟨?_, ?_⟩, ?_⟩, ?_⟩ <;> rintro rfl <;> revert h <;> decide
  letters := by decide
  plus := by decide
  comma := by decide
  dash := by decide

/-- **C102, limit.** Minutes, hours and days are multiplied in 64 bits without a check: more than half a trillion years,
written in days, are read as less than a day. -/
theorem C102_limit_duration : ∃ n, n < 2 ^ 64 ∧ n * TimeUnit.d.nanos > 500000000000 * 365 * TimeUnit.d.nanos ∧
    ∃ ns, parseDuration asciiLib (decimal n ++ TimeUnit.d.text) = .ok ns ∧ ns < TimeUnit.d.nanos := by
  refine ⟨213503982334602, by decide, by decide, 213503982334602 * 86400 % 2 ^ 64 * 10 ^ 9, ?_, by decide⟩
  refine (C102_duration asciiLib asciiLib_sane _ _).2 ⟨213503982334602, some .d,
    ⟨[], _, [], by simp [Blank], by simp [Blank], numeral_decimal _, by simp⟩, by decide, rfl⟩

/-- **C102, limit.** An empty list of addresses is not an empty list: it is invalid, unless the empty text is an
address. -/
theorem C102_limit_empty (l : Lib) (h : l.ip [] = none) (h' : l.socket [] = none) :
    parseIpSet l [] = .error .notAnIp ∧ ¬ ∃ as, parseSocketAddrs l [] = .ok as := by
  refine ⟨by simp [parseIpSet, split, collect, parseIp, h], ?_⟩
  rintro ⟨as, ha⟩
  have := ((C102_listen_addrs l [] as).1 ha).2
  simp only [split, List.map_cons, List.map_nil, h'] at this
  cases as <;> simp at this

example : parseDuration asciiLib " 15m\n".toList = .ok (15 * 60 * 10 ^ 9) := by decide +kernel
example : parseDuration asciiLib "300ms".toList = .ok (300 * 10 ^ 6) := by decide +kernel
example : parseDuration asciiLib "5".toList = .error .notADuration := by decide +kernel
example : parseDuration asciiLib "1 s".toList = .error .notADuration := by decide +kernel
example : parsePortRangeSet asciiLib "80, 4143-4191 ,,".toList = .ok [(80, 80), (4143, 4191)] := by decide +kernel
example : parsePortRangeSet asciiLib "90-80".toList = .error .notAPortRange := by decide +kernel
example : parseDnsSuffixes asciiLib "svc.cluster.local., .".toList = .ok [.name "svc.cluster.local.".toList, .root] := by
  decide +kernel
example : parseNetworks asciiLib " 10.0.0.0/8 ,".toList = .ok [.v4 167772160 8] := by decide +kernel
example : parseSocketAddrs asciiLib "10.0.0.1:80,10.0.0.1:80".toList =
    .ok [⟨.v4 167772161, 80⟩, ⟨.v4 167772161, 80⟩] := by decide +kernel
example : parseSocketAddrs asciiLib "10.0.0.1:80,10.0.0.1:80,10.0.0.1:80".toList = .error .tooManyAddrs := by decide +kernel
example : parseIpSet asciiLib "10.0.0.1".toList = .ok [.v4 167772161] := by decide +kernel

end Verif.Env
