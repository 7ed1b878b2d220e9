import Verif.HttpRoute.Lemmas
import Verif.TlsRoute.Model

/-!
# C27: TLS route selection
-/

namespace Verif.TlsRoute

open Verif.HttpRoute (Str stripDot dropDot stripDot_iff undotted_iff Undotted dotted dotted_cons dotted_eq)

/-! ## Specification -/

/-- When a pattern applies to a server name, and with what specificity.  A trailing dot of the name counts
only if the pattern has one too. -/
def SniApplies (m : MatchSni) (sni : Str) (s : SniMatch) : Prop :=
  match m with
  | .exact h => s = .exact h.length ∧ (if h.getLast? = some '.' then sni = h else Undotted sni h)
  | .suffix [] => s = .suffix 0
  | .suffix labels => s = .suffix ((Text.join '.' labels.reverse).length + 1) ∧ ∃ name x,
      (if labels.head? = some [] then sni = name else Undotted sni name) ∧
      name = x ++ '.' :: Text.join '.' labels.reverse

/-- `a` is less specific than `b`: no pattern; then a shorter suffix; then a longer suffix; then a shorter
name; then a longer name. -/
inductive SniLess : Option SniMatch → Option SniMatch → Prop
  | any (b) : SniLess none (some b)
  | kind (a b) : SniLess (some (.suffix a)) (some (.exact b))
  | suffix (a b) : a < b → SniLess (some (.suffix a)) (some (.suffix b))
  | exact (a b) : a < b → SniLess (some (.exact a)) (some (.exact b))

variable {P : Type}

/-- A route applies: it has no patterns, or one of them applies. -/
def Fits (rt : Route P) (sni : Str) (s : Option SniMatch) : Prop :=
  (rt.snis = [] ∧ s = none) ∨ ∃ m ∈ rt.snis, ∃ k, SniApplies m sni k ∧ s = some k

/-! ## Lemmas -/

def kindOf : Option SniMatch → Nat
  | none => 0
  | some (.suffix _) => 1
  | some (.exact _) => 2

def lenOf : Option SniMatch → Nat
  | none => 0
  | some (.suffix n) => n
  | some (.exact n) => n

instance : Std.TransCmp cmpRoute := by
  have : cmpRoute = compareLex (compareOn kindOf) (compareOn lenOf) := by
    funext a b
    rcases a with _ | (a | a) <;> rcases b with _ | (b | b) <;> rfl
  rw [this]; infer_instance

instance : Std.TransCmp SniMatch.cmp := by
  have : SniMatch.cmp = compareLex (compareOn (fun a => kindOf (some a))) (compareOn (fun a => lenOf (some a))) := by
    funext a b
    rcases a with a | a <;> rcases b with b | b <;> rfl
  rw [this]; infer_instance

theorem sniLess_iff (a b : Option SniMatch) : cmpRoute a b = .lt ↔ SniLess a b := by
  constructor
  · intro h
    rcases a with _ | (a | a) <;> rcases b with _ | (b | b) <;>
      simp [cmpRoute, SniMatch.cmp, Nat.compare_eq_lt] at h
    · exact .any _
    · exact .any _
    · exact .exact _ _ h
    · exact .kind _ _
    · exact .suffix _ _ h
  · intro h
    cases h <;> simp [cmpRoute, SniMatch.cmp, Nat.compare_eq_lt] <;> assumption

theorem stripSuffix_iff (s suffix r : Str) : stripSuffix s suffix = some r ↔ s = r ++ suffix := by
  unfold stripSuffix
  by_cases hl : suffix.length ≤ s.length
  · rw [if_pos hl]
    simp only
    constructor
    · intro h
      split at h
      · cases h
        rename_i h
        conv => lhs; rw [← List.take_append_drop (s.length - suffix.length) s]
        rw [h]
      · cases h
    · rintro rfl
      simp
  · rw [if_neg hl]
    simp only [reduceCtorEq, false_iff]
    rintro rfl
    simp at hl

theorem stripLabels_iff (labels : List Str) (sni : Str) (n k : Nat) :
    stripLabels sni n labels = some k ↔ k = n + (dotted labels).length ∧ ∃ x, sni = x ++ dotted labels := by
  induction labels generalizing sni n with
  | nil =>
    simp only [stripLabels, dotted, List.reverse_nil, List.flatMap_nil, List.length_nil, Nat.add_zero, List.append_nil]
    constructor
    · intro h; cases h; exact ⟨rfl, sni, rfl⟩
    · rintro ⟨rfl, _⟩; rfl
  | cons l ls ih =>
    simp only [stripLabels]
    have hlen : (dotted (l :: ls)).length = (l.length + 1) + (dotted ls).length := by
      rw [dotted_cons]; simp; omega
    constructor
    · intro h
      cases h1 : stripSuffix sni l with
      | none => rw [h1] at h; cases h
      | some h' =>
        rw [h1] at h
        simp only at h
        cases h2 : stripDot h' with
        | none => rw [h2] at h; cases h
        | some h'' =>
          rw [h2] at h
          simp only at h
          obtain ⟨hk, x, rfl⟩ := (ih _ _).1 h
          have hz := (stripSuffix_iff _ _ _).1 h1
          have := (stripDot_iff _ _).1 h2
          exact ⟨by omega, x, by rw [hz, this, dotted_cons]; simp⟩
    · rintro ⟨hk, x, rfl⟩
      have h1 : stripSuffix (x ++ dotted (l :: ls)) l = some (x ++ dotted ls ++ ['.']) :=
        (stripSuffix_iff _ _ _).2 (by rw [dotted_cons]; simp)
      have h2 : stripDot (x ++ dotted ls ++ ['.']) = some (x ++ dotted ls) := (stripDot_iff _ _).2 rfl
      rw [h1]
      simp only [h2]
      exact (ih _ _).2 ⟨by omega, x, rfl⟩

theorem sni_iff (m : MatchSni) (sni : Str) (s : SniMatch) : m.summarize sni = some s ↔ SniApplies m sni s := by
  cases m with
  | exact h =>
    simp only [MatchSni.summarize, SniApplies]
    have key : (if h.getLast? = some '.' then sni = h else Undotted sni h) ↔
        h = (if h.getLast? = some '.' then sni else dropDot sni) := by
      by_cases hd : h.getLast? = some '.'
      · simp only [hd, if_true]; exact eq_comm
      · simp only [hd, if_false, ← undotted_iff]; exact eq_comm
    rw [key]
    by_cases hh : h = (if h.getLast? = some '.' then sni else dropDot sni)
    · rw [if_pos hh]; simp only [Option.some.injEq]; exact ⟨fun e => ⟨e.symm, hh⟩, fun e => e.1.symm⟩
    · rw [if_neg hh]; simp only [reduceCtorEq, false_iff, not_and]; exact fun _ => hh
  | suffix labels =>
    cases labels with
    | nil => simp [MatchSni.summarize, SniApplies, stripLabels, eq_comm]
    | cons l ls =>
      simp only [MatchSni.summarize, SniApplies, Option.map_eq_some_iff, stripLabels_iff]
      rw [dotted_eq _ (by simp)]
      simp only [Nat.zero_add, List.length_cons]
      have key : ∀ name : Str, (if (l :: ls).head? = some [] then sni = name else Undotted sni name) ↔
          (if (l :: ls).head? = some [] then sni else dropDot sni) = name := by
        intro name
        by_cases hd : (l :: ls).head? = some []
        · simp [hd]
        · simp only [hd, if_false, undotted_iff]
      simp only [key]
      constructor
      · rintro ⟨k, ⟨hk, x, hx⟩, rfl⟩
        exact ⟨by rw [hk], _, x, rfl, hx⟩
      · rintro ⟨rfl, name, x, hh, rfl⟩
        exact ⟨_, ⟨rfl, x, hh⟩, rfl⟩

theorem routeMatch_some {sni : Str} {rt : Route P} {s : Option SniMatch} {p : P}
    (e : routeMatch sni rt = some (s, p)) :
    rt.policy = p ∧ Fits rt sni s ∧ ∀ s', Fits rt sni s' → (cmpRoute s' s).isLE := by
  unfold routeMatch at e
  split at e
  · rename_i hn
    cases e
    have hn : rt.snis = [] := by simpa using hn
    refine ⟨rfl, .inl ⟨hn, rfl⟩, ?_⟩
    rintro s' (⟨_, rfl⟩ | ⟨m, hm, _⟩)
    · rfl
    · rw [hn] at hm; cases hm
  · rename_i hn
    rw [Option.map_eq_some_iff] at e
    obtain ⟨k, hk, he⟩ := e
    cases he
    obtain ⟨h1, h2⟩ := Select.maxLast_some _ hk
    obtain ⟨m, hm, hmk⟩ := List.mem_filterMap.1 h1
    refine ⟨rfl, .inr ⟨m, hm, k, (sni_iff _ _ _).1 hmk, rfl⟩, ?_⟩
    rintro s' (⟨hnil, _⟩ | ⟨m', hm', k', hk', rfl⟩)
    · rw [hnil] at hn; simp at hn
    · exact h2 k' (List.mem_filterMap.2 ⟨m', hm', (sni_iff _ _ _).2 hk'⟩)

theorem routeMatch_none {sni : Str} {rt : Route P} (e : routeMatch sni rt = none) : ∀ s, ¬ Fits rt sni s := by
  unfold routeMatch at e
  split at e
  · cases e
  · rename_i hn
    rw [Option.map_eq_none_iff, Select.maxLast_none, List.filterMap_eq_nil_iff] at e
    rintro s (⟨hnil, _⟩ | ⟨m, hm, k, hk, rfl⟩)
    · rw [hnil] at hn; simp at hn
    · have := e m hm
      rw [(sni_iff _ _ _).2 hk] at this; cases this

instance : Std.TransCmp (fun a b : Option SniMatch × P => cmpRoute a.1 b.1) where
  eq_swap := Std.OrientedCmp.eq_swap (cmp := cmpRoute)
  isLE_trans := Std.TransCmp.isLE_trans (cmp := cmpRoute)

/-! ## C27 -/

/-- C27: the selected route applies to the server name; no route that applies is more specific; every
route that applies and is listed earlier is less specific. -/
theorem C27_route_is_the_right_choice {routes : List (Route P)} {sni : Str} {s : Option SniMatch} {p : P}
    (e : find routes sni = some (s, p)) :
    ∃ (i : Nat) (rt : Route P), routes[i]? = some rt ∧ rt.policy = p ∧ Fits rt sni s ∧
      ∀ (i' : Nat) (rt' : Route P) s', routes[i']? = some rt' → Fits rt' sni s' →
        ¬ SniLess s s' ∧ (i' < i → SniLess s' s) := by
  obtain ⟨i, rt, hi, hrt, hall⟩ := Select.best_filterMap _ _ e
  obtain ⟨hp, hf, _⟩ := routeMatch_some hrt
  refine ⟨i, rt, hi, hp, hf, ?_⟩
  intro i' rt' s' hi' hf'
  cases hm : routeMatch sni rt' with
  | none => exact absurd hf' (routeMatch_none hm s')
  | some x =>
    obtain ⟨s3, p3⟩ := x
    obtain ⟨h1, h2⟩ := hall i' rt' _ hi' hm
    obtain ⟨_, _, hle⟩ := routeMatch_some hm
    have hle := hle s' hf'
    rw [← sniLess_iff, ← sniLess_iff]
    constructor
    · intro hlt
      have : cmpRoute s s = .lt := Select.lt_of_lt_of_le _ hlt (Std.TransCmp.isLE_trans hle h1)
      rw [Std.ReflCmp.compare_self (cmp := cmpRoute)] at this
      cases this
    · intro hlt
      exact Select.lt_of_le_of_lt _ hle (h2 hlt)

/-- C27: nothing is selected exactly when nothing applies. -/
theorem C27_none_iff_nothing_applies (routes : List (Route P)) (sni : Str) :
    find routes sni = none ↔ ∀ rt ∈ routes, ∀ s, ¬ Fits rt sni s := by
  unfold find
  rw [Select.best_filterMap_none]
  constructor
  · intro h rt hrt; exact routeMatch_none (h rt hrt)
  · intro h rt hrt
    cases hm : routeMatch sni rt with
    | none => rfl
    | some x =>
      obtain ⟨s, p⟩ := x
      exact absurd (routeMatch_some hm).2.1 (h rt hrt s)

/-- C27: a name pattern applies to that name, with or without a trailing dot. -/
theorem C27_exact_name (h sni : Str) (hd : h.getLast? ≠ some '.') :
    ((MatchSni.exact h).summarize sni).isSome ↔ sni = h ∨ sni = h ++ ['.'] := by
  rw [Option.isSome_iff_exists]
  simp only [sni_iff, SniApplies, hd, if_false, Undotted]
  constructor
  · rintro ⟨_, _, h' | ⟨h', _⟩⟩
    · exact .inr h'
    · exact .inl h'
  · rintro (rfl | h')
    · exact ⟨_, rfl, .inr ⟨rfl, hd⟩⟩
    · exact ⟨_, rfl, .inl h'⟩

/-- C27: a wildcard `*.suffix` applies to every `x.suffix`, with or without a trailing dot. -/
theorem C27_wildcard_name (sfx sni : Str) (hne : sfx ≠ []) (hd : sfx.getLast? ≠ some '.') :
    ((MatchSni.ofText ('*' :: '.' :: sfx)).summarize sni).isSome ↔
      ∃ x, sni = x ++ '.' :: sfx ∨ sni = x ++ '.' :: sfx ++ ['.'] := by
  have hof : MatchSni.ofText ('*' :: '.' :: sfx) = .suffix (Text.split '.' sfx).reverse := by
    have : Text.stripPrefix ['*', '.'] ('*' :: '.' :: sfx) = some sfx := rfl
    unfold MatchSni.ofText; rw [this]
  have hhead : (Text.split '.' sfx).reverse.head? ≠ some [] := by
    rw [List.head?_reverse]
    intro h
    obtain ⟨l, hl⟩ := List.getLast?_eq_some_iff.1 h
    cases l with
    | nil =>
      exact hne (Text.split_inj '.' (hl.trans (by rfl : ([] : List Str) ++ [[]] = Text.split '.' [])))
    | cons a l =>
      have h2 := congrArg (Text.join '.') hl
      rw [Text.join_split, HttpRoute.join_append _ _ _ (by simp) (by simp)] at h2
      apply hd
      rw [h2]; simp [Text.join]
  rw [hof, Option.isSome_iff_exists]
  simp only [sni_iff, SniApplies]
  cases hlab : (Text.split '.' sfx).reverse with
  | nil => exact absurd (by simpa using hlab) (Text.split_ne_nil '.' sfx)
  | cons l ls =>
    dsimp only
    rw [← hlab]
    simp only [List.reverse_reverse, Text.join_split, hhead, if_false, Undotted]
    have hlast : ∀ x : Str, (x ++ '.' :: sfx).getLast? ≠ some '.' := by
      intro x
      cases sfx with
      | nil => exact absurd rfl hne
      | cons c cs =>
        rw [List.getLast?_append, List.getLast?_cons_cons]
        cases ha : (c :: cs).getLast? with
        | none => simp at ha
        | some d => rw [ha] at hd; simpa using hd
    constructor
    · rintro ⟨_, _, name, x, h' | ⟨h', _⟩, rfl⟩
      · exact ⟨x, .inr h'⟩
      · exact ⟨x, .inl h'⟩
    · rintro ⟨x, rfl | h'⟩
      · exact ⟨_, rfl, _, x, .inr ⟨rfl, hlast x⟩, rfl⟩
      · exact ⟨_, rfl, _, x, .inl h', rfl⟩

/-- C27, a limit: server names are lower-cased when parsed (dns/name/src/name.rs:131-135) and patterns are
not, so a pattern with an upper-case letter applies to no name at all. -/
theorem C27_upper_case_pattern_never_applies (h sni : Str) (hs : ∀ c ∈ sni, ¬ ('A' ≤ c ∧ c ≤ 'Z'))
    (hh : ∃ c ∈ h, 'A' ≤ c ∧ c ≤ 'Z') : (MatchSni.exact h).summarize sni = none := by
  cases hm : (MatchSni.exact h).summarize sni with
  | none => rfl
  | some s =>
    obtain ⟨_, ha⟩ := (sni_iff _ _ _).1 hm
    obtain ⟨c, hc, hu⟩ := hh
    have hsub : c ∈ sni := by
      split at ha
      · rw [ha]; exact hc
      · rcases ha with ha | ⟨ha, _⟩
        · rw [ha]; exact List.mem_append_left _ hc
        · rw [ha]; exact hc
    exact absurd hu (hs c hsub)

/-- A sample: a short suffix, a longer one, a name, anything. -/
def sample : List (Route Nat) :=
  [⟨[], 0⟩, ⟨[.suffix [['c']]], 1⟩, ⟨[.suffix [['c']], .suffix [['c'], ['b']]], 2⟩, ⟨[.exact ['a', '.', 'b', '.', 'c']], 3⟩,
   ⟨[.exact ['a', '.', 'b', '.', 'c']], 4⟩]

example : (find sample ['a', '.', 'b', '.', 'c', '.']).map (·.2) = some 3 := by decide +kernel
example : (find sample ['x', '.', 'b', '.', 'c']).map (·.2) = some 2 := by decide +kernel
example : (find sample ['b', '.', 'c']).map (·.2) = some 1 := by decide +kernel
example : (find sample ['c']).map (·.2) = some 0 := by decide +kernel
example : find sample.tail ['c'] = none := by decide +kernel
example : (MatchSni.exact ['A', '.', 'b']).summarize ['a', '.', 'b'] = none := by decide +kernel

end Verif.TlsRoute
