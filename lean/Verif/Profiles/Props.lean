import Verif.Profiles.Model
import Verif.Addr.Props
import Verif.Classify.Props

/-!
# C67: service profiles are read as they are written. C68: requests take the route of the current profile.
-/

namespace Verif.Profiles

/-! ## C67: request matches -/

mutual
/-- Whether all of a match can be read. -/
def Readable (p : Parsers) : ApiReqMatch → Prop
  | .missing => False
  | .all ms => AllReadable p ms
  | .any ms => AllReadable p ms
  | .not m => Readable p m
  | .path regex => (p.regex (anchored p.white regex)).isSome
  | .method m => (m.bind p.method).isSome
def AllReadable (p : Parsers) : List ApiReqMatch → Prop
  | [] => True
  | m :: ms => Readable p m ∧ AllReadable p ms
end

mutual
/-- What a match means, as a statement about a request. -/
def Holds (p : Parsers) (req : Req) : ApiReqMatch → Prop
  | .missing => False
  | .all ms => AllHold p req ms
  | .any ms => OneHolds p req ms
  | .not m => ¬ Holds p req m
  | .path regex => ∃ re, p.regex (anchored p.white regex) = some re ∧ re req.path = true
  | .method m => m.bind p.method = some req.method
def AllHold (p : Parsers) (req : Req) : List ApiReqMatch → Prop
  | [] => True
  | m :: ms => Holds p req m ∧ AllHold p req ms
def OneHolds (p : Parsers) (req : Req) : List ApiReqMatch → Prop
  | [] => False
  | m :: ms => Holds p req m ∨ OneHolds p req ms
end

mutual
theorem readable_match (p : Parsers) (req : Req) : (m : ApiReqMatch) → Readable p m →
    ∃ c, convertReqMatch p m = some c ∧ (c.isMatch req = true ↔ Holds p req m)
  | .missing, h => absurd h (by simp [Readable])
  | .all ms, h => by
    refine ⟨.all (convertReqMatches p ms), rfl, ?_⟩
    simp only [RequestMatch.isMatch, Holds]
    exact (readable_matches p req ms h).1
  | .any ms, h => by
    refine ⟨.any (convertReqMatches p ms), rfl, ?_⟩
    simp only [RequestMatch.isMatch, Holds]
    exact (readable_matches p req ms h).2
  | .not m, h => by
    obtain ⟨c, h1, h2⟩ := readable_match p req m h
    refine ⟨.not c, by simp [convertReqMatch, h1], ?_⟩
    simp only [RequestMatch.isMatch, Holds, ← h2]
    cases c.isMatch req <;> simp
  | .path regex, h => by
    obtain ⟨re, hre⟩ := Option.isSome_iff_exists.1 h
    refine ⟨.path (anchored p.white regex) re, by simp [convertReqMatch, hre], ?_⟩
    simp [RequestMatch.isMatch, Holds, hre]
  | .method m, h => by
    obtain ⟨x, hx⟩ := Option.isSome_iff_exists.1 h
    refine ⟨.method x, by simp [convertReqMatch, hx], ?_⟩
    simp only [RequestMatch.isMatch, Holds, hx, beq_iff_eq, Option.some.injEq]
    exact eq_comm
theorem readable_matches (p : Parsers) (req : Req) : (ms : List ApiReqMatch) → AllReadable p ms →
    (allMatch req (convertReqMatches p ms) = true ↔ AllHold p req ms) ∧
    (anyMatch req (convertReqMatches p ms) = true ↔ OneHolds p req ms)
  | [], _ => by simp [convertReqMatches, allMatch, anyMatch, AllHold, OneHolds]
  | m :: ms, h => by
    obtain ⟨c, h1, h2⟩ := readable_match p req m h.1
    obtain ⟨h3, h4⟩ := readable_matches p req ms h.2
    simp only [convertReqMatches, h1, allMatch, anyMatch, AllHold, OneHolds, Bool.and_eq_true, Bool.or_eq_true,
      h2, h3, h4, and_self]
end

/-- A request match all of which can be read matches exactly the requests it describes. -/
theorem C67_readable_matches_are_exact (p : Parsers) (m : ApiReqMatch) (h : Readable p m) :
    ∃ c, convertReqMatch p m = some c ∧ ∀ req, c.isMatch req = true ↔ Holds p req m := by
  obtain ⟨c, hc, -⟩ := readable_match p ⟨[], []⟩ m h
  refine ⟨c, hc, fun req => ?_⟩
  obtain ⟨c', hc', h'⟩ := readable_match p req m h
  rw [hc] at hc'
  cases hc'
  exact h'

mutual
/-- The match without the parts that cannot be read: a conjunction or disjunction loses them, the rest of a match cannot do
without them. -/
def pruned (p : Parsers) : ApiReqMatch → Option ApiReqMatch
  | .missing => none
  | .all ms => some (.all (prunedList p ms))
  | .any ms => some (.any (prunedList p ms))
  | .not m => (pruned p m).map .not
  | .path regex => if (p.regex (anchored p.white regex)).isSome then some (.path regex) else none
  | .method m => if (m.bind p.method).isSome then some (.method m) else none
def prunedList (p : Parsers) : List ApiReqMatch → List ApiReqMatch
  | [] => []
  | m :: ms => (pruned p m).toList ++ prunedList p ms
end

mutual
theorem pruned_spec (p : Parsers) : (m : ApiReqMatch) →
    (pruned p m = none → convertReqMatch p m = none) ∧
    (∀ m', pruned p m = some m' → Readable p m' ∧ convertReqMatch p m' = convertReqMatch p m)
  | .missing => by simp [pruned, convertReqMatch]
  | .all ms => by
    obtain ⟨h1, h2⟩ := prunedList_spec p ms
    refine ⟨by simp [pruned], ?_⟩
    intro m' h
    simp only [pruned, Option.some.injEq] at h
    subst h
    exact ⟨h1, by simp [convertReqMatch, h2]⟩
  | .any ms => by
    obtain ⟨h1, h2⟩ := prunedList_spec p ms
    refine ⟨by simp [pruned], ?_⟩
    intro m' h
    simp only [pruned, Option.some.injEq] at h
    subst h
    exact ⟨h1, by simp [convertReqMatch, h2]⟩
  | .not m => by
    obtain ⟨h1, h2⟩ := pruned_spec p m
    constructor
    · intro h
      simp only [pruned, Option.map_eq_none_iff] at h
      simp [convertReqMatch, h1 h]
    · intro m' h
      simp only [pruned, Option.map_eq_some_iff] at h
      obtain ⟨x, hx, rfl⟩ := h
      obtain ⟨h3, h4⟩ := h2 x hx
      exact ⟨h3, by simp [convertReqMatch, h4]⟩
  | .path regex => by
    simp only [pruned]
    split
    · rename_i h
      refine ⟨by simp, ?_⟩
      intro m' hm
      simp only [Option.some.injEq] at hm
      subst hm
      exact ⟨h, rfl⟩
    · rename_i h
      have h : _ = none := Option.not_isSome_iff_eq_none.1 h
      simp [convertReqMatch, h]
  | .method m => by
    simp only [pruned]
    split
    · rename_i h
      refine ⟨by simp, ?_⟩
      intro m' hm
      simp only [Option.some.injEq] at hm
      subst hm
      exact ⟨h, rfl⟩
    · rename_i h
      have h : _ = none := Option.not_isSome_iff_eq_none.1 h
      simp [convertReqMatch, h]
theorem prunedList_spec (p : Parsers) : (ms : List ApiReqMatch) →
    AllReadable p (prunedList p ms) ∧ convertReqMatches p (prunedList p ms) = convertReqMatches p ms
  | [] => by simp [prunedList, AllReadable]
  | m :: ms => by
    obtain ⟨h1, h2⟩ := pruned_spec p m
    obtain ⟨h3, h4⟩ := prunedList_spec p ms
    cases hm : pruned p m with
    | none =>
      simp only [prunedList, hm, Option.toList, List.nil_append, h3, true_and]
      simp only [convertReqMatches, h1 hm, h4]
    | some m' =>
      obtain ⟨h5, h6⟩ := h2 m' hm
      simp only [prunedList, hm, Option.toList, List.cons_append, List.nil_append, AllReadable, h5, h3, and_self, true_and]
      simp only [convertReqMatches, h6, h4]
end

/-- What cannot be read is left out: a match is read as what is left of it means, and not at all if nothing is. -/
theorem C67_unreadable_parts_are_left_out (p : Parsers) (m : ApiReqMatch) :
    (pruned p m = none ↔ convertReqMatch p m = none) ∧
    (∀ m', pruned p m = some m' → ∃ c, convertReqMatch p m = some c ∧ ∀ req, c.isMatch req = true ↔ Holds p req m') := by
  have h2 : ∀ m', pruned p m = some m' →
      ∃ c, convertReqMatch p m = some c ∧ ∀ req, c.isMatch req = true ↔ Holds p req m' := by
    intro m' hm
    obtain ⟨hr, he⟩ := (pruned_spec p m).2 m' hm
    obtain ⟨c, hc, h⟩ := C67_readable_matches_are_exact p m' hr
    exact ⟨c, by rw [← he]; exact hc, h⟩
  refine ⟨⟨(pruned_spec p m).1, ?_⟩, h2⟩
  intro h
  cases hm : pruned p m with
  | none => rfl
  | some m' =>
    obtain ⟨c, hc, -⟩ := h2 m' hm
    rw [h] at hc
    simp at hc

/-- So a route whose conditions must all hold applies to every request once none of them can be read. -/
theorem C67_unreadable_conditions_match_everything (p : Parsers) (regex : Str)
    (h : p.regex (anchored p.white regex) = none) :
    ∃ c, convertReqMatch p (.all [.path regex, .missing]) = some c ∧ ∀ req, c.isMatch req = true := by
  refine ⟨.all [], by simp [convertReqMatch, convertReqMatches, h], fun req => by simp [RequestMatch.isMatch, allMatch]⟩

theorem dropWhile_spec {α : Type} (f : α → Bool) (l : List α) :
    ∃ a, l = a ++ l.dropWhile f ∧ (∀ c ∈ a, f c = true) ∧ ∀ c, (l.dropWhile f).head? = some c → f c = false := by
  induction l with
  | nil => exact ⟨[], rfl, by simp, by simp⟩
  | cons x l ih =>
    by_cases hx : f x = true
    · obtain ⟨a, h1, h2, h3⟩ := ih
      refine ⟨x :: a, ?_, ?_, ?_⟩
      · simp only [List.dropWhile, hx, List.cons_append]; rw [← h1]
      · intro c hc
        rcases List.mem_cons.1 hc with rfl | hc
        · exact hx
        · exact h2 c hc
      · simpa only [List.dropWhile, hx] using h3
    · simp only [Bool.not_eq_true] at hx
      refine ⟨[], ?_, by simp, ?_⟩
      · simp [List.dropWhile, hx]
      · intro c hc
        simp only [List.dropWhile, hx, List.head?_cons, Option.some.injEq] at hc
        rw [← hc]; exact hx

/-- A path's expression is taken without the white space around it, and given a `^` in front and a `$` behind where the text
does not have them. -/
theorem C67_paths_are_anchored (white : Char → Bool) (s : Str) :
    ∃ a t b, s = a ++ t ++ b ∧ (∀ c ∈ a, white c = true) ∧ (∀ c ∈ b, white c = true) ∧
      (∀ c, t.head? = some c → white c = false) ∧ (∀ c, t.getLast? = some c → white c = false) ∧
      (anchored white s).head? = some '^' ∧ (anchored white s).getLast? = some '$' ∧
      ∃ hd tl, anchored white s = hd ++ t ++ tl ∧ (hd = [] ↔ t.head? = some '^') ∧ (hd = [] ∨ hd = ['^']) ∧
        (tl = [] ↔ t.getLast? = some '$') ∧ (tl = [] ∨ tl = ['$']) := by
  obtain ⟨a, ha, hal, hah⟩ := dropWhile_spec white s
  obtain ⟨b, hb, hbl, hbh⟩ := dropWhile_spec white (s.dropWhile white).reverse
  have ht : s.dropWhile white = trim white s ++ b.reverse := by
    have := congrArg List.reverse hb
    simpa [trim] using this
  refine ⟨a, trim white s, b.reverse, ?_, hal, by simpa using hbl, ?_, ?_, ?_⟩
  · rw [List.append_assoc, ← ht]; exact ha
  · intro c hc
    apply hah
    rw [ht]
    cases hx : trim white s with
    | nil => rw [hx] at hc; simp at hc
    | cons y l => rw [hx] at hc; simpa using hc
  · intro c hc
    apply hbh
    simpa [trim, List.getLast?_reverse] using hc
  · have key : anchored white s = (if (trim white s).head? = some '^' then [] else ['^']) ++ trim white s ++
        (if (trim white s).getLast? = some '$' then [] else ['$']) := by
      unfold anchored
      by_cases h1 : (trim white s).head? = some '^' <;> by_cases h2 : (trim white s).getLast? = some '$' <;>
        simp [h1, h2]
    rw [key]
    generalize trim white s = t
    refine ⟨?_, ?_, _, _, rfl, ?_, ?_, ?_, ?_⟩
    · by_cases h1 : t.head? = some '^'
      · rw [if_pos h1]
        cases t with
        | nil => simp at h1
        | cons x l => simpa using h1
      · rw [if_neg h1]; rfl
    · by_cases h1 : t.getLast? = some '$'
      · rw [if_pos h1, List.append_nil, List.getLast?_append, h1]; rfl
      · rw [if_neg h1, List.getLast?_append]; rfl
    · by_cases h1 : t.head? = some '^'
      · rw [if_pos h1]; exact ⟨fun _ => h1, fun _ => rfl⟩
      · rw [if_neg h1]; exact ⟨fun h => by simp at h, fun h => absurd h h1⟩
    · split
      · exact .inl rfl
      · exact .inr rfl
    · by_cases h1 : t.getLast? = some '$'
      · rw [if_pos h1]; exact ⟨fun _ => h1, fun _ => rfl⟩
      · rw [if_neg h1]; exact ⟨fun h => by simp at h, fun h => absurd h h1⟩
    · split
      · exact .inl rfl
      · exact .inr rfl

/-- The anchors are put around the text, whatever its structure: with alternatives each gets one of them. -/
theorem C67_alternatives_are_anchored_apart (white : Char → Bool)
    (h : ∀ c ∈ "/a|/b".toList, white c = false) : anchored white "/a|/b".toList = "^/a|/b$".toList := by
  have h1 : white '/' = false := h '/' (by decide)
  have h2 : white 'b' = false := h 'b' (by decide)
  have ht : trim white "/a|/b".toList = "/a|/b".toList := by
    simp [trim, List.dropWhile, h1, h2]
  unfold anchored
  rw [ht]
  decide +kernel

/-- A final `$` that is escaped, and so no anchor, is taken for one: the expression is left open. -/
theorem C67_escaped_dollar_is_taken_for_an_anchor (white : Char → Bool)
    (h : ∀ c ∈ "/a\\$".toList, white c = false) : anchored white "/a\\$".toList = "^/a\\$".toList := by
  have h1 : white '/' = false := h '/' (by decide)
  have h2 : white '$' = false := h '$' (by decide)
  have ht : trim white "/a\\$".toList = "/a\\$".toList := by
    simp [trim, List.dropWhile, h1, h2]
  unfold anchored
  rw [ht]
  decide +kernel

/-! ### Routes -/

theorem routeForRequest_spec {K : Type} (req : Req) (routes : List (RequestMatch × K)) (k : K) :
    routeForRequest req routes = some k ↔
      ∃ before m after, routes = before ++ (m, k) :: after ∧ m.isMatch req = true ∧
        ∀ e ∈ before, e.1.isMatch req = false := by
  induction routes with
  | nil => simp [routeForRequest]
  | cons e routes ih =>
    obtain ⟨m, k'⟩ := e
    simp only [routeForRequest]
    by_cases h : m.isMatch req = true
    · rw [if_pos h]
      constructor
      · intro hk
        simp only [Option.some.injEq] at hk
        subst hk
        exact ⟨[], m, routes, rfl, h, by simp⟩
      · rintro ⟨before, m', after, he, hm, hb⟩
        cases before with
        | nil =>
          simp only [List.nil_append, List.cons.injEq, Prod.mk.injEq] at he
          rw [he.1.2]
        | cons x before =>
          simp only [List.cons_append, List.cons.injEq] at he
          have := hb x (by simp)
          rw [← he.1] at this
          rw [h] at this
          simp at this
    · rw [if_neg h, ih]
      constructor
      · rintro ⟨before, m', after, rfl, hm, hb⟩
        refine ⟨(m, k') :: before, m', after, rfl, hm, ?_⟩
        intro e he
        rcases List.mem_cons.1 he with rfl | he
        · simpa using h
        · exact hb e he
      · rintro ⟨before, m', after, he, hm, hb⟩
        cases before with
        | nil =>
          simp only [List.nil_append, List.cons.injEq, Prod.mk.injEq] at he
          rw [he.1.1] at h
          exact absurd hm h
        | cons x before =>
          simp only [List.cons_append, List.cons.injEq] at he
          exact ⟨before, m', after, he.2, hm, fun e he' => hb e (by simp [he'])⟩

/-- What a route of the message says of a request: whether it can be read and applies. -/
def Applies (p : Parsers) (req : Req) (r : ApiRoute) : Prop :=
  ∃ m m', r.condition = some m ∧ pruned p m = some m' ∧ Holds p req m'

theorem applies_iff (p : Parsers) (b : Option Budget) (req : Req) (r : ApiRoute) :
    (∀ m route, convertRoute p b r = some (m, route) → (m.isMatch req = true ↔ Applies p req r)) ∧
    (convertRoute p b r = none → ¬ Applies p req r) := by
  unfold convertRoute
  cases hc : r.condition with
  | none => simp [Applies, hc]
  | some m =>
    cases hm : pruned p m with
    | none =>
      have := (C67_unreadable_parts_are_left_out p m).1.1 hm
      simp [this, Applies, hc, hm]
    | some m' =>
      obtain ⟨c, h1, h2⟩ := (C67_unreadable_parts_are_left_out p m).2 m' hm
      simp only [Option.bind_some, h1, Option.some.injEq, Prod.mk.injEq, reduceCtorEq, false_implies, and_true]
      rintro x route ⟨rfl, -⟩
      rw [h2]
      simp only [Applies, hc, Option.some.injEq]
      constructor
      · exact fun h => ⟨m, m', rfl, hm, h⟩
      · rintro ⟨m1, m2, rfl, hm2, h⟩
        rw [hm] at hm2
        cases hm2
        exact h

/-- A request takes the first route of the message that applies to it. -/
theorem C67_first_route_that_applies (p : Parsers) (proto : ApiProfile) (port : Nat) (req : Req) (route : Route) :
    routeForRequest req (convertProfile p proto port).httpRoutes = some route ↔
      ∃ before r after, proto.routes = before ++ r :: after ∧ Applies p req r ∧
        (∀ e ∈ before, ¬ Applies p req e) ∧
        (convertRoute p (proto.retryBudget.bind convertRetryBudget) r).map (·.2) = some route := by
  simp only [convertProfile]
  generalize proto.retryBudget.bind convertRetryBudget = b
  induction proto.routes with
  | nil => simp [routeForRequest]
  | cons r routes ih =>
    rw [List.filterMap_cons]
    have ha := applies_iff p b req r
    cases hr : convertRoute p b r with
    | none =>
      simp only
      rw [ih]
      have hn := ha.2 hr
      constructor
      · rintro ⟨before, r', after, rfl, h1, h2, h3⟩
        refine ⟨r :: before, r', after, rfl, h1, ?_, h3⟩
        intro e he
        rcases List.mem_cons.1 he with rfl | he
        · exact hn
        · exact h2 e he
      · rintro ⟨before, r', after, he, h1, h2, h3⟩
        cases before with
        | nil =>
          simp only [List.nil_append, List.cons.injEq] at he
          rw [← he.1] at h1
          exact absurd h1 hn
        | cons x before =>
          simp only [List.cons_append, List.cons.injEq] at he
          exact ⟨before, r', after, he.2, h1, fun e he' => h2 e (by simp [he']), h3⟩
    | some c =>
      obtain ⟨m, rt⟩ := c
      have hm := ha.1 m rt hr
      simp only [routeForRequest]
      by_cases hmt : m.isMatch req = true
      · rw [if_pos hmt]
        constructor
        · intro h
          simp only [Option.some.injEq] at h
          subst h
          exact ⟨[], r, routes, rfl, hm.1 hmt, by simp, by simp [hr]⟩
        · rintro ⟨before, r', after, he, h1, h2, h3⟩
          cases before with
          | nil =>
            simp only [List.nil_append, List.cons.injEq] at he
            rw [← he.1, hr] at h3
            simpa using h3
          | cons x before =>
            simp only [List.cons_append, List.cons.injEq] at he
            exact absurd (hm.1 hmt) (h2 r (by simp [he.1]))
      · rw [if_neg hmt, ih]
        have hn : ¬ Applies p req r := fun h => hmt (hm.2 h)
        constructor
        · rintro ⟨before, r', after, rfl, h1, h2, h3⟩
          refine ⟨r :: before, r', after, rfl, h1, ?_, h3⟩
          intro e he
          rcases List.mem_cons.1 he with rfl | he
          · exact hn
          · exact h2 e he
        · rintro ⟨before, r', after, he, h1, h2, h3⟩
          cases before with
          | nil =>
            simp only [List.nil_append, List.cons.injEq] at he
            rw [← he.1] at h1
            exact absurd h1 hn
          | cons x before =>
            simp only [List.cons_append, List.cons.injEq] at he
            exact ⟨before, r', after, he.2, h1, fun e he' => h2 e (by simp [he']), h3⟩

/-- A retry budget is taken if its three parts are in range: at most 2^31 - 1 retries a second, a ratio of 0 to 1000, and
a time to live of one second to one minute, given by seconds and nanoseconds that are not negative and of which the latter
are at most a second. -/
theorem C67_budget (b : ApiRetryBudget) (x : Budget) :
    convertRetryBudget b = some x ↔
      b.minRetriesPerSecond = x.minPerSec ∧ x.minPerSec ≤ 2147483647 ∧
      b.retryRatio = some x.ratio ∧ 0 ≤ x.ratio ∧ x.ratio ≤ 1000 ∧
      ∃ d, b.ttl = some d ∧ 0 ≤ d.seconds ∧ 0 ≤ d.nanos ∧ d.nanos ≤ 1000000000 ∧
        (x.ttl : Int) = d.seconds * 1000000000 + d.nanos ∧ 1000000000 ≤ x.ttl ∧ x.ttl ≤ 60 * 1000000000 := by
  obtain ⟨min, ratio, ttl⟩ := b
  obtain ⟨xt, xm, xr⟩ := x
  simp only [convertRetryBudget]
  by_cases h1 : min ≤ 2147483647
  · rw [if_pos h1]
    cases ratio with
    | none => simp
    | some r =>
      simp only
      by_cases h2 : 0 ≤ r ∧ r ≤ 1000
      · rw [if_pos h2]
        cases ttl with
        | none => simp
        | some d =>
          simp only [Option.some.injEq]
          by_cases h3 : d.nanos > 1000000000
          · rw [if_pos h3]
            simp only [reduceCtorEq, false_iff]
            rintro ⟨-, -, -, -, -, d', rfl, h⟩
            omega
          · rw [if_neg h3]
            by_cases h4 : d.seconds < 0 ∨ d.nanos < 0
            · rw [if_pos h4]
              simp only [reduceCtorEq, false_iff]
              rintro ⟨-, -, -, -, -, d', rfl, h⟩
              omega
            · rw [if_neg h4]
              have h5 : d.toDuration = some (d.seconds * 1000000000 + d.nanos).toNat := by
                simp only [ApiDuration.toDuration]
                rw [if_pos (by omega)]
              simp only [h5]
              by_cases h6 : (d.seconds * 1000000000 + d.nanos).toNat > 60 * 1000000000 ∨
                  (d.seconds * 1000000000 + d.nanos).toNat < 1000000000
              · rw [if_pos h6]
                simp only [reduceCtorEq, false_iff]
                rintro ⟨-, -, -, -, -, d', rfl, h⟩
                omega
              · rw [if_neg h6]
                simp only [Option.some.injEq, Budget.mk.injEq]
                constructor
                · rintro ⟨rfl, rfl, rfl⟩
                  exact ⟨rfl, h1, rfl, h2.1, h2.2, d, rfl, by omega, by omega, by omega, by omega, by omega, by omega⟩
                · rintro ⟨rfl, -, rfl, -, -, d', rfl, h⟩
                  exact ⟨by omega, rfl, rfl⟩
      · rw [if_neg h2]
        simp only [reduceCtorEq, Option.some.injEq, false_iff]
        rintro ⟨-, -, rfl, h3, h4, -⟩
        exact h2 ⟨h3, h4⟩
  · rw [if_neg h1]
    simp only [reduceCtorEq, false_iff]
    rintro ⟨rfl, h, -⟩
    exact h1 h

/-- A route is retried exactly if the message says it is retryable and the profile has a budget that can be taken; its
timeout is that of the message if it is not negative. -/
theorem C67_retries_and_timeouts (p : Parsers) (proto : ApiProfile) (r : ApiRoute) (m : RequestMatch) (route : Route)
    (h : convertRoute p (proto.retryBudget.bind convertRetryBudget) r = some (m, route)) :
    (∀ b, route.retries = some b ↔
      r.isRetryable = true ∧ ∃ pb, proto.retryBudget = some pb ∧ convertRetryBudget pb = some b) ∧
    (∀ t : Nat, route.timeout = some t ↔ ∃ d, r.timeout = some d ∧ (t : Int) = d.seconds * 1000000000 + d.nanos) := by
  unfold convertRoute at h
  split at h
  · simp at h
  · simp only [Option.some.injEq, Prod.mk.injEq] at h
    obtain ⟨-, rfl⟩ := h
    refine ⟨?_, ?_⟩
    · intro b
      simp only
      split
      · rename_i hr
        simp [hr, Option.bind_eq_some_iff]
      · rename_i hr
        simp [hr]
    · intro t
      simp only [Option.bind_eq_some_iff, ApiDuration.toDuration]
      constructor
      · rintro ⟨d, hd, he⟩
        refine ⟨d, hd, ?_⟩
        split at he
        · simp only [Option.some.injEq] at he; omega
        · simp at he
      · rintro ⟨d, hd, he⟩
        refine ⟨d, hd, ?_⟩
        rw [if_pos (by omega)]
        simp only [Option.some.injEq]
        omega

/-- Traffic is split over the overrides whose weight is not zero and whose name is `host:port`. -/
theorem C67_targets (p : Parsers) (proto : ApiProfile) (port : Nat) :
    (∀ t, t ∈ (convertProfile p proto port).targets ↔
      ∃ d ∈ proto.dstOverrides, d.weight ≠ 0 ∧ Addr.NameAddr.parse d.authority = .ok t.addr ∧ d.weight = t.weight) ∧
    (((convertProfile p proto port).targets.map (·.weight)).Sublist (proto.dstOverrides.map (·.weight))) := by
  have hc : ∀ d t, convertDstOverride d = some t ↔
      d.weight ≠ 0 ∧ Addr.NameAddr.parse d.authority = .ok t.addr ∧ d.weight = t.weight := by
    intro d t
    obtain ⟨a, w⟩ := t
    unfold convertDstOverride
    by_cases h : d.weight = 0
    · simp [h]
    · rw [if_neg h]
      cases ha : Addr.NameAddr.parse d.authority with
      | ok addr => simp [h]
      | error e => simp
  refine ⟨?_, ?_⟩
  · intro t
    simp only [convertProfile, List.mem_filterMap, hc]
  · simp only [convertProfile]
    induction proto.dstOverrides with
    | nil => simp
    | cons d ds ih =>
      rw [List.filterMap_cons]
      cases hd : convertDstOverride d with
      | none => exact ih.cons _
      | some t =>
        have := ((hc d t).1 hd).2.2
        simp only [List.map_cons, ← this]
        exact ih.cons_cons _

/-! ### Response classes -/

mutual
/-- Whether a response match can be read: statuses are between 100 and 999, and there is something in each list. -/
def RspReadable : ApiRspMatch → Prop
  | .missing => False
  | .all ms => ms ≠ [] ∧ AllRspReadable ms
  | .any ms => ms ≠ [] ∧ AllRspReadable ms
  | .not m => RspReadable m
  | .status min max => (100 ≤ min ∧ min < 1000) ∧ 100 ≤ max ∧ max < 1000
def AllRspReadable : List ApiRspMatch → Prop
  | [] => True
  | m :: ms => RspReadable m ∧ AllRspReadable ms
end

mutual
/-- What it means for a status. -/
def RspHolds (s : Nat) : ApiRspMatch → Prop
  | .missing => False
  | .all ms => AllRspHold s ms
  | .any ms => OneRspHolds s ms
  | .not m => ¬ RspHolds s m
  | .status min max => min ≤ s ∧ s ≤ max
def AllRspHold (s : Nat) : List ApiRspMatch → Prop
  | [] => True
  | m :: ms => RspHolds s m ∧ AllRspHold s ms
def OneRspHolds (s : Nat) : List ApiRspMatch → Prop
  | [] => False
  | m :: ms => RspHolds s m ∨ OneRspHolds s ms
end

mutual
theorem rsp_match : (m : ApiRspMatch) → RspReadable m →
    ∃ c, convertRspMatch m = some c ∧ ∀ s, c.isMatch s = true ↔ RspHolds s m
  | .missing, h => absurd h (by simp [RspReadable])
  | .all ms, h => by
    obtain ⟨h1, h2⟩ := rsp_matches ms h.2
    have hne : (convertRspMatches ms).isEmpty = false := by
      cases ms with
      | nil => exact absurd rfl h.1
      | cons m ms => cases hc : convertRspMatches (m :: ms) with
        | nil => rw [hc] at h1; simp at h1
        | cons _ _ => rfl
    refine ⟨.all (convertRspMatches ms), by simp [convertRspMatch, hne], fun s => ?_⟩
    simp only [Classify.ResponseMatch.isMatch, RspHolds]
    exact (h2 s).1
  | .any ms, h => by
    obtain ⟨h1, h2⟩ := rsp_matches ms h.2
    have hne : (convertRspMatches ms).isEmpty = false := by
      cases ms with
      | nil => exact absurd rfl h.1
      | cons m ms => cases hc : convertRspMatches (m :: ms) with
        | nil => rw [hc] at h1; simp at h1
        | cons _ _ => rfl
    refine ⟨.any (convertRspMatches ms), by simp [convertRspMatch, hne], fun s => ?_⟩
    simp only [Classify.ResponseMatch.isMatch, RspHolds]
    exact (h2 s).2
  | .not m, h => by
    obtain ⟨c, h1, h2⟩ := rsp_match m h
    refine ⟨.not c, by simp [convertRspMatch, h1], fun s => ?_⟩
    simp only [Classify.ResponseMatch.isMatch, RspHolds, ← h2]
    cases c.isMatch s <;> simp
  | .status min max, h => by
    simp only [RspReadable] at h
    have h1 : ApiResolve.asU16 min = min := Nat.mod_eq_of_lt (by omega)
    have h2 : ApiResolve.asU16 max = max := Nat.mod_eq_of_lt (by omega)
    have h3 : statusCode min = some min := by unfold statusCode; rw [if_pos h.1]
    have h4 : statusCode max = some max := by unfold statusCode; rw [if_pos h.2]
    refine ⟨.status min max, by simp [convertRspMatch, h1, h2, h3, h4], fun s => ?_⟩
    simp [Classify.ResponseMatch.isMatch, RspHolds]
theorem rsp_matches : (ms : List ApiRspMatch) → AllRspReadable ms →
    (convertRspMatches ms).length = ms.length ∧
    ∀ s, (Classify.allMatch s (convertRspMatches ms) = true ↔ AllRspHold s ms) ∧
      (Classify.anyMatch s (convertRspMatches ms) = true ↔ OneRspHolds s ms)
  | [], _ => by simp [convertRspMatches, Classify.allMatch, Classify.anyMatch, AllRspHold, OneRspHolds]
  | m :: ms, h => by
    obtain ⟨c, h1, h2⟩ := rsp_match m h.1
    obtain ⟨h3, h4⟩ := rsp_matches ms h.2
    refine ⟨by simp [convertRspMatches, h1, h3], fun s => ?_⟩
    simp only [convertRspMatches, h1, Classify.allMatch, Classify.anyMatch, AllRspHold, OneRspHolds, Bool.and_eq_true,
      Bool.or_eq_true, h2, (h4 s).1, (h4 s).2, and_self]
end

/-- A response class that can be read matches exactly the statuses it describes, and says of them what the message says. -/
theorem C67_response_classes (c : ApiRspClass) (m : ApiRspMatch) (hc : c.condition = some m) (h : RspReadable m) :
    ∃ x, convertRspClass c = some x ∧ x.isFailure = c.isFailure ∧ ∀ s, x.mtch.isMatch s = true ↔ RspHolds s m := by
  obtain ⟨x, h1, h2⟩ := rsp_match m h
  exact ⟨⟨c.isFailure, x⟩, by simp [convertRspClass, hc, h1], rfl, h2⟩

/-- A class without a condition that can be read is left out, unlike a route: an empty list of conditions matches no
response. -/
theorem C67_empty_response_conditions (f : Bool) :
    convertRspClass ⟨some (.all []), f⟩ = none ∧ convertRspClass ⟨some (.any [.missing]), f⟩ = none := ⟨rfl, rfl⟩

/-- Statuses are taken modulo 65536. -/
theorem C67_statuses_are_truncated (f : Bool) :
    ∃ x, convertRspClass ⟨some (.status (65536 + 200) 299), f⟩ = some x ∧ x.mtch.isMatch 200 = true :=
  ⟨_, rfl, rfl⟩

/-- The rest of a profile: its address is the name of the service, if that is a DNS name, with the port that was looked up;
the flag and the endpoint are the message's. -/
theorem C67_the_rest_of_a_profile (p : Parsers) (proto : ApiProfile) (port : Nat) :
    (∀ a, (convertProfile p proto port).addr = some a ↔
      (∃ labels, Dns.DnsName proto.name labels) ∧ a.name = proto.name.map Text.lower ∧ a.port = port) ∧
    ((convertProfile p proto port).opaqueProtocol = true ↔ proto.opaqueProtocol = true) ∧
    (∀ e, (convertProfile p proto port).endpoint = some e ↔
      ∃ w, proto.endpoint = some w ∧ ApiResolve.toAddrMeta p.url p.authority [] w = some e) := by
  refine ⟨fun a => ?_, Iff.rfl, fun e => ?_⟩
  · simp only [convertProfile, Option.map_eq_some_iff]
    constructor
    · rintro ⟨n, hn, rfl⟩
      obtain ⟨h1, h2⟩ := (Dns.C33_kept_in_lower_case _ _).1 hn
      exact ⟨h1, h2, rfl⟩
    · rintro ⟨h1, h2, h3⟩
      refine ⟨_, (Dns.C33_kept_in_lower_case _ _).2 ⟨h1, rfl⟩, ?_⟩
      rw [← h2, ← h3]
  · simp [convertProfile, Option.bind_eq_some_iff]

/-! ### Lookups -/

/-- A profile is looked up exactly for the addresses of the list; a lookup is taken for rejected if the first error of its
chain that is a rejection or a gRPC status is a rejection, `InvalidArgument` or `FailedPrecondition`. -/
theorem C67_rejections (es : List Cause) :
    isRejected es = true ↔ ∃ before e after, es = before ++ e :: after ∧ (∀ b ∈ before, b = .other) ∧
      (e = .rejected ∨ e = .status 3 ∨ e = .status 9) := by
  induction es with
  | nil => simp [isRejected]
  | cons e es ih =>
    have skip : ∀ c, c ≠ Cause.other → ((∃ before x after, c :: es = before ++ x :: after ∧ (∀ b ∈ before, b = Cause.other) ∧
        (x = .rejected ∨ x = .status 3 ∨ x = .status 9)) ↔ (c = .rejected ∨ c = .status 3 ∨ c = .status 9)) := by
      intro c hc
      constructor
      · rintro ⟨before, x, after, he, hb, hx⟩
        cases before with
        | nil =>
          simp only [List.nil_append, List.cons.injEq] at he
          rw [he.1]; exact hx
        | cons b before =>
          simp only [List.cons_append, List.cons.injEq] at he
          exact absurd (he.1.trans (hb b (by simp))) hc
      · intro hx
        exact ⟨[], c, es, rfl, by simp, hx⟩
    cases e with
    | rejected => rw [skip _ (by simp)]; simp [isRejected]
    | status code => rw [skip _ (by simp)]; simp [isRejected]
    | other =>
      simp only [isRejected]
      rw [ih]
      constructor
      · rintro ⟨before, x, after, rfl, hb, hx⟩
        refine ⟨.other :: before, x, after, rfl, ?_, hx⟩
        intro b hb'
        rcases List.mem_cons.1 hb' with rfl | hb'
        · rfl
        · exact hb b hb'
      · rintro ⟨before, x, after, he, hb, hx⟩
        cases before with
        | nil =>
          simp only [List.nil_append, List.cons.injEq] at he
          rw [← he.1] at hx
          simp at hx
        | cons b before =>
          simp only [List.cons_append, List.cons.injEq] at he
          exact ⟨before, x, after, he.2, fun b hb' => hb b (by simp [hb']), hx⟩

/-! ### Concrete messages -/

private def toy : Parsers where
  regex := fun s => if '(' ∈ s then none else some fun path => decide (path = (s.drop 1).dropLast)
  method := fun s => if s = [] then none else some s
  white := fun c => c == ' '
  url := some
  authority := some

private def getA : ApiReqMatch := .all [.method (some "GET".toList), .path " /a ".toList]

example : Readable toy getA := by
  refine ⟨rfl, ?_, trivial⟩
  show (toy.regex (anchored toy.white " /a ".toList)).isSome = true
  decide +kernel
example : ∃ c, convertReqMatch toy getA = some c ∧ c.isMatch ⟨"GET".toList, "/a".toList⟩ = true ∧
    c.isMatch ⟨"GET".toList, "/b".toList⟩ = false ∧ c.isMatch ⟨"PUT".toList, "/a".toList⟩ = false :=
  ⟨_, rfl, by decide +kernel, by decide +kernel, by decide +kernel⟩
example : toy.regex (anchored toy.white "(".toList) = none := by decide +kernel
example : convertRetryBudget ⟨10, some (1 / 5), some ⟨10, 0⟩⟩ = some ⟨10000000000, 10, 1 / 5⟩ := by decide +kernel
example : convertRetryBudget ⟨10, some (1 / 5), some ⟨61, 0⟩⟩ = none := by decide +kernel
example : (convertProfile toy ⟨"a.b".toList, [⟨some getA, [⟨some (.status 500 599), true⟩], [], true, some ⟨1, 0⟩⟩],
    some ⟨10, some (1 / 5), some ⟨10, 0⟩⟩, [⟨"c.d:80".toList, 7⟩, ⟨"e.f:80".toList, 0⟩], false, none⟩ 8080).targets =
    [⟨⟨"c.d".toList, 80⟩, 7⟩] := by decide +kernel
example : RspReadable (.any [.status 500 599, .not (.status 100 499)]) := by
  simp [RspReadable, AllRspReadable]
example : isRejected [.other, .status 9] = true := rfl

end Verif.Profiles
