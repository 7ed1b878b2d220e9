import Verif.HttpRoute.Lemmas

/-!
# C22, C23, C24 and C59: route matching
-/

namespace Verif.HttpRoute

variable {P : Type}

/-! ## C22: selection -/

/-- C22 (HTTP): whatever rule is selected applies to the request; nothing that applies is more specific;
everything that applies and is listed earlier is less specific. -/
theorem C22_http_route_is_the_right_choice {routes : List (Route MatchRequest P)} {r : Request}
    {s : Option HostMatch × RequestMatch} {p : P} (h : find httpMatcher routes r = some (s, p)) :
    ∃ i j, RightChoice HttpApplies ⟨.pfx 1, 0, 0, false⟩ HttpLess routes r i j s p := by
  haveI : Std.TransCmp httpMatcher.cmp := inferInstanceAs (Std.TransCmp RequestMatch.cmp)
  exact find_some httpMatcher HttpApplies http_iff HttpLess httpLess_iff h

/-- C22 (HTTP): nothing is selected exactly when no rule applies. -/
theorem C22_http_none_iff_nothing_applies (routes : List (Route MatchRequest P)) (r : Request) :
    find httpMatcher routes r = none ↔
      ∀ i j s p, ¬ Candidate HttpApplies ⟨.pfx 1, 0, 0, false⟩ routes r i j s p := by
  haveI : Std.TransCmp httpMatcher.cmp := inferInstanceAs (Std.TransCmp RequestMatch.cmp)
  exact find_none httpMatcher HttpApplies http_iff HttpLess httpLess_iff

/-- C22 (gRPC). -/
theorem C22_grpc_route_is_the_right_choice {routes : List (Route MatchRpc P)} {r : Request}
    {s : Option HostMatch × RpcMatch} {p : P} (h : find grpcMatcher routes r = some (s, p)) :
    ∃ i j, RightChoice GrpcApplies ⟨0, 0, 0⟩ GrpcLess routes r i j s p := by
  haveI : Std.TransCmp grpcMatcher.cmp := inferInstanceAs (Std.TransCmp RpcMatch.cmp)
  exact find_some grpcMatcher GrpcApplies grpc_iff GrpcLess grpcLess_iff h

/-- C22 (gRPC). -/
theorem C22_grpc_none_iff_nothing_applies (routes : List (Route MatchRpc P)) (r : Request) :
    find grpcMatcher routes r = none ↔
      ∀ i j s p, ¬ Candidate GrpcApplies ⟨0, 0, 0⟩ routes r i j s p := by
  haveI : Std.TransCmp grpcMatcher.cmp := inferInstanceAs (Std.TransCmp RpcMatch.cmp)
  exact find_none grpcMatcher GrpcApplies grpc_iff GrpcLess grpcLess_iff

theorem hostLess_asymm {a b : Option HostMatch} (h : HostLess a b) : ¬ HostLess b a := by
  intro h'
  cases h <;> cases h' <;> omega

theorem routeLess_asymm {S : Type} {less : S → S → Prop} (hl : ∀ a b, less a b → ¬ less b a)
    {a b : Option HostMatch × S} (h : RouteLess less a b) : ¬ RouteLess less b a := by
  rintro (h' | ⟨h1, h'⟩)
  · rcases h with h | ⟨h2, _⟩
    · exact hostLess_asymm h h'
    · rw [h2] at h'; exact hostLess_asymm h' h'
  · rcases h with h | ⟨_, h⟩
    · rw [h1] at h; exact hostLess_asymm h h
    · exact hl _ _ h h'

/-- C22: there is only one right choice, so the policy selected is fully determined by the requirement
above. -/
theorem C22_right_choice_is_unique {M S : Type} {applies : M → Request → S → Prop} {dflt : S}
    {less : S → S → Prop} (hl : ∀ a b, less a b → ¬ less b a) {routes : List (Route M P)} {r : Request}
    {i j i' j' : Nat} {s s' : Option HostMatch × S} {p p' : P}
    (h : RightChoice applies dflt less routes r i j s p)
    (h' : RightChoice applies dflt less routes r i' j' s' p') : i = i' ∧ j = j' ∧ p = p' := by
  have h1 := h.2 _ _ _ _ h'.1
  have h2 := h'.2 _ _ _ _ h.1
  have hij : i = i' ∧ j = j' := by
    have a1 : ¬ (i' < i ∨ i' = i ∧ j' < j) := fun hlt => h2.1 (h1.2 hlt)
    have a2 : ¬ (i < i' ∨ i = i' ∧ j < j') := fun hlt => h1.1 (h2.2 hlt)
    omega
  obtain ⟨rfl, rfl⟩ := hij
  obtain ⟨rt, ru, e1, e2, _, _, e3⟩ := h.1
  obtain ⟨rt', ru', f1, f2, _, _, f3⟩ := h'.1
  rw [e1] at f1; cases f1
  rw [e2] at f2; cases f2
  exact ⟨rfl, rfl, by rw [← e3, ← f3]⟩

/-- The two orders are asymmetric, as the uniqueness theorem asks. -/
theorem httpLess_asymm (a b : RequestMatch) (h : HttpLess a b) : ¬ HttpLess b a := by
  unfold HttpLess at *
  intro h'
  rcases h with h | ⟨_, h | ⟨_, h | ⟨_, h1, h2⟩⟩⟩ <;> rcases h' with h' | ⟨_, h' | ⟨_, h' | ⟨_, h1', h2'⟩⟩⟩ <;>
    first | omega | (rw [h1] at h2'; cases h2')

theorem grpcLess_asymm (a b : RpcMatch) (h : GrpcLess a b) : ¬ GrpcLess b a := by
  unfold GrpcLess at *
  omega

/-- A request for `host` and `path`. -/
def req (host path : String) : Request :=
  { method := ['G', 'E', 'T'], host := some host.toList, path := path.toList, params := none, headers := [] }

/-- A sample: an exact host with two rules, then a suffix host. -/
def sample : List (Route MatchRequest Nat) :=
  [⟨[.suffix [['c'], ['b']]], [⟨[{ path := some (.pfx ['/']) }], 1⟩]⟩,
   ⟨[.exact ['a', '.', 'b', '.', 'c']],
    [⟨[{ path := some (.pfx ['/', 'x']) }], 2⟩, ⟨[{ path := some (.pfx ['/', 'x', '/', 'y']) }, {}], 3⟩,
     ⟨[{ path := some (.exact ['/', 'x', '/', 'y']) }], 4⟩]⟩]

example : (find httpMatcher sample (req "A.b.c." "/x/y/")).map (·.2) = some 3 := by decide +kernel
example : (find httpMatcher sample (req "A.b.c." "/x/z")).map (·.2) = some 2 := by decide +kernel
example : (find httpMatcher sample (req "z.b.c" "/x/z")).map (·.2) = some 1 := by decide +kernel
example : find httpMatcher sample (req "b.c" "/x/z") = none := by decide +kernel

/-- C22, a limit: an exact path is not preferred to a prefix of the same length, against the Gateway API's
"exact match first"; the first listed wins. -/
theorem C22_exact_path_does_not_outrank_prefix :
    let routes : List (Route MatchRequest Nat) :=
      [⟨[], [⟨[{ path := some (.pfx ['/', 'x']) }], 1⟩]⟩, ⟨[], [⟨[{ path := some (.exact ['/', 'x']) }], 2⟩]⟩]
    (find httpMatcher routes (req "a" "/x")).map (·.2) = some 1 ∧
    (find httpMatcher routes.reverse (req "a" "/x")).map (·.2) = some 2 := by decide +kernel

/-- C22, a limit: "the order of matches is not relevant" (lib.rs:87-88) holds for the policy selected, but
not for the kind of path match reported with it. -/
theorem C22_order_of_matches_shows_in_the_summary :
    let m1 : MatchRequest := { path := some (.pfx ['/', 'x']) }
    let m2 : MatchRequest := { path := some (.exact ['/', 'x']) }
    (find httpMatcher [⟨[], [⟨[m1, m2], 1⟩]⟩] (req "a" "/x")).map (·.1.2.path) = some (.exact 2) ∧
    (find httpMatcher [⟨[], [⟨[m2, m1], 1⟩]⟩] (req "a" "/x")).map (·.1.2.path) = some (.pfx 2) := by decide +kernel

/-! ## C23: paths -/

/-- C23: a prefix other than `/` applies exactly when its segments are an initial run of the path's. -/
theorem C23_prefix_is_by_segments (p path : Str) (hp : p ≠ ['/']) :
    ((MatchPath.pfx p).matchLength path).isSome ↔ segments p <+: segments path := by
  rw [Option.isSome_iff_exists]
  simp only [path_iff, PathApplies, hp, if_false]
  constructor
  · rintro ⟨_, h, _⟩; exact h
  · intro h; exact ⟨_, h, rfl⟩

/-- C23: the prefix `/` applies to every path. -/
theorem C23_root_prefix_applies (path : Str) : (MatchPath.pfx ['/']).matchLength path = some (.pfx 1) :=
  (path_iff _ _ _).2 (by simp [PathApplies])

theorem trimEnd_snoc (s : Str) : Text.trimEnd '/' (s ++ ['/']) = Text.trimEnd '/' s := by
  simp [Text.trimEnd]

/-- C23: a trailing slash of the path makes no difference to a prefix. -/
theorem C23_trailing_slash_of_path (p path : Str) :
    (MatchPath.pfx p).matchLength (path ++ ['/']) = (MatchPath.pfx p).matchLength path := by
  simp only [MatchPath.matchLength, trimEnd_snoc]

/-- C23: a trailing slash of the prefix makes no difference. -/
theorem C23_trailing_slash_of_prefix (p path : Str) (hp : p ≠ []) (hp' : p ≠ ['/']) :
    (MatchPath.pfx (p ++ ['/'])).matchLength path = (MatchPath.pfx p).matchLength path := by
  have h : p ++ ['/'] ≠ ['/'] := by
    intro h
    have := congrArg List.length h
    simp at this
    exact hp this
  simp only [MatchPath.matchLength, trimEnd_snoc, hp', h, if_false]

/-- C23: an exact pattern applies exactly to that path. -/
theorem C23_exact_is_equality (p path : Str) :
    ((MatchPath.exact p).matchLength path).isSome ↔ path = p := by
  rw [Option.isSome_iff_exists]
  simp only [path_iff, PathApplies]
  constructor
  · rintro ⟨_, h, _⟩; exact h
  · intro h; exact ⟨_, h, rfl⟩

/-- C23: a regular expression applies exactly when its first match is the whole path. -/
theorem C23_regex_is_anchored (re : Regex) (path : Str) :
    ((MatchPath.regex re).matchLength path).isSome ↔ re path = some (0, path.length) := by
  rw [Option.isSome_iff_exists]
  simp only [path_iff, PathApplies, Whole]
  constructor
  · rintro ⟨_, h, _⟩; exact h
  · intro h; exact ⟨_, h, rfl⟩

/-- C23: how specific a path match is: the length of the pattern without trailing slashes, or of the
path. -/
theorem C23_length_of_the_match (m : MatchPath) (path : Str) (s : PathMatch)
    (h : m.matchLength path = some s) : s.len ≤ max 1 path.length := by
  have h := (path_iff _ _ _).1 h
  cases m with
  | exact p => obtain ⟨rfl, rfl⟩ := h; simp [PathMatch.len]; omega
  | regex re => obtain ⟨_, rfl⟩ := h; simp [PathMatch.len]; omega
  | pfx p =>
    simp only [PathApplies] at h
    split at h
    · subst h; simp [PathMatch.len]; omega
    · obtain ⟨hp, rfl⟩ := h
      have hp := (split_prefix_iff _ _).1 hp
      obtain ⟨n, hn, _⟩ := Text.trimEnd_spec '/' path
      have hl := congrArg List.length hn
      simp only [List.length_append, List.length_replicate] at hl
      simp only [PathMatch.len]
      rcases hp with hp | ⟨r, hp⟩
      · rw [← hp]; omega
      · have := congrArg List.length hp
        simp only [List.length_append, List.length_cons] at this
        omega

example : (MatchPath.pfx ['/', 'a', '/']).matchLength ['/', 'a', '/', 'b'] = some (.pfx 2) := by decide +kernel
example : (MatchPath.pfx ['/', 'a']).matchLength ['/', 'a', 'b'] = none := by decide +kernel
example : (MatchPath.regex (fun _ => some (0, 1))).matchLength ['/', 'a'] = none := by decide +kernel

/-! ## C24: hosts -/

/-- C24: an exact host applies exactly when the request's host is the same up to ASCII case; a trailing
dot of the request's host is ignored unless the pattern has one. -/
theorem C24_exact_host (h name : Str) (s : HostMatch) :
    (MatchHost.exact h).summarize (some name) = some s ↔
      s = .exact h.length ∧
        (SameText name h ∨ h.getLast? ≠ some '.' ∧ ∃ x, name = x ++ ['.'] ∧ SameText x h) := by
  rw [host_iff]
  simp only [HostApplies, Option.some.injEq, exists_eq_left']
  have last : ∀ a b : Str, SameText a b → (a.getLast? = some '.' ↔ b.getLast? = some '.') := by
    intro a b hab
    have := congrArg List.getLast? hab
    rw [List.getLast?_map, List.getLast?_map] at this
    cases ha : a.getLast? <;> cases hb : b.getLast? <;> rw [ha, hb] at this <;> simp at this ⊢
    rw [← lower_eq_dot, this, lower_eq_dot]
  by_cases hd : h.getLast? = some '.'
  · simp only [hd, if_true, exists_eq_left', not_true, ne_eq, false_and, or_false]
  · simp only [hd, if_false, ne_eq, not_false_eq_true, true_and]
    constructor
    · rintro ⟨rfl, x, hx, hs⟩
      refine ⟨rfl, ?_⟩
      rcases hx with hx | ⟨rfl, _⟩
      · exact .inr ⟨x, hx, hs⟩
      · exact .inl hs
    · rintro ⟨rfl, h' | ⟨x, hx, hs⟩⟩
      · exact ⟨rfl, name, .inr ⟨rfl, fun e => hd ((last _ _ h').1 e)⟩, h'⟩
      · exact ⟨rfl, x, .inl hx, hs⟩

/-- C24: a wildcard `*.suffix` applies exactly when the request's host is `x.suffix` for some `x`, up to
ASCII case; a trailing dot of the request's host is ignored unless the pattern has one. -/
theorem C24_wildcard_host (sfx name : Str) (hne : sfx ≠ []) (s : HostMatch) :
    (MatchHost.ofText ('*' :: '.' :: sfx)).summarize (some name) = some s ↔
      s = .suffix (sfx.length + 1) ∧ ∃ x y, SameText y sfx ∧
        (name = x ++ '.' :: y ∨ sfx.getLast? ≠ some '.' ∧ name = x ++ '.' :: y ++ ['.']) := by
  have hof : MatchHost.ofText ('*' :: '.' :: sfx) = .suffix (Text.split '.' sfx).reverse := by
    have : Text.stripPrefix ['*', '.'] ('*' :: '.' :: sfx) = some sfx := rfl
    unfold MatchHost.ofText; rw [this]
  have hhead : (Text.split '.' sfx).reverse.head? = some [] ↔ sfx.getLast? = some '.' := by
    rw [List.head?_reverse]
    constructor
    · intro h
      have hs : Text.split '.' sfx = (Text.split '.' sfx).dropLast ++ [[]] := by
        obtain ⟨l, hl⟩ := List.getLast?_eq_some_iff.1 h
        rw [hl]; simp
      cases hd : (Text.split '.' sfx).dropLast with
      | nil =>
        rw [hd] at hs
        exact absurd (Text.split_inj '.' (hs.trans (by rfl : ([] : List Str) ++ [[]] = Text.split '.' []))) hne
      | cons a l =>
        have h2 := congrArg (Text.join '.') hs
        rw [Text.join_split, join_append _ _ _ (by rw [hd]; simp) (by simp)] at h2
        rw [h2]; simp [Text.join]
    · intro h
      obtain ⟨l, hl⟩ := List.getLast?_eq_some_iff.1 h
      rw [hl, Text.split_append_sep]
      simp [Text.split]
  rw [hof, host_iff]
  simp only [HostApplies, Option.some.injEq, exists_eq_left']
  cases hlab : (Text.split '.' sfx).reverse with
  | nil => exact absurd (by simpa using hlab) (Text.split_ne_nil '.' sfx)
  | cons l ls =>
    dsimp only
    rw [← hlab]
    simp only [List.reverse_reverse, Text.join_split, hhead]
    have last : ∀ (x y : Str), SameText y sfx → ((x ++ '.' :: y).getLast? = some '.' ↔ sfx.getLast? = some '.') := by
      intro x y hab
      have := congrArg List.getLast? hab
      rw [List.getLast?_map, List.getLast?_map] at this
      cases y with
      | nil =>
        exact absurd (by simpa [SameText] using hab.symm) hne
      | cons c cs =>
        rw [List.getLast?_append, List.getLast?_cons_cons]
        cases ha : (c :: cs).getLast? with
        | none => simp at ha
        | some d =>
          rw [ha] at this
          cases hb : sfx.getLast? with
          | none => rw [hb] at this; simp at this
          | some e =>
            rw [hb] at this
            simp at this ⊢
            rw [← lower_eq_dot, this, lower_eq_dot]
    by_cases hd : sfx.getLast? = some '.'
    · simp only [hd, if_true, ne_eq, not_true, false_and, or_false]
      constructor
      · rintro ⟨rfl, host, x, y, rfl, h2, h3⟩; exact ⟨rfl, x, y, h3, h2⟩
      · rintro ⟨rfl, x, y, h3, h2⟩; exact ⟨rfl, name, x, y, rfl, h2, h3⟩
    · simp only [hd, if_false, ne_eq, not_false_eq_true, true_and]
      constructor
      · rintro ⟨rfl, host, x, y, hu, rfl, h3⟩
        refine ⟨rfl, x, y, h3, ?_⟩
        rcases hu with hu | ⟨hu, _⟩
        · exact .inr hu
        · exact .inl hu
      · rintro ⟨rfl, x, y, h3, h2⟩
        refine ⟨rfl, _, x, y, ?_, rfl, h3⟩
        rcases h2 with h2 | h2
        · exact .inr ⟨h2, by rw [h2]; exact fun e => hd ((last x y h3).1 e)⟩
        · exact .inl h2

/-- C24: a pattern with no host in the request never applies. -/
theorem C24_no_host (m : MatchHost) : m.summarize none = none := rfl

/-- C24: of two routes whose only rule applies to everything, one for a host and one for a suffix of it,
the one for the host is selected, wherever it is listed. -/
theorem C24_exact_outranks_suffix (h : Str) (labels : List Str) (name : Str) (a b : P) (r : Request)
    (hr : r.host = some name) (he : ((MatchHost.exact h).summarize r.host).isSome)
    (hs : ((MatchHost.suffix labels).summarize r.host).isSome) :
    let x : Route MatchRequest P := ⟨[.exact h], [⟨[], a⟩]⟩
    let y : Route MatchRequest P := ⟨[.suffix labels], [⟨[], b⟩]⟩
    (find httpMatcher [x, y] r).map (·.2) = some a ∧ (find httpMatcher [y, x] r).map (·.2) = some a := by
  obtain ⟨k1, h1⟩ := Option.isSome_iff_exists.1 he
  obtain ⟨k2, h2⟩ := Option.isSome_iff_exists.1 hs
  have e1 : ∃ n, k1 = .exact n := by
    rw [hr] at h1; exact ⟨_, ((C24_exact_host h name k1).1 h1).1⟩
  have e2 : ∃ n, k2 = .suffix n := by
    rw [hr] at h2
    simp only [MatchHost.summarize, Option.map_eq_some_iff] at h2
    obtain ⟨n, _, rfl⟩ := h2; exact ⟨n, rfl⟩
  obtain ⟨n1, rfl⟩ := e1
  obtain ⟨n2, rfl⟩ := e2
  constructor <;>
    simp [find, routeMatch, hostMatch, ruleMatch, Select.best, Select.maxLast, h1, h2, cmpRoute, cmpHost, HostMatch.cmp]

/-- C24: of two suffixes that apply, the longer is selected. -/
theorem C24_longer_suffix_outranks (l1 l2 : Str) (hl : l2.length < l1.length) (h1 : l1 ≠ []) (h2 : l2 ≠ [])
    (a b : P) (r : Request)
    (he : ((MatchHost.ofText ('*' :: '.' :: l1)).summarize r.host).isSome)
    (hs : ((MatchHost.ofText ('*' :: '.' :: l2)).summarize r.host).isSome) :
    let x : Route MatchRequest P := ⟨[.ofText ('*' :: '.' :: l1)], [⟨[], a⟩]⟩
    let y : Route MatchRequest P := ⟨[.ofText ('*' :: '.' :: l2)], [⟨[], b⟩]⟩
    (find httpMatcher [x, y] r).map (·.2) = some a ∧ (find httpMatcher [y, x] r).map (·.2) = some a := by
  obtain ⟨k1, g1⟩ := Option.isSome_iff_exists.1 he
  obtain ⟨k2, g2⟩ := Option.isSome_iff_exists.1 hs
  cases hr : r.host with
  | none => rw [hr] at g1; cases g1
  | some name =>
    rw [hr] at g1 g2
    have e1 := ((C24_wildcard_host l1 name h1 k1).1 g1).1
    have e2 := ((C24_wildcard_host l2 name h2 k2).1 g2).1
    subst e1; subst e2
    have c1 : compare (l1.length + 1) (l2.length + 1) = .gt := Nat.compare_eq_gt.2 (by omega)
    have c2 : compare (l2.length + 1) (l1.length + 1) = .lt := Nat.compare_eq_lt.2 (by omega)
    constructor <;>
      simp [find, routeMatch, hostMatch, ruleMatch, Select.best, Select.maxLast, g1, g2, hr, cmpRoute, cmpHost, HostMatch.cmp, c1, c2]

example : (MatchHost.exact ['a', '.', 'b']).summarize (some ['A', '.', 'B', '.']) = some (.exact 3) := by decide +kernel
example : (MatchHost.exact ['a', '.', 'b', '.']).summarize (some ['A', '.', 'B']) = none := by decide +kernel
example : (MatchHost.ofText ['*', '.', 'b', '.', 'c']).summarize (some ['a', '.', 'B', '.', 'c', '.']) = some (.suffix 4) := by
  decide +kernel
example : (MatchHost.ofText ['*', '.', 'b', '.', 'c']).summarize (some ['b', '.', 'c']) = none := by decide +kernel
example : (MatchHost.ofText ['*', '.', 'b', '.', 'c']).summarize (some ['a', 'b', '.', 'c']) = none := by decide +kernel

/-- C24, a limit: the label in front of the suffix may be empty. -/
theorem C24_empty_label_is_accepted :
    (MatchHost.ofText ['*', '.', 'b', '.', 'c']).summarize (some ['.', 'b', '.', 'c']) = some (.suffix 4) := by
  decide +kernel

/-! ## C59: gRPC -/

/-- C59: a gRPC match applies only to `POST` requests. -/
theorem C59_only_post (m : MatchRpc) (r : Request) (h : (m.matchRequest r).isSome) :
    r.method = ['P', 'O', 'S', 'T'] := by
  obtain ⟨s, hs⟩ := Option.isSome_iff_exists.1 h
  exact ((grpc_iff _ _ _).1 hs).post

/-- C59: a `POST` to `/service/method` (neither name having a slash) is matched exactly by the patterns
whose service and method, where given, are those, and whose headers all apply. -/
theorem C59_service_and_method (m : MatchRpc) (r : Request) (service method : Str) (h1 : '/' ∉ service)
    (h2 : '/' ∉ method) (hp : r.path = '/' :: service ++ '/' :: method) :
    (m.matchRequest r).isSome ↔ r.method = ['P', 'O', 'S', 'T'] ∧ (∀ x, m.service = some x → x = service) ∧
      (∀ x, m.method = some x → x = method) ∧ ∀ h ∈ m.headers, HeaderApplies h r.headers := by
  have hs : Text.split '/' r.path = [[], service, method] := by
    rw [hp]
    have := Text.split_append '/' [] (service ++ '/' :: method) (by simp)
    simp only [List.nil_append] at this
    rw [List.cons_append, this, Text.split_append '/' _ _ h1, Text.split_of_no_sep '/' _ h2]
  rw [Option.isSome_iff_exists]
  simp only [grpc_iff]
  constructor
  · rintro ⟨s, hg⟩
    obtain ⟨sv, md, more, e, g1, g2⟩ := hg.path
    rw [hs] at e
    simp at e
    obtain ⟨rfl, rfl, rfl⟩ := e
    exact ⟨hg.post, fun x hx => (g1 x hx).symm, fun x hx => (g2 x hx).symm, hg.headers⟩
  · rintro ⟨g0, g1, g2, g3⟩
    exact ⟨⟨_, _, _⟩, g0, ⟨service, method, [], hs, fun x hx => (g1 x hx).symm, fun x hx => (g2 x hx).symm⟩, g3, rfl, rfl, rfl⟩

/-- C59: a path without two slashes is matched by no pattern. -/
theorem C59_needs_service_and_method (m : MatchRpc) (r : Request)
    (h : ∀ service rest, r.path ≠ '/' :: service ++ '/' :: rest) : m.matchRequest r = none := by
  cases hm : m.matchRequest r with
  | none => rfl
  | some s =>
    obtain ⟨sv, md, more, e, _, _⟩ := ((grpc_iff _ _ _).1 hm).path
    have := congrArg (Text.join '/') e
    rw [Text.join_split] at this
    exact absurd (this.trans (by simp [Text.join])) (h sv (Text.join '/' (md :: more)))

/-- C59, a limit: what follows the method is ignored, so `/s/m/x` is taken for method `m` of `s`. -/
theorem C59_extra_segments_are_ignored :
    (MatchRpc.matchRequest { service := some ['s'], method := some ['m'] }
      { method := ['P', 'O', 'S', 'T'], host := none, path := ['/', 's', '/', 'm', '/', 'x'], params := none, headers := [] })
      = some ⟨1, 1, 0⟩ := by decide +kernel

example : (MatchRpc.matchRequest { service := some ['s'] }
    { method := ['P', 'O', 'S', 'T'], host := none, path := ['/', 's', '/', 'm'], params := none, headers := [] })
    = some ⟨1, 0, 0⟩ := by decide +kernel

end Verif.HttpRoute
