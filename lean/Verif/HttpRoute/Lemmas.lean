import Verif.HttpRoute.Spec

namespace Verif.HttpRoute

open Text

/-! ### Orders -/

instance : Std.TransCmp RequestMatch.cmp := by
  have : RequestMatch.cmp = compareLex (compareOn (fun a : RequestMatch => a.path.len))
      (compareLex (compareOn (fun a : RequestMatch => a.headers)) (compareLex (compareOn (fun a : RequestMatch => a.params))
        (compareOn (fun a : RequestMatch => a.method)))) := rfl
  rw [this]; infer_instance

instance : Std.TransCmp RpcMatch.cmp := by
  have : RpcMatch.cmp = compareLex (compareLex (compareOn (fun a : RpcMatch => a.service))
      (compareOn (fun a : RpcMatch => a.method))) (compareOn (fun a : RpcMatch => a.headers)) := rfl
  rw [this]; infer_instance

/-- A number for the kind of host match. -/
def hostKind : Option HostMatch → Nat
  | none => 0
  | some (.suffix _) => 1
  | some (.exact _) => 2

def hostLen : Option HostMatch → Nat
  | none => 0
  | some (.suffix n) => n
  | some (.exact n) => n

theorem cmpHost_eq : cmpHost = compareLex (compareOn hostKind) (compareOn hostLen) := by
  funext a b
  rcases a with _ | (a | a) <;> rcases b with _ | (b | b) <;> rfl

instance : Std.TransCmp cmpHost := by rw [cmpHost_eq]; infer_instance

instance : Std.TransCmp HostMatch.cmp := by
  have : HostMatch.cmp = compareLex (compareOn (fun a => hostKind (some a))) (compareOn (fun a => hostLen (some a))) := by
    funext a b
    rcases a with a | a <;> rcases b with b | b <;> rfl
  rw [this]; infer_instance

instance {S : Type} (cmp : S → S → Ordering) [Std.TransCmp cmp] : Std.TransCmp (cmpRoute cmp) where
  eq_swap := by
    intro a b
    simp only [cmpRoute, Ordering.swap_then]
    rw [Std.OrientedCmp.eq_swap (cmp := cmpHost), Std.OrientedCmp.eq_swap (cmp := cmp)]
  isLE_trans := by
    intro a b c h1 h2
    simp only [cmpRoute, Ordering.isLE_then_iff_or] at *
    rcases h1 with h1 | ⟨h1, h1'⟩ <;> rcases h2 with h2 | ⟨h2, h2'⟩
    · exact .inl (Std.TransCmp.lt_trans h1 h2)
    · exact .inl (Std.TransCmp.lt_of_lt_of_eq h1 h2)
    · exact .inl (Std.TransCmp.lt_of_eq_of_lt h1 h2)
    · exact .inr ⟨Std.TransCmp.eq_trans h1 h2, Std.TransCmp.isLE_trans h1' h2'⟩

instance {S P : Type} (cmp : S → S → Ordering) [Std.TransCmp cmp] :
    Std.TransCmp (fun a b : S × P => cmp a.1 b.1) where
  eq_swap := Std.OrientedCmp.eq_swap (cmp := cmp)
  isLE_trans := Std.TransCmp.isLE_trans (cmp := cmp)

theorem httpLess_iff (a b : RequestMatch) : RequestMatch.cmp a b = .lt ↔ HttpLess a b := by
  simp only [RequestMatch.cmp, HttpLess, Ordering.then_eq_lt, Nat.compare_eq_lt, Nat.compare_eq_eq]
  have : compare a.method b.method = .lt ↔ a.method = false ∧ b.method = true := by
    cases a.method <;> cases b.method <;> decide
  rw [this]

theorem grpcLess_iff (a b : RpcMatch) : RpcMatch.cmp a b = .lt ↔ GrpcLess a b := by
  simp only [RpcMatch.cmp, GrpcLess, Ordering.then_eq_lt, Ordering.then_eq_eq, Nat.compare_eq_lt, Nat.compare_eq_eq]
  omega

theorem hostLess_iff (a b : Option HostMatch) : cmpHost a b = .lt ↔ HostLess a b := by
  constructor
  · intro h
    rcases a with _ | (a | a) <;> rcases b with _ | (b | b) <;>
      simp [cmpHost, HostMatch.cmp, Nat.compare_eq_lt] at h
    · exact .any _
    · exact .any _
    · exact .exact _ _ h
    · exact .kind _ _
    · exact .suffix _ _ h
  · intro h
    cases h <;> simp [cmpHost, HostMatch.cmp, Nat.compare_eq_lt] <;> assumption

theorem hostEq_iff (a b : Option HostMatch) : cmpHost a b = .eq ↔ a = b := by
  rcases a with _ | (a | a) <;> rcases b with _ | (b | b) <;> simp [cmpHost, HostMatch.cmp, Nat.compare_eq_eq]

theorem routeLess_iff {S : Type} (cmp : S → S → Ordering) (less : S → S → Prop)
    (h : ∀ a b, cmp a b = .lt ↔ less a b) (a b : Option HostMatch × S) :
    cmpRoute cmp a b = .lt ↔ RouteLess less a b := by
  simp only [cmpRoute, RouteLess, Ordering.then_eq_lt, hostLess_iff, hostEq_iff, h]

/-! ### Paths -/

theorem anchored_iff (re : Regex) (s : Str) : anchored re s = true ↔ Whole re s := by
  unfold anchored Whole
  cases h : re s with
  | none => simp
  | some p => obtain ⟨a, b⟩ := p; simp

theorem join_append (sep : Char) (a b : List Str) (ha : a ≠ []) (hb : b ≠ []) :
    join sep (a ++ b) = join sep a ++ sep :: join sep b := by
  induction a with
  | nil => exact absurd rfl ha
  | cons x a ih =>
    cases a with
    | nil =>
      cases b with
      | nil => exact absurd rfl hb
      | cons y b => rfl
    | cons y a =>
      have := ih (by simp)
      simp only [List.cons_append, join] at this ⊢
      rw [this]
      simp

theorem split_prefix_iff (p t : Str) :
    split '/' p <+: split '/' t ↔ t = p ∨ ∃ r, t = p ++ '/' :: r := by
  constructor
  · rintro ⟨r, hr⟩
    cases r with
    | nil => left; rw [List.append_nil] at hr; exact (split_inj '/' hr).symm
    | cons x r =>
      right
      have := congrArg (join '/') hr
      rw [join_append _ _ _ (split_ne_nil _ _) (by simp), join_split, join_split] at this
      exact ⟨_, this.symm⟩
  · rintro (rfl | ⟨r, rfl⟩)
    · exact List.prefix_refl _
    · rw [split_append_sep]; exact ⟨_, rfl⟩

theorem path_iff (m : MatchPath) (path : Str) (s : PathMatch) :
    m.matchLength path = some s ↔ PathApplies m path s := by
  cases m with
  | exact p =>
    simp only [MatchPath.matchLength, PathApplies]
    by_cases h : p = path
    · subst h; simp [eq_comm]
    · rw [if_neg h]; simp only [reduceCtorEq, false_iff, not_and]; intro e; exact absurd e.symm h
  | regex re =>
    simp only [MatchPath.matchLength, PathApplies]
    by_cases h : anchored re path
    · rw [if_pos h]; simp [(anchored_iff re path).1 h, eq_comm]
    · rw [if_neg h]
      simp only [reduceCtorEq, false_iff, not_and]
      intro h'; exact absurd ((anchored_iff re path).2 h') h
  | pfx p =>
    simp only [MatchPath.matchLength, PathApplies]
    by_cases hp : p = ['/']
    · simp [hp, eq_comm]
    · simp only [hp, if_false, segments]
      rw [split_prefix_iff]
      cases hs : stripPrefix (trimEnd '/' p) (trimEnd '/' path) with
      | none =>
        have := (stripPrefix_eq_none _ _).1 hs
        simp only [reduceCtorEq, false_iff, not_and]
        rintro (h | ⟨r, h⟩)
        · exact absurd ⟨[], by rw [h]; simp⟩ this
        · exact absurd ⟨_, h.symm⟩ this
      | some suffix =>
        have := (stripPrefix_eq_some _ _ _).1 hs
        simp only
        rw [this]
        cases suffix with
        | nil => simp [eq_comm]
        | cons c cs =>
          by_cases hc : c = '/'
          · subst hc; simp [eq_comm]
          · simp [hc]

/-! ### Hosts -/

theorem lower_eq_dot (c : Char) : lower c = '.' ↔ c = '.' := by
  unfold lower
  split
  · rename_i h
    have hA : ('A' : Char).toNat = 65 := rfl
    have hZ : ('Z' : Char).toNat = 90 := rfl
    constructor
    · intro hc
      exfalso
      have := congrArg Char.toNat hc
      have h2 : c.toNat + 32 < 128 := by omega
      have h3 : (Char.ofNat (c.toNat + 32)).toNat = c.toNat + 32 := by
        have hv : (c.toNat + 32).isValidChar := by left; omega
        simp only [Char.ofNat, hv, dite_true]
        rfl
      rw [h3] at this
      have h4 : ('.' : Char).toNat = 46 := rfl
      omega
    · intro hc; subst hc; exact absurd h (by decide)
  · rfl

theorem stripDot_iff (s r : Str) : stripDot s = some r ↔ s = r ++ ['.'] := by
  unfold stripDot
  induction s using snoc_induction with
  | nil => simp
  | snoc l a =>
    simp only [List.getLast?_append, List.getLast?_singleton, Option.or_some, Option.some_or, List.dropLast_concat, Option.some.injEq]
    by_cases h : a = '.'
    · subst h; simp [eq_comm]
    · rw [if_neg h]
      simp only [reduceCtorEq, false_iff]
      intro h'
      have := List.append_inj_right' h' rfl
      simp at this; exact h this

theorem undotted_iff (s r : Str) : dropDot s = r ↔ Undotted s r := by
  unfold dropDot Undotted
  cases h : stripDot s with
  | some x =>
    have hx := (stripDot_iff s x).1 h
    simp only [Option.getD_some]
    constructor
    · rintro rfl; exact .inl hx
    · rintro (h' | ⟨_, h'⟩)
      · rw [hx] at h'; exact List.append_cancel_right h'
      · rw [hx] at h'; simp at h'
  | none =>
    simp only [Option.getD_none]
    have hl : s.getLast? ≠ some '.' := by
      intro hl; unfold stripDot at h; rw [if_pos hl] at h; cases h
    constructor
    · rintro rfl; exact .inr ⟨rfl, hl⟩
    · rintro (h' | ⟨h', _⟩)
      · rw [(stripDot_iff s r).2 h'] at h; cases h
      · exact h'

theorem stripSuffix_iff (host suffix r : Str) :
    stripSuffixIgnoreCase host suffix = some r ↔ ∃ y, host = r ++ y ∧ SameText y suffix := by
  unfold stripSuffixIgnoreCase SameText
  by_cases hl : suffix.length ≤ host.length
  · rw [if_pos hl]
    simp only [eqIgnoreCase, beq_iff_eq]
    constructor
    · intro h
      split at h
      · cases h
        rename_i h
        exact ⟨_, (List.take_append_drop _ _).symm, h⟩
      · cases h
    · rintro ⟨y, rfl, hy⟩
      have hlen : y.length = suffix.length := by
        have := congrArg List.length hy; simpa using this
      have hi : (r ++ y).length - suffix.length = r.length := by simp [hlen]
      rw [hi]
      simp [hy]
  · rw [if_neg hl]
    simp only [reduceCtorEq, false_iff, not_exists, not_and]
    rintro y rfl hy
    have hlen : y.length = suffix.length := by
      have := congrArg List.length hy; simpa using this
    simp at hl; omega

/-- `.label` for each label of a reversed list, in the order of the name. -/
def dotted (labels : List Str) : Str := labels.reverse.flatMap (fun l => '.' :: l)

theorem dotted_cons (l : Str) (ls : List Str) : dotted (l :: ls) = dotted ls ++ '.' :: l := by
  simp [dotted]

theorem dotted_eq (labels : List Str) (h : labels ≠ []) : dotted labels = '.' :: join '.' labels.reverse := by
  induction labels with
  | nil => exact absurd rfl h
  | cons l ls ih =>
    rw [dotted_cons]
    cases ls with
    | nil => simp [dotted, join]
    | cons k ks =>
      rw [ih (by simp), List.reverse_cons (a := l), join_append _ _ _ (by simp) (by simp)]
      simp [join]

theorem stripLabels_iff (labels : List Str) (host : Str) (n k : Nat) :
    stripLabels host n labels = some k ↔
      k = n + (dotted labels).length ∧ ∃ x y, host = x ++ y ∧ SameText y (dotted labels) := by
  induction labels generalizing host n with
  | nil =>
    simp only [stripLabels, dotted, List.reverse_nil, List.flatMap_nil, List.length_nil, Nat.add_zero]
    constructor
    · intro h; cases h; exact ⟨rfl, host, [], by simp, rfl⟩
    · rintro ⟨rfl, _⟩; rfl
  | cons l ls ih =>
    simp only [stripLabels]
    have hlen : (dotted (l :: ls)).length = (l.length + 1) + (dotted ls).length := by
      rw [dotted_cons]; simp; omega
    constructor
    · intro h
      cases h1 : stripSuffixIgnoreCase host l with
      | none => rw [h1] at h; cases h
      | some h' =>
        rw [h1] at h
        simp only at h
        cases h2 : stripDot h' with
        | none => rw [h2] at h; cases h
        | some h'' =>
          rw [h2] at h
          simp only at h
          obtain ⟨hk, x, y, rfl, hy⟩ := (ih _ _).1 h
          obtain ⟨z, hz, hzl⟩ := (stripSuffix_iff _ _ _).1 h1
          have := (stripDot_iff _ _).1 h2
          refine ⟨by omega, x, y ++ '.' :: z, by rw [hz, this]; simp, ?_⟩
          rw [dotted_cons]
          unfold SameText at *
          simp [hy, hzl]
    · rintro ⟨hk, x, y, rfl, hy⟩
      rw [dotted_cons] at hy
      unfold SameText at hy
      rw [List.map_append, List.map_eq_append_iff] at hy
      obtain ⟨y1, y2, rfl, hy1, hy2⟩ := hy
      rw [List.map_cons, List.map_eq_cons_iff] at hy2
      obtain ⟨d, y3, rfl, hd, hy3⟩ := hy2
      have hd : d = '.' := (lower_eq_dot d).1 (by rw [hd]; decide)
      subst hd
      have h1 : stripSuffixIgnoreCase (x ++ (y1 ++ '.' :: y3)) l = some (x ++ y1 ++ ['.']) :=
        (stripSuffix_iff _ _ _).2 ⟨y3, by simp, hy3⟩
      have h2 : stripDot (x ++ y1 ++ ['.']) = some (x ++ y1) := (stripDot_iff _ _).2 rfl
      rw [h1]
      simp only [h2]
      exact (ih _ _).2 ⟨by omega, x, y1, rfl, hy1⟩

theorem sameText_dot (y t : Str) : SameText y ('.' :: t) ↔ ∃ z, y = '.' :: z ∧ SameText z t := by
  unfold SameText
  rw [List.map_cons, List.map_eq_cons_iff]
  constructor
  · rintro ⟨d, z, rfl, hd, hz⟩
    exact ⟨z, by rw [(lower_eq_dot d).1 (by rw [hd]; decide)], hz⟩
  · rintro ⟨z, rfl, hz⟩
    exact ⟨_, _, rfl, rfl, hz⟩

theorem host_iff (m : MatchHost) (host : Option Str) (s : HostMatch) :
    m.summarize host = some s ↔ HostApplies m host s := by
  cases host with
  | none => simp [MatchHost.summarize, HostApplies]
  | some name =>
    simp only [MatchHost.summarize, HostApplies, Option.some.injEq, exists_eq_left']
    cases m with
    | exact h =>
      simp only [eqIgnoreCase, beq_iff_eq]
      have key : (∃ host, (if h.getLast? = some '.' then name = host else Undotted name host) ∧ SameText host h) ↔
          h.map lower = (if h.getLast? = some '.' then name else dropDot name).map lower := by
        by_cases hd : h.getLast? = some '.'
        · simp [hd, SameText, eq_comm]
        · simp only [hd, if_false]
          constructor
          · rintro ⟨x, hx, he⟩
            rw [(undotted_iff _ _).2 hx]; exact he.symm
          · intro he
            exact ⟨_, (undotted_iff _ _).1 rfl, he.symm⟩
      rw [key]
      by_cases hh : h.map lower = (if h.getLast? = some '.' then name else dropDot name).map lower
      · rw [if_pos hh]; simp [hh, eq_comm]
      · rw [if_neg hh]; simp [hh]
    | suffix labels =>
      cases labels with
      | nil => simp [stripLabels, eq_comm]
      | cons l ls =>
        simp only [Option.map_eq_some_iff, stripLabels_iff]
        rw [dotted_eq _ (by simp)]
        simp only [Nat.zero_add, List.length_cons, sameText_dot]
        have key : ∀ host : Str, (if (l :: ls).head? = some [] then name = host else Undotted name host) ↔
            (if (l :: ls).head? = some [] then name else dropDot name) = host := by
          intro host
          by_cases hd : (l :: ls).head? = some []
          · simp [hd]
          · simp only [hd, if_false, undotted_iff]
        simp only [key]
        constructor
        · rintro ⟨k, ⟨hk, x, y, hx, z, rfl, hz⟩, rfl⟩
          exact ⟨by rw [hk], _, x, z, rfl, hx, hz⟩
        · rintro ⟨rfl, host, x, y, hh, rfl, hy⟩
          exact ⟨_, ⟨rfl, x, '.' :: y, hh, y, rfl, hy⟩, rfl⟩

/-! ### Headers, parameters, requests -/

theorem header_iff (m : MatchHeader) (h : HeaderMap) : m.isMatch h = true ↔ HeaderApplies m h := by
  cases m with
  | exact n v => simp [MatchHeader.isMatch, HeaderApplies]
  | regex n re =>
    simp only [MatchHeader.isMatch, HeaderApplies, List.any_eq_true, List.mem_filterMap, anchored_iff]
    constructor
    · rintro ⟨x, ⟨v, hv, hx⟩, hw⟩
      unfold toStr at hx
      split at hx
      · cases hx; exact ⟨x, hv, by assumption, hw⟩
      · cases hx
    · rintro ⟨v, hv, hvis, hw⟩
      exact ⟨v, ⟨v, hv, by unfold toStr; rw [if_pos hvis]⟩, hw⟩

theorem param_iff (m : MatchQueryParam) (ps : Option (List (Str × Str))) :
    m.isMatch ps = true ↔ ParamApplies m ps := by
  cases ps with
  | none => simp [MatchQueryParam.isMatch, ParamApplies]
  | some ps =>
    cases m with
    | exact n v =>
      simp only [MatchQueryParam.isMatch, ParamApplies, List.any_eq_true, Bool.and_eq_true, beq_iff_eq,
        Option.some.injEq, exists_eq_left']
      constructor
      · rintro ⟨⟨q, p⟩, hm, rfl, rfl⟩; exact hm
      · intro h; exact ⟨_, h, rfl, rfl⟩
    | regex n re =>
      simp only [MatchQueryParam.isMatch, ParamApplies, List.any_eq_true, Bool.and_eq_true, beq_iff_eq,
        Option.some.injEq, exists_eq_left', anchored_iff]
      constructor
      · rintro ⟨⟨q, p⟩, hm, rfl, hw⟩; exact ⟨p, hm, hw⟩
      · rintro ⟨v, h, hw⟩; exact ⟨_, h, rfl, hw⟩

theorem any_ne_iff (o : Option Str) (s : Str) : (o.any (· ≠ s)) = false ↔ ∀ x, o = some x → s = x := by
  cases o with
  | none => simp
  | some y =>
    simp only [Option.any_some, Option.some.injEq, forall_eq', decide_eq_false_iff_not, ne_eq, Classical.not_not]
    exact eq_comm

theorem http_iff (m : MatchRequest) (r : Request) (s : RequestMatch) :
    m.matchRequest r = some s ↔ HttpApplies m r s := by
  have hh : (m.headers.all (·.isMatch r.headers)) = true ↔ ∀ h ∈ m.headers, HeaderApplies h r.headers := by
    simp [header_iff]
  have hp : (m.params.all (·.isMatch r.params)) = true ↔ ∀ h ∈ m.params, ParamApplies h r.params := by
    simp [param_iff]
  have hpath : ∀ k, m.pathMatch r.path = some k ↔
      (match m.path with | none => k = .pfx 1 | some p => PathApplies p r.path k) := by
    intro k
    unfold MatchRequest.pathMatch
    cases m.path with
    | none => simp [eq_comm]
    | some p => exact path_iff p r.path k
  unfold MatchRequest.matchRequest
  constructor
  · intro h
    split at h
    · cases h
    rename_i hm
    split at h
    · cases h
    rename_i k hk
    split at h
    · cases h
    rename_i h1
    split at h
    · cases h
    rename_i h2
    cases h
    exact ⟨(any_ne_iff _ _).1 (by simpa using hm), (hpath k).1 hk, hh.1 (by simpa using h1), hp.1 (by simpa using h2), rfl, rfl, rfl⟩
  · intro h
    have h0 := (any_ne_iff _ _).2 h.method
    rw [if_neg (by rw [h0]; simp), (hpath s.path).2 h.path]
    simp only
    rw [if_neg (by rw [hh.2 h.headers]; simp), if_neg (by rw [hp.2 h.params]; simp)]
    cases s
    have := h.nHeaders; have := h.nParams; have := h.hasMethod
    simp_all

theorem grpc_iff (m : MatchRpc) (r : Request) (s : RpcMatch) :
    m.matchRequest r = some s ↔ GrpcApplies m r s := by
  have hh : (m.headers.all (·.isMatch r.headers)) = true ↔ ∀ h ∈ m.headers, HeaderApplies h r.headers := by
    simp [header_iff]
  have hl : ∀ k, m.matchLength r.path = some k ↔
      (∃ service method more, split '/' r.path = [] :: service :: method :: more ∧
        (∀ x, m.service = some x → service = x) ∧ (∀ x, m.method = some x → method = x)) ∧
      k = ((m.service.getD []).length, (m.method.getD []).length) := by
    intro k
    unfold MatchRpc.matchLength
    have e1 : (m.service.map List.length).getD 0 = (m.service.getD []).length := by cases m.service <;> rfl
    have e2 : (m.method.map List.length).getD 0 = (m.method.getD []).length := by cases m.method <;> rfl
    rw [e1, e2]
    constructor
    · intro h
      split at h
      · rename_i service rest hs
        split at h
        · cases h
        rename_i h1
        split at h
        · rename_i method more
          split at h
          · cases h
          rename_i h2
          cases h
          exact ⟨⟨service, method, more, hs, (any_ne_iff _ _).1 (by simpa using h1), (any_ne_iff _ _).1 (by simpa using h2)⟩, rfl⟩
        · cases h
      · cases h
    · rintro ⟨⟨service, method, more, hs, h1, h2⟩, rfl⟩
      rw [hs]
      simp only
      rw [if_neg (by rw [(any_ne_iff _ _).2 h1]; simp), if_neg (by rw [(any_ne_iff _ _).2 h2]; simp)]
  unfold MatchRpc.matchRequest
  constructor
  · intro h
    split at h
    · cases h
    rename_i hm
    split at h
    · cases h
    rename_i a b hk
    split at h
    · cases h
    rename_i h1
    cases h
    have := (hl _).1 hk
    have e := this.2
    injection e with e1 e2
    exact ⟨Classical.not_not.1 hm, this.1, hh.1 (by simpa using h1), e1, e2, rfl⟩
  · intro h
    rw [if_neg (by rw [h.post]; simp), (hl _).2 ⟨h.path, rfl⟩]
    simp only
    rw [if_neg (by rw [hh.2 h.headers]; simp)]
    cases s
    have := h.nHeaders; have := h.nService; have := h.nMethod
    simp_all

/-! ### Selection -/

variable {M S P : Type}

theorem hostMatch_some {req : Request} {hosts : List MatchHost} {h : Option HostMatch}
    (e : hostMatch req hosts = some h) :
    HostsFit hosts req h ∧ ∀ h', HostsFit hosts req h' → (cmpHost h' h).isLE := by
  unfold hostMatch at e
  split at e
  · rename_i hn
    cases e
    have hn : hosts = [] := by simpa using hn
    subst hn
    refine ⟨.inl ⟨rfl, rfl⟩, ?_⟩
    rintro h' (⟨_, rfl⟩ | ⟨m, hm, _⟩)
    · rfl
    · cases hm
  · rename_i hn
    rw [Option.map_eq_some_iff] at e
    obtain ⟨k, hk, rfl⟩ := e
    obtain ⟨h1, h2⟩ := Select.maxLast_some _ hk
    obtain ⟨m, hm, hmk⟩ := List.mem_filterMap.1 h1
    refine ⟨.inr ⟨m, hm, k, (host_iff _ _ _).1 hmk, rfl⟩, ?_⟩
    rintro h' (⟨hnil, _⟩ | ⟨m', hm', k', hk', rfl⟩)
    · subst hnil; simp at hn
    · exact h2 k' (List.mem_filterMap.2 ⟨m', hm', (host_iff _ _ _).2 hk'⟩)

theorem hostMatch_none {req : Request} {hosts : List MatchHost} (e : hostMatch req hosts = none) :
    ∀ h, ¬ HostsFit hosts req h := by
  unfold hostMatch at e
  split at e
  · cases e
  · rename_i hn
    rw [Option.map_eq_none_iff, Select.maxLast_none, List.filterMap_eq_nil_iff] at e
    rintro h (⟨hnil, _⟩ | ⟨m, hm, k, hk, rfl⟩)
    · subst hnil; simp at hn
    · have := e m hm
      rw [(host_iff _ _ _).2 hk] at this; cases this

section
variable (mt : Matcher M S) [Std.TransCmp mt.cmp] (applies : M → Request → S → Prop)
  (happ : ∀ m r s, mt.matchRequest m r = some s ↔ applies m r s)

include happ

theorem ruleMatch_some {req : Request} {ru : Rule M P} {s : S} {p : P}
    (e : ruleMatch mt req ru = some (s, p)) :
    ru.policy = p ∧ RuleFits applies mt.default ru req s ∧
      ∀ s', RuleFits applies mt.default ru req s' → (mt.cmp s' s).isLE := by
  unfold ruleMatch at e
  split at e
  · rename_i hn
    cases e
    have hn : ru.matches_ = [] := by simpa using hn
    refine ⟨rfl, .inl ⟨hn, rfl⟩, ?_⟩
    rintro s' (⟨_, rfl⟩ | ⟨m, hm, _⟩)
    · exact Select.le_refl _ _
    · rw [hn] at hm; cases hm
  · rename_i hn
    rw [Option.map_eq_some_iff] at e
    obtain ⟨k, hk, he⟩ := e
    cases he
    obtain ⟨h1, h2⟩ := Select.maxLast_some _ hk
    obtain ⟨m, hm, hmk⟩ := List.mem_filterMap.1 h1
    refine ⟨rfl, .inr ⟨m, hm, (happ _ _ _).1 hmk⟩, ?_⟩
    rintro s' (⟨hnil, _⟩ | ⟨m', hm', hk'⟩)
    · rw [hnil] at hn; simp at hn
    · exact h2 s' (List.mem_filterMap.2 ⟨m', hm', (happ _ _ _).2 hk'⟩)

theorem ruleMatch_none {req : Request} {ru : Rule M P} (e : ruleMatch mt req ru = none) :
    ∀ s, ¬ RuleFits applies mt.default ru req s := by
  unfold ruleMatch at e
  split at e
  · cases e
  · rename_i hn
    rw [Option.map_eq_none_iff, Select.maxLast_none, List.filterMap_eq_nil_iff] at e
    rintro s (⟨hnil, _⟩ | ⟨m, hm, hk⟩)
    · rw [hnil] at hn; simp at hn
    · have := e m hm
      rw [(happ _ _ _).2 hk] at this; cases this

theorem routeMatch_some {req : Request} {rt : Route M P} {s : Option HostMatch × S} {p : P}
    (e : routeMatch mt req rt = some (s, p)) :
    ∃ (j : Nat) (ru : Rule M P), rt.rules[j]? = some ru ∧ ru.policy = p ∧ HostsFit rt.hosts req s.1 ∧
      RuleFits applies mt.default ru req s.2 ∧
      ∀ (j' : Nat) (ru' : Rule M P) h' s', rt.rules[j']? = some ru' → HostsFit rt.hosts req h' →
        RuleFits applies mt.default ru' req s' →
        (cmpHost h' s.1).isLE ∧ (mt.cmp s' s.2).isLE ∧ (j' < j → mt.cmp s' s.2 = .lt) := by
  unfold routeMatch at e
  cases hh : hostMatch req rt.hosts with
  | none => rw [hh] at e; cases e
  | some h =>
    rw [hh] at e
    simp only at e
    cases hb : Select.best (fun a b => mt.cmp a.1 b.1) (rt.rules.filterMap (ruleMatch mt req)) with
    | none => rw [hb] at e; cases e
    | some x =>
      obtain ⟨s2, p2⟩ := x
      rw [hb] at e
      cases e
      obtain ⟨hf, hmax⟩ := hostMatch_some hh
      obtain ⟨j, ru, hj, hru, hall⟩ := Select.best_filterMap _ _ hb
      obtain ⟨hp, hfit, _⟩ := ruleMatch_some mt applies happ hru
      refine ⟨j, ru, hj, hp, hf, hfit, ?_⟩
      intro j' ru' h' s' hj' hh' hs'
      cases hr : ruleMatch mt req ru' with
      | none => exact absurd hs' (ruleMatch_none mt applies happ hr s')
      | some y =>
        obtain ⟨s3, p3⟩ := y
        obtain ⟨h1, h2⟩ := hall j' ru' _ hj' hr
        obtain ⟨_, _, hle⟩ := ruleMatch_some mt applies happ hr
        have := hle s' hs'
        exact ⟨hmax h' hh', Std.TransCmp.isLE_trans this h1, fun hlt => Select.lt_of_le_of_lt _ this (h2 hlt)⟩

theorem routeMatch_none {req : Request} {rt : Route M P} (e : routeMatch mt req rt = none) (h : Option HostMatch)
    (s : S) (ru : Rule M P) (hru : ru ∈ rt.rules) (hh : HostsFit rt.hosts req h)
    (hs : RuleFits applies mt.default ru req s) : False := by
  unfold routeMatch at e
  cases hm : hostMatch req rt.hosts with
  | none => exact hostMatch_none hm h hh
  | some k =>
    rw [hm] at e
    simp only at e
    cases hb : Select.best (fun a b => mt.cmp a.1 b.1) (rt.rules.filterMap (ruleMatch mt req)) with
    | none =>
      exact ruleMatch_none mt applies happ ((Select.best_filterMap_none _ _).1 hb ru hru) s hs
    | some x => rw [hb] at e; cases e

variable (less : S → S → Prop) (hless : ∀ a b, mt.cmp a b = .lt ↔ less a b)

include hless

/-- Whatever `find` selects is the right choice. -/
theorem find_some {routes : List (Route M P)} {req : Request} {s : Option HostMatch × S} {p : P}
    (e : find mt routes req = some (s, p)) :
    ∃ i j, RightChoice applies mt.default less routes req i j s p := by
  obtain ⟨i, rt, hi, hrt, hall⟩ := Select.best_filterMap _ _ e
  obtain ⟨j, ru, hj, hp, hf, hr, hin⟩ := routeMatch_some mt applies happ hrt
  refine ⟨i, j, ⟨rt, ru, hi, hj, hf, hr, hp⟩, ?_⟩
  rintro i' j' ⟨h', s'⟩ p' ⟨rt', ru', hi', hj', hf', hr', hp'⟩
  have hR := routeLess_iff mt.cmp less hless
  rw [← hR, ← hR]
  cases hm : routeMatch mt req rt' with
  | none => exact absurd hr' (fun hr' => routeMatch_none mt applies happ hm h' s' ru' (List.mem_of_getElem? hj') hf' hr')
  | some x =>
    obtain ⟨s3, p3⟩ := x
    obtain ⟨h1, h2⟩ := hall i' rt' _ hi' hm
    obtain ⟨_, _, _, _, _, _, hin'⟩ := routeMatch_some mt applies happ hm
    obtain ⟨g1, g2, _⟩ := hin' j' ru' h' s' hj' hf' hr'
    have hle : (cmpRoute mt.cmp (h', s') s3).isLE := by
      simp only [cmpRoute, Ordering.isLE_then_iff_or]
      cases hc : cmpHost h' s3.1 with
      | lt => exact .inl rfl
      | eq => exact .inr ⟨rfl, g2⟩
      | gt => rw [hc] at g1; cases g1
    constructor
    · intro hlt
      have : cmpRoute mt.cmp s s = .lt :=
        Select.lt_of_lt_of_le _ hlt (Std.TransCmp.isLE_trans hle h1)
      rw [Std.ReflCmp.compare_self (cmp := cmpRoute mt.cmp)] at this
      cases this
    · rintro (hlt | ⟨rfl, hlt⟩)
      · exact Select.lt_of_le_of_lt _ hle (h2 hlt)
      · rw [hi] at hi'
        cases hi'
        obtain ⟨k1, _, k3⟩ := hin j' ru' h' s' hj' hf' hr'
        have k3 := k3 hlt
        simp only [cmpRoute, Ordering.then_eq_lt]
        cases hc : cmpHost h' s.1 with
        | lt => exact .inl rfl
        | eq => exact .inr ⟨rfl, k3⟩
        | gt => rw [hc] at k1; cases k1

theorem find_none {routes : List (Route M P)} {req : Request} :
    find mt routes req = none ↔ ∀ i j s p, ¬ Candidate applies mt.default routes req i j s p := by
  constructor
  · rintro e i j ⟨h, s⟩ p ⟨rt, ru, hi, hj, hf, hr, _⟩
    exact routeMatch_none mt applies happ ((Select.best_filterMap_none _ _).1 e rt (List.mem_of_getElem? hi)) h s ru
      (List.mem_of_getElem? hj) hf hr
  · intro h
    cases e : find mt routes req with
    | none => rfl
    | some x =>
      obtain ⟨s, p⟩ := x
      obtain ⟨i, j, hc, _⟩ := find_some mt applies happ less hless e
      exact absurd hc (h i j s p)

end

end Verif.HttpRoute
