import Verif.HttpRoute.Model

/-!
# What route matching should mean

Stated without the matching functions: which patterns apply to a request, how specific an applying
pattern is, and which of two is more specific.
-/

namespace Verif.HttpRoute

/-- Equal up to ASCII case. -/
def SameText (a b : Str) : Prop := a.map Text.lower = b.map Text.lower

/-- The segments of a path: trailing slashes do not count. -/
def segments (p : Str) : List Str := Text.split '/' (Text.trimEnd '/' p)

/-- The expression's first match in the text is all of the text. -/
def Whole (re : Regex) (s : Str) : Prop := re s = some (0, s.length)

/-- When a path pattern applies, and with what specificity. -/
def PathApplies (m : MatchPath) (path : Str) (s : PathMatch) : Prop :=
  match m with
  | .exact p => path = p ∧ s = .exact p.length
  | .regex re => Whole re path ∧ s = .regex path.length
  | .pfx p =>
    if p = ['/'] then s = .pfx 1
    else segments p <+: segments path ∧ s = .pfx (Text.trimEnd '/' p).length

/-- `host` is `name` without its trailing dot, if it has one. -/
def Undotted (name host : Str) : Prop :=
  name = host ++ ['.'] ∨ name = host ∧ name.getLast? ≠ some '.'

/-- When a host pattern applies to the host named by a request (if any), and with what specificity.
A trailing dot of the name counts only if the pattern has one too. -/
def HostApplies (m : MatchHost) (name : Option Str) (s : HostMatch) : Prop :=
  ∃ name', name = some name' ∧
    match m with
    | .exact h => s = .exact h.length ∧ ∃ host,
        (if h.getLast? = some '.' then name' = host else Undotted name' host) ∧ SameText host h
    | .suffix [] => s = .suffix 0
    | .suffix labels => s = .suffix ((Text.join '.' labels.reverse).length + 1) ∧ ∃ host x y,
        (if labels.head? = some [] then name' = host else Undotted name' host) ∧
        host = x ++ '.' :: y ∧ SameText y (Text.join '.' labels.reverse)

/-- When a header pattern applies. -/
def HeaderApplies (m : MatchHeader) (h : HeaderMap) : Prop :=
  match m with
  | .exact n v => v ∈ h.getAll n
  | .regex n re => ∃ v ∈ h.getAll n, v.all visible ∧ Whole re v

/-- When a query parameter pattern applies. -/
def ParamApplies (m : MatchQueryParam) (params : Option (List (Str × Str))) : Prop :=
  ∃ ps, params = some ps ∧
    match m with
    | .exact n v => (n, v) ∈ ps
    | .regex n re => ∃ v, (n, v) ∈ ps ∧ Whole re v

/-- When an HTTP match applies, and with what specificity. -/
structure HttpApplies (m : MatchRequest) (r : Request) (s : RequestMatch) : Prop where
  method : ∀ x, m.method = some x → r.method = x
  path : match m.path with
    | none => s.path = .pfx 1
    | some p => PathApplies p r.path s.path
  headers : ∀ h ∈ m.headers, HeaderApplies h r.headers
  params : ∀ q ∈ m.params, ParamApplies q r.params
  nHeaders : s.headers = m.headers.length
  nParams : s.params = m.params.length
  hasMethod : s.method = m.method.isSome

/-- `a` is less specific than `b`: a shorter path; then fewer headers; then fewer parameters; then no
method. -/
def HttpLess (a b : RequestMatch) : Prop :=
  a.path.len < b.path.len ∨ a.path.len = b.path.len ∧
    (a.headers < b.headers ∨ a.headers = b.headers ∧
      (a.params < b.params ∨ a.params = b.params ∧ (a.method = false ∧ b.method = true)))

/-- When a gRPC match applies: a `POST` to `/service/method`. -/
structure GrpcApplies (m : MatchRpc) (r : Request) (s : RpcMatch) : Prop where
  post : r.method = ['P', 'O', 'S', 'T']
  path : ∃ service method more, Text.split '/' r.path = [] :: service :: method :: more ∧
    (∀ x, m.service = some x → service = x) ∧ (∀ x, m.method = some x → method = x)
  headers : ∀ h ∈ m.headers, HeaderApplies h r.headers
  nService : s.service = (m.service.getD []).length
  nMethod : s.method = (m.method.getD []).length
  nHeaders : s.headers = m.headers.length

/-- `a` is less specific than `b`: a shorter service name; then a shorter method name; then fewer
headers. -/
def GrpcLess (a b : RpcMatch) : Prop :=
  a.service < b.service ∨ a.service = b.service ∧
    (a.method < b.method ∨ a.method = b.method ∧ a.headers < b.headers)

/-- `a` is less specific than `b`: no host; then a shorter suffix; then a longer suffix; then a shorter
host; then a longer host. -/
inductive HostLess : Option HostMatch → Option HostMatch → Prop
  | any (b) : HostLess none (some b)
  | kind (a b) : HostLess (some (.suffix a)) (some (.exact b))
  | suffix (a b) : a < b → HostLess (some (.suffix a)) (some (.suffix b))
  | exact (a b) : a < b → HostLess (some (.exact a)) (some (.exact b))

/-- Hosts are compared first, then what the rules match. -/
def RouteLess {S : Type} (less : S → S → Prop) (a b : Option HostMatch × S) : Prop :=
  HostLess a.1 b.1 ∨ a.1 = b.1 ∧ less a.2 b.2

variable {M S P : Type}

/-- A route's hosts apply, with that specificity: there are none, or one of them applies. -/
def HostsFit (hosts : List MatchHost) (r : Request) (h : Option HostMatch) : Prop :=
  (hosts = [] ∧ h = none) ∨ ∃ m ∈ hosts, ∃ k, HostApplies m r.host k ∧ h = some k

/-- A rule applies, with that specificity: it has no matches, or one of them applies. -/
def RuleFits (applies : M → Request → S → Prop) (dflt : S) (rule : Rule M P) (r : Request) (s : S) : Prop :=
  (rule.matches_ = [] ∧ s = dflt) ∨ ∃ m ∈ rule.matches_, applies m r s

/-- Rule `j` of route `i` applies with specificity `s`, and has policy `p`. -/
def Candidate (applies : M → Request → S → Prop) (dflt : S) (routes : List (Route M P)) (r : Request)
    (i j : Nat) (s : Option HostMatch × S) (p : P) : Prop :=
  ∃ rt ru, routes[i]? = some rt ∧ rt.rules[j]? = some ru ∧
    HostsFit rt.hosts r s.1 ∧ RuleFits applies dflt ru r s.2 ∧ ru.policy = p

/-- The right choice: it applies, nothing that applies is more specific, and what is listed before it
is less specific. -/
def RightChoice (applies : M → Request → S → Prop) (dflt : S) (less : S → S → Prop)
    (routes : List (Route M P)) (r : Request) (i j : Nat) (s : Option HostMatch × S) (p : P) : Prop :=
  Candidate applies dflt routes r i j s p ∧
  ∀ i' j' s' p', Candidate applies dflt routes r i' j' s' p' →
    ¬ RouteLess less s s' ∧ ((i' < i ∨ i' = i ∧ j' < j) → RouteLess less s' s)

end Verif.HttpRoute
