import Verif.HttpRoute.Model

/-!
# TLS route selection

Model of `linkerd/tls/route/src/{lib,sni}.rs`.  Text is a list of bytes, each written as a character.
-/

namespace Verif.TlsRoute

open Verif.HttpRoute (Str stripDot dropDot)

/-- `MatchSni`, sni.rs:12-20: a suffix is kept as its labels in reverse order. -/
inductive MatchSni where
  | exact (h : Str)
  | suffix (labels : List Str)
  deriving DecidableEq, Repr

/-- `SniMatch`, sni.rs:23-26. -/
inductive SniMatch where
  | exact (n : Nat)
  | suffix (n : Nat)
  deriving DecidableEq, Repr

/-- `str::strip_suffix(&str)`. -/
def stripSuffix (s suffix : Str) : Option Str :=
  if suffix.length ≤ s.length then
    let i := s.length - suffix.length
    if s.drop i = suffix then some (s.take i) else none
  else none

/-- The loop of sni.rs:70-75. -/
def stripLabels (sni : Str) (length : Nat) : List Str → Option Nat
  | [] => some length
  | sfx :: rest =>
    match stripSuffix sni sfx with
    | none => none
    | some sni =>
      match stripDot sni with
      | none => none
      | some sni => stripLabels sni (length + (sfx.length + 1)) rest

/-- `MatchSni::summarize_match`, sni.rs:51-80. -/
def MatchSni.summarize (m : MatchSni) (sni : Str) : Option SniMatch :=
  match m with
  | .exact h =>
    let sni := if h.getLast? = some '.' then sni else dropDot sni
    if h = sni then some (.exact h.length) else none
  | .suffix labels =>
    let sni := if labels.head? = some [] then sni else dropDot sni
    (stripLabels sni 0 labels).map .suffix

/-- `MatchSni::from_str`, sni.rs:39-47. -/
def MatchSni.ofText (s : Str) : MatchSni :=
  match Text.stripPrefix ['*', '.'] s with
  | some rest => .suffix (Text.split '.' rest).reverse
  | none => .exact s

/-- `Ord for SniMatch`, sni.rs:91-101. -/
def SniMatch.cmp : SniMatch → SniMatch → Ordering
  | .exact l, .exact r => compare l r
  | .suffix l, .suffix r => compare l r
  | .exact _, .suffix _ => .gt
  | .suffix _, .exact _ => .lt

/-- The derived `Ord for RouteMatch`, lib.rs:30-33: that of `Option<SniMatch>`. -/
def cmpRoute : Option SniMatch → Option SniMatch → Ordering
  | none, none => .eq
  | none, some _ => .lt
  | some _, none => .gt
  | some a, some b => a.cmp b

/-- `Route`, lib.rs:18-26. -/
structure Route (P : Type) where
  snis : List MatchSni
  policy : P

/-- The closure over routes, lib.rs:46-62. -/
def routeMatch {P : Type} (sni : Str) (rt : Route P) : Option (Option SniMatch × P) :=
  if rt.snis.isEmpty then some (none, rt.policy)
  else (Select.maxLast SniMatch.cmp (rt.snis.filterMap (·.summarize sni))).map fun m => (some m, rt.policy)

/-- `find`, lib.rs:43-63. -/
def find {P : Type} (routes : List (Route P)) (sni : Str) : Option (Option SniMatch × P) :=
  Select.best (fun a b => cmpRoute a.1 b.1) (routes.filterMap (routeMatch sni))

end Verif.TlsRoute
