import Verif.HttpRoute.Model

/-!
# Route filters

Model of `linkerd/http/route/src/http/filter/modify_header.rs` and `redirect.rs`.
-/

namespace Verif.HttpRoute

/-- `ModifyHeader`, modify_header.rs:7-11. -/
structure ModifyHeader where
  add : List (String × Str) := []
  set : List (String × Str) := []
  remove : List String := []

/-- `ModifyHeader::apply`, modify_header.rs:16-26. -/
def ModifyHeader.apply (m : ModifyHeader) (h : HeaderMap) : HeaderMap :=
  let h := m.add.foldl (fun h e => h.append e.1 e.2) h
  let h := m.set.foldl (fun h e => h.insert e.1 e.2) h
  m.remove.foldl (fun h n => h.remove n) h

/-! ### URIs (crate `http`, external) -/

/-- `http::uri::Scheme`. -/
inductive Scheme where
  | http
  | https
  | other (s : Str)
  deriving DecidableEq, Repr

/-- `http::uri::Authority`. Simplification: there is no userinfo part. -/
structure Authority where
  host : Str
  port : Option Nat
  deriving DecidableEq, Repr

/-- `http::Uri`: `pq` is absent for the authority form of `CONNECT` requests. -/
structure Uri where
  scheme : Option Scheme
  authority : Option Authority
  pq : Option (Str × Option Str)
  deriving DecidableEq, Repr

def Uri.path (u : Uri) : Str := (u.pq.map (·.1)).getD []
def Uri.query (u : Uri) : Option Str := u.pq.bind (·.2)
def Uri.host (u : Uri) : Option Str := u.authority.map (·.host)
def Uri.port (u : Uri) : Option Nat := u.authority.bind (·.port)

/-- `PartialEq for Authority`: up to ASCII case. -/
def Authority.same (a b : Authority) : Bool := Text.eqIgnoreCase a.host b.host && a.port == b.port

/-- `PartialEq for Uri`: scheme, authority, `path()`, `query()`. -/
def Uri.same (a b : Uri) : Bool :=
  a.scheme == b.scheme &&
  (match a.authority, b.authority with
    | none, none => true
    | some x, some y => x.same y
    | _, _ => false) &&
  a.path == b.path && a.query == b.query

/-- `PathAndQuery::try_from(String)`: up to a `#`, split at the first `?`; an empty path reads `/`.
Which characters are legal is left to the parameter `legal`. -/
def parsePq (legal : Str → Bool) (s : Str) : Option (Str × Option Str) :=
  if legal s then
    let s := s.takeWhile (· ≠ '#')
    let path := s.takeWhile (· ≠ '?')
    let query := match s.dropWhile (· ≠ '?') with
      | [] => none
      | _ :: q => some q
    some (if path = [] then ['/'] else path, query)
  else none

/-- `format!("{h}:{p}").try_into()`: an authority that has a port already does not take another. -/
def Authority.withPort (a : Authority) (p : Nat) : Option Authority :=
  match a.port with
  | none => some { a with port := some p }
  | some _ => none

/-! ### Redirects: `redirect.rs` -/

/-- `AuthorityOverride`, redirect.rs:18-22. -/
inductive AuthorityOverride where
  | exact (a : Authority)
  | host (a : Authority)
  | port (p : Nat)
  deriving DecidableEq, Repr

/-- `ModifyPath`, filter.rs. -/
inductive ModifyPath where
  | replaceFull (p : Str)
  | replacePrefix (p : Str)
  deriving DecidableEq, Repr

/-- `RedirectRequest`, redirect.rs:10-15. -/
structure RedirectRequest where
  scheme : Option Scheme := none
  authority : Option AuthorityOverride := none
  path : Option ModifyPath := none
  status : Option Nat := none

/-- What can go wrong: `InvalidRedirect`, redirect.rs:25-37, or the `expect` at line 160. -/
inductive Fail where
  | replacePrefix
  | location
  | authority
  | missingAuthority
  | panic
  deriving DecidableEq, Repr

/-- `port_if_not_default`, redirect.rs:137-145. -/
def portIfNotDefault (s : Scheme) (p : Nat) : Option Nat :=
  if s = .http ∧ p = 80 then none
  else if s = .https ∧ p = 443 then none
  else some p

/-- `Option::ok_or`. -/
def okOr {α : Type} (o : Option α) (e : Fail) : Except Fail α :=
  match o with
  | some a => .ok a
  | none => .error e

/-- `RedirectRequest::authority`, redirect.rs:78-135. -/
def RedirectRequest.authorityOf (rr : RedirectRequest) (u : Uri) (s : Scheme) : Except Fail Authority :=
  match rr.authority with
  | none => okOr u.authority .missingAuthority
  | some (.exact a) => .ok a
  | some (.host a) =>
    match u.port.bind (portIfNotDefault s) with
    | some p => okOr (a.withPort p) .authority
    | none => .ok a
  | some (.port p) =>
    match portIfNotDefault s p with
    | some p =>
      if some p ≠ u.port then
        match u.host with
        | none => .error .missingAuthority
        | some h => .ok ⟨h, some p⟩
      else okOr u.authority .missingAuthority
    | none =>
      if u.port.isSome then
        match u.host with
        | none => .error .missingAuthority
        | some h => .ok ⟨h, none⟩
      else okOr u.authority .missingAuthority

/-- The text built at redirect.rs:174-183. -/
def replacedPrefix (new : Str) (n : Nat) (u : Uri) : Str :=
  let rest := u.path.drop n
  let sep := if rest ≠ [] ∧ rest.head? ≠ some '/' then ['/'] else []
  let q := match u.query with
    | some q => '?' :: q
    | none => []
  new ++ sep ++ rest ++ q

/-- `RedirectRequest::path_and_query`, redirect.rs:149-193. -/
def RedirectRequest.pqOf (legal : Str → Bool) (rr : RedirectRequest) (u : Uri) (rm : PathMatch) :
    Except Fail (Str × Option Str) :=
  match rr.path with
  | none => okOr u.pq .panic
  | some (.replaceFull p) => okOr (parsePq legal p) .authority
  | some (.replacePrefix new) =>
    match rm with
    | .pfx n =>
      if n ≤ u.path.length then okOr (parsePq legal (replacedPrefix new n u)) .authority
      else .error .replacePrefix
    | _ => .error .replacePrefix

/-- `RedirectRequest::apply`, redirect.rs:48-76; a URI with all three parts always builds. -/
def RedirectRequest.apply (legal : Str → Bool) (rr : RedirectRequest) (u : Uri) (rm : PathMatch) :
    Except Fail (Option (Nat × Uri)) :=
  let scheme := (rr.scheme.orElse (fun _ => u.scheme)).getD .http
  match rr.authorityOf u scheme with
  | .error e => .error e
  | .ok a =>
    match rr.pqOf legal u rm with
    | .error e => .error e
    | .ok pq =>
      let location : Uri := ⟨some scheme, some a, some pq⟩
      if location.same u then .ok none
      else .ok (some (rr.status.getD 301, location))

end Verif.HttpRoute
