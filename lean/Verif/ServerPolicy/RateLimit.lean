import Verif.Common.Assoc
import Verif.ServerPolicy.Authz

/-!
# The local rate limit

Model of `linkerd/proxy/server-policy/src/local_rate_limit.rs`.

A limiter of the crate `governor` is external: it is a parameter, by what `check` answers at a time and how
its state changes.  The keyed limiter is taken to keep one such state for each key.
-/

namespace Verif.ServerPolicy

open Verif.HttpRoute (Str)

/-- `governor::RateLimiter`: `σ` its state, `τ` the times of its clock. -/
structure Limiter (σ τ : Type) where
  fresh : σ
  check : τ → σ → Bool × σ

/-- An override's limiter, `Arc<RateLimit<Direct>>`: which override it comes from, and its rate.  All the
identities of an override share it. -/
structure Shared where
  index : Nat
  rps : Nat
  deriving DecidableEq, Repr

/-- `LocalRateLimit`, local_rate_limit.rs:19-24, by its rates.  `overrides` lists the pairs the map was
collected from: for a repeated identity, the last counts. -/
structure RateLimit where
  total : Option Nat := none
  perIdentity : Option Nat := none
  overrides : List (Id × Shared) := []
  deriving DecidableEq, Repr

/-- The states of all the limiters of a `LocalRateLimit`. -/
structure Buckets (σ : Type) where
  total : σ
  identity : Option Id → σ
  shared : Shared → σ

/-- `RateLimitError`, local_rate_limit.rs:37-44. -/
inductive Rejected where
  | total (rps : Nat)
  | perIdentity (rps : Nat)
  | override (rps : Nat)
  deriving DecidableEq, Repr

/-- `self.overrides.get(id)` for a client that may have no identity, local_rate_limit.rs:87-88. -/
def RateLimit.overrideOf (rl : RateLimit) (id : Option Id) : Option Shared :=
  match id with
  | none => none
  | some id => Assoc.lookup id rl.overrides.reverse

section
variable {σ τ : Type} (gov : Nat → Limiter σ τ)

/-- New limiters, local_rate_limit.rs:50-62. -/
def RateLimit.fresh (rl : RateLimit) : Buckets σ :=
  { total := (gov (rl.total.getD 0)).fresh
    identity := fun _ => (gov (rl.perIdentity.getD 0)).fresh
    shared := fun s => (gov s.rps).fresh }

/-- local_rate_limit.rs:81-85: `none` if rejected. -/
def RateLimit.checkTotal (rl : RateLimit) (b : Buckets σ) (now : τ) : Bool × Buckets σ :=
  match rl.total with
  | none => (true, b)
  | some rps => (((gov rps).check now b.total).1, { b with total := ((gov rps).check now b.total).2 })

/-- local_rate_limit.rs:87-103. -/
def RateLimit.checkIdentity (rl : RateLimit) (b : Buckets σ) (now : τ) (id : Option Id) :
    Option Rejected × Buckets σ :=
  match rl.overrideOf id with
  | some s =>
    (if ((gov s.rps).check now (b.shared s)).1 then none else some (.override s.rps),
     { b with shared := fun s' => if s' = s then ((gov s.rps).check now (b.shared s)).2 else b.shared s' })
  | none =>
    match rl.perIdentity with
    | none => (none, b)
    | some rps =>
      (if ((gov rps).check now (b.identity id)).1 then none else some (.perIdentity rps),
       { b with identity := fun id' =>
          if id' = id then ((gov rps).check now (b.identity id)).2 else b.identity id' })

/-- `LocalRateLimit::check`, local_rate_limit.rs:80-104: `none` if the request is admitted. -/
def RateLimit.check (rl : RateLimit) (b : Buckets σ) (now : τ) (id : Option Id) :
    Option Rejected × Buckets σ :=
  match rl.checkTotal gov b now with
  | (false, b) => (some (.total (rl.total.getD 0)), b)
  | (true, b) => rl.checkIdentity gov b now id

/-- The limiters after requests at these times from these clients. -/
def RateLimit.after (rl : RateLimit) (h : List (τ × Option Id)) : Buckets σ :=
  h.foldl (fun b r => (rl.check gov b r.1 r.2).2) (rl.fresh gov)

end

/-! ### From the control plane: local_rate_limit.rs:141-189 -/

/-- `api::HttpLocalRateLimit`: rates (absent or given), and overrides as a rate and the clients' names. -/
structure ApiRateLimit where
  total : Option Nat := none
  identity : Option Nat := none
  overrides : List (Option Nat × List Str) := []

/-- `.and_then(NonZeroU32::new)`. -/
def nonZero (o : Option Nat) : Option Nat := o.bind fun n => if n = 0 then none else some n

/-- The closure over overrides, local_rate_limit.rs:161-179. `parse` is `str::parse::<Id>`. -/
def overridePairs (parse : Str → Option Id) (o : (Option Nat × List Str) × Nat) : List (Id × Shared) :=
  match nonZero o.1.1 with
  | none => []
  | some rps => (o.1.2.filterMap parse).map (·, ⟨o.2, rps⟩)

/-- `TryFrom<api::HttpLocalRateLimit>`, local_rate_limit.rs:144-188, when the metadata is valid. -/
def RateLimit.ofApi (parse : Str → Option Id) (a : ApiRateLimit) : RateLimit :=
  { total := nonZero a.total
    perIdentity := nonZero a.identity
    overrides := a.overrides.zipIdx.flatMap (overridePairs parse) }

end Verif.ServerPolicy
