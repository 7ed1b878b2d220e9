import Verif.Common.List

/-!
# Request distributions over backends

Models `linkerd/distribute/src/{keys,params,service}.rs` and `service/{first,random}.rs`.  Backend keys
are natural numbers; a backend is identified by its index in the distribution (`KeyId`, keys.rs:12–14).
`rand`'s `WeightedIndex` is not in the repository: `WeightedIndex::new`, `sample` and `update_weights`
are modelled by `validate`, `sample` and `disable` (DESIGN.md, section 4).  The draws of the random
number generator and the readiness answers of the backends come from the environment.
-/

namespace Verif.Distribute

/-- `Distribution` (params.rs:17–27). -/
inductive Dist where
  | empty
  | first (keys : List Nat)
  | random (keys : List (Nat × Nat))
  deriving DecidableEq, Repr

/-- The greatest `u32`. -/
def u32Max : Nat := 4294967295

/-- `rand::distr::weighted::Error`. -/
inductive WeightError where
  | invalidInput | insufficientNonZero | overflow
  deriving DecidableEq, Repr

/-- The sum of weights as `WeightedIndex<u32>` computes it: the first overflow is an error. -/
def total : List Nat → Nat → Except WeightError Nat
  | [], acc => .ok acc
  | w :: ws, acc => if acc + w > u32Max then .error .overflow else total ws (acc + w)

/-- `WeightedIndex::new`, used by `validate_weights` (keys.rs:135–142). -/
def validate (ws : List Nat) : Except WeightError Unit :=
  match ws with
  | [] => .error .invalidInput
  | ws =>
    match total ws 0 with
    | .error e => .error e
    | .ok 0 => .error .insufficientNonZero
    | .ok _ => .ok ()

/-- `Distribution::first_available` (params.rs:64–71). -/
def firstAvailable (keys : List Nat) : Dist := if keys.isEmpty then .empty else .first keys

/-- `Distribution::random_available` (params.rs:73–88). -/
def randomAvailable (keys : List (Nat × Nat)) : Except WeightError Dist :=
  if keys.length < 2 then .ok (.first (keys.map Prod.fst))
  else
    match validate (keys.map Prod.snd) with
    | .error e => .error e
    | .ok () => .ok (.random keys)

/-- What a backend answers to a readiness check. -/
inductive Answer where
  | ready | pending | failed
  deriving DecidableEq, Repr

/-- What the environment supplies to one `poll_ready`: the answer of each backend, by index, and the
draws of the random number generator. -/
structure Env where
  answer : Nat → Answer
  draw : Nat → Nat := fun _ => 0

/-- `Distribute` (service.rs:14–24) with the `ready_idx` of first.rs:12 and random.rs:20. -/
structure World where
  dist : Dist
  readyIdx : Option Nat := none
  deriving Repr

/-- What the service tells its caller. `stuck` stands for a loop that does not end. -/
inductive Out where
  | ready | pending | failed
  | sent (idx key : Nat)
  | done
  | panicked
  | stuck
  deriving DecidableEq, Repr

/-- The loop of `FirstAvailableSelection::poll_ready` (first.rs:60–67), over the backends from `idx`. -/
def pollFirst (env : Env) : Nat → List Nat → Option Nat × Out
  | _, [] => (none, .pending)
  | idx, _ :: ks =>
    match env.answer idx with
    | .ready => (some idx, .ready)
    | .failed => (none, .failed)
    | .pending => pollFirst env (idx + 1) ks

/-- `WeightedIndex::sample` on a draw `x` below the total: the first index whose cumulative weight
exceeds it. -/
def pickIndex : List Nat → Nat → Nat
  | [], _ => 0
  | w :: ws, x => if x < w then 0 else pickIndex ws (x - w) + 1

/-- `select_weighted` (keys.rs:153–158) with the draw reduced to the range of the distribution. -/
def sample (ws : List Nat) (x : Nat) : Nat := pickIndex ws (x % ws.sum)

/-- `disable_backend` (keys.rs:160–162): `WeightedIndex::update_weights(&[(idx, &0)])`, which fails,
leaving no weights to choose from, when every weight would be zero. -/
def disable (ws : List Nat) (idx : Nat) : Option (List Nat) :=
  if (ws.set idx 0).sum = 0 then none else some (ws.set idx 0)

/-- The loop of `RandomAvailableSelection::poll_ready` (random.rs:77–107); `n` counts the draws and
`fuel` the passes left. Running out of fuel is a loop that has not ended (`stuck`). -/
def pollRandom (env : Env) (nkeys : Nat) : Nat → Nat → List Nat → Option Nat × Out
  | 0, _, _ => (none, .stuck)
  | fuel + 1, n, ws =>
    let idx := sample ws (env.draw n)
    if idx < nkeys then
      match env.answer idx with
      | .ready => (some idx, .ready)
      | .failed => (none, .failed)
      | .pending =>
        match disable ws idx with
        | none => (none, .pending)
        | some ws => pollRandom env nkeys fuel (n + 1) ws
    else (none, .panicked)

/-- `Distribute::poll_ready` (service.rs:70–79, first.rs:54–68, random.rs:71–108).  `fuel` bounds the
passes of the random loop. -/
def World.poll (w : World) (fuel : Nat) (env : Env) : World × Out :=
  match w.dist with
  | .empty => (w, .pending)
  | .first keys =>
    match w.readyIdx with
    | some _ => (w, .ready)
    | none =>
      let r := pollFirst env 0 keys
      ({ w with readyIdx := r.1 }, r.2)
  | .random keys =>
    match w.readyIdx with
    | some _ => (w, .ready)
    | none =>
      match validate (keys.map Prod.snd) with
      | .error _ => (w, .panicked)
      | .ok () =>
        let r := pollRandom env keys.length fuel 0 (keys.map Prod.snd)
        ({ w with readyIdx := r.1 }, r.2)

/-- The key of a backend. -/
def Dist.key : Dist → Nat → Option Nat
  | .empty, _ => none
  | .first keys, i => keys[i]?
  | .random keys, i => (keys[i]?).map Prod.fst

/-- `Distribute::call` (service.rs:81–87, first.rs:70–79, random.rs:110–119). -/
def World.call (w : World) : World × Out :=
  match w.dist with
  | .empty => (w, .panicked)
  | _ =>
    match w.readyIdx with
    | none => (w, .panicked)
    | some i =>
      match w.dist.key i with
      | none => ({ w with readyIdx := none }, .panicked)
      | some k => ({ w with readyIdx := none }, .sent i k)

/-- The operations on a distribution.  `clone` continues with the clone (first.rs:36–43,
random.rs:50–59). -/
inductive Op where
  | poll (env : Env)
  | call
  | clone

/-- The number of backends of a distribution. -/
def Dist.size : Dist → Nat
  | .empty => 0
  | .first keys => keys.length
  | .random keys => keys.length

/-- One operation. The random loop is given one pass for each backend. -/
def World.step (w : World) : Op → World × Out
  | .poll env => w.poll w.dist.size env
  | .call => w.call
  | .clone => ({ w with readyIdx := none }, .done)

/-- The service made for a distribution (service.rs:29–53), after a sequence of operations. -/
def after (d : Dist) (ops : List Op) : World := ops.foldl (fun w op => (w.step op).1) { dist := d }

/-- What one further operation answers. -/
def answer (d : Dist) (ops : List Op) (op : Op) : Out := ((after d ops).step op).2

end Verif.Distribute
