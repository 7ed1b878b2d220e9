import Verif.Gate.Model

/-! Vocabulary for the gate properties: everything is read off a history and its answers. -/
namespace Verif.Gate

/-- The gate setting in force after a history: the last change made, open if there was none. -/
inductive Setting where
  | opened
  | limited (n : Nat)
  | shut
  deriving DecidableEq, Repr

def Setting.next (s : Setting) : Op → Setting
  | .openGate => .opened
  | .limit n => .limited n
  | .shut => .shut
  | _ => s

def setting (ops : List Op) : Setting := ops.foldl Setting.next .opened

/-- Is `op` a change of the gate? -/
def Op.isChange : Op → Bool
  | .openGate | .limit _ | .shut => true
  | _ => false

/-- Service `i` was told it is ready and has not used, renewed or lost that answer since. -/
def granted (i : Nat) (log : List (Op × Out)) : Bool :=
  log.foldl (fun b e => match e with
    | (.pollReady j _, out) => if j = i then out == .ready else b
    | (.call j, _) => if j = i then false else b
    | (.drop j, _) => if j = i then false else b
    | _ => b) false

/-- The permits handed out by the limits in a history. -/
def limits : List Op → Nat
  | [] => 0
  | .limit n :: ops => n + limits ops
  | _ :: ops => limits ops

/-- The state after a history. -/
def after (ops : List Op) : World := (run init ops).1

/-- A history with its answers. -/
def log (ops : List Op) : List (Op × Out) := ops.zip (run init ops).2

/-- How many services hold an unused "ready" at the end of a history. -/
def grantedCount (ops : List Op) : Nat :=
  ((List.range (after ops).svcs.length).filter (fun i => granted i (log ops))).length

/-- How many requests reached the inner service. -/
def admitted (outs : List Out) : Nat := outs.count .admitted

end Verif.Gate
