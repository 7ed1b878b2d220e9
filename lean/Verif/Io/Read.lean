import Verif.Io.Prefixed

/-!
# Reading within a timeout

Code that reads from a stream until it has seen enough, within a timeout, meets one answer after another.
-/

namespace Verif.Io

/-- The answer to one read of the stream. When the answers are used up the timeout passes. -/
inductive ReadAnswer where
  | failed
  /-- At most this many bytes, at least one unless the stream has ended. -/
  | upTo (k : Nat)
  deriving DecidableEq, Repr

end Verif.Io
