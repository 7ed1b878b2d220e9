import Verif.Io.Prefixed

/-!
# C39: a prefixed stream reads as the prefix followed by the inner stream
-/

namespace Verif.Io

/-! ## Specification -/

/-- The bytes one operation read. -/
def readBytes : Op × Polled → Bytes
  | (.read _ _, .got bs) => bs
  | _ => []

/-- The bytes one operation wrote. -/
def wroteBytes : Op × Polled → Bytes
  | (.write bs _, .took k) => bs.take k
  | _ => []

/-- All that is to be read. -/
def PrefixedIo.unread (p : PrefixedIo) : Bytes := p.pre ++ p.io.unread

/-! ## Theorems -/

/-- Whatever the buffers' sizes, the pauses and the other operations in between: the bytes read so far, followed by
those still to come, are the prefix followed by the inner stream's bytes. None is lost, repeated or out of order. -/
theorem C39_reads_are_exact (p : PrefixedIo) (ops : List Op) :
    ((p.run ops).1.flatMap readBytes) ++ (p.run ops).2.unread = p.unread := by
  induction ops generalizing p with
  | nil => simp [PrefixedIo.run]
  | cons o os ih =>
    have h1 : readBytes (o, (p.step o).1) ++ (p.step o).2.unread = p.unread := by
      cases o with
      | read room r =>
        simp only [PrefixedIo.step, PrefixedIo.pollRead]
        split
        · rename_i h
          have : p.pre = [] := List.length_eq_zero_iff.1 h
          cases r <;> simp [Inner.pollRead, readBytes, PrefixedIo.unread, this]
        · simp only [readBytes, PrefixedIo.unread]
          split
          · rename_i h
            simp [← h]
          · simp only [← List.append_assoc, List.take_append_drop]
      | write bs r => cases r <;> simp [PrefixedIo.step, PrefixedIo.pollWrite, Inner.pollWrite, readBytes, PrefixedIo.unread]
      | peek room => simp [PrefixedIo.step, readBytes]
    have h2 := ih (p.step o).2
    simp only [PrefixedIo.run, List.flatMap_cons, List.append_assoc]
    rw [h2, h1]

/-- The end of the stream is reported (no bytes although the buffer has room) only when everything has been read. -/
theorem C39_end_only_at_the_end (p p' : PrefixedIo) (room : Nat) (r : Ready) (hroom : 0 < room)
    (h : p.pollRead room r = (.got [], p')) : p.unread = [] := by
  by_cases hp : p.pre = []
  · cases r with
    | upTo k =>
      simp only [PrefixedIo.pollRead, hp, List.length_nil, if_true, Inner.pollRead, Prod.mk.injEq, Polled.got.injEq,
        List.take_eq_nil_iff] at h
      rcases h.1 with h1 | h1
      · omega
      · simp [PrefixedIo.unread, hp, h1]
    | _ => simp [PrefixedIo.pollRead, hp, Inner.pollRead] at h
  · have hz : ¬ p.pre.length = 0 := by simpa using hp
    simp only [PrefixedIo.pollRead, hz, if_false, Prod.mk.injEq, Polled.got.injEq, List.take_eq_nil_iff] at h
    rcases h.1 with h1 | h1
    · omega
    · exact absurd h1 hp

/-- While there is a prefix, reads neither wait nor fail nor touch the inner stream. -/
theorem C39_prefix_is_ready (p : PrefixedIo) (room : Nat) (r : Ready) (h : p.pre ≠ []) :
    ∃ bs p', p.pollRead room r = (.got bs, p') ∧ p'.io = p.io ∧ bs <+: p.pre ∧ bs.length = min room p.pre.length := by
  have : p.pre.length ≠ 0 := by simpa using h
  refine ⟨p.pre.take (min room p.pre.length), (p.pollRead room r).2, ?_, ?_, List.take_prefix _ _, ?_⟩
  · simp only [PrefixedIo.pollRead, this, if_false]
  · simp only [PrefixedIo.pollRead, this, if_false]
  · simp

/-- Peeking shows the next bytes to be read, as many as there is room for, and takes none. -/
theorem C39_peek (p : PrefixedIo) (room : Nat) :
    p.peek room = p.pre.take room ∧ p.peek room <+: p.unread ∧ (p.step (.peek room)).2 = p := by
  have h : p.peek room = p.pre.take room := by
    unfold PrefixedIo.peek
    simp only
    split
    · rename_i h
      rcases Nat.min_eq_zero_iff.1 h with h | h
      · simp [List.length_eq_zero_iff.1 h]
      · simp [h]
    · rw [Nat.min_comm, ← List.take_take]
      simp
  refine ⟨h, ?_, rfl⟩
  rw [h]
  exact (List.take_prefix _ _).trans (List.prefix_append _ _)

/-- Writes go to the inner stream as they are, in order, with the prefix left alone. -/
theorem C39_writes_are_exact (p : PrefixedIo) (ops : List Op) :
    (p.run ops).2.io.written = p.io.written ++ (p.run ops).1.flatMap wroteBytes := by
  induction ops generalizing p with
  | nil => simp [PrefixedIo.run]
  | cons o os ih =>
    have h1 : (p.step o).2.io.written = p.io.written ++ wroteBytes (o, (p.step o).1) := by
      cases o with
      | read room r =>
        simp only [PrefixedIo.step, PrefixedIo.pollRead]
        split
        · cases r <;> simp [Inner.pollRead, wroteBytes]
        · simp [wroteBytes]
      | write bs r =>
        cases r with
        | upTo k =>
          simp only [PrefixedIo.step, PrefixedIo.pollWrite, Inner.pollWrite, wroteBytes]
          rw [Nat.min_comm, ← List.take_take]
          simp
        | _ => simp [PrefixedIo.step, PrefixedIo.pollWrite, Inner.pollWrite, wroteBytes]
      | peek room => simp [PrefixedIo.step, wroteBytes]
    simp only [PrefixedIo.run, List.flatMap_cons]
    rw [ih (p.step o).2, h1, List.append_assoc]

/-! ## A concrete run -/

example : ((PrefixedIo.mk [1, 2, 3] ⟨[4, 5], []⟩).run
      [.read 2 .pending, .peek 5, .write [9, 8] (.upTo 1), .read 4 .failed, .read 4 .pending, .read 4 (.upTo 9)]).1.map
      readBytes = [[1, 2], [], [], [3], [], [4, 5]] := by decide +kernel

end Verif.Io
