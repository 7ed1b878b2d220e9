import Verif.HttpDetect.Model
import Verif.Io.PrefixedProps

/-!
# C41: HTTP detection classifies by the first bytes and loses none
-/

namespace Verif.HttpDetect

open Verif.Io

/-! ## Specification -/

/-- The text that begins every HTTP/2 connection, `PRI * HTTP/2.0`. -/
def Http2Start (bs : Bytes) : Prop := ("PRI * HTTP/2.0".toList.map fun c => c.toNat.toUInt8) <+: bs

/-- The first read looks like an HTTP/1 request. -/
def Http1Start (parse : Bytes → Parsed) (bs : Bytes) : Prop :=
  "GET / HTTP/1.1".length ≤ bs.length ∧ parse bs ≠ .error

theorem preface_text : ("PRI * HTTP/2.0".toList.map fun c => c.toNat.toUInt8) = h2Preface := by decide +kernel

theorem smallest_text : "GET / HTTP/1.1".length = smallestHttp1 := by decide +kernel

theorem preface_iff (bs : Bytes) :
    (bs.length ≥ h2Preface.length && bs.take h2Preface.length == h2Preface) = true ↔ Http2Start bs := by
  rw [Http2Start, preface_text, List.prefix_iff_eq_take]
  simp only [Bool.and_eq_true, decide_eq_true_eq, beq_iff_eq]
  constructor
  · rintro ⟨_, h⟩; exact h.symm
  · intro h
    refine ⟨?_, h.symm⟩
    have := congrArg List.length h
    rw [List.length_take] at this
    omega

/-! ## Theorems -/

/-- What is detected, and when: from the bytes of one read, or the timeout. -/
theorem C41_classification (parse : Bytes → Parsed) (io : Inner) (f : First) (d : Detection) (p : PrefixedIo) :
    call parse io f = .ok (d, p) → 
      (d = .readTimeout ↔ f = .timeout) ∧
      (d = .http .h2 ↔ f ≠ .timeout ∧ Http2Start p.pre) ∧
      (d = .http .http1 ↔ f ≠ .timeout ∧ ¬ Http2Start p.pre ∧ Http1Start parse p.pre) ∧
      (d = .notHttp ↔ f ≠ .timeout ∧ ¬ Http2Start p.pre ∧ ¬ Http1Start parse p.pre) := by
  intro h
  unfold call at h
  simp only at h
  cases hd : detect parse (firstBytes io f) f with
  | error e => simp [hd] at h
  | ok d' =>
    simp only [hd, Except.ok.injEq, Prod.mk.injEq] at h
    obtain ⟨rfl, rfl⟩ := h
    dsimp only
    cases f with
    | timeout => simp only [detect, Except.ok.injEq] at hd; subst hd; simp
    | failed => simp [detect] at hd
    | read k =>
      generalize firstBytes io (.read k) = buf at hd ⊢
      simp only [detect] at hd
      by_cases h0 : buf.length = 0
      · simp [h0] at hd
      rw [if_neg h0] at hd
      by_cases h2 : Http2Start buf
      · rw [if_pos ((preface_iff buf).2 h2)] at hd
        simp only [Except.ok.injEq] at hd
        subst hd
        simp [h2]
      · rw [if_neg (fun h => h2 ((preface_iff buf).1 h))] at hd
        have hs := smallest_text
        by_cases h1 : buf.length ≥ smallestHttp1
        · rw [if_pos h1] at hd
          cases hp : parse buf <;> simp only [hp, Except.ok.injEq] at hd <;> subst hd <;>
            simp [h2, Http1Start, hp] <;> omega
        · rw [if_neg h1] at hd
          simp only [Except.ok.injEq] at hd
          subst hd
          have hn : ¬ Http1Start parse buf := fun h => h1 (by have := h.1; omega)
          simp [h2, hn]

/-- In every case the next service reads all the bytes the client sent, from the first on. -/
theorem C41_no_byte_is_lost (parse : Bytes → Parsed) (io : Inner) (f : First) (d : Detection) (p : PrefixedIo)
    (h : call parse io f = .ok (d, p)) :
    p.unread = io.unread ∧ p.io.written = io.written ∧
    ∀ ops, ((p.run ops).1.flatMap readBytes) ++ (p.run ops).2.unread = io.unread := by
  unfold call at h
  simp only at h
  cases hd : detect parse (firstBytes io f) f with
  | error e => simp [hd] at h
  | ok d' =>
    simp only [hd, Except.ok.injEq, Prod.mk.injEq] at h
    obtain ⟨rfl, rfl⟩ := h
    have hu : (PrefixedIo.mk (firstBytes io f) { io with unread := io.unread.drop (firstBytes io f).length }).unread =
        io.unread := by
      simp only [PrefixedIo.unread]
      have hp : firstBytes io f <+: io.unread := by
        cases f <;> simp [firstBytes, List.take_prefix]
      obtain ⟨t, ht⟩ := hp
      rw [← ht]
      simp
    exact ⟨hu, rfl, fun ops => (C39_reads_are_exact _ ops).trans hu⟩

/-- The connection is given up exactly when the read fails or finds the stream at its end. -/
theorem C41_errors (parse : Bytes → Parsed) (io : Inner) (f : First) :
    (call parse io f = .error .io ↔ f = .failed) ∧
    (call parse io f = .error .closed ↔ (∃ k, f = .read k) ∧ io.unread = []) := by
  cases f with
  | timeout => simp [call, detect]
  | failed => simp [call, detect]
  | read k =>
    have hb : firstBytes io (.read k) = [] ↔ io.unread = [] := by
      simp only [firstBytes, List.take_eq_nil_iff]
      constructor
      · rintro (h | h)
        · simp only [readCapacity] at h; omega
        · exact h
      · exact .inr
    by_cases h : io.unread = []
    · have := hb.2 h
      simp [call, detect, this, h]
    · have hne : ¬ (firstBytes io (.read k)).length = 0 := fun he => h (hb.1 (List.length_eq_zero_iff.1 he))
      have : ∃ d, detect parse (firstBytes io (.read k)) (.read k) = .ok d := by
        simp only [detect, if_neg hne]
        split
        · exact ⟨_, rfl⟩
        · split
          · split <;> exact ⟨_, rfl⟩
          · exact ⟨_, rfl⟩
      obtain ⟨d, hd⟩ := this
      simp [call, hd, h]

/-- C41. What is looked at is what the first read gave: the stream's next bytes, at least one and at most 1024 of them; after a timeout, nothing. -/
theorem C41_what_is_looked_at (parse : Bytes → Parsed) (io : Inner) (f : First) (d : Detection) (p : PrefixedIo)
    (h : call parse io f = .ok (d, p)) :
    (f = .timeout → p.pre = []) ∧
    (∀ k, f = .read k → p.pre ≠ [] ∧ p.pre.length ≤ 1024 ∧ p.pre <+: io.unread ∧
      (0 < k → k ≤ 1024 → k ≤ io.unread.length → p.pre.length = k)) := by
  have hp : p.pre = firstBytes io f := by
    unfold call at h
    simp only at h
    split at h
    · cases h
    · cases h; rfl
  refine ⟨fun hf => by rw [hp, hf]; rfl, fun k hf => ?_⟩
  subst hf
  have hne : p.pre ≠ [] := by
    intro he
    rw [he] at hp
    unfold call at h
    simp only [← hp, detect, List.length_nil, if_true] at h
    cases h
  refine ⟨hne, ?_, ?_, ?_⟩
  · rw [hp, firstBytes, List.length_take]; simp only [readCapacity]; omega
  · rw [hp, firstBytes]; exact List.take_prefix _ _
  · intro h0 h1 h2; rw [hp, firstBytes, List.length_take]; simp only [readCapacity]; omega

/-- Detection does not wait for more: an HTTP stream whose first read brings fewer than 14 bytes is not taken for
HTTP. -/
theorem C41_short_first_read_is_not_http (parse : Bytes → Parsed) (io : Inner) (k : Nat) (d : Detection)
    (p : PrefixedIo) (h : call parse io (.read k) = .ok (d, p)) (hk : p.pre.length < 14) : d = .notHttp := by
  have hc := C41_classification parse io _ d p h
  refine hc.2.2.2.2 ⟨by simp, ?_, ?_⟩
  · intro hp
    have := hp.length_le
    rw [preface_text] at this
    simp [h2Preface] at this
    omega
  · intro hp
    have := hp.1
    rw [smallest_text] at this
    simp only [smallestHttp1] at this
    omega

/-- Examples: the start of an HTTP/2 connection read in one piece, and in two. -/
def h2Start : Bytes := h2Preface ++ [13, 10, 13, 10, 83, 77, 13, 10, 13, 10]

example : ((call (fun _ => .error) ⟨h2Start, []⟩ (.read 24)).toOption.map (·.1)) = some (.http .h2) ∧
    ((call (fun _ => .error) ⟨h2Start, []⟩ (.read 13)).toOption.map (·.1)) = some .notHttp ∧
    ((call (fun _ => .tooManyHeaders) ⟨List.replicate 20 71, []⟩ (.read 20)).toOption.map (·.1)) =
      some (.http .http1) := by decide +kernel

end Verif.HttpDetect
