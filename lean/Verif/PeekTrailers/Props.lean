import Verif.PeekTrailers.Spec

/-!
# Property theorems: peeking at trailers (C04)
-/
namespace Verif.PeekTrailers

/-- What is left in a wrapper, in order. -/
def content : Peek → List Answer
  | .empty => []
  | .passthru b => yields b
  | .unary d t => (d.map dataAnswer).toList ++ (t.map trailersAnswer).toList
  | .buffered f s b => (f.map dataAnswer).toList ++ (s.map dataAnswer).toList ++ yields b

theorem dataAnswer_vis (d : Res Bytes) : (dataAnswer d != .pending && dataAnswer d != .done) = true := by
  cases d <;> rfl

theorem trailersAnswer_vis (d : Res Trailers) : (trailersAnswer d != .pending && trailersAnswer d != .done) = true := by
  cases d <;> rfl

/-- One poll takes the first thing left, or nothing; "done" is only answered when nothing is left. -/
theorem poll_content (p : Peek) :
    content p = seen [p.poll.2] ++ content p.poll.1 ∧ (p.poll.2 = .done → content p = []) := by
  have inner : ∀ b : List BodyItem, yields b = seen [(pollInner b).2] ++ yields (pollInner b).1 ∧
      ((pollInner b).2 = .done → yields b = []) := by
    intro b
    cases b with
    | nil => exact ⟨rfl, fun _ => rfl⟩
    | cons x r => cases x <;> simp [pollInner, yields, seen]
  cases p with
  | empty => exact ⟨rfl, fun _ => rfl⟩
  | passthru b => exact inner b
  | unary d t =>
    cases d with
    | some d =>
      refine ⟨by simp [content, Peek.poll, seen, List.filter, dataAnswer_vis], ?_⟩
      intro h; cases d <;> simp [Peek.poll, dataAnswer] at h
    | none =>
      cases t with
      | some t =>
        refine ⟨by simp [content, Peek.poll, seen, List.filter, trailersAnswer_vis], ?_⟩
        intro h; cases t <;> simp [Peek.poll, trailersAnswer] at h
      | none => exact ⟨rfl, fun _ => rfl⟩
  | buffered f s b =>
    cases f with
    | some f =>
      refine ⟨by simp [content, Peek.poll, seen, List.filter, dataAnswer_vis], ?_⟩
      intro h; cases f <;> simp [Peek.poll, dataAnswer] at h
    | none =>
      cases s with
      | some s =>
        refine ⟨by simp [content, Peek.poll, seen, List.filter, dataAnswer_vis], ?_⟩
        intro h; cases s <;> simp [Peek.poll, dataAnswer] at h
      | none => simpa [content, Peek.poll] using inner b

theorem polls_content (p : Peek) (n : Nat) :
    seen (p.polls n) <+: content p ∧ (.done ∈ p.polls n → seen (p.polls n) = content p) := by
  induction n generalizing p with
  | zero => simp [Peek.polls, seen]
  | succ n ih =>
    obtain ⟨h1, h2⟩ := poll_content p
    obtain ⟨i1, i2⟩ := ih p.poll.1
    have hs : seen (p.polls (n + 1)) = seen [p.poll.2] ++ seen (p.poll.1.polls n) := by
      simp only [Peek.polls, seen, ← List.filter_append, List.cons_append, List.nil_append]
    rw [hs]
    constructor
    · rw [h1]; exact (List.prefix_append_right_inj _).2 i1
    · intro hd
      simp only [Peek.polls, List.mem_cons] at hd
      rcases hd with hd | hd
      · have h0 := h2 hd.symm
        rw [h0] at h1
        have h3 := List.append_eq_nil_iff.1 h1.symm
        rw [h0, h3.1, List.nil_append]
        have := i1
        rw [h3.2] at this
        exact List.prefix_nil.1 this
      · rw [i2 hd]; exact h1.symm

theorem content_readBody (b : List BodyItem) (h : WellFormed b) : content (readBody b) = yields b := by
  induction b with
  | nil => rfl
  | cons x r ih =>
    cases x with
    | pending => exact ih h
    | err e => simp only [WellFormed] at h; simp [readBody, content, yields, h, dataAnswer]
    | frame f =>
      cases f with
      | trailers t => simp only [WellFormed] at h; simp [readBody, content, yields, h, trailersAnswer]
      | unknown => exact absurd h (by simp [WellFormed])
      | data d =>
        simp only [WellFormed] at h
        simp only [readBody, yields]
        cases r with
        | nil => rfl
        | cons y r =>
          cases y with
          | pending => simp [readSecond, content, yields, dataAnswer]
          | err e => simp only [WellFormed] at h; simp [readSecond, content, yields, dataAnswer, trailersAnswer, h]
          | frame f =>
            cases f with
            | data d' => simp [readSecond, content, yields, dataAnswer]
            | trailers t =>
              simp only [WellFormed] at h
              simp [readSecond, content, yields, dataAnswer, trailersAnswer, h]
            | unknown => exact absurd h (by simp [WellFormed])

/-- C04 (nothing lost or added). However often the wrapped body is polled, the consumer has seen an
initial part of exactly what the original body yields; and once it is told the body is done, it has
seen everything, including a final error. `eos`, the body's own end-of-stream report, is assumed true
only of bodies that yield nothing. -/
theorem C04_peeking_is_transparent (v : Version) (body : List BodyItem) (eos : Bool)
    (hwf : WellFormed body) (heos : eos = true → yields body = []) (n : Nat) :
    seen ((mapResponse v eos body).polls n) <+: yields body ∧
      (Answer.done ∈ (mapResponse v eos body).polls n → seen ((mapResponse v eos body).polls n) = yields body) := by
  have hc : content (mapResponse v eos body) = yields body := by
    have h2 : content (if eos then Peek.empty else readBody body) = yields body := by
      split
      · rename_i h; simp [content, heos h]
      · exact content_readBody body hwf
    cases v <;> first | rfl | exact h2
  rw [← hc]
  exact polls_content _ n

/-- C04 (no waiting is lost). Polling on always makes progress: after as many polls as the original
body has answers left plus one, the consumer has been told the body is done. -/
theorem C04_wrapped_body_ends (v : Version) (body : List BodyItem) (eos : Bool) :
    Answer.done ∈ (mapResponse v eos body).polls (body.length + 1) := by
  have pass : ∀ (b : List BodyItem) (k : Nat), b.length < k → Answer.done ∈ (Peek.passthru b).polls k := by
    intro b
    induction b with
    | nil => intro k hk; cases k with
      | zero => omega
      | succ k => simp [Peek.polls, Peek.poll, pollInner]
    | cons x r ih =>
      intro k hk
      cases k with
      | zero => omega
      | succ k =>
        have := ih k (by simp at hk; omega)
        cases x <;> simp [Peek.polls, Peek.poll, pollInner, this]
  have buf : ∀ (b : List BodyItem) (k : Nat), b.length < k → Answer.done ∈ (Peek.buffered none none b).polls k := by
    intro b
    induction b with
    | nil => intro k hk; cases k with
      | zero => omega
      | succ k => simp [Peek.polls, Peek.poll, pollInner]
    | cons x r ih =>
      intro k hk
      cases k with
      | zero => omega
      | succ k =>
        have := ih k (by simp at hk; omega)
        cases x <;> simp [Peek.polls, Peek.poll, pollInner, this]
  have un : ∀ k, Answer.done ∈ (Peek.unary none none).polls (k + 1) := by
    intro k; simp [Peek.polls, Peek.poll]
  have read : ∀ (b : List BodyItem) (k : Nat), b.length ≤ k → Answer.done ∈ (readBody b).polls (k + 1) := by
    intro b
    induction b with
    | nil => intro k _; simp [readBody, Peek.polls, Peek.poll]
    | cons x r ih =>
      intro k hk
      obtain ⟨k, rfl⟩ : ∃ k', k = k' + 1 := ⟨k - 1, by simp at hk; omega⟩
      simp only [List.length_cons, Nat.add_le_add_iff_right] at hk
      cases x with
      | pending => exact ih (k + 1) (by omega)
      | err e =>
        simp only [readBody, Peek.polls, Peek.poll, List.mem_cons]
        right; left; trivial
      | frame f =>
        cases f with
        | trailers t =>
          simp only [readBody, Peek.polls, Peek.poll, List.mem_cons]
          right; left; trivial
        | unknown => exact buf r (k + 1 + 1) (by omega)
        | data d =>
          simp only [readBody]
          cases r with
          | nil =>
            simp only [readSecond, Peek.polls, Peek.poll, List.mem_cons]
            right; left; trivial
          | cons y r =>
            simp only [List.length_cons] at hk
            obtain ⟨k, rfl⟩ : ∃ k', k = k' + 1 := ⟨k - 1, by omega⟩
            cases y with
            | pending =>
              simp only [readSecond]
              rw [Peek.polls]
              exact List.mem_cons_of_mem _ (buf r (k + 1 + 1) (by omega))
            | err e =>
              simp only [readSecond, Peek.polls, Peek.poll, List.mem_cons]
              right; right; left; trivial
            | frame f =>
              cases f with
              | data d' =>
                simp only [readSecond]
                rw [Peek.polls, Peek.polls]
                exact List.mem_cons_of_mem _ (List.mem_cons_of_mem _ (buf r (k + 1) (by omega)))
              | trailers t =>
                simp only [readSecond, Peek.polls, Peek.poll, List.mem_cons]
                right; right; left; trivial
              | unknown =>
                simp only [readSecond]
                rw [Peek.polls]
                exact List.mem_cons_of_mem _ (buf r (k + 1 + 1) (by omega))
  have h2 : Answer.done ∈ (if eos then Peek.empty else readBody body).polls (body.length + 1) := by
    split
    · simp [Peek.polls, Peek.poll]
    · exact read body _ (Nat.le_refl _)
  cases v <;> first | exact pass body _ (Nat.lt_succ_self _) | exact h2

/-- C04 (early trailers). Trailers are reported early only if they are all the body has left after at
most one DATA frame. -/
theorem C04_peeked_trailers_are_the_trailers (v : Version) (body : List BodyItem) (eos : Bool) (t : Trailers)
    (hwf : WellFormed body) (h : (mapResponse v eos body).peekTrailers = some t) :
    yields body = [.frame (.trailers t)] ∨ ∃ d, yields body = [.frame (.data d), .frame (.trailers t)] := by
  have read : (readBody body).peekTrailers = some t → yields body = [.frame (.trailers t)] ∨
      ∃ d, yields body = [.frame (.data d), .frame (.trailers t)] := by
    clear h
    intro h
    have hc := content_readBody body hwf
    rw [← hc]
    cases hr : readBody body with
    | empty => rw [hr] at h; cases h
    | passthru b => rw [hr] at h; cases h
    | buffered f s b => rw [hr] at h; cases h
    | unary d t' =>
      have hok : ∀ e, d ≠ some (.error e) ∨ t' = none := by
        clear h hc
        intro e
        induction body with
        | nil => simp [readBody] at hr
        | cons x r ih =>
          cases x with
          | pending => exact ih hwf hr
          | err e' => simp [readBody] at hr; exact Or.inr hr.2.symm
          | frame f =>
            cases f with
            | trailers t => simp [readBody] at hr; left; rw [← hr.1]; simp
            | unknown => simp [readBody] at hr
            | data d' =>
              simp only [readBody] at hr
              cases r with
              | nil => simp [readSecond] at hr; left; rw [← hr.1]; simp
              | cons y r =>
                cases y with
                | pending => simp [readSecond] at hr
                | err e => simp [readSecond] at hr; left; rw [← hr.1]; simp
                | frame f => cases f <;> simp [readSecond] at hr; left; rw [← hr.1]; simp
      rw [hr] at h
      cases t' with
      | none => simp [Peek.peekTrailers] at h
      | some t' =>
        cases t' with
        | error e => simp [Peek.peekTrailers] at h
        | ok t' =>
          simp [Peek.peekTrailers] at h
          subst h
          cases d with
          | none => left; rfl
          | some d =>
            cases d with
            | ok d => right; exact ⟨d, rfl⟩
            | error e => rcases hok e with h | h
                         · exact absurd rfl h
                         · cases h
  have h2 : (if eos then Peek.empty else readBody body).peekTrailers = some t → yields body = [.frame (.trailers t)] ∨
      ∃ d, yields body = [.frame (.data d), .frame (.trailers t)] := by
    split
    · intro h; cases h
    · exact read
  cases v <;> first | (cases h; done) | exact h2 h

/-- C04 (early trailers, converse). On HTTP/2, a response whose body is just trailers, or one DATA
frame immediately followed by trailers, has them reported early. -/
theorem C04_prompt_trailers_are_peeked (waits : Nat) (t : Trailers) (d : Bytes) (r : List BodyItem) :
    (mapResponse .http2 false (List.replicate waits .pending ++ .frame (.trailers t) :: r)).peekTrailers = some t ∧
    (mapResponse .http2 false (List.replicate waits .pending ++ .frame (.data d) :: .frame (.trailers t) :: r)).peekTrailers = some t := by
  simp only [mapResponse, Bool.false_eq_true, if_false]
  induction waits with
  | zero => exact ⟨rfl, rfl⟩
  | succ n ih => simpa [List.replicate_succ, readBody] using ih

/-- C04 (HTTP/1). Responses of HTTP versions before 2 are never touched. -/
theorem C04_http1_untouched (v : Version) (h : v = .http09 ∨ v = .http10 ∨ v = .http11) (body : List BodyItem) (eos : Bool) :
    mapResponse v eos body = .passthru body := by
  rcases h with rfl | rfl | rfl <;> rfl

/-- C04 (end of stream). When the wrapper reports end of stream, nothing more is yielded (given that
the inner body's own report is sound). -/
theorem C04_end_stream_sound (eos : List BodyItem → Bool) (hs : ∀ b, eos b = true → yields b = [])
    (p : Peek) (h : p.isEndStream eos = true) (n : Nat) : seen (p.polls n) = [] := by
  have hc : content p = [] := by
    cases p with
    | empty => rfl
    | passthru b => exact hs b h
    | unary d t => cases d <;> cases t <;> simp [Peek.isEndStream] at h <;> rfl
    | buffered f s b => cases f <;> cases s <;> simp [Peek.isEndStream] at h; simp [content, hs b h]
  have := (polls_content p n).1
  rw [hc] at this
  exact List.prefix_nil.1 this

/-- Bytes of data in a sequence of answers. -/
def dataLen : List Answer → Nat
  | [] => 0
  | .frame (.data d) :: r => d.length + dataLen r
  | _ :: r => dataLen r

/-- C04 (size). The wrapper's size hint brackets the data it will yield, if the inner body's does. -/
theorem C04_size_hint_sound (hint : List BodyItem → Nat × Option Nat)
    (hs : ∀ b, (hint b).1 ≤ dataLen (yields b) ∧ ∀ u, (hint b).2 = some u → dataLen (yields b) ≤ u) (p : Peek) :
    (p.sizeHint hint).1 ≤ dataLen (content p) ∧
      ∀ u, (p.sizeHint hint).2 = some u → dataLen (content p) ≤ u := by
  have happ : ∀ a b, dataLen (a ++ b) = dataLen a + dataLen b := by
    intro a b
    induction a with
    | nil => simp [dataLen]
    | cons x a ih => cases x with
      | frame f => cases f <;> simp [dataLen, ih]; omega
      | _ => simp [dataLen, ih]
  have hok : ∀ d : Option (Res Bytes), dataLen (d.map dataAnswer).toList = okLen d := by
    intro d; cases d with
    | none => rfl
    | some d => cases d <;> simp [dataLen, okLen, dataAnswer]
  have htr : ∀ d : Option (Res Trailers), dataLen (d.map trailersAnswer).toList = 0 := by
    intro d; cases d with
    | none => rfl
    | some d => cases d <;> simp [dataLen, trailersAnswer]
  cases p with
  | empty => simp [Peek.sizeHint, content, dataLen]
  | passthru b => exact hs b
  | unary d t =>
    simp only [content, happ, htr, hok]
    cases d with
    | none => simp [Peek.sizeHint]
    | some d => cases d <;> simp [Peek.sizeHint, okLen]
  | buffered f s b =>
    simp only [content, happ, hok, Peek.sizeHint]
    have := hs b
    refine ⟨by omega, ?_⟩
    intro u hu
    cases hup : (hint b).2 with
    | none => rw [hup] at hu; cases hu
    | some u' => rw [hup] at hu; simp at hu; have := this.2 u' hup; omega

/-- A body with two data frames, waiting, and trailers. -/
example : WellFormed [.pending, .frame (.data [1]), .frame (.data [2]), .pending, .frame (.trailers [])] ∧
    seen ((mapResponse .http2 false [.pending, .frame (.data [1]), .frame (.data [2]), .pending, .frame (.trailers [])]).polls 5) =
      [.frame (.data [1]), .frame (.data [2]), .frame (.trailers [])] := by
  constructor
  · simp [WellFormed, yields]
  · decide

end Verif.PeekTrailers
