import Verif.Replay.CapLemmas

/-!
# Property theorems: replay bodies (C01, C02, C52, C53)
-/
namespace Verif.Replay

/-! ## C01 - replayed bodies are faithful

The full claim is false of the code: a clone that is first polled while nothing has been read yet
keeps its "replay the buffer" flag set (replay.rs:180-192 clears it only when the buffer is
non-empty), so after reading the first chunk it replays that chunk. -/

/-- The full claim of C01 (prefix part): whatever the schedule, what a clone was handed is an initial
part of the body's data. -/
def FaithfulReplay : Prop :=
  ∀ (script : List BodyItem) (lower max : Nat) (w : World) (ops : List Op) (i : Nat),
    tryNew script lower max = some w → delivered i (run w ops).2 <+: dataOf script

/-- C01 fails: a request body `[1]` dropped unread and retried is sent as `[1, 1]`. -/
theorem C01_faithful_replay_fails : ¬ FaithfulReplay := by
  intro h
  have := h [.frame (.data [1])] 0 64 _ [.clone 0, .drop 0, .poll 1, .poll 1] 1 rfl
  revert this
  decide

/-- C01, how it fails: for *every* body whose first frame is a non-empty chunk within the limit, a
retry whose first attempt never read the body sends that chunk twice. -/
theorem C01_unread_retry_duplicates_first_chunk (d : Bytes) (rest : List BodyItem) (lower max : Nat)
    (w : World) (hd : d ≠ []) (hlen : d.length ≤ max)
    (hw : tryNew (.frame (.data d) :: rest) lower max = some w) :
    (run w [.clone 0, .drop 0, .poll 1, .poll 1]).2 =
      [(.clone 0, .unit), (.drop 0, .unit), (.poll 1, .data d), (.poll 1, .data d)] := by
  unfold tryNew at hw
  split at hw
  · cases hw
  · cases hw
    have h1 : max + 1 - d.length ≠ 0 := by omega
    have h2 : 0 < d.length := List.length_pos_iff.2 hd
    simp [run, World.step, World.clone, World.drop, World.poll, pollOwned, remaining,
      BodyState.isCapped, BodyState.recordBytes, h1, h2]

/-- C01, what holds (prefix part): the original, and every clone first polled after at least one byte
had been read by anyone (and every clone of a data-less body), is handed an initial part of the
body's data - nothing lost, repeated or reordered. Missing from the full claim: clones first polled
before any byte was read. -/
theorem C01_replay_prefix_partial (script : List BodyItem) (lower max : Nat) (w : World)
    (ops : List Op) (i : Nat) (hw : tryNew script lower max = some w)
    (hg : i = 0 ∨ Primed i (run w ops).2 ∨ dataOf script = []) :
    delivered i (run w ops).2 <+: dataOf script := by
  obtain ⟨s', got', hinv⟩ := (Inv.init hw).run ops
  rw [List.nil_append] at hinv
  exact (hinv.done i hg).1

/-- C01, what holds (completeness part): when such a clone is told the body has ended, it has been
handed all of the data and exactly the body's trailers. -/
theorem C01_replay_complete_partial (script : List BodyItem) (lower max : Nat) (w : World)
    (ops : List Op) (i : Nat) (hw : tryNew script lower max = some w)
    (hg : i = 0 ∨ Primed i (run w ops).2 ∨ dataOf script = []) (hu : NoUnknown script)
    (he : (Op.poll i, Out.eos) ∈ (run w ops).2) :
    delivered i (run w ops).2 = dataOf script ∧
      deliveredTrailers i (run w ops).2 = (trailersOf script).toList := by
  obtain ⟨s', got', hinv⟩ := (Inv.init hw).run ops
  rw [List.nil_append] at hinv
  exact (hinv.done i hg).2.1 hu he

/-- The hypotheses of the two theorems above are met by a retry after a partial read, with trailers. -/
example : ∃ w, tryNew [.frame (.data [1, 2]), .pending, .frame (.data [3]), .frame (.trailers [("a", "b")])] 0 64 = some w ∧
    let log := (run w [.clone 0, .poll 0, .drop 0, .poll 1, .poll 1, .poll 1, .poll 1, .poll 1]).2
    Primed 1 log ∧ (Op.poll 1, Out.eos) ∈ log ∧ delivered 1 log = [1, 2, 3] ∧
      deliveredTrailers 1 log = [[("a", "b")]] := by
  refine ⟨_, rfl, ?_, by decide, by decide, by decide⟩
  exact ⟨[(.clone 0, .unit), (.poll 0, .data [1, 2]), (.drop 0, .unit)], _, rfl,
    by simp, 0, [1, 2], by simp, by simp⟩

/-! ## C02 - buffering is bounded, overflow is never silent -/

/-- A body is handed back unwrapped exactly when its declared lower size bound exceeds the limit. -/
theorem C02_too_large_is_rejected (script : List BodyItem) (lower max : Nat) :
    tryNew script lower max = none ↔ lower > max := by
  unfold tryNew; split <;> simp [*]

/-- The bytes buffered for replay never exceed the configured limit, in any schedule. -/
theorem C02_buffer_bounded (script : List BodyItem) (lower max : Nat) (w : World) (ops : List Op)
    (hw : tryNew script lower max = some w) :
    ∀ s ∈ (run w ops).1.states, (s.replay.map List.length).sum ≤ max := by
  obtain ⟨s', got', hinv⟩ := (Inv.init hw).run ops
  intro s hs
  have := hinv.loc.mem_states hs
  subst this
  change remaining s.replay ≤ max
  rw [remaining_eq]
  rcases hinv.core.cap with ⟨h1, h2, h3⟩ | ⟨_, h2, _⟩
  · rw [h2]; omega
  · simp [h2]

/-- There is always exactly one copy of the body state (so the bound above is a bound on the total). -/
theorem C02_single_state (script : List BodyItem) (lower max : Nat) (w : World) (ops : List Op)
    (hw : tryNew script lower max = some w) :
    ∃ s, ∀ s', s' ∈ (run w ops).1.states ↔ s' = s := by
  obtain ⟨s, got', hinv⟩ := (Inv.init hw).run ops
  refine ⟨s, fun s' => ⟨fun h => hinv.loc.mem_states h, ?_⟩⟩
  rintro rfl
  rw [mem_states_iff]
  cases hinv.loc with
  | shared h _ => exact Or.inl h
  | owned _ k hk hget _ hst _ => exact Or.inr ⟨k, hk, hget, hst⟩

/-- Once a body is reported as having exceeded the limit, a clone that had not been read before only
ever answers with the "capped" error: it is never handed truncated data, trailers or an end. -/
theorem C02_capped_clone_only_errors (script : List BodyItem) (lower max : Nat) (w : World)
    (ops₁ ops₂ : List Op) (i j : Nat) (hw : tryNew script lower max = some w) (hi : i ≠ 0)
    (hcap : ((run w ops₁).1.isCapped j).2 = .isCapped (some true))
    (hfresh : ∀ o, (Op.poll i, o) ∈ (run w ops₁).2 → NoBody o) :
    ∀ o, (Op.poll i, o) ∈ (run (run w ops₁).1 ops₂).2 → o = .capped ∨ NoBody o := by
  obtain ⟨s, got, hinv⟩ := (Inv.init hw).run ops₁
  rw [List.nil_append] at hinv
  have hnp : ¬ Polled i (run w ops₁).2 := by
    rintro ⟨o, ho, hn⟩; exact hn (hfresh o ho)
  have hmax : s.maxBytes = 0 := by
    simp only [World.isCapped] at hcap
    split at hcap
    · cases hcap
    · rename_i h hget
      split at hcap
      · cases hcap
      · simp only [Out.isCapped.injEq] at hcap
        have key : ∀ s' ∈ (run w ops₁).1.states, s' = s := fun _ h => hinv.loc.mem_states h
        cases hst : h.state with
        | some s' =>
          have := key s' (mem_states_iff.2 (Or.inr ⟨j, h, hget, hst⟩))
          subst this
          simpa [hst, BodyState.isCapped] using hcap
        | none =>
          cases hsh : (run w ops₁).1.shared with
          | none => simp [hst, hsh] at hcap
          | some s' =>
            have := key s' (mem_states_iff.2 (Or.inl hsh))
            subst this
            simpa [hst, hsh, BodyState.isCapped] using hcap
  have hdead : ∀ s' ∈ (run w ops₁).1.states, Dead s' := by
    intro s' hs'
    have := hinv.loc.mem_states hs'
    subst this
    rcases hinv.core.cap with ⟨h1, _⟩ | ⟨h1, h2, _⟩
    · exact absurd hmax h1
    · exact ⟨h1, h2⟩
  refine dead_run hdead ?_ ops₂
  intro h hget ha
  cases hst : h.state with
  | none => exact (hinv.fresh i h hget ha hst).1
  | some s' =>
    have := hinv.loc.mem_states (mem_states_iff.2 (Or.inr ⟨i, h, hget, hst⟩))
    subst this
    rcases hinv.ownp i h hget hst with h0 | hp
    · exact absurd h0 hi
    · exact absurd hp hnp

/-- A body whose data fits in the limit is never reported as capped and never answers with the
"capped" error; a body is capped exactly when more than the limit has been read from it. -/
theorem C02_capped_iff_limit_exceeded (script : List BodyItem) (lower max : Nat) (w : World)
    (ops : List Op) (hw : tryNew script lower max = some w) :
    ∀ s ∈ (run w ops).1.states,
      (s.isCapped = true ↔
        max < (dataOf script).length - (if s.isCompleted then 0 else (dataOf s.rest).length)) := by
  obtain ⟨s', got', hinv⟩ := (Inv.init hw).run ops
  intro s hs
  have := hinv.loc.mem_states hs
  subst this
  have ht := congrArg List.length hinv.core.total
  simp only [List.length_append, left] at ht
  have hl : (if s.isCompleted then 0 else (dataOf s.rest).length) =
      (if s.isCompleted then [] else dataOf s.rest : Bytes).length := by split <;> simp
  rw [hl]
  simp only [BodyState.isCapped, beq_iff_eq]
  rcases hinv.core.cap with ⟨h1, h2, h3⟩ | ⟨h1, h2, h3⟩
  · constructor
    · intro h; exact absurd h h1
    · intro h; omega
  · constructor
    · intro _; omega
    · intro _; exact h1

/-- The clone that is being read when the limit is exceeded is not disturbed: a clone covered by C01
that is ever answered "capped" had never been handed anything. (Partial in the same way as C01.) -/
theorem C02_active_clone_undisturbed_partial (script : List BodyItem) (lower max : Nat) (w : World)
    (ops : List Op) (i : Nat) (hw : tryNew script lower max = some w)
    (hg : i = 0 ∨ Primed i (run w ops).2 ∨ dataOf script = [])
    (hc : (Op.poll i, Out.capped) ∈ (run w ops).2) :
    delivered i (run w ops).2 = [] ∧ deliveredTrailers i (run w ops).2 = [] ∧
      (Op.poll i, Out.eos) ∉ (run w ops).2 := by
  obtain ⟨s', got', hinv⟩ := (Inv.init hw).run ops
  rw [List.nil_append] at hinv
  exact (hinv.done i hg).2.2 hc

/-- The hypotheses of the capped theorems are met: limit 2, three bytes read by the original. -/
example : ∃ w, tryNew [.frame (.data [1, 2]), .frame (.data [3])] 0 2 = some w ∧
    ((run w [.clone 0, .poll 0, .poll 0, .drop 0]).1.isCapped 1).2 = .isCapped (some true) ∧
    (run w [.clone 0, .poll 0, .poll 0, .drop 0, .poll 1]).2.getLast? = some (.poll 1, .capped) :=
  ⟨_, rfl, by decide, by decide⟩

/-- Against the documentation (replay.rs:83-87), an active clone can be cut off by the cap: a clone
taken over unread reads a first chunk larger than the limit and is then answered "capped". -/
theorem C02_active_clone_can_be_cut_off :
    ∃ w, tryNew [.frame (.data [1, 2, 3]), .frame (.data [4])] 0 2 = some w ∧
      (run w [.clone 0, .drop 0, .poll 1, .poll 1]).2 =
        [(.clone 0, .unit), (.drop 0, .unit), (.poll 1, .data [1, 2, 3]), (.poll 1, .capped)] :=
  ⟨_, rfl, by decide⟩

/-! ## C52 - the replayed data obeys the `Buf` contract -/

/-- The contract as `bytes::Buf` documents it: a buffer with bytes left has a non-empty chunk. -/
def ChunkContract (c : Chunks) : Prop := 0 < (c.map List.length).sum → chunk c ≠ []

/-- C52 fails: an empty DATA frame followed by data leaves a buffer with bytes left and an empty chunk,
and this buffer is what a retry hands to the client. -/
theorem C52_chunk_contract_fails :
    ∃ w, tryNew [.frame (.data []), .frame (.data [104, 105])] 0 64 = some w ∧
      ∃ s ∈ (run w [.clone 0, .poll 0, .poll 0, .drop 0, .poll 1]).1.states,
        s.replay = [[], [104, 105]] ∧ ¬ ChunkContract s.replay := by
  refine ⟨_, rfl, ?_⟩
  refine ⟨{ replay := [[], [104, 105]], trailers := none, rest := [], isCompleted := false, maxBytes := 63 },
    by decide, rfl, ?_⟩
  simp [ChunkContract, chunk]

/-- C52, consequence: copying that buffer out never terminates, whatever the number of iterations. -/
theorem C52_copy_never_terminates (fuel : Nat) :
    copyToBytes fuel [[], [104, 105]] 2 = .looping := by
  have : ∀ fuel acc, putLoop fuel acc [[], [104, 105]] 2 = .looping := by
    intro fuel
    induction fuel with
    | zero => intro acc; rfl
    | succ n ih =>
      intro acc
      simp only [putLoop, remaining, chunk]
      simpa [advance] using ih acc
  simpa [copyToBytes, remaining] using this fuel []

/-- C52, what holds: a buffer without empty chunks obeys the contract. -/
theorem C52_chunk_contract_partial (c : Chunks) (h : ∀ b ∈ c, b ≠ []) : ChunkContract c :=
  fun hr => chunk_ne_nil h hr

/-- C52, what holds: advancing by `n ≤ remaining` drops exactly the first `n` bytes (for every buffer). -/
theorem C52_advance_drops (c : Chunks) (n : Nat) (h : n ≤ (c.map List.length).sum) :
    ∃ c', advance c n = some c' ∧ c'.flatten = c.flatten.drop n :=
  advance_flatten c n h

/-- C52, what holds: for a buffer without empty chunks, `copy_to_bytes(len)` terminates and yields
exactly the first `len` bytes, leaving the rest. -/
theorem C52_copy_to_bytes_partial (c : Chunks) (len : Nat) (h : ∀ b ∈ c, b ≠ [])
    (hlen : len ≤ (c.map List.length).sum) :
    ∃ c', copyToBytes (len + 1) c len = .done (c.flatten.take len) c' ∧
      c'.flatten = c.flatten.drop len := by
  have hlen' : len ≤ remaining c := hlen
  unfold copyToBytes
  cases c with
  | nil =>
    simp only [remaining, List.map_nil, List.sum_nil, Nat.le_zero] at hlen'
    subst hlen'
    exact ⟨[], by simp [putLoop, remaining], rfl⟩
  | cons b bs =>
    simp only
    split
    · rename_i hb
      refine ⟨_, by rw [List.flatten_cons, List.take_append_of_le_length hb], ?_⟩
      split
      · rename_i h0
        have : len = b.length := by simp at h0; omega
        subst this; simp
      · rw [List.flatten_cons, List.flatten_cons, List.drop_append_of_le_length hb]
    · obtain ⟨c', h1, h2⟩ := putLoop_spec (len + 1) [] (b :: bs) len h hlen' (Nat.lt_succ_self _)
      exact ⟨c', by simpa using h1, h2⟩

example : ChunkContract [[1, 2], [3]] ∧
    copyToBytes 4 [[1, 2], [3]] 3 = .done [1, 2, 3] [] := by
  constructor
  · exact C52_chunk_contract_partial _ (by simp)
  · decide

/-! ## C53 - end-of-stream reports are sound -/

/-- When a clone reports `is_end_stream`, polling it yields the end (or it does not own the body).
`restEos` is the inner body's own report, assumed sound. -/
theorem C53_end_stream_sound (script : List BodyItem) (lower max : Nat) (w : World) (ops : List Op)
    (restEos : List BodyItem → Bool) (hs : ∀ r, restEos r = true → r = [])
    (hw : tryNew script lower max = some w) (i : Nat) (h : Handle)
    (hget : (run w ops).1.handles[i]? = some h)
    (he : h.isEndStream (restEos script) restEos = true) :
    ((run w ops).1.poll i).2 = .eos ∨ NoBody ((run w ops).1.poll i).2 := by
  by_cases hemp : restEos script = true
  · have hscript := hs _ hemp
    subst hscript
    have hall : ∀ s ∈ (run w ops).1.states,
        s.rest = [] ∧ s.trailers = none ∧ s.replay = [] ∧ s.maxBytes ≠ 0 := by
      refine states_run (P := fun s => s.rest = [] ∧ s.trailers = none ∧ s.replay = [] ∧ s.maxBytes ≠ 0) ?_ ?_ ops
      · rintro rb rt s ⟨h1, h2, h3, h4⟩
        cases hc : s.isCompleted <;>
          simp [pollOwned, h1, h2, h3, h4, remaining, BodyState.isCapped, hc]
      · unfold tryNew at hw
        split at hw
        · cases hw
        · cases hw
          intro s hs
          simp [World.states] at hs
          subst hs; simp
    have hp : ∀ rb rt s, s ∈ (run w ops).1.states → (pollOwned rb rt s).2 = .eos := by
      intro rb rt s hs
      obtain ⟨h1, h2, h3, h4⟩ := hall s hs
      cases hc : s.isCompleted <;>
        simp [pollOwned, h1, h2, h3, h4, remaining, BodyState.isCapped, hc]
    simp only [World.poll, hget]
    split
    · exact Or.inr (Or.inr rfl)
    · split
      · rename_i s0 hst
        exact Or.inl (hp _ _ _ (mem_states_iff.2 (Or.inr ⟨i, h, hget, hst⟩)))
      · rename_i s0 hst hsh
        exact Or.inl (hp _ _ _ (mem_states_iff.2 (Or.inl hsh)))
      · exact Or.inr (Or.inl rfl)
  · simp only [Handle.isEndStream, hemp, Bool.false_eq_true, if_false] at he
    cases hst : h.state with
    | none => simp [hst] at he
    | some s =>
      simp only [hst, Bool.and_eq_true, Bool.not_eq_true'] at he
      obtain ⟨⟨hrb, hrt⟩, hre⟩ := he
      have hrest := hs _ hre
      simp only [World.poll, hget, hst]
      split
      · exact Or.inr (Or.inr rfl)
      · left
        cases hc : s.isCompleted <;> simp [pollOwned, hrb, hrt, hrest, hc]

end Verif.Replay
