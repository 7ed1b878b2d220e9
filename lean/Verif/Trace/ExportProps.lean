import Verif.Trace.Export

/-!
# C91: spans are exported once, in order
-/

namespace Verif.Trace

open Verif

/-- The spans that were taken into the channel, in order, over a run. -/
def acceptedBy (y : Exporter) : List XOp → List Span
  | [] => []
  | op :: ops =>
    (match op with
     | .offer s => if y.accepts && !y.sendersGone then [s] else []
     | _ => []) ++ acceptedBy (y.step op) ops

/-- What waits in the task. -/
def Phase.held : Phase → List Exported
  | .collecting acc => acc
  | .sending b _ => b
  | .stopped => []

/-- Everything that is on its way, or was. -/
def Exporter.all (y : Exporter) : List Exported :=
  y.calls.flatten ++ (y.channel.getD [] ++ (y.phase.held ++ y.queue.filterMap (convert y.labels)))

/-- What holds all along. -/
structure XInv (y : Exporter) : Prop where
  sizes : ∀ b ∈ y.calls, 0 < b.length ∧ b.length ≤ maxBatch
  channel : ∀ b, y.channel = some b → y.phase ≠ .stopped → 0 < b.length ∧ b.length ≤ maxBatch
  phase : match y.phase with
    | .collecting acc => acc.length < maxBatch
    | .sending b last => b.length ≤ maxBatch ∧ (last = false → 0 < b.length) ∧ (last = true → y.queue = [])
    | .stopped => y.queue = [] ∧ y.channel.isSome
  ended : (match y.phase with
    | .collecting _ => True
    | .sending _ last => last = true → y.sendersGone = true
    | .stopped => y.sendersGone = true)

theorem xinv_new (labels : Labels) : XInv (.new labels) := by
  refine ⟨?_, ?_, ?_, ?_⟩ <;> simp [Exporter.new, maxBatch]

theorem step_labels (y : Exporter) (op : XOp) : (y.step op).labels = y.labels := by
  cases op <;> simp only [Exporter.step] <;> split <;> rfl

theorem step_all (y : Exporter) (op : XOp) (h : XInv y) :
    (y.step op).all = y.all ++ (acceptedBy y [op]).filterMap (convert y.labels) := by
  cases op with
  | offer s =>
    simp only [Exporter.step, acceptedBy]
    split
    · simp [Exporter.all, List.filterMap_append]
    · simp
  | close => simp [Exporter.step, acceptedBy, Exporter.all]
  | take =>
    simp only [Exporter.step, acceptedBy, List.append_nil, List.filterMap_nil]
    split
    · rename_i acc s q hp hq
      have : (collected (acc ++ (convert y.labels s).toList)).held = acc ++ (convert y.labels s).toList := by
        unfold collected; split <;> rfl
      have hh : (Phase.collecting acc).held = acc := rfl
      simp only [Exporter.all, hp, hq, this, hh]
      rw [List.filterMap_cons]
      cases convert y.labels s <;> simp
    · rfl
  | tick =>
    simp only [Exporter.step, acceptedBy, List.append_nil, List.filterMap_nil]
    split
    · rename_i e acc hp
      simp [Exporter.all, hp, Phase.held]
    · rfl
  | gone =>
    simp only [Exporter.step, acceptedBy, List.append_nil, List.filterMap_nil]
    split
    · rename_i acc hp hq hs
      simp [Exporter.all, hp, Phase.held]
    · rfl
  | reserve =>
    simp only [Exporter.step, acceptedBy, List.append_nil, List.filterMap_nil]
    split
    · rename_i b last hp hc
      cases last <;> simp [Exporter.all, hp, hc, Phase.held]
    · rfl
  | recv =>
    simp only [Exporter.step, acceptedBy, List.append_nil, List.filterMap_nil]
    split
    · rfl
    · rename_i b hb hc hn
      simp [Exporter.all, hc]
    · rfl
  | answer ok =>
    simp only [Exporter.step, acceptedBy, List.append_nil, List.filterMap_nil]
    split <;> rfl

theorem xinv_step (y : Exporter) (op : XOp) (h : XInv y) : XInv (y.step op) := by
  obtain ⟨h1, h2, h3, h4⟩ := h
  cases op with
  | offer s =>
    simp only [Exporter.step]
    split
    · rename_i ha
      simp only [Bool.and_eq_true, Bool.not_eq_true', Exporter.accepts, bne_iff_ne, ne_eq, decide_eq_true_eq] at ha
      refine ⟨h1, h2, ?_, h4⟩
      revert h3 h4
      cases hp : y.phase with
      | collecting acc => exact fun h _ => h
      | sending b last =>
        rintro ⟨a, b, -⟩ h4
        refine ⟨a, b, ?_⟩
        intro hl
        rw [h4 hl] at ha
        simp at ha
      | stopped => exact absurd hp ha.1.1
    · exact ⟨h1, h2, h3, h4⟩
  | close =>
    refine ⟨h1, h2, h3, ?_⟩
    simp only [Exporter.step]
    split <;> simp
  | take =>
    simp only [Exporter.step]
    split
    · rename_i acc s q hp hq
      simp only [hp] at h3
      have hlen : (acc ++ (convert y.labels s).toList).length ≤ maxBatch := by
        have : (convert y.labels s).toList.length ≤ 1 := by cases convert y.labels s <;> simp
        simp only [List.length_append]; omega
      refine ⟨h1, fun b hb _ => h2 b hb (by rw [hp]; simp), ?_, ?_⟩
      · simp only [collected]
        by_cases hl : (acc ++ (convert y.labels s).toList).length = maxBatch
        · simp only [hl, if_true]
          exact ⟨Nat.le_refl _, fun _ => by decide, by simp⟩
        · simp only [hl, if_false]
          omega
      · simp only [collected]
        by_cases hl : (acc ++ (convert y.labels s).toList).length = maxBatch
        · simp only [hl, if_true]; simp
        · simp only [hl, if_false]
    · exact ⟨h1, h2, h3, h4⟩
  | tick =>
    simp only [Exporter.step]
    split
    · rename_i e acc hp
      simp only [hp] at h3
      refine ⟨h1, fun b hb _ => h2 b hb (by rw [hp]; simp), ?_, ?_⟩
      · exact ⟨by omega, fun _ => by simp, by simp⟩
      · simp
    · exact ⟨h1, h2, h3, h4⟩
  | gone =>
    simp only [Exporter.step]
    split
    · rename_i acc hp hq hs
      simp only [hp] at h3
      refine ⟨h1, fun b hb _ => h2 b hb (by rw [hp]; simp), ?_, ?_⟩
      · exact ⟨by omega, by simp, fun _ => hq⟩
      · exact fun _ => hs
    · exact ⟨h1, h2, h3, h4⟩
  | reserve =>
    simp only [Exporter.step]
    split
    · rename_i b last hp hc
      simp only [hp] at h3 h4
      cases last with
      | false =>
        refine ⟨h1, ?_, ?_, ?_⟩
        · intro b' hb' _
          simp only [Option.some.injEq] at hb'
          subst hb'
          exact ⟨h3.2.1 rfl, h3.1⟩
        · simp [maxBatch]
        · simp
      | true =>
        refine ⟨h1, ?_, ?_, ?_⟩
        · intro b' hb' hne
          simp at hne
        · simp [h3.2.2 rfl]
        · simpa using h4
    · exact ⟨h1, h2, h3, h4⟩
  | recv =>
    simp only [Exporter.step]
    split
    · exact ⟨h1, h2, h3, h4⟩
    · rename_i b hb hc hn
      have hne : y.phase ≠ .stopped := hn
      refine ⟨?_, by simp, ?_, h4⟩
      · intro b' hb'
        simp only [List.mem_append, List.mem_singleton] at hb'
        rcases hb' with hb' | rfl
        · exact h1 _ hb'
        · exact h2 _ hc hne
      · revert h3
        cases hp : y.phase with
        | collecting acc => exact id
        | sending b last => exact id
        | stopped => exact absurd hp hne
    · exact ⟨h1, h2, h3, h4⟩
  | answer ok =>
    simp only [Exporter.step]
    split
    · exact ⟨h1, h2, h3, h4⟩
    · exact ⟨h1, h2, h3, h4⟩

theorem xinv_run (ops : List XOp) : ∀ (y : Exporter), XInv y → XInv (y.run ops) := by
  induction ops with
  | nil => exact fun _ h => h
  | cons op ops ih => exact fun y h => ih _ (xinv_step y op h)

theorem run_all (ops : List XOp) :
    ∀ (y : Exporter), XInv y → (y.run ops).all = y.all ++ (acceptedBy y ops).filterMap (convert y.labels) := by
  induction ops with
  | nil => intro y _; simp [Exporter.run, acceptedBy]
  | cons op ops ih =>
    intro y h
    have := ih (y.step op) (xinv_step y op h)
    simp only [Exporter.run, List.foldl_cons] at this ⊢
    rw [this, step_all y op h, step_labels]
    simp [acceptedBy, List.filterMap_append, List.append_assoc]

theorem run_labels (ops : List XOp) : ∀ (y : Exporter), (y.run ops).labels = y.labels := by
  induction ops with
  | nil => exact fun _ => rfl
  | cons op ops ih => intro y; exact (ih (y.step op)).trans (step_labels y op)

/-- C91. Whatever the schedule, the spans that were taken are told to the collector each once and in order, in batches of at
most 1000 and at least one: what was not told yet is still on its way. -/
theorem C91_told_once_in_order (labels : Labels) (ops : List XOp) :
    let y := (Exporter.new labels).run ops
    (∃ rest, y.calls.flatten ++ rest = (acceptedBy (.new labels) ops).filterMap (convert labels) ∧
      rest = y.channel.getD [] ++ (y.phase.held ++ y.queue.filterMap (convert labels))) ∧
    ∀ b ∈ y.calls, 0 < b.length ∧ b.length ≤ 1000 := by
  refine ⟨⟨_, ?_, rfl⟩, (xinv_run ops _ (xinv_new labels)).sizes⟩
  have := run_all ops (.new labels) (xinv_new labels)
  simp only [Exporter.all, run_labels] at this
  rw [show (Exporter.new labels).labels = labels from rfl] at this
  rw [this]
  simp [Exporter.new, Phase.held]

/-- C91. A span that is offered is refused only if a hundred are waiting, or the exporter has stopped, or no one can offer any
more. -/
theorem C91_refused_iff (y : Exporter) (s : Span) :
    acceptedBy y [.offer s] = [] ↔ 100 ≤ y.queue.length ∨ y.phase = .stopped ∨ y.sendersGone = true := by
  simp only [acceptedBy, List.append_nil, Exporter.accepts, spanBuffer]
  by_cases h1 : y.phase = .stopped <;> by_cases h2 : y.queue.length < 100 <;> by_cases h3 : y.sendersGone = true <;>
    simp [h1, h2, h3] <;> omega

/-- C91. What is told of a span: its ids, which must have their lengths, its name and times, and its labels with those of the
direction. -/
theorem C91_what_is_told (labels : Labels) (s : Span) (e : Exported) :
    convert labels s = some e ↔ s.parentId.length = 8 ∧ s.traceId.length = 16 ∧ s.spanId.length = 8 ∧
      e = ⟨s.traceId, s.spanId, s.parentId, s.name, s.start, s.stop, labels ++ s.labels, s.server⟩ := by
  unfold convert
  by_cases h1 : s.parentId.length = 8 <;> by_cases h2 : s.traceId.length = 16 <;> by_cases h3 : s.spanId.length = 8 <;>
    simp [h1, h2, h3, @eq_comm _ e]

/-- The exporter's own steps. -/
def internal : XOp → Bool
  | .offer _ => false
  | .close => false
  | _ => true

/-- Steps after which nothing is in the channel, or about to be. -/
def flush : List XOp := [.answer true, .recv, .reserve, .answer true, .recv]

theorem flush_collecting (y : Exporter) (acc : List Exported) (h : y.phase = .collecting acc) :
    (y.run flush).phase = .collecting acc ∧ (y.run flush).channel = none ∧ (y.run flush).queue = y.queue := by
  cases hb : y.channel <;> simp [Exporter.run, flush, Exporter.step, h, hb]

theorem flush_sending (y : Exporter) (b : List Exported) (h : y.phase = .sending b false) :
    (y.run flush).phase = .collecting [] ∧ (y.run flush).channel = none ∧ (y.run flush).queue = y.queue := by
  cases hb : y.channel <;> simp [Exporter.run, flush, Exporter.step, h, hb]

/-- Once nothing is held, what is in the queue can be told. -/
theorem drain (q : List Span) : ∀ (y : Exporter), y.phase = .collecting [] → y.channel = none → y.queue = q →
    ∃ ops, (∀ op ∈ ops, internal op = true) ∧ (y.run ops).phase = .collecting [] ∧ (y.run ops).channel = none ∧
      (y.run ops).queue = [] := by
  induction q with
  | nil => intro y h1 h2 h3; exact ⟨[], by simp, h1, h2, h3⟩
  | cons s q ih =>
    intro y h1 h2 h3
    have hstep : y.step .take = { y with queue := q, phase := .collecting (convert y.labels s).toList } := by
      have : collected (convert y.labels s).toList = .collecting (convert y.labels s).toList := by
        unfold collected
        rw [if_neg]
        cases convert y.labels s <;> simp [maxBatch]
      simp [Exporter.step, h1, h3, this]
    cases hc : convert y.labels s with
    | none =>
      obtain ⟨ops, ho, hr⟩ := ih (y.step .take) (by rw [hstep, hc]; rfl) (by rw [hstep]; exact h2) (by rw [hstep])
      exact ⟨.take :: ops, by simpa [internal] using ho, hr⟩
    | some e =>
      have htick : (y.step .take).step .tick = { y with queue := q, phase := .sending [e] false } := by
        rw [hstep, hc]; rfl
      obtain ⟨f1, f2, f3⟩ := flush_sending ((y.step .take).step .tick) [e] (by rw [htick])
      obtain ⟨ops, ho, hr⟩ := ih _ f1 f2 (by rw [f3, htick])
      refine ⟨.take :: .tick :: (flush ++ ops), ?_, ?_⟩
      · intro op hop
        simp only [List.mem_cons, List.mem_append] at hop
        rcases hop with rfl | rfl | hop | hop
        · rfl
        · rfl
        · revert op; decide
        · exact ho op hop
      · simpa [Exporter.run, List.foldl_append] using hr

theorem acceptedBy_internal (ops : List XOp) (h : ∀ op ∈ ops, internal op = true) : ∀ y : Exporter, acceptedBy y ops = [] := by
  induction ops with
  | nil => exact fun _ => rfl
  | cons op ops ih =>
    intro y
    simp only [acceptedBy]
    rw [ih (fun o ho => h o (List.mem_cons_of_mem _ ho))]
    have := h op (List.mem_cons_self ..)
    cases op <;> simp [internal] at this ⊢

/-- C91. As long as the proxy runs, nothing keeps a span from being told: from any state there are steps of the exporter's own
after which everything that was taken is told. -/
theorem C91_all_can_be_told (labels : Labels) (ops : List XOp)
    (h : ((Exporter.new labels).run ops).sendersGone = false) :
    ∃ more, (∀ op ∈ more, internal op = true) ∧
      (((Exporter.new labels).run (ops ++ more)).calls.flatten =
        (acceptedBy (.new labels) ops).filterMap (convert labels)) := by
  have hinv := xinv_run ops _ (xinv_new labels)
  have hall := run_all ops _ (xinv_new labels)
  generalize hy : (Exporter.new labels).run ops = y at *
  have hl : y.labels = labels := by rw [← hy, run_labels]; rfl
  -- first, what is held
  have hfirst : ∃ o1, (∀ op ∈ o1, internal op = true) ∧ (y.run o1).phase = .collecting [] ∧ (y.run o1).channel = none := by
    cases hp : y.phase with
    | stopped => have := hinv.ended; rw [hp] at this; simp [h] at this
    | sending b last =>
      cases last with
      | true => have := hinv.ended; rw [hp] at this; simp [h] at this
      | false =>
        obtain ⟨f1, f2, -⟩ := flush_sending y b hp
        exact ⟨flush, by decide, f1, f2⟩
    | collecting acc =>
      cases acc with
      | nil =>
        obtain ⟨f1, f2, -⟩ := flush_collecting y [] hp
        exact ⟨flush, by decide, f1, f2⟩
      | cons e acc =>
        have : (y.step .tick).phase = .sending (e :: acc) false := by simp [Exporter.step, hp]
        obtain ⟨f1, f2, -⟩ := flush_sending (y.step .tick) _ this
        exact ⟨.tick :: flush, by decide, f1, f2⟩
  obtain ⟨o1, ho1, hp1, hc1⟩ := hfirst
  obtain ⟨o2, ho2, hp2, hc2, hq2⟩ := drain _ (y.run o1) hp1 hc1 rfl
  have ho : ∀ op ∈ o1 ++ o2, internal op = true := by
    intro op hop
    rcases List.mem_append.1 hop with hop | hop
    · exact ho1 op hop
    · exact ho2 op hop
  refine ⟨o1 ++ o2, ho, ?_⟩
  have e : (Exporter.new labels).run (ops ++ (o1 ++ o2)) = (y.run o1).run o2 := by
    rw [← hy]; simp [Exporter.run, List.foldl_append]
  rw [e]
  have hrun : y.run (o1 ++ o2) = (y.run o1).run o2 := by simp [Exporter.run, List.foldl_append]
  have h1 := run_all (o1 ++ o2) y hinv
  rw [acceptedBy_internal _ ho, hrun, hall] at h1
  simp only [Exporter.all, hp2, hc2, hq2, Phase.held, Option.getD_none, List.filterMap_nil, List.append_nil] at h1
  rw [h1]
  simp [Exporter.new, Phase.held]

/-- C91, a limit. When the proxy ends, the spans that were collected since the last batch are made one more batch, and that one is
never told. -/
theorem C91_limit_last_batch_is_lost (labels : Labels) (ops : List XOp)
    (h : ((Exporter.new labels).run ops).phase = .stopped) :
    ∃ b, ((Exporter.new labels).run ops).channel = some b ∧
      ((Exporter.new labels).run ops).calls.flatten ++ b = (acceptedBy (.new labels) ops).filterMap (convert labels) ∧
      ∀ more, ((Exporter.new labels).run (ops ++ more)).calls = ((Exporter.new labels).run ops).calls := by
  have hinv := xinv_run ops _ (xinv_new labels)
  have hall := run_all ops _ (xinv_new labels)
  have hl : ((Exporter.new labels).run ops).labels = labels := by rw [run_labels]; rfl
  have hp := hinv.phase
  rw [h] at hp
  obtain ⟨hq, hc⟩ := hp
  rw [Option.isSome_iff_exists] at hc
  obtain ⟨b, hb⟩ := hc
  refine ⟨b, hb, ?_, ?_⟩
  · simp only [Exporter.all, h, hq, hb, Phase.held, Option.getD_some, List.filterMap_nil, List.append_nil] at hall
    rw [hall]
    simp [Exporter.new, Phase.held]
  · intro more
    have : ∀ (more : List XOp) (y : Exporter), y.phase = .stopped → (y.run more).calls = y.calls := by
      intro more
      induction more with
      | nil => exact fun _ _ => rfl
      | cons op more ih =>
        intro y hy
        have hs : (y.step op).phase = .stopped ∧ (y.step op).calls = y.calls := by
          cases op with
          | offer s => simp [Exporter.step, Exporter.accepts, hy]
          | close => exact ⟨hy, rfl⟩
          | answer ok => simp [Exporter.step, hy]
          | _ => simp [Exporter.step, hy]
        exact (ih _ hs.1).trans hs.2
    have := this more _ h
    simpa [Exporter.run, List.foldl_append] using this

def exSpan (n : UInt8) : Span :=
  ⟨List.replicate 16 7, List.replicate 8 n, List.replicate 8 9, "/".toList, 0, 1, [], true⟩

/-- A run: two spans are told in one batch, and the last one is lost. -/
example : let y := (Exporter.new []).run [.offer (exSpan 1), .offer (exSpan 2), .take, .take, .tick, .reserve, .recv,
      .offer (exSpan 3), .close, .take, .gone, .reserve]
    y.calls.map (·.map (·.spanId)) = [[List.replicate 8 1, List.replicate 8 2]] ∧ y.phase = .stopped := by decide +kernel

/-- C91, a limit. A batch that the collector refuses, or that could not be sent, is not sent again. -/
theorem C91_limit_failed_batches_are_not_retried (y : Exporter) : y.step (.answer false) = y.step (.answer true) := rfl

end Verif.Trace
