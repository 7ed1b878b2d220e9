import Verif.Circuit.Lemmas

namespace Verif.Circuit

variable {σ : Type} (p : Breaker.Policy σ) (wait : Nat → Nat) (cap t0 : Nat)

/-- The state of a request, from what became of it. -/
def flightOf (l : Life) : Flight :=
  match l.history, l.live with
  | .abandoned, true => .waiting l.classify
  | .abandoned, false => .gone
  | .failed _, _ => .gone
  | .responded x fs false, _ =>
    .body (match fs.findSome? Classify.Frame.ending with
      | some _ => none
      | none => l.classify.map fun c => (classifier c).start x)
  | .responded _ _ true, _ => .gone

/-- What an event does to the request it is about. -/
def Life.next (o : Op) (l : Life) : Life :=
  match o with
  | .fail _ => l.onFail
  | .respond _ s h => l.onRespond s h
  | .abandon _ => l.onAbandon
  | .frame _ f => l.onFrame f
  | .dropBody _ => l.onDropBody
  | _ => l

/-- The class that an event reports. -/
def Out.reports : Out → List Class
  | .reported c _ => [c]
  | _ => []

theorem reportAll_reports (w : World σ) (cs : List Class) (h : cs.length ≤ 1) : (w.reportAll cs).2.reports = cs := by
  cases cs with
  | nil => rfl
  | cons c cs =>
    cases cs with
    | nil => rfl
    | cons d cs => simp at h

theorem reportAll_flights (w : World σ) (cs : List Class) : (w.reportAll cs).1.flights = w.flights := by
  cases cs <;> rfl

theorem pollFrame_length (s : Option Classify.Eos) (f : Classify.Frame Unit HeaderMap) :
    (Classify.pollFrame eosClassifier s f).2.length ≤ 1 := by
  cases f <;> cases s <;> simp [Classify.pollFrame]

theorem request_step (w : World σ) (o : Op) (r : Nat) (ho : o.request = some r) :
    (∀ k, k ≠ r → (w.step p wait o).1.flights[k]? = w.flights[k]?) ∧
    (w.flights[r]? = none → (w.step p wait o).1.flights[r]? = none ∧ (w.step p wait o).2.reports = []) ∧
    (∀ l : Life, w.flights[r]? = some (flightOf l) →
      (w.step p wait o).1.flights[r]? = some (flightOf (l.next o)) ∧
      l.expected.toList ++ (w.step p wait o).2.reports = (l.next o).expected.toList) := by
  have ne : ∀ (k : Nat) (f : Flight), k ≠ r → (w.flights.set r f)[k]? = w.flights[k]? :=
    fun k f h => List.getElem?_set_ne (Ne.symm h)
  have self : ∀ (f g : Flight), w.flights[r]? = some f → (w.flights.set r g)[r]? = some g :=
    fun f g h => List.getElem?_set_self (lt_of_getElem?_some h)
  cases o with
  | fail r' =>
    simp only [Op.request, Option.some.injEq] at ho; subst ho
    refine ⟨fun k hk => ?_, fun h => ?_, fun l h => ?_⟩
    · simp only [World.step, World.fail]
      split
      · exact ne k _ hk
      · exact ne k _ hk
      · rfl
    · simp only [World.step, World.fail, h]; exact ⟨trivial, rfl⟩
    · obtain ⟨c, hist, live⟩ := l
      simp only [World.step, World.fail, h]
      cases hist with
      | abandoned =>
        cases live with
        | true =>
          cases c with
          | some c => exact ⟨self _ _ h, rfl⟩
          | none => exact ⟨self _ _ h, rfl⟩
        | false => exact ⟨h, List.append_nil _⟩
      | failed e => exact ⟨h, List.append_nil _⟩
      | responded x fs d => cases d <;> exact ⟨h, List.append_nil _⟩
  | respond r' s hd =>
    simp only [Op.request, Option.some.injEq] at ho; subst ho
    refine ⟨fun k hk => ?_, fun h => ?_, fun l h => ?_⟩
    · simp only [World.step, World.respond]
      split
      · exact ne k _ hk
      · rfl
    · simp only [World.step, World.respond, h]; exact ⟨trivial, rfl⟩
    · obtain ⟨c, hist, live⟩ := l
      simp only [World.step, World.respond, h]
      cases hist with
      | abandoned =>
        cases live with
        | true => exact ⟨self _ _ h, by cases c <;> rfl⟩
        | false => exact ⟨h, List.append_nil _⟩
      | failed e => exact ⟨h, List.append_nil _⟩
      | responded x fs d => cases d <;> exact ⟨h, List.append_nil _⟩
  | abandon r' =>
    simp only [Op.request, Option.some.injEq] at ho; subst ho
    refine ⟨fun k hk => ?_, fun h => ?_, fun l h => ?_⟩
    · simp only [World.step, World.abandon]
      split
      · exact ne k _ hk
      · rfl
    · simp only [World.step, World.abandon, h]; exact ⟨trivial, rfl⟩
    · obtain ⟨c, hist, live⟩ := l
      simp only [World.step, World.abandon, h]
      cases hist with
      | abandoned =>
        cases live with
        | true => exact ⟨self _ _ h, by cases c <;> rfl⟩
        | false => exact ⟨h, List.append_nil _⟩
      | failed e => exact ⟨h, List.append_nil _⟩
      | responded x fs d => cases d <;> exact ⟨h, List.append_nil _⟩
  | frame r' f =>
    simp only [Op.request, Option.some.injEq] at ho; subst ho
    refine ⟨fun k hk => ?_, fun h => ?_, fun l h => ?_⟩
    · simp only [World.step, World.frame]
      split
      · rw [reportAll_flights]; exact ne k _ hk
      · rfl
    · simp only [World.step, World.frame, h]; exact ⟨trivial, rfl⟩
    · obtain ⟨c, hist, live⟩ := l
      simp only [World.step, World.frame, h]
      cases hist with
      | abandoned => cases live <;> exact ⟨h, List.append_nil _⟩
      | failed e => exact ⟨h, List.append_nil _⟩
      | responded x fs d =>
        cases d with
        | true => exact ⟨h, List.append_nil _⟩
        | false =>
          simp only [flightOf]
          rw [reportAll_flights, reportAll_reports _ _ (pollFrame_length _ _)]
          refine ⟨(self _ _ h).trans ?_, ?_⟩
          · simp only [Life.next, Life.onFrame, flightOf, List.findSome?_append]
            cases c with
            | none => cases fs.findSome? Classify.Frame.ending <;> cases f <;> rfl
            | some c => cases fs.findSome? Classify.Frame.ending <;> cases f <;> rfl
          · simp only [Life.next, Life.onFrame, Life.expected]
            cases c with
            | none => cases fs.findSome? Classify.Frame.ending <;> cases f <;> rfl
            | some c =>
              simp only [Classify.expected, List.findSome?_append]
              cases fs.findSome? Classify.Frame.ending <;> cases f <;> rfl
  | dropBody r' =>
    simp only [Op.request, Option.some.injEq] at ho; subst ho
    refine ⟨fun k hk => ?_, fun h => ?_, fun l h => ?_⟩
    · simp only [World.step, World.dropBody]
      split
      · rw [reportAll_flights]; exact ne k _ hk
      · rfl
    · simp only [World.step, World.dropBody, h]; exact ⟨trivial, rfl⟩
    · obtain ⟨c, hist, live⟩ := l
      simp only [World.step, World.dropBody, h]
      cases hist with
      | abandoned => cases live <;> exact ⟨h, List.append_nil _⟩
      | failed e => exact ⟨h, List.append_nil _⟩
      | responded x fs d =>
        cases d with
        | true => exact ⟨h, List.append_nil _⟩
        | false =>
          simp only [flightOf]
          rw [reportAll_flights]
          refine ⟨self _ _ h, ?_⟩
          simp only [Life.next, Life.onDropBody, Life.expected]
          cases c with
          | none => cases fs.findSome? Classify.Frame.ending <;> rfl
          | some c =>
            simp only [Classify.expected]
            cases fs.findSome? Classify.Frame.ending <;> rfl
  | _ => simp [Op.request] at ho

theorem lives_snoc (tr : List Event) (e : Event) : lives (tr ++ [e]) =
    (match e.op with
    | .call _ c => if e.out = .svc .admitted then lives tr ++ [⟨c, .abandoned, true⟩] else lives tr
    | .fail r => (lives tr).modify r Life.onFail
    | .respond r s h => (lives tr).modify r (Life.onRespond s h)
    | .abandon r => (lives tr).modify r Life.onAbandon
    | .frame r f => (lives tr).modify r (Life.onFrame f)
    | .dropBody r => (lives tr).modify r Life.onDropBody
    | _ => lives tr) := by
  unfold lives
  rw [List.foldl_append]
  rfl

theorem lives_request (tr : List Event) (e : Event) (r : Nat) (h : e.op.request = some r) :
    lives (tr ++ [e]) = (lives tr).modify r (Life.next e.op) := by
  rw [lives_snoc]
  cases ho : e.op <;> rw [ho] at h <;> simp [Op.request] at h <;> subst h <;> rfl

theorem reports_snoc (r : Nat) (tr : List Event) (e : Event) : reports r (tr ++ [e]) = reports r tr ++
    (if e.op.request = some r then e.out.reports else []) := by
  unfold reports
  rw [List.filterMap_append]
  congr 1
  simp only [List.filterMap_cons, List.filterMap_nil]
  cases e.out with
  | reported c b => by_cases h : e.op.request = some r <;> simp [h, Out.reports]
  | _ => simp [Out.reports]

theorem other_step (w : World σ) (o : Op) (ho : o.request = none) :
    (w.step p wait o).1.flights = w.flights ++ (match o with
      | .call _ c => if (w.step p wait o).2 = .svc .admitted then [.waiting c] else []
      | _ => []) := by
  cases o with
  | call i c =>
    rcases hgc : w.gate.call i with ⟨g, o⟩
    cases o <;> simp [World.step, World.call, hgc]
  | recv =>
    simp only [World.step, World.recv]
    split <;> simp [World.goOn]
  | lost =>
    simp only [World.step, World.lost]
    split <;> simp
  | pollReady i inner => simp [World.step]
  | clone i => simp [World.step]
  | drop i => simp [World.step]
  | timer => simp [World.step, World.goOn]
  | tick d => simp [World.step, World.goOn]
  | _ => simp [Op.request] at ho

/-- The requests, and what is reported for each. -/
theorem requests (ops : List Op) (r : Nat) :
    (after p wait cap t0 ops).flights[r]? = ((lives (trace p wait cap t0 ops))[r]?).map flightOf ∧
    reports r (trace p wait cap t0 ops) =
      (match (lives (trace p wait cap t0 ops))[r]? with | some l => l.expected.toList | none => []) := by
  induction ops using snoc_induction generalizing r with
  | nil => exact ⟨rfl, rfl⟩
  | snoc ops o ih =>
    rw [trace_snoc, after_snoc, reports_snoc]
    cases ho : o.request with
    | some k =>
      rw [lives_request _ _ k ho]
      obtain ⟨h1, h2, h3⟩ := request_step p wait (after p wait cap t0 ops) o k ho
      by_cases hr : r = k
      · subst hr
        rw [List.getElem?_modify]
        simp only [ho, if_true]
        obtain ⟨i1, i2⟩ := ih r
        cases hl : (lives (trace p wait cap t0 ops))[r]? with
        | none =>
          rw [hl] at i1 i2
          obtain ⟨h4, h5⟩ := h2 i1
          refine ⟨h4, ?_⟩
          rw [i2]
          exact h5
        | some l =>
          rw [hl] at i1 i2
          obtain ⟨h4, h5⟩ := h3 l i1
          refine ⟨h4, ?_⟩
          rw [i2]
          exact h5
      · rw [List.getElem?_modify]
        have hkr : ¬ k = r := fun h => hr h.symm
        simp only [ho, Option.some.injEq, hkr, if_false, List.append_nil]
        have e : (fun a => a) <$> (lives (trace p wait cap t0 ops))[r]? = (lives (trace p wait cap t0 ops))[r]? := by
          cases (lives (trace p wait cap t0 ops))[r]? <;> rfl
        rw [e]
        exact ⟨(h1 r hr).trans (ih r).1, (ih r).2⟩
    | none =>
      have hl : lives (trace p wait cap t0 ops ++ [⟨(after p wait cap t0 ops).task.now, o, answer p wait cap t0 ops o⟩]) =
          lives (trace p wait cap t0 ops) ++ (match o with
            | .call _ c => if answer p wait cap t0 ops o = .svc .admitted then [⟨c, .abandoned, true⟩] else []
            | _ => []) := by
        rw [lives_snoc]
        cases o with
        | call i c => dsimp only; split <;> simp
        | _ => first | (simp; done) | simp [Op.request] at ho
      have hf := other_step p wait (after p wait cap t0 ops) o ho
      have hlen : (lives (trace p wait cap t0 ops)).length = (after p wait cap t0 ops).flights.length := by
        have a1 := fun r => (ih r).1
        apply Nat.le_antisymm
        · apply Nat.le_of_not_lt; intro hlt
          have := a1 ((after p wait cap t0 ops).flights.length)
          rw [List.getElem?_eq_none (Nat.le_refl _), List.getElem?_eq_getElem hlt] at this
          simp at this
        · apply Nat.le_of_not_lt; intro hlt
          have := a1 ((lives (trace p wait cap t0 ops)).length)
          rw [List.getElem?_eq_none (l := lives _) (Nat.le_refl _), List.getElem?_eq_getElem hlt] at this
          simp at this
      have hno : reports r (trace p wait cap t0 ops) = [] ∨ r < (lives (trace p wait cap t0 ops)).length := by
        by_cases h : r < (lives (trace p wait cap t0 ops)).length
        · exact .inr h
        · left
          have := (ih r).2
          rw [List.getElem?_eq_none (Nat.le_of_not_lt h)] at this
          exact this
      rw [hl, hf]
      simp only [List.append_nil]
      rw [if_neg (by simp), List.append_nil]
      by_cases hr : r < (lives (trace p wait cap t0 ops)).length
      · rw [List.getElem?_append_left (by rw [← hlen]; exact hr), List.getElem?_append_left hr]
        exact ih r
      · have hr' : (lives (trace p wait cap t0 ops)).length ≤ r := Nat.le_of_not_lt hr
        rw [List.getElem?_append_right (by rw [← hlen]; exact hr'), List.getElem?_append_right hr', ← hlen]
        have hz : reports r (trace p wait cap t0 ops) = [] := by
          rcases hno with h | h
          · exact h
          · exact absurd h hr
        rw [hz]
        cases o with
        | call i c =>
          dsimp only
          unfold answer
          split
          · cases hk : r - (lives (trace p wait cap t0 ops)).length with
            | zero => exact ⟨rfl, by cases c <;> rfl⟩
            | succ n => exact ⟨rfl, rfl⟩
          · exact ⟨rfl, rfl⟩
        | _ => exact ⟨rfl, rfl⟩

end Verif.Circuit
