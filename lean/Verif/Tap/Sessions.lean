import Verif.Tap.Spec
import Verif.Common.List

/-! # Lemmas about taps -/

namespace Verif.Tap

open Spec (Happen Hit)

/-! ## Requests -/

/-- Where a request is. -/
inductive Phase where
  | waiting
  | body (t1 : Nat) (status : Option Nat)
  | over

def Phase.after : Phase → Happen → Phase
  | .waiting, .respond t r ended => if ended then .over else .body t (grpcStatus r.headers)
  | .waiting, .fail _ _ => .over
  | .waiting, .drop _ => .over
  | .waiting, .frame _ _ => .waiting
  | .body t1 st, .frame _ .pending => .body t1 st
  | .body t1 st, .frame _ (.data false) => .body t1 st
  | .body _ _, .frame _ _ => .over
  | .body _ _, .drop _ => .over
  | .body t1 st, _ => .body t1 st
  | .over, _ => .over

/-- What is told in a phase of all that happens next. -/
def Phase.tell (x : Bool) (t0 : Nat) : Phase → List Happen → List Kind
  | .waiting, l => Spec.tellAnswer x t0 l
  | .body t1 st, l => Spec.tellBody x t0 t1 st l
  | .over, _ => []

/-- What is told in a phase of one thing that happens. -/
def Phase.says (x : Bool) (t0 : Nat) (p : Phase) (h : Happen) : List Kind := p.tell x t0 [h]

theorem Phase.tell_nil (x : Bool) (t0 : Nat) (p : Phase) : p.tell x t0 [] = [] := by cases p <;> rfl

theorem Phase.tell_cons (x : Bool) (t0 : Nat) (p : Phase) (h : Happen) (l : List Happen) :
    p.tell x t0 (h :: l) = p.says x t0 h ++ (p.after h).tell x t0 l := by
  cases p with
  | waiting =>
    cases h with
    | respond t r ended => cases ended <;> simp [tell, says, after, Spec.tellAnswer, Spec.tellBody]
    | fail t reason => simp [tell, says, after, Spec.tellAnswer]
    | drop t => simp [tell, says, after, Spec.tellAnswer]
    | frame t f => simp [tell, says, after, Spec.tellAnswer]
  | body t1 st =>
    cases h with
    | respond t r ended => simp [tell, says, after, Spec.tellBody]
    | fail t reason => simp [tell, says, after, Spec.tellBody]
    | drop t => simp [tell, says, after, Spec.tellBody]
    | frame t f =>
      cases f with
      | data b => cases b <;> simp [tell, says, after, Spec.tellBody]
      | _ => simp [tell, says, after, Spec.tellBody]
  | over => simp [tell, says, after]

def Phase.of (l : List Happen) : Phase := l.foldl Phase.after .waiting

theorem Phase.of_snoc (l : List Happen) (h : Happen) : Phase.of (l ++ [h]) = (Phase.of l).after h := by
  simp [Phase.of]

theorem tell_snoc_from (x : Bool) (t0 : Nat) (p : Phase) (l : List Happen) (h : Happen) :
    p.tell x t0 (l ++ [h]) = p.tell x t0 l ++ (l.foldl Phase.after p).says x t0 h := by
  induction l generalizing p with
  | nil => simp [Phase.tell_nil, Phase.says]
  | cons a l ih => rw [List.cons_append, Phase.tell_cons, ih, Phase.tell_cons, List.append_assoc]; rfl

theorem tellAnswer_snoc (x : Bool) (t0 : Nat) (l : List Happen) (h : Happen) :
    Spec.tellAnswer x t0 (l ++ [h]) = Spec.tellAnswer x t0 l ++ (Phase.of l).says x t0 h :=
  tell_snoc_from x t0 .waiting l h

theorem over_iff (l : List Happen) : Spec.over l = true ↔ Phase.of l = .over := by
  have hov : ∀ l : List Happen, l.foldl Phase.after .over = .over := by
    intro l; induction l with
    | nil => rfl
    | cons a l ih => exact ih
  have hb : ∀ (l : List Happen) t1 st, Spec.bodyOver l = true ↔ l.foldl Phase.after (.body t1 st) = .over := by
    intro l
    induction l with
    | nil => intros; simp [Spec.bodyOver]
    | cons a l ih =>
      intro t1 st
      cases a with
      | frame t f =>
        cases f with
        | data b =>
          cases b
          · simp [Spec.bodyOver, Phase.after]; exact ih t1 st
          · simp [Spec.bodyOver, Phase.after, hov]
        | pending => simp [Spec.bodyOver, Phase.after]; exact ih t1 st
        | _ => simp [Spec.bodyOver, Phase.after, hov]
      | drop t => simp [Spec.bodyOver, Phase.after, hov]
      | _ => simp only [Spec.bodyOver, List.foldl_cons, Phase.after]; exact ih t1 st
  induction l with
  | nil => simp [Spec.over, Phase.of]
  | cons a l ih =>
    cases a with
    | respond t r e =>
      cases e
      · simp only [Spec.over, Bool.false_or, Phase.of, List.foldl_cons, Phase.after, Bool.false_eq_true, if_false]
        exact hb l _ _
      · simp [Spec.over, Phase.of, Phase.after, hov]
    | frame t f => simpa [Spec.over, Phase.of, Phase.after] using ih
    | _ => simp [Spec.over, Phase.of, Phase.after, hov]

/-! ## Sending -/

/-- The taps of session `i`. -/
def mine (i : Nat) (ts : List Tapped) : List Tapped := ts.filter fun t => t.session == i

/-- Events are sent, as far as they can be. -/
def Session.sends (s : Session) (es : List Event) : Session := es.foldl (fun s e => (s.send e).getD s) s

theorem sendTo_get (ss : List Session) (k i : Nat) (e : Event) :
    (sendTo ss k e)[i]? = if k = i then ss[i]?.map fun s => (s.send e).getD s else ss[i]? := by
  unfold sendTo
  by_cases hk : k = i
  · subst hk
    cases h : ss[k]? with
    | none => simp [h]
    | some s =>
      cases hs : s.send e with
      | none => simp [hs, h]
      | some s' => simp [hs, lt_of_getElem?_some h]
  · simp only [hk, if_false]
    cases h : ss[k]? with
    | none => rfl
    | some s =>
      cases hs : s.send e with
      | none => simp [hs]
      | some s' => simp [hs, hk]

theorem sendAll_get (ss : List Session) (ts : List Tapped) (f : Tapped → Kind) (i : Nat) :
    (sendAll ss ts f)[i]? = ss[i]?.map fun s => s.sends ((mine i ts).map fun t => ⟨t.id, t.base, f t⟩) := by
  induction ts generalizing ss with
  | nil => simp [sendAll, mine, Session.sends]
  | cons t ts ih =>
    rw [show sendAll ss (t :: ts) f = sendAll (sendTo ss t.session ⟨t.id, t.base, f t⟩) ts f from rfl, ih, sendTo_get]
    by_cases ht : t.session = i
    · simp only [ht, if_true, mine, List.filter_cons, beq_self_eq_true, Option.map_map]
      rfl
    · simp [ht, mine]

theorem sends_spec (s : Session) (es : List Event) : ∃ es', es'.Sublist es ∧ s.sends es = { s with queue := s.queue ++ es' } ∧
    (s.recv = true → s.queue.length + es.length ≤ capacity → es' = es) := by
  induction es generalizing s with
  | nil => exact ⟨[], List.Sublist.refl _, by simp [Session.sends], fun _ _ => rfl⟩
  | cons e es ih =>
    by_cases hs : s.recv = true ∧ s.queue.length < capacity
    · obtain ⟨es', h1, h2, h3⟩ := ih { s with queue := s.queue ++ [e] }
      refine ⟨e :: es', h1.cons_cons e, ?_, ?_⟩
      · simp only [Session.sends, List.foldl_cons, Session.send, hs, and_self, if_true, Option.getD_some] at h2 ⊢
        rw [h2]; simp
      · intro hr hl
        rw [h3 hr (by simp only [List.length_append, List.length_cons, List.length_nil] at hl ⊢; omega)]
    · obtain ⟨es', h1, h2, h3⟩ := ih s
      refine ⟨es', h1.cons e, ?_, ?_⟩
      · simp only [Session.sends, List.foldl_cons, Session.send, hs, if_false, Option.getD_none] at h2 ⊢
        exact h2
      · intro hr hl
        refine absurd ⟨hr, ?_⟩ hs
        simp only [List.length_cons] at hl; omega

theorem sends_nil (s : Session) : s.sends [] = s := rfl

/-! ## One thing that happens to one request -/

/-- A request is in a phase. -/
def Shape : Flow → Phase → Prop
  | .waiting _, .waiting => True
  | .body _, .body _ _ => True
  | .body ts, .over => ts = []
  | .gone, .over => True
  | _, _ => False

theorem shape_exists (f : Flow) : ∃ p, Shape f p := by
  cases f with
  | waiting ts => exact ⟨.waiting, trivial⟩
  | body ts => exact ⟨.body 0 none, trivial⟩
  | gone => exact ⟨.over, trivial⟩

/-- The tap of a request. -/
def tapAt (i n : Nat) (x : Bool) (t0 : Nat) (r : Req) : Phase → Option Tapped
  | .waiting => some ⟨i, ⟨baseId i, n⟩, baseEvent r, x, t0, 0, none⟩
  | .body t1 st => some ⟨i, ⟨baseId i, n⟩, baseEvent r, x, t0, t1, st⟩
  | .over => none

/-- Events of a request. -/
def events (i n : Nat) (r : Req) (ks : List Kind) : List Event := ks.map fun k => ⟨⟨baseId i, n⟩, baseEvent r, k⟩

theorem set_self {α : Type} {l : List α} {j : Nat} {a : α} (h : l[j]? = some a) : l.set j a = l := by
  apply List.ext_getElem?
  intro k
  by_cases hk : k = j
  · subst hk; rw [List.getElem?_set_self (lt_of_getElem?_some h), h]
  · rw [List.getElem?_set_ne (Ne.symm hk)]

theorem mine_payload (i now : Nat) (r : Rsp) (ts : List Tapped) :
    mine i (ts.map (payload now r)) = (mine i ts).map (payload now r) := by
  unfold mine
  rw [List.filter_map]
  rfl

theorem responseHeaders_shown (x : Bool) (r : Rsp) :
    responseHeaders x r = Spec.shown x r.version [(":status", Text.decimal r.status)] r.headers := by
  unfold responseHeaders Spec.shown
  cases x
  · rfl
  · simp only [if_true]; split <;> rfl

theorem requestInit_tell (x : Bool) (r : Req) : requestInit x r = Spec.tellRequest x r := by
  unfold requestInit Spec.tellRequest requestHeaders Spec.shown
  congr 1
  cases x
  · rfl
  · simp only [if_true]; split <;> rfl

theorem happen_effect {y : Sys} {op : Op} {j : Nat} {hp : Happen} {f : Flow} {p : Phase} (ho : Spec.about j op = some hp)
    (hf : y.flows[j]? = some f) (hs : Shape f p) :
    ∃ f', (y.step op).flows = y.flows.set j f' ∧ Shape f' (p.after hp) ∧ (y.step op).kept = y.kept ∧
      (y.step op).published = y.published ∧ ∀ i,
        (mine i f.taps = [] → (y.step op).sessions[i]? = y.sessions[i]? ∧ mine i f'.taps = []) ∧
        (∀ n x t0 r, mine i f.taps = (tapAt i n x t0 r p).toList →
          (y.step op).sessions[i]? = y.sessions[i]?.map (fun s => s.sends (events i n r (p.says x t0 hp))) ∧
          mine i f'.taps = (tapAt i n x t0 r (p.after hp)).toList) := by
  have hid : ∀ (o : Option Session), o = o.map (fun s => s.sends []) := by intro o; cases o <;> rfl
  have hsame : ∀ (y' : Sys), y' = y → (p.after hp = p) → (∀ x t0, p.says x t0 hp = []) →
      ∃ f', y'.flows = y.flows.set j f' ∧ Shape f' (p.after hp) ∧ y'.kept = y.kept ∧
      y'.published = y.published ∧ ∀ i,
        (mine i f.taps = [] → y'.sessions[i]? = y.sessions[i]? ∧ mine i f'.taps = []) ∧
        (∀ n x t0 r, mine i f.taps = (tapAt i n x t0 r p).toList →
          y'.sessions[i]? = y.sessions[i]?.map (fun s => s.sends (events i n r (p.says x t0 hp))) ∧
          mine i f'.taps = (tapAt i n x t0 r (p.after hp)).toList) := by
    rintro y' rfl h1 h2
    refine ⟨f, (set_self hf).symm, by rw [h1]; exact hs, rfl, rfl, fun i => ⟨fun h => ⟨rfl, h⟩, fun n x t0 r h => ⟨?_, by rw [h1]; exact h⟩⟩⟩
    rw [h2]; exact hid _
  have hfin : ∀ (ts : List Tapped) (g : Tapped → Kind) (flow : Flow) (y' : Sys), f.taps = ts →
      y' = y.finish j ts g flow → flow.taps = [] → Shape flow .over → p.after hp = .over →
      (∀ i n x t0 r, (tapAt i n x t0 r p).toList.map g = p.says x t0 hp) →
      ∃ f', y'.flows = y.flows.set j f' ∧ Shape f' (p.after hp) ∧ y'.kept = y.kept ∧
      y'.published = y.published ∧ ∀ i,
        (mine i f.taps = [] → y'.sessions[i]? = y.sessions[i]? ∧ mine i f'.taps = []) ∧
        (∀ n x t0 r, mine i f.taps = (tapAt i n x t0 r p).toList →
          y'.sessions[i]? = y.sessions[i]?.map (fun s => s.sends (events i n r (p.says x t0 hp))) ∧
          mine i f'.taps = (tapAt i n x t0 r (p.after hp)).toList) := by
    rintro ts g flow y' hts rfl hflow hshape ha hsay
    refine ⟨flow, rfl, by rw [ha]; exact hshape, rfl, rfl, fun i => ⟨fun h => ⟨?_, by rw [hflow]; rfl⟩, fun n x t0 r h => ⟨?_, ?_⟩⟩⟩
    · simp only [Sys.finish, sendAll_get, ← hts, h, List.map_nil]; exact (hid _).symm
    · simp only [Sys.finish, sendAll_get, ← hts, h, ← hsay i n x t0 r]
      cases p <;> simp [tapAt, events]
    · rw [ha, hflow]; rfl
  cases op with
  | respond j' now r ended =>
    simp only [Spec.about] at ho
    split at ho
    case isFalse => cases ho
    rename_i hj; subst hj; cases ho
    cases f with
    | waiting ts =>
      cases p <;> try exact hs.elim
      simp only [Sys.step, hf]
      cases ended with
      | false =>
        refine ⟨.body (ts.map (payload now r)), rfl, trivial, rfl, rfl, fun i => ⟨fun h => ⟨?_, ?_⟩, fun n x t0 q h => ⟨?_, ?_⟩⟩⟩
        · simp only [Sys.respond, Sys.finish, Bool.false_eq_true, if_false, sendAll_get]
          simp only [Flow.taps] at h
          rw [h]; exact (hid _).symm
        · simp only [Flow.taps] at h ⊢; rw [mine_payload, h]; rfl
        · simp only [Sys.respond, Sys.finish, Bool.false_eq_true, if_false, sendAll_get]
          simp only [Flow.taps] at h
          rw [h]
          simp [tapAt, events, Phase.says, Phase.tell, Spec.tellAnswer, Spec.tellBody, responseInit, responseHeaders_shown]
        · simp only [Flow.taps] at h ⊢; rw [mine_payload, h]; rfl
      | true =>
        refine ⟨.body [], ?_, rfl, rfl, rfl, fun i => ⟨fun h => ⟨?_, rfl⟩, fun n x t0 q h => ⟨?_, rfl⟩⟩⟩
        · simp [Sys.respond, Sys.finish]
        · simp only [Sys.respond, Sys.finish, if_true, sendAll_get, Option.map_map]
          simp only [Flow.taps] at h
          rw [mine_payload, h]
          cases y.sessions[i]? <;> rfl
        · simp only [Sys.respond, Sys.finish, if_true, sendAll_get, Option.map_map]
          simp only [Flow.taps] at h
          rw [mine_payload, h]
          cases y.sessions[i]? with
          | none => rfl
          | some s =>
            simp [tapAt, events, Phase.says, Phase.tell, Spec.tellAnswer, responseInit, responseHeaders_shown,
              Spec.ending, payload, eos, sendEnd, Session.sends]
    | body ts =>
      cases p with
      | waiting => exact hs.elim
      | body t1 st => exact hsame _ (by simp [Sys.step, hf]) rfl (fun _ _ => rfl)
      | over => exact hsame _ (by simp [Sys.step, hf]) rfl (fun _ _ => rfl)
    | gone =>
      cases p <;> try exact hs.elim
      exact hsame _ (by simp [Sys.step, hf]) rfl (fun _ _ => rfl)
  | fail j' now reason =>
    simp only [Spec.about] at ho
    split at ho
    case isFalse => cases ho
    rename_i hj; subst hj; cases ho
    cases f with
    | waiting ts =>
      cases p <;> try exact hs.elim
      exact hfin ts (failed now reason) .gone _ rfl (by simp [Sys.step, hf]) rfl trivial rfl
        (by intros; simp [tapAt, Phase.says, Phase.tell, Spec.tellAnswer, failed])
    | body ts =>
      cases p with
      | waiting => exact hs.elim
      | body t1 st => exact hsame _ (by simp [Sys.step, hf]) rfl (fun _ _ => rfl)
      | over => exact hsame _ (by simp [Sys.step, hf]) rfl (fun _ _ => rfl)
    | gone =>
      cases p <;> try exact hs.elim
      exact hsame _ (by simp [Sys.step, hf]) rfl (fun _ _ => rfl)
  | frame j' now fr =>
    simp only [Spec.about] at ho
    split at ho
    case isFalse => cases ho
    rename_i hj; subst hj; cases ho
    cases f with
    | waiting ts =>
      cases p <;> try exact hs.elim
      exact hsame _ (by simp [Sys.step, hf]) rfl (fun _ _ => rfl)
    | body ts =>
      cases p with
      | waiting => exact hs.elim
      | over =>
        have : ts = [] := hs
        subst this
        have e : (y.step (.frame j' now fr)) = y := by
          have h0 : ∀ (g : Tapped → Kind), y.finish j' [] g (.body []) = y := by
            intro g; simp only [Sys.finish, sendAll, List.foldl_nil, set_self hf]
          simp only [Sys.step, hf]
          cases fr <;> simp [Sys.frame, h0]
        exact hsame _ e rfl (fun _ _ => rfl)
      | body t1 st =>
        cases fr with
        | pending => exact hsame _ (by simp [Sys.step, hf, Sys.frame]) rfl (fun _ _ => rfl)
        | data b =>
          cases b with
          | false => exact hsame _ (by simp [Sys.step, hf, Sys.frame]) rfl (fun _ _ => rfl)
          | true =>
            exact hfin ts (eos now none) (.body []) _ rfl (by simp [Sys.step, hf, Sys.frame]) rfl rfl rfl
              (by intros; simp [tapAt, Phase.says, Phase.tell, Spec.tellBody, eos, sendEnd, Spec.ending])
        | trailers h =>
          exact hfin ts (eos now (some h)) (.body []) _ rfl (by simp [Sys.step, hf, Sys.frame]) rfl rfl rfl
            (by intros; simp [tapAt, Phase.says, Phase.tell, Spec.tellBody, eos, sendEnd, Spec.ending])
        | error reason =>
          exact hfin ts (bodyFailed now reason) (.body []) _ rfl (by simp [Sys.step, hf, Sys.frame]) rfl rfl rfl
            (by intros; simp [tapAt, Phase.says, Phase.tell, Spec.tellBody, bodyFailed, sendEnd, Spec.ending])
        | done =>
          exact hfin ts (eos now none) (.body []) _ rfl (by simp [Sys.step, hf, Sys.frame]) rfl rfl rfl
            (by intros; simp [tapAt, Phase.says, Phase.tell, Spec.tellBody, eos, sendEnd, Spec.ending])
    | gone =>
      cases p <;> try exact hs.elim
      exact hsame _ (by simp [Sys.step, hf]) rfl (fun _ _ => rfl)
  | drop j' now =>
    simp only [Spec.about] at ho
    split at ho
    case isFalse => cases ho
    rename_i hj; subst hj; cases ho
    cases f with
    | waiting ts =>
      cases p <;> try exact hs.elim
      refine ⟨.gone, by simp [Sys.step, hf], trivial, by simp [Sys.step, hf], by simp [Sys.step, hf], fun i =>
        ⟨fun h => ⟨by simp [Sys.step, hf], rfl⟩, fun n x t0 r h => ⟨?_, rfl⟩⟩⟩
      simp only [Sys.step, hf]; exact hid _
    | body ts =>
      cases p with
      | waiting => exact hs.elim
      | over =>
        have : ts = [] := hs
        subst this
        refine hfin [] (eos now none) .gone _ rfl (by simp [Sys.step, hf]) rfl trivial rfl ?_
        intros; simp [tapAt, Phase.says, Phase.tell]
      | body t1 st =>
        exact hfin ts (eos now none) .gone _ rfl (by simp [Sys.step, hf]) rfl trivial rfl
          (by intros; simp [tapAt, Phase.says, Phase.tell, Spec.tellBody, eos, sendEnd, Spec.ending])
    | gone =>
      cases p <;> try exact hs.elim
      exact hsame _ (by simp [Sys.step, hf]) rfl (fun _ _ => rfl)
  | _ => cases ho

/-! ## A new request -/

theorem tapAll_get (now : Nat) (r : Req) (is : List Nat) (ss : List Session) (acc : List Tapped) (hn : is.Nodup) (i : Nat) :
    (tapAll now r (ss, acc) is).1[i]? = (if i ∈ is then ss[i]?.map fun s => (s.tap i now r).1 else ss[i]?) ∧
      mine i (tapAll now r (ss, acc) is).2 =
        mine i acc ++ (if i ∈ is then (ss[i]?.bind fun s => (s.tap i now r).2).toList else []) := by
  have hsess : ∀ (s : Session) k t, (s.tap k now r).2 = some t → t.session = k := by
    intro s k t h
    unfold Session.tap at h
    split at h
    · cases h
    · split at h
      · cases h
      · dsimp only at h
        split at h
        · split at h
          · cases h
          · cases h; rfl
        · cases h
  induction is generalizing ss acc with
  | nil => simp [tapAll]
  | cons k is ih =>
    have hk : k ∉ is := (List.nodup_cons.1 hn).1
    have hn' := (List.nodup_cons.1 hn).2
    rw [tapAll]
    cases h : ss[k]? with
    | none =>
      simp only [h]
      refine ⟨?_, ?_⟩
      · rw [(ih ss acc hn').1]
        by_cases hik : i = k
        · subst hik; simp [hk, h]
        · simp [hik]
      · rw [(ih ss acc hn').2]
        by_cases hik : i = k
        · subst hik; simp [hk, h]
        · simp [hik]
    | some s =>
      simp only [h]
      obtain ⟨h1, h2⟩ := ih (ss.set k (s.tap k now r).1) (acc ++ (s.tap k now r).2.toList) hn'
      rw [h1, h2]
      by_cases hik : i = k
      · subst hik
        simp only [hk, if_false, List.mem_cons, true_or, if_true, h]
        refine ⟨by simp [lt_of_getElem?_some h], ?_⟩
        simp only [mine, List.filter_append, List.append_nil, Option.bind_some]
        congr 1
        cases ht : (s.tap i now r).2 with
        | none => rfl
        | some t => simp [hsess s i t ht]
      · have hset : (ss.set k (s.tap k now r).1)[i]? = ss[i]? := List.getElem?_set_ne (Ne.symm hik)
        simp only [hset, List.mem_cons, hik, false_or]
        refine ⟨trivial, ?_⟩
        congr 1
        simp only [mine, List.filter_append]
        cases ht : (s.tap k now r).2 with
        | none => simp
        | some t =>
          have : t.session ≠ i := by rw [hsess s k t ht]; exact Ne.symm hik
          simp [this]

end Verif.Tap
