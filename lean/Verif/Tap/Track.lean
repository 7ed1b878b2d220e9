import Verif.Tap.Sessions

/-! # The invariant of one tap -/

namespace Verif.Tap

open Spec (Happen Hit)

/-! ## The requests a tap is for -/

/-- `Spec.hits` with a test. -/
def hitsB (p : Req → Bool) (k : Nat) : List Op → List Hit
  | [] => []
  | .call now r :: rest => if p r then ⟨k, now, r, Spec.life k rest⟩ :: hitsB p (k + 1) rest else hitsB p (k + 1) rest
  | _ :: rest => hitsB p k rest

theorem hits_eq {m : PbMatch} {p : Req → Bool} (h : ∀ r, p r = true ↔ Spec.Means r m) (k : Nat) (ops : List Op) :
    Spec.hits m k ops = hitsB p k ops := by
  induction ops generalizing k with
  | nil => rfl
  | cons op ops ih =>
    cases op with
    | call now r =>
      simp only [Spec.hits, hitsB, ih]
      by_cases hp : p r = true
      · rw [if_pos hp, if_pos ((h r).1 hp)]
      · rw [if_neg hp, if_neg (fun hm => hp ((h r).2 hm))]
    | _ => exact ih k

/-- One more thing happens. -/
def extend (op : Op) (h : Hit) : Hit := { h with life := h.life ++ (Spec.about h.j op).toList }

def fresh (p : Req → Bool) (k : Nat) : Op → List Hit
  | .call now r => if p r then [⟨k, now, r, []⟩] else []
  | _ => []

theorem life_snoc (j : Nat) (ops : List Op) (op : Op) :
    Spec.life j (ops ++ [op]) = Spec.life j ops ++ (Spec.about j op).toList := by
  unfold Spec.life
  rw [List.filterMap_append]
  cases h : Spec.about j op <;> simp [h]

theorem calls_cons (op : Op) (ops : List Op) :
    Spec.calls (op :: ops) = (match op with | .call _ _ => 1 | _ => 0) + Spec.calls ops := by
  cases op <;> simp [Spec.calls, Nat.add_comm]

theorem calls_append (a b : List Op) : Spec.calls (a ++ b) = Spec.calls a + Spec.calls b := by
  simp [Spec.calls]

theorem hitsB_snoc (p : Req → Bool) (k : Nat) (ops : List Op) (op : Op) :
    hitsB p k (ops ++ [op]) = (hitsB p k ops).map (extend op) ++ fresh p (k + Spec.calls ops) op := by
  induction ops generalizing k with
  | nil => cases op <;> simp [hitsB, fresh, Spec.calls, Spec.life]
  | cons o ops ih =>
    rw [calls_cons]
    cases o with
    | call now r =>
      simp only [List.cons_append, hitsB, ih, life_snoc]
      by_cases hp : p r = true
      · simp [hp, extend, Nat.add_assoc]
      · simp [hp, Nat.add_assoc]
    | _ => simp only [List.cons_append, hitsB, ih, Nat.zero_add]

/-! ## The events of a request -/

theorem of_append (n : Nat) (a b : List Event) : Spec.of n (a ++ b) = Spec.of n a ++ Spec.of n b := List.filter_append ..

theorem of_events (n i k : Nat) (r : Req) (ks : List Kind) (es : List Event) (h : es.Sublist (events i k r ks)) :
    Spec.of n es = if n = k then es else [] := by
  have hall : ∀ e ∈ es, e.id.stream = k := by
    intro e he
    obtain ⟨x, _, rfl⟩ := List.mem_map.1 (h.subset he)
    rfl
  unfold Spec.of
  by_cases hn : n = k
  · rw [if_pos hn, List.filter_eq_self]
    intro e he; simp [hall e he, hn]
  · rw [if_neg hn, List.filter_eq_nil_iff]
    intro e he; simp [hall e he]; exact Ne.symm hn

theorem events_append (i n : Nat) (r : Req) (a b : List Kind) : events i n r (a ++ b) = events i n r a ++ events i n r b :=
  List.map_append ..

/-! ## What is told so far -/

/-- What was sent about a request is what should be, with gaps; without, if `G`. -/
structure Got (G : Prop) (i n : Nat) (x : Bool) (h : Hit) (es : List Event) : Prop where
  some : Spec.of n es = [] ∨ ∃ rest, Spec.of n es = events i n h.req [Spec.tellRequest x h.req] ++ rest ∧
    rest.Sublist (events i n h.req (Spec.tellAnswer x h.now h.life))
  all : G → Spec.of n es = events i n h.req (Spec.tellRequest x h.req :: Spec.tellAnswer x h.now h.life)

/-- The request has the tap it should have. -/
structure FlowOk (G : Prop) (i n : Nat) (x : Bool) (h : Hit) (f : Flow) (es : List Event) : Prop where
  shape : Shape f (Phase.of h.life)
  some : mine i f.taps = [] ∨ (mine i f.taps = (tapAt i n x h.now h.req (Phase.of h.life)).toList ∧ Spec.of n es ≠ [])
  all : G → mine i f.taps = (tapAt i n x h.now h.req (Phase.of h.life)).toList

structure Track (G : Prop) (i lim : Nat) (x : Bool) (H : List Hit) (flows : List Flow) (es : List Event) : Prop where
  jlt : ∀ h ∈ H, h.j < flows.length
  jinj : ∀ (n n' : Nat) (h h' : Hit), H[n]? = some h → H[n']? = some h' → h.j = h'.j → n = n'
  flow : ∀ (n : Nat) (h : Hit) (f : Flow), n < lim → H[n]? = some h → flows[h.j]? = some f → FlowOk G i n x h f es
  other : ∀ (j : Nat) (f : Flow), flows[j]? = some f → (∀ (n : Nat) (h : Hit), n < lim → H[n]? = some h → h.j ≠ j) → mine i f.taps = []
  got : ∀ (n : Nat) (h : Hit), n < lim → H[n]? = some h → Got G i n x h es
  none : ∀ n, lim ≤ n ∨ H.length ≤ n → Spec.of n es = []

theorem Track.mono {G G' : Prop} {i lim : Nat} {x : Bool} {H : List Hit} {flows : List Flow} {es : List Event}
    (t : Track G i lim x H flows es) (hG : G' → G) : Track G' i lim x H flows es where
  jlt := t.jlt
  jinj := t.jinj
  flow n h f hn hh hf := ⟨(t.flow n h f hn hh hf).shape, (t.flow n h f hn hh hf).some, fun g => (t.flow n h f hn hh hf).all (hG g)⟩
  other := t.other
  got n h hn hh := ⟨(t.got n h hn hh).some, fun g => (t.got n h hn hh).all (hG g)⟩
  none := t.none

theorem extend_ne {op : Op} {j : Nat} {hp : Happen} (ho : Spec.about j op = some hp) {h : Hit} (hj : h.j ≠ j) :
    extend op h = h := by
  have : Spec.about h.j op = none := by
    cases op <;> simp only [Spec.about] at ho ⊢ <;> first | rfl | (split at ho <;> simp_all [eq_comm])
  simp [extend, this]

theorem extend_eq {op : Op} {j : Nat} {hp : Happen} (ho : Spec.about j op = some hp) {h : Hit} (hj : h.j = j) :
    extend op h = { h with life := h.life ++ [hp] } := by
  simp [extend, hj, ho]

theorem getElem?_map_extend {H : List Hit} {op : Op} {n : Nat} {h' : Hit} (h : (H.map (extend op))[n]? = some h') :
    ∃ h0, H[n]? = some h0 ∧ h' = extend op h0 := by
  rw [List.getElem?_map] at h
  cases h0 : H[n]? with
  | none => simp [h0] at h
  | some a => simp [h0] at h; exact ⟨a, rfl, h.symm⟩

theorem says_length (x : Bool) (t0 : Nat) (p : Phase) (h : Happen) : (p.says x t0 h).length ≤ 2 := by
  cases p with
  | waiting =>
    cases h with
    | respond t r e => cases e <;> simp [Phase.says, Phase.tell, Spec.tellAnswer, Spec.tellBody]
    | _ => simp [Phase.says, Phase.tell, Spec.tellAnswer]
  | body t1 st =>
    cases h with
    | frame t f =>
      cases f with
      | data b => cases b <;> simp [Phase.says, Phase.tell, Spec.tellBody]
      | _ => simp [Phase.says, Phase.tell, Spec.tellBody]
    | _ => simp [Phase.says, Phase.tell, Spec.tellBody]
  | over => simp [Phase.says, Phase.tell]

theorem tapAt_over {i n : Nat} {x : Bool} {t0 : Nat} {r : Req} {p : Phase} (h : (tapAt i n x t0 r p).toList = []) : p = .over := by
  cases p <;> simp [tapAt] at h ⊢

/-- Something happens to a request. -/
theorem Track.happen {G G' : Prop} {i lim : Nat} {x : Bool} {H : List Hit} {y : Sys} {s : Session} {op : Op} {j : Nat}
    {hp : Happen} {f : Flow} (t : Track G i lim x H y.flows (s.delivered ++ s.queue)) (hs : y.sessions[i]? = some s)
    (ho : Spec.about j op = some hp) (hf : y.flows[j]? = some f)
    (hG : G' → G ∧ s.recv = true ∧ s.queue.length + 2 ≤ capacity) :
    ∃ q, (y.step op).sessions[i]? = some { s with queue := s.queue ++ q } ∧
      (mine i f.taps = [] → q = []) ∧ (y.step op).flows.length = y.flows.length ∧
      (∀ (j' : Nat) (f' : Flow), (y.step op).flows[j']? = some f' → mine i f'.taps ≠ [] → ∃ f0 : Flow, y.flows[j']? = some f0 ∧ mine i f0.taps ≠ []) ∧
      (y.step op).kept = y.kept ∧ (y.step op).published = y.published ∧
      Track G' i lim x (H.map (extend op)) (y.step op).flows (s.delivered ++ (s.queue ++ q)) := by
  by_cases hit : ∃ (n : Nat) (h : Hit), n < lim ∧ H[n]? = some h ∧ h.j = j
  · obtain ⟨n, h, hn, hh, hj⟩ := hit
    have hfo := t.flow n h f hn hh (by rw [hj]; exact hf)
    have hgot := t.got n h hn hh
    obtain ⟨f', e1, e2, e3, e4, e5⟩ := happen_effect ho hf hfo.shape
    have hlen : (y.step op).flows.length = y.flows.length := by rw [e1, List.length_set]
    have hf' : (y.step op).flows[j]? = some f' := by rw [e1, List.getElem?_set_self (lt_of_getElem?_some hf)]
    have hne : ∀ j', j' ≠ j → (y.step op).flows[j']? = y.flows[j']? := by
      intro j' hj'; rw [e1, List.getElem?_set_ne (Ne.symm hj')]
    -- what is sent, and the tap afterwards
    have key : ∃ q, (y.step op).sessions[i]? = some { s with queue := s.queue ++ q } ∧ (mine i f.taps = [] → q = []) ∧
        q.Sublist (events i n h.req ((Phase.of h.life).says x h.now hp)) ∧
        (G' → q = events i n h.req ((Phase.of h.life).says x h.now hp)) ∧
        (Spec.of n (s.delivered ++ s.queue) = [] → q = []) ∧
        (mine i f'.taps = [] ∨ (mine i f'.taps = (tapAt i n x h.now h.req ((Phase.of h.life).after hp)).toList ∧
          Spec.of n (s.delivered ++ s.queue) ≠ [])) ∧
        (G' → mine i f'.taps = (tapAt i n x h.now h.req ((Phase.of h.life).after hp)).toList) ∧
        (mine i f'.taps ≠ [] → mine i f.taps ≠ []) := by
      by_cases hm : mine i f.taps = []
      · obtain ⟨a1, a2⟩ := (e5 i).1 hm
        refine ⟨[], by rw [a1, hs]; simp, fun _ => rfl, List.nil_sublist _, ?_, fun _ => rfl, Or.inl a2, ?_, fun hc => absurd a2 hc⟩
        · intro g
          have := hfo.all (hG g).1
          rw [hm] at this
          rw [tapAt_over this.symm]; rfl
        · intro g
          have := hfo.all (hG g).1
          rw [hm] at this
          rw [tapAt_over this.symm, a2]; rfl
      · rcases hfo.some with h0 | ⟨h0, hne0⟩
        · exact absurd h0 hm
        · obtain ⟨b1, b2⟩ := (e5 i).2 n x h.now h.req h0
          obtain ⟨q, c1, c2, c3⟩ := sends_spec s (events i n h.req ((Phase.of h.life).says x h.now hp))
          refine ⟨q, by rw [b1, hs]; simp [c2], fun hc => absurd hc hm, c1, ?_, fun hc => absurd hc hne0,
            Or.inr ⟨b2, hne0⟩, fun _ => b2, fun _ => hm⟩
          intro g
          refine c3 (hG g).2.1 ?_
          have := says_length x h.now (Phase.of h.life) hp
          have h2 := (hG g).2.2
          simp only [events, List.length_map]
          omega
    obtain ⟨q, k1, k2, k3, k4, k5, k6, k7, k8⟩ := key
    have hof : ∀ n', Spec.of n' (s.delivered ++ (s.queue ++ q)) =
        Spec.of n' (s.delivered ++ s.queue) ++ (if n' = n then q else []) := by
      intro n'
      rw [← List.append_assoc, of_append, of_events n' i n h.req _ q k3]
    refine ⟨q, k1, k2, hlen, ?_, e3, e4, ?_⟩
    · intro j' f0 hf0 hm0
      by_cases hj' : j' = j
      · subst hj'
        rw [hf'] at hf0; cases hf0
        exact ⟨f, hf, k8 hm0⟩
      · rw [hne j' hj'] at hf0; exact ⟨f0, hf0, hm0⟩
    refine ⟨?_, ?_, ?_, ?_, ?_, ?_⟩
    · intro a ha
      obtain ⟨b, hb, rfl⟩ := List.mem_map.1 ha
      rw [hlen]; exact t.jlt b hb
    · intro n1 n2 h1 h2 hh1 hh2 hj12
      obtain ⟨g1, hg1, rfl⟩ := getElem?_map_extend hh1
      obtain ⟨g2, hg2, rfl⟩ := getElem?_map_extend hh2
      exact t.jinj n1 n2 g1 g2 hg1 hg2 hj12
    · intro n' h' f0 hn' hh' hf0
      obtain ⟨g, hg, rfl⟩ := getElem?_map_extend hh'
      have hgj : (extend op g).j = g.j := rfl
      rw [hgj] at hf0
      by_cases hgj' : g.j = j
      · have hnn : n' = n := t.jinj n' n g h hg hh (by rw [hgj', hj])
        subst hnn
        rw [hh] at hg; cases hg
        rw [hgj', hf'] at hf0; cases hf0
        rw [extend_eq ho hj]
        refine ⟨?_, ?_, ?_⟩
        · simp only [Phase.of_snoc]; exact e2
        · simp only [Phase.of_snoc]
          rcases k6 with h0 | ⟨h0, h1⟩
          · exact Or.inl h0
          · refine Or.inr ⟨h0, ?_⟩
            rw [hof]; simp [h1]
        · simp only [Phase.of_snoc]; exact k7
      · rw [extend_ne ho hgj']
        rw [hne _ hgj'] at hf0
        have hfo' := t.flow n' g f0 hn' hg hf0
        have hnn : n' ≠ n := by rintro rfl; rw [hh] at hg; cases hg; exact hgj' hj
        refine ⟨hfo'.shape, ?_, fun g' => hfo'.all (hG g').1⟩
        rcases hfo'.some with h0 | ⟨h0, h1⟩
        · exact Or.inl h0
        · refine Or.inr ⟨h0, ?_⟩
          rw [hof]; simp [hnn, h1]
    · intro j' f0 hf0 hno
      have hj' : j' ≠ j := by
        rintro rfl
        exact hno n (extend op h) hn (by rw [List.getElem?_map, hh]; rfl) hj
      rw [hne j' hj'] at hf0
      refine t.other j' f0 hf0 fun n1 h1 hn1 hh1 => ?_
      exact hno n1 (extend op h1) hn1 (by rw [List.getElem?_map, hh1]; rfl)
    · intro n' h' hn' hh'
      obtain ⟨g, hg, rfl⟩ := getElem?_map_extend hh'
      by_cases hnn : n' = n
      · subst hnn
        rw [hh] at hg; cases hg
        rw [extend_eq ho hj]
        refine ⟨?_, ?_⟩
        · simp only [tellAnswer_snoc, events_append, hof, if_true]
          rcases hgot.some with h0 | ⟨rest, h0, h1⟩
          · left; rw [h0, k5 h0]; rfl
          · right
            exact ⟨rest ++ q, by rw [h0, List.append_assoc], h1.append k3⟩
        · intro g
          simp only [tellAnswer_snoc, hof, if_true]
          rw [hgot.all (hG g).1, k4 g, ← events_append, List.cons_append]
      · have hgj' : g.j ≠ j := fun hc => hnn (t.jinj n' n g h hg hh (by rw [hc, hj]))
        rw [extend_ne ho hgj']
        have hg' := t.got n' g hn' hg
        refine ⟨?_, fun g => ?_⟩
        · simp only [hof, hnn, if_false, List.append_nil]; exact hg'.some
        · simp only [hof, hnn, if_false, List.append_nil]; exact hg'.all (hG g).1
    · intro n' hn'
      have hnn : n' ≠ n := by
        rintro rfl
        have := lt_of_getElem?_some hh
        simp only [List.length_map] at hn'; omega
      rw [hof, t.none n' (by simpa using hn')]; simp [hnn]
  · have hno : ∀ (n : Nat) (h : Hit), n < lim → H[n]? = some h → h.j ≠ j := fun n h h1 h2 h3 => hit ⟨n, h, h1, h2, h3⟩
    have hm := t.other j f hf hno
    obtain ⟨p, hp'⟩ := shape_exists f
    obtain ⟨f', e1, e2, e3, e4, e5⟩ := happen_effect ho hf hp'
    obtain ⟨a1, a2⟩ := (e5 i).1 hm
    have hlen : (y.step op).flows.length = y.flows.length := by rw [e1, List.length_set]
    have hf' : (y.step op).flows[j]? = some f' := by rw [e1, List.getElem?_set_self (lt_of_getElem?_some hf)]
    have hne : ∀ j', j' ≠ j → (y.step op).flows[j']? = y.flows[j']? := by
      intro j' hj'; rw [e1, List.getElem?_set_ne (Ne.symm hj')]
    refine ⟨[], by rw [a1, hs]; simp, fun _ => rfl, hlen, ?_, e3, e4, ?_⟩
    · intro j' f0 hf0 hm0
      by_cases hj' : j' = j
      · subst hj'; rw [hf'] at hf0; cases hf0; exact absurd a2 hm0
      · rw [hne j' hj'] at hf0; exact ⟨f0, hf0, hm0⟩
    simp only [List.append_nil]
    refine ⟨?_, ?_, ?_, ?_, ?_, ?_⟩
    · intro a ha
      obtain ⟨b, hb, rfl⟩ := List.mem_map.1 ha
      rw [hlen]; exact t.jlt b hb
    · intro n1 n2 h1 h2 hh1 hh2 hj12
      obtain ⟨g1, hg1, rfl⟩ := getElem?_map_extend hh1
      obtain ⟨g2, hg2, rfl⟩ := getElem?_map_extend hh2
      exact t.jinj n1 n2 g1 g2 hg1 hg2 hj12
    · intro n' h' f0 hn' hh' hf0
      obtain ⟨g, hg, rfl⟩ := getElem?_map_extend hh'
      have hgj' : g.j ≠ j := hno n' g hn' hg
      rw [extend_ne ho hgj'] at hf0 ⊢
      rw [hne _ hgj'] at hf0
      have hfo := t.flow n' g f0 hn' hg hf0
      exact ⟨hfo.shape, hfo.some, fun g' => hfo.all (hG g').1⟩
    · intro j' f0 hf0 hno'
      by_cases hj' : j' = j
      · subst hj'; rw [hf'] at hf0; cases hf0; exact a2
      · rw [hne j' hj'] at hf0
        refine t.other j' f0 hf0 fun n1 h1 hn1 hh1 => ?_
        exact hno' n1 (extend op h1) hn1 (by rw [List.getElem?_map, hh1]; rfl)
    · intro n' h' hn' hh'
      obtain ⟨g, hg, rfl⟩ := getElem?_map_extend hh'
      rw [extend_ne ho (hno n' g hn' hg)]
      have hg' := t.got n' g hn' hg
      exact ⟨hg'.some, fun g => hg'.all (hG g).1⟩
    · intro n' hn'
      exact t.none n' (by simpa using hn')

/-! ## New requests -/

/-- A request the tap is not for, or that comes too late. -/
theorem Track.call_other {G : Prop} {i lim : Nat} {x : Bool} {H H' : List Hit} {flows : List Flow} {es : List Event}
    (t : Track G i lim x H flows es) (f : Flow) (hm : mine i f.taps = [])
    (hH : H' = H ∨ (lim ≤ H.length ∧ ∃ now r, H' = H ++ [⟨flows.length, now, r, []⟩])) :
    Track G i lim x H' (flows ++ [f]) es := by
  have hget : ∀ (n : Nat) (h : Hit), n < lim → H'[n]? = some h → H[n]? = some h := by
    intro n h hn hh
    rcases hH with rfl | ⟨hl, now, r, rfl⟩
    · exact hh
    · rwa [List.getElem?_append_left (by omega)] at hh
  have hget' : ∀ (n : Nat) (h : Hit), H[n]? = some h → H'[n]? = some h := by
    intro n h hh
    rcases hH with rfl | ⟨hl, now, r, rfl⟩
    · exact hh
    · rw [List.getElem?_append_left (lt_of_getElem?_some hh)]; exact hh
  have hfl : ∀ (n : Nat) (h : Hit), H[n]? = some h → (flows ++ [f])[h.j]? = flows[h.j]? := fun n h hh =>
    List.getElem?_append_left (t.jlt h (List.mem_of_getElem? hh))
  refine ⟨?_, ?_, ?_, ?_, ?_, ?_⟩
  · intro h hh
    simp only [List.length_append, List.length_cons, List.length_nil]
    rcases hH with rfl | ⟨hl, now, r, rfl⟩
    · have := t.jlt h hh; omega
    · rcases List.mem_append.1 hh with hh | hh
      · have := t.jlt h hh; omega
      · rw [List.mem_singleton] at hh; subst hh; simp
  · intro n n' h h' hh hh' hj
    rcases hH with rfl | ⟨hl, now, r, rfl⟩
    · exact t.jinj n n' h h' hh hh' hj
    · rw [List.getElem?_append] at hh hh'
      split at hh <;> split at hh'
      · exact t.jinj n n' h h' hh hh' hj
      · rename_i h1 h2
        have := t.jlt h (List.mem_of_getElem? hh)
        have e := List.getElem?_singleton ▸ hh'
        split at e <;> cases e
        simp at hj; omega
      · have := t.jlt h' (List.mem_of_getElem? hh')
        have e := List.getElem?_singleton ▸ hh
        split at e <;> cases e
        simp at hj; omega
      · have e := List.getElem?_singleton ▸ hh
        have e' := List.getElem?_singleton ▸ hh'
        split at e <;> cases e
        split at e' <;> cases e'
        omega
  · intro n h f0 hn hh hf0
    have hh0 := hget n h hn hh
    rw [hfl n h hh0] at hf0
    exact t.flow n h f0 hn hh0 hf0
  · intro j f0 hf0 hno
    rw [List.getElem?_append] at hf0
    split at hf0
    · exact t.other j f0 hf0 fun n h hn hh => hno n h hn (hget' n h hh)
    · have e := List.getElem?_singleton ▸ hf0
      split at e <;> cases e
      exact hm
  · intro n h hn hh; exact t.got n h hn (hget n h hn hh)
  · intro n hn
    refine t.none n ?_
    rcases hH with rfl | ⟨hl, now, r, rfl⟩
    · exact hn
    · simp only [List.length_append, List.length_cons, List.length_nil] at hn; omega

/-- A request the tap is for. -/
theorem Track.call_hit {G G' : Prop} {i lim : Nat} {x : Bool} {H : List Hit} {flows : List Flow} {es q : List Event}
    (t : Track G i lim x H flows es) (now : Nat) (r : Req) (ts : List Tapped) (hl : H.length < lim) (hG : G' → G)
    (hq : (q = [] ∧ mine i ts = [] ∧ ¬ G') ∨ (q = events i H.length r [Spec.tellRequest x r] ∧
      mine i ts = (tapAt i H.length x now r .waiting).toList)) :
    Track G' i lim x (H ++ [⟨flows.length, now, r, []⟩]) (flows ++ [.waiting ts]) (es ++ q) := by
  have hqs : q.Sublist (events i H.length r [Spec.tellRequest x r]) := by
    rcases hq with ⟨rfl, _⟩ | ⟨rfl, _⟩
    · exact List.nil_sublist _
    · exact List.Sublist.refl _
  have hof : ∀ n, Spec.of n (es ++ q) = Spec.of n es ++ (if n = H.length then q else []) := by
    intro n; rw [of_append, of_events n i H.length r _ q hqs]
  have hnil : Spec.of H.length es = [] := t.none _ (Or.inr (Nat.le_refl _))
  have hfl : ∀ (n : Nat) (h : Hit), H[n]? = some h → (flows ++ [.waiting ts])[h.j]? = flows[h.j]? := fun n h hh =>
    List.getElem?_append_left (t.jlt h (List.mem_of_getElem? hh))
  have hcase : ∀ (n : Nat) (h : Hit), (H ++ [⟨flows.length, now, r, []⟩])[n]? = some h →
      (n ≠ H.length ∧ H[n]? = some h) ∨ (n = H.length ∧ h = ⟨flows.length, now, r, []⟩) := by
    intro n h hh
    rw [List.getElem?_append] at hh
    split at hh
    · left; exact ⟨by omega, hh⟩
    · have e := List.getElem?_singleton ▸ hh
      split at e <;> cases e
      right; exact ⟨by omega, rfl⟩
  refine ⟨?_, ?_, ?_, ?_, ?_, ?_⟩
  · intro h hh
    simp only [List.length_append, List.length_cons, List.length_nil]
    rcases List.mem_append.1 hh with hh | hh
    · have := t.jlt h hh; omega
    · rw [List.mem_singleton] at hh; subst hh; simp
  · intro n n' h h' hh hh' hj
    rcases hcase n h hh with ⟨_, h1⟩ | ⟨h1, rfl⟩ <;> rcases hcase n' h' hh' with ⟨_, h2⟩ | ⟨h2, rfl⟩
    · exact t.jinj n n' h h' h1 h2 hj
    · have := t.jlt h (List.mem_of_getElem? h1); simp at hj; omega
    · have := t.jlt h' (List.mem_of_getElem? h2); simp at hj; omega
    · omega
  · intro n h f hn hh hf
    rcases hcase n h hh with ⟨hne, h1⟩ | ⟨rfl, rfl⟩
    · rw [hfl n h h1] at hf
      have hfo := t.flow n h f hn h1 hf
      refine ⟨hfo.shape, ?_, fun g => hfo.all (hG g)⟩
      rw [hof]; simpa [hne] using hfo.some
    · simp at hf; subst hf
      refine ⟨trivial, ?_, ?_⟩
      · rcases hq with ⟨_, h2, _⟩ | ⟨h1, h2⟩
        · exact Or.inl h2
        · refine Or.inr ⟨h2, ?_⟩
          rw [hof, hnil, h1]; simp [events]
      · intro g
        rcases hq with ⟨_, _, h3⟩ | ⟨_, h2⟩
        · exact absurd g h3
        · exact h2
  · intro j f hf hno
    rw [List.getElem?_append] at hf
    split at hf
    · refine t.other j f hf fun n h hn hh => hno n h hn ?_
      rw [List.getElem?_append_left (lt_of_getElem?_some hh)]; exact hh
    · rename_i hj
      have e := List.getElem?_singleton ▸ hf
      split at e <;> cases e
      exact absurd (by simp; omega) (hno H.length ⟨flows.length, now, r, []⟩ hl (by simp))
  · intro n h hn hh
    rcases hcase n h hh with ⟨hne, h1⟩ | ⟨rfl, rfl⟩
    · have hg := t.got n h hn h1
      refine ⟨?_, fun g => ?_⟩
      · rw [hof]; simpa [hne] using hg.some
      · rw [hof]; simpa [hne] using hg.all (hG g)
    · refine ⟨?_, fun g => ?_⟩
      · rw [hof, hnil]
        rcases hq with ⟨h1, _⟩ | ⟨h1, _⟩
        · left; simp [h1]
        · right; exact ⟨[], by simp [h1], List.nil_sublist _⟩
      · rcases hq with ⟨_, _, h3⟩ | ⟨h1, _⟩
        · exact absurd g h3
        · rw [hof, hnil, h1]; simp [Spec.tellAnswer]
  · intro n hn
    simp only [List.length_append, List.length_cons, List.length_nil] at hn
    have hne : n ≠ H.length := by omega
    rw [hof, t.none n (by omega)]; simp [hne]

end Verif.Tap
