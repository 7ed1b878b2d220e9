import Verif.Tap.Track

/-! # The invariants of taps -/

namespace Verif.Tap

open Spec (Happen Hit)

/-! ## Sizes -/

theorem sendTo_length (ss : List Session) (k : Nat) (e : Event) : (sendTo ss k e).length = ss.length := by
  unfold sendTo
  split
  · rfl
  · split <;> simp

theorem sendAll_length (ss : List Session) (ts : List Tapped) (f : Tapped → Kind) : (sendAll ss ts f).length = ss.length := by
  induction ts generalizing ss with
  | nil => rfl
  | cons t ts ih =>
    rw [show sendAll ss (t :: ts) f = sendAll (sendTo ss t.session ⟨t.id, t.base, f t⟩) ts f from rfl, ih, sendTo_length]

theorem tapAll_length (now : Nat) (r : Req) (is : List Nat) (ss : List Session) (acc : List Tapped) :
    (tapAll now r (ss, acc) is).1.length = ss.length := by
  induction is generalizing ss acc with
  | nil => rfl
  | cons k is ih =>
    rw [tapAll]
    split
    · exact ih ss acc
    · rw [ih]; simp

theorem accepted_iff (limit : Nat) (m : Option PbMatch) : Spec.Accepted limit m ↔ 0 < limit ∧ ∃ c, readOne m = .ok c := by
  rw [Spec.Accepted, ← C88_accepts]

theorem taps_append (a b : List Op) : Spec.taps (a ++ b) = Spec.taps a + Spec.taps b := by simp [Spec.taps]

theorem observe_eq (y : Sys) {limit : Nat} {m : Option PbMatch} {c : Match} (x : Option PbExtract) (h0 : 0 < limit)
    (hc : readOne m = .ok c) : y.observe limit m x =
      { y with
        sessions := y.sessions ++ [⟨limit, c, extractHeaders x, 0, true, true, [], [], false⟩]
        kept := y.kept ++ [y.sessions.length]
        published := y.kept ++ [y.sessions.length] } := by
  have : limit ≠ 0 := by omega
  simp only [Sys.observe, this, if_false, hc]

theorem observe_refused (y : Sys) {limit : Nat} {m : Option PbMatch} (x : Option PbExtract) (h : ¬ Spec.Accepted limit m) :
    y.observe limit m x = y := by
  rw [accepted_iff] at h
  unfold Sys.observe
  by_cases h0 : limit = 0
  · simp [h0]
  · simp only [h0, if_false]
    cases hc : readOne m with
    | error e => rfl
    | ok c => exact absurd ⟨by omega, c, hc⟩ h

theorem finish_lengths (y : Sys) (j : Nat) (ts : List Tapped) (g : Tapped → Kind) (fl : Flow) :
    (y.finish j ts g fl).flows.length = y.flows.length ∧ (y.finish j ts g fl).sessions.length = y.sessions.length := by
  simp [Sys.finish, sendAll_length]

theorem step_lengths (y : Sys) (op : Op) :
    (y.step op).flows.length = y.flows.length + Spec.calls [op] ∧
      (y.step op).sessions.length = y.sessions.length + Spec.taps [op] := by
  have hsame : ∀ y' : Sys, y'.flows.length = y.flows.length ∧ y'.sessions.length = y.sessions.length →
      Spec.calls [op] = 0 → Spec.taps [op] = 0 →
      y'.flows.length = y.flows.length + Spec.calls [op] ∧ y'.sessions.length = y.sessions.length + Spec.taps [op] := by
    intro y' h h1 h2; omega
  cases op with
  | observe limit m x =>
    by_cases h : Spec.Accepted limit m
    · obtain ⟨h0, c, hc⟩ := (accepted_iff limit m).1 h
      simp [Sys.step, observe_eq y x h0 hc, Spec.calls, Spec.taps, h]
    · simp [Sys.step, observe_refused y x h, Spec.calls, Spec.taps, h]
  | poll i =>
    refine hsame _ ?_ (by simp [Spec.calls]) (by simp [Spec.taps])
    simp only [Sys.step]
    split
    · exact ⟨rfl, rfl⟩
    · split
      · exact ⟨rfl, List.length_set⟩
      · exact ⟨rfl, rfl⟩
  | dropStream i =>
    refine hsame _ ?_ (by simp [Spec.calls]) (by simp [Spec.taps])
    simp only [Sys.step]
    split
    · exact ⟨rfl, rfl⟩
    · exact ⟨rfl, List.length_set⟩
  | clean => exact hsame _ ⟨rfl, rfl⟩ (by simp [Spec.calls]) (by simp [Spec.taps])
  | call now r =>
    have h := tapAll_length now r y.published y.sessions []
    simp only [Sys.step]
    refine ⟨by simp [Spec.calls], ?_⟩
    rw [h]; simp [Spec.taps]
  | respond j now r ended =>
    refine hsame _ ?_ (by simp [Spec.calls]) (by simp [Spec.taps])
    simp only [Sys.step]
    split
    · simp only [Sys.respond]
      split <;> simp [finish_lengths]
    · exact ⟨rfl, rfl⟩
  | fail j now reason =>
    refine hsame _ ?_ (by simp [Spec.calls]) (by simp [Spec.taps])
    simp only [Sys.step]
    split
    · exact finish_lengths ..
    · exact ⟨rfl, rfl⟩
  | frame j now f =>
    refine hsame _ ?_ (by simp [Spec.calls]) (by simp [Spec.taps])
    simp only [Sys.step]
    split
    · cases f with
      | pending => exact ⟨rfl, rfl⟩
      | data b =>
        simp only [Sys.frame]
        split
        · exact finish_lengths ..
        · exact ⟨rfl, rfl⟩
      | _ => exact finish_lengths ..
    · exact ⟨rfl, rfl⟩
  | drop j now =>
    refine hsame _ ?_ (by simp [Spec.calls]) (by simp [Spec.taps])
    simp only [Sys.step]
    split
    · simp
    · exact finish_lengths ..
    · exact ⟨rfl, rfl⟩

theorem run_snoc (ops : List Op) (op : Op) : Sys.run (ops ++ [op]) = (Sys.run ops).step op := by simp [Sys.run]

theorem run_lengths (ops : List Op) :
    (Sys.run ops).flows.length = Spec.calls ops ∧ (Sys.run ops).sessions.length = Spec.taps ops := by
  induction ops using Verif.snoc_induction with
  | nil => simp [Sys.run, Sys.new, Spec.calls, Spec.taps]
  | snoc ops op ih =>
    rw [run_snoc, (step_lengths _ op).1, (step_lengths _ op).2, ih.1, ih.2, calls_append, taps_append]
    exact ⟨rfl, rfl⟩

/-! ## The registry -/

structure Reg (y : Sys) : Prop where
  kept : y.kept.Nodup
  published : y.published.Nodup
  lt : ∀ k ∈ y.kept, k < y.sessions.length
  taps : ∀ (j i : Nat) (f : Flow), y.flows[j]? = some f → y.sessions.length ≤ i → mine i f.taps = []

theorem about_none_or (op : Op) : (∀ j, Spec.about j op = none) ∨ ∃ j hp, Spec.about j op = some hp := by
  cases op with
  | respond j now r e => exact Or.inr ⟨j, _, by simp [Spec.about]; rfl⟩
  | fail j now r => exact Or.inr ⟨j, _, by simp [Spec.about]; rfl⟩
  | frame j now f => exact Or.inr ⟨j, _, by simp [Spec.about]; rfl⟩
  | drop j now => exact Or.inr ⟨j, _, by simp [Spec.about]; rfl⟩
  | _ => exact Or.inl fun _ => rfl

/-- A request that is not there. -/
theorem happen_none {y : Sys} {op : Op} {j : Nat} {hp : Happen} (ho : Spec.about j op = some hp) (hf : y.flows[j]? = none) :
    y.step op = y := by
  cases op <;> simp only [Spec.about] at ho <;> first | cases ho | (split at ho <;> cases ho; simp_all [Sys.step])

theorem happen_counts {op : Op} {j : Nat} {hp : Happen} (ho : Spec.about j op = some hp) :
    Spec.calls [op] = 0 ∧ Spec.taps [op] = 0 := by
  cases op <;> simp [Spec.about] at ho <;> simp [Spec.calls, Spec.taps]

theorem nodup_snoc {l : List Nat} {n : Nat} (h : l.Nodup) (hl : ∀ k ∈ l, k < n) : (l ++ [n]).Nodup := by
  rw [List.nodup_append]
  refine ⟨h, by simp, ?_⟩
  intro a ha b hb
  rw [List.mem_singleton] at hb
  have := hl a ha; omega

theorem Reg.step {y : Sys} (h : Reg y) (op : Op) : Reg (y.step op) := by
  rcases about_none_or op with hn | ⟨j, hp, ho⟩
  · cases op with
    | observe limit m x =>
      by_cases ha : Spec.Accepted limit m
      · obtain ⟨h0, c, hc⟩ := (accepted_iff limit m).1 ha
        simp only [Sys.step, observe_eq y x h0 hc]
        refine ⟨nodup_snoc h.kept h.lt, nodup_snoc h.kept h.lt, ?_, ?_⟩
        · intro k hk
          simp only [List.length_append, List.length_cons, List.length_nil]
          rcases List.mem_append.1 hk with hk | hk
          · have := h.lt k hk; omega
          · simp at hk; omega
        · intro j i f hf hi
          simp only [List.length_append, List.length_cons, List.length_nil] at hi
          exact h.taps j i f hf (by omega)
      · simpa only [Sys.step, observe_refused y x ha] using h
    | poll i =>
      simp only [Sys.step]
      split
      · exact h
      · split
        · exact ⟨h.kept, h.published, by simpa using h.lt, by simpa using h.taps⟩
        · exact h
    | dropStream i =>
      simp only [Sys.step]
      split
      · exact h
      · exact ⟨h.kept, h.published, by simpa using h.lt, by simpa using h.taps⟩
    | clean =>
      exact ⟨h.kept.filter _, h.published, fun k hk => h.lt k (List.mem_filter.1 hk).1, h.taps⟩
    | call now r =>
      simp only [Sys.step]
      refine ⟨h.kept, h.published, ?_, ?_⟩
      · simpa only [tapAll_length] using h.lt
      · intro j i f hf hi
        simp only [tapAll_length] at hi
        rw [List.getElem?_append] at hf
        split at hf
        · exact h.taps j i f hf hi
        · have e := List.getElem?_singleton ▸ hf
          split at e <;> cases e
          simp only [Flow.taps]
          rw [(tapAll_get now r y.published y.sessions [] h.published i).2]
          simp [mine, List.getElem?_eq_none hi]
    | _ => exact absurd (hn _) (by simp [Spec.about]; rfl)
  · cases hf : y.flows[j]? with
    | none => rw [happen_none ho hf]; exact h
    | some f =>
      obtain ⟨p, hp'⟩ := shape_exists f
      obtain ⟨f', e1, _, e3, e4, e5⟩ := happen_effect ho hf hp'
      have hl := (step_lengths y op).2
      rw [(happen_counts ho).2, Nat.add_zero] at hl
      refine ⟨by rw [e3]; exact h.kept, by rw [e4]; exact h.published, by rw [e3, hl]; exact h.lt, ?_⟩
      intro k i f0 hf0 hi
      rw [hl] at hi
      rw [e1] at hf0
      rcases Verif.getElem?_set_cases hf0 with ⟨rfl, rfl⟩ | ⟨_, hf0⟩
      · exact ((e5 i).1 (h.taps k i f hf hi)).2
      · exact h.taps k i f0 hf0 hi

theorem reg_run (ops : List Op) : Reg (Sys.run ops) := by
  induction ops using Verif.snoc_induction with
  | nil => exact ⟨List.nodup_nil, List.nodup_nil, by simp [Sys.run, Sys.new], by simp [Sys.run, Sys.new]⟩
  | snoc ops op ih => rw [run_snoc]; exact ih.step op

/-! ## A session -/

structure Inv (G D : Prop) (i lim : Nat) (c : Match) (x : Bool) (H : List Hit) (y : Sys) (s : Session) : Prop where
  reg : Reg y
  get : y.sessions[i]? = some s
  limit : s.limit = lim
  match_ : s.match_ = c
  extract : s.extract = x
  there : s.held = true → s.count < lim → i ∈ y.kept ∧ i ∈ y.published
  countLe : s.count ≤ H.length
  countEq : s.recv = true → s.count = H.length ∨ lim ≤ s.count
  let_go : s.held = false → s.recv = true → lim ≤ s.count
  heldRecv : s.held = true → s.recv = true
  recv : ¬ D → s.recv = true
  notD : G → ¬ D
  ended : s.ended = true → s.queue = [] ∧ s.held = false ∧ lim ≤ s.count ∧
    ∀ (j : Nat) (f : Flow), y.flows[j]? = some f → mine i f.taps = []
  track : Track G i lim x H y.flows (s.delivered ++ s.queue)

theorem extend_none {op : Op} (h : ∀ j, Spec.about j op = none) (H : List Hit) : H.map (extend op) = H := by
  have : (extend op) = id := by funext a; simp [extend, h]
  rw [this, List.map_id]

theorem clean_mem {y : Sys} {i : Nat} {s : Session} (hs : y.sessions[i]? = some s) (hk : i ∈ y.kept)
    (hc : s.canTapMore = true) : i ∈ (y.step .clean).kept := by
  simp only [Sys.step, List.mem_filter, hk, hs, hc, and_self]

theorem senders_iff (flows : List Flow) (i : Nat) :
    senders flows i = true ↔ ∃ (j : Nat) (f : Flow), flows[j]? = some f ∧ mine i f.taps ≠ [] := by
  simp only [senders, List.any_eq_true]
  constructor
  · rintro ⟨f, hf, t, ht, hti⟩
    obtain ⟨j, hj⟩ := List.getElem?_of_mem hf
    refine ⟨j, f, hj, List.ne_nil_of_mem (a := t) ?_⟩
    simp only [mine, List.mem_filter, ht, hti, and_self]
  · rintro ⟨j, f, hf, hm⟩
    obtain ⟨t, ht⟩ := List.exists_mem_of_ne_nil _ hm
    have := List.mem_filter.1 ht
    exact ⟨f, List.mem_of_getElem? hf, t, this.1, this.2⟩

/-- The events so far, after a poll. -/
theorem poll_events (s : Session) (b : Bool) :
    (s.poll b).delivered ++ (s.poll b).queue = s.delivered ++ s.queue ∧ (s.poll b).limit = s.limit ∧
      (s.poll b).match_ = s.match_ ∧ (s.poll b).extract = s.extract ∧ (s.poll b).count = s.count ∧ (s.poll b).recv = s.recv ∧
      (s.poll b).held = (s.held && s.underLimit) := by
  unfold Session.poll
  cases hq : s.queue with
  | nil =>
    simp only [hq]
    split <;> simp [hq]
  | cons e rest => simp [hq]

theorem poll_ended (s : Session) (b : Bool) (h0 : s.ended = false) :
    (s.poll b).ended = true ↔ s.queue = [] ∧ (s.held && s.underLimit) = false ∧ b = false := by
  unfold Session.poll
  cases hq : s.queue with
  | nil =>
    simp only [hq]
    cases b <;> cases hh : (s.held && s.underLimit) <;> simp [hh, h0]
  | cons e rest => simp [hq, h0]

theorem tap_hit (s : Session) (i now : Nat) (r : Req) (hheld : s.held = true) (hm : s.match_.matches r = true)
    (hlt : s.count < s.limit) (hr : s.recv = true) :
    (s.queue.length < capacity → s.tap i now r = ({ s with count := s.count + 1, queue := s.queue ++
        [⟨⟨baseId i, s.count⟩, baseEvent r, requestInit s.extract r⟩] },
        some ⟨i, ⟨baseId i, s.count⟩, baseEvent r, s.extract, now, 0, none⟩)) ∧
      (¬ s.queue.length < capacity → s.tap i now r = ({ s with count := s.count + 1 }, none)) := by
  have h1 : ¬ (!s.held) = true := by simp [hheld]
  have h2 : ¬ (!s.match_.matches r) = true := by simp [hm]
  constructor
  · intro h
    unfold Session.tap
    rw [if_neg h1, if_neg h2]
    simp only [hlt, if_true, Session.send, hr, h, and_self]
  · intro h
    unfold Session.tap
    rw [if_neg h1, if_neg h2]
    simp only [hlt, if_true, Session.send, h, and_false, if_false]

theorem Inv.step {G D : Prop} {i lim : Nat} {c : Match} {x : Bool} {H : List Hit} {y : Sys} {s : Session}
    (v : Inv G D i lim c x H y s) (op : Op) :
    ∃ s', Inv (G ∧ op ≠ .dropStream i ∧ s.queue.length + 2 ≤ capacity) (D ∨ op = .dropStream i) i lim c x
      (H.map (extend op) ++ fresh c.matches y.flows.length op) (y.step op) s' := by
  have hGD : ∀ P : Prop, (G ∧ op ≠ .dropStream i ∧ P) → ¬ (D ∨ op = .dropStream i) := by
    rintro P ⟨g, h1, _⟩ (h | h)
    · exact v.notD g h
    · exact h1 h
  have hreg := v.reg.step op
  -- nothing about the session or the requests changes
  have hquiet : ∀ (s' : Session), (∀ j, Spec.about j op = none) → fresh c.matches y.flows.length op = [] →
      (y.step op).flows = y.flows → (y.step op).sessions[i]? = some s' → s'.delivered ++ s'.queue = s.delivered ++ s.queue →
      s'.limit = s.limit → s'.match_ = s.match_ → s'.extract = s.extract → s'.count = s.count →
      (s'.held = true → s.held = true) → (s'.recv = true → s.recv = true) → (s'.held = true → s'.recv = true) →
      (op ≠ .dropStream i → s'.recv = s.recv) → (s'.held = false → s'.recv = true → lim ≤ s.count) →
      (s'.held = true → s'.count < lim → i ∈ (y.step op).kept ∧ i ∈ (y.step op).published) →
      (s'.ended = true → s'.queue = [] ∧ s'.held = false ∧ lim ≤ s'.count ∧
        ∀ (j : Nat) (f : Flow), y.flows[j]? = some f → mine i f.taps = []) →
      ∃ s', Inv (G ∧ op ≠ .dropStream i ∧ s.queue.length + 2 ≤ capacity) (D ∨ op = .dropStream i) i lim c x
        (H.map (extend op) ++ fresh c.matches y.flows.length op) (y.step op) s' := by
    intro s' ha hfr hfl hs' hev hlim hm hx hcount hheld hrecv hhr hnd hlg hthere hend
    rw [extend_none ha, hfr, List.append_nil]
    refine ⟨s', hreg, hs', hlim.trans v.limit, hm.trans v.match_, hx.trans v.extract, hthere, hcount ▸ v.countLe, ?_,
      fun h1 h2 => hcount ▸ hlg h1 h2, hhr, ?_, hGD _, by rw [hfl]; exact hend, ?_⟩
    · intro h; rw [hcount]; exact v.countEq (hrecv h)
    · intro h
      rw [hnd (fun hc => h (Or.inr hc))]
      exact v.recv fun hd => h (Or.inl hd)
    · rw [hfl, hev]; exact v.track.mono And.left
  rcases about_none_or op with hn | ⟨j, hp, ho⟩
  · cases op with
    | observe limit m ex =>
      by_cases ha : Spec.Accepted limit m
      · obtain ⟨h0, c', hc'⟩ := (accepted_iff limit m).1 ha
        refine hquiet s hn rfl ?_ ?_ rfl rfl rfl rfl rfl id id v.heldRecv (fun _ => rfl) v.let_go ?_ v.ended
        · simp only [Sys.step, observe_eq y ex h0 hc']
        · simp only [Sys.step, observe_eq y ex h0 hc']
          rw [List.getElem?_append_left (lt_of_getElem?_some v.get)]; exact v.get
        · intro h1 h2
          simp only [Sys.step, observe_eq y ex h0 hc']
          have := (v.there h1 h2).1
          simp [this]
      · refine hquiet s hn rfl ?_ ?_ rfl rfl rfl rfl rfl id id v.heldRecv (fun _ => rfl) v.let_go ?_ v.ended <;>
          simp only [Sys.step, observe_refused y ex ha]
        · exact v.get
        · exact v.there
    | poll k =>
      by_cases hk : k = i
      · subst hk
        by_cases hr : s.recv = true ∧ ¬ s.ended = true
        · obtain ⟨p1, p2, p3, p4, p5, p6, p7⟩ := poll_events s (senders y.flows k)
          have hst : y.step (.poll k) = { y with sessions := y.sessions.set k (s.poll (senders y.flows k)) } := by
            simp only [Sys.step, v.get]
            rw [if_pos hr]
          have hunder : s.underLimit = decide (s.count < lim) := by simp [Session.underLimit, v.limit]
          refine hquiet (s.poll (senders y.flows k)) hn rfl (by rw [hst]) ?_ p1 p2 p3 p4 p5 ?_ (by rw [p6]; exact id) ?_
            (fun _ => p6) ?_ ?_ ?_
          · rw [hst]; simp [lt_of_getElem?_some v.get]
          · rw [p7]; intro h; exact (Bool.and_eq_true_iff.1 h).1
          · intro _; rw [p6]; exact hr.1
          · intro h _
            rw [p7, hunder] at h
            by_cases hh : s.held = true
            · simp only [hh, Bool.true_and, decide_eq_false_iff_not] at h; omega
            · exact v.let_go (by simpa using hh) hr.1
          · intro h1 h2
            rw [hst]
            rw [p7] at h1; rw [p5] at h2
            exact v.there (Bool.and_eq_true_iff.1 h1).1 h2
          · intro he
            have he' := (poll_ended s (senders y.flows k) (by simpa using hr.2)).1 he
            have hev := p1
            have hq' : (s.poll (senders y.flows k)).queue = [] := by
              unfold Session.poll
              simp only [he'.1]
              split <;> rfl
            refine ⟨hq', by rw [p7]; exact he'.2.1, ?_, ?_⟩
            · rw [p5]
              have h := he'.2.1
              rw [hunder] at h
              by_cases hh : s.held = true
              · simp only [hh, Bool.true_and, decide_eq_false_iff_not] at h; omega
              · exact v.let_go (by simpa using hh) hr.1
            · intro j f hf
              by_cases hm : mine k f.taps = []
              · exact hm
              · have := (senders_iff y.flows k).2 ⟨j, f, hf, hm⟩
                rw [he'.2.2] at this; cases this
        · have hst : y.step (.poll k) = y := by
            simp only [Sys.step, v.get]
            rw [if_neg hr]
          refine hquiet s hn rfl (by rw [hst]) (by rw [hst]; exact v.get) rfl rfl rfl rfl rfl id id v.heldRecv (fun _ => rfl)
            v.let_go (by rw [hst]; exact v.there) v.ended
      · have hst : (y.step (.poll k)).flows = y.flows ∧ (y.step (.poll k)).sessions[i]? = y.sessions[i]? ∧
            (y.step (.poll k)).kept = y.kept ∧ (y.step (.poll k)).published = y.published := by
          simp only [Sys.step]
          split
          · exact ⟨rfl, rfl, rfl, rfl⟩
          · split
            · exact ⟨rfl, by simp [hk], rfl, rfl⟩
            · exact ⟨rfl, rfl, rfl, rfl⟩
        exact hquiet s hn rfl hst.1 (by rw [hst.2.1]; exact v.get) rfl rfl rfl rfl rfl id id v.heldRecv (fun _ => rfl)
            v.let_go (by rw [hst.2.2.1, hst.2.2.2]; exact v.there) v.ended
    | dropStream k =>
      by_cases hk : k = i
      · subst hk
        have hst : y.step (.dropStream k) = { y with sessions := y.sessions.set k { s with held := false, recv := false } } := by
          simp only [Sys.step, v.get]
        refine hquiet { s with held := false, recv := false } hn rfl (by rw [hst]) ?_ rfl rfl rfl rfl rfl ?_ ?_ ?_ ?_ ?_ ?_ ?_
        · rw [hst]; simp [lt_of_getElem?_some v.get]
        · intro h; cases h
        · intro h; cases h
        · intro h; cases h
        · intro h; exact absurd rfl h
        · intro _ h; cases h
        · intro h; cases h
        · intro h; exact ⟨(v.ended h).1, rfl, (v.ended h).2.2⟩
      · have hst : (y.step (.dropStream k)).flows = y.flows ∧ (y.step (.dropStream k)).sessions[i]? = y.sessions[i]? ∧
            (y.step (.dropStream k)).kept = y.kept ∧ (y.step (.dropStream k)).published = y.published := by
          simp only [Sys.step]
          split
          · exact ⟨rfl, rfl, rfl, rfl⟩
          · exact ⟨rfl, by simp [hk], rfl, rfl⟩
        exact hquiet s hn rfl hst.1 (by rw [hst.2.1]; exact v.get) rfl rfl rfl rfl rfl id id v.heldRecv (fun _ => rfl)
            v.let_go (by rw [hst.2.2.1, hst.2.2.2]; exact v.there) v.ended
    | clean =>
      refine hquiet s hn rfl rfl v.get rfl rfl rfl rfl rfl id id v.heldRecv (fun _ => rfl) v.let_go ?_ v.ended
      intro h1 h2
      refine ⟨clean_mem v.get (v.there h1 h2).1 ?_, (v.there h1 h2).2⟩
      simp [Session.canTapMore, Session.underLimit, h1, v.limit, h2]
    | call now r =>
      obtain ⟨t1, t2⟩ := tapAll_get now r y.published y.sessions [] v.reg.published i
      rw [v.get] at t1 t2
      simp only [Option.map_some, Option.bind_some, mine, List.filter_nil, List.nil_append] at t1 t2
      rw [extend_none hn]
      have hsessions : (y.step (.call now r)).sessions = (tapAll now r (y.sessions, []) y.published).1 := rfl
      have hflows : (y.step (.call now r)).flows = y.flows ++ [.waiting (tapAll now r (y.sessions, []) y.published).2] := rfl
      -- the session is not told of it, or only counts it
      have hmiss : ∀ (s' : Session), (y.step (.call now r)).sessions[i]? = some s' →
          mine i (tapAll now r (y.sessions, []) y.published).2 = [] →
          s'.delivered = s.delivered → s'.queue = s.queue →
          s'.limit = s.limit → s'.match_ = s.match_ → s'.extract = s.extract →
          s'.held = s.held → s'.recv = s.recv → s'.ended = s.ended →
          (s'.count = s.count ∨ (s'.count = s.count + 1 ∧ s.count < (H ++ fresh c.matches y.flows.length (.call now r)).length)) →
          (fresh c.matches y.flows.length (.call now r) = [] ∧ s'.count = s.count ∨ (s.recv = true → lim ≤ s.count)) →
          (fresh c.matches y.flows.length (.call now r) = [] ∨
            (lim ≤ H.length ∧ fresh c.matches y.flows.length (.call now r) = [⟨y.flows.length, now, r, []⟩]) ∨
            (H.length < lim ∧ ¬ G ∧ fresh c.matches y.flows.length (.call now r) = [⟨y.flows.length, now, r, []⟩])) →
          ∃ s', Inv (G ∧ Op.call now r ≠ .dropStream i ∧ s.queue.length + 2 ≤ capacity) (D ∨ Op.call now r = .dropStream i) i lim c x
            (H ++ fresh c.matches y.flows.length (.call now r)) (y.step (.call now r)) s' := by
        intro s' hs' hm hd hq hlim hma hx hheld hrecv hen hcount hlate hH
        refine ⟨s', hreg, hs', hlim.trans v.limit, hma.trans v.match_, hx.trans v.extract, ?_, ?_, ?_, ?_, ?_, ?_, hGD _, ?_, ?_⟩
        · intro h1 h2
          rw [hheld] at h1
          exact v.there h1 (by omega)
        · rcases hcount with h | ⟨h, h'⟩
          · have := v.countLe
            simp only [List.length_append]; omega
          · omega
        · intro h
          rw [hrecv] at h
          rcases hlate with ⟨h1, h2⟩ | h1
          · rw [h1, List.append_nil, h2]; exact v.countEq h
          · right; have := h1 h; omega
        · intro h1 h2
          rw [hheld] at h1; rw [hrecv] at h2
          have := v.let_go h1 h2; omega
        · intro h; rw [hheld] at h; rw [hrecv]; exact v.heldRecv h
        · intro h
          rw [hrecv]
          exact v.recv fun hd => h (Or.inl hd)
        · intro h
          rw [hen] at h
          obtain ⟨a1, a2, a3, a4⟩ := v.ended h
          refine ⟨hq.trans a1, hheld.trans a2, by omega, ?_⟩
          intro j f hf
          rw [hflows, List.getElem?_append] at hf
          split at hf
          · exact a4 j f hf
          · have e := List.getElem?_singleton ▸ hf
            split at e <;> cases e
            exact hm
        · rw [hflows, hd, hq]
          rcases hH with h | ⟨h1, h2⟩ | ⟨h1, h2, h3⟩
          · exact (v.track.mono And.left).call_other _ hm (Or.inl (by rw [h, List.append_nil]))
          · exact (v.track.mono And.left).call_other _ hm (Or.inr ⟨h1, now, r, by rw [h2]⟩)
          · rw [h3, ← List.append_nil (s.delivered ++ s.queue)]
            exact v.track.call_hit now r _ h1 And.left (Or.inl ⟨rfl, hm, fun g => h2 g.1⟩)
      have hmiss' : (tapAll now r (y.sessions, []) y.published).1[i]? = some s →
          mine i (tapAll now r (y.sessions, []) y.published).2 = [] → (s.recv = true → lim ≤ s.count) →
          ∃ s', Inv (G ∧ Op.call now r ≠ .dropStream i ∧ s.queue.length + 2 ≤ capacity) (D ∨ Op.call now r = .dropStream i) i lim c x
            (H ++ fresh c.matches y.flows.length (.call now r)) (y.step (.call now r)) s' := by
        intro h1 h2 h3
        refine hmiss s h1 h2 rfl rfl rfl rfl rfl rfl rfl rfl (Or.inl rfl) (Or.inr h3) ?_
        by_cases hmt : c.matches r = true
        · have hfresh : fresh c.matches y.flows.length (.call now r) = [⟨y.flows.length, now, r, []⟩] := by
            simp [fresh, hmt]
          by_cases hl : lim ≤ H.length
          · exact Or.inr (Or.inl ⟨hl, hfresh⟩)
          · refine Or.inr (Or.inr ⟨by omega, fun g => ?_, hfresh⟩)
            have := h3 (v.recv (v.notD g))
            have := v.countLe
            omega
        · left; simp [fresh, hmt]
      by_cases hpub : i ∈ y.published
      · simp only [hpub, if_true] at t1 t2
        by_cases hheld : s.held = true
        · by_cases hmt : c.matches r = true
          · have hrecv := v.heldRecv hheld
            have hfresh : fresh c.matches y.flows.length (.call now r) = [⟨y.flows.length, now, r, []⟩] := by
              simp [fresh, hmt]
            by_cases hlt : s.count < lim
            · -- a request to tap
              have hcount : s.count = H.length := by
                rcases v.countEq hrecv with h | h
                · exact h
                · omega
              have hend : s.ended = false := by
                cases he : s.ended with
                | false => rfl
                | true => have := (v.ended he).2.2.1; omega
              have htap := tap_hit s i now r hheld (by rw [v.match_]; exact hmt) (by rw [v.limit]; exact hlt) hrecv
              by_cases hroom : s.queue.length < capacity
              · rw [htap.1 hroom] at t1 t2
                refine ⟨{ s with count := s.count + 1, queue := s.queue ++
                    [⟨⟨baseId i, s.count⟩, baseEvent r, requestInit s.extract r⟩] }, hreg, t1, v.limit, v.match_, v.extract, ?_, ?_, ?_, ?_, ?_, ?_, hGD _, ?_, ?_⟩
                · intro h1 h2; exact v.there hheld hlt
                · simp only [List.length_append, hfresh, List.length_cons, List.length_nil]; omega
                · intro _; left; simp only [List.length_append, hfresh, List.length_cons, List.length_nil]; omega
                · intro h1; rw [hheld] at h1; cases h1
                · exact v.heldRecv
                · intro _; exact hrecv
                · intro h; simp only [hend] at h; cases h
                · rw [hflows, hfresh]
                  rw [← List.append_assoc]
                  refine v.track.call_hit now r _ (by omega) And.left (Or.inr ⟨?_, ?_⟩)
                  · rw [hcount, v.extract, requestInit_tell]; rfl
                  · rw [← hcount, ← v.extract]; exact t2
              · rw [htap.2 hroom] at t1 t2
                refine ⟨{ s with count := s.count + 1 }, hreg, t1, v.limit, v.match_, v.extract, ?_, ?_, ?_, ?_, ?_, ?_, hGD _, ?_, ?_⟩
                · intro h1 h2; exact v.there hheld hlt
                · simp only [List.length_append, hfresh, List.length_cons, List.length_nil]; omega
                · intro _; left; simp only [List.length_append, hfresh, List.length_cons, List.length_nil]; omega
                · intro h1; rw [hheld] at h1; cases h1
                · exact v.heldRecv
                · intro _; exact hrecv
                · intro h; simp only [hend] at h; cases h
                · rw [hflows, hfresh]
                  rw [← List.append_nil (s.delivered ++ s.queue)]
                  refine v.track.call_hit now r _ (by omega) And.left (Or.inl ⟨rfl, t2, ?_⟩)
                  rintro ⟨_, _, h⟩
                  omega
            · -- over the limit
              have htap : s.tap i now r = ({ s with count := s.count + 1 }, none) := by
                have hlt' : ¬ s.count < s.limit := by rw [v.limit]; exact hlt
                simp only [Session.tap, hheld, Bool.not_true, Bool.false_eq_true, if_false, v.match_, hmt, hlt']
              rw [htap] at t1 t2
              refine hmiss { s with count := s.count + 1 } (by rw [hsessions]; exact t1) t2 rfl rfl rfl rfl rfl rfl rfl rfl
                (Or.inr ⟨rfl, ?_⟩) (Or.inr fun _ => by omega) (Or.inr (Or.inl ⟨?_, hfresh⟩))
              · rw [hfresh]
                have := v.countLe
                simp only [List.length_append, List.length_cons, List.length_nil]; omega
              · have := v.countLe; omega
          · have htap : s.tap i now r = (s, none) := by
              simp [Session.tap, hheld, v.match_, hmt]
            rw [htap] at t1 t2
            have hfresh : fresh c.matches y.flows.length (.call now r) = [] := by simp [fresh, hmt]
            exact hmiss s (by rw [hsessions]; exact t1) t2 rfl rfl rfl rfl rfl rfl rfl rfl (Or.inl rfl)
              (Or.inl ⟨hfresh, rfl⟩) (Or.inl hfresh)
        · have htap : s.tap i now r = (s, none) := by simp [Session.tap, hheld]
          rw [htap] at t1 t2
          exact hmiss' t1 t2 (v.let_go (by simpa using hheld))
      · simp only [hpub, if_false] at t1 t2
        refine hmiss' t1 t2 fun hr => ?_
        by_cases hheld : s.held = true
        · by_cases hlt : s.count < lim
          · exact absurd (v.there hheld hlt).2 hpub
          · omega
        · exact v.let_go (by simpa using hheld) hr
    | _ => exact absurd (hn _) (by simp [Spec.about]; rfl)
  · have hfresh : fresh c.matches y.flows.length op = [] := by
      cases op <;> first | rfl | (simp [Spec.about] at ho)
    rw [hfresh, List.append_nil]
    have hnd : op ≠ .dropStream i := by rintro rfl; cases ho
    cases hf : y.flows[j]? with
    | none =>
      have hmap : H.map (extend op) = H := by
        refine List.map_congr_left (g := id) (fun h hh => ?_) |>.trans (List.map_id _)
        refine extend_ne ho ?_
        rintro rfl
        have := v.track.jlt h hh
        rw [List.getElem?_eq_none_iff] at hf; omega
      rw [hmap, happen_none ho hf]
      exact ⟨s, v.reg, v.get, v.limit, v.match_, v.extract, v.there, v.countLe, v.countEq, v.let_go, v.heldRecv,
        fun h => v.recv fun hd => h (Or.inl hd), hGD _, v.ended, v.track.mono And.left⟩
    | some f =>
      obtain ⟨q, q1, q2, q3, q4, q5, q6, q7⟩ := v.track.happen (G' := G ∧ op ≠ .dropStream i ∧ s.queue.length + 2 ≤ capacity)
        v.get ho hf (fun g => ⟨g.1, v.recv (v.notD g.1), g.2.2⟩)
      refine ⟨_, hreg, q1, v.limit, v.match_, v.extract, by rw [q5, q6]; exact v.there, by simpa using v.countLe,
        by simpa using v.countEq, v.let_go, v.heldRecv, fun h => v.recv fun hd => h (Or.inl hd), hGD _, ?_, q7⟩
      intro he
      obtain ⟨a1, a2, a3, a4⟩ := v.ended he
      refine ⟨?_, a2, a3, ?_⟩
      · simp only [a1, q2 (a4 j f hf), List.append_nil]
      · intro j' f' hf'
        by_cases hm : mine i f'.taps = []
        · exact hm
        · obtain ⟨f0, hf0, hm0⟩ := q4 j' f' hf' hm
          exact absurd (a4 j' f0 hf0) hm0

end Verif.Tap
