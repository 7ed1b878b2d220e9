import Verif.Tap.Inv
import Verif.Tls.Detect

/-!
# C89: what a tap tells

A tap is asked for after `a` happened; then `b` happens. It is the tap number `Spec.taps a`, and the requests it is for are
`Spec.hits m (Spec.calls a) b`.
-/

namespace Verif.Tap

open Spec (Happen Hit)

/-- The events that wait for the client of a tap. -/
def waiting (y : Sys) (i : Nat) : Nat := match y.sessions[i]? with
  | none => 0
  | some s => s.queue.length

/-- The client of the tap asked for after `a` keeps up in `b`: it does not go away, and there is always room for two more events. -/
def KeepsUp (a : List Op) (o : Op) (b : List Op) : Prop :=
  ∀ b' op b'', b = b' ++ op :: b'' →
    op ≠ .dropStream (Spec.taps a) ∧ waiting (Sys.run (a ++ o :: b')) (Spec.taps a) + 2 ≤ 400

theorem KeepsUp.snoc {a : List Op} {o : Op} {b : List Op} {op : Op} (h : KeepsUp a o (b ++ [op])) :
    KeepsUp a o b ∧ op ≠ .dropStream (Spec.taps a) ∧ waiting (Sys.run (a ++ o :: b)) (Spec.taps a) + 2 ≤ 400 :=
  ⟨fun b' op' b'' hb => h b' op' (b'' ++ [op]) (by rw [hb]; simp), h b op [] (by simp)⟩

theorem Inv.mono {G G' D D' : Prop} {i lim : Nat} {c : Match} {x : Bool} {H : List Hit} {y : Sys} {s : Session}
    (v : Inv G D i lim c x H y s) (hG : G' → G) (hD : D' ↔ D) : Inv G' D' i lim c x H y s :=
  ⟨v.reg, v.get, v.limit, v.match_, v.extract, v.there, v.countLe, v.countEq, v.let_go, v.heldRecv,
    fun h => v.recv fun d => h (hD.2 d), fun g d => v.notD (hG g) (hD.1 d), v.ended, v.track.mono hG⟩

theorem asks_eq (ex : Option PbExtract) : extractHeaders ex = Spec.asks ex := by
  cases ex with
  | none => rfl
  | some e =>
    cases e with
    | http h => cases h <;> rfl
    | other => rfl

/-- The invariant holds always. -/
theorem inv_run (a b : List Op) {lim : Nat} {m : PbMatch} {c : Match} (ex : Option PbExtract) (hl : 0 < lim)
    (hc : readOne (some m) = .ok c) :
    ∃ s, Inv (KeepsUp a (.observe lim (some m) ex) b) (.dropStream (Spec.taps a) ∈ b) (Spec.taps a) lim c (Spec.asks ex)
      (Spec.hits m (Spec.calls a) b) (Sys.run (a ++ .observe lim (some m) ex :: b)) s := by
  rw [hits_eq (fun r => C88_selects hc r)]
  have hlen := run_lengths a
  induction b using Verif.snoc_induction with
  | nil =>
    have hst : Sys.run (a ++ [.observe lim (some m) ex]) = (Sys.run a).observe lim (some m) ex := by rw [run_snoc]; rfl
    have hreg : Reg (Sys.run (a ++ [.observe lim (some m) ex])) := reg_run _
    rw [hst, observe_eq _ ex hl hc] at hreg
    have hst' := hst
    rw [observe_eq _ ex hl hc] at hst'
    rw [hst']
    refine ⟨⟨lim, c, extractHeaders ex, 0, true, true, [], [], false⟩, hreg, by simp [← hlen.2], rfl, rfl, asks_eq ex, ?_, Nat.zero_le _, fun _ => Or.inl rfl, ?_, fun _ => rfl,
      fun _ => rfl, fun _ => by simp, ?_, ?_⟩
    · intro _ _; simp [hlen.2]
    · intro h; cases h
    · intro h; cases h
    · refine ⟨by simp [hitsB], by simp [hitsB], by simp [hitsB], ?_, by simp [hitsB], fun _ _ => rfl⟩
      intro j f hf _
      exact (reg_run a).taps j _ f hf (by rw [hlen.2]; exact Nat.le_refl _)
  | snoc b op ih =>
    obtain ⟨s, v⟩ := ih
    obtain ⟨s', v'⟩ := v.step op
    refine ⟨s', ?_⟩
    rw [hitsB_snoc]
    have hk : Spec.calls a + Spec.calls b = (Sys.run (a ++ .observe lim (some m) ex :: b)).flows.length := by
      rw [(run_lengths _).1, calls_append, calls_cons]; simp
    rw [show a ++ .observe lim (some m) ex :: (b ++ [op]) = (a ++ .observe lim (some m) ex :: b) ++ [op] by simp, run_snoc, hk]
    refine v'.mono (fun h => ?_) ?_
    · obtain ⟨h1, h2, h3⟩ := h.snoc
      refine ⟨h1, h2, ?_⟩
      simp only [waiting, v.get] at h3
      exact h3
    · rw [List.mem_append, List.mem_singleton, @eq_comm _ op]

/-! ## What each event says -/

theorem about_base (r : Req) : Spec.About (baseEvent r) r where
  outbound := rfl
  source := rfl
  destination := rfl
  route := rfl
  sourceTls := by unfold baseEvent sourceMeta; cases r.srcTls <;> rfl
  client := by unfold baseEvent sourceMeta; cases r.srcTls <;> rfl
  known := by simp [baseEvent]
  destinationTls := by
    intro l hl
    simp only [baseEvent, Option.map_eq_some_iff] at hl
    obtain ⟨l0, _, rfl⟩ := hl
    unfold destinationMeta
    cases r.dstTls with
    | none reason => simp only [Assoc.lookup_insert, if_true]
    | some id => simp only [Assoc.lookup_insert, if_true, if_neg (show "tls".toList ≠ "server_id".toList by decide)]
  server := by
    intro l id hl hid
    simp only [baseEvent, Option.map_eq_some_iff] at hl
    obtain ⟨l0, _, rfl⟩ := hl
    unfold destinationMeta
    rw [hid]
    simp only [Assoc.lookup_insert, if_true]
  labels := by
    intro l l0 k hl hl0 h1 h2
    simp only [baseEvent, hl0, Option.map_some, Option.some.injEq] at hl
    subst hl
    unfold destinationMeta
    cases r.dstTls with
    | none reason => simp only [Assoc.lookup_insert, if_neg h1]
    | some id => simp only [Assoc.lookup_insert, if_neg h1, if_neg h2]

/-- C89: a tap tells only of the requests it is for, and not of more than its limit. What it tells of each begins with the
request itself, and is what happened to it, in order, though events may be missing. -/
theorem C89_tells_the_truth (a b : List Op) {lim : Nat} {m : PbMatch} (ex : Option PbExtract) (hl : 0 < lim) (hm : Spec.Ok m) :
    ∃ s, (Sys.run (a ++ .observe lim (some m) ex :: b)).sessions[Spec.taps a]? = some s ∧
      (∀ e ∈ s.delivered, e.id.stream < lim) ∧
      ∀ n, Spec.of n s.delivered = [] ∨
        ∃ h base rest, (Spec.hits m (Spec.calls a) b)[n]? = some h ∧ Spec.About base h.req ∧
          Spec.of n s.delivered =
            (Spec.tellRequest (Spec.asks ex) h.req :: rest).map (fun k => ⟨⟨Spec.taps a % 2 ^ 32, n⟩, base, k⟩) ∧
          rest.Sublist (Spec.tellAnswer (Spec.asks ex) h.now h.life) := by
  obtain ⟨c, hc⟩ := (C88_accepts (some m)).2 ⟨m, rfl, hm⟩
  obtain ⟨s, v⟩ := inv_run a b ex hl hc
  refine ⟨s, v.get, ?_, fun n => ?_⟩
  · intro e he
    have : e ∈ Spec.of e.id.stream (s.delivered ++ s.queue) := by simp [Spec.of, he]
    apply Nat.lt_of_not_le
    intro hc
    rw [v.track.none _ (Or.inl hc)] at this
    cases this
  · by_cases hn : n < lim ∧ n < (Spec.hits m (Spec.calls a) b).length
    · have hh : (Spec.hits m (Spec.calls a) b)[n]? = some (Spec.hits m (Spec.calls a) b)[n] := List.getElem?_eq_getElem hn.2
      rcases (v.track.got n _ hn.1 hh).some with h0 | ⟨rest, h0, h1⟩
      · left
        rw [of_append] at h0
        exact (List.append_eq_nil_iff.1 h0).1
      · rw [of_append] at h0
        cases hd : Spec.of n s.delivered with
        | nil => exact Or.inl rfl
        | cons e es =>
          right
          rw [hd] at h0
          simp only [events, List.map_cons, List.map_nil, List.cons_append, List.nil_append, List.cons.injEq] at h0
          have hsub : es.Sublist (events (Spec.taps a) n (Spec.hits m (Spec.calls a) b)[n].req
              (Spec.tellAnswer (Spec.asks ex) (Spec.hits m (Spec.calls a) b)[n].now (Spec.hits m (Spec.calls a) b)[n].life)) := by
            refine List.Sublist.trans ?_ h1
            rw [← h0.2]; exact List.sublist_append_left ..
          obtain ⟨ks, hks, rfl⟩ := List.sublist_map_iff.1 hsub
          refine ⟨_, baseEvent (Spec.hits m (Spec.calls a) b)[n].req, ks, hh, about_base _, ?_, hks⟩
          rw [h0.1]; rfl
    · left
      have := v.track.none n (by omega)
      rw [of_append] at this
      exact (List.append_eq_nil_iff.1 this).1

/-- C89: if its client keeps up, a tap tells all that happened to each of the first requests it is for, up to its limit. -/
theorem C89_tells_all (a b : List Op) {lim : Nat} {m : PbMatch} (ex : Option PbExtract) (hl : 0 < lim) (hm : Spec.Ok m)
    (hk : KeepsUp a (.observe lim (some m) ex) b) :
    ∃ s, (Sys.run (a ++ .observe lim (some m) ex :: b)).sessions[Spec.taps a]? = some s ∧
      ∀ n h, n < lim → (Spec.hits m (Spec.calls a) b)[n]? = some h → ∃ base, Spec.About base h.req ∧
        Spec.of n s.delivered ++ Spec.of n s.queue =
          (Spec.tellRequest (Spec.asks ex) h.req :: Spec.tellAnswer (Spec.asks ex) h.now h.life).map
            (fun k => ⟨⟨Spec.taps a % 2 ^ 32, n⟩, base, k⟩) := by
  obtain ⟨c, hc⟩ := (C88_accepts (some m)).2 ⟨m, rfl, hm⟩
  obtain ⟨s, v⟩ := inv_run a b ex hl hc
  refine ⟨s, v.get, fun n h hn hh => ⟨baseEvent h.req, about_base _, ?_⟩⟩
  have := (v.track.got n h hn hh).all hk
  rw [of_append] at this
  exact this

/-! ## Keeping up -/

theorem tellBody_length (x : Bool) (t0 t1 : Nat) (st : Option Nat) (l : List Happen) :
    (Spec.tellBody x t0 t1 st l).length ≤ 1 := by
  induction l with
  | nil => simp [Spec.tellBody]
  | cons h l ih =>
    cases h with
    | frame t f =>
      cases f with
      | data b => cases b <;> simp [Spec.tellBody]; exact ih
      | pending => simpa [Spec.tellBody] using ih
      | _ => simp [Spec.tellBody]
    | drop t => simp [Spec.tellBody]
    | _ => simpa [Spec.tellBody] using ih

theorem tellAnswer_length (x : Bool) (t0 : Nat) (l : List Happen) : (Spec.tellAnswer x t0 l).length ≤ 2 := by
  induction l with
  | nil => simp [Spec.tellAnswer]
  | cons h l ih =>
    cases h with
    | respond t r e =>
      have := tellBody_length x t0 t (grpcStatus r.headers) l
      cases e
      · simp [Spec.tellAnswer]; omega
      · simp [Spec.tellAnswer]
    | frame t f => simpa [Spec.tellAnswer] using ih
    | _ => simp [Spec.tellAnswer]

theorem length_le_of (es : List Event) (N : Nat) (h : ∀ n, (Spec.of n es).length ≤ 3) (h0 : ∀ n, N ≤ n → Spec.of n es = []) :
    es.length ≤ 3 * N := by
  induction N generalizing es with
  | zero =>
    cases es with
    | nil => simp
    | cons e es =>
      have := h0 e.id.stream (Nat.zero_le _)
      simp [Spec.of] at this
  | succ N ih =>
    have hp : es.length = (es.filter fun e => e.id.stream == N).length + (es.filter fun e => !(e.id.stream == N)).length := by
      clear ih h h0
      induction es with
      | nil => rfl
      | cons e es ih => by_cases he : e.id.stream = N <;> simp [he, ih] <;> omega
    have hof : ∀ n, Spec.of n (es.filter fun e => !(e.id.stream == N)) = if n = N then [] else Spec.of n es := by
      intro n
      unfold Spec.of
      rw [List.filter_filter]
      by_cases hn : n = N
      · subst hn; rw [if_pos rfl, List.filter_eq_nil_iff]; simp
      · rw [if_neg hn]
        apply List.filter_congr
        intro e _
        by_cases he : e.id.stream = n
        · simp [he, hn]
        · simp [he]
    have h1 : ∀ n, (Spec.of n (es.filter fun e => !(e.id.stream == N))).length ≤ 3 := by
      intro n
      rw [hof]
      split
      · simp
      · exact h n
    have h2 : ∀ n, N ≤ n → Spec.of n (es.filter fun e => !(e.id.stream == N)) = [] := by
      intro n hn
      rw [hof]
      split
      · rfl
      · exact h0 n (by omega)
    have := ih _ h1 h2
    have h3 := h N
    unfold Spec.of at h3
    omega

/-- C89: the client of a tap with a small limit keeps up if it does not go away. -/
theorem C89_small_limits_keep_up (a b : List Op) {lim : Nat} {m : PbMatch} (ex : Option PbExtract) (hl : 0 < lim) (hm : Spec.Ok m)
    (hs : 3 * lim + 2 ≤ 400) (hd : .dropStream (Spec.taps a) ∉ b) : KeepsUp a (.observe lim (some m) ex) b := by
  obtain ⟨c, hc⟩ := (C88_accepts (some m)).2 ⟨m, rfl, hm⟩
  intro b' op b'' hb
  refine ⟨?_, ?_⟩
  · rintro rfl; exact hd (by simp [hb])
  · obtain ⟨s, v⟩ := inv_run a b' ex hl hc
    simp only [waiting, v.get]
    have := length_le_of (s.delivered ++ s.queue) lim (fun n => ?_) (fun n hn => v.track.none n (Or.inl hn))
    · simp only [List.length_append] at this; omega
    · by_cases hn : n < lim ∧ n < (Spec.hits m (Spec.calls a) b').length
      · rcases (v.track.got n _ hn.1 (List.getElem?_eq_getElem hn.2)).some with h0 | ⟨rest, h0, h1⟩
        · rw [h0]; simp
        · rw [h0]
          have h2 := h1.length_le
          have h3 := tellAnswer_length (Spec.asks ex) (Spec.hits m (Spec.calls a) b')[n].now (Spec.hits m (Spec.calls a) b')[n].life
          simp only [events, List.length_map] at h2
          simp only [events, List.length_append, List.length_map, List.length_cons, List.length_nil]
          omega
      · rw [v.track.none n (by omega)]; simp

/-! ## The end -/

/-- C89: the stream of a tap ends only after as many requests it is for as its limit, and only when nothing waits. If its client
kept up, all of them are over, and all about them was told. -/
theorem C89_ends_when_done (a b : List Op) {lim : Nat} {m : PbMatch} (ex : Option PbExtract) (hl : 0 < lim) (hm : Spec.Ok m)
    {s : Session} (hs : (Sys.run (a ++ .observe lim (some m) ex :: b)).sessions[Spec.taps a]? = some s) (he : s.ended = true) :
    lim ≤ (Spec.hits m (Spec.calls a) b).length ∧ s.queue = [] ∧
      (KeepsUp a (.observe lim (some m) ex) b → ∀ n h, n < lim → (Spec.hits m (Spec.calls a) b)[n]? = some h →
        Spec.over h.life = true ∧ ∃ base, Spec.About base h.req ∧ Spec.of n s.delivered =
          (Spec.tellRequest (Spec.asks ex) h.req :: Spec.tellAnswer (Spec.asks ex) h.now h.life).map
            (fun k => ⟨⟨Spec.taps a % 2 ^ 32, n⟩, base, k⟩)) := by
  obtain ⟨c, hc⟩ := (C88_accepts (some m)).2 ⟨m, rfl, hm⟩
  obtain ⟨s', v⟩ := inv_run a b ex hl hc
  have : s' = s := by have := v.get; rw [hs] at this; cases this; rfl
  subst this
  obtain ⟨e1, e2, e3, e4⟩ := v.ended he
  refine ⟨Nat.le_trans e3 v.countLe, e1, fun hk n h hn hh => ⟨?_, baseEvent h.req, about_base _, ?_⟩⟩
  · have hj := v.track.jlt h (List.mem_of_getElem? hh)
    have hf := List.getElem?_eq_getElem hj
    have ha := (v.track.flow n h _ hn hh hf).all hk
    rw [e4 _ _ hf] at ha
    exact (over_iff _).2 (tapAt_over ha.symm)
  · have := (v.track.got n h hn hh).all hk
    rw [e1, List.append_nil] at this
    exact this

/-- C89: once as many requests a tap is for as its limit came and are over, the stream ends when its client has read what waits. -/
theorem C89_done_then_ends (a b : List Op) {lim : Nat} {m : PbMatch} (ex : Option PbExtract) (hl : 0 < lim) (hm : Spec.Ok m)
    (hd : .dropStream (Spec.taps a) ∉ b) (hlim : lim ≤ (Spec.hits m (Spec.calls a) b).length)
    (ho : ∀ n h, n < lim → (Spec.hits m (Spec.calls a) b)[n]? = some h → Spec.over h.life = true) :
    ∃ s, (Sys.run (a ++ .observe lim (some m) ex :: b ++ List.replicate
      (waiting (Sys.run (a ++ .observe lim (some m) ex :: b)) (Spec.taps a) + 1) (.poll (Spec.taps a)))).sessions[Spec.taps a]? =
        some s ∧ s.ended = true := by
  obtain ⟨c, hc⟩ := (C88_accepts (some m)).2 ⟨m, rfl, hm⟩
  obtain ⟨s, v⟩ := inv_run a b ex hl hc
  have hrecv := v.recv hd
  have hcount : lim ≤ s.count := by
    rcases v.countEq hrecv with h | h <;> omega
  have hmine : ∀ (j : Nat) (f : Flow), (Sys.run (a ++ .observe lim (some m) ex :: b)).flows[j]? = some f →
      mine (Spec.taps a) f.taps = [] := by
    intro j f hf
    by_cases hit : ∃ (n : Nat) (h : Hit), n < lim ∧ (Spec.hits m (Spec.calls a) b)[n]? = some h ∧ h.j = j
    · obtain ⟨n, h, hn, hh, rfl⟩ := hit
      rcases (v.track.flow n h f hn hh hf).some with h0 | ⟨h0, _⟩
      · exact h0
      · rw [(over_iff _).1 (ho n h hn hh)] at h0; exact h0
    · exact v.track.other j f hf fun n h h1 h2 h3 => hit ⟨n, h, h1, h2, h3⟩
  have hsend : senders (Sys.run (a ++ .observe lim (some m) ex :: b)).flows (Spec.taps a) = false := by
    rw [Bool.eq_false_iff]
    intro hs
    obtain ⟨j, f, hf, hm⟩ := (senders_iff _ _).1 hs
    exact hm (hmine j f hf)
  have hget := v.get
  have hlim' := v.limit
  simp only [waiting, hget]
  rw [Sys.run, List.foldl_append, ← Sys.run]
  generalize Sys.run (a ++ .observe lim (some m) ex :: b) = y at hget hsend
  clear v hmine
  generalize hq : s.queue.length = k
  induction k generalizing y s with
  | zero =>
    have hq' : s.queue = [] := List.eq_nil_of_length_eq_zero hq
    have hu : (s.held && s.underLimit) = false := by simp [Session.underLimit]; omega
    cases he : s.ended with
    | true => exact ⟨s, by simp [Sys.step, hget, he], he⟩
    | false =>
      refine ⟨s.poll false, ?_, (poll_ended s false he).2 ⟨hq', hu, rfl⟩⟩
      have hst : y.step (.poll (Spec.taps a)) = { y with sessions := y.sessions.set (Spec.taps a) (s.poll false) } := by
        simp [Sys.step, hget, he, hrecv, hsend]
      rw [List.replicate_succ, List.foldl_cons, hst]
      simp [lt_of_getElem?_some hget]
  | succ k ih =>
    cases hqc : s.queue with
    | nil => rw [hqc] at hq; cases hq
    | cons e rest =>
      rw [List.replicate_succ, List.foldl_cons]
      cases he : s.ended with
      | true =>
        have : y.step (.poll (Spec.taps a)) = y := by simp [Sys.step, hget, he]
        rw [this]
        clear ih hq hqc
        refine ⟨s, ?_, he⟩
        generalize k + 1 = k'
        induction k' with
        | zero => exact hget
        | succ k' ih => rw [List.replicate_succ, List.foldl_cons, this]; exact ih
      | false =>
        have hst : y.step (.poll (Spec.taps a)) = { y with sessions := y.sessions.set (Spec.taps a) (s.poll false) } := by
          simp [Sys.step, hget, he, hrecv, hsend]
        obtain ⟨p1, p2, _, _, p5, p6, p7⟩ := poll_events s false
        rw [hst]
        refine ih (s.poll false) (by rw [p6]; exact hrecv) (by rw [p5]; exact hcount) (by rw [p2]; exact hlim')
          { y with sessions := y.sessions.set (Spec.taps a) (s.poll false) } ?_ hsend ?_
        · simp [lt_of_getElem?_some hget]
        · have : (s.poll false).queue = rest := by unfold Session.poll; simp [hqc]
          rw [this]; rw [hqc] at hq; simpa using hq

/-! ## Who may tap -/

/-- C89: a tap is given iff its limit is not 0 and its message makes sense. -/
theorem C89_given_iff (ops : List Op) (lim : Nat) (m : Option PbMatch) (ex : Option PbExtract) :
    (Sys.run (ops ++ [.observe lim m ex])).sessions.length = (Sys.run ops).sessions.length + 1 ↔ Spec.Accepted lim m := by
  rw [(run_lengths _).2, (run_lengths _).2, taps_append]
  by_cases h : Spec.Accepted lim m <;> simp [Spec.taps, h]

/-- The tap server's view of a connection after TLS detection; `client` is who the TLS handshake found. -/
def connTls (client : Option ApiResolve.Id) : Tls.Peer → ConnTls
  | .terminated => .established client
  | .passthru _ => .passthru
  | .noClientHello => .noTls

/-- C89: only a client that proves, over TLS with this proxy, to be the permitted one may tap. -/
theorem C89_only_the_permitted (id : ApiResolve.Id) (client : Option ApiResolve.Id) (localName : Tap.Str) (peeked : Nat)
    (io : Io.Inner) (reads : List Io.ReadAnswer) (peer : Tls.Peer) (io' : Io.PrefixedIo)
    (_h : Tls.call localName peeked io reads = .accepted peer io') :
    permitted id (connTls client peer) = true ↔ peer = .terminated ∧ client = some id := by
  cases peer with
  | terminated =>
    cases client with
    | none => simp [connTls, permitted]
    | some c => simp [connTls, permitted, @eq_comm _ id]
  | passthru sni => simp [connTls, permitted]
  | noClientHello => simp [connTls, permitted]

/-! ## Examples -/

def exRsp : Rsp := ⟨.h2, 200, [("a", "b".toList)]⟩

/-- A tap for one request: the request, its response and its end are told, then the stream ends. A request between the two is
not told of. -/
def exAfter : List Op :=
  [.call 4 { exReq with method := "GET".toList, path := "/b".toList }, .call 5 exReq, .clean, .respond 1 7 exRsp false, .poll 0,
   .frame 1 8 (.data false), .call 8 exReq, .frame 1 9 (.trailers [("grpc-status", "5".toList)]), .poll 0, .poll 0, .poll 0]

def exOps : List Op := .observe 1 (some exMatch) (some (.http true)) :: exAfter

theorem exMatch_ok : Spec.Ok exMatch := by
  obtain ⟨x, hx, h⟩ := (C88_accepts (some exMatch)).1 ⟨_, rfl⟩
  cases hx; exact h

example : KeepsUp [] (.observe 1 (some exMatch) (some (.http true))) exAfter :=
  C89_small_limits_keep_up [] _ _ (by decide) exMatch_ok (by decide) (by simp [exAfter, Spec.taps])

example : ∃ s, (Sys.run exOps).sessions[0]? = some s ∧ s.ended = true ∧
    s.delivered.map (·.kind) =
      [.requestInit "GET".toList (some "https".toList) "web".toList "/a/b".toList
        (some [(":method", "GET".toList), (":scheme", "https".toList), (":authority", "web".toList), (":path", "/a/b?c".toList),
          ("host", "web".toList), ("x", "y".toList)]),
       .responseInit 2 200 (some [(":status", "200".toList), ("a", "b".toList)]),
       .responseEnd 4 (some 2) 0 (some (.grpcStatus 5)) (some [("grpc-status", "5".toList)])] :=
  ⟨_, rfl, by decide +kernel, by decide +kernel⟩

/-- There are two requests the tap is for; the limit is one. -/
example : (Spec.hits exMatch 0 exAfter).length = 2 := by
  rw [hits_eq (fun r => C88_selects (m := exMatch) rfl r)]
  decide +kernel

/-! ## Limits -/

/-- C89, limit: of a response that is given up the tap tells as of one that ended well. -/
theorem C89_limit_given_up_looks_ended (x : Bool) (t0 t1 t : Nat) (st : Option Nat) :
    Spec.tellBody x t0 t1 st [.drop t] = Spec.tellBody x t0 t1 st [.frame t .done] := rfl

/-- C89, limit: of a request that is given up before its response the tap tells no end. -/
theorem C89_limit_given_up_requests_do_not_end (x : Bool) (t0 t : Nat) (rest : List Happen) :
    Spec.tellAnswer x t0 (.drop t :: rest) = [] ∧ Spec.over (.drop t :: rest) = true := ⟨rfl, rfl⟩

theorem tellBody_bytes (x : Bool) (t0 t1 : Nat) (st : Option Nat) (l : List Happen) :
    ∀ k ∈ Spec.tellBody x t0 t1 st l, ∃ a b e tr, k = .responseEnd a b 0 e tr := by
  induction l with
  | nil => simp [Spec.tellBody]
  | cons h l ih =>
    cases h with
    | frame t f =>
      cases f with
      | data b => cases b <;> simp [Spec.tellBody, Spec.ending]; exact ih
      | pending => simpa [Spec.tellBody] using ih
      | _ => simp [Spec.tellBody, Spec.ending]
    | drop t => simp [Spec.tellBody, Spec.ending]
    | _ => simpa [Spec.tellBody] using ih

/-- C89, limit: the size of a response is always told to be 0. -/
theorem C89_limit_size_is_always_zero (x : Bool) (t0 : Nat) (l : List Happen) (a : Nat) (b : Option Nat) (n : Nat)
    (e : Option End) (tr : Option PbHeaders) (h : .responseEnd a b n e tr ∈ Spec.tellAnswer x t0 l) : n = 0 := by
  induction l with
  | nil => simp [Spec.tellAnswer] at h
  | cons hp l ih =>
    cases hp with
    | respond t r ended =>
      cases ended
      · simp only [Spec.tellAnswer, Bool.false_eq_true, if_false, List.mem_cons, reduceCtorEq, false_or] at h
        obtain ⟨_, _, _, _, h⟩ := tellBody_bytes _ _ _ _ _ _ h
        cases h; rfl
      · simp [Spec.tellAnswer, Spec.ending] at h; exact h.2.2.1
    | fail t reason => simp [Spec.tellAnswer] at h; exact h.2.2.1
    | drop t => simp [Spec.tellAnswer] at h
    | frame t f => exact ih h

/-- A client that reads nothing until 401 requests came. -/
def exLost : List Op :=
  .observe 401 (some exMatch) none :: (List.replicate 401 (.call 0 exReq) ++ List.replicate 401 (.poll 0))

/-- C89, limit: if the client does not keep up, requests are missed though the limit is not reached, and they count for it. -/
theorem C89_limit_missed_requests_count : ∃ s, (Sys.run exLost).sessions[0]? = some s ∧ s.count = 401 ∧
    s.delivered.length = 400 ∧ s.queue.length = 0 := by
  have h : ((Sys.run exLost).sessions[0]?).map (fun s => (s.count, s.delivered.length, s.queue.length)) = some (401, 400, 0) := by
    decide +kernel
  obtain ⟨s, hs, h⟩ := Option.map_eq_some_iff.1 h
  simp only [Prod.mk.injEq] at h
  exact ⟨s, hs, h⟩

/-- C89. The status that a tap tells of is the number in the first `grpc-status` of the trailers, or of the head. -/
theorem C89_grpc_status (h : HeaderMap) (n : Nat) :
    grpcStatus h = some n ↔ ∃ v, h.get "grpc-status" = some v ∧ n ≤ 4294967295 ∧
      (Text.Numeral v n ∨ ∃ r, v = '+' :: r ∧ Text.Numeral r n) ∧ ∀ c ∈ v, visible c = true := by
  unfold grpcStatus
  simp only [Option.bind_eq_some_iff, Text.parseUnsigned_iff, toStr]
  constructor
  · rintro ⟨s, ⟨v, hv, hs⟩, h1, h2⟩
    split at hs
    · rename_i ha
      cases hs
      exact ⟨s, hv, h1, h2, by simpa using ha⟩
    · cases hs
  · rintro ⟨v, hv, h1, h2, h3⟩
    exact ⟨v, ⟨v, hv, if_pos (by simpa using h3)⟩, h1, h2⟩

example : grpcStatus [("grpc-status", "5".toList)] = some 5 := by decide +kernel

end Verif.Tap
