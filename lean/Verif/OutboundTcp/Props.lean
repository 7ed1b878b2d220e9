import Verif.OutboundTcp.Spec
import Verif.ClientPolicy.RouterProps
import Verif.Distribute.Props
/-!
# C106 — what becomes of an outbound connection
-/
namespace Verif.OutboundTcp
open Verif.ClientPolicy Verif.OutboundTcp.Spec
open Verif.Distribute (Answer)
open Verif.Distribute.Spec (Eligible MayChoose Valid)

/-! ### Distributions -/

theorem valid_of_built {F : Type} (tcp : Bool) (d : ClientPolicy.Distribution F) (b : Built F)
    (h : mkDistribution tcp d = some b) : Valid (distOf b) := by
  cases d with
  | empty => cases h; trivial
  | first l =>
    simp only [mkDistribution, Option.map_eq_some_iff] at h
    obtain ⟨l', -, rfl⟩ := h
    by_cases e : l'.isEmpty
    · rw [if_pos e]; trivial
    · rw [if_neg e]; trivial
  | random l =>
    simp only [mkDistribution, Option.bind_eq_some_iff] at h
    obtain ⟨l', -, h⟩ := h
    rcases (randomOf_some l' b).1 h with ⟨-, rfl⟩ | ⟨h2, h3, h4, rfl⟩
    · trivial
    · have e : ((List.range l'.length).zip (l'.map (·.2))).map Prod.snd = l'.map (·.2) := by
        rw [List.map_snd_zip]; simp
      refine ⟨by simpa using h2, ?_, ?_⟩
      · rw [e]; exact h3
      · rw [e]; simpa [Distribute.u32Max] using h4

theorem valid_of_made {sv : Serving} (h : Made sv) {rt : Matched} (hs : sv.select = some rt) : Valid (distOf rt.distribution) := by
  have key : ∀ {P : Type} (p : RoutePolicy TcpFilter P) (b : BuiltRoute TcpFilter P), mkPolicy true p = some b → Valid (distOf b.distribution) := by
    intro P p b hb
    unfold mkPolicy at hb
    rw [Option.map_eq_some_iff] at hb
    obtain ⟨d, hd, rfl⟩ := hb
    exact valid_of_built true _ _ hd
  cases sv with
  | opaq parent addr r =>
    obtain ⟨o, bs, h⟩ := h
    unfold mkOpaq at h
    simp only [Option.bind_eq_some_iff, Option.map_eq_some_iff] at h
    obtain ⟨o', ho, bs', -, rfl⟩ := h
    simp only [Serving.select] at hs
    cases o with
    | none => cases ho; cases hs
    | some p =>
      simp only [HttpRoute.Api.readOpt, Option.map_eq_some_iff] at ho
      obtain ⟨b, hb, rfl⟩ := ho
      cases hs
      exact key p b hb
  | tls parent sni r =>
    obtain ⟨rts, bs, h⟩ := h
    unfold mkTls at h
    simp only [Option.bind_eq_some_iff, Option.map_eq_some_iff] at h
    obtain ⟨rs, hrs, bs', -, rfl⟩ := h
    simp only [Serving.select] at hs
    cases hf : TlsRoute.find rs sni with
    | none => rw [hf] at hs; cases hs
    | some mb =>
      obtain ⟨m, b⟩ := mb
      rw [hf] at hs
      cases hs
      obtain ⟨i, rt', hi, hp, -⟩ := TlsRoute.C27_route_is_the_right_choice hf
      obtain ⟨r0, -, e⟩ := mem_of_readAll hrs (List.mem_of_getElem? hi)
      unfold mkTlsRoute at e
      rw [Option.map_eq_some_iff] at e
      obtain ⟨b', hb, rfl⟩ := e
      cases hp
      exact key _ _ hb

theorem eligible_iff {F : Type} (d : Built F) (i : Nat) : Eligible (distOf d) i ↔ ∃ b, TakesPart d i b := by
  cases d with
  | empty => simp [distOf, Eligible, TakesPart]
  | first l =>
    simp only [distOf, Eligible, TakesPart, List.length_range]
    constructor
    · intro h; exact ⟨l[i], List.getElem?_eq_getElem h⟩
    · rintro ⟨b, h⟩; exact (List.getElem?_eq_some_iff.1 h).1
  | random l =>
    simp only [distOf, Eligible, TakesPart]
    constructor
    · rintro ⟨k, w, h, hw⟩
      have h1 := (List.getElem?_zip_eq_some.1 h).2
      rw [List.getElem?_map, Option.map_eq_some_iff] at h1
      obtain ⟨⟨b, w'⟩, h2, rfl⟩ := h1
      exact ⟨b, w', h2, hw⟩
    · rintro ⟨b, w, h, hw⟩
      refine ⟨i, w, ?_, hw⟩
      have hl := (List.getElem?_eq_some_iff.1 h).1
      rw [List.getElem?_zip_eq_some]
      refine ⟨?_, ?_⟩
      · rw [List.getElem?_range hl]
      · rw [List.getElem?_map, h]; rfl

theorem backend_of {F : Type} {d : Built F} {i : Nat} {b : BuiltBackend F} (h : TakesPart d i b) : (backendsOf d)[i]? = some b := by
  cases d with
  | empty => exact h.elim
  | first l => exact h
  | random l =>
    obtain ⟨w, h, -⟩ := h
    simp only [backendsOf, List.getElem?_map, h]; rfl

theorem mayGet_of {F : Type} {d : Built F} {ready : Nat → Answer} {i : Nat} (h : MayChoose (distOf d) ready i) :
    ∃ b, MayGet d ready i b := by
  obtain ⟨h1, h2, h3⟩ := h
  obtain ⟨b, hb⟩ := (eligible_iff d i).1 h1
  refine ⟨b, hb, h2, ?_⟩
  cases d with
  | empty => trivial
  | random l => trivial
  | first l => exact h3

theorem none_of {F : Type} {d : Built F} {ready : Nat → Answer} (h : ∀ i, Eligible (distOf d) i → ready i = .pending) : NoneAvailable d ready :=
  fun i b hb => h i ((eligible_iff d i).2 ⟨b, hb⟩)

theorem applyTcp_cons (f : TcpFilter) (fs : List TcpFilter) : ∃ r, applyTcp (f :: fs) = .error r ∧ causeOf r = refusal f := by
  cases f <;> exact ⟨_, rfl, rfl⟩

/-! ### One poll -/

/-- What a poll of a connection that waits for its route does. -/
theorem poll_selected {s : Sys} {id : Nat} {rt : Matched} (hv : Valid (distOf rt.distribution))
    (hc : Assoc.lookup id s.conns = some (.selected rt)) (env : Distribute.Env) (failure : Error) (a : Polled) :
    (∃ i b, TakesPart rt.distribution i b ∧ env.answer i = .failed ∧
      step s (.poll id env failure a) =
        ({ s with conns := Assoc.erase id s.conns }, ⟨.failed (.logical :: .route rt.labels.route :: failure), none⟩)) ∨
    (∃ c, (((∃ f fs, rt.filters = f :: fs ∧ c = refusal f) ∧
          ((∃ i b, MayGet rt.distribution env.answer i b) ∨ NoneAvailable rt.distribution env.answer)) ∨
        (rt.filters = [] ∧ c = .loadShed ∧ NoneAvailable rt.distribution env.answer) ∨
        (rt.filters = [] ∧ ∃ i b f fs, MayGet rt.distribution env.answer i b ∧ b.filters = f :: fs ∧ c = refusal f)) ∧
      step s (.poll id env failure a) = ((finish (s.incOpen rt.labels) id rt.labels (some [c])).1,
        ⟨.closed (some [.logical, .route rt.labels.route, c]), none⟩)) ∨
    (rt.filters = [] ∧ ∃ i b, MayGet rt.distribution env.answer i b ∧ b.filters = [] ∧
      step s (.poll id env failure a) =
        ((pollServing { s.incOpen rt.labels with conns := Assoc.put id (.serving rt.labels b.concrete) s.conns } id rt.labels a).1,
          ⟨told rt.labels.route a, some b.concrete⟩)) := by
  have hd := Distribute.poll_spec (distOf rt.distribution) hv env
  have hstep : ∀ r, Distribute.World.poll { dist := distOf rt.distribution } (distOf rt.distribution).size env = r →
      step s (.poll id env failure a) = match r.2 with
        | .failed => ({ s with conns := Assoc.erase id s.conns }, { out := .failed (.logical :: .route rt.labels.route :: failure) })
        | .ready | .pending => callRoute s id rt r a
        | _ => (s, { out := .panicked }) := by
    rintro r rfl
    simp only [step, hc, Distribute.World.step]
    rfl
  have htold : ∀ s' : Sys, (pollServing s' id rt.labels a).2 = told rt.labels.route a := by
    intro s'; cases a <;> rfl
  rcases hd with ⟨i, h1, h2⟩ | ⟨i, h1, h2, h3⟩ | ⟨h1, h2⟩
  · -- ready
    right
    obtain ⟨b, hb⟩ := mayGet_of h2
    rw [hstep _ h1]
    cases hf : rt.filters with
    | cons f fs =>
      left
      obtain ⟨r, hr, hcr⟩ := applyTcp_cons f fs
      refine ⟨refusal f, .inl ⟨⟨f, fs, rfl, rfl⟩, .inl ⟨i, b, hb⟩⟩, ?_⟩
      simp only [callRoute, hf, hr, hcr]
      rfl
    | nil =>
      obtain ⟨k, hk⟩ := Distribute.eligible_key _ i h2.1
      have hcall : (Distribute.World.call { dist := distOf rt.distribution, readyIdx := some i }).2 = .sent i k := by
        have hne : distOf rt.distribution ≠ .empty := by intro e; rw [e] at h2; exact h2.1.elim
        cases e : distOf rt.distribution with
        | empty => exact absurd e hne
        | first l => rw [e] at hk; simp only [Distribute.World.call, hk]
        | random l => rw [e] at hk; simp only [Distribute.World.call, hk]
      have hbk := backend_of hb.1
      cases hbf : b.filters with
      | cons f fs =>
        left
        obtain ⟨r, hr, hcr⟩ := applyTcp_cons f fs
        refine ⟨refusal f, .inr (.inr ⟨rfl, i, b, f, fs, hb, hbf, rfl⟩), ?_⟩
        simp only [callRoute, hf, applyTcp, List.head?_nil, hcall, hbk, hbf]
        simp only [applyTcp] at hr
        simp only [hr, hcr]
        rfl
      | nil =>
        right
        refine ⟨rfl, i, b, hb, hbf, ?_⟩
        simp only [callRoute, hf, applyTcp, List.head?_nil, hcall, hbk, hbf, Sys.incOpen, htold]
  · left
    obtain ⟨b, hb⟩ := (eligible_iff _ i).1 h2
    refine ⟨i, b, hb, h3, ?_⟩
    rw [hstep _ h1]
  · right
    left
    have hn := none_of h2
    rw [hstep _ h1]
    cases hf : rt.filters with
    | cons f fs =>
      obtain ⟨r, hr, hcr⟩ := applyTcp_cons f fs
      refine ⟨refusal f, .inl ⟨⟨f, fs, rfl, rfl⟩, .inr hn⟩, ?_⟩
      simp only [callRoute, hf, hr, hcr]
      rfl
    | nil =>
      refine ⟨.loadShed, .inr (.inl ⟨rfl, rfl, hn⟩), ?_⟩
      simp only [callRoute, hf, applyTcp, List.head?_nil]
      rfl

/-! ### What is seen of a connection -/

/-- The connections of other futures stay as they are. -/
theorem step_other (s : Sys) (op : Op) (id : Nat) (h : idOf op ≠ id) :
    Assoc.lookup id (step s op).1.conns = Assoc.lookup id s.conns := by
  have fin : ∀ (s : Sys) id' l e, id' ≠ id → Assoc.lookup id (finish s id' l e).1.conns = Assoc.lookup id s.conns := by
    intro s id' l e hne
    simp only [finish, Sys.incClosed, Assoc.lookup_erase, if_neg (Ne.symm hne)]
  have ps : ∀ (s : Sys) id' l a, id' ≠ id → Assoc.lookup id (pollServing s id' l a).1.conns = Assoc.lookup id s.conns := by
    intro s id' l a hne
    cases a with
    | pending => rfl
    | ok => exact fin s id' l _ hne
    | err e => exact fin s id' l _ hne
  cases op with
  | accept id' sv =>
    have h : id' ≠ id := h
    simp only [step]
    split
    · simp only [Assoc.lookup_put, if_neg (Ne.symm h)]
    · simp only [Assoc.lookup_put, if_neg (Ne.symm h)]
  | drop id' =>
    have h : id' ≠ id := h
    simp only [step, Assoc.lookup_erase, if_neg (Ne.symm h)]
  | poll id' env failure a =>
    have h : id' ≠ id := h
    simp only [step]
    split
    · rfl
    · simp only [Assoc.lookup_erase, if_neg (Ne.symm h)]
    · split
      · simp only [Assoc.lookup_erase, if_neg (Ne.symm h)]
      · unfold callRoute
        dsimp only
        split
        · exact fin _ _ _ _ h
        · split
          · exact fin _ _ _ _ h
          · split
            · split
              · rfl
              · split
                · exact fin _ _ _ _ h
                · rw [ps _ _ _ _ h]
                  simp only [Assoc.lookup_put, if_neg (Ne.symm h)]; rfl
            · rfl
      · unfold callRoute
        dsimp only
        split
        · exact fin _ _ _ _ h
        · split
          · exact fin _ _ _ _ h
          · split
            · split
              · rfl
              · split
                · exact fin _ _ _ _ h
                · rw [ps _ _ _ _ h]
                  simp only [Assoc.lookup_put, if_neg (Ne.symm h)]; rfl
            · rfl
      · rfl
    · exact ps _ _ _ _ h

/-- The state agrees with what is known of a connection. -/
def Agrees (s : Sys) (id : Nat) : View → Prop
  | .gone => Assoc.lookup id s.conns = none
  | .given sv => Made sv ∧ Assoc.lookup id s.conns = some (match sv.select with | none => .noRoute | some rt => .selected rt)
  | .served route => ∃ l c, Assoc.lookup id s.conns = some (.serving l c) ∧ l.route = route

theorem finish_gone (s : Sys) (id : Nat) (l : Labels) (e : Option Error) : Agrees (finish s id l e).1 id .gone := by
  simp only [Agrees, finish, Sys.incClosed, Assoc.lookup_erase, if_pos]

theorem serving_agrees (s : Sys) (id : Nat) (l : Labels) (c : Concrete) (a : Polled) (h : Assoc.lookup id s.conns = some (.serving l c)) :
    Agrees (pollServing s id l a).1 id (if told l.route a = .pending then .served l.route else .gone) := by
  cases a with
  | pending => exact ⟨l, c, h, rfl⟩
  | ok => exact finish_gone s id l _
  | err e => exact finish_gone s id l _

theorem obeys (id : Nat) (ops : List Op) (s : Sys) (v : View) (hs : Agrees s id v)
    (hm : ∀ j sv, .accept j sv ∈ ops → Made sv) : Obeys id v (trace s ops) := by
  induction ops generalizing s v with
  | nil => trivial
  | cons op ops ih =>
    have hm' : ∀ j sv, .accept j sv ∈ ops → Made sv := fun j sv h => hm j sv (by simp [h])
    simp only [trace, Obeys]
    by_cases hid : idOf op = id
    · rw [if_neg (by simpa using hid)]
      cases op with
      | accept j sv =>
        cases hid
        refine ⟨?_, ih _ _ ?_ hm'⟩
        · simp only [step]; split <;> rfl
        · refine ⟨hm j sv (by simp), ?_⟩
          simp only [step, idOf]
          cases sv.select with
          | none => simp only [Assoc.lookup_put, if_pos]
          | some rt => simp only [Assoc.lookup_put, if_pos]
      | drop j =>
        cases hid
        exact ⟨rfl, ih _ _ (by simp only [Agrees, step, idOf, Assoc.lookup_erase, if_pos]) hm'⟩
      | poll j env failure a =>
        cases hid
        cases v with
        | gone =>
          have hs : Assoc.lookup j s.conns = none := hs
          have e : step s (.poll j env failure a) = (s, ⟨.nothing, none⟩) := by simp only [step, hs]
          rw [e]
          exact ⟨rfl, ih _ _ hs hm'⟩
        | served route =>
          obtain ⟨l, c, hl, rfl⟩ := hs
          have hl : Assoc.lookup j s.conns = some (.serving l c) := hl
          have e : step s (.poll j env failure a) = ((pollServing s j l a).1, ⟨told l.route a, none⟩) := by
            simp only [step, hl]
            cases a <;> rfl
          rw [e]
          exact ⟨rfl, ih _ _ (serving_agrees s j l c a hl) hm'⟩
        | given sv =>
          obtain ⟨hmade, hl⟩ := hs
          dsimp only
          cases hsel : sv.select with
          | none =>
            rw [hsel] at hl
            have hl : Assoc.lookup j s.conns = some .noRoute := hl
            have e : step s (.poll j env failure a) = ({ s with conns := Assoc.erase j s.conns }, ⟨.closed (some [.logical, .noRoute]), none⟩) := by
              simp only [step, hl]
            rw [e]
            exact ⟨rfl, ih _ _ (by simp only [Agrees, idOf, Assoc.lookup_erase, if_pos]) hm'⟩
          | some rt =>
            rw [hsel] at hl
            have hl : Assoc.lookup j s.conns = some (.selected rt) := hl
            rcases poll_selected (valid_of_made hmade hsel) hl env failure a with
              ⟨i, b, h1, h2, e⟩ | ⟨c, hc, e⟩ | ⟨hf, i, b, h1, h2, e⟩
            · rw [e]
              exact ⟨.failed i b h1 h2, ih _ _ (by simp [Agrees, idOf, Assoc.lookup_erase]) hm'⟩
            · rw [e]
              refine ⟨?_, ih _ _ (finish_gone _ _ _ _) hm'⟩
              rcases hc with ⟨⟨f, fs, h1, rfl⟩, h2⟩ | ⟨h1, rfl, h2⟩ | ⟨h1, i, b, f, fs, h2, h3, rfl⟩
              · exact .refusedByRoute f fs h1 h2
              · exact .unavailable h1 h2
              · exact .refusedByBackend i b f fs h1 h2 h3
            · rw [e]
              exact ⟨.sent i b hf h1 h2, ih _ _ (serving_agrees _ _ _ b.concrete _ (by simp only [Assoc.lookup_put, idOf, if_pos])) hm'⟩
    · rw [if_pos hid]
      refine ih _ _ ?_ hm'
      have hother := step_other s op id hid
      cases v with
      | gone => exact hother.trans hs
      | given sv => exact ⟨hs.1, hother.trans hs.2⟩
      | served route => obtain ⟨l, c, h1, h2⟩ := hs; exact ⟨l, c, hother.trans h1, h2⟩

/-- **C106.** Whatever happens to other connections, and whatever routers they are given to, what is seen of a connection is as
it should be: without a route it is refused; with one, its fate is decided when its future is first polled: it goes to a backend
of the route, once, exactly if neither the route nor the backend has filters; after that its backend alone decides. -/
theorem C106_connection (ops : List Op) (hm : ∀ j sv, .accept j sv ∈ ops → Made sv) (id : Nat) :
    Obeys id .gone (trace init ops) := obeys id ops init .gone rfl hm

end Verif.OutboundTcp
