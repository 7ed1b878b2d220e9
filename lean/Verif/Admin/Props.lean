import Verif.Admin.Model
import Verif.InboundPolicy.HttpProps

/-!
# C95: what the admin server does, and for whom
-/

namespace Verif.Admin

open Verif
open Verif.ServerPolicy (Tls Ip)

/-! ## Specification -/

/-- The addresses of the machine itself: 127.0.0.0/8, `::1`, and ::ffff:127.0.0.0/104. -/
inductive Loopback : Ip → Prop
  | v4 (n : Nat) (h : n < 2 ^ 24) : Loopback (.v4 (127 * 2 ^ 24 + n))
  | v6 : Loopback (.v6 1)
  | mapped (n : Nat) (h : n < 2 ^ 24) : Loopback (.v6 (0xffff * 2 ^ 32 + 127 * 2 ^ 24 + n))

/-- The request came over a connection from the machine itself. -/
def Local (r : Req) : Prop := ∃ ip, r.client = some ip ∧ Loopback ip

/-- A text has a part. -/
def Has (p s : Str) : Prop := ∃ a b, s = a ++ p ++ b

/-- `d` is the first frame of `l` with any data, or there is none and `d` is empty. -/
def FirstData (l : List Str) (d : Str) : Prop :=
  (∃ pre post, l = pre ++ d :: post ∧ (∀ e ∈ pre, e = []) ∧ d ≠ []) ∨ ((∀ e ∈ l, e = []) ∧ d = [])

/-- The client has no objection to JSON. -/
def TakesJson {F : Type} (x : Env F) (r : Req) : Prop :=
  ∀ v, r.headers.get "accept" = some v →
    ∃ a, x.utf8 v = some a ∧
      (Has "application/json".toList a ∨ Has "application/*".toList a ∨ Has "*/*".toList a)

/-- The request sets the filter of logs to `f`. -/
def Sets {F : Type} (x : Env F) (r : Req) (f : F) : Prop :=
  r.path = "/proxy-log-level".toList ∧ r.method = "PUT".toList ∧ Local r ∧
    ∃ l d s, r.body = .frames l ∧ FirstData l d ∧ x.utf8 d = some s ∧ x.parse s = some f

/-- The request asks the process to stop. -/
def AsksToStop (r : Req) : Prop := r.path = "/shutdown".toList ∧ r.method = "POST".toList

/-! ## Lemmas -/

theorem contains_iff (p s : Str) : contains p s = true ↔ Has p s := by
  induction s with
  | nil =>
    simp only [contains, List.isPrefixOf_iff_prefix, Has]
    constructor
    · rintro ⟨t, ht⟩; exact ⟨[], t, by simpa using ht.symm⟩
    · rintro ⟨a, b, h⟩
      have h := h.symm
      rw [List.append_eq_nil_iff, List.append_eq_nil_iff] at h
      rw [h.1.2]; exact List.nil_prefix
  | cons c s ih =>
    simp only [contains, Bool.or_eq_true, List.isPrefixOf_iff_prefix, ih]
    constructor
    · rintro (⟨t, ht⟩ | ⟨a, b, h⟩)
      · exact ⟨[], t, by simpa using ht.symm⟩
      · exact ⟨c :: a, b, by rw [h]; simp⟩
    · rintro ⟨a, b, h⟩
      cases a with
      | nil => exact .inl ⟨b, by simpa using h.symm⟩
      | cons d a =>
        simp only [List.cons_append, List.cons.injEq] at h
        exact .inr ⟨a, b, by rw [h.2]⟩

theorem chunk_first (l : List Str) : FirstData l (chunk l) := by
  induction l with
  | nil => exact .inr ⟨by simp, rfl⟩
  | cons d l ih =>
    cases d with
    | nil =>
      rw [chunk]
      rcases ih with ⟨pre, post, h, hp, hd⟩ | ⟨h, hd⟩
      · exact .inl ⟨[] :: pre, post, by rw [List.cons_append, ← h], by simpa using hp, hd⟩
      · exact .inr ⟨by simpa using h, hd⟩
    | cons c d => exact .inl ⟨[], l, rfl, by simp, by simp [chunk]⟩

theorem firstData_unique {l : List Str} {d e : Str} (h : FirstData l d) (h' : FirstData l e) : d = e := by
  induction l with
  | nil =>
    rcases h with ⟨pre, post, h, -⟩ | ⟨-, rfl⟩
    · simp at h
    · rcases h' with ⟨pre, post, h, -⟩ | ⟨-, rfl⟩
      · simp at h
      · rfl
  | cons a l ih =>
    have key : ∀ d, FirstData (a :: l) d → (a = [] ∧ FirstData l d) ∨ (a ≠ [] ∧ d = a) := by
      intro d h
      rcases h with ⟨pre, post, h, hp, hd⟩ | ⟨h, hd⟩
      · cases pre with
        | nil =>
          simp only [List.nil_append, List.cons.injEq] at h
          exact .inr ⟨h.1 ▸ hd, h.1.symm⟩
        | cons b pre =>
          simp only [List.cons_append, List.cons.injEq] at h
          exact .inl ⟨h.1 ▸ hp b (by simp), .inl ⟨pre, post, h.2, fun e he => hp e (by simp [he]), hd⟩⟩
      · exact .inl ⟨h a (by simp), .inr ⟨fun e he => h e (by simp [he]), hd⟩⟩
    rcases key d h with ⟨ha, hd⟩ | ⟨ha, hd⟩ <;> rcases key e h' with ⟨ha', he⟩ | ⟨ha', he⟩
    · exact ih hd he
    · exact absurd ha ha'
    · exact absurd ha' ha
    · rw [hd, he]

theorem chunk_iff (l : List Str) (d : Str) : chunk l = d ↔ FirstData l d :=
  ⟨fun h => h ▸ chunk_first l, fun h => firstData_unique (chunk_first l) h⟩

section
variable {F : Type}

theorem acceptsJson_iff (x : Env F) (r : Req) : acceptsJson x r = none ↔ TakesJson x r := by
  unfold acceptsJson TakesJson
  cases r.headers.get "accept" with
  | none => simp
  | some v =>
    simp only [Option.some.injEq, forall_eq']
    cases x.utf8 v with
    | none => simp
    | some a =>
      simp only [Option.some.injEq, exists_eq_left', ← contains_iff]
      split
      · rename_i h
        simp only [Bool.or_eq_true, or_assoc] at h
        exact ⟨fun _ => h, fun _ => rfl⟩
      · rename_i h
        simp only [Bool.or_eq_true, or_assoc] at h
        exact ⟨(fun h' => by cases h'), fun h' => absurd h' h⟩

theorem endpoint_live (x : Env F) (s : Str) : endpointOf x s = .live ↔ s = "/live".toList := by
  constructor
  · intro h; unfold endpointOf at h; repeat' split at h
    all_goals first | (cases h; done) | assumption
  · rintro rfl; unfold endpointOf; rw [if_pos rfl]

theorem endpoint_ready (x : Env F) (s : Str) : endpointOf x s = .ready ↔ s = "/ready".toList := by
  constructor
  · intro h; unfold endpointOf at h; repeat' split at h
    all_goals first | (cases h; done) | assumption
  · rintro rfl; unfold endpointOf; rw [if_neg (by decide), if_pos rfl]

theorem endpoint_metrics (x : Env F) (s : Str) : endpointOf x s = .metrics ↔ s = "/metrics".toList := by
  constructor
  · intro h; unfold endpointOf at h; repeat' split at h
    all_goals first | (cases h; done) | assumption
  · rintro rfl; unfold endpointOf; rw [if_neg (by decide), if_neg (by decide), if_pos rfl]

theorem endpoint_level (x : Env F) (s : Str) : endpointOf x s = .level ↔ s = "/proxy-log-level".toList := by
  constructor
  · intro h; unfold endpointOf at h; repeat' split at h
    all_goals first | (cases h; done) | assumption
  · rintro rfl; unfold endpointOf; rw [if_neg (by decide), if_neg (by decide), if_neg (by decide), if_pos rfl]

theorem endpoint_env (x : Env F) (s : Str) : endpointOf x s = .env ↔ s = "/env.json".toList := by
  constructor
  · intro h; unfold endpointOf at h; repeat' split at h
    all_goals first | (cases h; done) | assumption
  · rintro rfl; unfold endpointOf
    rw [if_neg (by decide), if_neg (by decide), if_neg (by decide), if_neg (by decide), if_neg (fun h => absurd h.1 (by decide)),
      if_pos rfl]

theorem endpoint_logs (x : Env F) (s : Str) : endpointOf x s = .logs ↔ s = "/logs.json".toList ∧ x.streaming = true := by
  constructor
  · intro h; unfold endpointOf at h; repeat' split at h
    all_goals first | (cases h; done) | assumption
  · rintro ⟨rfl, hs⟩; unfold endpointOf
    rw [if_neg (by decide), if_neg (by decide), if_neg (by decide), if_neg (by decide), if_pos ⟨rfl, hs⟩]

theorem endpoint_profile (x : Env F) (s : Str) :
    endpointOf x s = .profile ↔ s = "/debug/pprof/profile.pb.gz".toList ∧ x.pprof = true := by
  constructor
  · intro h; unfold endpointOf at h; repeat' split at h
    all_goals first | (cases h; done) | assumption
  · rintro ⟨rfl, hs⟩; unfold endpointOf
    rw [if_neg (by decide), if_neg (by decide), if_neg (by decide), if_neg (by decide), if_neg (fun h => absurd h.1 (by decide)),
      if_neg (by decide), if_neg (by decide), if_pos ⟨rfl, hs⟩]

theorem endpoint_shutdown (x : Env F) (s : Str) : endpointOf x s = .shutdown ↔ s = "/shutdown".toList := by
  constructor
  · intro h; unfold endpointOf at h; repeat' split at h
    all_goals first | (cases h; done) | assumption
  · rintro rfl; unfold endpointOf
    rw [if_neg (by decide), if_neg (by decide), if_neg (by decide), if_neg (by decide), if_neg (fun h => absurd h.1 (by decide)),
      if_neg (by decide), if_pos rfl]

theorem level_same (x : Env F) (p : Proc F) (cur : Option F) (r : Req) :
    (levelServe x p cur r).2 = { p with level := (levelServe x p cur r).2.level } := by
  unfold levelServe; repeat' split
  all_goals rfl

theorem stream_same (x : Env F) (p : Proc F) (r : Req) :
    (streamServe x p r).2 = { p with streams := (streamServe x p r).2.streams } := by
  have : ∀ f, (streamStart x p f).2 = { p with streams := (streamStart x p f).2.streams } := by
    intro f; unfold streamStart; repeat' split
    all_goals rfl
  unfold streamServe; repeat' split
  all_goals first | rfl | apply this

/-! ## Who is local -/

/-- Requests are from localhost exactly if they come over a connection from a loopback address, also as IPv6 writes those of IPv4.
Nothing in the request has a say in that. -/
theorem C95_local_iff (r : Req) : isLocalhost r = true ↔ Local r := by
  unfold isLocalhost Local
  cases hc : r.client with
  | none => simp
  | some ip =>
    simp only [Option.some.injEq, exists_eq_left']
    cases ip with
    | v4 a =>
      simp only [beq_iff_eq]
      constructor
      · intro h
        have : a = 127 * 2 ^ 24 + a % 2 ^ 24 := by omega
        rw [this]; exact .v4 _ (by omega)
      · intro h; cases h; omega
    | v6 a =>
      simp only [mapped]
      by_cases hm : a / 2 ^ 32 = 0xffff
      · simp only [hm, if_true, beq_iff_eq]
        constructor
        · intro h
          have : a = 0xffff * 2 ^ 32 + 127 * 2 ^ 24 + a % 2 ^ 24 := by omega
          rw [this]; exact .mapped _ (by omega)
        · intro h; cases h <;> omega
      · simp only [hm, if_false, beq_iff_eq]
        constructor
        · rintro rfl; exact .v6
        · intro h; cases h <;> omega

theorem not_local {r : Req} (h : ¬ Local r) : isLocalhost r = false := by
  rw [← C95_local_iff] at h; simpa using h

/-- Headers, method, path, query and body do not make a request local. -/
theorem C95_cannot_pretend (r r' : Req) (h : r.client = r'.client) : Local r ↔ Local r' := by
  unfold Local; rw [h]

theorem sets_iff (x : Env F) (p : Proc F) (r : Req) (g : F) (hl : p.level = some (some g)) (hp : r.path = "/proxy-log-level".toList)
    (hm : r.method = "PUT".toList) (hloc : Local r) (f : F) :
    Sets x r f ↔ ∃ l, r.body = .frames l ∧ setFrom x (some g) (chunk l) = .ok f := by
  unfold Sets
  constructor
  · rintro ⟨-, -, -, l, d, s, hb, hd, hu, hf⟩
    refine ⟨l, hb, ?_⟩
    rw [(chunk_iff l d).2 hd]
    simp [setFrom, hu, hf]
  · rintro ⟨l, hb, h⟩
    refine ⟨hp, hm, hloc, l, chunk l, ?_⟩
    unfold setFrom at h
    cases hu : x.utf8 (chunk l) with
    | none => simp [hu] at h
    | some s =>
      cases hf : x.parse s with
      | none => simp [hu, hf] at h
      | some f' =>
        simp only [hu, hf, Except.ok.injEq] at h
        exact ⟨s, hb, chunk_first l, rfl, by rw [h] at hf; exact hf⟩

/-! ## What requests change -/

/-- What requests from elsewhere do to the process: nothing. -/
theorem C95_others_change_nothing (x : Env F) (p : Proc F) (r : Req) (h : ¬ Local r) : (serve x p r).2 = p := by
  have h := not_local h
  unfold serve
  cases endpointOf x r.path <;> simp only [h, Bool.not_false, if_true, Bool.false_eq_true, if_false]
  split <;> rfl

/-- What requests from elsewhere can learn of the process: whether it is ready, its metrics and its environment. Nothing they are told
depends on the filter of logs, on the streams of logs, or on whether the process was told to stop. -/
theorem C95_others_learn_nothing (x : Env F) (p q : Proc F) (r : Req) (h : ¬ Local r) (hl : p.latches = q.latches) :
    (serve x p r).1 = (serve x q r).1 := by
  have h := not_local h
  have hr : readyRsp p = readyRsp q := by unfold readyRsp isReady; rw [hl]
  unfold serve
  cases endpointOf x r.path <;> simp only [h, hr, Bool.not_false, if_true, Bool.false_eq_true, if_false]
  split <;> rfl

/-- A request tells the process to stop exactly if it is a `POST` of `/shutdown` from the machine itself, the endpoint is enabled, and the
process still listens. It is told so. -/
theorem C95_shutdown (x : Env F) (p : Proc F) (r : Req) :
    (serve x p r).2.asked = p.asked + (if (serve x p r).2.asked = p.asked then 0 else 1) ∧
    ((serve x p r).2.asked ≠ p.asked ↔ AsksToStop r ∧ Local r ∧ x.enableShutdown = true ∧ p.listening = true) ∧
    ((serve x p r).2.asked ≠ p.asked → (serve x p r).1.status = 200 ∧ (serve x p r).1.body = .text "shutdown\n".toList) := by
  rw [← C95_local_iff]
  by_cases he : endpointOf x r.path = .shutdown
  · have hp := (endpoint_shutdown x _).1 he
    have hserve : serve x p r = if r.method = "POST".toList then
        if isLocalhost r then shutdown x p else (forbidden, p) else (methodNotAllowed, p) := by
      unfold serve; rw [he]
    rw [hserve]
    by_cases hm : r.method = "POST".toList
    · have ha : AsksToStop r := ⟨hp, hm⟩
      rw [if_pos hm]
      cases hloc : isLocalhost r with
      | false => simp [ha]
      | true =>
        unfold shutdown
        cases hx : x.enableShutdown with
        | false => simp
        | true => cases hq : p.listening <;> simp [ha]
    · have ha : ¬ AsksToStop r := fun h => hm h.2
      rw [if_neg hm]
      simp [ha]
  · have ha : ¬ AsksToStop r := fun h => he ((endpoint_shutdown x _).2 h.1)
    have hsame : (serve x p r).2.asked = p.asked := by
      unfold serve
      cases hp : endpointOf x r.path <;> dsimp only
      case shutdown => exact absurd hp he
      case level =>
        split
        · rfl
        · split
          · rfl
          · rw [level_same]
      case logs =>
        split
        · rfl
        · rw [stream_same]
      case profile =>
        repeat' split
        all_goals rfl
    simp [hsame, ha]

/-- A request changes the filter of logs exactly if it is a `PUT` of `/proxy-log-level` from the machine itself with a text that can be read
as a filter. It is then answered with 204, and only then. -/
theorem C95_level_set (x : Env F) (p : Proc F) (r : Req) (g : F) (hl : p.level = some (some g)) :
    (∀ f, Sets x r f → (serve x p r).2.level = some (some f)) ∧
    ((∀ f, ¬ Sets x r f) → (serve x p r).2.level = p.level) ∧
    (r.path = "/proxy-log-level".toList → ((serve x p r).1.status = 204 ↔ ∃ f, Sets x r f)) := by
  by_cases hp : r.path = "/proxy-log-level".toList
  · have hserve : serve x p r = if !isLocalhost r then (forbidden, p) else levelServe x p (some g) r := by
      unfold serve
      rw [(endpoint_level x _).2 hp]
      simp only [hl]
    rw [hserve]
    by_cases hloc : Local r
    · have hloc' := (C95_local_iff r).2 hloc
      simp only [hloc', Bool.not_true, Bool.false_eq_true, if_false]
      by_cases hm : r.method = "PUT".toList
      · have hsets := sets_iff x p r g hl hp hm hloc
        unfold levelServe
        rw [if_neg (by rw [hm]; decide), if_pos hm]
        cases hb : r.body with
        | failed => simp only [hsets, hb]; simp [internalError]
        | frames l =>
          have hs : ∀ f, Sets x r f ↔ setFrom x (some g) (chunk l) = .ok f := by
            intro f; rw [hsets]; simp [hb]
          simp only [hs]
          cases he : setFrom x (some g) (chunk l) with
          | ok f => simp [he]
          | error e => simp [he]
      · have hn : ∀ f, ¬ Sets x r f := fun f h => hm h.2.1
        have hsame : (levelServe x p (some g) r).2 = p ∧ (levelServe x p (some g) r).1.status ≠ 204 := by
          unfold levelServe
          by_cases hg : r.method = "GET".toList
          · rw [if_pos hg]; exact ⟨rfl, by simp⟩
          · rw [if_neg hg, if_neg hm]; exact ⟨rfl, by simp⟩
        refine ⟨fun f h => absurd h (hn f), fun _ => by rw [hsame.1], fun _ => ?_⟩
        constructor
        · intro h; exact absurd h hsame.2
        · rintro ⟨f, h⟩; exact absurd h (hn f)
    · have hn : ∀ f, ¬ Sets x r f := fun f h => hloc h.2.2.1
      simp only [not_local hloc, Bool.not_false, if_true]
      refine ⟨fun f h => absurd h (hn f), fun _ => trivial, fun _ => ?_⟩
      constructor
      · intro h; simp [forbidden] at h
      · rintro ⟨f, h⟩; exact absurd h (hn f)
  · have hn : ∀ f, ¬ Sets x r f := fun f h => hp h.1
    refine ⟨fun f h => absurd h (hn f), fun _ => ?_, fun h => absurd h hp⟩
    unfold serve
    cases he : endpointOf x r.path <;> dsimp only
    case level => exact absurd ((endpoint_level x _).1 he) hp
    case logs =>
      split
      · rfl
      · rw [stream_same]
    case shutdown =>
      unfold shutdown
      repeat' split
      all_goals rfl
    case profile =>
      repeat' split
      all_goals rfl

/-- The filter in force after any history is that of the last request that set one. -/
theorem C95_level_in_force (x : Env F) (ops : List Op) : ∀ (p : Proc F) (f0 : F), p.level = some (some f0) →
    ∃ f, (run x p ops).level = some (some f) ∧
      ((∃ pre r post, ops = pre ++ .request r :: post ∧ Sets x r f ∧ ∀ r' f', Op.request r' ∈ post → ¬ Sets x r' f') ∨
        (f = f0 ∧ ∀ r' f', Op.request r' ∈ ops → ¬ Sets x r' f')) := by
  induction ops with
  | nil => intro p f0 h; exact ⟨f0, h, .inr ⟨rfl, by simp⟩⟩
  | cons o ops ih =>
    intro p f0 hl
    have hnext : (∃ r f, o = .request r ∧ Sets x r f ∧ (step x p o).2.level = some (some f)) ∨
        ((step x p o).2.level = some (some f0) ∧ ∀ r f, o = .request r → ¬ Sets x r f) := by
      cases o with
      | request r =>
        obtain ⟨h1, h2, -⟩ := C95_level_set x p r f0 hl
        by_cases hs : ∃ f, Sets x r f
        · obtain ⟨f, hs⟩ := hs
          exact .inl ⟨r, f, rfl, hs, h1 f hs⟩
        · have hs : ∀ f, ¬ Sets x r f := fun f h => hs ⟨f, h⟩
          exact .inr ⟨by rw [← hl]; exact h2 hs, fun r' f' h => by cases h; exact hs f'⟩
      | cloneLatch => exact .inr ⟨by simp only [step]; split <;> exact hl, by simp⟩
      | dropLatch => exact .inr ⟨hl, by simp⟩
      | dropListener => exact .inr ⟨hl, by simp⟩
    rcases hnext with ⟨r, f1, rfl, hs, h1⟩ | ⟨h1, hn⟩
    · obtain ⟨f, hf, h⟩ := ih _ _ h1
      refine ⟨f, hf, ?_⟩
      rcases h with ⟨pre, r', post, rfl, hs', hp⟩ | ⟨rfl, hn⟩
      · exact .inl ⟨.request r :: pre, r', post, rfl, hs', hp⟩
      · exact .inl ⟨[], r, ops, rfl, hs, hn⟩
    · obtain ⟨f, hf, h⟩ := ih _ _ h1
      refine ⟨f, hf, ?_⟩
      rcases h with ⟨pre, r', post, rfl, hs', hp⟩ | ⟨rfl, hn'⟩
      · exact .inl ⟨o :: pre, r', post, rfl, hs', hp⟩
      · refine .inr ⟨rfl, fun r' f' hm => ?_⟩
        rcases List.mem_cons.1 hm with h | h
        · exact hn r' f' h.symm
        · exact hn' r' f' h

/-- It is what is shown to the machine itself. -/
theorem C95_level_shown (x : Env F) (p : Proc F) (r : Req) (f : F) (hl : p.level = some (some f))
    (hp : r.path = "/proxy-log-level".toList) (hm : r.method = "GET".toList) (h : Local r) :
    (serve x p r).1.status = 200 ∧ (serve x p r).1.body = .text (x.display f) := by
  have h := (C95_local_iff r).2 h
  unfold serve levelServe
  rw [(endpoint_level x _).2 hp]
  simp only [h, hl, if_pos hm]
  exact ⟨rfl, rfl⟩

/-- Anyone else who asks for what only the machine itself may have is told 403. -/
theorem C95_refused_is_403 (x : Env F) (p : Proc F) (r : Req) (h : ¬ Local r)
    (hp : r.path = "/proxy-log-level".toList ∨ (r.path = "/logs.json".toList ∧ x.streaming = true)
      ∨ (r.path = "/shutdown".toList ∧ r.method = "POST".toList)
      ∨ (r.path = "/debug/pprof/profile.pb.gz".toList ∧ x.pprof = true)) :
    (serve x p r).1.status = 403 := by
  have h := not_local h
  unfold serve
  rcases hp with hp | ⟨hp, hs⟩ | ⟨hp, hm⟩ | ⟨hp, hs⟩
  · rw [(endpoint_level x _).2 hp]
    simp only [h]; rfl
  · rw [(endpoint_logs x _).2 ⟨hp, hs⟩]
    simp only [h]; rfl
  · rw [(endpoint_shutdown x _).2 hp]
    simp only [h, if_pos hm]; rfl
  · rw [(endpoint_profile x _).2 ⟨hp, hs⟩]
    simp only [h]; rfl

/-- Streams of logs and profiles are for the machine itself. -/
theorem C95_logs_are_for_localhost (x : Env F) (p : Proc F) (r : Req) :
    ((∃ f, (serve x p r).1.body = .logs f) ∨ (serve x p r).1.body = .profile ∨ (serve x p r).2.streams ≠ p.streams) → Local r := by
  intro h
  by_cases hloc : Local r
  · exact hloc
  · exfalso
    have hne := C95_others_change_nothing x p r hloc
    rw [hne] at h
    have hloc := not_local hloc
    have hb : ∀ b : Body F, (serve x p r).1.body = b → (∀ f, b ≠ .logs f) ∧ b ≠ .profile := by
      rintro b rfl
      unfold serve
      cases endpointOf x r.path <;> simp only [hloc, Bool.not_false, if_true]
      case ready => unfold readyRsp; split <;> exact ⟨(fun _ h => by cases h), by simp⟩
      case metrics => unfold metricsRsp; repeat' split
                      all_goals exact ⟨(fun _ h => by cases h), by simp [internalError]⟩
      case env =>
        unfold envRsp
        split
        · exact ⟨(fun _ h => by cases h), by simp [methodNotAllowed]⟩
        · split
          · rename_i rsp hx
            unfold acceptsJson at hx
            repeat' split at hx
            all_goals first
              | (cases hx; done)
              | (cases hx; exact ⟨(fun _ h => by cases h), by simp [jsonError]⟩)
          · repeat' split
            all_goals exact ⟨(fun _ h => by cases h), by simp [jsonError]⟩
      case shutdown =>
        repeat' split
        all_goals first
          | exact ⟨(fun _ h => by cases h), by simp [forbidden, methodNotAllowed]⟩
          | simp_all
      all_goals exact ⟨(fun _ h => by cases h), by simp [liveRsp, forbidden, notFound]⟩
    rcases h with ⟨f, h⟩ | h | h
    · exact (hb _ h).1 f rfl
    · exact (hb _ h).2 rfl
    · exact h rfl

/-! ## Readiness -/

/-- `/ready` is answered with 200 if no latch is held, and with 503 if one is. -/
theorem C95_ready (x : Env F) (p : Proc F) (r : Req) (hp : r.path = "/ready".toList) :
    ((serve x p r).1.status = 200 ↔ p.latches = 0) ∧ ((serve x p r).1.status = 503 ↔ p.latches ≠ 0) ∧ (serve x p r).2 = p := by
  unfold serve
  rw [(endpoint_ready x _).2 hp]
  simp only [readyRsp, isReady]
  by_cases h : p.latches = 0 <;> simp [h]

theorem serve_latches (x : Env F) (p : Proc F) (r : Req) : (serve x p r).2.latches = p.latches := by
  unfold serve
  cases endpointOf x r.path <;> dsimp only
  case level =>
    split
    · rfl
    · split
      · rfl
      · rw [level_same]
  case logs =>
    split
    · rfl
    · rw [stream_same]
  case shutdown =>
    unfold shutdown
    repeat' split
    all_goals rfl
  case profile =>
    repeat' split
    all_goals rfl

/-- Once it was ready, it is ready for ever: whatever is done to it, and whatever is asked of it. -/
theorem C95_ready_for_ever (x : Env F) (ops : List Op) : ∀ (p : Proc F) (r r' : Req), r.path = "/ready".toList →
    r'.path = "/ready".toList → (serve x p r).1.status = 200 → (serve x (run x p ops) r').1.status = 200 := by
  intro p r r' hp hp' h
  rw [(C95_ready x _ r' hp').1]
  rw [(C95_ready x p r hp).1] at h
  revert h
  induction ops generalizing p with
  | nil => exact id
  | cons o ops ih =>
    intro h
    apply ih
    cases o with
    | request r => simp only [step]; rw [serve_latches]; exact h
    | cloneLatch => simp only [step, h]; simp [h]
    | dropLatch => simp only [step, h]
    | dropListener => simp only [step, h]

/-- How many times a latch was let go of. -/
def releases (ops : List Op) : Nat := ops.countP fun | .dropLatch => true | _ => false

/-- How many copies of latches were made. -/
def copies (ops : List Op) : Nat := ops.countP fun | .cloneLatch => true | _ => false

/-- C95. However latches are copied, and let go of: the process is ready exactly if at some time as many were let go of as there had been. -/
theorem C95_ready_when_all_released (x : Env F) (ops : List Op) (p : Proc F) (r : Req) (hr : r.path = "/ready".toList) :
    (serve x (run x p ops) r).1.status = 200 ↔ ∃ pre, pre <+: ops ∧ releases pre = p.latches + copies pre := by
  rw [(C95_ready x _ r hr).1]
  have zero : ∀ (ops : List Op) (p : Proc F), p.latches = 0 → (run x p ops).latches = 0 := by
    intro ops p h
    have := C95_ready_for_ever x ops p r r hr hr ((C95_ready x p r hr).1.2 h)
    exact (C95_ready x _ r hr).1.1 this
  induction ops generalizing p with
  | nil =>
    constructor
    · intro h; exact ⟨[], List.prefix_rfl, by simpa [releases, copies, run] using h.symm⟩
    · rintro ⟨pre, h, e⟩
      rw [List.prefix_nil.1 h] at e
      simpa [releases, copies, run] using e.symm
  | cons o ops ih =>
    by_cases h0 : p.latches = 0
    · exact ⟨fun _ => ⟨[], List.nil_prefix, by simp [releases, copies, h0]⟩, fun _ => zero _ p h0⟩
    · have hstep := ih (step x p o).2
      have hcons : (∃ pre, pre <+: o :: ops ∧ releases pre = p.latches + copies pre) ↔
          ∃ pre, pre <+: ops ∧ releases (o :: pre) = p.latches + copies (o :: pre) := by
        constructor
        · rintro ⟨pre, h, e⟩
          cases pre with
          | nil => simp [releases, copies] at e; omega
          | cons a pre =>
            obtain ⟨rfl, h'⟩ := List.cons_prefix_cons.1 h
            exact ⟨pre, h', e⟩
        · rintro ⟨pre, h, e⟩
          exact ⟨o :: pre, List.cons_prefix_cons.2 ⟨rfl, h⟩, e⟩
      rw [hcons]
      refine hstep.trans ?_
      apply exists_congr; intro pre
      apply and_congr_right; intro _
      cases o with
      | request r => simp only [step, serve_latches]; simp [releases, copies]
      | cloneLatch => simp only [step, if_neg h0]; simp [releases, copies]; omega
      | dropLatch =>
        clear hstep hcons ih zero
        have e1 : releases (Op.dropLatch :: pre) = releases pre + 1 := by simp [releases]
        have e2 : copies (Op.dropLatch :: pre) = copies pre := by simp [copies]
        rw [e1, e2]; simp only [step]; omega
      | dropListener => simp only [step]; simp [releases, copies]

/-- The process makes one latch and no copies of it: it is ready exactly if that latch was released. -/
theorem C95_ready_iff_released (x : Env F) (ops : List Op) (hc : ∀ o ∈ ops, o ≠ .cloneLatch) : ∀ (p : Proc F) (r : Req),
    p.latches = 1 → r.path = "/ready".toList → ((serve x (run x p ops) r).1.status = 200 ↔ Op.dropLatch ∈ ops) := by
  intro p r hp hr
  rw [(C95_ready x _ r hr).1]
  have zero : ∀ (ops : List Op) (p : Proc F), p.latches = 0 → (run x p ops).latches = 0 := by
    intro ops
    induction ops with
    | nil => intro p h; exact h
    | cons o ops ih =>
      intro p h
      apply ih
      cases o with
      | request r => simp only [step]; rw [serve_latches]; exact h
      | cloneLatch => simp only [step, h]; simp [h]
      | dropLatch => simp only [step, h]
      | dropListener => simp only [step, h]
  induction ops generalizing p with
  | nil => simp [run, hp]
  | cons o ops ih =>
    have hc' : ∀ o ∈ ops, o ≠ .cloneLatch := fun o h => hc o (List.mem_cons_of_mem _ h)
    cases o with
    | request r' =>
      have h := ih hc' (step x p (.request r')).2 (by simp only [step]; rw [serve_latches]; exact hp)
      simpa [run] using h
    | cloneLatch => exact absurd rfl (hc .cloneLatch (by simp))
    | dropLatch =>
      rw [run, zero]
      · simp
      · simp [step, hp]
    | dropListener =>
      have h := ih hc' (step x p .dropListener).2 hp
      simpa [run] using h

/-- `/live` is always answered with 200. -/
theorem C95_live (x : Env F) (p : Proc F) (r : Req) (hp : r.path = "/live".toList) :
    (serve x p r).1.status = 200 ∧ (serve x p r).2 = p := by
  unfold serve; rw [(endpoint_live x _).2 hp]; exact ⟨rfl, rfl⟩

/-! ## Metrics, the environment, and everything else -/

/-- `/metrics` is answered with the metrics, compressed exactly if some header of the client says `gzip`; the response says so. -/
theorem C95_metrics (x : Env F) (p : Proc F) (r : Req) (hp : r.path = "/metrics".toList) (hf : x.formats = true) :
    ∃ gzip, (serve x p r).1.status = 200 ∧ (serve x p r).1.body = .metrics gzip ∧
      (gzip = true ↔ (serve x p r).1.headers.getAll "content-encoding" = ["gzip".toList]) ∧
      (gzip = true ↔ ∃ v ∈ r.headers.getAll "accept-encoding", (∀ c ∈ v, visible c = true) ∧ Has "gzip".toList v) := by
  have hg : isGzip r = true ↔ ∃ v ∈ r.headers.getAll "accept-encoding", (∀ c ∈ v, visible c = true) ∧ Has "gzip".toList v := by
    unfold isGzip
    rw [List.any_eq_true]
    constructor
    · rintro ⟨v, hv, h⟩
      refine ⟨v, hv, ?_⟩
      unfold toStr at h
      by_cases ha : v.all visible = true
      · simp only [ha, if_true] at h
        exact ⟨by simpa using ha, (contains_iff _ _).1 h⟩
      · simp [ha] at h
    · rintro ⟨v, hv, ha, h⟩
      refine ⟨v, hv, ?_⟩
      have ha : v.all visible = true := by simpa using ha
      unfold toStr
      simp only [ha, if_true]
      exact (contains_iff _ _).2 h
  rw [show serve x p r = (metricsRsp x r, p) by unfold serve; rw [(endpoint_metrics x _).2 hp]]
  refine ⟨isGzip r, ?_⟩
  rw [← hg]
  unfold metricsRsp plain
  cases isGzip r <;> simp [hf, HeaderMap.getAll]

/-- The environment is told to those who ask with `GET` and take JSON: all of it, or the variables that are asked for by name, those that are
not set being told as absent. -/
theorem C95_env (x : Env F) (p : Proc F) (r : Req) (hp : r.path = "/env.json".toList) :
    (serve x p r).2 = p ∧
    ((serve x p r).1.status = 200 ↔
      r.method = "GET".toList ∧ TakesJson x r ∧ ∀ q, r.query = some q → '=' ∉ q) ∧
    ((serve x p r).1.status = 200 → ∃ l, (serve x p r).1.body = .vars l ∧
      (r.query = none → l = x.vars.map fun v => (v.1, some v.2)) ∧
      (∀ q, r.query = some q → Text.join '&' (l.map Prod.fst) = q ∧
        ∀ n v, (n, v) ∈ l → '&' ∉ n ∧ v = Assoc.lookup n x.vars)) := by
  rw [show serve x p r = (envRsp x r, p) by unfold serve; rw [(endpoint_env x _).2 hp]]
  refine ⟨rfl, ?_⟩
  rw [← acceptsJson_iff]
  unfold envRsp
  by_cases hm : r.method = "GET".toList
  · rw [if_neg (by simp [hm])]
    cases ha : acceptsJson x r with
    | some rsp =>
      have hs : rsp.status ≠ 200 := by
        unfold acceptsJson at ha
        repeat' split at ha
        all_goals first | (cases ha; done) | (cases ha; simp [jsonError])
      simp [hs]
    | none =>
      cases hq : r.query with
      | none => simp [hm]
      | some q =>
        by_cases he : '=' ∈ q
        · have : q.contains '=' = true := by simpa using he
          simp [he, jsonError]
        · have : q.contains '=' = false := by simpa using he
          simp only [this, Bool.false_eq_true, if_false]
          refine ⟨by simp [hm, he], fun _ => ⟨_, rfl, by simp, ?_⟩⟩
          intro q' hq'
          simp only [Option.some.injEq] at hq'
          subst hq'
          refine ⟨?_, ?_⟩
          · rw [List.map_map]
            have : (Prod.fst ∘ fun n => (n, Assoc.lookup n x.vars)) = id := rfl
            rw [this, List.map_id]
            exact Text.join_split _ _
          · intro n v h
            obtain ⟨m, hm, h⟩ := List.mem_map.1 h
            simp only [Prod.mk.injEq] at h
            obtain ⟨rfl, rfl⟩ := h
            exact ⟨Text.split_no_sep _ _ _ hm, rfl⟩
  · rw [if_pos hm]
    have hs : (methodNotAllowed : Rsp F).status ≠ 200 := by simp [methodNotAllowed]
    exact ⟨⟨fun h => absurd h hs, fun h => absurd h.1 hm⟩, fun h => absurd h hs⟩

/-- Paths that are not those of the admin server, to the letter, are not found. -/
theorem C95_not_found (x : Env F) (p : Proc F) (r : Req)
    (hp : ∀ s ∈ ["/live", "/ready", "/metrics", "/proxy-log-level", "/logs.json", "/env.json", "/shutdown",
      "/debug/pprof/profile.pb.gz"], r.path ≠ s.toList) :
    serve x p r = (⟨404, [], .empty⟩, p) := by
  have : endpointOf x r.path = .other := by
    unfold endpointOf
    rw [if_neg (hp "/live" (by decide)), if_neg (hp "/ready" (by decide)), if_neg (hp "/metrics" (by decide)),
      if_neg (hp "/proxy-log-level" (by decide)), if_neg (fun h => hp "/logs.json" (by decide) h.1),
      if_neg (hp "/env.json" (by decide)), if_neg (hp "/shutdown" (by decide)),
      if_neg (fun h => hp "/debug/pprof/profile.pb.gz" (by decide) h.1)]
  unfold serve
  rw [this]
  rfl

/-! ## The policy, and what is not HTTP -/

/-- A request the policy refuses is not seen by the admin server: nothing changes. One it lets pass is, with the headers the policy makes. -/
theorem C95_policy (x : Env F) (locText : HttpRoute.Uri → Str) (text : InboundPolicy.Outcome → Str) (tls : Tls)
    (o : InboundPolicy.Outcome) (p : Proc F) (r : Req) :
    (∀ permit h, o = .forwarded permit h → handle x locText text tls o p r =
      (.answer (serve x p { r with headers := h }).1, (serve x p { r with headers := h }).2)) ∧
    ((∀ permit h, o ≠ .forwarded permit h) → (handle x locText text tls o p r).2 = p ∧
      ∀ rsp, (handle x locText text tls o p r).1 ≠ .answer rsp) := by
  constructor
  · rintro permit h rfl; rfl
  · intro ho
    unfold handle
    split
    · rename_i permit h; exact absurd rfl (ho permit h)
    · exact ⟨rfl, by simp⟩
    · split <;> exact ⟨rfl, by simp⟩

/-- What a refused request is answered: 404 if no route is found, 403 if the client is not authorized, and 500 for any other reason. -/
theorem C95_refused (x : Env F) (locText : HttpRoute.Uri → Str) (text : InboundPolicy.Outcome → Str) (tls : Tls)
    (o : InboundPolicy.Outcome) (p : Proc F) (r : Req) (ho : ∀ permit h, o ≠ .forwarded permit h) (hp : o ≠ .panic)
    (hg : ¬ ErrorRespond.GrpcRequest ⟨r.version, r.headers, false, r.client.isSome⟩) :
    ∃ rsp close, (handle x locText text tls o p r).1 = .refusal (.synthetic rsp close) ∧
      rsp.status = (if o = .routeNotFound then 404 else if o = .unauthorized then 403 else 500) ∧
      ((∀ id, tls ≠ .established (some id)) → rsp.headers.getAll "l5d-proxy-error" = []) := by
  have key : ∀ c, ErrorRespond.refusal locText o = some c →
      handle x locText text tls o p r = (.refusal ((ErrorRespond.newRespond (emits tls)
        ⟨r.version, r.headers, false, r.client.isSome⟩).respond rescue (some ⟨[c], text o⟩)), p) := by
    intro c hc
    cases o with
    | forwarded permit h => exact absurd rfl (ho permit h)
    | panic => exact absurd rfl hp
    | _ => simp only [handle, hc]
  have fin : ∀ c s, ErrorRespond.refusal locText o = some c → rescue ⟨[c], text o⟩ = some s →
      s.httpStatus = (if o = .routeNotFound then 404 else if o = .unauthorized then 403 else 500) →
      ∃ rsp close, (handle x locText text tls o p r).1 = .refusal (.synthetic rsp close) ∧
        rsp.status = (if o = .routeNotFound then 404 else if o = .unauthorized then 403 else 500) ∧
        ((∀ id, tls ≠ .established (some id)) → rsp.headers.getAll "l5d-proxy-error" = []) := by
    intro c s hc hs hst
    obtain ⟨rsp, h1, -, h3, h4⟩ := (ErrorRespond.C49_http (emits tls) ⟨r.version, r.headers, false, r.client.isSome⟩ rescue
      ⟨[c], text o⟩ s hg hs).is
    refine ⟨rsp, s.close && r.client.isSome, ?_, ?_, ?_⟩
    · rw [key c hc]; exact congrArg Reply.refusal h1
    · rw [h3]; exact hst
    · intro ht
      have he : emits tls = false := by
        cases tls with
        | established id => cases id with
          | none => rfl
          | some id => exact absurd rfl (ht id)
        | _ => rfl
      rw [h4, he]
      simp [ErrorRespond.httpHeaders]
  cases o with
  | forwarded permit h => exact absurd rfl (ho permit h)
  | panic => exact absurd rfl hp
  | routeNotFound => exact fin _ _ rfl rfl (by simp [ErrorRespond.notFound])
  | unauthorized => exact fin _ _ rfl rfl (by simp [ErrorRespond.permissionDenied])
  | _ => exact fin _ _ rfl rfl (by simp [ErrorRespond.unexpectedError])

/-- What a connection is served as: the version of HTTP that is detected; if the client says nothing in time, HTTP/2 if it came over the mesh's
TLS and HTTP/1 if it came in the clear. Connections that are not HTTP, and the TLS of others, are refused. -/
theorem C95_connections (d : HttpDetect.Detection) (tls : Tls) (v : HttpDetect.Variant) :
    versionOf d tls = some v ↔
      d = .http v ∨ (d = .readTimeout ∧ ((tls = .none ∧ v = .http1) ∨ (∃ id, tls = .established id ∧ v = .h2))) := by
  cases d <;> cases tls <;> cases v <;> simp [versionOf]

/-! ## Limits -/

/-- The environment is told to anyone the policy lets pass, wherever they are. -/
theorem C95_limit_env_is_told_to_anyone (x : Env F) (p : Proc F) (r : Req) (hp : r.path = "/env.json".toList)
    (hm : r.method = "GET".toList) (hq : r.query = none) (ha : r.headers.get "accept" = none) :
    (serve x p r).1.body = .vars (x.vars.map fun v => (v.1, some v.2)) := by
  rw [show serve x p r = (envRsp x r, p) by unfold serve; rw [(endpoint_env x _).2 hp]]
  simp [envRsp, hm, hq, acceptsJson, ha]

/-- Of a filter that comes in several frames only the first is read: the rest is dropped, and the client is told that its filter is set. -/
theorem C95_limit_only_the_first_frame (x : Env F) (p : Proc F) (r : Req) (g f : F) (d : Str) (rest : List Str)
    (hl : p.level = some (some g)) (hp : r.path = "/proxy-log-level".toList) (hm : r.method = "PUT".toList) (h : Local r)
    (hb : r.body = .frames (d :: rest)) (hd : d ≠ []) (s : Str) (hu : x.utf8 d = some s) (hf : x.parse s = some f) :
    (serve x p r).1.status = 204 ∧ (serve x p r).2.level = some (some f) := by
  have hs : Sets x r f := ⟨hp, hm, h, d :: rest, d, s, hb, .inl ⟨[], rest, rfl, by simp, hd⟩, hu, hf⟩
  obtain ⟨h1, -, h3⟩ := C95_level_set x p r g hl
  exact ⟨(h3 hp).2 ⟨f, hs⟩, h1 f hs⟩

/-! ## What responses say of themselves -/

/-- The types a body may be declared to have. -/
def TypedAs (b : Body F) (types : List Str) : Prop :=
  match b with
  | .vars _ | .error _ _ | .logs _ => types = ["application/json".toList]
  | .metrics _ => types = ["text/plain".toList]
  | .profile => types = ["application/octet-stream".toList]
  | .text _ => types = ["text/plain".toList] ∨ types = []
  | .empty => types = []

theorem acceptsJson_typed (x : Env F) (r : Req) (rsp : Rsp F) (h : acceptsJson x r = some rsp) :
    TypedAs rsp.body (rsp.headers.getAll "content-type") ∧ (∀ m n, rsp.body = .error m n → rsp.status = n) := by
  unfold acceptsJson at h
  repeat' split at h
  all_goals first
    | (cases h; done)
    | (cases h; exact ⟨by simp [TypedAs, jsonError, json, HeaderMap.getAll], by simp [jsonError]⟩)

/-- C95. Responses say what they carry: JSON is declared as such, metrics as text, a profile as bytes; an error in JSON tells the status it is
sent with. -/
theorem C95_types (x : Env F) (p : Proc F) (r : Req) :
    TypedAs (serve x p r).1.body ((serve x p r).1.headers.getAll "content-type") ∧
    ∀ m n, (serve x p r).1.body = .error m n → (serve x p r).1.status = n := by
  unfold serve
  cases endpointOf x r.path <;> dsimp only
  case live => exact ⟨by simp [TypedAs, liveRsp, plain, HeaderMap.getAll], by simp [liveRsp]⟩
  case ready => unfold readyRsp; split <;> exact ⟨by simp [TypedAs, plain, HeaderMap.getAll], by simp⟩
  case metrics =>
    unfold metricsRsp
    repeat' split
    all_goals exact ⟨by simp [TypedAs, plain, internalError, HeaderMap.getAll], by simp [internalError]⟩
  case level =>
    unfold levelServe
    repeat' split
    all_goals exact ⟨by simp [TypedAs, plain, internalError, forbidden, notFound, HeaderMap.getAll], by simp [internalError, forbidden, notFound]⟩
  case logs =>
    unfold streamServe streamStart
    split
    · exact ⟨by simp [TypedAs, plain, forbidden, HeaderMap.getAll], by simp [forbidden]⟩
    · cases ha : acceptsJson x r with
      | some rsp => exact acceptsJson_typed x r rsp ha
      | none =>
        dsimp only
        repeat' split
        all_goals exact ⟨by simp [TypedAs, json, jsonError, HeaderMap.getAll], by simp [jsonError]⟩
  case env =>
    unfold envRsp
    split
    · exact ⟨by simp [TypedAs, methodNotAllowed, HeaderMap.getAll], by simp [methodNotAllowed]⟩
    · cases ha : acceptsJson x r with
      | some rsp => exact acceptsJson_typed x r rsp ha
      | none =>
        dsimp only
        repeat' split
        all_goals exact ⟨by simp [TypedAs, json, jsonError, HeaderMap.getAll], by simp [jsonError]⟩
  case shutdown =>
    unfold shutdown
    repeat' split
    all_goals exact ⟨by simp [TypedAs, plain, forbidden, methodNotAllowed, HeaderMap.getAll], by simp [forbidden, methodNotAllowed]⟩
  case profile =>
    repeat' split
    all_goals exact ⟨by simp [TypedAs, plain, forbidden, methodNotAllowed, internalError, HeaderMap.getAll],
      by simp [forbidden, methodNotAllowed, internalError]⟩
  case other => exact ⟨by simp [TypedAs, notFound, HeaderMap.getAll], by simp [notFound]⟩

/-- C95. What the proxy cannot do is answered with 500, and changes nothing: metrics that cannot be written, a level of logs that cannot be read
or whose new value cannot be read, a stream of logs or a profile that cannot be started. -/
theorem C95_failures (x : Env F) (p : Proc F) (r : Req) :
    (r.path = "/metrics".toList → x.formats = false → (serve x p r).1.status = 500 ∧ (serve x p r).2 = p) ∧
    (r.path = "/proxy-log-level".toList → Local r → (p.level = some none ∧ r.method = "GET".toList ∨
        p.level ≠ none ∧ r.method = "PUT".toList ∧ r.body = .failed) → (serve x p r).1.status = 500 ∧ (serve x p r).2 = p) ∧
    (r.path = "/logs.json".toList → Local r → x.streaming = true → x.addStream = false → TakesJson x r → r.method = "GET".toList →
      ∀ q f, r.query = some q → x.parseStream q = some f → (serve x p r).1.status = 500 ∧ (serve x p r).2 = p) ∧
    (r.path = "/debug/pprof/profile.pb.gz".toList → Local r → x.pprof = true → r.method = "GET".toList →
      ((serve x p r).1.status = 200 ↔ x.profiles = true) ∧ ((serve x p r).1.status = 500 ↔ x.profiles = false) ∧ (serve x p r).2 = p) := by
  refine ⟨fun hp hf => ?_, fun hp hl hc => ?_, fun hp hl hs ha hj hm q f hq hf => ?_, fun hp hl hs hm => ?_⟩
  · unfold serve; rw [(endpoint_metrics x _).2 hp]
    simp [metricsRsp, hf, internalError]
  · unfold serve; rw [(endpoint_level x _).2 hp]
    have hl := (C95_local_iff r).2 hl
    rcases hc with ⟨h1, h2⟩ | ⟨h1, h2, h3⟩
    · simp [hl, h1, levelServe, h2, internalError]
    · obtain ⟨cur, hcur⟩ := Option.ne_none_iff_exists'.1 h1
      have : r.method ≠ "GET".toList := by rw [h2]; decide
      simp only [hl, hcur, levelServe, if_neg this, if_pos h2, h3]
      exact ⟨rfl, rfl⟩
  · unfold serve; rw [(endpoint_logs x _).2 ⟨hp, hs⟩]
    have hl := (C95_local_iff r).2 hl
    rw [← acceptsJson_iff] at hj
    simp only [hl, streamServe, hj, if_pos hm, hq, streamStart, hf, ha]
    exact ⟨rfl, rfl⟩
  · unfold serve; rw [(endpoint_profile x _).2 ⟨hp, hs⟩]
    have hl := (C95_local_iff r).2 hl
    cases hx : x.profiles <;> simp [hl, hm, internalError]

/-- C95. A known path asked with a method it does not have is answered with 405, and changes nothing. -/
theorem C95_methods (x : Env F) (p : Proc F) (r : Req) (hl : Local r) :
    (r.path = "/shutdown".toList → r.method ≠ "POST".toList → (serve x p r).1.status = 405 ∧ (serve x p r).2 = p) ∧
    (r.path = "/env.json".toList → r.method ≠ "GET".toList → (serve x p r).1.status = 405 ∧ (serve x p r).2 = p) ∧
    (r.path = "/proxy-log-level".toList → p.level ≠ none → r.method ≠ "GET".toList → r.method ≠ "PUT".toList →
      (serve x p r).1.status = 405 ∧ (serve x p r).1.headers.getAll "allow" = ["GET".toList, "PUT".toList] ∧ (serve x p r).2 = p) ∧
    (r.path = "/logs.json".toList → x.streaming = true → TakesJson x r → r.method ≠ "GET".toList → r.method ≠ "QUERY".toList →
      (serve x p r).1.status = 405 ∧ (serve x p r).1.headers.getAll "allow" = ["GET".toList, "QUERY".toList] ∧ (serve x p r).2 = p) := by
  have hl := (C95_local_iff r).2 hl
  refine ⟨fun hp hm => ?_, fun hp hm => ?_, fun hp hn hm hm' => ?_, fun hp hs hj hm hm' => ?_⟩
  · unfold serve; rw [(endpoint_shutdown x _).2 hp]
    show (if _ then _ else _ : Rsp F × Proc F).1.status = _ ∧ (if _ then _ else _ : Rsp F × Proc F).2 = _
    rw [if_neg hm]; exact ⟨rfl, rfl⟩
  · unfold serve; rw [(endpoint_env x _).2 hp]
    show (envRsp x r).status = _ ∧ _
    unfold envRsp; rw [if_pos hm]; exact ⟨rfl, rfl⟩
  · unfold serve; rw [(endpoint_level x _).2 hp]
    obtain ⟨cur, hcur⟩ := Option.ne_none_iff_exists'.1 hn
    simp only [hl, hcur, levelServe, if_neg hm, if_neg hm']; exact ⟨rfl, by simp [HeaderMap.getAll], rfl⟩
  · unfold serve; rw [(endpoint_logs x _).2 ⟨hp, hs⟩]
    rw [← acceptsJson_iff] at hj
    simp only [hl, streamServe, hj, if_neg hm, if_neg hm']; exact ⟨rfl, by simp [HeaderMap.getAll], rfl⟩

/-- The request asks for the log, filtered by `f`: in its query, or in its body. -/
def AsksForLogs (x : Env F) (r : Req) (f : F) : Prop :=
  r.path = "/logs.json".toList ∧ Local r ∧ TakesJson x r ∧
    ((r.method = "GET".toList ∧ ∃ q, r.query = some q ∧ x.parseStream q = some f) ∨
     (r.method = "QUERY".toList ∧ ∃ l d s, r.body = .frames l ∧ FirstData l d ∧ x.utf8 d = some s ∧ x.parseStream s = some f))

/-- C95. Logs are streamed to those who ask for them as they are meant to, with the filter they asked for; no other request starts a stream. -/
theorem C95_streams (x : Env F) (p : Proc F) (r : Req) (hs : x.streaming = true) (ha : x.addStream = true) :
    (∀ f, AsksForLogs x r f → (serve x p r).1.status = 200 ∧ (serve x p r).1.body = .logs f ∧
      (serve x p r).2 = { p with streams := p.streams ++ [f] }) ∧
    ((∀ f, ¬ AsksForLogs x r f) → r.path = "/logs.json".toList → (serve x p r).1.status ≠ 200 ∧ (serve x p r).2 = p) := by
  have hq : "QUERY".toList ≠ "GET".toList := by decide
  constructor
  · rintro f ⟨hp, hl, hj, h⟩
    unfold serve; rw [(endpoint_logs x _).2 ⟨hp, hs⟩]
    have hl := (C95_local_iff r).2 hl
    rw [← acceptsJson_iff] at hj
    rcases h with ⟨hm, q, h1, h2⟩ | ⟨hm, l, d, s, h1, h2, h3, h4⟩
    · simp only [hl, streamServe, hj, if_pos hm, h1, streamStart, h2, ha]
      exact ⟨rfl, rfl, rfl⟩
    · have hm' : r.method ≠ "GET".toList := hm ▸ hq
      simp only [hl, streamServe, hj, if_neg hm', if_pos hm, h1, (chunk_iff l d).2 h2, h3, streamStart, h4, ha]
      exact ⟨rfl, rfl, rfl⟩
  · intro hno hp
    unfold serve; rw [(endpoint_logs x _).2 ⟨hp, hs⟩]
    by_cases hl : Local r
    · have hl' := (C95_local_iff r).2 hl
      simp only [hl', Bool.not_true, Bool.false_eq_true, if_false, streamServe]
      cases hj : acceptsJson x r with
      | some rsp =>
        refine ⟨?_, rfl⟩
        unfold acceptsJson at hj
        repeat' split at hj
        all_goals first | (cases hj; done) | (cases hj; simp [jsonError])
      | none =>
        have hj := (acceptsJson_iff x r).1 hj
        dsimp only
        split
        · rename_i hm
          split
          · exact ⟨by simp [jsonError], rfl⟩
          · rename_i q hqq
            cases hf : x.parseStream q with
            | some f => exact absurd ⟨hp, hl, hj, .inl ⟨hm, q, hqq, hf⟩⟩ (hno f)
            | none => exact ⟨by simp [streamStart, jsonError], rfl⟩
        · split
          · rename_i hm
            split
            · exact ⟨by simp [jsonError], rfl⟩
            · rename_i l hb
              split
              · exact ⟨by simp [jsonError], rfl⟩
              · rename_i s hu
                cases hf : x.parseStream s with
                | some f => exact absurd ⟨hp, hl, hj, .inr ⟨hm, l, _, s, hb, chunk_first l, hu, hf⟩⟩ (hno f)
                | none => exact ⟨by simp [streamStart, jsonError], rfl⟩
          · exact ⟨by simp, rfl⟩
    · have hl' := not_local hl
      simp only [hl', Bool.not_false, if_true]
      exact ⟨by simp [forbidden], trivial⟩

/-- C95. What a client has got wrong is answered with 400, and changes nothing: a filter of logs that cannot be read, or a query of none. -/
theorem C95_bad_requests (x : Env F) (p : Proc F) (r : Req) (hl : Local r) :
    (∀ g l, r.path = "/proxy-log-level".toList → p.level = some (some g) → r.method = "PUT".toList → r.body = .frames l → (∀ f, ¬ Sets x r f) →
      (serve x p r).1.status = 400 ∧ (serve x p r).2 = p) ∧
    (r.path = "/logs.json".toList → x.streaming = true → TakesJson x r → (r.method = "GET".toList ∨ r.method = "QUERY".toList) →
      (∀ f, ¬ AsksForLogs x r f) → (serve x p r).1.status = 400 ∧ (serve x p r).2 = p) := by
  have hl' := (C95_local_iff r).2 hl
  constructor
  · intro g l hp hg hm hb hno
    unfold serve; rw [(endpoint_level x _).2 hp]
    have hm' : r.method ≠ "GET".toList := by rw [hm]; decide
    simp only [hl', hg, levelServe, if_neg hm', if_pos hm, hb, setFrom]
    cases hu : x.utf8 (chunk l) with
    | none => exact ⟨rfl, rfl⟩
    | some s =>
      cases hf : x.parse s with
      | none => simp [hf]
      | some f => exact absurd ⟨hp, hm, hl, l, _, s, hb, chunk_first l, hu, hf⟩ (hno f)
  · intro hp hs hj hm hno
    unfold serve; rw [(endpoint_logs x _).2 ⟨hp, hs⟩]
    have hj' := (acceptsJson_iff x r).2 hj
    simp only [hl', Bool.not_true, Bool.false_eq_true, if_false, streamServe, hj']
    by_cases hg : r.method = "GET".toList
    · rw [if_pos hg]
      split
      · exact ⟨by simp [jsonError], rfl⟩
      · rename_i q hqq
        cases hf : x.parseStream q with
        | some f => exact absurd ⟨hp, hl, hj, .inl ⟨hg, q, hqq, hf⟩⟩ (hno f)
        | none => exact ⟨by simp [streamStart, jsonError], rfl⟩
    · have hm := hm.resolve_left hg
      rw [if_neg hg, if_pos hm]
      split
      · exact ⟨by simp [jsonError], rfl⟩
      · rename_i l hb
        split
        · exact ⟨by simp [jsonError], rfl⟩
        · rename_i s hu
          cases hf : x.parseStream s with
          | some f => exact absurd ⟨hp, hl, hj, .inr ⟨hm, l, _, s, hb, chunk_first l, hu, hf⟩⟩ (hno f)
          | none => exact ⟨by simp [streamStart, jsonError], rfl⟩

end

/-! ## Concrete cases -/

def sampleEnv : Env Str :=
  ⟨some, fun s => if s = "bad".toList then none else some s, id, some, id, true, true, true, [("A".toList, "1".toList), ("B".toList, "2".toList)],
    true, true, true⟩

def sampleProc : Proc Str := ⟨1, some (some "warn".toList), [], 0, true⟩

def here : Option Ip := some (.v6 (0xffff * 2 ^ 32 + 127 * 2 ^ 24 + 1))
def there : Option Ip := some (.v4 (10 * 2 ^ 24 + 7))

def ask (method path : String) (query : Option String) (client : Option Ip) (body : List String) : Req :=
  ⟨method.toList, .http11, path.toList, query.map String.toList, [], client, .frames (body.map String.toList)⟩

example : Local (ask "POST" "/shutdown" none here []) := ⟨_, rfl, .mapped 1 (by decide)⟩
example : ¬ Local (ask "POST" "/shutdown" none there []) := by rw [← C95_local_iff]; decide

example : ((serve sampleEnv sampleProc (ask "POST" "/shutdown" none here [])).1.status,
    (serve sampleEnv sampleProc (ask "POST" "/shutdown" none here [])).2.asked) = (200, 1) := by decide +kernel
example : ((serve sampleEnv sampleProc (ask "POST" "/shutdown" none there [])).1.status,
    (serve sampleEnv sampleProc (ask "POST" "/shutdown" none there [])).2.asked) = (403, 0) := by decide +kernel
example : (serve sampleEnv sampleProc (ask "GET" "/shutdown" none here [])).1.status = 405 := by decide +kernel

/-- A filter is set, a bad one is refused, and the first is in force. -/
example : (run sampleEnv sampleProc [.request (ask "PUT" "/proxy-log-level" none here ["debug"]),
    .request (ask "PUT" "/proxy-log-level" none here ["bad"]),
    .request (ask "PUT" "/proxy-log-level" none there ["trace"])]).level = some (some "debug".toList) := by decide +kernel

example : Sets sampleEnv (ask "PUT" "/proxy-log-level" none here ["debug"]) "debug".toList :=
  ⟨rfl, rfl, ⟨_, rfl, .mapped 1 (by decide)⟩, _, "debug".toList, _, rfl, .inl ⟨[], [], rfl, by simp, by decide⟩, rfl, by decide +kernel⟩

/-- Half a filter is set. -/
example : (serve sampleEnv sampleProc (ask "PUT" "/proxy-log-level" none here ["warn,linkerd=", "debug"])).2.level =
    some (some "warn,linkerd=".toList) := by decide +kernel

/-- Not ready, released, ready. -/
example : (serve sampleEnv sampleProc (ask "GET" "/ready" none there [])).1.status = 503 ∧
    (serve sampleEnv (run sampleEnv sampleProc [.dropLatch, .cloneLatch]) (ask "GET" "/ready" none there [])).1.status = 200 := by
  decide +kernel

example : (serve sampleEnv sampleProc (ask "GET" "/env.json" (some "B&C") there [])).1.body =
    .vars [("B".toList, some "2".toList), ("C".toList, none)] := by decide +kernel

example : (serve sampleEnv sampleProc { ask "GET" "/metrics" none there [] with
    headers := [("accept-encoding", "deflate, gzip".toList)] }).1.body = .metrics true := by decide +kernel

/-- A client that refuses compressed responses by name gets one. -/
example : (serve sampleEnv sampleProc { ask "GET" "/metrics" none there [] with
    headers := [("accept-encoding", "gzip;q=0".toList)] }).1.body = .metrics true := by decide +kernel

example : (serve sampleEnv sampleProc (ask "GET" "/live/" none there [])).1.status = 404 := by decide +kernel

example : ((serve sampleEnv sampleProc (ask "GET" "/logs.json" (some "info") here [])).1.body,
    (serve sampleEnv sampleProc (ask "QUERY" "/logs.json" none here ["debug"])).2.streams,
    (serve sampleEnv sampleProc (ask "GET" "/logs.json" none here [])).1.status,
    (serve sampleEnv sampleProc (ask "PUT" "/proxy-log-level" none here ["bad"])).1.status) =
    (.logs "info".toList, ["debug".toList], 400, 400) := by decide +kernel

/-- What cannot be done, and what is not allowed. -/
example : ((serve { sampleEnv with formats := false } sampleProc (ask "GET" "/metrics" none there [])).1.status,
    (serve { sampleEnv with profiles := false } sampleProc (ask "GET" "/debug/pprof/profile.pb.gz" none here [])).1.status,
    (serve sampleEnv sampleProc (ask "POST" "/proxy-log-level" none here [])).1.status,
    (serve sampleEnv { sampleProc with level := some none } (ask "GET" "/proxy-log-level" none here [])).1.status,
    (serve { sampleEnv with addStream := false } sampleProc (ask "GET" "/logs.json" (some "info") here [])).1.status) = (500, 500, 405, 500, 500) := by
  decide +kernel

/-- A request over the limit of the policy is answered with 500. -/
example : (handle sampleEnv (fun _ => []) (fun _ => []) .none (.rateLimited (.total 1)) sampleProc (ask "GET" "/live" none there [])).1 =
    .refusal (.synthetic ⟨.http11, 500, [("content-length", "0".toList), ("connection", "close".toList)]⟩ true) := by decide +kernel

end Verif.Admin
