import Verif.HttpRoute.Api
import Verif.HttpRoute.Props
import Verif.HttpRoute.FilterProps

/-!
# C69: route matches and filters are what the control plane wrote, or are refused

The meaning of a message is stated on the message itself: `HttpWritten`, `GrpcWritten`, `HostWritten`.
-/

namespace Verif.HttpRoute.Api

open Verif Verif.ServerPolicy

/-! ## What the messages mean -/

/-- The expression of that text matches all of `s`. -/
def Matches (ps : Parsers) (re : Str) (s : Str) : Prop := ∃ r, ps.regex re = some r ∧ Whole r s

/-- A path, as the message asks for it. -/
def PathWritten (ps : Parsers) (m : ApiPath) (path : Str) : Prop :=
  match m with
  | .exact p => path = p
  | .pfx p => p = ['/'] ∨ segments p <+: segments path
  | .regex re => Matches ps re path

/-- A header, as the message asks for it: one of the values of that name. -/
def HeaderWritten (ps : Parsers) (m : ApiHeader) (h : HeaderMap) : Prop :=
  ∃ n, ps.headerName m.name = some n ∧
    ((∃ v, m.value = some (.exact v) ∧ v ∈ h.getAll n) ∨
      ∃ re v, m.value = some (.regex re) ∧ v ∈ h.getAll n ∧ v.all visible ∧ Matches ps re v)

/-- A query parameter, as the message asks for it. -/
def ParamWritten (ps : Parsers) (m : ApiHeader) (params : Option (List (Str × Str))) : Prop :=
  ∃ l v, params = some l ∧ (m.name, v) ∈ l ∧
    (m.value = some (.exact v) ∨ ∃ re, m.value = some (.regex re) ∧ Matches ps re v)

/-- A request, as the message asks for it: everything that it names must hold. -/
structure HttpWritten (ps : Parsers) (m : ApiHttpMatch) (r : Request) : Prop where
  method : ∀ x, m.method = some (some x) → r.method = x
  path : ∀ p, m.path = some (some p) → PathWritten ps p r.path
  headers : ∀ h ∈ m.headers, HeaderWritten ps h r.headers
  params : ∀ q ∈ m.params, ParamWritten ps q r.params

/-- A gRPC request, as the message asks for it: an empty name stands for any. -/
structure GrpcWritten (ps : Parsers) (m : ApiGrpcMatch) (r : Request) : Prop where
  post : r.method = ['P', 'O', 'S', 'T']
  path : ∃ service method more wantService wantMethod, m.rpc = some (wantService, wantMethod) ∧
    Text.split '/' r.path = [] :: service :: method :: more ∧
    (wantService ≠ [] → service = wantService) ∧ (wantMethod ≠ [] → method = wantMethod)
  headers : ∀ h ∈ m.headers, HeaderWritten ps h r.headers

/-! ## What cannot be read -/

/-- A header value the wire format forbids: a control character other than the tab. -/
def BadValue (v : Str) : Prop := ∃ c ∈ v, c ≠ '\t' ∧ (c.toNat < 32 ∨ c.toNat = 127)

def BadPath (ps : Parsers) (m : Option ApiPath) : Prop := m = none ∨ ∃ re, m = some (.regex re) ∧ ps.regex re = none

def BadHeader (ps : Parsers) (m : ApiHeader) : Prop :=
  ps.headerName m.name = none ∨ m.value = none ∨ (∃ v, m.value = some (.exact v) ∧ BadValue v) ∨
    ∃ re, m.value = some (.regex re) ∧ ps.regex re = none

def BadParam (ps : Parsers) (m : ApiHeader) : Prop :=
  m.name = [] ∨ m.value = none ∨ ∃ re, m.value = some (.regex re) ∧ ps.regex re = none

def BadHttp (ps : Parsers) (m : ApiHttpMatch) : Prop :=
  (∃ p, m.path = some p ∧ BadPath ps p) ∨ (∃ h ∈ m.headers, BadHeader ps h) ∨ (∃ q ∈ m.params, BadParam ps q) ∨
    m.method = some none

/-! ## Lemmas -/

theorem headerValue_some {v w : Str} (h : headerValue v = some w) : w = v := by
  unfold headerValue at h; split at h
  · cases h; rfl
  · cases h

theorem headerValue_none (v : Str) : headerValue v = none ↔ BadValue v := by
  unfold headerValue BadValue
  split
  · rename_i h
    simp only [reduceCtorEq, false_iff]
    rintro ⟨c, hc, ht, hb⟩
    have := List.all_eq_true.1 h c hc
    simp only [Bool.or_eq_true, Bool.and_eq_true, decide_eq_true_eq, bne_iff_ne, beq_iff_eq] at this
    rcases this with ⟨h1, h2⟩ | h
    · omega
    · exact ht h
  · rename_i h
    simp only [true_iff]
    rw [List.all_eq_true] at h
    simp only [Bool.or_eq_true, Bool.and_eq_true, decide_eq_true_eq, bne_iff_ne, beq_iff_eq] at h
    simp only [Classical.not_forall] at h
    obtain ⟨c, hc, hn⟩ := h
    refine ⟨c, hc, fun e => hn (Or.inr e), ?_⟩
    by_cases h127 : c.toNat = 127
    · exact Or.inr h127
    · left
      exact Nat.lt_of_not_le fun hle => hn (Or.inl ⟨hle, h127⟩)

theorem readPath_none (ps : Parsers) (m : Option ApiPath) : readPath ps m = none ↔ BadPath ps m := by
  unfold BadPath
  rcases m with _ | (p | p | re) <;> simp [readPath]

theorem readHeader_none (ps : Parsers) (m : ApiHeader) : readHeader ps m = none ↔ BadHeader ps m := by
  obtain ⟨name, value⟩ := m
  unfold BadHeader readHeader
  cases ps.headerName name with
  | none => simp
  | some n =>
    rcases value with _ | (v | re)
    · simp
    · simp [headerValue_none]
    · simp

theorem readParam_none (ps : Parsers) (m : ApiHeader) : readParam ps m = none ↔ BadParam ps m := by
  obtain ⟨name, value⟩ := m
  unfold BadParam readParam
  by_cases h : name = []
  · simp [h]
  · rcases value with _ | (v | re) <;> simp [h]

theorem readOpt_some {α β : Type} {f : α → Option β} {o : Option α} {r : Option β} (h : readOpt f o = some r) :
    (o = none ∧ r = none) ∨ ∃ a b, o = some a ∧ f a = some b ∧ r = some b := by
  cases o with
  | none => simp only [readOpt, Option.some.injEq] at h; exact Or.inl ⟨rfl, h.symm⟩
  | some a =>
    simp only [readOpt, Option.map_eq_some_iff] at h
    obtain ⟨b, h1, h2⟩ := h
    exact Or.inr ⟨a, b, rfl, h1, h2.symm⟩

theorem readOpt_none {α β : Type} {f : α → Option β} {o : Option α} :
    readOpt f o = none ↔ ∃ a, o = some a ∧ f a = none := by
  cases o <;> simp [readOpt]

theorem path_written (ps : Parsers) (m : ApiPath) (x : MatchPath) (h : readPath ps (some m) = some x) (path : Str) :
    (∃ s, PathApplies x path s) ↔ PathWritten ps m path := by
  cases m with
  | exact p => simp only [readPath, Option.some.injEq] at h; subst h; simp [PathApplies, PathWritten]
  | pfx p =>
    simp only [readPath, Option.some.injEq] at h; subst h
    simp only [PathApplies, PathWritten]
    by_cases hp : p = ['/'] <;> simp [hp]
  | regex re =>
    simp only [readPath, Option.map_eq_some_iff] at h
    obtain ⟨r, hr, rfl⟩ := h
    simp only [PathApplies, PathWritten, Matches, hr, Option.some.injEq, exists_eq_left']
    exact ⟨fun ⟨_, h, _⟩ => h, fun h => ⟨_, h, rfl⟩⟩

theorem header_written (ps : Parsers) (m : ApiHeader) (x : MatchHeader) (h : readHeader ps m = some x) (hs : HeaderMap) :
    HeaderApplies x hs ↔ HeaderWritten ps m hs := by
  obtain ⟨name, value⟩ := m
  unfold readHeader at h
  unfold HeaderWritten
  dsimp only at h ⊢
  cases hn : ps.headerName name with
  | none => rw [hn] at h; cases h
  | some n =>
    rw [hn] at h
    rcases value with _ | (v | re)
    · cases h
    · simp only [Option.map_eq_some_iff] at h
      obtain ⟨w, hw, rfl⟩ := h
      cases headerValue_some hw
      simp [HeaderApplies]
    · simp only [Option.map_eq_some_iff] at h
      obtain ⟨r, hr, rfl⟩ := h
      simp [HeaderApplies, Matches, hr]

theorem param_written (ps : Parsers) (m : ApiHeader) (x : MatchQueryParam) (h : readParam ps m = some x)
    (params : Option (List (Str × Str))) : ParamApplies x params ↔ ParamWritten ps m params := by
  obtain ⟨name, value⟩ := m
  unfold readParam at h
  unfold ParamWritten ParamApplies
  dsimp only at h ⊢
  split at h
  · cases h
  rcases value with _ | (v | re)
  · cases h
  · cases h
    constructor
    · rintro ⟨l, h1, h2⟩; exact ⟨l, v, h1, h2, Or.inl rfl⟩
    · rintro ⟨l, w, h1, h2, h3 | ⟨re, h3, -⟩⟩
      · cases h3; exact ⟨l, h1, h2⟩
      · cases h3
  · simp only [Option.map_eq_some_iff] at h
    obtain ⟨r, hr, rfl⟩ := h
    constructor
    · rintro ⟨l, h1, w, h2, h3⟩; exact ⟨l, w, h1, h2, Or.inr ⟨re, rfl, r, hr, h3⟩⟩
    · rintro ⟨l, w, h1, h2, h3 | ⟨re', h3, r', hr', h4⟩⟩
      · cases h3
      · cases h3; rw [hr] at hr'; cases hr'; exact ⟨l, h1, w, h2, h4⟩

/-! ## The theorems -/

/-- A match that is accepted applies to exactly the requests that the message describes. -/
theorem C69_http_match_means_what_it_says (ps : Parsers) (m : ApiHttpMatch) (x : MatchRequest)
    (h : readHttpMatch ps m = some x) (r : Request) : (x.matchRequest r).isSome = true ↔ HttpWritten ps m r := by
  unfold readHttpMatch at h
  cases hp : readOpt (readPath ps) m.path with
  | none => rw [hp] at h; cases h
  | some path =>
  cases hh : readAll (readHeader ps) m.headers with
  | none => rw [hp, hh] at h; cases h
  | some headers =>
  cases hq : readAll (readParam ps) m.params with
  | none => rw [hp, hh, hq] at h; cases h
  | some params =>
  cases hm : readOpt id m.method with
  | none => rw [hp, hh, hq, hm] at h; cases h
  | some method =>
  rw [hp, hh, hq, hm] at h
  cases h
  have e1 : (∃ k, match path with | none => k = PathMatch.pfx 1 | some p => PathApplies p r.path k) ↔
      ∀ p, m.path = some (some p) → PathWritten ps p r.path := by
    rcases readOpt_some hp with ⟨h1, rfl⟩ | ⟨a, b, h1, h2, rfl⟩
    · simp [h1]
    · rcases a with _ | a
      · cases h2
      · rw [h1]
        simp only [Option.some.injEq, forall_eq']
        exact path_written ps a b h2 r.path
  have e2 : (∀ x, method = some x → r.method = x) ↔ ∀ x, m.method = some (some x) → r.method = x := by
    rcases readOpt_some hm with ⟨h1, rfl⟩ | ⟨a, b, h1, h2, rfl⟩
    · simp [h1]
    · simp only [id] at h2; subst h2; simp [h1]
  have e3 : (∀ x ∈ headers, HeaderApplies x r.headers) ↔ ∀ x ∈ m.headers, HeaderWritten ps x r.headers := by
    constructor
    · intro H a ha
      obtain ⟨b, hb, hf⟩ := readAll_mem hh ha
      exact (header_written ps a b hf _).1 (H b hb)
    · intro H b hb
      obtain ⟨a, ha, hf⟩ := mem_of_readAll hh hb
      exact (header_written ps a b hf _).2 (H a ha)
  have e4 : (∀ x ∈ params, ParamApplies x r.params) ↔ ∀ x ∈ m.params, ParamWritten ps x r.params := by
    constructor
    · intro H a ha
      obtain ⟨b, hb, hf⟩ := readAll_mem hq ha
      exact (param_written ps a b hf _).1 (H b hb)
    · intro H b hb
      obtain ⟨a, ha, hf⟩ := mem_of_readAll hq hb
      exact (param_written ps a b hf _).2 (H a ha)
  rw [Option.isSome_iff_exists]
  simp only [http_iff]
  constructor
  · rintro ⟨s, H⟩
    exact ⟨e2.1 H.method, e1.1 ⟨s.path, H.path⟩, e3.1 H.headers, e4.1 H.params⟩
  · intro H
    obtain ⟨k, hk⟩ := e1.2 H.path
    exact ⟨⟨k, headers.length, params.length, method.isSome⟩,
      ⟨e2.2 H.method, hk, e3.2 H.headers, e4.2 H.params, rfl, rfl, rfl⟩⟩

/-- A match is refused exactly if a part of it cannot be read. -/
theorem C69_http_match_refused_iff (ps : Parsers) (m : ApiHttpMatch) : readHttpMatch ps m = none ↔ BadHttp ps m := by
  have a1 : readOpt (readPath ps) m.path = none ↔ ∃ p, m.path = some p ∧ BadPath ps p := by
    simp [readOpt_none, readPath_none]
  have a2 : readAll (readHeader ps) m.headers = none ↔ ∃ h ∈ m.headers, BadHeader ps h := by
    simp [readAll_none, readHeader_none]
  have a3 : readAll (readParam ps) m.params = none ↔ ∃ h ∈ m.params, BadParam ps h := by
    simp [readAll_none, readParam_none]
  have a4 : readOpt id m.method = none ↔ m.method = some none := by simp [readOpt_none]
  unfold readHttpMatch BadHttp
  rw [← a1, ← a2, ← a3, ← a4]
  cases readOpt (readPath ps) m.path with
  | none => simp
  | some path =>
  cases readAll (readHeader ps) m.headers with
  | none => simp
  | some headers =>
  cases readAll (readParam ps) m.params with
  | none => simp
  | some params =>
  cases readOpt id m.method <;> simp

/-- The same for gRPC: an empty service or method stands for any. -/
theorem C69_grpc_match_means_what_it_says (ps : Parsers) (m : ApiGrpcMatch) (x : MatchRpc)
    (h : readGrpcMatch ps m = some x) (r : Request) : (x.matchRequest r).isSome = true ↔ GrpcWritten ps m r := by
  obtain ⟨rpc, hdrs⟩ := m
  unfold readGrpcMatch at h
  rcases rpc with _ | ⟨ws, wm⟩
  · cases h
  dsimp only at h
  cases hh : readAll (readHeader ps) hdrs with
  | none => rw [hh] at h; cases h
  | some headers =>
  rw [hh] at h
  cases h
  have e3 : (∀ x ∈ headers, HeaderApplies x r.headers) ↔ ∀ x ∈ hdrs, HeaderWritten ps x r.headers := by
    constructor
    · intro H a ha
      obtain ⟨b, hb, hf⟩ := readAll_mem hh ha
      exact (header_written ps a b hf _).1 (H b hb)
    · intro H b hb
      obtain ⟨a, ha, hf⟩ := mem_of_readAll hh hb
      exact (header_written ps a b hf _).2 (H a ha)
  have en : ∀ w y : Str, (∀ x, nonEmpty w = some x → y = x) ↔ (w ≠ [] → y = w) := by
    intro w y
    unfold nonEmpty
    by_cases hw : w = []
    · simp [hw]
    · simp [hw]
  rw [Option.isSome_iff_exists]
  simp only [grpc_iff]
  constructor
  · rintro ⟨s, H⟩
    obtain ⟨sv, mt, more, h1, h2, h3⟩ := H.path
    exact ⟨H.post, ⟨sv, mt, more, ws, wm, rfl, h1, (en _ _).1 h2, (en _ _).1 h3⟩, e3.1 H.headers⟩
  · rintro ⟨hp, ⟨sv, mt, more, ws', wm', e, h1, h2, h3⟩, hH⟩
    cases e
    exact ⟨⟨((nonEmpty ws).getD []).length, ((nonEmpty wm).getD []).length, headers.length⟩,
      ⟨hp, ⟨sv, mt, more, h1, (en _ _).2 h2, (en _ _).2 h3⟩, e3.2 hH, rfl, rfl, rfl⟩⟩

theorem C69_grpc_match_refused_iff (ps : Parsers) (m : ApiGrpcMatch) :
    readGrpcMatch ps m = none ↔ m.rpc = none ∨ ∃ h ∈ m.headers, BadHeader ps h := by
  have a2 : readAll (readHeader ps) m.headers = none ↔ ∃ h ∈ m.headers, BadHeader ps h := by
    simp [readAll_none, readHeader_none]
  rw [← a2]
  unfold readGrpcMatch
  rcases m.rpc with _ | ⟨s, n⟩
  · simp
  · dsimp only
    cases readAll (readHeader ps) m.headers <;> simp

/-- A host, or a TLS server name, is taken as written; only an empty message is refused. A suffix comes as its labels,
last first: the message for `*.example.com` reads as that text does. -/
theorem C69_hosts (h : Str) (sfx : Str) :
    readHost none = none ∧ readSni none = none ∧
    readHost (some (.exact h)) = some (.exact h) ∧ readSni (some (.exact h)) = some (.exact h) ∧
    readHost (some (.suffix (Text.split '.' sfx).reverse)) = some (MatchHost.ofText ('*' :: '.' :: sfx)) ∧
    readSni (some (.suffix (Text.split '.' sfx).reverse)) = some (TlsRoute.MatchSni.ofText ('*' :: '.' :: sfx)) := by
  have : Text.stripPrefix ['*', '.'] ('*' :: '.' :: sfx) = some sfx := by simp [Text.stripPrefix]
  refine ⟨rfl, rfl, rfl, rfl, ?_, ?_⟩
  · simp [readHost, MatchHost.ofText, this]
  · simp [readSni, TlsRoute.MatchSni.ofText, this]

/-- The headers a modifier names, in the message's order. -/
def Pairs (ps : Parsers) (msg : List (Str × Str)) (l : List (String × Str)) : Prop :=
  msg.map (fun h => (ps.headerName h.1, h.2)) = l.map (fun h => (some h.1, h.2))

theorem readPair_some {ps : Parsers} {h : Str × Str} {x : String × Str} (e : readPair ps h = some x) :
    ps.headerName h.1 = some x.1 ∧ h.2 = x.2 := by
  unfold readPair at e
  cases hn : ps.headerName h.1 with
  | none => rw [hn] at e; cases e
  | some n =>
    rw [hn] at e
    dsimp only at e
    cases hv : headerValue h.2 with
    | none => rw [hv] at e; cases e
    | some v => rw [hv] at e; cases e; exact ⟨rfl, (headerValue_some hv).symm⟩

theorem readPair_none {ps : Parsers} {h : Str × Str} :
    readPair ps h = none ↔ ps.headerName h.1 = none ∨ BadValue h.2 := by
  unfold readPair
  rw [← headerValue_none]
  cases ps.headerName h.1 with
  | none => simp
  | some n => cases headerValue h.2 <;> simp

theorem pairs_of_read {ps : Parsers} {msg : List (Str × Str)} {l : List (String × Str)}
    (h : readAll (readPair ps) msg = some l) : Pairs ps msg l := by
  induction msg generalizing l with
  | nil => cases h; rfl
  | cons a msg ih =>
    obtain ⟨b, r, h1, h2, rfl⟩ := readAll_cons_some.1 h
    obtain ⟨e1, e2⟩ := readPair_some h1
    have := ih h2
    unfold Pairs at this ⊢
    simp [e1, e2, this]

/-- A header modifier is refused exactly if it names something that is no header name or no header value; otherwise it
adds, sets and removes what the message lists, in that order. -/
theorem C69_modifier (ps : Parsers) (m : ApiModifier) :
    (readModifier ps m = none ↔
      (∃ h ∈ m.add ++ m.set, ps.headerName h.1 = none ∨ BadValue h.2) ∨ ∃ n ∈ m.remove, ps.headerName n = none) ∧
    ∀ x, readModifier ps m = some x →
      Pairs ps m.add x.add ∧ Pairs ps m.set x.set ∧ m.remove.map ps.headerName = x.remove.map some := by
  have a1 : ∀ l : List (Str × Str), readAll (readPair ps) l = none ↔ ∃ h ∈ l, ps.headerName h.1 = none ∨ BadValue h.2 := by
    intro l; simp [readAll_none, readPair_none]
  have a2 : readAll ps.headerName m.remove = none ↔ ∃ n ∈ m.remove, ps.headerName n = none := readAll_none
  have a3 : (∃ h ∈ m.add ++ m.set, ps.headerName h.1 = none ∨ BadValue h.2) ↔
      readAll (readPair ps) m.add = none ∨ readAll (readPair ps) m.set = none := by
    rw [a1, a1]
    simp only [List.mem_append]
    constructor
    · rintro ⟨h, h1 | h1, h2⟩
      · exact Or.inl ⟨h, h1, h2⟩
      · exact Or.inr ⟨h, h1, h2⟩
    · rintro (⟨h, h1, h2⟩ | ⟨h, h1, h2⟩)
      · exact ⟨h, Or.inl h1, h2⟩
      · exact ⟨h, Or.inr h1, h2⟩
  rw [a3, ← a2]
  unfold readModifier
  cases h1 : readAll (readPair ps) m.add with
  | none => simp
  | some add =>
  cases h2 : readAll (readPair ps) m.set with
  | none => simp
  | some set =>
  cases h3 : readAll ps.headerName m.remove with
  | none => simp
  | some remove =>
    refine ⟨by simp, ?_⟩
    intro x hx
    cases hx
    refine ⟨pairs_of_read h1, pairs_of_read h2, ?_⟩
    obtain ⟨hl, hr⟩ := readAll_some.1 h3
    apply List.ext_getElem?
    intro i
    simp only [List.getElem?_map]
    cases hi : m.remove[i]? with
    | none =>
      have : remove[i]? = none := by
        rw [List.getElem?_eq_none_iff] at hi ⊢; omega
      simp [this]
    | some a =>
      obtain ⟨b, hb, hf⟩ := hr i a hi
      simp [hb, hf]

/-- A failure injector is refused exactly if its status is no HTTP status or its ratio is not one; otherwise it fails
that share of requests, all of them if there is no ratio, with the status and the message given. -/
theorem C69_http_injector (f : ApiInjector) (x : InjectFailure (Nat × Str)) :
    readHttpInjector f = some x ↔
      100 ≤ f.status ∧ f.status ≤ 999 ∧ x.response = (f.status, f.message) ∧
      (f.ratio = none ∧ x.numerator = 1 ∧ x.denominator = 1 ∨
        f.ratio = some (x.numerator, x.denominator) ∧ 0 < x.denominator ∧ x.numerator ≤ x.denominator) := by
  obtain ⟨status, message, ratio⟩ := f
  obtain ⟨resp, n, d⟩ := x
  unfold readHttpInjector u16 statusCode
  dsimp only
  by_cases h1 : status < 65536
  · rw [if_pos h1, Option.bind_some]
    by_cases h2 : 100 ≤ status ∧ status < 1000
    · rw [if_pos h2]
      rcases ratio with _ | ⟨n', d'⟩
      · simp only [readRatio, Option.some.injEq, InjectFailure.mk.injEq, true_and, reduceCtorEq, false_and, or_false]
        constructor
        · rintro ⟨rfl, rfl, rfl⟩; exact ⟨h2.1, by omega, rfl, rfl, rfl⟩
        · rintro ⟨-, -, rfl, rfl, rfl⟩; exact ⟨rfl, rfl, rfl⟩
      · simp only [readRatio]
        by_cases h3 : n' > d' ∨ d' = 0
        · rw [if_pos h3]
          simp only [reduceCtorEq, false_iff, false_and, false_or, Option.some.injEq, Prod.mk.injEq]
          rintro ⟨-, -, -, ⟨rfl, rfl⟩, h4, h5⟩
          omega
        · rw [if_neg h3]
          simp only [Option.some.injEq, InjectFailure.mk.injEq, reduceCtorEq, false_and, false_or, Prod.mk.injEq]
          constructor
          · rintro ⟨rfl, rfl, rfl⟩; exact ⟨h2.1, by omega, rfl, ⟨rfl, rfl⟩, by omega, by omega⟩
          · rintro ⟨-, -, rfl, ⟨rfl, rfl⟩, -, -⟩; exact ⟨rfl, rfl, rfl⟩
    · rw [if_neg h2]
      simp only [reduceCtorEq, false_iff]
      rintro ⟨h3, h4, -⟩
      omega
  · rw [if_neg h1]
    simp only [Option.bind_none, reduceCtorEq, false_iff]
    rintro ⟨h3, h4, -⟩
    omega

/-- For gRPC any code of 16 bits is taken, also one that gRPC does not have. -/
theorem C69_grpc_injector (f : ApiInjector) (x : InjectFailure (Nat × Str)) :
    readGrpcInjector f = some x ↔
      f.status ≤ 65535 ∧ x.response = (f.status, f.message) ∧
      (f.ratio = none ∧ x.numerator = 1 ∧ x.denominator = 1 ∨
        f.ratio = some (x.numerator, x.denominator) ∧ 0 < x.denominator ∧ x.numerator ≤ x.denominator) := by
  obtain ⟨status, message, ratio⟩ := f
  obtain ⟨resp, n, d⟩ := x
  unfold readGrpcInjector u16
  dsimp only
  by_cases h1 : status < 65536
  · rw [if_pos h1]
    rcases ratio with _ | ⟨n', d'⟩
    · simp only [readRatio, Option.some.injEq, InjectFailure.mk.injEq, true_and, reduceCtorEq, false_and, or_false]
      constructor
      · rintro ⟨rfl, rfl, rfl⟩; exact ⟨by omega, rfl, rfl, rfl⟩
      · rintro ⟨-, rfl, rfl, rfl⟩; exact ⟨rfl, rfl, rfl⟩
    · simp only [readRatio]
      by_cases h3 : n' > d' ∨ d' = 0
      · rw [if_pos h3]
        simp only [reduceCtorEq, false_iff, false_and, false_or, Option.some.injEq, Prod.mk.injEq]
        rintro ⟨-, -, ⟨rfl, rfl⟩, h4, h5⟩
        omega
      · rw [if_neg h3]
        simp only [Option.some.injEq, InjectFailure.mk.injEq, reduceCtorEq, false_and, false_or, Prod.mk.injEq]
        constructor
        · rintro ⟨rfl, rfl, rfl⟩; exact ⟨by omega, rfl, ⟨rfl, rfl⟩, by omega, by omega⟩
        · rintro ⟨-, rfl, ⟨rfl, rfl⟩, -, -⟩; exact ⟨rfl, rfl, rfl⟩
  · rw [if_neg h1]
    simp only [reduceCtorEq, false_iff]
    rintro ⟨h3, -⟩
    omega

/-- An injector without a ratio fails every request; one with the ratio 0/d fails none. -/
theorem C69_injector_always_and_never (f : ApiInjector) (x : InjectFailure (Nat × Str)) (h : readHttpInjector f = some x)
    (draw : Nat) :
    (f.ratio = none → x.apply draw = some (f.status, f.message)) ∧
    (∀ d, f.ratio = some (0, d) → x.apply draw = none) ∧
    (∀ d, f.ratio = some (d, d) → x.apply draw = some (f.status, f.message)) := by
  obtain ⟨-, -, h1, h2⟩ := (C69_http_injector f x).1 h
  refine ⟨?_, ?_, ?_⟩
  · intro hr
    rcases h2 with ⟨-, h3, h4⟩ | ⟨h3, -⟩
    · rw [InjectFailure.apply, if_pos (Or.inl (by omega)), h1]
    · rw [hr] at h3; cases h3
  · intro d hr
    rcases h2 with ⟨h3, -⟩ | ⟨h3, h4, -⟩
    · rw [hr] at h3; cases h3
    · rw [hr] at h3
      simp only [Option.some.injEq, Prod.mk.injEq] at h3
      rw [InjectFailure.apply, if_neg]
      rintro (h5 | h5)
      · omega
      · rw [← h3.1] at h5; omega
  · intro d hr
    rcases h2 with ⟨h3, -⟩ | ⟨h3, h4, -⟩
    · rw [hr] at h3; cases h3
    · rw [hr] at h3
      simp only [Option.some.injEq, Prod.mk.injEq] at h3
      rw [InjectFailure.apply, if_pos (Or.inl (by omega)), h1]

/-- What a redirect's host and port ask for. -/
def AuthorityWritten (ps : Parsers) (host : Str) (port : Nat) (o : Option AuthorityOverride) : Prop :=
  (host = [] ∧ port = 0 ∧ o = none) ∨
  (host = [] ∧ port ≠ 0 ∧ o = some (.port port)) ∨
  (host ≠ [] ∧ port = 0 ∧ ∃ a, ps.authority host = some a ∧ o = some (.host a)) ∨
  (host ≠ [] ∧ port ≠ 0 ∧ ∃ a, ps.authority (host ++ [':'] ++ Text.decimal port) = some a ∧ o = some (.exact a))

/-- What a redirect's path asks for: only absolute paths. -/
def ReplaceWritten (p : Option ApiReplace) (o : Option ModifyPath) : Prop :=
  (p = none ∧ o = none) ∨
  (∃ s, p = some (.full ('/' :: s)) ∧ o = some (.replaceFull ('/' :: s))) ∨
  (∃ s, p = some (.pfx ('/' :: s)) ∧ o = some (.replacePrefix ('/' :: s)))

theorem head_slash (p : Str) : p.head? = some '/' ↔ ∃ s, p = '/' :: s := by
  cases p with
  | nil => simp
  | cons c s =>
    simp only [List.head?_cons, Option.some.injEq, List.cons.injEq, exists_and_left, exists_eq', and_true]

/-- A redirect is accepted exactly if its port fits in 16 bits, its scheme and authority can be read, its path is
absolute and its status is zero or an HTTP status; it is then what the message says, with a status of zero standing for
none. -/
theorem C69_redirect (ps : Parsers) (m : ApiRedirect) (x : RedirectRequest) :
    readRedirect ps m = some x ↔
      m.scheme = x.scheme.map some ∧ m.port ≤ 65535 ∧ AuthorityWritten ps m.host m.port x.authority ∧
      ReplaceWritten m.path x.path ∧
      (m.status = 0 ∧ x.status = none ∨ 100 ≤ m.status ∧ m.status ≤ 999 ∧ x.status = some m.status) := by
  have s1 : ∀ o, readOpt id m.scheme = some o ↔ m.scheme = o.map some := by
    intro o
    rcases hs : m.scheme with _ | (_ | s)
    · simp only [readOpt, Option.some.injEq]
      cases o <;> simp
    · cases o <;> simp [readOpt]
    · cases o <;> simp [readOpt, eq_comm]
  have s2 : ∀ o, readAuthority ps m.host m.port = some o ↔ AuthorityWritten ps m.host m.port o := by
    intro o
    unfold readAuthority AuthorityWritten
    by_cases h1 : m.host = []
    · by_cases h2 : m.port = 0
      · simp [h1, h2, eq_comm]
      · simp [h1, h2, eq_comm]
    · by_cases h2 : m.port = 0
      · rw [if_neg h1, if_pos h2]
        simp only [h1, h2, false_and, ne_eq, not_false_iff, true_and, not_true, false_or, or_false,
          Option.map_eq_some_iff]
        constructor <;> rintro ⟨a, e1, e2⟩ <;> exact ⟨a, e1, e2.symm⟩
      · rw [if_neg h1, if_neg h2]
        simp only [h1, h2, false_and, ne_eq, not_false_iff, true_and, false_or,
          Option.map_eq_some_iff, List.append_assoc, List.singleton_append]
        constructor <;> rintro ⟨a, e1, e2⟩ <;> exact ⟨a, e1, e2.symm⟩
  have s3 : ∀ o, readOpt readReplace m.path = some o ↔ ReplaceWritten m.path o := by
    intro o
    unfold ReplaceWritten
    rcases m.path with _ | (p | p)
    · simp [readOpt, eq_comm]
    · simp only [readOpt, readReplace, reduceCtorEq, false_and, false_or, or_false, exists_false,
        Option.some.injEq, ApiReplace.full.injEq, Option.map_eq_some_iff]
      by_cases hp : p.head? = some '/'
      · obtain ⟨s, rfl⟩ := (head_slash p).1 hp
        simp only [List.head?_cons, if_true, Option.some.injEq, exists_eq_left', List.cons.injEq, true_and]
        exact eq_comm
      · rw [if_neg hp]
        simp only [reduceCtorEq, false_and, exists_false, false_iff]
        rintro ⟨s, rfl, -⟩
        exact hp rfl
    · simp only [readOpt, readReplace, reduceCtorEq, false_and, false_or, or_false, exists_false,
        Option.some.injEq, ApiReplace.pfx.injEq, Option.map_eq_some_iff]
      by_cases hp : p.head? = some '/'
      · obtain ⟨s, rfl⟩ := (head_slash p).1 hp
        simp only [List.head?_cons, if_true, Option.some.injEq, exists_eq_left', List.cons.injEq, true_and]
        exact eq_comm
      · rw [if_neg hp]
        simp only [reduceCtorEq, false_and, exists_false, false_iff]
        rintro ⟨s, rfl, -⟩
        exact hp rfl
  have s4 : ∀ o, readStatus m.status = some o ↔
      (m.status = 0 ∧ o = none ∨ 100 ≤ m.status ∧ m.status ≤ 999 ∧ o = some m.status) := by
    intro o
    unfold readStatus u16 statusCode
    by_cases h1 : m.status < 65536
    · rw [if_pos h1]
      dsimp only
      by_cases h2 : m.status = 0
      · rw [if_pos h2]
        simp [h2, eq_comm]
      · rw [if_neg h2]
        by_cases h3 : 100 ≤ m.status ∧ m.status < 1000
        · rw [if_pos h3]
          simp only [Option.map_some, Option.some.injEq, h2, false_and, false_or]
          constructor
          · rintro rfl; exact ⟨h3.1, by omega, rfl⟩
          · rintro ⟨-, -, rfl⟩; rfl
        · rw [if_neg h3]
          simp only [Option.map_none, reduceCtorEq, false_iff]
          rintro (⟨h, -⟩ | ⟨h, h', -⟩) <;> omega
    · rw [if_neg h1]
      simp only [reduceCtorEq, false_iff]
      rintro (⟨h, -⟩ | ⟨h, h', -⟩) <;> omega
  obtain ⟨xs, xa, xp, xst⟩ := x
  dsimp only
  rw [← s1, ← s2, ← s3, ← s4]
  unfold readRedirect u16
  by_cases hport : m.port < 65536
  · rw [if_pos hport]
    cases readOpt id m.scheme with
    | none => simp
    | some scheme =>
    dsimp only
    cases readAuthority ps m.host m.port with
    | none => simp
    | some authority =>
    dsimp only
    cases readOpt readReplace m.path with
    | none => simp
    | some path =>
    dsimp only
    cases readStatus m.status with
    | none => simp
    | some status =>
      simp only [Option.some.injEq, RedirectRequest.mk.injEq]
      constructor
      · rintro ⟨rfl, rfl, rfl, rfl⟩; exact ⟨rfl, by omega, rfl, rfl, rfl⟩
      · rintro ⟨rfl, -, rfl, rfl, rfl⟩; exact ⟨rfl, rfl, rfl, rfl⟩
  · rw [if_neg hport]
    constructor
    · intro h
      split at h <;> cases h
    · rintro ⟨-, h, -⟩; omega

/-! ### Cases that meet the hypotheses -/

/-- Parsers for the examples: names are lower-cased, `x` is no name, `(` is no expression. -/
def exParsers : Parsers where
  regex := fun s => if s = ['('] then none else some (fun t => if t = s then some (0, t.length) else none)
  headerName := fun s => if s = ['x'] then none else some (String.ofList s)
  authority := fun s => if s.contains ' ' then none else some ⟨s, none⟩

def exMatch : ApiHttpMatch where
  path := some (some (.pfx "/api".toList))
  headers := [⟨"a".toList, some (.exact "1".toList)⟩]
  method := some (some "GET".toList)

example : ∃ x, readHttpMatch exParsers exMatch = some x ∧
    (x.matchRequest ⟨"GET".toList, none, "/api/v1".toList, none, [("a", "1".toList)]⟩).isSome = true ∧
    (x.matchRequest ⟨"GET".toList, none, "/apis".toList, none, [("a", "1".toList)]⟩).isSome = false :=
  ⟨_, rfl, by decide +kernel, by decide +kernel⟩

example : readHttpMatch exParsers { exMatch with headers := [⟨"x".toList, some (.exact [])⟩] } = none := rfl

example : ∃ x, readGrpcMatch exParsers ⟨some ("svc".toList, []), []⟩ = some x ∧
    (x.matchRequest ⟨"POST".toList, none, "/svc/Any".toList, none, []⟩).isSome = true := ⟨_, rfl, by decide +kernel⟩

example : ∃ x, readModifier exParsers { set := [("b".toList, "2".toList)], remove := ["c".toList] } = some x ∧
    x.remove = [String.ofList "c".toList] := ⟨_, rfl, rfl⟩

example : readHttpInjector ⟨503, "no".toList, some (1, 4)⟩ = some ⟨(503, "no".toList), 1, 4⟩ := rfl

example : readHttpInjector ⟨503, [], some (0, 0)⟩ = none := rfl

def exRedirect : ApiRedirect where
  host := "example.org".toList
  path := some (.full "/x".toList)
  status := 302

example : ∃ x, readRedirect exParsers exRedirect = some x ∧ x.status = some 302 := ⟨_, rfl, rfl⟩

example : readRedirect exParsers { path := some (.full "x".toList) } = none := rfl

end Verif.HttpRoute.Api
