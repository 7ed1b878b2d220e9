import Verif.Classify.Model

/-!
# C46, C47: classification of responses
-/

namespace Verif.Classify

/-! ## C47 -/

/-- The gRPC status of headers or trailers: a number that fits 16 bits; numbers that are no codes count as unknown (2). -/
def Status (h : HeaderMap) (code : Nat) : Prop :=
  ∃ v n, h.get "grpc-status" = some v ∧ toStr v = some v ∧ Text.parseUnsigned 65535 v = some n ∧
    code = if n ≤ 16 then n else 2

/-- The gRPC status of a response: that of its headers, else that of its trailers. -/
def ResponseStatus (h : HeaderMap) (t : Option HeaderMap) (code : Nat) : Prop :=
  Status h code ∨ ((∀ x, ¬ Status h x) ∧ ∃ t', t = some t' ∧ Status t' code)

theorem toStr_eq (v s : List Char) (h : toStr v = some s) : s = v := by
  unfold toStr at h
  split at h <;> simp at h
  exact h.symm

theorem grpcCode_iff (h : HeaderMap) (code : Nat) : grpcCode h = some code ↔ Status h code := by
  unfold grpcCode Status codeOf
  cases hg : h.get "grpc-status" with
  | none => simp
  | some v =>
    cases ht : toStr v with
    | none => simp [ht]
    | some s =>
      have := toStr_eq v s ht
      subst this
      simp only [Option.bind_some, ht]
      cases hp : Text.parseUnsigned 65535 s with
      | none => simp [hp]
      | some n => simp [ht, hp, eq_comm]

theorem grpcCode_none_iff (h : HeaderMap) : grpcCode h = none ↔ ∀ x, ¬ Status h x := by
  constructor
  · intro hn x hx
    rw [(grpcCode_iff h x).2 hx] at hn
    simp at hn
  · intro hx
    cases hc : grpcCode h with
    | none => rfl
    | some x => exact absurd ((grpcCode_iff h x).1 hc) (hx x)

/-- A request with a gRPC content type. -/
def GrpcRequest (h : HeaderMap) : Prop :=
  ∃ v rest, h.get "content-type" = some v ∧ toStr v = some v ∧ v = "application/grpc".toList ++ rest

theorem isGrpc_iff (h : HeaderMap) : isGrpc h = true ↔ GrpcRequest h := by
  unfold isGrpc GrpcRequest
  cases hg : h.get "content-type" with
  | none => simp
  | some v =>
    cases ht : toStr v with
    | none => simp [ht]
    | some s =>
      have := toStr_eq v s ht
      subst this
      simp only [Option.bind_some, ht, List.isPrefixOf_iff_prefix]
      constructor
      · rintro ⟨r, hr⟩; exact ⟨s, r, rfl, ht, hr.symm⟩
      · rintro ⟨v, r, hv, -, hr⟩
        simp only [Option.some.injEq] at hv
        exact ⟨r, by rw [hv]; exact hr.symm⟩

/-- The class of a complete response. -/
def classOf (c : Request) (req : HeaderMap) (s : Nat) (h : HeaderMap) (t : Option HeaderMap) : Class :=
  ((c.classify req).start s h).eos t

/-- Whether requests are classified as gRPC, and by which failure codes. -/
def ByGrpc (c : Request) (req : HeaderMap) (codes : Codes) : Prop :=
  c = .policyGrpc codes ∨ (codes = defaultCodes ∧ GrpcRequest req ∧ (c = .default ∨ ∃ p, c = .policyHttp p))

/-- Whether requests are classified by HTTP status, and by which failure statuses. -/
def ByStatus (c : Request) (req : HeaderMap) (ranges : StatusRanges) : Prop :=
  ¬ GrpcRequest req ∧ (c = .policyHttp ranges ∨ (c = .default ∧ ranges = [(500, 599)]))

/-- By status: a failure exactly if the status is in one of the ranges, whatever the trailers say. -/
theorem C47_http (c : Request) (req : HeaderMap) (ranges : StatusRanges) (hc : ByStatus c req ranges) (s : Nat)
    (h : HeaderMap) (t : Option HeaderMap) :
    ((∃ lo hi, (lo, hi) ∈ ranges ∧ lo ≤ s ∧ s ≤ hi) → classOf c req s h t = .httpErr s) ∧
      ((∀ lo hi, (lo, hi) ∈ ranges → ¬ (lo ≤ s ∧ s ≤ hi)) → classOf c req s h t = .httpOk s) := by
  obtain ⟨hg, hc⟩ := hc
  have hg' : isGrpc req = false := by
    cases hb : isGrpc req with
    | false => rfl
    | true => exact absurd ((isGrpc_iff req).1 hb) hg
  have hcl : c.classify req = .http ranges := by
    rcases hc with rfl | ⟨rfl, rfl⟩ <;> simp [Request.classify, hg', defaultRanges]
  have hcls : classOf c req s h t = httpClass (StatusRanges.has ranges s) s := by
    simp only [classOf, hcl, Response.start, Eos.eos]
  rw [hcls]
  constructor
  · rintro ⟨lo, hi, hm, hr⟩
    have : StatusRanges.has ranges s = true := by
      unfold StatusRanges.has
      rw [List.any_eq_true]
      exact ⟨_, hm, by simpa using hr⟩
    simp [httpClass, this]
  · intro hn
    have : StatusRanges.has ranges s = false := by
      unfold StatusRanges.has
      rw [List.any_eq_false]
      rintro ⟨lo, hi⟩ hm
      simpa using hn lo hi hm
    simp [httpClass, this]

/-- By gRPC status: a failure exactly if the status of the headers, or else of the trailers, is one of the codes. -/
theorem C47_grpc (c : Request) (req : HeaderMap) (codes : Codes) (hc : ByGrpc c req codes) (s : Nat) (h : HeaderMap)
    (t : Option HeaderMap) :
    (∀ code, ResponseStatus h t code →
      classOf c req s h t = if code ∈ codes then .grpcErr code else .grpcOk code) ∧
    ((∀ code, ¬ ResponseStatus h t code) → classOf c req s h t = .grpcOk 2) := by
  have hcl : c.classify req = .grpc codes := by
    rcases hc with rfl | ⟨rfl, hg, rfl | ⟨p, rfl⟩⟩
    · rfl
    · simp [Request.classify, (isGrpc_iff req).2 hg]
    · simp [Request.classify, (isGrpc_iff req).2 hg]
  have hgc : ∀ code, grpcClass codes code = if code ∈ codes then .grpcErr code else .grpcOk code := by
    intro code; simp [grpcClass]
  simp only [classOf, hcl, Response.start]
  constructor
  · rintro code (h1 | ⟨h1, t', rfl, h2⟩)
    · rw [(grpcCode_iff h code).2 h1]
      exact hgc code
    · rw [(grpcCode_none_iff h).2 h1]
      simp only [Eos.eos, Option.bind_some, (grpcCode_iff t' code).2 h2]
      exact hgc code
  · intro hn
    have h1 : ∀ x, ¬ Status h x := fun x hx => hn x (.inl hx)
    rw [(grpcCode_none_iff h).2 h1]
    have h2 : t.bind grpcCode = none := by
      cases t with
      | none => rfl
      | some t' =>
        rw [Option.bind_some, grpcCode_none_iff]
        exact fun x hx => hn x (.inr ⟨h1, t', rfl, hx⟩)
    simp only [Eos.eos, h2]

/-- By a profile: the first class that applies to the status decides; if none does, the gRPC status of the headers or else
of the trailers, by the default codes; and if there is none, whether the status is a server error. -/
theorem C47_profile (classes : List ResponseClass) (req : HeaderMap) (s : Nat) (h : HeaderMap) (t : Option HeaderMap) :
    (∀ pre k post, classes = pre ++ k :: post → (∀ x ∈ pre, x.mtch.isMatch s = false) → k.mtch.isMatch s = true →
      classOf (.profile classes) req s h t = if k.isFailure then .httpErr s else .httpOk s) ∧
    ((∀ k ∈ classes, k.mtch.isMatch s = false) →
      (∀ code, ResponseStatus h t code → classOf (.profile classes) req s h t =
        if code ∈ [15, 4, 13, 7, 14, 2] then .grpcErr code else .grpcOk code) ∧
      ((∀ code, ¬ ResponseStatus h t code) → classOf (.profile classes) req s h t =
        if 500 ≤ s ∧ s ≤ 599 then .httpErr s else .httpOk s)) := by
  have hmatch : ∀ pre k post, (∀ x ∈ pre, x.mtch.isMatch s = false) → k.mtch.isMatch s = true →
      matchClass s (pre ++ k :: post) = some (httpClass k.isFailure s) := by
    intro pre k post hp hk
    induction pre with
    | nil => simp [matchClass, hk]
    | cons x pre ih =>
      rw [List.cons_append, matchClass, hp x (List.mem_cons_self ..)]
      simp only [Bool.false_eq_true, if_false]
      exact ih (fun y hy => hp y (List.mem_cons_of_mem _ hy))
  have hnone : (∀ k ∈ classes, k.mtch.isMatch s = false) → matchClass s classes = none := by
    intro hn
    induction classes with
    | nil => rfl
    | cons x cs ih =>
      rw [matchClass, hn x (List.mem_cons_self ..)]
      simp only [Bool.false_eq_true, if_false]
      exact ih (fun y hy => hn y (List.mem_cons_of_mem _ hy))
  have hgc : ∀ code, grpcClass defaultCodes code =
      if code ∈ [15, 4, 13, 7, 14, 2] then .grpcErr code else .grpcOk code := by
    intro code; simp [grpcClass, defaultCodes]
  simp only [classOf, Request.classify, Response.start]
  refine ⟨?_, ?_⟩
  · rintro pre k post rfl hp hk
    rw [hmatch pre k post hp hk]
    rfl
  · intro hn
    rw [hnone hn]
    refine ⟨?_, ?_⟩
    · rintro code (h1 | ⟨h1, t', rfl, h2⟩)
      · rw [(grpcCode_iff h code).2 h1]
        exact hgc code
      · rw [(grpcCode_none_iff h).2 h1]
        simp only [Eos.eos, Option.bind_some, (grpcCode_iff t' code).2 h2]
        exact hgc code
    · intro hx
      have h1 : ∀ x, ¬ Status h x := fun x hs => hx x (.inl hs)
      rw [(grpcCode_none_iff h).2 h1]
      have h2 : t.bind grpcCode = none := by
        cases t with
        | none => rfl
        | some t' =>
          rw [Option.bind_some, grpcCode_none_iff]
          exact fun x hs => hx x (.inr ⟨h1, t', rfl, hs⟩)
      simp only [Eos.eos, h2, httpClass, decide_eq_true_eq]
      by_cases h5 : 500 ≤ s ∧ s ≤ 599
      · rw [if_pos h5, if_pos (by omega)]
      · rw [if_neg h5, if_neg (by omega)]

/-- A profile's conditions are what they say. -/
theorem C47_conditions (s : Nat) :
    (∀ lo hi, (ResponseMatch.status lo hi).isMatch s = true ↔ lo ≤ s ∧ s ≤ hi) ∧
      (∀ m, (ResponseMatch.not m).isMatch s = true ↔ ¬ m.isMatch s = true) ∧
        (∀ ms, (ResponseMatch.all ms).isMatch s = true ↔ ∀ m ∈ ms, m.isMatch s = true) ∧
          (∀ ms, (ResponseMatch.any ms).isMatch s = true ↔ ∃ m ∈ ms, m.isMatch s = true) := by
  refine ⟨by simp [ResponseMatch.isMatch], by simp [ResponseMatch.isMatch], ?_, ?_⟩
  · intro ms
    rw [ResponseMatch.isMatch]
    induction ms with
    | nil => simp [allMatch]
    | cons m ms ih => simp [allMatch, ih]
  · intro ms
    rw [ResponseMatch.isMatch]
    induction ms with
    | nil => simp [anyMatch]
    | cons m ms ih => simp [anyMatch, ih]

/-- A route without classes is classified as by default. -/
theorem C47_no_classes : Request.ofClasses [] = .default ∧ ∀ c cs, Request.ofClasses (c :: cs) = .profile (c :: cs) :=
  ⟨rfl, fun _ _ => rfl⟩

/-- A gRPC response that ends without a status - cut off, or its body dropped - is no failure, though `unknown` is a
failure code. -/
theorem C47_missing_grpc_status_is_success (codes : Codes) (req h : HeaderMap) (s : Nat) (hs : ∀ x, ¬ Status h x) :
    (classOf (.policyGrpc codes) req s h none).isFailure = false := by
  rw [(C47_grpc (.policyGrpc codes) req codes (.inl rfl) s h none).2
    (fun x hx => hx.elim (hs x) (by rintro ⟨-, t, ht, -⟩; simp at ht))]
  rfl

/-! ## C46 -/

variable {R E T C : Type}

/-- The event that ends a response's body, if one of those polled does. -/
inductive Ending (E T : Type) where
  | trailers (t : T)
  | done
  | error (e : E)

/-- Whether a frame ends a body. -/
def Frame.ending : Frame E T → Option (Ending E T)
  | .trailers t => some (.trailers t)
  | .done => some .done
  | .error e => some (.error e)
  | _ => none

/-- The class for an ending. -/
def Classifier.verdict (c : Classifier R E T C) (r : R) : Ending E T → C
  | .trailers t => c.eos (c.start r) (some t)
  | .done => c.eos (c.start r) none
  | .error e => c.eosError (c.start r) e

/-- What is to be sent: the class of the error, or the class of the first ending of the body; a body that is dropped
before counts as ended without trailers. -/
def expected (c : Classifier R E T C) : History R E T → Option C
  | .failed e => some (c.error e)
  | .abandoned => none
  | .responded r frames dropped =>
    match frames.findSome? Frame.ending with
    | some x => some (c.verdict r x)
    | none => if dropped then some (c.eos (c.start r) none) else none

theorem pollFrames_none (c : Classifier R E T C) (fs : List (Frame E T)) : pollFrames c none fs = (none, []) := by
  induction fs with
  | nil => rfl
  | cons f fs ih =>
    have : pollFrame c none f = (none, []) := by cases f <;> rfl
    simp [pollFrames, this, ih]

theorem pollFrames_some (c : Classifier R E T C) (r : R) (fs : List (Frame E T)) :
    pollFrames c (some (c.start r)) fs = match fs.findSome? Frame.ending with
      | some x => (none, [c.verdict r x])
      | none => (some (c.start r), []) := by
  induction fs with
  | nil => rfl
  | cons f fs ih =>
    cases f with
    | pending => simp only [pollFrames, pollFrame, ih, List.findSome?_cons, Frame.ending]; simp
    | data => simp only [pollFrames, pollFrame, ih, List.findSome?_cons, Frame.ending]; simp
    | trailers t => simp only [pollFrames, pollFrame, pollFrames_none, List.findSome?_cons, Frame.ending]; rfl
    | done => simp only [pollFrames, pollFrame, pollFrames_none, List.findSome?_cons, Frame.ending]; rfl
    | error e => simp only [pollFrames, pollFrame, pollFrames_none, List.findSome?_cons, Frame.ending]; rfl

/-- For every history of a request with a classifier, what is sent is exactly the class of its ending: nothing more,
nothing else. -/
theorem C46_sent (c : Classifier R E T C) (h : History R E T) : sent c true h = (expected c h).toList := by
  cases h with
  | failed e => rfl
  | abandoned => rfl
  | responded r fs d =>
    simp only [sent, expected, if_true, pollFrames_some]
    cases fs.findSome? Frame.ending with
    | some x => cases d <;> simp [dropBody]
    | none => cases d <;> simp [dropBody]

/-- A response whose body is dropped in the end - as all are - is classified exactly once, and so is one that fails. -/
theorem C46_exactly_once (c : Classifier R E T C) (h : History R E T)
    (hd : (∃ e, h = .failed e) ∨ ∃ r fs, h = .responded r fs true) : (sent c true h).length = 1 := by
  rw [C46_sent]
  rcases hd with ⟨e, rfl⟩ | ⟨r, fs, rfl⟩
  · rfl
  · simp only [expected, if_true]
    cases fs.findSome? Frame.ending <;> rfl

/-- A request without a classifier is not classified. -/
theorem C46_unclassified (c : Classifier R E T C) (h : History R E T) : sent c false h = [] := by
  cases h with
  | failed e => rfl
  | abandoned => rfl
  | responded r fs d =>
    simp only [sent, Bool.false_eq_true, if_false, pollFrames_none]
    cases d <;> rfl

/-- A request that is given up before its response - a timeout above, a client that goes away - is not classified. -/
theorem C46_abandoned_request_is_not_classified (c : Classifier R E T C) : sent c true (.abandoned : History R E T) = [] :=
  rfl

/-- A class that is sent reaches the channel exactly if it is open and not full; else it is lost. -/
theorem C46_delivered_iff_room (ch : Chan C) (x : C) :
    (sendOrReport ch x).queue = if ch.closed = false ∧ ch.queue.length < ch.capacity then ch.queue ++ [x] else ch.queue := by
  unfold sendOrReport
  cases ch.closed
  · by_cases h : ch.queue.length < ch.capacity <;> simp [h]
  · simp

/-! ## Concrete responses -/

/-- The proxy's classifier, for a request with these headers. -/
def classifier (k : Request) (req : HeaderMap) : Classifier (Nat × HeaderMap) Unit HeaderMap Class where
  K := Eos
  start r := (k.classify req).start r.1 r.2
  error _ := errorClass
  eos e t := e.eos t
  eosError _ _ := errorClass

def grpcReq : HeaderMap := [("content-type", "application/grpc+proto".toList)]

example : GrpcRequest grpcReq := (isGrpc_iff _).1 (by decide +kernel)
example : ByGrpc .default grpcReq defaultCodes := .inr ⟨rfl, (isGrpc_iff _).1 (by decide +kernel), .inl rfl⟩
example : ByStatus (.policyHttp [(400, 404)]) [] [(400, 404)] := ⟨by rintro ⟨v, r, h, -⟩; simp [HeaderMap.get] at h, .inl rfl⟩
example : sent (classifier .default grpcReq) true
    (.responded (200, []) [.data, .pending, .trailers [("grpc-status", "14".toList)], .done] true) = [.grpcErr 14] := by
  decide +kernel
example : sent (classifier .default grpcReq) true (.responded (200, []) [.data] true) = [.grpcOk 2] := by decide +kernel
example : sent (classifier (.policyHttp [(400, 404)]) []) true (.responded (404, []) [.data, .error ()] true) = [.error] := by
  decide +kernel
example : classOf (.profile [⟨false, .status 500 503⟩, ⟨true, .not (.all [.status 200 299])⟩]) [] 502 [] none = .httpOk 502 := by
  decide +kernel
example : classOf (.profile [⟨false, .status 500 503⟩, ⟨true, .not (.all [.status 200 299])⟩]) [] 404 [] none = .httpErr 404 := by
  decide +kernel
example : classOf (.profile [⟨true, .any []⟩]) [] 404 [] (some [("grpc-status", "99".toList)]) = .grpcErr 2 := by
  decide +kernel

end Verif.Classify
