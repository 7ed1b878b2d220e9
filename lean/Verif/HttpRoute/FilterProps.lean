import Verif.HttpRoute.Filters
import Verif.HttpRoute.Lemmas

/-!
# C25 and C26: redirects and header modification
-/

namespace Verif.HttpRoute

/-! ## C26 -/

/-- The last value configured for a name. -/
def lastFor (l : List (String × Str)) (n : String) : Option Str := (HeaderMap.getAll l n).getLast?

theorem getAll_foldl_append (l : List (String × Str)) (h : HeaderMap) (n : String) :
    HeaderMap.getAll (l.foldl (fun h e => h.append e.1 e.2) h) n = HeaderMap.getAll h n ++ HeaderMap.getAll l n := by
  induction l generalizing h with
  | nil => simp [HeaderMap.getAll]
  | cons e l ih =>
    rw [List.foldl_cons, ih, HeaderMap.getAll_append]
    by_cases he : n = e.1
    · subst he; simp [HeaderMap.getAll]
    · have he' : ¬ e.1 = n := fun x => he x.symm
      simp [HeaderMap.getAll, he, he']

theorem getAll_foldl_insert (l : List (String × Str)) (h : HeaderMap) (n : String) :
    HeaderMap.getAll (l.foldl (fun h e => h.insert e.1 e.2) h) n =
      match lastFor l n with
      | some v => [v]
      | none => HeaderMap.getAll h n := by
  induction l using snoc_induction with
  | nil => simp [lastFor, HeaderMap.getAll]
  | snoc l e ih =>
    rw [List.foldl_append, List.foldl_cons, List.foldl_nil, HeaderMap.getAll_insert, ih]
    unfold lastFor
    rw [HeaderMap.getAll_append_list]
    by_cases he : n = e.1
    · subst he; simp [HeaderMap.getAll]
    · have he' : ¬ e.1 = n := fun x => he x.symm
      have : HeaderMap.getAll [e] n = [] := by simp [HeaderMap.getAll, he']
      rw [if_neg he, this, List.append_nil]

theorem getAll_foldl_remove (l : List String) (h : HeaderMap) (n : String) :
    HeaderMap.getAll (l.foldl (fun h n => h.remove n) h) n = if n ∈ l then [] else HeaderMap.getAll h n := by
  induction l generalizing h with
  | nil => simp
  | cons e l ih =>
    rw [List.foldl_cons, ih, HeaderMap.getAll_remove]
    by_cases he : n = e
    · simp [he]
    · simp [he]

/-- C26: a removed header is absent. -/
theorem C26_removed_is_absent (m : ModifyHeader) (h : HeaderMap) (n : String) (hn : n ∈ m.remove) :
    (m.apply h).getAll n = [] := by
  unfold ModifyHeader.apply
  rw [getAll_foldl_remove, if_pos hn]

/-- C26: a header that is set and not removed has exactly the (last) configured value. -/
theorem C26_set_has_the_value (m : ModifyHeader) (h : HeaderMap) (n : String) (v : Str)
    (pre post : List (String × Str)) (hs : m.set = pre ++ (n, v) :: post) (hl : ∀ e ∈ post, e.1 ≠ n)
    (hn : n ∉ m.remove) : (m.apply h).getAll n = [v] := by
  unfold ModifyHeader.apply
  rw [getAll_foldl_remove, if_neg hn, getAll_foldl_insert]
  have : lastFor m.set n = some v := by
    unfold lastFor
    rw [hs, HeaderMap.getAll_append_list]
    have h2 : HeaderMap.getAll ((n, v) :: post) n = [v] := by
      have : post.filter (fun e => decide (e.1 = n)) = [] := by
        rw [List.filter_eq_nil_iff]; intro e he; simpa using hl e he
      simp [HeaderMap.getAll, this]
    rw [h2]; simp
  rw [this]

/-- C26: a header that is neither set nor removed has its old values, followed by those added. -/
theorem C26_added_after_the_old (m : ModifyHeader) (h : HeaderMap) (n : String) (hs : ∀ e ∈ m.set, e.1 ≠ n)
    (hn : n ∉ m.remove) :
    (m.apply h).getAll n = h.getAll n ++ (m.add.filter (fun e => e.1 = n)).map (·.2) := by
  unfold ModifyHeader.apply
  rw [getAll_foldl_remove, if_neg hn, getAll_foldl_insert]
  have : lastFor m.set n = none := by
    unfold lastFor HeaderMap.getAll
    have : m.set.filter (fun e => decide (e.1 = n)) = [] := by
      rw [List.filter_eq_nil_iff]; intro e he; simpa using hs e he
    rw [this]; rfl
  rw [this]
  exact getAll_foldl_append _ _ _

/-- C26: every other header is unchanged. -/
theorem C26_others_are_unchanged (m : ModifyHeader) (h : HeaderMap) (n : String) (ha : ∀ e ∈ m.add, e.1 ≠ n)
    (hs : ∀ e ∈ m.set, e.1 ≠ n) (hn : n ∉ m.remove) : (m.apply h).getAll n = h.getAll n := by
  rw [C26_added_after_the_old m h n hs hn]
  have : m.add.filter (fun e => decide (e.1 = n)) = [] := by
    rw [List.filter_eq_nil_iff]; intro e he; simpa using ha e he
  rw [this]; simp

/-- A modification that does all three. -/
def sampleModify : ModifyHeader :=
  { add := [("a", ['2']), ("s", ['x'])], set := [("s", ['1']), ("s", ['2']), ("r", ['3'])], remove := ["r"] }

example : (sampleModify.apply [("a", ['1']), ("r", ['0']), ("o", ['9'])]) =
    [("a", ['1']), ("o", ['9']), ("a", ['2']), ("s", ['2'])] := by decide +kernel

/-! ## C25 -/

/-- The port a client connects to: the one in the URI, or the scheme's. -/
def effectivePort (s : Scheme) (p : Option Nat) : Option Nat :=
  match p with
  | some p => some p
  | none => match s with
    | .http => some 80
    | .https => some 443
    | .other _ => none

/-- The text of a path and query. -/
def pqText (p : Str) (q : Option Str) : Str :=
  p ++ match q with
    | some q => '?' :: q
    | none => []

/-- What a redirect should point to. -/
structure Target (rr : RedirectRequest) (u : Uri) (rm : PathMatch) (loc : Uri) : Prop where
  /-- The configured scheme, or the request's, or plain HTTP. -/
  scheme : loc.scheme = some ((rr.scheme.orElse (fun _ => u.scheme)).getD .http)
  /-- No authority configured: the request's. -/
  authority : rr.authority = none → u.authority ≠ none ∧ loc.authority = u.authority
  /-- An authority configured: that. -/
  exact : ∀ a, rr.authority = some (.exact a) → loc.authority = some a
  /-- A host configured: that host, and the request's port if it has one. -/
  host : ∀ a, rr.authority = some (.host a) → a.port = none → ∃ l s, loc.authority = some l ∧
    loc.scheme = some s ∧ l.host = a.host ∧ effectivePort s l.port = effectivePort s u.port
  /-- A port configured: the request's host, and that port. -/
  port : ∀ p, rr.authority = some (.port p) → ∃ l s h, loc.authority = some l ∧ loc.scheme = some s ∧
    u.host = some h ∧ l.host = h ∧ effectivePort s l.port = some p
  /-- No path configured: the request's path and query. -/
  path : rr.path = none → u.pq ≠ none ∧ loc.pq = u.pq
  /-- A path configured: that. -/
  full : ∀ p, rr.path = some (.replaceFull p) → p.head? = some '/' → '#' ∉ p → pqText loc.path loc.query = p
  /-- A prefix configured: the request was matched by a prefix; that prefix is replaced, the rest of the
  path and the query are kept, and what follows the new prefix starts with a slash. -/
  pfx : ∀ new, rr.path = some (.replacePrefix new) → ∃ old rest, rm = .pfx old.length ∧
    u.path = old ++ rest ∧
    (new.head? = some '/' → '?' ∉ new → '#' ∉ new → '?' ∉ u.path → '#' ∉ u.path →
      (∀ q, u.query = some q → '#' ∉ q) →
      loc.path = new ++ (if rest = [] ∨ rest.head? = some '/' then rest else '/' :: rest) ∧ loc.query = u.query)

theorem effectivePort_none (s : Scheme) (p : Nat) (h : portIfNotDefault s p = none) :
    effectivePort s none = some p := by
  unfold portIfNotDefault at h
  split at h
  · rename_i h'; obtain ⟨rfl, rfl⟩ := h'; rfl
  · split at h
    · rename_i h'; obtain ⟨rfl, rfl⟩ := h'; rfl
    · cases h

theorem portIfNotDefault_some (s : Scheme) (p q : Nat) (h : portIfNotDefault s p = some q) : q = p := by
  unfold portIfNotDefault at h
  split at h
  · cases h
  · split at h <;> cases h
    rfl

theorem takeWhile_all (p : Char → Bool) (l : Str) (h : ∀ c ∈ l, p c = true) : l.takeWhile p = l := by
  induction l with
  | nil => rfl
  | cons c l ih =>
    rw [List.takeWhile_cons, h c (by simp)]
    simp [ih (fun x hx => h x (by simp [hx]))]

theorem parsePq_text (legal : Str → Bool) (p : Str) (q : Option Str) (x : Str × Option Str)
    (h : parsePq legal (pqText p q) = some x) (hp : p ≠ []) (h1 : '?' ∉ p) (h2 : '#' ∉ p)
    (h3 : ∀ y, q = some y → '#' ∉ y) : x = (p, q) := by
  unfold parsePq at h
  split at h
  case isFalse => cases h
  have hne : ∀ c ∈ p, decide (c ≠ '?') = true := by
    intro c hc; simp; rintro rfl; exact h1 hc
  have hno : (pqText p q).takeWhile (· ≠ '#') = pqText p q := by
    apply takeWhile_all
    intro c hc
    simp only [ne_eq, decide_eq_true_eq]
    rintro rfl
    unfold pqText at hc
    rcases List.mem_append.1 hc with hc | hc
    · exact h2 hc
    · cases q with
      | none => cases hc
      | some q =>
        rcases List.mem_cons.1 hc with hc | hc
        · revert hc; decide
        · exact h3 q rfl hc
  rw [hno] at h
  simp only [Option.some.injEq] at h
  subst h
  cases q with
  | none =>
    have e1 : (pqText p none).takeWhile (· ≠ '?') = p := by
      unfold pqText; simp only [List.append_nil]; exact takeWhile_all _ _ hne
    have e2 : (pqText p none).dropWhile (· ≠ '?') = [] := by
      have := List.takeWhile_append_dropWhile (p := fun c => decide (c ≠ '?')) (l := pqText p none)
      rw [e1] at this
      unfold pqText at this ⊢
      simpa using this
    rw [e1, e2, if_neg hp]
  | some q =>
    have e1 : (pqText p (some q)).takeWhile (· ≠ '?') = p := by
      unfold pqText
      rw [List.takeWhile_append_of_pos hne]
      simp
    have e2 : (pqText p (some q)).dropWhile (· ≠ '?') = '?' :: q := by
      unfold pqText
      rw [List.dropWhile_append_of_pos hne]
      simp
    rw [e1, e2, if_neg hp]

theorem parsePq_full (legal : Str → Bool) (p : Str) (x : Str × Option Str)
    (h : parsePq legal p = some x) (h1 : p.head? = some '/') (h2 : '#' ∉ p) : pqText x.1 x.2 = p := by
  have hw : p = p.takeWhile (· ≠ '?') ++ p.dropWhile (· ≠ '?') := List.takeWhile_append_dropWhile.symm
  have hne : p.takeWhile (· ≠ '?') ≠ [] := by
    cases p with
    | nil => cases h1
    | cons c p => simp at h1; subst h1; simp
  have hq : '?' ∉ p.takeWhile (· ≠ '?') := by
    intro hm
    have := List.all_takeWhile (p := fun c => decide (c ≠ '?')) (l := p)
    rw [List.all_eq_true] at this
    have := this _ hm
    simp at this
  have hh : '#' ∉ p.takeWhile (· ≠ '?') := fun hm => h2 ((List.takeWhile_sublist _).subset hm)
  have hd : '#' ∉ p.dropWhile (· ≠ '?') := fun hm => h2 ((List.dropWhile_sublist _).subset hm)
  cases hdw : p.dropWhile (· ≠ '?') with
  | nil =>
    have e : p = pqText (p.takeWhile (· ≠ '?')) none := by
      unfold pqText; rw [hdw] at hw; simpa using hw
    rw [e] at h
    rw [parsePq_text legal _ _ x h hne hq hh (by simp), ← e]
  | cons c q =>
    have hc : c = '?' := by
      have := List.head?_dropWhile_not (fun c => decide (c ≠ '?')) p
      rw [hdw] at this
      simpa using this
    subst hc
    have e : p = pqText (p.takeWhile (· ≠ '?')) (some q) := by
      unfold pqText; rw [hdw] at hw; exact hw
    rw [e] at h
    rw [parsePq_text legal _ _ x h hne hq hh (by intro y hy; cases hy; rw [hdw] at hd; simpa using hd), ← e]

theorem okOr_ok {α : Type} {o : Option α} {e : Fail} {a : α} (h : okOr o e = .ok a) : o = some a := by
  cases o with
  | none => cases h
  | some b => cases h; rfl

theorem target_of (legal : Str → Bool) (rr : RedirectRequest) (u : Uri) (rm : PathMatch) (a : Authority)
    (pq : Str × Option Str)
    (ha : rr.authorityOf u ((rr.scheme.orElse (fun _ => u.scheme)).getD .http) = .ok a)
    (hp : rr.pqOf legal u rm = .ok pq) :
    Target rr u rm ⟨some ((rr.scheme.orElse (fun _ => u.scheme)).getD .http), some a, some pq⟩ := by
  generalize hsc : (rr.scheme.orElse (fun _ => u.scheme)).getD .http = sc at ha ⊢
  constructor
  · rw [hsc]
  · intro hr
    unfold RedirectRequest.authorityOf at ha
    rw [hr] at ha
    have := okOr_ok ha
    rw [this]; simp
  · intro b hr
    unfold RedirectRequest.authorityOf at ha
    rw [hr] at ha
    cases ha; rfl
  · intro b hr hb
    unfold RedirectRequest.authorityOf at ha
    rw [hr] at ha
    refine ⟨a, sc, rfl, rfl, ?_⟩
    simp only at ha
    cases hpt : u.port with
    | none =>
      rw [hpt] at ha
      cases ha
      exact ⟨rfl, by rw [hb]⟩
    | some p =>
      rw [hpt] at ha
      simp only [Option.bind_some] at ha
      cases hn : portIfNotDefault sc p with
      | none =>
        rw [hn] at ha; cases ha
        refine ⟨rfl, ?_⟩
        rw [hb, effectivePort_none sc p hn]; rfl
      | some p' =>
        have := portIfNotDefault_some _ _ _ hn
        subst this
        rw [hn] at ha
        have := okOr_ok ha
        unfold Authority.withPort at this
        rw [hb] at this
        cases this
        exact ⟨rfl, rfl⟩
  · intro p hr
    unfold RedirectRequest.authorityOf at ha
    rw [hr] at ha
    simp only at ha
    refine ⟨a, sc, a.host, rfl, rfl, ?_⟩
    have hau : ∀ {x : Authority}, u.authority = some x → u.host = some x.host ∧ u.port = x.port := by
      intro x hx; unfold Uri.host Uri.port; rw [hx]; exact ⟨rfl, rfl⟩
    cases hn : portIfNotDefault sc p with
    | some p' =>
      have := portIfNotDefault_some _ _ _ hn
      subst this
      rw [hn] at ha
      simp only at ha
      by_cases hpp : some p' ≠ u.port
      · rw [if_pos hpp] at ha
        cases hh : u.host with
        | none => rw [hh] at ha; cases ha
        | some h => rw [hh] at ha; cases ha; exact ⟨rfl, rfl, rfl⟩
      · rw [if_neg hpp] at ha
        have := okOr_ok ha
        obtain ⟨e1, e2⟩ := hau this
        refine ⟨e1, rfl, ?_⟩
        rw [← e2, ← Classical.not_not.1 hpp]; rfl
    | none =>
      rw [hn] at ha
      simp only at ha
      by_cases hpp : u.port.isSome
      · rw [if_pos hpp] at ha
        cases hh : u.host with
        | none => rw [hh] at ha; cases ha
        | some h => rw [hh] at ha; cases ha; exact ⟨rfl, rfl, effectivePort_none sc p hn⟩
      · rw [if_neg hpp] at ha
        have := okOr_ok ha
        obtain ⟨e1, e2⟩ := hau this
        refine ⟨e1, rfl, ?_⟩
        have : a.port = none := by rw [← e2]; simpa using hpp
        rw [this]; exact effectivePort_none sc p hn
  · intro hr
    unfold RedirectRequest.pqOf at hp
    rw [hr] at hp
    have := okOr_ok hp
    rw [this]; simp
  · intro p hr h1 h2
    unfold RedirectRequest.pqOf at hp
    rw [hr] at hp
    exact parsePq_full legal p pq (okOr_ok hp) h1 h2
  · intro new hr
    unfold RedirectRequest.pqOf at hp
    rw [hr] at hp
    simp only at hp
    cases rm with
    | exact n => cases hp
    | regex n => cases hp
    | pfx n =>
      simp only at hp
      by_cases hn : n ≤ u.path.length
      · rw [if_pos hn] at hp
        refine ⟨u.path.take n, u.path.drop n, by rw [List.length_take, Nat.min_eq_left hn], (List.take_append_drop _ _).symm, ?_⟩
        intro h1 h2 h3 h4 h5 h6
        have hp := okOr_ok hp
        have e : replacedPrefix new n u = pqText (new ++ (if u.path.drop n = [] ∨ (u.path.drop n).head? = some '/' then u.path.drop n
            else '/' :: u.path.drop n)) u.query := by
          unfold replacedPrefix pqText
          by_cases hc : u.path.drop n = [] ∨ (u.path.drop n).head? = some '/'
          · have hc' : ¬ (u.path.drop n ≠ [] ∧ (u.path.drop n).head? ≠ some '/') := by
              rintro ⟨g1, g2⟩; rcases hc with g | g
              · exact g1 g
              · exact g2 g
            simp only [hc', hc, if_false, if_true]
            cases u.query <;> simp
          · have hc' : (u.path.drop n ≠ [] ∧ (u.path.drop n).head? ≠ some '/') := by
              exact ⟨fun g => hc (.inl g), fun g => hc (.inr g)⟩
            simp only [hc', hc, if_false, if_true, and_self, ne_eq, not_false_eq_true]
            cases u.query <;> simp
        rw [e] at hp
        have hmem : ∀ c, c ∉ new → c ∉ u.path → c ≠ '/' → c ∉ (new ++ (if u.path.drop n = [] ∨ (u.path.drop n).head? = some '/' then u.path.drop n
            else '/' :: u.path.drop n)) := by
          intro c g1 g2 g3 g
          rcases List.mem_append.1 g with g | g
          · exact g1 g
          · split at g
            · exact g2 (List.mem_of_mem_drop g)
            · rcases List.mem_cons.1 g with g | g
              · exact g3 g
              · exact g2 (List.mem_of_mem_drop g)
        have := parsePq_text legal _ _ pq hp
          (by intro g; have := List.append_eq_nil_iff.1 g; rw [this.1] at h1; cases h1)
          (hmem _ h2 h4 (by decide)) (hmem _ h3 h5 (by decide)) h6
        subst this
        exact ⟨rfl, rfl⟩
      · rw [if_neg hn] at hp; cases hp

/-- Two URIs are the same: scheme, authority - its host up to ASCII case, its port exactly - path and query. -/
structure SameUri (a b : Uri) : Prop where
  scheme : a.scheme = b.scheme
  authority : (a.authority = none ∧ b.authority = none) ∨
    ∃ x y, a.authority = some x ∧ b.authority = some y ∧ x.host.map Text.lower = y.host.map Text.lower ∧ x.port = y.port
  path : a.path = b.path
  query : a.query = b.query

theorem same_iff (a b : Uri) : a.same b = true ↔ SameUri a b := by
  unfold Uri.same
  constructor
  · intro h
    simp only [Bool.and_eq_true, beq_iff_eq] at h
    obtain ⟨⟨⟨h1, h2⟩, h3⟩, h4⟩ := h
    refine ⟨h1, ?_, h3, h4⟩
    cases ha : a.authority with
    | none =>
      cases hb : b.authority with
      | none => exact .inl ⟨rfl, rfl⟩
      | some y => rw [ha, hb] at h2; cases h2
    | some x =>
      cases hb : b.authority with
      | none => rw [ha, hb] at h2; cases h2
      | some y =>
        rw [ha, hb] at h2
        simp only [Authority.same, Text.eqIgnoreCase, Bool.and_eq_true, beq_iff_eq] at h2
        exact .inr ⟨x, y, rfl, rfl, h2.1, h2.2⟩
  · rintro ⟨h1, h2, h3, h4⟩
    simp only [Bool.and_eq_true, beq_iff_eq]
    refine ⟨⟨⟨h1, ?_⟩, h3⟩, h4⟩
    rcases h2 with ⟨ha, hb⟩ | ⟨x, y, ha, hb, hh, hp⟩
    · rw [ha, hb]
    · rw [ha, hb]
      simp only [Authority.same, Text.eqIgnoreCase, Bool.and_eq_true, beq_iff_eq]
      exact ⟨hh, hp⟩

/-- C25: a redirect points to the configured target, which is not the request's own URI, with the
configured status or 301. -/
theorem C25_redirect_points_to_the_target (legal : Str → Bool) (rr : RedirectRequest) (u : Uri)
    (rm : PathMatch) (status : Nat) (loc : Uri) (h : rr.apply legal u rm = .ok (some (status, loc))) :
    Target rr u rm loc ∧ ¬ SameUri loc u ∧ status = rr.status.getD 301 := by
  unfold RedirectRequest.apply at h
  simp only at h
  cases ha : rr.authorityOf u ((rr.scheme.orElse (fun _ => u.scheme)).getD .http) with
  | error e => rw [ha] at h; cases h
  | ok a =>
    rw [ha] at h
    simp only at h
    cases hp : rr.pqOf legal u rm with
    | error e => rw [hp] at h; cases h
    | ok pq =>
      rw [hp] at h
      simp only at h
      split at h
      · cases h
      · rename_i hs
        cases h
        exact ⟨target_of legal rr u rm a pq ha hp, fun h => hs ((same_iff _ _).2 h), rfl⟩

/-- C25: there is no redirect exactly when the target is the request's own URI: the filter never
redirects a request to itself. -/
theorem C25_no_redirect_means_already_there (legal : Str → Bool) (rr : RedirectRequest) (u : Uri)
    (rm : PathMatch) (h : rr.apply legal u rm = .ok none) :
    ∃ loc, Target rr u rm loc ∧ SameUri loc u := by
  unfold RedirectRequest.apply at h
  simp only at h
  cases ha : rr.authorityOf u ((rr.scheme.orElse (fun _ => u.scheme)).getD .http) with
  | error e => rw [ha] at h; cases h
  | ok a =>
    rw [ha] at h
    simp only at h
    cases hp : rr.pqOf legal u rm with
    | error e => rw [hp] at h; cases h
    | ok pq =>
      rw [hp] at h
      simp only at h
      split at h
      · rename_i hs
        exact ⟨_, target_of legal rr u rm a pq ha hp, (same_iff _ _).1 hs⟩
      · cases h

/-- C25: a redirect of an absolute-form request with a well-formed configuration always succeeds: the
only failures are a prefix replacement without a prefix match and text that is not a legal URI. -/
theorem C25_redirect_succeeds (legal : Str → Bool) (rr : RedirectRequest) (u : Uri) (rm : PathMatch)
    (ha : u.authority ≠ none) (hpq : u.pq ≠ none)
    (hhost : ∀ a, rr.authority = some (.host a) → a.port = none)
    (hfull : ∀ p, rr.path = some (.replaceFull p) → legal p = true)
    (hpfx : ∀ new, rr.path = some (.replacePrefix new) → ∃ n, rm = .pfx n ∧ n ≤ u.path.length ∧
      legal (replacedPrefix new n u) = true) :
    ∃ r, rr.apply legal u rm = .ok r := by
  obtain ⟨au, hau⟩ := Option.ne_none_iff_exists'.1 ha
  obtain ⟨pq, hpq'⟩ := Option.ne_none_iff_exists'.1 hpq
  have hh : u.host = some au.host := by unfold Uri.host; rw [hau]; rfl
  unfold RedirectRequest.apply
  simp only
  generalize (rr.scheme.orElse (fun _ => u.scheme)).getD .http = sc
  have h1 : ∃ a, rr.authorityOf u sc = .ok a := by
    unfold RedirectRequest.authorityOf
    cases hr : rr.authority with
    | none => rw [hau]; exact ⟨_, rfl⟩
    | some o =>
      cases o with
      | exact a => exact ⟨a, rfl⟩
      | host a =>
        have := hhost a hr
        simp only
        cases u.port.bind (portIfNotDefault sc) with
        | none => exact ⟨_, rfl⟩
        | some p => unfold Authority.withPort; rw [this]; exact ⟨_, rfl⟩
      | port p =>
        simp only
        rw [hh, hau]
        cases portIfNotDefault sc p with
        | none => simp only; split <;> exact ⟨_, rfl⟩
        | some q => simp only; split <;> exact ⟨_, rfl⟩
  have h2 : ∃ p, rr.pqOf legal u rm = .ok p := by
    unfold RedirectRequest.pqOf
    cases hr : rr.path with
    | none => rw [hpq']; exact ⟨_, rfl⟩
    | some o =>
      cases o with
      | replaceFull p =>
        have := hfull p hr
        simp only [parsePq, this, if_true]
        exact ⟨_, rfl⟩
      | replacePrefix new =>
        obtain ⟨n, rfl, hn, hl⟩ := hpfx new hr
        simp only [parsePq, hl, if_true, hn]
        exact ⟨_, rfl⟩
  obtain ⟨a, ha⟩ := h1
  obtain ⟨p, hp⟩ := h2
  rw [ha]
  simp only [hp]
  split <;> exact ⟨_, rfl⟩

/-- C25: a prefix replacement on a request that was not matched by a prefix is refused. -/
theorem C25_prefix_replacement_needs_a_prefix_match (legal : Str → Bool) (rr : RedirectRequest) (u : Uri)
    (rm : PathMatch) (new : Str) (h : rr.path = some (.replacePrefix new)) (hrm : ∀ n, rm ≠ .pfx n) :
    ∃ e, rr.apply legal u rm = .error e := by
  cases ha : rr.apply legal u rm with
  | error e => exact ⟨e, rfl⟩
  | ok o =>
    cases o with
    | none =>
      obtain ⟨loc, ht, _⟩ := C25_no_redirect_means_already_there legal rr u rm ha
      obtain ⟨old, rest, hr, _⟩ := ht.pfx new h
      exact absurd hr (hrm _)
    | some x =>
      obtain ⟨st, loc⟩ := x
      obtain ⟨old, rest, hr, _⟩ := (C25_redirect_points_to_the_target legal rr u rm st loc ha).1.pfx new h
      exact absurd hr (hrm _)

/-- C25: with the path matched by the prefix pattern `p`, exactly the pattern (without its trailing
slashes) is replaced: `/p/x?q` becomes `/new/x?q`. -/
theorem C25_replaces_the_matched_prefix (legal : Str → Bool) (rr : RedirectRequest) (u : Uri) (p new : Str)
    (rm : PathMatch) (hp : p ≠ ['/']) (hm : (MatchPath.pfx p).matchLength u.path = some rm)
    (hr : rr.path = some (.replacePrefix new)) (status : Nat) (loc : Uri)
    (h : rr.apply legal u rm = .ok (some (status, loc)))
    (h1 : new.head? = some '/') (h2 : '?' ∉ new) (h3 : '#' ∉ new) (h4 : '?' ∉ u.path) (h5 : '#' ∉ u.path)
    (h6 : ∀ q, u.query = some q → '#' ∉ q) :
    ∃ rest, u.path = Text.trimEnd '/' p ++ rest ∧ loc.path = new ++ rest ∧ loc.query = u.query := by
  obtain ⟨old, rest, e1, e2, e3⟩ := (C25_redirect_points_to_the_target legal rr u rm status loc h).1.pfx new hr
  obtain ⟨e4, e5⟩ := e3 h1 h2 h3 h4 h5 h6
  have ha := (path_iff _ _ _).1 hm
  simp only [PathApplies, hp, if_false] at ha
  obtain ⟨hseg, hrm⟩ := ha
  have hpre := (split_prefix_iff _ _).1 hseg
  obtain ⟨k, hk, _⟩ := Text.trimEnd_spec '/' u.path
  -- the path is the pattern followed by nothing or by a slash
  have hrest : ∃ r, u.path = Text.trimEnd '/' p ++ r ∧ (r = [] ∨ r.head? = some '/') := by
    rcases hpre with hpre | ⟨r, hpre⟩
    · refine ⟨List.replicate k '/', by rw [← hpre]; exact hk, ?_⟩
      cases k with
      | zero => exact .inl rfl
      | succ k => exact .inr rfl
    · refine ⟨'/' :: r ++ List.replicate k '/', ?_, .inr rfl⟩
      rw [hk, hpre]; simp
  obtain ⟨r, hr1, hr2⟩ := hrest
  have hl : old.length = (Text.trimEnd '/' p).length := by
    rw [e1] at hrm; injection hrm
  have := List.append_inj (e2.symm.trans hr1) hl
  rw [this.2, if_pos hr2] at e4
  exact ⟨r, hr1, e4, e5⟩

/-- A sample request, `http://h:8080/a/b?q`. -/
def sampleUri : Uri :=
  ⟨some .http, some ⟨['h'], some 8080⟩, some (['/', 'a', '/', 'b'], some ['q'])⟩

example : RedirectRequest.apply (fun _ => true)
    { scheme := some .https, authority := some (.port 443), path := some (.replacePrefix ['/', 'n']) } sampleUri (.pfx 2)
    = .ok (some (301, ⟨some .https, some ⟨['h'], none⟩, some (['/', 'n', '/', 'b'], some ['q'])⟩)) := by rfl

example : RedirectRequest.apply (fun _ => true) { authority := some (.host ⟨['H'], none⟩) } sampleUri (.pfx 2) = .ok none := by
  rfl

/-- C25, a limit: a new prefix that ends in a slash doubles it. -/
theorem C25_new_prefix_with_slash_doubles_it :
    RedirectRequest.apply (fun _ => true) { path := some (.replacePrefix ['/', 'n', '/']) } sampleUri (.pfx 2)
      = .ok (some (301, { sampleUri with pq := some (['/', 'n', '/', '/', 'b'], some ['q']) })) := by rfl

/-- C25, a limit: a redirect that keeps the path panics on a URI that has none (the authority form of
`CONNECT`). -/
theorem C25_connect_panics (legal : Str → Bool) (rr : RedirectRequest) (a : Authority) (rm : PathMatch)
    (hp : rr.path = none) (ha : rr.authority = none) :
    rr.apply legal ⟨none, some a, none⟩ rm = .error .panic := by
  simp [RedirectRequest.apply, RedirectRequest.authorityOf, RedirectRequest.pqOf, hp, ha, okOr]

end Verif.HttpRoute
