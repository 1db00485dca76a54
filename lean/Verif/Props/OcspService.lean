import Verif.Props.Crypto
import Mathlib.Data.List.Nodup
/-!
# C96–C98: the OCSP service as the library uses it

`Cache.lookup` is the only way the handshake uses `ocsp_over_http`: one call per certificate. A
history is a list of look-ups made by any number of connections of the process (the cache is
global to the module), with any clocks, responders and issuers.
-/

namespace Siotls.Ocsp

/-- The arguments of one look-up and what the world answers to it. -/
structure Look where
  issuer : Issuer
  now : Int
  now₁ : Int
  now₂ : Int
  scheme : PyStr
  netloc : PyStr
  req : Bytes
  http : Except Exn Http

def Look.run (L : Lib) (c : Cache) (l : Look) : Except Exn (Answer × Int) × Cache :=
  c.lookup L l.issuer l.now l.now₁ l.now₂ l.scheme l.netloc l.req l.http

/-- A look-up and its outcome. -/
abbrev Done := Look × Except Exn (Answer × Int)

/-- The outcomes of a history of look-ups and the cache they leave. -/
def looks (L : Lib) : List Look → Cache → List Done × Cache
  | [], c => ([], c)
  | l :: ls, c =>
    let (r, c) := l.run L c
    let (rs, c) := looks L ls c
    ((l, r) :: rs, c)

theorem looks_append (L : Lib) (l₁ l₂ : List Look) (c : Cache) :
    looks L (l₁ ++ l₂) c =
      ((looks L l₁ c).1 ++ (looks L l₂ (looks L l₁ c).2).1, (looks L l₂ (looks L l₁ c).2).2) := by
  induction l₁ generalizing c with
  | nil => rfl
  | cons l ls ih => simp only [List.cons_append, looks, ih]

/-! ## C96 -/

/-- `res` came from the responder in answer to an earlier look-up of `req`, which found it valid
until `u`, and every look-up of `req` since then was answered with it too, or was left by an
exception other than ValueError. -/
def Spec.Held (before_ : List Done) (req res : Bytes) (u : Int) : Prop :=
  ∃ pre l post, before_ = pre ++ (l, .ok (.fetched res, u)) :: post ∧ l.req = req ∧
    ∀ d ∈ post, d.1.req = req → d.2 = .ok (.hit res, u) ∨ ∃ e, d.2 = .error e ∧ e ≠ .valueError

theorem Spec.Held.snoc {ds : List Done} {req res : Bytes} {u : Int} (h : Spec.Held ds req res u)
    {d : Done} (hd : d.1.req = req →
      d.2 = .ok (.hit res, u) ∨ ∃ e, d.2 = .error e ∧ e ≠ .valueError) :
    Spec.Held (ds ++ [d]) req res u := by
  obtain ⟨pre, l, post, rfl, hl, hp⟩ := h
  refine ⟨pre, l, post ++ [d], by simp, hl, fun x hx => ?_⟩
  rcases List.mem_append.mp hx with hx | hx
  · exact hp x hx
  · simp only [List.mem_singleton] at hx; subst hx; exact hd

/-- What the cache holds comes from the history. -/
structure HeldInv (L : Lib) (ds : List Done) (c : Cache) : Prop where
  nodup : (c.entries.map Prod.fst).Nodup
  held : ∀ q r u, (q, (r, u)) ∈ c.entries → r ≠ [] → Spec.Held ds q r u
  dated : ∀ q r u, (q, (r, u)) ∈ c.entries →
    ∃ res, L.loadRes r = .ok res ∧ res.nextUpdate = some u

theorem evict_sub (n : Nat) : ∀ (c : Cache) e, e ∈ (c.evict n).entries → e ∈ c.entries := by
  induction n with
  | zero => intro c e he; exact he
  | succ n ih =>
    intro c e he
    rw [Cache.evict] at he
    split at he
    · split at he
      · exact he
      · exact (List.mem_filter.mp (ih _ _ he)).1
    · exact he

/-- The entries after `cache`: old ones, or the new one if there was none for the request. -/
theorem mem_cache {c : Cache} {u : Int} {q r : Bytes} {e : Bytes × (Bytes × Int)}
    (h : e ∈ (c.cache u q r).entries) : e ∈ c.entries ∨ (c.get q = none ∧ e = (q, (r, u))) := by
  rw [Cache.cache] at h
  split at h
  · exact .inl h
  · rename_i hg
    rcases List.mem_append.mp h with h | h
    · exact .inl (evict_sub _ _ _ h)
    · refine .inr ⟨?_, by simpa using h⟩
      cases hc : c.get q with
      | none => rfl
      | some v => rw [hc] at hg; simp at hg

theorem get_some_of_mem {c : Cache} {q : Bytes} {v : Bytes × Int} (h : (q, v) ∈ c.entries) :
    ∃ w, c.get q = some w := by
  rw [Cache.get]
  cases hl : c.entries.lookup q with
  | some w => exact ⟨w, rfl⟩
  | none => have := List.lookup_eq_none_iff.mp hl _ h; simp at this

/-- `request`: the three outcomes. -/
theorem request_cases (c : Cache) (now : Int) (s n : PyStr) (q : Bytes) (h : Except Exn Http) :
    (∃ r u, c.get q = some (r, u) ∧ r ≠ [] ∧ now < u ∧ c.request now s n q h = (.ok (.hit r), c)) ∨
    (((c.get q = none ∨ ∃ u, c.get q = some ([], u)) ∧
      c.request now s n q h = ((fetch s n q h).map .fetched, c)) ∨
    (∃ r u, c.get q = some (r, u) ∧ r ≠ [] ∧ u ≤ now ∧
      c.request now s n q h = ((fetch s n q h).map .fetched, c.uncache q))) := by
  simp only [Cache.request]
  generalize fetch s n q h = f
  cases hg : c.get q with
  | none => exact .inr (.inl ⟨.inl rfl, by cases f <;> rfl⟩)
  | some v =>
    obtain ⟨r, u⟩ := v
    by_cases hr : r = []
    · subst hr
      exact .inr (.inl ⟨.inr ⟨u, rfl⟩, by cases f <;> simp [Except.map]⟩)
    · by_cases hu : now < u
      · exact .inl ⟨r, u, rfl, hr, hu, by simp [hr, hu]⟩
      · exact .inr (.inr ⟨r, u, rfl, hr, by omega, by cases f <;> simp [hr, hu, Except.map]⟩)

theorem get_uncache (c : Cache) (q : Bytes) : (c.uncache q).get q = none := by
  rw [Cache.get, Cache.uncache, List.lookup_eq_none_iff]
  intro p hp
  have h2 : p.1 ≠ q := by simpa using (List.mem_filter.mp hp).2
  simpa using fun h : q = p.1 => h2 h.symm

theorem get_of_mem {c : Cache} (hn : (c.entries.map Prod.fst).Nodup) {q : Bytes} {v : Bytes × Int}
    (h : (q, v) ∈ c.entries) : c.get q = some v := by
  obtain ⟨w, hw⟩ := get_some_of_mem h
  have := mem_of_get (r := w.1) (u := w.2) hw
  rw [hw]
  congr 1
  have := List.inj_on_of_nodup_map hn this h rfl
  exact (Prod.mk.inj this).2

theorem validate_dated {L : Lib} {issuer : Issuer} {req res : Bytes} {n₁ n₂ u : Int}
    (h : validate L issuer req res n₁ n₂ = .ok u) :
    ∃ r, L.loadRes res = .ok r ∧ r.nextUpdate = some u := by
  obtain ⟨_, r, _, hr, hv⟩ := (C48_validate L issuer req res n₁ n₂ u).mp h
  exact ⟨r, hr, hv.next⟩

theorem nodup_cache {c : Cache} (h : (c.entries.map Prod.fst).Nodup) (u : Int) (q r : Bytes) :
    ((c.cache u q r).entries.map Prod.fst).Nodup := by
  rw [Cache.cache]
  split
  · exact h
  · rename_i hg
    have sub : ∀ (n : Nat) (c : Cache), (c.entries.map Prod.fst).Nodup →
        ((c.evict n).entries.map Prod.fst).Nodup := by
      intro n
      induction n with
      | zero => intro c h; exact h
      | succ n ih =>
        intro c h
        rw [Cache.evict]
        split
        · split
          · exact h
          · exact ih _ ((List.Sublist.map _ List.filter_sublist).nodup h)
        · exact h
    rw [List.map_append, List.nodup_append]
    refine ⟨sub _ _ h, by simp, ?_⟩
    rintro a ha b hb rfl
    simp only [List.map_cons, List.map_nil, List.mem_singleton] at hb
    subst hb
    obtain ⟨⟨a, v⟩, he, rfl⟩ := List.mem_map.mp ha
    obtain ⟨w, hw⟩ := get_some_of_mem (evict_sub _ _ _ he)
    rw [hw] at hg
    exact hg rfl

/-- A look-up that had to ask the responder, with the cache it found afterwards. -/
theorem HeldInv.fetched {L : Lib} {ds : List Done} {c : Cache} (h : HeldInv L ds c) (l : Look)
    (hno : c.get l.req = none ∨ ∃ u, c.get l.req = some ([], u)) {r : Except Exn (Answer × Int)}
    {c' : Cache} (hr : (match (fetch l.scheme l.netloc l.req l.http).map Answer.fetched with
      | .error e => (.error e, c)
      | .ok answer =>
        match validate L l.issuer l.req answer.bytes l.now₁ l.now₂ with
        | .ok next => (.ok (answer, next), c.cache next l.req answer.bytes)
        | .error .valueError => (.error .valueError, c.uncache l.req)
        | .error e => (.error e, c) : Except Exn (Answer × Int) × Cache) = (r, c')) :
    HeldInv L (ds ++ [(l, r)]) c' := by
  have none_ : ∀ q r u, (q, (r, u)) ∈ c.entries → r ≠ [] → q ≠ l.req := by
    rintro q r u he hr rfl
    have hg := get_of_mem h.nodup he
    rcases hno with hno | ⟨v, hno⟩
    · rw [hno] at hg; cases hg
    · rw [hno] at hg; cases hg; exact hr rfl
  have keep : HeldInv L (ds ++ [(l, r)]) c :=
    ⟨h.nodup, fun q r' u he hr' => (h.held q r' u he hr').snoc
      fun hq => absurd hq.symm (none_ q r' u he hr'), h.dated⟩
  cases hf : fetch l.scheme l.netloc l.req l.http with
  | error e =>
    rw [hf] at hr
    obtain ⟨rfl, rfl⟩ := Prod.mk.inj hr
    exact keep
  | ok b =>
    rw [hf] at hr
    simp only [Except.map, Answer.bytes] at hr
    cases hv : validate L l.issuer l.req b l.now₁ l.now₂ with
    | ok next =>
      rw [hv] at hr
      obtain ⟨rfl, rfl⟩ := Prod.mk.inj hr
      refine ⟨nodup_cache h.nodup _ _ _, fun q r' u he hr' => ?_, fun q r' u he => ?_⟩
      · rcases mem_cache he with he | ⟨-, he⟩
        · exact keep.held q r' u he hr'
        · cases he
          exact ⟨ds, l, [], rfl, rfl, by simp⟩
      · rcases mem_cache he with he | ⟨-, he⟩
        · exact h.dated q r' u he
        · cases he
          exact validate_dated hv
    | error e =>
      rw [hv] at hr
      by_cases hev : e = .valueError
      · subst hev
        obtain ⟨rfl, rfl⟩ := Prod.mk.inj hr
        exact ⟨(List.Sublist.map _ List.filter_sublist).nodup h.nodup,
          fun q r' u he => keep.held q r' u (List.mem_filter.mp he).1,
          fun q r' u he => h.dated q r' u (List.mem_filter.mp he).1⟩
      · have : (r, c') = (.error e, c) := by
          rw [← hr]; cases e <;> first | rfl | exact absurd rfl hev
        obtain ⟨rfl, rfl⟩ := Prod.mk.inj this
        exact keep

theorem HeldInv.step {L : Lib} {ds : List Done} {c : Cache} (h : HeldInv L ds c) (l : Look) :
    HeldInv L (ds ++ [(l, (l.run L c).1)]) (l.run L c).2 := by
  have hrun : l.run L c = c.lookup L l.issuer l.now l.now₁ l.now₂ l.scheme l.netloc l.req l.http :=
    rfl
  rw [Cache.lookup] at hrun
  rcases request_cases c l.now l.scheme l.netloc l.req l.http with
    ⟨r, u, hg, hr, hu, he⟩ | ⟨hno, he⟩ | ⟨r, u, hg, hr, hu, he⟩
  · rw [he] at hrun
    simp only [Answer.bytes] at hrun
    have only_ : ∀ q r' u', (q, (r', u')) ∈ c.entries → q = l.req → r' = r ∧ u' = u := by
      rintro q r' u' he rfl
      have := get_of_mem h.nodup he
      rw [hg] at this
      cases this
      exact ⟨rfl, rfl⟩
    obtain ⟨res, hres, hnx⟩ := h.dated _ _ _ (mem_of_get hg)
    cases hv : validate L l.issuer l.req r l.now₁ l.now₂ with
    | ok next =>
      rw [hv] at hrun
      obtain ⟨res', hres', hnx'⟩ := validate_dated hv
      rw [hres] at hres'; cases hres'
      rw [hnx] at hnx'; cases hnx'
      have hc : c.cache u l.req r = c := by rw [Cache.cache, hg]; rfl
      dsimp only at hrun
      rw [hc] at hrun
      rw [hrun]
      refine ⟨h.nodup, fun q r' u' he hr' => (h.held q r' u' he hr').snoc fun hq => ?_, h.dated⟩
      obtain ⟨rfl, rfl⟩ := only_ q r' u' he hq.symm
      exact .inl rfl
    | error e =>
      rw [hv] at hrun
      by_cases hev : e = .valueError
      · subst hev
        rw [hrun]
        refine ⟨(List.Sublist.map _ List.filter_sublist).nodup h.nodup, fun q r' u' he hr' => ?_,
          fun q r' u' he => h.dated q r' u' (List.mem_filter.mp he).1⟩
        obtain ⟨h1, h2⟩ := List.mem_filter.mp he
        have h2 : q ≠ l.req := by simpa using h2
        exact (h.held q r' u' h1 hr').snoc fun hq => absurd hq.symm h2
      · have : l.run L c = (.error e, c) := by
          rw [hrun]; cases e <;> first | rfl | exact absurd rfl hev
        rw [this]
        exact ⟨h.nodup, fun q r' u' he hr' => (h.held q r' u' he hr').snoc fun _ =>
          .inr ⟨e, rfl, hev⟩, h.dated⟩
  · rw [he] at hrun
    refine h.fetched l hno ?_
    rw [← Prod.eta (l.run L c)] at hrun
    rw [hrun]
    cases (fetch l.scheme l.netloc l.req l.http) <;> rfl
  · rw [he] at hrun
    have h' : HeldInv L ds (c.uncache l.req) :=
      ⟨(List.Sublist.map _ List.filter_sublist).nodup h.nodup,
        fun q r' u' he => h.held q r' u' (List.mem_filter.mp he).1,
        fun q r' u' he => h.dated q r' u' (List.mem_filter.mp he).1⟩
    refine h'.fetched l (.inl (get_uncache c l.req)) ?_
    rw [← Prod.eta (l.run L c)] at hrun
    rw [hrun]
    cases (fetch l.scheme l.netloc l.req l.http) <;> rfl

theorem HeldInv.looks {L : Lib} {ds : List Done} {c : Cache} (h : HeldInv L ds c)
    (ls : List Look) : HeldInv L (ds ++ (looks L ls c).1) (looks L ls c).2 := by
  induction ls generalizing ds c with
  | nil => simpa [Ocsp.looks] using h
  | cons l ls ih =>
    have := ih (h.step l)
    simpa [Ocsp.looks] using this

theorem HeldInv.empty (L : Lib) : HeldInv L [] .empty :=
  ⟨by simp [Cache.empty], by simp [Cache.empty], by simp [Cache.empty]⟩

/-- The outcomes of a history, cut at one of them. -/
theorem looks_split {L : Lib} {ls : List Look} {c : Cache} {pre : List Done} {d : Done}
    {post : List Done} (h : (Ocsp.looks L ls c).1 = pre ++ d :: post) :
    ∃ l₁ l₂, ls = l₁ ++ d.1 :: l₂ ∧ (Ocsp.looks L l₁ c).1 = pre ∧
      (d.1.run L (Ocsp.looks L l₁ c).2).1 = d.2 ∧
      (Ocsp.looks L l₂ (d.1.run L (Ocsp.looks L l₁ c).2).2).1 = post := by
  induction ls generalizing c pre with
  | nil => simp [Ocsp.looks] at h
  | cons l ls ih =>
    cases pre with
    | nil =>
      simp only [Ocsp.looks, List.nil_append, List.cons.injEq] at h
      obtain ⟨rfl, rfl⟩ := h
      exact ⟨[], ls, rfl, rfl, rfl, rfl⟩
    | cons x pre =>
      simp only [Ocsp.looks, List.cons_append, List.cons.injEq] at h
      obtain ⟨rfl, h⟩ := h
      obtain ⟨l₁, l₂, rfl, h₁, h₂, h₃⟩ := ih h
      exact ⟨l :: l₁, l₂, rfl, by simp [Ocsp.looks, h₁], h₂, h₃⟩

/-- C96. In any history of look-ups, an answer given without asking the responder is one that the
responder gave to an earlier look-up of the very same request, that was found valid until the date
it is now given with, and that no look-up of that request has found invalid since; that date is
still ahead. -/
theorem C96_hit (L : Lib) (ls : List Look) (pre post : List Done) (l : Look) (res : Bytes) (u : Int)
    (h : (looks L ls .empty).1 = pre ++ (l, .ok (.hit res, u)) :: post) :
    l.now < u ∧ Spec.Held pre l.req res u := by
  obtain ⟨l₁, l₂, rfl, hpre, hrun, -⟩ := looks_split h
  have inv := (HeldInv.empty L).looks l₁
  rw [List.nil_append, hpre] at inv
  generalize (looks L l₁ .empty).2 = c at inv hrun
  have hrun : (c.lookup L l.issuer l.now l.now₁ l.now₂ l.scheme l.netloc l.req l.http).1 =
    .ok (.hit res, u) := hrun
  rw [Cache.lookup] at hrun
  have no : ∀ c', (match ((fetch l.scheme l.netloc l.req l.http).map Answer.fetched, c') with
      | (.error e, c) => (.error e, c)
      | (.ok answer, c) =>
        match validate L l.issuer l.req answer.bytes l.now₁ l.now₂ with
        | .ok next => (.ok (answer, next), c.cache next l.req answer.bytes)
        | .error .valueError => (.error .valueError, c.uncache l.req)
        | .error e => (.error e, c) : Except Exn (Answer × Int) × Cache).1 ≠ .ok (.hit res, u) := by
    intro c'
    cases fetch l.scheme l.netloc l.req l.http with
    | error e => simp [Except.map]
    | ok b =>
      simp only [Except.map]
      cases validate L l.issuer l.req (Answer.fetched b).bytes l.now₁ l.now₂ with
      | ok next => simp
      | error e => cases e <;> simp
  rcases request_cases c l.now l.scheme l.netloc l.req l.http with
    ⟨r, v, hg, hr, hu, he⟩ | ⟨hno, he⟩ | ⟨r, v, hg, hr, hu, he⟩
  · rw [he] at hrun
    simp only [Answer.bytes] at hrun
    obtain ⟨x, hx, hnx⟩ := inv.dated _ _ _ (mem_of_get hg)
    cases hv : validate L l.issuer l.req r l.now₁ l.now₂ with
    | ok next =>
      rw [hv] at hrun
      simp only [Except.ok.injEq, Prod.mk.injEq, Answer.hit.injEq] at hrun
      obtain ⟨rfl, rfl⟩ := hrun
      obtain ⟨x', hx', hnx'⟩ := validate_dated hv
      rw [hx] at hx'; cases hx'
      rw [hnx] at hnx'; cases hnx'
      exact ⟨hu, inv.held _ _ _ (mem_of_get hg) hr⟩
    | error e =>
      rw [hv] at hrun
      cases e <;> simp at hrun
  · rw [he] at hrun
    exact absurd hrun (no _)
  · rw [he] at hrun
    exact absurd hrun (no _)

/-- C96. Whatever the history, a look-up succeeds only with a response that vouches for the
certificate of the request at the time of the look-up. -/
theorem C96_vouched (L : Lib) (ls : List Look) (l : Look) (a : Answer) (u : Int)
    (h : (l, .ok (a, u)) ∈ (looks L ls .empty).1) :
    ∃ req res, L.loadReq l.req = .ok req ∧ L.loadRes a.bytes = .ok res ∧
      Spec.Vouches L l.issuer req res l.now₁ l.now₂ u := by
  obtain ⟨pre, post, hs⟩ := List.append_of_mem h
  obtain ⟨l₁, l₂, rfl, -, hrun, -⟩ := looks_split hs
  generalize (looks L l₁ .empty).2 = c at hrun
  apply (C48_validate L l.issuer l.req a.bytes l.now₁ l.now₂ u).mp
  have hrun : (c.lookup L l.issuer l.now l.now₁ l.now₂ l.scheme l.netloc l.req l.http).1 =
    .ok (a, u) := hrun
  rw [Cache.lookup] at hrun
  revert hrun
  rcases c.request l.now l.scheme l.netloc l.req l.http with ⟨e | b, c'⟩
  · simp
  · dsimp only
    cases hv : validate L l.issuer l.req b.bytes l.now₁ l.now₂ with
    | ok next =>
      intro hrun
      simp only [Except.ok.injEq, Prod.mk.injEq] at hrun
      obtain ⟨rfl, rfl⟩ := hrun
      exact hv
    | error e => cases e <;> simp

/-! ## C97 -/

/-- Whether the responder was asked and gave a valid response. -/
def Spec.answered : Except Exn (Answer × Int) → Bool
  | .ok (.fetched _, _) => true
  | _ => false

/-- The situation of C97: a look-up got `res` from the responder, valid until `u`; all the look-ups
of the same request since then succeeded, at a time before `u`; and so is the time of the last one. -/
structure Spec.Again (L : Lib) (ls : List Look) (pre mid : List Done) (l₀ l : Look) (res : Bytes)
    (u : Int) (r : Except Exn (Answer × Int)) : Prop where
  /-- what is not DER does not parse -/
  der : ∀ x, L.loadRes [] ≠ .ok x
  trace : (looks L ls .empty).1 = pre ++ (l₀, .ok (.fetched res, u)) :: (mid ++ [(l, r)])
  same : l₀.req = l.req
  between : ∀ d ∈ mid, d.1.req = l.req → d.1.now < u ∧ ∃ a, d.2 = .ok a
  time : l.now < u

/-- C97, as one expects it: as long as no more than 64 different requests are made, nobody is asked
again for what was answered and has not expired. -/
def C97_statement : Prop :=
  ∀ L ls pre mid l₀ l res u r, Spec.Again L ls pre mid l₀ l res u r →
    (ls.map Look.req).dedup.length ≤ 64 →
    r = (validate L l.issuer l.req res l.now₁ l.now₂).map fun v => (.hit res, v)

theorem get_uncache_ne (c : Cache) {q q' : Bytes} (h : q ≠ q') :
    (c.uncache q').get q = c.get q := by
  rw [Cache.get, Cache.get, Cache.uncache]
  induction c.entries with
  | nil => rfl
  | cons e es ih =>
    obtain ⟨k, v⟩ := e
    by_cases hk : k = q'
    · subst hk
      have hf : (q == k) = false := by simpa using h
      rw [List.filter_cons_of_neg (by simp), ih, List.lookup_cons, hf]
    · rw [List.filter_cons_of_pos (by simpa using hk), List.lookup_cons, List.lookup_cons, ih]

theorem evict_small (c : Cache) (n : Nat) (h : c.limits.length < cacheEntries) : c.evict n = c := by
  cases n with
  | zero => rfl
  | succ n => rw [Cache.evict, if_neg (by omega)]

theorem get_cache_ne {c : Cache} (hc : c.limits.length < cacheEntries) {q q' : Bytes} (h : q ≠ q')
    (u : Int) (r : Bytes) : (c.cache u q' r).get q = c.get q := by
  rw [Cache.cache]
  split
  · rfl
  · rw [evict_small c _ hc]
    have hf : (q == q') = false := by simpa using h
    simp only [Cache.get, List.lookup_append, List.lookup_cons, List.lookup_nil, hf]
    cases List.lookup q c.entries <;> rfl

theorem get_cache_self {c : Cache} {q : Bytes} (h : c.get q = none) (u : Int) (r : Bytes) :
    (c.cache u q r).get q = some (r, u) := by
  rw [Cache.cache, h]
  have : (c.evict c.limits.length).get q = none := by
    cases hg : (c.evict c.limits.length).get q with
    | none => rfl
    | some v =>
      obtain ⟨w, hw⟩ := get_some_of_mem (evict_sub _ _ _ (mem_of_get (r := v.1) (u := v.2) hg))
      rw [h] at hw; cases hw
  rw [Cache.get] at this
  simp [Cache.get, List.lookup_append, this]

theorem evict_le (n : Nat) (c : Cache) : (c.evict n).limits.length ≤ c.limits.length := by
  induction n generalizing c with
  | zero => exact Nat.le_refl _
  | succ n ih =>
    rw [Cache.evict]
    split
    · split
      · exact Nat.le_refl _
      · exact Nat.le_trans (ih _) (by simp only [Cache.uncache]; exact List.length_erase_le)
    · exact Nat.le_refl _

theorem cache_le (c : Cache) (u : Int) (q r : Bytes) :
    (c.cache u q r).limits.length ≤ c.limits.length + 1 := by
  rw [Cache.cache]
  split
  · omega
  · simp only [List.length_cons]
    have := evict_le c.limits.length c
    omega

/-- The outcomes of a look-up: a hit, or what the responder says. -/
inductive Look.Outcome (L : Lib) (c : Cache) (l : Look) : Prop where
  | hit (r : Bytes) (u : Int) (hg : c.get l.req = some (r, u)) (hr : r ≠ []) (hu : l.now < u)
    (out : (l.run L c).1 =
      (validate L l.issuer l.req r l.now₁ l.now₂).map fun v => (.hit r, v))
    (left : (l.run L c).2 = c ∨ (l.run L c).2 = c.uncache l.req ∧ ∃ e, (l.run L c).1 = .error e)
  | miss (c' : Cache) (hc' : c' = c ∨ c' = c.uncache l.req)
    (hg : c'.get l.req = none ∨ ∃ u, c'.get l.req = some ([], u))
    (old : ∀ r u, c.get l.req = some (r, u) → r ≠ [] → u ≤ l.now)
    (left : (∃ b v, (l.run L c).1 = .ok (.fetched b, v) ∧ (l.run L c).2 = c'.cache v l.req b) ∨
      (∃ e, (l.run L c).1 = .error e) ∧ ((l.run L c).2 = c' ∨ (l.run L c).2 = c'.uncache l.req))

theorem Look.outcome (L : Lib) (c : Cache) (l : Look) : l.Outcome L c := by
  have hrun : l.run L c = c.lookup L l.issuer l.now l.now₁ l.now₂ l.scheme l.netloc l.req l.http :=
    rfl
  rw [Cache.lookup] at hrun
  have asked : ∀ c' : Cache, c.request l.now l.scheme l.netloc l.req l.http =
      ((fetch l.scheme l.netloc l.req l.http).map .fetched, c') →
      (∃ b v, (l.run L c).1 = .ok (.fetched b, v) ∧ (l.run L c).2 = c'.cache v l.req b) ∨
      (∃ e, (l.run L c).1 = .error e) ∧
        ((l.run L c).2 = c' ∨ (l.run L c).2 = c'.uncache l.req) := by
    intro c' he
    rw [he] at hrun
    cases hf : fetch l.scheme l.netloc l.req l.http with
    | error e =>
      rw [hf] at hrun
      exact .inr ⟨⟨e, by rw [hrun]; rfl⟩, .inl (by rw [hrun]; rfl)⟩
    | ok b =>
      rw [hf] at hrun
      simp only [Except.map, Answer.bytes] at hrun
      cases hv : validate L l.issuer l.req b l.now₁ l.now₂ with
      | ok next =>
        rw [hv] at hrun
        exact .inl ⟨b, next, by rw [hrun], by rw [hrun]⟩
      | error e =>
        rw [hv] at hrun
        by_cases hev : e = .valueError
        · subst hev
          exact .inr ⟨⟨.valueError, by rw [hrun]⟩, .inr (by rw [hrun])⟩
        · have : l.run L c = (.error e, c') := by
            rw [hrun]; cases e <;> first | rfl | exact absurd rfl hev
          exact .inr ⟨⟨e, by rw [this]⟩, .inl (by rw [this])⟩
  rcases request_cases c l.now l.scheme l.netloc l.req l.http with
    ⟨r, u, hg, hr, hu, he⟩ | ⟨hno, he⟩ | ⟨r, u, hg, hr, hu, he⟩
  · rw [he] at hrun
    simp only [Answer.bytes] at hrun
    cases hv : validate L l.issuer l.req r l.now₁ l.now₂ with
    | ok next =>
      rw [hv] at hrun
      refine .hit r u hg hr hu (by rw [hrun, hv]; rfl) (.inl ?_)
      dsimp only at hrun
      rw [hrun, Cache.cache, hg]; rfl
    | error e =>
      rw [hv] at hrun
      by_cases hev : e = .valueError
      · subst hev
        exact .hit r u hg hr hu (by rw [hrun, hv]; rfl) (.inr ⟨by rw [hrun], _, by rw [hrun]⟩)
      · have : l.run L c = (.error e, c) := by
          rw [hrun]; cases e <;> first | rfl | exact absurd rfl hev
        exact .hit r u hg hr hu (by rw [this, hv]; rfl) (.inl (by rw [this]))
  · refine .miss c (.inl rfl) hno (fun r u h hr => ?_) (asked c he)
    rcases hno with hno | ⟨v, hno⟩
    · rw [hno] at h; cases h
    · rw [hno] at h; cases h; exact absurd rfl hr
  · refine .miss (c.uncache l.req) (.inr rfl) (.inl (get_uncache c l.req)) (fun r' u' h _ => ?_)
      (asked _ he)
    rw [hg] at h; cases h; exact hu

theorem run_le (L : Lib) (c : Cache) (l : Look) : (l.run L c).2.limits.length ≤
    c.limits.length + (if Spec.answered (l.run L c).1 then 1 else 0) := by
  cases l.outcome L c with
  | hit r u hg hr hu out left =>
    rcases left with left | ⟨left, -⟩ <;> rw [left] <;> (try simp only [Cache.uncache]) <;> omega
  | miss c' hc' hg old left =>
    have hl : c'.limits = c.limits := by rcases hc' with rfl | rfl <;> rfl
    rcases left with ⟨b, v, h1, h2⟩ | ⟨⟨e, h1⟩, h2⟩
    · rw [h1, h2]
      have := cache_le c' v l.req b
      rw [hl] at this
      simpa [Spec.answered] using this
    · rcases h2 with h2 | h2 <;> rw [h2] <;> simp only [Cache.uncache, hl] <;> omega

/-- An entry stays as long as its request is only looked up with success, before its date, and
nothing has to be evicted. -/
theorem run_keeps {L : Lib} {c : Cache} {l : Look} {q res : Bytes} {u : Int}
    (hg : c.get q = some (res, u)) (hres : res ≠ [])
    (hl : l.req = q → l.now < u ∧ ∃ a, (l.run L c).1 = .ok a)
    (hc : Spec.answered (l.run L c).1 = true → c.limits.length < cacheEntries) :
    (l.run L c).2.get q = some (res, u) := by
  cases l.outcome L c with
  | hit r v hg' hr hu out left =>
    rcases left with left | ⟨left, e, he⟩
    · rw [left]; exact hg
    · rw [left]
      by_cases hq : l.req = q
      · obtain ⟨-, a, ha⟩ := hl hq
        rw [ha] at he; cases he
      · rw [get_uncache_ne c (Ne.symm hq)]; exact hg
  | miss c' hc' hno old left =>
    have hq : l.req ≠ q := by
      intro hq
      subst hq
      have := old _ _ hg hres
      have := (hl rfl).1
      omega
    have hg' : c'.get q = some (res, u) := by
      rcases hc' with rfl | rfl
      · exact hg
      · rw [get_uncache_ne c (Ne.symm hq)]; exact hg
    rcases left with ⟨b, v, h1, h2⟩ | ⟨-, h2 | h2⟩
    · rw [h2, get_cache_ne _ (Ne.symm hq)]
      · exact hg'
      · have : c'.limits = c.limits := by rcases hc' with rfl | rfl <;> rfl
        rw [this]
        exact hc (by rw [h1]; rfl)
    · rw [h2]; exact hg'
    · rw [h2, get_uncache_ne _ (Ne.symm hq)]; exact hg'

theorem looks_le (L : Lib) (ls : List Look) (c : Cache) : (looks L ls c).2.limits.length ≤
    c.limits.length + ((looks L ls c).1.countP fun d => Spec.answered d.2) := by
  induction ls generalizing c with
  | nil => simp [looks]
  | cons l ls ih =>
    have h1 := ih (l.run L c).2
    have h2 := run_le L c l
    simp only [looks, List.countP_cons]
    omega

theorem looks_keeps {L : Lib} {ls : List Look} {c : Cache} {q res : Bytes} {u : Int}
    (hg : c.get q = some (res, u)) (hres : res ≠ [])
    (hl : ∀ d ∈ (looks L ls c).1, d.1.req = q → d.1.now < u ∧ ∃ a, d.2 = .ok a)
    (hc : c.limits.length + ((looks L ls c).1.countP fun d => Spec.answered d.2) ≤ cacheEntries) :
    (looks L ls c).2.get q = some (res, u) := by
  induction ls generalizing c with
  | nil => exact hg
  | cons l ls ih =>
    simp only [looks, List.countP_cons] at hl hc ⊢
    apply ih
    · refine run_keeps hg hres (hl (l, _) (List.mem_cons_self ..)) fun ha => ?_
      rw [ha] at hc
      simp only [if_true] at hc
      omega
    · exact fun d hd => hl d (List.mem_cons_of_mem _ hd)
    · have := run_le L c l
      omega

/-- C97, the part that holds: as long as the responders have not given more than 64 valid responses
since the process began, nobody is asked again for what was answered and has not expired. Missing:
renewing a response counts among the 64, see `C97_false`. -/
theorem C97_partial (L : Lib) (ls : List Look) (pre mid : List Done) (l₀ l : Look) (res : Bytes)
    (u : Int) (r : Except Exn (Answer × Int)) (h : Spec.Again L ls pre mid l₀ l res u r)
    (few : (pre ++ (l₀, .ok (.fetched res, u)) :: mid).countP (fun d => Spec.answered d.2) ≤ 64) :
    r = (validate L l.issuer l.req res l.now₁ l.now₂).map fun v => (.hit res, v) := by
  obtain ⟨l₁, l₂, -, hpre, hrun, hpost⟩ := looks_split h.trace
  obtain ⟨m₁, m₂, -, hmid, hlast, -⟩ := looks_split hpost
  have inv := (HeldInv.empty L).looks l₁
  have cnt := looks_le L l₁ .empty
  rw [hpre] at cnt
  simp only [Cache.empty, List.length_nil, Nat.zero_add] at cnt
  have yes : Spec.answered (.ok (.fetched res, u)) = true := rfl
  simp only [List.countP_append, List.countP_cons, yes, if_true] at few
  generalize hcc : (looks L l₁ Cache.empty).2 = c at inv cnt hrun hmid hlast
  have hcc' : (looks L l₁ ⟨[], []⟩).2 = c := hcc
  rw [hcc'] at cnt
  have hempty : ∀ v, c.get l₀.req ≠ some ([], v) := by
    intro v hv
    obtain ⟨x, hx, -⟩ := inv.dated _ _ _ (mem_of_get hv)
    exact h.der x hx
  have hstored : (l₀.run L c).2.get l₀.req = some (res, u) := by
    cases l₀.outcome L c with
    | hit r' v hg hr hu out left =>
      dsimp only at hrun
      rw [hrun] at out
      cases hv : validate L l₀.issuer l₀.req r' l₀.now₁ l₀.now₂ <;> rw [hv] at out <;>
        simp [Except.map] at out
    | miss c' hc' hno old left =>
      have hnone : c'.get l₀.req = none := by
        rcases hno with hno | ⟨v, hno⟩
        · exact hno
        · rcases hc' with rfl | rfl
          · exact absurd hno (hempty v)
          · rw [get_uncache] at hno; cases hno
      rcases left with ⟨b, v, h1, h2⟩ | ⟨⟨e, h1⟩, -⟩
      · dsimp only at hrun
        rw [hrun] at h1
        cases h1
        rw [h2]
        exact get_cache_self hnone _ _
      · dsimp only at hrun
        rw [hrun] at h1; cases h1
  have hres : res ≠ [] := by
    rintro rfl
    have inv' := inv.step l₀
    obtain ⟨x, hx, -⟩ := inv'.dated _ _ _ (mem_of_get hstored)
    exact h.der x hx
  have hle := run_le L c l₀
  dsimp only at hrun
  rw [hrun] at hle
  simp only [yes, if_true] at hle
  rw [h.same] at hstored
  have hkeep := looks_keeps (ls := m₁) hstored hres (by rw [hmid]; exact h.between)
    (by rw [hmid]; simp only [cacheEntries]; omega)
  cases l.outcome L (looks L m₁ (l₀.run L c).2).2 with
  | hit r' v hg hr hu out left =>
    rw [hkeep] at hg
    cases hg
    exact hlast.symm.trans out
  | miss c' hc' hno old left =>
    have := old _ _ hkeep hres
    have := h.time
    omega

/-! ### The witness of C97 -/
namespace Toy

/-- A library whose requests are `[serial]` and whose responses are `[serial, nextUpdate]`. -/
def lib : Lib where
  loadReq b := match b with
    | [q] => .ok ⟨[], [], q.toNat⟩
    | _ => .error .valueError
  loadRes b := match b with
    | [q, t] => .ok ⟨true, true, [], [], q.toNat, 0, some t.toNat, [], 0, [], []⟩
    | _ => .error .valueError
  fromOid _ := some 0
  hashEq _ _ := true
  verify _ _ _ _ := .ok ()

/-- A look-up of certificate `q` at time `now`, when its responder answers `body`. -/
def ask (q : UInt8) (now : Nat) (body : Bytes) : Look :=
  ⟨⟨[], 0, []⟩, now, now, now, "http".toList, ['h'], [q], .ok ⟨none, none, body⟩⟩

/-- The same without the HTTP part, to compute with. -/
def ask' (q : UInt8) (now : Nat) (body : Bytes) (c : Cache) : Except Exn (Answer × Int) × Cache :=
  let go (c : Cache) : Except Exn (Answer × Int) × Cache :=
    match validate lib ⟨[], 0, []⟩ [q] body now now with
    | .ok next => (.ok (.fetched body, next), c.cache next [q] body)
    | .error .valueError => (.error .valueError, c.uncache [q])
    | .error e => (.error e, c)
  match c.get [q] with
  | some (res, until_) =>
    if res = [] then go c
    else if (now : Int) < until_ then
      match validate lib ⟨[], 0, []⟩ [q] res now now with
      | .ok next => (.ok (.hit res, next), c.cache next [q] res)
      | .error .valueError => (.error .valueError, c.uncache [q])
      | .error e => (.error e, c)
    else go (c.uncache [q])
  | none => go c

theorem fetch_plain {s n : PyStr} {q body : Bytes} (hs : s = "http".toList) (hn : n ≠ [])
    (hq : q ≠ []) (hb : body.length ≤ 20480) :
    fetch s n q (.ok ⟨none, none, body⟩) = .ok body := by
  unfold fetch
  rw [if_neg (by rw [hs]; exact fun h => h rfl), if_neg hn, if_neg hq]
  simp only [Except.bind_def, Option.getD_none, ne_eq, not_true_eq_false, if_false]
  rw [if_neg (by decide), readBody, if_neg (by decide)]
  exact congrArg _ (List.take_of_length_le hb)

theorem run_fetch (q : UInt8) (now : Nat) (body : Bytes) (s : PyStr)
    (hf : fetch s ['h'] [q] (.ok ⟨none, none, body⟩) = .ok body) (c : Cache) :
    c.lookup lib ⟨[], 0, []⟩ now now now s ['h'] [q] (.ok ⟨none, none, body⟩) =
      ask' q now body c := by
  simp only [Cache.lookup, Cache.request, ask', hf]
  cases c.get [q] with
  | none => rfl
  | some v =>
    obtain ⟨r, u⟩ := v
    dsimp only
    by_cases hr : r = []
    · simp only [if_pos hr]; rfl
    · by_cases hu : (now : Int) < u
      · simp only [if_neg hr, if_pos hu]; rfl
      · simp only [if_neg hr, if_neg hu]; rfl

theorem ask_run (q : UInt8) (now : Nat) (body : Bytes) (hb : body.length ≤ 20480) (c : Cache) :
    (ask q now body).run lib c = ask' q now body c :=
  run_fetch q now body _ (fetch_plain rfl (by simp) (by simp) hb) c

/-- Certificate 2 is looked up, then renewed at time 1, until time 200. Certificate 1 is renewed 63
times. Then certificate 2 is looked up at time 100. -/
def story : List (UInt8 × Nat × Bytes) :=
  [(2, 0, [2, 1]), (2, 1, [2, 200])] ++
    (List.range 63).map (fun k => (1, k + 5, [1, UInt8.ofNat (k + 6)])) ++ [(2, 100, [2, 250])]

def tell (c : Cache) : List (UInt8 × Nat × Bytes) → List (Except Exn (Answer × Int)) × Cache
  | [] => ([], c)
  | (q, now, body) :: l =>
    let (r, c) := ask' q now body c
    let (rs, c) := tell c l
    (r :: rs, c)

theorem tell_looks (l : List (UInt8 × Nat × Bytes)) (hl : ∀ x ∈ l, x.2.2.length ≤ 20480)
    (c : Cache) : looks lib (l.map fun x => ask x.1 x.2.1 x.2.2) c =
      ((l.map fun x => ask x.1 x.2.1 x.2.2).zip (tell c l).1, (tell c l).2) := by
  induction l generalizing c with
  | nil => rfl
  | cons x l ih =>
    obtain ⟨q, now, body⟩ := x
    have hx := ask_run q now body (hl (q, now, body) (List.mem_cons_self ..)) c
    simp only [List.map_cons, looks, tell, hx,
      ih (fun y hy => hl y (List.mem_cons_of_mem _ hy)) (ask' q now body c).2, List.zip_cons_cons]

/-- What the look-ups of the story give: all but the last are as they should be. -/
def told : List (Except Exn (Answer × Int)) :=
  [.ok (.fetched [2, 1], 1), .ok (.fetched [2, 200], 200)] ++
    (List.range 63).map (fun k => .ok (.fetched [1, UInt8.ofNat (k + 6)], (k + 6 : Nat))) ++
    [.ok (.fetched [2, 250], 250)]

theorem tell_story : (tell .empty story).1 = told := by decide +kernel

end Toy

/-- The story as a history of look-ups. -/
def Toy.history : List Look := Toy.story.map fun x => Toy.ask x.1 x.2.1 x.2.2

theorem Toy.history_told : (looks Toy.lib Toy.history .empty).1 = Toy.history.zip Toy.told := by
  rw [Toy.history, Toy.tell_looks _ (by decide), Toy.tell_story]

/-- One certificate looked up twice. -/
def Toy.twice : List Look := [Toy.ask 1 0 [1, 9], Toy.ask 1 5 [1, 20]]

theorem Toy.twice_told : (looks Toy.lib Toy.twice .empty).1 =
    [(Toy.ask 1 0 [1, 9], .ok (.fetched [1, 9], 9)), (Toy.ask 1 5 [1, 20], .ok (.hit [1, 9], 9))] := by
  have h := Toy.tell_looks [(1, 0, [1, 9]), (1, 5, [1, 20])] (by decide) .empty
  have ht : (Toy.tell .empty [(1, 0, [1, 9]), (1, 5, [1, 20])]).1 =
    [.ok (.fetched [1, 9], 9), .ok (.hit [1, 9], 9)] := by decide
  rw [ht] at h
  exact congrArg Prod.fst h

/-- The hypotheses of C96 are met. -/
example : ∃ ls pre l res u post,
    (looks Toy.lib ls .empty).1 = pre ++ (l, .ok (.hit res, u)) :: post :=
  ⟨Toy.twice, [_], _, [1, 9], 9, [], Toy.twice_told⟩

/-- And those of `C97_partial`. -/
example : ∃ ls pre mid l₀ l res u r, Spec.Again Toy.lib ls pre mid l₀ l res u r ∧
    (pre ++ (l₀, .ok (.fetched res, u)) :: mid).countP (fun d => Spec.answered d.2) ≤ 64 :=
  ⟨Toy.twice, [], [], Toy.ask 1 0 [1, 9], Toy.ask 1 5 [1, 20], [1, 9], 9, _,
    ⟨(fun x hx => by cases hx), Toy.twice_told, rfl, (fun d hd => by cases hd),
      (by show ((5 : Nat) : Int) < 9; decide)⟩, by simp [Spec.answered]⟩

/-- C97 is false: two certificates are enough. `cache` leaves the old date of a renewed response
in `_cache_limits` (ocsp_over_http.py:20-26, 68-78); when 64 dates are there the oldest one takes
the renewed response away with it. -/
theorem C97_false : ¬ C97_statement := by
  intro h
  have := h Toy.lib Toy.history (Toy.history.zip Toy.told |>.take 1)
    (Toy.history.zip Toy.told |>.drop 2 |>.take 63) (Toy.ask 2 1 [2, 200]) (Toy.ask 2 100 [2, 250])
    [2, 200] 200 (.ok (.fetched [2, 250], 250)) ⟨?_, ?_, rfl, ?_, ?_⟩ ?_
  · have hv : validate Toy.lib ⟨[], 0, []⟩ [2] [2, 200] 100 100 = .ok 200 := by decide
    have this : Except.ok (Answer.fetched [2, 250], 250) =
      (validate Toy.lib ⟨[], 0, []⟩ [2] [2, 200] 100 100).map fun v => (Answer.hit [2, 200], v) :=
      this
    rw [hv] at this
    simp [Except.map] at this
  · intro x hx; cases hx
  · rw [Toy.history_told]; rfl
  · intro d hd hq
    exfalso
    have : ∀ d ∈ (Toy.history.zip Toy.told |>.drop 2 |>.take 63).map (fun d => d.1.req),
      d = [1] := by decide
    have := this _ (List.mem_map_of_mem hd)
    rw [hq] at this
    cases this
  · show ((100 : Nat) : Int) < 200
    decide
  · decide

/-! ## C98 -/

/-- C98, as one expects it: what a responder makes the service return is not longer than the limit
of 20 KiB. -/
def C98_statement : Prop :=
  ∀ (c : Cache) (now : Int) (scheme netloc : PyStr) (req : Bytes) (http : Except Exn Http)
    (b : Bytes), (c.request now scheme netloc req http).1 = .ok (.fetched b) → b.length ≤ 20480

theorem request_fetched {c : Cache} {now : Int} {s n : PyStr} {q : Bytes} {http : Except Exn Http}
    {b : Bytes} (h : (c.request now s n q http).1 = .ok (.fetched b)) : fetch s n q http = .ok b := by
  rcases request_cases c now s n q http with ⟨r, u, -, -, -, he⟩ | ⟨-, he⟩ | ⟨r, u, -, -, -, he⟩ <;>
    rw [he] at h
  · simp at h
  all_goals
    cases hf : fetch s n q http with
    | error e => rw [hf] at h; simp [Except.map] at h
    | ok b' => rw [hf] at h; simp [Except.map] at h; rw [h]

theorem fetch_ok {s n : PyStr} {q : Bytes} {http : Except Exn Http} {b : Bytes}
    (h : fetch s n q http = .ok b) : s = "http".toList ∧ n ≠ [] ∧ q ≠ [] ∧ ∃ r len,
      http = .ok r ∧ r.contentType.getD "application/ocsp-response".toList =
        "application/ocsp-response".toList ∧
      r.contentLength.getD (.ok maxResponse) = .ok len ∧ len ≤ 20480 ∧ b = readBody r.body len := by
  unfold fetch at h
  split at h
  · cases h
  rename_i hs
  split at h
  · cases h
  rename_i hn
  split at h
  · cases h
  rename_i hq
  simp only [Except.bind_eq_ok] at h
  obtain ⟨r, hr, h⟩ := h
  split at h
  · cases h
  rename_i ht
  simp only [Except.bind_eq_ok] at h
  obtain ⟨len, hlen, h⟩ := h
  split at h
  · cases h
  rename_i hle
  refine ⟨Decidable.not_not.mp hs, hn, hq, r, len, hr, Decidable.not_not.mp ht, hlen, ?_, ?_⟩
  · exact Int.not_lt.mp hle
  · exact (Except.ok.inj h).symm

/-- C98, the part that holds: unless the response has a negative Content-Length. -/
theorem C98_partial (c : Cache) (now : Int) (scheme netloc : PyStr) (req : Bytes) (r : Http)
    (b : Bytes) (hn : ∀ n, r.contentLength = some (.ok n) → 0 ≤ n)
    (h : (c.request now scheme netloc req (.ok r)).1 = .ok (.fetched b)) : b.length ≤ 20480 := by
  obtain ⟨-, -, -, r', len, hr, -, hlen, hle, rfl⟩ := fetch_ok (request_fetched h)
  cases hr
  have h0 : 0 ≤ len := by
    cases hc : r.contentLength with
    | none => rw [hc] at hlen; cases hlen; decide
    | some x => rw [hc] at hlen; exact hn len (by rw [hc]; exact congrArg some hlen)
  rw [readBody, if_neg (by omega), List.length_take]
  omega

/-- C98. The service asks nobody unless the URL is a plain `http` one with an authority and the
request is not empty: the outcome does not depend on what any responder would say. -/
theorem C98_unasked (c : Cache) (now : Int) (scheme netloc : PyStr) (req : Bytes)
    (http http' : Except Exn Http) (h : scheme ≠ "http".toList ∨ netloc = [] ∨ req = []) :
    c.request now scheme netloc req http = c.request now scheme netloc req http' ∧
    ∀ b, (c.request now scheme netloc req http).1 ≠ .ok (.fetched b) := by
  have hf : ∀ http, fetch scheme netloc req http = .error .valueError := by
    intro http
    unfold fetch
    rcases h with h | h | h
    · rw [if_pos h]
    · split
      · rfl
      · rfl
    · split
      · rfl
      · split <;> rfl
  refine ⟨?_, fun b hb => ?_⟩
  · simp only [Cache.request, hf]
  · have := request_fetched hb
    rw [hf] at this
    cases this

theorem fetch_negative {s n : PyStr} {q body : Bytes} (hs : s = "http".toList) (hn : n ≠ [])
    (hq : q ≠ []) : fetch s n q (.ok ⟨none, some (.ok (-1)), body⟩) = .ok body := by
  unfold fetch
  rw [if_neg (by rw [hs]; exact fun h => h rfl), if_neg hn, if_neg hq]
  simp only [Except.bind_def, Option.getD_none, Option.getD_some, ne_eq, not_true_eq_false, if_false]
  rw [if_neg (by decide), readBody, if_pos (by decide)]

/-- C98 is false: `Content-Length: -1` passes the check (ocsp_over_http.py:59-63) and
`read(-1)` (ocsp_over_http.py:65) reads whatever the responder sends. -/
theorem C98_false : ¬ C98_statement := by
  intro h
  have := h .empty 0 "http".toList ['h'] [1]
    (.ok ⟨none, some (.ok (-1)), List.replicate 20481 0⟩) (List.replicate 20481 0) (by
      have hf := fetch_negative (s := "http".toList) (n := ['h']) (q := [1])
        (body := List.replicate 20481 0) rfl (by simp) (by simp)
      simp only [Cache.request, hf]
      rfl)
  rw [List.length_replicate] at this
  omega

/-- A response within the limit, for `C98_partial`. -/
example : (Cache.empty.request 0 "http".toList ['h'] [1] (.ok ⟨none, none, [1, 2, 3]⟩)).1 =
    .ok (.fetched [1, 2, 3]) := by
  have hf := Toy.fetch_plain (s := "http".toList) (n := ['h']) (q := [1]) (body := [1, 2, 3]) rfl
    (by simp) (by simp) (by simp)
  simp only [Cache.request, hf]
  rfl

end Siotls.Ocsp
