import Verif.Proofs.Utils
/-!
# Properties of the helpers: C52 (peekable), C53 (CA bundle), C54 (Content-Length), C60 (hexdump)
-/

namespace Siotls

/-! ## C60 -/

/-- C60. An independent reader of hex dumps recovers the input from the output. -/
theorem C60_faithful (data : Bytes) : Spec.undump (hexdump data) = some data := by
  by_cases h : data = []
  · subst h
    rw [hexdump, if_pos rfl, dumpLoop, if_pos rfl]; rfl
  · rw [hexdump, if_neg h, Spec.undump, lines_dumpLoop _ _ _ h]
    exact dumpLines_undump ..

/-- C60, layout: there is one line per 16 bytes; the line `k` shows exactly the bytes
`16k … 16k+15`; its offset column reads `16k` in hexadecimal, on a number of characters that is
the same for all lines. -/
theorem C60_layout (data : Bytes) (h : data ≠ []) :
    (Spec.lines (hexdump data)).length = (data.length + 15) / 16 ∧
    ∃ w, ∀ k, 16 * k < data.length → ∃ l, (Spec.lines (hexdump data))[k]? = some l ∧
      (Spec.offsetText l).length = w ∧ Spec.readNat 16 (Spec.offsetText l) = some (16 * k) ∧
      Spec.lineBytes l = some ((data.drop (16 * k)).take 16) := by
  rw [hexdump, if_neg h, lines_dumpLoop _ _ _ h]
  refine ⟨dumpLines_length .., offsetWidth data.length, fun k hk => ⟨_, dumpLines_get _ _ _ k hk, ?_⟩⟩
  have hlen : data.length ≠ 0 := fun h' => h (List.length_eq_zero_iff.mp h')
  obtain ⟨h1, h2⟩ := lt_offsetWidth hlen
  rw [dumpLine_offset, Nat.zero_add]
  exact ⟨hexPad_length h1 (by omega), readNat_hexPad .., dumpLine_bytes _ _ (by simp)⟩

/-- The docstring's example. -/
example : String.ofList (hexdump [0, 0x17, 72, 101, 108, 108, 111, 32, 119, 111, 114, 108, 100, 33,
    10, 83, 119, 101, 97, 116, 32, 100, 97, 121, 46, 0]) =
    "0000: 00 17 48 65 6c 6c 6f 20  77 6f 72 6c 64 21 0a 53  0.Hello  world! S\n\
     0010: 77 65 61 74 20 64 61 79  2e 00                    weat day .0" := by decide +kernel

/-! ## C54 -/

/-- `msg` is an HTTP message whose last header is `Content-Length: <n>` and whose body is `body`. -/
def Spec.HasLength (msg body : PyStr) (n : Nat) : Prop :=
  ∃ head digits, msg = head ++ "\r\nContent-Length: ".toList ++ digits ++ "\r\n\r\n".toList ++ body ∧
    Spec.readNat 10 digits = some n

/-- Size of a text once encoded in UTF-8. -/
def Spec.utf8Size (s : PyStr) : Nat := (s.map Spec.utf8Len).sum

/-- C54, full statement: the announced length is the number of bytes of the encoded body. -/
def C54_statement : Prop := ∀ version host method path body : PyStr,
  Spec.HasLength (makeHttp11Request version host method path body) body (Spec.utf8Size body)

theorem request_length (version host method path body : PyStr) :
    Spec.HasLength (makeHttp11Request version host method path body) body body.length := by
  refine ⟨method ++ [' '] ++ path ++ httpVersion ++ host ++ httpAgent ++ version ++ httpType,
    decNat body.length, ?_, readNat_decNat _⟩
  rfl

theorem response_length (version : PyStr) (code : Nat) (phrase date body : PyStr) :
    Spec.HasLength (makeHttp11Response version code phrase date body) body body.length := by
  refine ⟨httpStatus ++ decNat code ++ [' '] ++ phrase ++ httpDate ++ date ++ httpServer ++
    version ++ httpType, decNat body.length, ?_, readNat_decNat _⟩
  rfl

theorem utf8Size_ge (s : PyStr) : s.length ≤ Spec.utf8Size s := by
  induction s with
  | nil => simp [Spec.utf8Size]
  | cons c s ih =>
    have : 1 ≤ Spec.utf8Len c := by unfold Spec.utf8Len; split <;> (try split) <;> (try split) <;> omega
    simp only [Spec.utf8Size, List.map_cons, List.sum_cons, List.length_cons] at *
    omega

theorem utf8Size_eq_iff (s : PyStr) : Spec.utf8Size s = s.length ↔ ∀ c ∈ s, c.toNat < 0x80 := by
  induction s with
  | nil => simp [Spec.utf8Size]
  | cons c s ih =>
    have hge := utf8Size_ge s
    simp only [Spec.utf8Size, List.map_cons, List.sum_cons, List.length_cons, List.mem_cons,
      forall_eq_or_imp] at *
    rw [← ih]
    have : Spec.utf8Len c = 1 ∧ c.toNat < 0x80 ∨ 2 ≤ Spec.utf8Len c ∧ 0x80 ≤ c.toNat := by
      unfold Spec.utf8Len
      split <;> (try split) <;> (try split) <;> omega
    omega

/-- C54 for the bodies for which it holds: those made of ASCII characters. What is missing from
`C54_statement` is exactly the other bodies (`C54_wrong_length`). -/
theorem C54_length_partial (body : PyStr) (h : ∀ c ∈ body, c.toNat < 0x80) :
    (∀ version host method path, Spec.HasLength (makeHttp11Request version host method path body)
      body (Spec.utf8Size body)) ∧
    (∀ version code phrase date, Spec.HasLength (makeHttp11Response version code phrase date body)
      body (Spec.utf8Size body)) := by
  rw [(utf8Size_eq_iff body).mpr h]
  exact ⟨fun _ _ _ _ => request_length .., fun _ _ _ _ => response_length ..⟩

example : ∀ c ∈ "Hello\r\n".toList, c.toNat < 0x80 := by decide

/-- For every other body, both functions announce fewer bytes than the encoded body has. -/
theorem C54_wrong_length (body : PyStr) (h : ∃ c ∈ body, 0x80 ≤ c.toNat) :
    (∀ version host method path, ∃ n, n < Spec.utf8Size body ∧
      Spec.HasLength (makeHttp11Request version host method path body) body n) ∧
    (∀ version code phrase date, ∃ n, n < Spec.utf8Size body ∧
      Spec.HasLength (makeHttp11Response version code phrase date body) body n) := by
  have hlt : body.length < Spec.utf8Size body := by
    refine Nat.lt_of_le_of_ne (utf8Size_ge body) fun he => ?_
    obtain ⟨c, hc, hc'⟩ := h
    have := (utf8Size_eq_iff body).mp he.symm c hc
    omega
  exact ⟨fun _ _ _ _ => ⟨_, hlt, request_length ..⟩, fun _ _ _ _ => ⟨_, hlt, response_length ..⟩⟩

example : ∃ c ∈ "é".toList, 0x80 ≤ c.toNat := by decide

theorem readNat_digits {s : List Char} {n : Nat} (h : Spec.readNat 10 s = some n) :
    ∀ c ∈ s, (Spec.hexValue c).isSome := by
  have key : ∀ (s : List Char) (a : Option Nat) (n : Nat),
      s.foldl (fun acc c => match acc, Spec.hexValue c with
        | some a, some v => if v < 10 then some (a * 10 + v) else none
        | _, _ => none) a = some n → a.isSome ∧ ∀ c ∈ s, (Spec.hexValue c).isSome := by
    intro s
    induction s with
    | nil => intro a n h; simp at h; simp [h]
    | cons c s ih =>
      intro a n h
      obtain ⟨h1, h2⟩ := ih _ _ h
      dsimp only at h1
      split at h1
      · rename_i a v hv
        exact ⟨rfl, fun c' hc' => by
          rcases List.mem_cons.mp hc' with rfl | hc'
          · simp [hv]
          · exact h2 c' hc'⟩
      · simp at h1
  exact (key s _ n h).2

/-- The announced length is determined by the message and its body. -/
theorem hasLength_unique {msg body : PyStr} {n m : Nat} (h₁ : Spec.HasLength msg body n)
    (h₂ : Spec.HasLength msg body m) : n = m := by
  obtain ⟨p, d, e₁, r₁⟩ := h₁
  obtain ⟨p', d', e₂, r₂⟩ := h₂
  have e := e₁.symm.trans e₂
  rw [List.append_assoc _ _ body, List.append_assoc _ _ body] at e
  have e := List.append_cancel_right e
  have hs : "\r\nContent-Length: ".toList = "\r\nContent-Length:".toList ++ [' '] := by decide
  have key : ∀ (q d : List Char), (∀ c ∈ d, (Spec.hexValue c).isSome) →
      ((q ++ [' '] ++ d).reverse.takeWhile fun c => (Spec.hexValue c).isSome) = d.reverse := by
    intro q d hd
    rw [List.reverse_append, List.takeWhile_append_of_pos (by simpa using hd)]
    have : (Spec.hexValue ' ').isSome = false := by decide
    simp [this]
  rw [hs, ← List.append_assoc p, ← List.append_assoc p'] at e
  have k₁ := key (p ++ "\r\nContent-Length:".toList) d (readNat_digits r₁)
  have k₂ := key (p' ++ "\r\nContent-Length:".toList) d' (readNat_digits r₂)
  rw [e, k₂] at k₁
  have : d' = d := List.reverse_inj.mp k₁
  subst this
  exact Option.some.inj (r₁.symm.trans r₂)

/-- C54 is false as stated: a one-character body of two bytes. -/
theorem C54_false : ¬ C54_statement := by
  intro h
  have h1 := h [] [] [] [] "é".toList
  have h2 := request_length [] [] [] [] "é".toList
  have := hasLength_unique h1 h2
  revert this
  decide

/-! ## C52 -/

/-- The values an iterator gives to `n` successive calls of `next` (`none`: StopIteration). -/
def Spec.nexts {σ α} (step : σ → Option (α × σ)) : Nat → σ → List (Option α)
  | 0, _ => []
  | n + 1, s => match step s with
    | some (v, s') => some v :: Spec.nexts step n s'
    | none => none :: Spec.nexts step n s

/-- What a caller does with a peekable: `next(it)`, `it.peek()` or `it.peek(default)`. -/
inductive Spec.PeekOp (α : Type) where
  | next
  | peek (default : Option α)

/-- Run a program of calls; collect what `next` returned and what `peek` returned. -/
def Spec.runPeek {σ α} (step : σ → Option (α × σ)) :
    List (Spec.PeekOp α) → Peekable σ α → List (Option α) × List (Except Unit α) × Peekable σ α
  | [], p => ([], [], p)
  | .next :: os, p =>
    let (r, p) := p.next step
    let (ns, ps, p) := Spec.runPeek step os p
    (r :: ns, ps, p)
  | .peek d :: os, p =>
    let (r, p) := p.peek step d
    let (ns, ps, p) := Spec.runPeek step os p
    (ns, r :: ps, p)

/-- `p` still has to deliver what the plain iterator `s` has. -/
def Peekable.Sim {σ α} (step : σ → Option (α × σ)) (p : Peekable σ α) (s : σ) : Prop :=
  (p.peeked = none ∧ p.it = s) ∨ ∃ v, p.peeked = some v ∧ step s = some (v, p.it)

theorem Peekable.sim_peek {σ α} {step : σ → Option (α × σ)} {p : Peekable σ α} {s : σ}
    (h : p.Sim step s) (d : Option α) : (p.peek step d).2.Sim step s := by
  obtain ⟨it, pk⟩ := p
  rcases h with ⟨h1, h2⟩ | ⟨v, h1, h2⟩ <;> simp only at h1 h2 <;> subst h1
  · subst h2
    simp only [Peekable.peek]
    cases hs : step it with
    | none => cases d <;> exact .inl ⟨rfl, rfl⟩
    | some r => exact .inr ⟨r.1, rfl, hs⟩
  · exact .inr ⟨v, rfl, h2⟩

theorem Peekable.sim_next {σ α} {step : σ → Option (α × σ)} {p : Peekable σ α} {s : σ}
    (h : p.Sim step s) :
    (p.next step).1 = (step s).map Prod.fst ∧
    (p.next step).2.Sim step (match step s with | some (_, s') => s' | none => s) := by
  obtain ⟨it, pk⟩ := p
  rcases h with ⟨h1, h2⟩ | ⟨v, h1, h2⟩ <;> simp only at h1 h2 <;> subst h1
  · subst h2
    simp only [Peekable.next]
    cases hs : step it with
    | none => exact ⟨rfl, .inl ⟨rfl, rfl⟩⟩
    | some r => exact ⟨rfl, .inl ⟨rfl, rfl⟩⟩
  · simp only [Peekable.next, h2]
    exact ⟨rfl, .inl ⟨rfl, rfl⟩⟩

theorem runPeek_nexts {σ α} (step : σ → Option (α × σ)) (os : List (Spec.PeekOp α))
    (p : Peekable σ α) (s : σ) (h : p.Sim step s) :
    (Spec.runPeek step os p).1 =
      Spec.nexts step (os.countP fun o => match o with | .next => true | _ => false) s ∧
    ∃ s', (Spec.runPeek step os p).2.2.Sim step s' := by
  induction os generalizing p s with
  | nil => exact ⟨rfl, s, h⟩
  | cons o os ih =>
    cases o with
    | next =>
      obtain ⟨h1, h2⟩ := Peekable.sim_next h
      obtain ⟨ih1, ih2⟩ := ih _ _ h2
      refine ⟨?_, ih2⟩
      rw [List.countP_cons_of_pos (by rfl), Spec.nexts]
      simp only [Spec.runPeek, h1, ih1]
      cases step s <;> rfl
    | peek d =>
      obtain ⟨ih1, ih2⟩ := ih _ _ (Peekable.sim_peek h d)
      refine ⟨?_, ih2⟩
      rw [List.countP_cons_of_neg (by simp)]
      exact ih1

/-- C52. Whatever the underlying iterator and whatever the interleaving of `next`, `peek()` and
`peek(default)`, the successive results of `next` are those of the underlying iterator, in order,
none lost, none repeated. -/
theorem C52_next {σ α} (step : σ → Option (α × σ)) (it : σ) (os : List (Spec.PeekOp α)) :
    (Spec.runPeek step os ⟨it, none⟩).1 =
      Spec.nexts step (os.countP fun o => match o with | .next => true | _ => false) it :=
  (runPeek_nexts step os ⟨it, none⟩ it (.inl ⟨rfl, rfl⟩)).1

/-- C52. After any history, `peek` returns what the following `next` returns; at the end of the
iterator it returns the default, or raises StopIteration without one. -/
theorem C52_peek {σ α} (step : σ → Option (α × σ)) (it : σ) (os : List (Spec.PeekOp α))
    (d : Option α) :
    let p := (Spec.runPeek step os ⟨it, none⟩).2.2
    match ((p.peek step d).2.next step).1 with
    | some v => (p.peek step d).1 = .ok v
    | none => (p.peek step d).1 = match d with | some d => .ok d | none => .error () := by
  intro p
  obtain ⟨s', hs'⟩ := (runPeek_nexts step os ⟨it, none⟩ it (.inl ⟨rfl, rfl⟩)).2
  change p.Sim step s' at hs'
  obtain ⟨i, pk⟩ := p
  rcases hs' with ⟨h1, h2⟩ | ⟨v, h1, h2⟩ <;> simp only at h1 h2 <;> subst h1
  · simp only [Peekable.peek, Peekable.next]
    cases hs : step i with
    | none => cases d <;> simp [hs]
    | some r => simp
  · simp [Peekable.peek, Peekable.next]

/-- The list iterator 1, 2, 3: two peeks and three nexts. -/
example : Spec.runPeek (fun l : List Nat => match l with | [] => none | a :: l => some (a, l))
    [.peek none, .next, .next, .peek (some 9), .next, .next] ⟨[1, 2, 3], none⟩ =
    ([some 1, some 2, some 3, none], [.ok 1, .ok 3], ⟨[], none⟩) := rfl

/-! ## C53 -/

/-- The table of the README: which distribution has its bundle where. -/
def Spec.bundle (id : String) : Option String :=
  if id ∈ ["alpine", "debian", "ubuntu"] then some "/etc/ssl/certs/ca-certificates.crt"
  else if id = "arch" then some "/etc/ca-certificates/extracted/tls-ca-bundle.pem"
  else if id = "fedora" then some "/etc/pki/ca-trust/extracted/pem/tls-ca-bundle.pem"
  else if id = "suse" then some "/var/lib/ca-certificates/ca-bundle.pem"
  else none

/-- `s` is made of the words `ws` with white space around and between them. -/
inductive Spec.Words : PyStr → List PyStr → Prop where
  | blank (s : PyStr) (h : ∀ c ∈ s, pySpace c = true) : Spec.Words s []
  | last (pre w : PyStr) (hp : ∀ c ∈ pre, pySpace c = true) (hw : w ≠ [])
      (hw' : ∀ c ∈ w, pySpace c = false) : Spec.Words (pre ++ w) [w]
  | cons (pre w : PyStr) (sep : Char) (rest : PyStr) (ws : List PyStr)
      (hp : ∀ c ∈ pre, pySpace c = true) (hw : w ≠ [])
      (hw' : ∀ c ∈ w, pySpace c = false) (hs : pySpace sep = true) (hr : Spec.Words rest ws) :
      Spec.Words (pre ++ w ++ sep :: rest) (w :: ws)

theorem splitWords_blank {s rest : PyStr} (h : ∀ c ∈ s, pySpace c = true) :
    splitWords (s ++ rest) [] = splitWords rest [] := by
  induction s with
  | nil => rfl
  | cons c s ih =>
    rw [List.cons_append, splitWords, if_pos (h c List.mem_cons_self), if_pos rfl]
    exact ih fun c hc => h c (List.mem_cons_of_mem _ hc)

theorem splitWords_word {w cur rest : PyStr} (h : ∀ c ∈ w, pySpace c = false) :
    splitWords (w ++ rest) cur = splitWords rest (w.reverse ++ cur) := by
  induction w generalizing cur with
  | nil => rfl
  | cons c w ih =>
    have := h c List.mem_cons_self
    rw [List.cons_append, splitWords, if_neg (by simp [this]),
      ih fun c hc => h c (List.mem_cons_of_mem _ hc)]
    simp

theorem splitWords_eq {s : PyStr} {ws : List PyStr} (h : Spec.Words s ws) :
    splitWords s [] = ws := by
  induction h with
  | blank s h => simpa [splitWords] using splitWords_blank (rest := []) h
  | last pre w hp hw hw' =>
    rw [splitWords_blank hp]
    have := splitWords_word (cur := []) (rest := []) hw'
    simp only [List.append_nil] at this
    rw [this, splitWords, if_neg (by simpa using hw), List.reverse_reverse]
  | cons pre w sep rest ws hp hw hw' hs hr ih =>
    rw [List.append_assoc, splitWords_blank hp, splitWords_word hw', splitWords, if_pos hs,
      if_neg (by simpa using hw), ih]
    simp

theorem Words.prepend {c : Char} (hc : pySpace c = true) {s : PyStr} {ws : List PyStr}
    (h : Spec.Words s ws) : Spec.Words (c :: s) ws := by
  have aux : ∀ pre : PyStr, (∀ c ∈ pre, pySpace c = true) →
      ∀ c' ∈ c :: pre, pySpace c' = true := by
    intro pre hp c' hc'
    rcases List.mem_cons.mp hc' with rfl | hc'
    · exact hc
    · exact hp c' hc'
  cases h with
  | blank _ h => exact .blank _ (aux _ h)
  | last pre w hp hw hw' => exact .last (c :: pre) w (aux _ hp) hw hw'
  | cons pre w sep rest ws hp hw hw' hs hr => exact .cons (c :: pre) w sep rest ws (aux _ hp) hw hw' hs hr

/-- Every string has words. -/
theorem words_exist (s : PyStr) : ∃ ws, Spec.Words s ws := by
  have key : ∀ n (s : PyStr), s.length ≤ n → ∃ ws, Spec.Words s ws := by
    intro n
    induction n with
    | zero =>
      intro s hs
      exact ⟨[], .blank _ (by rw [List.length_eq_zero_iff.mp (Nat.le_zero.mp hs)]; simp)⟩
    | succ n ih =>
      intro s hs
      match s with
      | [] => exact ⟨[], .blank _ (by simp)⟩
      | c :: s =>
        by_cases hc : pySpace c = true
        · obtain ⟨ws, h⟩ := ih s (by simpa using hs)
          exact ⟨ws, Words.prepend hc h⟩
        · have hsplit := List.takeWhile_append_dropWhile (p := fun c => !pySpace c) (l := c :: s)
          have hw : (c :: s).takeWhile (fun c => !pySpace c) ≠ [] := by
            simp [hc]
          have hw' : ∀ x ∈ (c :: s).takeWhile (fun c => !pySpace c), pySpace x = false := by
            intro x hx
            have := List.all_takeWhile (p := fun c => !pySpace c) (l := c :: s)
            have := List.all_eq_true.mp this x hx
            simpa using this
          cases hd : (c :: s).dropWhile (fun c => !pySpace c) with
          | nil =>
            rw [hd, List.append_nil] at hsplit
            exact ⟨[_], hsplit ▸ Spec.Words.last [] _ (by simp) hw hw'⟩
          | cons sep rest =>
            have hsep : pySpace sep = true := by
              have := List.head_dropWhile_not (fun c => !pySpace c) (l := c :: s) (by rw [hd]; simp)
              simpa [hd] using this
            have hlen : rest.length ≤ n := by
              have := congrArg List.length hsplit
              rw [hd, List.length_append] at this
              have h1 : 0 < ((c :: s).takeWhile (fun c => !pySpace c)).length :=
                List.length_pos_iff.mpr hw
              simp only [List.length_cons] at this hs
              omega
            obtain ⟨ws, h⟩ := ih rest hlen
            rw [hd] at hsplit
            exact ⟨_ :: ws, hsplit ▸ Spec.Words.cons [] _ sep rest ws (by simp) hw hw' hsep h⟩
  exact key s.length s (Nat.le_refl _)

theorem lookup_bundle (id : String) :
    caPaths.lookup id.toList = (Spec.bundle id).map String.toList := by
  have e : ∀ s : String, (id.toList == s.toList) = decide (id = s) := by
    intro s
    by_cases h : id = s
    · subst h; simp
    · have : id.toList ≠ s.toList := fun h' => h (String.toList_inj.mp h')
      simp [h, this]
  simp only [caPaths, List.lookup, e, Spec.bundle]
  by_cases h1 : id = "alpine" <;> by_cases h2 : id = "arch" <;> by_cases h3 : id = "debian" <;>
    by_cases h4 : id = "fedora" <;> by_cases h5 : id = "suse" <;> by_cases h6 : id = "ubuntu" <;>
    simp_all

/-- C53. When `/etc/os-release` gives an ID, and `likes` are the words of ID_LIKE (none when it is
absent), the bundle chosen is the one of the first known distribution among the ID and then the
words of ID_LIKE in order; ValueError is raised when none is known, and only then. -/
theorem C53_bundle (id : String) (idLike : Option String) (likes : List String)
    (hl : Spec.Words ((idLike.getD "").toList) (likes.map String.toList)) :
    (∀ path, caPath (some id.toList) (idLike.map String.toList) = .ok path ↔
      ∃ pre x post bundle, id :: likes = pre ++ x :: post ∧ (∀ y ∈ pre, Spec.bundle y = none) ∧
        Spec.bundle x = some bundle ∧ path = bundle.toList) ∧
    (caPath (some id.toList) (idLike.map String.toList) = .error .valueError ↔
      ∀ y ∈ id :: likes, Spec.bundle y = none) := by
  have hd : (idLike.map String.toList).getD [] = (idLike.getD "").toList := by
    cases idLike <;> rfl
  have hw := splitWords_eq hl
  have key : ∀ l : List String, (l.map String.toList).findSome? (fun r => caPaths.lookup r) =
      (l.findSome? Spec.bundle).map String.toList := by
    intro l
    induction l with
    | nil => rfl
    | cons x l ih =>
      rw [List.map_cons, List.findSome?_cons, List.findSome?_cons, lookup_bundle, ih]
      cases Spec.bundle x <;> rfl
  have hcons : id.toList :: likes.map String.toList = (id :: likes).map String.toList := rfl
  simp only [caPath, hd, hw, hcons, key]
  cases hf : (id :: likes).findSome? Spec.bundle with
  | none =>
    have hall := List.findSome?_eq_none_iff.mp hf
    refine ⟨fun path => ⟨fun h => by simp at h, ?_⟩, by simpa using hall⟩
    rintro ⟨pre, x, post, b, he, -, hx, -⟩
    have := hall x (by rw [he]; simp)
    rw [this] at hx; cases hx
  | some b =>
    obtain ⟨pre, x, post, he, hx, hp⟩ := List.findSome?_eq_some_iff.mp hf
    refine ⟨fun path => ⟨fun h => ?_, ?_⟩, ⟨fun h => by simp at h, fun h => ?_⟩⟩
    · simp only [Option.map_some, Except.ok.injEq] at h
      exact ⟨pre, x, post, b, he, hp, hx, h.symm⟩
    · rintro ⟨pre', x', post', b', he', hp', hx', rfl⟩
      have : (id :: likes).findSome? Spec.bundle = some b' :=
        List.findSome?_eq_some_iff.mpr ⟨pre', x', post', he', hx', hp'⟩
      rw [hf] at this
      cases this
      rfl
    · have := h x (by rw [he]; simp)
      rw [this] at hx; cases hx

example : Spec.Words " rhel  fedora".toList ["rhel".toList, "fedora".toList] :=
  .cons " ".toList "rhel".toList ' ' " fedora".toList _ (by decide) (by decide) (by decide)
    (by decide) (.last " ".toList "fedora".toList (by decide) (by decide) (by decide))

example : caPath (some "rocky".toList) (some " rhel  fedora".toList) =
    .ok "/etc/pki/ca-trust/extracted/pem/tls-ca-bundle.pem".toList := by decide +kernel

end Siotls
