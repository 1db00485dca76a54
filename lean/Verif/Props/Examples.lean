import Verif.Proofs.Examples
import Verif.Props.Whole
import Verif.Props.Utils
/-!
# C88: the example client gets the example server's answer; C89: which answer; C90: every answer is logged
-/

namespace Siotls
open Spec

variable {E : Env}

theorem encode_ne_nil {s : PyStr} (h : s ≠ []) : pyEncode s ≠ [] := by
  intro hc
  have h1 := decode_encode s
  rw [hc, show ([] : Bytes) = pyEncode [] from rfl, decode_encode] at h1
  exact h (Option.some.inj h1).symm

/-- a text starts with its first line -/
theorem beforeCrlf_eq {text line : PyStr} (h : FirstLine text line) : beforeCrlf text = line := by
  obtain ⟨h1, h2⟩ := h
  induction line generalizing text with
  | nil =>
    rcases h2 with rfl | ⟨rest, rfl⟩
    · rfl
    · rfl
  | cons c line ih =>
    have h3 : ¬ ['\r', '\n'] <:+: line := fun h => h1 (h.trans (List.suffix_cons c line).isInfix)
    have h4 : ∀ t : PyStr, (t = line ∨ ∃ rest, t = line ++ '\r' :: '\n' :: rest) → beforeCrlf (c :: t) = c :: beforeCrlf t := by
      intro t ht
      by_cases hc : c = '\r'
      · rcases t with _ | ⟨d, t⟩
        · subst hc; rfl
        · by_cases hd : d = '\n'
          · subst hc hd
            exfalso
            rcases ht with ht | ⟨rest, ht⟩
            · exact h1 ⟨[], t, by rw [← ht]; rfl⟩
            · rcases line with _ | ⟨e, line⟩
              · simp at ht
              · obtain ⟨rfl, -⟩ := List.cons_eq_cons.mp ht
                exact h1 ⟨[], line, rfl⟩
          · exact beforeCrlf.eq_3 _ _ (fun _ _ hcon => by simp_all)
      · exact beforeCrlf.eq_3 _ _ (fun _ hcon => absurd hcon hc)
    rcases h2 with rfl | ⟨rest, rfl⟩
    · rw [h4 _ (.inl rfl), ih h3 (.inl rfl)]
    · rw [List.cons_append, h4 _ (.inr ⟨rest, rfl⟩), ih h3 (.inr ⟨rest, rfl⟩)]

/-- every text has a first line -/
theorem firstLine_exists (text : PyStr) : ∃ line, FirstLine text line := by
  induction text with
  | nil => exact ⟨[], by simp [FirstLine]⟩
  | cons c text ih =>
    obtain ⟨line, h1, h2⟩ := ih
    by_cases hc : ∃ rest, c :: text = '\r' :: '\n' :: rest
    · exact ⟨[], by simp, .inr hc⟩
    · refine ⟨c :: line, ?_, ?_⟩
      · rw [List.infix_cons_iff]
        rintro (h | h)
        · rw [List.prefix_cons_iff] at h
          rcases h with h | ⟨t, h3, t', h4⟩
          · cases h
          · obtain ⟨rfl, rfl⟩ := List.cons_eq_cons.mp h3
            apply hc
            rcases h2 with rfl | ⟨rest, rfl⟩
            · exact ⟨t', by rw [← h4]; rfl⟩
            · exact ⟨t' ++ '\r' :: '\n' :: rest, by rw [← h4]; rfl⟩
        · exact h1 h
      · rcases h2 with rfl | ⟨rest, rfl⟩
        · exact .inl rfl
        · exact .inr ⟨rest, rfl⟩

/-- C89. The answer to a request that is text, by the words of its first line. -/
theorem C89_code {text line : PyStr} {ws : List PyStr} (hl : FirstLine text line) (hw : Spec.Words line ws) :
    (ws.length ≠ 3 → respond (pyEncode text) = (400, [], some line)) ∧
    (∀ m p v, ws = [m, p, v] → m ≠ "GET".toList → respond (pyEncode text) = (405, [], some line)) ∧
    (∀ p v, ws = ["GET".toList, p, v] → p ≠ "/".toList → respond (pyEncode text) = (404, [], some line)) ∧
    (∀ v, ws = ["GET".toList, "/".toList, v] →
      respond (pyEncode text) = (200, "Hello from siotls\n".toList, some line)) := by
  have e : ∀ r, (match splitWords (beforeCrlf text) [] with
      | [method, path, _version] =>
        if method ≠ "GET".toList then (405, [], some (beforeCrlf text))
        else if path ≠ "/".toList then (404, [], some (beforeCrlf text))
        else (200, "Hello from siotls\n".toList, some (beforeCrlf text))
      | _ => (400, [], some (beforeCrlf text))) = r → respond (pyEncode text) = r := by
    intro r h
    unfold respond
    rw [decode_encode]
    exact h
  rw [beforeCrlf_eq hl, splitWords_eq hw] at e
  refine ⟨fun h => e _ ?_, fun m p v h hm => e _ ?_, fun p v h hp => e _ ?_, fun v h => e _ ?_⟩
  · rcases ws with _ | ⟨x, _ | ⟨y, _ | ⟨z, _ | ⟨t, ws⟩⟩⟩⟩ <;> first | rfl | simp at h
  · subst h; exact if_pos hm
  · subst h
    dsimp only
    rw [if_neg (by simp), if_pos hp]
  · subst h
    dsimp only
    rw [if_neg (by simp), if_neg (by simp)]

/-- C89. Every request that is text is one of these cases. -/
theorem C89_total (text : PyStr) : ∃ line ws, FirstLine text line ∧ Spec.Words line ws := by
  obtain ⟨line, h⟩ := firstLine_exists text
  obtain ⟨ws, h'⟩ := words_exist line
  exact ⟨line, ws, h, h'⟩

/-- C89. Bytes that are not the encoding of a text. -/
theorem C89_binary {req : Bytes} (h : ∀ text, pyEncode text ≠ req) : respond req = (400, [], none) := by
  have : pyDecode req = none := by
    rcases hd : pyDecode req with _ | t
    · rfl
    · exfalso
      obtain ⟨arr, h1, h2⟩ := Option.map_eq_some_iff.mp hd
      apply h t
      have h3 := ByteArray.utf8Encode_get_utf8Decode? (b := req.toByteArray) (h := by rw [h1]; rfl)
      simp only [h1, Option.get_some] at h3
      rw [← h2]
      have h4 : (pyEncode arr.toList).toByteArray = req.toByteArray := h3
      exact List.toByteArray_inj.mp h4
  unfold respond
  rw [this]

/-- C88. The two example programs over two wrapped sockets that completed the handshake, for any request:
whatever the network does, no call raises, the server gets the whole request in its single `read`, the
client gets the whole answer in its single `read`, and nobody waits for ever. -/
theorem C88_answered {kex : Nat → Nat → Except Exn (Bytes × Bytes)}
    {sign : Nat → Bytes → Bytes → Nat → Except Exn Bytes} {key : Bytes} {gc gs : Config} {k : Choice}
    {a b : Wrapped} (L : Library E kex sign key k) (hu : k.suite ∈ [0x1301, 0x1302, 0x1303])
    (h : Established a.conn b.conn gc gs k) (ha : a.conn.outputData = []) (hb : b.conn.outputData = [])
    (version date : PyStr) (phrase : Nat → PyStr) {req : Bytes} (hreq : req ≠ []) (hq : req.length ≤ 16366)
    (hr : (page version date phrase req).length ≤ 16366) (ts : List (Bool × Nat)) :
    ∃ p q, perform E (E.elsewhere kex sign) ts ⟨client req, ⟨a, [], [], []⟩⟩
        ⟨server version date phrase, ⟨b, [], [], []⟩⟩ = .ok (p, q) ∧
      (Prog.Over p.prog → p.prog = .stop ∧ p.seat.got = page version date phrase req) ∧
      (Prog.Over q.prog → q.seat.got = req ∧ (q.prog = .unbound ↔ (respond req).2.2 = none)) ∧
      (Prog.Waits p.prog → Prog.Waits q.prog → p.seat.wire = [] → q.seat.wire = [] →
        Prog.Over p.prog ∧ Prog.Over q.prog) := by
  have C := C84_correspond L hu h ha hb
  have U := C87_undivided L hu h ha hb
  have hr0 : page version date phrase req ≠ [] := by
    refine encode_ne_nil ?_
    rw [makeHttp11Response]
    exact List.append_ne_nil_of_left_ne_nil (by simp [httpEnd]) _
  have hf : Prog.Over (if (respond req).2.2.isSome then Prog.stop else .unbound) := by
    split
    · exact .inl rfl
    · exact .inr rfl
  have S : Scene E (E.elsewhere kex sign) a b
      (fun req => .write (page version date phrase req) <|
        .close (if (respond req).2.2.isSome then .stop else .unbound))
      (if (respond req).2.2.isSome then .stop else .unbound) req (page version date phrase req) []
      ⟨client req, ⟨a, [], [], []⟩⟩ ⟨server version date phrase, ⟨b, [], [], []⟩⟩ :=
    ⟨⟨by simp, by simp, fun _ => trivial⟩, rfl, .inl ⟨rfl, rfl, by simp, rfl⟩, .inl ⟨rfl, rfl, by simp, rfl⟩⟩
  obtain ⟨p, q, xs, h1, h2⟩ := S.run C U hq hr hreq hr0 rfl hf ts
  refine ⟨p, q, h1, fun hp => ?_, fun hq => ?_, fun hp hq w1 w2 => ?_⟩
  · rcases h2.client with ⟨g, -⟩ | ⟨g, -⟩ | ⟨g, -⟩ | ⟨g, -, g2⟩
    · rw [g] at hp; rcases hp with hp | hp <;> cases hp
    · rw [g] at hp; rcases hp with hp | hp <;> cases hp
    · rw [g] at hp; rcases hp with hp | hp <;> cases hp
    · exact ⟨g, g2⟩
  · rcases h2.server with ⟨g, -⟩ | ⟨g, -⟩ | ⟨g, -⟩ | ⟨g, -, g2⟩
    · rw [g] at hq; rcases hq with hp | hp <;> cases hp
    · rw [g] at hq; rcases hq with hp | hp <;> cases hp
    · rw [g] at hq; rcases hq with hp | hp <;> cases hp
    · refine ⟨g2, ?_⟩
      rw [g]
      cases (respond req).2.2 <;> simp
  · obtain ⟨g1, g2⟩ := h2.ends C hreq hr0 hp hq w1 w2
    exact ⟨.inl g1, g2 ▸ hf⟩

theorem no_crlf {l : PyStr} (h : '\n' ∉ l) : ¬ ['\r', '\n'] <:+: l :=
  fun hc => h (hc.subset (by simp))

theorem three_words {x y z : PyStr} (h1 : x ≠ []) (h2 : y ≠ []) (h3 : z ≠ [])
    (h4 : ∀ c ∈ x ++ y ++ z, pySpace c = false) : Spec.Words (x ++ ' ' :: (y ++ ' ' :: z)) [x, y, z] :=
  .cons [] x ' ' _ _ (by simp) h1 (fun c hc => h4 c (by simp [hc])) rfl
    (.cons [] y ' ' _ _ (by simp) h2 (fun c hc => h4 c (by simp [hc])) rfl
      (.last [] z (by simp) h3 (fun c hc => h4 c (by simp [hc]))))

/-- the answer to the example client -/
theorem respond_simple (version host : PyStr) : respond (simpleRequest version host) =
    (200, "Hello from siotls\n".toList, some "GET / HTTP/1.1".toList) := by
  have e : "GET / HTTP/1.1".toList = "GET".toList ++ ' ' :: ("/".toList ++ ' ' :: "HTTP/1.1".toList) := rfl
  have n : ¬ ['\r', '\n'] <:+: "GET / HTTP/1.1".toList := no_crlf (by simp)
  have hl : FirstLine (makeHttp11Request version host "GET".toList "/".toList []) "GET / HTTP/1.1".toList := by
    refine ⟨n, .inr ⟨"Host: ".toList ++ host ++ httpAgent ++ version ++ httpType ++ httpLength ++ decNat 0 ++ httpEnd, ?_⟩⟩
    rw [makeHttp11Request, show httpVersion = " HTTP/1.1".toList ++ '\r' :: '\n' :: "Host: ".toList from rfl,
      show "GET / HTTP/1.1".toList = "GET".toList ++ [' '] ++ "/".toList ++ " HTTP/1.1".toList from rfl]
    simp only [List.append_assoc, List.cons_append, List.append_nil, List.length_nil, List.nil_append]
  have hw : Spec.Words "GET / HTTP/1.1".toList ["GET".toList, "/".toList, "HTTP/1.1".toList] := by
    rw [e]
    exact three_words (by decide) (by decide) (by decide) (by decide)
  rw [simpleRequest]
  exact (C89_code hl hw).2.2.2 _ rfl

/-- C88. `simple_client.connect` against `simple_server.handle_one`: a client that ends got the page, and
the server ends without an exception. -/
theorem C88_hello {kex : Nat → Nat → Except Exn (Bytes × Bytes)}
    {sign : Nat → Bytes → Bytes → Nat → Except Exn Bytes} {key : Bytes} {gc gs : Config} {k : Choice}
    {a b : Wrapped} (L : Library E kex sign key k) (hu : k.suite ∈ [0x1301, 0x1302, 0x1303])
    (h : Established a.conn b.conn gc gs k) (ha : a.conn.outputData = []) (hb : b.conn.outputData = [])
    (version host date : PyStr) (phrase : Nat → PyStr) (hq : (simpleRequest version host).length ≤ 16366)
    (hr : (page version date phrase (simpleRequest version host)).length ≤ 16366) (ts : List (Bool × Nat)) :
    ∃ p q, perform E (E.elsewhere kex sign) ts ⟨client (simpleRequest version host), ⟨a, [], [], []⟩⟩
        ⟨server version date phrase, ⟨b, [], [], []⟩⟩ = .ok (p, q) ∧
      (Prog.Over p.prog → p.prog = .stop ∧ p.seat.got = pyEncode (makeHttp11Response version 200 (phrase 200) date
        "Hello from siotls\n".toList)) ∧
      (Prog.Over q.prog → q.prog = .stop) ∧
      (Prog.Waits p.prog → Prog.Waits q.prog → p.seat.wire = [] → q.seat.wire = [] →
        Prog.Over p.prog ∧ Prog.Over q.prog) := by
  have hreq : simpleRequest version host ≠ [] := by
    refine encode_ne_nil ?_
    rw [makeHttp11Request]
    exact List.append_ne_nil_of_left_ne_nil (by simp [httpEnd]) _
  obtain ⟨p, q, h1, h2, h3, h4⟩ := C88_answered L hu h ha hb version date phrase hreq hq hr ts
  have e := respond_simple version host
  refine ⟨p, q, h1, fun hp => ?_, fun hp => ?_, h4⟩
  · obtain ⟨g1, g2⟩ := h2 hp
    refine ⟨g1, ?_⟩
    rw [g2, page, e]
  · rcases hp with hp | hp
    · exact hp
    · have := ((h3 (.inr hp)).2).mp hp
      rw [e] at this
      cases this

/-- no text starts with the byte 0xff -/
theorem no_text {text : PyStr} (h : pyEncode text = [0xff]) : False := by
  rcases text with _ | ⟨c, text⟩
  · cases h
  · rw [pyEncode, List.flatMap_cons] at h
    unfold String.utf8EncodeChar at h
    dsimp only at h
    split at h
    · obtain ⟨h, -⟩ := List.cons_eq_cons.mp h
      have := congrArg UInt8.toNat h
      rw [UInt8.toNat_ofNat', Nat.mod_eq_of_lt (by omega)] at this
      rw [show ((0xff : UInt8)).toNat = 255 from rfl] at this
      omega
    · split at h
      · cases (List.cons_eq_cons.mp h).2
      · split at h
        · cases (List.cons_eq_cons.mp h).2
        · cases (List.cons_eq_cons.mp h).2

/-- C90: the server ends without an exception for every request (it writes a line of log after the
answer). -/
def C90_statement : Prop := ∀ req, (respond req).2.2 ≠ none

/-- C90 is false: the name of the line is not bound when the request is not UTF-8. -/
theorem C90_false : ¬ C90_statement := by
  intro h
  apply h [0xff]
  have : respond [0xff] = (400, [], none) := C89_binary fun text ht => by
    exact no_text ht
  rw [this]

/-- C90, exactly for the requests that are text. -/
theorem C90_partial (req : Bytes) : (respond req).2.2 ≠ none ↔ ∃ text, pyEncode text = req := by
  constructor
  · intro h
    by_contra hc
    exact h (by rw [C89_binary fun t ht => hc ⟨t, ht⟩])
  · rintro ⟨text, rfl⟩
    obtain ⟨line, ws, h1, h2⟩ := C89_total text
    unfold respond
    rw [decode_encode]
    dsimp only
    split
    · split
      · simp
      · split <;> simp
    · simp

/-- The hypotheses of `C88_hello` (and so of `C88_answered`) are met by the two toys. -/
example : (∃ a b : Wrapped, Library Toy.env Toy.otherKex Toy.env.sign (Toy.serverConfig.privateKey.getD []) Toy.choice ∧
      Established a.conn b.conn Toy.clientConfig Toy.serverConfig Toy.choice ∧ a.conn.outputData = [] ∧
      b.conn.outputData = []) ∧
    (simpleRequest ['0'] ['a']).length ≤ 16366 ∧
    (page ['0'] ['n', 'o', 'w'] (fun _ => ['O', 'K']) (simpleRequest ['0'] ['a'])).length ≤ 16366 := by
  refine ⟨?_, ?_, ?_⟩
  rotate_left
  · decide +kernel
  · rw [page, respond_simple]
    decide +kernel
  obtain ⟨H, n1, h1⟩ := C83_handshake Toy.presentable Toy.compatible
    (Toy.library _ (.inl rfl)) Vouched.off rfl (algsC := [.sha256, .sha384]) (algsS := [.sha256])
    (randomC := List.replicate 32 5) (randomS := List.replicate 32 6)
    ⟨by decide, fun a => by cases a <;> decide⟩ rfl ⟨by decide, fun a => by cases a <;> decide⟩ rfl rfl
    (by decide) Toy.client0_new Toy.server0_new
  obtain ⟨F, n2, h2⟩ := h1 [H] (Toy.cuts n1)
  obtain ⟨Z, n3, h3⟩ := h2 [F] (Toy.cuts n2)
  obtain ⟨-, -, -, -, wc, ws, -, -, -, -, -, -, h4, h5, h6⟩ := h3 [Z] (Toy.cuts n3) _ _ (Toy.reel_carries [F])
    (Toy.reel_carries [H, Z])
  exact ⟨wc, ws, Toy.library _ (.inl rfl), h6, h4, h5⟩

/-- The hypotheses of `C89_code` are met: requests of the four kinds. -/
example : respond (pyEncode "GET / é\r\n".toList) = (200, "Hello from siotls\n".toList, some "GET / é".toList) ∧
    respond (pyEncode "GET /é x".toList) = (404, [], some "GET /é x".toList) ∧
    respond (pyEncode "PUT / x".toList) = (405, [], some "PUT / x".toList) ∧
    respond (pyEncode " \r\nx".toList) = (400, [], some " ".toList) := by
  have one : Spec.Words "GET / é".toList ["GET".toList, "/".toList, "é".toList] :=
    three_words (x := "GET".toList) (y := "/".toList) (z := "é".toList) (by decide) (by decide) (by decide) (by decide)
  have two : Spec.Words "GET /é x".toList ["GET".toList, "/é".toList, "x".toList] :=
    three_words (x := "GET".toList) (y := "/é".toList) (z := "x".toList) (by decide) (by decide) (by decide) (by decide)
  have three : Spec.Words "PUT / x".toList ["PUT".toList, "/".toList, "x".toList] :=
    three_words (x := "PUT".toList) (y := "/".toList) (z := "x".toList) (by decide) (by decide) (by decide) (by decide)
  exact ⟨(C89_code ⟨no_crlf (by simp), .inr ⟨[], rfl⟩⟩ one).2.2.2 _ rfl,
    (C89_code ⟨no_crlf (by simp), .inl rfl⟩ two).2.2.1 _ _ rfl (by decide),
    (C89_code ⟨no_crlf (by simp), .inl rfl⟩ three).2.1 _ _ _ rfl (by decide),
    (C89_code (line := " ".toList) ⟨no_crlf (by simp), .inr ⟨['x'], rfl⟩⟩ (.blank _ (by simp [pySpace]))).1 (by simp)⟩

end Siotls
