import Verif.Proofs.Suites
import Verif.Props.Messages
import Verif.Props.Negotiation
/-!
# Properties C47, C51 (second half) and C58
-/

namespace Siotls
open Serial Spec

variable {E : Env}

/-! ## C51 -/

/-- C51, second half, full statement: the negotiated configuration of a connected connection is
frozen. False of the code: `C51_false`. -/
def C51_statement (E : Env) : Prop :=
  ∀ (config : Config) hostname ocsp algs random (c : Conn) (ops : List Op),
    Conn.new config hostname ocsp algs random = .ok c → (runOps E ops c).state = .connected →
    ∃ nc, (runOps E ops c).nconfig = some nc ∧ nc.frozen = true

/-- C51, second half: the opposite holds. Nothing in the library ever freezes a negotiated
configuration, in any state. -/
theorem C51_never {config : Config} {hostname ocsp algs random} {c : Conn}
    (hc : Conn.new config hostname ocsp algs random = .ok c) (ops : List Op) {nc : NConfig}
    (h : (runOps E ops c).nconfig = some nc) : nc.frozen = false :=
  Thawed.run hc ops nc h

theorem C51_false : ¬ C51_statement Toy.env := by
  intro h
  obtain ⟨nc, h1, h2⟩ := h _ _ _ _ _ _ Toy.clientOps Toy.client0_new Toy.client_facts.1.1
  rw [C51_never Toy.client0_new Toy.clientOps h1] at h2
  cases h2

/-! ## C47 -/

/-- the suites of crypto/ciphers.py -/
def registered : List Nat := [0x1301, 0x1302, 0x1303, 0x1304, 0x1305]

/-- C47, full statement (of one side): every registered suite can end in a connected connection.
False: `C47_false`. -/
def C47_statement (E : Env) : Prop :=
  ∀ s ∈ registered, ∃ (config : Config) (hostname : Option PyStr) (ocsp : Bool)
    (algs : List HashAlg) (random : Bytes) (c : Conn) (ops : List Op) (nc : NConfig),
    config.cipherSuites = [s] ∧ Conn.new config hostname ocsp algs random = .ok c ∧
    (runOps E ops c).state = .connected ∧ (runOps E ops c).nconfig = some nc

/-- C47, what is wrong: whoever the peer is and whatever the crypto library, a connection that only
allows the CCM suites never becomes connected. -/
theorem C47_ccm {config : Config} {hostname ocsp algs random} {c : Conn}
    (hc : Conn.new config hostname ocsp algs random = .ok c)
    (hs : ∀ s ∈ config.cipherSuites, s = 0x1304 ∨ s = 0x1305) (ops : List Op) :
    (runOps E ops c).state ≠ .connected ∧
    (∀ s key nonce aad pt, Ev.sealed s key nonce aad pt ∉ (runOps E ops c).tr) ∧
    ∀ s key nonce aad pt, Ev.opened s key nonce aad pt ∉ (runOps E ops c).tr := by
  have h := SuiteInv.run (E := E) hc ops
  have no : ∀ s ∈ config.cipherSuites, ∀ info lim, suiteInfo s = some info →
      info.usageLimit ≠ some lim := by
    intro s hm info lim hi
    rcases hs s hm with rfl | rfl <;> cases hi <;> simp
  refine ⟨fun hst => ?_, fun s key nonce aad pt he => ?_, fun s key nonce aad pt he => ?_⟩
  · obtain ⟨k, h1, h2⟩ := h.done hst
    obtain ⟨s, h3, h4⟩ := h.cipher k h1
    cases hu : k.info.usageLimit with
    | none => exact h2 hu
    | some lim => exact no s h3 _ lim h4 hu
  · obtain ⟨h1, info, lim, h2, h3⟩ := h.trace _ he
    exact no s h1 info lim h2 h3
  · obtain ⟨h1, info, lim, h2, h3⟩ := h.trace _ he
    exact no s h1 info lim h2 h3

/-- C47: a connected connection uses one of the suites of its configuration, and not a CCM one. -/
theorem C47_connected {config : Config} {hostname ocsp algs random} {c : Conn}
    (hc : Conn.new config hostname ocsp algs random = .ok c) (ops : List Op)
    (hst : (runOps E ops c).state = .connected) :
    ∃ k, (runOps E ops c).cipher = some k ∧ k.info.id ∈ config.cipherSuites ∧
      k.info.id ∈ [0x1301, 0x1302, 0x1303] := by
  have h := SuiteInv.run (E := E) hc ops
  obtain ⟨k, h1, h2⟩ := h.done hst
  obtain ⟨s, h3, h4⟩ := h.cipher k h1
  refine ⟨k, h1, by rw [suiteInfo_id h4]; exact h3, ?_⟩
  rw [suiteInfo_id h4]
  generalize k.info = info at h2 h4
  unfold suiteInfo at h4
  split at h4 <;> cases h4 <;> first | exact absurd rfl h2 | simp

theorem C47_false (E : Env) : ¬ C47_statement E := by
  intro h
  obtain ⟨config, hostname, ocsp, algs, random, c, ops, nc, h1, h2, h3, h4⟩ :=
    h 0x1304 (by simp [registered])
  exact (C47_ccm (E := E) h2 (fun s hs => by rw [h1] at hs; simp at hs; exact .inl hs) ops).1 h3

example : Toy.clientDone.state = .connected := Toy.client_facts.1.1

/-- such configurations are accepted -/
example : ({ Toy.clientConfig with cipherSuites := [0x1304, 0x1305] } : Config).check = .ok () ∧
    ∃ c, Conn.new { Toy.clientConfig with cipherSuites := [0x1304, 0x1305] } none false [.sha256]
      (List.replicate 32 5) = .ok c := ⟨by decide, _, rfl⟩

/-! ## C58 -/

/-- C58, full statement: for every host name that IDNA can represent, the extension written by the
client is read by the server as that name. False: `C58_false`. -/
def C58_statement (E : Env) : Prop :=
  ∀ (h : PyStr) (enc out : Bytes), E.idnaEncode h = .ok enc → E.idnaDecode enc = some h →
    serExt E (.serverNameReq (some h)) = .ok out → ∀ (trailing : Bytes) (pos : Nat),
    parseExt E .clientHello ⟨out ++ trailing, pos, []⟩ =
      .ok (.serverNameReq (some h), ⟨trailing, pos + out.length, []⟩)

/-- C58 for the names whose encoding has as many bytes as the name has characters (the ASCII names).
Missing: the others, see `C58_longer` and `C58_shorter`. -/
theorem C58_partial {h : PyStr} {enc out : Bytes} (h1 : E.idnaEncode h = .ok enc)
    (h2 : E.idnaDecode enc = some h) (hl : enc.length = h.length)
    (ho : serExt E (.serverNameReq (some h)) = .ok out) (trailing : Bytes) (pos : Nat) :
    parseExt E .clientHello ⟨out ++ trailing, pos, []⟩ =
      .ok (.serverNameReq (some h), ⟨trailing, pos + out.length, []⟩) :=
  parses_serExt (E := E) (k := .clientHello) (e := .serverNameReq (some h))
    { legal := (⟨enc, h1, h2⟩ : ∃ e, E.idnaEncode h = .ok e ∧ E.idnaDecode e = some h), allowed := (by simp [Spec.allowedIn]),
      ascii := (fun e he => by rw [h1] at he; cases he; exact hl), works := rfl } ho trailing pos []
    (fun _ h => by cases h)

/-- the bytes of the extension -/
theorem serverName_bytes {h : PyStr} {enc out : Bytes} (h1 : E.idnaEncode h = .ok enc)
    (ho : serExt E (.serverNameReq (some h)) = .ok out) :
    out = beEnc 2 0 ++ (beEnc 2 (enc.length + 5) ++ (beEnc 2 (enc.length + 3) ++
      (beEnc 1 0 ++ (beEnc 2 h.length ++ enc)))) ∧ enc.length + 5 < 256 ^ 2 ∧ h.length < 256 ^ 2 := by
  obtain ⟨body, h2, ho⟩ := Except.bind_eq_ok.mp ho
  obtain ⟨t, h3, ho⟩ := Except.bind_eq_ok.mp ho
  obtain ⟨b, h4, ho⟩ := Except.bind_eq_ok.mp ho
  cases Except.pure_eq_ok.mp ho
  obtain ⟨hlt, rfl⟩ := writeVar_ok.mp h4
  obtain ⟨_, rfl⟩ := toBytes_ok.mp h3
  obtain ⟨len, h5, h2⟩ := Except.bind_eq_ok.mp h2
  obtain ⟨enc', h6, h2⟩ := Except.bind_eq_ok.mp h2
  rw [h1] at h6
  cases h6
  obtain ⟨hlt', rfl⟩ := toBytes_ok.mp h5
  obtain ⟨_, rfl⟩ := writeVar_ok.mp h2
  have e : (beEnc 2 (beEnc 1 0 ++ beEnc 2 h.length ++ enc).length ++
      (beEnc 1 0 ++ beEnc 2 h.length ++ enc)).length = enc.length + 5 := by
    simp only [List.length_append, length_beEnc]; omega
  have e' : (beEnc 1 0 ++ beEnc 2 h.length ++ enc).length = enc.length + 3 := by
    simp only [List.length_append, length_beEnc]; omega
  rw [e] at hlt
  refine ⟨?_, hlt, hlt'⟩
  rw [e, e']
  simp only [List.append_assoc]
  rfl

/-- reading the extension comes down to reading the list of names inside -/
theorem serverName_outer {h : PyStr} {enc out : Bytes} {e : Exn} (h1 : E.idnaEncode h = .ok enc)
    (ho : serExt E (.serverNameReq (some h)) = .ok out)
    (he : parseMany (parseServerName E) (beEnc 1 0 ++ (beEnc 2 h.length ++ enc)) = .error e)
    (trailing : Bytes) (pos : Nat) :
    parseExt E .clientHello ⟨out ++ trailing, pos, []⟩ = .error e := by
  obtain ⟨rfl, hlt, hlt'⟩ := serverName_bytes h1 ho
  have hn : (beEnc 1 0 ++ (beEnc 2 h.length ++ enc)).length = enc.length + 3 := by
    simp only [List.length_append, length_beEnc]; omega
  generalize beEnc 1 0 ++ (beEnc 2 h.length ++ enc) = b at he hn
  rw [parseExt, P.bind_def, List.append_assoc,
    parses_readInt (n := 2) (i := 0) (by decide) (by decide) _ _ _ (fun _ h => by cases h)]
  show (P.lift (extClass 0 .clientHello) >>= fun cls => readInt 2 >>= fun len =>
    limit len (parseExtBody E 0 cls)) _ = _
  rw [P.bind_def]
  show (readInt 2 >>= fun len => limit len (parseExtBody E 0 .serverNameReq)) _ = _
  rw [P.bind_def, List.append_assoc,
    parses_readInt (n := 2) (by decide) hlt _ _ _ (fun _ h => by cases h)]
  show limit (enc.length + 5) (parseExtBody E 0 .serverNameReq) _ = _
  rw [limit]
  dsimp only
  rw [if_neg (by simp), parseExtBody, P.bind_def, ← hn, parses_writeVar (n := 2) (b := b) (by decide)
    (out := beEnc 2 b.length ++ b) (by
      rw [writeVar, toBytes, if_pos (by rw [hn]; omega)]; rfl) _ _ _ (fun l hl => by
      simp at hl
      subst hl
      simp only [List.length_append, length_beEnc, hn]; omega)]
  dsimp only
  rw [P.bind_def, he]
  rfl

theorem parses_serverName {pre : Bytes} (hb : pre.length < 256 ^ 2) :
    Parses (parseServerName E) (beEnc 1 0 ++ (beEnc 2 pre.length ++ pre)) (E.idnaDecode pre) :=
  Parses.bind (parses_readInt (by decide) (by decide)) (by
    rw [if_pos rfl]
    exact Parses.bind_pure (parses_readVar (by decide) hb) rfl)

/-- C58, what is wrong: when the encoding is longer than the name (every internationalized name),
whatever the peer's IDNA codec does, the server answers the hello with an unrecognized_name alert. -/
theorem C58_longer {h : PyStr} {enc out : Bytes} (h1 : E.idnaEncode h = .ok enc)
    {x : UInt8} (hl : enc[h.length]? = some x) (hx : x ≠ 0)
    (ho : serExt E (.serverNameReq (some h)) = .ok out) (trailing : Bytes) (pos : Nat) :
    parseExt E .clientHello ⟨out ++ trailing, pos, []⟩ = .error (.alert Iana.unrecognizedName) := by
  obtain ⟨hlt, hx'⟩ := List.getElem?_eq_some_iff.mp hl
  have hsplit : enc = enc.take h.length ++ x :: enc.drop (h.length + 1) := by
    rw [← hx', List.getElem_cons_drop, List.take_append_drop]
  have hlen : (enc.take h.length).length = h.length := by rw [List.length_take]; omega
  have hb := (serverName_bytes h1 ho).2.2
  refine serverName_outer h1 ho ?_ trailing pos
  generalize enc.take h.length = pre, enc.drop (h.length + 1) = post at hsplit hlen
  subst hsplit
  rw [← hlen] at hb ⊢
  have hp := parses_serverName (E := E) hb (x :: post) 0 [] (fun _ h => by cases h)
  simp only [List.append_assoc] at hp
  have hk : (beEnc 1 0 ++ (beEnc 2 pre.length ++ (pre ++ x :: post))).length =
      pre.length + post.length + 3 + 1 := by
    simp only [List.length_append, length_beEnc, List.length_cons]; omega
  rw [parseMany, hk, untilEof, if_neg (by simp [Stream.new, beEnc])]
  simp only [Stream.new, hp]
  rw [untilEof, if_neg (by simp)]
  have : parseServerName E ⟨x :: post, 0 + (beEnc 1 0 ++ (beEnc 2 pre.length ++ pre)).length, []⟩ =
      .error (.alert Iana.unrecognizedName) := by
    have hx1 : x.toNat < 256 ^ 1 := by have := x.toNat_lt; omega
    have he : x :: post = beEnc 1 x.toNat ++ post := by simp [beEnc]
    rw [parseServerName, P.bind_def, he, parses_readInt (by decide) hx1 _ _ _ (fun _ h => by cases h)]
    dsimp only
    rw [if_neg (fun h0 : x.toNat = 0 => hx (UInt8.toNat_inj.mp h0))]
    rfl
  rw [this]

/-- C58, what is wrong: when the encoding is shorter than the name, the server finds the hello
malformed. -/
theorem C58_shorter {h : PyStr} {enc out : Bytes} (h1 : E.idnaEncode h = .ok enc)
    (hl : enc.length < h.length)
    (ho : serExt E (.serverNameReq (some h)) = .ok out) (trailing : Bytes) (pos : Nat) :
    parseExt E .clientHello ⟨out ++ trailing, pos, []⟩ = .error .bufMissing := by
  have hb := (serverName_bytes h1 ho).2.2
  refine serverName_outer h1 ho ?_ trailing pos
  have hk : (beEnc 1 0 ++ (beEnc 2 h.length ++ enc)).length = enc.length + 2 + 1 := by
    simp only [List.length_append, length_beEnc]; omega
  rw [parseMany, hk, untilEof, if_neg (by simp [Stream.new, beEnc])]
  have : parseServerName E ⟨beEnc 1 0 ++ (beEnc 2 h.length ++ enc), 0, []⟩ = .error .bufMissing := by
    rw [parseServerName, P.bind_def,
      parses_readInt (by decide) (by decide) _ _ _ (fun _ h => by cases h)]
    dsimp only
    rw [if_pos rfl, P.bind_def, readVar, P.bind_def,
      parses_readInt (by decide) hb _ _ _ (fun _ h => by cases h)]
    dsimp only
    rw [readExactly, if_neg (by omega)]
    simp only [Serial.read, Serial.rawRead]
    rw [if_neg (by rw [List.length_take]; omega)]
  simp only [Stream.new, this]

/-- C58: with an encoding without NUL bytes (IDNA has none), whether the server gets the name is
decided by one comparison. -/
theorem C58_exact {h : PyStr} {enc out : Bytes} (h1 : E.idnaEncode h = .ok enc)
    (h2 : E.idnaDecode enc = some h) (hz : (0 : UInt8) ∉ enc)
    (ho : serExt E (.serverNameReq (some h)) = .ok out) (trailing : Bytes) (pos : Nat) :
    parseExt E .clientHello ⟨out ++ trailing, pos, []⟩ =
      .ok (.serverNameReq (some h), ⟨trailing, pos + out.length, []⟩) ↔ enc.length = h.length := by
  refine ⟨fun hp => ?_, fun hl => C58_partial h1 h2 hl ho trailing pos⟩
  rcases Nat.lt_trichotomy enc.length h.length with hl | hl | hl
  · rw [C58_shorter h1 hl ho] at hp; cases hp
  · exact hl
  · rw [C58_longer h1 (List.getElem?_eq_getElem hl)
      (fun h0 => hz (h0 ▸ List.getElem_mem hl)) ho] at hp
    cases hp

theorem C58_false : ¬ C58_statement idnEnv := by
  intro h
  have ho : serExt idnEnv (.serverNameReq (some ['é'])) =
    .ok [0, 0, 0, 10, 0, 8, 0, 0, 1, 120, 110, 45, 45, 57] := by decide
  have hp := h ['é'] [120, 110, 45, 45, 57] _ (by decide) (by decide) ho [] 0
  rw [C58_longer (E := idnEnv) (h := ['é']) (enc := [120, 110, 45, 45, 57]) (x := 110) (by decide)
    rfl (by decide) ho] at hp
  cases hp

example : Toy.env.idnaEncode ['a', 'b'] = .ok [97, 98] ∧
    Toy.env.idnaDecode [97, 98] = some ['a', 'b'] ∧
    serExt Toy.env (.serverNameReq (some ['a', 'b'])) =
      .ok [0, 0, 0, 7, 0, 5, 0, 0, 2, 97, 98] := by decide

/-- an encoding that is shorter, as IDNA's may be for composed characters -/
example : let E := { Toy.env with idnaEncode := fun _ => .ok [120] }
    serExt E (.serverNameReq (some ['a', 'b'])) = .ok [0, 0, 0, 6, 0, 4, 0, 0, 2, 120] := by decide

/-- C58: the extension is there to begin with: every hello of a client with a host name that is not
an IP address carries that name, and no other hello carries one. -/
theorem C58_sent {config : Config} {hostname ocsp algs random} {c : Conn}
    (hc : Conn.new config hostname ocsp algs random = .ok c) (hside : config.side = .client)
    (ops : List Op) {r sid : Bytes} {suites : List Nat} {exts : List Ext}
    (hs : Ev.sent (.handshake (.clientHello r sid suites exts)) ∈ (runOps E ops c).tr)
    (name : Option PyStr) :
    Ext.serverNameReq name ∈ exts ↔ ∃ h, name = some h ∧ hostname = some h ∧ h ≠ [] ∧
      E.isIp h = false := by
  obtain ⟨post, pre, htr⟩ := List.append_of_mem hs
  have h := (CliInv.run (E := E) hc hside ops).trace
  rw [htr] at h
  obtain ⟨_, _, k, grp, cookie, ho, _⟩ := h _ pre (List.suffix_append _ _)
  obtain ⟨c₁, share, rfl, h2, rfl⟩ := ho.exts
  have key : Ext.serverNameReq name ∈ clientExtensions E c₁ cookie ++ [.keyShareReq [(grp, share)]] ↔
      Ext.serverNameReq name ∈ (match hostname with
        | some h => if h.isEmpty || E.isIp h then [] else [Ext.serverNameReq (some h)]
        | none => []) := by
    unfold clientExtensions
    rw [h2]
    have a1 : Ext.serverNameReq name ∉ (if c₁.config.alpn.isEmpty then [] else
        [Ext.alpn c₁.config.alpn]) := by split <;> simp
    have a2 : Ext.serverNameReq name ∉ (if c₁.config.publicKey.isSome then
        [Ext.clientCertTypeReq c₁.config.certificateTypes] else []) := by split <;> simp
    have a3 : Ext.serverNameReq name ∉ (if c₁.config.trustedPublicKeys.isEmpty then [] else
        [Ext.serverCertTypeReq c₁.config.peerCertificateTypes]) := by split <;> simp
    have a4 : Ext.serverNameReq name ∉ (if c₁.config.trustStore.isSome then
        [Ext.ocspStatusReq [] []] else []) := by split <;> simp
    simp only [List.mem_append, a1, a2, a3, a4, List.mem_cons, List.not_mem_nil, or_false,
      false_or, reduceCtorEq]
    refine ⟨fun hm => hm.elim id fun hm => ?_, .inl⟩
    split at hm
    · split at hm <;> simp at hm
    · cases hm
  rw [key]
  cases hostname with
  | none => simp
  | some host =>
    clear h
    cases host with
    | nil => simp
    | cons ch host =>
      cases hip : E.isIp (ch :: host)
      · simp only [List.isEmpty_cons, hip, Bool.or_self, Bool.false_eq_true, if_false,
          List.mem_singleton, Ext.serverNameReq.injEq]
        constructor
        · rintro rfl
          exact ⟨_, rfl, rfl, by simp, hip⟩
        · rintro ⟨h', rfl, h3, _⟩
          exact h3.symm
      · simp only [List.isEmpty_cons, hip, Bool.or_true, if_true, List.not_mem_nil, false_iff]
        rintro ⟨h', rfl, h3, _, h4⟩
        cases h3
        rw [hip] at h4
        cases h4

/-- a hello was sent, for the host name 'a' -/
example : Conn.new Toy.alpnClient (some ['a']) false [.sha256, .sha384] (List.replicate 32 5) =
      .ok Toy.alpnClient0 ∧ Toy.alpnClient.side = .client ∧ Toy.env.isIp ['a'] = false ∧
    ∃ r sid suites exts, Ev.sent (.handshake (.clientHello r sid suites exts)) ∈
      (runOps Toy.env [.initiate] Toy.alpnClient0).tr := by
  refine ⟨Toy.alpnClient0_new, rfl, rfl, ?_⟩
  obtain ⟨e, he, ho⟩ := List.any_eq_true.mp Toy.alpn_facts.2.2.1
  unfold Toy.isOffer at ho
  split at ho
  · exact ⟨_, _, _, _, he⟩
  · cases ho

end Siotls
