import Verif.Proofs.Parsed
import Verif.Proofs.Handshakes
import Verif.Props.Wire
/-!
# Properties C04, C05 (and the wire part of C57, C58): extensions and handshake messages
-/

namespace Siotls
open Serial

/-! ## C04 -/

/-- C04, full statement: every legal extension either does not fit or serializes to bytes that
parse back to it, consuming exactly those bytes, in every handshake message where it is allowed.

False of the code, see `C04_false_*` below. -/
def C04_statement (E : Env) : Prop :=
  ∀ (e : Ext) (k : HsKind), Spec.legal E e → k ∈ Spec.allowedIn e →
    serExt E e = .error .overflow ∨
    ∃ out, serExt E e = .ok out ∧ ∀ (trailing : Bytes) (pos : Nat),
      parseExt E k ⟨out ++ trailing, pos, []⟩ = .ok (e, ⟨trailing, pos + out.length, []⟩)

/-- C04 for every class except the certificate types (RFC 7250), `pre_shared_key` of ClientHello,
and host names whose IDNA form has another length. Missing: those three, whose serializer is
wrong in the code (`C04_false_cert_type`, `C04_false_psk`, `C04_false_idn`). -/
theorem C04_extensions_partial (E : Env) (e : Ext) (k : HsKind) (hl : Spec.legal E e)
    (hk : k ∈ Spec.allowedIn e) (hidn : Spec.asciiLike E e) (hw : Spec.knownBroken e = false) :
    serExt E e = .error .overflow ∨
    ∃ out, serExt E e = .ok out ∧ ∀ (trailing : Bytes) (pos : Nat),
      parseExt E k ⟨out ++ trailing, pos, []⟩ = .ok (e, ⟨trailing, pos + out.length, []⟩) := by
  rcases serExt_total hl hw with ⟨out, ho⟩ | ho
  · exact .inr ⟨out, ho, fun t pos => (parses_serExt ⟨hl, hk, hidn, hw⟩ ho).run t pos⟩
  · exact .inl ho

example : Spec.legal Toy.env (.keyShareReq [(0x1d, [1, 2]), (0x17, [3])]) ∧
    HsKind.clientHello ∈ Spec.allowedIn (.keyShareReq [(0x1d, [1, 2]), (0x17, [3])]) ∧
    serExt Toy.env (.keyShareReq [(0x1d, [1, 2]), (0x17, [3])]) =
      .ok [0, 51, 0, 13, 0, 11, 0, 0x1d, 0, 2, 1, 2, 0, 0x17, 0, 1, 3] :=
  ⟨by unfold Spec.legal; decide, by decide, by decide⟩

/-- C04: the wire format is the one of RFC 8446 §4.2 (type, length, body). -/
theorem C04_format (E : Env) (e : Ext) (out : Bytes) (h : serExt E e = .ok out) :
    ∃ body, serExtBody E e = .ok body ∧ out.length = 4 + body.length ∧
      Spec.bigEndian (out.take 2) = e.type ∧ Spec.bigEndian ((out.drop 2).take 2) = body.length ∧
      out.drop 4 = body := by
  obtain ⟨body, h1, h⟩ := Except.bind_eq_ok.mp h
  obtain ⟨t, h2, h⟩ := Except.bind_eq_ok.mp h
  obtain ⟨b, h3, h⟩ := Except.bind_eq_ok.mp h
  cases Except.pure_eq_ok.mp h
  obtain ⟨hlt, rfl⟩ := writeVar_ok.mp h3
  obtain ⟨hlt', rfl⟩ := toBytes_ok.mp h2
  refine ⟨body, h1, by simp; omega, ?_, ?_, ?_⟩
  · rw [List.take_left' (length_beEnc 2 _), bigEndian_eq_beDec, beDec_beEnc hlt']
  · rw [List.drop_left' (length_beEnc 2 _), List.take_left' (length_beEnc 2 _),
      bigEndian_eq_beDec, beDec_beEnc hlt]
  · rw [← List.append_assoc, List.drop_left']
    simp

/-- C04 is false: a client cannot even serialize its list of certificate types. -/
theorem C04_false_cert_type (E : Env) (l : List Nat) (t : Nat) :
    serExt E (.clientCertTypeReq l) = .error .attributeError ∧
    serExt E (.serverCertTypeReq l) = .error .attributeError ∧
    serExt E (.clientCertTypeResp t) = .error .attributeError ∧
    serExt E (.serverCertTypeResp t) = .error .attributeError :=
  ⟨rfl, rfl, rfl, rfl⟩

/-- C04 is false: neither do pre-shared keys, and without identities the binders are written
with a count where the parser (and RFC 8446 §4.2.11) expects a length in bytes. -/
theorem C04_false_psk (E : Env) :
    (∀ i is bs, serExt E (.pskReq (i :: is) bs) = .error .attributeError) ∧
    serExt E (.pskReq [] [[9, 9]]) = .ok [0, 41, 0, 6, 0, 0, 0, 1, 9, 9] ∧
    parseExt E .clientHello (Stream.new [0, 41, 0, 6, 0, 0, 0, 1, 9, 9]) ≠
      .ok (.pskReq [] [[9, 9]], ⟨[], 10, []⟩) := by
  refine ⟨fun i is bs => rfl, rfl, ?_⟩
  have : parseExt E .clientHello (Stream.new [0, 41, 0, 6, 0, 0, 0, 1, 9, 9]) =
    .error .bufMissing := rfl
  rw [this]
  simp

/-- an IDNA codec that, like the real one, is longer than the name on non-ASCII input -/
def idnEnv : Env :=
  { Toy.env with
    idnaEncode := fun h => if h = ['é'] then .ok [120, 110, 45, 45, 57] else .error .valueError
    idnaDecode := fun b => if b = [120, 110, 45, 45, 57] then some ['é'] else none }

/-- C04/C58 are false: a legal internationalized host name does not survive. -/
theorem C04_false_idn : ¬ C04_statement idnEnv := by
  intro h
  have hl : Spec.legal idnEnv (.serverNameReq (some ['é'])) :=
    ⟨[120, 110, 45, 45, 57], by decide, by decide⟩
  rcases h (.serverNameReq (some ['é'])) .clientHello hl (by decide) with h | ⟨out, ho, hp⟩
  · revert h; decide
  · have hs : serExt idnEnv (.serverNameReq (some ['é'])) =
      .ok [0, 0, 0, 10, 0, 8, 0, 0, 1, 120, 110, 45, 45, 57] := by decide
    rw [hs] at ho
    cases ho
    have := hp [] 0
    revert this
    decide

/-! ## C05 -/

/-- C05: whatever the library accepts to serialize is parsed by the other side to the same
message, nothing being left over. `ct` is the certificate type negotiated by the receiver. -/
theorem C05_roundtrip (E : Env) (ct : Option (Option Nat)) (h : Handshake) (out : Bytes)
    (hg : Spec.GoodMsg E ct h) (hs : serContent E (.handshake h) = .ok out) :
    decodeContent E ct 22 out = .ok (.handshake h) :=
  decode_serHandshake hg hs

/-- C05, message boundaries: parsing stops right after the message whatever follows. -/
theorem C05_boundary (E : Env) (ct : Option (Option Nat)) (h : Handshake) (out : Bytes)
    (hg : Spec.GoodMsg E ct h) (hs : serContent E (.handshake h) = .ok out) (trailing : Bytes) :
    parseHandshake E ct (Stream.new (out ++ trailing)) =
      .ok (some h, ⟨trailing, out.length, []⟩) := by
  have := (parses_serHandshake hg hs).run trailing 0
  simpa [Stream.new] using this

/-- C05: the header is the one of RFC 8446 §4 (type, 24-bit length). -/
theorem C05_format (E : Env) (h : Handshake) (out : Bytes)
    (hs : serContent E (.handshake h) = .ok out) :
    4 ≤ out.length ∧ out.head? = some (UInt8.ofNat h.msgType) ∧
      Spec.bigEndian ((out.drop 1).take 3) = out.length - 4 := by
  obtain ⟨body, h1, hs⟩ := Except.bind_eq_ok.mp hs
  obtain ⟨b, h2, hs⟩ := Except.bind_eq_ok.mp hs
  cases Except.pure_eq_ok.mp hs
  obtain ⟨hlt, rfl⟩ := writeVar_ok.mp h2
  refine ⟨by simp; omega, ?_, ?_⟩
  · simp [beEnc]
  · rw [List.drop_left' (length_beEnc 1 _), List.take_left' (length_beEnc 3 _),
      bigEndian_eq_beDec, beDec_beEnc hlt]
    simp; omega

/-- a ClientHello with several extensions, and a certificate chain of two -/
def demoHello : Handshake :=
  .clientHello (List.replicate 32 7) [1, 2] [0x1301, 0x1303]
    [.supportedVersionsReq [0x304], .supportedGroups [0x1d], .keyShareReq [(0x1d, [4, 5])],
     .signatureAlgorithms [0x807], .alpn [[104, 50]], .serverNameReq (some ['a', '.', 'b'])]

theorem demoHello_good : Spec.GoodMsg Toy.env none demoHello := by
  refine ⟨rfl, by decide, by unfold Spec.DistinctTypes; decide, ?_⟩
  intro e he
  simp only [List.mem_cons, List.not_mem_nil, or_false] at he
  rcases he with rfl | rfl | rfl | rfl | rfl | rfl
  · exact ⟨trivial, by decide, trivial, rfl⟩
  · exact ⟨trivial, by decide, trivial, rfl⟩
  · exact ⟨by unfold Spec.legal; decide, by decide, trivial, rfl⟩
  · exact ⟨trivial, by decide, trivial, rfl⟩
  · refine ⟨?_, by decide, trivial, rfl⟩
    show ∀ p ∈ _, ∀ c ∈ p, _
    decide
  · exact ⟨⟨_, rfl, by decide⟩, by decide, fun enc h => by cases h; rfl, rfl⟩

example : ∃ out, serContent Toy.env (.handshake demoHello) = .ok out ∧ 100 < out.length ∧
    decodeContent Toy.env none 22 out = .ok (.handshake demoHello) := by
  have hs : ∃ out, serContent Toy.env (.handshake demoHello) = .ok out ∧ 100 < out.length :=
    ⟨_, rfl, by decide⟩
  obtain ⟨out, ho, hl⟩ := hs
  exact ⟨out, ho, hl, C05_roundtrip _ _ _ _ demoHello_good ho⟩

example : Spec.GoodMsg Toy.env (some (some 0))
    (.certificate [] [.x509 [1, 2, 3] [.ocspStatus [9]], .x509 [4] []]) := by
  refine .inl ⟨rfl, ?_⟩
  intro e he
  simp only [List.mem_cons, List.not_mem_nil, or_false] at he
  rcases he with rfl | rfl
  · refine ⟨rfl, rfl, by unfold Spec.DistinctTypes; decide, ?_⟩
    intro e he
    simp only [List.mem_cons, List.not_mem_nil, or_false] at he
    subst he
    exact ⟨trivial, by decide, trivial, rfl⟩
  · exact ⟨rfl, rfl, by unfold Spec.DistinctTypes; decide, by simp⟩

/-! ## C62: the fixed fields of the hellos -/

/-- C62, ClientHello: an accepted ClientHello is, byte for byte, RFC 8446 §4.1.2's structure with
legacy_version 0x0303, a random of 32 bytes, at least one cipher suite, the null compression
alone and a well-formed block of extensions; when pre_shared_key is there it is the last one and
psk_key_exchange_modes is there too. The extensions handed over are those of the block. -/
theorem C62_client_hello (E : Env) (ct : Option (Option Nat)) (data r sid : Bytes)
    (suites : List Nat) (exts : List Ext)
    (h : decodeContent E ct 22 data = .ok (.handshake (.clientHello r sid suites exts))) :
    r.length = 32 ∧ sid.length < 256 ∧ suites ≠ [] ∧ (∀ i ∈ suites, i < 65536) ∧
    ∃ items : List (Nat × Bytes), data = Spec.clientHello r sid suites items ∧
      (∀ x ∈ items, x.1 < 65536 ∧ x.2.length < 65536) ∧
      (exts.map Ext.type).Nodup ∧ (∀ t, t ∈ exts.map Ext.type ↔ t ∈ items.map Prod.fst) ∧
      (41 ∈ items.map Prod.fst → (items.map Prod.fst).getLast? = some 41 ∧
        45 ∈ items.map Prod.fst) := by
  obtain ⟨l, items, rfl, hi, hr, hs, hn, h16, _, hpsk, hd⟩ := clientHello_layout h
  obtain ⟨d1, d2, _⟩ := dictOfExts_spec l
  refine ⟨hr, hs, hn, h16, items, hd, hi.2.1, d1, ?_, ?_⟩
  · rw [← hi.1]; exact d2
  · rw [← hi.1]; exact hpsk

/-- C62, ServerHello: legacy_version 0x0303, compression 0, not the HelloRetryRequest random. -/
theorem C62_server_hello (E : Env) (ct : Option (Option Nat)) (data r sid : Bytes)
    (suite : Nat) (exts : List Ext)
    (h : decodeContent E ct 22 data = .ok (.handshake (.serverHello r sid suite exts))) :
    r.length = 32 ∧ r ≠ Spec.helloRetryRandom ∧ sid.length < 256 ∧ suite < 65536 ∧
    ∃ items : List (Nat × Bytes), data = Spec.serverHello r sid suite items ∧
      (∀ x ∈ items, x.1 < 65536 ∧ x.2.length < 65536) ∧
      (exts.map Ext.type).Nodup ∧ (∀ t, t ∈ exts.map Ext.type ↔ t ∈ items.map Prod.fst) := by
  obtain ⟨r', sid', suite', l, items, hh, hi, hr, hs, hn, hd⟩ := serverHello_layout h rfl
  by_cases hx : r' = hrrRandom
  · rw [if_pos hx] at hh; cases hh
  · rw [if_neg hx] at hh
    cases hh
    obtain ⟨d1, d2, _⟩ := dictOfExts_spec l
    exact ⟨hr, hx, hs, hn, items, hd, hi.2.1, d1, by rw [← hi.1]; exact d2⟩

/-- C62, HelloRetryRequest: a ServerHello whose random is the special one. -/
theorem C62_hello_retry_request (E : Env) (ct : Option (Option Nat)) (data r sid : Bytes)
    (suite : Nat) (exts : List Ext)
    (h : decodeContent E ct 22 data = .ok (.handshake (.helloRetryRequest r sid suite exts))) :
    r = Spec.helloRetryRandom ∧ sid.length < 256 ∧ suite < 65536 ∧
    ∃ items : List (Nat × Bytes), data = Spec.serverHello r sid suite items ∧
      (∀ x ∈ items, x.1 < 65536 ∧ x.2.length < 65536) ∧
      (exts.map Ext.type).Nodup ∧ (∀ t, t ∈ exts.map Ext.type ↔ t ∈ items.map Prod.fst) := by
  obtain ⟨r', sid', suite', l, items, hh, hi, hr, hs, hn, hd⟩ := serverHello_layout h rfl
  by_cases hx : r' = hrrRandom
  · rw [if_pos hx] at hh
    cases hh
    obtain ⟨d1, d2, _⟩ := dictOfExts_spec l
    exact ⟨hx, hs, hn, items, hd, hi.2.1, d1, by rw [← hi.1]; exact d2⟩
  · rw [if_neg hx] at hh; cases hh

/-- hellos that are accepted: with a pre-shared key, a ServerHello, a HelloRetryRequest -/
example : (decodeContent Toy.env none 22 (Spec.clientHello (List.replicate 32 7) [1] [0x1301]
    [(43, [2, 3, 4]), (45, [1, 1]), (41, [0, 7, 0, 1, 9, 0, 0, 0, 0, 0, 33, 32] ++
      List.replicate 32 5)])).isOk = true := by decide +kernel
example : (decodeContent Toy.env none 22 (Spec.serverHello (List.replicate 32 7) [1] 0x1301
    [(43, [3, 4])])).isOk = true := by decide +kernel
example : (decodeContent Toy.env none 22 (Spec.serverHello Spec.helloRetryRandom [1] 0x1301
    [(43, [3, 4]), (51, [0, 29])])).isOk = true := by decide +kernel

end Siotls
