import Verif.Model.Conn
/-!
# Record layer: /repo/src/siotls/connection.py:168-370
-/

namespace Siotls
open Serial

/-- `max_fragment_length`, connection.py:197-201. -/
def Conn.mfl (c : Conn) : Nat :=
  match c.nconfig.bind (·.maxFragmentLength) with
  | some n => n
  | none => c.config.maxFragmentLength

/-- `self._cipher.must_encrypt`, ciphers.py:141-143 and connection.py:19. -/
def Conn.mustEncrypt (c : Conn) : Bool := match c.cipher with
  | some k => k.wr.key.isSome
  | none => false

/-- `self._cipher.must_decrypt`, ciphers.py:137-139 and connection.py:20. -/
def Conn.mustDecrypt (c : Conn) : Bool := match c.cipher with
  | some k => k.rd.key.isSome
  | none => false

/-! ## Sending -/

/-- `data[i : i + n] for i in range(0, len(data), n)`, connection.py:316-319 (`0 < n`). Fuel:
`data.length`. -/
def chunksOf (n : Nat) : Nat → Bytes → List Bytes
  | 0, _ => []
  | k + 1, d => if d.isEmpty then [] else d.take n :: chunksOf n k (d.drop n)

/-- connection.py:308-324. A step of zero is a ValueError of `range`, a negative step makes an
empty range. -/
def splitFragments (fragLen : Int) (canFragment : Bool) (data : Bytes) :
    Except Exn (List Bytes) :=
  if (data.length : Int) ≤ fragLen then .ok [data]
  else if canFragment then
    if fragLen = 0 then .error .valueError
    else if fragLen < 0 then .ok []
    else .ok (chunksOf fragLen.toNat data.length data)
  else .error .valueError

/-- `self._cipher.encrypt(data, header)`, ciphers.py:158-164, run inside a generator (a
StopIteration becomes RuntimeError). -/
def cipherEncrypt (E : Env) (data header : Bytes) : M Bytes := fun c =>
  match c.cipher with
  | none => (.error .attributeError, c)
  | some k =>
    match k.wr.key with
    | none => (.error .attributeError, c)
    | some key =>
      match nextNonce k.info k.wr with
      | .error .stopIteration => (.error .runtimeError, c)
      | .error e => (.error e, c)
      | .ok (nonce, wr) =>
        (.ok (E.aeadSeal k.info.id key nonce header data),
         { c with cipher := some { k with wr := wr },
                  tr := .sealed k.info.id key nonce header data :: c.tr })

/-- number of zero bytes appended by `_encrypt`, connection.py:350-354. -/
def padLength (mfl fragLength tag : Nat) : Nat :=
  min mfl 4096 - (fragLength + 1 + tag) % min mfl 4096

/-- the inner plaintext built by `_encrypt`, connection.py:353-359. -/
def innerText (mfl tag ctype : Nat) (fragment : Bytes) : Bytes :=
  fragment ++ (beEnc 1 ctype ++ zeros (padLength mfl fragment.length tag))

/-- record header, connection.py:360-364 and 337-340. -/
def recordHeader (outer length : Nat) : Except Exn Bytes := do
  let l ← toBytes 2 length
  return beEnc 1 outer ++ (beEnc 2 Iana.tls12 ++ l)

/-- one turn of the loop of `_encrypt`, connection.py:352-370. -/
def encryptFragment (E : Env) (ctype : Nat) (fragment : Bytes) : M Bytes := do
  let c ← M.get
  let k ← getCipher
  let data := innerText c.mfl k.info.tagLength ctype fragment
  let header ← M.lift (recordHeader Iana.ctApplicationData (data.length + k.info.tagLength))
  let enc ← cipherEncrypt E data header
  if enc.length = data.length + k.info.tagLength then return enc else M.throw .assertion

/-- connection.py:326-334: encrypted or left as is. -/
def protect (E : Env) (encrypt : Bool) (ctype : Nat) (fragment : Bytes) : M Bytes :=
  if encrypt then encryptFragment E ctype fragment else M.pure fragment

/-- connection.py:326-344 for the remaining fragments: the records, in order. -/
def makeRecords (E : Env) (encrypt : Bool) (ctype : Nat) : List Bytes → M (List (Nat × Bytes × Bytes))
  | [] => return []
  | f :: fs => do
    let body ← protect E encrypt ctype f
    let outer := if encrypt then Iana.ctApplicationData else ctype
    let header ← M.lift (recordHeader outer body.length)
    let rest ← makeRecords E encrypt ctype fs
    return (outer, body, header ++ body) :: rest

/-- `self._output_data += …`, connection.py:336. -/
def emitRecords (content : Content) (records : List (Nat × Bytes × Bytes)) : M Unit :=
  M.modify fun c =>
    { c with outputData := c.outputData ++ (records.map (·.2.2)).flatten,
             tr := .sent content ::
               ((records.map fun r => Ev.record r.1 r.2.1).reverse ++ c.tr) }

/-- connection.py:118-121 and 305-306: handshake messages are hashed; `None` (the result of the
handshake classes without parser) has no `msg_type`. -/
def hashContent (data : Bytes) (side : Side) : Content → M Unit
  | .handshake h => transcriptUpdate data side h.msgType
  | .unparsed => M.throw .attributeError
  | _ => pure ()

/-- `_send_content`, connection.py:289-344. Sending a heartbeat reads the attribute
`config.can_send_heartbeat`, which does not exist. -/
def sendContent (E : Env) (content : Content) : M Unit := do
  let c ← M.get
  if content.ctype = Iana.ctApplicationData ∧ c.state.canSendApp = false then M.throw .tlsError
  else if c.state.canSend = false then M.throw .tlsError
  else if content.ctype = Iana.ctHeartbeat then M.throw .attributeError
  else do
  let data ← M.lift (serContent E content)
  hashContent data c.config.side content
  let tag := match c.cipher with
    | some k => k.info.tagLength
    | none => 0
  let fragLen : Int := if c.mustEncrypt then (c.mfl : Int) - (1 + tag : Nat) else c.mfl
  let fragments ← M.lift (splitFragments fragLen content.canFragment data)
  let records ← makeRecords E c.mustEncrypt content.ctype fragments
  emitRecords content records

/-! ## Receiving -/

/-- `while startswith_change_cipher_spec(…)`, connection.py:24-25, 204-205. -/
def skipCcs : Bytes → Bytes
  | t :: v1 :: v2 :: l1 :: l2 :: b :: rest =>
    if t = 0x14 ∧ l1 = 0 ∧ l2 = 1 ∧ b = 1 then skipCcs rest
    else t :: v1 :: v2 :: l1 :: l2 :: b :: rest
  | d => d

/-- the backward loop of `_decrypt`, connection.py:238-244: content type and content, `none`
when every byte is zero. -/
def stripPadding (inner : Bytes) : Option (Nat × Bytes) :=
  match inner.reverse.dropWhile (· = 0) with
  | [] => none
  | t :: rest => some (t.toNat, rest.reverse)

/-- `_decrypt`, connection.py:236-244, and ciphers.py:149-157: the nonce is taken even when the
tag is wrong. -/
def decryptRecord (E : Env) (header fragment : Bytes) : M (Nat × Bytes) := fun c =>
  match c.cipher with
  | none => (.error .attributeError, c)
  | some k =>
    match k.rd.key with
    | none => (.error .attributeError, c)
    | some key =>
      match nextNonce k.info k.rd with
      | .error e => (.error e, c)
      | .ok (nonce, rd) =>
        let c := { c with cipher := some { k with rd := rd } }
        match E.aeadOpen k.info.id key nonce header fragment with
        | none => (.error (.alert Iana.decryptError), c)
        | some inner =>
          let c := { c with tr := .opened k.info.id key nonce header inner :: c.tr }
          match stripPadding inner with
          | none => (.error (.alert Iana.unexpectedMessage), c)
          | some r => (.ok r, c)

/-- `_read_next_record`, connection.py:203-234. `alerts.RecordOverFlow` does not exist:
AttributeError. -/
def readNextRecord (E : Env) : M (Option (Nat × Bytes)) := fun c =>
  let c := { c with inputData := skipCcs c.inputData }
  match c.inputData with
  | t :: v1 :: v2 :: l1 :: l2 :: rest =>
    let length := beDec [l1, l2]
    if length > c.mfl + (if c.mustDecrypt then 256 else 0) then (.error .attributeError, c)
    else if rest.length < length then (.ok none, c)
    else
      let fragment := rest.take length
      let c := { c with inputData := rest.drop length }
      let r := if c.mustDecrypt then decryptRecord E [t, v1, v2, l1, l2] fragment c
               else (.ok (t.toNat, fragment), c)
      match r with
      | (.error e, c) => (.error e, c)
      | (.ok (ctype, fragment), c) =>
        if ctype = Iana.ctChangeCipherSpec then (.error (.alert Iana.unexpectedMessage), c)
        else (.ok (some (ctype, fragment)), c)
  | _ => (.ok none, c)

/-- length announced by the header of a handshake message, connection.py:269. -/
def handshakeLength (b : Bytes) : Nat := beDec ((b.drop 1).take 3)

/-- connection.py:280-287: the message is complete. -/
def finishHandshake : M (Option (Nat × Bytes)) := fun c =>
  if c.inputHandshake.length - 4 > handshakeLength c.inputHandshake then (.error .bufTooMuch, c)
  else (.ok (some (Iana.ctHandshake, c.inputHandshake)),
    { c with inputHandshake := [], tr := .got Iana.ctHandshake c.inputHandshake :: c.tr })

/-- connection.py:270-287: more records until the handshake message is complete. Fuel: every
record takes at least five bytes of the input. -/
def completeHandshake (E : Env) : Nat → M (Option (Nat × Bytes))
  | 0 => fun c =>
    if c.inputHandshake.length - 4 < handshakeLength c.inputHandshake then (.error .fuel, c)
    else finishHandshake c
  | fuel + 1 => fun c =>
    if c.inputHandshake.length - 4 < handshakeLength c.inputHandshake then
      match readNextRecord E c with
      | (.error e, c) => (.error e, c)
      | (.ok none, c) => (.ok none, c)
      | (.ok (some (ctype, fragment)), c) =>
        if ctype ≠ Iana.ctHandshake then (.error (.alert Iana.unexpectedMessage), c)
        else completeHandshake E fuel { c with inputHandshake := c.inputHandshake ++ fragment }
    else finishHandshake c

/-- `_read_next_content`, connection.py:246-287. -/
def readNextContent (E : Env) : M (Option (Nat × Bytes)) := fun c =>
  match readNextRecord E c with
  | (.error e, c) => (.error e, c)
  | (.ok none, c) => (.ok none, c)
  | (.ok (some (ctype, fragment)), c) =>
    if c.inputHandshake.isEmpty ∧ ctype ≠ Iana.ctHandshake then
      (.ok (some (ctype, fragment)), { c with tr := .got ctype fragment :: c.tr })
    else if ctype ≠ Iana.ctHandshake then (.error (.alert Iana.unexpectedMessage), c)
    else
      let c := { c with inputHandshake := c.inputHandshake ++ fragment }
      if c.inputHandshake.length < 4 then (.ok none, c)
      else completeHandshake E (c.inputData.length + 1) c

/-- `_fail(alert)`, connection.py:168-175, with a fatal alert. -/
def failWith (E : Env) (desc : Nat) : M Unit := do
  sendContent E (.alert Iana.fatal desc)
  moveTo .failed

end Siotls
