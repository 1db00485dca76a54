import Verif.Proofs.Mfl
import Verif.Proofs.Effect
import Verif.Spec.Lifecycle
/-!
# Sending a content that fits in one record
-/

namespace Siotls
open Spec Serial

variable {E : Env}

/-- the connection after `data` was sent in clear -/
def Conn.afterPlain (c : Conn) (x : Content) (data : Bytes) : Conn :=
  { c with outputData := c.outputData ++ recordBytes x.ctype data,
           tr := .sent x :: .record x.ctype data :: c.tr }

/-- header of an encrypted record -/
def sealedHeader (length : Nat) : Bytes := [23, 3, 3] ++ beEnc 2 length

/-- plaintext, header and ciphertext of an encrypted record -/
def sealedInner (c : Conn) (k : CipherSt) (x : Content) (data : Bytes) : Bytes :=
  innerText c.mfl k.info.tagLength x.ctype data

def sealedAad (c : Conn) (k : CipherSt) (x : Content) (data : Bytes) : Bytes :=
  sealedHeader ((sealedInner c k x data).length + k.info.tagLength)

def sealedBody (E : Env) (c : Conn) (k : CipherSt) (key nonce : Bytes) (x : Content)
    (data : Bytes) : Bytes :=
  E.aeadSeal k.info.id key nonce (sealedAad c k x data) (sealedInner c k x data)

/-- the connection after `data` was sent encrypted -/
def Conn.afterSealed (E : Env) (c : Conn) (k : CipherSt) (key nonce : Bytes) (wr : Dir) (x : Content)
    (data : Bytes) : Conn :=
  { c with cipher := some { k with wr := wr },
           outputData := c.outputData ++ recordBytes 23 (sealedBody E c k key nonce x data),
           tr := .sent x :: .record 23 (sealedBody E c k key nonce x data) ::
             .sealed k.info.id key nonce (sealedAad c k x data) (sealedInner c k x data) :: c.tr }

/-- contents that are not part of the transcript -/
def Content.light : Content → Bool
  | .alert .. | .applicationData _ | .changeCipherSpec => true
  | _ => false

/-- the longest content sent in one record -/
def Conn.room (c : Conn) : Nat :=
  if c.mustEncrypt then c.mfl - (1 + (match c.cipher with
    | some k => k.info.tagLength
    | none => 0)) else c.mfl

theorem sendContent_one {c : Conn} {x : Content} {data : Bytes} (hl : x.light = true)
    (happ : x.ctype = Iana.ctApplicationData → c.state.canSendApp = true)
    (hc : c.state.canSend = true) (hs : serContent E x = .ok data) (hr : data.length ≤ c.room)
    (hz : 0 < c.room) :
    sendContent E x c =
      match makeRecords E c.mustEncrypt x.ctype [data] c with
      | (.ok rs, c') => emitRecords x rs c'
      | (.error e, c') => (.error e, c') := by
  unfold sendContent
  rw [M.bind_def]
  simp only [M.get]
  rw [if_neg (by rintro ⟨h1, h2⟩; rw [happ h1] at h2; cases h2), if_neg (by simp [hc]),
    if_neg (by cases x <;> first | (simp [Content.ctype, Iana.ctHeartbeat]; done) | cases hl)]
  rw [M.bind_def]
  simp only [hs, M.lift]
  rw [M.bind_def]
  have hh : hashContent data c.config.side x c = (.ok (), c) := by
    cases x <;> first | rfl | cases hl
  rw [hh]
  dsimp only
  rw [M.bind_def]
  have hf : ∀ n : Int, (data.length : Int) ≤ n → splitFragments n x.canFragment data = .ok [data] :=
    fun n h => by rw [splitFragments, if_pos h]
  rw [hf _ ?_]
  · dsimp only [M.lift]
    rw [M.bind_def]
    rcases makeRecords E c.mustEncrypt x.ctype [data] c with ⟨r, c'⟩
    cases r <;> rfl
  · unfold Conn.room at hr hz
    cases hk : c.cipher <;> rw [hk] at hr hz <;> dsimp only at hr hz ⊢ <;> split <;> rename_i hm
    · rw [if_pos hm] at hr hz; omega
    · rw [if_neg hm] at hr; omega
    · rw [if_pos hm] at hr hz; omega
    · rw [if_neg hm] at hr; omega

theorem recordHeader_ok {o n : Nat} (h : n < 65536) :
    recordHeader o n = .ok (beEnc 1 o ++ (beEnc 2 Iana.tls12 ++ beEnc 2 n)) := by
  unfold recordHeader
  rw [toBytes_ok.mpr ⟨by simpa using h, rfl⟩]
  rfl

theorem sendContent_plain {c : Conn} {x : Content} {data : Bytes} (hl : x.light = true)
    (happ : x.ctype = Iana.ctApplicationData → c.state.canSendApp = true)
    (hc : c.state.canSend = true) (hs : serContent E x = .ok data) (hm : c.mustEncrypt = false)
    (hr : data.length ≤ c.mfl) (hz : 0 < c.mfl) (hlen : data.length < 65536) :
    sendContent E x c = (.ok (), c.afterPlain x data) := by
  rw [sendContent_one hl happ hc hs (by simpa [Conn.room, hm] using hr)
    (by simpa [Conn.room, hm] using hz), hm]
  have h1 : makeRecords E false x.ctype [data] c = (.ok [(x.ctype, data, recordBytes x.ctype data)], c) := by
    have hh : recordHeader x.ctype data.length = .ok _ := recordHeader_ok hlen
    have hb := recordHeader_bytes hh
    simp only [makeRecords, protect, M.bind_def, M.pure, M.lift, Bool.false_eq_true, if_false]
    rw [hh]
    dsimp only
    rw [← hb]
    rfl
  rw [h1]
  dsimp only [emitRecords, M.modify, Conn.afterPlain]
  simp

/-- what an encryption gives -/
theorem sendContent_sealed {c : Conn} {x : Content} {data : Bytes} {k : CipherSt} {key nonce : Bytes}
    {wr : Dir} (hS : E.Seals) (hid : suiteInfo k.info.id = some k.info) (hl : x.light = true)
    (happ : x.ctype = Iana.ctApplicationData → c.state.canSendApp = true)
    (hc : c.state.canSend = true) (hs : serContent E x = .ok data) (hk : c.cipher = some k)
    (hkey : k.wr.key = some key) (hn : nextNonce k.info k.wr = .ok (nonce, wr))
    (hr : data.length + 1 + k.info.tagLength ≤ c.mfl) (hz : 1 + k.info.tagLength < c.mfl)
    (hlen : (sealedInner c k x data).length + k.info.tagLength < 65536) :
    sendContent E x c = (.ok (), c.afterSealed E k key nonce wr x data) := by
  have hm : c.mustEncrypt = true := by simp [Conn.mustEncrypt, hk, hkey]
  rw [sendContent_one hl happ hc hs (by simp only [Conn.room, hm, hk, if_true]; omega)
    (by simp only [Conn.room, hm, hk, if_true]; omega), hm]
  have hh : recordHeader Iana.ctApplicationData ((sealedInner c k x data).length + k.info.tagLength) =
    .ok (sealedAad c k x data) := recordHeader_ok hlen
  have hbl : (sealedBody E c k key nonce x data).length =
      (sealedInner c k x data).length + k.info.tagLength := hS _ _ _ _ _ _ hid
  have h1 : makeRecords E true x.ctype [data] c =
      (.ok [(23, sealedBody E c k key nonce x data, recordBytes 23 (sealedBody E c k key nonce x data))],
       { c with cipher := some { k with wr := wr }
                tr := .sealed k.info.id key nonce (sealedAad c k x data) (sealedInner c k x data) ::
                  c.tr }) := by
    have henc : encryptFragment E x.ctype data c = (.ok (sealedBody E c k key nonce x data),
       { c with cipher := some { k with wr := wr }
                tr := .sealed k.info.id key nonce (sealedAad c k x data) (sealedInner c k x data) ::
                  c.tr }) := by
      unfold encryptFragment
      simp only [M.bind_def, M.get, getCipher, hk, M.lift]
      rw [show recordHeader Iana.ctApplicationData
        ((innerText c.mfl k.info.tagLength x.ctype data).length + k.info.tagLength) = _ from hh]
      dsimp only
      simp only [cipherEncrypt, hk, hkey, hn]
      rw [if_pos (by exact hbl)]
      rfl
    have hh2 : recordHeader Iana.ctApplicationData (sealedBody E c k key nonce x data).length =
      .ok _ := recordHeader_ok (by rw [hbl]; exact hlen)
    have hb := recordHeader_bytes hh2
    simp only [makeRecords, protect, if_true]
    rw [M.bind_def, henc]
    dsimp only
    rw [M.bind_def]
    simp only [M.lift]
    rw [hh2]
    dsimp only
    rw [← hb]
    rfl
  rw [h1]
  dsimp only [emitRecords, M.modify, Conn.afterSealed]
  simp

theorem serContent_alert {l d : Nat} (h : l * 256 + d < 65536) :
    serContent E (.alert l d) = .ok (beEnc 2 (l * 256 + d)) := by
  unfold serContent
  exact toBytes_ok.mpr ⟨by simpa using h, rfl⟩

theorem length_innerText (mfl tag ctype : Nat) (fr : Bytes) :
    (innerText mfl tag ctype fr).length = fr.length + 1 + padLength mfl fr.length tag := by
  simp [innerText, zeros]; omega

theorem padLength_le (mfl n tag : Nat) : padLength mfl n tag ≤ 4096 := by
  unfold padLength; omega

theorem suite_tag {s : Nat} {info : SuiteInfo} (h : suiteInfo s = some info) :
    info.tagLength ≤ 16 := by
  unfold suiteInfo at h
  split at h <;> first | (cases h; decide) | cases h

theorem sealedInner_bound {c : Conn} {k : CipherSt} {x : Content} {data : Bytes}
    (hid : suiteInfo k.info.id = some k.info) (hd : data.length ≤ 16384) :
    (sealedInner c k x data).length + k.info.tagLength < 65536 := by
  have := suite_tag hid
  have := padLength_le c.mfl data.length k.info.tagLength
  rw [sealedInner, length_innerText]
  omega

end Siotls
