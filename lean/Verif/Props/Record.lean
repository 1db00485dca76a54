import Verif.Proofs.Carry
import Verif.Props.Lifecycle
/-!
# Properties of the record layer, and of two connections that talk to each other
-/

namespace Siotls
open Spec Serial

variable {E : Env}

theorem mustEncrypt_some {c : Conn} (h : c.mustEncrypt = true) :
    ∃ k, c.cipher = some k ∧ k.wr.key ≠ none := by
  unfold Conn.mustEncrypt at h
  cases hc : c.cipher with
  | none => rw [hc] at h; cases h
  | some k =>
    refine ⟨k, rfl, fun hk => ?_⟩
    rw [hc] at h
    simp [hk] at h

theorem mustEncrypt_none {c : Conn} (h : c.mustEncrypt = false) :
    ∀ k, c.cipher = some k → k.wr.key = none := by
  intro k hk
  unfold Conn.mustEncrypt at h
  rw [hk] at h
  simpa using h

/-! ## C11: the length of protected records -/

/-- Every protected record is a positive multiple of the padding block. -/
theorem C11_multiple {x : Content} {c c' : Conn} (h : sendContent E x c = (.ok (), c'))
    (hp : c.mustEncrypt = true) (hm : 0 < c.mfl) :
    ∃ new, c'.tr = new ++ c.tr ∧ ∀ r ∈ recordLengths new,
      r.1 = 23 ∧ 0 < r.2 ∧ min c.mfl 4096 ∣ r.2 := by
  obtain ⟨data, fs, rs, hw⟩ := sendContent_wrote h
  obtain ⟨new, h1, h2⟩ := hw.tr
  obtain ⟨k, hk, hkey⟩ := mustEncrypt_some hp
  refine ⟨new, h1, ?_⟩
  rw [h2, hw.recs.sealed_lengths hm hk hkey, List.map_map]
  intro r hr
  obtain ⟨f, _, rfl⟩ := List.mem_map.mp hr
  refine ⟨rfl, ?_, ?_⟩
  · exact Nat.mul_pos (Nat.succ_pos _) (by omega)
  · exact Nat.dvd_mul_left ..

theorem wireOf_length (rs : List (Nat × Bytes)) :
    (wireOf rs).length = ((rs.map fun r => (r.1, r.2.length)).map fun r => 5 + r.2).sum := by
  induction rs with
  | nil => rfl
  | cons r rs ih =>
    rw [wireOf_cons, List.length_append, length_recordBytes, ih]
    rfl

/-- Two payloads of one record each that fall in the same block, sent by the same connection: the
records have the same lengths, as have the outputs. -/
theorem C11_equal {d d' : Bytes} {c c₁ c₂ : Conn} {k : CipherSt}
    (h : sendData E d c = (.ok (), c₁)) (h' : sendData E d' c = (.ok (), c₂))
    (hk : c.cipher = some k) (hkey : k.wr.key ≠ none) (hm : 0 < c.mfl)
    (hz : 1 + k.info.tagLength < c.mfl)
    (hd : d.length + 1 + k.info.tagLength ≤ c.mfl) (hd' : d'.length + 1 + k.info.tagLength ≤ c.mfl)
    (hb : (d.length + 1 + k.info.tagLength) / min c.mfl 4096 =
      (d'.length + 1 + k.info.tagLength) / min c.mfl 4096) :
    ∃ new new' n, c₁.tr = new ++ c.tr ∧ c₂.tr = new' ++ c.tr ∧ recordLengths new = [(23, n)] ∧
      recordLengths new' = [(23, n)] ∧ c₁.outputData.length = c₂.outputData.length := by
  have key : ∀ {d : Bytes} {c₁ : Conn}, sendData E d c = (.ok (), c₁) →
      d.length + 1 + k.info.tagLength ≤ c.mfl → ∃ new, c₁.tr = new ++ c.tr ∧
      recordLengths new = [(23, paddedLength c.mfl k.info.tagLength d.length)] ∧
      c₁.outputData.length = c.outputData.length + (5 + paddedLength c.mfl k.info.tagLength d.length) := by
    intro d c₁ h hd
    obtain ⟨data, fs, rs, hw⟩ := sendContent_wrote h
    have : data = d := by have := hw.ser; cases this; rfl
    subst this
    have hfl := fragLen_sealed hk hkey
    obtain ⟨_, _, hone⟩ := splitFragments_ok (by rw [hfl]; omega) hw.frag
    rcases hone with ⟨_, rfl⟩ | ⟨hlt, _⟩
    · obtain ⟨new, h1, h2⟩ := hw.tr
      have hl := hw.recs.sealed_lengths hm hk hkey
      refine ⟨new, h1, h2.trans hl, ?_⟩
      rw [hw.out, List.length_append, wireOf_length, hl]
      simp
    · rw [hfl] at hlt; omega
  obtain ⟨n1, a1, a2, a3⟩ := key h hd
  obtain ⟨n2, b1, b2, b3⟩ := key h' hd'
  have : paddedLength c.mfl k.info.tagLength d.length = paddedLength c.mfl k.info.tagLength d'.length := by
    unfold paddedLength; rw [hb]
  exact ⟨n1, n2, _, a1, b1, a2, by rw [this]; exact b2, by rw [a3, b3, this]⟩

/-! ## C10: emitted records respect the fragment limit

The full claim is false of the code: `_encrypt` adds a whole block of padding when the fragment already
fills the block, so the record of a full fragment goes beyond the limit (`C10_full`, `C10_false`).
Missing here: payloads that fill a fragment. -/

/-- Plaintext records never go beyond the limit. -/
theorem C10_plain {x : Content} {c c' : Conn} (h : sendContent E x c = (.ok (), c'))
    (hp : c.mustEncrypt = false) (hm : 0 < c.mfl) :
    ∃ new, c'.tr = new ++ c.tr ∧ ∀ r ∈ recordLengths new, r.1 = x.ctype ∧ r.2 ≤ c.mfl := by
  obtain ⟨data, fs, rs, hw⟩ := sendContent_wrote h
  obtain ⟨new, h1, h2⟩ := hw.tr
  have hn := mustEncrypt_none hp
  obtain ⟨_, hle, _⟩ := splitFragments_ok (by rw [fragLen_plain hn]; omega) hw.frag
  refine ⟨new, h1, ?_⟩
  rw [h2, (hw.recs.plain_lengths hn).2, List.map_map]
  intro r hr
  obtain ⟨f, hf, rfl⟩ := List.mem_map.mp hr
  refine ⟨rfl, ?_⟩
  have := hle f hf
  rw [fragLen_plain hn] at this
  simpa using this

/-- Nor do protected records of a content that leaves room for the type and the tag. -/
theorem C10_partial {x : Content} {c c' : Conn} {k : CipherSt} {data : Bytes}
    (h : sendContent E x c = (.ok (), c')) (hk : c.cipher = some k) (hkey : k.wr.key ≠ none)
    (hm : c.mfl ∈ [512, 1024, 2048, 4096, 16384]) (hs : serContent E x = .ok data)
    (hr : data.length + 1 + k.info.tagLength < c.mfl) :
    ∃ new n, c'.tr = new ++ c.tr ∧ recordLengths new = [(23, n)] ∧ n ≤ c.mfl := by
  obtain ⟨data', fs, rs, hw⟩ := sendContent_wrote h
  have : data' = data := by have := hw.ser; rw [hs] at this; cases this; rfl
  subst this
  have hfl := fragLen_sealed hk hkey
  have hge : 512 ≤ c.mfl := GoodMfl.ge hm
  obtain ⟨_, _, hone⟩ := splitFragments_ok (by rw [hfl]; omega) hw.frag
  rcases hone with ⟨_, rfl⟩ | ⟨hlt, _⟩
  · obtain ⟨new, h1, h2⟩ := hw.tr
    have hl := hw.recs.sealed_lengths (by omega) hk hkey
    exact ⟨new, _, h1, h2.trans hl, padded_small hm hr⟩
  · rw [hfl] at hlt; omega

/-- Whereas every content that fills a fragment makes a record that the peer refuses. -/
theorem C10_full {x : Content} {c c' : Conn} {k : CipherSt} {data : Bytes}
    (h : sendContent E x c = (.ok (), c')) (hk : c.cipher = some k) (hkey : k.wr.key ≠ none)
    (hm : c.mfl ∈ [512, 1024, 2048, 4096, 16384]) (hi : suiteInfo k.info.id = some k.info)
    (hs : serContent E x = .ok data) (hr : c.mfl ≤ data.length + 1 + k.info.tagLength) :
    ∃ new n l, c'.tr = new ++ c.tr ∧ recordLengths new = (23, n) :: l ∧ c.mfl + 256 < n := by
  obtain ⟨data', fs, rs, hw⟩ := sendContent_wrote h
  have : data' = data := by have := hw.ser; rw [hs] at this; cases this; rfl
  subst this
  have hfl := fragLen_sealed hk hkey
  have hge : 512 ≤ c.mfl := GoodMfl.ge hm
  have ht := suite_tag hi
  obtain ⟨new, h1, h2⟩ := hw.tr
  have hl := hw.recs.sealed_lengths (by omega) hk hkey
  have hbig : ∀ n, n + 1 + k.info.tagLength = c.mfl →
      c.mfl + 256 < paddedLength c.mfl k.info.tagLength n := by
    intro n hn
    rw [padded_over hm hn]
    omega
  obtain ⟨_, _, hone⟩ := splitFragments_ok (by rw [hfl]; omega) hw.frag
  rcases hone with ⟨hle, rfl⟩ | ⟨hlt, _, rest, rfl⟩
  · rw [hfl] at hle
    exact ⟨new, _, [], h1, h2.trans hl, hbig data'.length (by omega)⟩
  · rw [hfl] at hlt hl
    refine ⟨new, _, _, h1, h2.trans hl, hbig _ ?_⟩
    rw [List.length_take]
    omega


namespace Toy

set_option maxRecDepth 1000000

theorem opens : env.Opens := by
  intro s info k n a p h
  have hl := seals s info k n a p h
  have ht : tagToy s = info.tagLength := by
    unfold suiteInfo at h
    split at h <;> first | (cases h; rfl) | cases h
  have htake : (sealToy s k n a p).take ((sealToy s k n a p).length - tagToy s) = p := by
    rw [show (sealToy s k n a p).length = p.length + info.tagLength from hl, ht, Nat.add_sub_cancel]
    exact List.take_left' rfl
  show (if sealToy s k n a p =
      sealToy s k n a ((sealToy s k n a p).take ((sealToy s k n a p).length - tagToy s)) then
    some ((sealToy s k n a p).take ((sealToy s k n a p).length - tagToy s)) else none) = some p
  rw [htake, if_pos rfl]

/-- `Matched`, computed -/
def matchedB (a b : Conn) : Bool := match a.cipher, b.cipher with
  | some s, some r => decide (s.info = r.info ∧ s.wr = r.rd ∧ s.wr.key ≠ none ∧
      suiteInfo s.info.id = some s.info)
  | _, _ => false

theorem matched_of {a b : Conn} (h : matchedB a b = true) : Matched a.cipher b.cipher := by
  unfold matchedB at h
  split at h
  · rename_i s r hs hr
    obtain ⟨h1, h2, h3, h4⟩ := of_decide_eq_true h
    exact .inr ⟨s, r, hs, hr, h1, h2, h3, h4⟩
  · cases h

def freshKey (c : Conn) : Bool := match shouldRekey c with
  | .ok false => true
  | _ => false

theorem freshKey_of {c : Conn} (h : freshKey c = true) : shouldRekey c = .ok false := by
  unfold freshKey at h
  split at h
  · assumption
  · cases h

/-- the next nonce to write with exists -/
def canWrite (c : Conn) : Bool := match c.cipher with
  | some k => k.wr.key.isSome && isOk (nextNonce k.info k.wr) &&
      decide (suiteInfo k.info.id = some k.info) && decide (k.info.tagLength = 16)
  | none => false

theorem pair_facts : serverPair.state = .connected ∧ serverPair.mfl = 16384 ∧
    clientDone.state = .connected ∧ clientDone.mfl = 16384 ∧
    serverPair.inputData = [] ∧ serverPair.inputHandshake = [] ∧ clientDone.inputData = [] ∧
    clientDone.inputHandshake = [] ∧ serverPair.applicationData = [] ∧
    matchedB clientDone serverPair = true ∧ matchedB serverPair clientDone = true ∧
    freshKey serverPair = true ∧ canWrite clientDone = true := by decide +kernel

theorem canWrite_of {c : Conn} (h : canWrite c = true) : ∃ k key nonce wr, c.cipher = some k ∧
    k.wr.key = some key ∧ nextNonce k.info k.wr = .ok (nonce, wr) ∧
    suiteInfo k.info.id = some k.info ∧ k.info.tagLength = 16 := by
  unfold canWrite at h
  split at h
  · rename_i k hk
    simp only [Bool.and_eq_true, decide_eq_true_eq] at h
    obtain ⟨⟨⟨h1, h2⟩, h3⟩, h4⟩ := h
    obtain ⟨key, hkey⟩ := Option.isSome_iff_exists.mp h1
    cases hn : nextNonce k.info k.wr with
    | error e => rw [hn] at h2; cases h2
    | ok r => exact ⟨k, key, r.1, r.2, hk, hkey, hn, h3, h4⟩
  · cases h

/-- The connected toy client can send anything that fits in one fragment. -/
theorem sends {d : Bytes} (hd : d.length + 17 ≤ 16384) :
    ∃ c', sendData env d clientDone = (.ok (), c') := by
  obtain ⟨_, _, hst, hmfl, _, _, _, _, _, _, _, _, hw⟩ := pair_facts
  obtain ⟨k, key, nonce, wr, h1, h2, h3, h4, h5⟩ := canWrite_of hw
  refine ⟨_, sendContent_sealed (x := .applicationData d) seals h4 rfl (fun _ => by rw [hst]; rfl)
    (by rw [hst]; rfl) rfl h1 h2 h3 (by rw [hmfl, h5]; omega) (by rw [hmfl, h5]; omega) ?_⟩
  have := innerText_padded (mfl := clientDone.mfl) (tag := k.info.tagLength) (by rw [hmfl]; omega) 23 d
  unfold sealedInner
  refine Nat.lt_of_le_of_lt (Nat.le_of_eq this) ?_
  refine Nat.lt_of_le_of_lt (padded_full (by rw [hmfl]; simp [GoodMfl]) (by rw [hmfl, h5]; omega)) ?_
  rw [hmfl, min16384]
  omega

end Toy

/-- The hypotheses of `C11_multiple`, `C11_equal` and `C10_partial` are met by the toy client and two
small payloads. -/
example : ∃ c₁ c₂ k, sendData Toy.env [7] Toy.clientDone = (.ok (), c₁) ∧
    sendData Toy.env [7, 8, 9] Toy.clientDone = (.ok (), c₂) ∧ Toy.clientDone.mustEncrypt = true ∧
    Toy.clientDone.cipher = some k ∧ k.wr.key ≠ none ∧ 0 < Toy.clientDone.mfl ∧
    Toy.clientDone.mfl ∈ [512, 1024, 2048, 4096, 16384] ∧ 1 + k.info.tagLength < Toy.clientDone.mfl ∧
    serContent Toy.env (.applicationData [7]) = .ok [7] ∧
    1 + 1 + k.info.tagLength < Toy.clientDone.mfl ∧ 3 + 1 + k.info.tagLength ≤ Toy.clientDone.mfl ∧
    (1 + 1 + k.info.tagLength) / min Toy.clientDone.mfl 4096 =
      (3 + 1 + k.info.tagLength) / min Toy.clientDone.mfl 4096 := by
  obtain ⟨_, _, _, hmfl, _, _, _, _, _, _, _, _, hw⟩ := Toy.pair_facts
  obtain ⟨k, key, nonce, wr, h1, h2, h3, h4, h5⟩ := Toy.canWrite_of hw
  obtain ⟨c₁, hc₁⟩ := Toy.sends (d := [7]) (by simp)
  obtain ⟨c₂, hc₂⟩ := Toy.sends (d := [7, 8, 9]) (by simp)
  refine ⟨c₁, c₂, k, hc₁, hc₂, by simp [Conn.mustEncrypt, h1, h2], h1, by simp [h2], ?_⟩
  rw [hmfl, h5]
  exact ⟨by omega, by simp, by omega, rfl, by omega, by omega, rfl⟩

/-- The hypotheses of `C10_plain` are met by the toy client that sends its hello. -/
example : ∃ x c c', sendContent Toy.env x c = (.ok (), c') ∧ c.mustEncrypt = false ∧ 0 < c.mfl := by
  have h1 : Toy.isOk (sendContent Toy.env (.alert 2 40) Toy.waiting).1 = true := by decide +kernel
  rcases hf : sendContent Toy.env (.alert 2 40) Toy.waiting with ⟨r, c'⟩
  rw [hf] at h1
  cases r with
  | error e => cases h1
  | ok u => exact ⟨_, _, c', hf, by decide +kernel, by decide +kernel⟩

/-- The full claim is false: a payload of one full fragment makes a record beyond the limit. -/
theorem C10_false : ∃ (E : Env) (c c' : Conn) (d : Bytes) (new : List Ev) (n : Nat), E.Sized ∧
    (∃ config hostname ocsp algs random c₀ ops,
      Conn.new config hostname ocsp algs random = .ok c₀ ∧ c = runOps E ops c₀) ∧
    sendData E d c = (.ok (), c') ∧ c'.tr = new ++ c.tr ∧ (23, n) ∈ recordLengths new ∧
    c.mfl + 256 < n := by
  obtain ⟨_, _, _, hmfl, _, _, _, _, _, _, _, _, hw⟩ := Toy.pair_facts
  obtain ⟨k, key, nonce, wr, h1, h2, h3, h4, h5⟩ := Toy.canWrite_of hw
  obtain ⟨c', hc'⟩ := Toy.sends (d := List.replicate 16367 7) (by rw [List.length_replicate])
  obtain ⟨new, n, l, g1, g2, g3⟩ := C10_full hc' h1 (by rw [h2]; simp) (by rw [hmfl]; simp) h4
    (data := List.replicate 16367 7) rfl (by rw [hmfl, h5, List.length_replicate])
  exact ⟨Toy.env, Toy.clientDone, c', _, new, n, Toy.sized,
    ⟨_, _, _, _, _, _, _, Toy.client0_new, rfl⟩, hc', g1, by rw [g2]; exact List.mem_cons_self, g3⟩

/-! ## C12: over-long records are refused

The full claim is false of the code: the exception class named in `_read_next_record` does not exist,
so the alert is internal_error instead of record_overflow (`C12_alert`, `C12_false`). Proved: the
record is refused at once, whatever of its body is there, and nothing of it is used. -/

/-- an error at the first turn of the loop -/
theorem receive_error {c c₁ : Conn} {d : Bytes} {e : Exn} (hd : d ≠ [])
    (hc : c.state.canReceive = true) (h : receiveStep E (c.fed d) = (.error e, c₁)) :
    ∃ e', receiveData E d c = (.error e', (failWith E (alertFor e) c₁).2) := by
  rw [receiveData_eq hd hc, loop_eq, h]
  dsimp only
  rcases failWith E (alertFor e) c₁ with ⟨r, c'⟩
  cases r with
  | error e' => exact ⟨e', rfl⟩
  | ok u => exact ⟨e, rfl⟩

theorem contentsRead_sending {x : Content} {l : List Ev} (h : ∀ e ∈ l, e.sending x) :
    contentsRead l = [] := by
  induction l with
  | nil => rfl
  | cons e l ih =>
    have h1 := h e List.mem_cons_self
    have h2 := ih fun e he => h e (List.mem_cons_of_mem _ he)
    cases e <;> first | exact h2 | cases h1

theorem skipCcs_long {t v1 v2 l1 l2 : UInt8} {rest : Bytes} (h : 1 < l1.toNat * 256 + l2.toNat) :
    skipCcs (t :: v1 :: v2 :: l1 :: l2 :: rest) = t :: v1 :: v2 :: l1 :: l2 :: rest := by
  rw [skipCcs.eq_def]
  split
  · rename_i heq
    simp only [List.cons.injEq] at heq
    obtain ⟨rfl, rfl, rfl, rfl, rfl, rfl⟩ := heq
    rw [if_neg]
    rintro ⟨_, rfl, rfl, _⟩
    simp at h
  · rfl

theorem overlong {c : Conn} {rest : Bytes} {t v1 v2 l1 l2 : UInt8} (hm : 0 < c.mfl)
    (hi : c.inputData = t :: v1 :: v2 :: l1 :: l2 :: rest)
    (hl : c.mfl + (if c.mustDecrypt then 256 else 0) < l1.toNat * 256 + l2.toNat) :
    readNextContent E c = (.error .attributeError, c) := by
  have hs : skipCcs c.inputData = t :: v1 :: v2 :: l1 :: l2 :: rest := by
    rw [hi]; exact skipCcs_long (by omega)
  have hb : beDec [l1, l2] = l1.toNat * 256 + l2.toNat := by
    simp [beDec]
  rw [readNextContent, readNextRecord_cons hs, if_pos (by rw [hb]; exact hl), hs, ← hi]

/-- As soon as a header that announces too much is there, receiving raises; no content is read, nothing
is handed over. -/
theorem C12_partial {c : Conn} {d rest : Bytes} {t v1 v2 l1 l2 : UInt8} (hd : d ≠ [])
    (hc : c.state.canReceive = true) (hm : 0 < c.mfl)
    (hi : c.inputData ++ d = t :: v1 :: v2 :: l1 :: l2 :: rest)
    (hl : c.mfl + (if c.mustDecrypt then 256 else 0) < l1.toNat * 256 + l2.toNat) :
    ∃ e c' new, receiveData E d c = (.error e, c') ∧ c'.tr = new ++ c.tr ∧
      contentsRead new = [] ∧ c'.applicationData = c.applicationData := by
  obtain ⟨e', h⟩ := receive_error (E := E) (c := c) (d := d) hd hc
    (by rw [receiveStep_eq, overlong (c := c.fed d) hm hi hl])
  obtain ⟨new, h1, h2, _⟩ := (failWith_effect (E := E) (alertFor .attributeError) (c.fed d)).tr
  exact ⟨e', _, new, h, h1, contentsRead_sending h2,
    (failWith_effect (E := E) (alertFor .attributeError) (c.fed d)).app⟩

/-- But what the peer is sent, if anything, is internal_error. -/
theorem C12_alert {c : Conn} {d rest : Bytes} {t v1 v2 l1 l2 : UInt8} (hd : d ≠ [])
    (hc : c.state.canReceive = true) (hm : 0 < c.mfl)
    (hi : c.inputData ++ d = t :: v1 :: v2 :: l1 :: l2 :: rest)
    (hl : c.mfl + (if c.mustDecrypt then 256 else 0) < l1.toNat * 256 + l2.toNat)
    {new : List Ev} (hn : (receiveData E d c).2.tr = new ++ c.tr) {x : Content} (hx : .sent x ∈ new) :
    x = .alert 2 80 := by
  obtain ⟨e', h⟩ := receive_error (E := E) (c := c) (d := d) hd hc
    (by rw [receiveStep_eq, overlong (c := c.fed d) hm hi hl])
  obtain ⟨new', h1, h2, _⟩ := (failWith_effect (E := E) (alertFor .attributeError) (c.fed d)).tr
  rw [h] at hn
  have : new = new' := List.append_cancel_right (hn.symm.trans h1)
  subst this
  exact h2 _ hx

namespace Toy

set_option maxRecDepth 1000000

/-- a header that announces 65535 bytes -/
def giant : Bytes := [22, 3, 3, 255, 255]

theorem giant_facts : waiting.inputData = [] ∧ waiting.mfl = 16384 ∧ waiting.mustDecrypt = false ∧
    waiting.state.canReceive = true ∧
    (receiveData env giant waiting).2.tr =
      .sent (.alert 2 80) :: .record 21 [2, 80] :: waiting.tr := by decide +kernel

end Toy

/-- The hypotheses of `C12_partial` and `C12_alert` are met by a client that waits for the server. -/
example : Toy.giant ≠ [] ∧ Toy.waiting.state.canReceive = true ∧ 0 < Toy.waiting.mfl ∧
    Toy.waiting.inputData ++ Toy.giant = 22 :: 3 :: 3 :: 255 :: 255 :: [] ∧
    Toy.waiting.mfl + (if Toy.waiting.mustDecrypt then 256 else 0) <
      (255 : UInt8).toNat * 256 + (255 : UInt8).toNat := by
  obtain ⟨h1, h2, h3, h4, _⟩ := Toy.giant_facts
  rw [h1, h2, h3]
  exact ⟨by simp [Toy.giant], h4, by omega, rfl, by decide⟩

/-- The full claim is false: the alert is not record_overflow (22). -/
theorem C12_false : ∃ (E : Env) (c : Conn) (d rest : Bytes) (t v1 v2 l1 l2 : UInt8), E.Sized ∧
    (∃ config hostname ocsp algs random c₀ ops,
      Conn.new config hostname ocsp algs random = .ok c₀ ∧ c = runOps E ops c₀) ∧
    c.state.canReceive = true ∧ c.inputData ++ d = t :: v1 :: v2 :: l1 :: l2 :: rest ∧
    c.mfl + 256 < l1.toNat * 256 + l2.toNat ∧
    ∃ new, (receiveData E d c).2.tr = new ++ c.tr ∧ (∃ x, .sent x ∈ new) ∧
      ∀ x, .sent x ∈ new → x ≠ .alert 2 22 := by
  obtain ⟨h1, h2, h3, h4, h5⟩ := Toy.giant_facts
  refine ⟨Toy.env, Toy.waiting, Toy.giant, [], 22, 3, 3, 255, 255, Toy.sized,
    ⟨_, _, _, _, _, _, _, Toy.client0_new, rfl⟩, h4, by rw [h1]; rfl, by rw [h2]; decide,
    [_, _], h5, ⟨_, List.mem_cons_self⟩, ?_⟩
  intro x hx
  simp only [List.mem_cons, List.not_mem_nil, or_false] at hx
  rcases hx with hx | hx
  · cases hx; decide
  · cases hx

/-! ## C13: coalesced handshake messages

The full claim is false of the code: a record that holds more than one message is refused
(`C13_refused`, `C13_false`). Proved: the other half of the freedom of packing, one message is the same
however it is cut in records (the first of which holds at least the header, C07). -/

theorem message_honest {m : Bytes} (h : Message m) : HonestMsg m := by
  obtain ⟨t, a, b, c, body, rfl, hl⟩ := h
  refine ⟨by simp, ?_⟩
  show beDec [a, b, c] = _
  simp only [List.length_cons]
  rw [show body.length + 1 + 1 + 1 + 1 - 4 = body.length by omega, hl]
  simp [beDec]
  omega

theorem decryptRecord_hs (header frag h : Bytes) (c : Conn) :
    decryptRecord E header frag { c with inputHandshake := h } =
      ((decryptRecord E header frag c).1, { (decryptRecord E header frag c).2 with inputHandshake := h }) := by
  unfold decryptRecord
  obtain ⟨c1, c2, c3, c4, cipher, c6, c7, c8, c9, c10, c11, c12, c13, c14, c15, c16⟩ := c
  dsimp only
  cases cipher with
  | none => rfl
  | some k =>
    dsimp only
    cases k.rd.key with
    | none => rfl
    | some key =>
      dsimp only
      cases nextNonce k.info k.rd with
      | error e => rfl
      | ok r =>
        dsimp only
        cases E.aeadOpen k.info.id key r.1 header frag with
        | none => rfl
        | some inner =>
          dsimp only
          cases stripPadding inner <;> rfl

theorem useRecord_hs (outer : Nat) (header frag h : Bytes) (c : Conn) :
    useRecord E outer header frag { c with inputHandshake := h } =
      ((useRecord E outer header frag c).1,
        { (useRecord E outer header frag c).2 with inputHandshake := h }) := by
  unfold useRecord
  have hm : Conn.mustDecrypt { c with inputHandshake := h } = c.mustDecrypt := rfl
  rw [hm]
  cases c.mustDecrypt with
  | false =>
    rw [if_neg (by simp), if_neg (by simp)]
    dsimp only
    by_cases ho : outer = Iana.ctChangeCipherSpec
    · rw [if_pos ho, if_pos ho]
    · rw [if_neg ho, if_neg ho]
  | true =>
    rw [if_pos rfl, if_pos rfl, decryptRecord_hs]
    rcases decryptRecord E header frag c with ⟨r, c'⟩
    cases r with
    | error e => rfl
    | ok r => dsimp only; split <;> rfl

theorem readNextRecord_anyHs (h : Bytes) (c : Conn) :
    readNextRecord E { c with inputHandshake := h } =
      ((readNextRecord E c).1, { (readNextRecord E c).2 with inputHandshake := h }) := by
  by_cases h5 : (skipCcs c.inputData).length < 5
  · rw [readNextRecord_short (c := { c with inputHandshake := h }) h5, readNextRecord_short h5]
  · obtain ⟨t, v1, v2, l1, l2, rest, hd⟩ := five_le (Nat.le_of_not_lt h5)
    rw [readNextRecord_cons (c := { c with inputHandshake := h }) hd, readNextRecord_cons hd]
    have hm : Conn.recordLimit { c with inputHandshake := h } = c.recordLimit := rfl
    rw [hm]
    by_cases h1 : beDec [l1, l2] > c.recordLimit
    · rw [if_pos h1, if_pos h1]
    rw [if_neg h1, if_neg h1]
    by_cases h2 : rest.length < beDec [l1, l2]
    · rw [if_pos h2, if_pos h2]
    rw [if_neg h2, if_neg h2]
    exact useRecord_hs _ _ _ h { c with inputData := rest.drop (beDec [l1, l2]) }

theorem complete_pieces {fs : List Bytes} {r r' : Conn} (h : Pieces E r fs r') :
    ∀ {b m : Bytes}, 4 ≤ b.length → b ++ fs.flatten = m → HonestMsg m → (∀ f ∈ fs, f ≠ []) →
    complete E { r with inputHandshake := b } =
      (.ok (some (22, m)), { r' with inputHandshake := [], tr := .got 22 m :: r'.tr }) := by
  induction h with
  | done r =>
    intro b m h4 hm hg _
    rw [List.flatten_nil, List.append_nil] at hm
    subst hm
    have hnl : ¬ Conn.lacks { r with inputHandshake := b } := by
      show ¬ b.length - 4 < handshakeLength b
      rw [hg.2]; omega
    rw [complete_done hnl, finishHandshake, if_neg]
    · show ¬ b.length - 4 > handshakeLength b
      rw [hg.2]; omega
  | @next r f r₁ l r' h1 _ ih =>
    intro b m h4 hm hg hne
    have hlk : Conn.lacks { r with inputHandshake := b } := by
      show b.length - 4 < handshakeLength b
      have hf := List.length_pos_iff.mpr (hne f List.mem_cons_self)
      have hlen := congrArg List.length hm
      simp only [List.length_append, List.flatten_cons] at hlen
      rw [← handshakeLength_prefix (b := (f :: l).flatten) h4, hm, hg.2]
      omega
    rw [complete_more hlk, readNextRecord_anyHs, h1]
    dsimp only
    rw [if_neg (by simp [Iana.ctHandshake])]
    exact ih (by simp; omega) (by rw [List.append_assoc]; exact hm) hg
      (fun f hf => hne f (List.mem_cons_of_mem _ hf))

/-- One handshake message, cut in any way in records: it is read whole, as it would be from one record,
and the connection is left where its last record leaves it. -/
theorem C13_partial {r r' : Conn} {f : Bytes} {fs : List Bytes} (h : Pieces E r (f :: fs) r')
    (hr : r.inputHandshake = []) (h4 : 4 ≤ f.length) (hne : ∀ f ∈ fs, f ≠ [])
    (hm : Message (f :: fs).flatten) :
    readNextContent E r = (.ok (some (22, (f :: fs).flatten)),
      { r' with inputHandshake := [], tr := .got 22 (f :: fs).flatten :: r'.tr }) := by
  cases h with
  | @next _ _ r₁ _ _ h1 h2 =>
  have hh : r₁.inputHandshake = [] := by
    have := readNextRecord_hs (E := E) r
    rw [h1] at this
    exact this.trans hr
  rw [readNextContent, h1]
  dsimp only
  rw [if_neg (by simp [Iana.ctHandshake]), if_neg (by simp [Iana.ctHandshake]), hh, List.nil_append,
    if_neg (by omega)]
  exact complete_pieces h2 h4 rfl (message_honest hm) hne

/-- A record that holds a message and something more is refused, whatever follows. -/
theorem C13_refused {r r' : Conn} {m extra : Bytes}
    (h : readNextRecord E r = (.ok (some (22, m ++ extra)), r')) (hr : r.inputHandshake = [])
    (hm : Message m) (he : extra ≠ []) :
    (readNextContent E r).1 = .error .bufTooMuch := by
  have hg := message_honest hm
  have hh : r'.inputHandshake = [] := by
    have := readNextRecord_hs (E := E) r
    rw [h] at this
    exact this.trans hr
  have hlen := List.length_pos_iff.mpr he
  have hpre := handshakeLength_prefix (b := extra) hg.1
  have h4 := hg.1
  rw [readNextContent, h]
  dsimp only
  rw [if_neg (by simp [Iana.ctHandshake]), if_neg (by simp [Iana.ctHandshake]), hh, List.nil_append,
    if_neg (by rw [List.length_append]; omega)]
  show (complete E { r' with inputHandshake := m ++ extra }).1 = _
  have hnl : ¬ Conn.lacks { r' with inputHandshake := m ++ extra } := by
    show ¬ (m ++ extra).length - 4 < handshakeLength (m ++ extra)
    rw [hpre, hg.2, List.length_append]; omega
  rw [complete_done hnl, finishHandshake, if_pos]
  show (m ++ extra).length - 4 > handshakeLength (m ++ extra)
  rw [hpre, hg.2, List.length_append]
  omega

namespace Toy

set_option maxRecDepth 1000000

/-- the toy client once it has the ServerHello -/
def greeted : Conn := runOps env [.receive (flight.take 64)] waiting

/-- EncryptedExtensions and Certificate -/
def mEE : Bytes := [8, 0, 0, 7, 0, 5, 0, 15, 0, 1, 1]
def mCert : Bytes := [11, 0, 0, 12, 0, 0, 0, 8, 0, 0, 3, 1, 2, 3, 0, 0]

theorem message_mEE : Message mEE := ⟨8, 0, 0, 7, _, rfl, rfl⟩
theorem message_mCert : Message mCert := ⟨11, 0, 0, 12, _, rfl, rfl⟩

/-- the fragment read from the next record -/
def nextFragment (c : Conn) : Option (Nat × Bytes) := match (readNextRecord env c).1 with
  | .ok r => r
  | .error _ => none

/-- both, protected in one record -/
def oneRecord : Bytes :=
  [23, 3, 3, 0, 44, 8, 0, 0, 7, 0, 5, 0, 15, 0, 1, 1, 11, 0, 0, 12, 0, 0, 0, 8, 0, 0, 3, 1, 2, 3, 0,
    0, 22, 0, 0, 0, 0, 0, 0, 0, 0, 0, 0, 0, 0, 0, 0, 202, 30]

/-- in two records -/
def firstRecord : Bytes :=
  [23, 3, 3, 0, 28, 8, 0, 0, 7, 0, 5, 0, 15, 0, 1, 1, 22, 0, 0, 0, 0, 0, 0, 0, 0, 0, 0, 0, 0, 0, 0,
    202, 14]
def extended : Conn := runOps env [.receive firstRecord] greeted
def secondRecord : Bytes :=
  [23, 3, 3, 0, 33, 11, 0, 0, 12, 0, 0, 0, 8, 0, 0, 3, 1, 2, 3, 0, 0, 22, 0, 0, 0, 0, 0, 0, 0, 0, 0,
    0, 0, 0, 0, 0, 188, 77]

theorem one_fragment : nextFragment (greeted.fed oneRecord) = some (22, mEE ++ mCert) := by
  decide +kernel
theorem first_fragment : nextFragment (greeted.fed firstRecord) = some (22, mEE) := by decide +kernel
theorem second_fragment : nextFragment (extended.fed secondRecord) = some (22, mCert) := by
  decide +kernel
theorem first_ok : isOk (receiveData env firstRecord greeted).1 = true := by decide +kernel
theorem second_ok : isOk (receiveData env secondRecord extended).1 = true := by decide +kernel
theorem one_refused : isOk (receiveData env oneRecord greeted).1 = false := by decide +kernel
theorem greeted_facts : greeted.inputHandshake = [] ∧ greeted.state.canReceive = true := by
  decide +kernel

theorem nextFragment_eq {c : Conn} {r : Nat × Bytes} (h : nextFragment c = some r) :
    readNextRecord env c = (.ok (some r), (readNextRecord env c).2) := by
  unfold nextFragment at h
  split at h
  · rename_i r' hr
    subst h
    exact Prod.ext hr rfl
  · cases h

theorem piece {c : Conn} {f rest : Bytes} (hm : c.mustDecrypt = false) (hf : f.length < 512)
    (hl : 512 ≤ c.mfl) (h : c.inputData = recordBytes 22 f ++ rest) :
    readNextRecord env c = (.ok (some (22, f)), { c with inputData := rest }) := by
  rw [readNextRecord_whole (by omega) (by omega) (by omega)
    (by unfold Conn.recordLimit; rw [hm]; simp; omega) h]
  unfold useRecord
  rw [show Conn.mustDecrypt { c with inputData := rest } = false from hm, if_neg (by simp)]
  rfl

/-- three records in the input -/
theorem pieces {c : Conn} {x y z : Bytes} (hm : c.mustDecrypt = false) (hl : 512 ≤ c.mfl)
    (hx : x.length < 512) (hy : y.length < 512) (hz : z.length < 512) :
    Pieces env { c with inputData := recordBytes 22 x ++ (recordBytes 22 y ++ recordBytes 22 z) }
      [x, y, z] { c with inputData := [] } := by
  refine .next (piece hm hx hl rfl) (.next (piece hm hy hl rfl) (.next (piece hm hz hl ?_) (.done _)))
  rw [List.append_nil]

end Toy

/-- The hypotheses of `C13_partial` are met by a message in three records. -/
example : ∃ r r' f fs, Pieces Toy.env r (f :: fs) r' ∧ r.inputHandshake = [] ∧
    4 ≤ f.length ∧ (∀ f ∈ fs, f ≠ []) ∧ Message (f :: fs).flatten ∧ fs.length = 2 := by
  obtain ⟨_, h2, h3, _⟩ := Toy.giant_facts
  have h4 : Toy.waiting.inputHandshake = [] := by decide +kernel
  exact ⟨_, _, [8, 0, 0, 7], [[0, 5], [0, 15, 0, 1, 1]],
    Toy.pieces h3 (by rw [h2]; omega) (by simp) (by simp) (by simp), h4, by simp, by simp,
    ⟨8, 0, 0, 7, [0, 5, 0, 15, 0, 1, 1], rfl, rfl⟩, rfl⟩

theorem fed_hs (c : Conn) (d : Bytes) : (c.fed d).inputHandshake = c.inputHandshake := rfl

/-- The hypotheses of `C13_refused` are met by EncryptedExtensions and Certificate in one record. -/
example : ∃ r', readNextRecord Toy.env (Toy.greeted.fed Toy.oneRecord) =
      (.ok (some (22, Toy.mEE ++ Toy.mCert)), r') ∧
    (Toy.greeted.fed Toy.oneRecord).inputHandshake = [] ∧ Message Toy.mEE ∧ Toy.mCert ≠ [] := by
  rw [fed_hs]
  exact ⟨_, Toy.nextFragment_eq Toy.one_fragment, Toy.greeted_facts.1, Toy.message_mEE, by decide⟩

/-- The full claim is false: two messages that are accepted in two records are refused in one. -/
theorem C13_false : ∃ (E : Env) (c : Conn) (m₁ m₂ d₁ d₂ d : Bytes) (c₁ c₂ : Conn), E.Sized ∧
    (∃ config hostname ocsp algs random c₀ ops,
      Conn.new config hostname ocsp algs random = .ok c₀ ∧ c = runOps E ops c₀) ∧
    Message m₁ ∧ Message m₂ ∧ c.inputHandshake = [] ∧
    (readNextRecord E (c.fed d₁)).1 = .ok (some (22, m₁)) ∧
    receiveData E d₁ c = (.ok (), c₁) ∧
    (readNextRecord E (c₁.fed d₂)).1 = .ok (some (22, m₂)) ∧
    receiveData E d₂ c₁ = (.ok (), c₂) ∧
    (readNextRecord E (c.fed d)).1 = .ok (some (22, m₁ ++ m₂)) ∧
    ∃ e, (receiveData E d c).1 = .error e := by
  have h6 := Toy.one_refused
  have hok : ∀ (m : Except Exn Unit × Conn), Toy.isOk m.1 = true → m = (.ok (), m.2) := by
    rintro ⟨r, c⟩ h
    cases r with
    | error e => cases h
    | ok u => rfl
  have hext : (receiveData Toy.env Toy.firstRecord Toy.greeted).2 = Toy.extended :=
    (run_receive (E := Toy.env) Toy.firstRecord Toy.greeted).symm
  refine ⟨Toy.env, Toy.greeted, Toy.mEE, Toy.mCert, Toy.firstRecord, Toy.secondRecord, Toy.oneRecord,
    Toy.extended, _, Toy.sized,
    ⟨_, _, _, _, _, _, [.initiate, .drain] ++ [.receive (Toy.flight.take 64)], Toy.client0_new, ?_⟩,
    Toy.message_mEE, Toy.message_mCert, Toy.greeted_facts.1, congrArg Prod.fst (Toy.nextFragment_eq Toy.first_fragment),
    (hok _ Toy.first_ok).trans (by rw [hext]), congrArg Prod.fst (Toy.nextFragment_eq Toy.second_fragment), hok _ Toy.second_ok,
    congrArg Prod.fst (Toy.nextFragment_eq Toy.one_fragment), ?_⟩
  · rw [runOps_append]; rfl
  · rcases hr : receiveData Toy.env Toy.oneRecord Toy.greeted with ⟨r, c⟩
    rw [hr] at h6
    cases r with
    | error e => exact ⟨e, rfl⟩
    | ok u => cases h6

/-! ## C09: what is sent is what is received

The full claim is false of the code: contents that fill a fragment are refused by a peer that uses the
same fragment length (`C09_refused`, `C09_false`), because of C10. Missing here: those contents. -/

/-- Several contents sent one after the other, each cut in as many records as it takes: a peer that
holds the matching key reads the same types and bytes, in the same order (application data may come in
several pieces), takes exactly what was written from its input, and the keys still match. -/
theorem C09_partial {s s' r : Conn} {xs : List Content} {w rest : Bytes} (hO : E.Opens)
    (h : Sends E s xs s') (hx : ∀ x ∈ xs, x ≠ .changeCipherSpec)
    (hg : s.mfl ∈ [512, 1024, 2048, 4096, 16384]) (hm : Matched s.cipher r.cipher)
    (hf : ∀ x ∈ xs, ∀ data, serContent E x = .ok data → SizeOk s r data.length)
    (hhs : r.inputHandshake = []) (hw : s'.outputData = s.outputData ++ w)
    (hi : r.inputData = w ++ rest) :
    ∃ sent got r', List.Forall₂ (fun x y => y.1 = x.ctype ∧ serContent E x = .ok y.2) xs sent ∧
      Reads E r got r' ∧ Carried sent got ∧ r'.inputData = rest ∧ r'.inputHandshake = [] ∧
      Matched s'.cipher r'.cipher :=
  sends_read hO h hx hg hm hf hhs hw hi

theorem matched_mustDecrypt {ks : CipherSt} {r : Conn} (h : Matched (some ks) r.cipher)
    (hk : ks.wr.key ≠ none) : r.mustDecrypt = true ∧ suiteInfo ks.info.id = some ks.info := by
  rcases h with ⟨h, _⟩ | ⟨k, kr, h1, h2, _, h4, h5, h6⟩
  · exact absurd (h ks rfl) hk
  · cases h1
    refine ⟨?_, h6⟩
    unfold Conn.mustDecrypt
    rw [h2]
    dsimp only
    rw [← h4]
    cases hk' : ks.wr.key with
    | none => exact absurd hk' hk
    | some _ => rfl

theorem Recs.bounded {mfl : Nat} {k k' : Option CipherSt} {is rs : List (Nat × Bytes)}
    (h : Recs E mfl k is rs k') : ∀ y ∈ rs, y.2.length < 65536 := by
  induction h with
  | nil => simp
  | plain _ hl _ ih => exact List.forall_mem_cons.mpr ⟨hl, ih⟩
  | «sealed» _ _ _ _ hl _ ih => exact List.forall_mem_cons.mpr ⟨hl, ih⟩

/-- the record that does not pass -/
theorem full_refused {s s' r : Conn} {x : Content} {k : CipherSt} {data w rest : Bytes}
    (h : sendContent E x s = (.ok (), s')) (hk : s.cipher = some k) (hkey : k.wr.key ≠ none)
    (hm : Matched s.cipher r.cipher) (hg : s.mfl ∈ [512, 1024, 2048, 4096, 16384])
    (hsame : r.mfl = s.mfl) (hs : serContent E x = .ok data)
    (hr : s.mfl ≤ data.length + 1 + k.info.tagLength)
    (hw : s'.outputData = s.outputData ++ w) (hi : r.inputData = w ++ rest) :
    ∃ l1 l2 body, w = 23 :: 3 :: 3 :: l1 :: l2 :: body ∧
      r.mfl + (if r.mustDecrypt then 256 else 0) < l1.toNat * 256 + l2.toNat := by
  obtain ⟨hdec, hsi⟩ := matched_mustDecrypt (hk ▸ hm) hkey
  obtain ⟨new, n, l, h1, h2, h3⟩ := C10_full h hk hkey hg hsi hs hr
  obtain ⟨data', fs, rs, hwr⟩ := sendContent_wrote h
  obtain ⟨new', h4, h5⟩ := hwr.tr
  have : new = new' := List.append_cancel_right (h1.symm.trans h4)
  subst this
  have hw' : w = wireOf rs := List.append_cancel_left (hw.symm.trans hwr.out)
  rw [h2] at h5
  cases rs with
  | nil => cases h5
  | cons y rs =>
    obtain ⟨o, b⟩ := y
    rw [List.map_cons, List.cons.injEq, Prod.mk.injEq] at h5
    obtain ⟨⟨rfl, rfl⟩, _⟩ := h5
    have hb : b.length < 65536 := hwr.recs.bounded (23, b) List.mem_cons_self
    rw [wireOf_cons, recordBytes_eq] at hw'
    refine ⟨_, _, _, hw', ?_⟩
    have := be16_dec hb
    rw [hdec, if_pos rfl, hsame]
    simp only [beDec, List.foldl_cons, List.foldl_nil] at this
    dsimp only at h3
    omega

/-- A content that fills a fragment is refused by every peer that uses the same fragment length. -/
theorem C09_refused {s s' r : Conn} {x : Content} {k : CipherSt} {data w rest : Bytes}
    (h : sendContent E x s = (.ok (), s')) (hk : s.cipher = some k) (hkey : k.wr.key ≠ none)
    (hm : Matched s.cipher r.cipher) (hg : s.mfl ∈ [512, 1024, 2048, 4096, 16384])
    (hsame : r.mfl = s.mfl) (hs : serContent E x = .ok data)
    (hr : s.mfl ≤ data.length + 1 + k.info.tagLength)
    (hw : s'.outputData = s.outputData ++ w) (hi : r.inputData = w ++ rest) :
    (readNextContent E r).1 = .error .attributeError := by
  obtain ⟨l1, l2, body, rfl, hl⟩ := full_refused h hk hkey hm hg hsame hs hr hw hi
  have hge : 512 ≤ s.mfl := GoodMfl.ge hg
  rw [overlong (by rw [hsame]; omega) hi hl]

/-! ## C16: reliable delivery between two connected endpoints

The full claim is false of the code for the same reason (`C16_false`): a payload that fills a fragment
breaks the connection of the receiver (`C16_refused`). Missing here: such payloads, and receivers whose
write key is about to wear out (`receive_data` then raises, C64). -/

/-- Whatever is sent in any number of calls, however the bytes written are cut for `receive_data`, and
however the receiver alternates receiving, reading and draining: nothing raises, what the receiver read
or can still read is a prefix of what was sent, and all of it once all the bytes are delivered. -/
theorem C16_partial {s s' r : Conn} {payloads : List Bytes} {w q : Bytes} {ops : List Op}
    (hO : E.Opens) (h : SendsData E s payloads s') (hg : s.mfl ∈ [512, 1024, 2048, 4096, 16384])
    (hm : Matched s.cipher r.cipher) (hf : ∀ d ∈ payloads, SizeOk s r d.length)
    (hst : r.state = .connected ∨ ∃ b, r.state = .closed true b) (hhs : r.inputHandshake = [])
    (hin : r.inputData = []) (happ : r.applicationData = []) (hk : shouldRekey r = .ok false)
    (hw : s'.outputData = s.outputData ++ w) (hp : Passive ops) (hq : (chunks ops).flatten ++ q = w) :
    (∀ o ∈ outcomes E ops r, raised o = false) ∧
    collected E .read ops r ++ (runOps E ops r).applicationData <+: payloads.flatten ∧
    (q = [] → collected E .read ops r ++ (runOps E ops r).applicationData = payloads.flatten) := by
  obtain ⟨is, rs, h1, h2, h3, h4, h5⟩ := sendsData_recs h hg hm hf
  have hw' : w = wireOf rs := List.append_cancel_left (hw.symm.trans h4)
  obtain ⟨i₁, i₂, g1, g2, g3, g4⟩ := passive_app (q := q) (r := r) hO (ks := s.cipher) ops h1
    ⟨hst, hhs⟩ hm h2 hp hk h5 (by rw [hin, List.nil_append, hq, hw'])
    (fun h => wireOf_nil (by rw [← h, hin]))
  rw [happ, List.nil_append] at g2
  rw [g1, List.map_append, List.flatten_append] at h3
  refine ⟨g4, by rw [g2, ← h3]; exact List.prefix_append .., fun hq => ?_⟩
  rw [g2, ← h3, g3 hq]
  simp

/-- A payload that fills a fragment is never handed over: receiving raises, at the latest with the last
byte written. -/
theorem C16_refused {s s' r : Conn} {payload w : Bytes} {k : CipherSt}
    (h : sendData E payload s = (.ok (), s')) (hg : s.mfl ∈ [512, 1024, 2048, 4096, 16384])
    (hk : s.cipher = some k) (hkey : k.wr.key ≠ none) (hm : Matched s.cipher r.cipher)
    (hsame : r.mfl = s.mfl) (hlong : s.mfl ≤ payload.length + 1 + k.info.tagLength)
    (hst : r.state.canReceive = true) (hin : r.inputData = [])
    (hw : s'.outputData = s.outputData ++ w) :
    ∃ e r', receiveData E w r = (.error e, r') ∧ r'.applicationData = r.applicationData := by
  obtain ⟨l1, l2, body, rfl, hl⟩ := full_refused (r := r.fed w) (rest := []) h hk hkey hm hg hsame rfl
    hlong hw (by simp [Conn.fed, hin])
  have hge : 512 ≤ s.mfl := GoodMfl.ge hg
  obtain ⟨e, c', _, h1, _, _, h2⟩ := C12_partial (E := E) (c := r)
    (d := 23 :: 3 :: 3 :: l1 :: l2 :: body) (by simp) hst (by rw [hsame]; omega)
    (by rw [hin, List.nil_append]) hl
  exact ⟨e, c', h1, h2⟩

theorem fed_cipher (c : Conn) (d : Bytes) : (c.fed d).cipher = c.cipher := rfl
theorem fed_mfl (c : Conn) (d : Bytes) : (c.fed d).mfl = c.mfl := rfl

theorem sends_app {c c' : Conn} {d : Bytes} (h : sendData E d c = (.ok (), c')) :
    Sends E c [.applicationData d] c' := .send h (.done _)

theorem sendsData_one {c c' : Conn} {d : Bytes} (h : sendData E d c = (.ok (), c')) :
    SendsData E c [d] c' := .send h (.done _)

/-- what one sending adds to the output -/
theorem sent_bytes {c c' : Conn} {d : Bytes} (h : sendData E d c = (.ok (), c')) :
    ∃ w, c'.outputData = c.outputData ++ w := by
  obtain ⟨_, _, rs, hw⟩ := sendContent_wrote h
  exact ⟨_, hw.out⟩

/-- The hypotheses of `C09_partial` and `C16_partial` are met by the two connected toys: the client
sends three bytes, the server gets them in two chunks. -/
example : ∃ (s' : Conn) (w : Bytes) (ops : List Op), Toy.env.Opens ∧
    Sends Toy.env Toy.clientDone [.applicationData [7, 8, 9]] s' ∧
    SendsData Toy.env Toy.clientDone [[7, 8, 9]] s' ∧
    Toy.clientDone.mfl ∈ [512, 1024, 2048, 4096, 16384] ∧
    Matched Toy.clientDone.cipher Toy.serverPair.cipher ∧
    SizeOk Toy.clientDone Toy.serverPair 3 ∧ Toy.serverPair.state = .connected ∧
    Toy.serverPair.inputHandshake = [] ∧ Toy.serverPair.inputData = [] ∧
    Toy.serverPair.applicationData = [] ∧ shouldRekey Toy.serverPair = .ok false ∧
    s'.outputData = Toy.clientDone.outputData ++ w ∧ Passive ops ∧ (chunks ops).flatten ++ [] = w ∧
    ops.length = 3 := by
  obtain ⟨h1, h2, h3, h4, h5, h6, _, _, h9, h10, _, h12, h13⟩ := Toy.pair_facts
  obtain ⟨k, key, nonce, wr, k1, k2, k3, k4, k5⟩ := Toy.canWrite_of h13
  obtain ⟨s', hs'⟩ := Toy.sends (d := [7, 8, 9]) (by simp)
  obtain ⟨_, _, rs, hwr⟩ := sendContent_wrote hs'
  have hw := hwr.out
  have hlen : 2 ≤ (wireOf rs).length := by
    cases rs with
    | nil =>
      obtain ⟨new, n, g1, g2, _⟩ := C10_partial (data := [7, 8, 9]) hs' k1 (by simp [k2])
        (by rw [h4]; simp) rfl (by rw [h4, k5]; decide)
      obtain ⟨new', g3, g4⟩ := hwr.tr
      have : new = new' := List.append_cancel_right (g1.symm.trans g3)
      rw [← this, g2] at g4
      cases g4
    | cons y rs => obtain ⟨o, b⟩ := y; rw [wireOf_cons, List.length_append, length_recordBytes]; omega
  refine ⟨s', wireOf rs, [.receive ((wireOf rs).take 1), .read, .receive ((wireOf rs).drop 1)],
    Toy.opens, sends_app hs', sendsData_one hs', by rw [h4]; simp, Toy.matched_of h10,
    ⟨by rw [h2, h4], ?_⟩, h1, h6, h5, h9, Toy.freshKey_of h12, hw, ?_, ?_, rfl⟩
  · intro k' hk' _
    rw [k1] at hk'
    cases hk'
    left
    rw [h4, k5]
    omega
  · intro o ho
    simp only [List.mem_cons, List.not_mem_nil, or_false] at ho
    rcases ho with rfl | rfl | rfl
    · exact .inr (.inr ⟨_, fun h => by have := congrArg List.length h; rw [List.length_take, List.length_nil] at this; omega, rfl⟩)
    · exact .inl rfl
    · exact .inr (.inr ⟨_, fun h => by
        have := congrArg List.length h
        rw [List.length_drop, List.length_nil] at this
        omega, rfl⟩)
  · simp only [chunks, List.flatten_cons, List.flatten_nil, List.append_nil]
    exact List.take_append_drop ..

/-- The hypotheses of `C09_refused` and `C16_refused` are met by the same pair and a payload of one
fragment. -/
theorem Toy.big_pair : ∃ (s' : Conn) (k : CipherSt) (w : Bytes),
    sendData Toy.env (List.replicate 16367 7) Toy.clientDone = (.ok (), s') ∧
    Toy.clientDone.cipher = some k ∧ k.wr.key ≠ none ∧
    Matched Toy.clientDone.cipher Toy.serverPair.cipher ∧
    Toy.clientDone.mfl ∈ [512, 1024, 2048, 4096, 16384] ∧ Toy.serverPair.mfl = Toy.clientDone.mfl ∧
    Toy.clientDone.mfl ≤ (List.replicate 16367 (7 : UInt8)).length + 1 + k.info.tagLength ∧
    s'.outputData = Toy.clientDone.outputData ++ w ∧ Toy.serverPair.inputData = [] ∧
    Toy.serverPair.state.canReceive = true := by
  obtain ⟨h1, h2, h3, h4, h5, h6, _, _, h9, h10, _, h12, h13⟩ := Toy.pair_facts
  obtain ⟨k, key, nonce, wr, k1, k2, k3, k4, k5⟩ := Toy.canWrite_of h13
  obtain ⟨s', hs'⟩ := Toy.sends (d := List.replicate 16367 7) (by rw [List.length_replicate])
  obtain ⟨w, hw⟩ := sent_bytes hs'
  exact ⟨s', k, w, hs', k1, by simp [k2], Toy.matched_of h10, by rw [h4]; simp, by rw [h2, h4],
    by rw [h4, k5, List.length_replicate], hw, h5, by rw [h1]; rfl⟩

/-- The full claim is false: a connected client sends 16367 bytes, and the server it is connected to,
which uses the same fragment length and holds the matching key, refuses the record. -/
theorem C09_false : ∃ (E : Env) (s s' r : Conn) (d w : Bytes), E.Sized ∧ E.Opens ∧
    (∃ config hostname ocsp algs random c₀ ops,
      Conn.new config hostname ocsp algs random = .ok c₀ ∧ s = runOps E ops c₀) ∧
    (∃ config hostname ocsp algs random c₀ ops,
      Conn.new config hostname ocsp algs random = .ok c₀ ∧ r = runOps E ops c₀) ∧
    Matched s.cipher r.cipher ∧ s.mfl = r.mfl ∧ r.inputData = [] ∧
    Sends E s [.applicationData d] s' ∧ s'.outputData = s.outputData ++ w ∧
    ∃ e, (readNextContent E (r.fed w)).1 = .error e := by
  obtain ⟨s', k, w, h1, h2, h3, h4, h5, h6, h7, h8, h9, h10⟩ := Toy.big_pair
  refine ⟨Toy.env, Toy.clientDone, s', Toy.serverPair, _, w, Toy.sized, Toy.opens,
    ⟨_, _, _, _, _, _, _, Toy.client0_new, rfl⟩, ⟨_, _, _, _, _, _, _, Toy.server0_new, rfl⟩, h4,
    h6.symm, h9, sends_app h1, h8, .attributeError, ?_⟩
  exact C09_refused (rest := []) (data := List.replicate 16367 7) (r := Toy.serverPair.fed w) h1 h2 h3
    (by rw [fed_cipher]; exact h4) h5 (by rw [fed_mfl]; exact h6) rfl h7 h8 (by rw [Conn.fed, h9]; simp)

/-- The full claim is false: what this client sent is never handed over by the server. -/
theorem C16_false : ∃ (E : Env) (s s' r : Conn) (d w : Bytes), E.Sized ∧ E.Opens ∧
    (∃ config hostname ocsp algs random c₀ ops,
      Conn.new config hostname ocsp algs random = .ok c₀ ∧ s = runOps E ops c₀) ∧
    (∃ config hostname ocsp algs random c₀ ops,
      Conn.new config hostname ocsp algs random = .ok c₀ ∧ r = runOps E ops c₀) ∧
    Matched s.cipher r.cipher ∧ s.mfl = r.mfl ∧ r.inputData = [] ∧ r.state = .connected ∧
    r.applicationData = [] ∧ SendsData E s [d] s' ∧ s'.outputData = s.outputData ++ w ∧
    d ≠ [] ∧ ∃ e r', receiveData E w r = (.error e, r') ∧ r'.applicationData = [] := by
  obtain ⟨s', k, w, h1, h2, h3, h4, h5, h6, h7, h8, h9, h10⟩ := Toy.big_pair
  obtain ⟨p1, _, _, _, _, _, _, _, p9, _⟩ := Toy.pair_facts
  obtain ⟨e, r', g1, g2⟩ := C16_refused h1 h5 h2 h3 h4 h6 h7 h10 h9 h8
  exact ⟨Toy.env, Toy.clientDone, s', Toy.serverPair, _, w, Toy.sized, Toy.opens,
    ⟨_, _, _, _, _, _, _, Toy.client0_new, rfl⟩, ⟨_, _, _, _, _, _, _, Toy.server0_new, rfl⟩, h4,
    h6.symm, h9, p1, p9, sendsData_one h1, h8, by rw [List.replicate_succ]; exact List.cons_ne_nil _ _,
    e, r', g1, g2.trans p9⟩

end Siotls
