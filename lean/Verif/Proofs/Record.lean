import Verif.Proofs.SendOne
import Verif.Proofs.Split
import Verif.Spec.Record
/-!
# Records written by one side and read by the other
-/

namespace Siotls
open Spec Serial

variable {E : Env}

theorem M.bind_ok {α β} {m : M α} {g : α → M β} {c c' : Conn} {b : β} :
    (m >>= g) c = (.ok b, c') ↔ ∃ a c₁, m c = (.ok a, c₁) ∧ g a c₁ = (.ok b, c') := by
  rw [M.bind_def]
  rcases m c with ⟨r, c₁⟩
  cases r with
  | error e =>
    constructor
    · intro h; cases h
    · rintro ⟨a, c₂, h, _⟩; cases h
  | ok a =>
    constructor
    · intro h; exact ⟨a, c₁, rfl, h⟩
    · rintro ⟨a', c₂, h, h'⟩; cases h; exact h'

theorem M.lift_ok {α} {r : Except Exn α} {c c' : Conn} {a : α} :
    M.lift r c = (.ok a, c') ↔ r = .ok a ∧ c = c' := by
  simp only [M.lift, Prod.mk.injEq]

/-- the bytes of some records -/
def wireOf (rs : List (Nat × Bytes)) : Bytes := (rs.map fun r => recordBytes r.1 r.2).flatten

/-- the records `rs` that carry the fragments `items` (type and bytes) written with the cipher `k` -/
inductive Recs (E : Env) (mfl : Nat) :
    Option CipherSt → (items rs : List (Nat × Bytes)) → Option CipherSt → Prop
  | nil (k) : Recs E mfl k [] [] k
  | plain {k ct f is rs k'} : (∀ k₁, k = some k₁ → k₁.wr.key = none) → f.length < 65536 →
      Recs E mfl k is rs k' → Recs E mfl k ((ct, f) :: is) ((ct, f) :: rs) k'
  | sealed {k : CipherSt} {ct f key nonce wr body is rs k'} : k.wr.key = some key →
      nextNonce k.info k.wr = .ok (nonce, wr) →
      body = E.aeadSeal k.info.id key nonce
        (sealedHeader ((innerText mfl k.info.tagLength ct f).length + k.info.tagLength))
        (innerText mfl k.info.tagLength ct f) →
      body.length = (innerText mfl k.info.tagLength ct f).length + k.info.tagLength →
      body.length < 65536 →
      Recs E mfl (some { k with wr := wr }) is rs k' →
      Recs E mfl (some k) ((ct, f) :: is) ((23, body) :: rs) k'

/-- only sealed records -/
def Ev.isSealed : Ev → Prop
  | .sealed .. => True
  | _ => False

theorem recordHeader_lt {o n : Nat} {b : Bytes} (h : recordHeader o n = .ok b) : n < 65536 := by
  obtain ⟨l, h1, h2⟩ := Except.bind_eq_ok.mp h
  exact (toBytes_ok.mp h1).1

theorem encryptFragment_ok {ct : Nat} {f body : Bytes} {c c' : Conn}
    (h : encryptFragment E ct f c = (.ok body, c')) :
    ∃ k key nonce wr, c.cipher = some k ∧ k.wr.key = some key ∧
      nextNonce k.info k.wr = .ok (nonce, wr) ∧
      body = E.aeadSeal k.info.id key nonce
        (sealedHeader ((innerText c.mfl k.info.tagLength ct f).length + k.info.tagLength))
        (innerText c.mfl k.info.tagLength ct f) ∧
      body.length = (innerText c.mfl k.info.tagLength ct f).length + k.info.tagLength ∧
      c' = { c with
        cipher := some { k with wr := wr }
        tr := .sealed k.info.id key nonce
          (sealedHeader ((innerText c.mfl k.info.tagLength ct f).length + k.info.tagLength))
          (innerText c.mfl k.info.tagLength ct f) :: c.tr } := by
  unfold encryptFragment at h
  obtain ⟨_, _, h0, h⟩ := M.bind_ok.mp h
  cases h0
  obtain ⟨k, _, h0, h⟩ := M.bind_ok.mp h
  unfold getCipher at h0
  cases hk : c.cipher with
  | none => rw [hk] at h0; cases h0
  | some k₀ =>
  rw [hk] at h0
  cases h0
  obtain ⟨hd, _, h0, h⟩ := M.bind_ok.mp h
  obtain ⟨hh, rfl⟩ := M.lift_ok.mp h0
  rw [recordHeader_ok (recordHeader_lt hh)] at hh
  cases hh
  obtain ⟨enc, c₁, h0, h⟩ := M.bind_ok.mp h
  split at h
  case isFalse => cases h
  rename_i hlen
  cases h
  unfold cipherEncrypt at h0
  rw [hk] at h0
  dsimp only at h0
  cases hkey : k.wr.key with
  | none => rw [hkey] at h0; cases h0
  | some key =>
  rw [hkey] at h0
  dsimp only at h0
  rcases hn : nextNonce k.info k.wr with e | ⟨nonce, wr⟩
  · rw [hn] at h0; cases e <;> cases h0
  · rw [hn] at h0
    cases h0
    exact ⟨k, key, nonce, wr, rfl, hkey, hn, rfl, hlen, rfl⟩

theorem makeRecords_ok {enc : Bool} {ct : Nat} {fs : List Bytes} {c c' : Conn}
    {rs : List (Nat × Bytes × Bytes)} (he : enc = c.mustEncrypt)
    (h : makeRecords E enc ct fs c = (.ok rs, c')) :
    Recs E c.mfl c.cipher (fs.map fun f => (ct, f)) (rs.map fun r => (r.1, r.2.1)) c'.cipher ∧
      ∃ seals, (∀ e ∈ seals, e.isSealed) ∧
        c' = { c with cipher := c'.cipher, tr := seals ++ c.tr } := by
  induction fs generalizing c c' rs with
  | nil => cases h; exact ⟨.nil _, [], by simp, rfl⟩
  | cons f fs ih =>
    unfold makeRecords at h
    obtain ⟨body, c₁, hp, h⟩ := M.bind_ok.mp h
    obtain ⟨header, c₂, hl, h⟩ := M.bind_ok.mp h
    obtain ⟨hh, rfl⟩ := M.lift_ok.mp hl
    obtain ⟨rest, c₃, hr, h⟩ := M.bind_ok.mp h
    cases h
    have hlt := recordHeader_lt hh
    unfold protect at hp
    by_cases hm : enc = true
    · rw [if_pos hm] at hp
      obtain ⟨k, key, nonce, wr, hk, hkey, hn, hb, hbl, rfl⟩ := encryptFragment_ok hp
      have hme : enc = Conn.mustEncrypt { c with
        cipher := some { k with wr := wr }
        tr := .sealed k.info.id key nonce
          (sealedHeader ((innerText c.mfl k.info.tagLength ct f).length + k.info.tagLength))
          (innerText c.mfl k.info.tagLength ct f) :: c.tr } := by
        rw [hm]
        obtain ⟨_, _, _, _, hd, _⟩ := nextNonce_shape hn
        simp [Conn.mustEncrypt, hd, hkey]
      obtain ⟨h1, seals, h2, h3⟩ := ih hme hr
      refine ⟨?_, seals ++ [.sealed k.info.id key nonce
          (sealedHeader ((innerText c.mfl k.info.tagLength ct f).length + k.info.tagLength))
          (innerText c.mfl k.info.tagLength ct f)], ?_, ?_⟩
      · rw [hk]
        simp only [List.map_cons, hm, if_true]
        exact .sealed hkey hn hb hbl hlt h1
      · intro e he
        rcases List.mem_append.mp he with he | he
        · exact h2 e he
        · cases List.mem_singleton.mp he; trivial
      · rw [h3]; simp
    · rw [if_neg hm] at hp
      cases hp
      obtain ⟨h1, seals, h2, h3⟩ := ih he hr
      refine ⟨?_, seals, h2, h3⟩
      simp only [List.map_cons, hm, if_false]
      refine .plain ?_ hlt h1
      intro k₁ hk
      have : c.mustEncrypt = false := by rw [← he]; simpa using hm
      unfold Conn.mustEncrypt at this
      rw [hk] at this
      simpa using this

theorem recordLengths_append (a b : List Ev) :
    recordLengths (a ++ b) = recordLengths b ++ recordLengths a := by
  induction a with
  | nil => simp [recordLengths]
  | cons e a ih => cases e <;> simp [recordLengths, ih]

theorem recordLengths_seals {l : List Ev} (h : ∀ e ∈ l, e.isSealed) : recordLengths l = [] := by
  induction l with
  | nil => rfl
  | cons e l ih =>
    have he := h e List.mem_cons_self
    cases e <;> first | exact he.elim | exact ih fun e he => h e (List.mem_cons_of_mem _ he)

theorem recordLengths_records (rs : List (Nat × Bytes × Bytes)) :
    recordLengths (rs.map fun r => Ev.record r.1 r.2.1).reverse =
      rs.map fun r => (r.1, r.2.1.length) := by
  induction rs with
  | nil => rfl
  | cons r rs ih =>
    rw [List.map_cons, List.reverse_cons, recordLengths_append, ih]
    simp [recordLengths]

/-- the longest fragment put in one record -/
def Conn.fragLen (c : Conn) : Int :=
  if c.mustEncrypt then (c.mfl : Int) - (1 + (match c.cipher with
    | some k => k.info.tagLength
    | none => 0) : Nat) else c.mfl

/-- what a successful sending does -/
structure Wrote (E : Env) (x : Content) (c : Conn) (data : Bytes) (fs : List Bytes)
    (rs : List (Nat × Bytes)) (c' : Conn) : Prop where
  app : x.ctype = Iana.ctApplicationData → c.state.canSendApp = true
  can : c.state.canSend = true
  ser : serContent E x = .ok data
  frag : splitFragments c.fragLen x.canFragment data = .ok fs
  recs : Recs E c.mfl c.cipher (fs.map fun f => (x.ctype, f)) rs c'.cipher
  out : c'.outputData = c.outputData ++ wireOf rs
  same : c' = { c with cipher := c'.cipher, outputData := c'.outputData, tr := c'.tr,
                       transcript := c'.transcript }
  tr : ∃ new, c'.tr = new ++ c.tr ∧ recordLengths new = rs.map fun r => (r.1, r.2.length)

theorem sendContent_wrote {x : Content} {c c' : Conn} (h : sendContent E x c = (.ok (), c')) :
    ∃ data fs rs, Wrote E x c data fs rs c' := by
  unfold sendContent at h
  obtain ⟨_, _, h0, h⟩ := M.bind_ok.mp h
  cases h0
  by_cases happ : x.ctype = Iana.ctApplicationData ∧ c.state.canSendApp = false
  · rw [if_pos happ] at h; cases h
  rw [if_neg happ] at h
  by_cases hcan : c.state.canSend = false
  · rw [if_pos hcan] at h; cases h
  rw [if_neg hcan] at h
  by_cases hhb : x.ctype = Iana.ctHeartbeat
  · rw [if_pos hhb] at h; cases h
  rw [if_neg hhb] at h
  obtain ⟨data, _, h0, h⟩ := M.bind_ok.mp h
  obtain ⟨hser, rfl⟩ := M.lift_ok.mp h0
  obtain ⟨_, c₁, hhash, h⟩ := M.bind_ok.mp h
  obtain ⟨fs, _, h0, h⟩ := M.bind_ok.mp h
  obtain ⟨hfr, rfl⟩ := M.lift_ok.mp h0
  obtain ⟨rs, c₂, hrs, h⟩ := M.bind_ok.mp h
  have hs : c₁ = { c with transcript := c₁.transcript, tr := c₁.tr } ∧
      ∃ l, c₁.tr = l ++ c.tr ∧ recordLengths l = [] := by
    unfold hashContent at hhash
    split at hhash
    · unfold transcriptUpdate at hhash
      split at hhash
      · cases hhash
        refine ⟨rfl, ?_⟩
        dsimp only
        split
        · exact ⟨[_], rfl, rfl⟩
        · exact ⟨[], rfl, rfl⟩
      · cases hhash
    · cases hhash
    · cases hhash; exact ⟨rfl, [], rfl, rfl⟩
  obtain ⟨hs, l, hl, hl0⟩ := hs
  have hme : c.mustEncrypt = c₁.mustEncrypt := by rw [hs]; rfl
  obtain ⟨hrec, seals, hse, hc₂⟩ := makeRecords_ok hme hrs
  have hby := makeRecords_bytes hrs
  simp only [emitRecords, M.modify, Prod.mk.injEq] at h
  obtain ⟨_, rfl⟩ := h
  refine ⟨data, fs, rs.map fun r => (r.1, r.2.1), ?_⟩
  refine ⟨?_, ?_, hser, ?_, ?_, ?_, ?_, ?_⟩
  · intro hx
    cases hb : c.state.canSendApp with
    | true => rfl
    | false => exact absurd ⟨hx, hb⟩ happ
  · simpa using hcan
  · unfold Conn.fragLen; exact hfr
  · have : c₁.mfl = c.mfl := by rw [hs]; rfl
    rw [this] at hrec
    rw [show c₁.cipher = c.cipher by rw [hs]] at hrec
    exact hrec
  · dsimp only
    rw [show c₂.outputData = c.outputData by rw [hc₂, hs], wireOf, List.map_map]
    congr 2
    exact List.map_congr_left fun r hr => hby r hr
  · dsimp only
    cases c; cases c₁; cases c₂
    simp only [Conn.mk.injEq] at hc₂ hs ⊢
    simp_all
  · refine ⟨.sent x :: ((rs.map fun r => Ev.record r.1 r.2.1).reverse ++ (seals ++ l)), ?_, ?_⟩
    · dsimp only
      rw [hc₂]
      simp [hl]
    · simp only [recordLengths, recordLengths_append, recordLengths_records, hl0,
        recordLengths_seals hse, List.nil_append, List.map_map]
      rfl

/-! ## Fragments -/

theorem chunksOf_facts {n : Nat} (hn : 0 < n) : ∀ (k : Nat) (d : Bytes), d.length ≤ k →
    (chunksOf n k d).flatten = d ∧ (∀ f ∈ chunksOf n k d, f.length ≤ n ∧ f ≠ []) ∧
      (n ≤ d.length → ∃ rest, chunksOf n k d = d.take n :: rest) := by
  intro k
  induction k with
  | zero =>
    intro d hd
    have : d = [] := List.length_eq_zero_iff.mp (by omega)
    subst this
    exact ⟨rfl, by simp [chunksOf], fun h => by simp at h; omega⟩
  | succ k ih =>
    intro d hd
    rw [chunksOf]
    split
    · rename_i he
      have : d = [] := by simpa using he
      subst this
      exact ⟨rfl, by simp, fun h => by simp at h; omega⟩
    · rename_i he
      have hne : d ≠ [] := by simpa using he
      have hpos : 0 < d.length := List.length_pos_iff.mpr hne
      obtain ⟨h1, h2, _⟩ := ih (d.drop n) (by simp; omega)
      refine ⟨by rw [List.flatten_cons, h1, List.take_append_drop], ?_, fun _ => ⟨_, rfl⟩⟩
      intro f hf
      rcases List.mem_cons.mp hf with rfl | hf
      · refine ⟨by simp, fun h => ?_⟩
        have := congrArg List.length h
        simp only [List.length_take, List.length_nil] at this
        omega
      · exact h2 f hf

theorem splitFragments_ok {n : Int} {cf : Bool} {data : Bytes} {fs : List Bytes} (hn : 0 < n)
    (h : splitFragments n cf data = .ok fs) :
    fs.flatten = data ∧ (∀ f ∈ fs, (f.length : Int) ≤ n) ∧
      ((data.length : Int) ≤ n ∧ fs = [data] ∨
        n < data.length ∧ cf = true ∧ ∃ rest, fs = data.take n.toNat :: rest) := by
  unfold splitFragments at h
  by_cases h1 : (data.length : Int) ≤ n
  · rw [if_pos h1] at h
    cases h
    exact ⟨by simp, by simpa using h1, .inl ⟨h1, rfl⟩⟩
  rw [if_neg h1] at h
  cases cf with
  | false => cases h
  | true =>
  rw [if_pos rfl, if_neg (by omega), if_neg (by omega)] at h
  cases h
  obtain ⟨g1, g2, g3⟩ := chunksOf_facts (n := n.toNat) (by omega) data.length data (Nat.le_refl _)
  exact ⟨g1, fun f hf => by have := (g2 f hf).1; omega, .inr ⟨by omega, rfl, g3 (by omega)⟩⟩

/-! ## Lengths -/

/-- length of the record that carries `n` bytes -/
def paddedLength (mfl tag n : Nat) : Nat :=
  ((n + 1 + tag) / min mfl 4096 + 1) * min mfl 4096

theorem innerText_padded {mfl tag : Nat} (hm : 0 < mfl) (ct : Nat) (f : Bytes) :
    (innerText mfl tag ct f).length + tag = paddedLength mfl tag f.length := by
  rw [length_innerText]
  unfold paddedLength padLength
  have hb : 0 < min mfl 4096 := by omega
  have h1 := Nat.div_add_mod (f.length + 1 + tag) (min mfl 4096)
  have h2 := Nat.mod_lt (f.length + 1 + tag) hb
  rw [Nat.add_mul, Nat.one_mul, Nat.mul_comm]
  omega

theorem Recs.plain_lengths {mfl : Nat} {k k' : Option CipherSt} {is rs : List (Nat × Bytes)}
    (h : Recs E mfl k is rs k') (hk : ∀ k₁, k = some k₁ → k₁.wr.key = none) :
    k' = k ∧ rs = is := by
  induction h with
  | nil => exact ⟨rfl, rfl⟩
  | plain _ _ _ ih => obtain ⟨h1, h2⟩ := ih hk; exact ⟨h1, by rw [h2]⟩
  | «sealed» hkey => rw [hk _ rfl] at hkey; cases hkey

theorem Recs.sealed_lengths {mfl : Nat} {k₀ k' : Option CipherSt} {is rs : List (Nat × Bytes)}
    {k : CipherSt} (hm : 0 < mfl) (h : Recs E mfl k₀ is rs k') (hk : k₀ = some k)
    (hkey : k.wr.key ≠ none) :
    (rs.map fun r => (r.1, r.2.length)) =
      is.map fun i => (23, paddedLength mfl k.info.tagLength i.2.length) := by
  induction h generalizing k with
  | nil => rfl
  | plain hp => exact absurd (hp _ hk) hkey
  | «sealed» hkey' hn _ hl _ _ ih =>
    cases hk
    rw [List.map_cons, List.map_cons]
    rw [hl, innerText_padded hm]
    obtain ⟨_, _, _, _, hd, _⟩ := nextNonce_shape hn
    have := ih rfl (by rw [hd]; exact hkey)
    rw [this]

end Siotls
