import Verif.Proofs.Carry
import Verif.Spec.Attack
/-!
# What a connection hears of its peer: invariant behind C17
-/

namespace Siotls
open Spec Serial

variable {E : Env}

/-- the application data in the plaintext of a record -/
def frag23 (x : Bytes) : Option Bytes :=
  match stripPadding x with
  | some (t, d) => if t = 23 then some d else none
  | none => none

theorem deliveries_append (l m : List Ev) : deliveries (l ++ m) = deliveries m ++ deliveries l := by
  induction l with
  | nil => simp [deliveries]
  | cons e l ih => cases e <;> simp [deliveries, ih]

theorem deliveredData_eq (l : List Ev) : deliveredData l = (deliveries l).flatten := by
  induction l with
  | nil => rfl
  | cons e l ih => cases e <;> simp [deliveries, deliveredData, ih]

/-- neither a decryption nor a delivery -/
def Ev.mute : Ev → Prop
  | .opened .. | .delivered .. => False
  | _ => True

theorem deliveries_mute {l : List Ev} (h : ∀ e ∈ l, e.mute) : deliveries l = [] := by
  induction l with
  | nil => rfl
  | cons e l ih =>
    have he := h e List.mem_cons_self
    have hl := ih fun e he => h e (List.mem_cons_of_mem _ he)
    cases e <;> first | exact hl | exact he.elim

/-- the read half of the cipher -/
def Conn.ear (c : Conn) : Option (SuiteInfo × Dir) := c.cipher.map fun k => (k.info, k.rd)

/-- a step that neither decrypts nor delivers -/
structure Still (c c' : Conn) : Prop where
  ear : c'.ear = c.ear
  post : c.state.isPostHandshake = true → c'.state.isPostHandshake = true
  deaf : c.state.isPostHandshake = true → c.state.isConnected = false → c'.state.isConnected = false
  tr : ∃ l, c'.tr = l ++ c.tr ∧ ∀ e ∈ l, e.mute

theorem Still.refl (c : Conn) : Still c c := ⟨rfl, id, fun _ => id, [], rfl, by simp⟩

theorem Still.trans {a b c : Conn} (h : Still a b) (h' : Still b c) : Still a c := by
  obtain ⟨l, h1, h2⟩ := h.tr
  obtain ⟨m, g1, g2⟩ := h'.tr
  refine ⟨h'.ear.trans h.ear, fun p => h'.post (h.post p), fun p d => h'.deaf (h.post p) (h.deaf p d),
    m ++ l, by rw [g1, h1, List.append_assoc], ?_⟩
  intro e he
  rcases List.mem_append.mp he with he | he
  · exact g2 e he
  · exact h2 e he

theorem still_tr {c : Conn} {e : Ev} (h : e.mute) : Still c { c with tr := e :: c.tr } :=
  ⟨rfl, id, fun _ => id, [e], rfl, by simpa using h⟩

theorem pres_encrypt_ear (ctype : Nat) (frag : Bytes) :
    Pres Conn.ear (encryptFragment E ctype frag) := by
  unfold encryptFragment
  refine Pres.bind Pres.get fun c => Pres.bind ?_ fun k => Pres.bind (Pres.lift _) fun _ =>
    Pres.bind ?_ fun _ => ?_
  · intro c
    unfold getCipher
    split <;> rfl
  · intro c
    unfold cipherEncrypt
    split
    · rfl
    · rename_i k hk
      split
      · rfl
      · split <;> first
          | rfl
          | simp only [Conn.ear, hk, Option.map_some]
  · split
    · exact Pres.pure _
    · exact Pres.throw _

theorem aside_ear : Aside Conn.ear := ⟨fun _ _ _ => rfl, fun _ _ _ => rfl⟩

theorem still_of {c c' : Conn} {P : Ev → Prop} (he : c'.ear = c.ear) (hs : c'.state = c.state)
    (h : Effect P c c') (hP : ∀ e, P e → e.mute) : Still c c' := by
  obtain ⟨l, h1, h2, _⟩ := h.tr
  exact ⟨he, by rw [hs]; exact id, by rw [hs]; exact fun _ => id, l, h1, fun e he => hP e (h2 e he)⟩

theorem sending_mute {x : Content} (e : Ev) (h : Ev.sending x e) : e.mute := by
  cases e <;> first | trivial | exact h.elim

theorem still_send (x : Content) (c : Conn) : Still c (sendContent E x c).2 :=
  still_of (pres_sendContent aside_ear x c fun _ => pres_encrypt_ear _)
    (pres_sendContent aside_state x c fun _ => pres_encrypt_state _) (has_send x c) sending_mute

theorem still_fail (d : Nat) (c : Conn) : Still c (failWith E d c).2 := by
  unfold failWith
  rw [M.bind_def]
  have h := still_send (E := E) (.alert Iana.fatal d) c
  rcases hm : sendContent E (.alert Iana.fatal d) c with ⟨r, c₁⟩
  rw [hm] at h
  cases r with
  | error e => exact h
  | ok u => exact h.trans ⟨rfl, fun _ => rfl, fun _ _ => rfl, [], rfl, by simp⟩

theorem still_hash (d : Bytes) (s : Side) (x : Content) (c : Conn) :
    Still c (hashContent d s x c).2 :=
  still_of (P := fun e => ∃ s t d, e = .hashed s t d) (pres_hashContent aside_ear d s x c)
    (pres_hashContent aside_state d s x c) (has_hash (fun s t d => ⟨s, t, d, rfl⟩) d s x c)
    (by rintro _ ⟨s, t, d, rfl⟩; trivial)

theorem still_base (x : Content) (c : Conn) (hc : c.state.isConnected = true) :
    Still c (baseProcess x c).2 := by
  unfold baseProcess
  split
  · split
    · exact ⟨rfl, fun _ => rfl, fun _ h => (by rw [hc] at h; cases h), [], rfl, by simp⟩
    split
    · split <;> exact .refl c
    split <;> exact .refl c
  · exact .refl c
  · exact .refl c

theorem still_process (x : Content) (c : Conn) (hp : c.state.isPostHandshake = true) :
    (Still c (process E x c).2 ∧
      (c.state.isConnected = true → ∀ d, x ≠ .applicationData d)) ∨
    ∃ d, x = .applicationData d ∧ c.state.isConnected = true ∧
      process E x c = (.ok (), { c with applicationData := c.applicationData ++ d,
                                        tr := .delivered d :: c.tr }) := by
  have hconn : c.state.isConnected = true → (Still c (connectedProcess x c).2 ∧
      (c.state.isConnected = true → ∀ d, x ≠ .applicationData d)) ∨
      ∃ d, x = .applicationData d ∧ c.state.isConnected = true ∧
      connectedProcess x c = (.ok (), { c with applicationData := c.applicationData ++ d,
                                               tr := .delivered d :: c.tr }) := by
    intro hc
    by_cases hx : ∃ d, x = .applicationData d
    · obtain ⟨d, rfl⟩ := hx
      exact .inr ⟨d, rfl, hc, rfl⟩
    · refine .inl ⟨?_, fun _ d h => hx ⟨d, h⟩⟩
      have : connectedProcess x = baseProcess x := by
        cases x <;> first | rfl | exact absurd ⟨_, rfl⟩ hx
      rw [this]
      exact still_base x c hc
  unfold process
  cases hs : c.state with
  | connected => rw [hs] at hconn; exact hconn rfl
  | closed r s =>
    cases r with
    | true => rw [hs] at hconn; exact hconn rfl
    | false => exact .inl ⟨.refl c, fun h => by cases h⟩
  | failed => exact .inl ⟨.refl c, fun h => by cases h⟩
  | _ => rw [hs] at hp; cases hp

theorem decode_is_app {ct : Option (Option Nat)} {t : Nat} {data d : Bytes}
    (h : decodeContent E ct t data = .ok (.applicationData d)) : t = 23 ∧ d = data := by
  by_cases ht : t = 23
  · subst ht
    rw [decode_app] at h
    cases h
    exact ⟨rfl, rfl⟩
  · exfalso
    have key : Returns (parseContent E ct t) fun x => ∀ d, x ≠ .applicationData d := by
      unfold parseContent
      split
      · unfold parseChangeCipherSpec
        refine Returns.bind fun b => ?_
        split
        · exact Returns.throw
        · exact Returns.pure (by simp)
      · unfold parseAlert
        refine Returns.bind fun l => ?_
        split
        · exact Returns.bind fun d => Returns.pure (by simp)
        · exact Returns.throw
      · refine Returns.bind fun h => ?_
        split <;> exact Returns.pure (by simp)
      · exact absurd rfl ht
      · unfold parseHeartbeat
        refine Returns.bind fun _ => Returns.bind fun _ => Returns.bind fun _ => ?_
        split
        · exact Returns.throw
        split
        · exact Returns.throw
        · exact Returns.pure (by simp)
      · exact Returns.throw
      · exact Returns.throw
    unfold decodeContent at h
    dsimp only at h
    split at h
    · next c s' hr =>
      cases h
      obtain ⟨c, s₁, h1, hr⟩ := P.bind_ok hr
      obtain ⟨u, s₂, h2, hr⟩ := P.bind_ok hr
      cases hr
      exact key _ _ _ h1 _ rfl
    · split at h <;> cases h

theorem useContent_hear {t : Nat} {data : Bytes} {c c' : Conn} {res : Except Exn Bool}
    (hp : c.state.isPostHandshake = true) (h : useContent E t data c = (res, c')) :
    (Still c c' ∧ (res = .ok true → t = 23 → c.state.isConnected = false)) ∨
    (t = 23 ∧ c.state.isConnected = true ∧ ∃ tr, Still c { c with tr := tr } ∧
      c' = { c with applicationData := c.applicationData ++ data, tr := .delivered data :: tr }) := by
  unfold useContent at h
  rw [M.bind_def] at h
  change ((M.lift (decodeContent E c.certType t data) >>= _) c) = _ at h
  rw [M.bind_def] at h
  cases hd : decodeContent E c.certType t data with
  | error e =>
    rw [hd] at h
    cases h
    exact .inl ⟨.refl c, by simp⟩
  | ok x =>
  rw [hd] at h
  change ((hashContent data c.config.side.other x >>= _) c) = _ at h
  rw [M.bind_def] at h
  have hq := still_hash data c.config.side.other x c
  rcases hh : hashContent data c.config.side.other x c with ⟨r₁, c₁⟩
  rw [hh] at h hq
  cases r₁ with
  | error e => cases h; exact .inl ⟨hq, by simp⟩
  | ok u =>
  change (process E x >>= fun _ => pure true) { c₁ with tr := .recv x :: c₁.tr } = _ at h
  rw [M.bind_def] at h
  have hst : c₁.state = c.state := by
    have := pres_hashContent aside_state data c.config.side.other x c
    rw [hh] at this; exact this
  have hq' : Still c { c₁ with tr := .recv x :: c₁.tr } := hq.trans (still_tr trivial)
  rcases still_process (E := E) x { c₁ with tr := .recv x :: c₁.tr } (hq'.post hp) with ⟨h1, h2⟩ | ⟨d, rfl, h1, h2⟩
  · rcases hpr : process E x { c₁ with tr := .recv x :: c₁.tr } with ⟨r₂, c₂⟩
    rw [hpr] at h h1
    refine .inl ⟨?_, ?_⟩
    · cases r₂ <;> (cases h; exact hq'.trans h1)
    · rintro rfl rfl
      cases hc : c.state.isConnected with
      | false => rfl
      | true =>
        exfalso
        rw [decode_app] at hd
        cases hd
        exact h2 (by rw [← hc]; exact congrArg _ hst) _ rfl
  · obtain ⟨rfl, rfl⟩ := decode_is_app hd
    have hcc : c₁ = c := by
      unfold hashContent at hh
      cases hh; rfl
    subst hcc
    rw [h2] at h
    cases h
    exact .inr ⟨rfl, h1, _, still_tr (e := .recv _) trivial, rfl⟩

/-! ## The line -/

/-- the peer: suite, key and iv, the first sequence number and the plaintexts it sealed from there on -/
structure Line where
  info : SuiteInfo
  key : Bytes
  iv : Bytes
  n₀ : Nat
  texts : List Bytes

/-- the connection reads next the record `n` of the line -/
structure Line.At (A : Line) (c : Conn) (n : Nat) : Prop where
  post : c.state.isPostHandshake = true
  ear : c.ear = some (A.info, ⟨some A.key, some A.iv, some n⟩)
  le : A.n₀ ≤ n

/-- only texts of the line were decrypted, each with its own nonce -/
def Line.Genuine (A : Line) (l : List Ev) : Prop := ∀ i aad x, i < 2 ^ 64 →
  Ev.opened A.info.id A.key (xorBytes A.iv (beEnc A.info.nonceLength i)) aad x ∈ l →
    A.n₀ ≤ i → A.texts[i - A.n₀]? = some x

theorem Line.Genuine.right {A : Line} {l m : List Ev} (h : A.Genuine (l ++ m)) : A.Genuine m :=
  fun i aad x hi hm => h i aad x hi (List.mem_append_right _ hm)

theorem Line.Genuine.left {A : Line} {l m : List Ev} (h : A.Genuine (l ++ m)) : A.Genuine l :=
  fun i aad x hi hm => h i aad x hi (List.mem_append_left _ hm)

/-- the application data of the records before `n` -/
def Line.upTo (A : Line) (n : Nat) : List Bytes := (A.texts.take (n - A.n₀)).filterMap frag23

def Line.all (A : Line) : List Bytes := A.texts.filterMap frag23

theorem Line.upTo_prefix (A : Line) (n : Nat) : A.upTo n <+: A.all :=
  (List.take_prefix _ _).filterMap _

theorem Line.upTo_mono (A : Line) {n m : Nat} (h : n ≤ m) : (A.upTo n).Sublist (A.upTo m) :=
  ((List.take_prefix_take_left (by omega) : A.texts.take (n - A.n₀) <+: A.texts.take (m - A.n₀)).filterMap
    frag23).sublist

/-- the application data in what was read -/
def extra : Except Exn (Option (Nat × Bytes)) → List Bytes
  | .ok (some (t, d)) => if t = 23 then [d] else []
  | _ => []

/-- what reading the input does -/
def Line.Hears (A : Line) (c c' : Conn) (n : Nat) (res : Except Exn (Option (Nat × Bytes))) : Prop :=
  ∃ n' l, A.At c' n' ∧ n ≤ n' ∧ c'.tr = l ++ c.tr ∧ deliveries l = [] ∧ c'.state = c.state ∧
    (raised res = false → A.Genuine l → A.upTo n' = A.upTo n ++ extra res)

theorem Line.At.same {A : Line} {c c' : Conn} {n : Nat} (h : A.At c n) (hs : c'.state = c.state)
    (he : c'.ear = c.ear) : A.At c' n := ⟨by rw [hs]; exact h.post, by rw [he]; exact h.ear, h.le⟩

theorem Line.At.cipher {A : Line} {c : Conn} {n : Nat} (h : A.At c n) :
    ∃ k, c.cipher = some k ∧ k.info = A.info ∧ k.rd = ⟨some A.key, some A.iv, some n⟩ := by
  have := h.ear
  unfold Conn.ear at this
  cases hc : c.cipher with
  | none => rw [hc] at this; cases this
  | some k =>
    rw [hc] at this
    simp only [Option.map_some, Option.some.injEq, Prod.mk.injEq] at this
    exact ⟨k, rfl, this.1, this.2⟩

theorem hear_record {A : Line} (hid : suiteInfo A.info.id = some A.info) {c c' : Conn} {n : Nat}
    {res : Except Exn (Option (Nat × Bytes))} (ha : A.At c n)
    (h : readNextRecord E c = (res, c')) : A.Hears c c' n res := by
  obtain ⟨k, hk, hi, hrd⟩ := ha.cipher
  cases nextRecord (E := E) c with
  | none _ hn =>
    rw [hn] at h
    cases h
    exact ⟨n, [], ha.same rfl rfl, le_refl _, rfl, rfl, rfl, fun _ _ => by simp [extra]⟩
  | overflow _ hn =>
    rw [hn] at h
    cases h
    exact ⟨n, [], ha.same rfl rfl, le_refl _, rfl, rfl, rfl, fun h => by cases h⟩
  | record outer header frag rest _ _ hn =>
    rw [hn] at h
    have hdec : Conn.mustDecrypt { c with inputData := rest } = true := by
      unfold Conn.mustDecrypt
      rw [hk]
      dsimp only
      rw [hrd]; rfl
    unfold useRecord at h
    rw [if_pos hdec] at h
    unfold decryptRecord at h
    dsimp only at h
    rw [hk] at h
    dsimp only at h
    rw [hrd] at h
    dsimp only at h
    rcases hnn : nextNonce k.info ⟨some A.key, some A.iv, some n⟩ with e | ⟨nonce, rd⟩
    · rw [hnn] at h
      cases h
      exact ⟨n, [], ha.same rfl (by simp only [Conn.ear, hk, Option.map_some]), le_refl _, rfl, rfl, rfl,
        fun h => by cases h⟩
    · rw [hnn] at h
      dsimp only at h
      obtain ⟨iv, m, h1, h2, rfl, rfl, lim, hl, hlt⟩ := nextNonce_shape hnn
      cases h1; cases h2
      have hlt' : n < 2 ^ 64 := by
        rw [hi] at hl
        exact lt_of_lt_of_le hlt (limit_le hid hl)
      have hat : ∀ tr i, A.At { c with inputData := i
                                       cipher := some { k with rd := ⟨some A.key, some A.iv, some (n + 1)⟩ }
                                       tr := tr } (n + 1) := fun tr i =>
        ⟨ha.post, by simp only [Conn.ear, Option.map_some, hi], by have := ha.le; omega⟩
      cases ho : E.aeadOpen k.info.id A.key (xorBytes A.iv (beEnc k.info.nonceLength n)) header frag with
      | none =>
        rw [ho] at h
        cases h
        exact ⟨n + 1, [], hat _ _, by omega, rfl, rfl, rfl, fun h => by cases h⟩
      | some inner =>
        rw [ho] at h
        dsimp only at h
        refine ⟨n + 1, [.opened k.info.id A.key (xorBytes A.iv (beEnc k.info.nonceLength n)) header inner],
          ?_, by omega, ?_, rfl, ?_, ?_⟩
        · cases hst : stripPadding inner with
          | none => rw [hst] at h; cases h; exact hat _ _
          | some r =>
            obtain ⟨t, f⟩ := r
            rw [hst] at h
            dsimp only at h
            split at h <;> (cases h; exact hat _ _)
        · cases hst : stripPadding inner with
          | none => rw [hst] at h; cases h; rfl
          | some r =>
            obtain ⟨t, f⟩ := r
            rw [hst] at h
            dsimp only at h
            split at h <;> (cases h; rfl)
        · cases hst : stripPadding inner with
          | none => rw [hst] at h; cases h; rfl
          | some r =>
            obtain ⟨t, f⟩ := r
            rw [hst] at h
            dsimp only at h
            split at h <;> (cases h; rfl)
        · intro hr hg
          have hx := hg n header inner hlt' (by rw [hi]; exact List.mem_singleton.mpr rfl) ha.le
          have hup : A.upTo (n + 1) = A.upTo n ++ (frag23 inner).toList := by
            unfold Line.upTo
            rw [show n + 1 - A.n₀ = n - A.n₀ + 1 by have := ha.le; omega, List.take_add_one, hx,
              List.filterMap_append]
            cases hf : frag23 inner <;> simp [hf]
          rw [hup]
          congr 1
          unfold frag23
          cases hst : stripPadding inner with
          | none => rw [hst] at h; cases h; cases hr
          | some r =>
            obtain ⟨t, f⟩ := r
            rw [hst] at h
            dsimp only at h
            split at h
            · cases h; cases hr
            · cases h
              simp only [extra]
              split <;> rfl

theorem Line.Hears.trans {A : Line} {c c₁ c' : Conn} {n : Nat} {r₁ res : Except Exn (Option (Nat × Bytes))}
    (h : A.Hears c c₁ n r₁) (hr : raised r₁ = false) (he : extra r₁ = [])
    (h' : ∀ m, A.At c₁ m → A.Hears c₁ c' m res) : A.Hears c c' n res := by
  obtain ⟨m, l, h1, h2, h3, h4, h5, h6⟩ := h
  obtain ⟨n', l', g1, g2, g3, g4, g5, g6⟩ := h' m h1
  refine ⟨n', l' ++ l, g1, by omega, by rw [g3, h3, List.append_assoc], ?_, g5.trans h5, ?_⟩
  · rw [deliveries_append, h4, g4]; rfl
  · intro hr' hg
    rw [g6 hr' hg.left, h6 hr hg.right, he, List.append_nil]

theorem Line.Hears.still {A : Line} {c c' : Conn} {n : Nat} {res : Except Exn (Option (Nat × Bytes))}
    (ha : A.At c n) (hs : c'.state = c.state) (he : c'.ear = c.ear)
    (ht : ∃ l, c'.tr = l ++ c.tr ∧ deliveries l = []) (hx : extra res = []) : A.Hears c c' n res := by
  obtain ⟨l, h1, h2⟩ := ht
  exact ⟨n, l, ha.same hs he, le_refl _, h1, h2, hs, fun _ _ => by rw [hx, List.append_nil]⟩

theorem hear_complete {A : Line} (hid : suiteInfo A.info.id = some A.info) (fuel : Nat) :
    ∀ {c c' : Conn} {n : Nat} {res : Except Exn (Option (Nat × Bytes))}, A.At c n →
    completeHandshake E fuel c = (res, c') → A.Hears c c' n res := by
  have hfin : ∀ {c c' : Conn} {n : Nat} {res : Except Exn (Option (Nat × Bytes))}, A.At c n →
      finishHandshake c = (res, c') → A.Hears c c' n res := by
    intro c c' n res ha h
    unfold finishHandshake at h
    split at h
    · cases h; exact .still ha rfl rfl ⟨[], rfl, rfl⟩ rfl
    · cases h; exact .still ha rfl rfl ⟨[_], rfl, rfl⟩ rfl
  induction fuel with
  | zero =>
    intro c c' n res ha h
    unfold completeHandshake at h
    split at h
    · cases h; exact .still ha rfl rfl ⟨[], rfl, rfl⟩ rfl
    · exact hfin ha h
  | succ fuel ih =>
    intro c c' n res ha h
    unfold completeHandshake at h
    split at h
    · rcases hr : readNextRecord E c with ⟨r, c₁⟩
      rw [hr] at h
      have hh := hear_record hid ha hr
      cases r with
      | error e => cases h; exact hh
      | ok o =>
        cases o with
        | none => cases h; exact hh
        | some r =>
          obtain ⟨t, f⟩ := r
          dsimp only at h
          split at h
          · cases h
            obtain ⟨n', l, h1, h2, h3, h4, h5, _⟩ := hh
            exact ⟨n', l, h1, h2, h3, h4, h5, fun h => by cases h⟩
          · rename_i ht
            have ht' : t = 22 := by simpa [Iana.ctHandshake] using ht
            subst ht'
            refine hh.trans rfl rfl fun m hm => ?_
            have := ih (c := { c₁ with inputHandshake := c₁.inputHandshake ++ f }) (n := m)
              (hm.same rfl rfl) h
            exact this
    · exact hfin ha h

theorem hear_content {A : Line} (hid : suiteInfo A.info.id = some A.info) {c c' : Conn} {n : Nat}
    {res : Except Exn (Option (Nat × Bytes))} (ha : A.At c n)
    (h : readNextContent E c = (res, c')) : A.Hears c c' n res := by
  unfold readNextContent at h
  rcases hr : readNextRecord E c with ⟨r, c₁⟩
  rw [hr] at h
  have hh := hear_record hid ha hr
  cases r with
  | error e => cases h; exact hh
  | ok o =>
    cases o with
    | none => cases h; exact hh
    | some r =>
      obtain ⟨t, f⟩ := r
      dsimp only at h
      split at h
      · cases h
        obtain ⟨n', l, h1, h2, h3, h4, h5, h6⟩ := hh
        exact ⟨n', .got t f :: l, h1.same rfl rfl, h2, by rw [h3]; rfl, h4, h5,
          fun hr hg => h6 hr (Line.Genuine.right (l := [_]) hg)⟩
      split at h
      · cases h
        obtain ⟨n', l, h1, h2, h3, h4, h5, _⟩ := hh
        exact ⟨n', l, h1, h2, h3, h4, h5, fun h => by cases h⟩
      · rename_i ht
        have ht' : t = 22 := by simpa [Iana.ctHandshake] using ht
        subst ht'
        refine hh.trans rfl rfl fun m hm => ?_
        split at h
        · cases h
          exact .still hm rfl rfl ⟨[], rfl, rfl⟩ rfl
        · exact hear_complete hid _ (c := { c₁ with inputHandshake := c₁.inputHandshake ++ f })
            (hm.same rfl rfl) h

/-! ## What is handed over -/

/-- `F` (open?, next record, pieces handed over) holds if nothing was forged -/
def Line.Holds (A : Line) (base : List Ev) (F : Bool → Nat → List Bytes → Prop) (c : Conn) : Prop :=
  ∃ n l, A.At c n ∧ c.tr = l ++ base ∧ (A.Genuine l → F c.state.isConnected n (deliveries l))

/-- some of the data of the records before the next one, in order -/
def Line.some (A : Line) (_ : Bool) (n : Nat) (ds : List Bytes) : Prop := ds.Sublist (A.upTo n)

/-- the first pieces -/
def Line.first (A : Line) (_ : Bool) (_ : Nat) (ds : List Bytes) : Prop := ds <+: A.all

/-- all the pieces so far -/
def Line.whole (A : Line) (o : Bool) (n : Nat) (ds : List Bytes) : Prop :=
  ds <+: A.all ∧ (o = true → ds = A.upTo n)

theorem Line.Holds.mono {A : Line} {base : List Ev} {F F' : Bool → Nat → List Bytes → Prop} {c : Conn}
    (h : A.Holds base F c) (hF : ∀ n ds, F c.state.isConnected n ds → F' c.state.isConnected n ds) :
    A.Holds base F' c := by
  obtain ⟨n, l, h1, h2, h3⟩ := h
  exact ⟨n, l, h1, h2, fun hg => hF _ _ (h3 hg)⟩

theorem Line.Holds.still {A : Line} {base : List Ev} {F : Bool → Nat → List Bytes → Prop} {c c' : Conn}
    (h : A.Holds base F c) (hq : Still c c')
    (hF : ∀ n ds, (c'.state.isConnected = true → c.state.isConnected = true) →
      F c.state.isConnected n ds → F c'.state.isConnected n ds) :
    A.Holds base F c' := by
  obtain ⟨n, l, h1, h2, h3⟩ := h
  obtain ⟨m, g1, g2⟩ := hq.tr
  refine ⟨n, m ++ l, ⟨hq.post h1.post, hq.ear.trans h1.ear, h1.le⟩, by rw [g1, h2, List.append_assoc], ?_⟩
  intro hg
  rw [deliveries_append, deliveries_mute g2, List.append_nil]
  refine hF n _ ?_ (h3 hg.right)
  intro hc
  cases ho : c.state.isConnected with
  | true => rfl
  | false => rw [hq.deaf h1.post ho] at hc; cases hc

theorem Line.Holds.still_some {A : Line} {base : List Ev} {c c' : Conn}
    (h : A.Holds base A.some c) (hq : Still c c') : A.Holds base A.some c' :=
  h.still hq fun _ _ _ h => h

theorem Line.Holds.still_first {A : Line} {base : List Ev} {c c' : Conn}
    (h : A.Holds base A.first c) (hq : Still c c') : A.Holds base A.first c' :=
  h.still hq fun _ _ _ h => h

theorem Line.Holds.still_whole {A : Line} {base : List Ev} {c c' : Conn}
    (h : A.Holds base A.whole c) (hq : Still c c') : A.Holds base A.whole c' :=
  h.still hq fun _ _ hc h => ⟨h.1, fun ho => h.2 (hc ho)⟩

theorem Line.Holds.first_of {A : Line} {base : List Ev} {c : Conn} (h : A.Holds base A.whole c) :
    A.Holds base A.first c := h.mono fun _ _ h => h.1

theorem Line.Holds.whole_of {A : Line} {base : List Ev} {c : Conn} (h : A.Holds base A.first c)
    (hc : c.state.isConnected = false) : A.Holds base A.whole c :=
  h.mono fun _ _ h => ⟨h, fun ho => by rw [hc] at ho; cases ho⟩

theorem hold_step {A : Line} (hid : suiteInfo A.info.id = some A.info) {base : List Ev} {c c' : Conn}
    {res : Except Exn Bool} (h : receiveStep E c = (res, c')) :
    (A.Holds base A.some c → A.Holds base A.some c') ∧
    (A.Holds base A.whole c → A.Holds base A.first c' ∧ (raised res = false → A.Holds base A.whole c')) := by
  rw [receiveStep_eq] at h
  rcases hr : readNextContent E c with ⟨r, c₁⟩
  rw [hr] at h
  -- the reading
  have read : ∀ (F : Bool → Nat → List Bytes → Prop), A.Holds base F c → A.Holds base (fun o n ds =>
      ∃ m, m ≤ n ∧ F o m ds ∧ (raised r = false → A.upTo n = A.upTo m ++ extra r)) c₁ := by
    rintro F ⟨n, l, h1, h2, h3⟩
    obtain ⟨n', m, g1, g2, g3, g4, g5, g6⟩ := hear_content hid h1 hr
    refine ⟨n', m ++ l, g1, by rw [g3, h2, List.append_assoc], fun hg => ?_⟩
    rw [deliveries_append, g4, List.append_nil, g5]
    exact ⟨n, g2, h3 hg.right, fun hr => g6 hr hg.left⟩
  have rsome : A.Holds base A.some c → A.Holds base A.some c₁ := fun hh =>
    (read _ hh).mono fun n ds ⟨m, h1, h2, _⟩ => List.Sublist.trans h2 (A.upTo_mono h1)
  have rfirst : A.Holds base A.whole c → A.Holds base A.first c₁ := fun hh =>
    (read _ hh).mono fun n ds ⟨m, h1, h2, _⟩ => h2.1
  have rwhole : raised r = false → extra r = [] → A.Holds base A.whole c → A.Holds base A.whole c₁ :=
    fun h1 h2 hh => (read _ hh).mono fun n ds ⟨m, _, g2, g3⟩ =>
      ⟨g2.1, fun ho => by rw [g3 h1, h2, List.append_nil]; exact g2.2 ho⟩
  cases r with
  | error e =>
    cases h
    exact ⟨rsome, fun hh => ⟨rfirst hh, fun h => by cases h⟩⟩
  | ok o =>
  cases o with
  | none =>
    cases h
    exact ⟨rsome, fun hh => ⟨rfirst hh, fun _ => rwhole rfl rfl hh⟩⟩
  | some r =>
  obtain ⟨t, d⟩ := r
  dsimp only at h
  have hpost : ∀ {F}, A.Holds base F c → c₁.state.isPostHandshake = true := by
    rintro F ⟨n, l, h1, -⟩
    obtain ⟨n', m, g1, -⟩ := hear_content hid h1 hr
    exact g1.post
  have deliver : ∀ {tr : List Ev} {F F' : Bool → Nat → List Bytes → Prop}, t = 23 →
      Still c₁ { c₁ with tr := tr } →
      (∀ n m ds, m ≤ n → A.upTo n = A.upTo m ++ [d] → F c₁.state.isConnected m ds →
        F' c₁.state.isConnected n (ds ++ [d])) →
      A.Holds base F c → A.Holds base F' { c₁ with applicationData := c₁.applicationData ++ d
                                                   tr := .delivered d :: tr } := by
    intro tr F F' ht hq hF hh
    obtain ⟨n, l, h1, h2, h3⟩ := read F hh
    obtain ⟨m, g1, g2⟩ := hq.tr
    refine ⟨n, .delivered d :: (m ++ l), h1.same rfl rfl, ?_, ?_⟩
    · show .delivered d :: tr = _
      have g1' : tr = m ++ c₁.tr := g1
      rw [g1', h2]; simp
    · intro hg
      obtain ⟨m', k1, k2, k3⟩ := h3 (Line.Genuine.right (l := .delivered d :: m) (by simpa using hg))
      have hx : deliveries (.delivered d :: (m ++ l)) = deliveries l ++ [d] := by
        show deliveries (m ++ l) ++ [d] = _
        rw [deliveries_append, deliveries_mute g2, List.append_nil]
      rw [hx]
      refine hF n m' _ k1 ?_ k2
      rw [k3 rfl]
      simp only [extra, ht, if_true]
  refine ⟨fun hh => ?_, fun hh => ?_⟩
  · rcases useContent_hear (hpost hh) h with ⟨hq, _⟩ | ⟨ht, _, tr, hq, rfl⟩
    · exact (rsome hh).still_some hq
    · exact deliver ht hq (fun n m ds hle hup hF => by
        unfold Line.some at *
        rw [hup]; exact hF.append_right _) hh
  · rcases useContent_hear (hpost hh) h with ⟨hq, hdeaf⟩ | ⟨ht, ho, tr, hq, rfl⟩
    · refine ⟨(rfirst hh).still_first hq, fun hok => ?_⟩
      have hb : res = .ok true := by
        have := useContent_input (E := E) t d c₁
        rw [h] at this
        cases res with
        | error e => cases hok
        | ok b =>
          cases b with
          | true => rfl
          | false => exact absurd rfl this.2.2
      by_cases ht : t = 23
      · refine ((rfirst hh).whole_of (hdeaf hb ht)).still_whole hq
      · exact (rwhole rfl (by simp [extra, ht]) hh).still_whole hq
    · have := deliver (F' := A.whole) ht hq (fun n m ds hle hup hF => by
        have : ds ++ [d] = A.upTo n := by rw [hup, hF.2 ho]
        exact ⟨by rw [this]; exact A.upTo_prefix n, fun _ => this⟩) hh
      exact ⟨this.first_of, fun _ => this⟩

theorem hold_loop {A : Line} (hid : suiteInfo A.info.id = some A.info) {base : List Ev} (fuel : Nat) :
    ∀ {c c' : Conn} {res : Except Exn Unit}, receiveLoop E fuel c = (res, c') →
    (A.Holds base A.some c → A.Holds base A.some c') ∧
    (A.Holds base A.whole c → A.Holds base A.first c' ∧ (raised res = false → A.Holds base A.whole c')) := by
  induction fuel with
  | zero => intro c c' res h; cases h; exact ⟨id, fun h => ⟨h.first_of, fun h => by cases h⟩⟩
  | succ fuel ih =>
    intro c c' res h
    unfold receiveLoop at h
    rcases hs : receiveStep E c with ⟨r, c₁⟩
    rw [hs] at h
    obtain ⟨h1, h2⟩ := hold_step hid (base := base) hs
    cases r with
    | ok b =>
      cases b with
      | false => cases h; exact ⟨h1, h2⟩
      | true =>
        obtain ⟨g1, g2⟩ := ih h
        exact ⟨fun hh => g1 (h1 hh), fun hh => g2 ((h2 hh).2 rfl)⟩
    | error e =>
      dsimp only at h
      have hq := still_fail (E := E) (alertFor e) c₁
      rcases hf : failWith E (alertFor e) c₁ with ⟨r', c₂⟩
      rw [hf] at h hq
      cases r' <;>
        (cases h
         exact ⟨fun hh => (h1 hh).still_some hq,
           fun hh => ⟨(h2 hh).1.still_first hq, fun h => by cases h⟩⟩)

theorem hold_receive {A : Line} (hid : suiteInfo A.info.id = some A.info) {base : List Ev} {d : Bytes}
    {c c' : Conn} {res : Except Exn Unit} (h : receiveData E d c = (res, c')) :
    (A.Holds base A.some c → A.Holds base A.some c') ∧
    (A.Holds base A.whole c → A.Holds base A.first c' ∧ (raised res = false → A.Holds base A.whole c')) := by
  unfold receiveData at h
  split at h
  · cases h; exact ⟨id, fun h => ⟨h.first_of, fun h => by cases h⟩⟩
  split at h
  · cases h; exact ⟨id, fun h => ⟨h.first_of, fun h => by cases h⟩⟩
  dsimp only at h
  have hq : Still c { c with inputData := c.inputData ++ d } := ⟨rfl, id, fun _ => id, [], rfl, by simp⟩
  rcases hl : receiveLoop E ((c.inputData ++ d).length + 1) { c with inputData := c.inputData ++ d }
    with ⟨r, c₁⟩
  rw [hl] at h
  obtain ⟨h1, h2⟩ := hold_loop hid (base := base) _ hl
  have hend : c' = c₁ ∧ (raised res = false → raised r = false) := by
    cases r with
    | error e => cases h; exact ⟨rfl, id⟩
    | ok u =>
      refine ⟨?_, fun _ => rfl⟩
      dsimp only at h
      split at h
      · cases h; rfl
      · unfold Siotls.rekey at h
        split at h <;> (cases h; rfl)
      · cases h; rfl
  obtain ⟨rfl, hr⟩ := hend
  exact ⟨fun hh => h1 (hh.still_some hq), fun hh =>
    ⟨(h2 (hh.still_whole hq)).1, fun ho => (h2 (hh.still_whole hq)).2 (hr ho)⟩⟩

/-- the other methods -/
theorem still_op (o : Op) (ho : o.isReceive = false) (c : Conn) (hp : c.state.isPostHandshake = true) :
    Still c (o.run E c).2 := by
  cases o with
  | receive d => cases ho
  | initiate =>
    rw [Op.run, wrap_snd]
    unfold Siotls.initiate
    cases hs : c.state <;> first | exact .refl c | (rw [hs] at hp; cases hp)
  | send d => rw [Op.run, wrap_snd]; exact still_send _ c
  | read => exact ⟨rfl, id, fun _ => id, [], rfl, by simp⟩
  | drain => exact ⟨rfl, id, fun _ => id, [], rfl, by simp⟩
  | closeRecv =>
    rw [Op.run, wrap_snd]
    unfold closeReceivingEnd
    split <;> exact ⟨rfl, fun _ => rfl, fun _ _ => rfl, [], rfl, by simp⟩
  | closeSend =>
    rw [Op.run, wrap_snd]
    have h0 : Still c { c with state := c.state.closing } := by
      refine ⟨rfl, fun _ => ?_, fun _ h => ?_, [], rfl, by simp⟩
      · cases hs : c.state <;> rfl
      · show c.state.closing.isConnected = false
        cases hs : c.state <;> first
          | rfl
          | (rw [hs] at hp h; first | exact h | (cases hp; done) | (cases h; done))
    rw [closeSendingEnd_eq]
    split
    · have h := h0.trans (still_send (E := E) (.alert Iana.warning Iana.closeNotify)
        { c with state := c.state.closing })
      rcases hm : sendContent E (.alert Iana.warning Iana.closeNotify)
        { c with state := c.state.closing } with ⟨r, c'⟩
      rw [hm] at h
      cases r with
      | error e => exact h
      | ok u =>
        refine h.trans ⟨rfl, fun hp => ?_, fun _ ho => ?_, [], rfl, by simp⟩
        · unfold closeTail
          dsimp only
          split
          · rfl
          · exact hp
        · unfold closeTail
          dsimp only
          split
          · rename_i hs; rw [hs] at ho; exact ho
          · exact ho
    · exact h0
  | rekey =>
    rw [Op.run, wrap_snd]
    unfold Siotls.rekey
    split <;> exact .refl _

theorem hold_ops {A : Line} (hid : suiteInfo A.info.id = some A.info) {base : List Ev} (ops : List Op) :
    ∀ {c : Conn}, (A.Holds base A.some c → A.Holds base A.some (runOps E ops c)) ∧
    (GivesUp E ops c → A.Holds base A.whole c → A.Holds base A.whole (runOps E ops c)) := by
  induction ops with
  | nil => exact ⟨id, fun _ => id⟩
  | cons o os ih =>
    intro c
    obtain ⟨h1, h2⟩ := ih (c := (o.run E c).2)
    by_cases ho : o.isReceive = true
    · cases o with
      | receive d =>
        rcases hr : receiveData E d c with ⟨res, c'⟩
        have hrun : (Op.receive d).run E c = (res.map fun _ => [], c') := by
          show (receiveData E d >>= fun _ => pure []) c = _
          rw [M.bind_def, hr]
          cases res <;> rfl
        obtain ⟨g1, g2⟩ := hold_receive hid (base := base) hr
        rw [hrun] at h1 h2
        refine ⟨fun hh => ?_, fun hup hh => ?_⟩
        · show A.Holds base A.some (runOps E os ((Op.receive d).run E c).2)
          rw [hrun]; exact h1 (g1 hh)
        · obtain ⟨hu, hup⟩ := hup
          show A.Holds base A.whole (runOps E os ((Op.receive d).run E c).2)
          rw [hrun] at hu hup ⊢
          refine h2 hup ?_
          cases hx : raised res with
          | false => exact (g2 hh).2 hx
          | true =>
            refine (g2 hh).1.whole_of (hu rfl ?_)
            cases res <;> first | rfl | cases hx
      | _ => cases ho
    · have ho' : o.isReceive = false := by simpa using ho
      have hq : ∀ {F}, A.Holds base F c → Still c (o.run E c).2 := fun ⟨_, _, h, _⟩ =>
        still_op o ho' c h.post
      exact ⟨fun hh => h1 (hh.still_some (hq hh)), fun hup hh => h2 hup.2 (hh.still_whole (hq hh))⟩

/-! ## What the peer seals -/

theorem sealedTexts_append (l m : List Ev) : sealedTexts (l ++ m) = sealedTexts m ++ sealedTexts l := by
  induction l with
  | nil => simp [sealedTexts]
  | cons e l ih => cases e <;> simp [sealedTexts, ih]

/-- `texts` was sealed with the sequence numbers from `n` on -/
structure Told (info : SuiteInfo) (iv : Bytes) (n : Nat) (l : List Ev) (texts : List Bytes) : Prop where
  eq : sealedTexts l = texts
  nonce : ∀ s k nonce aad x, Ev.sealed s k nonce aad x ∈ l →
    ∃ i, n + i < 2 ^ 64 ∧ nonce = xorBytes iv (beEnc info.nonceLength (n + i)) ∧ texts[i]? = some x

theorem Told.append {info : SuiteInfo} {iv : Bytes} {n : Nat} {l m : List Ev} {a b : List Bytes}
    (h : Told info iv n l a) (h' : Told info iv (n + a.length) m b) : Told info iv n (m ++ l) (a ++ b) := by
  refine ⟨by rw [sealedTexts_append, h.eq, h'.eq], ?_⟩
  intro s k nonce aad x hm
  rcases List.mem_append.mp hm with hm | hm
  · obtain ⟨i, h1, h2, h3⟩ := h'.nonce s k nonce aad x hm
    refine ⟨a.length + i, by omega, by rw [h2, Nat.add_assoc], ?_⟩
    rw [List.getElem?_append_right (by omega)]
    simpa using h3
  · obtain ⟨i, h1, h2, h3⟩ := h.nonce s k nonce aad x hm
    refine ⟨i, h1, h2, ?_⟩
    rw [List.getElem?_append_left ?_, h3]
    exact (List.getElem?_eq_some_iff.mp h3).1

theorem Told.none {info : SuiteInfo} {iv : Bytes} {n : Nat} {l : List Ev}
    (h : ∀ e ∈ l, ¬ e.isSealed) : Told info iv n l [] := by
  refine ⟨?_, fun s k nonce aad x hm => (h _ hm trivial).elim⟩
  induction l with
  | nil => rfl
  | cons e l ih =>
    have he := h e List.mem_cons_self
    have hl := ih fun e he => h e (List.mem_cons_of_mem _ he)
    cases e <;> first | exact hl | exact (he trivial).elim

theorem makeRecords_told {ct : Nat} {fs : List Bytes} {c c' : Conn} {k : CipherSt} {key iv : Bytes}
    {n : Nat} {rs : List (Nat × Bytes × Bytes)} (hid : suiteInfo k.info.id = some k.info)
    (hk : c.cipher = some k) (hw : k.wr = ⟨some key, some iv, some n⟩)
    (h : makeRecords E true ct fs c = (.ok rs, c')) :
    ∃ seals, c'.tr = seals ++ c.tr ∧ c'.mfl = c.mfl ∧
      c'.cipher = some { k with wr := ⟨some key, some iv, some (n + fs.length)⟩ } ∧
      Told k.info iv n seals (fs.map (innerText c.mfl k.info.tagLength ct)) := by
  induction fs generalizing c c' rs k n with
  | nil =>
    cases h
    refine ⟨[], rfl, rfl, ?_, Told.none (by simp)⟩
    rw [hk]
    simp only [List.length_nil, Nat.add_zero, ← hw]
  | cons f fs ih =>
    unfold makeRecords at h
    obtain ⟨body, c₁, hp, h⟩ := M.bind_ok.mp h
    obtain ⟨header, c₂, hl, h⟩ := M.bind_ok.mp h
    obtain ⟨hh, rfl⟩ := M.lift_ok.mp hl
    obtain ⟨rest, c₃, hr, h⟩ := M.bind_ok.mp h
    cases h
    unfold protect at hp
    rw [if_pos rfl] at hp
    obtain ⟨k₀, key₀, nonce, wr, hk₀, hkey, hn, hb, hbl, rfl⟩ := encryptFragment_ok hp
    rw [hk] at hk₀
    cases hk₀
    obtain ⟨iv₀, n₀, h1, h2, rfl, rfl, lim, hlim, hlt⟩ := nextNonce_shape hn
    rw [hw] at h1 h2 hkey
    cases h1; cases h2; cases hkey
    obtain ⟨seals, g1, g2, g3, g4⟩ := ih (k := { k with wr := { k.wr with seq := some (n + 1) } })
      (n := n + 1) hid rfl (by simp only [hw]) hr
    refine ⟨seals ++ [.sealed k.info.id key (xorBytes iv (beEnc k.info.nonceLength n))
      (sealedHeader ((innerText c.mfl k.info.tagLength ct f).length + k.info.tagLength))
      (innerText c.mfl k.info.tagLength ct f)], ?_, g2, ?_, ?_⟩
    · rw [g1]
      simp only [List.append_assoc, List.cons_append, List.nil_append]
    · rw [g3]
      simp only [List.length_cons]
      congr 4
      omega
    · refine Told.append (a := [innerText c.mfl k.info.tagLength ct f]) ⟨rfl, ?_⟩ g4
      intro s k' nonce aad x hm
      cases List.mem_singleton.mp hm
      exact ⟨0, lt_of_lt_of_le hlt (limit_le hid hlim), rfl, rfl⟩

theorem send_told {d : Bytes} {c c' : Conn} {k : CipherSt} {key iv : Bytes} {n : Nat}
    (hid : suiteInfo k.info.id = some k.info) (hk : c.cipher = some k)
    (hw : k.wr = ⟨some key, some iv, some n⟩) (hg : GoodMfl c.mfl)
    (h : sendData E d c = (.ok (), c')) :
    ∃ (l : List Ev) (fs : List Bytes), c'.tr = l ++ c.tr ∧ c'.mfl = c.mfl ∧ fs.flatten = d ∧
      c'.cipher = some { k with wr := ⟨some key, some iv, some (n + fs.length)⟩ } ∧
      Told k.info iv n l (fs.map (innerText c.mfl k.info.tagLength 23)) := by
  unfold sendData sendContent at h
  obtain ⟨_, _, h0, h⟩ := M.bind_ok.mp h
  cases h0
  split at h
  · cases h
  split at h
  · cases h
  split at h
  · cases h
  obtain ⟨data, _, h0, h⟩ := M.bind_ok.mp h
  obtain ⟨hser, rfl⟩ := M.lift_ok.mp h0
  cases hser
  obtain ⟨_, c₁, hhash, h⟩ := M.bind_ok.mp h
  cases hhash
  obtain ⟨fs, _, h0, h⟩ := M.bind_ok.mp h
  obtain ⟨hfr, rfl⟩ := M.lift_ok.mp h0
  obtain ⟨rs, c₂, hrs, h⟩ := M.bind_ok.mp h
  have hme : c.mustEncrypt = true := by
    unfold Conn.mustEncrypt
    rw [hk]
    dsimp only
    rw [hw]
    rfl
  rw [hme] at hrs
  obtain ⟨seals, g1, g2, g3, g4⟩ := makeRecords_told hid hk hw hrs
  simp only [emitRecords, M.modify, Prod.mk.injEq] at h
  obtain ⟨_, rfl⟩ := h
  have hpos : 4 ≤ c.fragLen := fragLen_ge (kr := some { k with rd := k.wr }) hg
    (.inr ⟨k, _, hk, rfl, rfl, rfl, by rw [hw]; simp, hid⟩)
  have hflat := (splitFragments_ok (n := c.fragLen) (by omega) hfr).1
  refine ⟨.sent (.applicationData d) :: ((rs.map fun r => Ev.record r.1 r.2.1).reverse ++ seals), fs,
    ?_, g2, hflat, g3, ?_⟩
  · dsimp only
    rw [g1]
    simp
  · have := Told.append (m := .sent (.applicationData d) :: (rs.map fun r => Ev.record r.1 r.2.1).reverse)
      (b := []) g4 (Told.none ?_)
    · rw [List.append_nil] at this
      exact this
    · intro e he
      rcases List.mem_cons.mp he with rfl | he
      · exact id
      · simp only [List.mem_reverse, List.mem_map] at he
        obtain ⟨r, _, rfl⟩ := he
        exact id

theorem sends_told {s s' : Conn} {ds : List Bytes} {k : CipherSt} {key iv : Bytes} {n : Nat}
    (hid : suiteInfo k.info.id = some k.info) (hk : s.cipher = some k)
    (hw : k.wr = ⟨some key, some iv, some n⟩) (hg : GoodMfl s.mfl) (h : SendsData E s ds s') :
    ∃ (l : List Ev) (fs : List Bytes), s'.tr = l ++ s.tr ∧ fs.flatten = ds.flatten ∧
      Told k.info iv n l (fs.map (innerText s.mfl k.info.tagLength 23)) := by
  induction h generalizing k n with
  | done => exact ⟨[], [], rfl, rfl, Told.none (by simp)⟩
  | @send s d s₁ ds s' h1 h2 ih =>
    obtain ⟨l, fs, g1, g2, g3, g4, g5⟩ := send_told hid hk hw hg h1
    obtain ⟨l', fs', k1, k2, k3⟩ := ih (k := { k with wr := ⟨some key, some iv, some (n + fs.length)⟩ })
      (n := n + fs.length) hid g4 rfl (by rw [g2]; exact hg)
    refine ⟨l' ++ l, fs ++ fs', by rw [k1, g1, List.append_assoc], by simp [g3, k2], ?_⟩
    rw [List.map_append]
    refine g5.append ?_
    rw [List.length_map, ← g2]
    exact k3

theorem frag23_padded (mfl tag : Nat) (fs : List Bytes) :
    (fs.map (innerText mfl tag 23)).filterMap frag23 = fs := by
  induction fs with
  | nil => rfl
  | cons f fs ih =>
    rw [List.map_cons, List.filterMap_cons, frag23, stripPadding_padded (by omega) (by omega)]
    simp [ih]

end Siotls
