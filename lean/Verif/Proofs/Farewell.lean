import Verif.Proofs.Duplex
import Verif.Spec.Farewell
/-!
# Two ends that close
-/

namespace Siotls
open Spec Serial

variable {E E' : Env} {info : SuiteInfo} {lim : Nat}

/-! ## Receiving application data and close_notify -/

/-- application data or close_notify -/
def Said (i : Nat × Bytes) : Prop := i.1 = 23 ∨ i = (21, [1, 0])

/-- the application data among these -/
def appOf (is : List (Nat × Bytes)) : Bytes := ((is.filter (·.1 == 23)).map (·.2)).flatten

/-- the same, message by message -/
def appsOf (is : List (Nat × Bytes)) : List Bytes := (is.filter (·.1 == 23)).map (·.2)

theorem appOf_eq (is : List (Nat × Bytes)) : appOf is = (appsOf is).flatten := rfl

theorem appsOf_append (a b : List (Nat × Bytes)) : appsOf (a ++ b) = appsOf a ++ appsOf b := by
  simp [appsOf]

/-- the state after these -/
def stateAfter (s : St) : List (Nat × Bytes) → St
  | [] => s
  | i :: is => stateAfter (if i.1 = 23 then s else .closed true true) is

theorem appOf_nil : appOf [] = [] := rfl

theorem appOf_app (f : Bytes) (is : List (Nat × Bytes)) : appOf ((23, f) :: is) = f ++ appOf is := by
  simp [appOf]

theorem appOf_alert (is : List (Nat × Bytes)) : appOf ((21, [1, 0]) :: is) = appOf is := by
  simp [appOf]

theorem appOf_append (a b : List (Nat × Bytes)) : appOf (a ++ b) = appOf a ++ appOf b := by
  simp [appOf]

/-- what receiving some of these changes -/
structure HearOn (r : Conn) (rest : Bytes) (is : List (Nat × Bytes)) (r' : Conn) : Prop where
  same : r' = { r with inputData := rest, cipher := r'.cipher, tr := r'.tr, state := stateAfter r.state is,
                       applicationData := r.applicationData ++ appOf is }
  wr : r'.cipher.map CipherSt.writing = r.cipher.map CipherSt.writing
  dec : r'.mustDecrypt = r.mustDecrypt

theorem HearOn.limit {r r' : Conn} {rest : Bytes} {is : List (Nat × Bytes)} (h : HearOn r rest is r') :
    r'.recordLimit = r.recordLimit := by
  unfold Conn.recordLimit
  rw [h.dec]
  have : r'.mfl = r.mfl := by rw [h.same]; rfl
  rw [this]

theorem stateAfter_open {s : St} (h : s = .connected ∨ ∃ b, s = .closed true b) (is : List (Nat × Bytes)) :
    stateAfter s is = .connected ∨ ∃ b, stateAfter s is = .closed true b := by
  induction is generalizing s with
  | nil => exact h
  | cons i is ih =>
    unfold stateAfter
    split
    · exact ih h
    · exact ih (.inr ⟨_, rfl⟩)

theorem HearOn.listening {r r' : Conn} {rest : Bytes} {is : List (Nat × Bytes)} (h : HearOn r rest is r')
    (hl : Listening r) : Listening r' := by
  rw [h.same]
  exact ⟨stateAfter_open hl.1 is, hl.2⟩

theorem HearOn.input {r r' : Conn} {rest : Bytes} {is : List (Nat × Bytes)} (h : HearOn r rest is r') :
    r'.inputData = rest := by rw [h.same]

theorem HearOn.app {r r' : Conn} {rest : Bytes} {is : List (Nat × Bytes)} (h : HearOn r rest is r') :
    r'.applicationData = r.applicationData ++ appOf is := by rw [h.same]

theorem HearOn.state {r r' : Conn} {rest : Bytes} {is : List (Nat × Bytes)} (h : HearOn r rest is r') :
    r'.state = stateAfter r.state is := by rw [h.same]

theorem HearOn.refl (r : Conn) : HearOn r r.inputData [] r :=
  ⟨by rw [appOf_nil, List.append_nil]; rfl, rfl, rfl⟩

theorem HearOn.trans {r r₁ r₂ : Conn} {x y : Bytes} {i : Nat × Bytes} {is : List (Nat × Bytes)}
    (h : HearOn r x [i] r₁) (h' : HearOn r₁ y is r₂) : HearOn r y (i :: is) r₂ := by
  refine ⟨?_, h'.wr.trans h.wr, h'.dec.trans h.dec⟩
  have h1 := h.same
  have h2 := h'.same
  have h3 : stateAfter r.state (i :: is) = stateAfter (stateAfter r.state [i]) is := rfl
  have h4 : appOf (i :: is) = appOf [i] ++ appOf is := appOf_append [i] is
  rw [h3, h4]
  cases r; cases r₁; cases r₂
  simp only [Conn.mk.injEq] at h1 h2 ⊢
  simp_all

theorem HearOn.rekey {r r' : Conn} {x : Bytes} {is : List (Nat × Bytes)} (h : HearOn r x is r') :
    shouldRekey r' = shouldRekey r :=
  RecvOn.rekey (x := x) (d := appOf is) (r := { r with state := stateAfter r.state is }) (r' := r') ⟨h.same, h.wr, h.dec⟩

theorem decode_alert (ct : Option (Option Nat)) : decodeContent E ct 21 [1, 0] = .ok (.alert 1 0) := rfl

theorem step_said {mfl o : Nat} {i : Nat × Bytes} {b rest : Bytes} {ks ks' : Option CipherSt}
    {is rs : List (Nat × Bytes)} {r : Conn} (hO : E.Opens) (hr : Listening r) (hi : Said i)
    (h : Recs E mfl ks (i :: is) ((o, b) :: rs) ks') (hm : Matched ks r.cipher)
    (hl : b.length ≤ r.recordLimit) (hin : r.inputData = recordBytes o b ++ rest) :
    ∃ ks₁ r', receiveStep E r = (.ok true, r') ∧ HearOn r rest [i] r' ∧
      Recs E mfl ks₁ is rs ks' ∧ Matched ks₁ r'.cipher := by
  obtain ⟨ct, f⟩ := i
  rcases hi with hi | hi
  · dsimp only at hi
    subst hi
    obtain ⟨ks₁, r', h1, h2, h3, h4⟩ := step_app hO hr h hm hl hin
    refine ⟨ks₁, r', h1, ⟨?_, h2.wr, h2.dec⟩, h3, h4⟩
    rw [appOf_app, appOf_nil, List.append_nil]
    exact h2.same
  · cases hi
    obtain ⟨ks₁, r₁, hread, hon, hrec, hmat⟩ := read_rec hO h hm ⟨by omega, by omega, by omega⟩ hl hin
    obtain ⟨hst, hhs⟩ := hr
    have hhs₁ : r₁.inputHandshake = [] := by rw [hon.same]; exact hhs
    have hst₁ : r₁.state = r.state := by rw [hon.same]
    have hp : ∀ c : Conn, c.state = r.state → process E (.alert 1 0) c = moveTo (.closed true true) c := by
      intro c hc
      unfold process
      rcases hst with h | ⟨s, h⟩ <;> rw [h] at hc <;> rw [hc] <;> rfl
    refine ⟨ks₁, (moveTo (.closed true true) { r₁ with
      tr := .recv (.alert 1 0) :: .got 21 [1, 0] :: r₁.tr }).2, ?_, ?_, hrec, hmat⟩
    · rw [receiveStep_eq, readNextContent, hread]
      dsimp only
      rw [if_pos ⟨by simp [hhs₁], by decide⟩]
      dsimp only
      unfold useContent
      simp only [M.bind_def, M.get, M.lift, decode_alert, hashContent, ghost, M.modify]
      dsimp only [pure, M.pure]
      rw [hp _ (by exact hst₁)]
      rfl
    · refine ⟨?_, hon.wr, hon.dec⟩
      have := hon.same
      rw [appOf_alert, appOf_nil, List.append_nil]
      cases r; cases r₁
      simp only [Conn.mk.injEq] at this ⊢
      simp_all [moveTo, M.modify, stateAfter]

theorem loop_said {mfl : Nat} {ks ks' : Option CipherSt} {is rs : List (Nat × Bytes)} {r : Conn}
    {q : Bytes} (hO : E.Opens) (h : Recs E mfl ks is rs ks') (hr : Listening r)
    (hm : Matched ks r.cipher) (happ : ∀ i ∈ is, Said i)
    (hl : ∀ x ∈ rs, x.2.length ≤ r.recordLimit) (hi : r.inputData ++ q = wireOf rs) :
    ∃ i₁ i₂ s₂ ks₁ r', is = i₁ ++ i₂ ∧ loop E r = (.ok (), r') ∧
      HearOn r r'.inputData i₁ r' ∧ Recs E mfl ks₁ i₂ s₂ ks' ∧
      Matched ks₁ r'.cipher ∧ r'.inputData ++ q = wireOf s₂ ∧ (∀ x ∈ s₂, x ∈ rs) ∧
      (q = [] → i₂ = []) := by
  induction rs generalizing ks is r with
  | nil =>
    cases h
    obtain ⟨hin, rfl⟩ := List.append_eq_nil_iff.mp hi
    refine ⟨[], [], [], _, r, rfl, ?_, .refl r, .nil _, hm, by rw [hin]; rfl, by simp, fun _ => rfl⟩
    have hn : readNextRecord E r = (.ok none, r) := by
      rw [readNextRecord_short (by rw [hin]; exact Nat.zero_lt_succ _), hin]
      cases r
      cases hin
      rfl
    rw [loop_eq, receiveStep_eq, readNextContent, hn]
  | cons x rs ih =>
    obtain ⟨o, b⟩ := x
    have hsplit : wireOf ((o, b) :: rs) = recordBytes o b ++ wireOf rs := by simp [wireOf]
    rw [hsplit] at hi
    have hlb := hl (o, b) List.mem_cons_self
    have hshape : ∃ i is', is = i :: is' ∧ o < 256 ∧ o ≠ 20 ∧ b.length < 65536 := by
      cases h with
      | plain _ hlt _ =>
        refine ⟨_, _, rfl, ?_, ?_, hlt⟩ <;>
        · rcases happ _ List.mem_cons_self with h | h
          · dsimp only at h; omega
          · cases h; omega
      | «sealed» _ _ _ _ hlt _ => exact ⟨_, _, rfl, by omega, by omega, hlt⟩
    obtain ⟨i, is', rfl, ho1, ho2, hlt⟩ := hshape
    have hsaid := happ i List.mem_cons_self
    rcases List.append_eq_append_iff.mp hi with ⟨x, hx, hq⟩ | ⟨rest, hx, hq⟩
    · by_cases hxe : x = []
      · subst hxe
        rw [List.append_nil] at hx
        obtain ⟨ks₁, r₁, h1, h2, h3, h4⟩ := step_said hO hr hsaid h hm hlb (rest := [])
          (by rw [List.append_nil]; exact hx.symm)
        have hlim := h2.limit
        obtain ⟨i₁, i₂, s₂, ks₂, r₂, g1, g2, g3, g4, g5, g6, g7, g8⟩ := ih h3 (h2.listening hr) h4
          (fun i hi => happ i (List.mem_cons_of_mem _ hi))
          (fun y hy => by rw [hlim]; exact hl y (List.mem_cons_of_mem _ hy))
          (by rw [h2.input]; simpa using hq)
        refine ⟨i :: i₁, i₂, s₂, ks₂, r₂, by rw [g1]; rfl, ?_, h2.trans g3, g4, g5, g6,
          fun y hy => List.mem_cons_of_mem _ (g7 y hy), g8⟩
        rw [loop_eq, h1]
        exact g2
      · refine ⟨[], _, (o, b) :: rs, ks, r, rfl, ?_, .refl r, h, hm, by rw [hsplit]; exact hi,
          fun y hy => hy, ?_⟩
        · have hn : readNextRecord E r = (.ok none, r) :=
            readNextRecord_part ho1 ho2 hlt hlb hxe hx.symm
          rw [loop_eq, receiveStep_eq, readNextContent, hn]
        · rintro rfl
          exact absurd (List.append_eq_nil_iff.mp hq.symm).1 hxe
    · obtain ⟨ks₁, r₁, h1, h2, h3, h4⟩ := step_said hO hr hsaid h hm hlb hx
      have hlim := h2.limit
      obtain ⟨i₁, i₂, s₂, ks₂, r₂, g1, g2, g3, g4, g5, g6, g7, g8⟩ := ih h3 (h2.listening hr) h4
        (fun i hi => happ i (List.mem_cons_of_mem _ hi))
        (fun y hy => by rw [hlim]; exact hl y (List.mem_cons_of_mem _ hy))
        (by rw [h2.input]; exact hq.symm)
      refine ⟨i :: i₁, i₂, s₂, ks₂, r₂, by rw [g1]; rfl, ?_, h2.trans g3, g4, g5, g6,
        fun y hy => List.mem_cons_of_mem _ (g7 y hy), g8⟩
      rw [loop_eq, h1]
      exact g2

theorem receive_said {mfl : Nat} {ks ks' : Option CipherSt} {is rs : List (Nat × Bytes)} {r : Conn}
    {d q : Bytes} (hO : E.Opens) (h : Recs E mfl ks is rs ks') (hr : Listening r)
    (hm : Matched ks r.cipher) (happ : ∀ i ∈ is, Said i) (hd : d ≠ [])
    (hk : shouldRekey r = .ok false)
    (hl : ∀ x ∈ rs, x.2.length ≤ r.recordLimit) (hi : r.inputData ++ (d ++ q) = wireOf rs) :
    ∃ i₁ i₂ s₂ ks₁ r', is = i₁ ++ i₂ ∧ receiveData E d r = (.ok (), r') ∧
      HearOn r r'.inputData i₁ r' ∧ Recs E mfl ks₁ i₂ s₂ ks' ∧
      Matched ks₁ r'.cipher ∧ r'.inputData ++ q = wireOf s₂ ∧ (∀ x ∈ s₂, x ∈ rs) ∧
      (q = [] → i₂ = []) := by
  obtain ⟨i₁, i₂, s₂, ks₁, r', h1, h2, h3, h4⟩ := loop_said (r := r.fed d) hO h hr hm happ hl
    (by rw [Conn.fed, List.append_assoc]; exact hi)
  refine ⟨i₁, i₂, s₂, ks₁, r', h1, ?_, ?_, h4⟩
  · rw [receiveData_eq hd hr.canReceive, h2]
    dsimp only [finishReceive]
    rw [h3.rekey, show shouldRekey (r.fed d) = shouldRekey r from rfl, hk]
  · exact ⟨h3.same, h3.wr, h3.dec⟩

/-! ## The invariant -/

/-- the state of an end that closed its sending end, or not, and heard the close of the peer, or not -/
def Stands (s : St) (closed heard : Bool) : Prop :=
  match closed, heard with
  | false, false => s = .connected
  | false, true => s = .closed true true
  | true, _ => ∃ b, s = .closed true b

theorem Stands.listens {s : St} {c h : Bool} (hs : Stands s c h) :
    s = .connected ∨ ∃ b, s = .closed true b := by
  cases c <;> cases h
  · exact .inl hs
  · exact .inr ⟨_, hs⟩
  · exact .inr hs
  · exact .inr hs

theorem Stands.sends {s : St} {h : Bool} (hs : Stands s false h) :
    s.canSend = true ∧ s.canSendApp = true := by
  cases h <;> (unfold Stands at hs; subst hs; exact ⟨rfl, rfl⟩)

/-- an end that used its keys `n` times -/
structure Able (c : Conn) (info : SuiteInfo) (n : Nat) (closed heard : Bool) : Prop where
  state : Stands c.state closed heard
  mfl : c.mfl = 16384
  hs : c.inputHandshake = []
  key : ∃ k key iv, c.cipher = some k ∧ k.info = info ∧ k.wr = ⟨some key, some iv, some n⟩

theorem Able.rekey {c : Conn} {n : Nat} {cl he : Bool} (W : Works E info lim) (h : Able c info n cl he)
    (hn : n ≤ 10000001) : shouldRekey c = .ok false := by
  have hlim := W.lim_ge
  obtain ⟨k, key, iv, h1, h2, h3⟩ := h.key
  unfold shouldRekey
  rw [h1]
  dsimp only
  rw [h2, h3, W.limit]
  dsimp only
  rw [if_pos (by omega)]
  simp [rekeyThreshold]
  omega

/-- what `x` has still to say to `y`: `xc` tells whether `x` closed, `yh` whether `y` knows -/
def Ending (is : List (Nat × Bytes)) (xc yh : Bool) : Prop :=
  match xc, yh with
  | false, false => ∀ i ∈ is, i.1 = 23
  | false, true => False
  | true, false => ∃ ds, is = ds ++ [(21, [1, 0])] ∧ ∀ i ∈ ds, i.1 = 23
  | true, true => is = []

theorem Ending.said {is : List (Nat × Bytes)} {xc yh : Bool} (h : Ending is xc yh) : ∀ i ∈ is, Said i := by
  intro i hi
  cases xc <;> cases yh
  · exact .inl (h i hi)
  · exact h.elim
  · obtain ⟨ds, rfl, h⟩ := h
    rcases List.mem_append.mp hi with hi | hi
    · exact .inl (h i hi)
    · simp only [List.mem_singleton] at hi
      exact .inr hi
  · rw [h] at hi; cases hi

/-- one direction: what is on the way from `x` to `y`; `ds` are the messages sent so far -/
structure Leg (E : Env) (info : SuiteInfo) (x y : Party) (ds : List Bytes) (xc yh : Bool) : Prop where
  flow : ∃ k ks ks' is rs, x.conn.cipher = some k ∧ Recs E 16384 (some ks) is rs (some ks') ∧
    ks'.info = info ∧ ks'.wr = k.wr ∧ Matched (some ks) y.conn.cipher ∧ Ending is xc yh ∧
    y.conn.inputData ++ (x.wire ++ x.conn.outputData) = wireOf rs ∧
    x.sent = y.got ++ y.conn.applicationData ++ appOf is ∧
    (∀ r ∈ rs, r.2.length ≤ 16640) ∧ (y.conn.inputData = wireOf rs → rs = []) ∧ ks.wr.key ≠ none ∧
    ∃ heard, ds = heard ++ appsOf is ∧ heard.flatten = y.got ++ y.conn.applicationData

theorem Leg.delivers {x y : Party} {ds : List Bytes} {xc yh : Bool} (h : Leg E info x y ds xc yh) : Delivers x y := by
  obtain ⟨k, ks, ks', is, rs, -, h2, -, -, -, -, h7, h8, -, h10, -⟩ := h.flow
  refine ⟨⟨_, h8.symm⟩, fun ho hw => ?_⟩
  rw [ho, hw, List.append_nil, List.append_nil] at h7
  have := h10 h7
  subst this
  cases h2
  simpa [appOf_nil] using h8.symm

/-- an end that did not close emits one more record -/
theorem Able.emit {c : Conn} {n : Nat} {he : Bool} {x : Content} {data : Bytes} (W : Works E info lim)
    (h : Able c info n false he) (hn : n ≤ 10000000) (hx : x.ctype ≠ 24) (hxh : ∀ side, hashContent data side x = pure ())
    (hser : serContent E x = .ok data) (hd : data.length ≤ 16366) :
    ∃ c' k wr body, sendContent E x c = (.ok (), c') ∧ c.cipher = some k ∧
      c' = { c with cipher := some { k with wr := wr }, outputData := c'.outputData, tr := c'.tr } ∧
      c'.outputData = c.outputData ++ wireOf [(23, body)] ∧ body.length ≤ 16640 ∧
      Able c' info (n + 1) false he ∧
      ∀ {E' : Env} {ks : CipherSt}, E'.aeadSeal = E.aeadSeal → ks.info = info → ks.wr = k.wr →
        Recs E' 16384 (some ks) [(x.ctype, data)] [(23, body)] (some { ks with wr := wr }) := by
  have hlim := W.lim_ge
  have htag := W.tag
  obtain ⟨k, key, iv, h1, h2, h3⟩ := h.key
  have hm := h.mfl
  obtain ⟨s1, s2⟩ := h.state.sends
  obtain ⟨t, ht⟩ := send_sealed' (x := x) (t' := c.transcript) (E := E) (c := c) (n := n)
    W.seals (by rw [h2]; exact W.suite) (fun _ => s2) hx s1 hser
    (by rw [hxh]; exact Gives.pure () c) h1 h3 (by rw [h2]; exact W.limit) (show n < lim by omega)
    (show data.length + 1 + k.info.tagLength ≤ c.mfl by rw [h2]; omega) (Nat.le_of_eq hm) c.tr
  have hbody := W.seals info.id info key (xorBytes iv (beEnc info.nonceLength n))
    (sealedHeader ((innerText 16384 info.tagLength x.ctype data).length + info.tagLength))
    (innerText 16384 info.tagLength x.ctype data) W.suite
  have hlen := length_innerText 16384 info.tagLength x.ctype data
  have hpad : data.length + 1 + padLength 16384 data.length info.tagLength + info.tagLength ≤ 16640 := by
    unfold padLength
    have : min 16384 4096 = 4096 := rfl
    rw [this]
    omega
  rw [← hlen, ← hbody] at hpad
  refine ⟨_, k, _, _, ht, h1, rfl, ?_, hpad, ⟨h.state, h.mfl, h.hs, ⟨_, key, iv, rfl, h2, rfl⟩⟩, ?_⟩
  · show c.outputData ++ sealedRecord .. = _
    rw [hm, h2]
    simp [wireOf, sealedRecord]
  · intro E' ks hE hi hw
    refine .sealed (key := key) (nonce := xorBytes iv (beEnc info.nonceLength n)) ?_ ?_ ?_ ?_ ?_ (.nil _)
    · rw [hw, h3]
    · exact hi ▸ nextNonce_at (hw.trans h3) (hi ▸ W.limit) (by omega)
    · rw [hi, hE]
    · rw [hi]; exact hbody
    · omega

/-- writing, seen in the direction of what is written -/
theorem Leg.write {x y : Party} {c' : Conn} {k : CipherSt} {wr : Dir} {i : Nat × Bytes} {body : Bytes}
    {ds : List Bytes} {xc yh : Bool} (h : Leg E' info x y ds false yh) (hk : x.conn.cipher = some k) (hki : k.info = info)
    (hc : c'.cipher = some { k with wr := wr })
    (ho : c'.outputData = x.conn.outputData ++ wireOf [(23, body)]) (hb : body.length ≤ 16640)
    (hr : ∀ {ks : CipherSt}, ks.info = info → ks.wr = k.wr →
      Recs E' 16384 (some ks) [i] [(23, body)] (some { ks with wr := wr }))
    (he : ∀ is, (∀ i ∈ is, i.1 = 23) → Ending (is ++ [i]) xc false) :
    Leg E' info { x with conn := c', sent := x.sent ++ appOf [i] } y (ds ++ appsOf [i]) xc yh := by
  obtain ⟨k₀, ks, ks', is, rs, h1, h2, h3, h4, h5, h6, h7, h8, h9, h10, h11, hd, j1, j2⟩ := h.flow
  rw [hk] at h1
  cases h1
  cases yh with
  | true => exact h6.elim
  | false =>
    refine ⟨⟨_, ks, _, is ++ [i], rs ++ [(23, body)], hc, h2.append (hr h3 h4), h3, rfl, h5, he is h6, ?_, ?_, ?_, ?_, h11, hd, by
      rw [j1, appsOf_append, List.append_assoc], j2⟩⟩
    · show y.conn.inputData ++ (x.wire ++ c'.outputData) = _
      rw [ho, wireOf_append, ← h7]
      simp
    · show x.sent ++ appOf [i] = _
      rw [h8, appOf_append]
      simp
    · intro r hr'
      rcases List.mem_append.mp hr' with hr' | hr'
      · exact h9 r hr'
      · simp only [List.mem_singleton] at hr'
        subst hr'
        exact hb
    · intro hin
      exfalso
      rw [hin, wireOf_append] at h7
      have := congrArg List.length h7
      simp [wireOf, recordBytes] at this

/-- writing, seen in the other direction -/
theorem Leg.other {x y : Party} {c' : Conn} {k : CipherSt} {wr : Dir} {t : Bytes} {ds : List Bytes} {yc xh : Bool}
    (h : Leg E info y x ds yc xh) (hk : x.conn.cipher = some k) (hc : c'.cipher = some { k with wr := wr })
    (i1 : c'.inputData = x.conn.inputData) (i2 : c'.applicationData = x.conn.applicationData) :
    Leg E info y { x with conn := c', sent := t } ds yc xh := by
  obtain ⟨k₀, ks, ks', is, rs, h1, h2, h3, h4, h5, h6, h7, h8, h9, h10, h11, hd, j1, j2⟩ := h.flow
  refine ⟨⟨k₀, ks, ks', is, rs, h1, h2, h3, h4, ?_, h6, ?_, ?_, h9, ?_, h11, hd, j1, ?_⟩⟩
  · show Matched _ c'.cipher
    rw [hc]
    rw [hk] at h5
    exact matched_reader h5 rfl rfl
  · show c'.inputData ++ _ = _
    rw [i1]; exact h7
  · show _ = x.got ++ c'.applicationData ++ _
    rw [i2]; exact h8
  · show c'.inputData = _ → _
    rw [i1]; exact h10
  · show _ = x.got ++ c'.applicationData
    rw [i2]; exact j2

theorem stateAfter_app {s : St} {is : List (Nat × Bytes)} (h : ∀ i ∈ is, i.1 = 23) : stateAfter s is = s := by
  induction is with
  | nil => rfl
  | cons i is ih =>
    rw [stateAfter, if_pos (h i List.mem_cons_self)]
    exact ih fun j hj => h j (List.mem_cons_of_mem _ hj)

theorem stateAfter_end {s : St} {is : List (Nat × Bytes)} :
    stateAfter s (is ++ [(21, [1, 0])]) = .closed true true := by
  induction is generalizing s with
  | nil => rfl
  | cons i is ih => exact ih

/-- what was heard and what remains -/
theorem Ending.split {i₁ i₂ : List (Nat × Bytes)} {xc yh yc : Bool} {s : St} (h : Ending (i₁ ++ i₂) xc yh)
    (hs : Stands s yc yh) : ∃ yh', Ending i₂ xc yh' ∧ Stands (stateAfter s i₁) yc yh' := by
  cases xc <;> cases yh
  · refine ⟨false, fun i hi => h i (List.mem_append_right _ hi), ?_⟩
    rw [stateAfter_app fun i hi => h i (List.mem_append_left _ hi)]
    exact hs
  · exact h.elim
  · obtain ⟨ds, hd, h⟩ := h
    rcases List.eq_nil_or_concat i₂ with rfl | ⟨js, j, rfl⟩
    · rw [List.append_nil] at hd
      subst hd
      refine ⟨true, rfl, ?_⟩
      rw [stateAfter_end]
      cases yc
      · rfl
      · exact ⟨_, rfl⟩
    · rw [List.concat_eq_append, ← List.append_assoc] at hd
      obtain ⟨rfl, hj⟩ := List.append_inj' hd rfl
      refine ⟨false, ⟨js, by rw [List.concat_eq_append, hj], fun i hi => h i (List.mem_append_right _ hi)⟩, ?_⟩
      rw [stateAfter_app fun i hi => h i (List.mem_append_left _ hi)]
      exact hs
  · obtain ⟨rfl, rfl⟩ := List.append_eq_nil_iff.mp h
    exact ⟨true, rfl, hs⟩

/-- receiving, in both directions -/
theorem Leg.receive {x y : Party} {n m : Nat} {ds ds' : List Bytes} {xc yc xh yh : Bool}
    (W : Works E info lim) (h : Leg E info x y ds xc yh) (h' : Leg E' info y x ds' yc xh)
    (hy : Able y.conn info n yc yh) (hn : n ≤ 10000001) (hne : x.wire.take m ≠ []) :
    ∃ c' yh', (Op.receive (x.wire.take m)).run E y.conn = (.ok [], c') ∧ Able c' info n yc yh' ∧
      Leg E info { x with wire := x.wire.drop m } { y with conn := c' } ds xc yh' ∧
      Leg E' info { y with conn := c' } { x with wire := x.wire.drop m } ds' yc xh := by
  obtain ⟨k, ks, ks', is, rs, h1, h2, h3, h4, h5, h6, h7, h8, h9, h10, h11, hd, j1, j2⟩ := h.flow
  have hlim := limit_of h5 h11 hy.mfl
  obtain ⟨i₁, i₂, s₂, ks₁, c', g1, g2, g3, g4, g5, g6, g7, g8⟩ := receive_said (d := x.wire.take m)
    (q := x.wire.drop m ++ x.conn.outputData) W.opens h2 ⟨hy.state.listens, hy.hs⟩ h5 h6.said hne (hy.rekey W hn)
    (by rw [hlim]; exact h9) (by rw [← h7, ← List.append_assoc (x.wire.take m), List.take_append_drop])
  obtain ⟨ky, key, iv, e1, e2, e3⟩ := hy.key
  have hwr := g3.wr
  rw [e1] at hwr
  obtain ⟨kc, hkc⟩ : ∃ kc, c'.cipher = some kc := by
    cases hc : c'.cipher with
    | none => rw [hc] at hwr; cases hwr
    | some kc => exact ⟨kc, rfl⟩
  rw [hkc] at hwr
  simp only [Option.map_some, Option.some.injEq, CipherSt.writing] at hwr
  have w1 : kc.info = ky.info := by
    have := congrArg CipherSt.info hwr; exact this
  have w2 : kc.wr = ky.wr := by
    have := congrArg CipherSt.wr hwr; exact this
  rw [g1] at h6
  obtain ⟨yh', q1, q2⟩ := h6.split hy.state
  refine ⟨c', yh', ?_, ⟨?_, ?_, ?_, ⟨kc, key, iv, hkc, w1.trans e2, w2.trans e3⟩⟩, ?_, ?_⟩
  · simp only [Op.run, M.bind_def, g2]
    rfl
  · rw [g3.state]; exact q2
  · have : c'.mfl = y.conn.mfl := by rw [g3.same]; rfl
    rw [this]; exact hy.mfl
  · rw [g3.same]; exact hy.hs
  · have hks : ∃ k₁, ks₁ = some k₁ ∧ k₁.wr.key ≠ none := by
      have := g4.keep.2
      have := h2.keep.2
      cases ks₁ with
      | none => simp at *
      | some k₁ =>
        refine ⟨k₁, rfl, ?_⟩
        simp_all
    obtain ⟨k₁, rfl, hk₁⟩ := hks
    refine ⟨⟨k, k₁, ks', i₂, s₂, h1, g4, h3, h4, g5, q1, g6, ?_, ?_, ?_, hk₁, hd ++ appsOf i₁, ?_, ?_⟩⟩
    · show x.sent = y.got ++ c'.applicationData ++ _
      rw [h8, g3.app, g1, appOf_append]
      simp
    · exact fun r hr => h9 r (g7 r hr)
    · show c'.inputData = _ → _
      intro he
      have hq : x.wire.drop m ++ x.conn.outputData = [] := by
        have := congrArg List.length g6
        rw [← he, List.length_append] at this
        exact List.eq_nil_of_length_eq_zero (by omega)
      have := g8 hq
      subst this
      exact g4.nil_inv.1
    · rw [j1, g1, appsOf_append, List.append_assoc]
    · show _ = y.got ++ c'.applicationData
      rw [List.flatten_append, j2, ← appOf_eq, g3.app, List.append_assoc]
  · obtain ⟨k₀, js, js', is', rs', f1, f2, f3, f4, f5, f6, f7, f8, f9, f10, f11⟩ := h'.flow
    rw [e1] at f1
    cases f1
    refine ⟨⟨kc, js, js', is', rs', hkc, f2, f3, f4.trans w2.symm, f5, f6, ?_, f8, f9, f10, f11⟩⟩
    show x.conn.inputData ++ (y.wire ++ c'.outputData) = _
    have : c'.outputData = y.conn.outputData := by rw [g3.same]
    rw [this]
    exact f7

/-- the state of an encounter -/
structure Meeting (E E' : Env) (info : SuiteInfo) (a b : Party) (n n' : Nat) (ds ds' : List Bytes)
    (ca cb ha hb : Bool) : Prop where
  left : Able a.conn info n ca ha
  right : Able b.conn info n' cb hb
  there : Leg E' info a b ds ca hb
  back : Leg E info b a ds' cb ha

theorem Meeting.swap {a b : Party} {n n' : Nat} {ds ds' : List Bytes} {ca cb ha hb : Bool}
    (h : Meeting E E' info a b n n' ds ds' ca cb ha hb) : Meeting E' E info b a n' n ds' ds cb ca hb ha :=
  ⟨h.right, h.left, h.back, h.there⟩

/-- whether a deed sends, whether it closes -/
def Spec.Deed.says : Deed → Nat
  | .talk (.send _) => 1
  | _ => 0
def Spec.Deed.ends : Deed → Bool
  | .close => true
  | _ => false

/-- what a deed sends -/
def Spec.Deed.message : Deed → List Bytes
  | .talk (.send d) => [d]
  | _ => []

theorem close_run {c c₁ : Conn} {he : Bool} (hs : Stands c.state false he)
    (h : sendContent E (.alert 1 0) { c with state := .closed true true } = (.ok (), c₁))
    (h1 : c₁.state = .closed true true) :
    Op.closeSend.run E c = (.ok [], { c₁ with state := .closed true false }) := by
  have hcl : c.state.closing = .closed true true := by
    cases he <;> (unfold Stands at hs; rw [hs]; rfl)
  simp only [Op.run, closeSendingEnd, M.bind_def, M.modify, M.get, hcl]
  rw [if_pos (show (St.closed true true).canSend = true from rfl)]
  simp only [M.bind_def]
  rw [show Iana.warning = 1 from rfl, show Iana.closeNotify = 0 from rfl, h]
  simp only [M.modify, h1]
  rfl

/-- every deed leads to such a state -/
theorem Meeting.play {a b : Party} {n n' : Nat} {ds ds' : List Bytes} {ca cb ha hb : Bool} (W : Works E info lim)
    (hE : E'.aeadSeal = E.aeadSeal) (h : Meeting E E' info a b n n' ds ds' ca cb ha hb) (m : Deed)
    (hd : ∀ d, m = .talk (.send d) → d.length ≤ 16366) (hp : ca = true → m.says = 0 ∧ m.ends = false)
    (hn : n + m.says ≤ 10000000 + ca.toNat) :
    raised (m.play E a b).1 = false ∧ ∃ ha',
      Meeting E E' info (m.play E a b).2.1 (m.play E a b).2.2 (n + m.says + m.ends.toNat) n'
        (ds ++ m.message) ds' (ca || m.ends) cb ha' hb := by
  obtain ⟨h1, h2, h3, h4⟩ := h
  cases m with
  | close =>
    have hca : ca = false := by
      cases ca
      · rfl
      · cases (hp rfl).2
    subst hca
    simp only [Deed.says, Bool.toNat_false, Nat.add_zero] at hn
    have hst : Able { a.conn with state := .closed true true } info n false true :=
      ⟨rfl, h1.mfl, h1.hs, h1.key⟩
    obtain ⟨c', k, wr, body, g1, g2, g3, g4, g5, g6, g7⟩ := hst.emit (x := .alert 1 0) (data := [1, 0]) W
      (by omega) (by decide) (fun _ => rfl) rfl (by decide)
    have hrun := close_run h1.state g1 g6.state
    have hki : k.info = info := by
      obtain ⟨k₁, _, _, e1, e2, _⟩ := h1.key
      have : a.conn.cipher = some k := g2
      rw [e1] at this
      cases this
      exact e2
    simp only [Deed.play, hrun]
    have hcc : ({ c' with state := .closed true false } : Conn).cipher = some { k with wr := wr } := by
      show c'.cipher = _
      rw [g3]
    refine ⟨rfl, ha, ⟨⟨_, rfl⟩, g6.mfl, g6.hs, g6.key⟩, h2, ?_, ?_⟩
    · have := h3.write (c' := { c' with state := .closed true false }) (i := (21, [1, 0])) (xc := true) g2 hki hcc
        g4 g5 (fun hi hw => g7 hE hi hw) (fun is his => ⟨is, rfl, his⟩)
      rw [appOf_alert, appOf_nil, List.append_nil] at this
      exact this
    · exact h4.other (c' := { c' with state := .closed true false }) g2 hcc
        (by show c'.inputData = _; rw [g3]) (by show c'.applicationData = _; rw [g3])
  | talk m =>
    cases m with
    | send d =>
      have hca : ca = false := by
        cases ca
        · rfl
        · cases (hp rfl).1
      subst hca
      simp only [Deed.says, Bool.toNat_false, Nat.add_zero] at hn
      obtain ⟨c', k, wr, body, g1, g2, g3, g4, g5, g6, g7⟩ := h1.emit (x := .applicationData d) (data := d) W
        (by omega) (by show 23 ≠ 24; decide) (fun _ => rfl) rfl (hd d rfl)
      have hrun : (Op.send d).run E a.conn = (.ok [], c') := by
        have hs : sendData E d a.conn = (.ok (), c') := g1
        simp only [Op.run, M.bind_def, hs]
        rfl
      have hki : k.info = info := by
        obtain ⟨k₁, _, _, e1, e2, _⟩ := h1.key
        rw [e1] at g2
        cases g2
        exact e2
      have hcc : c'.cipher = some { k with wr := wr } := by rw [g3]
      simp only [Deed.play, Move.play, hrun]
      refine ⟨rfl, ha, g6, h2, ?_, ?_⟩
      · have := h3.write (c' := c') (i := (23, d)) (xc := false) g2 hki hcc
          g4 g5 (fun hi hw => g7 hE hi hw) (fun is his i hi => by
            rcases List.mem_append.mp hi with hi | hi
            · exact his i hi
            · simp only [List.mem_singleton] at hi
              rw [hi])
        rw [appOf_app, appOf_nil, List.append_nil] at this
        exact this
      · exact h4.other g2 hcc (by rw [g3]) (by rw [g3])
    | read =>
      refine ⟨rfl, ha, ?_⟩
      rw [show (Deed.talk .read).says = 0 from rfl, show (Deed.talk .read).ends = false from rfl, Bool.or_false,
        show (Deed.talk .read).message = [] from rfl, List.append_nil]
      refine ⟨⟨h1.state, h1.mfl, h1.hs, h1.key⟩, h2, ?_, ?_⟩
      · exact ⟨h3.flow⟩
      · obtain ⟨k, ks, ks', is, rs, f1, f2, f3, f4, f5, f6, f7, f8, f9, f10, f11, hd, j1, j2⟩ := h4.flow
        refine ⟨⟨k, ks, ks', is, rs, f1, f2, f3, f4, f5, f6, f7, ?_, f9, f10, f11, hd, j1, ?_⟩⟩
        · show b.sent = (a.got ++ a.conn.applicationData) ++ [] ++ _
          rw [List.append_nil]
          exact f8
        · show _ = (a.got ++ a.conn.applicationData) ++ []
          rw [List.append_nil]
          exact j2
    | drain =>
      refine ⟨rfl, ha, ?_⟩
      rw [show (Deed.talk .drain).says = 0 from rfl, show (Deed.talk .drain).ends = false from rfl, Bool.or_false,
        show (Deed.talk .drain).message = [] from rfl, List.append_nil]
      refine ⟨⟨h1.state, h1.mfl, h1.hs, h1.key⟩, h2, ?_, ?_⟩
      · obtain ⟨k, ks, ks', is, rs, f1, f2, f3, f4, f5, f6, f7, f8⟩ := h3.flow
        refine ⟨⟨k, ks, ks', is, rs, f1, f2, f3, f4, f5, f6, ?_, f8⟩⟩
        show b.conn.inputData ++ ((a.wire ++ a.conn.outputData) ++ []) = _
        rw [List.append_nil]
        exact f7
      · exact ⟨h4.flow⟩
    | deliver m =>
      rw [show (Deed.talk (.deliver m)).says = 0 from rfl, show (Deed.talk (.deliver m)).ends = false from rfl, Bool.or_false,
        show (Deed.talk (.deliver m)).message = [] from rfl, List.append_nil]
      by_cases hw : b.wire.take m = []
      · simp only [Deed.play, Move.play, if_pos hw]
        exact ⟨rfl, ha, h1, h2, h3, h4⟩
      · obtain ⟨c', ha', g1, g2, g3, g4⟩ := h4.receive W h3 h1 (by have := ca.toNat_le; simp only [Deed.says] at hn; omega) hw
        simp only [Deed.play, Move.play, if_neg hw, g1]
        exact ⟨rfl, ha', g2, h2, g4, g3⟩

/-! ## All deeds -/

/-- how often a side sends, whether it closes -/
def saysBy (side : Bool) (ms : List (Bool × Deed)) : Nat :=
  (ms.filter fun m => m.1 == side && m.2 matches .talk (.send _)).length

def closes (side : Bool) (ms : List (Bool × Deed)) : Bool := ms.any fun m => m.1 == side && m.2.ends

theorem saysBy_cons (side side' : Bool) (m : Deed) (ms : List (Bool × Deed)) :
    saysBy side ((side', m) :: ms) = (if side' = side then m.says else 0) + saysBy side ms := by
  unfold saysBy
  rw [List.filter_cons]
  rcases m with ⟨_ | _ | _ | _⟩ | _ <;> cases side <;> cases side' <;> simp [Spec.Deed.says] <;> omega

theorem closes_iff (side : Bool) (ms : List (Bool × Deed)) : closes side ms = true ↔ (side, .close) ∈ ms := by
  unfold closes
  rw [List.any_eq_true]
  constructor
  · rintro ⟨⟨s, d⟩, hm, h⟩
    simp only [Bool.and_eq_true, beq_iff_eq] at h
    obtain ⟨rfl, h⟩ := h
    cases d with
    | talk => cases h
    | close => exact hm
  · exact fun h => ⟨_, h, by simp [Spec.Deed.ends]⟩

/-- a side that does not send nor close any more -/
def Retired (side : Bool) (ms : List (Bool × Deed)) : Prop :=
  ∀ d ∈ ms, d.1 = side → d.2.says = 0 ∧ d.2.ends = false

theorem Spec.Polite.tail {side : Bool} {m : Bool × Deed} {ms : List (Bool × Deed)} (h : Polite side (m :: ms)) :
    Polite side ms := by
  obtain ⟨s, m⟩ := m
  cases m with
  | talk => exact h
  | close => exact h.2

theorem Spec.Polite.silent {side : Bool} {m : Deed} {ms : List (Bool × Deed)} (h : Polite side ((side, m) :: ms))
    (hm : m.ends = true) : Retired side ms := by
  cases m with
  | talk => cases hm
  | close =>
    intro d hd hs
    obtain ⟨h1, h2⟩ := h.1 rfl d hd hs
    obtain ⟨s, d⟩ := d
    rcases d with ⟨_ | _ | _ | _⟩ | _
    · exact absurd rfl (h2 _)
    · exact ⟨rfl, rfl⟩
    · exact ⟨rfl, rfl⟩
    · exact ⟨rfl, rfl⟩
    · exact absurd rfl h1

/-- what is left to do respects the rules -/
structure Agenda (side : Bool) (ms : List (Bool × Deed)) (n : Nat) (closed : Bool) : Prop where
  polite : Polite side ms
  silent : closed = true → Retired side ms
  count : n + saysBy side ms ≤ 9999999 + closed.toNat

theorem Agenda.mine {side : Bool} {m : Deed} {ms : List (Bool × Deed)} {n : Nat} {c : Bool}
    (h : Agenda side ((side, m) :: ms) n c) : Agenda side ms (n + m.says + m.ends.toNat) (c || m.ends) ∧
    (c = true → m.says = 0 ∧ m.ends = false) ∧ n + m.says ≤ 10000000 + c.toNat := by
  have h3 := h.count
  rw [saysBy_cons, if_pos rfl] at h3
  refine ⟨⟨h.polite.tail, ?_, ?_⟩, fun hc => h.silent hc _ List.mem_cons_self rfl, by omega⟩
  · intro hc
    cases c with
    | true => exact fun d hd => h.silent rfl d (List.mem_cons_of_mem _ hd)
    | false => exact h.polite.silent (by simpa using hc)
  · cases c with
    | true =>
      obtain ⟨e1, e2⟩ := h.silent rfl _ List.mem_cons_self rfl
      dsimp only at e1 e2
      rw [e1] at h3 ⊢
      rw [e2]
      simp at h3 ⊢
      omega
    | false =>
      cases he : m.ends <;> simp at h3 ⊢ <;> omega

theorem Agenda.others {side : Bool} {m : Deed} {ms : List (Bool × Deed)} {n : Nat} {c : Bool}
    (h : Agenda side ((!side, m) :: ms) n c) : Agenda side ms n c := by
  have h3 := h.count
  rw [saysBy_cons, if_neg (by cases side <;> simp)] at h3
  exact ⟨h.polite.tail, fun hc d hd => h.silent hc d (List.mem_cons_of_mem _ hd), by omega⟩

theorem closes_cons (side side' : Bool) (m : Deed) (ms : List (Bool × Deed)) :
    closes side ((side', m) :: ms) = ((side' == side && m.ends) || closes side ms) := rfl

/-- everything a side sends -/
def messagesBy (side : Bool) (ms : List (Bool × Deed)) : List Bytes :=
  ms.flatMap fun m => if m.1 = side then m.2.message else []

theorem Meeting.run (W : Works E info lim) (W' : Works E' info lim) (hE : E'.aeadSeal = E.aeadSeal) :
    ∀ (ms : List (Bool × Deed)) {a b : Party} {n n' : Nat} {ds ds' : List Bytes} {ca cb ha hb : Bool},
      Meeting E E' info a b n n' ds ds' ca cb ha hb →
      (∀ side d, (side, .talk (.send d)) ∈ ms → d.length ≤ 16366) →
      Agenda true ms n ca → Agenda false ms n' cb →
      (∀ r ∈ (encounter E E' ms a b).1, raised r = false) ∧
      ∃ m m' ha' hb', Meeting E E' info (encounter E E' ms a b).2.1 (encounter E E' ms a b).2.2 m m'
        (ds ++ messagesBy true ms) (ds' ++ messagesBy false ms) (ca || closes true ms) (cb || closes false ms) ha' hb'
  | [], _, _, _, _, _, _, _, _, _, _, h, _, _, _ =>
    ⟨by simp [encounter], _, _, _, _, by simpa [closes, encounter, messagesBy] using h⟩
  | (true, m) :: ms, a, b, n, n', ds, ds', ca, cb, ha, hb, h, hd, hA, hB => by
    obtain ⟨p1, p2, p3⟩ := hA.mine
    obtain ⟨h1, ha', h2⟩ := h.play W hE m (fun d hm => hd true d (by simp [hm])) p2 p3
    obtain ⟨h3, k, k', x, y, h4⟩ := Meeting.run W W' hE ms h2
      (fun side d hm => hd side d (List.mem_cons_of_mem _ hm)) p1 hB.others
    refine ⟨fun r hr => ?_, k, k', x, y, ?_⟩
    · rcases List.mem_cons.mp hr with rfl | hr
      · exact h1
      · exact h3 r hr
    · simpa [closes_cons, Bool.or_assoc, encounter, messagesBy] using h4
  | (false, m) :: ms, a, b, n, n', ds, ds', ca, cb, ha, hb, h, hd, hA, hB => by
    obtain ⟨p1, p2, p3⟩ := hB.mine
    obtain ⟨h1, ha', h2⟩ := h.swap.play W' hE.symm m (fun d hm => hd false d (by simp [hm])) p2 p3
    obtain ⟨h3, k, k', x, y, h4⟩ := Meeting.run W W' hE ms h2.swap
      (fun side d hm => hd side d (List.mem_cons_of_mem _ hm)) hA.others p1
    refine ⟨fun r hr => ?_, k, k', x, y, ?_⟩
    · rcases List.mem_cons.mp hr with rfl | hr
      · exact h1
      · exact h3 r hr
    · simpa [closes_cons, Bool.or_assoc, encounter, messagesBy] using h4

/-- one direction of a session that was just established -/
theorem Leg.start {c s : Conn} {x y : CipherSt} (hx : c.cipher = some x) (hy : s.cipher = some y)
    (hi : x.info = info) (hi' : y.info = info) (hw : x.wr = y.rd) (hk : x.wr.key ≠ none)
    (hs : suiteInfo info.id = some info) (ho : c.outputData = []) (hin : s.inputData = [])
    (happ : s.applicationData = []) : Leg E info ⟨c, [], [], []⟩ ⟨s, [], [], []⟩ [] false false := by
  refine ⟨⟨x, x, x, [], [], hx, .nil _, hi, rfl, ?_, by simp [Ending], ?_, ?_, by simp, fun _ => rfl, hk, [], rfl, by
    show [] = [] ++ s.applicationData
    rw [happ]; rfl⟩⟩
  · exact .inr ⟨x, y, rfl, hy, hi.trans hi'.symm, hw, hk, by rw [hi]; exact hs⟩
  · show s.inputData ++ ([] ++ c.outputData) = _
    rw [ho, hin]; rfl
  · show [] = [] ++ s.applicationData ++ _
    rw [happ]; rfl

theorem Stands.isConnected {s : St} {c h : Bool} (hs : Stands s c h) : s.isConnected = true := by
  rcases hs.listens with rfl | ⟨b, rfl⟩ <;> rfl

theorem Leg.informed {x y : Party} {ds : List Bytes} {xc yc yh : Bool} {X Y : Prop}
    (h : Leg E info x y ds xc yh)
    (hy : Stands y.conn.state yc yh) (hX : xc = true ↔ X) (hY : yc = true ↔ Y) : Informed x y X Y := by
  obtain ⟨k, ks, ks', is, rs, -, h2, -, -, -, h6, h7, h8, -, h10, -⟩ := h.flow
  constructor
  · cases yc with
    | true => exact .inr (.inl (hY.mp rfl))
    | false =>
      cases yh with
      | false => exact .inl hy
      | true =>
        cases xc with
        | false => exact h6.elim
        | true =>
          refine .inr (.inr ⟨hX.mp rfl, ?_⟩)
          have h6 : is = [] := h6
          subst h6
          simpa [appOf_nil] using h8.symm
  · intro hx ho hw hst
    have hxc := hX.mpr hx
    subst hxc
    rw [ho, hw, List.append_nil, List.append_nil] at h7
    have := h10 h7
    subst this
    cases h2
    cases yh with
    | false =>
      obtain ⟨ds, hd, -⟩ := h6
      simp at hd
    | true =>
      cases yc
      · rw [show y.conn.state = .closed true true from hy] at hst; cases hst
      · obtain ⟨b, hb⟩ := hy
        rw [hb] at hst; cases hst

/-- the state at the end of any encounter -/
theorem met {c s : Conn} {gc gs : Config} {k : Choice} (W : Works E info lim) (W' : Works E' info lim)
    (hE : E'.aeadSeal = E.aeadSeal) (hid : info.id = k.suite) (h : Established c s gc gs k)
    (hc : c.outputData = []) (hs : s.outputData = []) (ms : List (Bool × Deed)) (hms : Civil ms) :
    (∀ r ∈ (encounter E E' ms ⟨c, [], [], []⟩ ⟨s, [], [], []⟩).1, raised r = false) ∧ ∃ n n' ha hb,
      Meeting E E' info (encounter E E' ms ⟨c, [], [], []⟩ ⟨s, [], [], []⟩).2.1
        (encounter E E' ms ⟨c, [], [], []⟩ ⟨s, [], [], []⟩).2.2 n n' (messagesBy true ms) (messagesBy false ms)
        (closes true ms) (closes false ms) ha hb := by
  obtain ⟨x, y, h1, h2, h3, h4, h5, h6, h7, h8, h9, h10, h11, h12, h13⟩ := h.keys
  have hi : x.info = info := by
    have := W.suite
    rw [hid, ← h4, h5] at this
    exact Option.some.inj this
  have able : ∀ {e : Conn} {z : CipherSt}, e.state = .connected → e.mfl = 16384 → e.inputHandshake = [] →
      e.cipher = some z → z.info = info → z.wr.key ≠ none → z.wr.iv ≠ none → z.wr.seq = some 0 →
      Able e info 0 false false := by
    intro e z r1 r2 r3 r4 r5 r6 r7 r8
    obtain ⟨key, r6⟩ := Option.ne_none_iff_exists'.mp r6
    obtain ⟨iv, r7⟩ := Option.ne_none_iff_exists'.mp r7
    refine ⟨r1, r2, r3, ⟨z, key, iv, r4, r5, ?_⟩⟩
    rw [← r6, ← r7, ← r8]
  have T : Meeting E E' info ⟨c, [], [], []⟩ ⟨s, [], [], []⟩ 0 0 [] [] false false false false :=
    ⟨able h.states.1 h.limits.1 h.inputs.2.2.1 h1 hi h8 h10 h12,
      able h.states.2 h.limits.2 h.inputs.2.2.2 h2 (h3 ▸ hi) h9 h11 h13,
      .start h1 h2 hi (h3 ▸ hi) h6 h8 W.suite hc h.inputs.2.1 h.app.2,
      .start h2 h1 (h3 ▸ hi) hi h7 h9 W.suite hs h.inputs.1 h.app.1⟩
  have agenda : ∀ side, Agenda side ms 0 false := fun side =>
    ⟨hms.polite side, fun h => (by cases h), by have : saysBy side ms < 10000000 := hms.count side; simp; omega⟩
  exact T.run W W' hE ms hms.sizes (agenda true) (agenda false)

theorem farewell {c s : Conn} {gc gs : Config} {k : Choice} (W : Works E info lim) (W' : Works E' info lim)
    (hE : E'.aeadSeal = E.aeadSeal) (hid : info.id = k.suite) (h : Established c s gc gs k)
    (hc : c.outputData = []) (hs : s.outputData = []) : Farewell E c E' s := by
  intro ms hms
  obtain ⟨r1, _, _, ha, hb, r2⟩ := met W W' hE hid h hc hs ms hms
  exact ⟨r1, r2.left.state.isConnected, r2.right.state.isConnected, r2.there.delivers, r2.back.delivers,
    r2.there.informed r2.right.state (closes_iff true ms) (closes_iff false ms),
    r2.back.informed r2.left.state (closes_iff false ms) (closes_iff true ms)⟩

end Siotls
