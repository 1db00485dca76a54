import Verif.Proofs.EndToEnd
import Verif.Spec.Duplex
/-!
# Two connected ends at once
-/

namespace Siotls
open Spec Serial

variable {E E' : Env} {info : SuiteInfo} {lim : Nat}

/-- the records depend on the suite and on the writing direction only -/
theorem Recs.move (hE : E'.aeadSeal = E.aeadSeal) {mfl : Nat} {k k' : Option CipherSt}
    {is rs : List (Nat × Bytes)} (h : Recs E mfl k is rs k') :
    ∀ {s t : CipherSt}, k = some s → t.info = s.info → t.wr = s.wr → s.wr.key ≠ none →
      ∃ t', Recs E' mfl (some t) is rs (some t') ∧ k'.map (fun k => (k.info, k.wr)) = some (t'.info, t'.wr) := by
  induction h with
  | nil k =>
    intro s t h1 h2 h3 _
    subst h1
    exact ⟨t, .nil _, by simp [h2, h3]⟩
  | plain h0 => intro s t h1 _ _ h4; exact absurd (h0 s h1) h4
  | @«sealed» k ct f key nonce wr body is rs k' a b c d e _ ih =>
    intro s t h1 h2 h3 _
    cases h1
    have hw : wr.key = some key := by
      have := b
      unfold nextNonce at this
      split at this
      · split at this
        · cases this; exact a
        · cases this
      · cases this
    obtain ⟨t', g1, g2⟩ := ih (s := { k with wr := wr }) (t := { t with wr := wr }) rfl h2 rfl
      (by show wr.key ≠ none; rw [hw]; simp)
    refine ⟨t', .sealed (by rw [h3]; exact a) (by rw [h2, h3]; exact b) ?_ ?_ e g1, g2⟩
    · rw [h2, hE]; exact c
    · rw [h2]; exact d

/-- a connected end that used its keys `n` times -/
structure Ready (c : Conn) (info : SuiteInfo) (n : Nat) : Prop where
  state : c.state = .connected
  mfl : c.mfl = 16384
  hs : c.inputHandshake = []
  key : ∃ k key iv, c.cipher = some k ∧ k.info = info ∧ k.wr = ⟨some key, some iv, some n⟩

theorem Ready.rekey {c : Conn} {n : Nat} (W : Works E info lim) (h : Ready c info n) (hn : n ≤ 10000000) :
    shouldRekey c = .ok false := by
  have hlim := W.lim_ge
  obtain ⟨k, key, iv, h1, h2, h3⟩ := h.key
  unfold shouldRekey
  rw [h1]
  dsimp only
  rw [h2, h3, W.limit]
  dsimp only
  rw [if_pos (by omega)]
  simp [rekeyThreshold]
  omega

/-- one direction: what is on the way from `x` to `y` -/
structure Half (E : Env) (info : SuiteInfo) (x y : Party) : Prop where
  flow : ∃ k ks ks' is rs, x.conn.cipher = some k ∧ Recs E 16384 (some ks) is rs (some ks') ∧
    ks'.info = info ∧ ks'.wr = k.wr ∧ Matched (some ks) y.conn.cipher ∧ (∀ i ∈ is, i.1 = 23) ∧
    y.conn.inputData ++ (x.wire ++ x.conn.outputData) = wireOf rs ∧
    x.sent = y.got ++ y.conn.applicationData ++ (is.map (·.2)).flatten ∧
    (∀ r ∈ rs, r.2.length ≤ 16640) ∧ (y.conn.inputData = wireOf rs → rs = []) ∧ ks.wr.key ≠ none

theorem Half.delivers {x y : Party} (h : Half E info x y) : Delivers x y := by
  obtain ⟨k, ks, ks', is, rs, -, h2, -, -, -, -, h7, h8, -, h10, -⟩ := h.flow
  refine ⟨⟨_, h8.symm⟩, fun ho hw => ?_⟩
  rw [ho, hw, List.append_nil, List.append_nil] at h7
  have := h10 h7
  subst this
  cases h2
  simpa using h8.symm

theorem matched_reader {ks : Option CipherSt} {k k' : CipherSt} (h : Matched ks (some k))
    (hi : k'.info = k.info) (hr : k'.rd = k.rd) : Matched ks (some k') := by
  rcases h with ⟨h1, h2⟩ | ⟨s, r, h1, h2, h3, h4, h5, h6⟩
  · refine .inl ⟨h1, fun k'' hk => ?_⟩
    cases hk
    rw [hr]
    exact h2 k rfl
  · cases h2
    exact .inr ⟨s, k', h1, rfl, by rw [hi]; exact h3, by rw [hr]; exact h4, h5, h6⟩

/-- a sender writes one more piece of data -/
theorem Ready.send {c : Conn} {n : Nat} {d : Bytes} (W : Works E info lim) (h : Ready c info n)
    (hn : n < 10000000) (hd : d.length ≤ 16366) :
    ∃ c' k wr, (Op.send d).run E c = (.ok [], c') ∧ sendData E d c = (.ok (), c') ∧ c.cipher = some k ∧
      c' = { c with cipher := some { k with wr := wr }, outputData := c'.outputData, tr := c'.tr } ∧
      Ready c' info (n + 1) := by
  have hlim := W.lim_ge
  have htag := W.tag
  obtain ⟨k, key, iv, h1, h2, h3⟩ := h.key
  have hm := h.mfl
  obtain ⟨t, ht⟩ := send_sealed' (x := .applicationData d) (t' := c.transcript) (E := E) (c := c) (n := n)
    W.seals (by rw [h2]; exact W.suite) (fun _ => by rw [h.state]; rfl) (by show 23 ≠ 24; decide)
    (by rw [h.state]; rfl) rfl (Gives.pure () c) h1 h3 (by rw [h2]; exact W.limit) (show n < lim by omega)
    (show d.length + 1 + k.info.tagLength ≤ c.mfl by rw [h2]; omega) (Nat.le_of_eq hm) c.tr
  have hs : sendData E d c = (.ok (), _) := ht
  refine ⟨_, k, _, ?_, hs, h1, rfl, ⟨h.state, h.mfl, h.hs, ⟨_, key, iv, rfl, h2, rfl⟩⟩⟩
  simp only [Op.run, M.bind_def, hs]
  rfl

theorem limit_of {ks : CipherSt} {c : Conn} (hm : Matched (some ks) c.cipher) (hk : ks.wr.key ≠ none)
    (hl : c.mfl = 16384) : c.recordLimit = 16640 := by
  rcases hm with ⟨h1, -⟩ | ⟨s, r, h1, h2, h3, h4, h5, h6⟩
  · exact absurd (h1 ks rfl) hk
  · have : c.mustDecrypt = true := by
      unfold Conn.mustDecrypt
      rw [h2]
      dsimp only
      rw [← h4]
      cases h : s.wr.key with
      | none => exact absurd h h5
      | some _ => rfl
    rw [Conn.recordLimit, this, hl]
    rfl

/-- sending, seen in the direction of the data -/
theorem Half.send {x y : Party} {n : Nat} {d : Bytes} {c' : Conn} {k : CipherSt} {wr : Dir}
    (W : Works E info lim) (hE : E'.aeadSeal = E.aeadSeal) (h : Half E' info x y)
    (hx : Ready x.conn info n) (hd : d.length ≤ 16366)
    (hs : sendData E d x.conn = (.ok (), c')) (hk : x.conn.cipher = some k)
    (hc : c' = { x.conn with cipher := some { k with wr := wr }, outputData := c'.outputData, tr := c'.tr }) :
    Half E' info { x with conn := c', sent := x.sent ++ d } y := by
  obtain ⟨k₀, ks, ks', is, rs, h1, h2, h3, h4, h5, h6, h7, h8, h9, h10, h11⟩ := h.flow
  rw [hk] at h1
  cases h1
  obtain ⟨k₁, key, iv, e1, e2, e3⟩ := hx.key
  rw [hk] at e1
  cases e1
  have hm := hx.mfl
  have htag := W.tag
  have hmat : Matched x.conn.cipher (some { k with rd := k.wr }) :=
    .inr ⟨k, _, hk, rfl, rfl, rfl, by rw [e3]; simp, by rw [e2]; exact W.suite⟩
  obtain ⟨js, ss, g1, g2, g3, g4, g5⟩ := sendsData_recs (r := { x.conn with cipher := some { k with rd := k.wr } })
    (SendsData.send hs (.done _)) (by rw [hm]; simp [GoodMfl]) hmat (by
      intro d' hd'
      simp only [List.mem_singleton] at hd'
      subst hd'
      refine ⟨Nat.le_refl _, fun k' hk' _ => .inl ?_⟩
      rw [hk] at hk'
      cases hk'
      rw [e2]
      omega)
  rw [hm, hk] at g1
  obtain ⟨t', m1, m2⟩ := g1.move hE rfl (h3.trans e2.symm) h4 (by rw [e3]; simp)
  have hcip : c'.cipher = some { k with wr := wr } := by rw [hc]
  rw [hcip] at m2
  simp only [Option.map_some, Option.some.injEq, Prod.mk.injEq] at m2
  refine ⟨⟨_, ks, t', is ++ js, rs ++ ss, hcip, h2.append m1, by rw [← m2.1]; exact e2, m2.2.symm, h5, ?_, ?_, ?_, ?_, ?_, h11⟩⟩
  · intro i hi
    rcases List.mem_append.mp hi with hi | hi
    · exact h6 i hi
    · exact g2 i hi
  · show y.conn.inputData ++ (x.wire ++ c'.outputData) = _
    rw [g4, wireOf_append, ← h7]
    simp
  · show x.sent ++ d = _
    rw [h8]
    simp [g3]
  · intro r hr
    rcases List.mem_append.mp hr with hr | hr
    · exact h9 r hr
    · have := g5 r hr
      rw [limit_of (ks := k) (c := { x.conn with cipher := some { k with rd := k.wr } }) (hk ▸ hmat)
        (by rw [e3]; simp) hm] at this
      exact this
  · intro he
    rw [he, wireOf_append] at h7
    have h7' : wireOf ss ++ (x.wire ++ x.conn.outputData) = [] := by
      have := congrArg List.length h7
      simp only [List.length_append] at this
      apply List.eq_nil_of_length_eq_zero
      simp only [List.length_append]
      omega
    have hss := wireOf_nil (List.append_eq_nil_iff.mp h7').1
    subst hss
    have := h10 (by rw [he, wireOf_append]; simp [wireOf])
    rw [this]
    rfl

/-- sending, seen in the other direction -/
theorem Half.send' {x y : Party} {d : Bytes} {c' : Conn} {k : CipherSt} {wr : Dir}
    (h : Half E info y x) (hk : x.conn.cipher = some k)
    (hc : c' = { x.conn with cipher := some { k with wr := wr }, outputData := c'.outputData, tr := c'.tr }) :
    Half E info y { x with conn := c', sent := x.sent ++ d } := by
  obtain ⟨k₀, ks, ks', is, rs, h1, h2, h3, h4, h5, h6, h7, h8, h9, h10, h11⟩ := h.flow
  have i1 : c'.inputData = x.conn.inputData := by rw [hc]
  have i2 : c'.applicationData = x.conn.applicationData := by rw [hc]
  have i3 : c'.cipher = some { k with wr := wr } := by rw [hc]
  refine ⟨⟨k₀, ks, ks', is, rs, h1, h2, h3, h4, ?_, h6, ?_, ?_, h9, ?_, h11⟩⟩
  · show Matched _ c'.cipher
    rw [i3]
    rw [hk] at h5
    exact matched_reader h5 rfl rfl
  · show c'.inputData ++ _ = _
    rw [i1]; exact h7
  · show _ = x.got ++ c'.applicationData ++ _
    rw [i2]; exact h8
  · show c'.inputData = _ → _
    rw [i1]; exact h10

/-- receiving, in both directions -/
theorem Half.receive {x y : Party} {n m : Nat} (W : Works E info lim) (h : Half E info x y) (h' : Half E' info y x)
    (hy : Ready y.conn info n) (hn : n ≤ 10000000) (hne : x.wire.take m ≠ []) :
    ∃ c', (Op.receive (x.wire.take m)).run E y.conn = (.ok [], c') ∧ Ready c' info n ∧
      Half E info { x with wire := x.wire.drop m } { y with conn := c' } ∧
      Half E' info { y with conn := c' } { x with wire := x.wire.drop m } := by
  obtain ⟨k, ks, ks', is, rs, h1, h2, h3, h4, h5, h6, h7, h8, h9, h10, h11⟩ := h.flow
  have hlim := limit_of h5 h11 hy.mfl
  obtain ⟨i₁, i₂, s₂, ks₁, c', g1, g2, g3, g4, g5, g6, g7, g8⟩ := receive_app (d := x.wire.take m)
    (q := x.wire.drop m ++ x.conn.outputData) W.opens h2 ⟨.inl hy.state, hy.hs⟩ h5 h6 hne (hy.rekey W hn)
    (by rw [hlim]; exact h9) (by rw [← h7, ← List.append_assoc (x.wire.take m), List.take_append_drop])
  obtain ⟨ky, key, iv, e1, e2, e3⟩ := hy.key
  have hwr := g3.wr
  rw [e1] at hwr
  obtain ⟨kc, hkc⟩ : ∃ kc, c'.cipher = some kc := by
    cases hc : c'.cipher with
    | none => rw [hc] at hwr; cases hwr
    | some kc => exact ⟨kc, rfl⟩
  rw [hkc] at hwr
  simp only [Option.map_some, Option.some.injEq, CipherSt.writing] at hwr
  have w1 : kc.info = ky.info := by
    have := congrArg CipherSt.info hwr; exact this
  have w2 : kc.wr = ky.wr := by
    have := congrArg CipherSt.wr hwr; exact this
  refine ⟨c', ?_, ⟨?_, ?_, ?_, ⟨kc, key, iv, hkc, w1.trans e2, w2.trans e3⟩⟩, ?_, ?_⟩
  · simp only [Op.run, M.bind_def, g2]
    rfl
  · rw [g3.same]; exact hy.state
  · have : c'.mfl = y.conn.mfl := by rw [g3.same]; rfl
    rw [this]; exact hy.mfl
  · rw [g3.same]; exact hy.hs
  · have hks : ∃ k₁, ks₁ = some k₁ ∧ k₁.wr.key ≠ none := by
      have := g4.keep.2
      have := h2.keep.2
      cases ks₁ with
      | none => simp at *
      | some k₁ =>
        refine ⟨k₁, rfl, ?_⟩
        simp_all
    obtain ⟨k₁, rfl, hk₁⟩ := hks
    refine ⟨⟨k, k₁, ks', i₂, s₂, h1, g4, h3, h4, g5, ?_, g6, ?_, ?_, ?_, hk₁⟩⟩
    · exact fun i hi => h6 i (by rw [g1]; exact List.mem_append_right _ hi)
    · show x.sent = y.got ++ c'.applicationData ++ _
      rw [h8, g3.app, g1]
      simp
    · exact fun r hr => h9 r (g7 r hr)
    · show c'.inputData = _ → _
      intro he
      have hq : x.wire.drop m ++ x.conn.outputData = [] := by
        have := congrArg List.length g6
        rw [← he, List.length_append] at this
        exact List.eq_nil_of_length_eq_zero (by omega)
      have := g8 hq
      subst this
      exact g4.nil_inv.1
  · obtain ⟨k₀, js, js', is', rs', f1, f2, f3, f4, f5, f6, f7, f8, f9, f10, f11⟩ := h'.flow
    rw [e1] at f1
    cases f1
    refine ⟨⟨kc, js, js', is', rs', hkc, f2, f3, f4.trans w2.symm, f5, f6, ?_, f8, f9, f10, f11⟩⟩
    show x.conn.inputData ++ (y.wire ++ c'.outputData) = _
    have : c'.outputData = y.conn.outputData := by rw [g3.same]
    rw [this]
    exact f7

/-- the state of a conversation in which each end sent so many times -/
structure Talk (E E' : Env) (info : SuiteInfo) (a b : Party) (n n' : Nat) : Prop where
  left : Ready a.conn info n
  right : Ready b.conn info n'
  there : Half E' info a b
  back : Half E info b a

theorem Talk.swap {a b : Party} {n n' : Nat} (h : Talk E E' info a b n n') : Talk E' E info b a n' n :=
  ⟨h.right, h.left, h.back, h.there⟩

/-- a move that sends -/
def sends : Move → Nat
  | .send _ => 1
  | _ => 0

/-- every move leads to such a state -/
theorem Talk.play {a b : Party} {n n' : Nat} (W : Works E info lim) (hE : E'.aeadSeal = E.aeadSeal)
    (h : Talk E E' info a b n n') (m : Move) (hd : ∀ d, m = .send d → d.length ≤ 16366)
    (hn : n + sends m ≤ 10000000) :
    raised (m.play E a b).1 = false ∧
      Talk E E' info (m.play E a b).2.1 (m.play E a b).2.2 (n + sends m) n' := by
  obtain ⟨h1, h2, h3, h4⟩ := h
  cases m with
  | send d =>
    obtain ⟨c', k, wr, g1, g2, g3, g4, g5⟩ := h1.send W (by simp [sends] at hn; omega) (hd d rfl)
    simp only [Move.play, g1]
    exact ⟨rfl, g5, h2, h3.send W hE h1 (hd d rfl) g2 g3 g4, h4.send' g3 g4⟩
  | read =>
    refine ⟨rfl, ⟨h1.state, h1.mfl, h1.hs, h1.key⟩, h2, ?_, ?_⟩
    · exact ⟨h3.flow⟩
    · obtain ⟨k, ks, ks', is, rs, f1, f2, f3, f4, f5, f6, f7, f8, f9⟩ := h4.flow
      refine ⟨⟨k, ks, ks', is, rs, f1, f2, f3, f4, f5, f6, f7, ?_, f9⟩⟩
      show b.sent = (a.got ++ a.conn.applicationData) ++ [] ++ _
      rw [List.append_nil]
      exact f8
  | drain =>
    refine ⟨rfl, ⟨h1.state, h1.mfl, h1.hs, h1.key⟩, h2, ?_, ?_⟩
    · obtain ⟨k, ks, ks', is, rs, f1, f2, f3, f4, f5, f6, f7, f8⟩ := h3.flow
      refine ⟨⟨k, ks, ks', is, rs, f1, f2, f3, f4, f5, f6, ?_, f8⟩⟩
      show b.conn.inputData ++ ((a.wire ++ a.conn.outputData) ++ []) = _
      rw [List.append_nil]
      exact f7
    · exact ⟨h4.flow⟩
  | deliver m =>
    by_cases hw : b.wire.take m = []
    · simp only [Move.play, if_pos hw]
      exact ⟨rfl, h1, h2, h3, h4⟩
    · obtain ⟨c', g1, g2, g3, g4⟩ := h4.receive W h3 h1 (by simp [sends] at hn; omega) hw
      simp only [Move.play, if_neg hw, g1]
      exact ⟨rfl, g2, h2, g4, g3⟩

/-- how often a side sends -/
def sendsBy (side : Bool) (ms : List (Bool × Move)) : Nat :=
  (ms.filter fun m => m.1 == side && m.2 matches .send _).length

theorem sendsBy_cons (side side' : Bool) (m : Move) (ms : List (Bool × Move)) :
    sendsBy side ((side', m) :: ms) = (if side' = side then sends m else 0) + sendsBy side ms := by
  unfold sendsBy
  rw [List.filter_cons]
  cases side <;> cases side' <;> cases m <;> simp [sends] <;> omega

theorem Talk.run (W : Works E info lim) (W' : Works E' info lim) (hE : E'.aeadSeal = E.aeadSeal) :
    ∀ (ms : List (Bool × Move)) {a b : Party} {n n' : Nat}, Talk E E' info a b n n' →
      (∀ side d, (side, .send d) ∈ ms → d.length ≤ 16366) →
      n + sendsBy true ms ≤ 10000000 → n' + sendsBy false ms ≤ 10000000 →
      (∀ r ∈ (converse E E' ms a b).1, raised r = false) ∧
      ∃ m m', Talk E E' info (converse E E' ms a b).2.1 (converse E E' ms a b).2.2 m m'
  | [], _, _, _, _, h, _, _, _ => ⟨by simp [converse], _, _, h⟩
  | (true, m) :: ms, a, b, n, n', h, hd, hn, hn' => by
    rw [sendsBy_cons] at hn hn'
    simp only [if_true, Bool.true_eq_false, if_false] at hn hn'
    obtain ⟨h1, h2⟩ := h.play W hE m (fun d hm => hd true d (by simp [hm])) (by omega)
    obtain ⟨h3, h4⟩ := Talk.run W W' hE ms h2 (fun side d hm => hd side d (List.mem_cons_of_mem _ hm))
      (by omega) (by omega)
    refine ⟨fun r hr => ?_, h4⟩
    rcases List.mem_cons.mp hr with rfl | hr
    · exact h1
    · exact h3 r hr
  | (false, m) :: ms, a, b, n, n', h, hd, hn, hn' => by
    rw [sendsBy_cons] at hn hn'
    simp only [if_true, Bool.false_eq_true, if_false] at hn hn'
    obtain ⟨h1, h2⟩ := h.swap.play W' hE.symm m (fun d hm => hd false d (by simp [hm])) (by omega)
    obtain ⟨h3, h4⟩ := Talk.run W W' hE ms h2.swap (fun side d hm => hd side d (List.mem_cons_of_mem _ hm))
      (by omega) (by omega)
    refine ⟨fun r hr => ?_, h4⟩
    rcases List.mem_cons.mp hr with rfl | hr
    · exact h1
    · exact h3 r hr

/-- one direction of a session that was just established -/
theorem Half.start {c s : Conn} {x y : CipherSt} (hx : c.cipher = some x) (hy : s.cipher = some y)
    (hi : x.info = info) (hi' : y.info = info) (hw : x.wr = y.rd) (hk : x.wr.key ≠ none)
    (hs : suiteInfo info.id = some info) (ho : c.outputData = []) (hin : s.inputData = [])
    (happ : s.applicationData = []) : Half E info ⟨c, [], [], []⟩ ⟨s, [], [], []⟩ := by
  refine ⟨⟨x, x, x, [], [], hx, .nil _, hi, rfl, ?_, by simp, ?_, ?_, by simp, fun _ => rfl, hk⟩⟩
  · exact .inr ⟨x, y, rfl, hy, hi.trans hi'.symm, hw, hk, by rw [hi]; exact hs⟩
  · show s.inputData ++ ([] ++ c.outputData) = _
    rw [ho, hin]; rfl
  · show [] = [] ++ s.applicationData ++ _
    rw [happ]; rfl

theorem duplex {c s : Conn} {gc gs : Config} {k : Choice} (W : Works E info lim) (W' : Works E' info lim)
    (hE : E'.aeadSeal = E.aeadSeal) (hid : info.id = k.suite) (h : Established c s gc gs k)
    (hc : c.outputData = []) (hs : s.outputData = []) : Duplex E c E' s := by
  obtain ⟨x, y, h1, h2, h3, h4, h5, h6, h7, h8, h9, h10, h11, h12, h13⟩ := h.keys
  have hi : x.info = info := by
    have := W.suite
    rw [hid, ← h4, h5] at this
    exact Option.some.inj this
  have ready : ∀ {e : Conn} {z : CipherSt}, e.state = .connected → e.mfl = 16384 → e.inputHandshake = [] →
      e.cipher = some z → z.info = info → z.wr.key ≠ none → z.wr.iv ≠ none → z.wr.seq = some 0 →
      Ready e info 0 := by
    intro e z r1 r2 r3 r4 r5 r6 r7 r8
    obtain ⟨key, r6⟩ := Option.ne_none_iff_exists'.mp r6
    obtain ⟨iv, r7⟩ := Option.ne_none_iff_exists'.mp r7
    refine ⟨r1, r2, r3, ⟨z, key, iv, r4, r5, ?_⟩⟩
    rw [← r6, ← r7, ← r8]
  have T : Talk E E' info ⟨c, [], [], []⟩ ⟨s, [], [], []⟩ 0 0 :=
    ⟨ready h.states.1 h.limits.1 h.inputs.2.2.1 h1 hi h8 h10 h12,
      ready h.states.2 h.limits.2 h.inputs.2.2.2 h2 (h3 ▸ hi) h9 h11 h13,
      .start h1 h2 hi (h3 ▸ hi) h6 h8 W.suite hc h.inputs.2.1 h.app.2,
      .start h2 h1 (h3 ▸ hi) hi h7 h9 W.suite hs h.inputs.1 h.app.1⟩
  intro ms hms
  obtain ⟨r1, _, _, r2⟩ := T.run W W' hE ms hms.sizes (by have : sendsBy true ms < 10000000 := hms.count true; omega)
    (by have : sendsBy false ms < 10000000 := hms.count false; omega)
  exact ⟨r1, r2.left.state, r2.right.state, r2.there.delivers, r2.back.delivers⟩

end Siotls
