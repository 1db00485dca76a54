import Verif.Proofs.Hear
import Verif.Props.Record
import Verif.Props.Lifecycle
/-!
# C17: stream integrity against an active attacker
-/

namespace Siotls
open Spec

variable {E : Env}

theorem line_genuine {A : Line} {l m : List Ev} {info : SuiteInfo} {iv : Bytes} {n : Nat}
    {texts : List Bytes} (ht : Told info iv n m texts) (h12 : info.nonceLength = 12)
    (hiv : iv.length = 12) (hA : A.info = info ∧ A.iv = iv ∧ A.n₀ = n ∧ A.texts = texts)
    (h : ∀ suite key nonce aad inner, Ev.opened suite key nonce aad inner ∈ l →
      ∃ aad', Ev.sealed suite key nonce aad' inner ∈ m) : A.Genuine l := by
  obtain ⟨rfl, rfl, rfl, rfl⟩ := hA
  intro i aad x hi hm hle
  obtain ⟨aad', hs⟩ := h _ _ _ _ _ hm
  obtain ⟨j, hj, he, hx⟩ := ht.nonce _ _ _ _ _ hs
  rw [h12] at he
  have := nonce_inj hiv hi hj he
  rw [this, Nat.add_sub_cancel_left]
  exact hx

theorem isInner_padded (mfl tag : Nat) (f : Bytes) : IsInner (innerText mfl tag 23 f) 23 f :=
  ⟨23, padLength mfl f.length tag, by decide, rfl, rfl⟩

/-- what the receiver has, for a property kept by every program -/
theorem line_end {s s' r : Conn} {k k' : CipherSt} {key iv : Bytes} {n : Nat}
    {payloads : List Bytes} {ops : List Op} (hpost : r.state.isPostHandshake = true)
    (hk : r.cipher = some k) (hid : suiteInfo k.info.id = some k.info)
    (hrd : k.rd = ⟨some key, some iv, some n⟩) (hiv : iv.length = 12)
    (hs : s.cipher = some k') (hinfo : k'.info = k.info) (hwr : k'.wr = k.rd)
    (hg : s.mfl ∈ [512, 1024, 2048, 4096, 16384]) (h : SendsData E s payloads s')
    (hno : NoForgery r (runOps E ops r) s s') :
    ∃ (m : List Ev) (pieces : List Bytes), s'.tr = m ++ s.tr ∧
      List.Forall₂ (IsInner · 23 ·) (sealedTexts m) pieces ∧
      pieces.flatten = payloads.flatten ∧ ∃ A : Line, A.all = pieces ∧
        suiteInfo A.info.id = some A.info ∧ A.Holds r.tr A.some r ∧ A.Holds r.tr A.whole r ∧
        ∀ {F : Bool → Nat → List Bytes → Prop}, A.Holds r.tr F (runOps E ops r) →
          ∃ o n' got, F o n' got ∧ collected E .read ops r ++ (runOps E ops r).applicationData =
            r.applicationData ++ got.flatten := by
  obtain ⟨l, m, h1, h2, h3⟩ := hno
  obtain ⟨m', fs, g1, g2, g3⟩ := sends_told (by rw [hinfo]; exact hid) hs (hwr.trans hrd) hg h
  have : m = m' := List.append_cancel_right (h2.symm.trans g1)
  subst this
  rw [hinfo] at g3
  have hat : Line.At ⟨k.info, key, iv, n, fs.map (innerText s.mfl k.info.tagLength 23)⟩ r n :=
    ⟨hpost, by simp only [Conn.ear, hk, Option.map_some, hrd], le_refl _⟩
  have hup : Line.upTo ⟨k.info, key, iv, n, fs.map (innerText s.mfl k.info.tagLength 23)⟩ n = [] := by
    unfold Line.upTo
    simp
  refine ⟨m, fs, h2, ?_, g2, ⟨k.info, key, iv, n, fs.map (innerText s.mfl k.info.tagLength 23)⟩,
    frag23_padded _ _ _, hid, ⟨n, [], hat, rfl, fun _ => List.nil_sublist _⟩,
    ⟨n, [], hat, rfl, fun _ => ⟨List.nil_prefix, fun _ => hup.symm⟩⟩, ?_⟩
  · rw [g3.eq]
    clear g2 g3 hat hup
    induction fs with
    | nil => exact .nil
    | cons f fs ih => exact .cons (isInner_padded _ _ _) ih
  · rintro F ⟨n', l', _, k2, k3⟩
    have hl : l = l' := List.append_cancel_right (h1.symm.trans k2)
    subst hl
    obtain ⟨new, f1, _, f3⟩ := collected_flow (E := E) ops r
    have hl : new = l := List.append_cancel_right (f1.symm.trans h1)
    subst hl
    refine ⟨_, n', _, k3 (line_genuine g3 (suite_facts hid).2.1 hiv ⟨rfl, rfl, rfl, rfl⟩ h3), ?_⟩
    rw [f3, deliveredData_eq]

/-- Whatever the network delivers and whatever the receiver calls, and even if it goes on after
exceptions: what it hands over are whole records of the peer, unmodified, each at most once and in the
order they were sent. -/
theorem C17_subsequence {s s' r : Conn} {k k' : CipherSt} {key iv : Bytes} {n : Nat}
    {payloads : List Bytes} {ops : List Op} (hpost : r.state.isPostHandshake = true)
    (hk : r.cipher = some k) (hid : suiteInfo k.info.id = some k.info)
    (hrd : k.rd = ⟨some key, some iv, some n⟩) (hiv : iv.length = 12)
    (hs : s.cipher = some k') (hinfo : k'.info = k.info) (hwr : k'.wr = k.rd)
    (hg : s.mfl ∈ [512, 1024, 2048, 4096, 16384]) (h : SendsData E s payloads s')
    (hno : NoForgery r (runOps E ops r) s s') :
    ∃ (m : List Ev) (pieces got : List Bytes), s'.tr = m ++ s.tr ∧
      List.Forall₂ (IsInner · 23 ·) (sealedTexts m) pieces ∧
      pieces.flatten = payloads.flatten ∧ got.Sublist pieces ∧
      collected E .read ops r ++ (runOps E ops r).applicationData = r.applicationData ++ got.flatten := by
  obtain ⟨m, pieces, h1, h2, h3, A, rfl, h5, h6, _, h8⟩ :=
    line_end hpost hk hid hrd hiv hs hinfo hwr hg h hno
  obtain ⟨o, n', got, g1, g2⟩ := h8 ((hold_ops h5 ops).1 h6)
  exact ⟨m, _, got, h1, h2, h3, List.Sublist.trans g1 (A.upTo_prefix n').sublist, g2⟩

/-- Whatever the network delivers and whatever the receiver calls, as long as an exception of
`receive_data` leaves the connection closed (`is_connected` false): what it hands over is a prefix of
what the peer sent. -/
theorem C17_partial {s s' r : Conn} {k k' : CipherSt} {key iv : Bytes} {n : Nat}
    {payloads : List Bytes} {ops : List Op} (hpost : r.state.isPostHandshake = true)
    (hk : r.cipher = some k) (hid : suiteInfo k.info.id = some k.info)
    (hrd : k.rd = ⟨some key, some iv, some n⟩) (hiv : iv.length = 12)
    (hs : s.cipher = some k') (hinfo : k'.info = k.info) (hwr : k'.wr = k.rd)
    (hg : s.mfl ∈ [512, 1024, 2048, 4096, 16384]) (h : SendsData E s payloads s')
    (hno : NoForgery r (runOps E ops r) s s') (hup : GivesUp E ops r) :
    collected E .read ops r ++ (runOps E ops r).applicationData <+:
      r.applicationData ++ payloads.flatten := by
  obtain ⟨m, pieces, h1, h2, h3, A, rfl, h5, _, h7, h8⟩ :=
    line_end hpost hk hid hrd hiv hs hinfo hwr hg h hno
  obtain ⟨o, n', got, g1, g2⟩ := h8 ((hold_ops h5 ops).2 hup h7)
  rw [g2, ← h3]
  obtain ⟨rest, hr⟩ := g1.1
  rw [← hr, List.flatten_append]
  exact (List.prefix_append_right_inj _).mpr (List.prefix_append _ _)

namespace Toy

set_option maxRecDepth 1000000

/-- a record that is not of the server -/
def noise : Bytes := [23, 3, 3, 0, 17] ++ List.replicate 17 7

/-- the records in which the server sends `[1]`, then `[2]` -/
def first : Bytes := [23, 3, 3, 16, 0, 1, 23] ++ zeros 4092 ++ [88, 87]
def second : Bytes := [23, 3, 3, 16, 0, 2, 23] ++ zeros 4092 ++ [74, 145]

/-- the server sends `[1]` then `[2]` -/
def said : Conn := (sendData env [1] serverPair).2
def saidMore : Conn := (sendData env [2] said).2

/-- events added to a trace -/
def since (c c' : Conn) : List Ev := c'.tr.take (c'.tr.length - c.tr.length)

def noForgeryB (r r' s s' : Conn) : Bool :=
  decide (r'.tr = since r r' ++ r.tr) && decide (s'.tr = since s s' ++ s.tr) &&
  (since r r').all fun e => match e with
    | .opened su k n _ x => (since s s').any fun e' => match e' with
      | .sealed su' k' n' _ x' => decide (su = su' ∧ k = k' ∧ n = n' ∧ x = x')
      | _ => false
    | _ => true

theorem noForgery_of {r r' s s' : Conn} (h : noForgeryB r r' s s' = true) : NoForgery r r' s s' := by
  unfold noForgeryB at h
  simp only [Bool.and_eq_true, decide_eq_true_eq, List.all_eq_true] at h
  obtain ⟨⟨h1, h2⟩, h3⟩ := h
  refine ⟨_, _, h1, h2, ?_⟩
  intro su k n aad x hm
  have := h3 _ hm
  dsimp only at this
  rw [List.any_eq_true] at this
  obtain ⟨e, he, hx⟩ := this
  split at hx
  · obtain ⟨rfl, rfl, rfl, rfl⟩ := of_decide_eq_true hx
    exact ⟨_, he⟩
  · cases hx

/-- the reader of `r` and the writer of `s`, ready for use -/
def lineB (s r : Conn) : Bool := matchedB s r && match r.cipher with
  | some k => k.rd.key.isSome && k.rd.seq.isSome && decide (k.rd.iv.map List.length = some 12)
  | none => false

theorem line_of {s r : Conn} (h : lineB s r = true) : ∃ k k' key iv n, r.cipher = some k ∧
    suiteInfo k.info.id = some k.info ∧ k.rd = ⟨some key, some iv, some n⟩ ∧ iv.length = 12 ∧
    s.cipher = some k' ∧ k'.info = k.info ∧ k'.wr = k.rd := by
  unfold lineB at h
  rw [Bool.and_eq_true] at h
  obtain ⟨h1, h2⟩ := h
  unfold matchedB at h1
  split at h1
  · rename_i a b ha hb
    obtain ⟨g1, g2, g3, g4⟩ := of_decide_eq_true h1
    rw [hb] at h2
    simp only [Bool.and_eq_true, Option.isSome_iff_exists, decide_eq_true_eq,
      Option.map_eq_some_iff] at h2
    obtain ⟨⟨⟨key, h3⟩, n, h4⟩, iv, h5, h6⟩ := h2
    refine ⟨b, a, key, iv, n, hb, by rw [← g1]; exact g4, ?_, h6, ha, g1, g2⟩
    rcases hd : b.rd with ⟨x, y, z⟩
    rw [hd] at h3 h4 h5
    simp only at h3 h4 h5
    rw [h3, h4, h5]
  · cases h1

/-- the network brings the first record, then a forged one, then the second -/
def attack : List Op := [.receive first, .read, .receive noise, .receive second, .read]

theorem said_facts : isOk (sendData env [1] serverPair).1 = true ∧
    isOk (sendData env [2] said).1 = true ∧ lineB serverPair parting = true ∧
    serverPair.mfl = 16384 ∧ parting.applicationData = [] ∧
    (runOps env [.receive noise, .receive second] parting).applicationData = [2] ∧
    noForgeryB parting (runOps env [.receive noise, .receive second] parting) serverPair saidMore = true ∧
    lineB serverPair clientDone = true ∧ clientDone.applicationData = [] ∧
    noForgeryB clientDone (runOps env attack clientDone) serverPair saidMore = true ∧
    GivesUp env attack clientDone ∧ collected env .read attack clientDone = [1] ∧
    parting.state = .closed true false ∧ clientDone.state = .connected := by
  decide +kernel

theorem said_sends : SendsData env serverPair [[1], [2]] saidMore := by
  obtain ⟨h1, h2, _⟩ := said_facts
  refine .send ?_ (.send ?_ (.done _)) (c' := said)
  · unfold said; rcases hm : sendData env [1] serverPair with ⟨r, c⟩
    rw [hm] at h1
    cases r with
    | error e => cases h1
    | ok u => rfl
  · unfold saidMore; rcases hm : sendData env [2] said with ⟨r, c⟩
    rw [hm] at h2
    cases r with
    | error e => cases h2
    | ok u => rfl

end Toy

/-- The hypotheses of `C17_subsequence` and `C17_partial` are met by the two connected toys: the server
sends `[1]` and `[2]`, the network brings the first record, a forged one and the second record, the
client reads in between and gets `[1]`. -/
example : ∃ k k' key iv n, Toy.clientDone.state.isPostHandshake = true ∧
    Toy.clientDone.cipher = some k ∧ suiteInfo k.info.id = some k.info ∧
    k.rd = ⟨some key, some iv, some n⟩ ∧ iv.length = 12 ∧ Toy.serverPair.cipher = some k' ∧
    k'.info = k.info ∧ k'.wr = k.rd ∧ Toy.serverPair.mfl ∈ [512, 1024, 2048, 4096, 16384] ∧
    SendsData Toy.env Toy.serverPair [[1], [2]] Toy.saidMore ∧
    NoForgery Toy.clientDone (runOps Toy.env Toy.attack Toy.clientDone) Toy.serverPair Toy.saidMore ∧
    GivesUp Toy.env Toy.attack Toy.clientDone ∧
    collected Toy.env .read Toy.attack Toy.clientDone = [1] := by
  obtain ⟨_, _, _, h4, _, _, _, h8, h9, h10, h11, h12, _, h14⟩ := Toy.said_facts
  obtain ⟨k, k', key, iv, n, g1, g2, g3, g4, g5, g6, g7⟩ := Toy.line_of h8
  exact ⟨k, k', key, iv, n, by rw [h14]; rfl, g1, g2, g3, g4, g5, g6, g7, by rw [h4]; simp,
    Toy.said_sends, Toy.noForgery_of h10, h11, h12⟩

/-- The full claim is false: to a client that said goodbye but still receives, the network brings a
forged record in place of the first one of the server; `receive_data` raises, but the connection stays
open and hands over the second record. -/
theorem C17_false : ∃ (E : Env) (s s' r : Conn) (k k' : CipherSt) (payloads : List Bytes)
    (ops : List Op), E.Sized ∧
    (∃ config hostname ocsp algs random c₀ ops,
      Conn.new config hostname ocsp algs random = .ok c₀ ∧ s = runOps E ops c₀) ∧
    (∃ config hostname ocsp algs random c₀ ops,
      Conn.new config hostname ocsp algs random = .ok c₀ ∧ r = runOps E ops c₀) ∧
    r.state.isConnected = true ∧ r.cipher = some k ∧ s.cipher = some k' ∧ k'.info = k.info ∧
    k'.wr = k.rd ∧ SendsData E s payloads s' ∧ NoForgery r (runOps E ops r) s s' ∧
    ¬ collected E .read ops r ++ (runOps E ops r).applicationData <+:
      r.applicationData ++ payloads.flatten := by
  obtain ⟨_, _, h3, _, h5, h6, h7, _, _, _, _, _, h13, _⟩ := Toy.said_facts
  obtain ⟨k, k', key, iv, n, g1, g2, g3, g4, g5, g6, g7⟩ := Toy.line_of h3
  refine ⟨Toy.env, Toy.serverPair, Toy.saidMore, Toy.parting, k, k', [[1], [2]],
    [.receive Toy.noise, .receive Toy.second], Toy.sized,
    ⟨_, _, _, _, _, _, _, Toy.server0_new, rfl⟩,
    ⟨_, _, _, _, _, _, Toy.clientOps ++ [.drain, .closeSend], Toy.client0_new, ?_⟩, by rw [h13]; rfl,
    g1, g5, g6, g7, Toy.said_sends, Toy.noForgery_of h7, ?_⟩
  · rw [runOps_append, runOps, runOps, runOps, run_closeSend, Toy.parting, Toy.peaceful, runOps, runOps]
    rfl
  · rw [h5, h6, collected, if_neg (by simp), collected, if_neg (by simp), collected]
    decide


end Siotls
