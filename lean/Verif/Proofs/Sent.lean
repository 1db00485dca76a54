import Verif.Proofs.Encoding
import Verif.Proofs.Guarded
/-!
# The handshake messages sent are laid out as the RFC says
-/

namespace Siotls
open Serial Spec.Rfc

variable {E : Env} {G : Conn → Prop}

/-- a message sent was serialized; the random of a ServerHello is that of the connection, and only
a client sends a ClientHello -/
def WroteAt (E : Env) (s : Side) (random : Bytes) : Ev → List Ev → Prop
  | .sent (.handshake m), _ => (∃ data, serContent E (.handshake m) = .ok data) ∧
      (∀ r sid suite exts, m = .serverHello r sid suite exts → r = random) ∧
      ∀ r sid suites exts, m = .clientHello r sid suites exts → s = .client
  | _, _ => True

structure WroteInv (E : Env) (s : Side) (random : Bytes) (c : Conn) : Prop where
  side : SideInv s c
  unique : s = Side.server → c.serverUnique = some random
  trace : Trace (WroteAt E s random) c.tr

theorem Trace.unwritten {s : Side} {random : Bytes} {tr : List Ev} (h : Trace (WroteAt E s random) tr)
    (l : List Ev) (hl : ∀ e ∈ l, ∀ x, e ≠ .sent x) : Trace (WroteAt E s random) (l ++ tr) := by
  refine h.append fun l₁ e l₂ he => ?_
  have := hl e (by rw [he]; simp)
  cases e with
  | sent x => exact absurd rfl (this x)
  | _ => trivial

theorem WroteInv.step {s : Side} {random} {c c' : Conn} (h : WroteInv E s random c)
    (hs : Step E G c c') : WroteInv E s random c' := by
  refine ⟨h.side.step hs, ?_, ?_⟩
  · intro hv
    have h0 := h.unique hv
    cases hs with
    | serverUnique hst =>
      exfalso
      have := h.side.state .client (by rw [hst]; rfl)
      rw [hv] at this
      cases this
    | _ => exact h0
  · cases hs with
    | gotHandshake | gotOther | opened | sealed | received | delivered =>
      exact h.trace.unwritten [_] (by simp)
    | handshakeKeys | masterKeys =>
      exact h.trace.unwritten _ fun e he => (keyEvents_quiet _ _ _ e he).2
    | @hashSent hh data b =>
      cases b
      · exact h.trace
      · exact h.trace.unwritten [_] (by simp)
    | @receivedHs ct d x b =>
      cases b
      · exact h.trace.unwritten [_] (by simp)
      · exact h.trace.unwritten [_, _] (by simp)
    | @emit c₀ content records hctx hgd =>
      refine (h.trace.unwritten _ ?_).cons ?_
      · intro e he
        simp only [List.mem_reverse, List.mem_map] at he
        obtain ⟨r, _, rfl⟩ := he
        simp
      · cases content with
        | handshake m =>
          obtain ⟨data, hd, -⟩ := hctx.data
          have same := hctx.same
          have hst : ∀ x, c₀.state.side? = some x → x = s := by
            intro x hx
            refine h.side.state x ?_
            rw [same]
            exact hx
          refine ⟨⟨data, hd⟩, ?_, ?_⟩
          · rintro r sid suite exts rfl
            obtain ⟨f, _, _, _, _, _, _, _, hs, -, hu, -⟩ := hgd
            have := h.unique (hst .server (by rw [hs]; rfl)).symm
            rw [same] at this
            exact Option.some.inj (hu.symm.trans this)
          · rintro r sid suites exts rfl
            obtain ⟨cookie, _, _, _, _, _, _, hs, -⟩ := hgd
            exact (hst .client (by rw [hs]; rfl)).symm
        | _ => trivial
    | _ => exact h.trace

theorem WroteInv.api {s : Side} {random} {c c' : Conn} (h : WroteInv E s random c)
    (hs : Api E G c c') : WroteInv E s random c' := by
  have h1 := h.side.api hs
  cases hs with
  | step hs => exact h.step hs
  | closeRecv =>
    refine ⟨h1, ?_, ?_⟩ <;> obtain ⟨st, hs⟩ := closeReceivingEnd_same c <;> rw [hs]
    · exact h.unique
    · exact h.trace
  | _ => exact ⟨h1, h.unique, h.trace⟩

theorem WroteInv.run {config : Config} {hostname ocsp algs random} {c : Conn}
    (h : Conn.new config hostname ocsp algs random = .ok c) (ops : List Op) :
    WroteInv E config.side random (runOps E ops c) := by
  refine runOps_inv (fun c c' h hs => h.api hs) ?_ ops
  obtain ⟨_, _, _, _, _, _, _, _, htr, _, _, _, hside⟩ := Conn.new_fresh h
  refine ⟨SideInv.fresh h, ?_, ?_⟩
  · intro hv
    rcases hside with ⟨hc, -⟩ | ⟨-, -, -, hu⟩
    · rw [hv] at hc; cases hc
    · exact hu
  · rw [htr]
    exact .nil

/-- an extension that a connection sends: no pre-shared key, and the name that it was given -/
def Ours (hostname : Option PyStr) (e : Ext) : Prop :=
  (∀ ids bs, e ≠ .pskReq ids bs) ∧ ∀ h, e = .serverNameReq (some h) → hostname = some h

theorem ours_client {c : Conn} {cookie g share} {e : Ext}
    (h : e ∈ clientExtensions E c cookie ++ [.keyShareReq [(g, share)]]) : Ours c.hostname e := by
  unfold clientExtensions at h
  simp only [List.mem_append, List.mem_cons, List.not_mem_nil, or_false] at h
  unfold Ours
  rcases h with ((((((((rfl | rfl | rfl | rfl) | h) | h) | h) | h) | h) | h) | rfl)
  all_goals try (constructor <;> simp; done)
  · cases hn : c.hostname with
    | none => rw [hn] at h; cases h
    | some n =>
      rw [hn] at h
      dsimp only at h
      split at h
      · cases h
      · simp only [List.mem_cons, List.not_mem_nil, or_false] at h
        subst h
        exact ⟨by simp, by simp⟩
  all_goals
    split at h
    · first
        | (cases h; done)
        | (simp only [List.mem_cons, List.not_mem_nil, or_false] at h
           subst h
           exact ⟨by simp, by simp⟩)
        | (split at h
           · cases h
           · simp only [List.mem_cons, List.not_mem_nil, or_false] at h
             subst h
             exact ⟨by simp, by simp⟩)
    · first
        | (cases h; done)
        | (simp only [List.mem_cons, List.not_mem_nil, or_false] at h
           subst h
           exact ⟨by simp, by simp⟩)

theorem ours_clear {c c₂ : Conn} {exts clear enc shared hostname} {e : Ext}
    (h : serverNegotiate E exts c = (.ok (clear, enc, shared), c₂)) (he : e ∈ clear) :
    Ours hostname e := by
  obtain ⟨g, nc, s, ks, -, -, -, -, -, hk, rfl, -⟩ := (serverNegotiate_ok h).same
  simp only [List.mem_cons, List.not_mem_nil, or_false] at he
  rcases he with rfl | rfl
  · exact ⟨by simp, by simp⟩
  · cases hk <;> exact ⟨by simp, by simp⟩

theorem ours_enc {c c₂ : Conn} {exts clear enc shared hostname} {e : Ext}
    (h : serverNegotiate E exts c = (.ok (clear, enc, some shared), c₂)) (he : e ∈ enc) :
    Ours hostname e := by
  obtain ⟨g, nc, s, ks, -, -, -, -, -, -, -, hn⟩ := (serverNegotiate_ok h).same
  obtain ⟨e1, e2, e3, e4, e5, rfl, h1, h2, h3, h4, h5⟩ := (hn rfl).parts
  simp only [List.mem_append] at he
  rcases he with he | he | he | he | he
  · rcases h1 with ⟨-, rfl⟩ | ⟨-, -, _, -, -, rfl⟩ | ⟨-, _, _, -, -, -, rfl⟩
    · cases he
    · cases he
    · simp only [List.mem_cons, List.not_mem_nil, or_false] at he; subst he; exact ⟨by simp, by simp⟩
  · rcases h2 with ⟨-, _, -, -, rfl⟩ | ⟨_, _, -, -, -, rfl⟩
    · cases he
    · simp only [List.mem_cons, List.not_mem_nil, or_false] at he; subst he; exact ⟨by simp, by simp⟩
  · rcases h3 with ⟨-, -, rfl⟩ | ⟨_, -, -, rfl⟩
    · cases he
    · simp only [List.mem_cons, List.not_mem_nil, or_false] at he; subst he; exact ⟨by simp, by simp⟩
  · rcases h4 with ⟨-, -, rfl⟩ | ⟨_, _, -, -, -, rfl⟩
    · cases he
    · simp only [List.mem_cons, List.not_mem_nil, or_false] at he; subst he; exact ⟨by simp, by simp⟩
  · rcases h5 with ⟨-, -, -, rfl⟩ | ⟨_, -, -, -, rfl⟩
    · cases he
    · simp only [List.mem_cons, List.not_mem_nil, or_false] at he; subst he; exact ⟨by simp, by simp⟩

/-- the extensions of a message sent -/
theorem HsGuard.ours {c : Conn} {m : Handshake} {hostname : Option PyStr} (h : HsGuard E c m)
    (hn : ∀ r sid suites exts, m = .clientHello r sid suites exts → c.hostname = hostname) :
    ∀ e ∈ extensionsOf m, Ours hostname e := by
  intro e he
  cases m with
  | clientHello r sid suites exts =>
    obtain ⟨cookie, g, gs, random, d, priv, share, -, -, -, -, -, hm⟩ := h
    have := mkClientHello_form hm
    cases this
    rw [← hn _ _ _ _ rfl]
    exact ours_client ((dictOfExts_spec _).2.2 e he)
  | serverHello r sid suite exts =>
    obtain ⟨f, _, _, _, clear, enc, shared, k, -, -, -, -, -, ⟨c₁, c₂, -, hneg, -⟩, rfl, -⟩ := h
    exact ours_clear hneg ((dictOfExts_spec _).2.2 e he)
  | helloRetryRequest r sid suite exts =>
    obtain ⟨_, _, _, clear, k, -, -, -, -, -, ⟨c₁, c₂, hneg, -⟩, rfl, -⟩ := h
    exact ours_clear hneg ((dictOfExts_spec _).2.2 e he)
  | encryptedExtensions exts =>
    obtain ⟨f, _, _, _, _, clear, enc, shared, -, -, ⟨c₁, c₂, -, hneg, -⟩, rfl, -⟩ := h
    exact ours_enc hneg ((dictOfExts_spec _).2.2 e he)
  | certificateRequest ctx exts =>
    obtain ⟨f, -, -, -, rfl⟩ := h
    simp only [extensionsOf, List.mem_cons, List.not_mem_nil, or_false] at he
    subst he
    exact ⟨by simp, by simp⟩
  | certificate ctx entries =>
    obtain ⟨f, -, -, _, _, _, _, _, _, _, nc, -, -, -, hen⟩ := h
    simp only [extensionsOf, List.mem_flatMap] at he
    obtain ⟨x, hx, he⟩ := he
    cases hen with
    | raw =>
      simp only [List.mem_cons, List.not_mem_nil, or_false] at hx
      subst hx
      cases he
    | plain =>
      obtain ⟨y, -, rfl⟩ := List.mem_map.mp hx
      cases he
    | stapled =>
      rcases List.mem_cons.mp hx with rfl | hx
      · simp only [List.mem_cons, List.not_mem_nil, or_false] at he
        subst he
        exact ⟨by simp, by simp⟩
      · obtain ⟨y, -, rfl⟩ := List.mem_map.mp hx
        cases he
  | certificateVerify | finished => cases he

/-- each extension of a message serialized was -/
theorem concatMapM_mem {α : Type} {f : α → Except Exn Bytes} : ∀ {l : List α} {out : Bytes},
    concatMapM f l = .ok out → ∀ x ∈ l, ∃ b, f x = .ok b := by
  intro l
  induction l with
  | nil => intro _ _ x hx; cases hx
  | cons y l ih =>
    intro out h x hx
    obtain ⟨a, b, h1, h2, -⟩ := concatMapM_cons_ok.mp h
    rcases List.mem_cons.mp hx with rfl | hx
    · exact ⟨a, h1⟩
    · exact ih h2 x hx

theorem serExtList_mem {exts : List Ext} {out : Bytes} (h : serExtList E exts = .ok out) :
    ∀ e ∈ exts, ∃ b, serExt E e = .ok b := by
  obtain ⟨b, h1, -⟩ := Except.bind_eq_ok.mp h
  exact concatMapM_mem h1

theorem serContent_mem {m : Handshake} {out : Bytes} (h : serContent E (.handshake m) = .ok out) :
    ∀ e ∈ extensionsOf m, ∃ b, serExt E e = .ok b := by
  obtain ⟨body, h, -⟩ := Except.bind_eq_ok.mp (show serHandshake E m = .ok out from h)
  intro e he
  cases m with
  | encryptedExtensions => exact serExtList_mem h e he
  | certificate ctx entries =>
    obtain ⟨b, h1, -⟩ := Except.bind_eq_ok.mp h
    simp only [extensionsOf, List.mem_flatMap] at he
    obtain ⟨x, hx, he⟩ := he
    obtain ⟨y, h2⟩ := concatMapM_mem h1 x hx
    cases x <;>
    · obtain ⟨z, h3, -⟩ := Except.bind_eq_ok.mp h2
      exact serExtList_mem h3 e he
  | certificateVerify | finished => cases he
  | _ =>
    obtain ⟨b, h1, -⟩ := Except.bind_eq_ok.mp h
    exact serExtList_mem h1 e he

/-- an extension that was written is none of those that the library writes wrongly -/
theorem Ours.works {hostname : Option PyStr} {e : Ext} (h : Ours hostname e) {b : Bytes}
    (hs : serExt E e = .ok b) : Spec.knownBroken e = false := by
  cases e <;> first | rfl | (cases hs; done) | exact absurd rfl (h.1 _ _)

theorem Ours.ascii {hostname : Option PyStr} {e : Ext} (h : Ours hostname e)
    (hn : ∀ n enc, hostname = some n → E.idnaEncode n = .ok enc → enc.length = n.length) :
    Spec.asciiLike E e := by
  cases e with
  | serverNameReq o =>
    cases o with
    | none => trivial
    | some n => exact fun enc he => hn n enc (h.2 n rfl) he
  | _ => trivial

/-- the randoms of the messages sent -/
theorem HsGuard.random {c : Conn} {m : Handshake} (h : HsGuard E c m)
    (hr : ∀ r sid suite exts, m = .serverHello r sid suite exts → r.length = 32) :
    RightRandom m := by
  cases m with
  | clientHello r sid suites exts =>
    obtain ⟨cookie, g, gs, random, d, priv, share, -, -, -, -, -, hm⟩ := h
    obtain ⟨he, hl, -⟩ := mkClientHello_ok hm
    cases he
    exact hl
  | serverHello r sid suite exts => exact hr r sid suite exts rfl
  | helloRetryRequest r sid suite exts =>
    obtain ⟨_, _, _, clear, k, -, rfl, -⟩ := h
    rfl
  | _ => trivial

end Siotls
