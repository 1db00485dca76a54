import Verif.Proofs.NegClient
/-!
# What the code knew when it sent a handshake message
-/

namespace Siotls

variable {E : Env} {G : Conn → Prop}

/-- the guard of the message `m` sent after `pre`, on a connection for `config` -/
def SentAt (E : Env) (config : Config) (hostname : Option PyStr) (ocsp : Bool) :
    Ev → List Ev → Prop
  | .sent (.handshake m), pre => ∃ c₀ : Conn, HsGuard E c₀ m ∧ CfgInv config hostname c₀ ∧
      c₀.hasOcsp = ocsp ∧ lastRecv c₀.tr = lastRecv pre
  | _, _ => True

structure GuardInv (E : Env) (config : Config) (hostname : Option PyStr) (ocsp : Bool) (c : Conn) :
    Prop where
  side : SideInv config.side c
  cfg : CfgInv config hostname c
  status : c.hasOcsp = ocsp
  trace : Trace (SentAt E config hostname ocsp) c.tr

theorem Trace.unsentAt {config hostname ocsp} {tr : List Ev}
    (h : Trace (SentAt E config hostname ocsp) tr) (l : List Ev) (hl : ∀ e ∈ l, ∀ x, e ≠ .sent x) :
    Trace (SentAt E config hostname ocsp) (l ++ tr) := by
  refine h.append fun l₁ e l₂ he => ?_
  have := hl e (by rw [he]; simp)
  cases e with
  | sent x => exact absurd rfl (this x)
  | _ => trivial

theorem GuardInv.step {config hostname ocsp} {c c' : Conn} (h : GuardInv E config hostname ocsp c)
    (hs : Step E G c c') : GuardInv E config hostname ocsp c' := by
  refine ⟨h.side.step hs, h.cfg.step hs h.side, hs.ocsp.trans h.status, ?_⟩
  cases hs with
  | gotHandshake | gotOther | opened | sealed | received | delivered =>
    exact h.trace.unsentAt [_] (by simp)
  | handshakeKeys | masterKeys =>
    exact h.trace.unsentAt _ fun e he => (keyEvents_quiet _ _ _ e he).2
  | @hashSent hh data b =>
    cases b
    · exact h.trace
    · exact h.trace.unsentAt [_] (by simp)
  | @receivedHs ct d x b =>
    cases b
    · exact h.trace.unsentAt [_] (by simp)
    · exact h.trace.unsentAt [_, _] (by simp)
  | @emit c₀ content records hctx hgd =>
    obtain ⟨l, hsd⟩ := hctx.sending
    have hrec : ∀ e ∈ (records.map fun r => Ev.record r.1 r.2.1).reverse,
        (∀ x, e ≠ .recv x) ∧ ∀ x, e ≠ .sent x := by
      intro e he
      simp only [List.mem_reverse, List.mem_map] at he
      obtain ⟨r, _, rfl⟩ := he
      simp
    refine (h.trace.unsentAt _ fun e he => (hrec e he).2).cons ?_
    cases content with
    | handshake m =>
      have same := hctx.same
      refine ⟨c₀, hgd, ⟨?_, ?_⟩, ?_, ?_⟩
      · rw [← hsd.config]; exact h.cfg.same
      · intro hc
        rw [← hsd.config]
        refine ⟨(h.cfg.client hc).1, ?_⟩
        have := (h.cfg.client hc).2
        rw [same] at this
        exact this
      · rw [← h.status, same]
      · rw [lastRecv_append fun e he => (hrec e he).1, hsd.back]
    | _ => trivial
  | _ => exact h.trace

theorem GuardInv.api {config hostname ocsp} {c c' : Conn} (h : GuardInv E config hostname ocsp c)
    (hs : Api E G c c') : GuardInv E config hostname ocsp c' := by
  have h1 := h.side.api hs
  have h2 := h.cfg.api hs h.side
  cases hs with
  | step hs => exact h.step hs
  | closeRecv =>
    refine ⟨h1, h2, ?_, ?_⟩ <;> obtain ⟨s, hs⟩ := closeReceivingEnd_same c <;> rw [hs]
    · exact h.status
    · exact h.trace
  | _ => exact ⟨h1, h2, h.status, h.trace⟩

theorem GuardInv.run {config : Config} {hostname ocsp algs random} {c : Conn}
    (h : Conn.new config hostname ocsp algs random = .ok c) (ops : List Op) :
    GuardInv E config hostname ocsp (runOps E ops c) := by
  refine runOps_inv (fun c c' h hs => h.api hs) ?_ ops
  refine ⟨SideInv.fresh h, CfgInv.fresh h, Conn.new_ocsp h, ?_⟩
  obtain ⟨_, _, _, _, _, _, _, _, htr, _⟩ := Conn.new_fresh h
  rw [htr]
  exact .nil

theorem GuardInv.at {config : Config} {hostname ocsp algs random} {c : Conn}
    (h : Conn.new config hostname ocsp algs random = .ok c) (ops : List Op) {post pre : List Ev}
    {m : Handshake} (ht : (runOps E ops c).tr = post ++ .sent (.handshake m) :: pre) :
    ∃ c₀ : Conn, HsGuard E c₀ m ∧ CfgInv config hostname c₀ ∧ c₀.hasOcsp = ocsp ∧
      lastRecv c₀.tr = lastRecv pre :=
  (GuardInv.run (E := E) h ops).trace (.sent (.handshake m)) pre (by rw [ht]; exact List.suffix_append _ _)

end Siotls
