import Verif.Model.Main
import Verif.Props.Auth
import Verif.Props.Deploy
import Verif.Props.KeyLog
import Verif.Props.Wrapper
/-!
# The command: C100, C101
-/

namespace Siotls
open Spec

variable {E : Env} {S : Sock}

/-! ## C100 -/

theorem command_silent (o : Options) (store key : Bytes) (chain : List Bytes) :
    (commandConfig o store key chain).logKeys = false := by
  unfold commandConfig
  split <;> rfl

/-- C100, full statement: with `--keylogfile`, the secrets of a connection of the command that is connected
were given to the key logger. False of the code: `C100_false`. -/
def C100_statement : Prop :=
  ∀ (E : Env) (o : Options) (path : PyStr) (store key : Bytes) (chain : List Bytes) (host : Option PyStr)
    (algs : List HashAlg) (random : Bytes) (c : Conn) (ops : List Op), o.keylogfile = some path →
    Conn.new (commandConfig o store key chain) host true algs random = .ok c →
    (runOps E ops c).state = .connected →
    ∃ line label client secret, Ev.logged line ∈ (runOps E ops c).tr ∧ readKeyLine line = some (label, client, secret)

/-- C100. Whatever the options, the key, the chain, the peer, the library and the program that uses the
connection, directly or through a wrapped socket: a connection of the command gives the key logger nothing. -/
theorem C100_nothing (o : Options) (store key : Bytes) (chain : List Bytes) {host : Option PyStr} {ocsp : Bool}
    {algs : List HashAlg} {random : Bytes} {c : Conn}
    (h : Conn.new (commandConfig o store key chain) host ocsp algs random = .ok c) (line : PyStr) :
    (∀ ops, Ev.logged line ∉ (runOps E ops c).tr) ∧
    (∀ calls, Ev.logged line ∉ (runCalls E S calls (.new c)).conn.tr) := by
  have h1 : ∀ ops, Ev.logged line ∉ (runOps E ops c).tr :=
    fun ops => C76_silent h (command_silent o store key chain) ops line
  refine ⟨h1, fun calls => ?_⟩
  have h2 : Flushed E c (runCalls E S calls (.new c)) :=
    (pieces_flushed h).runCalls calls ⟨⟨[], rfl⟩, (Conn.new_fresh h).2.2.2.2.2.2.1⟩
  obtain ⟨ops, h3⟩ := h2.1
  rw [h3]
  exact h1 ops

namespace Toy

/-- `client --keylogfile keys --host a` -/
def logger : Options := { side := .client, keylogfile := some ['k', 'e', 'y', 's'], host := ['a'] }

/-- the connections that the command makes at both ends -/
def command0 : Conn := match Conn.new (commandConfig logger [1, 2, 3] [] []) (some ['a']) true
    [.sha256, .sha384] (List.replicate 32 5) with
  | .ok c => c
  | .error _ => client0
def commandServer0 : Conn :=
  match Conn.new (commandConfig { logger with side := .server } [] (stapler.privateKey.getD []) [[1, 2, 3], [9]])
    none true [.sha256, .sha384] (List.replicate 32 6) with
  | .ok c => c
  | .error _ => server0
def command1 : Conn := (Op.initiate.run responder command0).2
def commandServer1 : Conn :=
  ((Op.receive command1.outputData).run responder (Op.initiate.run responder commandServer0).2).2

set_option maxRecDepth 1000000 in
theorem command_connects :
    (runOps responder [.initiate, .receive commandServer1.outputData] command0).state = .connected := by decide +kernel

theorem command0_new : Conn.new (commandConfig logger [1, 2, 3] [] []) (some ['a']) true [.sha256, .sha384]
    (List.replicate 32 5) = .ok command0 := rfl

end Toy

/-- C100 is false of the code: the toy command is connected with its keys logged nowhere. -/
theorem C100_false : ¬ C100_statement := by
  intro h
  obtain ⟨line, -, -, -, h1, -⟩ := h Toy.responder Toy.logger _ [1, 2, 3] [] [] _ _ _ _ _ rfl Toy.command0_new
    Toy.command_connects
  exact (C100_nothing (S := Toy.deadSock) Toy.logger [1, 2, 3] [] [] Toy.command0_new line).1 _ h1

/-! ## C101 -/

/-- `main` gives `--keylogfile` a handler: there is none to open, or it is `-`, or the file opens -/
def Spec.LogOpens (W : System) (o : Options) : Prop :=
  ∀ p, o.keylogfile = some p → pathName p ≠ ['-'] → W.writable p = true

/-- the files that were named can be read -/
def Spec.FilesRead (W : System) (o : Options) : Prop :=
  (∀ p, o.tlscert = some p → W.readable p = true) ∧ ∀ p, o.tlskey = some p → W.readable p = true

/-- what the user asked for was run, and ended so -/
inductive Spec.RanTo (W : System) (o : Options) : Outcome → Prop
  | server (cert key : PyStr) : o.side = .server → o.tlscert = some cert → o.tlskey = some key →
    RanTo W o (W.serve o.host o.port cert key)
  | client : o.side = .client → RanTo W o (W.connect o.host o.port (!o.insecure))

/-- `main` ran a side -/
def Spec.Runs (ds : List Doing) : Prop :=
  ∃ d ∈ ds, (∃ h p c k, d = .serve h p c k) ∨ ∃ h p k, d = .connect h p k

theorem main_logged {W : System} {o : Options} (h : LogOpens W o) :
    (main W o).2 = (checkFiles W o).2 ∧ (Runs (main W o).1 ↔ Runs (checkFiles W o).1) := by
  unfold main
  cases hk : o.keylogfile with
  | none => exact ⟨rfl, Iff.rfl⟩
  | some p =>
    dsimp only
    unfold keysTo
    by_cases hd : pathName p = ['-']
    · rw [if_pos hd]
      refine ⟨rfl, ?_⟩
      simp [Runs]
    · rw [if_neg hd]
      dsimp only
      rw [if_pos (h p hk hd)]
      refine ⟨rfl, ?_⟩
      simp [Runs]

theorem main_not_logged {W : System} {o : Options} (h : ¬ LogOpens W o) : main W o = ([], .escapes) := by
  unfold LogOpens at h
  simp only [Classical.not_forall] at h
  obtain ⟨p, hk, hd, hw⟩ := h
  unfold main
  rw [hk]
  dsimp only
  unfold keysTo
  rw [if_neg hd]
  dsimp only
  rw [if_neg hw]

theorem check_read {W : System} {o : Options} (h : FilesRead W o) : checkFiles W o = runSide W o := by
  unfold checkFiles
  rw [if_neg, if_neg]
  · rintro ⟨p, hp, hr⟩
    rw [h.2 p hp] at hr
    cases hr
  · rintro ⟨p, hp, hr⟩
    rw [h.1 p hp] at hr
    cases hr

theorem check_unread {W : System} {o : Options} (h : ¬ FilesRead W o) :
    (checkFiles W o).2 = .exit 1 ∧ ¬ Runs (checkFiles W o).1 := by
  unfold checkFiles
  by_cases h1 : ∃ p ∈ o.tlscert, W.readable p = false
  · rw [if_pos h1]
    exact ⟨rfl, by simp [Runs]⟩
  · rw [if_neg h1]
    by_cases h2 : ∃ p ∈ o.tlskey, W.readable p = false
    · rw [if_pos h2]
      exact ⟨rfl, by simp [Runs]⟩
    · refine absurd ⟨fun p hp => ?_, fun p hp => ?_⟩ h
      · cases hr : W.readable p with
        | true => rfl
        | false => exact absurd ⟨p, hp, hr⟩ h1
      · cases hr : W.readable p with
        | true => rfl
        | false => exact absurd ⟨p, hp, hr⟩ h2

theorem runSide_ran {W : System} {o : Options} :
    (∀ e, RanTo W o e → (runSide W o).2 = e.finish ∧ Runs (runSide W o).1) ∧
    ((∀ e, ¬ RanTo W o e) → runSide W o = ([], .exit 1)) := by
  refine ⟨fun e h => ?_, fun h => ?_⟩
  · cases h with
    | server cert key h1 h2 h3 =>
      unfold runSide
      rw [h1, h2, h3]
      exact ⟨rfl, _, List.mem_cons_self, .inl ⟨_, _, _, _, rfl⟩⟩
    | client h1 =>
      unfold runSide
      rw [h1]
      exact ⟨rfl, _, List.mem_cons_self, .inr ⟨_, _, _, rfl⟩⟩
  · unfold runSide
    cases hs : o.side with
    | client => exact absurd (.client hs) (h _)
    | server =>
      dsimp only
      cases hc : o.tlscert with
      | none => rfl
      | some c =>
        cases hk : o.tlskey with
        | none => rfl
        | some k => exact absurd (.server c k hs hc hk) (h _)

/-- C101. The command exits with 0 exactly when the side that was asked for was run and returned. -/
theorem C101_status (W : System) (o : Options) :
    (main W o).2 = .exit 0 ↔ LogOpens W o ∧ FilesRead W o ∧ RanTo W o .returned := by
  by_cases h1 : LogOpens W o
  · rw [(main_logged h1).1]
    by_cases h2 : FilesRead W o
    · rw [check_read h2]
      constructor
      · intro h
        by_cases h3 : ∃ e, RanTo W o e
        · obtain ⟨e, h3⟩ := h3
          rw [(runSide_ran.1 e h3).1] at h
          cases e <;> first | exact ⟨h1, h2, h3⟩ | cases h
        · rw [runSide_ran.2 fun e he => h3 ⟨e, he⟩] at h
          cases h
      · rintro ⟨-, -, h3⟩
        exact (runSide_ran.1 _ h3).1
    · rw [(check_unread h2).1]
      exact ⟨fun h => (by cases h), fun h => absurd h.2.1 h2⟩
  · rw [main_not_logged h1]
    exact ⟨fun h => (by cases h), fun h => absurd h.1 h1⟩

/-- C101. Otherwise it exits with 1, unless the key log file does not open or the side was interrupted: then
the exception leaves `main`. -/
theorem C101_failure (W : System) (o : Options) :
    ((main W o).2 = .escapes ↔ ¬ LogOpens W o ∨ FilesRead W o ∧ RanTo W o .interrupt) ∧
    ((main W o).2 ≠ .exit 0 → (main W o).2 ≠ .escapes → (main W o).2 = .exit 1) := by
  by_cases h1 : LogOpens W o
  · rw [(main_logged h1).1]
    by_cases h2 : FilesRead W o
    · rw [check_read h2]
      by_cases h3 : ∃ e, RanTo W o e
      · obtain ⟨e, h3⟩ := h3
        rw [(runSide_ran.1 e h3).1]
        have huniq : ∀ e', RanTo W o e' → e' = e := by
          intro e' h4
          cases h3 with
          | server c k a1 a2 a3 =>
            cases h4 with
            | server c' k' b1 b2 b3 =>
              rw [a2] at b2; rw [a3] at b3; cases b2; cases b3; rfl
            | client b1 => rw [a1] at b1; cases b1
          | client a1 =>
            cases h4 with
            | server c' k' b1 b2 b3 => rw [a1] at b1; cases b1
            | client b1 => rfl
        refine ⟨⟨fun h => .inr ⟨h2, ?_⟩, ?_⟩, ?_⟩
        · cases e <;> first | exact h3 | cases h
        · rintro (h | ⟨-, h⟩)
          · exact absurd h1 h
          · rw [← huniq _ h]; rfl
        · cases e <;> simp [Outcome.finish]
      · rw [runSide_ran.2 fun e he => h3 ⟨e, he⟩]
        refine ⟨⟨fun h => (by cases h), ?_⟩, fun _ _ => rfl⟩
        rintro (h | ⟨-, h⟩)
        · exact absurd h1 h
        · exact absurd ⟨_, h⟩ h3
    · rw [(check_unread h2).1]
      refine ⟨⟨fun h => (by cases h), ?_⟩, fun _ _ => rfl⟩
      rintro (h | ⟨h, -⟩)
      · exact absurd h1 h
      · exact absurd h h2
  · rw [main_not_logged h1]
    exact ⟨⟨fun _ => .inl h1, fun _ => rfl⟩, fun _ h => absurd rfl h⟩

/-- C101. Nothing is run unless the files that were named can be read, and no server without a certificate
and a key. -/
theorem C101_nothing (W : System) (o : Options)
    (h : ¬ FilesRead W o ∨ o.side = .server ∧ (o.tlscert = none ∨ o.tlskey = none)) : ¬ Runs (main W o).1 := by
  by_cases h1 : LogOpens W o
  · rw [(main_logged h1).2]
    by_cases h2 : FilesRead W o
    · rw [check_read h2, runSide_ran.2]
      · simp [Runs]
      · intro e he
        rcases h with h | ⟨ha, hb⟩
        · exact h h2
        · cases he with
          | server c k b1 b2 b3 => rw [b2, b3] at hb; simp at hb
          | client b1 => rw [ha] at b1; cases b1
    · exact (check_unread h2).2
  · rw [main_not_logged h1]
    simp [Runs]

/-- C101. The page is printed unless the user asked for silence more often than for words. -/
theorem C101_prints (o : Options) : printsPage o = true ↔ o.silent ≤ o.verbose := by
  rw [printsPage, decide_eq_true_iff, verbosity, Int.max_le]
  omega

/-- C101. Without `--insecure`, a client of the command is connected only to a server that it authenticated
against the trust store of the system, as C20 says, for the host of the command line. -/
theorem C101_authenticated (hE : E.Sized) {o : Options} {store key : Bytes} {chain : List Bytes}
    {algs : List HashAlg} {random : Bytes} {c : Conn} (hside : o.side = .client) (hsec : o.insecure = false)
    (h : Conn.new (commandConfig o store key chain) (some o.host) true algs random = .ok c) (ops : List Op)
    (hst : (runOps E ops c).state = .connected) :
    ∃ k, (runOps E ops c).cipher = some k ∧ ServerAuthenticated E (CoversSince E) k.info.digest
      (commandConfig o store key chain) (some o.host) true store (runOps E ops c).tr := by
  have hc : commandConfig o store key chain = exampleClient (some store) := by
    unfold commandConfig
    rw [hside, hsec]
    rfl
  exact C20_authenticated hE h (by rw [hc]; rfl) (by rw [hc]; rfl) ops hst

/-- The hypotheses are met by the toy command. -/
example : Toy.responder.Sized ∧ Toy.logger.side = .client ∧ Toy.logger.insecure = false ∧
    Conn.new (commandConfig Toy.logger [1, 2, 3] [] []) (some Toy.logger.host) true [.sha256, .sha384]
      (List.replicate 32 5) = .ok Toy.command0 ∧
    (runOps Toy.responder [.initiate, .receive Toy.commandServer1.outputData] Toy.command0).state = .connected :=
  ⟨Toy.deployedLibrary.sized, rfl, rfl, Toy.command0_new, Toy.command_connects⟩

/-- C101, files in messages: a message about a file that cannot be read names that file. False of the code
for the key: `C101_names_false`. -/
def C101_names_statement : Prop :=
  ∀ (W : System) (o : Options) (p : Option PyStr),
    (.noCert p ∈ (main W o).1 → p = o.tlscert) ∧ (.noKey p ∈ (main W o).1 → p = o.tlskey)

theorem C101_names_false : ¬ C101_names_statement := by
  intro h
  have := (h ⟨fun p => p = ['c'], fun _ => true, fun _ _ _ _ => .returned, fun _ _ _ => .returned⟩
    { side := .server, tlscert := some ['c'], tlskey := some ['k'] } (some ['c'])).2 (by decide)
  cases this

/-- C101, key log: secrets go to standard error only for `-`. False of the code, for a file of that name in a
directory. -/
def C101_dash_statement : Prop :=
  ∀ (W : System) (o : Options), Doing.keysToStderr ∈ (main W o).1 → o.keylogfile = some ['-']

theorem C101_dash_false : ¬ C101_dash_statement := by
  intro h
  have := h ⟨fun _ => true, fun _ => true, fun _ _ _ _ => .returned, fun _ _ _ => .returned⟩
    { side := .client, keylogfile := some ['d', '/', '-'] } (by decide)
  cases this

/-! ### The accept loop -/

/-- C101. Clients that do not interrupt the server do not matter to the others, however their visits end: each
is accepted, handled and closed before the next one, and the loop goes on with what comes next. -/
theorem C101_serves (es : List Outcome) (hes : .interrupt ∉ es) (rest : List Turn) (n : Nat) :
    serveLoop (es.map .visit ++ rest) n =
      (((List.range' n es.length).flatMap fun i => [.accepted i, .handled i, .closed i]) ++
        (serveLoop rest (n + es.length)).1, (serveLoop rest (n + es.length)).2) := by
  induction es generalizing n with
  | nil => simp
  | cons e es ih =>
    have h1 := ih (fun h => hes (List.mem_cons_of_mem _ h)) (n + 1)
    have he : e ≠ .interrupt := fun h => hes (h ▸ List.mem_cons_self)
    have hl : n + 1 + es.length = n + (e :: es).length := by simp only [List.length_cons]; omega
    have : serveLoop ((e :: es).map .visit ++ rest) n =
        ([.accepted n, .handled n, .closed n] ++ (serveLoop (es.map .visit ++ rest) (n + 1)).1,
          (serveLoop (es.map .visit ++ rest) (n + 1)).2) := by
      cases e with
      | interrupt => exact absurd rfl he
      | returned => rfl
      | exception => rfl
    rw [this, h1, hl, List.length_cons, List.range'_succ]
    simp

/-- C101. Whatever happens, every client that was accepted is closed, exactly once, and the listening socket
is closed exactly when `serve` ends; it ends with an exception only if `accept` raised one. -/
theorem C101_closes (ts : List Turn) (n : Nat) :
    (∀ i, (serveLoop ts n).1.count (.closed i) = (serveLoop ts n).1.count (.accepted i)) ∧
    (.closedServer ∈ (serveLoop ts n).1 ↔ (serveLoop ts n).2 ≠ none) ∧
    ((serveLoop ts n).2 = some .exception → .broken ∈ ts) ∧ (serveLoop ts n).2 ≠ some .interrupt := by
  induction ts generalizing n with
  | nil => simp [serveLoop]
  | cons t ts ih =>
    have h := ih (n + 1)
    have key : ∀ e, e ≠ .interrupt → serveLoop (.visit e :: ts) n =
        ([.accepted n, .handled n, .closed n] ++ (serveLoop ts (n + 1)).1, (serveLoop ts (n + 1)).2) := by
      intro e he
      cases e with
      | interrupt => exact absurd rfl he
      | returned => rfl
      | exception => rfl
    cases t with
    | broken => simp [serveLoop]
    | stop => simp [serveLoop]
    | visit e =>
      by_cases he : e = .interrupt
      · subst he
        simp [serveLoop, List.count_cons]
      · rw [key e he]
        refine ⟨fun i => ?_, ?_, fun hx => List.mem_cons_of_mem _ (h.2.2.1 hx), h.2.2.2⟩
        · have h1 := h.1 i
          dsimp only
          rw [List.count_append, List.count_append, h1]
          simp [List.count_cons]
        · rw [← h.2.1]
          simp

/-- The hypotheses are met: a server runs until it is stopped and a client fails, with the key log on standard
error; a server without a key runs nothing; two clients, of which one fails, are served before Ctrl-C. -/
example : let W : System := ⟨fun _ => true, fun _ => false, fun _ _ _ _ => .returned, fun _ _ _ => .exception⟩
    main W { side := .server, tlscert := some ['c'], tlskey := some ['k'], keylogfile := some ['-'] } =
      ([.keysToStderr, .serve "localhost".toList 8446 ['c'] ['k']], .exit 0) ∧
    main W { side := .client, insecure := true } = ([.connect "localhost".toList 8446 false], .exit 1) ∧
    main W { side := .server, tlscert := some ['c'] } = ([], .exit 1) ∧
    main W { side := .client, keylogfile := some ['f'] } = ([], .escapes) ∧
    serveLoop [.visit .exception, .visit .returned, .stop] 0 =
      ([.accepted 0, .handled 0, .closed 0, .accepted 1, .handled 1, .closed 1, .closedServer], some .returned) := by
  decide

end Siotls
