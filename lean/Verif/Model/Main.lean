import Verif.Model.Examples
/-!
# The command: /repo/src/siotls/__main__.py, and the accept loop of examples/simple_server.py

`argparse` is left out: the options are an input (`--version`, `--help` and bad arguments leave before the
code that is modelled). Logging is left out, but for the messages about files and what is needed to tell
whether the page is printed. What `serve` and `connect` do is an input of `main`: see `Model/Examples.lean`
and `serveLoop`. Paths are POSIX paths.
-/

namespace Siotls

/-- the options, __main__.py:42-63. An option of type `Path` is true whatever its value. -/
structure Options where
  verbose : Nat := 0
  silent : Nat := 0
  side : Side
  host : PyStr := ['l', 'o', 'c', 'a', 'l', 'h', 'o', 's', 't']
  port : Int := 8446
  tlscert : Option PyStr := none
  tlskey : Option PyStr := none
  keylogfile : Option PyStr := none
  insecure : Bool := false

/-- how a call ended: it returned, it raised an `Exception`, it raised another exception -/
inductive Outcome where
  | returned
  | exception
  | interrupt
  deriving DecidableEq, Repr

/-- What `main` meets: `os.access(path, os.R_OK)`, whether `FileHandler(path, 'w')` works, and how the calls
of `serve` and `connect` end. -/
structure System where
  readable : PyStr → Bool
  writable : PyStr → Bool
  serve : PyStr → Int → PyStr → PyStr → Outcome
  connect : PyStr → Int → Bool → Outcome

/-- what `main` does: add a handler to the key logger, write a message about a file, run a side -/
inductive Doing where
  | keysToStderr
  | keysToFile (path : PyStr)
  | noCert (path : Option PyStr)
  | noKey (path : Option PyStr)
  | serve (host : PyStr) (port : Int) (cert key : PyStr)
  | connect (host : PyStr) (port : Int) (check : Bool)
  deriving DecidableEq, Repr

/-- how `main` ended: `sys.exit(status)`, or an exception left it -/
inductive Finish where
  | exit (status : Nat)
  | escapes
  deriving DecidableEq, Repr

/-- the parts of a POSIX path between the slashes -/
def pathParts : PyStr → PyStr → List PyStr
  | [], acc => [acc]
  | '/' :: s, acc => acc :: pathParts s []
  | c :: s, acc => pathParts s (acc ++ [c])

/-- `pathlib.PurePosixPath(s).name`: the last part, empty parts and `.` left out -/
def pathName (s : PyStr) : PyStr :=
  ((pathParts s []).filter fun p => p ≠ [] ∧ p ≠ ['.']).getLastD []

/-- __main__.py:70-75 -/
def keysTo (path : PyStr) : Doing := if pathName path = ['-'] then .keysToStderr else .keysToFile path

/-- __main__.py:86-106: an `Exception` gives 1, another exception leaves `main` -/
def Outcome.finish : Outcome → Finish
  | .returned => .exit 0
  | .exception => .exit 1
  | .interrupt => .escapes

/-- __main__.py:85-106; `os.fspath(None)` is a TypeError, raised before `serve` is called -/
def runSide (W : System) (o : Options) : List Doing × Finish :=
  match o.side with
  | .server =>
    match o.tlscert, o.tlskey with
    | some cert, some key => ([.serve o.host o.port cert key], (W.serve o.host o.port cert key).finish)
    | _, _ => ([], .exit 1)
  | .client => ([.connect o.host o.port (!o.insecure)], (W.connect o.host o.port (!o.insecure)).finish)

/-- __main__.py:77-83: both messages give `options.tlscert` -/
def checkFiles (W : System) (o : Options) : List Doing × Finish :=
  if ∃ p ∈ o.tlscert, W.readable p = false then ([.noCert o.tlscert], .exit 1)
  else if ∃ p ∈ o.tlskey, W.readable p = false then ([.noKey o.tlscert], .exit 1)
  else runSide W o

/-- `main`, __main__.py:39-106, after `parse_args` -/
def main (W : System) (o : Options) : List Doing × Finish :=
  match o.keylogfile with
  | none => checkFiles W o
  | some path =>
    match keysTo path with
    | .keysToFile p =>
      if W.writable p then (.keysToFile p :: (checkFiles W o).1, (checkFiles W o).2) else ([], .escapes)
    | d => (d :: (checkFiles W o).1, (checkFiles W o).2)

/-- `logging.INFO - options.verbose * 10 + options.silent * 10`, __main__.py:66 -/
def verbosity (o : Options) : Int := 20 - o.verbose * 10 + o.silent * 10

/-- `logger.isEnabledFor(logging.INFO)` in simple_client.py:28, with the level that `setup_logging` sets,
__main__.py:32: the page is printed -/
def printsPage (o : Options) : Bool := decide (max (verbosity o) 10 ≤ 20)

/-- the configuration with which the command makes its connections: simple_client.py:11-14 with
`check_certificate=not options.insecure` (__main__.py:102), simple_server.py:17-22 -/
def commandConfig (o : Options) (store key : Bytes) (chain : List Bytes) : Config :=
  match o.side with
  | .client => exampleClient (if o.insecure then none else some store)
  | .server => exampleServer key chain

/-! ## The accept loop of the server -/

/-- one turn of the loop: a client comes and `handle_one` ends in some way; `accept` raises; Ctrl-C is
pressed while it waits -/
inductive Turn where
  | visit (e : Outcome)
  | broken
  | stop

/-- what the loop does to the sockets -/
inductive SockAct where
  | accepted (n : Nat)
  | handled (n : Nat)
  | closed (n : Nat)
  | closedServer
  deriving DecidableEq, Repr

/-- `serve`, simple_server.py:30-50, for the `n`th and later clients; `none`: it waits. The calls between
`accept` and `handle_one`, and `close`, are assumed not to raise. -/
def serveLoop : List Turn → Nat → List SockAct × Option Outcome
  | [], _ => ([], none)
  | .visit .interrupt :: _, n => ([.accepted n, .handled n, .closed n, .closedServer], some .returned)
  | .visit _ :: ts, n =>
    ([.accepted n, .handled n, .closed n] ++ (serveLoop ts (n + 1)).1, (serveLoop ts (n + 1)).2)
  | .broken :: _, _ => ([.closedServer], some .exception)
  | .stop :: _, _ => ([.closedServer], some .returned)

end Siotls
