import Verif.Model.Py
/-!
Model of the program that fetches FES models, `/repo/scripts/aviso_fes_tides.py`: credentials and loop
(`main`, 453-485), the session for a model (`aviso_fes_tides`, 86-137), and the logger it writes to
(`/repo/pyTMD/utilities.py` 325-359 `build_logger` and 486-513 `check_ftp_connection`).

What is fetched is the subject of `Verif.Model.Mirror`; here fetching a model is an input: the messages it
logs, in order, and the exception it ends with, if any.
-/
namespace Verif.FetchLog
open Verif

/-- An entry of a file with credentials, `machine`, `login`, `account`, `password`. -/
structure Entry where
  machine : String
  login : String
  account : String
  password : String

/-- `netrc.netrc.authenticators`: the entry of the host, else the one of `default`; a later entry for the
same machine replaces an earlier one.  The file is given by its entries, parsing is not modelled. -/
def authenticators (l : List Entry) (host : String) : Option Entry :=
  match l.reverse.find? (·.machine == host) with
  | some e => some e
  | none => l.reverse.find? (·.machine == "default")

/-- aviso_fes_tides.py 459. -/
def host : String := "ftp-access.aviso.altimetry.fr"

/-- Arguments of the program; `netrc` is `none` if there is no such file. -/
structure Args where
  user : Option String
  password : Option String
  netrc : Option (List Entry)
  tide : List String
  log : Bool

/-- Python's truth value of a string or `None`. -/
def given : Option String → Bool
  | some s => s ≠ ""
  | none => false

/-- User and password. -/
abbrev Credentials := Option String × Option String

/-- aviso_fes_tides.py 461-470: `asked` is the name typed, `secret` the password typed for a name. -/
def credentials (a : Args) (asked : String) (secret : String → String) : Except PyErr Credentials :=
  match given a.user, a.netrc with
  | false, none => .ok (some asked, some (secret asked))
  | _, some l =>
    match authenticators l host with
    | some e => .ok (some e.login, some e.password)
    | none => .error .typeError
  | true, none =>
    if given a.password then .ok (a.user, a.password)
    else .ok (a.user, some (secret (a.user.getD "")))

/-- The contents of files by name. -/
abbrev Disk := String → Option (List UInt8)

/-- Where the handler of the logger writes: the terminal, or an open file and its position there. -/
inductive Sink where
  | terminal
  | file (name : String) (pos : Nat)

/-- What the logger acts on: the disk, the handler of the logger (one for the whole process), and what was
printed. -/
structure Console where
  disk : Disk
  handler : Option Sink
  printed : List String

/-- The program while it runs: the console, the logins with the model they were for, and the models that were
fetched from tar files and from lists. -/
structure World where
  console : Console
  logins : List (Credentials × String)
  tars : List String
  lists : List String

/-- Writing at a position of a file; a position beyond the end leaves zeros before it (POSIX). -/
def writeAt (content : List UInt8) (pos : Nat) (bytes : List UInt8) : List UInt8 :=
  (content ++ List.replicate (pos - content.length) 0).take pos ++ bytes ++ content.drop (pos + bytes.length)

/-- utilities.py 343: a record of level INFO; `enc` gives the bytes of the name of the logger and the
message. -/
def record (enc : String → List UInt8) (msg : String) : List UInt8 := [73, 78, 70, 79, 58] ++ enc msg ++ [10]

/-- `logger.info`: the handler writes the record and flushes it. -/
def info (enc : String → List UInt8) (w : Console) (msg : String) : Console :=
  match w.handler with
  | none => w
  | some .terminal => { w with printed := w.printed ++ [msg] }
  | some (.file n pos) =>
    { w with
      disk := fun p => if p = n then some (writeAt ((w.disk n).getD []) pos (record enc msg)) else w.disk p
      handler := some (.file n (pos + (record enc msg).length)) }

/-- `LOGFILE.open(mode='w')`: the file is there and empty; open handles of it keep their positions. -/
def openNew (w : Console) (name : String) : Console :=
  { w with disk := fun p => if p = name then some [] else w.disk p }

/-- utilities.py 348-359: a handler is added if there is none. -/
def buildLogger (w : Console) (sink : Sink) : Console :=
  match w.handler with
  | none => { w with handler := some sink }
  | some _ => w

/-- aviso_fes_tides.py 105-106. -/
def logName (day : String) : String := "AVISO_FES_tides_" ++ day ++ ".log"

/-- Fetching a model: its messages, and the exception at the end. -/
abbrev Provider := String → List String × Option PyErr

/-- aviso_fes_tides.py 102-114: the log file, or the terminal.  The name of the log file stands for its path
in the directory. -/
def begin (enc : String → List UInt8) (log : Bool) (day model : String) (w : Console) : Console :=
  if log then
    info enc (info enc (buildLogger (openNew w (logName day)) (.file (logName day) 0))
      ("AVISO FES Sync Log (" ++ day ++ ")")) ("\tMODEL: " ++ model)
  else buildLogger w .terminal

/-- aviso_fes_tides.py 98-137, for a model on a day. -/
def session (enc : String → List UInt8) (tar list : Provider) (c : Credentials) (log : Bool) (w : World)
    (day model : String) : World × Option PyErr :=
  if model ∈ ["FES1999", "FES2004", "FES2012", "FES2014"] then
    (⟨(tar model).1.foldl (info enc) (begin enc log day model w.console), w.logins ++ [(c, model)],
      w.tars ++ [model], w.lists⟩, (tar model).2)
  else if model = "FES2022" then
    (⟨(list model).1.foldl (info enc) (begin enc log day model w.console), w.logins ++ [(c, model)],
      w.tars, w.lists ++ [model]⟩, (list model).2)
  else (⟨begin enc log day model w.console, w.logins ++ [(c, model)], w.tars, w.lists⟩, none)

/-- aviso_fes_tides.py 474-485: the loop; an exception ends it. -/
def sessions (enc : String → List UInt8) (tar list : Provider) (c : Credentials) (log : Bool) (w : World) :
    List (String × String) → World × Option PyErr
  | [] => (w, none)
  | (day, m) :: rest =>
    match session enc tar list c log w day m with
    | (w, some e) => (w, some e)
    | (w, none) => sessions enc tar list c log w rest

/-- aviso_fes_tides.py 453-485 and utilities.py 486-513: `accepts` tells whether the server accepts the
credentials (a RuntimeError, here `exception`, if not), `days` are the days on which the models are reached. -/
def run (enc : String → List UInt8) (tar list : Provider) (accepts : Credentials → Bool) (a : Args)
    (asked : String) (secret : String → String) (days : List String) (w : World) : World × Option PyErr :=
  match credentials a asked secret with
  | .error e => (w, some e)
  | .ok c => if accepts c then sessions enc tar list c a.log w (days.zip a.tide) else (w, some .exception)

end Verif.FetchLog
