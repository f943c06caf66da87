import Verif.Conf16.Model
/-! The files of the message log and of the security log and their rotation: `lib/ocpp/common/ocpp_logging.cpp`.

One kind of log at a time is modelled (messages, raw messages, HTML, raw HTML, security events): its files are those whose name is the name of the log, or whose stem is.
A file is known by what its name has after the name of the log: nothing for the log itself, `.0`, `.1`, … for the older ones.
Not modelled: failures of the file system other than the end of the process between two operations, and other files in the directory, which the code does not touch. -/

namespace Verif.Log

open Verif.Conf16 (Text stoi Stoi bytes)

/-- What a file consists of: entries, and the tags of HTML logs. -/
inductive Item
  | entry (t : Text)
  | tags (t : Text)
  deriving DecidableEq, Repr

def Item.text : Item → Text
  | .entry t => t
  | .tags t => t

/-- A file: what follows the name of the log, and what the file consists of. -/
abbrev File := Text × List Item

/-- The files of the log, in no particular order. -/
abbrev Dir := List File

/-- `LogRotationConfig` (include/ocpp/common/ocpp_logging.hpp l.24-37), `rotate_logs` and the texts that `rotate_log_if_needed` writes before it closes and after it
opens a file (l.97-131, l.459-470): closing and opening tags for HTML logs, nothing for the others. -/
structure Cfg where
  rotate : Bool
  date : Bool
  maxSize : Nat
  maxCount : Nat
  pre : List Text := []
  post : List Text := []

inductive Status
  | notRotated
  | rotated
  | rotatedWithDeletion
  deriving DecidableEq, Repr

/-- The size of a file. -/
def size (c : List Item) : Nat := (c.map (fun i => bytes i.text)).sum

def names (d : Dir) : List Text := d.map (·.1)

/-- What is in the file, nothing if it is not there: `safe_file_size` (l.189-195). -/
def content (d : Dir) (n : Text) : List Item := ((d.find? (fun f => f.1 == n)).map (·.2)).getD []

/-- `std::filesystem::remove`. -/
def remove (d : Dir) (n : Text) : Dir := d.filter (fun f => f.1 != n)

/-- `std::filesystem::rename`: a file with the new name is replaced. -/
def rename (d : Dir) (a b : Text) : Dir := (d.filter (fun f => f.1 != b)).map (fun f => if f.1 = a then (b, f.2) else f)

/-- Opened for appending: a file that does not exist is created. -/
def openBase (d : Dir) : Dir := if d.any (fun f => f.1 == []) then d else ([], []) :: d

/-- Entries are appended. -/
def append (d : Dir) (es : List Item) : Dir := d.map (fun f => if f.1 = [] then (f.1, f.2 ++ es) else f)

/-- The names in descending order (l.210): `std::sort` with `std::greater` for paths, which compares texts. -/
def insertDesc (n : Text) : List Text → List Text
  | [] => [n]
  | m :: r => if n < m then m :: insertDesc n r else n :: m :: r

def descending (l : List Text) : List Text := l.foldr insertDesc []

/-- What happens to a file: l.221-257. -/
inductive Step
  | skip
  | to (n : Text)
  | overflow                       -- the number is the greatest integer: undefined
  deriving DecidableEq, Repr

/-- The new name of a file; `stamp`: `get_datetime_string`. -/
def newName (cfg : Cfg) (stamp : Text) (n : Text) : Step :=
  if n = [] then .to ('.' :: (if cfg.date then stamp else "0".toList))
  else if cfg.date then .skip
  else match stoi (n.filter (fun c => c != '.')) with
    | .val i => if i = 2147483647 then .overflow else .to ('.' :: (toString (i + 1)).toList)
    | _ => .skip

/-- The loop over the files: l.221-257.  `none`: undefined behaviour. -/
def renameAll (cfg : Cfg) (stamp : Text) : List Text → Dir × Status → Option (Dir × Status)
  | [], r => some r
  | n :: ns, (d, st) => match newName cfg stamp n with
    | .skip => renameAll cfg stamp ns (d, st)
    | .to m => renameAll cfg stamp ns (rename d n m, if st = .notRotated then .rotated else st)
    | .overflow => none

/-- `rotate_log` (l.198-260). -/
def rotateLog (cfg : Cfg) (stamp : Text) (d : Dir) : Option (Dir × Status) :=
  if 0 < cfg.maxCount ∧ cfg.maxCount ≤ d.length then
    match descending (names d) with
    | [] => some (d, .notRotated)
    | n :: ns => renameAll cfg stamp ns (remove d n, .rotatedWithDeletion)
  else renameAll cfg stamp (descending (names d)) (d, .notRotated)

/-- Removing the file and the renamings, as the operations they are; the process may end after any number of them. -/
inductive FsOp
  | remove (n : Text)
  | rename (a b : Text)
  deriving DecidableEq, Repr

def perform (d : Dir) : FsOp → Dir
  | .remove n => remove d n
  | .rename a b => rename d a b

/-- The renamings of the loop. -/
def renamings (cfg : Cfg) (stamp : Text) (ns : List Text) : List FsOp :=
  ns.filterMap (fun n => match newName cfg stamp n with
    | .to m => some (.rename n m)
    | _ => none)

/-- The operations of `rotate_log`. -/
def operations (cfg : Cfg) (stamp : Text) (d : Dir) : List FsOp :=
  if 0 < cfg.maxCount ∧ cfg.maxCount ≤ d.length then
    match descending (names d) with
    | [] => []
    | n :: ns => .remove n :: renamings cfg stamp ns
  else renamings cfg stamp (descending (names d))

/-- `rotate_log_if_needed` (l.262-294). -/
def rotateIfNeeded (cfg : Cfg) (stamp : Text) (d : Dir) : Option (Dir × Status) :=
  if !cfg.rotate then some (d, .notRotated)
  else if cfg.maxSize = 0 then some (d, .notRotated)
  else if cfg.maxSize ≤ size (content d []) then
    match rotateLog cfg stamp (append d (cfg.pre.map .tags)) with
    | some (d', st) => some (append (openBase d') (cfg.post.map .tags), st)
    | none => none
  else some (d, .notRotated)

/-- An entry is written: `security` (l.349-357), and `log_output` (l.453-474) for each of its files. -/
def write (cfg : Cfg) (d : Dir) (stamp e : Text) : Option (Dir × Status) :=
  match rotateIfNeeded cfg stamp d with
  | some (d', st) => some (append d' [.entry e], st)
  | none => none

/-- The log is opened: `initialize` (l.86-147).  HTML logs: the opening tags are written if the file is empty (l.107-111, l.123-127). -/
def start (cfg : Cfg) (d : Dir) (stamp : Text) : Option (Dir × Status) :=
  match rotateIfNeeded cfg stamp (openBase d) with
  | some (d', st) => some (if size (content d' []) = 0 then append d' (cfg.post.map .tags) else d', st)
  | none => none

/-- What happens to the log.  The times are arbitrary. -/
inductive Op
  | write (stamp e : Text)
  | restart (stamp : Text)
  | close                          -- the process ends regularly
  deriving DecidableEq, Repr

/-- `close`: `~MessageLogging` (l.296-313), which writes the closing tags; not to the log of raw messages, of which this is not said here. -/
def step (cfg : Cfg) (d : Dir) : Op → Option (Dir × Status)
  | .write s e => write cfg d s e
  | .restart s => start cfg d s
  | .close => some (append d (cfg.pre.map .tags), .notRotated)

/-- A history: the files and what was reported. -/
def run (cfg : Cfg) : Dir → List Op → Option (Dir × List Status)
  | d, [] => some (d, [])
  | d, o :: os => match step cfg d o with
    | some (d', st) => match run cfg d' os with
      | some (d'', sts) => some (d'', st :: sts)
      | none => none
    | none => none

end Verif.Log
