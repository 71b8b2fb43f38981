import Verif.Resource
import Verif.Utf8

/-!
# `make_pluralrules/src/main.rs`

The parsing of the command line (`clap`, a dependency) is not modelled: the arguments are given.  The operating system is: which
files can be read and which bytes they have, whether the output file can be created, how much can be written to it, and what running
`rustfmt` does to the files.
-/

namespace Verif.Main
open Verif Resource Utf8

/-- The arguments, main.rs:12-16. -/
structure Args where
  inputs : List Str
  output : Str
  ugly : Bool

/-- The files, by path: the bytes, `none` if there is no such file or it cannot be read. -/
abbrev Files := Str → Option Bytes

/-- What the operating system does. -/
structure System where
  /-- Whether `File::create` succeeds. -/
  canCreate : Str → Bool
  /-- How many bytes `write_all` can write; `none` if there is no limit. -/
  room : Option Nat
  /-- What `rustfmt PATH` does to the files, whatever its exit status; `none` if it cannot be started. -/
  rustfmt : Option (Str → Files → Files)

/-- How the program ends. -/
inductive Ending where
  /-- `Ok(())` -/
  | ok
  /-- An `io::Error` is returned. -/
  | error
  | panic
  deriving DecidableEq, Repr

/-- A file with new contents. -/
def setFile (files : Files) (path : Str) (bytes : Bytes) : Files := fun p => if p = path then some bytes else files p

/-- `fs::read_to_string`, main.rs:25: an error also for a file that is not UTF-8. -/
def readToString (files : Files) (path : Str) : Option Str := (files path).bind decode

/-- main.rs:34-39. -/
def format (sys : System) (args : Args) (files : Files) : Ending × Files :=
  if args.ugly then (.ok, files)
  else
    match sys.rustfmt with
    | none => (.panic, files)
    | some run => (.ok, run args.output files)

/-- main.rs:31-32: `File::create` empties the file, then the bytes of the text are written as far
as possible. -/
def writeOutput (sys : System) (args : Args) (bytes : Bytes) (files : Files) : Ending × Files :=
  if sys.canCreate args.output then
    match sys.room with
    | none => format sys args (setFile files args.output bytes)
    | some k =>
      if bytes.length ≤ k then format sys args (setFile files args.output bytes)
      else (.error, setFile files args.output (bytes.take k))
  else (.error, files)

/-- main.rs:8-42 (`main`). -/
def run (sys : System) (args : Args) (files : Files) : Ending × Files :=
  match GenPr.mapPanic (readToString files) args.inputs with
  | none => (.panic, files)
  | some texts =>
    match generateText LangId.parse texts with
    | none => (.panic, files)
    | some code => writeOutput sys args (encode code) files

end Verif.Main
