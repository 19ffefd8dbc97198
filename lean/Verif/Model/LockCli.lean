import Verif.Model.Tree

/-!
# The `cargo lock` command

Model of `cargo-lock/src/main.rs`.  TOML syntax and the parsing of options by `clap` are not modelled: a file holds a
document, and an option is a value.  Printing to the standard output succeeds.
-/

namespace Verif.LockCli

open Verif.Lock

/-- What the command finds: text forms of other crates, the documents in the files (none if a file cannot be read or is
not TOML of this form), and the files that can be written. -/
structure CliEnv where
  codec : Codec
  file : Str → Option LockDoc
  writable : Str → Bool

/-- What is printed. -/
inductive Out where
  | line (text : Str)
  | doc (d : LockDoc)
  | text (t : Str)
  deriving DecidableEq

/-- What happened: the output, the file that was written, and how it ended (`.err` is exit status 1). -/
structure CliRun where
  stdout : List Out := []
  written : Option (Str × LockDoc) := none
  result : Outcome Unit

/-- `main.rs:228-238`: `load_lockfile`. -/
def loadLockfile (E : CliEnv) (path : Option Str) : Outcome Lockfile :=
  match E.file (path.getD "Cargo.lock".toList) with
  | none => .err
  | some d => Lockfile.parse E.codec d

/-- `main.rs:37-53`: the options of `list`. -/
structure ListArgs where
  file : Option Str := none
  package : Option Str := none
  dependencies : Bool := false
  sources : Bool := false

/-- `main.rs:65-69, 73-77`: a package or a dependency, with or without its source. -/
def showItem (C : Codec) (sources : Bool) (d : Dependency) : Str :=
  if sources then d.show C else d.name ++ ' ' :: C.showVersion d.version

/-- `main.rs:59-63`: another package is wanted. -/
def skipped (args : ListArgs) (p : Package) : Bool :=
  match args.package with
  | some n => decide (p.name ≠ n)
  | none => false

/-- `main.rs:58-80`: the lines of a package. -/
def packageLines (C : Codec) (args : ListArgs) (p : Package) : List Str :=
  if skipped args p then []
  else
    ("- ".toList ++ showItem C args.sources (Dependency.ofPackage p)) ::
      if args.dependencies then p.dependencies.map fun d => "  - ".toList ++ showItem C args.sources d else []

/-- `main.rs:57-81`: `list`. -/
def list (E : CliEnv) (args : ListArgs) : CliRun :=
  match loadLockfile E args.file with
  | .ok l => { stdout := (l.packages.flatMap (packageLines E.codec args)).map Out.line, result := .ok () }
  | .err => { result := .err }
  | .panic => { result := .panic }

/-- `main.rs:86-98`: the options of `translate`. -/
structure TranslateArgs where
  file : Option Str := none
  output : Option Str := none
  version : Option ResolveVersion := none

/-- `version.rs:69-73`: `Default for ResolveVersion`. -/
def defaultVersion : ResolveVersion := .v3

/-- `main.rs:102-122`: `translate`. -/
def translate (E : CliEnv) (args : TranslateArgs) : CliRun :=
  let output := args.output.getD "-".toList
  match loadLockfile E args.file with
  | .err => { result := .err }
  | .panic => { result := .panic }
  | .ok l =>
    let doc := Lockfile.print E.codec { l with version := args.version.getD defaultVersion }
    if output = "-".toList then { stdout := [.doc doc], result := .ok () }
    else if E.writable output then { written := some (output, doc), result := .ok () }
    else { result := .err }

/-- `main.rs:127-142`: the options of `tree`. -/
structure TreeArgs where
  file : Option Str := none
  exact : Bool := false
  inverse : Bool := false
  dependencies : List Str := []

/-- `main.rs:148-168`: `package_matches_ver`. -/
def matchesVer (C : Codec) (p : Package) (ver : Str) : Bool :=
  match C.parseVersion ver with
  | some v => decide (p.version = v)
  | none =>
    (match p.checksum with
      | some c => decide (c.show = ver)
      | none => false) ||
    (match p.source with
      | some s => decide (s.precise = some ver)
      | none => false)

/-- `str::split_once`. -/
def splitOnce (c : Char) : Str → Option (Str × Str)
  | [] => none
  | x :: s => if x = c then some ([], s) else (splitOnce c s).map fun r => (x :: r.1, r.2)

/-- `main.rs:144-146, 170-176`: `package_matches`. -/
def packageMatches (C : Codec) (p : Package) (spec : Str) : Bool :=
  match splitOnce '@' spec with
  | some (name, ver) => decide (p.name = name) && matchesVer C p ver
  | none => decide (p.name = spec) || matchesVer C p spec

/-- `main.rs:193-204`: the node of a given dependency; an unknown one ends the command, and a package that is not in the
map is a panic. -/
def nodeFor (C : Codec) (l : Lockfile) (t : Tree) (spec : Str) : Outcome Nat :=
  match l.packages.find? fun p => packageMatches C p spec with
  | none => .err
  | some p =>
    match t.nodes.get (Dependency.ofPackage p) with
    | some i => .ok i
    | none => .panic

/-- `main.rs:211-224`: `dependency_tree`; a blank line between trees. -/
def drawTrees (C : Codec) (t : Tree) (args : TreeArgs) : List Nat → Outcome (List Str)
  | [] => .ok []
  | i :: is => do
    let text ← t.render C i (if args.inverse then .incoming else .outgoing) args.exact
    let rest ← drawTrees C t args is
    .ok (text :: rest)

/-- The output of trees, with a blank line between two. -/
def treeOut : List Str → List Out
  | [] => []
  | [t] => [.text t]
  | t :: ts => .text t :: .line [] :: treeOut ts

/-- `main.rs:180-224`: `tree`. -/
def tree (E : CliEnv) (args : TreeArgs) : CliRun :=
  match loadLockfile E args.file with
  | .err => { result := .err }
  | .panic => { result := .panic }
  | .ok l =>
    match Tree.new l with
    | .err => { result := .err }
    | .panic => { result := .panic }
    | .ok t =>
      match (if args.dependencies.isEmpty then .ok t.roots
        else Outcome.mapList (nodeFor E.codec l t) args.dependencies) with
      | .err => { result := .err }
      | .panic => { result := .panic }
      | .ok is =>
        match drawTrees E.codec t args is with
        | .ok ts => { stdout := treeOut ts, result := .ok () }
        | .err => { result := .err }
        | .panic => { result := .panic }

/-- Which command the arguments are for: the options of `list`, or a subcommand and what follows. -/
inductive Route where
  | list (args : List Str)
  | sub (name : Str) (args : List Str)
  deriving DecidableEq

/-- `main.rs:243-246`: drop the argument that `cargo lock` inserts. -/
def dropLock : List Str → List Str
  | p :: a :: rest => if a = "lock".toList then p :: rest else p :: a :: rest
  | args => args

/-- `main.rs:240-260`: `main`, up to the parsing of options. -/
def route (args : List Str) : Route :=
  match dropLock args with
  | _ :: a :: rest => if startsWith a "-" then .list (a :: rest) else .sub a rest
  | _ => .list []

end Verif.LockCli
