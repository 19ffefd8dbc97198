import Verif.Model.Audit

/-!
# Fetching the advisory database

Model of `rustsec/src/repository/git/{repository,commit}.rs` and of its use in `cargo-audit/src/auditor.rs`.  Git itself
(`gix`) and the network are the argument `GitWorld`.  Not modelled here: references and `FETCH_HEAD` (see `GitRefs`),
signatures, the reflog; a commit is its files, time and summary.  Of the files only those two directories below the root
are kept, which are those the database is loaded from, and a file where another commit has a directory is left aside.
-/

namespace Verif.Repo

open Verif.Adv

/-- The path `<collection>/<package directory>/<file>` in a repository. -/
structure Place where
  collection : Collection
  dir : Str
  file : Str
  deriving DecidableEq

/-- Advisory files with what parsing their contents gives, in a commit or on disk. -/
abbrev Files := List (Place × Outcome Advisory)

/-- `commit.rs:19-38`: `struct Commit`: the files, the committer's time in seconds since the epoch, the summary. -/
structure Commit where
  files : Files
  time : Int
  summary : Str
  deriving DecidableEq

/-- `repository.rs:29-32`: a git repository: the URL of the remote `origin`, the commit of `HEAD`, and the files in its
work tree. -/
structure Repository where
  origin : Option Str
  head : Option Commit
  files : Files
  deriving DecidableEq

/-- What git, the file system, the network and the clock answer. -/
structure GitWorld where
  /-- The path has a parent that is or can be made a directory, can be removed if empty, and is UTF-8
  (`repository.rs:83-111`). -/
  pathOk : Str → Bool
  /-- The file lock is obtained, without waiting or waiting (`repository.rs:113-118`). -/
  lock : Str → Bool → Bool
  /-- `discover_opts`: the repository the path is in, going upwards (`repository.rs:138-144`). -/
  discover : Str → Option Repository
  /-- `open_opts`: the repository at the path (`repository.rs:152`). -/
  openAt : Str → Option Repository
  /-- What `HEAD` is at the remote with that URL, if it can be fetched (`repository.rs:160-174`, `307-325`). -/
  remote : Str → Option Commit
  /-- The path can be cloned into (`repository.rs:160-184`). -/
  cloneOk : Str → Bool
  /-- The work tree can be reset to `HEAD` (`repository.rs:208`). -/
  resetOk : Str → Bool
  /-- `read_dir` of a work tree, in some order (`database.rs:46-75`). -/
  read : Files → Db.Tree
  /-- `SystemTime::now()`. -/
  now : Int

/-- A result of `Repository::fetch`: an error is told from a lock timeout (`auditor.rs:79`). -/
inductive Fetched where
  | ok (r : Repository)
  | lockTimeout
  | err
  deriving DecidableEq

/-- `commit.rs:14`, `126-128`: `is_fresh`: younger than 90 days. -/
def Commit.isFresh (now : Int) (c : Commit) : Bool := decide (c.time > now - 90 * 86400)

/-- `repository.rs:138-152`: the existing repository that is used, if any. -/
def GitWorld.existing (W : GitWorld) (url path : Str) : Option Repository :=
  match (W.discover path).filter (fun r => decide (r.origin = some url)) with
  | some r => some r
  | none => W.openAt path

/-- `repository.rs:120-202`: opening and fetching (`perform_fetch`, `267-387`), or cloning. -/
def GitWorld.update (W : GitWorld) (url path : Str) : Option Repository :=
  match W.existing url path with
  | some r =>
    match r.origin with
    | none => none
    | some o =>
      match W.remote o with
      | none => none
      | some c => some { r with head := some c }
  | none =>
    if W.cloneOk path then
      match W.remote url with
      | none => none
      | some c => some { origin := some url, head := some c, files := c.files }
    else none

/-- `commit.rs:136-193`: `Commit::reset`.  `gix::worktree::state::checkout` writes every file of the index made from the
commit, over what is there (`overwrite_existing`, `destination_is_initially_empty: false`); nothing is removed. -/
def Commit.checkout (c : Commit) (before : Files) : Files :=
  c.files ++ before.filter fun e => !c.files.any fun n => decide (n.1 = e.1)

/-- `repository.rs:69-220`: `Repository::fetch`, with `from_repo_head` (`commit.rs:42-122`). -/
def GitWorld.fetch (W : GitWorld) (url path : Str) (ensureFresh wait : Bool) : Fetched :=
  if !startsWith url "https://" then .err
  else if !W.pathOk path then .err
  else if !W.lock path wait then .lockTimeout
  else
    match W.update url path with
    | none => .err
    | some r =>
      match r.head with
      | none => .err
      | some c =>
        if c.summary.isEmpty then .err
        else if !W.resetOk path then .err
        else if ensureFresh && !c.isFresh W.now then .err
        else .ok { r with files := c.checkout r.files }

/-- `auditor.rs:71-104`: fetching, once more if the directory is locked; the work tree, from which the database is loaded
(`database.rs:103-107`). -/
def GitWorld.fetchRepo (W : GitWorld) (url path : Str) (ensureFresh : Bool) : Option Db.Tree :=
  let result :=
    match W.fetch url path ensureFresh false with
    | .lockTimeout => W.fetch url path ensureFresh true
    | r => r
  match result with
  | .ok r => some (W.read r.files)
  | _ => none

end Verif.Repo
