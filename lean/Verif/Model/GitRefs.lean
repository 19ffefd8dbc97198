import Verif.Model.Str

/-!
# References and `FETCH_HEAD`

Model of `perform_fetch`, `write_fetch_head` and `encode_hex` in `rustsec/src/repository/git/repository.rs`.  `gix` is an
argument: what the remote announces, and how the fetch itself changes references.  Configuration changes (the committer's
name), the reflog and objects are not modelled.
-/

namespace Verif.Refs

/-- A reference points to an object (its ID as bytes) or to another reference. -/
inductive Target where
  | object (oid : List UInt8)
  | symbolic (name : Str)
  deriving DecidableEq, Repr

/-- The parts of a `.git` directory that matter: the references (`HEAD` is one) and the contents of `FETCH_HEAD`. -/
structure GitDir where
  refs : Str → Option Target
  fetchHead : Option Str

/-- Kinds of object IDs (`gix::ObjectId`): only SHA-1 is supported. -/
inductive Oid where
  | sha1 (bytes : List UInt8)
  | other
  deriving DecidableEq, Repr

/-- A reference announced by the remote and mapped by the refspecs (`gix::protocol::handshake::Ref` and
`refmap::Source`): symbolic ones say which reference they stand for. -/
inductive Mapping where
  | symbolic (name target : Str) (object : Oid)
  | otherRef (name : Str)
  | objectId
  deriving DecidableEq, Repr

/-- `repository.rs:541`: the digits. -/
def hexDigits : Str := "0123456789abcdef".toList

/-- `repository.rs:543-547`: the two digits of a byte. -/
def hexByte (b : UInt8) : Str := [hexDigits.getD (b >>> 4).toNat '?', hexDigits.getD (b &&& 0xf).toNat '?']

/-- `repository.rs:535-551`: `encode_hex`, on a buffer of twice the length (20 bytes into 40 here). -/
def encodeHex (bytes : List UInt8) : Str := bytes.flatMap hexByte

/-- `str::strip_prefix`. -/
def stripPrefix (p : String) (s : Str) : Option Str := if startsWith s p then some (s.drop p.toList.length) else none

/-- `str::strip_suffix`. -/
def stripSuffix (p : String) (s : Str) : Option Str :=
  if endsWith s p then some (s.take (s.length - p.toList.length)) else none

/-- A refspec: its remote and local sides (`RefSpecRef::remote`, `local`). -/
structure RefSpec where
  remote : Option Str
  loc : Option Str
  deriving DecidableEq, Repr

/-- `repository.rs:20`: `REF_SPEC`. -/
def theRefSpec : RefSpec := ⟨some "HEAD".toList, some "refs/remotes/origin/HEAD".toList⟩

/-- `repository.rs:423-437`: a mapping of the remote's `HEAD`, if it is symbolic. -/
def Mapping.head : Mapping → Option (Str × Oid)
  | .symbolic name target object => if name = "HEAD".toList then some (target, object) else none
  | _ => none

/-- `repository.rs:418-438`: the remote's `HEAD`: the reference it stands for, and its object. -/
def remoteHead (mappings : List Mapping) : Option (Str × Oid) := mappings.findSome? Mapping.head

/-- `repository.rs:474-489`: whether a refspec asks for the remote's `HEAD`. -/
def RefSpec.asksForHead (remoteName : Str) (r : RefSpec) : Bool :=
  match r.remote with
  | none => false
  | some rem =>
    if !endsWith rem "HEAD" then false
    else
      match r.loc with
      | none => false
      | some l => decide (((stripPrefix "refs/remotes/" l).bind (stripSuffix "/HEAD")) = some remoteName)

/-- `repository.rs:450-512`: the text of `FETCH_HEAD`. -/
def fetchHeadText (commit url remoteName branch : Str) (refspecs : List RefSpec) : Str :=
  (if refspecs.any (RefSpec.asksForHead remoteName) then commit ++ "\t\t".toList ++ url ++ "\n".toList else []) ++
  (match stripPrefix "refs/heads/" branch with
  | some b => commit ++ "\t\tbranch '".toList ++ b ++ "' of ".toList ++ url ++ "\n".toList
  | none => [])

/-- `repository.rs:412-533`: `write_fetch_head` up to the writing: the commit and the text. -/
def fetchHeadOf (mappings : List Mapping) (url : Str) (remoteName : Option Str) (refspecs : List RefSpec) :
    Outcome (List UInt8 × Str) :=
  match remoteHead mappings with
  | none => .err
  | some (branch, oid) =>
    match oid with
    | .other => .err
    | .sha1 bytes =>
      let text := fetchHeadText (encodeHex bytes) url (remoteName.getD "origin".toList) branch refspecs
      if text.isEmpty then .err else .ok (bytes, text)

/-- The end of a chain of symbolic references, followed at most so many times (`gix`'s limit). -/
def follow (refs : Str → Option Target) : Nat → Str → Option Str
  | 0, _ => none
  | n + 1, name =>
    match refs name with
    | some (.symbolic next) => follow refs n next
    | _ => some name

/-- `repository.rs:331-375`: the edit: the name to be changed (through symbolic references) and whether the reference must
exist.  `Kind::Symbolic` carries the reference `HEAD` points to (`gix`'s `Repository::head`). -/
def headEdit (refs : Str → Option Target) : Outcome (Str × Bool) :=
  match refs "HEAD".toList with
  | none => .err
  | some (.object _) => .ok ("HEAD".toList, false)
  | some (.symbolic branch) =>
    match refs branch with
    | some (.symbolic name) => .ok (name, true)
    | some (.object _) => .ok ("HEAD".toList, false)
    | none => .ok ("HEAD".toList, false)

/-- `repository.rs:377-383`: `edit_reference` with `deref: true`. -/
def editRef (limit : Nat) (refs : Str → Option Target) (name : Str) (mustExist : Bool) (oid : List UInt8) :
    Option (Str → Option Target) :=
  match follow refs limit name with
  | none => none
  | some last =>
    if mustExist && (refs last).isNone then none
    else some fun n => if n = last then some (.object oid) else refs n

/-- What `gix`, the remote and the disk answer. -/
structure RefWorld where
  /-- The URL of `origin` (`repository.rs:294-300`). -/
  origin : Option Str
  /-- The fetch: the references it changes, and what it maps (`repository.rs:307-325`). -/
  receive : (Str → Option Target) → Option ((Str → Option Target) × List Mapping)
  /-- `FETCH_HEAD` can be written. -/
  writable : Bool
  /-- How many symbolic references `gix` follows. -/
  limit : Nat

/-- `repository.rs:267-387`: `perform_fetch`: every state of the directory it goes through, and how it ends.  Writing
`FETCH_HEAD` goes through every prefix of the text. -/
def performFetch (W : RefWorld) (d : GitDir) : List GitDir × Outcome GitDir :=
  match W.origin with
  | none => ([d], .err)
  | some url =>
    match W.receive d.refs with
    | none => ([d], .err)
    | some (refs, mappings) =>
      let d1 : GitDir := { d with refs := refs }
      match fetchHeadOf mappings url (some "origin".toList) [theRefSpec] with
      | .err => ([d, d1], .err)
      | .panic => ([d, d1], .panic)
      | .ok (oid, text) =>
        if !W.writable then ([d, d1], .err)
        else
          let torn : List GitDir := (List.range (text.length + 1)).map fun n => { d1 with fetchHead := some (text.take n) }
          let d2 : GitDir := { d1 with fetchHead := some text }
          match headEdit d2.refs with
          | .err => (d :: d1 :: torn, .err)
          | .panic => (d :: d1 :: torn, .panic)
          | .ok (name, must) =>
            match editRef W.limit d2.refs name must oid with
            | none => (d :: d1 :: torn, .err)
            | some refs' => (d :: d1 :: torn ++ [{ d2 with refs := refs' }], .ok { d2 with refs := refs' })

end Verif.Refs
