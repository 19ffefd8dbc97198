import Verif.Model.Tree

/-!
# The cached crates.io index

Models `rustsec/src/cached_index.rs`.  The index itself (`tame_index`, network and disk) is an argument of
every call, because it can answer differently from call to call.
-/

namespace Verif.Yank

open Verif.Semver Verif.Lock

/-- The answer of one index lookup, `Result<Option<IndexKrate>, Error>` (`cached_index.rs:22-35`), and also what
`CachedIndex::insert` keeps of it (`cached_index.rs:201-217`): of a crate only the pairs (version text, yanked).
The pairs are kept in index order; the `HashMap` they are collected into keeps the last of equal keys. -/
inductive Krate where
  | error
  | missing
  | versions (vs : List (Str × Bool))
  deriving DecidableEq, Repr

/-- What the outside world answers during one call. -/
structure Registry where
  /-- `Index::krate` (`cached_index.rs:22-35`): what is on disk. -/
  cached : Str → Krate
  /-- `krates_blocking` of the remote index for all requested names (`cached_index.rs:155-195`); `none` if the
  runtime could not be started or the request failed as a whole. -/
  download : Option (Str → Krate)

/-- `enum Index` (`cached_index.rs:15-18`). -/
inductive IndexKind where
  | sparseCached
  | sparseRemote
  deriving DecidableEq, Repr

/-- `struct CachedIndex` (`cached_index.rs:46-54`) without the file lock; the `HashMap` is an association list
searched from the front. -/
structure CachedIndex where
  kind : IndexKind
  cache : List (Str × Krate) := []
  deriving DecidableEq, Repr

/-- `CachedIndex::insert` (`cached_index.rs:201-217`). -/
def CachedIndex.insert (ci : CachedIndex) (name : Str) (k : Krate) : CachedIndex :=
  { ci with cache := (name, k) :: ci.cache }

/-- `self.cache.contains_key`. -/
def CachedIndex.contains (ci : CachedIndex) (name : Str) : Bool := (ci.cache.lookup name).isSome

/-- `CachedIndex::populate_cache` (`cached_index.rs:146-199`); the Boolean is `Ok`. -/
def CachedIndex.populate (w : Registry) (ci : CachedIndex) (names : List Str) : CachedIndex × Bool :=
  let todo := names.filter fun n => !ci.contains n
  match ci.kind with
  | .sparseCached => (todo.foldl (fun ci n => ci.insert n (w.cached n)) ci, true)
  | .sparseRemote =>
    match w.download with
    | none => (ci, false)
    | some results => (todo.foldl (fun ci n => ci.insert n (results n)) ci, true)

/-- `HashMap::get` on the map collected from the pairs: the last pair with that key. -/
def getLast (vs : List (Str × Bool)) (v : Str) : Option Bool := vs.reverse.lookup v

/-- `CachedIndex::is_yanked` (`cached_index.rs:220-245`); `err` is any error, `panic` the indexing of the cache by
a missing name. -/
def CachedIndex.isYanked (C : Codec) (w : Registry) (ci : CachedIndex) (p : Package) : CachedIndex × Outcome Bool :=
  let ci := if ci.contains p.name then ci else ci.insert p.name (w.cached p.name)
  (ci,
    match ci.cache.lookup p.name with
    | none => .panic
    | some (.versions vs) =>
      match getLast vs (C.showVersion p.version) with
      | some y => .ok y
      | none => .err
    | some .missing => .err
    | some .error => .err)

/-- Derived `Ord` of `Option<T>`: `None` first. -/
def optCmp {α : Type} (cmp : α → α → Ordering) : Option α → Option α → Ordering
  | none, none => .eq
  | none, some _ => .lt
  | some _, none => .gt
  | some a, some b => cmp a b

/-- Derived `Ord` of `Package` (`cargo-lock/src/package.rs:18-39`), field by field. -/
def packageCmp (a b : Package) : Ordering :=
  (strCmp a.name b.name).then <| (a.version.cmp b.version).then <| (optSourceCmp a.source b.source).then <|
  (optCmp (List.compareLex compare) a.checksum b.checksum).then <|
  (List.compareLex Dependency.cmp a.dependencies b.dependencies).then <|
  optCmp Dependency.cmp a.replace b.replace

/-- `BTreeSet::insert` on the ascending list of elements; an equal element stays. -/
def setInsert {α : Type} (cmp : α → α → Ordering) (x : α) : List α → List α
  | [] => [x]
  | y :: ys =>
    match cmp x y with
    | .lt => x :: y :: ys
    | .eq => y :: ys
    | .gt => y :: setInsert cmp x ys

/-- `collect::<BTreeSet<_>>()`. -/
def toSet {α : Type} (cmp : α → α → Ordering) (l : List α) : List α := l.foldl (fun s x => setInsert cmp x s) []

/-- The loop of `find_yanked` (`cached_index.rs:272-278`): state and pushed results. -/
def yankLoop (C : Codec) (w : Registry) : CachedIndex → List Package → CachedIndex × List (Outcome Package)
  | ci, [] => (ci, [])
  | ci, p :: ps =>
    let (ci1, r) := ci.isYanked C w p
    let (ci2, rest) := yankLoop C w ci1 ps
    (ci2,
      match r with
      | .ok false => rest
      | .ok true => .ok p :: rest
      | .err => .err :: rest
      | .panic => .panic :: rest)

/-- `CachedIndex::find_yanked` (`cached_index.rs:253-281`). -/
def CachedIndex.findYanked (C : Codec) (w : Registry) (ci : CachedIndex) (packages : List Package) :
    CachedIndex × List (Outcome Package) :=
  let dedup := toSet packageCmp packages
  let names := toSet strCmp (dedup.map (·.name))
  let (ci1, ok) := ci.populate w names
  let (ci2, rs) := yankLoop C w ci1 dedup
  (ci2, if ok then rs else .err :: rs)

/-- A sequence of `find_yanked` calls. -/
def CachedIndex.run (C : Codec) (ci : CachedIndex) : List (Registry × List Package) → CachedIndex
  | [] => ci
  | (w, ps) :: h => CachedIndex.run C (ci.findYanked C w ps).1 h

end Verif.Yank
