import Verif.Model.SourceApi
import Verif.Spec.LockMeaning

/-!
# Specification: which sources a program can hold
-/

namespace Verif.Spec

open Verif Verif.Lock Verif.Semver

/-- The sources a program can obtain from the library: read, constructed, or given another revision. -/
inductive Obtained (U : UrlLib) (fromFile : Str → Option Url) : SourceId → Prop
  | parsed {t : Str} {s : SourceId} (h : SourceId.fromUrl U t = .ok s) : Obtained U fromFile s
  | git {u : Url} {r : GitReference} {s : SourceId} (h : SourceId.forGit u r = .ok s) : Obtained U fromFile s
  | registry {u : Url} {s : SourceId} (h : SourceId.forRegistry u = .ok s) : Obtained U fromFile s
  | path {p : Str} {s : SourceId} (h : SourceId.forPath fromFile p = .ok s) : Obtained U fromFile s
  | localRegistry {p : Str} {s : SourceId} (h : SourceId.forLocalRegistry fromFile p = .ok s) : Obtained U fromFile s
  | directory {p : Str} {s : SourceId} (h : SourceId.forDirectory fromFile p = .ok s) : Obtained U fromFile s
  | default : Obtained U fromFile SourceId.default
  | precise {s : SourceId} {v : Option Str} (h : Obtained U fromFile s) : Obtained U fromFile (s.withPrecise v)

/-- The text names crates.io: its git index, or its sparse index. -/
def NamesCratesIo (U : UrlLib) (t : Str) : Prop :=
  ∃ rest u, Url.parse U rest = some u ∧
    ((t = "registry+".toList ++ rest ∧ u.text = "https://github.com/rust-lang/crates.io-index".toList) ∨
     (t = "sparse+".toList ++ rest ∧ u.text = "https://index.crates.io/".toList))

end Verif.Spec
