import Verif.Model.ProjectBin
import Verif.Spec.Project
import Verif.Spec.BinaryDeps
import Verif.Spec.Binary

/-!
# Specification: what the bytes of a binary say
-/

namespace Verif.Spec

open Verif Verif.Semver Verif.Lock Verif.Adv Verif.Audit Verif.Bin
open Verif.AdminLint (Checkout)

/-- The binary at a path: it can be read and is not larger than the limit (100 MiB unless given). -/
def BinaryAt (B : Binaries) (maxBinarySize : Option Nat) (path : Str) (data : List UInt8) : Prop :=
  B.bytesOf path = some data ∧ data.length ≤ maxBinarySize.getD (100 * 1024 * 1024)

/-- What the binary has in the section for its dependencies, read with the limit (8 MiB unless given). -/
def Embedded (B : Binaries) (auditDataSizeLimit : Option Nat) (data : List UInt8) : AuditInfo :=
  B.auditInfo data (auditDataSizeLimit.getD (8 * 1024 * 1024))

/-- There is a path with this separator in the data, `cargo/registry/src/<dir>/<name>-<version>/`. -/
def Traced (sep : UInt8) (data : List UInt8) (name : Str) (version : Version) : Prop :=
  ∃ pos dir crate v, PathAt sep data pos dir crate v ∧ name = ascii crate ∧ readVersion (ascii v) = some version

/-- The binary says that this version of this package, from crates.io, is part of it: in the embedded list; or, if there is
none, by a path with slashes; or, if there is none of these either, by a path with backslashes. -/
inductive Carries (B : Binaries) (ds : Option Nat) (data : List UInt8) : Str → Version → Prop
  | listed {input : List AuditPackage} (h : Embedded B ds data = .found input) {e : AuditPackage} (he : e ∈ input)
      (hs : e.source = .cratesIo) : Carries B ds data e.name e.version
  | traced (h : Embedded B ds data = .noAuditData) {name : Str} {version : Version} (ht : Traced slash data name version) :
      Carries B ds data name version
  | windows (h : Embedded B ds data = .noAuditData) {name : Str} {version : Version}
      (hno : ∀ name' version', ¬ Traced slash data name' version') (ht : Traced backslash data name version) :
      Carries B ds data name version

/-- The binary says what it is made of: a well-formed list is embedded; or there is none, but some path. -/
inductive Scannable (B : Binaries) (ds : Option Nat) (data : List UInt8) : Prop
  | listed {input : List AuditPackage} (h : Embedded B ds data = .found input) (hi : IndicesInRange input)
      (hr : AtMostOneRoot input)
  | traced (h : Embedded B ds data = .noAuditData) {name : Str} {version : Version} (hc : Carries B ds data name version)

/-- The format of a binary: the one detected; or WebAssembly, if none is and the data starts as such a file does. -/
inductive HasFormat (B : Binaries) (data : List UInt8) : BinaryFormat → Prop
  | detected (h : B.format data ≠ .unknown) : HasFormat B data (B.format data)
  | wasm (h : B.format data = .unknown) {rest : List UInt8} (hd : data = 0 :: (bytes "asm" ++ rest)) : HasFormat B data .wasm
  | unknown (h : B.format data = .unknown) (hd : ∀ rest, data ≠ 0 :: (bytes "asm" ++ rest)) : HasFormat B data .unknown

/-- The git index of crates.io. -/
def GitIndex (s : SourceId) : Prop :=
  s.kind = .registry ∧ s.url.text = "https://github.com/rust-lang/crates.io-index".toList

/-- The binary carries this version of this package, and a file below `crates` of the checkout has the text of an advisory
that concerns it and that is not limited to operating systems which do not run the binary. -/
structure BinFindingOf (P : Project) (B : Binaries) (c : AuditConfig) (ch : Checkout) (ds : Option Nat) (data : List UInt8)
    (f : AdvisoryFile) (name : Str) (version : Version) : Prop where
  carries : Carries B ds data name version
  file : ∃ text, HasFile ch .crates text ∧ AdvisoryOf P.advLib text f
  tells : ∃ source, GitIndex source ∧ Tells c f name version source
  runs : ∀ format, HasFormat B data format → Concerns format f.affected

/-- The index that is consulted says that this version of this package, which the binary carries, is yanked. -/
def BinYankedOf (P : Project) (B : Binaries) (c : AuditConfig) (ds : Option Nat) (data : List UInt8) (name : Str)
    (version : Version) : Prop :=
  Carries B ds data name version ∧ ∃ kind, IndexUsed (P.env none) c kind ∧
    ∃ vs, answerOf kind P.registry name = .versions vs ∧ SaysYanked vs version.text

/-- The bytes of the binary and the texts of the advisories make the run fail: a vulnerability; an informational advisory of
a denied kind; a yanked package, if that is denied. -/
def BinDamning (P : Project) (B : Binaries) (c : AuditConfig) (ch : Checkout) (ds : Option Nat) (data : List UInt8) : Prop :=
  (∃ f name version, BinFindingOf P B c ch ds data f name version ∧ f.metadata.informational = none) ∨
  (∃ f name version i k, BinFindingOf P B c ch ds data f name version ∧ f.metadata.informational = some i ∧ WarnsAs i k ∧
    Denied c.output.deny k) ∨
  (Denied c.output.deny .yanked ∧ ∃ name version, BinYankedOf P B c ds data name version)

/-- No path in the data has a version that ends in `cargo`: another path could start inside it. -/
def NoOverlap (data : List UInt8) : Prop :=
  ∀ sep, (sep = slash ∨ sep = backslash) → ∀ pos dir crate version,
    PathAt sep data pos dir crate version → ¬ bytes "cargo" <:+ version

end Verif.Spec
