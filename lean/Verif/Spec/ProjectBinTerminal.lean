import Verif.Model.ProjectBinTerminal
import Verif.Spec.ProjectBin
import Verif.Spec.ProjectTerminal

/-!
# Specification: what `cargo audit bin` shows about the bytes of binaries (C106)
-/

namespace Verif.Spec

open Verif Verif.Semver Verif.Lock Verif.Adv Verif.Audit Verif.Bin
open Verif.AdminLint (Checkout)

/-- What the bytes and the texts tell, as a block of lines: a vulnerability; an informational advisory that is asked for; a
yanked package.  Warnings of denied kinds are errors. -/
inductive BinTold (P : Project) (B : Binaries) (T : TermLib) (c : AuditConfig) (ch : Checkout) (ds : Option Nat)
    (data : List UInt8) : List TermLine → Prop
  | vulnerability (f : AdvisoryFile) (name : Str) (version : Version) {block : List TermLine}
      (h : BinFindingOf P B c ch ds data f name version) (hi : f.metadata.informational = none)
      (hs : PrintsVulnerability T f name version block) : BinTold P B T c ch ds data block
  | warning (f : AdvisoryFile) (name : Str) (version : Version) (i : Informational) (kind : WarningKind) (error : Bool)
      {block : List TermLine} (h : BinFindingOf P B c ch ds data f name version) (hi : f.metadata.informational = some i)
      (he : Enabled c i) (hk : WarnsAs i kind) (hd : error = true ↔ Denied c.output.deny kind)
      (hs : PrintsWarning T (some f) kind error name version block) : BinTold P B T c ch ds data block
  | yanked (name : Str) (version : Version) (error : Bool) {block : List TermLine}
      (h : BinYankedOf P B c ds data name version) (hd : error = true ↔ Denied c.output.deny .yanked)
      (hs : PrintsWarning T none .yanked error name version block) : BinTold P B T c ch ds data block

/-- What is shown about a binary that says what it is made of: messages, blocks of lines, totals.  Every block tells what the
bytes and the texts tell, everything that they tell has a block, and something is an error exactly if they are damning. -/
structure ToldAll (P : Project) (B : Binaries) (T : TermLib) (c : AuditConfig) (ch : Checkout) (ds : Option Nat)
    (data : List UInt8) (shown : List Shown) : Prop where
  blocks : ∃ (before : List Shown) (blocks : List (List TermLine)) (sums : List TermLine),
    shown = before ++ (blocks.flatten ++ sums).map .screen ∧ (∀ x ∈ before, ∃ m, x = .status m) ∧
    (∀ x ∈ sums, ∃ error s, x = .total error s) ∧
    (∀ block ∈ blocks, BinTold P B T c ch ds data block) ∧
    (∀ f name version, BinFindingOf P B c ch ds data f name version → f.metadata.informational = none →
      ∃ block ∈ blocks, PrintsVulnerability T f name version block) ∧
    (∀ f name version i kind, BinFindingOf P B c ch ds data f name version → f.metadata.informational = some i → Enabled c i →
      WarnsAs i kind → ∃ block ∈ blocks, ∃ error, (error = true ↔ Denied c.output.deny kind) ∧
        PrintsWarning T (some f) kind error name version block) ∧
    (∀ name version, BinYankedOf P B c ds data name version → ∃ block ∈ blocks, ∃ error,
      (error = true ↔ Denied c.output.deny .yanked) ∧ PrintsWarning T none .yanked error name version block)
  errors : (∃ x, .screen x ∈ shown ∧ Red x) ↔ BinDamning P B c ch ds data

end Verif.Spec
