import Verif.Spec.LockCommands

/-!
# Specification: the drawing of a tree of packages (C102)
-/

namespace Verif.Spec

open Verif Verif.Lock Verif.LockCli Verif.Semver

/-- What a line says about a package: its name and version; in exact form also its checksum, else its source, else
`inexact`. -/
inductive PackageLabel (p : Package) : Bool → Str → Prop
  | short : PackageLabel p false (p.name ++ " ".toList ++ p.version.text)
  | checksum (c : Checksum) (h : p.checksum = some c) :
      PackageLabel p true (p.name ++ " ".toList ++ p.version.text ++ " checksum:".toList ++ c.show)
  | source (s : SourceId) (h : p.checksum = none) (hs : p.source = some s) :
      PackageLabel p true (p.name ++ " ".toList ++ p.version.text ++ " ".toList ++ s.asUrl false)
  | inexact (h : p.checksum = none) (hs : p.source = none) :
      PackageLabel p true (p.name ++ " ".toList ++ p.version.text ++ " inexact".toList)

/-- What stands under the `i`-th package: the packages that it depends on, the last one first. -/
def StandsUnder (ps : List Package) (i : Nat) (below : List Nat) : Prop :=
  ∀ p, ps[i]? = some p → List.Forall₂ (fun d j => ∃ q, ps[j]? = some q ∧ NamesPkg d q) p.dependencies.reverse below

open Classical in
/-- What stands under the `i`-th package in an inverse tree: the packages that depend on it, each as often as it does. -/
def StandsUnderInverse (ps : List Package) (i : Nat) (below : List Nat) : Prop :=
  (∀ j ∈ below, j < ps.length) ∧
  ∀ p q, ps[i]? = some q → ∀ j, ps[j]? = some p → below.count j = p.dependencies.countP fun d => decide (NamesPkg d q)

/-- The text is the drawing of the tree of the `i`-th package: its label, and under it a forest in which every package has under
it what it should where it stands first, and nothing elsewhere. -/
def TreeOf (ps : List Package) (inverse exact : Bool) (i : Nat) (text : Str) : Prop :=
  ∃ (forest : Forest) (label : Nat → Str) (below : Nat → List Nat),
    (∀ k p, ps[k]? = some p → PackageLabel p exact (label k)) ∧
    (∀ k < ps.length, if inverse then StandsUnderInverse ps k (below k) else StandsUnder ps k (below k)) ∧
    ExpandedOnce below ((i, forest) :: forest.occurrences) ∧
    text = label i ++ ['\n'] ++ forest.draw label []

/-- The text has a line with this label. -/
def HasLine (text label : Str) : Prop :=
  ∃ a lead b, text = a ++ (lead ++ (label ++ '\n' :: b)) ∧ (a = [] ∨ a.getLast? = some '\n') ∧
    ∀ c ∈ lead, c ∈ [' ', '│', '├', '└', '─']

end Verif.Spec
