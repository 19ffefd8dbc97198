import Verif.Model.LockTypes

/-!
# Specification of dependency trees
-/

namespace Verif.Spec

open Verif.Lock

/-- Two sources are the same: same URL, registry name and kind; for git, also the same revision, where a
missing revision agrees with any (the branch or tag does not count). -/
def SameSource (a b : SourceId) : Prop :=
  a.url.text = b.url.text ∧ a.name = b.name ∧
  (((∃ r, a.kind = .git r) ∧ (∃ r, b.kind = .git r) ∧ (a.precise = none ∨ b.precise = none ∨ a.precise = b.precise)) ∨
   (¬ ((∃ r, a.kind = .git r) ∧ (∃ r, b.kind = .git r)) ∧ a.kind = b.kind))

/-- The package a dependency names: same name, version and source. -/
def NamesPkg (d : Dependency) (p : Package) : Prop :=
  d.name = p.name ∧ d.version = p.version ∧
  ((d.source = none ∧ p.source = none) ∨ ∃ a b, d.source = some a ∧ p.source = some b ∧ SameSource a b)

/-- Every git source in the lockfile is pinned to a revision (as Cargo writes them). -/
def Pinned (ps : List Package) : Prop :=
  ∀ p ∈ ps, (∀ s, p.source = some s → (∃ r, s.kind = .git r) → s.precise ≠ none) ∧
    ∀ d ∈ p.dependencies, ∀ s, d.source = some s → (∃ r, s.kind = .git r) → s.precise ≠ none

/-- The node a dependency stands for: the last package it names (the only one, in a lockfile without two
entries for one package). -/
def NodeOf (ps : List Package) (d : Dependency) (i : Nat) : Prop :=
  (∃ p, ps[i]? = some p ∧ NamesPkg d p) ∧ ∀ j p, i < j → ps[j]? = some p → ¬ NamesPkg d p

/-- A printed forest: trees in the order printed, each a node with the forest printed under it. -/
inductive Forest where
  | nil
  | cons (node : Nat) (children rest : Forest)

/-- The top nodes of a forest. -/
def Forest.roots : Forest → List Nat
  | .nil => []
  | .cons i _ rest => i :: rest.roots

/-- Is there another tree? -/
def Forest.more : Forest → Bool
  | .nil => false
  | .cons _ _ _ => true

/-- The lines of a forest below the given levels: a node before its children, children one level deeper; the
level's flag says whether a sibling follows. -/
def Forest.lines (lv : List Bool) : Forest → List (List Bool × Nat)
  | .nil => []
  | .cons i cs rest =>
    let lv' := lv ++ [rest.more]
    (lv', i) :: (cs.lines lv' ++ rest.lines lv)

/-- A forest drawn as text under an indent: every tree starts with a branch (`├──`, or `└──` for the last one),
and what is under it is indented by a bar if another tree follows, by blanks otherwise. -/
def Forest.draw (label : Nat → List Char) (indent : List Char) : Forest → List Char
  | .nil => []
  | .cons i cs rest =>
    indent ++ (if rest.more then "├── ".toList else "└── ".toList) ++ label i ++ ['\n'] ++
      cs.draw label (indent ++ if rest.more then "│   ".toList else "    ".toList) ++ rest.draw label indent

/-- The occurrences of nodes in the order printed, each with what is printed under it. -/
def Forest.occurrences : Forest → List (Nat × Forest)
  | .nil => []
  | .cons i cs rest => (i, cs) :: (cs.occurrences ++ rest.occurrences)

/-- Every node is expanded at its first occurrence, with exactly its neighbours under it, and only there. -/
def ExpandedOnce (nb : Nat → List Nat) (occ : List (Nat × Forest)) : Prop :=
  ∀ a i c b, occ = a ++ (i, c) :: b →
    (i ∉ a.map Prod.fst → c.roots = nb i) ∧ (i ∈ a.map Prod.fst → c = .nil)

/-- Reachability along neighbours. -/
inductive Reach (nb : Nat → List Nat) (i : Nat) : Nat → Prop where
  | refl : Reach nb i i
  | step {j k : Nat} : Reach nb i j → k ∈ nb j → Reach nb i k

/-- The `i`-th package directly or indirectly depends on the `j`-th (or is it). -/
inductive DependsOn (ps : List Package) (i : Nat) : Nat → Prop where
  | refl : DependsOn ps i i
  | step {j k : Nat} {p q : Package} {d : Dependency} : DependsOn ps i j → ps[j]? = some p → ps[k]? = some q →
      d ∈ p.dependencies → NamesPkg d q → DependsOn ps i k

end Verif.Spec
