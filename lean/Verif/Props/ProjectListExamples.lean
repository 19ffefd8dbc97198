import Verif.Props.ProjectList
import Verif.Props.ProjectExamples

/-!
# Examples for C104
-/

namespace Verif.Props

open Verif Verif.Semver Verif.Adv Verif.Audit Verif.Spec Verif.ListVersions
open Verif.AdminLint (Checkout)

private def P : Project := exProject [] none []

/-- crates.io has these versions of `foo`, and no other crate. -/
private def env (versions : List String) : ListEnv where
  adv := P.advLib
  sev := P.severityOf
  index := some fun name => if name = "foo".toList then .found (versions.map String.toList) else .missing
  validName := fun _ => true
  version := readVersion
  lockFree := true

/-- A checkout with an advisory on `foo` and a draft. -/
private def disk : Checkout :=
  { crates := some [.dir "foo".toList [.file "RUSTSEC-2021-0001.md".toList (some (projectAdvisory []))]], rust := none }

private def textsOf (r : ListRun) : List Str := r.said.filterMap fun s => match s with
  | .line t => some t
  | .loaded i p => some (i.string ++ " ".toList ++ p)

/-- `>= 1.2.3` and `~1.0.9` are patched; a pre-release of 1.2.3 is not, and build metadata is part of a text. -/
example : textsOf (listCommand (env ["1.0.8", "1.0.9+x", "1.1.0", "1.2.3-rc.1", "1.2.3"]) (fun _ => disk) []) =
      ["RUSTSEC-2021-0001 foo", "1.0.8 vulnerable", "1.0.9+x OK", "1.1.0 vulnerable", "1.2.3-rc.1 vulnerable",
       "1.2.3 OK"].map String.toList ∧
    (listCommand (env ["1.0.8", "1.0.9+x", "1.1.0", "1.2.3-rc.1", "1.2.3"]) (fun _ => disk) []).result = .ok () := by
  decide +kernel

/-- The hypotheses of C104 are met. -/
example : (env []).adv = P.advLib ∧ (env []).sev = P.severityOf ∧ (env []).version = readVersion ∧
    OnePath [] ".".toList := ⟨rfl, rfl, rfl, .inl ⟨rfl, rfl⟩⟩

/-- A text that is not that of a semantic version: what comes before it is printed. -/
example : textsOf (listCommand (env ["1.0.8", "1.2", "1.2.3"]) (fun _ => disk) []) =
      ["RUSTSEC-2021-0001 foo", "1.0.8 vulnerable"].map String.toList ∧
    (listCommand (env ["1.0.8", "1.2", "1.2.3"]) (fun _ => disk) []).result = .panic := by decide +kernel

end Verif.Props
