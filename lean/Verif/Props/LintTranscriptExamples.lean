import Verif.Props.LintTranscript
import Verif.Props.ProjectLintExamples

/-!
# C95: examples
-/

namespace Verif.Props

open Verif.Audit Verif.Adv Verif.Db Verif.Spec Verif.AdminLint Verif.Lint

/-- The text of lines. -/
private def textOf (l : List String) : Str := l.flatMap fun s => s.toList ++ ['\n']

/-- An advisory whose description mentions a user; `gap` is the lines before the title. -/
def mentioningFile (gap : List String) : Str := textOf (
  ["```toml", "[advisory]", "id = \"RUSTSEC-2021-0001\"", "package = \"foo\"", "date = \"2021-03-04\"", "```"] ++ gap ++
  ["# It breaks", "", "Thanks (to @alice) and @bob,", "see a@example.org."])

/-- Its parts. -/
def mentioningParts : Parts :=
  { frontMatter := ((textOf ["[advisory]", "id = \"RUSTSEC-2021-0001\"", "package = \"foo\"", "date = \"2021-03-04\""]).dropLast)
    markdown := textOf ["# It breaks", "", "Thanks (to @alice) and @bob,", "see a@example.org."]
    title := "It breaks".toList
    description := (textOf ["Thanks (to @alice) and @bob,", "see a@example.org."]).dropLast }

/-- The hypotheses of `C95_line_numbers` are met; the message is about `alice` on line 10. -/
example : WellFormedFile (mentioningFile [""]) mentioningParts ∧ UsualLayout (mentioningFile [""]) mentioningParts ∧
    mentioningParts.frontMatter ≠ [] ∧ mentionMessages mentioningParts = [("alice".toList, 10)] := by
  refine ⟨(C22_parse_iff _ _).mp (by decide +kernel), ?_, by decide +kernel, by decide +kernel⟩
  unfold UsualLayout
  decide +kernel

/-- **C95, violation.**  In other layouts the number is not that of the line: here the file has no blank line before the
title, line 10 mentions nobody, and the mention is on line 9. -/
theorem C95_line_numbers_wrong :
    ∃ text parts, WellFormedFile text parts ∧ (("alice".toList, 10) ∈ mentionMessages parts) ∧
      FirstMention text 8 "alice".toList ∧ ∀ user, ¬ FirstMention text 9 user := by
  refine ⟨mentioningFile [], mentioningParts, (C22_parse_iff _ _).mp (by decide +kernel), by decide +kernel,
    (seekUser_iff _ _ _).mp (by decide +kernel), ?_⟩
  intro user h
  have h1 := (seekUser_iff _ _ _).mpr h
  have h2 : seekUser (mentioningFile []) 9 = none := by decide +kernel
  rw [h2] at h1
  cases h1

/-- A checkout with a file with problems, one without, and one in `rust`, listed out of order. -/
private def twoFiles (swap : Bool) : Checkout :=
  let good := Item.file "RUSTSEC-2021-0001.md".toList (some (projectAdvisory []))
  let bad := Item.file "RUSTSEC-2020-0007.md".toList (some (projectAdvisory ["nope = 1"]))
  { crates := some [.dir "foo".toList (if swap then [bad, good] else [good, bad])], rust := some [] }

private def exLint (lockFree : Bool) (ch : Checkout) : List Notice × End :=
  sayLint ((exProject [] none []).lintEnv none lockFree) true lintIndex ch

/-- The hypotheses of the theorems about the output are met: the file with an unknown key is printed with it, before the
other, in both listings. -/
example : NamesDistinct (twoFiles false) ∧ SameFiles (twoFiles false) (twoFiles true) ∧
    exLint true (twoFiles false) =
      ([.faulty ⟨.crates, "foo".toList, "RUSTSEC-2020-0007.md".toList⟩ [.unknownKey (some "advisory".toList) "nope".toList],
        .linted ⟨.crates, "foo".toList, "RUSTSEC-2021-0001.md".toList⟩], .counted 1) := by
  refine ⟨⟨?_, ?_⟩, ?_, by decide +kernel⟩
  · intro c entries h
    cases c <;> cases h <;> decide +kernel
  · intro c entries dir items h hi
    cases c with
    | crates => cases h; cases List.mem_singleton.mp hi; decide +kernel
    | rust => cases h; cases hi
  · intro c
    cases c with
    | crates => exact .some (List.Perm.refl _) (.cons (.dir _ (List.Perm.swap _ _ _)) .nil)
    | rust => exact .some (List.Perm.refl _) .nil

/-- Runs that are given up: a stray file, a stray entry, a text that is no advisory, a crate that is not there; with the
notices printed before. -/
example :
    exLint true ⟨some [.other "README.md".toList], some []⟩ = ([], .halted (.stopped (.strayFile .crates "README.md".toList))) ∧
    exLint true ⟨some [.dir "foo".toList [.other "x".toList]], some []⟩ =
      ([], .halted (.stopped (.strayEntry ⟨.crates, "foo".toList, "x".toList⟩))) ∧
    exLint true ⟨some [.dir "foo".toList [.file "RUSTSEC-2021-0001.md".toList (some (projectAdvisory [])),
        .file "z.md".toList (some "z".toList)]], some []⟩ =
      ([.linted ⟨.crates, "foo".toList, "RUSTSEC-2021-0001.md".toList⟩],
        .halted (.stopped (.rejected ⟨.crates, "foo".toList, "z.md".toList⟩))) ∧
    (sayLint ((exProject [] none []).lintEnv none true) false (fun _ => .missing) (twoFiles true)).2 =
      .halted (.stopped (.noCrate "foo".toList ⟨.rustSec, some 2021, "RUSTSEC-2021-0001".toList⟩)) ∧
    (sayLint ((exProject [] none []).lintEnv none false) false (fun _ => .missing) (twoFiles true)).2 = .counted 1 := by
  refine ⟨?_, ?_, ?_, ?_, ?_⟩ <;> decide +kernel

end Verif.Props
