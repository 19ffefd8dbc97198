import Verif.Props.LockMeaning
import Verif.Props.ProjectExamples
import Verif.Props.ProjectLoad

/-!
# C96: `cargo audit` in terms of the meaning of the lockfile, and examples
-/

namespace Verif.Props

open Verif Verif.Lock Verif.Semver Verif.Toml Verif.Audit Verif.Adv Verif.Spec Verif.Db

/-- **Property C96** (`cargo audit`): if the dependency tree can be built wherever it is needed, `cargo audit` exits with 0
exactly if the configuration and the database can be read, the lockfile's text means a lockfile, and the texts are not
damning. -/
theorem C96_audit (P : Project) (hF : P.fp.Ok) (cmd : AuditCommand)
    (hpr : ∀ c text l, Configured P cmd c → LockOf P cmd.file text → LockfileOf (semverCodec P.url) text l → Printable c l) :
    (P.run cmd).2 = .code 0 ↔
      ∃ c text l ch, Configured P cmd c ∧ LockOf P cmd.file text ∧ LockfileOf (semverCodec P.url) text l ∧
        CheckoutOf P c ch ∧ DatabaseReads P.advLib ch ∧ ¬ Damning P cmd.file c ch text := by
  rw [C91_iff P hF cmd fun c text l h1 h2 h3 => hpr c text l h1 h2 ((C96_lockfile _ _ _).mp h3)]
  constructor
  · rintro ⟨c, text, ch, h1, h2, ⟨l, h3⟩, h4⟩
    exact ⟨c, text, l, ch, h1, h2, (C96_lockfile _ _ _).mp h3, h4⟩
  · rintro ⟨c, text, l, ch, h1, h2, h3, h4⟩
    exact ⟨c, text, ch, h1, h2, ⟨l, (C96_lockfile _ _ _).mpr h3⟩, h4⟩

/-! ### Examples -/

/-- Lines of text. -/
private def textLines (l : List String) : Str := l.flatMap fun s => s.toList ++ ['\n']

/-- The outcome is a value with a property. -/
private def okAnd {α : Type} (o : Outcome α) (p : α → Bool) : Bool :=
  match o with
  | .ok a => p a
  | _ => false

private theorem okAnd_exists {α : Type} {o : Outcome α} {p : α → Bool} (h : okAnd o p = true) : ∃ a, o = .ok a ∧ p a = true := by
  cases o with
  | ok a => exact ⟨a, rfl, h⟩
  | err => cases h
  | panic => cases h

/-- A lockfile without a version: the reference `b` is to the first `b`; the reference to `b 2.0.0` is to the second; `c` is
not listed but its reference says everything. -/
private def lockV2 : Str := textLines
  ["[[package]]",
   "name = \"a\"",
   "version = \"0.1.0\"",
   "dependencies = [",
   " \"b\",",
   " \"  b   2.0.0 \",",
   " \"c 1.0.0 (registry+https://c.example/)\"]",
   "[[package]]",
   "name = \"b\"",
   "version = \"1.0.0\"",
   "[[package]]",
   "name = \"b\"",
   "version = \"2.0.0\"",
   "source = \"git+https://b.example/x?tag=t&rev=r#77\""]

example : ∃ l, LockfileOf (semverCodec toyUrl) lockV2 l ∧ l.version = .v2 ∧
    l.packages.map (fun p => p.dependencies.map fun d => (d.name, d.version.text)) =
      [[("b".toList, "1.0.0".toList), ("b".toList, "2.0.0".toList), ("c".toList, "1.0.0".toList)], [], []] ∧
    l.packages.map (fun p => p.source.map fun s => (s.kind, s.precise)) =
      [none, none, some (.git (.rev "r".toList), some "77".toList)] := by
  obtain ⟨l, h, hl⟩ := okAnd_exists (o := Lockfile.fromText (semverCodec toyUrl) Toml.read lockV2) (p := fun l =>
    decide (l.version = .v2) &&
    (decide (l.packages.map (fun p => p.dependencies.map fun d => (d.name, d.version.text)) =
      [[("b".toList, "1.0.0".toList), ("b".toList, "2.0.0".toList), ("c".toList, "1.0.0".toList)], [], []]) &&
    decide (l.packages.map (fun p => p.source.map fun s => (s.kind, s.precise)) =
      [none, none, some (.git (.rev "r".toList), some "77".toList)]))) (by decide +kernel)
  simp only [Bool.and_eq_true, decide_eq_true_eq] at hl
  exact ⟨l, (C96_lockfile _ _ _).mp h, hl⟩

/-- A lockfile of format 1: a checksum in the metadata, and one that is not a checksum. -/
private def lockV1 (dep : String) (value : String) : Str := textLines
  ["[[package]]",
   "name = \"a\"",
   "version = \"0.1.0\"",
   "dependencies = [\"" ++ dep ++ "\"]",
   "[[package]]",
   "name = \"b\"",
   "version = \"1.0.0\"",
   "[metadata]",
   "\"checksum b 1.0.0\" = \"" ++ value ++ "\"",
   "\"checksum a 0.1.0\" = \"<none>\""]

private def zeros : String := "0000000000000000000000000000000"

private def zeros30 : String := "000000000000000000000000000000"

example : ∃ l, LockfileOf (semverCodec toyUrl) (lockV1 "b 1.0.0" ("f0" ++ zeros ++ zeros)) l ∧ l.version = .v1 ∧
    l.packages.map (·.checksum) = [none, some (240 :: List.replicate 31 0)] ∧
    l.metadata.map (·.1) = ["checksum a 0.1.0".toList, "checksum b 1.0.0".toList] := by
  obtain ⟨l, h, hl⟩ := okAnd_exists (o := Lockfile.fromText (semverCodec toyUrl) Toml.read (lockV1 "b 1.0.0" ("f0" ++ zeros ++ zeros)))
    (p := fun l => decide (l.version = .v1) &&
    (decide (l.packages.map (·.checksum) = [none, some (240 :: List.replicate 31 0)]) &&
    decide (l.metadata.map (·.1) = ["checksum a 0.1.0".toList, "checksum b 1.0.0".toList]))) (by decide +kernel)
  simp only [Bool.and_eq_true, decide_eq_true_eq] at hl
  exact ⟨l, (C96_lockfile _ _ _).mp h, hl⟩

private theorem notOk {α : Type} {o : Outcome α} (h : okAnd o (fun _ => true) = false) (a : α) : o ≠ .ok a := by
  rintro rfl
  cases h

/-- In format 1 a reference must say its version. -/
example (l : Lockfile) : ¬ LockfileOf (semverCodec toyUrl) (lockV1 "b" "") l := by
  rw [← C96_lockfile]
  exact notOk (by decide +kernel) l

/-- The outcome is a panic. -/
private def panics {α : Type} : Outcome α → Bool
  | .panic => true
  | _ => false

/-- **Finding.**  A lockfile with a checksum of 64 bytes in which `é` stands at an odd place makes the parser panic. -/
theorem C96_panic_reached : ∃ text, Lockfile.fromText (semverCodec toyUrl) Toml.read text = .panic := by
  refine ⟨lockV1 "b 1.0.0" ("0é0" ++ zeros30 ++ zeros30), ?_⟩
  have : panics (Lockfile.fromText (semverCodec toyUrl) Toml.read (lockV1 "b 1.0.0" ("0é0" ++ zeros30 ++ zeros30))) = true := by
    decide +kernel
  revert this
  generalize Lockfile.fromText (semverCodec toyUrl) Toml.read (lockV1 "b 1.0.0" ("0é0" ++ zeros30 ++ zeros30)) = o
  cases o with
  | panic => exact fun _ => rfl
  | ok l => exact fun h => by cases h
  | err => exact fun h => by cases h

/-- The words of a text. -/
example : Words " b \t 2.0.0\n".toList ["b".toList, "2.0.0".toList] := (words_iff _ _).mp (by decide +kernel)

/-- The project of C91: its lockfile's text means a lockfile. -/
example : ∃ l, LockfileOf (semverCodec (exProject (projectLock "1.2.3") none (projectAdvisory [])).url) (projectLock "1.2.3") l ∧
    l.packages.length = 2 := by
  obtain ⟨l, h, hl⟩ := okAnd_exists (o := Lockfile.fromText (semverCodec (exProject (projectLock "1.2.3") none (projectAdvisory [])).url)
    Toml.read (projectLock "1.2.3")) (p := fun l => decide (l.packages.length = 2)) (by decide +kernel)
  exact ⟨l, (C96_lockfile _ _ _).mp h, by simpa using hl⟩

end Verif.Props
