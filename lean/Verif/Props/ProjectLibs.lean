import Verif.Props.ProjectExamples

/-!
# C91: the parsers with which the advisories of a project are read
-/

namespace Verif.Props

open Verif Verif.Semver Verif.Spec Verif.Adv Verif.Audit Verif.Toml

theorem plainList_eq (l : List Value) : plainList l = l.map plainToml := by
  induction l with
  | nil => rw [plainList]; rfl
  | cons v l ih => rw [plainList, ih]; rfl

theorem plainEntries_eq (l : List (Str × Value)) : plainEntries l = l.map fun e => (e.1, plainToml e.2) := by
  induction l with
  | nil => rw [plainEntries]; rfl
  | cons e l ih => obtain ⟨k, v⟩ := e; rw [plainEntries, ih]; rfl

theorem lookup_plain (k : Str) (l : List (Str × Value)) : (plainEntries l).lookup k = (l.lookup k).map plainToml := by
  rw [plainEntries_eq]
  induction l with
  | nil => rfl
  | cons e l ih =>
    obtain ⟨j, v⟩ := e
    rw [List.map_cons, List.lookup_cons, List.lookup_cons]
    cases k == j
    · exact ih
    · rfl

/-- **C91, how advisories are read.**  A text is read as the TOML document that the TOML specification says it is, with the
same keys; strings, booleans, arrays and tables are what they are there.  Requirements are read as `semver` says, dates and
URLs with the given libraries. -/
theorem C91_libs (P : Project) :
    (∀ s t, P.advLib.toml s = some t ↔ ∃ doc, Toml.read s = some doc ∧ t = plainEntries doc) ∧
    (∀ doc k, (plainEntries doc).lookup k = (doc.lookup k).map plainToml) ∧
    (∀ v s, plainToml v = .str s ↔ v = .str s) ∧ (∀ v b, plainToml v = .bool b ↔ v = .bool b) ∧
    (∀ v l, plainToml v = .arr l ↔ ∃ m, v = .arr m ∧ l = m.map plainToml) ∧
    (∀ v t, plainToml v = .table t ↔ ∃ m, v = .table m ∧ t = m.map fun e => (e.1, plainToml e.2)) ∧
    P.advLib.req = readReq ∧ P.advLib.civil = P.civil ∧ P.advLib.url = P.url := by
  refine ⟨?_, fun doc k => lookup_plain k doc, ?_, ?_, ?_, ?_, rfl, rfl, rfl⟩
  · intro s t
    show (Toml.read s).map plainEntries = some t ↔ _
    rw [Option.map_eq_some_iff]
    exact ⟨fun ⟨d, h1, h2⟩ => ⟨d, h1, h2.symm⟩, fun ⟨d, h1, h2⟩ => ⟨d, h1, h2.symm⟩⟩
  · intro v s; cases v <;> simp [plainToml]
  · intro v s; cases v <;> simp [plainToml]
  · intro v l
    cases v <;> simp [plainToml, plainList_eq, eq_comm]
  · intro v l
    cases v <;> simp [plainToml, plainEntries_eq, eq_comm]

/-- An advisory whose table has a boolean, and one with a date that is none. -/
example : (match AdvisoryFile.fromStr (exProject [] none []).advLib (projectAdvisory ["expect-deleted = true"]) with
    | .ok f => f.metadata.expectDeleted
    | _ => false) = true ∧
    (AdvisoryFile.fromStr (exProject [] none []).advLib (projectAdvisory ["withdrawn = \"yesterday\""])).isOk = false := by
  decide +kernel

end Verif.Props
