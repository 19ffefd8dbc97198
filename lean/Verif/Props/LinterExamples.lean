import Verif.Props.LinterGate

/-!
# Documents that meet the hypotheses of the C24 theorems
-/

namespace Verif.Props

open Verif.Adv Verif.Lint Verif.Spec

/-- Front matter with the header, as text. -/
def goodFront : Str := "[advisory]\nid = \"RUSTSEC-2021-0001\"\n...".toList
/-- The same with an ID of another year, an unknown key and a foreign function. -/
def badFront : Str := "[advisory]\nid = \"RUSTSEC-2020-0001\"\n...".toList
/-- Front matter without the header and with an inline `affected`. -/
def bareFront : Str := "id = \"RUSTSEC-2021-0001\"\naffected = { arch = [\"x86\"] }\n...".toList
/-- Front matter without the header. -/
def bareFront2 : Str := "id = \"RUSTSEC-2021-0001\"\n...".toList

/-- The `[advisory]` table. -/
def goodMeta : TomlTable :=
  [("date".toList, .str "2021-03-04".toList), ("id".toList, .str "RUSTSEC-2021-0001".toList),
   ("package".toList, .str "base-64".toList), ("url".toList, .str "https://example.com".toList),
   ("categories".toList, .arr [.str "denial-of-service".toList])]

/-- The `[versions]` table. -/
def someVersions : Toml := .table [("patched".toList, .arr [.str ">= 1.2.3".toList])]

/-- A TOML parser that knows the texts above. -/
def toyToml (s : Str) : Option TomlTable :=
  if s = goodFront then
    some [("advisory".toList, .table goodMeta), ("versions".toList, someVersions),
          ("affected".toList, .table [("functions".toList,
            .table [("base_64::decode".toList, .arr [.str ">= 1.2.3".toList])]),
            ("arch".toList, .arr [.str "x86".toList]), ("os".toList, .arr [.str "no-such-os".toList])])]
  else if s = badFront then
    some [("advisory".toList, .table
            [("date".toList, .str "2021-03-04".toList), ("id".toList, .str "RUSTSEC-2020-0001".toList),
             ("package".toList, .str "base64".toList), ("severity".toList, .str "high".toList),
             ("url".toList, .str "http://example.com".toList)]),
          ("versions".toList, someVersions),
          ("affected".toList, .table [("functions".toList,
            .table [("other::decode".toList, .arr [])])])]
  else if s = bareFront then
    some (goodMeta ++ [("affected".toList, .table [("arch".toList, .arr [.str "x86".toList])]),
      ("versions".toList, someVersions)])
  else if s = "[advisory]\n".toList ++ bareFront then
    some [("advisory".toList, .table
        (goodMeta ++ [("affected".toList, .table [("arch".toList, .arr [.str "x86".toList])])])),
      ("versions".toList, someVersions)]
  else if s = bareFront2 then some (goodMeta ++ [("versions".toList, someVersions)])
  else if s = "[advisory]\n".toList ++ bareFront2 then
    some [("advisory".toList, .table goodMeta), ("versions".toList, someVersions)]
  else none

/-- Libraries for the examples. -/
def toyLib : AdvLib where
  toml := toyToml
  civil := refCivil
  url := ⟨fun s => some s, fun _ => true⟩
  req := fun s => if s = ">= 1.2.3".toList then
    some ⟨[{ op := .greaterEq, major := 1, minor := some 2, patch := some 3 }]⟩ else none

/-- A document with this front matter. -/
def docOf (front : Str) : Str :=
  "```toml\n".toList ++ front ++ "\n```\n# Title\n\nText by @someone.else, see a@b.\n".toList

/-- The findings only. -/
def findingsOf : Outcome (AdvisoryFile × List Finding) → Outcome (List Finding)
  | .ok (_, fs) => .ok fs
  | .err => .err
  | .panic => .panic

theorem toyToml_distinct : DistinctKeys toyToml := by
  intro fm t h
  unfold toyToml at h
  split at h
  · cases h; decide +kernel
  split at h
  · cases h; decide +kernel
  split at h
  · cases h; decide +kernel
  split at h
  · cases h; decide +kernel
  split at h
  · cases h; decide +kernel
  split at h
  · cases h; decide +kernel
  · cases h

/-- A document that lints clean (hypotheses of `C24_gate`; also: an unknown OS name is not reported). -/
theorem good_lints : findingsOf (lintString toyLib (docOf goodFront) (some false)) = .ok [] := by
  decide +kernel

/-- Hypotheses of `C24_gate` and `C24_returns` are met. -/
example : ∃ a parts rest, lintString toyLib (docOf goodFront) (some false) = .ok (a, []) ∧
    AdvisoryFile.fromStr toyLib (docOf goodFront) = .ok a ∧
    Parts.parse (docOf goodFront) = .ok parts ∧ parts.frontMatter = "[advisory]".toList ++ rest ∧
    a.metadata.date.year = .ok 2021 ∧ a.metadata.id.year = some 2021 ∧ DistinctKeys toyLib.toml := by
  have h := good_lints
  cases hl : lintString toyLib (docOf goodFront) (some false) with
  | err => rw [hl] at h; cases h
  | panic => rw [hl] at h; cases h
  | ok r =>
    obtain ⟨a, fs⟩ := r
    rw [hl] at h
    cases h
    obtain ⟨parts, t, hp, ht, ha, _⟩ := C24_findings_exact _ _ _ _ _ hl
    have h1 : (match AdvisoryFile.fromStr toyLib (docOf goodFront) with
      | .ok a => decide (a.metadata.date.year = .ok 2021 ∧ a.metadata.id.year = some 2021)
      | _ => false) = true := by decide +kernel
    rw [ha] at h1
    simp only [decide_eq_true_eq] at h1
    have h2 : (match Parts.parse (docOf goodFront) with
      | .ok p => advisoryHeader.isPrefixOf p.frontMatter
      | _ => false) = true := by decide +kernel
    rw [hp] at h2
    obtain ⟨rest, hr⟩ := (isPrefixOf_iff _ _).mp h2
    exact ⟨a, parts, rest, rfl, ha, hp, hr, h1.1, h1.2, toyToml_distinct⟩

/-- A document with problems: every one is reported. -/
example : findingsOf (lintString toyLib (docOf badFront) (some true)) =
    .ok [.draftMismatch, .yearMismatch, .unknownKey (some "advisory".toList) "severity".toList,
      .insecureUrl "http://example.com".toList,
      .foreignFunction ["other".toList, "decode".toList]] := by
  decide +kernel

/-- Without the header, every metadata key is reported (`C24_headerless_never_clean`). -/
example : findingsOf (lintString toyLib (docOf bareFront2) (some false)) =
    .ok (goodMeta.map fun kv => .unknownKey none kv.1) := by
  decide +kernel

/-- Without the header and with an inline `affected`, the parser accepts and the linter panics
(`C24_headerless_panics`). -/
example : (AdvisoryFile.fromStr toyLib (docOf bareFront)).isOk = true ∧
    findingsOf (lintString toyLib (docOf bareFront) none) = .panic := by
  refine ⟨?_, ?_⟩ <;> decide +kernel

end Verif.Props
