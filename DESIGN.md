# Formal model of rustsec/rustsec in Lean 4

## Layout

* `lean/Verif/Model/*.lean` - the model: total functions transcribing the Rust code, each with a comment citing the
  file and lines it models and what is simplified.
* `lean/Verif/Spec/*.lean` - small independent specifications (what the English properties mean), not using the
  model's helpers beyond its data types.
* `lean/Verif/Lemmas/*.lean` - auxiliary facts used by proofs.
* `lean/Verif/Props/*.lean` - the theorems `Cnn_...` of each property, stated with the spec vocabulary, with
  `example`s showing that concrete non-trivial cases meet the hypotheses.
* `tools/` - generators: `gen_cvss.py` (v4 lookup table, metric enumerations), `gen_platforms.py` (platform table)
  copy tables out of `/repo`; `manifest.py` writes `MANIFEST.json`. The generated modules are committed.
* `properties.jsonl`, `MANIFEST.json`, `seeded/LOG.jsonl` - the property list, its status, and the log of wrong
  programs tried against the theorems.

## Modelling conventions

* `Str` is `List Char`; `Result`/panic is `Outcome` (`ok`/`err`/`panic`, the payload of errors dropped), so that
  "does not panic" is a statement one can prove or refute. Debug and release builds are not told apart: an
  arithmetic overflow is modelled only where a theorem says so.
* Unsigned machine integers are `Nat`. Where parsing into a bounded integer decides acceptance (`u32`, `u64`, `u8`),
  the bound is modelled (`parseUnsigned`).
* `BTreeMap`/`BTreeSet` are lists in key order, `HashMap`/`HashSet` association lists or predicates; no theorem
  depends on an unspecified iteration order except by quantifying over it (directory listings, commit walks).
* The outside world is an explicit argument over which the theorems quantify: a directory tree, a registry index,
  a list of commits, what git and the network answer (`GitWorld`), what the auditor reads (`Env`), the file before
  and after a fix (`FixWorld`), a library (`UrlLib`, `AdvLib`, `SyncLib`, `BinLib`, `Codec`).
* Writes that may be interrupted are traces of effects (`Effect`); a crash is a prefix of the trace, with texts
  written character by character.
* Floating point: an `f64` is the rational it stands for; `+ - * /` are the exact operation followed by rounding
  `fl`, a parameter constrained by `Fp.Ok` (relative error 2^-52, exact on integers up to 2^53, `powf(_, 15.0)`
  within 2^-40). `Lemmas/Float.lean` proves that IEEE binary64 rounding meets it. NaN, infinities and -0 are not
  modelled (no computation divides by zero or overflows).
* Recursions over graphs or loops of unknown length carry fuel in the model only where it is proved that the
  fuel suffices (`Tree.render`, `capturesIter`, `shorten`).

## Trusted base

* Lean 4.33 kernel. Every theorem depends on at most the axioms `propext`, `Classical.choice`, `Quot.sound`
  (`#print axioms`; vcheck confirms it); no axiom of our own, no `native_decide`, no `bv_decide`.
* The reading of the Rust source embodied in the model, checked by review and by the seeded-bug log only.
* Assumptions about third-party crates. Each is either a transcription of the crate's code or documentation, or a
  hypothesis of the theorems that use it, with an instance shown to satisfy it:

| crate | how it enters | used by |
|-------|---------------|---------|
| `semver` | `Version` order, `VersionReq::matches`, comparator evaluation transcribed (`Model/Semver`). Versions and requirements are values; their parsing and printing are not modelled (arguments where a text is read) | C01-C09, C13, C49, C67 |
| `url` | argument `UrlLib`; laws `UrlLib.Lawful` (parse of a printed URL, query access), `toyUrl` satisfies them; `KnowsIndex`: parses the crates.io index URL; `PageLaw`: crates.io and rustsec.org pages with plain names are valid and normalised | C26, C28-C30, C58, C67 |
| `toml`, `serde` derive | TOML text: a reader written from the TOML specification (`Spec/Toml.lean`; no floats, dates, non-decimal integers) is used for lockfiles in C86 and for `audit.toml` in C88, with `WritesToml` assumed of the strings the crate writes; elsewhere lockfiles are `Codec` (semver and URL texts) plus a document type; advisories: `AdvLib.toml : Str -> Option TomlTable` any function, `DistinctKeys` where said. The derived `Deserialize` is transcribed | C22, C24, C28-C30 |
| `toml_edit` | argument with law `EditLaw`; `syncLib_law` shows a toy format meeting it | C56 |
| `jiff` | argument `civil`; `IsoLaw`: right on `YYYY-MM-DD` texts; other formats unrestricted | C20, C55, C67 |
| `time` | argument `cal`; `CalLaw`: the date of a day number; formatting as RFC 3339 transcribed | C55, C67 |
| `petgraph` | nodes and edges as lists, neighbours in reverse insertion order | C31, C32 |
| `regex` | modelled for the fragment in use (classes, `+`, `*`, groups; leftmost, greedy with backtracking, non-overlapping matches) | C57, C58 |
| `gix` | argument (`GitWorld`: remotes, discovery, locks; `Objects`: commits with trees) | C55, C66, C67 |
| `tame-index` | the registry is an argument answering per crate name, possibly failing | C54 |
| `auditable-info`, `binfarce` | arguments of `BinLib` | C58 |
| `abscissa`, `clap` | option structures are inputs; text of the command line not parsed | C43-C50 |
| `platforms` tables, CVSS v4 lookup | copied by the generators; the v4 lookup table is shared by model and spec (the spec's own table is that table) | C36-C39, C41, C42, C60, C61 |

* Not modelled: TOML/JSON/HTML syntax (pages of `admin/src/web.rs` are modelled as which page lists what), terminal
  escape codes, the texts of most error messages, git object parsing, signatures, file-system permissions, threads (the code has none beyond the
  package lock), stack exhaustion, writer failures in tree rendering.

## What is modelled, by property

| id | code | model | statement and proof |
|----|------|-------|---------------------|
| C01, C03, C06, C08, C09 | `osv/{range,ranges_for_advisory,unaffected_range}.rs`, `advisory/versions.rs` | `Semver`, `Osv` | `is_vulnerable` is "outside every range"; linear order on versions, induction over the sorted disjoint intervals, complement lemma; permutation invariance through C01 |
| C02 | same | with panics for `assert!`/`unreachable!`/`unwrap` | acceptance and panic characterised exactly |
| C04 | `osv/advisory.rs` | event list | the OSV evaluation algorithm (spec) on the exported events equals `is_vulnerable` |
| C05 | `increment` | | immediate successor in the semver order |
| C07 | `VersionReq::matches` | `Semver` | agreement per operator; counterexamples for partial comparators |
| C10-C14, C17, C18 | `database/*`, `collection.rs` | `Database` | invariants of the load fold; query as a conjunction; scan sound and complete for validated advisories (`Validated`: the `[versions]` table was accepted by `Versions::new`, as deserialisation guarantees) |
| C15, C16 | `report.rs`, `warning.rs` | `Report` | list reasoning |
| C19-C23 | `advisory/{id,date,affected,parts,category,license,informational}.rs`, `cvss/severity.rs` | `Id`, `AdvisoryFile` | character-list parsing; tables over all strings |
| C24 | `advisory/linter.rs` | `Linter` | the findings are exactly the deviations listed by the spec, clean iff none |
| C25-C30, C62 | `cargo-lock/src/*` | `Checksum`, `Source`, `LockTypes`, `Lockfile` | round trips with exact preconditions, counterexamples elsewhere |
| C31, C32 | `cargo-lock/src/dependency/{graph,tree}.rs` | `Tree` | nodes/edges/roots characterised; rendering terminates and draws exactly the reachable part |
| C33-C35, C59 | `cvss/src/{v2,v3,v4}` text | `CvssText`, `Cvss*Metrics` | acceptance characterised, round trip |
| C36-C40, C60, C61, C63 | scores | `CvssV2Score`, `CvssV3Score`, `CvssV4Score` | the float result is within the rounding margin of an exact formula; v2/v3 by complete kernel evaluation over value combinations, v4 by factoring the score over equivalence classes (all 270 macro vectors x distances) and a monotonicity chain argument |
| C41, C42 | `platforms` | `Platform`, `PlatformTable` | prefix/suffix/infix lemmas; table facts by kernel evaluation of the complete table |
| C43-C50, C64, C65 | `cargo-audit/src/*` | `Audit`, `Sarif`, `Fix`, `BinaryFilter`, `Symbols` | decision tables and list reasoning over the whole run |
| C51-C53 | `admin/src/assigner.rs` | `Assigner` | fold invariants over the disk; every prefix of the effect trace |
| C54 | `rustsec/src/registry*`, `cached_index.rs` | `CachedIndex` | cache invariant |
| C55 | `repository/git/modification_time.rs` | `ModTimes` | maximum/minimum over the walk, order independent |
| C56 | `admin/src/commands/sync.rs` | `Sync` | per-file invariant over the run (`SyncReady`: preconditions on the database) |
| C57, C58 | `quitters`, `binary_scanning/binary_deps.rs` | `BinaryDeps` | regex matches are exactly the cuts of the text; recovered lock files |
| C66 | `repository/git/{repository,commit}.rs` | `Repository` | decision table over `GitWorld`; work trees as maps from paths to files, `reset` as an overlay (it removes nothing), histories by induction, interrupted checkouts as arbitrary contents of the commit's files |
| C67 | `osv/advisory.rs`, `admin/src/osv_export.rs`, `admin/src/commands/osv.rs` | `OsvExport` | record compared field by field with the parsed advisory (`Conveys`); loop invariant over files; composition with C01, C08, C55, C59 |
| C68 | `advisory.rs`, `advisory/{metadata,affected,versions,parts}.rs` | `AdvisoryFile` | parser equivalent to a field-by-field relation (`AdvisoryOf`); composition with C01 and C22 |
| C69 | `admin/src/{linter,lock}.rs`, `admin/src/commands/lint.rs` | `AdminLint` | exit status 0 equivalent to a specification of clean checkouts (`LintPasses`), by composition of C24, C68, C18; then C51 without its hypothesis; four proved violations |
| C70 | `admin/src/web.rs`, `admin/src/web/static/js/search.js` | `Web` | pages as the data of their templates; insert-or-update folds shown to be groupings (`Upsert`), the sort to be a stable permutation, text order of dates to be date order (`IsoOrder`); each page specified by `ListsAll`; proved violations |
| C71 | `cargo-lock/src/main.rs` | `LockCli` | the three commands over the lockfile and tree models; lines specified by `ItemText`/`ListedAs`, packages meant by a text by `MeantBy`; composed with C28/C30 (round trips) and C31/C32 (graph, reachability); every node below a root by descent on the finite set of its dependents. |
| C72 | `admin/src/list_versions.rs`, `admin/src/commands/list_affected_versions.rs` | `ListVersions` | the command over the database model, printing what it says before it ends; verdicts composed with C01/C68 (`Hit`), collections with C18; induction over advisories and versions. |
| C73 | `cargo-audit/src/presenter.rs`, `auditor.rs` (`audit_lockfile`) | `Terminal` | the lines printed for each item of `Printed.terminal` (C65), colours as a flag; advice composed with C01, C07, C49; red lines related to the exit status by C43's lemmas. |
| C74 | `repository/git/repository.rs` (`perform_fetch`, `write_fetch_head`, `encode_hex`) | `GitRefs` | references as a map of targets, `perform_fetch` as the list of all states it goes through; induction on the chain of symbolic references; hexadecimal by induction. `gix`'s transfer is an argument. |
| C75 | `admin/src/commands/sync.rs` (`run`, `load_osv_export`, states of `sync`) | `SyncCmd` | the command around C56's `sync`; every state of the disk as a list; C56's invariant along the states; the stable sort from Mathlib. |
| C76 | `platforms-data-gen/src/*.rs` | `PlatformGen`, `PlatformNames` (generated by `tools/gen_platform_names.py`) | names: case and underscores as an invariant of the naming; the document: induction over blocks with the current heading as a function of the prefix; the run: success iff and the files as line templates; committed names by evaluation of the whole (finite) tables. |
| C77 | `platforms-table-gen/src/main.rs`, `platforms/README.md` | `PlatformPrint`, `PlatformReadme` (generated by `tools/gen_platform_readme.py`) | the stable sort by three keys equals three filters; the loop by sections; the README by evaluation of the whole (finite) table. |
| C78 | `cvss.rs:78-212`, `metrics()` and `description` of the versions, derived `Debug` of the values | `CvssListing` (generated by `tools/gen_cvss_listing.py`) | parsing gives entries without repetition (C33–C35); the listing is a permutation of them; each table is compared with a glossary written from the CVSS documents. |
| C79 | derived `Serialize`/`Deserialize` of `Report` and everything in it | `Json`, `ReportJson` | one lemma for each type (reading what was written), from the text round trips C19–C26 and C59; C68 and the lockfile decoder give the hypotheses for real inputs. |
| C80 | `presenter.rs:118-127`, `serde_json::to_writer` (compact) | `Json`, `ReportJson` | an RFC 8259 reader as specification; induction over the value shows it inverts the printer; no character below 32 is printed. |
| C81 | all of `sarif.rs`, `presenter.rs:129-138` | `SarifJson`, on `ReportJson` and the CVSS score models | `Spec/SarifJson` says what must be at which place for a finding; induction over the loops (first finding of each name); scores from C60 and the nearness of `fl`. |
| C82 | `osv/advisory.rs:21-212` (serde), `osv_export.rs:82-88`, `web.rs:227-239`, `sync.rs:455-465` | `OsvJson`, `JsonPretty`, on `OsvExport` and `SyncCmd` | Fields found by rewriting; inversion of the derived reader gives `Readable`; permutation and filtering lemmas for members; the reader of JSON text is that of C80. |
| C83 | `auditor.rs`, `presenter.rs:114-131`, `report.rs:38-206`, `vulnerability.rs:28-35`, `database/entries.rs:39-137` | `AuditJson`, on `Audit`, `AdminLint`, `ReportJson` | C43, C10 and C80 are joined: the files of the checkout are matched with the loaded advisories, every finding of the complete report is a file and a package, its JSON is found at its place. |
| C84 | `auditor.rs:203-370`, `presenter.rs:129-141`, `sarif.rs` | `AuditJson.sarifOutput`, on `Audit` and `SarifJson` | C43 gives a complete report, `full_complete` the same for the report with all fields, C81 its document; the panic of C81 is excluded because the vectors were parsed. |
| C85 | `cvss/src/error.rs`, `cvss.rs:119-157`, the three `FromStr` | `Cvss.Error`, `Scheme.runE/checkE`, `Base.parse`, `Vector.parse`, `Cvss.parse` with payloads | The loop stops at the first fault (`runE_error`, by induction); the pieces are unique, so each specification case meets one branch; the parsers without payloads are those of C33–C35, C59 (`C85_same`). Messages: 160 kinds of heads, none a prefix of another. |
| C86 | `cargo-lock/src/lockfile/encoding.rs:37-55,160-273`, `lockfile.rs:55-68` | `LockDoc.text`, `LockDoc.ofTable`, `Lockfile.fromText`; specification: a TOML reader (`Spec/Toml.lean`) | The text is a list of lines, each read alone whatever follows (`Chunk`); removing newlines removes blank lines only (`trim_chunks`); the statements build the tables (`build_pairs`, `build_items`); then C28, C30. |
| C87 | `rustsec/src/database/query.rs:50-158,248-252` | `Query.call`, `Query.calls`; specification in terms of the calls (`lastSaid`, `AskedFor`) | Induction on the chain from its end (`calls_from`), then C12 and C11. |
| C88 | `cargo-audit/src/config.rs:12-160,278-342`, `commands.rs:52-88` | the derived `Deserialize`s over a TOML document, `configPath`, `effectiveConfig`; specification `Describes` in terms of the settings of the document | One equivalence per reader and section, put together; file choice by cases; composed with C44. |
| C89 | `cargo-audit/src/auditor.rs:49-378`, `presenter.rs:69-173,279-300`, `config.rs` (`is_quiet`), `commands/audit.rs:271-306` | the transcript of a run: messages and report in order; specification `Quiet`, `Chatter`, `alarm`, `progress` | A quiet run is related to the same run that is not, step by step (all of printing commutes with the `quiet` field); alarms per block of lines, composed; induction on the binaries. |
| C90 | `cargo-lock/src/package.rs:9`, `lockfile/encoding.rs:173-190`, `rustsec/src/advisory/versions.rs:127-150`, `affected.rs:20-35` | the grammar of versions and requirements (`semver`), as a specification of the library; `semverCodec`, `UsesSemver` | Prefix-reading lemmas (`takeNumeric`, identifiers, pre-release, build) as equivalences, composed for a version; validity of what is read and reading of what is written for requirements, induction on the comparators; consequences for lockfiles, advisories, reports. |
| C91 | `cargo-audit/src/commands.rs:63-87`, `commands/audit.rs:271-306`, `auditor.rs:50-120,381-390`, `lockfile.rs:10-25` | `Project`: all files as texts; `Project.run`; specification `Locks`, `HasFile`, `Tells`, `Damning`, `LockOf`, `CheckoutOf`, `Configured` | The environment of C43 is built from the texts; packages are related to tables by `Forall₂`, advisories to files by C68 and the loaded-files equation; then C43 both ways. Severities are those of the CVSS equations in exact arithmetic (C37, C60), for every floating point with `Fp.Ok`; the database can be read exactly if its texts can (`DatabaseReads`). Kernel-checked runs from full texts. |
| C92 | `presenter.rs:114-138`, `report.rs:17-55`, `sarif.rs` | `Project.reportLib`; specification `FindingOf`, `YankedOf`, `ListsFinding`, `ListsPackage`, `HasResult` | Elements of the arrays correspond to pairs of C83/C84; pairs to texts by `findingOf_iff`; the index of an element is bounded by the array (`jsonAt_idx`). Kernel-checked documents from full texts. |
| C93 | `binary_scanning.rs:37-58`, `auditor.rs:228-317`, `binary_deps.rs` | `Project.binEnv`, `Project.runBin`; specification `Carries`, `Scannable`, `HasFormat`, `BinFindingOf`, `BinDamning` | Packages of the recovered lockfile correspond to what the bytes carry (`recovers`, from C57 and C58); verdict by C43_bin, documents by C83_bin and C84_bin. Kernel-checked runs on three binaries. |
| C94 | `linter.rs:34-84`, `commands/lint.rs:28-70` | `Project.lintEnv`, `Project.runLint`; specification `LintTexts` | Laws of the TOML reader by induction on statements (`Lemmas/TomlKeys`), then C69 and C91. Kernel-checked runs. |
| C95 | `admin/src/linter.rs:57-198`, `rustsec/src/advisory/linter.rs:68-111` | `sayLint`, `mentionMessages`; specification `FileAt`, `ProblemsOf`, `PathBefore`, `SameFiles`, `Blamed`, `FirstMention`, `UsualLayout` | Induction on listings; sorting by distinct names is unique; line numbers by counting line breaks. |
| C96 | `lockfile/encoding.rs:37-108,253-297,350-389,441-475`, `lockfile/version.rs:43-60`, `metadata.rs:12-71`, `source.rs:65-105`, `checksum.rs:37-53` | `Lockfile.fromText`; specification `LockfileOf` (`Words`, `SourceOf`, `ReferenceOf`, `IsPackage`, `FormatOf`, `StandsFor`, `MetadataChecksum`), `CutsCharacter` | One equivalence for each reader; insertion in an ordered map; panics traced through the monad. |
| C97 | `osv/advisory.rs:105-144,270-370`, `ranges_for_advisory.rs:36-163`, `admin/src/osv_export.rs` | `osvCommand`, `osvText`; specification of a reader: `Evaluates`, `AffectsVersion` on JSON, `Tally` | Versions of events are valid by an invariant of the range computation, hence read back (C90); the evaluation of texts is that of C04; the rest is C67, C82. |
| C98 | `unaffected_range.rs:115-242`, `ranges_for_advisory.rs:36-163`, `versions.rs:22-76`, `Cargo.toml:61-64` | `Osv64.*`, parameterised by the addition of a build (`debug`, `release`); specification `SmallReq`, `Covers` | Simulation of the unbounded model: same result, or a panic where allowed; an invariant says which numbers are incremented. |
| C99 | `source.rs:46-213, 288-296, 481-487` | `SourceId.forGit`, `SourceId.forPath`, `SourceId.isGit`, `SourceId.displayIndex`, …; specification `Obtained`, `NamesCratesIo`, `SourceOf` | Case analysis through `source_iff` (C96); induction over `Obtained`; C27 for equal sources. |
| C100 | `main.rs:57-122, 228-238`, `lockfile.rs:46-68`, `encoding.rs` | `LockTexts`, `Translates`, `Chain`; specification `CargoMade`, `PlainName`, `CanHold`, `LockfileOf` | What was read from a text is `PkgRead`; with `CargoMade` it is well-formed (C28) in the other format, so that the text is read back (C86, also with the newline of `println!`); induction over the chain. |
| C101 | `web.rs:421-450`, `search.js` | `indexText`, `globals`, `jsSearch`, `openSearchPage`, `typed`, `served`; specification `Answers`, `packageOf`, `htmlFile` | The JSON that is written is read back (`readJson` of `print`); percent-encoding and form-encoding invert; then the lookup is that of C70 (`mem_searchIds`), for all permutations. `C101_constructor`: a violation. |
| C102 | `main.rs:124-240`, `tree.rs`, `encoding.rs` | `LockTexts`, `tree`, `printed`; specification `TreeOf`, `PackageLabel`, `StandsUnder`, `StandsUnderInverse`, `HasLine` | C100_load, C71_tree, C71_whole_tree and C32_drawing; the neighbours in the graph are the named packages, counted (C31_edges); an occurrence in the forest is a line of the drawing (induction on the forest). |
| C103 | `presenter.rs:60-360`, `auditor.rs:140-220` | `Project.run`, `runPrints`; specification `Told`, `PrintsAdvisory`, `Advises`, `PrintsVulnerability`, `PrintsWarning`, `LinkOf` | C73_run and C91_verdict; the metadata of an advisory is read back to its text (`mem_db`, `findingOf_iff`, `rated_iff`); advice by C73_patched, C73_unaffected, C73_no_upgrade with the requirements validated by C90. |
| C104 | `list_versions.rs`, `list_affected_versions.rs` | `listCommand`; specification `Published`, `LineOn`, `BlockOn` | C72 with the hypothesis on requirements discharged (C90); the database is read back to its files (`mem_db`, C91_database); blocks have distinct IDs by C10. |
| C105 | `fix.rs`, `fixer.rs` | `Project.runFix`; specification `Fixable`, `Unpatched`, `Fixes`, `SpecOf`, `CratesIoSpec` | C46_fix and C46_after; packages are those that the text locks (C91_packages), vulnerabilities those that the texts tell of (`findingOf_iff`, `mem_db`). Kernel-checked runs. |
| C106 | `auditor.rs:228-317`, `presenter.rs` | `Project.binShown`; specification `ToldAll`, `BinTold`, with `PrintsVulnerability`, `PrintsWarning` of C103 and `BinFindingOf`, `BinYankedOf`, `BinDamning` of C93 | induction over the binaries (`loop_sections`), each with C73_report and C73_errors; then `binFindingOf_iff`, `binYankedOf_iff`, `mem_db` from packages to bytes. Kernel-checked runs. |
| C107 | `commands/assign_id.rs:22-38`, `assigner.rs:27-199` | `assignCommand`: the effects of C51/C52 with the printed lines between them; specification `changes`, `printed`, `Carried` | the events refine `assignIds`; induction over the files with the frame of `crash_core`: nothing after an announcement touches the new file or brings the draft back. Kernel-checked runs. |
| C108 | `commands/audit.rs:271-306`, `auditor.rs:49-224`, `presenter.rs:61-320` | `Project.shown`: the transcript of C89 over the texts of C91; specification that of C103 | `transcript_prints`: what C103 speaks of is part of the transcript and only messages go before it; the failing runs by cases with C89_reason. Kernel-checked runs, and both ways of failing. |
| C109 | `presenter.rs` (`permits_newer`), affected functions, `semver::VersionReq::matches` | specification `Meets`, `MeetsAll`: lists of numbers and precedence, no helper of the model | by cases on how many numbers are written; list lemmas `above_*`, `below_*`, `keeps_*`, the order of pre-releases of SemverOrder. Concrete requirements, with pre-releases. |
| C110 | `linter.rs` (`Error`, `ErrorKind`, `Display`, every `push`), `admin/src/linter.rs:117-119` | `Model/LintText`: the errors with their texts; specification `Says`: a table of the message of each problem, with the place in the file | induction over the tables along the model of the linter (`lintString`), list lemmas; that messages differ: by first and last characters and by the ending, quoted values by the unescaped closing quote. Ways of writing values are a parameter (`WordsOk` only for C110_tells). Concrete advisories with five and with two problems. |
| C111 | `commands/web.rs`, the paths of `web.rs`, `PathBuf::join` | `Model/SitePaths` (`pathJoin`, `outputPath`, `webCommand`) on the site of C70; specification `Inside`: the folder and a relative path without `..` | the actions of C70 one by one (`mem_steps`), where their names come from (`perPackage_mem` etc., C18 for packages, Git's paths for IDs); lemmas on splitting at slashes. Kernel-checked sites, one of which is left. |
| C112 | `osv_export.rs:84-86`, `commands/osv.rs`, `Path::set_extension` | `Model/OsvPaths` (`withJson`, `osvPath`, `osvWritten`) beside the export of C67; specification `Inside` (C111), `FileName` | induction over the files; the last component of a path (`withJson_name`). Kernel-checked exports, one of which is left. |

Where the code violates what a user would rely on, the property text in `properties.jsonl` says what holds and the
theorem list contains the violation with a concrete witness (names ending in `_violation`, `_panics`, `_missed`,
`_witness`, ... and the notes in `MANIFEST.json`).
