{"id": "C01", "title": "Vulnerable means outside every patched/unaffected range", "statement": "For any `Versions` accepted by `Versions::new` (or deserialised), `is_vulnerable(v)` is true exactly when `v` lies in none of the intervals denoted by the `patched` and `unaffected` requirements.", "quantifier": "all accepted requirement lists of any length, all semver versions (with pre-release and build parts)", "why_tests_cant": "Infinitely many inputs; a test samples finitely many and the interesting cases are boundary combinations.", "anchors": ["rustsec/src/advisory/versions.rs: Versions::is_vulnerable, Versions::new", "rustsec/src/osv/ranges_for_advisory.rs: unaffected_to_osv_ranges", "rustsec/src/osv/unaffected_range.rs: UnaffectedRange::try_from"]}
{"id": "C02", "title": "`Versions::new` classifies every input; accepted values never panic later", "statement": "`Versions::new(patched, unaffected)` succeeds iff every requirement is of a supported form and no two requirements overlap, and otherwise returns Err, except that a requirement consisting of the single version v combined with an exclusive lower bound >v makes it panic; once it succeeded, `is_vulnerable` never panics.", "quantifier": "all pairs of requirement lists", "why_tests_cant": "Absence of panics over all inputs cannot be shown by examples; the panic found needs a specific pair of ranges.", "anchors": ["rustsec/src/advisory/versions.rs: Versions::new, validate_ranges", "rustsec/src/osv/ranges_for_advisory.rs: unaffected_to_osv_ranges (assert!(v1 != v2), unreachable!())"]}
{"id": "C03", "title": "OSV ranges are ordered, disjoint and separated", "statement": "The ranges returned by `ranges_for_advisory` are in increasing order: each range's `fixed` is <= the next range's `introduced`, only the first may lack `introduced`, only the last may lack `fixed`, and `introduced <= fixed` within each range.", "quantifier": "all accepted `Versions`", "why_tests_cant": "Infinitely many inputs; a test samples finitely many and the interesting cases are boundary combinations.", "anchors": ["rustsec/src/osv/ranges_for_advisory.rs: ranges_for_advisory"]}
{"id": "C04", "title": "The exported OSV timeline means the same as `is_vulnerable`", "statement": "Evaluating the `introduced`/`fixed` event list written by the OSV exporter with the algorithm of the OSV specification classifies every version exactly as `is_vulnerable` does.", "quantifier": "all accepted `Versions` and all versions", "why_tests_cant": "The consumer is a different program; agreement must hold for each version of each crate.", "anchors": ["rustsec/src/osv/advisory.rs: OsvJsonRange::new", "rustsec/src/osv/range.rs: OsvRange::affects"]}
{"id": "C05", "title": "The exclusive-bound increment is the immediate successor", "statement": "The version used to turn an exclusive bound into an inclusive one (and vice versa) is the least version, in semver precedence, strictly above the given one: nothing lies in between.", "quantifier": "all versions, all candidate versions in between", "why_tests_cant": "Minimality is a statement about all other versions.", "anchors": ["rustsec/src/osv/ranges_for_advisory.rs: increment"]}
{"id": "C06", "title": "Order and placement of requirements do not matter", "statement": "Permuting the requirement lists, or moving a requirement between `patched` and `unaffected`, changes neither acceptance nor `is_vulnerable`.", "quantifier": "all requirement lists, all permutations", "why_tests_cant": "Infinitely many inputs; a test samples finitely many and the interesting cases are boundary combinations.", "anchors": ["rustsec/src/advisory/versions.rs: Versions::is_vulnerable"]}
{"id": "C07", "title": "Agreement with Cargo's own requirement matching", "statement": "`is_vulnerable` agrees with the semver crate's `VersionReq::matches` on release versions for every comparator except partially written `=`, `>` and `<=` (e.g. `>1.0`), which the advisory code zero-fills; there the two differ.", "quantifier": "all accepted fully specified requirement lists, all release versions; existence of counterexamples for partial comparators", "why_tests_cant": "Infinitely many inputs; a test samples finitely many and the interesting cases are boundary combinations.", "anchors": ["rustsec/src/osv/unaffected_range.rs: UnaffectedRange::try_from, comp_to_ver", "rustsec/src/advisory/versions.rs: Versions::is_vulnerable"]}
{"id": "C08", "title": "No patched and no unaffected versions means everything is affected", "statement": "With both lists empty every version is vulnerable; an advisory for which no version is vulnerable is exactly one with a requirement list covering all versions.", "quantifier": "all versions", "why_tests_cant": "Infinitely many inputs; a test samples finitely many and the interesting cases are boundary combinations.", "anchors": ["rustsec/src/osv/ranges_for_advisory.rs: unaffected_to_osv_ranges"]}
{"id": "C09", "title": "Build metadata is irrelevant to vulnerability", "statement": "Two versions that differ only in build metadata are classified identically by `is_vulnerable`.", "quantifier": "all accepted `Versions`, all versions, all build metadata", "why_tests_cant": "The `Ord` of versions used internally does compare build metadata, so the fact is not local.", "anchors": ["rustsec/src/osv/range.rs: OsvRange::affects"]}
{"id": "C10", "title": "Advisory IDs are unique and `get` is exact", "statement": "A database that loads contains at most one advisory per ID; `get(id)` returns the advisory with that ID iff there is one.", "quantifier": "all directory trees / load histories", "why_tests_cant": "Quantifies over every database and load order.", "anchors": ["rustsec/src/database.rs: Database::open, Database::get", "rustsec/src/database/entries.rs: Entries::load_file, find_by_id"]}
{"id": "C11", "title": "Indexed query equals a full scan", "statement": "`Database::query(q)` returns exactly the advisories in the database that `q.matches`, each once, whether or not the package index is used.", "quantifier": "all databases, all queries", "why_tests_cant": "Infinitely many inputs; a test samples finitely many and the interesting cases are boundary combinations.", "anchors": ["rustsec/src/database.rs: Database::query", "rustsec/src/database/index.rs: Index"]}
{"id": "C12", "title": "A query is the conjunction of its filters", "statement": "`Query::matches` holds iff each filter that was set holds; unset filters never exclude an advisory; adding a filter can only shrink the result.", "quantifier": "all queries and advisories", "why_tests_cant": "Infinitely many inputs; a test samples finitely many and the interesting cases are boundary combinations.", "anchors": ["rustsec/src/database/query.rs: Query::matches"]}
{"id": "C13", "title": "Vulnerability scan is sound and complete", "statement": "`Database::vulnerabilities`/`query_vulnerabilities` report exactly the (package, advisory) pairs where the package is from the crates.io registry the advisory applies to, the names agree, the version is vulnerable and the query's remaining filters hold.", "quantifier": "all databases, lockfiles and queries", "why_tests_cant": "Infinitely many inputs; a test samples finitely many and the interesting cases are boundary combinations.", "anchors": ["rustsec/src/database.rs: Database::query_vulnerabilities, Database::vulnerabilities"]}
{"id": "C14", "title": "Packages locked from the sparse crates.io index", "statement": "A package whose lockfile source is the sparse crates.io index should be checked like one from the git index; `query_vulnerabilities` never reports it.", "quantifier": "all databases and packages with a sparse crates.io source", "why_tests_cant": "The claim is universal in the database; a test with one advisory does not show that nothing is ever found.", "anchors": ["rustsec/src/database/query.rs: Query::matches, Query::package", "cargo-lock/src/package/source.rs: SourceId::is_default_registry"]}
{"id": "C15", "title": "Report: ignore list and totals", "statement": "In a generated report no listed vulnerability's ID is in `settings.ignore`; every vulnerability found by the scan and not ignored is listed; `count` is the length of the list and `found` is `count > 0`.", "quantifier": "all databases, lockfiles, settings", "why_tests_cant": "Infinitely many inputs; a test samples finitely many and the interesting cases are boundary combinations.", "anchors": ["rustsec/src/report.rs: Report::generate, VulnerabilityInfo::new"]}
{"id": "C16", "title": "Report: informational warnings", "statement": "The warnings of a report are grouped by their kind, contain exactly the informational advisories (of an enabled kind, not ignored) that match some package, and never a non-informational or withdrawn one.", "quantifier": "all databases, lockfiles, settings", "why_tests_cant": "Infinitely many inputs; a test samples finitely many and the interesting cases are boundary combinations.", "anchors": ["rustsec/src/report.rs: find_warnings, Report::generate"]}
{"id": "C17", "title": "Severity threshold", "statement": "With a severity threshold set, every reported advisory either has no CVSS or has severity at least the threshold; raising the threshold never adds advisories.", "quantifier": "all queries, all advisories, all thresholds", "why_tests_cant": "Infinitely many inputs; a test samples finitely many and the interesting cases are boundary combinations.", "anchors": ["rustsec/src/database/query.rs: Query::severity, Query::matches"]}
{"id": "C18", "title": "Only well-placed, non-draft advisories are loaded", "statement": "Every advisory in a loaded database was read from `<collection>/<package>/<file>` with matching collection and package, the file being named `<id>.md` or carrying a draft name `RUSTSEC-0000-0000.*.md`, and none has the placeholder ID; a checkout with any misplaced file or repeated ID does not load.", "quantifier": "all directory trees", "why_tests_cant": "Infinitely many inputs; a test samples finitely many and the interesting cases are boundary combinations.", "anchors": ["rustsec/src/database/entries.rs: Entries::load_file", "rustsec/src/advisory.rs: Advisory::load_file, is_draft"]}
{"id": "C19", "title": "Advisory ID parsing", "statement": "`Id::from_str` accepts a RUSTSEC/CVE/TALOS identifier only with a year in 2000..=2100 and a numeric serial; display of the parsed ID is the input; the derived kind, year and numerical part are those of the string.", "quantifier": "all strings", "why_tests_cant": "Infinitely many inputs; a test samples finitely many and the interesting cases are boundary combinations.", "anchors": ["rustsec/src/advisory/id.rs: Id::from_str, kind, year, numerical_part"]}
{"id": "C20", "title": "Advisory date parsing", "statement": "On texts of the form YYYY-MM-DD, `Date::from_str` accepts exactly those naming an existing day of the Gregorian calendar in the years 2000 to 2100, and then year(), month(), day() return its numbers and the text is kept. Other date formats that jiff accepts are accepted too; on some of them the accessors panic.", "quantifier": "all strings", "why_tests_cant": "Infinitely many inputs; a test samples finitely many and the interesting cases are boundary combinations.", "anchors": ["rustsec/src/advisory/date.rs: Date::from_str, year, month, day"]}
{"id": "C21", "title": "Function path round trip", "statement": "Parsing a displayed `FunctionPath` yields the same path, displaying a parsed one yields the same string; every accepted path has at least two segments, each a valid identifier.", "quantifier": "all strings / paths", "why_tests_cant": "Infinitely many inputs; a test samples finitely many and the interesting cases are boundary combinations.", "anchors": ["rustsec/src/advisory/affected.rs: FunctionPath, Identifier"]}
{"id": "C22", "title": "Advisory file splitting", "statement": "`Parts::parse` succeeds exactly on texts that are an opening toml fence, front matter up to the first closing fence, and Markdown that starts with a `# title` line; it returns the trimmed pieces. It panics exactly when the text does not start with the fence, is longer than 20 bytes and byte 20 is inside a character; otherwise it fails.", "quantifier": "all strings", "why_tests_cant": "Infinitely many inputs; a test samples finitely many and the interesting cases are boundary combinations.", "anchors": ["rustsec/src/advisory/parts.rs: Parts::parse"]}
{"id": "C23", "title": "Enumerations and their strings", "statement": "For every string-backed enumeration (collection, category, informational, license, warning kind, severity, tier, OS, arch, env, ...) parsing the printed form gives the value back, and distinct values print differently.", "quantifier": "all values of each enumeration and all strings", "why_tests_cant": "Agreement of two hand-written match tables, including the catch-all arm, over all strings.", "anchors": ["rustsec/src/collection.rs", "rustsec/src/advisory/category.rs", "rustsec/src/advisory/informational.rs", "rustsec/src/warning.rs", "cvss/src/severity.rs", "platforms/src/target/os.rs"]}
{"id": "C24", "title": "The advisory linter is a complete gate", "statement": "The linter's findings are exactly the documented problems of the document. A result without findings for a document with the `[advisory]` header implies that the parsed advisory has: known keys only, a known ID kind whose draft status matches the file name and whose year equals the date's (unless CVE), no `other` category, informational kind or license, an https URL, functions of its own crate, known architectures, no user mention; and a document with none of the problems lints clean, without panicking.", "quantifier": "all advisory TOML documents", "why_tests_cant": "Infinitely many inputs; a test samples finitely many and the interesting cases are boundary combinations.", "anchors": ["rustsec/src/advisory/linter.rs: Linter::lint_string, lint_file, lint_advisory, lint_metadata, lint_versions, lint_affected"]}
{"id": "C25", "title": "Checksum round trip", "statement": "`Checksum::from_str(c.to_string()) == c` for every checksum; parsing accepts only 64-byte strings; distinct strings can parse to the same checksum and some 64-byte strings panic.", "quantifier": "all checksums, all strings", "why_tests_cant": "Infinitely many inputs; a test samples finitely many and the interesting cases are boundary combinations.", "anchors": ["cargo-lock/src/package/checksum.rs: Checksum"]}
{"id": "C26", "title": "Source ID round trip", "statement": "For every source built by the public constructors or parsed from a URL, printing it and parsing it back gives the same kind, URL, git reference and precise revision.", "quantifier": "all source identifiers", "why_tests_cant": "Infinitely many inputs; a test samples finitely many and the interesting cases are boundary combinations.", "anchors": ["cargo-lock/src/package/source.rs: SourceId::from_url, as_url"]}
{"id": "C27", "title": "Source ID comparison is lawful", "statement": "Equality and ordering of source identifiers are an equivalence / total order consistent with hashing. (They are not for git sources: equality is not transitive.)", "quantifier": "all triples of source identifiers", "why_tests_cant": "Transitivity quantifies over triples; the violating triple has to be searched for.", "anchors": ["cargo-lock/src/package/source.rs: impl Ord for SourceId, impl Hash for SourceId"]}
{"id": "C28", "title": "Lockfile write/read round trip", "statement": "Serialising a well-formed lockfile with V2+ encoding and parsing it again yields the same packages, dependencies, sources, checksums and version.", "quantifier": "all well-formed lockfiles", "why_tests_cant": "Infinitely many inputs; a test samples finitely many and the interesting cases are boundary combinations.", "anchors": ["cargo-lock/src/lockfile/encoding.rs: EncodableLockfile", "cargo-lock/src/lockfile.rs: Lockfile"]}
{"id": "C29", "title": "Dependency references resolve to the right package", "statement": "An abbreviated dependency (`name`, `name version`, `name version (source)`) written for a package in a lockfile is unambiguous: resolving it gives that package's name, version and source.", "quantifier": "all lockfiles and dependencies in them", "why_tests_cant": "Infinitely many inputs; a test samples finitely many and the interesting cases are boundary combinations.", "anchors": ["cargo-lock/src/lockfile/encoding.rs: EncodableDependency::resolve, EncodableDependency::v2"]}
{"id": "C30", "title": "V1 checksums survive the metadata table", "statement": "Converting package checksums to V1 `[metadata]` entries and back preserves each package's checksum.", "quantifier": "all lockfiles with distinct name/version pairs", "why_tests_cant": "Infinitely many inputs; a test samples finitely many and the interesting cases are boundary combinations.", "anchors": ["cargo-lock/src/lockfile/encoding.rs", "cargo-lock/src/metadata.rs: MetadataKey"]}
{"id": "C31", "title": "Dependency tree is the dependency graph", "statement": "`Tree::new` succeeds iff every dependency of every package is present; its nodes are the packages and it has an edge exactly for each dependency; its roots are exactly the packages nothing depends on.", "quantifier": "all lockfiles", "why_tests_cant": "Infinitely many inputs; a test samples finitely many and the interesting cases are boundary combinations.", "anchors": ["cargo-lock/src/dependency/tree.rs: Tree::new, roots"]}
{"id": "C32", "title": "Rendering a dependency tree terminates and covers what is reachable", "statement": "`Tree::render` terminates on every graph, including cyclic ones, and prints exactly the nodes reachable from the start in the chosen direction, expanding each at most once.", "quantifier": "all graphs, directions, start nodes", "why_tests_cant": "Termination on every cyclic graph is not testable.", "anchors": ["cargo-lock/src/dependency/tree.rs: Presenter::print_node"]}
{"id": "C33", "title": "CVSS v3 text round trip", "statement": "Parsing the displayed form of any CVSS v3 base vector gives it back; parsing accepts each metric at most once and in any order.", "quantifier": "all vectors, all orderings, all strings", "why_tests_cant": "Infinitely many inputs; a test samples finitely many and the interesting cases are boundary combinations.", "anchors": ["cvss/src/v3/base.rs: Base::from_str, Display"]}
{"id": "C34", "title": "CVSS v2 text round trip", "statement": "Parsing the displayed form of any CVSS v2 vector gives it back; the six base metrics are mandatory, duplicates and unknown metrics rejected.", "quantifier": "all vectors, all strings", "why_tests_cant": "Infinitely many inputs; a test samples finitely many and the interesting cases are boundary combinations.", "anchors": ["cvss/src/v2/vector.rs: Vector::from_str, Display"]}
{"id": "C35", "title": "CVSS v4 text round trip", "statement": "Parsing the displayed form of any CVSS v4 vector gives it back; all eleven base metrics are mandatory, duplicates and unknown metrics rejected.", "quantifier": "all vectors, all strings", "why_tests_cant": "Infinitely many inputs; a test samples finitely many and the interesting cases are boundary combinations.", "anchors": ["cvss/src/v4/vector.rs: Vector::from_str, Display"]}
{"id": "C36", "title": "CVSS scores are in range with one decimal", "statement": "v2, v3 and v4 scores are between 0 and 10 and are multiples of 0.1.", "quantifier": "all vectors of each version (2^30+ for v4)", "why_tests_cant": "The domain is far too large to enumerate in tests, and v4 mixes a table with interpolation.", "anchors": ["cvss/src/v3/base.rs: Base::score", "cvss/src/v2/vector.rs", "cvss/src/v4/score.rs, scoring.rs"]}
{"id": "C37", "title": "Severity bands", "statement": "The qualitative severity is the band of the numeric score given by the specification, bands partition the scale, and severity is monotone in the score.", "quantifier": "all scores", "why_tests_cant": "Infinitely many inputs; a test samples finitely many and the interesting cases are boundary combinations.", "anchors": ["cvss/src/v3/score.rs: severity", "cvss/src/severity.rs: Severity", "cvss/src/v4/score.rs"]}
{"id": "C38", "title": "CVSS v4 scoring never panics on parsed vectors", "statement": "The table lookup for a vector obtained by parsing always succeeds.", "quantifier": "all parsed v4 vectors", "why_tests_cant": "270 macro vectors x all metric combinations.", "anchors": ["cvss/src/v4/scoring.rs, lookup.rs"]}
{"id": "C39", "title": "Which CVSS v4 metrics matter", "statement": "Supplemental metrics never change the v4 score; environmental modified metrics set to X behave as absent; the nomenclature names exactly the groups present.", "quantifier": "all v4 vectors", "why_tests_cant": "Infinitely many inputs; a test samples finitely many and the interesting cases are boundary combinations.", "anchors": ["cvss/src/v4/scoring.rs", "cvss/src/v4/vector.rs: nomenclature"]}
{"id": "C40", "title": "CVSS v3 score monotonicity and zero", "statement": "The v3 base score is 0 iff confidentiality, integrity and availability impacts are all None; worsening an impact or exploitability metric never lowers the score.", "quantifier": "all v3 vectors and all metric changes", "why_tests_cant": "Infinitely many inputs; a test samples finitely many and the interesting cases are boundary combinations.", "anchors": ["cvss/src/v3/base.rs: Base::score, impact, exploitability"]}
{"id": "C41", "title": "Platform requirement globbing", "statement": "`PlatformReq::matches` is exactly prefix/suffix/substring/equality matching selected by the leading and trailing `*`, and never panics for an accepted requirement; `*` matches everything.", "quantifier": "all requirement strings, all platforms", "why_tests_cant": "Infinitely many inputs; a test samples finitely many and the interesting cases are boundary combinations.", "anchors": ["platforms/src/platform/req.rs: PlatformReq::matches, from_str"]}
{"id": "C42", "title": "Platform table", "statement": "Target triples are unique, `Platform::find` inverts `target_triple`.", "quantifier": "all strings and the whole platform table", "why_tests_cant": "Infinitely many inputs; a test samples finitely many and the interesting cases are boundary combinations.", "anchors": ["platforms/src/platform/mod.rs: Platform::find", "platforms/src/platform/platforms.rs: ALL"]}
{"id": "C43", "title": "cargo audit exit status", "statement": "`cargo audit` fails iff the report has a vulnerability, or a warning of a denied kind, or (with `--deny warnings`) there is an advisory about the tool itself; `--deny warnings` denies every kind of warning.", "quantifier": "all reports and deny settings", "why_tests_cant": "Infinitely many inputs; a test samples finitely many and the interesting cases are boundary combinations.", "anchors": ["cargo-audit/src/presenter.rs: should_exit_with_failure, count_warnings", "cargo-audit/src/config.rs: DenyOption"]}
{"id": "C44", "title": "Command line overrides configuration", "statement": "Options on the command line override or extend the configuration file as documented; unset options leave it unchanged.", "quantifier": "all configurations and flags", "why_tests_cant": "Infinitely many inputs; a test samples finitely many and the interesting cases are boundary combinations.", "anchors": ["cargo-audit/src/commands/audit.rs: override_config", "cargo-audit/src/config.rs: AuditConfig::report_settings"]}
{"id": "C45", "title": "SARIF output is complete and self-consistent", "statement": "Every vulnerability and warning in the report gives exactly one SARIF result, every result's rule ID is described by exactly one rule.", "quantifier": "all reports", "why_tests_cant": "Infinitely many inputs; a test samples finitely many and the interesting cases are boundary combinations.", "anchors": ["cargo-audit/src/sarif.rs: Run::from_report"]}
{"id": "C46", "title": "cargo audit fix", "statement": "`fix` runs `cargo update` exactly for vulnerabilities that have a patched version, naming that package and version, and its exit status reflects failures.", "quantifier": "all reports and command outcomes", "why_tests_cant": "Infinitely many inputs; a test samples finitely many and the interesting cases are boundary combinations.", "anchors": ["cargo-audit/src/commands/audit/fix.rs", "rustsec/src/fixer.rs"]}
{"id": "C47", "title": "Binary-type filter", "statement": "Filtering by binary format removes only findings whose OS list excludes the format, keeps `count`/`found` consistent and is idempotent.", "quantifier": "all reports, all formats", "why_tests_cant": "Infinitely many inputs; a test samples finitely many and the interesting cases are boundary combinations.", "anchors": ["rustsec/src/binary_scanning/binary_type_filter.rs"]}
{"id": "C48", "title": "Affected-function symbol match", "statement": "A function path is reported present iff some symbol starts with the same crate, ends with the same function and contains the middle segments as a subsequence.", "quantifier": "all symbol tables and paths", "why_tests_cant": "The greedy loop must agree with the existential definition of subsequence for all inputs.", "anchors": ["cargo-audit/src/binary_scanning.rs: SymbolSet::filter, is_subsequence"]}
{"id": "C49", "title": "`Solution:` hint never lies", "statement": "If the presenter says an unaffected newer version exists then some version newer than the one in use satisfies the requirement.", "quantifier": "all requirements and versions", "why_tests_cant": "Infinitely many inputs; a test samples finitely many and the interesting cases are boundary combinations.", "anchors": ["cargo-audit/src/presenter.rs: permits_newer"]}
{"id": "C50", "title": "Binary size limit", "statement": "A binary is audited iff its size is at most the limit; the documented `0 = unlimited`.", "quantifier": "all sizes and limits", "why_tests_cant": "Infinitely many inputs; a test samples finitely many and the interesting cases are boundary combinations.", "anchors": ["cargo-audit/src/auditor.rs: read_binary_with_limit, set_binary_scan_limits", "cargo-audit/src/commands/audit/binary_scanning.rs"]}
{"id": "C51", "title": "ID assignment is collision free", "statement": "`assign-id` gives each draft a fresh ID `RUSTSEC-<year>-<n>` that no advisory in the database has and that no other draft gets.", "quantifier": "all databases and sets of drafts", "why_tests_cant": "Infinitely many inputs; a test samples finitely many and the interesting cases are boundary combinations.", "anchors": ["admin/src/assigner.rs: assign_ids, assign_ids_across_directory"]}
{"id": "C52", "title": "ID assignment does not lose advisories on a crash", "statement": "At every crash point of `assign-id` every advisory text that existed before is still present under its draft name or under its new ID.", "quantifier": "all crash points", "why_tests_cant": "Quantifies over every crash point.", "anchors": ["admin/src/assigner.rs: assign_ids_across_directory"]}
{"id": "C53", "title": "Assignment summary title", "statement": "The pull request title is at most 255 bytes and accounts for every assignment.", "quantifier": "all lists of assignments", "why_tests_cant": "Infinitely many inputs; a test samples finitely many and the interesting cases are boundary combinations.", "anchors": ["admin/src/assigner.rs: assign_ids"]}
{"id": "C54", "title": "Yank lookup cache", "statement": "`find_yanked` reports a package iff the index says so, an error iff the lookup fails, regardless of what was cached by earlier calls.", "quantifier": "all indices and call histories", "why_tests_cant": "Statement about all call histories.", "anchors": ["rustsec/src/cached_index.rs: CachedIndex::find_yanked, is_yanked, populate_cache"]}
{"id": "C55", "title": "Modification times", "statement": "The modification (creation) time of a file is the latest (earliest) commit time over all non-merge commits touching it, independently of traversal order.", "quantifier": "all histories and traversal orders", "why_tests_cant": "Infinitely many inputs; a test samples finitely many and the interesting cases are boundary combinations.", "anchors": ["rustsec/src/repository/git/modification_time.rs: GitModificationTimes::new"]}
{"id": "C56", "title": "Alias synchronisation", "statement": "`sync` only adds CVE/GHSA aliases, never removes one, leaves the list sorted without duplicates, changes no other file and nothing else in a file, reports each unlinked record once per known crate, and a second run changes nothing unless an added alias links a record that was unlinked before (then it does: `sync` is not idempotent).", "quantifier": "all advisories and OSV records", "why_tests_cant": "Infinitely many inputs; a test samples finitely many and the interesting cases are boundary combinations.", "anchors": ["admin/src/commands/sync.rs: update_advisory_from_alias", "rustsec/src/osv/advisory.rs: rustsec_refs_imported"]}
{"id": "C57", "title": "Panic-message dependency recovery", "statement": "Every (crate, version) recovered from a binary occurs in it as a registry path component `crate-version`, and every such path is recovered unless an earlier path overlaps it (its version ends in `cargo`) or it uses backslashes while others use slashes.", "quantifier": "all byte strings", "why_tests_cant": "Infinitely many inputs; a test samples finitely many and the interesting cases are boundary combinations.", "anchors": ["quitters/src/lib.rs: versions"]}
{"id": "C58", "title": "Recovered dependency lists are auditable", "statement": "A lockfile recovered from a binary's embedded dependency list has one package per entry, with the dependencies named by index; bad indices and double roots are errors, nothing panics, its dependency tree can be built, and scanning it flags exactly the vulnerable crates.io entries.", "quantifier": "all embedded lists", "why_tests_cant": "Infinitely many inputs; a test samples finitely many and the interesting cases are boundary combinations.", "anchors": ["rustsec/src/binary_scanning/binary_deps.rs: lockfile_from_version_info_json"]}
{"id": "C59", "title": "The unified CVSS parser dispatches by version", "statement": "`Cvss::from_str` accepts exactly the texts that the version-specific parser named by the prefix accepts (`CVSS:3.0/`, `CVSS:3.1/`, `CVSS:4.0/`, or no prefix for v2), yields the vector that parser yields, never panics, and reads back everything `Display` writes for a non-empty vector.", "quantifier": "all strings; all vectors of every version", "why_tests_cant": "Infinitely many inputs; a test samples finitely many and the interesting cases are boundary combinations.", "anchors": ["cvss/src/cvss.rs: Cvss::from_str"]}
{"id": "C60", "title": "Scores equal the specification's formula despite floating point", "statement": "The score computed in 64-bit floating point equals the score the CVSS specification's formula gives in exact arithmetic, rounded as the specification says; rounding errors of the intermediate operations never change a published score.", "quantifier": "all vectors; every arithmetic within the IEEE error bounds", "why_tests_cant": "The number of vectors is astronomical (v4 has 32 metrics) and the error of every operation must be bounded, not sampled.", "anchors": ["cvss/src/v3/base.rs", "cvss/src/v2/vector.rs", "cvss/src/v4/scoring.rs", "cvss/src/v3/score.rs"]}
{"id": "C61", "title": "A v4 score never falls when a metric gets worse", "statement": "Raising any single metric of a v4 vector to a more severe value never lowers the score, and the score is 0 exactly when there is no impact on the vulnerable and subsequent systems.", "quantifier": "all v4 vectors and all single-metric changes", "why_tests_cant": "The number of vectors is astronomical.", "anchors": ["cvss/src/v4/scoring.rs"]}
{"id": "C62", "title": "Lockfile format detection", "statement": "The format version of a lockfile that is read is the declared one, which must be 1 to 4; without a declaration it is V1 if some [metadata] key starts with `checksum ` and V2 otherwise; a file with checksums both in [metadata] and in [[package]] tables is rejected.", "quantifier": "all lockfile documents", "why_tests_cant": "Infinitely many inputs; a test samples finitely many and the interesting cases are boundary combinations.", "anchors": ["cargo-lock/src/lockfile/version.rs: ResolveVersion::detect", "cargo-lock/src/lockfile/encoding.rs"]}
{"id": "C63", "title": "CVSS v2: more severe metrics never lower a score", "statement": "For every v2 vector, replacing the value of one metric by a more severe one never lowers the base score nor the temporal score, and a larger collateral damage potential or target distribution never lowers the environmental score.", "quantifier": "all v2 vectors, complete or not, all metrics, all pairs of values of the metric", "why_tests_cant": "Hundreds of millions of vectors; a rounding tie or a clamp at the wrong place breaks only a few of them.", "anchors": ["cvss/src/v2/vector.rs: Vector::score, Vector::temporal_score, Vector::environmental_score", "cvss/src/v2/score.rs: Score::roundup"]}
{"id": "C64", "title": "The terminal report is complete and does not crash", "statement": "For every report whose findings are about packages of the lockfile, printing on the terminal succeeds whenever the dependency tree can be built, prints every vulnerability and warning exactly once and in order, marks exactly vulnerabilities and denied warnings as errors, and prints the inverse dependency tree of each package once, if trees are asked for.", "quantifier": "all reports, lockfiles and output settings", "why_tests_cant": "The loop carries state (packages already drawn) across findings; any two findings may share a package.", "anchors": ["cargo-audit/src/presenter.rs: print_report, print_vulnerability, print_warning, print_tree"]}
{"id": "C65", "title": "An audit run reports every finding and nothing else", "statement": "For every lockfile, database and configuration, the report of `cargo audit` (and `cargo audit bin`) contains a vulnerability or warning exactly for the pairs of locked package and advisory that concern each other under the configuration, and a yanked warning exactly for the crates.io packages the index says are yanked; and what is printed shows that report.", "quantifier": "all environments (lockfile, database, index), configurations and lists of binaries", "why_tests_cant": "Composition of database lookup, filters, configuration, index cache and output over arbitrary inputs.", "anchors": ["cargo-audit/src/auditor.rs: Auditor::audit, check_for_yanked_crates", "cargo-audit/src/commands/audit.rs", "cargo-audit/src/commands/audit/binary_scanning.rs"]}
{"id": "C66", "title": "Fetching the advisory database", "statement": "A successful fetch requires an https URL, leaves HEAD at the commit the requested remote offers now, and that commit is less than 90 days old when freshness is required. The work tree, from which the database is loaded, then has every file of that commit, and other files only where they were before; fetching into a new directory gives exactly the commit's files, and an interrupted checkout is repaired by the next fetch. cargo audit uses that work tree, with the configured URL, path and staleness setting.", "quantifier": "all URLs, paths, existing repositories, histories of fetches, crash points of the checkout, remotes and clocks", "why_tests_cant": "Depends on the state of the file system, of an existing clone and of the remote; tests use one network state.", "anchors": ["rustsec/src/repository/git/repository.rs: Repository::fetch, perform_fetch", "rustsec/src/repository/git/commit.rs: Commit::is_fresh, Commit::reset", "rustsec/src/database.rs: load_from_repo", "cargo-audit/src/auditor.rs: Auditor::new"]}
{"id": "C67", "title": "OSV export conveys every advisory", "statement": "When `rustsec-admin osv` succeeds on a database that opens, every exported advisory of a crate has the file <ID>.json whose record says what the advisory says: ID, dates, aliases, title, description, severity that parses back to the advisory's vector, affected crate, functions, architectures, references with their kinds, and an event list that, read as OSV prescribes, selects exactly the vulnerable versions; `modified` is the time of the last non-merge commit changing the file. No other file is written, except RUSTSEC-0000-0000.json. It succeeds exactly when the history is readable and every advisory file parses, is in the head commit, was changed by a non-merge commit at a representable time, and affects some version. What sync reads back in a record names the advisory and its crate and adds nothing.", "quantifier": "all databases on disk, git histories, advisory texts, calendars and library behaviours within the stated laws; all versions", "why_tests_cant": "Composes parsing, range conversion, git history and file writes over arbitrary databases; tests export one advisory and snapshot the text.", "anchors": ["rustsec/src/osv/advisory.rs: OsvAdvisory::from_rustsec, guess_url_kind, rustsec_date_to_rfc3339", "admin/src/osv_export.rs: OsvExporter::export_all", "admin/src/commands/osv.rs"]}
{"id": "C68", "title": "An advisory file parses to exactly what it says", "statement": "Advisory::from_str accepts a text exactly when it splits into front matter and Markdown, the front matter (with the line [advisory] put in front unless it starts with it) is TOML with [advisory] and [versions] tables, each key present parses, the required keys id, package, date and patched are present, title and description are not given in the TOML, and the version ranges are consistent; the resulting advisory has, field by field, the value of the key of that name, with the documented defaults for absent keys, and title and description from the Markdown. A version is then reported vulnerable exactly if no requirement listed under patched or unaffected covers it.", "quantifier": "all texts, all TOML documents, all versions", "why_tests_cant": "Any document and any combination of present, absent and ill-typed keys; tests parse a handful of files.", "anchors": ["rustsec/src/advisory.rs: FromStr for Advisory", "rustsec/src/advisory/metadata.rs: Metadata", "rustsec/src/advisory/affected.rs: Affected", "rustsec/src/advisory/versions.rs: Versions", "rustsec/src/advisory/parts.rs: Parts::parse"]}
{"id": "C69", "title": "rustsec-admin lint succeeds exactly on clean checkouts", "statement": "rustsec-admin lint exits with status 0 exactly if at most one path is given, the crates.io index can be opened, the database at that path opens and is not empty, both collection directories hold only package directories with readable regular files, every such file is a .md file with the [advisory] header in which none of the documented problems is present, and, unless cargo's package lock is taken, every crate advisory not marked expect-deleted names a crate of crates.io by its exact name. After a success, IDs are unique and of known kinds, and their years agree with the dates, so that a following assign-id gives fresh IDs.", "quantifier": "all checkouts, all contents of files, all answers of the index, both states of the lock", "why_tests_cant": "Tests lint one sample file; the claim is about every tree of files, every document and every state of the registry.", "anchors": ["admin/src/linter.rs: Linter", "admin/src/commands/lint.rs: LintCmd", "admin/src/lock.rs: acquire_cargo_package_lock", "rustsec/src/advisory/linter.rs: Linter::lint_file"]}
{"id": "C70", "title": "The web site shows every advisory, where it belongs", "statement": "If rustsec-admin web finishes, every advisory has its page; the list of advisories and the page of each package, keyword and category show exactly the advisories of the database that belong there, the newest first, with the title that fits their kind; the indexes list every package (with its number of advisories), keyword and category once; the JSON file of a package has the OSV records of its advisories; the search leads to the package of the name or else to the advisories with the ID or alias; and the feed has at least the ten newest advisories and all of the last week. It finishes if there is an advisory and all dates and records can be presented.", "quantifier": "all databases, all histories of the repository, all days, all search terms", "why_tests_cant": "Tests could render one database; the claim is that no advisory is lost or misplaced on any page for any set of advisories, dates and keywords.", "anchors": ["admin/src/web.rs: render_advisories", "admin/src/web.rs: render_feed", "admin/src/web.rs: title_type", "admin/src/web/static/js/search.js"]}
{"id": "C71", "title": "cargo lock shows and translates the lockfile it was given", "statement": "cargo lock list prints every package of the lockfile (or every package of the given name) once and in order, with its dependencies below it when asked, and a line with sources reads back as exactly that package. translate writes a document that reads back as the same lockfile in the other format, to the standard output or the file and nowhere else, and nothing if the lockfile cannot be read; translating to V1 and back keeps every package. tree draws, for each given name, version, checksum, revision or name@version, the tree of the first package that is meant, in the order given, and fails drawing nothing if one is unknown; without arguments it draws the trees of the packages no other depends on, and if no package depends on itself every package is on a line. cargo lock <args> and cargo-lock <args> do the same, and options alone are for list.", "quantifier": "all lockfiles, all options, all package specifications", "why_tests_cant": "Tests run the binary on one lockfile; the claims range over all dependency graphs, formats and argument lists.", "anchors": ["cargo-lock/src/main.rs: ListCmd::run", "cargo-lock/src/main.rs: TranslateCmd::run", "cargo-lock/src/main.rs: TreeCmd::run", "cargo-lock/src/main.rs: package_matches", "cargo-lock/src/main.rs: main"]}
{"id": "C72", "title": "The listing of affected versions is exact", "statement": "If rustsec-admin list-affected-versions finishes, it has listed, for every advisory on a crate in the order of the database, every version the registry has of that crate in the registry's order, marked vulnerable exactly if it meets none of the patched and unaffected requirements of the advisory, and nothing else. It finishes exactly if the database opens and is not empty, the index opens, and for every such advisory cargo's lock is free, the name is possible, the crate is in the registry and its versions can be read. However it ends, every line printed on a version is true, and exit status 1 comes before any output.", "quantifier": "all checkouts, all answers of the registry", "why_tests_cant": "There are no tests of the command; the claim ranges over all databases, requirements and registry contents.", "anchors": ["admin/src/list_versions.rs: AffectedVersionLister", "admin/src/commands/list_affected_versions.rs: ListAffectedVersionsCmd::run"]}
{"id": "C73", "title": "What cargo audit prints agrees with the findings, and its advice is right", "statement": "On the terminal cargo audit describes every vulnerability and warning of the report in a block of its own, in order, with crate, version, title, date, ID, the right link (the original URL under CC-BY, else the page of the ID) and the severity if there is one, then the totals. Something is marked as an error exactly if the run exits with status 1, and advisories about the tool itself are always reported. The advice names all patched requirements, and no version they cover is vulnerable; without patched versions it names unaffected requirements each met by a newer release that is not vulnerable, and (for requirements naming all their numbers) it says that there is no fixed upgrade exactly if every newer release is vulnerable.", "quantifier": "all databases, lockfiles, configurations, reports and installed versions", "why_tests_cant": "The tests run a few lockfiles and look for substrings; the claims relate the text, the colours, the exit status and the set of all versions for every report.", "anchors": ["cargo-audit/src/presenter.rs: print_report, print_self_report, print_vulnerability, print_warning, print_metadata, print_affected, permits_newer, join_reqs", "cargo-audit/src/auditor.rs: audit_lockfile", "cargo-audit/src/commands/audit.rs: run"]}
{"id": "C74", "title": "A fetch moves HEAD to the remote's commit, or leaves it; a crash never loses it", "statement": "After a successful fetch into an existing clone, HEAD stands for the commit the remote announced as its HEAD, FETCH_HEAD names that commit (as the text git writes), and apart from what the transfer itself updates only the reference at the end of HEAD's chain has changed, so HEAD still names its branch. Interrupted at any moment, the fetch leaves HEAD standing for the old commit or the new one, and a later fetch that gets through ends at the commit announced then. Fetching succeeds exactly if there is an origin, the transfer works, FETCH_HEAD can be written and the remote announces its HEAD as a symbolic reference; a remote with a detached HEAD can never be fetched. Object IDs are written as two hexadecimal digits per byte and read back.", "quantifier": "all repositories, reference graphs, remotes, announced mappings, interruption points and object IDs", "why_tests_cant": "The tests fetch one repository once; interruption points, reference graphs and what remotes announce are unbounded.", "anchors": ["rustsec/src/repository/git/repository.rs: Repository::fetch, perform_fetch, write_fetch_head, encode_hex"]}
{"id": "C75", "title": "rustsec-admin sync reads the right files, reports all it found, and what an interruption leaves", "statement": "sync reads exactly the files of the export called <something>.json without RUSTSEC- in their path, and fails if one of them cannot be read or parsed. It exits with status 0 exactly if the database opens and is not empty, the export loads, the index opens, the synchronisation succeeds and cargo's lock is free; it then prints every missing advisory, sorted by publication, ties in the order of the export, and says that all is up to date exactly if the database is unchanged. Stopped at any moment, or failing, it leaves the same files, each with its old text or a complete updated one, except for at most one that holds the beginning of its updated text.", "quantifier": "all exports, databases, records, JSON and TOML libraries, and interruption points", "why_tests_cant": "There is no test of the command; interruption points and the contents of exports and databases are unbounded.", "anchors": ["admin/src/commands/sync.rs: SyncCmd::run, sync, update_advisory_from_alias, load_osv_export, load_osv_file"]}
{"id": "C76", "title": "The platform tables are generated faithfully from rustc and its documentation", "statement": "The generator succeeds exactly if rustc and the documentation know the same triples, rustc describes each with the five keys and the tiers are 1 to 3, and ends with an error, without writing, exactly if the triples differ. The enums it writes have the values of the platforms, each once and in order; every platform gets the last value rustc gives for a key and the tier and notes of the first row documenting it, which is the best tier if the tiers of the headings do not go up. Variant names are identifiers, and differ unless the values agree up to case and underscores; constants agree exactly if the triples agree up to case and the characters - . _; the names in the committed tables are the generated ones.", "quantifier": "all outputs of rustc, documents, comments and templates; all texts as values and triples", "why_tests_cant": "The tests look at one excerpt of the document and eleven names; documents, outputs and names are unbounded.", "anchors": ["platforms-data-gen/src/main.rs: main, ensure_rustc_and_docs_agree", "platforms-data-gen/src/enums.rs: to_enum_variant_name, make_ascii_titlecase, distinct_values", "platforms-data-gen/src/doc_target_info.rs: parse_file", "platforms-data-gen/src/rustc_target_info.rs: parse_rustc_target_info", "platforms-data-gen/src/write.rs: write_targets_file, write_enum_file, to_const_variable_name"]}
{"id": "C77", "title": "The printed platform tables list every platform once, under its tier, with a link", "statement": "platforms-table-gen prints, for every tier that has platforms and in the order of the tiers, its header and one row per platform in the order of the list, sections separated by empty lines, and then one link per platform; it prints exactly if the longest triple has 36 characters and the longest operating system 10. A row is aligned with the header exactly if no text is wider than its column, and a link names the platform's constant exactly if the triple has no dot. The committed README is what it prints for the committed platforms.", "quantifier": "all lists of platforms, all triples", "why_tests_cant": "There are no tests of the printer; tables of platforms are unbounded.", "anchors": ["platforms-table-gen/src/main.rs: main, print_platforms_table, print_table_header, print_platform_entry, print_platform_links", "platforms/README.md"]}
{"id": "C78", "title": "metrics() lists exactly what the text of a CVSS vector says", "statement": "For every text that parses as a CVSS vector of any version, the entries of Cvss::metrics() correspond one to one to the components of the text that hold metrics: entry and component name the same metric, MetricType::description() is the name the CVSS documents give it, and the Debug text of the value is the word for the abbreviation in the text. No metric, name or description is listed twice, and two vectors of a version with the same listing have the same metrics.", "quantifier": "all texts, all vectors of CVSS 2.0, 3.0, 3.1 and 4.0", "why_tests_cant": "The listing is written by hand, one row for each of 54 metrics, for every combination of present metrics.", "anchors": ["cvss/src/cvss.rs: Cvss::metrics, MetricType::name, MetricType::description", "cvss/src/v2/vector.rs: metrics", "cvss/src/v3/base.rs: metrics", "cvss/src/v4/vector.rs: metrics", "cvss/src/v4/metric.rs: description"]}
{"id": "C79", "title": "A JSON report is read back as it was written", "statement": "For every report about advisories parsed from files and packages of a parsed lockfile, with settings that were parsed: serialising it and deserialising the value gives the same report, field by field (metadata, version ranges, affected functions, CVSS, sources, checksums, dependencies, settings, counts, warnings). Exceptions, proved: a path source is written as null and lost; a git reference with special characters comes back as another one; a commit time the time library cannot write is an error.", "quantifier": "all reports, advisories, lockfiles and settings; all libraries for URL, version, requirement, date and time texts that read back what they write", "why_tests_cant": "Thirty-odd fields of a dozen types, each with its own text form, over all values; the tests read one report.", "anchors": ["rustsec/src/report.rs: Report, Settings, DatabaseInfo, VulnerabilityInfo", "rustsec/src/vulnerability.rs: Vulnerability", "rustsec/src/warning.rs: Warning", "rustsec/src/advisory/metadata.rs: Metadata", "cargo-lock/src/package.rs: Package", "cargo-lock/src/package/source.rs: Serialize, Deserialize"]}
{"id": "C80", "title": "cargo audit --json writes one JSON text per line", "statement": "For every report, `cargo audit --json` prints one line: a text of printable characters that an RFC 8259 reader reads as the report's value, then a newline. The reports of several files are the lines of the output, in order, and are read back from them. The contents are at their documented places (vulnerabilities.found, .count, .list[i].advisory.id, .package.name, warnings.<kind>[i] \u2026). Printing fails only if the time of the last commit cannot be written; then the command panics.", "quantifier": "all reports and lists of reports, all texts in them (any character)", "why_tests_cant": "Titles and descriptions hold any characters; the escaping must keep every text on one line and readable, for every nesting.", "anchors": ["cargo-audit/src/presenter.rs: print_report", "rustsec/src/report.rs: Report"]}
{"id": "C81", "title": "The SARIF document shows every finding, with the scores of the CVSS documents", "statement": "For every report whose CVSS vectors were read from text, `cargo audit --format sarif` prints one line of JSON: a SARIF 2.1.0 log with one run of cargo-audit. Its results are the vulnerabilities and then the warnings, in order, each with the rule (advisory ID or warning kind), sentence, level, the lockfile's path at line 1 and a fingerprint. There is exactly one rule for every rule name used, made from the first finding with that name, with title, description and link if there are any, tags, precision, and as security-severity the score that the CVSS documents give to the vector, to one decimal. Fingerprints differ if rule, package or version differ (no colons in names). Violations, proved: a default v4 vector panics; packages that differ only in source share a fingerprint.", "quantifier": "all reports (any number of vulnerabilities and warnings, any texts), paths, versions of the program and IEEE-like roundings", "why_tests_cant": "The rules are deduplicated over a history of findings, and the score is a float computed from millions of vectors and then rounded for printing; tests see a few reports.", "anchors": ["cargo-audit/src/sarif.rs: SarifLog, Run::from_report, ReportingDescriptor, SarifResult", "cargo-audit/src/presenter.rs: print_report"]}
{"id": "C82", "title": "OSV files are read back as they were written, and what sync needs of foreign files", "statement": "Every file that `rustsec-admin osv` writes (also in a run that fails later), and every item of the per-package OSV file of the web command, is JSON; read back it is the record that was exported with all fields, each at the place the OSV schema names, no item more, and `withdrawn` present exactly if withdrawn. Any record that is read from JSON is read again unchanged from what is written for it. Reading never panics, ignores unknown members and the order of members, takes defaults for all members but the required ones, and succeeds only if id, modified, published, summary and details are there once as strings, no known member is doubled, each affected package has a package and a database_specific object, and events, reference types and severity types are among those the program knows. Violations, proved: records that the OSV schema allows (event `limit`, reference type DISCUSSION, no summary) are refused, and one such file makes the whole of `sync` load nothing.", "quantifier": "all advisories that parse, all calendars and git histories, all JSON documents and all OSV export directories", "why_tests_cant": "Titles and descriptions are arbitrary text that must survive escaping; foreign records come in arbitrary shapes; tests check one sample.", "anchors": ["rustsec/src/osv/advisory.rs: OsvAdvisory and its parts (Serialize, Deserialize)", "admin/src/osv_export.rs: export_all", "admin/src/web.rs: render_advisories (OSV JSON)", "admin/src/commands/sync.rs: load_osv_file"]}
{"id": "C83", "title": "`cargo audit --json`, from the advisory files to the printed line", "statement": "If the advisory database and the lockfile can be read, `cargo audit --json` prints one line of JSON. A JSON reader gets from it: a vulnerability for exactly each pair of a package of the lockfile and a non-informational advisory in a file of the database that concerns it, with all fields of the advisory file, the package and the version requirements, each pair once if the lockfile has no package twice; a warning of each kind for exactly the pairs of package and informational advisory that are asked for; the yanked packages; the number of advisories and of packages, the commit, and the ignored advisories. The exit status is 1 exactly if the document shows a vulnerability or a warning of a denied kind (or warnings are denied and there is an advisory about the tool), else 0. `cargo audit bin --json` prints such a line for exactly each binary that can be scanned.", "quantifier": "all checkouts of the database, all lockfiles and binaries, all configurations and environments with the format json", "why_tests_cant": "The claim joins parsing, loading, matching, settings, warnings, exit status and printing; the tests check parts on fixed samples.", "anchors": ["cargo-audit/src/auditor.rs: Auditor::audit_lockfile, audit_binaries", "cargo-audit/src/presenter.rs: Presenter::print_report", "rustsec/src/report.rs: Report::generate", "rustsec/src/database.rs: Database::open", "rustsec/src/vulnerability.rs: Vulnerability::new"]}
{"id": "C84", "title": "`cargo audit --format sarif`, from the advisory files to the printed document", "statement": "If the advisory database and the lockfile can be read, `cargo audit --format sarif` always prints one SARIF document, whatever the advisories and packages are. It has a result for exactly each pair of a package and an advisory in a file of the database that concerns it (with the sentence, level and fingerprint of C81, and a rule with the title, description, link and CVSS score of the advisory), and results for the yanked packages; no pair twice if no package is locked twice. The exit status is 1 exactly if there is a result for a vulnerability or for a warning of a denied kind (or warnings are denied and there is an advisory about the tool), else 0. `cargo audit bin` prints such a document for exactly each binary that can be scanned, and names it as the place. Violation, proved: for lockfiles the place is always `Cargo.lock`, also if another file was audited with `--file`.", "quantifier": "all checkouts of the database, all lockfiles and binaries, all configurations and environments with the format sarif", "why_tests_cant": "The claim joins parsing, loading, matching, settings, warnings, scoring, exit status and printing; the tests check parts on fixed samples.", "anchors": ["cargo-audit/src/auditor.rs: Auditor::audit_lockfile, audit_binaries, audit", "cargo-audit/src/presenter.rs: Presenter::print_report", "cargo-audit/src/sarif.rs: SarifLog::from_report", "rustsec/src/report.rs: Report::generate"]}
{"id": "C85", "title": "The error of a CVSS text that does not parse says the first thing that is wrong with it", "statement": "If a text is not a CVSS vector, the parser of each version, and the unified one, returns exactly one error, and it is the first fault in this order: the first piece between slashes that is not `name:value` (quoted as written), a wrong prefix, an unsupported version, the first component with an unknown metric, an invalid value or a metric already given, and at last the first mandatory metric that is missing. A text has such a fault exactly if it does not parse. The message of an error names the metric with the abbreviation and name of the specification of its version, and quotes the text; two different errors never have the same message. The nomenclature and severity parsers quote the whole text, exactly if it is none of their words. Deviations, proved: v3 and v4 quote names and values in capitals, not as they were written, and a text whose first piece has no dot is treated as CVSS v2, so that `CVSS:3/AV:N` is reported as an unknown metric `CVSS`.", "quantifier": "all texts, all three versions and the unified parser, all errors", "why_tests_cant": "The tests parse a few wrong vectors; that the error reported is the first fault, and that there is one for every text that does not parse, is about all texts.", "anchors": ["cvss/src/error.rs: Error, Display", "cvss/src/cvss.rs: FromStr for Cvss", "cvss/src/v2/vector.rs: FromStr for Vector, check_mandatory_metrics", "cvss/src/v3/base.rs: FromStr for Base", "cvss/src/v4/vector.rs: FromStr for Vector, check_mandatory_metrics", "cvss/src/v4/score.rs: FromStr for Nomenclature", "cvss/src/severity.rs: FromStr for Severity"]}
{"id": "C86", "title": "The text of Cargo.lock is a TOML document that says what the lockfile says", "statement": "`Lockfile::to_string` always gives a valid TOML document whose fields are those of the lockfile, in the order of the file: the version (from 3 on), one `[[package]]` table per package with name, version, source, checksum and dependencies (or the `replace` directive), one `[[patch.unused]]` table per unused patch, and the metadata; nothing is given twice, nothing is cut off by the removal of newlines at the end. Reading the text back gives what the fields give, so a well-formed lockfile survives writing and reading as text (V2 to V4 unchanged, V1 with its checksums in the metadata), also after it was read from a text that cargo-lock did not write. The text starts with Cargo's marker lines and ends with exactly one newline.", "quantifier": "all lockfiles (any number of packages, dependencies, patches, metadata, any texts in the fields), all texts read", "why_tests_cant": "The tests read and write a few lockfiles of this repository; that names, sources and metadata with any characters stay in their place in the text is about all lockfiles.", "anchors": ["cargo-lock/src/lockfile/encoding.rs: ToString for EncodableLockfile, emit_package, EncodableLockfile, EncodablePackage", "cargo-lock/src/lockfile.rs: FromStr, ToString for Lockfile", "cargo-lock/src/patch.rs: Patch", "cargo-lock/src/metadata.rs: Metadata"]}
{"id": "C87", "title": "A query means what its calls say: the last word about each criterion counts", "statement": "For every chain of calls on `Query::new()`, `crate_scope()` or the default query, the query matches exactly the advisories for which the last call about each criterion (collection, name, version, source, severity, architectures, operating systems, year, withdrawn, informational) holds; criteria no call speaks about do not matter. `package` speaks about name, version and source at once, and takes an earlier source away when the package has none. Calls about different things can be made in any order, and repeating a call later makes the earlier one superfluous. A loaded database answers with exactly the advisories asked for, in its order. Deviation from the documentation, proved: `Query::new()` leaves out neither withdrawn nor informational advisories.", "quantifier": "all chains of calls of any length and order, all advisories, all loaded databases", "why_tests_cant": "The tests build a few fixed queries; that earlier calls leave no trace is about all chains.", "anchors": ["rustsec/src/database/query.rs: Query, Query::new, Query::crate_scope, the setters, Query::matches, Default", "rustsec/src/database.rs: Database::query"]}
{"id": "C88", "title": "The configuration file means what it says, and nothing in it is ignored silently", "statement": "A text is accepted as `audit.toml` exactly if it is a TOML document whose sections and settings are all documented ones and whose values have the documented forms; the configuration is then what each setting says, with the default for every setting left out, and reading never panics. An undocumented section or setting anywhere is an error. The file in force is the project's `.cargo/audit.toml` if it exists, otherwise cargo home's `audit.toml`; with a project file nothing of the user's matters, and files are never merged. The options of the command line come on top, and a report leaves out exactly the IDs of the file and of `--ignore`, by the file's threshold and the targets of the command line or else of the file. Deviations from the documentation, proved: `[database]` without `stale` and `[output]` without `quiet` are errors; the default of `show_tree` is true or false according to whether the file has an `[output]` section.", "quantifier": "all texts of configuration files, all documents, all file systems and home directories, all command lines", "why_tests_cant": "The tests read the two example files; that no misspelt setting passes is about all texts.", "anchors": ["cargo-audit/src/config.rs: AuditConfig, AdvisoryConfig, DatabaseConfig, OutputConfig, FilterList, TargetConfig, YankedConfig", "cargo-audit/src/commands.rs: CargoAuditCommand::config_path, process_config", "cargo-audit/audit.toml.example"]}
{"id": "C89", "title": "What a run prints: progress unless quiet, and the reason whenever it fails", "statement": "With `quiet`, or with a machine-readable format, a run prints exactly what the same run prints otherwise, less the messages on its progress (fetching, loaded, updating, scanning, and the difficulties with the index), and ends in the same way; nothing else is suppressed and nothing about progress is printed. A run that is not quiet and finds its lockfile and database first says, in this order and before any part of the report: where it fetches from, how many advisories it loaded, what it does about the index, and which file with how many packages it scans. Unless it crashes, a run ends with a non-zero code exactly if it prints a reason: an error message, a total of vulnerabilities or denied warnings, a denied notice about the tool itself, or a document with such findings; the one error message that is no reason is that a crate could not be looked up in the index. The same for binaries. The messages do not change how a run ends.", "quantifier": "all configurations, lockfiles, databases, binaries, states of the index and of the locks, and all command lines", "why_tests_cant": "The tests run a few projects and look at codes; that a failing run always says why, in all the configurations and failures, is about all runs.", "anchors": ["cargo-audit/src/auditor.rs: Auditor::new, audit_lockfile, audit_binaries, audit_binary, check_for_yanked_crates", "cargo-audit/src/presenter.rs: before_report, binary_scan_report, print_report, print_self_report", "cargo-audit/src/config.rs: OutputConfig::is_quiet", "cargo-audit/src/commands/audit.rs: AuditCommand::run"]}
{"id": "C90", "title": "Versions and requirements in lockfiles, advisories and reports are texts that keep their meaning", "statement": "The texts accepted as versions are exactly the texts that versions are written as, so that no two texts stand for one version, and every version of 64-bit numbers and proper identifiers can be written and read back. Every requirement that is read has one of the shapes the range code handles (a patch only after a minor, a pre-release only after a patch, no wildcard with a patch, at most 32 comparators) and what is written for it is read as the same requirement. Hence: every version in a lockfile that was read, of packages and dependencies, is a single word and survives being written; of every advisory that was read it can be told of each version whether it is vulnerable, and it is exactly if no requirement covers it; and reports lose neither versions nor requirements.", "quantifier": "all texts, versions, requirements, lockfile texts, advisory texts and databases", "why_tests_cant": "Tests try some version texts; that reading and writing agree on all of them, and that no accepted requirement is outside the shapes the range code can handle, is a statement about all texts.", "anchors": ["cargo-lock/src/package.rs: Package.version", "cargo-lock/src/lockfile/encoding.rs: EncodableDependency::from_str", "rustsec/src/advisory/versions.rs: Versions, RawVersions", "rustsec/src/advisory/affected.rs: Affected.functions", "rustsec/src/report.rs: Report"]}
{"id": "C91", "title": "The verdict of `cargo audit` is decided by the texts of the files", "statement": "Given the texts of all files: if `cargo audit` exits with 0, then the configuration in force, the lockfile and the advisory database were read, and no package table of the lockfile's text that names crates.io as its source has a version that an advisory file below `crates` of the database (not a draft, not withdrawn, not ignored by the configuration or the command line, not below the severity threshold, not for other platforms only) declares neither patched nor unaffected, unless the advisory is informational of a kind that is not denied; nor is such a package said to be yanked while that is denied, nor the tool itself vulnerable while warnings are denied. When all can be read and the report can be printed, the exit is 1 exactly if one of these holds. A configuration or database that cannot be read gives 1, a lockfile that cannot be found or read gives 2. The packages of the lockfile are exactly its text's package tables.", "quantifier": "all texts of lockfiles, configurations and advisory files, all checkouts, registries, command lines and states of the file system", "why_tests_cant": "The acceptance tests run a few projects against the live database; that success always means that no file says otherwise is a statement about all texts.", "anchors": ["cargo-audit/src/commands/audit.rs: AuditCommand::run", "cargo-audit/src/commands.rs: config_path, process_config", "cargo-audit/src/auditor.rs: Auditor::new, audit_lockfile, load_lockfile", "cargo-audit/src/lockfile.rs: locate_or_generate", "rustsec/src/database.rs: Database::open, query_vulnerabilities", "rustsec/src/advisory.rs: Advisory::load_file, from_str", "cargo-lock/src/lockfile.rs: Lockfile::from_str"]}
{"id": "C92", "title": "The JSON and SARIF reports list exactly what the texts of the files tell", "statement": "`cargo audit --json` prints one line, a JSON document. Its array of vulnerabilities has an element with an advisory ID, a package name and a version exactly if the lockfile's text locks that version of that package from crates.io and a file of the advisory database has an advisory with that ID that concerns it (severity by the CVSS equations, versions by the requirement texts) and is not informational; each array of warnings likewise for the informational advisories that are asked for; the array of yanked packages exactly if the index says so. `--format sarif`: the results of level error and warning, identified by their fingerprints ID:package:version, likewise. Version texts are those of the lockfile.", "quantifier": "all texts of lockfiles, configurations and advisory files, all checkouts, registries and command lines", "why_tests_cant": "Tests look at the reports of a few projects; that nothing is left out of the document and nothing is invented is a statement about all texts.", "anchors": ["cargo-audit/src/presenter.rs: Presenter::print_report", "rustsec/src/report.rs: Report::generate", "cargo-audit/src/sarif.rs: SarifLog::from_report", "cargo-audit/src/auditor.rs: Auditor::audit_lockfile"]}
{"id": "C93", "title": "`cargo audit bin`: from the bytes of the binaries to the verdict and the reports", "statement": "When the configuration and the database can be read, `cargo audit bin` reports on each binary that says what it is made of (a well-formed embedded list, or, without one, a path `cargo/registry/src/<dir>/<crate>-<version>/` in its bytes) and is within the size limit, and on no other. A report lists exactly the advisories whose texts concern a crates.io package that the bytes name and that are not limited to operating systems that do not run the binary's format, and the yanked packages. The exit status is 1 exactly if the bytes of one of these binaries are damning given the texts of the advisories; 0 exactly if all binaries could be scanned, none is damning, and no advisory about the tool is denied; else 2.", "quantifier": "all bytes of binaries, size limits, lists of paths, configurations, advisory texts and registries", "why_tests_cant": "Tests scan a few sample binaries; that no package named in the bytes is overlooked, nothing is invented, and an unreadable binary never gives status 0 concerns all bytes.", "anchors": ["cargo-audit/src/commands/audit/binary_scanning.rs: BinCommand::run", "cargo-audit/src/auditor.rs: Auditor::audit_binaries, audit_binary, read_binary_with_limit", "rustsec/src/binary_scanning/binary_deps.rs: load_deps_from_binary", "quitters/src/lib.rs: versions", "rustsec/src/binary_scanning/binary_type_filter.rs"]}
{"id": "C94", "title": "`rustsec-admin lint` from the texts of the checkout to the verdict", "statement": "`rustsec-admin lint` exits with status 0 exactly if at most one path is given, the crates.io index can be opened, and the texts of the checkout pass: the database can be read and has an advisory that is not a draft, both collections are listed and hold package directories with readable files only, every text is an advisory under the header `[advisory]` with none of the problems of C24, and, if cargo's lock is free, crates have on crates.io the names that advisories give. After such a run `cargo audit` can load that checkout and its exit status depends on findings only. No assumption about the TOML parser is left: the keys of a document are distinct, and a text read under a header has no other strings in that table than at its top level.", "quantifier": "all texts of advisories, listings, paths, answers of the index and states of the lock", "why_tests_cant": "Tests lint a few files; that the verdict is right for every text, including texts whose TOML means something else under a header, concerns all texts.", "anchors": ["admin/src/linter.rs: Linter::lint", "admin/src/commands/lint.rs: LintCmd::run", "rustsec/src/advisory/linter.rs: Linter::lint_string", "rustsec/src/advisory.rs: Advisory::from_str"]}
{"id": "C95", "title": "What `rustsec-admin lint` prints", "statement": "If a run goes through, every file with problems is printed with exactly these, every other file is printed if `--verbose` was given, and nothing else; the count is that of the files printed with errors. Notices are in the order of the paths, at most one for each file, also if the run is given up. Neither they nor the verdict nor the reason for giving up depend on the order in which directories are listed. If the run is given up, the reason named is there. The messages about user mentions name exactly the users that lines of the Markdown mention first; in a file with the usual layout the number is that of the line of the file (otherwise it need not be: C95_line_numbers_wrong).", "quantifier": "all checkouts, texts, orders of listings and answers of the index", "why_tests_cant": "Tests see one listing order and a few files; independence of the order and exactness of the printed problems concern all listings and texts.", "anchors": ["admin/src/linter.rs: Linter::lint, lint_advisory, crates_io_lints, read_dir_sorted", "rustsec/src/advisory/linter.rs: Linter::lint_string (user mentions)"]}
{"id": "C96", "title": "What the text of a Cargo.lock means", "statement": "`Lockfile::from_str` accepts a text exactly if it is a TOML document that means a lockfile, and returns that lockfile; a text means at most one. Packages are the tables of the array `package`, each with a name, a version and perhaps a source, a checksum of 32 bytes in hexadecimal, references to dependencies and a replacement; a reference is one to three words separated by white space; without a source it refers to the first package listed that has its name and version (if given), otherwise it must say its version itself. The format is the number given (1 to 4), or 1 if the metadata has a key `checksum ...` and no package a checksum, or 2 if it has none; in format 1 references say everything themselves and a checksum is that of the first key, in key order, of the package's name and version. Metadata are kept in the order of their keys, unused patches as they are, a legacy root package too. Parsing panics only if a text of 64 bytes in the place of a checksum has a character that is cut when read two bytes at a time (which happens: C96_panic_reached). `cargo audit` exits with 0 exactly if the lockfile's text means a lockfile, the other texts can be read and none of them is damning.", "quantifier": "all texts", "why_tests_cant": "Tests parse a few lockfiles; that every accepted text is understood as written, with every mixture of white space, missing fields, references and metadata, concerns all texts.", "anchors": ["cargo-lock/src/lockfile.rs: impl FromStr for Lockfile", "cargo-lock/src/lockfile/encoding.rs: EncodableLockfile, TryFrom<EncodableLockfile> for Lockfile, find_checksum, EncodablePackage::resolve, EncodableDependency::resolve, FromStr for EncodableDependency", "cargo-lock/src/lockfile/version.rs: ResolveVersion::detect", "cargo-lock/src/metadata.rs: Metadata, MetadataKey::checksum_dependency", "cargo-lock/src/package/source.rs: SourceId::from_url", "cargo-lock/src/package/checksum.rs: FromStr for Checksum"]}
{"id": "C97", "title": "A reader of the exported OSV files concludes what the advisories' texts say", "statement": "Every file that `rustsec-admin osv` writes, whether or not it succeeds, belongs to the text of an advisory file in `crates`; it is JSON, and a program that knows only this JSON and follows the evaluation algorithm of the OSV schema (reading the versions of the events as semver texts) concludes that a version of a crate is affected exactly if the crate is the advisory's package and no requirement in `patched` or `unaffected` of the text covers the version. After a successful export of a database that opens, the file `<ID>.json` of every advisory is such a file. Hence everything `cargo audit` reports for an advisory is affected according to its OSV file.", "quantifier": "all checkouts and histories, all advisory texts whose requirements do not contain 2^64-1, all crates and versions", "why_tests_cant": "The reader is another program; agreement must hold for every version of every crate and every combination of requirements, through TOML, version arithmetic and JSON.", "anchors": ["rustsec/src/osv/advisory.rs: OsvAdvisory::from_rustsec, OsvJsonRange::new, OsvTimelineEvent", "rustsec/src/osv/ranges_for_advisory.rs: unaffected_to_osv_ranges, increment", "admin/src/osv_export.rs: OsvExporter::export_all", "rustsec/src/advisory.rs: Advisory::from_str"]}
{"id": "C98", "title": "Version ranges with numbers of 64 bits", "statement": "With the arithmetic of `u64`, both a debug build (overflow panics) and a release build (overflow wraps) decide as with unbounded numbers whether requirements are accepted, which versions are vulnerable and which OSV events are written, provided no number of the requirements is 18446744073709551615; then a version is vulnerable exactly if no requirement covers it. A debug build is never wrong, whatever the numbers: it panics or decides the same. A release build can be wrong: `<= 1.0.18446744073709551615` as patched reports 1.0.5, and `> 1.0.18446744073709551615` does not report 1.0.5.", "quantifier": "all requirement lists, all versions, both kinds of builds", "why_tests_cant": "Overflow needs particular numbers; that all others are handled exactly concerns every requirement.", "anchors": ["rustsec/src/osv/ranges_for_advisory.rs: increment, unaffected_to_osv_ranges", "rustsec/src/osv/unaffected_range.rs: TryFrom<&VersionReq> for UnaffectedRange", "rustsec/src/advisory/versions.rs: Versions::is_vulnerable", "Cargo.toml: profile.release"]}
{"id": "C99", "title": "What a source identifier answers", "statement": "A `SourceId` read from a text answers what the text says: `is_path`, `is_git`, `is_registry`, `is_remote_registry` according to the kind before the first `+`; `git_reference` and `precise` from the query and the fragment of a git URL; `is_default_registry` exactly if it names the git or the sparse index of crates.io. The constructors give the asked kind and URL; `with_precise` changes nothing else. Sources that compare equal answer these questions the same, and the descriptions of two indexes are the same only for the same index. Serialized, a path is null and any other source is read again as itself (if its git reference is plain).", "quantifier": "all texts, URLs, paths, git references and revisions; all sources a program can obtain by any sequence of these operations", "why_tests_cant": "The texts, references and sequences of operations are unbounded.", "anchors": ["cargo-lock/src/package/source.rs: SourceId::from_url, for_path, for_git, for_registry, for_local_registry, for_directory, display_index, display_registry_name, is_path, is_registry, is_remote_registry, is_git, precise, git_reference, with_precise, is_default_registry, Serialize"]}
{"id": "C100", "title": "`cargo lock` on the text of a lockfile", "statement": "`cargo lock translate --version 2|3|4` on the text of a lockfile as Cargo makes them (its packages depend on packages of the lockfile, no path sources, replaced packages without dependencies, only its own checksums in the metadata) gives a text, on the standard output or in the asked file, that means the same packages (names, versions, sources, checksums, dependencies, replacements), the same unused patches and the same other metadata in that format, if the format can hold the names of the git branches; any chain of translations keeps them. `cargo lock list` prints one line for each wanted package that the text means, in order, and for its dependencies if asked.", "quantifier": "all texts of lockfiles of any format, all options, all chains of translations", "why_tests_cant": "Lockfiles and chains of translations are unbounded; abbreviated references, encodings and format detection interact.", "anchors": ["cargo-lock/src/main.rs: TranslateCmd::run, ListCmd::run, load_lockfile", "cargo-lock/src/lockfile/encoding.rs: EncodableLockfile, Display, emit_package", "cargo-lock/src/lockfile.rs: FromStr, Display"]}
{"id": "C101", "title": "A search on the web site", "statement": "A text that a visitor types in the search form of any page of the site reaches the search page unchanged but for white space at its ends, whatever characters it has. The visitor comes to the page of the package of this name, in any case of letters; without such a package, to the page of the advisory with this ID, alias or related ID; if several, to the list of exactly these, each with the address of its page; if none, to \"No results\". This holds for the script that the renderer writes, in whatever order its entries are, for all texts but the names of what every JavaScript object has (`constructor` leads to the page of an advisory called `undefined`).", "quantifier": "all sites, all texts of all Unicode characters, all orders of the index", "why_tests_cant": "Texts, names and sites are unbounded; JSON in a script, URL encoding twice and the lookup in an object interact.", "anchors": ["admin/src/web.rs: render_index", "admin/src/web/static/js/search.js: search"]}
{"id": "C102", "title": "`cargo lock tree` on the text of a lockfile", "statement": "On the text of a lockfile as Cargo makes them, `cargo lock tree` with names, versions or `name@version` prints for each of them the drawing of the tree of the first package that it means, with a blank line between trees: its label (in exact form with checksum or source), and under each package, where it stands first, exactly the packages that it depends on (or, inverse, that depend on it), and nothing under it elsewhere. If one of them means no package, the command fails and prints nothing. Without arguments it prints the trees of the packages that no other depends on, in order; without cycles every package of the text has a line.", "quantifier": "all texts of lockfiles of any format, all options", "why_tests_cant": "Graphs of packages are unbounded; cycles, shared dependencies and abbreviated references interact.", "anchors": ["cargo-lock/src/main.rs: TreeCmd::run", "cargo-lock/src/dependency/tree.rs: Tree::render", "cargo-lock/src/lockfile.rs: FromStr"]}
{"id": "C103", "title": "The terminal report of `cargo audit` tells what the texts of the files tell, and nothing else", "statement": "When the configuration, the lockfile, the checkout and the database can be read and the dependency tree can be built, the screen of `cargo audit` consists of blocks of lines and totals. Each block tells something that the texts tell: an advisory whose text concerns a crates.io package that the text of the lockfile names (with the package's name and version, and the title, date, ID, link and, for a CVSS vector, the severity of the advisory's text), an informational one that was asked for (with its kind), or a yanked package; and all of these have a block. The solution names all patched requirements of the text; without them requirements never affected, each met by a newer release, or no upgrade, which is right if all requirements name all their numbers. Something on the screen is red exactly if the exit status is 1, exactly if the texts are damning; warnings whose kind is not denied are not red.", "quantifier": "all texts of lockfiles, configurations and advisories, all checkouts, registries and installed versions of the tool", "why_tests_cant": "Tests look for substrings in the output of a few runs; the claim relates every line, colour and exit status to the texts for all files.", "anchors": ["cargo-audit/src/presenter.rs: print_report, print_self_report, print_vulnerability, print_warning, print_metadata, permits_newer", "cargo-audit/src/auditor.rs: audit_lockfile", "cargo-audit/src/commands/audit.rs: run"]}
{"id": "C104", "title": "`rustsec-admin list-affected-versions`: from the texts of a database to the lines", "statement": "If the command succeeds on a checkout, it has printed one block for each file of the collection of crates whose text is that of an advisory and not a draft, no two with the same ID, and nothing else: the ID and the package, and then, in the order of the registry, a line for each text of a version, marked vulnerable exactly if no requirement written under patched or unaffected covers the version. It succeeds exactly if the files can be read as a database with at least one published advisory, the index can be opened, cargo's lock is free, and for each published advisory on a crate the registry has the crate, and every text of a version is that of a semantic version. However it ends, each line printed about a version is true of a published advisory.", "quantifier": "all checkouts, texts of advisories and contents of the registry", "why_tests_cant": "There are no tests of the command; the claim ranges over all texts of requirements and versions.", "anchors": ["admin/src/list_versions.rs: process_one_advisory, process_all_advisories", "admin/src/commands/list_affected_versions.rs: run", "rustsec/src/advisory.rs: FromStr", "rustsec/src/database.rs: Database::open"]}
{"id": "C105", "title": "`cargo audit fix`: from the texts of the files to the commands and back", "statement": "When the configuration, the lockfile and the database can be read, `cargo audit fix` runs `cargo update` for each vulnerability that the texts tell of and whose advisory has a patched version, and for nothing else; each command is told of exactly the packages of that name in the text of the lockfile whose versions no requirement of the advisory covers, written name@version after their source (so of the vulnerable package from crates.io), dry exactly if asked for, in the directory of the lockfile that was named. The advisories called unpatchable are those without a patched version. Status 2 if a command cannot be started; a dry run otherwise ends with 1 exactly if something is unpatchable; without vulnerabilities nothing is done. Afterwards the files are read again: the IDs warned about are exactly those of the vulnerabilities that the texts tell of then, except those unpatchable before; zero remain exactly if the texts tell of none; and the status is 0 in any case.", "quantifier": "all texts of lockfiles, configurations and advisories, checkouts, and everything that `cargo update` may do to the files", "why_tests_cant": "There is no test of fix; which packages are named depends on all texts, and what is said afterwards on whatever cargo did.", "anchors": ["cargo-audit/src/commands/audit/fix.rs: FixCommand::run", "rustsec/src/fixer.rs: Fixer::get_fix_command, pkgid", "cargo-audit/src/auditor.rs: audit_lockfile"]}
{"id": "C106", "title": "`cargo audit bin` on a terminal: from the bytes of the binaries to what is shown", "statement": "When the configuration and the database can be read, `cargo audit bin` with terminal output shows messages, then one piece for each binary in the order of the command line, then the advisories about the tool exactly if there are any. The piece of a binary that says what it is made of (an embedded list, or paths of crates) has a block of lines for each vulnerability, each informational advisory that is asked for and each yanked package that the bytes and the texts of the advisories tell of, with name, version, title, date, ID, link, severity and advice, and no block for anything else; advisories limited to operating systems that do not run the binary are left out; warnings are errors exactly if their kind is denied. The piece of any other binary says that it failed and has no report, and the binaries after it are still audited. The exit status is 1 exactly if the piece of some binary marks something as an error, which it does exactly if its bytes are damning.", "quantifier": "all bytes of any number of binaries, all texts of configurations and advisories, checkouts, limits and circumstances (locks taken, quiet or not)", "why_tests_cant": "What is shown about a binary depends on all its bytes, on all advisories and on what was shown for the binaries before; tests use a few binaries and compare nothing on the terminal.", "anchors": ["cargo-audit/src/auditor.rs: audit_binaries, audit_binary", "cargo-audit/src/presenter.rs: binary_scan_report, print_report", "rustsec/src/binary_scanning/binary_deps.rs: load_deps_from_binary"]}
{"id": "C107", "title": "rustsec-admin assign-id as a command: where it works, what it says, and that what it says is true", "statement": "`rustsec-admin assign-id` works at the path it is given, else in the current directory, and changes the disk there exactly as C51 and C52 describe; with two or more paths, which the argument parser lets through, it panics and changes and prints nothing. Status 0 means that all drafts got their IDs and, with --github-actions-output, that there is a title. A successful run prints the number of advisories and the path, then every assignment in order; with --github-actions-output it prints a single line of at most 255 bytes, the title of C53. At whatever moment the command is stopped, by a failure or a crash, every assignment announced so far is complete: the draft is gone and its text with the new ID is in the new file.", "quantifier": "all disks, database texts, lists of paths, output modes and moments at which the command may stop", "why_tests_cant": "Quantifies over every moment of every run; the project has no test of the command.", "anchors": ["admin/src/commands/assign_id.rs: AssignIdCmd::run", "admin/src/assigner.rs: assign_ids, assign_ids_across_directory"]}
{"id": "C108", "title": "everything cargo audit shows on a terminal, from the texts of the files", "statement": "If the configuration, the lockfile and the advisory database can be read, the whole of what `cargo audit` shows on a terminal is: messages, then one block of lines for every vulnerability, enabled informational advisory and yanked package that the texts tell of and for nothing else, then totals, then the notices about the tool itself (exactly if an advisory is about this version of it). The exit status is 0 or 1: 1 exactly if a line is marked as an error, and exactly if the texts are damning. If the lockfile or the database cannot be read, only messages are shown - no finding and no total - the exit status is never 0, and unless the run panics one of the messages is an error that explains it.", "quantifier": "all texts of configuration, lockfile and advisory files, all settings with terminal output, and all circumstances (busy package locks, quiet or not)", "why_tests_cant": "Quantifies over every project, database and configuration and over everything on the screen: that nothing else is shown, and that a failure to read is never taken for a clean result.", "anchors": ["cargo-audit/src/commands/audit.rs: AuditCommand::run", "cargo-audit/src/auditor.rs: Auditor::new, audit_lockfile, audit", "cargo-audit/src/presenter.rs: Presenter::print_report, print_self_report"]}
{"id": "C109", "title": "which versions meet a requirement, pre-releases included, and what rustsec makes of it", "statement": "A version meets a requirement exactly as semver documents it: every comparator holds - with all three numbers written by precedence, ~ keeping the first two numbers and ^ the numbers up to the first that is not zero; with fewer, by the numbers written only - and a pre-release must be asked for by a comparator with a pre-release of the very same three numbers. Hence: the functions looked for in a binary are exactly those listed with a requirement that the locked version meets; when the report says an unaffected requirement permits an upgrade, a newer version meets that requirement; and for releases, where requirements write all numbers, the ranges rustsec computes say the same.", "quantifier": "all well-formed requirements and all versions, with pre-releases and build metadata", "why_tests_cant": "Infinitely many requirements and versions; partial comparators and pre-releases interact.", "anchors": ["cargo-audit/src/presenter.rs: permits_newer", "rustsec/src/vulnerability.rs: Vulnerability::affected_functions", "rustsec/src/osv/unaffected_range.rs: UnaffectedRange::try_from", "rustsec/src/osv/ranges_for_advisory.rs: ranges_for_advisory"]}
{"id": "C110", "title": "what the messages of the linter say", "statement": "When the linter shows its errors, there is one line per problem, in the order of the file, and the line says which problem it is, naming the section, the key and the value as the file has them (a bare mention: the line of the file; a function: its path as written). Two different problems never get the same message. Two messages do not name what the file has: a deprecated `yanked` of [advisory] is placed in [metadata], a section that advisories do not have, and an unknown entry of `categories` under `category`, a key that the linter itself refuses.", "quantifier": "all advisory texts, drafts or not, and all ways of writing values; that messages differ is for ways of writing texts between quotes with the inner quotes escaped, and for TOML texts differently when they differ", "why_tests_cant": "That different problems have different messages is about every pair of values, with brackets, quotes or backquotes inside; the positions are for every document.", "anchors": ["rustsec/src/advisory/linter.rs: Linter::lint, lint_advisory, lint_metadata, lint_affected, lint_versions, Error, ErrorKind (Display)", "admin/src/linter.rs: list of errors"]}
{"id": "C111", "title": "The web command writes in its folder only", "statement": "`rustsec-admin web` writes nothing outside the folder it is given (`_site/` without one), also in runs that fail, whatever the packages, keywords, titles, aliases and texts of the advisories are - if no category has a slash and no ID starts with one. Both do matter: an unknown category is used as a path, so `../../x` is written above the folder and `/etc/x` anywhere; so is the ID of a draft that starts with a slash. With two paths the command panics and writes nothing.", "quantifier": "all databases (packages are names of directories, Git has no paths with `..`), all folders, all runs", "why_tests_cant": "Names come from the files of strangers: no path may lead out, for any text and any folder.", "anchors": ["admin/src/commands/web.rs", "admin/src/web.rs: render_advisories, render_list_index, AdvisoryData::new, safe_keyword", "rustsec/src/database/entries.rs: load_file", "rustsec/src/advisory/category.rs: Category::name"]}
{"id": "C112", "title": "The osv command writes in its folder only", "statement": "`rustsec-admin osv` writes nothing outside the folder it is given (the current one without), also in runs that fail, if every ID of an advisory is the name of a file. Nothing checks that: the ID `../x` is written above the folder and `/x` at the root, whatever the files of the advisories are called.", "quantifier": "all files of a database, all folders, all runs, all IDs", "why_tests_cant": "IDs come from the files of strangers: no path may lead out, for any text and any folder.", "anchors": ["admin/src/osv_export.rs: OsvExporter::export_all", "admin/src/commands/osv.rs", "rustsec/src/advisory/id.rs: FromStr"]}
