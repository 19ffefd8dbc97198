{
 "claims": [
  {
   "property": "C01",
   "status": "proved",
   "theorems": [
    "Verif.Props.C01_is_vulnerable_iff"
   ],
   "note": ""
  },
  {
   "property": "C02",
   "status": "proved",
   "theorems": [
    "Verif.Props.C02_ok_iff",
    "Verif.Props.C02_panic_iff",
    "Verif.Props.C02_accepted_never_panics",
    "Verif.Props.C02_panic_witness"
   ],
   "note": "Includes the finding that `=v` with `>v` panics instead of returning Err."
  },
  {
   "property": "C03",
   "status": "proved",
   "theorems": [
    "Verif.Props.C03_ranges_ordered"
   ],
   "note": ""
  },
  {
   "property": "C04",
   "status": "proved",
   "theorems": [
    "Verif.Props.C04_timeline_means_is_vulnerable",
    "Verif.Props.C04_export_panics_iff"
   ],
   "note": "Versions carried as values, not text; exporter assert characterised."
  },
  {
   "property": "C05",
   "status": "proved",
   "theorems": [
    "Verif.Props.C05_increment_successor"
   ],
   "note": "Version numbers unbounded (u64 overflow not modelled)."
  },
  {
   "property": "C06",
   "status": "proved",
   "theorems": [
    "Verif.Props.C06_rearrangement"
   ],
   "note": ""
  },
  {
   "property": "C07",
   "status": "proved",
   "theorems": [
    "Verif.Props.C07_agrees_with_semver_matches",
    "Verif.Props.C07_partial_comparators_differ"
   ],
   "note": "Agreement proved for every operator except partially written =, >, <=, where the code deviates (witnesses)."
  },
  {
   "property": "C08",
   "status": "proved",
   "theorems": [
    "Verif.Props.C08_empty_all_vulnerable",
    "Verif.Props.C08_none_vulnerable_iff"
   ],
   "note": ""
  },
  {
   "property": "C09",
   "status": "proved",
   "theorems": [
    "Verif.Props.C09_build_metadata_irrelevant"
   ],
   "note": ""
  },
  {
   "property": "C10",
   "status": "proved",
   "theorems": [
    "Verif.Props.C10_ids_unique",
    "Verif.Props.C10_get_iff"
   ],
   "note": ""
  },
  {
   "property": "C11",
   "status": "proved",
   "theorems": [
    "Verif.Props.C11_query_eq_scan"
   ],
   "note": ""
  },
  {
   "property": "C12",
   "status": "proved",
   "theorems": [
    "Verif.Props.C12_matches_iff",
    "Verif.Props.C12_unset_and_monotone"
   ],
   "note": ""
  },
  {
   "property": "C13",
   "status": "proved",
   "theorems": [
    "Verif.Props.C13_scan_sound_complete",
    "Verif.Props.C13_vulnerabilities_iff"
   ],
   "note": "Advisories assumed validated (their [versions] table was accepted by Versions::new, as deserialisation does)."
  },
  {
   "property": "C14",
   "status": "proved",
   "theorems": [
    "Verif.Props.C14_sparse_only_explicit",
    "Verif.Props.C14_sparse_missed"
   ],
   "note": "The desired behaviour is violated by the code: proved in general and by a concrete witness."
  },
  {
   "property": "C15",
   "status": "proved",
   "theorems": [
    "Verif.Props.C15_vulnerability_list",
    "Verif.Props.C15_once"
   ],
   "note": ""
  },
  {
   "property": "C16",
   "status": "proved",
   "theorems": [
    "Verif.Props.C16_warnings",
    "Verif.Props.C15_once"
   ],
   "note": ""
  },
  {
   "property": "C17",
   "status": "proved",
   "theorems": [
    "Verif.Props.C17_threshold",
    "Verif.Props.C17_raising_never_adds",
    "Verif.Props.C17_order"
   ],
   "note": ""
  },
  {
   "property": "C18",
   "status": "proved",
   "theorems": [
    "Verif.Props.C18_loaded_well_placed",
    "Verif.Props.C18_every_file_loaded",
    "Verif.Props.C18_opens_iff",
    "Verif.Props.C18_draft_name_real_id"
   ],
   "note": "Includes the gap that a draft file name with a real ID inside is loaded."
  },
  {
   "property": "C19",
   "status": "proved",
   "theorems": [
    "Verif.Props.C19_accepts_iff",
    "Verif.Props.C19_parsed_contents"
   ],
   "note": ""
  },
  {
   "property": "C25",
   "status": "proved",
   "theorems": [
    "Verif.Props.C25_accepts_iff",
    "Verif.Props.C25_round_trip",
    "Verif.Props.C25_show_shape",
    "Verif.Props.C25_show_injective",
    "Verif.Props.C25_wrong_length",
    "Verif.Props.C25_ascii_no_panic",
    "Verif.Props.C25_not_injective",
    "Verif.Props.C25_panics"
   ],
   "note": "Acceptance characterised exactly; includes the finding that non-ASCII text of the right byte length can panic and that `+f` is accepted as a byte."
  },
  {
   "property": "C26",
   "status": "proved",
   "theorems": [
    "Verif.Props.C26_parsed_shape",
    "Verif.Props.C26_git_encoded",
    "Verif.Props.C26_git_plain",
    "Verif.Props.C26_encoded_round_trip",
    "Verif.Props.C26_display_round_trip",
    "Verif.Props.C26_local_unparsable",
    "Verif.Props.C26_parsed_kinds",
    "Verif.Props.C26_display_violations",
    "Verif.Props.C26_constructor_registry"
   ],
   "note": "Relative to the stated law of url::Url (UrlLib.Lawful), which an instance is shown to meet."
  },
  {
   "property": "C27",
   "status": "proved",
   "theorems": [
    "Verif.Props.C27_eq_iff",
    "Verif.Props.C27_cmp_swap",
    "Verif.Props.C27_eq_refl",
    "Verif.Props.C27_eq_symm",
    "Verif.Props.C27_cmp_trans",
    "Verif.Props.C27_eq_trans",
    "Verif.Props.C27_not_transitive",
    "Verif.Props.C27_hash_inconsistent",
    "Verif.Props.C27_hash_consistent",
    "Verif.Props.C27_default_registry"
   ],
   "note": "Transitivity and Eq/Hash agreement fail for git sources (witnesses proved); proved where they hold."
  },
  {
   "property": "C28",
   "status": "proved",
   "theorems": [
    "Verif.Props.C28_round_trip",
    "Verif.Props.C28_source_ok_v4",
    "Verif.Props.C28_root_dropped",
    "Verif.Props.C28_replace_lost",
    "Verif.Props.C28_v3_branch_lost"
   ],
   "note": "TOML syntax not modelled; exceptions to the round trip proved as witnesses."
  },
  {
   "property": "C29",
   "status": "proved",
   "theorems": [
    "Verif.Props.C29_resolve_iff",
    "Verif.Props.C29_resolve_distinct",
    "Verif.Props.C29_abbreviation",
    "Verif.Props.C29_shadowed",
    "Verif.Props.C29_dangling_redirected"
   ],
   "note": ""
  },
  {
   "property": "C30",
   "status": "proved",
   "theorems": [
    "Verif.Props.C30_round_trip",
    "Verif.Props.C30_two_sources",
    "Verif.Props.C30_no_checksum_becomes_v2"
   ],
   "note": ""
  },
  {
   "property": "C31",
   "status": "proved",
   "theorems": [
    "Verif.Props.C31_new_ok_iff",
    "Verif.Props.C31_graph",
    "Verif.Props.C31_edges",
    "Verif.Props.C31_roots"
   ],
   "note": "For lockfiles whose git sources carry a revision (Cargo always writes one); without it the map key order is not lawful (C27)."
  },
  {
   "property": "C32",
   "status": "proved",
   "theorems": [
    "Verif.Props.C32_render",
    "Verif.Props.C32_prints",
    "Verif.Props.C32_depth_irrelevant",
    "Verif.Props.C32_render_text",
    "Verif.Props.C32_drawing"
   ],
   "note": "Writer failures and stack exhaustion are not modelled."
  },
  {
   "property": "C33",
   "status": "proved",
   "theorems": [
    "Verif.Cvss.C33_vocabulary",
    "Verif.Cvss.C33_parse_iff",
    "Verif.Cvss.C33_total",
    "Verif.Cvss.C33_round_trip",
    "Verif.Cvss.C33_any_order",
    "Verif.Cvss.C33_duplicate"
   ],
   "note": ""
  },
  {
   "property": "C34",
   "status": "proved",
   "theorems": [
    "Verif.Cvss.C34_vocabulary",
    "Verif.Cvss.C34_parse_iff",
    "Verif.Cvss.C34_total",
    "Verif.Cvss.C34_round_trip",
    "Verif.Cvss.C34_any_order",
    "Verif.Cvss.C34_duplicate"
   ],
   "note": ""
  },
  {
   "property": "C35",
   "status": "proved",
   "theorems": [
    "Verif.Cvss.C35_vocabulary",
    "Verif.Cvss.C35_parse_iff",
    "Verif.Cvss.C35_total",
    "Verif.Cvss.C35_round_trip",
    "Verif.Cvss.C35_any_order",
    "Verif.Cvss.C35_duplicate"
   ],
   "note": ""
  },
  {
   "property": "C59",
   "status": "proved",
   "theorems": [
    "Verif.Cvss.C59_parse_iff",
    "Verif.Cvss.C59_round_trip",
    "Verif.Cvss.C59_total",
    "Verif.Cvss.C59_parsed_well_formed"
   ],
   "note": ""
  },
  {
   "property": "C62",
   "status": "proved",
   "theorems": [
    "Verif.Props.C62_format"
   ],
   "note": ""
  },
  {
   "property": "C40",
   "status": "proved",
   "theorems": [
    "Verif.Cvss.C40_v3_monotone",
    "Verif.Cvss.C40_v3_zero"
   ],
   "note": ""
  },
  {
   "property": "C63",
   "status": "proved",
   "theorems": [
    "Verif.Cvss.C63_monotone",
    "Verif.Cvss.C63_environmental",
    "Verif.Cvss.C63_environmental_violation"
   ],
   "note": "Environmental score is not monotone in the base metrics: witness proved."
  },
  {
   "property": "C36",
   "status": "proved",
   "theorems": [
    "Verif.Cvss.C36_v3",
    "Verif.Cvss.C36_v2",
    "Verif.Cvss.C36_v4",
    "Verif.Cvss.C38_any_version"
   ],
   "note": "For every arithmetic within the IEEE bounds (Fp.Ok, instantiated by binary64)."
  },
  {
   "property": "C37",
   "status": "proved",
   "theorems": [
    "Verif.Cvss.C37_v3",
    "Verif.Cvss.C37_v2",
    "Verif.Cvss.C37_v4",
    "Verif.Cvss.C37_monotone",
    "Verif.Cvss.C37_partition",
    "Verif.Cvss.C38_any_version"
   ],
   "note": ""
  },
  {
   "property": "C38",
   "status": "proved",
   "theorems": [
    "Verif.Cvss.C38_parsed",
    "Verif.Cvss.C38_panic_iff",
    "Verif.Cvss.C38_default_violation",
    "Verif.Cvss.C38_any_version"
   ],
   "note": "Also proved: Vector::default() cannot be scored."
  },
  {
   "property": "C39",
   "status": "proved",
   "theorems": [
    "Verif.Cvss.C39_score",
    "Verif.Cvss.C39_nomenclature",
    "Verif.Cvss.C39_nomenclature_text"
   ],
   "note": ""
  },
  {
   "property": "C60",
   "status": "proved",
   "theorems": [
    "Verif.Cvss.C60_v3",
    "Verif.Cvss.C60_v2",
    "Verif.Cvss.C60_v4"
   ],
   "note": ""
  },
  {
   "property": "C61",
   "status": "proved",
   "theorems": [
    "Verif.Cvss.C61_monotone",
    "Verif.Cvss.C61_single",
    "Verif.Cvss.C61_zero"
   ],
   "note": ""
  },
  {
   "property": "C41",
   "status": "proved",
   "theorems": [
    "Verif.Props.C41_forms",
    "Verif.Props.C41_panic_iff",
    "Verif.Props.C41_from_str",
    "Verif.Props.C41_accepted_no_panic",
    "Verif.Props.C41_glob",
    "Verif.Props.C41_accepted",
    "Verif.Props.C41_matching_platforms"
   ],
   "note": "All requirement texts and platforms; the platform table is copied by tools/gen_platforms.py. Globs with an interior wildcard are rejected by from_str (part of C41_accepted)."
  },
  {
   "property": "C42",
   "status": "proved",
   "theorems": [
    "Verif.Props.C42_unique",
    "Verif.Props.C42_find",
    "Verif.Props.C42_triple_req",
    "Verif.Props.C42_names",
    "Verif.Props.C42_numbers"
   ],
   "note": "Over the whole generated table (331 platforms) and all strings."
  },
  {
   "property": "C54",
   "status": "proved",
   "theorems": [
    "Verif.Props.C54_find_yanked",
    "Verif.Props.C54_cache_invisible",
    "Verif.Props.C54_stale_after_failure"
   ],
   "note": "Registry answers are an argument of the model. The cache is invisible as long as downloads do not fail; a failed download leaving a stale local answer is proved as a violation."
  },
  {
   "property": "C43",
   "status": "proved",
   "theorems": [
    "Verif.Props.C43_exit_status",
    "Verif.Props.C43_success_sound",
    "Verif.Props.C43_errors",
    "Verif.Props.C43_bin_exit_status",
    "Verif.Props.C43_report_fails_iff",
    "Verif.Props.C43_deny_warnings_misses_notices"
   ],
   "note": "What the outside world answers is an argument (Env). `--deny warnings` denies every kind except notices: the exception is proved as a violation."
  },
  {
   "property": "C44",
   "status": "proved",
   "theorems": [
    "Verif.Props.C44_override",
    "Verif.Props.C44_no_options",
    "Verif.Props.C44_report_settings",
    "Verif.Props.C44_show_tree_default"
   ],
   "note": "TOML and clap parsing not modelled. Without a configuration file show_tree is off although documented as on by default: proved."
  },
  {
   "property": "C45",
   "status": "proved",
   "theorems": [
    "Verif.Props.C45_sarif",
    "Verif.Props.C45_audit",
    "Verif.Props.C45_notice_without_advisory"
   ],
   "note": ""
  },
  {
   "property": "C46",
   "status": "proved",
   "theorems": [
    "Verif.Props.C46_fix",
    "Verif.Props.C46_named",
    "Verif.Props.C46_after",
    "Verif.Props.C46_exit_zero_unfixed",
    "Verif.Props.C46_names_other_sources",
    "Verif.Props.C46_stdin_panics",
    "Verif.Props.C46_errors"
   ],
   "note": "Violations proved: exit status 0 although fixable vulnerabilities remain; packages of other sources named; `--file -` panics."
  },
  {
   "property": "C47",
   "status": "proved",
   "theorems": [
    "Verif.Props.C47_filter",
    "Verif.Props.C47_panic_iff",
    "Verif.Props.C47_generated",
    "Verif.Props.C47_unknown_os"
   ],
   "note": ""
  },
  {
   "property": "C48",
   "status": "proved",
   "theorems": [
    "Verif.Props.C48_present_iff",
    "Verif.Props.C48_flatten",
    "Verif.Props.C48_affected_functions",
    "Verif.Props.C48_angle_never"
   ],
   "note": ""
  },
  {
   "property": "C49",
   "status": "proved",
   "theorems": [
    "Verif.Props.C49_sound",
    "Verif.Props.C49_complete_releases",
    "Verif.Props.C49_incomplete"
   ],
   "note": "Unbounded numbers (u64 overflow in the candidates not modelled)."
  },
  {
   "property": "C50",
   "status": "proved",
   "theorems": [
    "Verif.Props.C50_limit",
    "Verif.Props.C50_bounded_read",
    "Verif.Props.C50_zero_rejects",
    "Verif.Props.C43_bin_exit_status"
   ],
   "note": "Violation proved: 0 is documented as unlimited but rejects every file."
  },
  {
   "property": "C64",
   "status": "proved",
   "theorems": [
    "Verif.Props.C64_terminal_report"
   ],
   "note": ""
  },
  {
   "property": "C65",
   "status": "proved",
   "theorems": [
    "Verif.Props.C43_exit_status",
    "Verif.Props.C43_bin_exit_status"
   ],
   "note": "Predicates Complete and Shows in Spec/Audit."
  },
  {
   "property": "C66",
   "status": "proved",
   "theorems": [
    "Verif.Props.C66_fetched",
    "Verif.Props.C66_succeeds",
    "Verif.Props.C66_audit",
    "Verif.Props.C66_current",
    "Verif.Props.C66_history",
    "Verif.Props.C66_interrupted",
    "Verif.Props.C66_url_ignored",
    "Verif.Props.C66_removed_still_used",
    "Verif.Props.C66_moved_breaks"
   ],
   "note": "Violations proved: a clone of another remote at the path is fetched instead of the URL asked for (also over http); files that the remote removed stay in the work tree, so a removed advisory is still used, and a moved one makes the database unreadable for good (duplicate ID)"
  },
  {
   "property": "C20",
   "status": "proved",
   "theorems": [
    "Verif.Props.C20_date",
    "Verif.Props.C20_other_formats_panic"
   ],
   "note": "jiff is an argument, assumed only to be right on YYYY-MM-DD texts (IsoLaw, shown satisfiable). Violation proved: accepted non-ISO dates make the accessors panic."
  },
  {
   "property": "C21",
   "status": "proved",
   "theorems": [
    "Verif.Props.C21_round_trip"
   ],
   "note": ""
  },
  {
   "property": "C22",
   "status": "proved",
   "theorems": [
    "Verif.Props.C22_white_space",
    "Verif.Props.C22_parse_iff",
    "Verif.Props.C22_panics_iff"
   ],
   "note": ""
  },
  {
   "property": "C23",
   "status": "proved",
   "theorems": [
    "Verif.Props.C23_open",
    "Verif.Props.C23_known",
    "Verif.Props.C23_closed",
    "Verif.Props.C23_severity"
   ],
   "note": ""
  },
  {
   "property": "C24",
   "status": "proved",
   "theorems": [
    "Verif.Props.C24_findings_exact",
    "Verif.Props.C24_gate",
    "Verif.Props.C24_returns",
    "Verif.Props.C24_panics_iff",
    "Verif.Props.C24_headerless_never_clean",
    "Verif.Props.C24_headerless_panics"
   ],
   "note": "The TOML parser is an argument. Violations proved for documents without the header: never clean, and a panic."
  },
  {
   "property": "C51",
   "status": "proved",
   "theorems": [
    "Verif.Props.C51_fresh",
    "Verif.Props.C51_each_draft",
    "Verif.Props.C51_succeeds",
    "Verif.Props.C51_consecutive",
    "Verif.Props.C51_year_of_date_clash"
   ],
   "note": "Fresh under the hypothesis that the ID of every RUSTSEC advisory has the year of its date (the linter checks it); C51_year_of_date_clash proves that without it an existing advisory is overwritten. u32 overflow of the number is not modelled."
  },
  {
   "property": "C52",
   "status": "proved",
   "theorems": [
    "Verif.Props.C52_crash",
    "Verif.Props.C52_done",
    "Verif.Props.C52_crash_breaks_database"
   ],
   "note": "Every crash point, with writes character by character. No text is lost; but C52_crash_breaks_database proves that a crash makes the database unopenable until repaired by hand."
  },
  {
   "property": "C53",
   "status": "proved",
   "theorems": [
    "Verif.Props.C53_title",
    "Verif.Props.C53_panics"
   ],
   "note": "the loop that shortens the title terminates, keeps to 255 bytes and names as many assignments as fit; C53_panics shows the input on which unwrap panics"
  },
  {
   "property": "C55",
   "status": "proved",
   "theorems": [
    "Verif.Props.C55_times",
    "Verif.Props.C55_order_independent",
    "Verif.Props.C55_dates",
    "Verif.Props.C55_dates_for_path",
    "Verif.Props.C55_for_path",
    "Verif.Props.C55_merged_file_panics"
   ],
   "note": "Git objects (commits with trees) are an argument; the calendar and jiff are arguments with stated laws. Violation proved: a file that only a merge commit introduces makes for_path panic."
  },
  {
   "property": "C56",
   "status": "proved",
   "theorems": [
    "Verif.Props.C56_succeeds",
    "Verif.Props.C56_sync",
    "Verif.Props.C56_missing",
    "Verif.Props.C56_second_run",
    "Verif.Props.C56_not_idempotent",
    "Verif.Props.syncLib_law"
   ],
   "note": "toml_edit is an argument with the law EditLaw (met by a toy format, syncLib_law); front matters that do not start with [advisory] or that end in a comment line are outside SyncReady. Violation proved: a second run may change the database again. Examples: references to unknown advisories panic, five-digit numbers are truncated, the update count counts records."
  },
  {
   "property": "C57",
   "status": "proved",
   "theorems": [
    "Verif.Props.C57_sound",
    "Verif.Props.C57_complete",
    "Verif.Props.C57_exact",
    "Verif.Props.C57_overlap",
    "Verif.Props.C57_sorted",
    "Verif.Props.C57_mixed_separators"
   ],
   "note": "The regex crate is modelled for the fragment in use (leftmost, greedy with backtracking, non-overlapping); Version::parse is an argument. Violation proved: with mixed separators the backslash paths are dropped."
  },
  {
   "property": "C58",
   "status": "proved",
   "theorems": [
    "Verif.Props.C58_ok_iff",
    "Verif.Props.C58_recovered",
    "Verif.Props.C58_tree",
    "Verif.Props.C58_scan",
    "Verif.Props.C58_panics",
    "Verif.Props.C58_load",
    "Verif.Props.C58_format"
   ],
   "note": "auditable_info, binfarce, Url::parse are arguments (KnowsIndex: Url::parse accepts the crates.io index URL)."
  },
  {
   "property": "C67",
   "status": "proved",
   "theorems": [
    "Verif.Props.C67_record",
    "Verif.Props.C67_modified",
    "Verif.Props.C67_record_exists",
    "Verif.Props.C67_succeeds_iff",
    "Verif.Props.C67_files",
    "Verif.Props.C67_interrupted",
    "Verif.Props.C67_read_back",
    "Verif.Props.C67_drafts_overwrite",
    "Verif.Props.C67_basic_date_panics",
    "Verif.Props.C67_long_id_not_read_back",
    "Verif.Props.C67_nothing_affected_panics"
   ],
   "note": "Under PlainAdvisory (names and IDs of ASCII letters, digits, -, _, +; dates YYYY-MM-DD) and the library laws ExportLaws. JSON syntax is not modelled. Violations proved: drafts overwrite each other, a date 20170101 or patched = [\"*\"] panics, five-digit IDs read back as another ID."
  },
  {
   "property": "C68",
   "status": "proved",
   "theorems": [
    "Verif.Props.C68_parsed_iff",
    "Verif.Props.C68_vulnerable"
   ],
   "note": "The TOML, date, URL and requirement parsers are arguments (requirements that parse are well-formed); field parsers (IDs, CVSS, sources, categories, ...) are the modelled ones, specified by C19-C23, C26, C59."
  },
  {
   "property": "C69",
   "status": "proved",
   "theorems": [
    "Verif.Props.C69_exit_zero_iff",
    "Verif.Props.C69_vouches",
    "Verif.Props.C69_then_assign",
    "Verif.Props.C69_two_paths_panic",
    "Verif.Props.C69_lock_taken_unchecked",
    "Verif.Props.C69_lock_taken",
    "Verif.Props.C69_stricter_than_open"
   ],
   "note": "The TOML parser is an argument; two laws are assumed of it (keys of a document are distinct; putting the header in front moves top-level keys into the table). The index is a function from names to answers. Proved violations: a taken lock skips the crates.io checks silently; two paths panic; hidden files and a missing rust directory fail though the database opens."
  },
  {
   "property": "C70",
   "status": "proved",
   "theorems": [
    "Verif.Props.C70_advisories",
    "Verif.Props.C70_packages",
    "Verif.Props.C70_package_index",
    "Verif.Props.C70_keywords",
    "Verif.Props.C70_categories",
    "Verif.Props.C70_search",
    "Verif.Props.C70_search_page_exists",
    "Verif.Props.C70_feed",
    "Verif.Props.C70_finishes",
    "Verif.Props.C70_bad_dates",
    "Verif.Props.C70_no_dates",
    "Verif.Props.C70_no_advisories_panics",
    "Verif.Props.C70_capital_name_not_found",
    "Verif.Props.C70_category_twice",
    "Verif.Props.C70_index_replaced"
   ],
   "note": "A page is the data its template gets; HTML, Markdown and escaping are not modelled. chrono and to_lowercase are arguments (DayLaw: day numbers grow with YYYY-MM-DD dates). Proved violations: no advisories panics, a search for a package with capital letters leads nowhere, a category named twice lists the advisory twice, a package called index replaces the index."
  },
  {
   "property": "C71",
   "status": "proved",
   "theorems": [
    "Verif.Props.C71_list",
    "Verif.Props.C71_list_identifies",
    "Verif.Props.C71_translate",
    "Verif.Props.C71_translate_unreadable",
    "Verif.Props.C71_there_and_back",
    "Verif.Props.C71_tree",
    "Verif.Props.C71_whole_tree",
    "Verif.Props.C71_route",
    "Verif.Props.C71_ring_not_drawn",
    "Verif.Props.C71_translate_downgrades",
    "Verif.Props.C71_first_of_name"
   ],
   "note": "Violations proved: if every package depends on another in a cycle, tree draws nothing and succeeds; translate without a version writes V3 even from V4, which can lose a branch name. The parsing of options by clap is not modelled."
  },
  {
   "property": "C72",
   "status": "proved",
   "theorems": [
    "Verif.Props.C72_lists",
    "Verif.Props.C72_finishes",
    "Verif.Props.C72_truthful",
    "Verif.Props.C72_two_paths_panic",
    "Verif.Props.C72_deleted_panics",
    "Verif.Props.C72_drafts_not_listed"
   ],
   "note": "Violations proved: an advisory for a crate deleted from the registry (which the linter accepts with expect-deleted) makes the command panic, as do two paths; drafts are never listed."
  },
  {
   "property": "C73",
   "status": "proved",
   "theorems": [
    "Verif.Props.C73_patched",
    "Verif.Props.C73_unaffected",
    "Verif.Props.C73_no_upgrade",
    "Verif.Props.C73_report",
    "Verif.Props.C73_errors",
    "Verif.Props.C73_run",
    "Verif.Props.C73_upgrade_to_older",
    "Verif.Props.C73_upgrade_not_shown",
    "Verif.Props.C73_unaffected_not_shown",
    "Verif.Props.C73_json_with_text"
   ],
   "note": "Violations proved: the advice may be to upgrade to versions that are all older (patched requirements are not filtered), may say that there is no upgrade though there is one (requirement > 1), hides unaffected upgrades when anything is patched, and with --json the report on the tool itself is printed after the document on the standard output"
  },
  {
   "property": "C74",
   "status": "proved",
   "theorems": [
    "Verif.Props.C74_hex",
    "Verif.Props.C74_fetch_head",
    "Verif.Props.C74_head",
    "Verif.Props.C74_success",
    "Verif.Props.C74_detached_remote",
    "Verif.Props.C74_crash",
    "Verif.Props.C74_retry"
   ],
   "note": "The transfer is an argument: crashes and retries assume that it leaves HEAD and the references HEAD leads to alone. A remote whose HEAD is detached can never be fetched (proved)"
  },
  {
   "property": "C75",
   "status": "proved",
   "theorems": [
    "Verif.Props.C75_load",
    "Verif.Props.C75_load_panic",
    "Verif.Props.C75_directory_name",
    "Verif.Props.C75_sorted",
    "Verif.Props.C75_run",
    "Verif.Props.C75_interrupted",
    "Verif.Props.C75_torn_database"
   ],
   "note": "Violations proved: a directory path with RUSTSEC- in it makes the whole export be skipped silently; files are overwritten in place, so that every run that updates something passes through a state in which the database does not open"
  },
  {
   "property": "C76",
   "status": "proved",
   "theorems": [
    "Verif.Props.C76_clash",
    "Verif.Props.C76_variants_distinct",
    "Verif.Props.C76_clashes",
    "Verif.Props.C76_identifier",
    "Verif.Props.C76_bad_names",
    "Verif.Props.C76_const",
    "Verif.Props.C76_const_identifier",
    "Verif.Props.C76_doc",
    "Verif.Props.C76_doc_highest",
    "Verif.Props.C76_notes",
    "Verif.Props.C76_line",
    "Verif.Props.C76_info",
    "Verif.Props.C76_value_lost",
    "Verif.Props.C76_generate",
    "Verif.Props.C76_disagree",
    "Verif.Props.C76_roundtrip",
    "Verif.Props.C76_roundtrip_clash",
    "Verif.Props.C76_committed"
   ],
   "note": "Violations proved: pairs of values that get the same variant (empty and none, 16 and u16, a_o_s and aos), values called self or made of underscores, an equals sign inside a value is lost"
  },
  {
   "property": "C77",
   "status": "proved",
   "theorems": [
    "Verif.Props.C77_table",
    "Verif.Props.C77_prints",
    "Verif.Props.C77_aligned",
    "Verif.Props.C77_link",
    "Verif.Props.C77_readme",
    "Verif.Props.C77_misaligned",
    "Verif.Props.C77_dead_links"
   ],
   "note": "Violations proved of the committed README: the rows with environment nto71_iosock are wider than the header, and the links of triples with a dot lead to constants that do not exist"
  },
  {
   "property": "C78",
   "status": "proved",
   "theorems": [
    "Verif.Props.C78_listing",
    "Verif.Props.C78_once",
    "Verif.Props.C78_names",
    "Verif.Props.C78_exact_v2",
    "Verif.Props.C78_exact_v3",
    "Verif.Props.C78_exact_v4",
    "Verif.Props.C78_determines_v2",
    "Verif.Props.C78_determines_v3",
    "Verif.Props.C78_determines_v4"
   ],
   "note": ""
  },
  {
   "property": "C79",
   "status": "proved",
   "theorems": [
    "Verif.Props.C79_round_trip",
    "Verif.Props.C79_advisory_read",
    "Verif.Props.C79_package_read",
    "Verif.Props.C79_report",
    "Verif.Props.C79_path_lost",
    "Verif.Props.C79_branch_changed"
   ],
   "note": "Laws of the url, semver and time crates are hypotheses; an instance is shown to meet them."
  },
  {
   "property": "C80",
   "status": "proved",
   "theorems": [
    "Verif.Props.readJson_print",
    "Verif.Props.C80_prints_iff",
    "Verif.Props.C80_one_line",
    "Verif.Props.C80_stream",
    "Verif.Props.C80_stream_back",
    "Verif.Props.C80_places",
    "Verif.Props.C80_time_panics"
   ],
   "note": "serde_json (compact form) is modelled; the reader is written from RFC 8259."
  },
  {
   "property": "C81",
   "status": "proved",
   "theorems": [
    "Verif.Props.C81_document",
    "Verif.Props.C81_prints",
    "Verif.Props.C81_fingerprint",
    "Verif.Props.C81_panics",
    "Verif.Props.C81_fingerprint_collision"
   ],
   "note": "Hypotheses: warnings are filed under their own kind, and a notice comes from an advisory (C45_audit shows this of audits)."
  },
  {
   "property": "C82",
   "status": "proved",
   "theorems": [
    "Verif.Props.C82_exported",
    "Verif.Props.C82_command",
    "Verif.Props.C82_list",
    "Verif.Props.C82_places",
    "Verif.Props.C82_round_trip",
    "Verif.Props.C82_read",
    "Verif.Props.C82_stable",
    "Verif.Props.C82_readable",
    "Verif.Props.C82_optional",
    "Verif.Props.C82_optional_affected",
    "Verif.Props.C82_order",
    "Verif.Props.C82_unknown",
    "Verif.Props.C82_no_panic",
    "Verif.Props.C82_rejects",
    "Verif.Props.C82_violation_refused"
   ],
   "note": "Assumes of url and semver that what was parsed parses again to the same from its text. Structs given as JSON arrays are not modelled."
  },
  {
   "property": "C83",
   "status": "proved",
   "theorems": [
    "Verif.Props.C83_json",
    "Verif.Props.C83_bin_json",
    "Verif.Props.C83_back",
    "Verif.Props.C83_same_report",
    "Verif.Props.shows_fails"
   ],
   "note": "The commit of the database is a parameter; times that cannot be written are excluded (C79). What concerns a package is said in Spec/Audit.lean."
  },
  {
   "property": "C84",
   "status": "proved",
   "theorems": [
    "Verif.Props.C84_sarif",
    "Verif.Props.C84_bin_sarif"
   ],
   "note": "The theorem says that the place is Cargo.lock whatever path was audited; the example audits elsewhere/other.lock."
  },
  {
   "property": "C85",
   "status": "proved",
   "theorems": [
    "Verif.Cvss.C85_v2",
    "Verif.Cvss.C85_v3",
    "Verif.Cvss.C85_v4",
    "Verif.Cvss.C85_cvss",
    "Verif.Cvss.C85_one",
    "Verif.Cvss.C85_unique",
    "Verif.Cvss.C85_same",
    "Verif.Cvss.C85_display",
    "Verif.Cvss.C85_display_injective",
    "Verif.Cvss.C85_nomenclature",
    "Verif.Cvss.C85_severity"
   ],
   "note": "The capitals are in the specification of v3 and v4 (`capitals`)."
  },
  {
   "property": "C86",
   "status": "proved",
   "theorems": [
    "Verif.Props.C86_document",
    "Verif.Props.C86_text",
    "Verif.Props.C86_round_trip",
    "Verif.Props.C86_round_trip_v1",
    "Verif.Props.C86_ordered",
    "Verif.Props.C86_again",
    "Verif.Props.C86_shape"
   ],
   "note": "The reader is Verif/Spec/Toml.lean, written from the TOML specification; that the strings and keys quoted by the toml crate are TOML strings is assumed (WritesToml; met by basicOut)."
  },
  {
   "property": "C87",
   "status": "proved",
   "theorems": [
    "Verif.Props.C87_matches",
    "Verif.Props.C87_crate_scope",
    "Verif.Props.C87_query",
    "Verif.Props.C87_last_word",
    "Verif.Props.C87_order",
    "Verif.Props.C87_new_omits_nothing"
   ],
   "note": ""
  },
  {
   "property": "C88",
   "status": "proved",
   "theorems": [
    "Verif.Props.C88_config",
    "Verif.Props.C88_no_panic",
    "Verif.Props.C88_misspelt",
    "Verif.Props.C88_mandatory",
    "Verif.Props.C88_effective",
    "Verif.Props.C88_project_first",
    "Verif.Props.C88_report",
    "Verif.Props.C88_empty"
   ],
   "note": "The TOML grammar is the specification reader of C86, the abscissa framework (load the file of config_path, then process_config) is a model of a library."
  },
  {
   "property": "C89",
   "status": "proved",
   "theorems": [
    "Verif.Props.C89_quiet",
    "Verif.Props.C89_quiet_bin",
    "Verif.Props.C89_silence",
    "Verif.Props.C89_silence_bin",
    "Verif.Props.C89_progress",
    "Verif.Props.C89_reason",
    "Verif.Props.C89_reason_bin",
    "Verif.Props.C89_agrees",
    "Verif.Props.C89_agrees_bin"
   ],
   "note": "Both streams are one sequence; the texts of errors of other crates are left out; what cargo itself prints is not modelled."
  },
  {
   "property": "C90",
   "status": "proved",
   "theorems": [
    "Verif.Props.C90_version",
    "Verif.Props.C90_one_text",
    "Verif.Props.C90_req_valid",
    "Verif.Props.C90_req_text",
    "Verif.Props.C90_version_ok",
    "Verif.Props.C90_lockfile",
    "Verif.Props.C90_vulnerable",
    "Verif.Props.C90_validated",
    "Verif.Props.C90_lawful"
   ],
   "note": "The grammar is our reading of the semver crate (1.0), in Spec/SemverText; the theorems discharge the assumptions on versions and requirements that other properties make of their libraries."
  },
  {
   "property": "C91",
   "status": "proved",
   "theorems": [
    "Verif.Props.C91_iff",
    "Verif.Props.C91_libs",
    "Verif.Props.C91_database",
    "Verif.Props.rated_iff",
    "Verif.Props.C91_success",
    "Verif.Props.C91_verdict",
    "Verif.Props.C91_errors",
    "Verif.Props.C91_packages",
    "Verif.Props.exProject_meets"
   ],
   "note": "Composition of C43, C68, C86, C88 and C90. TOML and semver are specified grammars; URLs, calendar dates, the index and git remain parameters; that the framework exits with 1 on a bad configuration is assumed. On the terminal the dependency tree must be buildable (C31)."
  },
  {
   "property": "C92",
   "status": "proved",
   "theorems": [
    "Verif.Props.C92_json",
    "Verif.Props.C92_sarif"
   ],
   "note": "C83 and C84 with every hypothesis discharged by the texts: requirements by C90, the database by C91_database, severities by C37 and C60. The time of the commit is written by a parameter."
  },
  {
   "property": "C93",
   "status": "proved",
   "theorems": [
    "Verif.Props.C93_verdict",
    "Verif.Props.C93_success",
    "Verif.Props.C93_json",
    "Verif.Props.C93_sarif"
   ],
   "note": "C43_bin, C57, C58, C83, C84 and C91 put together. The readers of embedded data and of executable formats are parameters; no version in a path ends in `cargo` (C57_overlap)."
  },
  {
   "property": "C94",
   "status": "proved",
   "theorems": [
    "Verif.Props.C94_exit_zero_iff",
    "Verif.Props.C94_audit",
    "Verif.Props.C94_distinct",
    "Verif.Props.C94_header"
   ],
   "note": "C69 and C91 put together, with the two laws of TOML that C69 assumes proved of the reader of the TOML specification (more fuel reads no less; keys only grow; a table made by its header gets no values from elsewhere)."
  },
  {
   "property": "C95",
   "status": "proved",
   "theorems": [
    "Verif.Props.C95_verdict",
    "Verif.Props.C95_notices",
    "Verif.Props.C95_count",
    "Verif.Props.C95_ordered",
    "Verif.Props.C95_listing_order",
    "Verif.Props.C95_blame",
    "Verif.Props.C95_mentions",
    "Verif.Props.C95_mention_findings",
    "Verif.Props.C95_line_numbers",
    "Verif.Props.C95_line_numbers_wrong"
   ],
   "note": "The texts of the other messages are kept as findings. Violation: the number in `bare @user in advisory on line N` assumes one blank line between the front matter and the title and none elsewhere; in other layouts it is not the line of the mention."
  },
  {
   "property": "C96",
   "status": "proved",
   "theorems": [
    "Verif.Props.C96_lockfile",
    "Verif.Props.C96_unique",
    "Verif.Props.C96_panics",
    "Verif.Props.C96_checksum_panics",
    "Verif.Props.C96_audit",
    "Verif.Props.C96_panic_reached"
   ],
   "note": "TOML is read as its specification says (C86); versions and the part of a URL before query and fragment are parameters, in C96_audit versions are those of semver. Violation: a lockfile can make the parser panic (slice inside a character in Checksum::from_str)."
  },
  {
   "property": "C97",
   "status": "proved",
   "theorems": [
    "Verif.Props.C97_written",
    "Verif.Props.C97_exported",
    "Verif.Props.C97_audit",
    "Verif.Props.C97_example"
   ],
   "note": "TOML, JSON and semver texts are the specified ones; URLs, dates and the git history are parameters. A requirement with the number 2^64-1, to which the program cannot add one, is left to C98."
  },
  {
   "property": "C98",
   "status": "proved",
   "theorems": [
    "Verif.Props.C98_same",
    "Verif.Props.C98_vulnerable",
    "Verif.Props.C98_debug",
    "Verif.Props.C98_texts",
    "Verif.Props.C98_release_false_alarm",
    "Verif.Props.C98_release_missed",
    "Verif.Props.C98_max_refused"
   ],
   "note": "Violations: the two release-build witnesses, and the refusal of ^18446744073709551615.0.0."
  },
  {
   "property": "C99",
   "status": "proved",
   "theorems": [
    "Verif.Props.C99_kinds",
    "Verif.Props.C99_revision",
    "Verif.Props.C99_default",
    "Verif.Props.C99_constructors",
    "Verif.Props.C99_constructed_kinds",
    "Verif.Props.C99_with_precise",
    "Verif.Props.C99_registry_name",
    "Verif.Props.C99_index_distinct",
    "Verif.Props.C99_consistent",
    "Verif.Props.C99_serialized"
   ],
   "note": "Url::parse splitting is modelled; normalisation of the base and Url::from_file_path are parameters."
  },
  {
   "property": "C100",
   "status": "proved",
   "theorems": [
    "Verif.Props.C100_load",
    "Verif.Props.C100_translate",
    "Verif.Props.C100_chain",
    "Verif.Props.C100_list"
   ],
   "note": "Assumes a lawful URL library and a TOML writer whose strings and keys read back (WritesToml, met by basicOut); the semver crate and TOML reading are modelled."
  },
  {
   "property": "C101",
   "status": "proved",
   "theorems": [
    "Verif.Props.C101_query",
    "Verif.Props.C101_search",
    "Verif.Props.C101_constructor"
   ],
   "note": "C101_constructor is a violation. The functions of the browser that the script calls are modelled (encodeURIComponent, decodeURIComponent, URLSearchParams, trim, in); toLowerCase is the same function as Rust's; the document is not modelled."
  },
  {
   "property": "C102",
   "status": "proved",
   "theorems": [
    "Verif.Props.C102_tree",
    "Verif.Props.C102_whole"
   ],
   "note": "The semver crate and TOML reading are modelled; git sources are pinned and no package occurs twice, as Cargo writes lockfiles."
  },
  {
   "property": "C103",
   "status": "proved",
   "theorems": [
    "Verif.Props.C103_terminal"
   ],
   "note": "Output as a list of lines with colours; how semver prints requirements and how scores are printed are parameters. The hypotheses are those of C91 (in a terminal run the dependency tree must be built)."
  },
  {
   "property": "C104",
   "status": "proved",
   "theorems": [
    "Verif.Props.C104_lists",
    "Verif.Props.C104_finishes",
    "Verif.Props.C104_truthful"
   ],
   "note": "C72 on the level of texts; semver and TOML reading are modelled, the index of crates.io and crate-name validity are parameters."
  },
  {
   "property": "C105",
   "status": "proved",
   "theorems": [
    "Verif.Props.C105_fix",
    "Verif.Props.C105_after"
   ],
   "note": "C46 on the level of texts. The lockfile is not standard input (for that see C46_stdin_panics). What cargo update does is a parameter."
  },
  {
   "property": "C106",
   "status": "proved",
   "theorems": [
    "Verif.Props.C106_terminal",
    "Verif.Props.C106_pieces"
   ],
   "note": "C73 and C93 on the level of bytes and the transcript of C89. As in C93: versions in paths of crates do not end in cargo (C57_exact)."
  },
  {
   "property": "C107",
   "status": "proved",
   "theorems": [
    "Verif.Props.C107_where",
    "Verif.Props.C107_lines",
    "Verif.Props.C107_told"
   ],
   "note": "Error messages on standard error are not modelled. C107_told assumes, like C52, that every RUSTSEC advisory has the year of its date in its ID."
  },
  {
   "property": "C108",
   "status": "proved",
   "theorems": [
    "Verif.Props.C108_shown",
    "Verif.Props.C108_unread"
   ],
   "note": "The message of the framework about a configuration that cannot be read is not modelled. The terminal needs a dependency tree (Printable), as in C103."
  },
  {
   "property": "C109",
   "status": "proved",
   "theorems": [
    "Verif.Props.C109_meets",
    "Verif.Props.C109_functions",
    "Verif.Props.C109_hint",
    "Verif.Props.C109_ranges"
   ],
   "note": "`VersionReq::matches` belongs to the semver crate, which is not in /repo: it is modelled as it is published; the theorem checks that model against the documented rules, written independently."
  },
  {
   "property": "C110",
   "status": "proved",
   "theorems": [
    "Verif.Props.C110_words",
    "Verif.Props.C110_tells",
    "Verif.Props.C110_wrong_section",
    "Verif.Props.C110_wrong_key"
   ],
   "note": "How Rust writes a text with `{:?}` and how the crate `toml` writes a value are parameters; C110_tells assumes of them only that texts are between quotes with the inner quotes escaped and that different TOML texts are written differently. C110_wrong_section and C110_wrong_key are findings: messages naming a section or key that the file does not have."
  },
  {
   "property": "C111",
   "status": "proved",
   "theorems": [
    "Verif.Props.C111_inside",
    "Verif.Props.C111_packages",
    "Verif.Props.C111_category",
    "Verif.Props.C111_draft"
   ],
   "note": "C111_category and C111_draft are findings: the name of an unknown category, and an ID with a slash at the beginning, are used as paths. Links in the file system, the creation of folders and the static assets (constant names) are not modelled."
  },
  {
   "property": "C112",
   "status": "proved",
   "theorems": [
    "Verif.Props.C112_inside",
    "Verif.Props.C112_writes",
    "Verif.Props.C112_outside"
   ],
   "note": "C112_outside is a finding: the ID of an exported advisory is used as a path without a check. Links in the file system are not modelled."
  }
 ]
}