"""Regenerates MANIFEST.json."""
import json, os
P="Verif.Props."
C=[]
def claim(prop,status,thms,note="",ns=P):
    C.append({"property":prop,"status":status,"theorems":[ns+t for t in thms],"note":note})
CV="Verif.Cvss."
claim("C01","proved",["C01_is_vulnerable_iff"])
claim("C02","proved",["C02_ok_iff","C02_panic_iff","C02_accepted_never_panics","C02_panic_witness"],"Includes the finding that `=v` with `>v` panics instead of returning Err.")
claim("C03","proved",["C03_ranges_ordered"])
claim("C04","proved",["C04_timeline_means_is_vulnerable","C04_export_panics_iff"],"Versions carried as values, not text; exporter assert characterised.")
claim("C05","proved",["C05_increment_successor"],"Version numbers unbounded (u64 overflow not modelled).")
claim("C06","proved",["C06_rearrangement"])
claim("C07","proved",["C07_agrees_with_semver_matches","C07_partial_comparators_differ"],"Agreement proved for every operator except partially written =, >, <=, where the code deviates (witnesses).")
claim("C08","proved",["C08_empty_all_vulnerable","C08_none_vulnerable_iff"])
claim("C09","proved",["C09_build_metadata_irrelevant"])
claim("C10","proved",["C10_ids_unique","C10_get_iff"])
claim("C11","proved",["C11_query_eq_scan"])
claim("C12","proved",["C12_matches_iff","C12_unset_and_monotone"])
claim("C13","proved",["C13_scan_sound_complete","C13_vulnerabilities_iff"],"Advisories assumed validated (their [versions] table was accepted by Versions::new, as deserialisation does).")
claim("C14","proved",["C14_sparse_only_explicit","C14_sparse_missed"],"The desired behaviour is violated by the code: proved in general and by a concrete witness.")
claim("C15","proved",["C15_vulnerability_list","C15_once"])
claim("C16","proved",["C16_warnings","C15_once"])
claim("C17","proved",["C17_threshold","C17_raising_never_adds","C17_order"])
claim("C18","proved",["C18_loaded_well_placed","C18_every_file_loaded","C18_opens_iff","C18_draft_name_real_id"],"Includes the gap that a draft file name with a real ID inside is loaded.")
claim("C19","proved",["C19_accepts_iff","C19_parsed_contents"])
claim("C25","proved",["C25_accepts_iff","C25_round_trip","C25_show_shape","C25_show_injective","C25_wrong_length","C25_ascii_no_panic","C25_not_injective","C25_panics"],"Acceptance characterised exactly; includes the finding that non-ASCII text of the right byte length can panic and that `+f` is accepted as a byte.")
claim("C26","proved",["C26_parsed_shape","C26_git_encoded","C26_git_plain","C26_encoded_round_trip","C26_display_round_trip","C26_local_unparsable","C26_parsed_kinds","C26_display_violations","C26_constructor_registry"],"Relative to the stated law of url::Url (UrlLib.Lawful), which an instance is shown to meet.")
claim("C27","proved",["C27_eq_iff","C27_cmp_swap","C27_eq_refl","C27_eq_symm","C27_cmp_trans","C27_eq_trans","C27_not_transitive","C27_hash_inconsistent","C27_hash_consistent","C27_default_registry"],"Transitivity and Eq/Hash agreement fail for git sources (witnesses proved); proved where they hold.")
claim("C28","proved",["C28_round_trip","C28_source_ok_v4","C28_root_dropped","C28_replace_lost","C28_v3_branch_lost"],"TOML syntax not modelled; exceptions to the round trip proved as witnesses.")
claim("C29","proved",["C29_resolve_iff","C29_resolve_distinct","C29_abbreviation","C29_shadowed","C29_dangling_redirected"])
claim("C30","proved",["C30_round_trip","C30_two_sources","C30_no_checksum_becomes_v2"])
claim("C31","proved",["C31_new_ok_iff","C31_graph","C31_edges","C31_roots"],"For lockfiles whose git sources carry a revision (Cargo always writes one); without it the map key order is not lawful (C27).")
claim("C32","proved",["C32_render","C32_prints","C32_depth_irrelevant","C32_render_text","C32_drawing"],"Writer failures and stack exhaustion are not modelled.")
claim("C33","proved",["C33_vocabulary", "C33_parse_iff", "C33_total", "C33_round_trip", "C33_any_order", "C33_duplicate"],ns=CV)
claim("C34","proved",["C34_vocabulary", "C34_parse_iff", "C34_total", "C34_round_trip", "C34_any_order", "C34_duplicate"],ns=CV)
claim("C35","proved",["C35_vocabulary", "C35_parse_iff", "C35_total", "C35_round_trip", "C35_any_order", "C35_duplicate"],ns=CV)
claim("C59","proved",["C59_parse_iff","C59_round_trip","C59_total","C59_parsed_well_formed"],ns=CV)
claim("C62","proved",["C62_format"])
claim("C40","proved",["C40_v3_monotone","C40_v3_zero"],ns=CV)
claim("C63","proved",["C63_monotone","C63_environmental","C63_environmental_violation"],"Environmental score is not monotone in the base metrics: witness proved.",ns=CV)
claim("C36","proved",["C36_v3","C36_v2","C36_v4","C38_any_version"],"For every arithmetic within the IEEE bounds (Fp.Ok, instantiated by binary64).",ns=CV)
claim("C37","proved",["C37_v3","C37_v2","C37_v4","C37_monotone","C37_partition","C38_any_version"],ns=CV)
claim("C38","proved",["C38_parsed","C38_panic_iff","C38_default_violation","C38_any_version"],"Also proved: Vector::default() cannot be scored.",ns=CV)
claim("C39","proved",["C39_score","C39_nomenclature","C39_nomenclature_text"],ns=CV)
claim("C60","proved",["C60_v3","C60_v2","C60_v4"],ns=CV)
claim("C61","proved",["C61_monotone","C61_single","C61_zero"],ns=CV)
claim("C41","proved",["C41_forms","C41_panic_iff","C41_from_str","C41_accepted_no_panic","C41_glob","C41_accepted","C41_matching_platforms"],
  note="All requirement texts and platforms; the platform table is copied by tools/gen_platforms.py. Globs with an interior wildcard are rejected by from_str (part of C41_accepted).")
claim("C42","proved",["C42_unique","C42_find","C42_triple_req","C42_names","C42_numbers"],
  note="Over the whole generated table (331 platforms) and all strings.")
claim("C54","proved",["C54_find_yanked","C54_cache_invisible","C54_stale_after_failure"],
  note="Registry answers are an argument of the model. The cache is invisible as long as downloads do not fail; a failed download leaving a stale local answer is proved as a violation.")
claim("C43","proved",["C43_exit_status","C43_success_sound","C43_errors","C43_bin_exit_status","C43_report_fails_iff","C43_deny_warnings_misses_notices"],
  note="What the outside world answers is an argument (Env). `--deny warnings` denies every kind except notices: the exception is proved as a violation.")
claim("C44","proved",["C44_override","C44_no_options","C44_report_settings","C44_show_tree_default"],
  note="TOML and clap parsing not modelled. Without a configuration file show_tree is off although documented as on by default: proved.")
claim("C45","proved",["C45_sarif","C45_audit","C45_notice_without_advisory"])
claim("C46","proved",["C46_fix","C46_named","C46_after","C46_exit_zero_unfixed","C46_names_other_sources","C46_stdin_panics","C46_errors"],
  note="Violations proved: exit status 0 although fixable vulnerabilities remain; packages of other sources named; `--file -` panics.")
claim("C47","proved",["C47_filter","C47_panic_iff","C47_generated","C47_unknown_os"])
claim("C48","proved",["C48_present_iff","C48_flatten","C48_affected_functions","C48_angle_never"])
claim("C49","proved",["C49_sound","C49_complete_releases","C49_incomplete"],note="Unbounded numbers (u64 overflow in the candidates not modelled).")
claim("C50","proved",["C50_limit","C50_bounded_read","C50_zero_rejects","C43_bin_exit_status"],note="Violation proved: 0 is documented as unlimited but rejects every file.")
claim("C64","proved",["C64_terminal_report"])
claim("C65","proved",["C43_exit_status","C43_bin_exit_status"],note="Predicates Complete and Shows in Spec/Audit.")
claim("C66","proved",["C66_fetched","C66_succeeds","C66_audit","C66_current","C66_history","C66_interrupted","C66_url_ignored","C66_removed_still_used","C66_moved_breaks"],"Violations proved: a clone of another remote at the path is fetched instead of the URL asked for (also over http); files that the remote removed stay in the work tree, so a removed advisory is still used, and a moved one makes the database unreadable for good (duplicate ID)")
claim("C20","proved",["C20_date","C20_other_formats_panic"],note="jiff is an argument, assumed only to be right on YYYY-MM-DD texts (IsoLaw, shown satisfiable). Violation proved: accepted non-ISO dates make the accessors panic.")
claim("C21","proved",["C21_round_trip"])
claim("C22","proved",["C22_white_space","C22_parse_iff","C22_panics_iff"])
claim("C23","proved",["C23_open","C23_known","C23_closed","C23_severity"])
claim("C24","proved",["C24_findings_exact","C24_gate","C24_returns","C24_panics_iff","C24_headerless_never_clean","C24_headerless_panics"],
  note="The TOML parser is an argument. Violations proved for documents without the header: never clean, and a panic.")
claim("C51","proved",["C51_fresh","C51_each_draft","C51_succeeds","C51_consecutive","C51_year_of_date_clash"],
  note="Fresh under the hypothesis that the ID of every RUSTSEC advisory has the year of its date (the linter checks it); C51_year_of_date_clash proves that without it an existing advisory is overwritten. u32 overflow of the number is not modelled.")
claim("C52","proved",["C52_crash","C52_done","C52_crash_breaks_database"],
  note="Every crash point, with writes character by character. No text is lost; but C52_crash_breaks_database proves that a crash makes the database unopenable until repaired by hand.")
claim("C53","proved",["C53_title","C53_panics"],"the loop that shortens the title terminates, keeps to 255 bytes and names as many assignments as fit; C53_panics shows the input on which unwrap panics")
claim("C55","proved",["C55_times","C55_order_independent","C55_dates","C55_dates_for_path","C55_for_path","C55_merged_file_panics"],
  note="Git objects (commits with trees) are an argument; the calendar and jiff are arguments with stated laws. Violation proved: a file that only a merge commit introduces makes for_path panic.")
claim("C56","proved",["C56_succeeds","C56_sync","C56_missing","C56_second_run","C56_not_idempotent","syncLib_law"],
  note="toml_edit is an argument with the law EditLaw (met by a toy format, syncLib_law); front matters that do not start with [advisory] or that end in a comment line are outside SyncReady. Violation proved: a second run may change the database again. Examples: references to unknown advisories panic, five-digit numbers are truncated, the update count counts records.")
claim("C57","proved",["C57_sound","C57_complete","C57_exact","C57_overlap","C57_sorted","C57_mixed_separators"],
  note="The regex crate is modelled for the fragment in use (leftmost, greedy with backtracking, non-overlapping); Version::parse is an argument. Violation proved: with mixed separators the backslash paths are dropped.")
claim("C58","proved",["C58_ok_iff","C58_recovered","C58_tree","C58_scan","C58_panics","C58_load","C58_format"],
  note="auditable_info, binfarce, Url::parse are arguments (KnowsIndex: Url::parse accepts the crates.io index URL).")
claim("C67","proved",["C67_record","C67_modified","C67_record_exists","C67_succeeds_iff","C67_files","C67_interrupted","C67_read_back","C67_drafts_overwrite","C67_basic_date_panics","C67_long_id_not_read_back","C67_nothing_affected_panics"],
  note="Under PlainAdvisory (names and IDs of ASCII letters, digits, -, _, +; dates YYYY-MM-DD) and the library laws ExportLaws. JSON syntax is not modelled. Violations proved: drafts overwrite each other, a date 20170101 or patched = [\"*\"] panics, five-digit IDs read back as another ID.")
claim("C68","proved",["C68_parsed_iff","C68_vulnerable"],
  note="The TOML, date, URL and requirement parsers are arguments (requirements that parse are well-formed); field parsers (IDs, CVSS, sources, categories, ...) are the modelled ones, specified by C19-C23, C26, C59.")

claim("C69","proved",["C69_exit_zero_iff","C69_vouches","C69_then_assign","C69_two_paths_panic","C69_lock_taken_unchecked","C69_lock_taken","C69_stricter_than_open"],
  note="The TOML parser is an argument; two laws are assumed of it (keys of a document are distinct; putting the header in front moves top-level keys into the table). The index is a function from names to answers. Proved violations: a taken lock skips the crates.io checks silently; two paths panic; hidden files and a missing rust directory fail though the database opens.")
claim("C70","proved",["C70_advisories","C70_packages","C70_package_index","C70_keywords","C70_categories","C70_search","C70_search_page_exists","C70_feed","C70_finishes","C70_bad_dates","C70_no_dates","C70_no_advisories_panics","C70_capital_name_not_found","C70_category_twice","C70_index_replaced"],
  note="A page is the data its template gets; HTML, Markdown and escaping are not modelled. chrono and to_lowercase are arguments (DayLaw: day numbers grow with YYYY-MM-DD dates). Proved violations: no advisories panics, a search for a package with capital letters leads nowhere, a category named twice lists the advisory twice, a package called index replaces the index.")

claim("C71","proved",["C71_list","C71_list_identifies","C71_translate","C71_translate_unreadable","C71_there_and_back","C71_tree","C71_whole_tree","C71_route","C71_ring_not_drawn","C71_translate_downgrades","C71_first_of_name"],"Violations proved: if every package depends on another in a cycle, tree draws nothing and succeeds; translate without a version writes V3 even from V4, which can lose a branch name. The parsing of options by clap is not modelled.")
claim("C72","proved",["C72_lists","C72_finishes","C72_truthful","C72_two_paths_panic","C72_deleted_panics","C72_drafts_not_listed"],"Violations proved: an advisory for a crate deleted from the registry (which the linter accepts with expect-deleted) makes the command panic, as do two paths; drafts are never listed.")
claim("C73","proved",["C73_patched","C73_unaffected","C73_no_upgrade","C73_report","C73_errors","C73_run","C73_upgrade_to_older","C73_upgrade_not_shown","C73_unaffected_not_shown","C73_json_with_text"],"Violations proved: the advice may be to upgrade to versions that are all older (patched requirements are not filtered), may say that there is no upgrade though there is one (requirement > 1), hides unaffected upgrades when anything is patched, and with --json the report on the tool itself is printed after the document on the standard output")
claim("C74","proved",["C74_hex","C74_fetch_head","C74_head","C74_success","C74_detached_remote","C74_crash","C74_retry"],"The transfer is an argument: crashes and retries assume that it leaves HEAD and the references HEAD leads to alone. A remote whose HEAD is detached can never be fetched (proved)")
claim("C75","proved",["C75_load","C75_load_panic","C75_directory_name","C75_sorted","C75_run","C75_interrupted","C75_torn_database"],"Violations proved: a directory path with RUSTSEC- in it makes the whole export be skipped silently; files are overwritten in place, so that every run that updates something passes through a state in which the database does not open")
claim("C76","proved",["C76_clash","C76_variants_distinct","C76_clashes","C76_identifier","C76_bad_names","C76_const","C76_const_identifier","C76_doc","C76_doc_highest","C76_notes","C76_line","C76_info","C76_value_lost","C76_generate","C76_disagree","C76_roundtrip","C76_roundtrip_clash","C76_committed"],"Violations proved: pairs of values that get the same variant (empty and none, 16 and u16, a_o_s and aos), values called self or made of underscores, an equals sign inside a value is lost")
claim("C77","proved",["C77_table","C77_prints","C77_aligned","C77_link","C77_readme","C77_misaligned","C77_dead_links"],"Violations proved of the committed README: the rows with environment nto71_iosock are wider than the header, and the links of triples with a dot lead to constants that do not exist")
claim("C78","proved",["C78_listing","C78_once","C78_names","C78_exact_v2","C78_exact_v3","C78_exact_v4","C78_determines_v2","C78_determines_v3","C78_determines_v4"])
claim("C79","proved",["C79_round_trip","C79_advisory_read","C79_package_read","C79_report","C79_path_lost","C79_branch_changed"],"Laws of the url, semver and time crates are hypotheses; an instance is shown to meet them.")
claim("C80","proved",["readJson_print","C80_prints_iff","C80_one_line","C80_stream","C80_stream_back","C80_places","C80_time_panics"],"serde_json (compact form) is modelled; the reader is written from RFC 8259.")
claim("C81","proved",["C81_document","C81_prints","C81_fingerprint","C81_panics","C81_fingerprint_collision"],"Hypotheses: warnings are filed under their own kind, and a notice comes from an advisory (C45_audit shows this of audits).")
claim("C82","proved",["C82_exported","C82_command","C82_list","C82_places","C82_round_trip","C82_read","C82_stable","C82_readable","C82_optional","C82_optional_affected","C82_order","C82_unknown","C82_no_panic","C82_rejects","C82_violation_refused"],"Assumes of url and semver that what was parsed parses again to the same from its text. Structs given as JSON arrays are not modelled.")
claim("C83","proved",["C83_json","C83_bin_json","C83_back","C83_same_report","shows_fails"],"The commit of the database is a parameter; times that cannot be written are excluded (C79). What concerns a package is said in Spec/Audit.lean.")
claim("C84","proved",["C84_sarif","C84_bin_sarif"],"The theorem says that the place is Cargo.lock whatever path was audited; the example audits elsewhere/other.lock.")
claim("C85","proved",["C85_v2","C85_v3","C85_v4","C85_cvss","C85_one","C85_unique","C85_same","C85_display","C85_display_injective","C85_nomenclature","C85_severity"],"The capitals are in the specification of v3 and v4 (`capitals`).",ns=CV)
claim("C86","proved",["C86_document","C86_text","C86_round_trip","C86_round_trip_v1","C86_ordered","C86_again","C86_shape"],"The reader is Verif/Spec/Toml.lean, written from the TOML specification; that the strings and keys quoted by the toml crate are TOML strings is assumed (WritesToml; met by basicOut).")
claim("C87","proved",["C87_matches","C87_crate_scope","C87_query","C87_last_word","C87_order","C87_new_omits_nothing"],"")
claim("C88","proved",["C88_config","C88_no_panic","C88_misspelt","C88_mandatory","C88_effective","C88_project_first","C88_report","C88_empty"],"The TOML grammar is the specification reader of C86, the abscissa framework (load the file of config_path, then process_config) is a model of a library.")
claim("C89","proved",["C89_quiet","C89_quiet_bin","C89_silence","C89_silence_bin","C89_progress","C89_reason","C89_reason_bin","C89_agrees","C89_agrees_bin"],"Both streams are one sequence; the texts of errors of other crates are left out; what cargo itself prints is not modelled.")
claim("C90","proved",["C90_version","C90_one_text","C90_req_valid","C90_req_text","C90_version_ok","C90_lockfile","C90_vulnerable","C90_validated","C90_lawful"],"The grammar is our reading of the semver crate (1.0), in Spec/SemverText; the theorems discharge the assumptions on versions and requirements that other properties make of their libraries.")
claim("C91","proved",["C91_iff","C91_libs","C91_database","rated_iff","C91_success","C91_verdict","C91_errors","C91_packages","exProject_meets"],"Composition of C43, C68, C86, C88 and C90. TOML and semver are specified grammars; URLs, calendar dates, the index and git remain parameters; that the framework exits with 1 on a bad configuration is assumed. On the terminal the dependency tree must be buildable (C31).")
claim("C92","proved",["C92_json","C92_sarif"],"C83 and C84 with every hypothesis discharged by the texts: requirements by C90, the database by C91_database, severities by C37 and C60. The time of the commit is written by a parameter.")
claim("C93","proved",["C93_verdict","C93_success","C93_json","C93_sarif"],"C43_bin, C57, C58, C83, C84 and C91 put together. The readers of embedded data and of executable formats are parameters; no version in a path ends in `cargo` (C57_overlap).")
claim("C94","proved",["C94_exit_zero_iff","C94_audit","C94_distinct","C94_header"],"C69 and C91 put together, with the two laws of TOML that C69 assumes proved of the reader of the TOML specification (more fuel reads no less; keys only grow; a table made by its header gets no values from elsewhere).")
claim("C95","proved",["C95_verdict","C95_notices","C95_count","C95_ordered","C95_listing_order","C95_blame","C95_mentions","C95_mention_findings","C95_line_numbers","C95_line_numbers_wrong"],"The texts of the other messages are kept as findings. Violation: the number in `bare @user in advisory on line N` assumes one blank line between the front matter and the title and none elsewhere; in other layouts it is not the line of the mention.")
claim("C96","proved",["C96_lockfile","C96_unique","C96_panics","C96_checksum_panics","C96_audit","C96_panic_reached"],"TOML is read as its specification says (C86); versions and the part of a URL before query and fragment are parameters, in C96_audit versions are those of semver. Violation: a lockfile can make the parser panic (slice inside a character in Checksum::from_str).")
claim("C97","proved",["C97_written","C97_exported","C97_audit","C97_example"],"TOML, JSON and semver texts are the specified ones; URLs, dates and the git history are parameters. A requirement with the number 2^64-1, to which the program cannot add one, is left to C98.")
claim("C98","proved",["C98_same","C98_vulnerable","C98_debug","C98_texts","C98_release_false_alarm","C98_release_missed","C98_max_refused"],"Violations: the two release-build witnesses, and the refusal of ^18446744073709551615.0.0.")
claim("C99","proved",["C99_kinds","C99_revision","C99_default","C99_constructors","C99_constructed_kinds","C99_with_precise","C99_registry_name","C99_index_distinct","C99_consistent","C99_serialized"],"Url::parse splitting is modelled; normalisation of the base and Url::from_file_path are parameters.")
claim("C100","proved",["C100_load","C100_translate","C100_chain","C100_list"],"Assumes a lawful URL library and a TOML writer whose strings and keys read back (WritesToml, met by basicOut); the semver crate and TOML reading are modelled.")
claim("C101","proved",["C101_query","C101_search","C101_constructor"],"C101_constructor is a violation. The functions of the browser that the script calls are modelled (encodeURIComponent, decodeURIComponent, URLSearchParams, trim, in); toLowerCase is the same function as Rust's; the document is not modelled.")
claim("C102","proved",["C102_tree","C102_whole"],"The semver crate and TOML reading are modelled; git sources are pinned and no package occurs twice, as Cargo writes lockfiles.")
claim("C103","proved",["C103_terminal"],"Output as a list of lines with colours; how semver prints requirements and how scores are printed are parameters. The hypotheses are those of C91 (in a terminal run the dependency tree must be built).")
claim("C104","proved",["C104_lists","C104_finishes","C104_truthful"],"C72 on the level of texts; semver and TOML reading are modelled, the index of crates.io and crate-name validity are parameters.")
claim("C105","proved",["C105_fix","C105_after"],"C46 on the level of texts. The lockfile is not standard input (for that see C46_stdin_panics). What cargo update does is a parameter.")
claim("C106","proved",["C106_terminal","C106_pieces"],"C73 and C93 on the level of bytes and the transcript of C89. As in C93: versions in paths of crates do not end in cargo (C57_exact).")
claim("C107","proved",["C107_where","C107_lines","C107_told"],"Error messages on standard error are not modelled. C107_told assumes, like C52, that every RUSTSEC advisory has the year of its date in its ID.")
claim("C108","proved",["C108_shown","C108_unread"],"The message of the framework about a configuration that cannot be read is not modelled. The terminal needs a dependency tree (Printable), as in C103.")
claim("C109","proved",["C109_meets","C109_functions","C109_hint","C109_ranges"],"`VersionReq::matches` belongs to the semver crate, which is not in /repo: it is modelled as it is published; the theorem checks that model against the documented rules, written independently.")
claim("C110","proved",["C110_words","C110_tells","C110_wrong_section","C110_wrong_key"],"How Rust writes a text with `{:?}` and how the crate `toml` writes a value are parameters; C110_tells assumes of them only that texts are between quotes with the inner quotes escaped and that different TOML texts are written differently. C110_wrong_section and C110_wrong_key are findings: messages naming a section or key that the file does not have.")
claim("C111","proved",["C111_inside","C111_packages","C111_category","C111_draft"],"C111_category and C111_draft are findings: the name of an unknown category, and an ID with a slash at the beginning, are used as paths. Links in the file system, the creation of folders and the static assets (constant names) are not modelled.")
claim("C112","proved",["C112_inside","C112_writes","C112_outside"],"C112_outside is a finding: the ID of an exported advisory is used as a path without a check. Links in the file system are not modelled.")
json.dump({"claims":C},open(os.path.join(os.path.dirname(__file__),"..","MANIFEST.json"),"w"),indent=1)
