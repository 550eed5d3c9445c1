{
 "claims": [
  {
   "property": "C01",
   "status": "proved",
   "theorems": [
    "OnePass.C01_opdata_round_trip"
   ],
   "note": ""
  },
  {
   "property": "C02",
   "status": "proved",
   "theorems": [
    "OnePass.C02_authenticated_before_use"
   ],
   "note": ""
  },
  {
   "property": "C03",
   "status": "proved",
   "theorems": [
    "OnePass.C03_outcome_determined",
    "OnePass.C03_decryption_unique"
   ],
   "note": ""
  },
  {
   "property": "C04",
   "status": "proved",
   "theorems": [
    "OnePass.C04_master_and_overview_keys",
    "OnePass.C04_written_keys",
    "OnePass.C04_halves"
   ],
   "note": ""
  },
  {
   "property": "C05",
   "status": "proved",
   "theorems": [
    "OnePass.C05_derived_keys",
    "OnePass.C05_bad_profile"
   ],
   "note": ""
  },
  {
   "property": "C06",
   "status": "proved",
   "theorems": [
    "OnePass.C06_item_keys_round_trip"
   ],
   "note": ""
  },
  {
   "property": "C07",
   "status": "partial",
   "theorems": [
    "OnePass.C07_refuted",
    "OnePass.C07_mac_ignored",
    "OnePass.C07_item_key_blob_partial"
   ],
   "note": "The property is false of the code: C07_refuted is the counterexample, C07_mac_ignored shows the MAC never matters; C07_item_key_blob_partial is what still holds."
  },
  {
   "property": "C08",
   "status": "proved",
   "theorems": [
    "OnePass.C08_in_place"
   ],
   "note": ""
  },
  {
   "property": "C09",
   "status": "proved",
   "theorems": [
    "OnePass.C09_unlock_iff_authentic",
    "OnePass.C09_only_error",
    "OnePass.C09_keys_held"
   ],
   "note": ""
  },
  {
   "property": "C10",
   "status": "proved",
   "theorems": [
    "OnePass.C10_failed_unlock_changes_nothing"
   ],
   "note": ""
  },
  {
   "property": "C11",
   "status": "proved",
   "theorems": [
    "OnePass.C11_is_unlocked"
   ],
   "note": ""
  },
  {
   "property": "C12",
   "status": "proved",
   "theorems": [
    "OnePass.C12_lock_erases"
   ],
   "note": ""
  },
  {
   "property": "C13",
   "status": "proved",
   "theorems": [
    "OnePass.C13_locked_holds_nothing"
   ],
   "note": ""
  },
  {
   "property": "C14",
   "status": "proved",
   "theorems": [
    "OnePass.C14_unlock_shows_current",
    "OnePass.C14_second_unlock_keeps_old",
    "OnePass.C14_refuted"
   ],
   "note": "C14_refuted is the second half of the statement: a second Unlock without Lock keeps the old items."
  },
  {
   "property": "C15",
   "status": "proved",
   "theorems": [
    "OnePass.C15_reads_change_nothing"
   ],
   "note": ""
  },
  {
   "property": "C16",
   "status": "partial",
   "theorems": [
    "OnePass.C16_profile_is_first",
    "OnePass.C16_checked_vault_partial",
    "OnePass.C16_refuted"
   ],
   "note": "False with two vaults in one process (C16_refuted); C16_profile_is_first says what happens instead, C16_checked_vault_partial covers histories that name one vault."
  },
  {
   "property": "C17",
   "status": "proved",
   "theorems": [
    "OnePass.C17_validate"
   ],
   "note": ""
  },
  {
   "property": "C18",
   "status": "proved",
   "theorems": [
    "OnePass.C18_items_loaded",
    "OnePass.C18_loading_returns"
   ],
   "note": ""
  },
  {
   "property": "C19",
   "status": "proved",
   "theorems": [
    "OnePass.C19_none_lost_none_invented"
   ],
   "note": ""
  },
  {
   "property": "C20",
   "status": "proved",
   "theorems": [
    "OnePass.C20_attributes"
   ],
   "note": ""
  },
  {
   "property": "C21",
   "status": "proved",
   "theorems": [
    "OnePass.C21_written_item",
    "OnePass.C21_written_vault"
   ],
   "note": ""
  },
  {
   "property": "C22",
   "status": "proved",
   "theorems": [
    "OnePass.C22_no_unauthenticated_content"
   ],
   "note": ""
  },
  {
   "property": "C23",
   "status": "partial",
   "theorems": [
    "OnePass.C23_not_detected",
    "OnePass.C23_swapped_blobs",
    "OnePass.C23_refuted",
    "OnePass.C23_contents_authenticated_partial"
   ],
   "note": "False of the code: the item HMAC is never read. C23_not_detected and C23_swapped_blobs show every alteration is accepted, C23_refuted is the negation for all primitives; the partial theorem says which contents are authenticated after all."
  },
  {
   "property": "C24",
   "status": "proved",
   "theorems": [
    "OnePass.C24_order_does_not_matter"
   ],
   "note": ""
  },
  {
   "property": "C25",
   "status": "proved",
   "theorems": [
    "OnePass.C25_login_fields",
    "OnePass.C25_value_and_name",
    "OnePass.C25_title_case",
    "OnePass.C25_title_idempotent"
   ],
   "note": ""
  },
  {
   "property": "C26",
   "status": "proved",
   "theorems": [
    "OnePass.C26_section_fields",
    "OnePass.C26_kinds",
    "OnePass.C26_no_value"
   ],
   "note": ""
  },
  {
   "property": "C27",
   "status": "proved",
   "theorems": [
    "OnePass.C27_sections",
    "OnePass.C27_dropped_iff"
   ],
   "note": ""
  },
  {
   "property": "C28",
   "status": "partial",
   "theorems": [
    "OnePass.C28_conforming_decodes_partial",
    "OnePass.C28_crash_iff",
    "OnePass.C28_refuted"
   ],
   "note": "False of the code: a value of an unexpected JSON type crashes (C28_refuted, C28_crash_iff says exactly when); documents of the expected types are all decoded."
  },
  {
   "property": "C29",
   "status": "proved",
   "theorems": [
    "OnePass.C29_address"
   ],
   "note": ""
  },
  {
   "property": "C30",
   "status": "partial",
   "theorems": [
    "OnePass.C30_date_partial",
    "OnePass.C30_large_numbers",
    "OnePass.C30_refuted"
   ],
   "note": "Holds for decimal strings and numbers of up to six digits; JSON numbers of seven digits or more (every date after 1970-01-12) show the epoch (C30_large_numbers, C30_refuted)."
  },
  {
   "property": "C31",
   "status": "proved",
   "theorems": [
    "OnePass.C31_month_year",
    "OnePass.C31_number",
    "OnePass.C31_printed",
    "OnePass.C31_odd_values"
   ],
   "note": ""
  },
  {
   "property": "C32",
   "status": "proved",
   "theorems": [
    "OnePass.C32_list_is_filter",
    "OnePass.C32_listed_iff"
   ],
   "note": ""
  },
  {
   "property": "C33",
   "status": "proved",
   "theorems": [
    "OnePass.C33_sorted",
    "OnePass.C33_each_once"
   ],
   "note": ""
  },
  {
   "property": "C34",
   "status": "proved",
   "theorems": [
    "OnePass.C34_listed_opens",
    "OnePass.C34_lookup"
   ],
   "note": ""
  },
  {
   "property": "C35",
   "status": "proved",
   "theorems": [
    "OnePass.C35_count_is_length"
   ],
   "note": ""
  },
  {
   "property": "C36",
   "status": "proved",
   "theorems": [
    "OnePass.C36_counts_add_up"
   ],
   "note": ""
  },
  {
   "property": "C37",
   "status": "proved",
   "theorems": [
    "OnePass.C37_case_insensitive",
    "OnePass.C37_empty_title"
   ],
   "note": ""
  },
  {
   "property": "C38",
   "status": "proved",
   "theorems": [
    "OnePass.C38_categories",
    "OnePass.C38_distinct",
    "OnePass.C38_lookup",
    "OnePass.C38_reachable"
   ],
   "note": ""
  },
  {
   "property": "C39",
   "status": "proved",
   "theorems": [
    "OnePass.C39_data_types"
   ],
   "note": ""
  },
  {
   "property": "C40",
   "status": "proved",
   "theorems": [
    "OnePass.C40_answers",
    "OnePass.C40_inverse"
   ],
   "note": ""
  },
  {
   "property": "C41",
   "status": "proved",
   "theorems": [
    "OnePass.Conf.C41_saved_is_read",
    "OnePass.Conf.C41_saved_is_read_later",
    "OnePass.Conf.C41_save_returns"
   ],
   "note": ""
  },
  {
   "property": "C42",
   "status": "proved",
   "theorems": [
    "OnePass.Conf.C42_foreign_keys"
   ],
   "note": ""
  },
  {
   "property": "C43",
   "status": "proved",
   "theorems": [
    "OnePass.Cli.C43_answers",
    "OnePass.Cli.C43_in_range",
    "OnePass.Cli.C43_empty_answers"
   ],
   "note": ""
  },
  {
   "property": "C44",
   "status": "proved",
   "theorems": [
    "OnePass.Cli.C44_dialog_appears",
    "OnePass.Cli.C44_no_dialog",
    "OnePass.Cli.C44_stays_available",
    "OnePass.Cli.C44_completed",
    "OnePass.Cli.C44_never_again"
   ],
   "note": ""
  },
  {
   "property": "C45",
   "status": "partial",
   "theorems": [
    "OnePass.Conf.C45_crash_states_partial",
    "OnePass.Conf.C45_refuted"
   ],
   "note": "False of the code: a crash after the truncation leaves an empty file, read as defaults. Proved: which states a crash can leave."
  },
  {
   "property": "C46",
   "status": "proved",
   "theorems": [
    "OnePass.Conf.C46_defaults",
    "OnePass.Conf.C46_crash",
    "OnePass.Conf.C46_empty"
   ],
   "note": ""
  },
  {
   "property": "C47",
   "status": "partial",
   "theorems": [
    "OnePass.Upd.C47_touches_nothing",
    "OnePass.Upd.C47_error_partial",
    "OnePass.Upd.C47_refuted"
   ],
   "note": "False of the code in one point: an empty release list, or a release without the expected members, crashes instead of giving an error. Nothing is touched in any case; the error is proved in the other cases."
  },
  {
   "property": "C48",
   "status": "partial",
   "theorems": [
    "OnePass.Upd.C48_verified_partial",
    "OnePass.Upd.C48_refuted"
   ],
   "note": "False of the code: an archive with its own checksum.md5 overrides the one downloaded. Proved for archives that bring neither that nor an entry for the place of the program, and programs outside the cache."
  },
  {
   "property": "C49",
   "status": "partial",
   "theorems": [
    "OnePass.Upd.C49_crash_partial",
    "OnePass.Upd.C49_unknown_program",
    "OnePass.Upd.C49_refuted"
   ],
   "note": "False of the code: an archive entry named ../../usr/bin/1pass is written over the program before the check. Proved, for every crash point, under the conditions of C48."
  },
  {
   "property": "C50",
   "status": "proved",
   "theorems": [
    "OnePass.Upd.C50_in_order",
    "OnePass.Upd.C50_replacement",
    "OnePass.Upd.C50_not_before"
   ],
   "note": ""
  },
  {
   "property": "C51",
   "status": "proved",
   "theorems": [
    "OnePass.Upd.C51_starts_empty",
    "OnePass.Upd.C51_leaves_nothing"
   ],
   "note": ""
  },
  {
   "property": "C52",
   "status": "partial",
   "theorems": [
    "OnePass.Upd.C52_newer_partial",
    "OnePass.Upd.C52_never_missed",
    "OnePass.Upd.C52_exact",
    "OnePass.Upd.C52_refuted"
   ],
   "note": "False of the code for multi-digit components: dots are dropped before comparing. Holds for three components of which minor and patch have one digit. Of three components, a newer version is never missed, and C52_exact says which older ones are offered."
  },
  {
   "property": "C53",
   "status": "proved",
   "theorems": [
    "OnePass.Upd.C53_checksum"
   ],
   "note": ""
  },
  {
   "property": "C54",
   "status": "partial",
   "theorems": [
    "OnePass.Upd.C54_inside_partial",
    "OnePass.Upd.C54_update_partial",
    "OnePass.Upd.C54_refuted"
   ],
   "note": "False of the code for names with '..'. Holds for names without."
  },
  {
   "property": "C55",
   "status": "partial",
   "theorems": [
    "OnePass.Upd.C55_file_partial",
    "OnePass.Upd.C55_never_executable",
    "OnePass.Upd.C55_refuted"
   ],
   "note": "False of the code: the extracted file has no execute permission."
  },
  {
   "property": "C56",
   "status": "proved",
   "theorems": [
    "OnePass.Upd.C56_throttled",
    "OnePass.Upd.C56_due",
    "OnePass.Upd.C56_every_time",
    "OnePass.Upd.C56_no_stamp",
    "OnePass.Upd.C56_after_check"
   ],
   "note": "Periods up to 106751 days (the range of a Go duration); 'within' means at least a millisecond within, below which float rounding decides."
  },
  {
   "property": "C57",
   "status": "proved",
   "theorems": [
    "OnePass.Upd.C57_not_written",
    "OnePass.Upd.C57_written",
    "OnePass.Upd.C57_written_unforced",
    "OnePass.Upd.C57_forced_asks"
   ],
   "note": ""
  },
  {
   "property": "C58",
   "status": "proved",
   "theorems": [
    "OnePass.Upd.C58_read_as_published",
    "OnePass.Upd.C58_nothing_else",
    "OnePass.Upd.C58_empty_list_crashes"
   ],
   "note": ""
  },
  {
   "property": "C59",
   "status": "proved",
   "theorems": [
    "OnePass.Cli.C59_no_consent",
    "OnePass.Cli.C59_program_stays",
    "OnePass.Cli.C59_informed"
   ],
   "note": ""
  },
  {
   "property": "C60",
   "status": "partial",
   "theorems": [
    "OnePass.Cli.C60_no_request_partial",
    "OnePass.Cli.C60_whole_run_partial",
    "OnePass.Gui.C60_gui_asks",
    "OnePass.Gui.C60_refuted"
   ],
   "note": "False of the GUI: its background check is forced and looks at neither the notification setting nor the period. Holds for all commands."
  },
  {
   "property": "C61",
   "status": "proved",
   "theorems": [
    "OnePass.Cli.C61_no_secrets",
    "OnePass.Cli.C61_whole_command",
    "OnePass.Cli.C61_masked"
   ],
   "note": ""
  },
  {
   "property": "C62",
   "status": "proved",
   "theorems": [
    "OnePass.Cli.C62_everything",
    "OnePass.Cli.C62_whole_command"
   ],
   "note": ""
  },
  {
   "property": "C63",
   "status": "proved",
   "theorems": [
    "OnePass.Cli.C63_invalid_vault",
    "OnePass.Cli.C63_wrong_password"
   ],
   "note": ""
  },
  {
   "property": "C64",
   "status": "proved",
   "theorems": [
    "OnePass.Cli.C64_vault",
    "OnePass.Cli.C64_flag_wins",
    "OnePass.Gui.C64_gui"
   ],
   "note": ""
  },
  {
   "property": "C65",
   "status": "proved",
   "theorems": [
    "OnePass.Cli.C65_list"
   ],
   "note": ""
  },
  {
   "property": "C66",
   "status": "proved",
   "theorems": [
    "OnePass.Cli.C66_refused"
   ],
   "note": ""
  },
  {
   "property": "C67",
   "status": "proved",
   "theorems": [
    "OnePass.Gui.C67_covered",
    "OnePass.Gui.C67_only_tab"
   ],
   "note": ""
  },
  {
   "property": "C68",
   "status": "partial",
   "theorems": [
    "OnePass.Gui.C68_reasons",
    "OnePass.Gui.C68_goes_on_partial",
    "OnePass.Gui.C68_crash",
    "OnePass.Gui.C68_small",
    "OnePass.Gui.C68_refuted",
    "OnePass.Gui.C68_server_refuted"
   ],
   "note": "False of the code: TAB in the empty list that the last entry of a menu without Trashed opens crashes the program; so does an empty list of releases from the server; opening a list in a terminal of less than 6 columns or 10 lines ends it. All reasons a run can end are listed (C68_reasons); without them the GUI goes on or is ended by CTRL+Q."
  },
  {
   "property": "C69",
   "status": "partial",
   "theorems": [
    "OnePass.Gui.C69_menu_partial",
    "OnePass.Gui.C69_items_partial",
    "OnePass.Gui.C69_same_size",
    "OnePass.Gui.C69_tall",
    "OnePass.Gui.C69_lock_scrolled",
    "OnePass.Gui.C69_refuted",
    "OnePass.Gui.C69_resize_refuted",
    "OnePass.Gui.C69_title_refuted"
   ],
   "note": "False of the code for the menu after locking it while scrolled, or after making the terminal smaller than the row of the cursor; for the item list if a title has several lines. Holds otherwise; on terminals of at least 28 lines always for the menu."
  },
  {
   "property": "C70",
   "status": "partial",
   "theorems": [
    "OnePass.Gui.C70_lists_partial",
    "OnePass.Gui.C70_last_entry",
    "OnePass.Gui.C70_refuted"
   ],
   "note": "False of the code: with an empty trash the last category opens the empty trash list. Holds for every other entry, and for every entry when something is in the trash."
  },
  {
   "property": "C71",
   "status": "proved",
   "theorems": [
    "OnePass.Gui.C71_lock"
   ],
   "note": ""
  },
  {
   "property": "C72",
   "status": "proved",
   "theorems": [
    "OnePass.Gui.C72_wrong_password",
    "OnePass.Gui.C72_right_password",
    "OnePass.Gui.C72_nothing_shown",
    "OnePass.Gui.C72_attempts"
   ],
   "note": ""
  },
  {
   "property": "C73",
   "status": "partial",
   "theorems": [
    "OnePass.Gui.C73_reset_partial",
    "OnePass.Gui.C73_where",
    "OnePass.Gui.C73_refuted"
   ],
   "note": "False of the code: when scrolled in both directions only the vertical position is reset. Holds when scrolled in at most one direction."
  },
  {
   "property": "C74",
   "status": "proved",
   "theorems": [
    "OnePass.Gui.C74_menu",
    "OnePass.Gui.C74_rebuilt",
    "OnePass.Gui.C74_on_screen"
   ],
   "note": ""
  },
  {
   "property": "C75",
   "status": "proved",
   "theorems": [
    "OnePass.Gui.C75_only_version",
    "OnePass.Gui.C75_meanwhile",
    "OnePass.Gui.C75_any_time"
   ],
   "note": "A check that panics ends the process (C68_server_refuted)."
  },
  {
   "property": "C76",
   "status": "proved",
   "theorems": [
    "OnePass.Rfc.C76_rfc",
    "OnePass.C76_base64_round_trip",
    "OnePass.C76_error_iff"
   ],
   "note": ""
  },
  {
   "property": "C77",
   "status": "proved",
   "theorems": [
    "OnePass.Rfc.C77_rfc",
    "OnePass.C77_accepts_exactly",
    "OnePass.C77_error_iff",
    "OnePass.C77_read_as_written",
    "OnePass.C77_unambiguous",
    "OnePass.C77_bands_joined"
   ],
   "note": ""
  },
  {
   "property": "C78",
   "status": "proved",
   "theorems": [
    "OnePass.Upd.C78_read_back"
   ],
   "note": ""
  },
  {
   "property": "C79",
   "status": "partial",
   "theorems": [
    "OnePass.C79_literal_path_partial",
    "OnePass.C79_refuted",
    "OnePass.C79_which_bands",
    "OnePass.C79_which_bands_relative",
    "OnePass.C79_own_bands_partial",
    "OnePass.C79_never_own",
    "OnePass.C79_seems_empty",
    "OnePass.C79_star",
    "OnePass.C79_star_then",
    "OnePass.C79_question"
   ],
   "note": "False of the code: the path goes through filepath.Glob. Holds for paths without glob metacharacters. C79_which_bands says which files are read for a path whose components are well-formed patterns; with stars and question marks only, the files of the vault named are among them; with brackets or backslashes and no stars they never are (C79_never_own), and the vault seems to be empty if no other directory fits (C79_seems_empty). Malformed patterns, and ? and classes on non-ASCII names, are not covered."
  },
  {
   "property": "C80",
   "status": "partial",
   "theorems": [
    "OnePass.Cli.C80_path_partial",
    "OnePass.Cli.C80_refuted"
   ],
   "note": "False of the code for paths with blanks: fmt.Scanln reads one word. Holds for paths without white space."
  },
  {
   "property": "C81",
   "status": "partial",
   "theorems": [
    "OnePass.Cli.C81_path_kept_partial",
    "OnePass.Cli.C81_refuted"
   ],
   "note": "False of the code: the empty path is stored. Kept if the answer to the question before is not yes."
  },
  {
   "property": "C82",
   "status": "partial",
   "theorems": [
    "OnePass.Cli.C82_as_agreed_partial",
    "OnePass.Cli.C82_refuted"
   ],
   "note": "False of the code: the release is looked up a second time after the answer. Holds if the server describes the same release both times, under the conditions of C48."
  },
  {
   "property": "C83",
   "status": "proved",
   "theorems": [
    "OnePass.Cli.C83_footprint",
    "OnePass.Cli.C83_vault_untouched",
    "OnePass.Gui.C83_gui",
    "OnePass.C83_process"
   ],
   "note": ""
  },
  {
   "property": "C84",
   "status": "proved",
   "theorems": [
    "OnePass.Cli.C84_categories"
   ],
   "note": ""
  },
  {
   "property": "C85",
   "status": "proved",
   "theorems": [
    "OnePass.Gui.C85_details"
   ],
   "note": ""
  },
  {
   "property": "C86",
   "status": "proved",
   "theorems": [
    "OnePass.C86_only_its_files"
   ],
   "note": ""
  },
  {
   "property": "C87",
   "status": "proved",
   "theorems": [
    "OnePass.Cli.C87_nothing_gets_out",
    "OnePass.Gui.C87_gui"
   ],
   "note": ""
  },
  {
   "property": "C88",
   "status": "proved",
   "theorems": [
    "OnePass.C88_opens",
    "OnePass.Cli.C88_details",
    "OnePass.Cli.C88_list"
   ],
   "note": ""
  },
  {
   "property": "C89",
   "status": "proved",
   "theorems": [
    "OnePass.Args.C89_list",
    "OnePass.Args.C89_details",
    "OnePass.Args.C89_overview",
    "OnePass.Args.C89_plain",
    "OnePass.Args.C89_gui",
    "OnePass.Args.C89_before",
    "OnePass.C89_process",
    "OnePass.C89_homeless"
   ],
   "note": ""
  },
  {
   "property": "C90",
   "status": "partial",
   "theorems": [
    "OnePass.Args.C90_readme_partial",
    "OnePass.Args.C90_all_refused",
    "OnePass.Args.C90_refuted"
   ],
   "note": "False of the code: list takes no words and overview and details take one, so the documented lines with a path are refused. The other lines work, and so do these with -v."
  },
  {
   "property": "C91",
   "status": "partial",
   "theorems": [
    "OnePass.Args.C91_refused_partial",
    "OnePass.Args.C91_always_zero",
    "OnePass.Args.C91_refuted"
   ],
   "note": "False of the code: the error is printed and the process ends with status 0. Nothing is touched and a text is printed."
  },
  {
   "property": "C92",
   "status": "partial",
   "theorems": [
    "OnePass.Gui.C92_shown_partial",
    "OnePass.Gui.C92_never",
    "OnePass.Gui.C92_refuted"
   ],
   "note": "False of the code: the GUI trims the password. Holds for passwords that neither begin nor end with white space and have no NUL in them."
  },
  {
   "property": "C93",
   "status": "partial",
   "theorems": [
    "OnePass.Gui.C93_drawn_partial",
    "OnePass.Gui.C93_undrawn",
    "OnePass.Gui.C93_refuted"
   ],
   "note": "False of the code: ENTER reads the prompt as last drawn. Holds if it has been drawn since the last key."
  },
  {
   "property": "C94",
   "status": "proved",
   "theorems": [
    "OnePass.C94_shown",
    "OnePass.C94_every_time",
    "OnePass.C94_faithful",
    "OnePass.C94_commands",
    "OnePass.C94_gui"
   ],
   "note": ""
  },
  {
   "property": "C95",
   "status": "proved",
   "theorems": [
    "OnePass.Cli.C95_notice",
    "OnePass.Cli.C95_noticed",
    "OnePass.Cli.C95_nothing_new",
    "OnePass.Cli.C95_declined",
    "OnePass.Cli.C95_agreed",
    "OnePass.Cli.C95_replacing"
   ],
   "note": ""
  },
  {
   "property": "C96",
   "status": "proved",
   "theorems": [
    "OnePass.Gui.C96_screens"
   ],
   "note": ""
  },
  {
   "property": "C97",
   "status": "partial",
   "theorems": [
    "OnePass.Cli.C97_told_apart_partial",
    "OnePass.Cli.C97_refuted"
   ],
   "note": "False of the code: a value of several lines can look like the end of its section and notes. Holds for tidy items: texts of one line, no colon in field names, no section called Notes, years 0 to 9999."
  },
  {
   "property": "C98",
   "status": "partial",
   "theorems": [
    "OnePass.Cli.C98_tame_partial",
    "OnePass.Cli.C98_refuted"
   ],
   "note": "False of the code: texts of the vault are printed as they are. Holds for items without control characters."
  },
  {
   "property": "C99",
   "status": "partial",
   "theorems": [
    "OnePass.Gui.C99_out_of_sight_partial",
    "OnePass.Gui.C99_refuted"
   ],
   "note": "False of the code: the widgets keep the decrypted items. The session forgets them, they are not on the screen, and what is shown later is held by the session then."
  },
  {
   "property": "C100",
   "status": "partial",
   "theorems": [
    "OnePass.Gui.C100_help_partial",
    "OnePass.Gui.C100_refuted",
    "OnePass.Gui.C100_prompt_refuted"
   ],
   "note": "False of the code: the line is not changed when going back to the menu, nor at the prompt. Holds in the item list, in the details pane, and in the menu while the line is the menu's."
  },
  {
   "property": "C101",
   "status": "proved",
   "theorems": [
    "OnePass.Gui.C101_masked",
    "OnePass.Gui.C101_same_look",
    "OnePass.Gui.C101_typing"
   ],
   "note": ""
  },
  {
   "property": "C102",
   "status": "partial",
   "theorems": [
    "OnePass.C102_empty_band_partial",
    "OnePass.C102_never_opens",
    "OnePass.C102_refuted"
   ],
   "note": "False of the code: one empty band among several makes the vault unreadable. Holds if no band is empty (C18) or the only one is."
  },
  {
   "property": "C103",
   "status": "partial",
   "theorems": [
    "OnePass.C103_profile_partial",
    "OnePass.C103_fields_partial",
    "OnePass.C103_bands_partial",
    "OnePass.C103_refuted"
   ],
   "note": "False of the code: files that are too short or lack entries crash it. The outcome is given for every profile file and every set of band files."
  },
  {
   "property": "C104",
   "status": "partial",
   "theorems": [
    "OnePass.Cli.C104_status_item",
    "OnePass.Cli.C104_status_list",
    "OnePass.Cli.C104_missing_partial",
    "OnePass.Cli.C104_refuted"
   ],
   "note": "False of the code for overview and details: a missing item gives status 0. The status is determined for every run."
  },
  {
   "property": "C105",
   "status": "proved",
   "theorems": [
    "OnePass.Cli.C105_commands",
    "OnePass.Cli.C105_first_run",
    "OnePass.Gui.C105_gui"
   ],
   "note": ""
  },
  {
   "property": "C106",
   "status": "proved",
   "theorems": [
    "OnePass.Cli.C106_dialog",
    "OnePass.Cli.C106_first_run"
   ],
   "note": ""
  },
  {
   "property": "C107",
   "status": "proved",
   "theorems": [
    "OnePass.Gui.C107_reached",
    "OnePass.Gui.C107_owner"
   ],
   "note": ""
  },
  {
   "property": "C108",
   "status": "partial",
   "theorems": [
    "OnePass.C108_refuted",
    "OnePass.C108_unclosed",
    "OnePass.C108_literal_partial",
    "OnePass.C108_search_partial"
   ],
   "note": "The property is false; it is proved for paths without special characters, and the failure is proved for every absolute path with an unclosed bracket after ordinary names. Paths with closed brackets or with backslashes are the subject of C79: they open, and show the items of other directories or none."
  },
  {
   "property": "C109",
   "status": "partial",
   "theorems": [
    "OnePass.C109_refuted",
    "OnePass.C109_item_partial",
    "OnePass.C109_in_range_partial",
    "OnePass.C109_range",
    "OnePass.C109_profile",
    "OnePass.C109_bands",
    "OnePass.C109_release"
   ],
   "note": "The property is false of items: a field with such a number is left out without a message. What is shown is proved for every item; for profiles, bands and answers of the release server the property holds."
  },
  {
   "property": "C110",
   "status": "proved",
   "theorems": [
    "OnePass.C110_int",
    "OnePass.C110_overflow",
    "OnePass.C110_month",
    "OnePass.C110_date"
   ],
   "note": "With float64 written out (Flt.std): rounding proved to be the one of IEEE 754, int64 as on amd64, fmt.Sprint as in strconv. Literals beyond the range of float64 are C109."
  },
  {
   "property": "C111",
   "status": "partial",
   "theorems": [
    "OnePass.Cli.C111_check_partial",
    "OnePass.Cli.C111_every_time",
    "OnePass.Cli.C111_refuted",
    "OnePass.Gui.C111_gui_partial"
   ],
   "note": "The code violates it: an unusable list of releases (Upd.Unusable, determined exactly) crashes the command. Proved: it happens for exactly those answers, again and again; every other answer leaves the command alone."
  },
  {
   "property": "C112",
   "status": "partial",
   "theorems": [
    "OnePass.Cli.C112_wrong_type",
    "OnePass.Cli.C112_configure_partial",
    "OnePass.Cli.C112_empty",
    "OnePass.Cli.C112_refuted"
   ],
   "note": "The code violates it: a setting of the wrong type or an empty file makes configure crash. Proved: configure crashes in exactly these cases and the one of C111."
  },
  {
   "property": "C113",
   "status": "proved",
   "theorems": [
    "OnePass.Gui.C113_details",
    "OnePass.Gui.C113_list"
   ],
   "note": "Vault unchanged: the files of the vault have the same contents, nothing is said about the rest of the disk."
  },
  {
   "property": "C114",
   "status": "proved",
   "theorems": [
    "OnePass.Cli.C114_listed",
    "OnePass.Cli.C114_shown"
   ],
   "note": ""
  },
  {
   "property": "C115",
   "status": "partial",
   "theorems": [
    "OnePass.Cli.C115_installs_partial",
    "OnePass.Upd.C115_elsewhere",
    "OnePass.Cli.C115_refuted"
   ],
   "note": "The code violates it: the program is replaced by os.Rename from /tmp, which fails between file systems. Proved on one file system, and that it never works across. The installed file is not executable (C55)."
  },
  {
   "property": "C116",
   "status": "partial",
   "theorems": [
    "OnePass.Cli.C116_as_empty",
    "OnePass.Cli.C116_unread_partial",
    "OnePass.Cli.C116_refuted"
   ],
   "note": "The code violates it: the error is ignored and the empty password is tried. Proved: it is the same as typing an empty line, and shows nothing if the empty password does not open the vault."
  },
  {
   "property": "C117",
   "status": "partial",
   "theorems": [
    "OnePass.Upd.C117_race",
    "OnePass.Upd.C117_undisturbed_partial",
    "OnePass.Upd.C117_refuted"
   ],
   "note": "The code violates it: whenever an update goes through, any file put in the place of the checked one is installed instead (C117_race). Others are modelled at one point only, between the check and the move."
  },
  {
   "property": "C118",
   "status": "proved",
   "theorems": [
    "OnePass.Cli.C118_configured"
   ],
   "note": "Runs without failing system calls; update is left out of the runs in between (its archive may hold any file)."
  },
  {
   "property": "C119",
   "status": "partial",
   "theorems": [
    "OnePass.Cli.C119_wait_partial",
    "OnePass.Cli.C119_refuted"
   ],
   "note": "The code violates it. The model of net/http has the limits the code sets or leaves at zero; the time a server takes is arbitrary for each phase of each request."
  },
  {
   "property": "C120",
   "status": "partial",
   "theorems": [
    "OnePass.Gui.C120_drawn_partial",
    "OnePass.Gui.C120_waiting",
    "OnePass.Gui.C120_refuted"
   ],
   "note": "The code violates it. The model has what a view holds and what of it was last drawn; gocui draws after a key or a change of size."
  },
  {
   "property": "C121",
   "status": "partial",
   "theorems": [
    "OnePass.Gui.C121_quit",
    "OnePass.Gui.C121_resize",
    "OnePass.Gui.C121_crash",
    "OnePass.Gui.C121_only_partial",
    "OnePass.Gui.C121_refuted"
   ],
   "note": "The code violates it: gocui's SetView refuses sizes that are too small, the layout functions return this error and Run makes it fatal."
  },
  {
   "property": "C122",
   "status": "proved",
   "theorems": [
    "OnePass.Cli.C122_once",
    "OnePass.Cli.C122_due"
   ],
   "note": "The span has to be 1.001 seconds shorter than the period (whole seconds are saved; float64 rounding). A server that does not answer is asked again by every command, since no time is saved then (C57)."
  },
  {
   "property": "C123",
   "status": "proved",
   "theorems": [
    "OnePass.Gui.C123_meanwhile",
    "OnePass.Gui.C123_one_step",
    "OnePass.Gui.C123_crash"
   ],
   "note": "The write of the verdict into the view is one step; that it is unsynchronised with drawing (a data race in Go) is outside the model."
  },
  {
   "property": "C124",
   "status": "proved",
   "theorems": [
    "OnePass.Cli.C124_same_item",
    "OnePass.Cli.C124_same_output",
    "OnePass.Cli.C124_runs"
   ],
   "note": "For vaults that open; an entry that cannot be decoded stops the opening of the whole vault."
  },
  {
   "property": "C125",
   "status": "proved",
   "theorems": [
    "OnePass.Cli.C125_list",
    "OnePass.Cli.C125_runs"
   ],
   "note": "For vaults that open; a document that cannot be decoded stops the opening of the whole vault."
  },
  {
   "property": "C126",
   "status": "partial",
   "theorems": [
    "OnePass.Upd.C126_enough_partial",
    "OnePass.Upd.C126_too_many",
    "OnePass.Upd.C126_runs",
    "OnePass.Upd.C126_refuted"
   ],
   "note": "The code violates it: defer in a loop. Model/Fds is ExtractArchive with a limit on open files; C126_enough_partial says when it is the ExtractArchive of the other theorems."
  },
  {
   "property": "C127",
   "status": "proved",
   "theorems": [
    "OnePass.Cli.C127_confirm",
    "OnePass.Cli.C127_twice",
    "OnePass.Cli.C127_runs"
   ],
   "note": "A path with white space cannot be typed (C80)."
  },
  {
   "property": "C128",
   "status": "partial",
   "theorems": [
    "OnePass.Gui.C128_places",
    "OnePass.Gui.C128_fits_partial",
    "OnePass.Gui.C128_refuted",
    "OnePass.Gui.C128_narrow"
   ],
   "note": "The code violates it: dialogs, items and details keep the place they had when they were opened. The stacking order of panes is not modelled."
  },
  {
   "property": "C129",
   "status": "partial",
   "theorems": [
    "OnePass.C129_others_partial",
    "OnePass.C129_replaced",
    "OnePass.C129_refuted",
    "OnePass.C129_runs"
   ],
   "note": "The code violates it: the files are found by a pattern, and of several entries for an item the one in the last file counts, whatever its time of change."
  },
  {
   "property": "C130",
   "status": "proved",
   "theorems": [
    "OnePass.Cli.C130_replaceable",
    "OnePass.Cli.C130_repeat"
   ],
   "note": ""
  },
  {
   "property": "C131",
   "status": "partial",
   "theorems": [
    "OnePass.Cli.C131_untouched_partial",
    "OnePass.Cli.C131_overwritten",
    "OnePass.Cli.C131_refuted"
   ],
   "note": "Violated by the code: the file is read once, at the start, and written as a whole from memory, so that confirming everything puts the state at the start back, whatever others have saved since (C131_overwritten for all inputs, C131_refuted a witness). What holds: entries the dialog does not ask about are afterwards as they were at the start."
  },
  {
   "property": "C132",
   "status": "partial",
   "theorems": [
    "OnePass.Gui.C132_running",
    "OnePass.Gui.C132_when",
    "OnePass.Gui.C132_quit_partial",
    "OnePass.Gui.C132_calm_partial",
    "OnePass.Gui.C132_resize",
    "OnePass.Gui.C132_server",
    "OnePass.Gui.C132_vault",
    "OnePass.Gui.C132_refuted"
   ],
   "note": "Violated by the code: log.Fatalln and a crash of the goroutine of the version widget skip the deferred Close, so that a window of less than 8 lines, a damaged vault or an odd answer of the server leave the terminal unusable. C132_when says exactly when the terminal is given back."
  },
  {
   "property": "C133",
   "status": "proved",
   "theorems": [
    "OnePass.Gui.C133_open"
   ],
   "note": ""
  },
  {
   "property": "C134",
   "status": "partial",
   "theorems": [
    "OnePass.C134_some_disk_partial",
    "OnePass.C134_whole_items_partial",
    "OnePass.C134_one_change_partial",
    "OnePass.C134_opening_partial",
    "OnePass.C134_gone",
    "OnePass.C134_profile_gone",
    "OnePass.C134_refuted"
   ],
   "note": "The code violates it: the disk that was seen need never have existed (C134_refuted), and a file that goes ends the program (C134_gone)."
  },
  {
   "property": "C135",
   "status": "partial",
   "theorems": [
    "OnePass.Gui.C135_same_profile_partial",
    "OnePass.Gui.C135_old_password",
    "OnePass.Gui.C135_refuted"
   ],
   "note": "The code violates it: the profile is never read again (C135_old_password, C135_refuted)."
  },
  {
   "property": "C136",
   "status": "partial",
   "theorems": [
    "OnePass.C136_owner_partial",
    "OnePass.C136_always",
    "OnePass.C136_said",
    "OnePass.C136_refuted"
   ],
   "note": "The code violates it: Unlock turns every error into the one for a wrong password (C136_always, C136_refuted)."
  },
  {
   "property": "C137",
   "status": "proved",
   "theorems": [
    "OnePass.Upd.C137_states",
    "OnePass.Upd.C137_next"
   ],
   "note": "A beginning of the decimal digits of the time is empty, or the digits of at most a tenth of it."
  },
  {
   "property": "C138",
   "status": "partial",
   "theorems": [
    "OnePass.Cli.C138_details_partial",
    "OnePass.Cli.C138_ignored",
    "OnePass.Cli.C138_unnamed",
    "OnePass.Cli.C138_refuted"
   ],
   "note": "Violated by the code (itemservice.go:59-86): the fields of a login form are read only if there are no sections, the password of a password item is never read. C138_ignored says what exactly is looked at."
  },
  {
   "property": "C139",
   "status": "partial",
   "theorems": [
    "OnePass.Cli.C139_before",
    "OnePass.Cli.C139_configure",
    "OnePass.Cli.C139_declined_partial",
    "OnePass.Cli.C139_refuted"
   ],
   "note": "Violated by the code (clicontrol.go:51-52, 102-106): the dialog begins with a check for updates, on with the defaults. The GUI is not part of C139_declined_partial (see C60)."
  },
  {
   "property": "C140",
   "status": "partial",
   "theorems": [
    "OnePass.Cli.C140_when",
    "OnePass.Cli.C140_asked",
    "OnePass.Cli.C140_end_partial",
    "OnePass.Cli.C140_others_partial",
    "OnePass.Cli.C140_refuted"
   ],
   "note": "Violated by the code: term.ReadPassword puts the echo back in a deferred call, which a signal skips. The steps of term.ReadPassword are modelled from knowledge of golang.org/x/term; standard input is a terminal."
  },
  {
   "property": "C141",
   "status": "partial",
   "theorems": [
    "OnePass.Cli.C141_spill",
    "OnePass.Cli.C141_first_word",
    "OnePass.Cli.C141_one_word_partial",
    "OnePass.Cli.C141_consent_partial",
    "OnePass.Cli.C141_refuted",
    "OnePass.Cli.C141_consent_refuted"
   ],
   "note": "Violated by the code: fmt.Scanln reports a second word on the line as an error, which the program ignores; the first character of that word is consumed, the rest stays in the input. C141_spill says for every input of Unicode characters which question gets what."
  },
  {
   "property": "C142",
   "status": "partial",
   "theorems": [
    "OnePass.Cli.C142_damaged_as_empty",
    "OnePass.Cli.C142_same_output",
    "OnePass.Cli.C142_seen_is_intact_partial",
    "OnePass.Cli.C142_refuted"
   ],
   "note": "Violated by the code: DecodeDetails and DecodeOverview ignore the error of DecodeOpdata. C142_damaged_as_empty shows for every pair of opened vaults that damaged details and no details give the same item, C142_same_output that the commands then print the same. Details of less than 32 bytes crash the program instead (C03, C28)."
  },
  {
   "property": "C143",
   "status": "partial",
   "theorems": [
    "OnePass.Gui.C143_once_partial",
    "OnePass.Gui.C143_refuted"
   ],
   "note": "Violated by the code: guicontrol.go:27-29 forces the check. C143_once_partial shows that a run of the GUI contacts the server once at most (twice with the first-run dialog) over every sequence of events, failing calls included. See also C60."
  },
  {
   "property": "C144",
   "status": "partial",
   "theorems": [
    "OnePass.Upd.C144_first_only",
    "OnePass.Upd.C144_greatest_first_partial",
    "OnePass.Upd.C144_refuted"
   ],
   "note": "Violated by the code: CheckForUpdate takes bodyJson[0] only. C144_first_only shows that nothing after the first entry makes a difference to a check, for every list."
  },
  {
   "property": "C145",
   "status": "proved",
   "theorems": [
    "OnePass.Cli.C145_made_installs"
   ],
   "note": "Composition of C52, C58 and C115 with the names and the checksum file that Makefile:29-35 produces. gzip and tar are a parameter; that the archive contains the program alone is what tar is asked for. The installed file is not executable (C55)."
  },
  {
   "property": "C146",
   "status": "partial",
   "theorems": [
    "OnePass.Cli.C146_notice_partial",
    "OnePass.Cli.C146_offer_partial",
    "OnePass.Cli.C146_refuted",
    "OnePass.Cli.C146_notice_refuted"
   ],
   "note": "The code violates it: release notes are printed as they are before the user agrees to anything (C146_refuted), and a tag that begins with a number beyond 64 bits passes as newer whatever follows it, so that the notice prints the rest (C146_notice_refuted). Any other newer tag consists of digits, dots and a sign, so the notice is harmless (C146_notice_partial); the offer is harmless if version and notes are (C146_offer_partial, for users who decline). Errors of the standard library are fixed texts in the model; nothing is said about them."
  },
  {
   "property": "C147",
   "status": "partial",
   "theorems": [
    "OnePass.Cli.C147_linked",
    "OnePass.Cli.C147_secure_partial",
    "OnePass.Cli.C147_refuted"
   ],
   "note": "The code violates the first half: the URLs of the files are taken from the list as they are, http included, and the checksum comes from the same place as the archive (C147_refuted). The second half holds for every command (C147_linked; for the GUI see C83_gui), so that all connections are encrypted as long as the list has https URLs only (C147_secure_partial). Redirects are followed by net/http and are not modelled."
  },
  {
   "property": "C148",
   "status": "partial",
   "theorems": [
    "OnePass.Cli.C148_run",
    "OnePass.Cli.C148_list",
    "OnePass.Cli.C148_list_partial",
    "OnePass.Cli.C148_refuted",
    "OnePass.Gui.C148_gui_partial",
    "OnePass.Gui.C148_gui_refuted"
   ],
   "note": "Holds for every command but list (C148_run). The code violates it for list: items of one category and one title are listed in the order of a Go map, so that two runs number them differently (C148_refuted). Nothing else can change: the columns of category and title are the same, the rows are the same but for their order (C148_list), and the output is the same if no two rows have the same category and title (C148_list_partial). In the GUI the same keys can reveal the secrets of another item of that category and title (C148_gui_refuted); everything on the screen and on the disk is the same if no two items of the open vault are alike in this way (C148_gui_partial, for every sequence of keys, drawings and changes of the disk by others). The outside world is the same in both runs by assumption: answers of the server, clock, typed password."
  },
  {
   "property": "C149",
   "status": "proved",
   "theorems": [
    "OnePass.Cli.C149_once",
    "OnePass.Gui.C149_gui"
   ],
   "note": "For all commands (C149_once) and for whole runs of the GUI with any keys and any changes of the disk meanwhile, where nothing is read at the terminal (C149_gui)."
  }
 ]
}