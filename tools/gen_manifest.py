#!/usr/bin/env python3
"""Writes MANIFEST.json. One call per property: id, status, theorem names, note."""
import glob, json, os, re
C = []
HERE = os.path.dirname(os.path.abspath(__file__))

def names():
    """Full names of all theorems, by their last component."""
    full = {}
    for f in glob.glob(os.path.join(HERE, "..", "lean", "Verif", "**", "*.lean"), recursive=True):
        stack = []
        for line in open(f, encoding="utf-8"):
            m = re.match(r"(namespace|section|mutual|end)\b ?(\S*)", line)
            if m and m[1] != "end": stack.append((m[1], m[2]))
            elif m and stack: stack.pop()
            m = re.match(r"(?:private |protected )?theorem (\S+)", line)
            if m: full.setdefault(m[1], []).append(".".join([n for k, n in stack if k == "namespace"] + [m[1]]))
    return full
FULL = names()

def c(id, status, theorems, note=""):
    ts = []
    for t in theorems.split():
        assert len(FULL.get(t, [])) == 1, (t, FULL.get(t))
        ts += FULL[t]
    C.append(dict(property=id, status=status, theorems=ts, note=note))

c("C01","proved","C01_opdata_round_trip")
c("C02","proved","C02_authenticated_before_use")
c("C03","proved","C03_outcome_determined C03_decryption_unique")
c("C04","proved","C04_master_and_overview_keys C04_written_keys C04_halves")
c("C05","proved","C05_derived_keys C05_bad_profile")
c("C06","proved","C06_item_keys_round_trip")
c("C07","partial","C07_refuted C07_mac_ignored C07_item_key_blob_partial","The property is false of the code: C07_refuted is the counterexample, C07_mac_ignored shows the MAC never matters; C07_item_key_blob_partial is what still holds.")
c("C08","proved","C08_in_place")
c("C09","proved","C09_unlock_iff_authentic C09_only_error C09_keys_held")
c("C10","proved","C10_failed_unlock_changes_nothing")
c("C11","proved","C11_is_unlocked")
c("C12","proved","C12_lock_erases")
c("C13","proved","C13_locked_holds_nothing")
c("C14","proved","C14_unlock_shows_current C14_second_unlock_keeps_old C14_refuted","C14_refuted is the second half of the statement: a second Unlock without Lock keeps the old items.")
c("C15","proved","C15_reads_change_nothing")
c("C16","partial","C16_profile_is_first C16_checked_vault_partial C16_refuted","False with two vaults in one process (C16_refuted); C16_profile_is_first says what happens instead, C16_checked_vault_partial covers histories that name one vault.")
c("C17","proved","C17_validate")
c("C18","proved","C18_items_loaded C18_loading_returns")
c("C19","proved","C19_none_lost_none_invented")
c("C20","proved","C20_attributes")
c("C21","proved","C21_written_item C21_written_vault")
c("C22","proved","C22_no_unauthenticated_content")
c("C23","partial","C23_not_detected C23_swapped_blobs C23_refuted C23_contents_authenticated_partial","False of the code: the item HMAC is never read. C23_not_detected and C23_swapped_blobs show every alteration is accepted, C23_refuted is the negation for all primitives; the partial theorem says which contents are authenticated after all.")
c("C24","proved","C24_order_does_not_matter")
c("C25","proved","C25_login_fields C25_value_and_name C25_title_case C25_title_idempotent")
c("C26","proved","C26_section_fields C26_kinds C26_no_value")
c("C27","proved","C27_sections C27_dropped_iff")
c("C28","partial","C28_conforming_decodes_partial C28_crash_iff C28_refuted","False of the code: a value of an unexpected JSON type crashes (C28_refuted, C28_crash_iff says exactly when); documents of the expected types are all decoded.")
c("C29","proved","C29_address")
c("C30","partial","C30_date_partial C30_large_numbers C30_refuted","Holds for decimal strings and numbers of up to six digits; JSON numbers of seven digits or more (every date after 1970-01-12) show the epoch (C30_large_numbers, C30_refuted).")
c("C31","proved","C31_month_year C31_number C31_printed C31_odd_values")
c("C32","proved","C32_list_is_filter C32_listed_iff")
c("C33","proved","C33_sorted C33_each_once")
c("C34","proved","C34_listed_opens C34_lookup")
c("C35","proved","C35_count_is_length")
c("C36","proved","C36_counts_add_up")
c("C37","proved","C37_case_insensitive C37_empty_title")
c("C38","proved","C38_categories C38_distinct C38_lookup C38_reachable")
c("C39","proved","C39_data_types")
c("C40","proved","C40_answers C40_inverse")
c("C41","proved","C41_saved_is_read C41_saved_is_read_later C41_save_returns")
c("C42","proved","C42_foreign_keys")
c("C43","proved","C43_answers C43_in_range C43_empty_answers")
c("C44","proved","C44_dialog_appears C44_no_dialog C44_stays_available C44_completed C44_never_again")
c("C45","partial","C45_crash_states_partial C45_refuted","False of the code: a crash after the truncation leaves an empty file, read as defaults. Proved: which states a crash can leave.")
c("C46","proved","C46_defaults C46_crash C46_empty")
c("C47","partial","C47_touches_nothing C47_error_partial C47_refuted","False of the code in one point: an empty release list, or a release without the expected members, crashes instead of giving an error. Nothing is touched in any case; the error is proved in the other cases.")
c("C48","partial","C48_verified_partial C48_refuted","False of the code: an archive with its own checksum.md5 overrides the one downloaded. Proved for archives that bring neither that nor an entry for the place of the program, and programs outside the cache.")
c("C49","partial","C49_crash_partial C49_unknown_program C49_refuted","False of the code: an archive entry named ../../usr/bin/1pass is written over the program before the check. Proved, for every crash point, under the conditions of C48.")
c("C50","proved","C50_in_order C50_replacement C50_not_before")
c("C51","proved","C51_starts_empty C51_leaves_nothing")
c("C52","partial","C52_newer_partial C52_never_missed C52_exact C52_refuted","False of the code for multi-digit components: dots are dropped before comparing. Holds for three components of which minor and patch have one digit. Of three components, a newer version is never missed, and C52_exact says which older ones are offered.")
c("C53","proved","C53_checksum")
c("C54","partial","C54_inside_partial C54_update_partial C54_refuted","False of the code for names with '..'. Holds for names without.")
c("C55","partial","C55_file_partial C55_never_executable C55_refuted","False of the code: the extracted file has no execute permission.")
c("C56","proved","C56_throttled C56_due C56_every_time C56_no_stamp C56_after_check","Periods up to 106751 days (the range of a Go duration); 'within' means at least a millisecond within, below which float rounding decides.")
c("C57","proved","C57_not_written C57_written C57_written_unforced C57_forced_asks")
c("C58","proved","C58_read_as_published C58_nothing_else C58_empty_list_crashes")
c("C59","proved","C59_no_consent C59_program_stays C59_informed")
c("C60","partial","C60_no_request_partial C60_whole_run_partial C60_gui_asks C60_refuted","False of the GUI: its background check is forced and looks at neither the notification setting nor the period. Holds for all commands.")
c("C61","proved","C61_no_secrets C61_whole_command C61_masked")
c("C62","proved","C62_everything C62_whole_command")
c("C63","proved","C63_invalid_vault C63_wrong_password")
c("C64","proved","C64_vault C64_flag_wins C64_gui")
c("C65","proved","C65_list")
c("C66","proved","C66_refused")
c("C67","proved","C67_covered C67_only_tab")
c("C68","partial","C68_reasons C68_goes_on_partial C68_crash C68_small C68_refuted C68_server_refuted","False of the code: TAB in the empty list that the last entry of a menu without Trashed opens crashes the program; so does an empty list of releases from the server; opening a list in a terminal of less than 6 columns or 10 lines ends it. All reasons a run can end are listed (C68_reasons); without them the GUI goes on or is ended by CTRL+Q.")
c("C69","partial","C69_menu_partial C69_items_partial C69_same_size C69_tall C69_lock_scrolled C69_refuted C69_resize_refuted C69_title_refuted","False of the code for the menu after locking it while scrolled, or after making the terminal smaller than the row of the cursor; for the item list if a title has several lines. Holds otherwise; on terminals of at least 28 lines always for the menu.")
c("C70","partial","C70_lists_partial C70_last_entry C70_refuted","False of the code: with an empty trash the last category opens the empty trash list. Holds for every other entry, and for every entry when something is in the trash.")
c("C71","proved","C71_lock")
c("C72","proved","C72_wrong_password C72_right_password C72_nothing_shown C72_attempts")
c("C73","partial","C73_reset_partial C73_where C73_refuted","False of the code: when scrolled in both directions only the vertical position is reset. Holds when scrolled in at most one direction.")
c("C74","proved","C74_menu C74_rebuilt C74_on_screen")
c("C75","proved","C75_only_version C75_meanwhile C75_any_time","A check that panics ends the process (C68_server_refuted).")
c("C76","proved","C76_rfc C76_base64_round_trip C76_error_iff")
c("C77","proved","C77_rfc C77_accepts_exactly C77_error_iff C77_read_as_written C77_unambiguous C77_bands_joined")
c("C78","proved","C78_read_back")
c("C79","partial","C79_literal_path_partial C79_refuted C79_which_bands C79_which_bands_relative C79_own_bands_partial C79_never_own C79_seems_empty C79_star C79_star_then C79_question","False of the code: the path goes through filepath.Glob. Holds for paths without glob metacharacters. C79_which_bands says which files are read for a path whose components are well-formed patterns; with stars and question marks only, the files of the vault named are among them; with brackets or backslashes and no stars they never are (C79_never_own), and the vault seems to be empty if no other directory fits (C79_seems_empty). Malformed patterns, and ? and classes on non-ASCII names, are not covered.")
c("C80","partial","C80_path_partial C80_refuted","False of the code for paths with blanks: fmt.Scanln reads one word. Holds for paths without white space.")
c("C81","partial","C81_path_kept_partial C81_refuted","False of the code: the empty path is stored. Kept if the answer to the question before is not yes.")
c("C82","partial","C82_as_agreed_partial C82_refuted","False of the code: the release is looked up a second time after the answer. Holds if the server describes the same release both times, under the conditions of C48.")
c("C83","proved","C83_footprint C83_vault_untouched C83_gui C83_process")
c("C84","proved","C84_categories")
c("C85","proved","C85_details")
c("C86","proved","C86_only_its_files")
c("C87","proved","C87_nothing_gets_out C87_gui")
c("C88","proved","C88_opens C88_details C88_list")
c("C89","proved","C89_list C89_details C89_overview C89_plain C89_gui C89_before C89_process C89_homeless")
c("C90","partial","C90_readme_partial C90_all_refused C90_refuted","False of the code: list takes no words and overview and details take one, so the documented lines with a path are refused. The other lines work, and so do these with -v.")
c("C91","partial","C91_refused_partial C91_always_zero C91_refuted","False of the code: the error is printed and the process ends with status 0. Nothing is touched and a text is printed.")
c("C92","partial","C92_shown_partial C92_never C92_refuted","False of the code: the GUI trims the password. Holds for passwords that neither begin nor end with white space and have no NUL in them.")
c("C93","partial","C93_drawn_partial C93_undrawn C93_refuted","False of the code: ENTER reads the prompt as last drawn. Holds if it has been drawn since the last key.")
c("C94","proved","C94_shown C94_every_time C94_faithful C94_commands C94_gui")
c("C95","proved","C95_notice C95_noticed C95_nothing_new C95_declined C95_agreed C95_replacing")
c("C96","proved","C96_screens")
c("C97","partial","C97_told_apart_partial C97_refuted","False of the code: a value of several lines can look like the end of its section and notes. Holds for tidy items: texts of one line, no colon in field names, no section called Notes, years 0 to 9999.")
c("C98","partial","C98_tame_partial C98_refuted","False of the code: texts of the vault are printed as they are. Holds for items without control characters.")
c("C99","partial","C99_out_of_sight_partial C99_refuted","False of the code: the widgets keep the decrypted items. The session forgets them, they are not on the screen, and what is shown later is held by the session then.")
c("C100","partial","C100_help_partial C100_refuted C100_prompt_refuted","False of the code: the line is not changed when going back to the menu, nor at the prompt. Holds in the item list, in the details pane, and in the menu while the line is the menu's.")
c("C101","proved","C101_masked C101_same_look C101_typing")
c("C102","partial","C102_empty_band_partial C102_never_opens C102_refuted","False of the code: one empty band among several makes the vault unreadable. Holds if no band is empty (C18) or the only one is.")
c("C103","partial","C103_profile_partial C103_fields_partial C103_bands_partial C103_refuted","False of the code: files that are too short or lack entries crash it. The outcome is given for every profile file and every set of band files.")
c("C104","partial","C104_status_item C104_status_list C104_missing_partial C104_refuted","False of the code for overview and details: a missing item gives status 0. The status is determined for every run.")
c("C105","proved","C105_commands C105_first_run C105_gui")
c("C106","proved","C106_dialog C106_first_run")
c("C107","proved","C107_reached C107_owner")
c("C108","partial","C108_refuted C108_unclosed C108_literal_partial C108_search_partial","The property is false; it is proved for paths without special characters, and the failure is proved for every absolute path with an unclosed bracket after ordinary names. Paths with closed brackets or with backslashes are the subject of C79: they open, and show the items of other directories or none.")
c("C109","partial","C109_refuted C109_item_partial C109_in_range_partial C109_range C109_profile C109_bands C109_release","The property is false of items: a field with such a number is left out without a message. What is shown is proved for every item; for profiles, bands and answers of the release server the property holds.")
c("C110","proved","C110_int C110_overflow C110_month C110_date","With float64 written out (Flt.std): rounding proved to be the one of IEEE 754, int64 as on amd64, fmt.Sprint as in strconv. Literals beyond the range of float64 are C109.")
c("C111","partial","C111_check_partial C111_every_time C111_refuted C111_gui_partial","The code violates it: an unusable list of releases (Upd.Unusable, determined exactly) crashes the command. Proved: it happens for exactly those answers, again and again; every other answer leaves the command alone.")
c("C112","partial","C112_wrong_type C112_configure_partial C112_empty C112_refuted","The code violates it: a setting of the wrong type or an empty file makes configure crash. Proved: configure crashes in exactly these cases and the one of C111.")
c("C113","proved","C113_details C113_list","Vault unchanged: the files of the vault have the same contents, nothing is said about the rest of the disk.")
c("C114","proved","C114_listed C114_shown","")
c("C115","partial","C115_installs_partial C115_elsewhere C115_refuted","The code violates it: the program is replaced by os.Rename from /tmp, which fails between file systems. Proved on one file system, and that it never works across. The installed file is not executable (C55).")
c("C116","partial","C116_as_empty C116_unread_partial C116_refuted","The code violates it: the error is ignored and the empty password is tried. Proved: it is the same as typing an empty line, and shows nothing if the empty password does not open the vault.")
c("C117","partial","C117_race C117_undisturbed_partial C117_refuted","The code violates it: whenever an update goes through, any file put in the place of the checked one is installed instead (C117_race). Others are modelled at one point only, between the check and the move.")
c("C118","proved","C118_configured","Runs without failing system calls; update is left out of the runs in between (its archive may hold any file).")
c("C119","partial","C119_wait_partial C119_refuted","The code violates it. The model of net/http has the limits the code sets or leaves at zero; the time a server takes is arbitrary for each phase of each request.")
c("C120","partial","C120_drawn_partial C120_waiting C120_refuted","The code violates it. The model has what a view holds and what of it was last drawn; gocui draws after a key or a change of size.")
c("C121","partial","C121_quit C121_resize C121_crash C121_only_partial C121_refuted","The code violates it: gocui's SetView refuses sizes that are too small, the layout functions return this error and Run makes it fatal.")
c("C122","proved","C122_once C122_due","The span has to be 1.001 seconds shorter than the period (whole seconds are saved; float64 rounding). A server that does not answer is asked again by every command, since no time is saved then (C57).")
c("C123","proved","C123_meanwhile C123_one_step C123_crash","The write of the verdict into the view is one step; that it is unsynchronised with drawing (a data race in Go) is outside the model.")
c("C124","proved","C124_same_item C124_same_output C124_runs","For vaults that open; an entry that cannot be decoded stops the opening of the whole vault.")
c("C125","proved","C125_list C125_runs","For vaults that open; a document that cannot be decoded stops the opening of the whole vault.")
c("C126","partial","C126_enough_partial C126_too_many C126_runs C126_refuted","The code violates it: defer in a loop. Model/Fds is ExtractArchive with a limit on open files; C126_enough_partial says when it is the ExtractArchive of the other theorems.")
c("C127","proved","C127_confirm C127_twice C127_runs","A path with white space cannot be typed (C80).")
c("C128","partial","C128_places C128_fits_partial C128_refuted C128_narrow","The code violates it: dialogs, items and details keep the place they had when they were opened. The stacking order of panes is not modelled.")
c("C129","partial","C129_others_partial C129_replaced C129_refuted C129_runs","The code violates it: the files are found by a pattern, and of several entries for an item the one in the last file counts, whatever its time of change.")
c("C130","proved","C130_replaceable C130_repeat","")
c("C131","partial","C131_untouched_partial C131_overwritten C131_refuted","Violated by the code: the file is read once, at the start, and written as a whole from memory, so that confirming everything puts the state at the start back, whatever others have saved since (C131_overwritten for all inputs, C131_refuted a witness). What holds: entries the dialog does not ask about are afterwards as they were at the start.")
c("C132","partial","C132_running C132_when C132_quit_partial C132_calm_partial C132_resize C132_server C132_vault C132_refuted","Violated by the code: log.Fatalln and a crash of the goroutine of the version widget skip the deferred Close, so that a window of less than 8 lines, a damaged vault or an odd answer of the server leave the terminal unusable. C132_when says exactly when the terminal is given back.")
c("C133","proved","C133_open","")
c("C134","partial","C134_some_disk_partial C134_whole_items_partial C134_one_change_partial C134_opening_partial C134_gone C134_profile_gone C134_refuted","The code violates it: the disk that was seen need never have existed (C134_refuted), and a file that goes ends the program (C134_gone).")
c("C135","partial","C135_same_profile_partial C135_old_password C135_refuted","The code violates it: the profile is never read again (C135_old_password, C135_refuted).")
c("C136","partial","C136_owner_partial C136_always C136_said C136_refuted","The code violates it: Unlock turns every error into the one for a wrong password (C136_always, C136_refuted).")
c("C137","proved","C137_states C137_next","A beginning of the decimal digits of the time is empty, or the digits of at most a tenth of it.")
c("C138","partial","C138_details_partial C138_ignored C138_unnamed C138_refuted","Violated by the code (itemservice.go:59-86): the fields of a login form are read only if there are no sections, the password of a password item is never read. C138_ignored says what exactly is looked at.")
c("C139","partial","C139_before C139_configure C139_declined_partial C139_refuted","Violated by the code (clicontrol.go:51-52, 102-106): the dialog begins with a check for updates, on with the defaults. The GUI is not part of C139_declined_partial (see C60).")
c("C140","partial","C140_when C140_asked C140_end_partial C140_others_partial C140_refuted","Violated by the code: term.ReadPassword puts the echo back in a deferred call, which a signal skips. The steps of term.ReadPassword are modelled from knowledge of golang.org/x/term; standard input is a terminal.")
c("C141","partial","C141_spill C141_first_word C141_one_word_partial C141_consent_partial C141_refuted C141_consent_refuted","Violated by the code: fmt.Scanln reports a second word on the line as an error, which the program ignores; the first character of that word is consumed, the rest stays in the input. C141_spill says for every input of Unicode characters which question gets what.")
c("C142","partial","C142_damaged_as_empty C142_same_output C142_seen_is_intact_partial C142_refuted","Violated by the code: DecodeDetails and DecodeOverview ignore the error of DecodeOpdata. C142_damaged_as_empty shows for every pair of opened vaults that damaged details and no details give the same item, C142_same_output that the commands then print the same. Details of less than 32 bytes crash the program instead (C03, C28).")
c("C143","partial","C143_once_partial C143_refuted","Violated by the code: guicontrol.go:27-29 forces the check. C143_once_partial shows that a run of the GUI contacts the server once at most (twice with the first-run dialog) over every sequence of events, failing calls included. See also C60.")
c("C144","partial","C144_first_only C144_greatest_first_partial C144_refuted","Violated by the code: CheckForUpdate takes bodyJson[0] only. C144_first_only shows that nothing after the first entry makes a difference to a check, for every list.")
c("C145","proved","C145_made_installs","Composition of C52, C58 and C115 with the names and the checksum file that Makefile:29-35 produces. gzip and tar are a parameter; that the archive contains the program alone is what tar is asked for. The installed file is not executable (C55).")
c("C146","partial","C146_notice_partial C146_offer_partial C146_refuted C146_notice_refuted","The code violates it: release notes are printed as they are before the user agrees to anything (C146_refuted), and a tag that begins with a number beyond 64 bits passes as newer whatever follows it, so that the notice prints the rest (C146_notice_refuted). Any other newer tag consists of digits, dots and a sign, so the notice is harmless (C146_notice_partial); the offer is harmless if version and notes are (C146_offer_partial, for users who decline). Errors of the standard library are fixed texts in the model; nothing is said about them.")
c("C147","partial","C147_linked C147_secure_partial C147_refuted","The code violates the first half: the URLs of the files are taken from the list as they are, http included, and the checksum comes from the same place as the archive (C147_refuted). The second half holds for every command (C147_linked; for the GUI see C83_gui), so that all connections are encrypted as long as the list has https URLs only (C147_secure_partial). Redirects are followed by net/http and are not modelled.")
c("C148","partial","C148_run C148_list C148_list_partial C148_refuted C148_gui_partial C148_gui_refuted","Holds for every command but list (C148_run). The code violates it for list: items of one category and one title are listed in the order of a Go map, so that two runs number them differently (C148_refuted). Nothing else can change: the columns of category and title are the same, the rows are the same but for their order (C148_list), and the output is the same if no two rows have the same category and title (C148_list_partial). In the GUI the same keys can reveal the secrets of another item of that category and title (C148_gui_refuted); everything on the screen and on the disk is the same if no two items of the open vault are alike in this way (C148_gui_partial, for every sequence of keys, drawings and changes of the disk by others). The outside world is the same in both runs by assumption: answers of the server, clock, typed password.")
c("C149","proved","C149_once C149_gui","For all commands (C149_once) and for whole runs of the GUI with any keys and any changes of the disk meanwhile, where nothing is read at the terminal (C149_gui).")

out=os.path.join(os.path.dirname(os.path.abspath(__file__)),"..","MANIFEST.json")
json.dump({"claims":C}, open(out,"w"), indent=1, ensure_ascii=False)
print(len(C))
