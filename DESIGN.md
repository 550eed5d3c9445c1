# Formal model of MashMB/1pass in Lean 4

## What is here

`lean/Verif` holds a hand translation of the program, function by function, and theorems about it. Every definition
cites the file and lines of the repository it models. There are four layers.

* `Verif/Go/*`: the parts of Go and its standard library the program rests on. Outcomes (return, panic,
  `log.Fatalln`), byte strings, slices with capacity, `strings`, `strconv.ParseInt`, `encoding/base64`, `encoding/json`,
  `time.Format`, `path/filepath` (Join, Clean, Glob), `sort`, a file system, AES, SHA-2, HMAC, PBKDF2.
* `Verif/Model/*`: the code of the repository. Files ending in `Facts`, and `GuiSteps`, `GuiIndep`, contain lemmas only.
* `Verif/Spec/*`: independent specifications, written without the helpers of the model: the opdata format as a
  *writer*, the grammar of JSON and UTF-8 (RFC 8259, RFC 3629) and a JSON writer, the bands of a vault, the calendar, the history of lock and unlock, the text of an item, the
  answers to the questions of `configure`, a release and its archive, the menu, the meaning of a pattern of `filepath.Match`.
* `Verif/Props/*`: the property theorems `Cnn_…`. Beside each one there are `example`s that show its hypotheses can be
  met by a non-trivial instance and that its conclusion is not trivial.

`properties.jsonl` states the properties in words, `MANIFEST.json` maps each to its theorems and says where the code
violates it. Both are written by the scripts in `tools/`.

## Conventions

* A Go function is a total Lean function. A panic is the outcome `panic`, `log.Fatalln`/`os.Exit(1)` the outcome `fatal`;
  an `error` result is a value. Mutation through a pointer returns the new value. No partial function and no default value
  is used to totalise anything: an index out of range is `panic`.
* Strings and byte slices are `List UInt8`. Slices in `keyservice.go` carry their capacity, because Go lets a slice
  expression reach beyond the length up to the capacity and the code does that on short inputs.
* Go's nondeterminism is an argument that theorems quantify over: map iteration order (`MapOrder`, any permutation),
  `sort.Slice` (`Sorter`, any function whose result is a sorted permutation; it need not be stable).
* Effects are a state monad over `World` (disk, standard input, configuration map, session, number of system calls, and a
  log). The log is ghost state: it contains every disk state a run goes through, byte by byte for writes and file by file
  for deletions, and every request and output. A crash at any point is a point of the log.
* `Sys` is what the outside does: every system call may fail, after any number of its steps; the server's answers, the
  clock, the password typed and the place of the executable are arbitrary functions of the number of the call. So the
  server may answer differently to each request and the clock may run backwards. `device` says which file system a
  location is on; a rename across fails, as in rename(2). Nothing else depends on it.
* The GUI is a transition system over events: a key, a drawing on a terminal of any size, the end of the background update
  check, a change of the disk by somebody else. Theorems about it quantify over all event sequences.
* If the code violates a property, the negation is proved from a concrete witness (`Cnn_refuted`), and what does hold has a
  name ending in `_partial`.

## Trusted base

1. The Lean 4.33.0 kernel, and the Lean and Mathlib definitions the statements use (`List`, `Int`, `ℚ`, `List.Perm`, …).
2. The axioms `propext`, `Classical.choice`, `Quot.sound` and no other. There is no `sorry`, no `native_decide`, no
   `bv_decide`, no new axiom. Computations in examples use `decide +kernel`, that is, kernel reduction. The section "Axioms per
   theorem" at the end lists what each theorem depends on.
3. That the translation in `Verif/Model` and `Verif/Go` is faithful to the Go code. It was done by reading; the code was
   neither built nor run. `seeded/LOG.jsonl` records wrong programs the theorems were tried on. `Props/Sample` evaluates the model,
   with the real primitives, on the sample vault in the repository: it opens, and shows the items the vault contains.
4. That the statements in `Verif/Props` and `Verif/Spec` say what `properties.jsonl` says in words.
5. The assumptions on libraries in the next section. They are fields of structures that theorems quantify over, never
   axioms, and each structure has an instance in the development (`Env.toy`, `Toy.ext`, `Toy.sys`, `Gui.Demo.kit`), so they are
   consistent.

## Parameters and what is assumed of them

| parameter | stands for | laws assumed |
|---|---|---|
| `Env.crypto` | HMAC-SHA256, SHA-512, PBKDF2, the AES block functions | lengths (32, 64, requested, 16); decryption inverts encryption where a theorem speaks of a writer. No security assumption: "authentic" means that the MAC recomputed with the key equals the one stored. `Crypto.std` (AES, SHA-2, HMAC, PBKDF2 written out in `Go/Aes`, `Go/Sha`, checked against published test vectors) is proved to satisfy the laws |
| `Env.flt` | float64 of a JSON number, `int64(f)`, `fmt.Sprint(f)` | decimal integers up to 2^53 are exact and `fmt.Sprint` prints them in Go's shortest `%g` form: plain up to six digits, with an exponent from seven digits on (`Num.sprintFloatInt`). `Flt.std` (rounding, shortest decimals and `int64` on amd64 written out in `Go/Float64`, `Go/Ftoa`) is proved to satisfy the laws; C110 is about it |
| `Env.text` | lower case and title case of text that is not all ASCII | none (ASCII text is computed by the model; white space — `TrimSpace`, `Fields`, `Scanln` — is computed for all Unicode text) |
| `Env.zone` | the local time zone at an instant | none |
| `Ext.md5`, `Ext.untar` | MD5; gzip and tar readers | length 16; none. The samples use MD5 itself (`Go/Md5`, checked against the test suite of RFC 1321) |
| `Ext.yamlDecode`, `yamlEncode` | yaml.v2 | what is marshalled is unmarshalled with the same entries; an empty file leaves the map nil |
| `Kit.center`, `Kit.edit` | go-pretty's centring; gocui's line editor | centring only adds blanks; the editor is an arbitrary function of the keys and drawings |

## Code that is modelled

| file | functions | model |
|---|---|---|
| 1pass-core/core/domain/datatype.go, itemcategory.go, logicval.go, entity.go, error.go, static.go | all | `Model/Domain`, `Model/Cli` (error texts), `Model/Repo`, `Model/Config`, `Model/Update` (constants) |
| 1pass-core/core/service/keyservice.go | all | `Model/Key` |
| 1pass-core/core/service/itemservice.go | all | `Model/Item`, `Model/Session` |
| 1pass-core/core/service/vaultservice.go | ValidateVault | `Model/Repo` |
| 1pass-core/core/service/configservice.go, facade/configfacade.go | all | `Model/Config` |
| 1pass-core/core/service/updateservice.go, facade/updatefacade.go | all | `Model/Update` |
| 1pass-core/core/facade/vaultfacade.go | all | `Model/Session` |
| 1pass-parse/repo/file/itemrepo.go, profilerepo.go | all | `Model/Repo`, `Model/Profile`, `Model/Torn` (the same with a disk that changes) |
| 1pass-parse/repo/file/configrepo.go | all | `Model/Config` |
| 1pass-parse/util/pbkdf2/cryptoutils.go | DeriveKey | a parameter (`Env.crypto.pbkdf2`) |
| 1pass-up/component/github/updater.go | all | `Model/Update`, `Model/World`, `Model/Http` (httpClient), `Model/Fds` (open files of ExtractArchive) |
| 1pass-term/control/cobra/clicontrol.go | all | `Model/Cli` |
| 1pass-term/control/gocui/guicontrol.go | all | `Model/Gui` |
| 1pass-app/main.go, cli/cobra.go | all | `Model/Args`, `Model/Cli` |
| 1pass-app/gui/*.go | all | `Model/Gui`, `Model/Tty` (who has the terminal) |

## Code that is not modelled, and simplifications

* Constructors and getters that only copy fields, the interfaces in `port/` and `facade.go`, `service.go`.
* cobra and pflag: their parsing of the command line is modelled from knowledge of the releases in go.mod (v1.1.3 and
  v1.0.5); their sources are not in the sandbox. The texts of help and usage are a parameter of `process`; what the hidden
  completion command prints is not modelled. The home directory is a parameter of `process`; elsewhere `Ctx.dir` is
  arbitrary.
* Requests carry the time-out they were given (C105) and are answered or fail, arbitrarily. Programs in the model have no
  notion of duration; `Model/Http` (`httpClient`, updater.go:34-48) says beside them how long each request waits, and C119 adds
  this up over a run. The HTTP status is not part of an answer; the code does not look at it.
* The layout of tables by go-pretty: a table is its header and rows. Colours.
* The file system: no symbolic links, no permissions other than the execute bit, no sizes or times; renaming a directory is a
  failure. Paths are resolved against a working directory; `.` and `..` are followed textually.
* An archive is read completely when it is opened. An entry that overwrites the archive itself would change what the real
  program reads after it.
* `yaml_law` idealises yaml.v2: marshalling followed by unmarshalling gives back the entries (for strings that are not
  valid UTF-8 yaml.v2 writes a `!!binary` value, which it also reads back).
* `fmt.Scanln`: characters are decoded as Go does (an invalid byte is read as U+FFFD); the words are cut at Unicode white space.
* Floating point occurs in three places: numbers in documents (through `Env.flt`), `time.Duration.Hours()` in `ShouldCheck`
  (`F64.rnd`, proved to be the rounding of IEEE 754: `F64.nearest_iff`), and `0.5*float32(width)` in the GUI, which is exact below 2^24.
* Memory that is no longer referenced is not modelled; "erases" means that the program no longer holds a reference in the
  fields named. What is on screen is what has been written to views.
* gocui v0.4.0: its source is not in the sandbox; `SetView`, `DeleteView`, `SetCurrentView`, `SetCursor`, `SetOrigin`, `Write`,
  `Clear`, `ViewBuffer`, `flush` and key dispatch are modelled from knowledge of that release. `Title`, `Editable`, `Mask` and `Highlight` are attributes of a view. Not modelled: colours, stacking order, escape
  sequences inside texts, character widths, wrapping.
* Goroutines: the background update check is one atomic step that may come at any time after the first drawing; C123 proves that
  it makes no difference if its disk states come one by one between keys and drawings.
  Its writes to the view from another goroutine without a lock (a data race in Go) are not modelled as such.
* Signals: only in `Model/Echo`, where CTRL+C ends a command between two steps on the terminal (C140); a crash at any other
  point is a state of the disk (C45, C49, C137).

## How the properties are proved

| properties | method |
|---|---|
| C01–C08 opdata and keys | equation for each function on all inputs; writer specification; CBC inversion by induction on blocks |
| C09–C17 sessions | induction over histories of facade calls and disk changes; invariant of reachable sessions |
| C18–C31, C76–C78, C86 loading and decoding | parser completeness on the writer's output; permutation lemmas for maps; agreement of loading on disks that agree below the vault |
| C32–C40, C84 queries and registries | filter, permutation and sortedness lemmas; finite tables |
| C41–C46, C80, C81 configuration | map lemmas, codec law, crash states from the log |
| C47–C60, C82 update | every intermediate disk state is characterised by locations touched; traces of events |
| C61–C66, C83 commands | output as a function of the item; footprint relation closed under sequencing |
| C89–C91 command line | the parser inverted: `argv` runs a command iff the arguments are the written form of a `Line` of the specification |
| C88 whole path | composition of C04, C05, C18, C21, C62, C65 for a relational writer of whole vaults |
| C87 nothing secret leaves | a relation between two runs (`Prog.Par`) that differ only in what is in the vault: same requests, same disk outside the vault |
| C94 times | the calendar of `absDate_spec` plus the time of day; digits |
| C95 messages | a run that announces stages by texts is the run that announces them by numbers, renamed (`Model/Relabel`) |
| C96 GUI noninterference | every action of the GUI carries a relation between two states to one (`Twins`), the details pane being free while it has the focus |
| C97 printed form injective | the first line break ends a line of one line, so lines, then fields, sections and notes are read back one after the other; counterexample run |
| C98 control characters | every printed piece is a constant, a number, a date or a text of the item; counterexample run |
| C99 leftovers of locking | what CTRL+L leaves in the state, C72 and C85 for the screen; counterexample run |
| C100 help line | invariant of the transitions: text of the help pane by focus; bindings by cases; counterexample run |
| C101 mask of the prompt | invariant of the transitions: every view has the attributes of its widget |
| C102 empty bands | the parser stops at a comma that no member follows; counterexample vault |
| C103 damaged files | equations for loading with every outcome; counterexample vault |
| C104 exit status | outcome of opening determined by validation and unlocking; demo run for the missing item |
| C79 vault path | pattern text related to terms, terms to names; leftmost search after a star leaves the longest rest; induction over the components of the path |
| C105 timeout | relation between states kept by every part of a run |
| C106 dialog | the run taken apart question by question |
| C107 everything can be shown | keys that lead back to the menu, to the entry, to the row and to the place are put together |
| C108 unclosed bracket | the class is never closed, so the entry of the vault itself makes the search fail; without brackets and backslashes the fuel suffices and no branch fails |
| C109 numbers out of range | the parts of a literal give its value over ℚ; a document of the grammar is read with `null` for the numbers that are too large, and with an error; the theorems on well-formed files now ask for numbers in range |
| C110 numbers as float64s | the rounding is proved to be the one nearest float64, ties to even; seventeen digits identify a float64 (a decimal nearer than half the gap is rounded to it); what is printed is a literal whose value is rounded to the same float64; a point or an exponent stops `ParseInt` |
| C111 the check in the way | the parser of the list of releases ends in a panic exactly on `Unusable` documents, by cases along the reads of the Go code; the check either returns or panics after one request, before the time stamp; induction over the sequence of commands |
| C112 repairing the configuration | the three typed reads of the settings; `configure` taken apart into check, questions, save; only the first and the last can panic |
| C113 GUI and command line | every unlocked state of the GUI goes back to one unlock; unlocking the same files with the same password from a fresh session gives a permutation of the same items; the text of the pane and the lines of the command are compared item by item |
| C114 from list to details | the same, from one command to the next |
| C115 installing a release | the run of `install` step by step, every step succeeding; the content by C48, the texts by C95, the cache by C51 |
| C116 unread password | the command does not look at the error, so replacing it by an empty line gives the same run |
| C117 others in /tmp | `installWith` is `install` with something else after the check; `install` and the disturbed update are two instances of it, so they agree up to there |
| C118 configured values | `Uses` compares whole runs: without the flag, and with the configured path given as the flag |
| C119 waiting | requests are counted by adding bounds along the program; each is bounded phase by phase |
| C120 background check on the screen | the version line is followed through every event, what is written apart from what is drawn |
| C121 end of the GUI | from the classification of all steps in `Model/GuiSteps`, carried over to the exit status |
| C122 checks over many runs | a relation kept by every part of a command: nothing asked and the disk unchanged, or one request and a fresh time stamp |
| C123 check in one step | every disk state of the check agrees with the one before it below the vault, so `Indep` applies at each; induction over the events |
| C124 items alone | what is held is the set of decoded descriptions of last entries (C18); the keys follow from profile and password; lookup by C34 |
| C125 list and secrets | the summary of a decoded item is a function of UID, category, overview and trash flag; sorted lists with the same elements have the same sort keys |
| C126 open files | the extraction with a counter of open files; induction over the entries |
| C127 confirming | from C43: a numeral has one value, an answer one meaning |
| C128 places of panes | induction over steps: the rectangle of a pane is that of a size drawn before, for the managers the last one |
| C129 stray files | loading depends on the files that fit the pattern only; the last entry counts (C18) |
| C130 repeating an update | outside the cache files stay files and directories stay directories at every moment of an update; then C115 |
| C131 two configures | the process goes on with the configuration it has read at its start, on a disk that others have changed since (the questions do not touch the disk, so interference while they are asked is the same); `save` writes the whole map |
| C132 terminal after the GUI | `Model/Tty`: the deferred `Close` runs at a return and at a panic of the main goroutine; the reasons for an end are those of C68 |
| C133 open vault and disk | the steps of an open vault commute with any change of the disk, the log and the version line; induction over the events |
| C134 opening during changes | the disk put together from what was read behaves like the sequence of disks; C18 on it; a history of three disks with a result that belongs to none |
| C135 changed master password | the profile in the session is that of the start in every reachable state; loading the bands does not look at the profile |
| C136 "invalid password" | C04, C05 and C03 give the outcome of each of the three stages of `Unlock`; C63 and C72 carry it to the screen |
| C137 interrupted time stamp | the states in the log of `checkTimestamp`; beginnings of decimal digits by strong induction; C56 for the next check |
| C138 what was entered | the specification of what is shown (C88) inverted: each place the format has for texts is followed into the printed lines, or shown not to matter; counterexample item |
| C139 asked first | the log of a first run: greeting, request, then the questions; if declined, the process is silent (C60) after the dialog |
| C140 CTRL+C | `Model/Echo`: the steps on the terminal are read off the log; a signal cuts them anywhere |
| C141 one line, one answer | `Begins`: a line of one word, or of more; `scanWord_begins` says what Scanln leaves |
| C142 damaged contents | two vaults that differ in one details blob: damaged in one, of a bare document in the other; same item, same output |
| C143 period and GUI | one request per start at most, counted over every sequence of events; the period is ignored |
| C144 newest release | the answer as a list of releases with versions of three numbers; only the head matters; counterexample list |
| C145 Makefile | the names and the text of `md5sum` satisfy what C115 asks of a release |
| C146 text from the server | `Tame` of C98 applied to what the server supplies; a newer tag within range is digits, dots and a sign |
| C147 connections | footprint relation with a predicate on requests; the URLs of an installation are those of C58 |
| C148 repeated runs | two runs side by side that differ in the order of the items in memory only; the registry sorts in one way as codes differ |
| C149 one prompt | the log of a run splits at the prompt; before it and after it there is no reading of a password |
| C92, C93 password prompt | `TrimSpace` as the longest part bounded by non-white characters; runs of keys without a drawing leave what ENTER reads unchanged |
| C67–C75, C85 GUI | an invariant over all event sequences; a classification of the steps; a relation `Indep` saying that an action commutes with replacing disk, log and version line |

## Mutation testing

`seeded/LOG.jsonl` has one line for each wrong program: the definition edited, the edit, the property it should break, the
declarations that no longer check, the property theorems that rest on them, and what was tightened if nothing failed. The edits are
made in a copy outside this directory. An edit counts as caught only if a named declaration fails. Where the build ended in
another way (lean was stopped for lack of memory, which a false `decide +kernel` in an example can cause), the edit is tried again
with the examples taken out; `inconclusive` marks those for which no answer was obtained.

## Axioms per theorem

Written by `tools/gen_axioms.py`.

<!-- axioms -->
* propext (9): C101_same_look, C134_profile_gone, C140_end_partial, C25_title_case, C37_case_insensitive, C46_defaults, C46_empty, C79_question, C79_star.
* Quot.sound, propext (36): C03_decryption_unique, C04_master_and_overview_keys, C05_bad_profile, C09_keys_held, C09_only_error, C103_fields_partial, C10_failed_unlock_changes_nothing, C126_enough_partial, C126_too_many, C129_refuted, C12_lock_erases, C134_refuted, C14_refuted, C14_second_unlock_keeps_old, C15_reads_change_nothing, C16_checked_vault_partial, C16_profile_is_first, C16_refuted, C17_validate, C23_swapped_blobs, C25_title_idempotent, C32_list_is_filter, C32_listed_iff, C35_count_is_length, C37_empty_title, C38_distinct, C40_answers, C40_inverse, C43_empty_answers, C46_crash, C62_everything, C76_rfc, C78_read_back, C89_before, C90_refuted, C94_faithful.
* Classical.choice, Quot.sound, propext (384): C01_opdata_round_trip, C02_authenticated_before_use, C03_outcome_determined, C04_halves, C04_written_keys, C05_derived_keys, C06_item_keys_round_trip, C07_item_key_blob_partial, C07_mac_ignored, C07_refuted, C08_in_place, C09_unlock_iff_authentic, C100_help_partial, C100_prompt_refuted, C100_refuted, C101_masked, C101_typing, C102_empty_band_partial, C102_never_opens, C102_refuted, C103_bands_partial, C103_profile_partial, C103_refuted, C104_missing_partial, C104_refuted, C104_status_item, C104_status_list, C105_commands, C105_first_run, C105_gui, C106_dialog, C106_first_run, C107_owner, C107_reached, C108_literal_partial, C108_refuted, C108_search_partial, C108_unclosed, C109_bands, C109_in_range_partial, C109_item_partial, C109_profile, C109_range, C109_refuted, C109_release, C110_date, C110_int, C110_month, C110_overflow, C111_check_partial, C111_every_time, C111_gui_partial, C111_refuted, C112_configure_partial, C112_empty, C112_refuted, C112_wrong_type, C113_details, C113_list, C114_listed, C114_shown, C115_elsewhere, C115_installs_partial, C115_refuted, C116_as_empty, C116_refuted, C116_unread_partial, C117_race, C117_refuted, C117_undisturbed_partial, C118_configured, C119_refuted, C119_wait_partial, C11_is_unlocked, C120_drawn_partial, C120_refuted, C120_waiting, C121_crash, C121_only_partial, C121_quit, C121_refuted, C121_resize, C122_due, C122_once, C123_crash, C123_meanwhile, C123_one_step, C124_runs, C124_same_item, C124_same_output, C125_list, C125_runs, C126_refuted, C126_runs, C127_confirm, C127_runs, C127_twice, C128_fits_partial, C128_narrow, C128_places, C128_refuted, C129_others_partial, C129_replaced, C129_runs, C130_repeat, C130_replaceable, C131_overwritten, C131_refuted, C131_untouched_partial, C132_calm_partial, C132_quit_partial, C132_refuted, C132_resize, C132_running, C132_server, C132_vault, C132_when, C133_open, C134_gone, C134_one_change_partial, C134_opening_partial, C134_some_disk_partial, C134_whole_items_partial, C135_old_password, C135_refuted, C135_same_profile_partial, C136_always, C136_owner_partial, C136_refuted, C136_said, C137_next, C137_states, C138_details_partial, C138_ignored, C138_refuted, C138_unnamed, C139_before, C139_configure, C139_declined_partial, C139_refuted, C13_locked_holds_nothing, C140_asked, C140_others_partial, C140_refuted, C140_when, C141_consent_partial, C141_consent_refuted, C141_first_word, C141_one_word_partial, C141_refuted, C141_spill, C142_damaged_as_empty, C142_refuted, C142_same_output, C142_seen_is_intact_partial, C143_once_partial, C143_refuted, C144_first_only, C144_greatest_first_partial, C144_refuted, C145_made_installs, C146_notice_partial, C146_notice_refuted, C146_offer_partial, C146_refuted, C147_linked, C147_refuted, C147_secure_partial, C148_gui_partial, C148_gui_refuted, C148_list, C148_list_partial, C148_refuted, C148_run, C149_gui, C149_once, C14_unlock_shows_current, C18_items_loaded, C18_loading_returns, C19_none_lost_none_invented, C20_attributes, C21_written_item, C21_written_vault, C22_no_unauthenticated_content, C23_contents_authenticated_partial, C23_not_detected, C23_refuted, C24_order_does_not_matter, C25_login_fields, C25_value_and_name, C26_kinds, C26_no_value, C26_section_fields, C27_dropped_iff, C27_sections, C28_conforming_decodes_partial, C28_crash_iff, C28_refuted, C29_address, C30_date_partial, C30_large_numbers, C30_refuted, C31_month_year, C31_number, C31_odd_values, C31_printed, C33_each_once, C33_sorted, C34_listed_opens, C34_lookup, C36_counts_add_up, C38_categories, C38_lookup, C38_reachable, C39_data_types, C41_save_returns, C41_saved_is_read, C41_saved_is_read_later, C42_foreign_keys, C43_answers, C43_in_range, C44_completed, C44_dialog_appears, C44_never_again, C44_no_dialog, C44_stays_available, C45_crash_states_partial, C45_refuted, C47_error_partial, C47_refuted, C47_touches_nothing, C48_refuted, C48_verified_partial, C49_crash_partial, C49_refuted, C49_unknown_program, C50_in_order, C50_not_before, C50_replacement, C51_leaves_nothing, C51_starts_empty, C52_exact, C52_never_missed, C52_newer_partial, C52_refuted, C53_checksum, C54_inside_partial, C54_refuted, C54_update_partial, C55_file_partial, C55_never_executable, C55_refuted, C56_after_check, C56_due, C56_every_time, C56_no_stamp, C56_throttled, C57_forced_asks, C57_not_written, C57_written, C57_written_unforced, C58_empty_list_crashes, C58_nothing_else, C58_read_as_published, C59_informed, C59_no_consent, C59_program_stays, C60_gui_asks, C60_no_request_partial, C60_refuted, C60_whole_run_partial, C61_masked, C61_no_secrets, C61_whole_command, C62_whole_command, C63_invalid_vault, C63_wrong_password, C64_flag_wins, C64_gui, C64_vault, C65_list, C66_refused, C67_covered, C67_only_tab, C68_crash, C68_goes_on_partial, C68_reasons, C68_refuted, C68_server_refuted, C68_small, C69_items_partial, C69_lock_scrolled, C69_menu_partial, C69_refuted, C69_resize_refuted, C69_same_size, C69_tall, C69_title_refuted, C70_last_entry, C70_lists_partial, C70_refuted, C71_lock, C72_attempts, C72_nothing_shown, C72_right_password, C72_wrong_password, C73_refuted, C73_reset_partial, C73_where, C74_menu, C74_on_screen, C74_rebuilt, C75_any_time, C75_meanwhile, C75_only_version, C76_base64_round_trip, C76_error_iff, C77_accepts_exactly, C77_bands_joined, C77_error_iff, C77_read_as_written, C77_rfc, C77_unambiguous, C79_literal_path_partial, C79_never_own, C79_own_bands_partial, C79_refuted, C79_seems_empty, C79_star_then, C79_which_bands, C79_which_bands_relative, C80_path_partial, C80_refuted, C81_path_kept_partial, C81_refuted, C82_as_agreed_partial, C82_refuted, C83_footprint, C83_gui, C83_process, C83_vault_untouched, C84_categories, C85_details, C86_only_its_files, C87_gui, C87_nothing_gets_out, C88_details, C88_list, C88_opens, C89_details, C89_gui, C89_homeless, C89_list, C89_overview, C89_plain, C89_process, C90_all_refused, C90_readme_partial, C91_always_zero, C91_refused_partial, C91_refuted, C92_never, C92_refuted, C92_shown_partial, C93_drawn_partial, C93_refuted, C93_undrawn, C94_commands, C94_every_time, C94_gui, C94_shown, C95_agreed, C95_declined, C95_nothing_new, C95_notice, C95_noticed, C95_replacing, C96_screens, C97_refuted, C97_told_apart_partial, C98_refuted, C98_tame_partial, C99_out_of_sight_partial, C99_refuted.
