#!/usr/bin/env python3
"""Writes properties.jsonl. One tuple per property: id, title, statement, quantifier, why_tests_cant, anchors."""
import json, os
P = []
def p(id, title, statement, quantifier, why, *anchors):
    P.append(dict(id=id, title=title, statement=statement, quantifier=quantifier,
                  why_tests_cant=why, anchors=list(anchors)))
KS="1pass-core/core/service/keyservice.go:"
IS="1pass-core/core/service/itemservice.go:"
VF="1pass-core/core/facade/vaultfacade.go:"
VS="1pass-core/core/service/vaultservice.go:"
IR="1pass-parse/repo/file/itemrepo.go:"
PR="1pass-parse/repo/file/profilerepo.go:"
CR="1pass-parse/repo/file/configrepo.go:"
US="1pass-core/core/service/updateservice.go:"
UP="1pass-up/component/github/updater.go:"
CL="1pass-term/control/cobra/clicontrol.go:"
GC="1pass-term/control/gocui/guicontrol.go:"
DT="1pass-core/core/domain/datatype.go:"
IC="1pass-core/core/domain/itemcategory.go:"
LV="1pass-core/core/domain/logicval.go:"
OW="1pass-app/gui/1passwidget.go:"
IW="1pass-app/gui/itemswidget.go:"
DW="1pass-app/gui/detailswidget.go:"

# ---- opdata and keys
p("C01","Opdata round trip","If a byte string p is packed as OPVault opdata01 (8-byte tag, 8-byte little-endian length of p, 16-byte IV, AES-CBC of padding++p, HMAC-SHA256 of all that) under an encryption key and a MAC key, then DecodeOpdata with the same two keys returns exactly p.",
  "every plaintext p shorter than 2^63 bytes, every padding that fills up a block, every IV, every pair of keys, every block cipher and MAC",
  "Tests decode three fixed blobs; the claim is for every length, padding and key.", KS+"DecodeOpdata", KS+"DecodeData", KS+"CheckHmac")
p("C02","Opdata is authenticated before it is used","DecodeOpdata returns plaintext only if the last 32 bytes of the input are the HMAC-SHA256, under the MAC key, of everything before them; otherwise it returns the invalid-HMAC error and no byte of the input is decrypted or changed.",
  "every input of at least 32 bytes, every pair of keys",
  "A test can only try some corruptions; no unauthenticated input at all may yield plaintext.", KS+"DecodeOpdata", KS+"CheckHmac")
p("C03","Outcome of DecodeOpdata is determined for every input","For every input DecodeOpdata either crashes (input below 32 bytes; or authenticated but shorter than a 32-byte header, not a whole number of blocks, or with a declared length outside the decrypted text), returns a cipher error (bad key size), returns the HMAC error, or returns exactly the last <declared length> bytes of the decrypted text.",
  "every byte string and every pair of keys", "The crash conditions form an infinite input class.", KS+"DecodeOpdata")
p("C04","Master and overview keys","MasterKeys/OverviewKeys return the two 32-byte halves of SHA-512 of the decrypted masterKey/overviewKey blob of the loaded profile, and an error when the blob is not base64 or does not authenticate.",
  "every profile and every pair of derived keys", "Tests use one profile.", KS+"MasterKeys", KS+"OverviewKeys", KS+"DecodeKeys")
p("C05","Derived keys","DerivedKeys(password) is the two 32-byte halves of a 64-byte PBKDF2 of exactly the password bytes with the profile's salt and iteration count; the encryption key is the first half and the MAC key the second.",
  "every password and every profile", "One password is tested.", KS+"DerivedKeys", "1pass-parse/util/pbkdf2/cryptoutils.go:DeriveKey")
p("C06","Item keys round trip","For an item whose key blob is IV ++ AES-CBC(master key, itemKey ++ itemMac) ++ MAC, ItemKeys returns itemKey and itemMac.",
  "every IV, every 32-byte item key and MAC key, every master key, every trailing MAC", "Tests decode one blob.", KS+"ItemKeys")
p("C07","Item key blobs are authenticated","An item key blob whose trailing MAC does not verify is rejected. (Fails in the code: the MAC of the blob is never looked at.)",
  "every item key blob", "Only a for-all statement can show that no MAC value matters.", KS+"ItemKeys")
p("C08","In-place decryption touches only the ciphertext","A successful DecodeOpdata overwrites exactly the ciphertext region of the caller's buffer with the decrypted text: the header, the IV and the MAC stay, and so does the buffer after an error.",
  "every input buffer", "Aliasing effects are not observed by any test.", KS+"DecodeOpdata", KS+"DecodeData")
# ---- session
p("C09","Unlock succeeds exactly for a password that authenticates","With a loaded profile of well-formed blobs, Unlock returns no error iff the keys derived from the password authenticate both the master-key blob and the overview-key blob; every other outcome is the invalid-password error.",
  "every password, profile, vault contents and session state", "Testing tries one good and one bad password.", VF+"Unlock")
p("C10","A failed Unlock changes nothing","If Unlock returns an error, the session is exactly what it was: lock state, held keys, decoded items, cached profile.",
  "every state reachable by any history, every password", "Quantifies over histories.", VF+"Unlock")
p("C11","IsUnlocked reflects the last lock or unlock","In any history IsUnlocked is true iff there was a successful Unlock and no Lock after the last one.",
  "every finite history of facade calls and file changes", "Quantifies over histories.", VF+"IsUnlocked", VF+"Lock", VF+"Unlock")
p("C12","Lock erases","After Lock, and whatever is called afterwards up to the next successful Unlock, every count is 0, every list empty and every lookup fails.",
  "every history before and every unlock-free history after", "Quantifies over histories.", VF+"Lock", IS+"ClearMemory", IR+"RemoveItems")
p("C13","Locked sessions hold no items","In every reachable state in which IsUnlocked is false, no decoded item is held and none can be obtained.",
  "every reachable state", "Invariant over all histories.", VF+"IsUnlocked", VF+"GetItem", VF+"GetItems", VF+"CountItems")
p("C14","Unlock shows the vault's current contents","After a successful Unlock from a locked session, the items held are exactly the decoded contents of the vault's band files at that moment. (A second Unlock without Lock keeps the old items: that part of the wish fails.)",
  "every reachable locked state, every vault contents", "Quantifies over states and contents.", VF+"Unlock", IS+"DecodeItems", IR+"StoreItems")
p("C15","Reading does not change anything","CountItems, GetItem, GetItems and IsUnlocked leave the session as it is, so repeating or interleaving them in any order gives the same answers.",
  "every state and every sequence of reads", "Quantifies over sequences.", VF+"CountItems", VF+"GetItem", VF+"GetItems")
p("C16","The password is checked against the vault that was named","Unlock(vault, password) checks the password against that vault's profile. Holds in every history that names a single vault; fails when a second vault is validated in the same process because the first profile is cached for good.",
  "every history of Validate/Unlock/Lock over any number of vaults", "Quantifies over histories.", PR+"LoadProfile", VS+"ValidateVault", VF+"Unlock")
p("C17","Vault validation","Validate accepts a path iff it is a directory that holds the regular file default/profile.js; otherwise the error names the first check that failed.",
  "every file system and path", "Tests use three directories.", VS+"ValidateVault")
# ---- items
p("C18","Items loaded are those of all band files","LoadItems yields one raw item per distinct UID occurring in any band file of the vault, with the last entry (in band-file order) winning, and carries over all its attributes; a missing trashed flag means not trashed; no band file means no items.",
  "every number of band files, every non-empty contents, every JSON layout (white space, escapes) of it", "Infinite family of vaults.", IR+"LoadItems")
p("C19","No item is lost or invented when decoding","Decoding keeps exactly the raw items whose category code is one of the 18 known ones, one decoded item each.",
  "every list of raw items and all keys", "Any number of items.", IS+"DecodeItems", IC+"FromCode")
p("C20","Item attributes are carried over","A decoded item has the UID, trashed flag, created and updated times and category of its raw item.",
  "every raw item and all keys", "Tests look at one title.", IS+"DecodeItems", "1pass-core/core/domain/entity.go:NewItem")
p("C21","What the vault writer encrypted is what the user sees","For an item written by a conforming OPVault writer (overview and details JSON packed as opdata under the right keys), the decoded title, URL, notes, sections and fields are those of the JSON documents.",
  "every overview and details document, every key, IV and padding", "End-to-end over all documents.", IS+"DecodeItems", IS+"DecodeOverview", IS+"DecodeDetails")
p("C22","Tampered blobs contribute no content","If an item's overview blob does not authenticate, its title and URL are empty; if its details blob does not authenticate under the item keys, its notes and sections are empty.",
  "every raw item and all keys", "No tampering at all may surface content.", IS+"DecodeOverview", IS+"DecodeDetails", IS+"DecodeItems")
p("C23","Item attributes are authenticated","Changing an item's category, trashed flag or times, or swapping blobs between items, is detected. (Fails in the code: the item's hmac is never read.)",
  "every raw item and every altered copy", "Needs a for-all over hmac values.", IS+"DecodeItems", "1pass-core/core/domain/entity.go:RawItem")
p("C24","Results do not depend on map iteration order","Counts, single-item lookups and the set of listed items are the same whatever order Go's map iteration produces; lists differ at most in the order of items with equal category and title.",
  "every permutation of the loaded items", "Go randomises the order; a test sees one.", IR+"LoadItems", IS+"GetSimpleItems")
p("C25","Login fields","A login field is shown iff it has a non-empty value and a non-empty name; its name is title-cased and its value is verbatim.",
  "every field document whose value and name are strings or missing", "All documents.", IS+"ParseItemField")
p("C26","Section fields","A section field is shown iff it has a value; unknown kinds show the string verbatim; date, monthYear and address kinds (any letter case) show the formatted value.",
  "every conforming section field", "All documents.", IS+"ParseItemField", DT+"ParseValue", DT+"FromName")
p("C27","Sections keep order, empty ones are dropped","Sections and fields appear in document order; a section is dropped iff it has neither title nor shown field; an item without sections shows its login fields as one untitled section.",
  "every details document", "All documents.", IS+"ParseItemSection", IS+"DecodeItems")
p("C28","Opening a vault never crashes on odd item documents","Unlock does not crash whatever the decrypted item documents contain. Holds for documents with the expected value types; fails otherwise (a numeric login value crashes the program).",
  "every item document", "All documents.", IS+"DecodeItems", IS+"ParseItemField", IS+"ParseItemSection")
p("C29","Addresses","An address is shown as one line per entry, sorted by key, with surrounding white space trimmed and line breaks turned into spaces, whatever the map order.",
  "every address document with string entries", "All maps and all orders.", DT+"parseAddress")
p("C30","Dates","A date field shows the calendar date of its Unix time. Holds for decimal strings; fails for JSON numbers of seven or more digits, which show as 1970-01-01.",
  "every Unix time in the int64 range that the calendar covers, and every zone offset", "All timestamps.", DT+"parseDate", IS+"ParseItemField")
p("C31","Month and year","A monthYear value of more than four bytes shows as its first four bytes, a dash and the rest; shorter ones are verbatim; a JSON number YYYYMM shows as YYYY-MM; values of other kinds count as what fmt.Sprint makes of them.",
  "every value", "All values.", DT+"parseMonthYear")
# ---- queries
p("C32","Listing filter","GetItems returns exactly the held items with the requested trashed flag, the requested category if one is given, and, if a title is given, a title containing it ignoring case.",
  "every set of held items and every filter", "All filters.", IR+"FindByCategoryAndTitleAndTrashed", IS+"GetSimpleItems")
p("C33","Listing order","The list is sorted by category code and then by title (byte order) and contains each match exactly once.",
  "every set of held items, every filter, every sort.Slice behaviour within its contract", "All inputs.", IS+"GetSimpleItems")
p("C34","A listed item can be opened","For every entry of a list, GetItem with its UID and trashed flag returns an item with the same category, title, UID and trashed flag.",
  "every reachable state and every filter", "All states.", IS+"GetSimpleItems", IR+"FindFirstByUidAndTrashed", GC+"GetItem")
p("C35","Counts agree with lists","CountItems(category, trashed) is the length of GetItems(category, no title, trashed).",
  "every state, category and flag", "All states.", IR+"CountByCategoryAndTrashed", IR+"FindByCategoryAndTitleAndTrashed")
p("C36","Counts add up","The overall count is the sum of the counts of the categories, and active plus trashed is the number of items held.",
  "every reachable state", "All states.", IR+"CountByCategoryAndTrashed")
p("C37","Search ignores letter case","Searching for a title gives the same result whatever the letter case of the query, and an empty title means no title filter.",
  "every ASCII query and every set of items", "All queries.", IR+"FindByCategoryAndTitleAndTrashed")
p("C38","Categories are identified uniquely","Category codes and names are distinct; looking up a category's code or its name in any letter case gives that category; all other codes and names are errors; and this does not change when the shared category list is re-sorted in place.",
  "every code, every name, every reordering of the shared list", "All strings and orders.", IC+"FromCode", IC+"FromName", CL+"GetCategories", OW+"update")
p("C39","Data type names","Data type lookup accepts exactly address, date and monthYear in any letter case.","every name","All strings.",DT+"FromName")
p("C40","Yes/no answers","y/Y and n/N are the only accepted answers and mean true and false; FromValue inverts GetValue.","every answer","All strings.",LV+"FromName",LV+"FromValue")
# ---- config
p("C41","Saved configuration is read back","After SaveConfig, GetConfig returns the saved values, in the same process and after any number of restarts.",
  "every configuration, every prior configuration file, every number of restarts", "All histories.", CR+"Save", CR+"loadConfigFile", "1pass-core/core/service/configservice.go:GetConfig")
p("C42","Foreign configuration keys survive","Saving keeps configuration entries the application does not know.","every configuration file","All files.",CR+"Save")
p("C43","Configure stores the answers and keeps values in range","After Configure the timeout is in 1..30 and the period in 0..365 if they were before; an invalid or empty answer to the timeout, period or notification question leaves its setting as it was, a valid one is stored exactly; the vault path changes only after the answer yes (C80, C81 say how).",
  "every previous configuration and every four or five answers", "All answers.", CL+"Configure")
p("C44","The first-run dialog appears at most once","The configuration dialog on start appears iff no configuration is available, and never again after it completed.",
  "every history of runs of all commands but update, with any typed input, server and passwords, system calls not failing", "All histories.", CL+"FirstRun", CR+"IsAvailable")
p("C45","Saving the configuration is crash-safe","A crash at any point of SaveConfig leaves either the old or the new configuration. (Fails: the file is truncated before it is written, and an empty file makes every later save crash.)",
  "every crash point", "Crash points are not testable here.", CR+"Save", CR+"loadConfigFile")
p("C46","Configuration defaults","Missing entries read as: no vault, timeout 1, notifications on, period 1; present entries of the right type are returned as they are.","every configuration file","All files.",CR+"GetTimeout",CR+"GetDefaultVault",CR+"GetUpdateNotification",CR+"GetUpdatePeriod")
# ---- update
p("C47","No update without a newer release","If the update server cannot be reached, gives no release or gives one that is not newer, Update returns an error and touches no file. (The error part fails: an empty release list crashes the program. Nothing is touched in any case.)",
  "every server behaviour and file system","All server behaviours.",US+"Update")
p("C48","Only a verified binary is installed","If Update replaced the program, the new program is byte for byte a file whose MD5 equals the first word of the downloaded checksum file, taken from the downloaded archive of a release that is newer. (Fails if the archive contains its own checksum.md5 or writes to the program by way of a .. entry; holds otherwise.)",
  "every server behaviour and file system","All server behaviours.",US+"Update",UP+"ValidateChecksum",UP+"ReplaceBinary")
p("C49","The installed program survives a crash during update","At every crash point of Update the installed program is either the old one or the complete verified new one. (Fails for archives with a .. entry leading to the program; holds otherwise.)",
  "every crash point, server behaviour and failing step, for archives whose entries stay inside the cache","Crash points.",US+"Update",UP+"ReplaceBinary",UP+"ExtractArchive")
p("C50","Update stages are reported in order","The stages reported are 1, 2, ..., k with k=7 iff the binary was replaced, and replacement never precedes stage 6.","every server behaviour and failing step","All failures.",US+"Update")
p("C51","Update starts from and leaves a clean cache","Update works on an emptied cache directory whatever an earlier run left there, and after success the cache is gone.","every file system and every server behaviour","All states.",US+"Update")
p("C52","Newer means a greater version","A release is offered iff its version is greater than the running one, component by component. (Fails for multi-digit or missing components: dots are dropped before comparing. Holds for three one-digit components.)","every version string","All strings.",UP+"CheckForUpdate")
p("C53","Checksum check","ValidateChecksum succeeds iff the first white-space separated word of the checksum file is the lower-case hex MD5 of the binary; an empty checksum file crashes.","every pair of files","All files.",UP+"ValidateChecksum")
p("C54","Extraction stays inside the cache","ExtractArchive writes only below the destination directory. (Fails for entry names with '..'; holds for names without it.)","every archive","All archives.",UP+"ExtractArchive")
p("C55","The updated program is executable","After a successful Update the installed program can be executed. (Fails: the extracted file is created without execute permission.)","every archive","All archives.",UP+"ExtractArchive",UP+"ReplaceBinary")
p("C56","Update checks are throttled","After a successful update check, unforced checks within the configured number of days make no network request, and the first one after that does; period 0 checks every time; a missing or unreadable time stamp means check.",
  "every history of checks at any times, every period","All histories and times.",UP+"ShouldCheck",US+"CheckForUpdate")
p("C57","The time stamp records successful checks only","The last-check time stamp is written iff the server answered, with the time of the check, whether or not there is a newer release; a forced check always asks the server.","every server behaviour","All behaviours.",US+"CheckForUpdate",UP+"CheckTimestamp")
p("C58","Release data is read as published","CheckForUpdate takes version and changelog from the first release and the archive and checksum URLs from the last assets named *.tar.gz* and *.md5*. An empty release list crashes the program.","every server answer","All answers.",UP+"CheckForUpdate")
p("C59","No update without consent","1pass update replaces nothing unless the user answered y or Y.","every answer and server behaviour","All answers.",CL+"Update")
p("C60","Notifications can be turned off","With update notifications off, no command except update contacts the server. (Fails for the GUI, which asks on every start.)","every command and state","All commands.",CL+"CheckForUpdate","1pass-app/gui/versionwidget.go:update")
# ---- cli
p("C61","Overview hides secrets","The overview command prints the same text for two items that differ only in field values and in the (non-empty) notes.","every pair of such items","Non-interference over pairs.",CL+"GetItemOverview")
p("C62","Details shows everything","The details command prints title, URL, every section title, every field as name: value in order, and the notes.","every item","All items.",CL+"GetItemDetails")
p("C63","No item output without a valid vault and password","If the vault is invalid or the password wrong, list, overview and details print only the error (after the prompt) and exit with status 1.","every vault, password, item and flag","All inputs.",CL+"GetItems",CL+"GetItemOverview",CL+"GetItemDetails")
p("C64","The vault flag wins","Commands use the path given by -v if it is non-empty and the configured default otherwise.","every path and configuration","All paths.",CL+"GetItems",GC+"ValidateVault")
p("C65","List output","list prints exactly the matching items, numbered from 1 in list order with UID, category name and title, or a no-result message.","every state and filter","All states.",CL+"GetItems")
p("C66","Unknown category filter is refused","list -c with a name (after trimming) that is no category prints an error, exits with 1 and lists nothing.","every name","All names.",CL+"GetItems")
# ---- gui
p("C67","Secrets are on screen only while revealed","In the GUI, in every state reached by any key sequence, field values and notes are displayed only while the details pane has the focus.","every key sequence, vault and terminal size","All key sequences.",DW+"update",IW+"showOverview",IW+"toggleDetails")
p("C68","No key sequence crashes the GUI","No sequence of keys makes the GUI crash. (Fails: TAB in an empty item list indexes out of range; holds on all sequences that never open an empty list.)","every key sequence and vault","All key sequences.",IW+"toggleDetails",IW+"showOverview",OW+"showItems")
p("C69","The highlighted row is the selected entry","The row under the cursor is the entry that will be opened. (Fails after locking a scrolled menu: the origin is not reset.)","every key sequence and window height","All key sequences.",OW+"cursorDown",OW+"cursorUp",OW+"resetCursor",IW+"cursorDown",IW+"cursorUp")
p("C70","Opening a menu entry lists its items","Opening All, a category or Trashed lists exactly the items counted in that entry. (Fails when nothing is trashed: the last category opens the empty trash.)","every vault and entry","All vaults.",OW+"showItems",OW+"update")
p("C71","Lock works from every screen","CTRL+L in the menu, item list or details pane locks the vault, removes item list and details from the screen, clears the menu and asks for the password.","every reachable GUI state","All states.",OW+"lock",IW+"lock",DW+"Keybindings")
p("C72","Wrong password can be retried","After a wrong password the GUI shows the error and then asks again; it never shows items and never exits; a correct password then opens the menu.","every sequence of attempts","All sequences.",OW+"unlock",OW+"closeError")
p("C73","Scroll position is reset when another item is shown","Showing or covering an item resets the details pane to its top left corner. (Fails when scrolled in both directions: only the vertical position is reset.)","every scroll position","All positions.",DW+"resetOrigin")
p("C74","Menu entries","The menu is All, then the non-empty categories sorted by code, each once, then Trashed if there are trashed items, each with its count; without active items only Trashed; and it is rebuilt identically after every lock and unlock.","every vault and key sequence","All vaults.",OW+"update")
p("C75","The background update check does not disturb the session","When the asynchronous update check returns, it changes only the version line (and its time stamp on the disk): the rest of the GUI behaves as if it had finished at any other time. The vault path is free of glob characters and the time stamp is kept outside the vault.","every interleaving with key events and drawings","Schedules.", "1pass-app/gui/versionwidget.go:update")
# ---- codecs the above rest on
p("C76","Base64","Decoding the standard base64 encoding of any bytes gives them back, also with line breaks in it; text that has not the shape of base64 is reported as an error.","every byte string and every text","All strings.",KS+"MasterKeys",KS+"ItemKeys",IS+"DecodeOverview")
p("C77","JSON documents are read as written","Parsing any JSON rendering (any white space, any escaping) of a document gives that document, a text that is no such rendering is refused, and band bodies joined by commas parse to the union of their members.","every document, every rendering of it and every text that is none","All documents.",IR+"LoadItems",PR+"LoadProfile",IS+"DecodeDetails")
p("C78","Time stamps are read back","The last-check time stamp written at any time parses back to that time.","every int64","All integers.",UP+"CheckTimestamp",UP+"ShouldCheck")
p("C79","The vault path is taken literally","The files read when items are loaded are exactly the band_*.js files in the default directory of the vault that was named, whatever characters its path contains. (Fails: the path is a pattern. The files read are the band files in the default directory of every directory whose path fits it, component by component, each once; the vault named is among them if the path has no bracket and no backslash, and never if it has one of these and no star.)","every vault path and every file tree","Test paths contain no glob metacharacters.",IR+"LoadItems")
p("C80","A vault path with spaces can be configured","The path typed as answer to the vault question becomes the configured vault path. (Fails for a path containing a blank: only its first word is stored, and the rest of the line is left for the next question.)","every path","All paths.",CL+"Configure")
p("C81","An empty answer keeps the vault path","Pressing enter at the vault path question keeps the configured path, like at the other questions. (Fails: the path is cleared. It is kept if the vault is not to be changed.)","every configuration","All configurations.",CL+"Configure")
p("C82","The version agreed to is the version installed","After a successful update the program is the one of the version that was offered and agreed to. (Fails if the server describes another release when it is asked again after the answer; holds if its answers agree.)","every server behaviour","Requires a server whose answers change.",CL+"Update",US+"Update")
p("C83","Commands leave everything else alone","A run of any command but update at no time touches anything but the configuration file, the time stamp and directories above them, and asks the network for nothing but the list of releases. No vault is ever changed.","every command, input, failure and crash point","All runs and failures.","1pass-app/main.go:main",CL+"Configure",CL+"GetItems",CL+"GetItemDetails",CL+"GetItemOverview")
p("C84","Category list","categories prints every category once, by code, numbered from 1.","every order of the shared registry","All orders.",CL+"GetCategories")
p("C85","The details pane shows the selected item","Whenever the details pane is on the screen it shows the item selected in the list, and only it: covered while the list has the focus, revealed while the pane has it; nothing if the list is empty.","every key sequence, vault and terminal size","All key sequences.",IW+"showOverview",IW+"toggleDetails",IW+"cursorDown",IW+"cursorUp",DW+"update")
p("C86","A vault is opened from its own files","What validating and opening a vault (of a path without glob characters) gives depends only on the files in its directory: whatever else is on the disk makes no difference.","every pair of disks, password and process state","Pairs of disks.",IR+"LoadItems",PR+"LoadProfile",VS+"ValidateVault")
p("C87","Nothing secret leaves through disk or network","Two runs on machines that differ only in the files of the vault, the password, the command and its arguments, and (in the GUI) the keys pressed write the same outside the vault at every moment and ask the network the same; the only difference the GUI can make is whether it got as far as its update check.","every pair of vaults, passwords, commands, key sequences and failures","Non-interference over pairs of runs.","1pass-app/main.go:main",CL+"GetItems",CL+"GetItemDetails",CL+"GetItemOverview",OW+"unlock")
p("C88","The owner of a vault sees what is in it","If a conforming writer made the vault and its password is typed, list prints exactly the entries asked for and details prints exactly what was entered, for every entry of a known category: whatever the distribution over band files, white space, escapes, superseded entries, initialisation vectors and padding.","every vault, password, set of primitives and map order; a process that has opened no other vault","The whole path from disk to screen: profile, key derivation, bands, item keys, blobs, documents, selection, output.",CL+"GetItems",CL+"GetItemDetails","1pass-core/core/facade/vaultfacade.go:Unlock")
p("C89","The command line means what it says","A command line runs a command exactly if it consists of the command, its options in one of their written forms (long or short, joined or separate, in any order, before or after words, shorthands together) and the words the command takes; the last value given to an option counts, and the command gets it unchanged. Without a command the GUI starts.","every list of arguments","All spellings and orders.","1pass-app/cli/cobra.go:init","1pass-app/cli/cobra.go:Run","1pass-app/main.go:main")
p("C90","Documented command lines work","Every command line that README.md gives runs the command it documents. (Fails for list, overview and details: the path of the vault written as last word is refused by all three. Holds for the other lines, and for these if the path is the value of -v.)","every option, uid and path in the documented lines","All paths and uids.","1pass-app/cli/cobra.go:init")
p("C91","A refused command line is reported","A command line that is refused touches nothing, asks nothing and ends with a failing status after saying what is wrong. (Fails: the status is 0 in every case. The rest holds.)","every refused command line","All mistaken command lines.","1pass-app/cli/cobra.go:Run")
p("C92","The GUI accepts the passwords that the command line accepts","A password that opens the vault on the command line opens it in the GUI when it is typed there. (Fails: the GUI trims what was typed, so a vault whose password begins or ends with white space is never opened by it, whatever is typed. Holds for all other passwords shown in the prompt.)","every vault, password, key sequence and terminal","All passwords.","1pass-app/gui/1passwidget.go:unlock")
p("C93","What was typed before ENTER is what is tried","All keys pressed before ENTER count as part of the password. (Fails: the prompt is read as it was last drawn, so keys that come together with ENTER, as in a paste, are ignored. Holds if the screen is drawn in between.)","every key sequence and drawing","Schedules of keys and drawings.","1pass-app/gui/1passwidget.go:unlock")
p("C94","Times are shown by the local clock","The times at which an item was made and changed are shown as the date and the time of day of the local clock, in overview, details and the GUI, and two different times are never shown alike by the same clock (years 0 to 9999).","every time, time zone and item","All int64 times and offsets.",CL+"GetItemOverview",CL+"GetItemDetails",DW+"update")
p("C95","What is said about updates is true","The notice before a command is printed only if the server has just published a newer release, and names it; update says what is offered, from which version to which it goes, each step when it is begun, and that it is done exactly if all steps succeeded, with the version agreed to.","every server, answer, configuration and failure","All failures at all steps.",CL+"CheckForUpdate",CL+"Update")
p("C96","The GUI shows no secret of a covered item","Two runs of the GUI with the same keys on the same terminal, on vaults that answer the same to every password tried and differ only in secrets (values of fields, text of notes), end the same way and show the same in all panes, except in the details pane while it has the focus.","every pair of disks and sequence of keys, drawings and checks","Relates two executions, for all key sequences.",DW+"update",DW+"cover",IW+"update","1pass-app/gui/1passwidget.go:update")
p("C97","Items that details prints alike are alike","Two items of which details prints the same text have the same category, title, times, trash flag, address, sections, fields and notes. (Fails: a value of several lines can look like the end of its section and notes. Holds for items whose titles, names, values and address take one line, with no colon in a field name and no section called Notes.)","every pair of items","Injectivity of the printed form, over all pairs of items.",CL+"GetItemDetails")
p("C98","No control characters on the terminal","Whatever a vault contains, details and overview print no control characters other than line breaks. (Fails: titles, names, values and notes are printed as they are. Holds for items without control characters.)","every vault and item","The content of a vault is arbitrary bytes.",CL+"GetItemDetails",CL+"GetItemOverview")
p("C99","Locking forgets what was decrypted","After CTRL+L nothing decrypted is left in the program. (Fails: the details widget keeps the item it showed last and the item widget its list. The session holds nothing, nothing is on the screen, and what is shown later comes from the session then.)","every state of the GUI and every key sequence","The leftovers are not visible on the screen.",DW+"Layout","1pass-app/gui/1passwidget.go:lock",IW+"lock")
p("C100","The help line names keys that work","The help pane names keys that are bound in the pane that has the focus. (Fails: after going back to the menu it still shows the keys of the item list; at the password prompt it shows the menu's keys. Holds in the item list, in the details pane and in the menu before the first item list is opened.)","every state of the GUI and every key sequence","Quantifies over all key sequences.","1pass-app/gui/helpwidget.go:update",IW+"goBack")
p("C101","The password is not shown while it is typed","At the password prompt of the GUI only asterisks are seen, one for each character, and typing changes no other pane; all other panes show their text; the prompt is the only pane that takes text.","every state of the GUI and every key sequence","Quantifies over all states and everything typed.","1pass-app/gui/passprompt.go:Layout")

p("C102","A band without entries does no harm","A vault opens whether or not some of its band files have no entries. (Fails: the bodies of the bands are joined by commas, so one empty band among several makes a text that is no JSON and the program ends. Holds if no band is empty or there is only one.)","every vault whose bands are well-formed or empty","Quantifies over all vaults.","1pass-parse/repo/file/itemrepo.go:LoadItems")
p("C103","Damaged files are reported","Opening a vault never crashes, whatever is in its files: at worst the program ends with a message. (Fails: a profile of less than 13 bytes, a profile without salt, iterations or keys, a band of less than 7 bytes and an item without its attributes crash it. The outcome is determined for every profile file and every set of band files.)","every vault, whatever bytes its files hold","Quantifies over all file contents.","1pass-parse/repo/file/profilerepo.go:LoadProfile","1pass-parse/repo/file/itemrepo.go:LoadItems")

p("C104","The exit status tells whether the command succeeded","list, overview and details end with status 0 only if they did what was asked: the vault is valid, the password right, the category (if one is given) known, and, for overview and details, there is an item with the given UID among the trashed or untrashed items asked for. (Fails in the last point: a UID that does not exist, or one of a trashed item without the flag for the trash, is reported in a message, but the status is 0. The status is determined exactly for all three commands.)","every configuration, vault, password, UID, category, title and flag, every earlier state","tests of the commands need a terminal for the password and a child process for the exit status; no test looks at it",CL+"GetItemDetails",CL+"GetItemOverview",CL+"GetItems")
p("C105","Requests use the configured timeout","Every request the program makes, for the list of releases, the archive and the checksum, from the commands and from the check in the background of the GUI, has the timeout of the configuration in force: one second if none is configured. During the dialog of the first run that is the configuration before the dialog, afterwards the one made in it.","every command, configuration, answer of the server, failure of the system and sequence of events in the GUI","Quantifies over all runs; the tests have no server to be slow.","1pass-up/component/github/updater.go:httpClient","1pass-core/core/facade/updatefacade.go:CheckForUpdate","1pass-core/core/facade/updatefacade.go:Update")
p("C106","The configuration dialog shows what is configured","configure asks its questions in the order of the manual, each with the setting in force (vault path only if it is to be changed), prints nothing else, writes to the disk only after the last answer, and says that 1pass is configured exactly if it ran to its end. The first run shows the same dialog with the built-in settings between a greeting and an empty line.","every configuration, input and failure of the disk","Quantifies over all configurations and inputs.",CL+"Configure",CL+"FirstRun")
p("C107","Everything in an open vault can be brought on the screen","From every state of the GUI with an unlocked vault, on a terminal of at least 6 by 10 cells, some keys lead to the details pane showing the contents of any given item of the vault (also one in the trash), scrolled to any place, without changing the disk or locking the vault. The owner of a conforming vault who types the password and presses ENTER can so see every entry of a known category.","every state reachable in the GUI, every item, scroll position, vault and terminal size from 6 by 10","Quantifies over all reachable states and vaults and claims that a key sequence exists.",IW+"goBack",IW+"cursorDown",IW+"toggleDetails",OW+"cursorDown",OW+"showItems",OW+"unlock",DW+"scrollDown",DW+"scrollRight")
p("C108","A vault in order can be opened wherever it lies","Loading the items of a vault whose files are in order does not end the program. (Fails: if a name in the path of the vault has a bracket that is not closed, the vault is accepted and wrong passwords are refused, but with the right password the program ends with the error of the pattern search; no password opens it. Holds for paths without special characters; without brackets and backslashes the search for band files never fails.)","every vault path, file tree and password","Test paths contain no glob metacharacters.",IR+"LoadItems","1pass-core/core/facade/vaultfacade.go:Unlock")
p("C109","Numbers out of range are reported","A vault is read as it was written or the reading is reported as failed, whatever numbers it contains. (Fails inside items: encoding/json refuses a number of at least 2^1024 - 2^970 in absolute value. In the profile, in a band or in the answer of the release server that is an error. In the encrypted documents of an item the error is ignored, and the item is shown as if there were null in the place of the number: the field disappears.)","every number literal, profile, set of band files, item and answer of the release server","Quantifies over all number literals and documents; tests use small numbers.","1pass-core/core/service/itemservice.go:DecodeDetails","1pass-core/core/service/itemservice.go:DecodeOverview","1pass-parse/repo/file/profilerepo.go:LoadProfile",IR+"LoadItems","1pass-up/component/github/updater.go:CheckForUpdate")
p("C110","Numbers in documents are float64s","A JSON number becomes the nearest float64 (ties to even). A time of an item is that float64 with the fraction cut off. A month field shows a shortest decimal of it - one that stands for the same float64 - with a dash behind the fourth byte. A date field shows the date of the number if it is an integer below a million in absolute value, and the date of the Unix time 0 for every other number.","every number literal and every field of type date or monthYear","Quantifies over all number literals - any number of digits, any exponent; the shortest decimal and the rounding are different at every one.","1pass-core/core/domain/datatype.go:parseDate","1pass-core/core/domain/datatype.go:parseMonthYear","1pass-core/core/service/itemservice.go:ParseItemField",IR+"LoadItems")
p("C111","The check for updates does not stand in the way of a command","With a configuration in order, no command crashes because of what the release server answers to the check before it. (Fails: an empty list of releases, a release without a text, tag or list of assets, and an asset without a name or address crash it. The command has not begun then; the time of the check is not saved, so every later command crashes as well until something else is published. In the GUI the check in the background ends the program. The answers that do this are determined exactly; after every other one the command goes on, with the configuration, the session and the input unchanged and nothing written but the time stamp.)","every answer of the server, configuration, command, and sequence of commands","Quantifies over all answers of the server and all sequences of commands; the tests have no server.","1pass-up/component/github/updater.go:CheckForUpdate",CL+"CheckForUpdate","1pass-core/core/service/updateservice.go:CheckForUpdate")
p("C112","configure can repair the configuration","With no server in reach, configure does not crash, whatever is in the configuration file. (Fails: if a setting has another type than the program expects, every command except version - also configure - crashes before it prints or reads anything; if the file is empty, configure asks all its questions and then crashes, the file stays empty. Apart from these and C111 it never crashes.)","every configuration file, command and input","Quantifies over all configuration files.","1pass-parse/repo/file/configrepo.go:GetTimeout","1pass-parse/repo/file/configrepo.go:GetUpdateNotification","1pass-parse/repo/file/configrepo.go:GetUpdatePeriod","1pass-parse/repo/file/configrepo.go:Save",CL+"Configure")
p("C113","The GUI and the command line show the same","As long as the vault is not changed: the text in the details pane is what details (if the pane has the focus) or overview (otherwise) prints for the selected item with the password the vault was opened with, after a blank line and, if there are notes, before another one; the list in the list pane is the one list prints for some category and setting of the flag for the trash: the same items with the same categories and titles in the same order.","every vault, key sequence, terminal size and environment","The two programs are never run against each other.",DW+"update",IW+"update",CL+"GetItemDetails",CL+"GetItemOverview",CL+"GetItems")
p("C114","What list shows can be asked for","As long as the vault is not changed: for every row of a table list has printed, overview and details with the UID in this row, the same password and the same flag for the trash print, in any later process, an item with the category and the title of the row. The other way round, an item that overview or details has shown is in the table of list.","every vault, filter, UID and two processes","Relates two processes of the program.",CL+"GetItemDetails",CL+"GetItemOverview",CL+"GetItems")
p("C115","A published release can be installed","If a newer release is published in order (a sound archive of plain files with the program in it, the checksum of the program), nothing fails, the program is a file in a directory, and the user agrees, then update says what it does, ends well, the program is the one of the release and the cache is gone. (Fails if /tmp is on another file system than the program: the file is moved with os.Rename, which cannot cross file systems.)","every release, environment, configuration and place of the program","Needs a server, a release and two file systems.",CL+"Update",US+"Update",UP+"ReplaceBinary",UP+"ExtractArchive",UP+"DownloadFile",UP+"ValidateChecksum")
p("C116","A password that cannot be read is not tried","If the password cannot be read (standard input is not a terminal, or at its end), the command says so and shows nothing. (Fails: the error of ReadPassword is overwritten, the empty password is tried, and the message is the one for a wrong password; a vault with an empty password is opened. Holds that nothing is shown of any other vault.)","every command, vault and environment","Needs input that is not a terminal.",CL+"GetItemDetails",CL+"GetItemOverview",CL+"GetItems")
p("C117","What is installed is what was checked, whoever else writes to /tmp","Other processes and users may write to /tmp while an update runs; the program installed is still the one whose checksum was compared. (Fails: the cache is the fixed directory /tmp/1pass, and a file put at /tmp/1pass/1pass between the check and the move is installed, whatever it is. Holds if nobody touches this file in between, whatever else they do.)","every release, environment, and change made by others between the check and the move","Schedules of two processes.",US+"Update",UP+"ValidateChecksum",UP+"ReplaceBinary")
p("C118","Later runs use what was configured","After 1pass configure ended well, every later run uses what the answers meant, until configured again: the vault for commands (and the GUI) without the flag, the timeout for every request, and no requests from the commands if notifications were turned off; whatever other commands ran in between.","every configuration before, every answers of one word each, any number of runs of any commands other than update and configure in between, every environment without failing system calls","Spans several processes; the file is the only link.",CL+"Configure",CL+"GetItems",CL+"CheckForUpdate")
p("C119","The timeout limits how long a command waits","A request takes no longer than the configured timeout, whatever the server does. (Fails: httpClient limits the dialling only; a server that accepts the connection and says nothing is waited for for ever, before the password is even asked for. Holds: every command makes at most one request, two on the first run, four for update, none for version; each waits at most the timeout for each connection plus what the servers take from there.)","every behaviour of the servers, command, environment and configuration with a timeout from one second on","Needs servers that stall; waiting for ever cannot be observed.",UP+"httpClient",UP+"CheckForUpdate",UP+"DownloadFile",CL+"CheckForUpdate")
p("C120","What the background check finds gets on the screen","Once the check for updates in the background is over, its outcome is on the screen behind the version of the program. (Fails: verWidget.update writes to the view from its own goroutine and never asks gocui to draw; while the user only waits, the screen stays as it was, for ever. Holds: from the next drawing on, the outcome is shown, and it stays, whatever keys, resizes and changes of the disk follow.)","every state of the GUI reached by any events, outcome of the check and later sequence of events","Needs a terminal and a check that ends while the user does nothing; the screen has to be looked at without touching it.","1pass-app/gui/versionwidget.go:update","1pass-app/gui/versionwidget.go:Layout")
p("C121","The GUI ends when the user quits, and only then","CTRL+Q ends the GUI at once, with success, on every screen, and nothing else the user does ends it. (Fails: making the window less than 8 lines high or 2 columns wide ends the program with status 1, whatever is on the screen; TAB with an empty item list crashes it. Holds: CTRL+Q; and on a terminal of at least 6 columns and 10 lines, while no empty list is shown and no vault or server crashes the program, nothing but CTRL+Q ends it.)","every state of the GUI reached by any events, terminal size, vault and environment","Needs a terminal that is resized and every screen of the program.","1pass-app/gui/gocui.go:Run","1pass-app/gui/gocui.go:quit","1pass-app/gui/helpwidget.go:Layout")
p("C122","All commands together check for updates once a period","Over any number of runs of any commands other than update and configure, within a span of time shorter than the configured period, the server is asked at most once by all of them together, and not at all if the last check was within the span; the first checking command after the period, or without a time stamp, asks exactly once, for the list of releases.","every number and order of runs, every clock within the span (it may go backwards), every vault and input, every server that answers, system calls not failing, configuration directory usable","Takes days, and any combination of commands.",CL+"CheckForUpdate",US+"CheckForUpdate",UP+"ShouldCheck",UP+"CheckTimestamp")
p("C123","The background check may be taken as one step","While the check in the background runs, its effects on the disk may come one by one between keys and drawings: each of these does what it would do had the check not begun, and when the verdict is written, everything is as if the whole check had come after them, in one step. If the check crashes, so does the program, with the same disk.","every live state of the GUI in which the check runs, every sequence of keys and drawings, every placement of the disk states of the check among them, every server, clock and fault, vault named without pattern characters and not above the configuration directory","The interleavings of a goroutine with the main loop cannot be chosen by a test.","1pass-app/gui/versionwidget.go:update","1pass-app/gui/versionwidget.go:Layout",UP+"CheckTimestamp",US+"CheckForUpdate")
p("C124","What is shown of an item depends on its own entry","Take two vaults with the same profile file that agree in the entry that counts for one UID (the last one, or none at all), and may differ in every other entry, in their place, in the number of their band files and in which file the entry stands. If both open with the same password, the item with this UID is the same in both, and overview and details print the same lines for it.","every two disks, vaults, UIDs, contexts with the same libraries, map orders, every two sets of band files, with and without the trash flag","The other entries of two vaults are arbitrary; a test compares a few vaults.",IR+"LoadItems","1pass-core/core/service/itemservice.go:DecodeItems",CL+"GetItemDetails",CL+"GetItemOverview")
p("C125","list shows nothing but overviews","Take two vaults with the same profile file whose entries agree in UID, category, overview and trash flag, and may differ in everything else: details, item keys, times, the distribution over band files. If both open with the same password, list with the same filters prints the same items, with the same categories and titles in the same rows; only the UIDs of items alike in category and title may change places.","every two disks, vaults, filters, contexts with the same libraries, map orders and sorting algorithms, every two sets of band files","The secrets of two vaults are arbitrary; a test compares a few vaults.",CL+"GetItems","1pass-core/core/service/itemservice.go:DecodeItems","1pass-core/core/service/itemservice.go:GetSimpleItems",IR+"FindByCategoryAndTitleAndTrashed")
p("C126","Unpacking needs few open files","Where a process may have the archive and one more file open, an archive that can be unpacked without a limit on open files can be unpacked. (Fails: the files are closed when ExtractArchive returns, not when they are written, so all of them are open at once. If that many may be open the limit does not matter; otherwise the archive is never unpacked.)","every limit, number of files already open, archive, fault and disk","The limit and the archive are arbitrary; tests run with the limits of one machine.",UP+"ExtractArchive")
p("C127","Confirming what configure shows changes nothing","Whoever answers the questions of configure with the values they show keeps the configuration as it was, also values out of range; and giving the same answers in a second run changes nothing more.","every configuration, every way of typing the answers (blanks, letter case, a last line without line feed), every fault that lets configure end well","Quantifies over configurations and answers.",CL+"Configure")
p("C128","Every pane is on the terminal","While the terminal has at least 61 columns and 9 lines every pane lies on it, and panes do not overlap except on top of the menu. (Fails when the size of the terminal changes: only version, help and menu are laid out again, so the password prompt, an error, the items or the details may be left outside. Holds while the size stays the same. Narrower terminals never show the whole password prompt.)","every vault, sequence of keys, drawings on terminals of any size, end of the background check and changes of the disk","Quantifies over all sizes and event sequences; there are no tests of the layout.","1pass-app/gui/gocui.go:Run",OW+"Layout",IW+"Layout",DW+"Layout","1pass-app/gui/passprompt.go:Layout","1pass-app/gui/errdialog.go:Layout")
p("C129","Only the files of the vault format count","What validating and opening a vault gives depends on profile.js and the sixteen band files band_0.js to band_F.js only. (Fails: every file called band_*.js is read, so a copy left in the directory, such as band_0_old.js, takes the place of the real items if its name comes later, even if it is older. Files of other names make no difference.)","every pair of disks that agree on the files named, every password and state of the process","Pairs of disks; test vaults hold no other files.",IR+"LoadItems")
p("C130","An update can be repeated","After any number of updates that failed or were cut off at whatever moment, with whatever servers, the command update installs a release published in order, if nothing fails any more, the user agrees, and the program was a file in a directory on the file system of /tmp to begin with.","every disk reached by any number of attempts, each stopped at any moment of its own, with any faults and any servers","All sequences of interrupted updates; tests never interrupt one.",US+"Update",CL+"Update")
p("C131","Two runs of configure at the same time","What another process changed in the configuration file since this one was started is still there after configure, if the user confirms everything.","every context, every disk at the start and every disk afterwards, every further input","The loss needs two processes that overlap; the tests run one service at a time.",CL+"Configure","1pass-core/core/service/configservice.go:SaveConfig","1pass-parse/repo/file/configrepo.go:Save")
p("C132","The terminal after the GUI","However the GUI ends, the shell has its terminal back: the other screen is left, echo and line editing are on again.","every sequence of keys, resizes, changes of the disk and ends of the background check, every vault, every server","Needs a terminal, a resize or a damaged vault at the right moment.","1pass-app/gui/gocui.go:Run","1pass-app/gui/versionwidget.go:Layout")
p("C133","An open vault does not need the disk","While a vault is open in the GUI and is not locked, nothing that others do to the disk (removing the vault, say) changes what keys and drawings lead to.","every state with an open vault, every sequence of keys but CTRL+L, drawings, changes of the disk and ends of the background check","All interleavings of the user with other programs.","1pass-core/core/facade/vaultfacade.go:GetItem","1pass-core/core/facade/vaultfacade.go:GetItems",IW+"showOverview",OW+"showItems")
p("C134","A vault opened while it is written to","What is opened is the vault as it was at one moment, even if another program (a sync client) replaces its files meanwhile. (Fails: the band files are read one after the other, so a later change can be seen without an earlier one; a band file that goes after the directory was listed ends the program. Holds: every item is whole, from one version of one file; the result is what a disk that stands still would give; and if only one file is replaced meanwhile, it is the vault before or after.)","every vault, password, session and sequence of disks between the reads","All interleavings of reading with another program's writes.","1pass-parse/repo/file/itemrepo.go:LoadItems","1pass-core/core/facade/vaultfacade.go:Unlock","1pass-core/core/service/vaultservice.go:ValidateVault")
p("C135","A changed master password counts","A password which the vault refuses as it is now does not open it in the GUI, and the password it takes now does. (Fails: the profile is read once, before the first prompt, so a GUI that runs while the master password is changed goes on taking the old password after a lock, and refuses the new one. Holds as long as the profile is the one the GUI started with.)","every vault, terminal, sequence of keys, drawings and changes of the disk, and every password","All interleavings of the GUI with a change of the password elsewhere.","1pass-parse/repo/file/profilerepo.go:LoadProfile","1pass-app/gui/1passwidget.go:unlock")
p("C136","A password is called invalid only if it is","Who uses the password under which the master key of the profile was encrypted is not told that the password is invalid. (Fails: a damaged overview key or salt is reported as an invalid password too, by the commands and by the GUI, for every password. It is determined for the right password when this happens: exactly if the overview key is not base64 or does not authenticate.)","every profile, password, vault and session, and all primitives","The password, the profile and the damage are arbitrary.","1pass-core/core/facade/vaultfacade.go:Unlock","1pass-core/core/service/keyservice.go:OverviewKeys","1pass-core/core/service/keyservice.go:DerivedKeys")
p("C137","An interrupted check does not put off the next one","If the program is cut off at any point of a check for updates (or another one looks at that moment), the next check finds the time stamp as it was before, or the complete new one, or asks the server; a time stamp of which only some digits were written is never taken for a recent one. (Clocks of 2001 or later, periods of at most 10000 days.)","every state of the disk during a check, all faults, clocks, periods and time stamps","The program would have to be stopped between any two bytes it writes.","1pass-up/component/github/updater.go:CheckTimestamp","1pass-up/component/github/updater.go:ShouldCheck")
p("C138","What was entered for an item can be read","Every text the owner entered for an item - the notes, the values of a login form, the password of a password item, the text fields of its sections - is in some line that details prints of it. (Fails: the login form of an item with a list of sections, even an empty one, is not looked at, so that its user name and password are not shown; nor is the password of a password item, nor a form field without a name. Holds for notes, sections, and named form fields of items without a list of sections.)","all vaults of conforming writers, all items, documents and passwords","Sample vaults have items of a few shapes; which parts of a document are never looked at is a statement about all documents.","1pass-core/core/service/itemservice.go:DecodeItems","1pass-core/core/service/itemservice.go:ParseItemField","1pass-core/core/service/itemservice.go:ParseItemSection","1pass-term/control/cobra/clicontrol.go:GetItemDetails")
p("C139","No connection before the user was asked","On a run without a configuration the program contacts no server before the user has answered a question, so that whoever wants no update notifications is never connected anywhere. (Fails: the dialog checks for updates with the default settings before its first question. Holds: if question 2 is answered with no, at most this one request is made by the command, and none from the first question on.)","all commands that open a vault and configure, all disks without a configuration, all answers, all servers","Tests of the dialog mock the update service; that the order of request and question is wrong on every first run is a statement about traces.","1pass-term/control/cobra/clicontrol.go:FirstRun","1pass-term/control/cobra/clicontrol.go:Configure","1pass-term/control/cobra/clicontrol.go:CheckForUpdate")
p("C140","CTRL+C leaves a usable terminal","Whenever the user interrupts a command with CTRL+C, the terminal shows what is typed afterwards. (Fails: while the password is asked for the echo is off, and no handler for the signal puts it back. Holds at every other moment of every command, and at the end of every run.)","all commands, disks, inputs and vaults, every moment of the run","No test sends signals; the moments that do harm are a statement about every prefix of every run.","1pass-term/control/cobra/clicontrol.go:GetItemDetails","1pass-term/control/cobra/clicontrol.go:GetItemOverview","1pass-term/control/cobra/clicontrol.go:GetItems")
p("C141","One line, one answer","In the configuration dialog one line answers one question: what is added to a line after its first word has no influence on the other questions. An update is installed only after a line that means yes as a whole. (Both fail: the rest of a line, without the first character of its second word, answers the next question; and only the first word of the line is looked at. Both hold for lines of one word.)","all contexts, disks, configurations and inputs","Answers in tests are single words; which part of a line is left over for which question is a statement about every input.","1pass-term/control/cobra/clicontrol.go:Configure","1pass-term/control/cobra/clicontrol.go:Update")
p("C142","Damaged contents are noticed","Who asks for an item whose contents were damaged is not shown the same as for an item without contents. (Fails: the error of DecodeOpdata is ignored; details that do not authenticate read as an empty document, and list, overview and details succeed. What is shown of an item does authenticate.)","all vaults, passwords and entries; all damaged details of at least 32 bytes","No test asks for an item of a damaged vault; that two vaults cannot be told apart is a statement about pairs of runs.","1pass-core/core/service/itemservice.go:DecodeDetails","1pass-core/core/service/itemservice.go:DecodeItems","1pass-core/core/service/keyservice.go:DecodeOpdata")
p("C143","The configured period holds for the GUI","A start of the GUI within the configured period since the last check makes no request. (Fails: the check of the GUI is forced and asks on every start. It asks once a start at most, whatever is pressed or drawn.)","all vaults, configurations, time stamps, clocks and sequences of keys, drawings and changes of the disk","No test starts the GUI; at most once is about all interleavings.","1pass-term/control/gocui/guicontrol.go:CheckForUpdate","1pass-app/gui/versionwidget.go:Layout","1pass-app/gui/versionwidget.go:update","1pass-core/core/service/updateservice.go:CheckForUpdate")
p("C144","The newest release listed is found","If the server lists a version greater than the one that runs, a check finds the greatest version listed. (Fails: only the first entry of the list is looked at, so a correction of an old release hides the newer ones published before it. Holds if the greatest version comes first.)","all lists of releases with versions of three numbers, all configurations and disks","Tests need the real server, whose list they cannot choose.","1pass-up/component/github/updater.go:CheckForUpdate","1pass-core/core/service/updateservice.go:CheckForUpdate")
p("C145","What the Makefile releases can be installed","A release built by the Makefile under a greater version of three numbers and uploaded with its two files, in either order, is installed by the command update, which says so, if nothing fails, the user agrees and the program is a file on the file system of /tmp.","all programs, versions, release texts and places of the program","The two sides live in different files and languages; a test would need a real release.","Makefile:release","1pass-term/control/cobra/clicontrol.go:Update","1pass-up/component/github/updater.go:CheckForUpdate","1pass-up/component/github/updater.go:ValidateChecksum","1pass-core/core/service/updateservice.go:Update")
p("C146","The release server cannot steer the terminal","Neither the notice before a command nor the offer of the command update contains control characters other than line breaks, whatever the server answers.","all answers of the server, all states","A test server sends ordinary notes and tags; here the tag and the notes are arbitrary, including tags that only pass as newer because the range error of ParseInt is dropped.","1pass-term/control/cobra/clicontrol.go:Update","1pass-term/control/cobra/clicontrol.go:CheckForUpdate","1pass-up/component/github/updater.go:CheckForUpdate")
p("C147","Every connection is encrypted","Whatever the server answers, the program connects to https URLs only; every request goes to the list of releases or to a URL that such a list has for a file of a newer release.","all answers of the server, all commands, all states","Which URLs a server may list is not under the control of a test.","1pass-up/component/github/updater.go:CheckForUpdate","1pass-up/component/github/updater.go:DownloadFile","1pass-core/core/service/updateservice.go:Update")
p("C148","The same run prints the same","A command run twice on the same disk with the same input prints the same and leaves the same disk, and the GUI given the same keys shows the same, whatever order Go gives the keys of a map and whatever sort.Slice does with equal elements.","all commands, all states, all orders of maps, all sorting algorithms","Go randomizes the order of maps; a test sees a few of the orders.","1pass-parse/repo/file/itemrepo.go:LoadItems","1pass-core/core/service/itemservice.go:GetSimpleItems","1pass-term/control/cobra/clicontrol.go:GetItems")
p("C149","The password is asked for once, when there is a vault","Whatever the command, the password is read from the terminal once at most, right after the prompt; only list, overview and details read it, and only if the path leads to a directory with a file default/profile.js.","all commands, all states, all disks","A test asks about a few commands and paths; a second prompt on a rare path (first run, update, error) would go unseen.","1pass-term/control/cobra/clicontrol.go:GetItems","1pass-term/control/cobra/clicontrol.go:GetItemDetails","1pass-term/control/cobra/clicontrol.go:GetItemOverview")

out=os.path.join(os.path.dirname(os.path.abspath(__file__)),"..","properties.jsonl")
with open(out,"w") as f:
    for x in P: f.write(json.dumps(x,ensure_ascii=False)+"\n")
print(len(P))
