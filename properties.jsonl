{"id": "C01", "title": "Opdata round trip", "statement": "If a byte string p is packed as OPVault opdata01 (8-byte tag, 8-byte little-endian length of p, 16-byte IV, AES-CBC of padding++p, HMAC-SHA256 of all that) under an encryption key and a MAC key, then DecodeOpdata with the same two keys returns exactly p.", "quantifier": "every plaintext p shorter than 2^63 bytes, every padding that fills up a block, every IV, every pair of keys, every block cipher and MAC", "why_tests_cant": "Tests decode three fixed blobs; the claim is for every length, padding and key.", "anchors": ["1pass-core/core/service/keyservice.go:DecodeOpdata", "1pass-core/core/service/keyservice.go:DecodeData", "1pass-core/core/service/keyservice.go:CheckHmac"]}
{"id": "C02", "title": "Opdata is authenticated before it is used", "statement": "DecodeOpdata returns plaintext only if the last 32 bytes of the input are the HMAC-SHA256, under the MAC key, of everything before them; otherwise it returns the invalid-HMAC error and no byte of the input is decrypted or changed.", "quantifier": "every input of at least 32 bytes, every pair of keys", "why_tests_cant": "A test can only try some corruptions; no unauthenticated input at all may yield plaintext.", "anchors": ["1pass-core/core/service/keyservice.go:DecodeOpdata", "1pass-core/core/service/keyservice.go:CheckHmac"]}
{"id": "C03", "title": "Outcome of DecodeOpdata is determined for every input", "statement": "For every input DecodeOpdata either crashes (input below 32 bytes; or authenticated but shorter than a 32-byte header, not a whole number of blocks, or with a declared length outside the decrypted text), returns a cipher error (bad key size), returns the HMAC error, or returns exactly the last <declared length> bytes of the decrypted text.", "quantifier": "every byte string and every pair of keys", "why_tests_cant": "The crash conditions form an infinite input class.", "anchors": ["1pass-core/core/service/keyservice.go:DecodeOpdata"]}
{"id": "C04", "title": "Master and overview keys", "statement": "MasterKeys/OverviewKeys return the two 32-byte halves of SHA-512 of the decrypted masterKey/overviewKey blob of the loaded profile, and an error when the blob is not base64 or does not authenticate.", "quantifier": "every profile and every pair of derived keys", "why_tests_cant": "Tests use one profile.", "anchors": ["1pass-core/core/service/keyservice.go:MasterKeys", "1pass-core/core/service/keyservice.go:OverviewKeys", "1pass-core/core/service/keyservice.go:DecodeKeys"]}
{"id": "C05", "title": "Derived keys", "statement": "DerivedKeys(password) is the two 32-byte halves of a 64-byte PBKDF2 of exactly the password bytes with the profile's salt and iteration count; the encryption key is the first half and the MAC key the second.", "quantifier": "every password and every profile", "why_tests_cant": "One password is tested.", "anchors": ["1pass-core/core/service/keyservice.go:DerivedKeys", "1pass-parse/util/pbkdf2/cryptoutils.go:DeriveKey"]}
{"id": "C06", "title": "Item keys round trip", "statement": "For an item whose key blob is IV ++ AES-CBC(master key, itemKey ++ itemMac) ++ MAC, ItemKeys returns itemKey and itemMac.", "quantifier": "every IV, every 32-byte item key and MAC key, every master key, every trailing MAC", "why_tests_cant": "Tests decode one blob.", "anchors": ["1pass-core/core/service/keyservice.go:ItemKeys"]}
{"id": "C07", "title": "Item key blobs are authenticated", "statement": "An item key blob whose trailing MAC does not verify is rejected. (Fails in the code: the MAC of the blob is never looked at.)", "quantifier": "every item key blob", "why_tests_cant": "Only a for-all statement can show that no MAC value matters.", "anchors": ["1pass-core/core/service/keyservice.go:ItemKeys"]}
{"id": "C08", "title": "In-place decryption touches only the ciphertext", "statement": "A successful DecodeOpdata overwrites exactly the ciphertext region of the caller's buffer with the decrypted text: the header, the IV and the MAC stay, and so does the buffer after an error.", "quantifier": "every input buffer", "why_tests_cant": "Aliasing effects are not observed by any test.", "anchors": ["1pass-core/core/service/keyservice.go:DecodeOpdata", "1pass-core/core/service/keyservice.go:DecodeData"]}
{"id": "C09", "title": "Unlock succeeds exactly for a password that authenticates", "statement": "With a loaded profile of well-formed blobs, Unlock returns no error iff the keys derived from the password authenticate both the master-key blob and the overview-key blob; every other outcome is the invalid-password error.", "quantifier": "every password, profile, vault contents and session state", "why_tests_cant": "Testing tries one good and one bad password.", "anchors": ["1pass-core/core/facade/vaultfacade.go:Unlock"]}
{"id": "C10", "title": "A failed Unlock changes nothing", "statement": "If Unlock returns an error, the session is exactly what it was: lock state, held keys, decoded items, cached profile.", "quantifier": "every state reachable by any history, every password", "why_tests_cant": "Quantifies over histories.", "anchors": ["1pass-core/core/facade/vaultfacade.go:Unlock"]}
{"id": "C11", "title": "IsUnlocked reflects the last lock or unlock", "statement": "In any history IsUnlocked is true iff there was a successful Unlock and no Lock after the last one.", "quantifier": "every finite history of facade calls and file changes", "why_tests_cant": "Quantifies over histories.", "anchors": ["1pass-core/core/facade/vaultfacade.go:IsUnlocked", "1pass-core/core/facade/vaultfacade.go:Lock", "1pass-core/core/facade/vaultfacade.go:Unlock"]}
{"id": "C12", "title": "Lock erases", "statement": "After Lock, and whatever is called afterwards up to the next successful Unlock, every count is 0, every list empty and every lookup fails.", "quantifier": "every history before and every unlock-free history after", "why_tests_cant": "Quantifies over histories.", "anchors": ["1pass-core/core/facade/vaultfacade.go:Lock", "1pass-core/core/service/itemservice.go:ClearMemory", "1pass-parse/repo/file/itemrepo.go:RemoveItems"]}
{"id": "C13", "title": "Locked sessions hold no items", "statement": "In every reachable state in which IsUnlocked is false, no decoded item is held and none can be obtained.", "quantifier": "every reachable state", "why_tests_cant": "Invariant over all histories.", "anchors": ["1pass-core/core/facade/vaultfacade.go:IsUnlocked", "1pass-core/core/facade/vaultfacade.go:GetItem", "1pass-core/core/facade/vaultfacade.go:GetItems", "1pass-core/core/facade/vaultfacade.go:CountItems"]}
{"id": "C14", "title": "Unlock shows the vault's current contents", "statement": "After a successful Unlock from a locked session, the items held are exactly the decoded contents of the vault's band files at that moment. (A second Unlock without Lock keeps the old items: that part of the wish fails.)", "quantifier": "every reachable locked state, every vault contents", "why_tests_cant": "Quantifies over states and contents.", "anchors": ["1pass-core/core/facade/vaultfacade.go:Unlock", "1pass-core/core/service/itemservice.go:DecodeItems", "1pass-parse/repo/file/itemrepo.go:StoreItems"]}
{"id": "C15", "title": "Reading does not change anything", "statement": "CountItems, GetItem, GetItems and IsUnlocked leave the session as it is, so repeating or interleaving them in any order gives the same answers.", "quantifier": "every state and every sequence of reads", "why_tests_cant": "Quantifies over sequences.", "anchors": ["1pass-core/core/facade/vaultfacade.go:CountItems", "1pass-core/core/facade/vaultfacade.go:GetItem", "1pass-core/core/facade/vaultfacade.go:GetItems"]}
{"id": "C16", "title": "The password is checked against the vault that was named", "statement": "Unlock(vault, password) checks the password against that vault's profile. Holds in every history that names a single vault; fails when a second vault is validated in the same process because the first profile is cached for good.", "quantifier": "every history of Validate/Unlock/Lock over any number of vaults", "why_tests_cant": "Quantifies over histories.", "anchors": ["1pass-parse/repo/file/profilerepo.go:LoadProfile", "1pass-core/core/service/vaultservice.go:ValidateVault", "1pass-core/core/facade/vaultfacade.go:Unlock"]}
{"id": "C17", "title": "Vault validation", "statement": "Validate accepts a path iff it is a directory that holds the regular file default/profile.js; otherwise the error names the first check that failed.", "quantifier": "every file system and path", "why_tests_cant": "Tests use three directories.", "anchors": ["1pass-core/core/service/vaultservice.go:ValidateVault"]}
{"id": "C18", "title": "Items loaded are those of all band files", "statement": "LoadItems yields one raw item per distinct UID occurring in any band file of the vault, with the last entry (in band-file order) winning, and carries over all its attributes; a missing trashed flag means not trashed; no band file means no items.", "quantifier": "every number of band files, every non-empty contents, every JSON layout (white space, escapes) of it", "why_tests_cant": "Infinite family of vaults.", "anchors": ["1pass-parse/repo/file/itemrepo.go:LoadItems"]}
{"id": "C19", "title": "No item is lost or invented when decoding", "statement": "Decoding keeps exactly the raw items whose category code is one of the 18 known ones, one decoded item each.", "quantifier": "every list of raw items and all keys", "why_tests_cant": "Any number of items.", "anchors": ["1pass-core/core/service/itemservice.go:DecodeItems", "1pass-core/core/domain/itemcategory.go:FromCode"]}
{"id": "C20", "title": "Item attributes are carried over", "statement": "A decoded item has the UID, trashed flag, created and updated times and category of its raw item.", "quantifier": "every raw item and all keys", "why_tests_cant": "Tests look at one title.", "anchors": ["1pass-core/core/service/itemservice.go:DecodeItems", "1pass-core/core/domain/entity.go:NewItem"]}
{"id": "C21", "title": "What the vault writer encrypted is what the user sees", "statement": "For an item written by a conforming OPVault writer (overview and details JSON packed as opdata under the right keys), the decoded title, URL, notes, sections and fields are those of the JSON documents.", "quantifier": "every overview and details document, every key, IV and padding", "why_tests_cant": "End-to-end over all documents.", "anchors": ["1pass-core/core/service/itemservice.go:DecodeItems", "1pass-core/core/service/itemservice.go:DecodeOverview", "1pass-core/core/service/itemservice.go:DecodeDetails"]}
{"id": "C22", "title": "Tampered blobs contribute no content", "statement": "If an item's overview blob does not authenticate, its title and URL are empty; if its details blob does not authenticate under the item keys, its notes and sections are empty.", "quantifier": "every raw item and all keys", "why_tests_cant": "No tampering at all may surface content.", "anchors": ["1pass-core/core/service/itemservice.go:DecodeOverview", "1pass-core/core/service/itemservice.go:DecodeDetails", "1pass-core/core/service/itemservice.go:DecodeItems"]}
{"id": "C23", "title": "Item attributes are authenticated", "statement": "Changing an item's category, trashed flag or times, or swapping blobs between items, is detected. (Fails in the code: the item's hmac is never read.)", "quantifier": "every raw item and every altered copy", "why_tests_cant": "Needs a for-all over hmac values.", "anchors": ["1pass-core/core/service/itemservice.go:DecodeItems", "1pass-core/core/domain/entity.go:RawItem"]}
{"id": "C24", "title": "Results do not depend on map iteration order", "statement": "Counts, single-item lookups and the set of listed items are the same whatever order Go's map iteration produces; lists differ at most in the order of items with equal category and title.", "quantifier": "every permutation of the loaded items", "why_tests_cant": "Go randomises the order; a test sees one.", "anchors": ["1pass-parse/repo/file/itemrepo.go:LoadItems", "1pass-core/core/service/itemservice.go:GetSimpleItems"]}
{"id": "C25", "title": "Login fields", "statement": "A login field is shown iff it has a non-empty value and a non-empty name; its name is title-cased and its value is verbatim.", "quantifier": "every field document whose value and name are strings or missing", "why_tests_cant": "All documents.", "anchors": ["1pass-core/core/service/itemservice.go:ParseItemField"]}
{"id": "C26", "title": "Section fields", "statement": "A section field is shown iff it has a value; unknown kinds show the string verbatim; date, monthYear and address kinds (any letter case) show the formatted value.", "quantifier": "every conforming section field", "why_tests_cant": "All documents.", "anchors": ["1pass-core/core/service/itemservice.go:ParseItemField", "1pass-core/core/domain/datatype.go:ParseValue", "1pass-core/core/domain/datatype.go:FromName"]}
{"id": "C27", "title": "Sections keep order, empty ones are dropped", "statement": "Sections and fields appear in document order; a section is dropped iff it has neither title nor shown field; an item without sections shows its login fields as one untitled section.", "quantifier": "every details document", "why_tests_cant": "All documents.", "anchors": ["1pass-core/core/service/itemservice.go:ParseItemSection", "1pass-core/core/service/itemservice.go:DecodeItems"]}
{"id": "C28", "title": "Opening a vault never crashes on odd item documents", "statement": "Unlock does not crash whatever the decrypted item documents contain. Holds for documents with the expected value types; fails otherwise (a numeric login value crashes the program).", "quantifier": "every item document", "why_tests_cant": "All documents.", "anchors": ["1pass-core/core/service/itemservice.go:DecodeItems", "1pass-core/core/service/itemservice.go:ParseItemField", "1pass-core/core/service/itemservice.go:ParseItemSection"]}
{"id": "C29", "title": "Addresses", "statement": "An address is shown as one line per entry, sorted by key, with surrounding white space trimmed and line breaks turned into spaces, whatever the map order.", "quantifier": "every address document with string entries", "why_tests_cant": "All maps and all orders.", "anchors": ["1pass-core/core/domain/datatype.go:parseAddress"]}
{"id": "C30", "title": "Dates", "statement": "A date field shows the calendar date of its Unix time. Holds for decimal strings; fails for JSON numbers of seven or more digits, which show as 1970-01-01.", "quantifier": "every Unix time in the int64 range that the calendar covers, and every zone offset", "why_tests_cant": "All timestamps.", "anchors": ["1pass-core/core/domain/datatype.go:parseDate", "1pass-core/core/service/itemservice.go:ParseItemField"]}
{"id": "C31", "title": "Month and year", "statement": "A monthYear value of more than four bytes shows as its first four bytes, a dash and the rest; shorter ones are verbatim; a JSON number YYYYMM shows as YYYY-MM; values of other kinds count as what fmt.Sprint makes of them.", "quantifier": "every value", "why_tests_cant": "All values.", "anchors": ["1pass-core/core/domain/datatype.go:parseMonthYear"]}
{"id": "C32", "title": "Listing filter", "statement": "GetItems returns exactly the held items with the requested trashed flag, the requested category if one is given, and, if a title is given, a title containing it ignoring case.", "quantifier": "every set of held items and every filter", "why_tests_cant": "All filters.", "anchors": ["1pass-parse/repo/file/itemrepo.go:FindByCategoryAndTitleAndTrashed", "1pass-core/core/service/itemservice.go:GetSimpleItems"]}
{"id": "C33", "title": "Listing order", "statement": "The list is sorted by category code and then by title (byte order) and contains each match exactly once.", "quantifier": "every set of held items, every filter, every sort.Slice behaviour within its contract", "why_tests_cant": "All inputs.", "anchors": ["1pass-core/core/service/itemservice.go:GetSimpleItems"]}
{"id": "C34", "title": "A listed item can be opened", "statement": "For every entry of a list, GetItem with its UID and trashed flag returns an item with the same category, title, UID and trashed flag.", "quantifier": "every reachable state and every filter", "why_tests_cant": "All states.", "anchors": ["1pass-core/core/service/itemservice.go:GetSimpleItems", "1pass-parse/repo/file/itemrepo.go:FindFirstByUidAndTrashed", "1pass-term/control/gocui/guicontrol.go:GetItem"]}
{"id": "C35", "title": "Counts agree with lists", "statement": "CountItems(category, trashed) is the length of GetItems(category, no title, trashed).", "quantifier": "every state, category and flag", "why_tests_cant": "All states.", "anchors": ["1pass-parse/repo/file/itemrepo.go:CountByCategoryAndTrashed", "1pass-parse/repo/file/itemrepo.go:FindByCategoryAndTitleAndTrashed"]}
{"id": "C36", "title": "Counts add up", "statement": "The overall count is the sum of the counts of the categories, and active plus trashed is the number of items held.", "quantifier": "every reachable state", "why_tests_cant": "All states.", "anchors": ["1pass-parse/repo/file/itemrepo.go:CountByCategoryAndTrashed"]}
{"id": "C37", "title": "Search ignores letter case", "statement": "Searching for a title gives the same result whatever the letter case of the query, and an empty title means no title filter.", "quantifier": "every ASCII query and every set of items", "why_tests_cant": "All queries.", "anchors": ["1pass-parse/repo/file/itemrepo.go:FindByCategoryAndTitleAndTrashed"]}
{"id": "C38", "title": "Categories are identified uniquely", "statement": "Category codes and names are distinct; looking up a category's code or its name in any letter case gives that category; all other codes and names are errors; and this does not change when the shared category list is re-sorted in place.", "quantifier": "every code, every name, every reordering of the shared list", "why_tests_cant": "All strings and orders.", "anchors": ["1pass-core/core/domain/itemcategory.go:FromCode", "1pass-core/core/domain/itemcategory.go:FromName", "1pass-term/control/cobra/clicontrol.go:GetCategories", "1pass-app/gui/1passwidget.go:update"]}
{"id": "C39", "title": "Data type names", "statement": "Data type lookup accepts exactly address, date and monthYear in any letter case.", "quantifier": "every name", "why_tests_cant": "All strings.", "anchors": ["1pass-core/core/domain/datatype.go:FromName"]}
{"id": "C40", "title": "Yes/no answers", "statement": "y/Y and n/N are the only accepted answers and mean true and false; FromValue inverts GetValue.", "quantifier": "every answer", "why_tests_cant": "All strings.", "anchors": ["1pass-core/core/domain/logicval.go:FromName", "1pass-core/core/domain/logicval.go:FromValue"]}
{"id": "C41", "title": "Saved configuration is read back", "statement": "After SaveConfig, GetConfig returns the saved values, in the same process and after any number of restarts.", "quantifier": "every configuration, every prior configuration file, every number of restarts", "why_tests_cant": "All histories.", "anchors": ["1pass-parse/repo/file/configrepo.go:Save", "1pass-parse/repo/file/configrepo.go:loadConfigFile", "1pass-core/core/service/configservice.go:GetConfig"]}
{"id": "C42", "title": "Foreign configuration keys survive", "statement": "Saving keeps configuration entries the application does not know.", "quantifier": "every configuration file", "why_tests_cant": "All files.", "anchors": ["1pass-parse/repo/file/configrepo.go:Save"]}
{"id": "C43", "title": "Configure stores the answers and keeps values in range", "statement": "After Configure the timeout is in 1..30 and the period in 0..365 if they were before; an invalid or empty answer to the timeout, period or notification question leaves its setting as it was, a valid one is stored exactly; the vault path changes only after the answer yes (C80, C81 say how).", "quantifier": "every previous configuration and every four or five answers", "why_tests_cant": "All answers.", "anchors": ["1pass-term/control/cobra/clicontrol.go:Configure"]}
{"id": "C44", "title": "The first-run dialog appears at most once", "statement": "The configuration dialog on start appears iff no configuration is available, and never again after it completed.", "quantifier": "every history of runs of all commands but update, with any typed input, server and passwords, system calls not failing", "why_tests_cant": "All histories.", "anchors": ["1pass-term/control/cobra/clicontrol.go:FirstRun", "1pass-parse/repo/file/configrepo.go:IsAvailable"]}
{"id": "C45", "title": "Saving the configuration is crash-safe", "statement": "A crash at any point of SaveConfig leaves either the old or the new configuration. (Fails: the file is truncated before it is written, and an empty file makes every later save crash.)", "quantifier": "every crash point", "why_tests_cant": "Crash points are not testable here.", "anchors": ["1pass-parse/repo/file/configrepo.go:Save", "1pass-parse/repo/file/configrepo.go:loadConfigFile"]}
{"id": "C46", "title": "Configuration defaults", "statement": "Missing entries read as: no vault, timeout 1, notifications on, period 1; present entries of the right type are returned as they are.", "quantifier": "every configuration file", "why_tests_cant": "All files.", "anchors": ["1pass-parse/repo/file/configrepo.go:GetTimeout", "1pass-parse/repo/file/configrepo.go:GetDefaultVault", "1pass-parse/repo/file/configrepo.go:GetUpdateNotification", "1pass-parse/repo/file/configrepo.go:GetUpdatePeriod"]}
{"id": "C47", "title": "No update without a newer release", "statement": "If the update server cannot be reached, gives no release or gives one that is not newer, Update returns an error and touches no file. (The error part fails: an empty release list crashes the program. Nothing is touched in any case.)", "quantifier": "every server behaviour and file system", "why_tests_cant": "All server behaviours.", "anchors": ["1pass-core/core/service/updateservice.go:Update"]}
{"id": "C48", "title": "Only a verified binary is installed", "statement": "If Update replaced the program, the new program is byte for byte a file whose MD5 equals the first word of the downloaded checksum file, taken from the downloaded archive of a release that is newer. (Fails if the archive contains its own checksum.md5 or writes to the program by way of a .. entry; holds otherwise.)", "quantifier": "every server behaviour and file system", "why_tests_cant": "All server behaviours.", "anchors": ["1pass-core/core/service/updateservice.go:Update", "1pass-up/component/github/updater.go:ValidateChecksum", "1pass-up/component/github/updater.go:ReplaceBinary"]}
{"id": "C49", "title": "The installed program survives a crash during update", "statement": "At every crash point of Update the installed program is either the old one or the complete verified new one. (Fails for archives with a .. entry leading to the program; holds otherwise.)", "quantifier": "every crash point, server behaviour and failing step, for archives whose entries stay inside the cache", "why_tests_cant": "Crash points.", "anchors": ["1pass-core/core/service/updateservice.go:Update", "1pass-up/component/github/updater.go:ReplaceBinary", "1pass-up/component/github/updater.go:ExtractArchive"]}
{"id": "C50", "title": "Update stages are reported in order", "statement": "The stages reported are 1, 2, ..., k with k=7 iff the binary was replaced, and replacement never precedes stage 6.", "quantifier": "every server behaviour and failing step", "why_tests_cant": "All failures.", "anchors": ["1pass-core/core/service/updateservice.go:Update"]}
{"id": "C51", "title": "Update starts from and leaves a clean cache", "statement": "Update works on an emptied cache directory whatever an earlier run left there, and after success the cache is gone.", "quantifier": "every file system and every server behaviour", "why_tests_cant": "All states.", "anchors": ["1pass-core/core/service/updateservice.go:Update"]}
{"id": "C52", "title": "Newer means a greater version", "statement": "A release is offered iff its version is greater than the running one, component by component. (Fails for multi-digit or missing components: dots are dropped before comparing. Holds for three one-digit components.)", "quantifier": "every version string", "why_tests_cant": "All strings.", "anchors": ["1pass-up/component/github/updater.go:CheckForUpdate"]}
{"id": "C53", "title": "Checksum check", "statement": "ValidateChecksum succeeds iff the first white-space separated word of the checksum file is the lower-case hex MD5 of the binary; an empty checksum file crashes.", "quantifier": "every pair of files", "why_tests_cant": "All files.", "anchors": ["1pass-up/component/github/updater.go:ValidateChecksum"]}
{"id": "C54", "title": "Extraction stays inside the cache", "statement": "ExtractArchive writes only below the destination directory. (Fails for entry names with '..'; holds for names without it.)", "quantifier": "every archive", "why_tests_cant": "All archives.", "anchors": ["1pass-up/component/github/updater.go:ExtractArchive"]}
{"id": "C55", "title": "The updated program is executable", "statement": "After a successful Update the installed program can be executed. (Fails: the extracted file is created without execute permission.)", "quantifier": "every archive", "why_tests_cant": "All archives.", "anchors": ["1pass-up/component/github/updater.go:ExtractArchive", "1pass-up/component/github/updater.go:ReplaceBinary"]}
{"id": "C56", "title": "Update checks are throttled", "statement": "After a successful update check, unforced checks within the configured number of days make no network request, and the first one after that does; period 0 checks every time; a missing or unreadable time stamp means check.", "quantifier": "every history of checks at any times, every period", "why_tests_cant": "All histories and times.", "anchors": ["1pass-up/component/github/updater.go:ShouldCheck", "1pass-core/core/service/updateservice.go:CheckForUpdate"]}
{"id": "C57", "title": "The time stamp records successful checks only", "statement": "The last-check time stamp is written iff the server answered, with the time of the check, whether or not there is a newer release; a forced check always asks the server.", "quantifier": "every server behaviour", "why_tests_cant": "All behaviours.", "anchors": ["1pass-core/core/service/updateservice.go:CheckForUpdate", "1pass-up/component/github/updater.go:CheckTimestamp"]}
{"id": "C58", "title": "Release data is read as published", "statement": "CheckForUpdate takes version and changelog from the first release and the archive and checksum URLs from the last assets named *.tar.gz* and *.md5*. An empty release list crashes the program.", "quantifier": "every server answer", "why_tests_cant": "All answers.", "anchors": ["1pass-up/component/github/updater.go:CheckForUpdate"]}
{"id": "C59", "title": "No update without consent", "statement": "1pass update replaces nothing unless the user answered y or Y.", "quantifier": "every answer and server behaviour", "why_tests_cant": "All answers.", "anchors": ["1pass-term/control/cobra/clicontrol.go:Update"]}
{"id": "C60", "title": "Notifications can be turned off", "statement": "With update notifications off, no command except update contacts the server. (Fails for the GUI, which asks on every start.)", "quantifier": "every command and state", "why_tests_cant": "All commands.", "anchors": ["1pass-term/control/cobra/clicontrol.go:CheckForUpdate", "1pass-app/gui/versionwidget.go:update"]}
{"id": "C61", "title": "Overview hides secrets", "statement": "The overview command prints the same text for two items that differ only in field values and in the (non-empty) notes.", "quantifier": "every pair of such items", "why_tests_cant": "Non-interference over pairs.", "anchors": ["1pass-term/control/cobra/clicontrol.go:GetItemOverview"]}
{"id": "C62", "title": "Details shows everything", "statement": "The details command prints title, URL, every section title, every field as name: value in order, and the notes.", "quantifier": "every item", "why_tests_cant": "All items.", "anchors": ["1pass-term/control/cobra/clicontrol.go:GetItemDetails"]}
{"id": "C63", "title": "No item output without a valid vault and password", "statement": "If the vault is invalid or the password wrong, list, overview and details print only the error (after the prompt) and exit with status 1.", "quantifier": "every vault, password, item and flag", "why_tests_cant": "All inputs.", "anchors": ["1pass-term/control/cobra/clicontrol.go:GetItems", "1pass-term/control/cobra/clicontrol.go:GetItemOverview", "1pass-term/control/cobra/clicontrol.go:GetItemDetails"]}
{"id": "C64", "title": "The vault flag wins", "statement": "Commands use the path given by -v if it is non-empty and the configured default otherwise.", "quantifier": "every path and configuration", "why_tests_cant": "All paths.", "anchors": ["1pass-term/control/cobra/clicontrol.go:GetItems", "1pass-term/control/gocui/guicontrol.go:ValidateVault"]}
{"id": "C65", "title": "List output", "statement": "list prints exactly the matching items, numbered from 1 in list order with UID, category name and title, or a no-result message.", "quantifier": "every state and filter", "why_tests_cant": "All states.", "anchors": ["1pass-term/control/cobra/clicontrol.go:GetItems"]}
{"id": "C66", "title": "Unknown category filter is refused", "statement": "list -c with a name (after trimming) that is no category prints an error, exits with 1 and lists nothing.", "quantifier": "every name", "why_tests_cant": "All names.", "anchors": ["1pass-term/control/cobra/clicontrol.go:GetItems"]}
{"id": "C67", "title": "Secrets are on screen only while revealed", "statement": "In the GUI, in every state reached by any key sequence, field values and notes are displayed only while the details pane has the focus.", "quantifier": "every key sequence, vault and terminal size", "why_tests_cant": "All key sequences.", "anchors": ["1pass-app/gui/detailswidget.go:update", "1pass-app/gui/itemswidget.go:showOverview", "1pass-app/gui/itemswidget.go:toggleDetails"]}
{"id": "C68", "title": "No key sequence crashes the GUI", "statement": "No sequence of keys makes the GUI crash. (Fails: TAB in an empty item list indexes out of range; holds on all sequences that never open an empty list.)", "quantifier": "every key sequence and vault", "why_tests_cant": "All key sequences.", "anchors": ["1pass-app/gui/itemswidget.go:toggleDetails", "1pass-app/gui/itemswidget.go:showOverview", "1pass-app/gui/1passwidget.go:showItems"]}
{"id": "C69", "title": "The highlighted row is the selected entry", "statement": "The row under the cursor is the entry that will be opened. (Fails after locking a scrolled menu: the origin is not reset.)", "quantifier": "every key sequence and window height", "why_tests_cant": "All key sequences.", "anchors": ["1pass-app/gui/1passwidget.go:cursorDown", "1pass-app/gui/1passwidget.go:cursorUp", "1pass-app/gui/1passwidget.go:resetCursor", "1pass-app/gui/itemswidget.go:cursorDown", "1pass-app/gui/itemswidget.go:cursorUp"]}
{"id": "C70", "title": "Opening a menu entry lists its items", "statement": "Opening All, a category or Trashed lists exactly the items counted in that entry. (Fails when nothing is trashed: the last category opens the empty trash.)", "quantifier": "every vault and entry", "why_tests_cant": "All vaults.", "anchors": ["1pass-app/gui/1passwidget.go:showItems", "1pass-app/gui/1passwidget.go:update"]}
{"id": "C71", "title": "Lock works from every screen", "statement": "CTRL+L in the menu, item list or details pane locks the vault, removes item list and details from the screen, clears the menu and asks for the password.", "quantifier": "every reachable GUI state", "why_tests_cant": "All states.", "anchors": ["1pass-app/gui/1passwidget.go:lock", "1pass-app/gui/itemswidget.go:lock", "1pass-app/gui/detailswidget.go:Keybindings"]}
{"id": "C72", "title": "Wrong password can be retried", "statement": "After a wrong password the GUI shows the error and then asks again; it never shows items and never exits; a correct password then opens the menu.", "quantifier": "every sequence of attempts", "why_tests_cant": "All sequences.", "anchors": ["1pass-app/gui/1passwidget.go:unlock", "1pass-app/gui/1passwidget.go:closeError"]}
{"id": "C73", "title": "Scroll position is reset when another item is shown", "statement": "Showing or covering an item resets the details pane to its top left corner. (Fails when scrolled in both directions: only the vertical position is reset.)", "quantifier": "every scroll position", "why_tests_cant": "All positions.", "anchors": ["1pass-app/gui/detailswidget.go:resetOrigin"]}
{"id": "C74", "title": "Menu entries", "statement": "The menu is All, then the non-empty categories sorted by code, each once, then Trashed if there are trashed items, each with its count; without active items only Trashed; and it is rebuilt identically after every lock and unlock.", "quantifier": "every vault and key sequence", "why_tests_cant": "All vaults.", "anchors": ["1pass-app/gui/1passwidget.go:update"]}
{"id": "C75", "title": "The background update check does not disturb the session", "statement": "When the asynchronous update check returns, it changes only the version line (and its time stamp on the disk): the rest of the GUI behaves as if it had finished at any other time. The vault path is free of glob characters and the time stamp is kept outside the vault.", "quantifier": "every interleaving with key events and drawings", "why_tests_cant": "Schedules.", "anchors": ["1pass-app/gui/versionwidget.go:update"]}
{"id": "C76", "title": "Base64", "statement": "Decoding the standard base64 encoding of any bytes gives them back, also with line breaks in it; text that has not the shape of base64 is reported as an error.", "quantifier": "every byte string and every text", "why_tests_cant": "All strings.", "anchors": ["1pass-core/core/service/keyservice.go:MasterKeys", "1pass-core/core/service/keyservice.go:ItemKeys", "1pass-core/core/service/itemservice.go:DecodeOverview"]}
{"id": "C77", "title": "JSON documents are read as written", "statement": "Parsing any JSON rendering (any white space, any escaping) of a document gives that document, a text that is no such rendering is refused, and band bodies joined by commas parse to the union of their members.", "quantifier": "every document, every rendering of it and every text that is none", "why_tests_cant": "All documents.", "anchors": ["1pass-parse/repo/file/itemrepo.go:LoadItems", "1pass-parse/repo/file/profilerepo.go:LoadProfile", "1pass-core/core/service/itemservice.go:DecodeDetails"]}
{"id": "C78", "title": "Time stamps are read back", "statement": "The last-check time stamp written at any time parses back to that time.", "quantifier": "every int64", "why_tests_cant": "All integers.", "anchors": ["1pass-up/component/github/updater.go:CheckTimestamp", "1pass-up/component/github/updater.go:ShouldCheck"]}
{"id": "C79", "title": "The vault path is taken literally", "statement": "The files read when items are loaded are exactly the band_*.js files in the default directory of the vault that was named, whatever characters its path contains. (Fails: the path is a pattern. The files read are the band files in the default directory of every directory whose path fits it, component by component, each once; the vault named is among them if the path has no bracket and no backslash, and never if it has one of these and no star.)", "quantifier": "every vault path and every file tree", "why_tests_cant": "Test paths contain no glob metacharacters.", "anchors": ["1pass-parse/repo/file/itemrepo.go:LoadItems"]}
{"id": "C80", "title": "A vault path with spaces can be configured", "statement": "The path typed as answer to the vault question becomes the configured vault path. (Fails for a path containing a blank: only its first word is stored, and the rest of the line is left for the next question.)", "quantifier": "every path", "why_tests_cant": "All paths.", "anchors": ["1pass-term/control/cobra/clicontrol.go:Configure"]}
{"id": "C81", "title": "An empty answer keeps the vault path", "statement": "Pressing enter at the vault path question keeps the configured path, like at the other questions. (Fails: the path is cleared. It is kept if the vault is not to be changed.)", "quantifier": "every configuration", "why_tests_cant": "All configurations.", "anchors": ["1pass-term/control/cobra/clicontrol.go:Configure"]}
{"id": "C82", "title": "The version agreed to is the version installed", "statement": "After a successful update the program is the one of the version that was offered and agreed to. (Fails if the server describes another release when it is asked again after the answer; holds if its answers agree.)", "quantifier": "every server behaviour", "why_tests_cant": "Requires a server whose answers change.", "anchors": ["1pass-term/control/cobra/clicontrol.go:Update", "1pass-core/core/service/updateservice.go:Update"]}
{"id": "C83", "title": "Commands leave everything else alone", "statement": "A run of any command but update at no time touches anything but the configuration file, the time stamp and directories above them, and asks the network for nothing but the list of releases. No vault is ever changed.", "quantifier": "every command, input, failure and crash point", "why_tests_cant": "All runs and failures.", "anchors": ["1pass-app/main.go:main", "1pass-term/control/cobra/clicontrol.go:Configure", "1pass-term/control/cobra/clicontrol.go:GetItems", "1pass-term/control/cobra/clicontrol.go:GetItemDetails", "1pass-term/control/cobra/clicontrol.go:GetItemOverview"]}
{"id": "C84", "title": "Category list", "statement": "categories prints every category once, by code, numbered from 1.", "quantifier": "every order of the shared registry", "why_tests_cant": "All orders.", "anchors": ["1pass-term/control/cobra/clicontrol.go:GetCategories"]}
{"id": "C85", "title": "The details pane shows the selected item", "statement": "Whenever the details pane is on the screen it shows the item selected in the list, and only it: covered while the list has the focus, revealed while the pane has it; nothing if the list is empty.", "quantifier": "every key sequence, vault and terminal size", "why_tests_cant": "All key sequences.", "anchors": ["1pass-app/gui/itemswidget.go:showOverview", "1pass-app/gui/itemswidget.go:toggleDetails", "1pass-app/gui/itemswidget.go:cursorDown", "1pass-app/gui/itemswidget.go:cursorUp", "1pass-app/gui/detailswidget.go:update"]}
{"id": "C86", "title": "A vault is opened from its own files", "statement": "What validating and opening a vault (of a path without glob characters) gives depends only on the files in its directory: whatever else is on the disk makes no difference.", "quantifier": "every pair of disks, password and process state", "why_tests_cant": "Pairs of disks.", "anchors": ["1pass-parse/repo/file/itemrepo.go:LoadItems", "1pass-parse/repo/file/profilerepo.go:LoadProfile", "1pass-core/core/service/vaultservice.go:ValidateVault"]}
{"id": "C87", "title": "Nothing secret leaves through disk or network", "statement": "Two runs on machines that differ only in the files of the vault, the password, the command and its arguments, and (in the GUI) the keys pressed write the same outside the vault at every moment and ask the network the same; the only difference the GUI can make is whether it got as far as its update check.", "quantifier": "every pair of vaults, passwords, commands, key sequences and failures", "why_tests_cant": "Non-interference over pairs of runs.", "anchors": ["1pass-app/main.go:main", "1pass-term/control/cobra/clicontrol.go:GetItems", "1pass-term/control/cobra/clicontrol.go:GetItemDetails", "1pass-term/control/cobra/clicontrol.go:GetItemOverview", "1pass-app/gui/1passwidget.go:unlock"]}
{"id": "C88", "title": "The owner of a vault sees what is in it", "statement": "If a conforming writer made the vault and its password is typed, list prints exactly the entries asked for and details prints exactly what was entered, for every entry of a known category: whatever the distribution over band files, white space, escapes, superseded entries, initialisation vectors and padding.", "quantifier": "every vault, password, set of primitives and map order; a process that has opened no other vault", "why_tests_cant": "The whole path from disk to screen: profile, key derivation, bands, item keys, blobs, documents, selection, output.", "anchors": ["1pass-term/control/cobra/clicontrol.go:GetItems", "1pass-term/control/cobra/clicontrol.go:GetItemDetails", "1pass-core/core/facade/vaultfacade.go:Unlock"]}
{"id": "C89", "title": "The command line means what it says", "statement": "A command line runs a command exactly if it consists of the command, its options in one of their written forms (long or short, joined or separate, in any order, before or after words, shorthands together) and the words the command takes; the last value given to an option counts, and the command gets it unchanged. Without a command the GUI starts.", "quantifier": "every list of arguments", "why_tests_cant": "All spellings and orders.", "anchors": ["1pass-app/cli/cobra.go:init", "1pass-app/cli/cobra.go:Run", "1pass-app/main.go:main"]}
{"id": "C90", "title": "Documented command lines work", "statement": "Every command line that README.md gives runs the command it documents. (Fails for list, overview and details: the path of the vault written as last word is refused by all three. Holds for the other lines, and for these if the path is the value of -v.)", "quantifier": "every option, uid and path in the documented lines", "why_tests_cant": "All paths and uids.", "anchors": ["1pass-app/cli/cobra.go:init"]}
{"id": "C91", "title": "A refused command line is reported", "statement": "A command line that is refused touches nothing, asks nothing and ends with a failing status after saying what is wrong. (Fails: the status is 0 in every case. The rest holds.)", "quantifier": "every refused command line", "why_tests_cant": "All mistaken command lines.", "anchors": ["1pass-app/cli/cobra.go:Run"]}
{"id": "C92", "title": "The GUI accepts the passwords that the command line accepts", "statement": "A password that opens the vault on the command line opens it in the GUI when it is typed there. (Fails: the GUI trims what was typed, so a vault whose password begins or ends with white space is never opened by it, whatever is typed. Holds for all other passwords shown in the prompt.)", "quantifier": "every vault, password, key sequence and terminal", "why_tests_cant": "All passwords.", "anchors": ["1pass-app/gui/1passwidget.go:unlock"]}
{"id": "C93", "title": "What was typed before ENTER is what is tried", "statement": "All keys pressed before ENTER count as part of the password. (Fails: the prompt is read as it was last drawn, so keys that come together with ENTER, as in a paste, are ignored. Holds if the screen is drawn in between.)", "quantifier": "every key sequence and drawing", "why_tests_cant": "Schedules of keys and drawings.", "anchors": ["1pass-app/gui/1passwidget.go:unlock"]}
{"id": "C94", "title": "Times are shown by the local clock", "statement": "The times at which an item was made and changed are shown as the date and the time of day of the local clock, in overview, details and the GUI, and two different times are never shown alike by the same clock (years 0 to 9999).", "quantifier": "every time, time zone and item", "why_tests_cant": "All int64 times and offsets.", "anchors": ["1pass-term/control/cobra/clicontrol.go:GetItemOverview", "1pass-term/control/cobra/clicontrol.go:GetItemDetails", "1pass-app/gui/detailswidget.go:update"]}
{"id": "C95", "title": "What is said about updates is true", "statement": "The notice before a command is printed only if the server has just published a newer release, and names it; update says what is offered, from which version to which it goes, each step when it is begun, and that it is done exactly if all steps succeeded, with the version agreed to.", "quantifier": "every server, answer, configuration and failure", "why_tests_cant": "All failures at all steps.", "anchors": ["1pass-term/control/cobra/clicontrol.go:CheckForUpdate", "1pass-term/control/cobra/clicontrol.go:Update"]}
{"id": "C96", "title": "The GUI shows no secret of a covered item", "statement": "Two runs of the GUI with the same keys on the same terminal, on vaults that answer the same to every password tried and differ only in secrets (values of fields, text of notes), end the same way and show the same in all panes, except in the details pane while it has the focus.", "quantifier": "every pair of disks and sequence of keys, drawings and checks", "why_tests_cant": "Relates two executions, for all key sequences.", "anchors": ["1pass-app/gui/detailswidget.go:update", "1pass-app/gui/detailswidget.go:cover", "1pass-app/gui/itemswidget.go:update", "1pass-app/gui/1passwidget.go:update"]}
{"id": "C97", "title": "Items that details prints alike are alike", "statement": "Two items of which details prints the same text have the same category, title, times, trash flag, address, sections, fields and notes. (Fails: a value of several lines can look like the end of its section and notes. Holds for items whose titles, names, values and address take one line, with no colon in a field name and no section called Notes.)", "quantifier": "every pair of items", "why_tests_cant": "Injectivity of the printed form, over all pairs of items.", "anchors": ["1pass-term/control/cobra/clicontrol.go:GetItemDetails"]}
{"id": "C98", "title": "No control characters on the terminal", "statement": "Whatever a vault contains, details and overview print no control characters other than line breaks. (Fails: titles, names, values and notes are printed as they are. Holds for items without control characters.)", "quantifier": "every vault and item", "why_tests_cant": "The content of a vault is arbitrary bytes.", "anchors": ["1pass-term/control/cobra/clicontrol.go:GetItemDetails", "1pass-term/control/cobra/clicontrol.go:GetItemOverview"]}
{"id": "C99", "title": "Locking forgets what was decrypted", "statement": "After CTRL+L nothing decrypted is left in the program. (Fails: the details widget keeps the item it showed last and the item widget its list. The session holds nothing, nothing is on the screen, and what is shown later comes from the session then.)", "quantifier": "every state of the GUI and every key sequence", "why_tests_cant": "The leftovers are not visible on the screen.", "anchors": ["1pass-app/gui/detailswidget.go:Layout", "1pass-app/gui/1passwidget.go:lock", "1pass-app/gui/itemswidget.go:lock"]}
{"id": "C100", "title": "The help line names keys that work", "statement": "The help pane names keys that are bound in the pane that has the focus. (Fails: after going back to the menu it still shows the keys of the item list; at the password prompt it shows the menu's keys. Holds in the item list, in the details pane and in the menu before the first item list is opened.)", "quantifier": "every state of the GUI and every key sequence", "why_tests_cant": "Quantifies over all key sequences.", "anchors": ["1pass-app/gui/helpwidget.go:update", "1pass-app/gui/itemswidget.go:goBack"]}
{"id": "C101", "title": "The password is not shown while it is typed", "statement": "At the password prompt of the GUI only asterisks are seen, one for each character, and typing changes no other pane; all other panes show their text; the prompt is the only pane that takes text.", "quantifier": "every state of the GUI and every key sequence", "why_tests_cant": "Quantifies over all states and everything typed.", "anchors": ["1pass-app/gui/passprompt.go:Layout"]}
{"id": "C102", "title": "A band without entries does no harm", "statement": "A vault opens whether or not some of its band files have no entries. (Fails: the bodies of the bands are joined by commas, so one empty band among several makes a text that is no JSON and the program ends. Holds if no band is empty or there is only one.)", "quantifier": "every vault whose bands are well-formed or empty", "why_tests_cant": "Quantifies over all vaults.", "anchors": ["1pass-parse/repo/file/itemrepo.go:LoadItems"]}
{"id": "C103", "title": "Damaged files are reported", "statement": "Opening a vault never crashes, whatever is in its files: at worst the program ends with a message. (Fails: a profile of less than 13 bytes, a profile without salt, iterations or keys, a band of less than 7 bytes and an item without its attributes crash it. The outcome is determined for every profile file and every set of band files.)", "quantifier": "every vault, whatever bytes its files hold", "why_tests_cant": "Quantifies over all file contents.", "anchors": ["1pass-parse/repo/file/profilerepo.go:LoadProfile", "1pass-parse/repo/file/itemrepo.go:LoadItems"]}
{"id": "C104", "title": "The exit status tells whether the command succeeded", "statement": "list, overview and details end with status 0 only if they did what was asked: the vault is valid, the password right, the category (if one is given) known, and, for overview and details, there is an item with the given UID among the trashed or untrashed items asked for. (Fails in the last point: a UID that does not exist, or one of a trashed item without the flag for the trash, is reported in a message, but the status is 0. The status is determined exactly for all three commands.)", "quantifier": "every configuration, vault, password, UID, category, title and flag, every earlier state", "why_tests_cant": "tests of the commands need a terminal for the password and a child process for the exit status; no test looks at it", "anchors": ["1pass-term/control/cobra/clicontrol.go:GetItemDetails", "1pass-term/control/cobra/clicontrol.go:GetItemOverview", "1pass-term/control/cobra/clicontrol.go:GetItems"]}
{"id": "C105", "title": "Requests use the configured timeout", "statement": "Every request the program makes, for the list of releases, the archive and the checksum, from the commands and from the check in the background of the GUI, has the timeout of the configuration in force: one second if none is configured. During the dialog of the first run that is the configuration before the dialog, afterwards the one made in it.", "quantifier": "every command, configuration, answer of the server, failure of the system and sequence of events in the GUI", "why_tests_cant": "Quantifies over all runs; the tests have no server to be slow.", "anchors": ["1pass-up/component/github/updater.go:httpClient", "1pass-core/core/facade/updatefacade.go:CheckForUpdate", "1pass-core/core/facade/updatefacade.go:Update"]}
{"id": "C106", "title": "The configuration dialog shows what is configured", "statement": "configure asks its questions in the order of the manual, each with the setting in force (vault path only if it is to be changed), prints nothing else, writes to the disk only after the last answer, and says that 1pass is configured exactly if it ran to its end. The first run shows the same dialog with the built-in settings between a greeting and an empty line.", "quantifier": "every configuration, input and failure of the disk", "why_tests_cant": "Quantifies over all configurations and inputs.", "anchors": ["1pass-term/control/cobra/clicontrol.go:Configure", "1pass-term/control/cobra/clicontrol.go:FirstRun"]}
{"id": "C107", "title": "Everything in an open vault can be brought on the screen", "statement": "From every state of the GUI with an unlocked vault, on a terminal of at least 6 by 10 cells, some keys lead to the details pane showing the contents of any given item of the vault (also one in the trash), scrolled to any place, without changing the disk or locking the vault. The owner of a conforming vault who types the password and presses ENTER can so see every entry of a known category.", "quantifier": "every state reachable in the GUI, every item, scroll position, vault and terminal size from 6 by 10", "why_tests_cant": "Quantifies over all reachable states and vaults and claims that a key sequence exists.", "anchors": ["1pass-app/gui/itemswidget.go:goBack", "1pass-app/gui/itemswidget.go:cursorDown", "1pass-app/gui/itemswidget.go:toggleDetails", "1pass-app/gui/1passwidget.go:cursorDown", "1pass-app/gui/1passwidget.go:showItems", "1pass-app/gui/1passwidget.go:unlock", "1pass-app/gui/detailswidget.go:scrollDown", "1pass-app/gui/detailswidget.go:scrollRight"]}
{"id": "C108", "title": "A vault in order can be opened wherever it lies", "statement": "Loading the items of a vault whose files are in order does not end the program. (Fails: if a name in the path of the vault has a bracket that is not closed, the vault is accepted and wrong passwords are refused, but with the right password the program ends with the error of the pattern search; no password opens it. Holds for paths without special characters; without brackets and backslashes the search for band files never fails.)", "quantifier": "every vault path, file tree and password", "why_tests_cant": "Test paths contain no glob metacharacters.", "anchors": ["1pass-parse/repo/file/itemrepo.go:LoadItems", "1pass-core/core/facade/vaultfacade.go:Unlock"]}
{"id": "C109", "title": "Numbers out of range are reported", "statement": "A vault is read as it was written or the reading is reported as failed, whatever numbers it contains. (Fails inside items: encoding/json refuses a number of at least 2^1024 - 2^970 in absolute value. In the profile, in a band or in the answer of the release server that is an error. In the encrypted documents of an item the error is ignored, and the item is shown as if there were null in the place of the number: the field disappears.)", "quantifier": "every number literal, profile, set of band files, item and answer of the release server", "why_tests_cant": "Quantifies over all number literals and documents; tests use small numbers.", "anchors": ["1pass-core/core/service/itemservice.go:DecodeDetails", "1pass-core/core/service/itemservice.go:DecodeOverview", "1pass-parse/repo/file/profilerepo.go:LoadProfile", "1pass-parse/repo/file/itemrepo.go:LoadItems", "1pass-up/component/github/updater.go:CheckForUpdate"]}
{"id": "C110", "title": "Numbers in documents are float64s", "statement": "A JSON number becomes the nearest float64 (ties to even). A time of an item is that float64 with the fraction cut off. A month field shows a shortest decimal of it - one that stands for the same float64 - with a dash behind the fourth byte. A date field shows the date of the number if it is an integer below a million in absolute value, and the date of the Unix time 0 for every other number.", "quantifier": "every number literal and every field of type date or monthYear", "why_tests_cant": "Quantifies over all number literals - any number of digits, any exponent; the shortest decimal and the rounding are different at every one.", "anchors": ["1pass-core/core/domain/datatype.go:parseDate", "1pass-core/core/domain/datatype.go:parseMonthYear", "1pass-core/core/service/itemservice.go:ParseItemField", "1pass-parse/repo/file/itemrepo.go:LoadItems"]}
{"id": "C111", "title": "The check for updates does not stand in the way of a command", "statement": "With a configuration in order, no command crashes because of what the release server answers to the check before it. (Fails: an empty list of releases, a release without a text, tag or list of assets, and an asset without a name or address crash it. The command has not begun then; the time of the check is not saved, so every later command crashes as well until something else is published. In the GUI the check in the background ends the program. The answers that do this are determined exactly; after every other one the command goes on, with the configuration, the session and the input unchanged and nothing written but the time stamp.)", "quantifier": "every answer of the server, configuration, command, and sequence of commands", "why_tests_cant": "Quantifies over all answers of the server and all sequences of commands; the tests have no server.", "anchors": ["1pass-up/component/github/updater.go:CheckForUpdate", "1pass-term/control/cobra/clicontrol.go:CheckForUpdate", "1pass-core/core/service/updateservice.go:CheckForUpdate"]}
{"id": "C112", "title": "configure can repair the configuration", "statement": "With no server in reach, configure does not crash, whatever is in the configuration file. (Fails: if a setting has another type than the program expects, every command except version - also configure - crashes before it prints or reads anything; if the file is empty, configure asks all its questions and then crashes, the file stays empty. Apart from these and C111 it never crashes.)", "quantifier": "every configuration file, command and input", "why_tests_cant": "Quantifies over all configuration files.", "anchors": ["1pass-parse/repo/file/configrepo.go:GetTimeout", "1pass-parse/repo/file/configrepo.go:GetUpdateNotification", "1pass-parse/repo/file/configrepo.go:GetUpdatePeriod", "1pass-parse/repo/file/configrepo.go:Save", "1pass-term/control/cobra/clicontrol.go:Configure"]}
{"id": "C113", "title": "The GUI and the command line show the same", "statement": "As long as the vault is not changed: the text in the details pane is what details (if the pane has the focus) or overview (otherwise) prints for the selected item with the password the vault was opened with, after a blank line and, if there are notes, before another one; the list in the list pane is the one list prints for some category and setting of the flag for the trash: the same items with the same categories and titles in the same order.", "quantifier": "every vault, key sequence, terminal size and environment", "why_tests_cant": "The two programs are never run against each other.", "anchors": ["1pass-app/gui/detailswidget.go:update", "1pass-app/gui/itemswidget.go:update", "1pass-term/control/cobra/clicontrol.go:GetItemDetails", "1pass-term/control/cobra/clicontrol.go:GetItemOverview", "1pass-term/control/cobra/clicontrol.go:GetItems"]}
{"id": "C114", "title": "What list shows can be asked for", "statement": "As long as the vault is not changed: for every row of a table list has printed, overview and details with the UID in this row, the same password and the same flag for the trash print, in any later process, an item with the category and the title of the row. The other way round, an item that overview or details has shown is in the table of list.", "quantifier": "every vault, filter, UID and two processes", "why_tests_cant": "Relates two processes of the program.", "anchors": ["1pass-term/control/cobra/clicontrol.go:GetItemDetails", "1pass-term/control/cobra/clicontrol.go:GetItemOverview", "1pass-term/control/cobra/clicontrol.go:GetItems"]}
{"id": "C115", "title": "A published release can be installed", "statement": "If a newer release is published in order (a sound archive of plain files with the program in it, the checksum of the program), nothing fails, the program is a file in a directory, and the user agrees, then update says what it does, ends well, the program is the one of the release and the cache is gone. (Fails if /tmp is on another file system than the program: the file is moved with os.Rename, which cannot cross file systems.)", "quantifier": "every release, environment, configuration and place of the program", "why_tests_cant": "Needs a server, a release and two file systems.", "anchors": ["1pass-term/control/cobra/clicontrol.go:Update", "1pass-core/core/service/updateservice.go:Update", "1pass-up/component/github/updater.go:ReplaceBinary", "1pass-up/component/github/updater.go:ExtractArchive", "1pass-up/component/github/updater.go:DownloadFile", "1pass-up/component/github/updater.go:ValidateChecksum"]}
{"id": "C116", "title": "A password that cannot be read is not tried", "statement": "If the password cannot be read (standard input is not a terminal, or at its end), the command says so and shows nothing. (Fails: the error of ReadPassword is overwritten, the empty password is tried, and the message is the one for a wrong password; a vault with an empty password is opened. Holds that nothing is shown of any other vault.)", "quantifier": "every command, vault and environment", "why_tests_cant": "Needs input that is not a terminal.", "anchors": ["1pass-term/control/cobra/clicontrol.go:GetItemDetails", "1pass-term/control/cobra/clicontrol.go:GetItemOverview", "1pass-term/control/cobra/clicontrol.go:GetItems"]}
{"id": "C117", "title": "What is installed is what was checked, whoever else writes to /tmp", "statement": "Other processes and users may write to /tmp while an update runs; the program installed is still the one whose checksum was compared. (Fails: the cache is the fixed directory /tmp/1pass, and a file put at /tmp/1pass/1pass between the check and the move is installed, whatever it is. Holds if nobody touches this file in between, whatever else they do.)", "quantifier": "every release, environment, and change made by others between the check and the move", "why_tests_cant": "Schedules of two processes.", "anchors": ["1pass-core/core/service/updateservice.go:Update", "1pass-up/component/github/updater.go:ValidateChecksum", "1pass-up/component/github/updater.go:ReplaceBinary"]}
{"id": "C118", "title": "Later runs use what was configured", "statement": "After 1pass configure ended well, every later run uses what the answers meant, until configured again: the vault for commands (and the GUI) without the flag, the timeout for every request, and no requests from the commands if notifications were turned off; whatever other commands ran in between.", "quantifier": "every configuration before, every answers of one word each, any number of runs of any commands other than update and configure in between, every environment without failing system calls", "why_tests_cant": "Spans several processes; the file is the only link.", "anchors": ["1pass-term/control/cobra/clicontrol.go:Configure", "1pass-term/control/cobra/clicontrol.go:GetItems", "1pass-term/control/cobra/clicontrol.go:CheckForUpdate"]}
{"id": "C119", "title": "The timeout limits how long a command waits", "statement": "A request takes no longer than the configured timeout, whatever the server does. (Fails: httpClient limits the dialling only; a server that accepts the connection and says nothing is waited for for ever, before the password is even asked for. Holds: every command makes at most one request, two on the first run, four for update, none for version; each waits at most the timeout for each connection plus what the servers take from there.)", "quantifier": "every behaviour of the servers, command, environment and configuration with a timeout from one second on", "why_tests_cant": "Needs servers that stall; waiting for ever cannot be observed.", "anchors": ["1pass-up/component/github/updater.go:httpClient", "1pass-up/component/github/updater.go:CheckForUpdate", "1pass-up/component/github/updater.go:DownloadFile", "1pass-term/control/cobra/clicontrol.go:CheckForUpdate"]}
{"id": "C120", "title": "What the background check finds gets on the screen", "statement": "Once the check for updates in the background is over, its outcome is on the screen behind the version of the program. (Fails: verWidget.update writes to the view from its own goroutine and never asks gocui to draw; while the user only waits, the screen stays as it was, for ever. Holds: from the next drawing on, the outcome is shown, and it stays, whatever keys, resizes and changes of the disk follow.)", "quantifier": "every state of the GUI reached by any events, outcome of the check and later sequence of events", "why_tests_cant": "Needs a terminal and a check that ends while the user does nothing; the screen has to be looked at without touching it.", "anchors": ["1pass-app/gui/versionwidget.go:update", "1pass-app/gui/versionwidget.go:Layout"]}
{"id": "C121", "title": "The GUI ends when the user quits, and only then", "statement": "CTRL+Q ends the GUI at once, with success, on every screen, and nothing else the user does ends it. (Fails: making the window less than 8 lines high or 2 columns wide ends the program with status 1, whatever is on the screen; TAB with an empty item list crashes it. Holds: CTRL+Q; and on a terminal of at least 6 columns and 10 lines, while no empty list is shown and no vault or server crashes the program, nothing but CTRL+Q ends it.)", "quantifier": "every state of the GUI reached by any events, terminal size, vault and environment", "why_tests_cant": "Needs a terminal that is resized and every screen of the program.", "anchors": ["1pass-app/gui/gocui.go:Run", "1pass-app/gui/gocui.go:quit", "1pass-app/gui/helpwidget.go:Layout"]}
{"id": "C122", "title": "All commands together check for updates once a period", "statement": "Over any number of runs of any commands other than update and configure, within a span of time shorter than the configured period, the server is asked at most once by all of them together, and not at all if the last check was within the span; the first checking command after the period, or without a time stamp, asks exactly once, for the list of releases.", "quantifier": "every number and order of runs, every clock within the span (it may go backwards), every vault and input, every server that answers, system calls not failing, configuration directory usable", "why_tests_cant": "Takes days, and any combination of commands.", "anchors": ["1pass-term/control/cobra/clicontrol.go:CheckForUpdate", "1pass-core/core/service/updateservice.go:CheckForUpdate", "1pass-up/component/github/updater.go:ShouldCheck", "1pass-up/component/github/updater.go:CheckTimestamp"]}
{"id": "C123", "title": "The background check may be taken as one step", "statement": "While the check in the background runs, its effects on the disk may come one by one between keys and drawings: each of these does what it would do had the check not begun, and when the verdict is written, everything is as if the whole check had come after them, in one step. If the check crashes, so does the program, with the same disk.", "quantifier": "every live state of the GUI in which the check runs, every sequence of keys and drawings, every placement of the disk states of the check among them, every server, clock and fault, vault named without pattern characters and not above the configuration directory", "why_tests_cant": "The interleavings of a goroutine with the main loop cannot be chosen by a test.", "anchors": ["1pass-app/gui/versionwidget.go:update", "1pass-app/gui/versionwidget.go:Layout", "1pass-up/component/github/updater.go:CheckTimestamp", "1pass-core/core/service/updateservice.go:CheckForUpdate"]}
{"id": "C124", "title": "What is shown of an item depends on its own entry", "statement": "Take two vaults with the same profile file that agree in the entry that counts for one UID (the last one, or none at all), and may differ in every other entry, in their place, in the number of their band files and in which file the entry stands. If both open with the same password, the item with this UID is the same in both, and overview and details print the same lines for it.", "quantifier": "every two disks, vaults, UIDs, contexts with the same libraries, map orders, every two sets of band files, with and without the trash flag", "why_tests_cant": "The other entries of two vaults are arbitrary; a test compares a few vaults.", "anchors": ["1pass-parse/repo/file/itemrepo.go:LoadItems", "1pass-core/core/service/itemservice.go:DecodeItems", "1pass-term/control/cobra/clicontrol.go:GetItemDetails", "1pass-term/control/cobra/clicontrol.go:GetItemOverview"]}
{"id": "C125", "title": "list shows nothing but overviews", "statement": "Take two vaults with the same profile file whose entries agree in UID, category, overview and trash flag, and may differ in everything else: details, item keys, times, the distribution over band files. If both open with the same password, list with the same filters prints the same items, with the same categories and titles in the same rows; only the UIDs of items alike in category and title may change places.", "quantifier": "every two disks, vaults, filters, contexts with the same libraries, map orders and sorting algorithms, every two sets of band files", "why_tests_cant": "The secrets of two vaults are arbitrary; a test compares a few vaults.", "anchors": ["1pass-term/control/cobra/clicontrol.go:GetItems", "1pass-core/core/service/itemservice.go:DecodeItems", "1pass-core/core/service/itemservice.go:GetSimpleItems", "1pass-parse/repo/file/itemrepo.go:FindByCategoryAndTitleAndTrashed"]}
{"id": "C126", "title": "Unpacking needs few open files", "statement": "Where a process may have the archive and one more file open, an archive that can be unpacked without a limit on open files can be unpacked. (Fails: the files are closed when ExtractArchive returns, not when they are written, so all of them are open at once. If that many may be open the limit does not matter; otherwise the archive is never unpacked.)", "quantifier": "every limit, number of files already open, archive, fault and disk", "why_tests_cant": "The limit and the archive are arbitrary; tests run with the limits of one machine.", "anchors": ["1pass-up/component/github/updater.go:ExtractArchive"]}
{"id": "C127", "title": "Confirming what configure shows changes nothing", "statement": "Whoever answers the questions of configure with the values they show keeps the configuration as it was, also values out of range; and giving the same answers in a second run changes nothing more.", "quantifier": "every configuration, every way of typing the answers (blanks, letter case, a last line without line feed), every fault that lets configure end well", "why_tests_cant": "Quantifies over configurations and answers.", "anchors": ["1pass-term/control/cobra/clicontrol.go:Configure"]}
{"id": "C128", "title": "Every pane is on the terminal", "statement": "While the terminal has at least 61 columns and 9 lines every pane lies on it, and panes do not overlap except on top of the menu. (Fails when the size of the terminal changes: only version, help and menu are laid out again, so the password prompt, an error, the items or the details may be left outside. Holds while the size stays the same. Narrower terminals never show the whole password prompt.)", "quantifier": "every vault, sequence of keys, drawings on terminals of any size, end of the background check and changes of the disk", "why_tests_cant": "Quantifies over all sizes and event sequences; there are no tests of the layout.", "anchors": ["1pass-app/gui/gocui.go:Run", "1pass-app/gui/1passwidget.go:Layout", "1pass-app/gui/itemswidget.go:Layout", "1pass-app/gui/detailswidget.go:Layout", "1pass-app/gui/passprompt.go:Layout", "1pass-app/gui/errdialog.go:Layout"]}
{"id": "C129", "title": "Only the files of the vault format count", "statement": "What validating and opening a vault gives depends on profile.js and the sixteen band files band_0.js to band_F.js only. (Fails: every file called band_*.js is read, so a copy left in the directory, such as band_0_old.js, takes the place of the real items if its name comes later, even if it is older. Files of other names make no difference.)", "quantifier": "every pair of disks that agree on the files named, every password and state of the process", "why_tests_cant": "Pairs of disks; test vaults hold no other files.", "anchors": ["1pass-parse/repo/file/itemrepo.go:LoadItems"]}
{"id": "C130", "title": "An update can be repeated", "statement": "After any number of updates that failed or were cut off at whatever moment, with whatever servers, the command update installs a release published in order, if nothing fails any more, the user agrees, and the program was a file in a directory on the file system of /tmp to begin with.", "quantifier": "every disk reached by any number of attempts, each stopped at any moment of its own, with any faults and any servers", "why_tests_cant": "All sequences of interrupted updates; tests never interrupt one.", "anchors": ["1pass-core/core/service/updateservice.go:Update", "1pass-term/control/cobra/clicontrol.go:Update"]}
{"id": "C131", "title": "Two runs of configure at the same time", "statement": "What another process changed in the configuration file since this one was started is still there after configure, if the user confirms everything.", "quantifier": "every context, every disk at the start and every disk afterwards, every further input", "why_tests_cant": "The loss needs two processes that overlap; the tests run one service at a time.", "anchors": ["1pass-term/control/cobra/clicontrol.go:Configure", "1pass-core/core/service/configservice.go:SaveConfig", "1pass-parse/repo/file/configrepo.go:Save"]}
{"id": "C132", "title": "The terminal after the GUI", "statement": "However the GUI ends, the shell has its terminal back: the other screen is left, echo and line editing are on again.", "quantifier": "every sequence of keys, resizes, changes of the disk and ends of the background check, every vault, every server", "why_tests_cant": "Needs a terminal, a resize or a damaged vault at the right moment.", "anchors": ["1pass-app/gui/gocui.go:Run", "1pass-app/gui/versionwidget.go:Layout"]}
{"id": "C133", "title": "An open vault does not need the disk", "statement": "While a vault is open in the GUI and is not locked, nothing that others do to the disk (removing the vault, say) changes what keys and drawings lead to.", "quantifier": "every state with an open vault, every sequence of keys but CTRL+L, drawings, changes of the disk and ends of the background check", "why_tests_cant": "All interleavings of the user with other programs.", "anchors": ["1pass-core/core/facade/vaultfacade.go:GetItem", "1pass-core/core/facade/vaultfacade.go:GetItems", "1pass-app/gui/itemswidget.go:showOverview", "1pass-app/gui/1passwidget.go:showItems"]}
{"id": "C134", "title": "A vault opened while it is written to", "statement": "What is opened is the vault as it was at one moment, even if another program (a sync client) replaces its files meanwhile. (Fails: the band files are read one after the other, so a later change can be seen without an earlier one; a band file that goes after the directory was listed ends the program. Holds: every item is whole, from one version of one file; the result is what a disk that stands still would give; and if only one file is replaced meanwhile, it is the vault before or after.)", "quantifier": "every vault, password, session and sequence of disks between the reads", "why_tests_cant": "All interleavings of reading with another program's writes.", "anchors": ["1pass-parse/repo/file/itemrepo.go:LoadItems", "1pass-core/core/facade/vaultfacade.go:Unlock", "1pass-core/core/service/vaultservice.go:ValidateVault"]}
{"id": "C135", "title": "A changed master password counts", "statement": "A password which the vault refuses as it is now does not open it in the GUI, and the password it takes now does. (Fails: the profile is read once, before the first prompt, so a GUI that runs while the master password is changed goes on taking the old password after a lock, and refuses the new one. Holds as long as the profile is the one the GUI started with.)", "quantifier": "every vault, terminal, sequence of keys, drawings and changes of the disk, and every password", "why_tests_cant": "All interleavings of the GUI with a change of the password elsewhere.", "anchors": ["1pass-parse/repo/file/profilerepo.go:LoadProfile", "1pass-app/gui/1passwidget.go:unlock"]}
{"id": "C136", "title": "A password is called invalid only if it is", "statement": "Who uses the password under which the master key of the profile was encrypted is not told that the password is invalid. (Fails: a damaged overview key or salt is reported as an invalid password too, by the commands and by the GUI, for every password. It is determined for the right password when this happens: exactly if the overview key is not base64 or does not authenticate.)", "quantifier": "every profile, password, vault and session, and all primitives", "why_tests_cant": "The password, the profile and the damage are arbitrary.", "anchors": ["1pass-core/core/facade/vaultfacade.go:Unlock", "1pass-core/core/service/keyservice.go:OverviewKeys", "1pass-core/core/service/keyservice.go:DerivedKeys"]}
{"id": "C137", "title": "An interrupted check does not put off the next one", "statement": "If the program is cut off at any point of a check for updates (or another one looks at that moment), the next check finds the time stamp as it was before, or the complete new one, or asks the server; a time stamp of which only some digits were written is never taken for a recent one. (Clocks of 2001 or later, periods of at most 10000 days.)", "quantifier": "every state of the disk during a check, all faults, clocks, periods and time stamps", "why_tests_cant": "The program would have to be stopped between any two bytes it writes.", "anchors": ["1pass-up/component/github/updater.go:CheckTimestamp", "1pass-up/component/github/updater.go:ShouldCheck"]}
{"id": "C138", "title": "What was entered for an item can be read", "statement": "Every text the owner entered for an item - the notes, the values of a login form, the password of a password item, the text fields of its sections - is in some line that details prints of it. (Fails: the login form of an item with a list of sections, even an empty one, is not looked at, so that its user name and password are not shown; nor is the password of a password item, nor a form field without a name. Holds for notes, sections, and named form fields of items without a list of sections.)", "quantifier": "all vaults of conforming writers, all items, documents and passwords", "why_tests_cant": "Sample vaults have items of a few shapes; which parts of a document are never looked at is a statement about all documents.", "anchors": ["1pass-core/core/service/itemservice.go:DecodeItems", "1pass-core/core/service/itemservice.go:ParseItemField", "1pass-core/core/service/itemservice.go:ParseItemSection", "1pass-term/control/cobra/clicontrol.go:GetItemDetails"]}
{"id": "C139", "title": "No connection before the user was asked", "statement": "On a run without a configuration the program contacts no server before the user has answered a question, so that whoever wants no update notifications is never connected anywhere. (Fails: the dialog checks for updates with the default settings before its first question. Holds: if question 2 is answered with no, at most this one request is made by the command, and none from the first question on.)", "quantifier": "all commands that open a vault and configure, all disks without a configuration, all answers, all servers", "why_tests_cant": "Tests of the dialog mock the update service; that the order of request and question is wrong on every first run is a statement about traces.", "anchors": ["1pass-term/control/cobra/clicontrol.go:FirstRun", "1pass-term/control/cobra/clicontrol.go:Configure", "1pass-term/control/cobra/clicontrol.go:CheckForUpdate"]}
{"id": "C140", "title": "CTRL+C leaves a usable terminal", "statement": "Whenever the user interrupts a command with CTRL+C, the terminal shows what is typed afterwards. (Fails: while the password is asked for the echo is off, and no handler for the signal puts it back. Holds at every other moment of every command, and at the end of every run.)", "quantifier": "all commands, disks, inputs and vaults, every moment of the run", "why_tests_cant": "No test sends signals; the moments that do harm are a statement about every prefix of every run.", "anchors": ["1pass-term/control/cobra/clicontrol.go:GetItemDetails", "1pass-term/control/cobra/clicontrol.go:GetItemOverview", "1pass-term/control/cobra/clicontrol.go:GetItems"]}
{"id": "C141", "title": "One line, one answer", "statement": "In the configuration dialog one line answers one question: what is added to a line after its first word has no influence on the other questions. An update is installed only after a line that means yes as a whole. (Both fail: the rest of a line, without the first character of its second word, answers the next question; and only the first word of the line is looked at. Both hold for lines of one word.)", "quantifier": "all contexts, disks, configurations and inputs", "why_tests_cant": "Answers in tests are single words; which part of a line is left over for which question is a statement about every input.", "anchors": ["1pass-term/control/cobra/clicontrol.go:Configure", "1pass-term/control/cobra/clicontrol.go:Update"]}
{"id": "C142", "title": "Damaged contents are noticed", "statement": "Who asks for an item whose contents were damaged is not shown the same as for an item without contents. (Fails: the error of DecodeOpdata is ignored; details that do not authenticate read as an empty document, and list, overview and details succeed. What is shown of an item does authenticate.)", "quantifier": "all vaults, passwords and entries; all damaged details of at least 32 bytes", "why_tests_cant": "No test asks for an item of a damaged vault; that two vaults cannot be told apart is a statement about pairs of runs.", "anchors": ["1pass-core/core/service/itemservice.go:DecodeDetails", "1pass-core/core/service/itemservice.go:DecodeItems", "1pass-core/core/service/keyservice.go:DecodeOpdata"]}
{"id": "C143", "title": "The configured period holds for the GUI", "statement": "A start of the GUI within the configured period since the last check makes no request. (Fails: the check of the GUI is forced and asks on every start. It asks once a start at most, whatever is pressed or drawn.)", "quantifier": "all vaults, configurations, time stamps, clocks and sequences of keys, drawings and changes of the disk", "why_tests_cant": "No test starts the GUI; at most once is about all interleavings.", "anchors": ["1pass-term/control/gocui/guicontrol.go:CheckForUpdate", "1pass-app/gui/versionwidget.go:Layout", "1pass-app/gui/versionwidget.go:update", "1pass-core/core/service/updateservice.go:CheckForUpdate"]}
{"id": "C144", "title": "The newest release listed is found", "statement": "If the server lists a version greater than the one that runs, a check finds the greatest version listed. (Fails: only the first entry of the list is looked at, so a correction of an old release hides the newer ones published before it. Holds if the greatest version comes first.)", "quantifier": "all lists of releases with versions of three numbers, all configurations and disks", "why_tests_cant": "Tests need the real server, whose list they cannot choose.", "anchors": ["1pass-up/component/github/updater.go:CheckForUpdate", "1pass-core/core/service/updateservice.go:CheckForUpdate"]}
{"id": "C145", "title": "What the Makefile releases can be installed", "statement": "A release built by the Makefile under a greater version of three numbers and uploaded with its two files, in either order, is installed by the command update, which says so, if nothing fails, the user agrees and the program is a file on the file system of /tmp.", "quantifier": "all programs, versions, release texts and places of the program", "why_tests_cant": "The two sides live in different files and languages; a test would need a real release.", "anchors": ["Makefile:release", "1pass-term/control/cobra/clicontrol.go:Update", "1pass-up/component/github/updater.go:CheckForUpdate", "1pass-up/component/github/updater.go:ValidateChecksum", "1pass-core/core/service/updateservice.go:Update"]}
{"id": "C146", "title": "The release server cannot steer the terminal", "statement": "Neither the notice before a command nor the offer of the command update contains control characters other than line breaks, whatever the server answers.", "quantifier": "all answers of the server, all states", "why_tests_cant": "A test server sends ordinary notes and tags; here the tag and the notes are arbitrary, including tags that only pass as newer because the range error of ParseInt is dropped.", "anchors": ["1pass-term/control/cobra/clicontrol.go:Update", "1pass-term/control/cobra/clicontrol.go:CheckForUpdate", "1pass-up/component/github/updater.go:CheckForUpdate"]}
{"id": "C147", "title": "Every connection is encrypted", "statement": "Whatever the server answers, the program connects to https URLs only; every request goes to the list of releases or to a URL that such a list has for a file of a newer release.", "quantifier": "all answers of the server, all commands, all states", "why_tests_cant": "Which URLs a server may list is not under the control of a test.", "anchors": ["1pass-up/component/github/updater.go:CheckForUpdate", "1pass-up/component/github/updater.go:DownloadFile", "1pass-core/core/service/updateservice.go:Update"]}
{"id": "C148", "title": "The same run prints the same", "statement": "A command run twice on the same disk with the same input prints the same and leaves the same disk, and the GUI given the same keys shows the same, whatever order Go gives the keys of a map and whatever sort.Slice does with equal elements.", "quantifier": "all commands, all states, all orders of maps, all sorting algorithms", "why_tests_cant": "Go randomizes the order of maps; a test sees a few of the orders.", "anchors": ["1pass-parse/repo/file/itemrepo.go:LoadItems", "1pass-core/core/service/itemservice.go:GetSimpleItems", "1pass-term/control/cobra/clicontrol.go:GetItems"]}
{"id": "C149", "title": "The password is asked for once, when there is a vault", "statement": "Whatever the command, the password is read from the terminal once at most, right after the prompt; only list, overview and details read it, and only if the path leads to a directory with a file default/profile.js.", "quantifier": "all commands, all states, all disks", "why_tests_cant": "A test asks about a few commands and paths; a second prompt on a rare path (first run, update, error) would go unseen.", "anchors": ["1pass-term/control/cobra/clicontrol.go:GetItems", "1pass-term/control/cobra/clicontrol.go:GetItemDetails", "1pass-term/control/cobra/clicontrol.go:GetItemOverview"]}
