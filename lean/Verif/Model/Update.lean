/-
1pass-up/component/github/updater.go, 1pass-core/core/service/updateservice.go, core/facade/updatefacade.go.
-/
import Verif.Model.Config
import Verif.Go.Float64

namespace OnePass

/-- entity.go:64-70 `UpdateInfo`. -/
structure UpdateInfo where
  archiveUrl : Bytes
  changelog : Bytes
  checksumUrl : Bytes
  newer : Bool
  version : Bytes
  deriving DecidableEq, Repr

namespace Upd
open Prog ItemSvc

/-! static.go:7-20 -/
def appName : Bytes := b!"1pass"
def archiveName : Bytes := b!"1pass.tar.gz"
def cacheDir : Bytes := b!"/tmp/1pass"
def checksumName : Bytes := b!"checksum.md5"
def githubReleases : Bytes := b!"https://api.github.com/repos/mashmb/1pass/releases"
def lastCheckFile : Bytes := b!"lastcheck"
def version : Bytes := b!"1.3.1"

/-- `json.Unmarshal(s, &l)` with `var l []interface{}`: `none` is an error, `some none` leaves the slice nil. -/
def unmarshalArr (s : Bytes) : Option (Option (List Json)) :=
  match Json.parse s with
  | some (.arr l) => if Json.finiteL l then some (some l) else none
  | some .null => some none
  | _ => none

/-- updater.go:87-95: the URLs after one asset. -/
def assetUrls (urls : Bytes × Bytes) (asset : Json) : Out (Bytes × Bytes) := do
  let a ← asObj asset
  let name ← asStr (Json.field a b!"name")
  if Str.contains name b!".tar.gz" then
    let u ← asStr (Json.field a b!"browser_download_url")
    pure (u, urls.2)
  else if Str.contains name b!".md5" then
    let u ← asStr (Json.field a b!"browser_download_url")
    pure (urls.1, u)
  else pure urls

/-- updater.go:87-95: the loop over the assets. -/
def allUrls (urls : Bytes × Bytes) : List Json → Out (Bytes × Bytes)
  | [] => .ret urls
  | a :: r => do
    let u ← assetUrls urls a
    allUrls u r

/-- updater.go:97-98: `ParseInt(ReplaceAll(version, ".", ""), 10, 64)`, the error ignored. -/
def versionNumber (v : Bytes) : Int := (Num.parseInt (Str.replaceByte 46 [] v)).1

/-- updater.go:65-104: from the body of the answer. `none` is the nil info. -/
def releaseInfo (body : Bytes) : Out (Except Err (Option UpdateInfo)) :=
  match unmarshalArr body with
  | none => .ret (.error (.stdlib b!"json"))
  | some none => .ret (.ok none)
  | some (some []) => .panic
  | some (some (.null :: _)) => .ret (.ok none)
  | some (some (first :: _)) => do
    let latest ← asObj first
    let changelog ← asStr (Json.field latest b!"body")
    let tag ← asStr (Json.field latest b!"tag_name")
    let assets ← asArr (Json.field latest b!"assets")
    let urls ← allUrls ([], []) assets
    pure (.ok (some { archiveUrl := urls.1, checksumUrl := urls.2, changelog := changelog, version := tag,
                      newer := decide (versionNumber tag > versionNumber version) }))

/-- updater.go:50-105 `CheckForUpdate`. -/
def fetchInfo (S : Sys) (timeout : Int) : Prog (Except Err (Option UpdateInfo)) := do
  match ← Os.httpGet S githubReleases timeout with
  | .failed => Prog.pure (.error (.stdlib b!"http"))
  | .body _ false => Prog.pure (.error (.stdlib b!"http"))
  | .body data true => lift (releaseInfo data)

/-- `time.Now().Unix()` of a time in nanoseconds. -/
def seconds (ns : Int) : Int := ns / 1000000000

/-- updater.go:107-116 `CheckTimestamp`; all errors ignored. -/
def checkTimestamp (S : Sys) (dir : Bytes) : Prog Unit := do
  let t ← Os.now S
  Os.ensureDir S dir
  let _ ← Os.writeFile S (Path.join [dir, lastCheckFile]) (Num.intDec (seconds t))
  Prog.pure ()

/-- updater.go:118-142 `DownloadFile`. -/
def downloadFile (S : Sys) (dst url : Bytes) (timeout : Int) : Prog (Except Err Unit) := do
  match ← Os.httpGet S url timeout with
  | .failed => Prog.pure (.error (.stdlib b!"http"))
  | .body data complete => andThen (Os.create S dst) fun f => Os.write S f data complete

/-- updater.go:161-186: the loop over the entries. -/
def extractEntries (S : Sys) (dst : Bytes) (clean : Bool) : List TarEntry → Prog (Except Err Unit)
  | [] => Prog.pure (if clean then .ok () else .error (.stdlib b!"archive"))
  | e :: r =>
    if e.reg then
      andThen (andThen (Os.create S (Path.join [dst, e.name])) fun f => Os.write S f e.data e.whole) fun _ =>
        extractEntries S dst clean r
    else extractEntries S dst clean r

/-- updater.go:144-187 `ExtractArchive`. The archive is taken as it is when it is opened (an entry that
overwrites the archive itself would change what the real program reads after it). -/
def extractArchive (S : Sys) (X : Ext) (src dst : Bytes) : Prog (Except Err Unit) :=
  andThen (Os.readFile S src) fun data => extractEntries S dst (X.untar data).2 (X.untar data).1

/-- updater.go:189-201 `ReplaceBinary`. -/
def replaceBinary (S : Sys) (src : Bytes) : Prog (Except Err Unit) :=
  match S.exe with
  | none => Prog.pure (.error ioErr)
  | some dst => Os.rename S src dst

/-- `time.Duration` saturates. -/
def duration (ns : Int) : Int := max (-9223372036854775808) (min ns 9223372036854775807)

/-- updater.go:224: `math.Abs(d.Hours() / 24)`; `Hours` is `float64(d/Hour) + float64(d%Hour)/3.6e12`. Rounding
is symmetric (`F64.rnd_neg`), so the sign is dropped first. -/
def daysBetween (d : Int) : ℚ :=
  let a := d.natAbs
  let hours := F64.rnd (F64.rnd (a / 3600000000000 : Nat) + F64.rnd (F64.rnd (a % 3600000000000 : Nat) / 3600000000000))
  F64.rnd (hours / 24)

/-- updater.go:203-232 `ShouldCheck`. -/
def shouldCheck (S : Sys) (_ : Ext) (period : Int) (dir : Bytes) : Prog Bool := do
  let file := Path.join [dir, lastCheckFile]
  let st ← Os.stat S file
  let content ← Os.readFile S file
  let text : Bytes := match content with | .ok b => b | .error _ => []
  let saved := Num.parseInt (Str.trimSpace text)
  let now ← Os.now S
  let between := daysBetween (duration (now - saved.1 * 1000000000))
  Prog.pure (st.isNone || (match content with | .ok _ => false | .error _ => true) || saved.2 ||
    decide (between.floor ≥ period))

/-- Lower-case hexadecimal digit. -/
def hexDigit (n : Nat) : UInt8 := if n < 10 then UInt8.ofNat (48 + n) else UInt8.ofNat (87 + n)

/-- `hex.EncodeToString`. -/
def hex (b : Bytes) : Bytes := b.flatMap (fun x => [hexDigit (x.toNat / 16), hexDigit (x.toNat % 16)])

/-- updater.go:234-263 `ValidateChecksum`. -/
def validateChecksum (S : Sys) (X : Ext) (binary file : Bytes) : Prog (Except Err Unit) :=
  andThen (Os.readFile S file) fun content =>
    andThen (Os.readFile S binary) fun data =>
      match Str.fields (Str.trimSpace content) with
      | [] => Prog.panic
      | c :: _ => Prog.pure (if c ≠ hex (X.md5 data) then .error .invalidMd5 else .ok ())

/-- updateservice.go:25-49 `CheckForUpdate`. -/
def checkForUpdate (S : Sys) (X : Ext) (period timeout : Int) (force : Bool) (dir : Bytes) :
    Prog (Except Err UpdateInfo) := do
  let go : Prog (Except Err UpdateInfo) :=
    andThen (fetchInfo S timeout) fun info => do
      match info with
      | none =>
        checkTimestamp S dir
        Prog.pure (.error .noUpdate)
      | some i =>
        checkTimestamp S dir
        if i.newer then Prog.pure (.ok i) else Prog.pure (.error .noUpdate)
  if force then go
  else
    if ← shouldCheck S X period dir then go else Prog.pure (.error .noUpdate)

/-- updateservice.go:65-116: from stage 1 on. `cb n` is what the caller's `stage(n)` does. -/
def install (S : Sys) (X : Ext) (timeout : Int) (cb : Nat → Ev) (info : UpdateInfo) : Prog (Except Err Unit) := do
  let archive := Path.join [cacheDir, archiveName]
  let checksum := Path.join [cacheDir, checksumName]
  let binary := Path.join [cacheDir, appName]
  emit (cb 1)
  andThen (Os.removeAll S cacheDir) fun _ =>
    andThen (Os.mkdirAll S cacheDir) fun _ => do
      emit (cb 2)
      andThen (downloadFile S archive info.archiveUrl timeout) fun _ => do
        emit (cb 3)
        andThen (downloadFile S checksum info.checksumUrl timeout) fun _ => do
          emit (cb 4)
          andThen (extractArchive S X archive cacheDir) fun _ => do
            emit (cb 5)
            andThen (validateChecksum S X binary checksum) fun _ => do
              emit (cb 6)
              andThen (replaceBinary S binary) fun _ => do
                emit (cb 7)
                Os.removeAll S cacheDir

/-- updateservice.go:51-117 `Update`. -/
def update (S : Sys) (X : Ext) (timeout : Int) (cb : Nat → Ev) : Prog (Except Err Unit) :=
  andThen (fetchInfo S timeout) fun info =>
    match info with
    | none => Prog.pure (.error .noUpdate)
    | some i => if i.newer then install S X timeout cb i else Prog.pure (.error .noUpdate)

/-- updatefacade.go:26-30 `CheckForUpdate`. -/
def facadeCheck (S : Sys) (X : Ext) (dir : Bytes) (force : Bool) : Prog (Except Err UpdateInfo) := do
  let c ← Conf.read
  checkForUpdate S X c.period c.timeout force dir

/-- updatefacade.go:32-36 `Update`. -/
def facadeUpdate (S : Sys) (X : Ext) (cb : Nat → Ev) : Prog (Except Err Unit) := do
  let c ← Conf.read
  update S X c.timeout cb

end Upd
end OnePass
