/-
Open files during the extraction of an archive (updater.go:144-187), for a system that limits their number.
-/
import Verif.Model.Update

namespace OnePass
namespace Fds
open Prog Upd

/-- `os.Create` in a process that has `opened` files open and may have `limit`: one more does not exist (EMFILE). -/
def create (S : Sys) (limit opened : Nat) (p : Bytes) : Prog (Except Err (List Bytes × Bool)) :=
  if opened < limit then Os.create S p
  else do
    let _ ← tick
    Prog.pure (.error ioErr)

/-- updater.go:161-186: the loop over the entries. `defer file.Close()` (line 180) is in the loop, so a file is closed when
the function returns, not when it has been written. -/
def extractEntries (S : Sys) (limit : Nat) (dst : Bytes) (clean : Bool) : Nat → List TarEntry → Prog (Except Err Unit)
  | _, [] => Prog.pure (if clean then .ok () else .error (.stdlib b!"archive"))
  | opened, e :: r =>
    if e.reg then
      andThen (andThen (create S limit opened (Path.join [dst, e.name])) fun f => Os.write S f e.data e.whole) fun _ =>
        extractEntries S limit dst clean (opened + 1) r
    else extractEntries S limit dst clean opened r

/-- updater.go:144-187 `ExtractArchive`, called with `opened` files open. The archive stays open (it is never closed). -/
def extractArchive (S : Sys) (X : Ext) (limit opened : Nat) (src dst : Bytes) : Prog (Except Err Unit) :=
  if opened < limit then
    andThen (Os.readFile S src) fun data => extractEntries S limit dst (X.untar data).2 (opened + 1) (X.untar data).1
  else do
    let _ ← tick
    Prog.pure (.error ioErr)

end Fds
end OnePass
