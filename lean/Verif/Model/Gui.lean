/-
1pass-app/gui/*.go and 1pass-term/control/gocui/guicontrol.go on top of gocui v0.4.0.

The toolkit is modelled as far as the widgets use it: views with a rectangle, a cursor, an origin and lines of
text; the current view; key bindings; one round of layout and drawing (`flush`). Not modelled: colours, frames,
the stacking order of views, colour escape sequences inside texts, and the width of characters. The
editor of the password prompt and the padding of `text.AlignCenter` are parameters (`Kit`).
-/
import Verif.Model.Cli

namespace OnePass
namespace Gui

/-- The names of the views; in Go the strings "verWidget", "help", "1pass", "passPrompt", "errDialog",
"itemsWidget", "detailsWidget". -/
inductive Name where
  | ver | help | menu | prompt | error | items | details
  deriving DecidableEq, Repr

/-- A key as termbox reports it. -/
inductive Key where
  | ch (c : Nat)
  | enter | tab | ctrlL | ctrlQ | up | down | left | right
  | other (n : Nat)
  deriving DecidableEq, Repr

/-- What a widget sets when its view is new: `Title`, `Editable`, `Mask` (NUL: none) and `Highlight`; the colours are left out. -/
structure Attr where
  title : Bytes
  editable : Bool
  mask : UInt8
  highlight : Bool
  deriving DecidableEq, Repr

/-- `gocui.View`. `lines` is what has been written; `shown` is what was last drawn (`viewLines`). -/
structure View where
  x0 : Int
  y0 : Int
  x1 : Int
  y1 : Int
  cx : Nat
  cy : Nat
  ox : Nat
  oy : Nat
  lines : List Bytes
  shown : List Bytes
  attr : Attr
  deriving DecidableEq, Repr

namespace View

/-- `newView`, and the attributes. -/
def new (x0 y0 x1 y1 : Int) (attr : Attr) : View :=
  { x0, y0, x1, y1, cx := 0, cy := 0, ox := 0, oy := 0, lines := [], shown := [], attr }

/-- `View.Size`. -/
def width (v : View) : Int := v.x1 - v.x0 - 1
def height (v : View) : Int := v.y1 - v.y0 - 1

/-- `View.Write`, one byte: a newline begins a line, a carriage return empties the last line, anything else is
added to the last line (a view without lines gets its first). -/
def putByte (ls : List Bytes) (b : UInt8) : List Bytes :=
  if b = 10 then ls ++ [[]]
  else if b = 13 then ls.dropLast ++ [[]]
  else ls.dropLast ++ [ls.getLast?.getD [] ++ [b]]

/-- `fmt.Fprint(view, text)`. -/
def write (v : View) (t : Bytes) : View := { v with lines := t.foldl putByte v.lines }

/-- `View.Clear`: the text goes, cursor and origin stay. -/
def clear (v : View) : View := { v with lines := [], shown := [] }

/-- `View.ViewBuffer`: what was last drawn, a newline after every line, spaces for NUL. -/
def viewBuffer (v : View) : Bytes := Str.replaceByte 0 [32] (v.shown.flatMap (fun l => l ++ [10]))

/-- Drawing. -/
def draw (v : View) : View := { v with shown := v.lines }

/-- The number of characters (`f` at least the number of bytes). -/
def chars : Nat → Bytes → Nat
  | 0, _ => 0
  | _ + 1, [] => 0
  | f + 1, b :: r => chars f ((b :: r).drop (Path.decodeRune (b :: r)).2) + 1

/-- What is seen of the lines last drawn: `View.setRune` writes the mask instead of every character, if there is one. -/
def picture (v : View) : List Bytes :=
  if v.attr.mask = 0 then v.shown
  else v.shown.map (fun l => List.replicate (chars l.length l) v.attr.mask)

end View

/-- A pointer to a view: one of the views on screen, or one that has been deleted since. -/
inductive Ref where
  | live (n : Name)
  | gone (n : Name)
  deriving DecidableEq, Repr

def Ref.name : Ref → Name
  | .live n => n
  | .gone n => n

/-- Everything the GUI consists of. -/
structure St where
  /-- `Gui.maxX`, `Gui.maxY`: the terminal's size when it was last looked at. -/
  maxX : Int
  maxY : Int
  /-- `Gui.views`. -/
  views : Name → Option View
  /-- `Gui.currentView`; a deleted current view stays current, its contents are `orphan`. -/
  cur : Option Ref
  orphan : View
  /-- onepassWidget: `vault`, `currIdx`, `categories`. -/
  vault : Bytes
  menuIdx : Int
  cats : List (Option Cat)
  /-- itemsWidget: `currIdx`, `items`. -/
  itemIdx : Int
  items : List SimpleItem
  /-- detailsWidget: `item`. -/
  item : Option Item
  /-- helpWidget: `help`, as its lines. -/
  help : List Bytes
  /-- errorDialog: `err`. -/
  err : Option Err
  /-- What happened to the password prompt since it was opened: keys, and (`none`) drawings. -/
  typed : List (Option Key)
  /-- The goroutine of the version widget is running. -/
  pending : Bool
  /-- How often the vault was opened (it selects the map order). -/
  opened : Nat
  world : World

/-- Errors of the toolkit. -/
inductive Stop where
  | unknownView | dimensions | point | quit
  deriving DecidableEq, Repr

/-- How a handler ends. -/
inductive Res (α : Type) where
  | ok (a : α)
  | err (e : Stop)
  | panic
  | fatal
  deriving DecidableEq, Repr

/-- A piece of the GUI. -/
def Act (α : Type) := St → Res α × St

namespace Act

def pure {α : Type} (a : α) : Act α := fun s => (.ok a, s)

/-- Errors are handed on: the Go idiom `if err := …; err != nil { return err }`. -/
def bind {α β : Type} (m : Act α) (f : α → Act β) : Act β := fun s =>
  match m s with
  | (.ok a, s') => f a s'
  | (.err e, s') => (.err e, s')
  | (.panic, s') => (.panic, s')
  | (.fatal, s') => (.fatal, s')

instance : Monad Act where
  pure := Act.pure
  bind := Act.bind

def get : Act St := fun s => (.ok s, s)
def modify (f : St → St) : Act Unit := fun s => (.ok (), f s)
def fail {α : Type} (e : Stop) : Act α := fun s => (.err e, s)
def panic {α : Type} : Act α := fun s => (.panic, s)

/-- The error is looked at and not handed on. -/
def attempt {α : Type} (m : Act α) : Act Bool := fun s =>
  match m s with
  | (.ok _, s') => (.ok true, s')
  | (.err _, s') => (.ok false, s')
  | (.panic, s') => (.panic, s')
  | (.fatal, s') => (.fatal, s')

end Act

open Act

/-- What comes from libraries and is left open. -/
structure Kit where
  /-- `text.AlignCenter.Apply`: spaces on both sides. -/
  center : Bytes → Int → Bytes
  center_pad : ∀ t n, t.head? ≠ some 32 → t.getLast? ≠ some 32 →
    ∃ a b, center t n = List.replicate a 32 ++ t ++ List.replicate b 32
  /-- gocui's editor: the text in the prompt after keys and drawings. -/
  edit : List (Option Key) → List Bytes
  /-- The order of maps when the vault is opened. -/
  order : Nat → MapOrder

/-! ### gocui -/

/-- Change one view. -/
def setAt (vs : Name → Option View) (n : Name) (v : Option View) : Name → Option View :=
  fun m => if m = n then v else vs m

/-- `Gui.View`. -/
def viewOf (n : Name) : Act Ref := fun s =>
  match s.views n with
  | some _ => (.ok (.live n), s)
  | none => (.err .unknownView, s)

/-- What a pointer points to. -/
def St.deref (s : St) : Ref → View
  | .live n => (s.views n).getD s.orphan
  | .gone _ => s.orphan

/-- Reading a view. -/
def look (r : Ref) : Act View := fun s => (.ok (s.deref r), s)

/-- Writing a view. -/
def change (r : Ref) (f : View → View) : Act Unit :=
  modify fun s =>
    match r with
    | .live n => { s with views := setAt s.views n ((s.views n).map f) }
    | .gone _ => { s with orphan := f s.orphan }

/-- `Gui.SetView`: `true` if the view is new (`ErrUnknownView`). The widgets set the attributes of a new view at once; here
they are given along. -/
def setView (n : Name) (x0 y0 x1 y1 : Int) (attr : Attr) : Act Bool := fun s =>
  if x0 ≥ x1 ∨ y0 ≥ y1 then (.err .dimensions, s)
  else
    match s.views n with
    | some v => (.ok false, { s with views := setAt s.views n (some { v with x0, y0, x1, y1 }) })
    | none => (.ok true, { s with views := setAt s.views n (some (View.new x0 y0 x1 y1 attr)) })

/-- `Gui.DeleteView`. -/
def deleteView (n : Name) : Act Unit := fun s =>
  match s.views n with
  | none => (.err .unknownView, s)
  | some v =>
    if s.cur = some (.live n) then
      (.ok (), { s with views := setAt s.views n none, cur := some (.gone n), orphan := v })
    else (.ok (), { s with views := setAt s.views n none })

/-- `Gui.SetCurrentView`. -/
def setCurrentView (n : Name) : Act Unit := fun s =>
  match s.views n with
  | none => (.err .unknownView, s)
  | some _ => (.ok (), { s with cur := some (.live n) })

/-- `View.SetCursor`. -/
def setCursor (r : Ref) (x y : Int) : Act Unit := do
  let v ← look r
  if x < 0 ∨ x ≥ v.width ∨ y < 0 ∨ y ≥ v.height then fail .point
  else change r (fun v => { v with cx := x.toNat, cy := y.toNat })

/-- `View.SetOrigin`. -/
def setOrigin (r : Ref) (x y : Int) : Act Unit :=
  if x < 0 ∨ y < 0 then fail .point
  else change r (fun v => { v with ox := x.toNat, oy := y.toNat })

/-- `int(0.5*float32(n))`; exact for sizes below 2^24. -/
def half (n : Int) : Int := n.tdiv 2

/-! ### Help (helpwidget.go) -/

/-- helpwidget.go:14-17 `mainHelp`, and the constants of the other widgets, as their lines. -/
def mainHelp : List Bytes := [b!"Exit: CTRL+Q", b!"Lock: CTRL+L"]
/-- 1passwidget.go:18-21. -/
def onepassHelp : List Bytes := [b!"Navigate up/down: k/j", b!"Open: ENTER"]
/-- itemswidget.go:15-19. -/
def itemsHelp : List Bytes := [b!"Navigate up/down: k/j", b!"Go back: Q", b!"Reveal item: TAB"]
/-- detailswidget.go:15-19. -/
def detailsHelp : List Bytes := [b!"Scroll up/down: k/j", b!"Scroll left/right: h/l", b!"Cover item: TAB"]

def tabs : Bytes := [9, 9, 9, 9]

/-- helpwidget.go:40-57. -/
def helpBody (help : List Bytes) : Bytes :=
  mainHelp.flatMap (fun l => l ++ tabs) ++ tabs.intercalate help

/-- helpwidget.go:32-62 `update`. -/
def helpUpdate : Act Unit := do
  let r ← viewOf .help
  let s ← Act.get
  change r (fun v => v.clear.write (helpBody s.help))

/-- Setting `helpWidget.help` and showing it. -/
def setHelp (h : List Bytes) : Act Unit := do
  modify (fun s => { s with help := h })
  helpUpdate

/-- helpwidget.go:72. -/
def helpAttr : Attr := { title := b!"Help", editable := false, mask := 0, highlight := false }

/-- helpwidget.go:64-78 `Layout`; the result of `update` is not looked at. -/
def helpLayout : Act Unit := do
  let s ← Act.get
  let new ← setView .help 0 (s.maxY - 3) (s.maxX - 1) (s.maxY - 1) helpAttr
  if new then
    let _ ← attempt helpUpdate
    Act.pure ()
  else Act.pure ()

/-! ### Version (versionwidget.go) -/

/-- versionwidget.go:54. -/
def verAttr : Attr := { title := b!"Version", editable := false, mask := 0, highlight := false }

/-- versionwidget.go:46-61 `Layout`. -/
def verLayout : Act Unit := do
  let s ← Act.get
  let new ← setView .ver 0 0 (s.maxX - 1) 2 verAttr
  if new then
    change (.live .ver) (fun v => v.write (b!"1Pass v" ++ Upd.version ++ b!" "))
    modify (fun s => { s with pending := true })
  else Act.pure ()

/-- versionwidget.go:35-43: what the check's result is shown as. -/
def checkText : Except Err UpdateInfo → Bytes
  | .error .noUpdate => b!"(" ++ Err.noUpdate.text ++ b!")"
  | .error _ => b!"(update check failed - run '1pass update' for more info)"
  | .ok info => b!"(new version is available: v" ++ info.version ++ b!" - run '1pass update' to upgrade)"

/-- Running a part of the program that has no screen. -/
def onWorld {α : Type} (m : Prog α) : Act α := fun s =>
  match m s.world with
  | (.ret a, w) => (.ok a, { s with world := w })
  | (.panic, w) => (.panic, { s with world := w })
  | (.fatal, w) => (.fatal, { s with world := w })

variable (C : Ctx) (K : Kit)

/-- versionwidget.go:31-44 `update`, guicontrol.go:27-29 `CheckForUpdate`: the goroutine, as one step. A panic in
a goroutine ends the process. -/
def verUpdate : Act Unit := do
  let r ← onWorld (Upd.facadeCheck C.sys C.ext C.dir true)
  let s ← Act.get
  match s.views .ver with
  | none => Act.panic
  | some _ => change (.live .ver) (fun v => v.write (checkText r))

/-! ### Password prompt and error dialog -/

/-- passprompt.go:43-45. -/
def promptAttr : Attr := { title := b!"Password", editable := true, mask := 42, highlight := false }

/-- passprompt.go:33-53 `Layout`. -/
def promptLayout : Act Unit := do
  let s ← Act.get
  let new ← setView .prompt (s.maxX.tdiv 2 - 30) (s.maxY.tdiv 2 - 1) (s.maxX.tdiv 2 + 30) (s.maxY.tdiv 2 + 1) promptAttr
  if new then
    modify (fun s => { s with typed := [] })
    setCurrentView .prompt
  else Act.pure ()

/-- errdialog.go:47-49. -/
def errorAttr : Attr := { title := b!"Error", editable := false, mask := 0, highlight := true }

/-- errdialog.go:36-59 `Layout`; a nil error prints as `<nil>`. -/
def errorLayout : Act Unit := do
  let s ← Act.get
  let new ← setView .error (s.maxX.tdiv 2 - 30) (s.maxY.tdiv 2 - 1) (s.maxX.tdiv 2 + 30) (s.maxY.tdiv 2 + 1) errorAttr
  if new then
    setCurrentView .error
    change (.live .error) (fun v => v.write (match s.err with | some e => e.text | none => b!"<nil>"))
  else Act.pure ()

/-! ### Details (detailswidget.go) -/

/-- detailswidget.go:40-58 `resetOrigin`. -/
def resetOrigin (r : Ref) : Act Unit := do
  let v ← look r
  if v.ox > 0 then setOrigin r 0 v.oy else Act.pure ()
  if v.oy > 0 then setOrigin r v.ox 0 else Act.pure ()

/-- detailswidget.go:60-70 `scrollDown`. -/
def scrollDown (r : Ref) : Act Unit := do
  let v ← look r
  setOrigin r v.ox (v.oy + 1)

/-- detailswidget.go:72-84 `scrollLeft`. -/
def scrollLeft (r : Ref) : Act Unit := do
  let v ← look r
  if v.ox > 0 then setOrigin r (v.ox - 1) v.oy else Act.pure ()

/-- detailswidget.go:86-96 `scrollRight`. -/
def scrollRight (r : Ref) : Act Unit := do
  let v ← look r
  setOrigin r (v.ox + 1) v.oy

/-- detailswidget.go:98-110 `scrollUp`. -/
def scrollUp (r : Ref) : Act Unit := do
  let v ← look r
  if v.oy > 0 then setOrigin r v.ox (v.oy - 1) else Act.pure ()

/-- detailswidget.go:144-153: what is shown of every item. -/
def detailsHead (E : Env) (i : Item) : Bytes :=
  i.category.name ++ b!"\n" ++ Cli.rule ++ b!"\n" ++ i.title ++ b!"\n\n" ++
  b!"Updated: " ++ Time.formatStamp i.updated (E.zone i.updated) ++ b!"\nCreated: " ++
  Time.formatStamp i.created (E.zone i.created) ++ b!"\nTrashed: " ++ boolText i.trashed ++ b!"\n" ++
  (if i.url ≠ [] then b!"URL: " ++ i.url ++ b!"\n" else [])

/-- detailswidget.go:155-214: sections and notes; covered (156-183) or revealed (185-213). -/
def detailsBody (covered : Bool) (i : Item) : Bytes :=
  (match i.sections with
   | none => []
   | some ss =>
     ss.flatMap (fun s =>
       b!"\n" ++ (if s.title ≠ [] then s.title ++ b!"\n" else []) ++ Cli.rule ++ b!"\n" ++
       (match s.fields with
        | none => []
        | some fs => fs.flatMap (fun f => f.name ++ b!": " ++ (if covered then Cli.mask else f.value) ++ b!"\n"))) ++
     b!"\n") ++
  (if i.notes ≠ [] then
     (if i.sections = none then b!"\n" else []) ++ b!"Notes\n" ++ Cli.rule ++ b!"\n" ++
     (if covered then Cli.mask else i.notes) ++ b!"\n"
   else [])

/-- detailswidget.go:130-219 `update`. -/
def detailsUpdate (covered : Bool) : Act Unit := do
  let r ← viewOf .details
  change r View.clear
  resetOrigin r
  let s ← Act.get
  match s.item with
  | none => Act.pure ()
  | some i => change r (fun v => v.write (detailsHead C.env i ++ detailsBody covered i))

/-- detailswidget.go:112-128 `toggleDetails`. -/
def cover : Act Unit := do
  detailsUpdate C true
  setCurrentView .items
  setHelp itemsHelp

/-- detailswidget.go:276. -/
def detailsAttr : Attr := { title := b!"Details", editable := false, mask := 0, highlight := false }

/-- detailswidget.go:265-280 `Layout`. -/
def detailsLayout : Act Unit := do
  let s ← Act.get
  let _ ← setView .details (half s.maxX) 4 (s.maxX - 2) (s.maxY - 5) detailsAttr
  Act.pure ()

/-! ### Moving the cursor of a list (1passwidget.go and itemswidget.go contain the same lines) -/

/-- 1passwidget.go:68-76, itemswidget.go:52-60. -/
def rowDown (r : Ref) : Act Unit := do
  let v ← look r
  let done ← attempt (setCursor r v.cx (v.cy + 1))
  if done then Act.pure () else setOrigin r v.ox (v.oy + 1)

/-- 1passwidget.go:86-93, itemswidget.go:74-81. -/
def rowUp (r : Ref) : Act Unit := do
  let v ← look r
  let done ← attempt (setCursor r v.cx (v.cy - 1))
  if done then Act.pure () else if v.oy > 0 then setOrigin r v.ox (v.oy - 1) else Act.pure ()

/-- 1passwidget.go:133-147, itemswidget.go:127-140 `resetCursor`. -/
def resetCursor (r : Ref) : Act Unit := do
  let v ← look r
  let done ← attempt (setCursor r v.cx 0)
  if done then Act.pure () else if v.oy > 0 then setOrigin r v.ox 0 else Act.pure ()

/-! ### Items (itemswidget.go) -/

/-- itemswidget.go:143-144, 154-155: `iw.items[iw.currIdx]`, guicontrol.go:35-37 `GetItem`. -/
def fetch : Act Unit := do
  let s ← Act.get
  if s.itemIdx < 0 then Act.panic
  else
    match s.items[s.itemIdx.toNat]? with
    | none => Act.panic
    | some i => modify (fun s => { s with item := s.world.sess.getItem i.uid i.trashed })

/-- itemswidget.go:142-151 `showOverview`. -/
def showOverview : Act Unit := do
  fetch
  detailsUpdate C true

/-- itemswidget.go:153-172 `toggleDetails`. -/
def reveal : Act Unit := do
  fetch
  detailsUpdate C false
  setCurrentView .details
  setHelp detailsHelp

/-- itemswidget.go:50-70 `cursorDown`. -/
def itemsDown (r : Ref) : Act Unit := do
  let s ← Act.get
  if s.itemIdx ≠ -1 ∧ s.itemIdx < (s.items.length : Int) - 1 then
    rowDown r
    modify (fun s => { s with itemIdx := s.itemIdx + 1 })
    showOverview C
  else Act.pure ()

/-- itemswidget.go:72-91 `cursorUp`. -/
def itemsUp (r : Ref) : Act Unit := do
  let s ← Act.get
  if s.itemIdx > 0 then
    rowUp r
    modify (fun s => { s with itemIdx := s.itemIdx - 1 })
    showOverview C
  else Act.pure ()

/-- itemswidget.go:93-107 `goBack`. -/
def goBack : Act Unit := do
  deleteView .details
  deleteView .items
  setCurrentView .menu

/-- itemswidget.go:190-199: the row of an item. -/
def itemRow (i : SimpleItem) : Bytes := (if i.title = [] then b!"<NO TITLE>" else i.title) ++ [10]

/-- itemswidget.go:174-209 `update`. -/
def itemsUpdate : Act Unit := do
  let r ← viewOf .items
  modify (fun s => { s with itemIdx := -1 })
  resetCursor r
  change r View.clear
  let s ← Act.get
  if s.items.length > 0 then
    change r (fun v => v.write (s.items.flatMap itemRow))
    modify (fun s => { s with itemIdx := 0 })
    showOverview C
  else Act.pure ()

/-- itemswidget.go:266-269. -/
def itemsAttr : Attr := { title := b!"Items", editable := false, mask := 0, highlight := true }

/-- itemswidget.go:255-289 `Layout`; the result of `update` is not looked at. -/
def itemsLayout : Act Unit := do
  let s ← Act.get
  let new ← setView .items 1 4 (half (s.maxX - 2)) (s.maxY - 5) itemsAttr
  if new then
    let _ ← attempt (itemsUpdate C)
    detailsLayout
    setCurrentView .items
    setHelp itemsHelp
  else Act.pure ()

/-! ### Menu (1passwidget.go) -/

/-- 1passwidget.go:66-82 `cursorDown`. -/
def menuDown (r : Ref) : Act Unit := do
  let s ← Act.get
  if s.menuIdx ≠ -1 ∧ s.menuIdx < (s.cats.length : Int) - 1 then
    rowDown r
    modify (fun s => { s with menuIdx := s.menuIdx + 1 })
  else Act.pure ()

/-- 1passwidget.go:84-99 `cursorUp`. -/
def menuUp (r : Ref) : Act Unit := do
  let s ← Act.get
  if s.menuIdx > 0 then
    rowUp r
    modify (fun s => { s with menuIdx := s.menuIdx - 1 })
  else Act.pure ()

/-- `fmt.Sprintf("%v (%d)", …)`. -/
def label (name : Bytes) (n : Nat) : Bytes := name ++ b!" (" ++ Num.natDec n ++ b!")"

/-- 1passwidget.go:216-233: the categories that have items. -/
def usedCats (sess : Session) : List Cat := sess.reg.filter (fun c => decide (sess.countItems (some c) false ≠ 0))

/-- 1passwidget.go:215-246: `categories`, with the shared list already sorted. -/
def menuCats (sess : Session) : List (Option Cat) :=
  (if sess.countItems none false ≠ 0 then none :: (usedCats sess).map some else []) ++
  (if sess.countItems none true ≠ 0 then [none] else [])

/-- 1passwidget.go:215-246: what is written into the menu. -/
def menuText (maxX : Int) (sess : Session) : Bytes :=
  (if sess.countItems none false ≠ 0 then
     K.center (label b!"All" (sess.countItems none false)) (maxX - 1) ++ b!"\n" ++
     (usedCats sess).flatMap (fun c => K.center (label c.name (sess.countItems (some c) false)) (maxX - 1) ++ b!"\n")
   else []) ++
  (if sess.countItems none true ≠ 0 then
     K.center (label b!"Trashed" (sess.countItems none true)) (maxX - 1)
   else [])

/-- 1passwidget.go:220-224: the shared list is sorted, but only if there are items. -/
def sortCats (sess : Session) : Session :=
  if sess.countItems none false ≠ 0 then sess.sortReg C.sorter Cli.lessCode else sess

/-- 1passwidget.go:206-250: `update` of an open vault. -/
def menuFill : Act Unit := do
  let r ← viewOf .menu
  modify (fun s => { s with world := { s.world with sess := sortCats C s.world.sess } })
  let s ← Act.get
  change r (fun v => v.write (menuText K s.maxX s.world.sess))
  modify (fun s => { s with cats := s.cats ++ menuCats s.world.sess })
  modify (fun s => if s.cats.length > 0 then { s with menuIdx := 0 } else s)

/-- 1passwidget.go:205-257 `update`, 125-131 `promptForPassword`. -/
def menuUpdate : Act Unit := do
  let s ← Act.get
  if s.world.sess.isUnlocked then menuFill C K else promptLayout

/-- 1passwidget.go:101-123 `lock`, guicontrol.go:47-49 `LockVault`. -/
def lock (r : Ref) : Act Unit := do
  modify (fun s => { s with menuIdx := -1, cats := [], world := { s.world with sess := s.world.sess.lock } })
  resetCursor r
  change r View.clear
  menuUpdate C K
  setHelp onepassHelp

/-- itemswidget.go:109-125 `lock`, also the lock handler of the details (itemswidget.go:45). -/
def itemsLock : Act Unit := do
  goBack
  let r ← viewOf .menu
  lock C K r

/-- 1passwidget.go:54-64 `closeError`. -/
def closeError : Act Unit := do
  deleteView .error
  menuUpdate C K

/-- guicontrol.go:51-53 `Unlock`. -/
def tryUnlock (password : Bytes) : Act (Except Err Unit) := do
  let s ← Act.get
  modify (fun s => { s with opened := s.opened + 1 })
  onWorld (Cli.onSession (fun d sess => sess.unlock C.env (K.order s.opened) d s.vault password))

/-- 1passwidget.go:149-173 `unlock`. -/
def unlock (r : Ref) : Act Unit := do
  let v ← look r
  let password := Str.trimSpace v.viewBuffer
  deleteView .prompt
  match ← tryUnlock C K password with
  | .error e => do
    modify (fun s => { s with err := some e })
    errorLayout
  | .ok _ => do
    setCurrentView .menu
    menuUpdate C K

/-- 1passwidget.go:181-194: which items an entry opens; guicontrol.go:39-41 `GetItems`. `none` is an index out
of range. -/
def entryItems (s : St) : Option (List SimpleItem) :=
  let get (cat : Option Cat) (trashed : Bool) := s.world.sess.getItems C.env.text C.sorter cat [] trashed
  if s.cats.length = 1 then some (get none true)
  else if s.menuIdx = (s.cats.length : Int) - 1 then some (get none true)
  else if s.menuIdx = 0 then some (get none false)
  else if s.menuIdx < 0 then none
  else (s.cats[s.menuIdx.toNat]?).map (fun c => get c false)

/-- 1passwidget.go:175-203 `showItems`. -/
def showItems : Act Unit := do
  let s ← Act.get
  if s.menuIdx ≠ -1 then
    itemsLayout C
    let s ← Act.get
    match entryItems C s with
    | none => Act.panic
    | some l =>
      modify (fun s => { s with items := l })
      itemsUpdate C
  else Act.pure ()

/-- 1passwidget.go:317-319. -/
def menuAttr : Attr := { title := b!"1Pass", editable := false, mask := 0, highlight := true }

/-- 1passwidget.go:307-337 `Layout`. -/
def menuLayout : Act Unit := do
  let s ← Act.get
  let new ← setView .menu 0 3 (s.maxX - 1) (s.maxY - 4) menuAttr
  if new then
    setCurrentView .menu
    menuUpdate C K
    setHelp onepassHelp
  else Act.pure ()

/-! ### Keys and the main loop -/

def Key.isChar (k : Key) (c : Char) : Bool := k = .ch c.toNat

/-- `Keybindings` of all widgets: errdialog.go:28-34, passprompt.go:25-31, detailswidget.go:221-263,
itemswidget.go:211-253, 1passwidget.go:259-305. `none`: nothing is bound. -/
def binding (n : Name) (k : Key) (r : Ref) : Option (Act Unit) :=
  match n with
  | .error => if k = .enter then some (closeError C K) else none
  | .prompt => if k = .enter then some (unlock C K r) else none
  | .details =>
    if k = .ctrlL then some (itemsLock C K)
    else if k.isChar 'j' ∨ k = .down then some (scrollDown r)
    else if k.isChar 'k' ∨ k = .up then some (scrollUp r)
    else if k.isChar 'l' ∨ k = .right then some (scrollRight r)
    else if k.isChar 'h' ∨ k = .left then some (scrollLeft r)
    else if k = .tab then some (cover C)
    else none
  | .items =>
    if k = .ctrlL then some (itemsLock C K)
    else if k.isChar 'h' ∨ k = .left ∨ k.isChar 'q' then some goBack
    else if k.isChar 'j' ∨ k = .down then some (itemsDown C r)
    else if k.isChar 'k' ∨ k = .up then some (itemsUp C r)
    else if k = .tab then some (reveal C)
    else none
  | .menu =>
    if k = .ctrlL then some (lock C K r)
    else if k.isChar 'j' ∨ k = .down then some (menuDown r)
    else if k.isChar 'k' ∨ k = .up then some (menuUp r)
    else if k.isChar 'l' ∨ k = .right ∨ k = .enter then some (showItems C)
    else none
  | _ => none

/-- Typing into the prompt. -/
def typeKey (k : Key) (r : Ref) : Act Unit := do
  modify (fun s => { s with typed := s.typed ++ [some k] })
  let s ← Act.get
  change r (fun v => { v with lines := K.edit s.typed })

/-- `Gui.onKey`: the binding of the current view, the global binding (gocui.go:56), or, in an editable view
(only the prompt, see `C101_masked`), the editor. -/
def press (k : Key) : Act Unit := do
  let s ← Act.get
  if k = .ctrlQ then fail .quit
  else
    match s.cur with
    | none => Act.pure ()
    | some r =>
      match binding C K r.name k r with
      | some act => act
      | none => if r.name = .prompt then typeKey K k r else Act.pure ()

/-- `Gui.flush`: the terminal's size is looked at, the managers (gocui.go:50) lay out their views, all views
are drawn. -/
def flush (width height : Nat) : Act Unit := do
  modify (fun s => { s with maxX := width, maxY := height })
  verLayout
  helpLayout
  menuLayout C K
  modify (fun s => { s with views := fun n => (s.views n).map View.draw, typed := s.typed ++ [none] })

/-- What can happen while the GUI runs. -/
inductive Event where
  /-- a key is handled -/
  | key (k : Key)
  /-- the screen is drawn, on a terminal of this size -/
  | flush (width height : Nat)
  /-- the goroutine of the version widget finishes -/
  | checked
  /-- somebody else changes the disk -/
  | disk (d : Disk)

/-- One step. -/
def step : Event → Act Unit
  | .key k => press C K k
  | .flush w h => flush C K w h
  | .checked => do
    let s ← Act.get
    if s.pending then
      modify (fun s => { s with pending := false })
      verUpdate C
    else Act.pure ()
  | .disk d => modify (fun s => { s with world := { s.world with disk := d } })

/-- The main loop. gocui draws after every batch of keys; here keys, drawings, the end of the background check
and changes from outside may follow each other in any order. -/
def run : List Event → Act Unit
  | [] => Act.pure ()
  | e :: es => do
    step C K e
    run es

/-- gocui.go:46-50: the widgets before the main loop (1passwidget.go:36-52, itemswidget.go:33-48,
detailswidget.go:30-38, helpwidget.go:25-30). -/
def start (vault : Bytes) (w : World) : St :=
  { maxX := 0, maxY := 0, views := fun _ => none, cur := none, orphan := View.new 0 0 0 0 ⟨[], false, 0, false⟩, vault, menuIdx := -1,
    cats := [], itemIdx := -1, items := [], item := none, help := [], err := none, typed := [], pending := false,
    opened := 0, world := w }

/-- gocui.go:60-62: how the process goes on after the main loop. -/
def Res.out : Res Unit → Out Unit
  | .ok _ => .ret ()
  | .err .quit => .ret ()
  | .err _ => .fatal
  | .panic => .panic
  | .fatal => .fatal

/-- The main loop (`MainLoop` draws first) as a part of the program: `w`, `h` is the terminal's size. -/
def loop (vault : Bytes) (width height : Nat) (es : List Event) : Prog Unit := fun w =>
  let r := run C K (.flush width height :: es) (start vault w)
  (r.1.out, r.2.world)

/-- gocui.go:32-63 `Run`, guicontrol.go:55-70 `ValidateVault`. -/
def app (path : Bytes) (width height : Nat) (es : List Event) : Prog Unit := do
  let vault ← Cli.chooseVault path
  match ← Cli.onSession (fun d s => s.validate d vault) with
  | .error e => Cli.die e
  | .ok _ => loop C K vault width height es

/-- main.go:26-76, cobra.go:39-42: a run of the program without a command. -/
def main (path : Bytes) (width height : Nat) (es : List Event) : Prog Unit := do
  Cli.main C (.gui path)
  Gui.app C K path width height es

end Gui
end OnePass
