/-
`filepath.Match` and `filepath.Glob` (Go 1.15, path/filepath/match.go).
-/
import Verif.Go.Path

namespace OnePass
namespace Path

/-- `utf8.DecodeRuneInString` on a non-empty string: code point and width; an invalid byte is U+FFFD, width 1. -/
def decodeRune (s : Bytes) : Nat × Nat :=
  match s with
  | [] => (0xFFFD, 0)
  | b :: _ =>
    if b < 128 then (b.toNat, 1)
    else match Json.utf8Len s, s with
      | 2, b0 :: b1 :: _ => ((b0.toNat - 0xC0) * 64 + (b1.toNat - 0x80), 2)
      | 3, b0 :: b1 :: b2 :: _ => ((b0.toNat - 0xE0) * 4096 + (b1.toNat - 0x80) * 64 + (b2.toNat - 0x80), 3)
      | 4, b0 :: b1 :: b2 :: b3 :: _ =>
        ((b0.toNat - 0xF0) * 262144 + (b1.toNat - 0x80) * 4096 + (b2.toNat - 0x80) * 64 + (b3.toNat - 0x80), 4)
      | _, _ => (0xFFFD, 1)

/-- `getEsc`: a possibly escaped character of a character class; `none` is `ErrBadPattern`. -/
def getEsc (chunk : Bytes) : Option (Nat × Bytes) :=
  match chunk with
  | [] => none
  | c :: r =>
    if c = 45 ∨ c = 93 then none
    else
      let chunk' := if c = 92 then r else chunk
      if chunk' = [] then none
      else
        let rn := decodeRune chunk'
        if rn.1 = 0xFFFD ∧ rn.2 = 1 then none
        else if chunk'.drop rn.2 = [] then none
        else some (rn.1, chunk'.drop rn.2)

/-- The loop over the ranges of a character class. -/
def ranges (r : Nat) : Nat → Bytes → Bool → Bool → Option (Bool × Bytes)
  | 0, _, _, _ => none
  | f + 1, chunk, matched, any =>
    if chunk.head? = some 93 ∧ any = true then some (matched, chunk.tail)
    else
      match getEsc chunk with
      | none => none
      | some (lo, ch1) =>
        match ch1 with
        | 45 :: ch2 =>
          match getEsc ch2 with
          | none => none
          | some (hi, ch3) => ranges r f ch3 (matched || (lo ≤ r && r ≤ hi)) true
        | _ => ranges r f ch1 (matched || (lo ≤ r && r ≤ lo)) true

/-- `matchChunk`: `none` is `ErrBadPattern`, `some none` no match, `some (some t)` the rest of the name. -/
def matchChunk : Nat → Bytes → Bytes → Option (Option Bytes)
  | 0, _, _ => none
  | _ + 1, [], s => some (some s)
  | _ + 1, _ :: _, [] => some none
  | f + 1, c :: chunk, b :: s =>
    if c = 91 then
      match chunk with
      | [] => none
      | c1 :: chunk1 =>
        match ranges (decodeRune (b :: s)).1 f (if c1 = 94 then chunk1 else chunk) false false with
        | none => none
        | some (m, rest) =>
          if m = (c1 == 94) then some none
          else matchChunk f rest ((b :: s).drop (decodeRune (b :: s)).2)
    else if c = 63 then
      if b = 47 then some none else matchChunk f chunk ((b :: s).drop (decodeRune (b :: s)).2)
    else if c = 92 then
      match chunk with
      | [] => none
      | c1 :: chunk1 => if c1 ≠ b then some none else matchChunk f chunk1 s
    else if c ≠ b then some none
    else matchChunk f chunk s

/-- The scan of `scanChunk` up to the next unbracketed star: chunk and rest. -/
def scan : Bool → Bytes → Bytes × Bytes
  | _, [] => ([], [])
  | inrange, c :: r =>
    if c = 92 then
      match r with
      | [] => ([c], [])
      | c1 :: r1 => let x := scan inrange r1; (c :: c1 :: x.1, x.2)
    else if c = 91 then let x := scan true r; (c :: x.1, x.2)
    else if c = 93 then let x := scan false r; (c :: x.1, x.2)
    else if c = 42 ∧ inrange = false then ([], c :: r)
    else let x := scan inrange r; (c :: x.1, x.2)

/-- `scanChunk`: whether the pattern starts with stars, the chunk after them, the rest. -/
def scanChunk (pattern : Bytes) : Bool × Bytes × Bytes :=
  (pattern.head? == some 42, scan false (pattern.dropWhile (· == 42)))

/-- The loop of `Match` that skips bytes after a star. -/
def skipMatch (chunk : Bytes) (last : Bool) : Bytes → Option (Option Bytes)
  | [] => some none
  | c :: rest =>
    if c = 47 then some none
    else
      match matchChunk (chunk.length + 1) chunk rest with
      | none => none
      | some (some t) => if last && !t.isEmpty then skipMatch chunk last rest else some (some t)
      | some none => skipMatch chunk last rest

/-- `filepath.Match`: `none` is `ErrBadPattern`. -/
def matchP : Nat → Bytes → Bytes → Option Bool
  | 0, _, _ => none
  | f + 1, pattern, name =>
    if pattern = [] then some name.isEmpty
    else
      match scanChunk pattern with
      | (star, chunk, rest) =>
        if star && chunk.isEmpty then some (!name.contains 47)
        else
          match matchChunk (chunk.length + 1) chunk name with
          | none => none
          | some r =>
            match r with
            | some t =>
              if t.isEmpty || !rest.isEmpty then matchP f rest t
              else if star then
                match skipMatch chunk rest.isEmpty name with
                | none => none
                | some none => some false
                | some (some t) => matchP f rest t
              else some false
            | none =>
              if star then
                match skipMatch chunk rest.isEmpty name with
                | none => none
                | some none => some false
                | some (some t) => matchP f rest t
              else some false

def match? (pattern name : Bytes) : Option Bool := matchP (pattern.length + 1) pattern name

/-- `hasMeta`. -/
def hasMeta (p : Bytes) : Bool := p.any (fun b => b == 42 || b == 63 || b == 91 || b == 92)

/-- `filepath.Split`: directory part with its trailing slash, and file part. -/
def splitFile (p : Bytes) : Bytes × Bytes :=
  ((p.reverse.dropWhile (· != 47)).reverse, (p.reverse.takeWhile (· != 47)).reverse)

/-- `cleanGlobPath`. -/
def cleanGlobPath (dir : Bytes) : Bytes :=
  if dir = [] then [46] else if dir = [47] then [47] else dir.dropLast

/-- The function `glob` of match.go: entries of a directory that match; `none` is `ErrBadPattern`. -/
def globDir (d : Disk) (dir pattern : Bytes) : Option (List Bytes) :=
  match d.stat dir with
  | some .dir =>
    (d.dirNames (resolve d.cwd dir)).foldr (fun n acc =>
      match match? pattern n, acc with
      | some true, some l => some (join [dir, n] :: l)
      | some false, some l => some l
      | _, _ => none) (some [])
  | _ => some []

/-- `filepath.Glob`; `none` is `ErrBadPattern`. -/
def glob (d : Disk) : Nat → Bytes → Option (List Bytes)
  | 0, _ => none
  | f + 1, pattern =>
    if !hasMeta pattern then
      match d.stat pattern with
      | some _ => some [pattern]
      | none => some []
    else
      let dir := cleanGlobPath (splitFile pattern).1
      let file := (splitFile pattern).2
      if !hasMeta dir then globDir d dir file
      else if dir = pattern then none
      else
        match glob d f dir with
        | none => none
        | some ds =>
          ds.foldr (fun x acc =>
            match globDir d x file, acc with
            | some a, some b => some (a ++ b)
            | _, _ => none) (some [])

end Path
end OnePass
