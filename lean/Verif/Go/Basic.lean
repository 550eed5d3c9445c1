/-
Outcomes, byte strings and slices: the fragment of the Go language the model rests on.
Nothing in this file models a line of the repository; it models the Go semantics that the
repository's code uses.
-/
import Mathlib.Data.List.Forall2

namespace OnePass

/-- Go strings and the contents of Go byte slices. -/
abbrev Bytes := List UInt8

open Lean in
/-- `b!"text"` is the UTF-8 byte list of a literal, expanded at elaboration time. -/
macro:max "b!" s:str : term => do
  let bytes := s.getString.toUTF8.toList
  let elems : Array (TSyntax `term) :=
    (bytes.map (fun (b : UInt8) => (⟨Syntax.mkNumLit (toString b.toNat)⟩ : TSyntax `term))).toArray
  `(([$elems,*] : List UInt8))

/-- A statement about all 256 bytes is decidable: the table is complete. -/
instance decForallByte (p : UInt8 → Prop) [DecidablePred p] : Decidable (∀ b : UInt8, p b) :=
  decidable_of_iff (∀ i : Fin 256, p (UInt8.ofFin i)) <| by
    constructor
    · intro h b
      have := h b.toFin
      simpa using this
    · intro h i
      exact h _

/-- How a Go function ends: it returns, it panics (out-of-range index, failed type assertion, write
to a nil map), or the process is terminated by `log.Fatalln` / `os.Exit`. -/
inductive Out (α : Type) where
  | ret (a : α)
  | panic
  | fatal
  deriving DecidableEq, Repr

namespace Out

@[inline] def bind {α β : Type} (x : Out α) (f : α → Out β) : Out β :=
  match x with
  | ret a => f a
  | panic => panic
  | fatal => fatal

instance : Monad Out where
  pure := Out.ret
  bind := Out.bind

@[simp] theorem pure_eq {α : Type} (a : α) : (pure a : Out α) = ret a := rfl
@[simp] theorem ret_bind {α β : Type} (a : α) (f : α → Out β) : (ret a >>= f) = f a := rfl
@[simp] theorem panic_bind {α β : Type} (f : α → Out β) : ((panic : Out α) >>= f) = panic := rfl
theorem bind_assoc {α β γ : Type} (x : Out α) (f : α → Out β) (g : β → Out γ) :
    (x >>= f) >>= g = x >>= fun a => f a >>= g := by cases x <;> rfl
@[simp] theorem fatal_bind {α β : Type} (f : α → Out β) : ((fatal : Out α) >>= f) = fatal := rfl

instance : LawfulMonad Out := LawfulMonad.mk'
  (id_map := by intro α x; cases x <;> rfl)
  (pure_bind := by intros; rfl)
  (bind_assoc := by intro α β γ x f g; cases x <;> rfl)

theorem bind_eq_ret {α β : Type} {x : Out α} {f : α → Out β} {b : β} :
    (x >>= f) = ret b ↔ ∃ a, x = ret a ∧ f a = ret b := by
  cases x <;> simp

theorem bind_eq_panic {α β : Type} {x : Out α} {f : α → Out β} :
    (x >>= f) = panic ↔ x = panic ∨ ∃ a, x = ret a ∧ f a = panic := by
  cases x <;> simp

theorem bind_eq_fatal {α β : Type} {x : Out α} {f : α → Out β} :
    (x >>= f) = fatal ↔ x = fatal ∨ ∃ a, x = ret a ∧ f a = fatal := by
  cases x <;> simp

@[simp] theorem map_ret {α β : Type} (f : α → β) (a : α) : f <$> (ret a) = ret (f a) := rfl
@[simp] theorem map_panic {α β : Type} (f : α → β) : f <$> (panic : Out α) = panic := rfl
@[simp] theorem map_fatal {α β : Type} (f : α → β) : f <$> (fatal : Out α) = fatal := rfl

/-- A loop `for _, x := range xs { ... append ... }` whose body may panic. -/
def mapL {α β : Type} (f : α → Out β) : List α → Out (List β)
  | [] => ret []
  | x :: xs => do
    let y ← f x
    let ys ← mapL f xs
    pure (y :: ys)

theorem mapL_ret {α β : Type} {f : α → Out β} {g : α → β} {l : List α}
    (h : ∀ x ∈ l, f x = ret (g x)) : mapL f l = ret (l.map g) := by
  induction l with
  | nil => rfl
  | cons x xs ih =>
    simp only [mapL, h x (by simp), ret_bind, ih (fun y hy => h y (by simp [hy])), pure_eq,
      List.map_cons]

theorem mapL_eq_ret {α β : Type} {f : α → Out β} {l : List α} {r : List β} :
    mapL f l = ret r ↔ List.Forall₂ (fun x y => f x = ret y) l r := by
  induction l generalizing r with
  | nil => constructor
           · intro h; cases h; exact .nil
           · intro h; cases h; rfl
  | cons x xs ih =>
    simp only [mapL, bind_eq_ret, pure_eq]
    constructor
    · rintro ⟨y, hy, ys, hys, h⟩
      cases h
      exact .cons hy (ih.1 hys)
    · intro h
      cases h with
      | cons h1 h2 => exact ⟨_, h1, _, ih.2 h2, rfl⟩

theorem mapL_perm {α β : Type} {f : α → Out β} {l l' : List α} {r : List β}
    (hp : l.Perm l') (h : mapL f l = ret r) : ∃ r', mapL f l' = ret r' ∧ r.Perm r' := by
  induction hp generalizing r with
  | nil => exact ⟨r, h, .refl _⟩
  | cons x _ ih =>
    simp only [mapL, bind_eq_ret, pure_eq] at h
    obtain ⟨y, hy, ys, hys, h⟩ := h
    cases h
    obtain ⟨r', h1, h2⟩ := ih hys
    exact ⟨y :: r', by simp [mapL, hy, h1], h2.cons y⟩
  | swap x y l =>
    simp only [mapL, bind_eq_ret, pure_eq] at h
    obtain ⟨a, ha, _, ⟨b, hb, ys, hys, h1⟩, h⟩ := h
    cases h1; cases h
    exact ⟨b :: a :: ys, by simp [mapL, ha, hb, hys], .swap _ _ _⟩
  | trans _ _ ih1 ih2 =>
    obtain ⟨r1, h1, p1⟩ := ih1 h
    obtain ⟨r2, h2, p2⟩ := ih2 h1
    exact ⟨r2, h2, p1.trans p2⟩

end Out

/-- A Go slice of bytes: the backing array from the slice's start to its capacity, and a length. -/
structure Slice where
  buf : Bytes
  len : Nat
  deriving DecidableEq, Repr

namespace Slice

/-- The elements of the slice. -/
def data (s : Slice) : Bytes := s.buf.take s.len

/-- `cap(s)`. -/
def cap (s : Slice) : Nat := s.buf.length

/-- Go keeps `len(s) ≤ cap(s)`. -/
def WF (s : Slice) : Prop := s.len ≤ s.cap

/-- `s[lo:hi]`: panics unless `lo ≤ hi ≤ cap(s)` (Go spec, "Slice expressions": for slices the upper
bound is the capacity, not the length). -/
def sub (s : Slice) (lo hi : Int) : Out Slice :=
  if 0 ≤ lo ∧ lo ≤ hi ∧ hi ≤ s.cap then
    .ret { buf := s.buf.drop lo.toNat, len := (hi - lo).toNat }
  else .panic

theorem sub_cases (s : Slice) (lo hi : Int) : (∃ x, s.sub lo hi = .ret x) ∨ s.sub lo hi = .panic := by
  unfold sub; split
  · exact .inl ⟨_, rfl⟩
  · exact .inr rfl

/-- `s[:hi]`. -/
def upto (s : Slice) (hi : Int) : Out Slice := s.sub 0 hi

/-- `s[lo:]`, which is `s[lo:len(s)]`. -/
def suffix (s : Slice) (lo : Int) : Out Slice := s.sub lo s.len

/-- A slice whose capacity is its length. -/
def ofBytes (b : Bytes) : Slice := { buf := b, len := b.length }

@[simp] theorem ofBytes_data (b : Bytes) : (ofBytes b).data = b := by simp [ofBytes, data]
@[simp] theorem ofBytes_len (b : Bytes) : (ofBytes b).len = b.length := rfl
@[simp] theorem ofBytes_cap (b : Bytes) : (ofBytes b).cap = b.length := rfl
theorem ofBytes_wf (b : Bytes) : (ofBytes b).WF := Nat.le_refl _

theorem data_length {s : Slice} (h : s.WF) : s.data.length = s.len := by
  have h' : s.len ≤ s.buf.length := h
  simp [data, Nat.min_eq_left h']

end Slice

/-- `file[lo:hi]` and `value[lo:hi]` on a Go *string*, and on a slice whose capacity does not matter
because `hi ≤ len`: panics unless `lo ≤ hi ≤ len`. -/
def subBytes (b : Bytes) (lo hi : Int) : Out Bytes :=
  if 0 ≤ lo ∧ lo ≤ hi ∧ hi ≤ b.length then .ret ((b.take hi.toNat).drop lo.toNat) else .panic

/-- `errors.New` values of 1pass-core/core/domain/error.go:11-20, and errors of the standard library
that the code passes on. -/
inductive Err where
  | invalidMd5                    -- ErrInvalidMd5
  | invalidHmac                   -- ErrInvalidHmac
  | invalidPass                   -- ErrInvalidPass
  | invalidVault (detail : Bytes) -- fmt.Sprintf(ErrInvalidVault.Error(), detail)
  | noUpdate                      -- ErrNoUpdate
  | unknownDataType               -- ErrUnknownDataType
  | unknownItemCat                -- ErrUnknownItemCat
  | unknownLogicVal               -- ErrUnknownLogicVal
  | stdlib (what : Bytes)         -- an error of the standard library
  deriving DecidableEq, Repr

end OnePass
