/-
What a user is to see of an item's decrypted JSON documents.
-/
import Verif.Spec.Bands
import Verif.Spec.Registry

namespace OnePass
namespace Spec

/-- The entry is missing or null. -/
def Absent (m : Members) (k : Bytes) : Prop := LastEntry m k .null ∨ NoEntry m k

/-- A text entry that may be missing. -/
def OptText (m : Members) (k s : Bytes) : Prop := (Absent m k ∧ s = []) ∨ LastEntry m k (.str s)

/-- One line of an address. -/
def addressLine (key val : Bytes) : Bytes :=
  b!"\n  " ++ key ++ b!": " ++ (Str.trimSpace val).map (fun c => if c = 10 then 32 else c)

/-- The text of an address: a line per key, keys ascending. -/
def AddressText (a : Members) (out : Bytes) : Prop :=
  ∃ kvs : List (Bytes × Bytes), (kvs.map (·.1)).Pairwise (· < ·) ∧
    (∀ k, k ∈ kvs.map (·.1) ↔ ∃ v, LastEntry a k v) ∧
    (∀ kv ∈ kvs, LastEntry a kv.1 (.str kv.2)) ∧
    out = kvs.flatMap (fun kv => addressLine kv.1 kv.2)

/-- The shown value of a section field of kind `k`. Dates and months are those of `fmt.Sprint` of the value; see
C30 and C31 for what they look like. -/
inductive ShownValue (E : Env) (k : Bytes) : Json → Bytes → Prop
  | address {a out} : SameLetters E.text b!"address" k → AddressText a out → ShownValue E k (.obj a) out
  | date {v} : SameLetters E.text b!"date" k → ShownValue E k v (DataType.parseDate E (Fmt.sprint E.flt v))
  | monthYear {v} : SameLetters E.text b!"monthYear" k →
      ShownValue E k v (DataType.parseMonthYear (Fmt.sprint E.flt v))
  | other {s} : ¬ SameLetters E.text b!"address" k → ¬ SameLetters E.text b!"date" k →
      ¬ SameLetters E.text b!"monthYear" k → ShownValue E k (.str s) s

/-- A section field: shown iff it has a value. -/
inductive ShownField (E : Env) (m : Members) : Option Field → Prop
  | none : Absent m b!"v" → ShownField E m none
  | some {v k t out} : LastEntry m b!"v" v → v ≠ .null → LastEntry m b!"k" (.str k) → ShownValue E k v out →
      LastEntry m b!"t" (.str t) → ShownField E m (some ⟨Str.title E.text t, out⟩)

/-- A login field: shown iff value and name are there and not empty. -/
inductive ShownLogin (T : Text) (m : Members) : Option Field → Prop
  | noValue : Absent m b!"value" → ShownLogin T m none
  | noName : Absent m b!"name" → ShownLogin T m none
  | empty {v n} : LastEntry m b!"value" (.str v) → LastEntry m b!"name" (.str n) → v = [] ∨ n = [] →
      ShownLogin T m none
  | some {v n} : LastEntry m b!"value" (.str v) → LastEntry m b!"name" (.str n) → v ≠ [] → n ≠ [] →
      ShownLogin T m (some ⟨Str.title T n, v⟩)

/-- All documents of a list, in order, without those that show nothing. -/
def ShownList {α : Type} (R : Members → Option α → Prop) (docs : List Json) (l : List α) : Prop :=
  ∃ os, List.Forall₂ (fun j o => ∃ m, j = .obj m ∧ R m o) docs os ∧ l = os.filterMap id

/-- A section: dropped iff it has neither title nor shown field. -/
def ShownSection (E : Env) (m : Members) (o : Option Section) : Prop :=
  ∃ fs t, ((Absent m b!"fields" ∧ fs = []) ∨
      ∃ docs, LastEntry m b!"fields" (.arr docs) ∧ ShownList (ShownField E) docs fs) ∧
    ((Absent m b!"title" ∧ t = []) ∨ ∃ t0, LastEntry m b!"title" (.str t0) ∧ t = Str.title E.text t0) ∧
    ((fs = [] ∧ t = [] ∧ o = none) ∨
     (fs = [] ∧ t ≠ [] ∧ o = some ⟨Str.title E.text t, none⟩) ∨
     (fs ≠ [] ∧ o = some ⟨Str.title E.text t, some fs⟩))

/-- The sections of an item: its sections in order, or else its login fields as one untitled section. -/
inductive ShownSections (E : Env) (m : Members) : List Section → Prop
  | sections {docs l} : LastEntry m b!"sections" (.arr docs) → ShownList (ShownSection E) docs l → ShownSections E m l
  | login {docs fs} : Absent m b!"sections" → LastEntry m b!"fields" (.arr docs) →
      ShownList (ShownLogin E.text) docs fs → fs ≠ [] → ShownSections E m [⟨[], some fs⟩]
  | noLogin {docs} : Absent m b!"sections" → LastEntry m b!"fields" (.arr docs) →
      ShownList (ShownLogin E.text) docs [] → ShownSections E m []
  | none : Absent m b!"sections" → Absent m b!"fields" → ShownSections E m []

end Spec
end OnePass
