/-!
# The pieces of the Go language and runtime that go-urn relies on

Bytes, slices, run time panics, and `strings.ToLower`.
-/
set_option autoImplicit false
namespace Urn

/-- A Go `[]byte` or `string`: its contents.  (Aliasing between the caller's buffer and the
machine's `data` field is made explicit where it matters: `Machine.parse` returns the final
contents of the buffer.) -/
abbrev Bytes := List UInt8

/-- Go string literal, as bytes.  Only used with ASCII literals. -/
def lit (s : String) : Bytes := s.toList.map (fun c => UInt8.ofNat c.toNat)

/-- The run time panics that the modelled code could raise. -/
inductive Panic where
  | index      -- index out of range
  | slice      -- slice bounds out of range
  | nilDeref   -- invalid memory address or nil pointer dereference
  deriving DecidableEq, Repr

/-- Outcome of running code that may panic or fail to terminate (fuel exhausted). -/
inductive Run (α : Type) where
  | ok (a : α)
  | panic (p : Panic)
  | diverge
  deriving DecidableEq, Repr

namespace Run
/-- Sequencing. -/
def bind {α β : Type} (x : Run α) (f : α → Run β) : Run β :=
  match x with
  | ok a => f a
  | panic p => .panic p
  | diverge => .diverge

instance : Monad Run where
  pure := ok
  bind := bind

@[simp] theorem pure_eq {α : Type} (a : α) : (pure a : Run α) = ok a := rfl
@[simp] theorem ok_bind {α β : Type} (a : α) (f : α → Run β) : (ok a >>= f) = f a := rfl
@[simp] theorem panic_bind {α β : Type} (p : Panic) (f : α → Run β) :
    ((panic p : Run α) >>= f) = panic p := rfl
@[simp] theorem diverge_bind {α β : Type} (f : α → Run β) :
    ((diverge : Run α) >>= f) = diverge := rfl
end Run

/-- `d[i]` with Go's bounds check. -/
def index (d : Bytes) (i : Int) : Except Panic UInt8 :=
  if 0 ≤ i then
    match d[i.toNat]? with
    | some c => .ok c
    | none => .error .index
  else .error .index

/-- `d[i] = v` with Go's bounds check. -/
def store (d : Bytes) (i : Int) (v : UInt8) : Except Panic Bytes :=
  if 0 ≤ i ∧ i < d.length then .ok (d.set i.toNat v) else .error .index

/-- `d[i:j]`.  Go checks `0 ≤ i ≤ j ≤ cap(d)`; the model checks against `len(d)`, i.e. it panics
in strictly more cases. -/
def slice (d : Bytes) (i j : Int) : Except Panic Bytes :=
  if 0 ≤ i ∧ i ≤ j ∧ j ≤ d.length then .ok ((d.drop i.toNat).take (j.toNat - i.toNat))
  else .error .slice

/-- ASCII case mapping of one byte. -/
def lowerByte (c : UInt8) : UInt8 := if 65 ≤ c ∧ c ≤ 90 then c + 32 else c

/-- Go's `strings.ToLower`.  For strings of ASCII bytes it maps `A-Z` to `a-z`; for any other
string it is `strings.Map(unicode.ToLower, s)`, which is the parameter `uni` (not modelled:
parsed URNs are ASCII, see property C34). -/
def toLower (uni : Bytes → Bytes) (s : Bytes) : Bytes :=
  if s.all (fun c => decide (c < 128)) then s.map lowerByte else uni s

end Urn
