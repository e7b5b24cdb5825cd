import Verif.PropsEqual
/-!
# Values built or edited by the caller

The fields `ID` and `SS` are exported: callers can build `&URN{ID: …, SS: …}` or assign to the fields of
a parsed value.  `Equal` and `Normalize` do not look at `SS` at all.
-/
set_option autoImplicit false
namespace Urn
open Spec

/-! ## C47 -/

/-- Assigning to `SS` changes neither what `Normalize` returns nor any comparison, whatever the value is;
assigning to `ID` changes `Normalize` in the ID only. -/
theorem C47_assign (uni : Bytes → Bytes) (u : URN) (x : Bytes) (w : Option URN) :
    ({ u with SS := x } : URN).normalize uni = u.normalize uni ∧
    ({ u with SS := x } : URN).equal uni w = u.equal uni w ∧
    (∀ v : URN, v.equal uni (some { u with SS := x }) = v.equal uni (some u)) ∧
    ({ u with ID := x } : URN).normalize uni = { u.normalize uni with ID := toLower uni x } := by
  refine ⟨rfl, ?_, fun _ => rfl, rfl⟩
  cases w <;> rfl

/-- So two parsed URNs that the caller made different by assigning to `SS` are still `Equal`. -/
theorem C47_edited_refuted (mode : ParsingMode) (s : Bytes) (u : URN) (_ : ParsesTo mode s u) (uni : Bytes → Bytes)
    (x : Bytes) (hx : x ≠ u.SS) :
    ({ u with SS := x } : URN).SS ≠ u.SS ∧ ({ u with SS := x } : URN).equal uni (some u) = true := by
  refine ⟨hx, ?_⟩
  rw [(C47_assign uni u x (some u)).2.1]
  exact (C16_equivalence uni).1 u

example (uni : Bytes → Bytes) : ({ Cases.u2141 with SS := lit "other" } : URN).equal uni (some Cases.u2141) = true :=
  (C47_edited_refuted _ _ _ Cases.p2141 uni _ (by decide)).2

example : ∃ u, ParsesTo RFC2141Only (lit "urn:a0:b") u ∧ lit "other" ≠ u.SS :=
  ⟨urn2141 (lit "urn") (lit "a0") (lit "b"), parsesTo_of (by decide), by decide⟩

/-- Values built from their exported fields: `Equal` compares the IDs only (ignoring case), and the text of
what `Normalize` returns is empty. -/
theorem C47_built (uni : Bytes → Bytes) (id id' ss ss' : Bytes) :
    (({ ID := id, SS := ss } : URN).equal uni (some { ID := id', SS := ss' }) = true ↔
      toLower uni id = toLower uni id') ∧
    (({ ID := id, SS := ss } : URN).normalize uni).string = [] := by
  constructor
  · rw [equal_iff]; simp
  · simp [URN.normalize, URN.string]

/-- The same with ASCII IDs, without the parameter. -/
theorem C47_built_ascii (uni : Bytes → Bytes) (id id' ss ss' : Bytes) (h : ∀ c ∈ id, c < 128) (h' : ∀ c ∈ id', c < 128) :
    ({ ID := id, SS := ss } : URN).equal uni (some { ID := id', SS := ss' }) = true ↔ lowerAll id = lowerAll id' := by
  rw [(C47_built uni id id' ss ss').1, toLower_ascii h, toLower_ascii h']

example : ∀ uni, ({ ID := lit "A", SS := lit "x" } : URN).equal uni (some { ID := lit "a", SS := lit "y" }) = true :=
  fun uni => (C47_built_ascii uni _ _ _ _ (by decide) (by decide)).mpr (by decide)
example : ∀ uni, ({ ID := lit "a", SS := lit "x" } : URN).equal uni (some { ID := lit "b", SS := lit "x" }) = false :=
  fun uni => by
    rw [← Bool.not_eq_true, C47_built_ascii uni _ _ _ _ (by decide) (by decide)]; decide

/-- A value built from its fields is never `Equal` to a parsed one, not even to the one its own text parses
to. -/
theorem C47_built_parsed (mode : ParsingMode) (hm : KnownMode mode) (s : Bytes) (u : URN) (h : ParsesTo mode s u)
    (uni : Bytes → Bytes) (id ss : Bytes) :
    ({ ID := id, SS := ss } : URN).equal uni (some u) = false ∧ u.equal uni (some { ID := id, SS := ss }) = false := by
  obtain ⟨h1, _, _, h4, _⟩ := parsed_normal hm h
  constructor <;> rw [← Bool.not_eq_true, equal_iff, h1] <;> simpa using fun _ => lowerEsc_ne h4

example (uni : Bytes → Bytes) : ({ ID := lit "x-Y", SS := lit "%2Fa:B" } : URN).equal uni (some Cases.u2141) = false :=
  (C47_built_parsed _ Cases.k2141 _ _ Cases.p2141 uni _ _).1

example : ∃ u, ParsesTo RFC2141Only ({ ID := lit "a0", SS := lit "b" } : URN).string u ∧ u.ID = lit "a0" ∧ u.SS = lit "b" :=
  ⟨urn2141 (lit "urn") (lit "a0") (lit "b"), parsesTo_of (by decide), by decide, by decide⟩

end Urn
