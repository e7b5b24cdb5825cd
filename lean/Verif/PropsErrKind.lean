import Verif.ErrKind8141
import Verif.ErrKindScim
import Verif.PropsError
import Std.Data.String.ToInt
/-!
# Properties of error kinds

C46 of `properties.jsonl`.  What each kind of error says about the input is defined in `SpecErr.lean`.
-/
set_option autoImplicit false
namespace Urn
open Spec

/-- `Parse(s, WithParsingMode(mode))` returned `nil` and, on the machine, an error of kind `k`. -/
def RejectsAs (mode : ParsingMode) (s : Bytes) (k : ErrKind) : Prop := ∃ c, RejectsWith mode s ⟨k, c⟩

theorem rejectsAs_ref {mode : ParsingMode} {s : Bytes} {k : ErrKind} : RejectsAs mode s k ↔ Fails (refMode mode s) k := by
  simp only [RejectsAs, rejects_eq, Fails]

/-- RFC 2141 mode: the kind of error identifies the first faulty part. -/
theorem C46_2141 (s : Bytes) (k : ErrKind) : RejectsAs RFC2141Only s k ↔ Why2141 s k := by
  rw [rejectsAs_ref, refMode_2141]
  exact fails_2141

/-- RFC 7643 mode. -/
theorem C46_7643 (s : Bytes) (k : ErrKind) : RejectsAs RFC7643Only s k ↔ Why7643 s k := by
  rw [rejectsAs_ref, refMode_7643]
  exact fails_7643

/-- RFC 8141 mode. -/
theorem C46_8141 (s : Bytes) (k : ErrKind) : RejectsAs RFC8141Only s k ↔ Why8141 s k := by
  rw [rejectsAs_ref, refMode_8141]
  exact fails_8141

/-- Every kind that the specification provides for occurs, in each mode. -/
example : RejectsAs RFC2141Only (lit "urm:a:b") .pfx ∧ RejectsAs RFC2141Only (lit "urn:urn:b") .noUrnWithinID ∧
    RejectsAs RFC2141Only (lit "urn:a/:b") .identifier ∧ RejectsAs RFC2141Only (lit "urn:a:b/") .specificString ∧
    RejectsAs RFC2141Only (lit "urn:a:b%4g/") .hex :=
  ⟨⟨2, rejectsWith_ref.mpr (by decide)⟩, ⟨7, rejectsWith_ref.mpr (by decide)⟩, ⟨5, rejectsWith_ref.mpr (by decide)⟩,
    ⟨7, rejectsWith_ref.mpr (by decide)⟩, ⟨10, rejectsWith_ref.mpr (by decide)⟩⟩

example : RejectsAs RFC7643Only (lit "ur") .pfx ∧ RejectsAs RFC7643Only (lit "urn:ietf:params:x") .scimNamespace ∧
    RejectsAs RFC7643Only (lit "urn:ietf:params:scim:apo:x") .scimType ∧ RejectsAs RFC7643Only (lit "urn:ietf:params:scim:api:-") .scimName ∧
    RejectsAs RFC7643Only (lit "urn:ietf:params:scim:api:x:/") .scimOther ∧
    RejectsAs RFC7643Only (lit "urn:ietf:params:scim:api:x:%a") .scimOtherIncomplete :=
  ⟨⟨2, rejectsWith_ref.mpr (by decide)⟩, ⟨16, rejectsWith_ref.mpr (by decide)⟩, ⟨23, rejectsWith_ref.mpr (by decide)⟩,
    ⟨25, rejectsWith_ref.mpr (by decide)⟩, ⟨27, rejectsWith_ref.mpr (by decide)⟩, ⟨28, rejectsWith_ref.mpr (by decide)⟩⟩

example : RejectsAs RFC8141Only [] .pfx ∧ RejectsAs RFC8141Only (lit "urn:urn-a:b") .informalID8141 ∧
    RejectsAs RFC8141Only (lit "urn:a:b") .identifier8141 ∧ RejectsAs RFC8141Only (lit "urn:ab:/") .specificString8141 ∧
    RejectsAs RFC8141Only (lit "urn:ab:c?+d?+e") .rComponentStart8141 ∧ RejectsAs RFC8141Only (lit "urn:ab:c?+/") .malformedRComp8141 ∧
    RejectsAs RFC8141Only (lit "urn:ab:c?=d?=e") .qComponentStart8141 ∧ RejectsAs RFC8141Only (lit "urn:ab:c?+d?=e^") .malformedQComp8141 ∧
    RejectsAs RFC8141Only (lit "urn:ab:c?+d?=e#%a") .hex :=
  ⟨⟨0, rejectsWith_ref.mpr (by decide)⟩, ⟨7, rejectsWith_ref.mpr (by decide)⟩, ⟨5, rejectsWith_ref.mpr (by decide)⟩,
    ⟨7, rejectsWith_ref.mpr (by decide)⟩, ⟨13, rejectsWith_ref.mpr (by decide)⟩, ⟨10, rejectsWith_ref.mpr (by decide)⟩,
    ⟨13, rejectsWith_ref.mpr (by decide)⟩, ⟨14, rejectsWith_ref.mpr (by decide)⟩, ⟨17, rejectsWith_ref.mpr (by decide)⟩⟩

/-! ## Texts -/

/-- All kinds. -/
def allKinds : List ErrKind :=
  [.pfx, .identifier, .specificString, .noUrnWithinID, .hex, .scimNamespace, .scimType, .scimName, .scimOther, .scimOtherIncomplete,
   .informalID8141, .specificString8141, .identifier8141, .rComponentStart8141, .qComponentStart8141, .malformedRComp8141, .malformedQComp8141]

theorem mem_allKinds (k : ErrKind) : k ∈ allKinds := by cases k <;> decide

/-- No message is a prefix of another one. -/
theorem template_prefix (k k' : ErrKind) (h : k.template.toList <+: k'.template.toList) : k = k' := by
  have : ∀ k ∈ allKinds, ∀ k' ∈ allKinds, k.template.toList.isPrefixOf k'.template.toList = true → k = k' := by decide +kernel
  exact this k (mem_allKinds k) k' (mem_allKinds k') (List.isPrefixOf_iff_prefix.mpr h)

/-- The text of an error tells its kind and its column: two errors that differ in either have different texts. -/
theorem C46_text (e e' : Err) (h : e.text = e'.text) : e = e' := by
  obtain ⟨k, c⟩ := e
  obtain ⟨k', c'⟩ := e'
  have h1 : k.template.toList ++ ((toString c).toList ++ [']']) = k'.template.toList ++ ((toString c').toList ++ [']']) := by
    have := congrArg String.toList h
    simpa [Err.text, String.toList_append] using this
  have p1 : k.template.toList <+: k.template.toList ++ ((toString c).toList ++ [']']) := List.prefix_append _ _
  have p2 : k'.template.toList <+: k.template.toList ++ ((toString c).toList ++ [']']) := h1 ▸ List.prefix_append _ _
  have hk : k = k' := by
    rcases Nat.le_total k.template.toList.length k'.template.toList.length with hl | hl
    · exact template_prefix k k' (List.prefix_of_prefix_length_le p1 p2 hl)
    · exact (template_prefix k' k (List.prefix_of_prefix_length_le p2 p1 hl)).symm
  subst hk
  have h2 := List.append_cancel_right (List.append_cancel_left h1)
  have h3 : toString c = toString c' := String.toList_injective h2
  have h4 : c = c' := by
    have := Int.toInt?_repr c
    rw [show c.repr = toString c from rfl, h3, show toString c' = c'.repr from rfl, Int.toInt?_repr] at this
    simpa using this.symm
  rw [h4]

example : (⟨.hex, 12⟩ : Err).text ≠ (⟨.hex, 13⟩ : Err).text := fun h => absurd (C46_text _ _ h) (by decide)

example : (⟨.hex, 12⟩ : Err).text = "expecting the percent encoded chars to be well-formed (%alnum{2}) [col 12]" := by decide +kernel

end Urn
