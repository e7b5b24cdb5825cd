import Verif.PropsHeap
/-!
# More about C14 and C30
-/
set_option autoImplicit false
namespace Urn
open Spec Urn.Heap

/-- What `String()` of a parsed URN is, in RFC 8141 mode: the input, but without a `#` that nothing follows, and with the first three letters of the
identifier as the prefix, if it starts with `urn-` in any case. -/
theorem C14_text (s pre nid nss : Bytes) (r q f : Option Bytes) (u : URN) (h : Urn8141 s pre nid nss r q f) (hu : ParsesTo RFC8141Only s u) :
    ∃ p f', u.string = p ++ lit ":" ++ nid ++ lit ":" ++ nss ++ opt (lit "?+") r ++ opt (lit "?=") q ++ opt (lit "#") f' ∧
      (f = some [] → f' = none) ∧ (f ≠ some [] → f' = f) ∧
      ((∃ x t, nid = x ++ 45 :: t ∧ IsUrn x) → p = nid.take 3) ∧ ((¬ ∃ x t, nid = x ++ 45 :: t ∧ IsUrn x) → p = pre) := by
  have hu' := parsesTo_unique hu (parsesTo_8141.mpr ⟨pre, nid, nss, r, q, f, h, rfl⟩)
  subst hu'
  refine ⟨pre8141 pre nid, dropEmpty f, by rw [urn8141_string h]; simp [lit], ?_, ?_, ?_, ?_⟩
  · rintro rfl
    rfl
  · intro hf
    cases f with
    | none => rfl
    | some w => cases w with
      | nil => exact absurd rfl hf
      | cons => rfl
  · intro hs
    rw [← startsUrn_iff] at hs
    simp [pre8141, hs]
  · intro hs
    rw [← startsUrn_iff] at hs
    simp [pre8141, hs]

example : ∃ p f', Cases.u8141.string = p ++ lit ":" ++ lit "Ab-1" ++ lit ":" ++ lit "c/D%4A" ++ opt (lit "?+") (some (lit "r")) ++ opt (lit "?=") (some (lit "q")) ++ opt (lit "#") f' ∧ p = lit "urn" := by
  obtain ⟨p, f', h1, -, -, -, h2⟩ := C14_text _ _ _ _ _ _ _ _ Cases.w8141 Cases.p8141
  refine ⟨p, f', h1, h2 ?_⟩
  rw [← startsUrn_iff]
  decide

/-- Both at once. -/
example : ∃ u, ParsesTo RFC8141Only (lit "URN:urn-7:x#") u ∧ u.string = lit "urn:urn-7:x" :=
  ⟨urn8141 (lit "URN") (lit "urn-7") (lit "x") none none (some []), parsesTo_of (by decide), by decide⟩

/-- If the decoded text is one of the exceptions of C21, `UnmarshalJSON` of `*URN8141` succeeds with nil, and then `String` and `MarshalJSON` panic. -/
theorem C30_panics (uni : Bytes → Bytes) (j : JsonCodec) (h : Mem) (p : Ptr) (text s : Bytes) (ht : j.unmarshal text = some s) (hs : Silent8141 s) :
    h.act uni j (.unmarshal8141 p text) = .ok (h, .urn8141 none none) ∧
    h.act uni j (.string none) = .panic .nilDeref ∧ h.act uni j (.marshal8141 none) = .panic .nilDeref := by
  obtain ⟨r, hr⟩ := C01_parse_returns s [withParsingMode RFC8141Only]
  have h1 := C22_8141 s r hr
  have h2 := C22_urn_ok s _ r hr
  have h3 : r.urn = none ∧ r.ok = true := by
    cases hu : r.urn with
    | none => cases ho : r.ok <;> simp_all
    | some u => simp_all
  refine ⟨?_, rfl, rfl⟩
  simp only [Mem.act, ht, hr, h3.1, h3.2, Run.ok_bind]
  rfl

example (uni : Bytes → Bytes) : Mem.act uni Json.codec {} (.unmarshal8141 none (Json.codec.marshal (lit "urn:ab:c?"))) = .ok ({}, .urn8141 none none) :=
  (C30_panics uni Json.codec {} none _ (lit "urn:ab:c?") (by decide) (Classical.not_not.1 fun hn => by simpa using (C22_8141 _ _ C22_refuted).2 hn)).1

end Urn
