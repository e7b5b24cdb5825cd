import Verif.PropsJson
/-!
# JSON texts

C54 of `properties.jsonl`: C27-C30 with the model of `encoding/json` in `Json.lean` and the JSON texts of
`SpecJson.lean`, in place of a JSON library with a hypothesis.
-/
set_option autoImplicit false
namespace Urn
open Spec SpecJson

theorem accepts_ascii {mode : ParsingMode} (hm : KnownMode mode) {s : Bytes} (h : Accepts mode s) : ∀ c ∈ s, c < 128 := by
  intro c hc
  have := (C34_printable mode hm s h c hc).2.1
  rw [UInt8.le_iff_toNat_le] at this
  rw [UInt8.lt_iff_toNat_lt]
  simp at this ⊢
  omega

theorem accepts_ne {mode : ParsingMode} (hm : KnownMode mode) : ¬ Accepts mode [] := by
  rcases hm with rfl | rfl | rfl <;> exact not_accepts_of (by decide)

/-- Decoding to an accepted text. -/
theorem decodes_iff {mode : ParsingMode} (hm : KnownMode mode) {t s : Bytes} (h : Accepts mode s) :
    Json.codec.unmarshal t = some s ↔ JsonText t s := by
  show Json.unmarshal t = some s ↔ _
  rw [Json.unmarshal_iff (accepts_ascii hm h)]
  constructor
  · rintro (h1 | ⟨_, rfl⟩)
    · exact h1
    · exact absurd h (accepts_ne hm)
  · exact Or.inl

theorem encode_plain {w : Bytes} (h : ∀ c ∈ w, 33 ≤ c ∧ c ≤ 126 ∧ c ∉ lit "\"<>\\") :
    Json.codec.marshal w = 34 :: (w.flatMap (fun c => if c = 38 then lit "\\u0026" else [c]) ++ [34]) := by
  show Json.marshal w = _
  rw [Json.marshal]
  congr 1
  induction w with
  | nil => rfl
  | cons c w ih =>
    have key : ∀ c : UInt8, 33 ≤ c ∧ c ≤ 126 ∧ c ∉ lit "\"<>\\" →
        c < 128 ∧ Json.encodeByte c = if c = 38 then lit "\\u0026" else [c] := forall_byte (by decide +kernel)
    obtain ⟨h1, h2⟩ := key c (h c (by simp))
    rw [Json.encodeBody, if_pos h1, h2, ih fun d hd => h d (by simp [hd])]
    simp

theorem flatMap_self {w : Bytes} (h : 38 ∉ w) : w.flatMap (fun c => if c = 38 then lit "\\u0026" else [c]) = w := by
  induction w with
  | nil => rfl
  | cons c w ih =>
    have hc : c ≠ 38 := by rintro rfl; exact h (by simp)
    rw [List.flatMap_cons, if_neg hc, ih fun hm => h (by simp [hm])]; rfl

theorem printable_sub : ∀ c : UInt8, c ∉ lit "\"<>\\^`{|}[]" → c ∉ lit "\"<>\\" := forall_byte (by decide +kernel)

/-! ## C54 -/

/-- A JSON text is decoded to a URN exactly if it is a JSON text of a string that is accepted in RFC 2141 mode,
however it is written; and then to the URN that the string is parsed to. -/
theorem C54_urn (old v : URN) (t : Bytes) :
    URN.unmarshalJSON Json.codec old t = .ok (v, none) ↔ ∃ s, JsonText t s ∧ ParsesTo RFC2141Only s v := by
  have hk : KnownMode RFC2141Only := Or.inl rfl
  obtain ⟨v', e, h1, h2, h3, _, _, _⟩ := C28_urn Json.codec old t
  rw [h1]
  constructor
  · intro h
    simp at h
    obtain ⟨rfl, rfl⟩ := h
    obtain ⟨s, h4, h5⟩ := h3 rfl
    exact ⟨s, (decodes_iff hk ⟨_, h5⟩).mp h4, h5⟩
  · rintro ⟨s, h4, h5⟩
    have h6 := (decodes_iff hk ⟨_, h5⟩).mpr h4
    have he := h2.mpr ⟨s, h6, _, h5⟩
    subst he
    obtain ⟨s', h7, h8⟩ := h3 rfl
    rw [h6] at h7; cases h7
    rw [parsesTo_unique h5 h8]

/-- An escaped way to write `urn:a:b`. -/
example : ∃ v, URN.unmarshalJSON Json.codec {} (lit " \"\\u0075rn:a:\\u0062\"\n") = .ok (v, none) := by
  refine ⟨urn2141 (lit "urn") (lit "a") (lit "b"), (C54_urn _ _ _).mpr ⟨lit "urn:a:b", ?_, parsesTo_of (by decide)⟩⟩
  refine ⟨[32], lit "\\u0075rn:a:\\u0062", [10], by simp [Blank], by simp [Blank], ?_, by decide⟩
  exact .hex (u := 7) (v := 5) (.inl (by decide)) (.inl (by decide)) (by decide) (by decide)
    (.char (by decide) (by decide) (by decide) (by decide) (.char (by decide) (by decide) (by decide) (by decide)
    (.char (by decide) (by decide) (by decide) (by decide) (.char (by decide) (by decide) (by decide) (by decide)
    (.char (by decide) (by decide) (by decide) (by decide)
    (.hex (u := 6) (v := 2) (.inl (by decide)) (.inl (by decide)) (by decide) (by decide) .nil))))))

/-- The same for SCIM URNs. -/
theorem C54_scim (old x : SCIM) (t : Bytes) :
    SCIM.unmarshalJSON Json.codec old t = .ok (x, none) ↔
      ∃ s v, JsonText t s ∧ ParsesTo RFC7643Only s v ∧ v.getSCIM = some x := by
  have hk : KnownMode RFC7643Only := Or.inr (Or.inl rfl)
  obtain ⟨x', e, h1, h2, h3, _, _, _⟩ := C28_scim Json.codec old t
  rw [h1]
  constructor
  · intro h
    simp at h
    obtain ⟨rfl, rfl⟩ := h
    obtain ⟨s, v, h4, h5, h6⟩ := h3 rfl
    exact ⟨s, v, (decodes_iff hk ⟨_, h5⟩).mp h4, h5, h6⟩
  · rintro ⟨s, v, h4, h5, h0⟩
    have h6 := (decodes_iff hk ⟨_, h5⟩).mpr h4
    have he := h2.mpr ⟨s, h6, _, h5⟩
    subst he
    obtain ⟨s', v', h7, h8, h9⟩ := h3 rfl
    rw [h6] at h7; cases h7
    have := parsesTo_unique h5 h8
    subst this
    rw [h0] at h9; cases h9; rfl

/-- The same for RFC 8141 URNs. -/
theorem C54_8141 (old : URN8141) (v : URN) (t : Bytes) :
    URN8141.unmarshalJSON Json.codec old t = .ok (⟨some v⟩, none) ↔ ∃ s, JsonText t s ∧ ParsesTo RFC8141Only s v := by
  have hk : KnownMode RFC8141Only := Or.inr (Or.inr rfl)
  constructor
  · intro h
    obtain ⟨v', e, h1, _, _, h3, _⟩ := C30_unmarshal Json.codec old t
    rw [h1] at h
    simp at h
    obtain ⟨rfl, rfl⟩ := h
    obtain ⟨s, h4, h5⟩ := h3 rfl v rfl
    exact ⟨s, (decodes_iff hk ⟨_, h5⟩).mp h4, h5⟩
  · rintro ⟨s, h4, h5⟩
    have h6 := (decodes_iff hk ⟨_, h5⟩).mpr h4
    obtain ⟨r, h7, h8⟩ := h5
    have h9 := C22_urn_ok _ _ r h7 (by simp [h8])
    simp only [URN8141.unmarshalJSON, h6, h7]
    simp [h8, h9]

/-- Encoding and decoding any URN value, also one built by the caller from any strings: it succeeds exactly if its
text is accepted in RFC 2141 mode. -/
theorem C54_any_value (u old v : URN) :
    URN.unmarshalJSON Json.codec old (URN.marshalJSON Json.codec u) = .ok (v, none) ↔ ParsesTo RFC2141Only u.string v := by
  have hk : KnownMode RFC2141Only := Or.inl rfl
  have hd : Json.codec.unmarshal (URN.marshalJSON Json.codec u) = some (Json.coerce 0 u.string) := Json.unmarshal_marshal _
  obtain ⟨v', e, h1, h2, h3, _, _, _⟩ := C28_urn Json.codec old (URN.marshalJSON Json.codec u)
  rw [h1]
  constructor
  · intro h
    simp at h
    obtain ⟨rfl, rfl⟩ := h
    obtain ⟨s, h4, h5⟩ := h3 rfl
    rw [hd] at h4; cases h4
    rwa [Json.coerce_ascii (Json.of_coerce_ascii (accepts_ascii hk ⟨_, h5⟩))] at h5
  · intro h5
    rw [Json.coerce_ascii (accepts_ascii hk ⟨_, h5⟩)] at hd
    have he := h2.mpr ⟨_, hd, _, h5⟩
    subst he
    obtain ⟨s', h7, h8⟩ := h3 rfl
    rw [hd] at h7; cases h7
    rw [parsesTo_unique h5 h8]

example : URN.unmarshalJSON Json.codec {} (URN.marshalJSON Json.codec { ID := lit "a", SS := lit "b" }) =
    .ok (urn2141 (lit "urn") (lit "a") (lit "b"), none) :=
  (C54_any_value _ _ _).mpr (parsesTo_of (by decide))

/-- The JSON text of a parsed URN: its text in quotes; in RFC 8141 mode with `\u0026` in place of `&`. -/
theorem C54_text (mode : ParsingMode) (hm : KnownMode mode) (s : Bytes) (u : URN) (h : ParsesTo mode s u) :
    (mode = RFC2141Only ∨ mode = RFC7643Only → URN.marshalJSON Json.codec u = lit "\"" ++ u.string ++ lit "\"") ∧
    URN.marshalJSON Json.codec u =
      lit "\"" ++ u.string.flatMap (fun c => if c = 38 then lit "\\u0026" else [c]) ++ lit "\"" := by
  have hs := C15_stable mode hm s u h
  have hp := C34_printable mode hm u.string ⟨_, hs⟩
  have e : URN.marshalJSON Json.codec u = 34 :: (u.string.flatMap (fun c => if c = 38 then lit "\\u0026" else [c]) ++ [34]) :=
    encode_plain fun c hc => ⟨(hp c hc).1, (hp c hc).2.1, printable_sub c (hp c hc).2.2.1⟩
  refine ⟨fun hmode => ?_, by rw [e]; simp [lit]⟩
  have h38 : 38 ∉ u.string := by
    intro hc
    have hne : mode ≠ RFC8141Only := by rcases hmode with rfl | rfl <;> decide
    exact (hp 38 hc).2.2.2 hne (by decide)
  rw [e, flatMap_self h38]
  simp [lit]

example : URN.marshalJSON Json.codec Cases.u2141 = lit "\"URN:x-Y:%2Fa:B\"" :=
  ((C54_text _ Cases.k2141 _ _ Cases.p2141).1 (Or.inl rfl)).trans (by decide)

example : URN.marshalJSON Json.codec (urn8141 (lit "urn") (lit "ab") (lit "c&d") none none none) = lit "\"urn:ab:c\\u0026d\"" := by decide

/-- `null` is an error for all three types, and leaves the receiver unchanged (for `json.Unmarshal`, `null` means no
change and no error). -/
theorem C54_null (u : URN) (x : SCIM) (v : URN8141) (t : Bytes) (ht : JsonNull t) :
    URN.unmarshalJSON Json.codec u t = .ok (u, some (.invalidURN [])) ∧
    SCIM.unmarshalJSON Json.codec x t = .ok (x, some (.invalidSCIMURN [])) ∧
    URN8141.unmarshalJSON Json.codec v t = .ok (v, some (.invalidURN8141 [])) := by
  have hd : Json.codec.unmarshal t = some [] := (Json.unmarshal_iff (by simp)).mpr (.inr ⟨ht, rfl⟩)
  refine ⟨?_, ?_, ?_⟩
  · simp only [URN.unmarshalJSON, hd, parse_default, parse_mode]
    rfl
  · simp only [SCIM.unmarshalJSON, hd, parse_mode]
    rfl
  · simp only [URN8141.unmarshalJSON, hd, parse_mode]
    rfl

example : JsonNull (lit " null") := ⟨[32], [], by simp [Blank], by simp [Blank], rfl⟩

end Urn
