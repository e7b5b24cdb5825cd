import Verif.PropsHist
import Verif.JsonAux
/-!
# JSON and SCIM types

C27-C31 of `properties.jsonl`.  `j` is `encoding/json`; `Json.codec_ok` shows that the hypothesis
`JsonOk` can be met.
-/
set_option autoImplicit false
namespace Urn
open Spec

theorem accepted_json {j : JsonCodec} (hj : JsonOk j) {mode : ParsingMode} (hm : KnownMode mode) {s : Bytes} {u : URN} (h : ParsesTo mode s u) :
    j.unmarshal (j.marshal s) = some s :=
  hj s (fun c hc => ⟨(C34_printable mode hm s ⟨u, h⟩ c hc).1, (C34_printable mode hm s ⟨u, h⟩ c hc).2.1⟩)

/-- `Parse` in RFC 2141 or RFC 7643 mode, by cases. -/
theorem parse_cases {mode : ParsingMode} (hm : mode = RFC2141Only ∨ mode = RFC7643Only) (s : Bytes) :
    (∃ u, ParsesTo mode s u ∧ parse s [withParsingMode mode] = .ok ⟨some u, true, s⟩) ∨
    (¬ Accepts mode s ∧ parse s [withParsingMode mode] = .ok ⟨none, false, s⟩) := by
  by_cases h : Accepts mode s
  · obtain ⟨u, h⟩ := h
    left
    refine ⟨u, h, ?_⟩
    have := parsesTo_ref.mp h
    rw [parse_mode, this.1, this.2]
  · right
    refine ⟨h, ?_⟩
    rw [parse_mode]
    have key : (∃ u, refMode mode s = (some u, none)) ∨ (∃ e, refMode mode s = (none, some e)) := by
      rcases hm with rfl | rfl
      · exact ref2141_or ⟨true, true⟩ s
      · exact refScim_or ⟨false, true⟩ s
    rcases key with ⟨u, e⟩ | ⟨u, e⟩
    · exact absurd ⟨u, parsesTo_of e⟩ h
    · rw [e]

/-! ## C27 -/

theorem C27_round_trip (j : JsonCodec) (hj : JsonOk j) (s : Bytes) (u old : URN) (h : ParsesTo RFC2141Only s u) :
    URN.unmarshalJSON j old (URN.marshalJSON j u) = .ok (u, none) := by
  simp only [URN.unmarshalJSON, URN.marshalJSON, C07_round_trip s u h, accepted_json hj (Or.inl rfl) h]
  rcases parse_cases (Or.inl rfl) s with ⟨v, h1, h2⟩ | ⟨h1, _⟩
  · have := parsesTo_unique h h1; subst this
    rw [parse_default, h2]; rfl
  · exact absurd ⟨u, h⟩ h1

/-- With the concrete codec. -/
example : URN.unmarshalJSON Json.codec {} (URN.marshalJSON Json.codec (urn2141 (lit "urn") (lit "a") (lit "b%2F"))) =
    .ok (urn2141 (lit "urn") (lit "a") (lit "b%2F"), none) :=
  C27_round_trip _ Json.codec_ok (lit "urn:a:b%2F") _ _ (parsesTo_of (by decide))

/-! ## C28 -/

/-- `(*URN).UnmarshalJSON`: what it does, completely. -/
theorem C28_urn (j : JsonCodec) (old : URN) (t : Bytes) :
    ∃ v e, URN.unmarshalJSON j old t = .ok (v, e) ∧
      (e = none ↔ ∃ str, j.unmarshal t = some str ∧ Accepts RFC2141Only str) ∧
      (e = none → ∃ str, j.unmarshal t = some str ∧ ParsesTo RFC2141Only str v) ∧
      (e ≠ none → v = old) ∧
      (e = some .json ↔ j.unmarshal t = none) ∧
      (∀ str, e = some (.invalidURN str) ↔ j.unmarshal t = some str ∧ ¬ Accepts RFC2141Only str) := by
  cases hs : j.unmarshal t with
  | none => exact ⟨old, some .json, by simp [URN.unmarshalJSON, hs], by simp, by simp, by simp, by simp, by simp⟩
  | some str =>
    simp only [URN.unmarshalJSON, hs, parse_default]
    rcases parse_cases (Or.inl rfl) str with ⟨v, h1, h2⟩ | ⟨h1, h2⟩
    · refine ⟨v, none, by rw [h2]; rfl, ?_, ?_, by simp, by simp, ?_⟩
      · simp; exact ⟨v, h1⟩
      · intro _; exact ⟨str, rfl, h1⟩
      · intro x; simp; rintro rfl; exact ⟨v, h1⟩
    · refine ⟨old, some (.invalidURN str), by rw [h2]; rfl, ?_, by simp, by simp, by simp, ?_⟩
      · simpa using h1
      · intro x; simp; rintro rfl; exact h1

example (old : URN) : ∃ v e, URN.unmarshalJSON Json.codec old (lit "\"URN:x-Y:%2Fa:B\"") = .ok (v, e) ∧ e = none := by
  obtain ⟨v, e, h, h', _⟩ := C28_urn Json.codec old (lit "\"URN:x-Y:%2Fa:B\"")
  exact ⟨v, e, h, h'.mpr ⟨Cases.s2141, by decide, _, Cases.p2141⟩⟩

/-- `(*SCIM).UnmarshalJSON`: what it does, completely. -/
theorem C28_scim (j : JsonCodec) (old : SCIM) (t : Bytes) :
    ∃ x e, SCIM.unmarshalJSON j old t = .ok (x, e) ∧
      (e = none ↔ ∃ str, j.unmarshal t = some str ∧ Accepts RFC7643Only str) ∧
      (e = none → ∃ str v, j.unmarshal t = some str ∧ ParsesTo RFC7643Only str v ∧ v.getSCIM = some x) ∧
      (e ≠ none → x = old) ∧
      (e = some .json ↔ j.unmarshal t = none) ∧
      (∀ str, e = some (.invalidSCIMURN str) ↔ j.unmarshal t = some str ∧ ¬ Accepts RFC7643Only str) := by
  cases hs : j.unmarshal t with
  | none => exact ⟨old, some .json, by simp [SCIM.unmarshalJSON, hs], by simp, by simp, by simp, by simp, by simp⟩
  | some str =>
    simp only [SCIM.unmarshalJSON, hs]
    rcases parse_cases (Or.inr rfl) str with ⟨v, h1, h2⟩ | ⟨h1, h2⟩
    · obtain ⟨_, _, x, h3, _, _, _, _, _, _, _, _, h4, _⟩ := C10_pieces str v h1
      refine ⟨x, none, ?_, ?_, ?_, by simp, by simp, ?_⟩
      · rw [h2]; simp [h3, h4]
      · simp; exact ⟨v, h1⟩
      · intro _; exact ⟨str, v, rfl, h1, h3⟩
      · intro x; simp; rintro rfl; exact ⟨v, h1⟩
    · refine ⟨old, some (.invalidSCIMURN str), by rw [h2]; rfl, ?_, by simp, by simp, by simp, ?_⟩
      · simpa using h1
      · intro x; simp; rintro rfl; exact h1

/-- All three outcomes occur. -/
example : URN.unmarshalJSON Json.codec { ID := lit "x" } (lit "7") = .ok ({ ID := lit "x" }, some .json) := by rfl

/-! ## C29 -/

theorem scimType_str {kw : Bytes} {ty : SchemaType} (h : ScimType kw ty) : SchemaType.toStr ty = kw := by
  cases h <;> rfl

theorem C29_text (s : Bytes) (u : URN) (x : SCIM) (h : ParsesTo RFC7643Only s u) (hx : u.getSCIM = some x) :
    x.string = lit "urn" ++ s.drop 3 := by
  revert h; intro hw; obtain ⟨pre, kw, ty, name, tail, other, h, rfl⟩ := parsesTo_7643.mp hw
  simp [URN.getSCIM, urnScim] at hx
  subst hx
  have e : s.drop 3 = 58 :: (lit "ietf:params:scim" ++ 58 :: (kw ++ 58 :: (name ++ tail))) := by
    rw [h.eq, List.drop_append_of_le_length (by rw [h.hpre.length]; exact Nat.le_refl 3), List.drop_eq_nil_of_le (by rw [h.hpre.length]; exact Nat.le_refl 3)]
    rfl
  rw [e]
  simp only [SCIM.string, scimType_str h.hkw]
  cases h.htail with
  | none => simp [lit]
  | some ho => simp [lit, ho.1]

example : ∃ x, Cases.u7643.getSCIM = some x ∧ x.string = lit "urn:ietf:params:scim:schemas:core:2.0%3AUser" :=
  ⟨_, rfl, (C29_text _ _ _ Cases.p7643 rfl).trans (by decide)⟩

/-- Well-formed SCIM values. -/
structure ScimOk (x : SCIM) : Prop where
  typ : x.Typ = SchemaType.Schemas ∨ x.Typ = SchemaType.API ∨ x.Typ = SchemaType.Param
  name : ScimName x.Name
  other : x.Other = [] ∨ Nss2141 x.Other

/-- The text of a well-formed SCIM value is a SCIM URN with that type, name and other part. -/
theorem scimOk_parse {x : SCIM} (hx : ScimOk x) : ∃ u y, ParsesTo RFC7643Only x.string u ∧ u.getSCIM = some y ∧
    y.Typ = x.Typ ∧ y.Name = x.Name ∧ y.Other = x.Other := by
  have hk : ∃ kw, ScimType kw x.Typ := by
    rcases hx.typ with h | h | h <;> rw [h]
    · exact ⟨_, .schemas⟩
    · exact ⟨_, .api⟩
    · exact ⟨_, .param⟩
  obtain ⟨kw, hk⟩ := hk
  have ht : ∃ tail, ScimTail tail x.Other ∧ x.string = lit "urn" ++ 58 :: (lit "ietf:params:scim" ++ 58 :: (kw ++ 58 :: (x.Name ++ tail))) := by
    by_cases ho : x.Other = []
    · refine ⟨[], by rw [ho]; exact .none, ?_⟩
      simp only [SCIM.string, scimType_str hk, ho]
      simp [lit]
    · have hn : Nss2141 x.Other := hx.other.resolve_left ho
      refine ⟨58 :: x.Other, .some hn, ?_⟩
      simp only [SCIM.string, scimType_str hk]
      simp [lit, ho]
  obtain ⟨tail, ht, he⟩ := ht
  exact ⟨_, _, parsesTo_7643.mpr ⟨lit "urn", kw, x.Typ, x.Name, tail, x.Other, ⟨he, by unfold IsUrn; decide, hk, hx.name, ht⟩, rfl⟩, rfl, rfl, rfl, rfl⟩

theorem C29_round_trip_built (j : JsonCodec) (hj : JsonOk j) (x old : SCIM) (hx : ScimOk x) :
    ∃ y, SCIM.unmarshalJSON j old (SCIM.marshalJSON j x) = .ok (y, none) ∧ y.Typ = x.Typ ∧ y.Name = x.Name ∧ y.Other = x.Other := by
  obtain ⟨u, y, h1, h2, h3⟩ := scimOk_parse hx
  refine ⟨y, ?_, h3⟩
  simp only [SCIM.unmarshalJSON, SCIM.marshalJSON, accepted_json hj (Or.inr (Or.inl rfl)) h1]
  rcases parse_cases (Or.inr rfl) x.string with ⟨v, h4, h5⟩ | ⟨h4, _⟩
  · have := parsesTo_unique h1 h4; subst this
    rw [h5]
    have := (C26_kind _ (Or.inr (Or.inl rfl)) _ _ h1).2.1 rfl
    simp [this, h2]
  · exact absurd ⟨u, h1⟩ h4

example (old : SCIM) : ∃ y, SCIM.unmarshalJSON Json.codec old
      (SCIM.marshalJSON Json.codec { Typ := SchemaType.API, Name := lit "messages", Other := [] }) = .ok (y, none) ∧ y.Name = lit "messages" := by
  obtain ⟨y, h, _, hn, _⟩ := C29_round_trip_built Json.codec Json.codec_ok { Typ := SchemaType.API, Name := lit "messages", Other := [] } old
    ⟨Or.inr (Or.inl rfl), by unfold ScimName; decide, Or.inl rfl⟩
  exact ⟨y, h, hn⟩

theorem scim_parsed_ok {s : Bytes} {u : URN} {x : SCIM} (h : ParsesTo RFC7643Only s u) (hx : u.getSCIM = some x) : ScimOk x := by
  revert h; intro hw; obtain ⟨pre, kw, ty, name, tail, other, h, rfl⟩ := parsesTo_7643.mp hw
  simp [URN.getSCIM, urnScim] at hx
  subst hx
  refine ⟨?_, h.hname, ?_⟩
  · show ty = _ ∨ ty = _ ∨ ty = _
    cases h.hkw <;> simp
  · cases h.htail with
    | none => exact Or.inl rfl
    | some ho => exact Or.inr ho

/-- A parsed value is restored completely (including the unexported field). -/
theorem C29_round_trip (j : JsonCodec) (hj : JsonOk j) (s : Bytes) (u : URN) (x old : SCIM) (h : ParsesTo RFC7643Only s u)
    (hx : u.getSCIM = some x) : SCIM.unmarshalJSON j old (SCIM.marshalJSON j x) = .ok (x, none) := by
  have hpos : ∀ s u (x : SCIM), ParsesTo RFC7643Only s u → u.getSCIM = some x →
      x.pos = ((21 + (SchemaType.toStr x.Typ).length + 1 + (if x.Other = [] then 0 else x.Name.length + 1) : Nat) : Int) := by
    intro s u x hw hx
    obtain ⟨pre, kw, ty, name, tail, other, h, rfl⟩ := parsesTo_7643.mp hw
    simp [URN.getSCIM, urnScim] at hx
    subst hx
    simp only [scimType_str h.hkw]
    cases h.htail with
    | none => rfl
    | some ho => simp [ho.1]
  obtain ⟨v, y, h1, h2, h3, h4, h5⟩ := scimOk_parse (scim_parsed_ok h hx)
  have hy : y = x := by
    have e1 := hpos _ _ _ h1 h2
    have e2 := hpos _ _ _ h hx
    rw [h3, h4, h5, ← e2] at e1
    cases x; cases y; simp_all
  subst hy
  simp only [SCIM.unmarshalJSON, SCIM.marshalJSON, accepted_json hj (Or.inr (Or.inl rfl)) h1]
  rcases parse_cases (Or.inr rfl) y.string with ⟨w, h6, h7⟩ | ⟨h6, _⟩
  · have := parsesTo_unique h1 h6; subst this
    rw [h7]
    have := (C26_kind _ (Or.inr (Or.inl rfl)) _ _ h1).2.1 rfl
    simp [this, h2]
  · exact absurd ⟨v, h1⟩ h6

example (old : SCIM) : ∃ x, Cases.u7643.getSCIM = some x ∧
    SCIM.unmarshalJSON Json.codec old (SCIM.marshalJSON Json.codec x) = .ok (x, none) :=
  ⟨_, rfl, C29_round_trip _ Json.codec_ok _ _ _ old Cases.p7643 rfl⟩

/-- `UnmarshalJSON` of `SCIM` and of `URN` never panics. -/
theorem C29_no_panic (j : JsonCodec) (x : SCIM) (u : URN) (t : Bytes) :
    (∃ r, SCIM.unmarshalJSON j x t = .ok r) ∧ (∃ r, URN.unmarshalJSON j u t = .ok r) := by
  obtain ⟨a, b, h, _⟩ := C28_scim j x t
  obtain ⟨c, d, h', _⟩ := C28_urn j u t
  exact ⟨⟨_, h⟩, ⟨_, h'⟩⟩

example : ScimOk { Typ := SchemaType.Schemas, Name := lit "core", Other := lit "2.0:User" } :=
  ⟨Or.inl rfl, by unfold ScimName; decide, Or.inr ⟨by decide, plain_seq (w := lit "2.0:User") (t := []) (by decide) .nil⟩⟩

/-! ## C30 -/

theorem C30_round_trip (j : JsonCodec) (hj : JsonOk j) (s : Bytes) (u : URN) (old : URN8141) (h : ParsesTo RFC8141Only s u) :
    ∃ t, URN8141.marshalJSON j ⟨some u⟩ = .ok t ∧ URN8141.unmarshalJSON j old t = .ok (⟨some u⟩, none) := by
  have hk : KnownMode RFC8141Only := Or.inr (Or.inr rfl)
  have h1 := C15_stable RFC8141Only hk s u h
  refine ⟨_, rfl, ?_⟩
  simp only [URN8141.unmarshalJSON, accepted_json hj hk h1]
  obtain ⟨r, h2, h3⟩ := h1
  have h4 := C22_urn_ok _ _ r h2 (by simp [h3])
  rw [h2]
  simp [h3, h4]

example (old : URN8141) : ∃ t, URN8141.marshalJSON Json.codec ⟨some Cases.u8141⟩ = .ok t ∧
    URN8141.unmarshalJSON Json.codec old t = .ok (⟨some Cases.u8141⟩, none) :=
  C30_round_trip _ Json.codec_ok _ _ old Cases.p8141

/-- `(*URN8141).UnmarshalJSON` completely: it never panics; on error the receiver is unchanged; without
error the receiver holds the parsed URN, or nil, the latter exactly when `Parse` returns `nil, true`. -/
theorem C30_unmarshal (j : JsonCodec) (old : URN8141) (t : Bytes) :
    ∃ v e, URN8141.unmarshalJSON j old t = .ok (v, e) ∧
      (e ≠ none → v = old) ∧
      (e = some .json ↔ j.unmarshal t = none) ∧
      (e = none → ∀ u, v.urn = some u → ∃ str, j.unmarshal t = some str ∧ ParsesTo RFC8141Only str u) ∧
      ((e = none ∧ v.urn = none) ↔ ∃ str r, j.unmarshal t = some str ∧ parse str [withParsingMode RFC8141Only] = .ok r ∧ r.urn = none ∧ r.ok = true) := by
  cases hs : j.unmarshal t with
  | none => exact ⟨old, some .json, by simp [URN8141.unmarshalJSON, hs], by simp, by simp, by simp, by simp⟩
  | some str =>
    obtain ⟨r, hr⟩ := C01_parse_returns str [withParsingMode RFC8141Only]
    simp only [URN8141.unmarshalJSON, hs, hr, Run.ok_bind]
    cases ho : r.ok with
    | false => exact ⟨old, some (.invalidURN8141 str), by simp, by simp, by simp, by simp, by simp [ho, hr]⟩
    | true =>
      refine ⟨⟨r.urn⟩, none, by simp, by simp, by simp, ?_, ?_⟩
      · intro _ u hu; exact ⟨str, rfl, r, hr, hu⟩
      · simp [hr, ho]

/-- So it can succeed with a nil URN, for every correct JSON library, and `MarshalJSON` then panics. -/
theorem C30_refuted (j : JsonCodec) (hj : JsonOk j) :
    URN8141.unmarshalJSON j {} (j.marshal (lit "urn:ab:c?")) = .ok (⟨none⟩, none) ∧ URN8141.marshalJSON j ⟨none⟩ = .panic .nilDeref := by
  refine ⟨?_, rfl⟩
  simp only [URN8141.unmarshalJSON, hj (lit "urn:ab:c?") (by decide), C22_refuted]
  rfl

example : URN8141.unmarshalJSON Json.codec {} (Json.codec.marshal (lit "urn:ab:c?")) = .ok (⟨none⟩, none) := (C30_refuted _ Json.codec_ok).1

/-- Exactly when `UnmarshalJSON` succeeds with a nil URN: when the decoded text is one of those
described by `Silent8141`. -/
theorem C30_nil_iff (j : JsonCodec) (old : URN8141) (t str : Bytes) (ht : j.unmarshal t = some str) :
    (∃ v, URN8141.unmarshalJSON j old t = .ok (v, none) ∧ v.urn = none) ↔ Silent8141 str := by
  obtain ⟨v, e, h1, _, _, _, h2⟩ := C30_unmarshal j old t
  obtain ⟨r, hr⟩ := C01_parse_returns str [withParsingMode RFC8141Only]
  have h3 : (r.urn = none ∧ r.ok = true) ↔ Silent8141 str := by
    have h4 := C22_8141 str r hr
    have h5 := C22_urn_ok str _ r hr
    cases hu : r.urn with
    | none => simp only [hu, ne_eq, not_true, iff_false] at h4; simp only [true_and]; cases ho : r.ok <;> simp_all
    | some u => simp_all
  rw [← h3]
  constructor
  · rintro ⟨v', h4, h5⟩
    rw [h1] at h4; simp at h4
    obtain ⟨rfl, rfl⟩ := h4
    obtain ⟨str', r', h6, h7, h8⟩ := h2.mp ⟨rfl, h5⟩
    rw [ht] at h6; simp at h6; subst h6
    rw [hr] at h7; simp at h7; subst h7; exact h8
  · intro h4
    obtain ⟨h5, h6⟩ := h2.mpr ⟨str, r, ht, hr, h4⟩
    rw [h5] at h1
    exact ⟨v, h1, h6⟩

example : ¬ Silent8141 Cases.s8141 := fun h => by
  obtain ⟨v, hv, hn⟩ := (C30_nil_iff Json.codec {} (Json.codec.marshal Cases.s8141) Cases.s8141 (by decide)).mpr h
  obtain ⟨t, ht, ht'⟩ := C30_round_trip Json.codec Json.codec_ok _ _ {} Cases.p8141
  have e : t = Json.codec.marshal Cases.s8141 := by
    have : URN8141.marshalJSON Json.codec ⟨some Cases.u8141⟩ = .ok (Json.codec.marshal Cases.s8141) := by decide
    rw [this] at ht; simpa using ht.symm
  rw [e, hv] at ht'
  simp at ht'
  rw [ht'] at hn; simp at hn

/-! ## C31 -/

theorem C31_types :
    (∀ t : SchemaType, t = SchemaType.Schemas ∨ t = SchemaType.API ∨ t = SchemaType.Param → SchemaType.fromString (SchemaType.toStr t) = t) ∧
    (∀ w : Bytes, w = lit "schemas" ∨ w = lit "api" ∨ w = lit "param" → SchemaType.toStr (SchemaType.fromString w) = w) ∧
    (∀ w : Bytes, ¬ (w = lit "schemas" ∨ w = lit "api" ∨ w = lit "param") → SchemaType.fromString w = SchemaType.Unsupported) ∧
    (∀ t : SchemaType, ¬ (t = SchemaType.Schemas ∨ t = SchemaType.API ∨ t = SchemaType.Param) → SchemaType.toStr t = []) ∧
    SchemaType.toStr SchemaType.Schemas = lit "schemas" ∧ SchemaType.toStr SchemaType.API = lit "api" ∧ SchemaType.toStr SchemaType.Param = lit "param" := by
  refine ⟨?_, ?_, ?_, ?_, rfl, rfl, rfl⟩
  · rintro t (rfl | rfl | rfl) <;> decide
  · rintro w (rfl | rfl | rfl) <;> decide
  · intro w h; simp only [not_or] at h; simp [SchemaType.fromString, h]
  · intro t h; simp only [not_or] at h; simp [SchemaType.toStr, h]

end Urn
