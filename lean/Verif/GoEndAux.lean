import Verif.GoEndSpec
import Verif.PropsClient
import Verif.PropsJsonText
/-! # Lemmas for C74 -/
set_option autoImplicit false
namespace Urn.GoLang
open Spec
open Urn.Heap (Mem Got)

theorem parse_of {mode : ParsingMode} {s : Bytes} {u : URN} (h : ParsesTo mode s u) :
    Urn.parse s [withParsingMode mode] = .ok ⟨some u, true, s⟩ := by
  have h' := parsesTo_ref.1 h
  rw [parse_mode, h'.1, h'.2]

theorem lookahead_of {s : Bytes} (h : ¬ ((s[4]? = some 117 ∨ s[4]? = some 85) ∧ s[7]? = some 58)) : lookahead s = false := by
  cases e : lookahead s with
  | false => rfl
  | true => exact absurd (by simpa [lookahead] using e) h

theorem Splits.urn {mode : ParsingMode} {s i x : Bytes} (h : Splits mode s i x) :
    KnownMode mode ∧ ∃ u, ParsesTo mode s u ∧ u.ID = i ∧ u.SS = x := by
  cases h with
  | rfc2141 h h' => exact ⟨.inl rfl, _, parsesTo_2141.2 ⟨_, _, _, h, lookahead_of h', rfl⟩, rfl, rfl⟩
  | rfc7643 h => exact ⟨.inr (.inl rfl), _, parsesTo_7643.2 ⟨_, _, _, _, _, _, h, rfl⟩, rfl, rfl⟩
  | rfc8141 h => exact ⟨.inr (.inr rfl), _, parsesTo_8141.2 ⟨_, _, _, _, _, _, h, rfl⟩, rfl, rfl⟩

/-- From a run of the model to values. -/
theorem returns_of {P C : Prog} (hP : IsProgram files P) (hC : IsProgram [clientGo] C) (X : Ext) (ss : List Step) (hf : ∀ s ∈ ss, s.Fits X) (h : Heap)
    (gs : List Got) (a b : Nat) (hm : ∃ R M, runModel X ss {} {} = .ok (gs, R, M) ∧ M.urns.length = a ∧ M.scims.length = b) :
    ∃ f g, Returns P C X h ss (valsAll X f g ss gs) ∧ Inj f a ∧ Inj g b := by
  obtain ⟨R, M, hm, rfl, rfl⟩ := hm
  obtain ⟨f, g, R', h', h1, h2, -, -⟩ := C67_calls hP hC X ss hf h gs R M hm
  exact ⟨f, g, ⟨R', h', h1⟩, h2.1, h2.2.1⟩

/-- The text of a URN in RFC 8141 mode. -/
theorem string_8141 {s pre nid nss : Bytes} {r q f : Option Bytes} (h : Urn8141 s pre nid nss r q f) :
    (urn8141 pre nid nss r q f).string = text8141 pre nid nss r q f := by
  rw [urn8141_string h, pre8141, startsUrn]
  simp only [decide_eq_true_eq]
  unfold text8141
  rcases f with _ | _ | _ <;> rfl

theorem splits_of {mode : ParsingMode} (hk : KnownMode mode) {s : Bytes} {u : URN} (hu : ParsesTo mode s u) : Splits mode s u.ID u.SS := by
  rcases hk with rfl | rfl | rfl
  · obtain ⟨_, h2⟩ := (C05_exact s).1 ⟨u, hu⟩
    obtain ⟨_, _, _, h1, -, rfl⟩ := parsesTo_2141.1 hu
    exact .rfc2141 h1 h2
  · obtain ⟨_, _, _, _, _, _, h1, rfl⟩ := parsesTo_7643.1 hu
    exact .rfc7643 h1
  · obtain ⟨_, _, _, _, _, _, h1, rfl⟩ := parsesTo_8141.1 hu
    exact .rfc8141 h1

theorem accepts_splits {mode : ParsingMode} (hk : KnownMode mode) {s : Bytes} (h : Accepts mode s) : ∃ i x, Splits mode s i x :=
  have ⟨_, hu⟩ := h
  ⟨_, _, splits_of hk hu⟩

theorem parse_nil {mode : ParsingMode} {s : Bytes} (h : ¬ Accepts mode s) : ∃ r, Urn.parse s [withParsingMode mode] = .ok r ∧ r.urn = none := by
  refine ⟨_, parse_mode mode s, ?_⟩
  cases e : (match (refMode mode s).2 with
        | some _ => (⟨none, false, s⟩ : ParseResult)
        | none => ⟨(refMode mode s).1, true, s⟩).urn with
  | none => rfl
  | some u => exact absurd ⟨u, _, parse_mode mode s, e⟩ h

theorem scim_string {s pre kw name tail other : Bytes} {ty pos : Int} (h : UrnScim s pre kw ty name tail other) :
    SCIM.string { Typ := ty, Name := name, Other := other, pos := pos } = lit "urn:ietf:params:scim:" ++ kw ++ 58 :: (name ++ tail) := by
  cases h.hkw <;> (cases h.htail with
    | none => simp [SCIM.string]; rfl
    | some h0 => simp [SCIM.string, h0.1]; rfl)

theorem scim_encode {s pre kw name tail other : Bytes} {ty : SchemaType} (h : UrnScim s pre kw ty name tail other) :
    Json.codec.marshal (lit "urn:ietf:params:scim:" ++ kw ++ 58 :: (name ++ tail)) = lit "\"urn:ietf:params:scim:" ++ kw ++ 58 :: (name ++ tail) ++ lit "\"" := by
  have hu : UrnScim (lit "urn:ietf:params:scim:" ++ kw ++ 58 :: (name ++ tail)) (lit "urn") kw ty name tail other :=
    ⟨by simp [lit], by unfold IsUrn; decide, h.hkw, h.hname, h.htail⟩
  have hp := parsesTo_7643.2 ⟨_, _, _, _, _, _, hu, rfl⟩
  have e := (C54_text _ (.inr (.inl rfl)) _ _ hp).1 (.inr rfl)
  have e1 : (urnScim (lit "urn") kw ty name tail other).string = lit "urn:ietf:params:scim:" ++ kw ++ 58 :: (name ++ tail) := by
    obtain ⟨_, _, _, _, _, _, _, _, _, _, _, _, _, _, he, _⟩ := C10_pieces _ _ hp
    exact he
  rw [URN.marshalJSON, e1] at e
  rw [e]
  simp [lit]

end Urn.GoLang
