import Verif.ErrKindComp
/-!
# Error kinds of the reference parser: SCIM
-/
set_option autoImplicit false
namespace Urn
open Spec

theorem incomplete_iff {w : Bytes} : Incomplete w ↔ ∃ q, steps (nssStep isSss isSss) .start w = some q ∧ q.ok = false := by
  constructor
  · rintro (rfl | ⟨a, ha, hw⟩)
    · exact ⟨.start, rfl, rfl⟩
    · obtain ⟨p, h1, h2⟩ := (seq_good sss37 a).mp ha
      have h3 : nssStep isSss isSss p 37 = some .h1 := by
        rcases h2 with rfl | h2
        · rfl
        · cases p <;> simp [Nss.ok] at h2 <;> rfl
      rcases hw with rfl | ⟨x, hx, rfl⟩
      · exact ⟨.h1, by rw [steps_append, h1]; simp [steps, h3], rfl⟩
      · exact ⟨.h2, by
          have h4 : nssStep isSss isSss .h1 x = some .h2 := by simp [nssStep, hx]
          rw [steps_append, h1]; simp [steps, h3, h4], rfl⟩
  · rintro ⟨q, h1, h2⟩
    cases q <;> simp [Nss.ok] at h2
    case start => exact Or.inl (nss_start_nil h1)
    case h1 =>
      obtain ⟨a, p, rfl, h3, h4⟩ := esc1 (escNss isSss isSss) h1 rfl
      exact Or.inr ⟨a, (seq_good sss37 a).mpr ⟨p, h3, h4⟩, Or.inl rfl⟩
    case h2 =>
      obtain ⟨a, p, x, rfl, hx, h3, h4⟩ := esc2 (escNss isSss isSss) h1 rfl
      exact Or.inr ⟨a, (seq_good sss37 a).mpr ⟨p, h3, h4⟩, Or.inr ⟨x, hx, rfl⟩⟩

/-- Why the other part fails. -/
def OFault (k : ErrKind) (w : Bytes) : Prop :=
  (k = .scimOtherIncomplete ∧ Incomplete w) ∨ (k = .scimOther ∧ ¬ Nss2141 w ∧ ¬ Incomplete w)

theorem fails_other {pre kw name w : Bytes} {ty : SchemaType} {b : Nat} {k : ErrKind} :
    Fails (refScimOther false pre kw ty name w b) k ↔ OFault k w := by
  have hs := steps_munch (stp := nssStep isSss isSss) .start w
  have ha := munch_append (nssStep isSss isSss) .start w
  have ht := fun c t => munch_stop (nssStep isSss isSss) .start w (c := c) (t := t)
  have hn : ∀ c t, (munch (nssStep isSss isSss) .start w).2.2 = c :: t → steps (nssStep isSss isSss) .start w = none := by
    intro c t e
    have h1 := ht c t e
    rw [← ha, steps_append, hs, e]
    simp [steps, h1]
  simp only [refScimOther, OFault]
  generalize munch (nssStep isSss isSss) .start w = x at *
  obtain ⟨q, v, r⟩ := x
  simp only at *
  cases r with
  | nil =>
    rw [List.append_nil] at ha
    subst ha
    have h1 : Incomplete v ↔ q.ok = false := by
      rw [incomplete_iff, hs]; simp
    have h2 : Nss2141 v ↔ q.ok = true := by
      rw [nss2141_iff, hs]; simp
    rw [h1, h2]
    cases hq : q.ok with
    | true => simp [not_fails_ok]
    | false => simp [Fails, eq_comm]
  | cons c t =>
    have h0 := hn c t rfl
    have h1 : ¬ Incomplete w := by rw [incomplete_iff, h0]; simp
    have h2 : ¬ Nss2141 w := by rw [nss2141_iff, h0]; simp
    have h3 : nssErr false .scimOther q = .scimOther := by cases q <;> rfl
    simp [h1, h2, h3, fails_bad']

/-- Why the name and what follows it fails. -/
def MFault (k : ErrKind) (w : Bytes) : Prop :=
  (k = .scimName ∧ ¬ ∃ name x, ScimName name ∧ w = name ++ x ∧ (x = [] ∨ ∃ v, x = 58 :: v)) ∨
  (∃ name v, ScimName name ∧ w = name ++ 58 :: v ∧ OFault k v)

theorem fails_name {pre kw w : Bytes} {ty : SchemaType} {b : Nat} {k : ErrKind} :
    Fails (refScimName false pre kw ty w b) k ↔ MFault k w := by
  have hs := steps_munch (stp := nameStep) false w
  have ha := munch_append nameStep false w
  have key : ∀ name x, ScimName name → w = name ++ x → (x = [] ∨ ∃ v, x = 58 :: v) → munch nameStep false w = (true, name, x) := by
    rintro name x ⟨h1, h2⟩ rfl hx
    apply munch_eq (name_steps.mpr ⟨h2, by simp [h1]⟩)
    rintro c t rfl
    rcases hx with hx | ⟨v, hx⟩
    · simp at hx
    · simp at hx; rw [hx.1]; exact name_colon _
  simp only [refScimName, MFault]
  generalize munch nameStep false w = x at *
  obtain ⟨q, v, r⟩ := x
  simp only at *
  obtain ⟨h1, h2⟩ := name_steps.mp hs
  cases q with
  | false =>
    have : ¬ ∃ name x, ScimName name ∧ w = name ++ x ∧ (x = [] ∨ ∃ v, x = 58 :: v) := by
      rintro ⟨n, x, a, b, c⟩; have := key n x a b c; simp at this
    have h3 : ¬ ∃ name v, ScimName name ∧ w = name ++ 58 :: v ∧ OFault k v := by
      rintro ⟨n, v, a, b, _⟩; exact this ⟨n, _, a, b, Or.inr ⟨v, rfl⟩⟩
    simp only [this, h3, fails_bad', Bool.false_eq_true, if_false, not_false_eq_true, and_true, or_false]
  | true =>
    have hv : ScimName v := ⟨by simpa using h2, h1⟩
    cases r with
    | nil =>
      have hE : ∃ name x, ScimName name ∧ w = name ++ x ∧ (x = [] ∨ ∃ v, x = 58 :: v) := ⟨v, [], hv, ha.symm, Or.inl rfl⟩
      have h3 : ¬ ∃ name v, ScimName name ∧ w = name ++ 58 :: v ∧ OFault k v := by
        rintro ⟨n, v', a, b, _⟩
        have := key n _ a b (Or.inr ⟨v', rfl⟩)
        simp at this
      simp only [hE, h3, if_true, not_true, and_false, or_self, iff_false]
      exact not_fails_ok
    | cons c t =>
      by_cases hc : c = 58
      · subst hc
        have hE : ∃ name x, ScimName name ∧ w = name ++ x ∧ (x = [] ∨ ∃ v, x = 58 :: v) := ⟨v, _, hv, ha.symm, Or.inr ⟨t, rfl⟩⟩
        simp only [hE, if_true, not_true, and_false, false_or, fails_other]
        constructor
        · intro h; exact ⟨v, t, hv, ha.symm, h⟩
        · rintro ⟨n, v', a, b, h⟩
          have := key n _ a b (Or.inr ⟨v', rfl⟩)
          simp at this
          rw [this.2]; exact h
      · have hE : ¬ ∃ name x, ScimName name ∧ w = name ++ x ∧ (x = [] ∨ ∃ v, x = 58 :: v) := by
          rintro ⟨n, x, a, b, d⟩
          have := key n x a b d
          simp at this
          rcases d with d | ⟨v', d⟩
          · rw [d] at this; simp at this
          · rw [d] at this; simp at this; exact hc this.2.1
        have h3 : ¬ ∃ name v, ScimName name ∧ w = name ++ 58 :: v ∧ OFault k v := by
          rintro ⟨n, v, a, b, _⟩; exact hE ⟨n, _, a, b, Or.inr ⟨v, rfl⟩⟩
        simp only [hE, h3, hc, if_true, if_false, fails_bad', not_false_eq_true, and_true, or_false]

/-- Why the type and what follows it fails. -/
def TFault (k : ErrKind) (w : Bytes) : Prop :=
  (k = .scimType ∧ ¬ ∃ kw ty v, ScimType kw ty ∧ w = kw ++ lit ":" ++ v) ∨
  (∃ kw ty v, ScimType kw ty ∧ w = kw ++ lit ":" ++ v ∧ MFault k v)

theorem fails_type {pre w : Bytes} {k : ErrKind} : Fails (refScimType false pre w) k ↔ TFault k w := by
  by_cases hE : ∃ kw ty v, ScimType kw ty ∧ w = kw ++ lit ":" ++ v
  · obtain ⟨kw, ty, v, h1, rfl⟩ := hE
    have hk := (kwOf_type h1).2 (lit ":" ++ v)
    rw [← List.append_assoc] at hk
    have hr : refScimType false pre (kw ++ lit ":" ++ v) = refScimName false pre kw ty v (21 + kw.length + 1) := by
      simp only [refScimType, hk, lit_munch, List.length_append, show (lit ":").length = 1 from rfl, if_true]
    rw [hr, fails_name]
    constructor
    · intro h; exact Or.inr ⟨kw, ty, v, h1, rfl, h⟩
    · rintro (⟨_, h⟩ | ⟨kw', ty', v', h2, e, h⟩)
      · exact absurd ⟨kw, ty, v, h1, rfl⟩ h
      · have hk' := (kwOf_type h2).2 (lit ":" ++ v')
        rw [← List.append_assoc, ← e, hk] at hk'
        simp at hk'
        obtain ⟨rfl, _⟩ := hk'
        have : v = v' := by simpa using e
        rw [this]; exact h
  · have hT : TFault k w ↔ k = .scimType := by
      constructor
      · rintro (h | ⟨a, b, c, d, e, _⟩)
        · exact h.1
        · exact absurd ⟨a, b, c, d, e⟩ hE
      · intro h; exact Or.inl ⟨h, hE⟩
    rw [hT]
    simp only [refScimType]
    cases hk : w.head?.bind kwOf with
    | none => exact fails_bad'
    | some x =>
      obtain ⟨kw, ty⟩ := x
      simp only
      rw [if_neg, fails_bad']
      intro h
      have hl := lit_full (w := kw ++ lit ":") (l := w) (by rw [h]; simp [lit])
      cases hw : w.head? with
      | none => rw [hw] at hk; simp at hk
      | some c =>
        rw [hw] at hk
        exact hE ⟨kw, ty, _, kwOf_some hk, hl⟩

theorem fails_ns {pre w : Bytes} {k : ErrKind} : Fails (refScimNs false pre w) k ↔
    (k = .scimNamespace ∧ ¬ ∃ v, w = lit "ietf:params:scim:" ++ v) ∨ (∃ v, w = lit "ietf:params:scim:" ++ v ∧ TFault k v) := by
  by_cases hE : ∃ v, w = lit "ietf:params:scim:" ++ v
  · obtain ⟨v, rfl⟩ := hE
    simp only [refScimNs, lit_munch, show (lit "ietf:params:scim:").length = 17 from rfl, if_true, fails_type]
    constructor
    · intro h; exact Or.inr ⟨v, rfl, h⟩
    · rintro (⟨_, h⟩ | ⟨v', e, h⟩)
      · exact absurd ⟨v, rfl⟩ h
      · have : v = v' := by simpa using e
        rw [this]; exact h
  · have h3 : ¬ ∃ v, w = lit "ietf:params:scim:" ++ v ∧ TFault k v := by rintro ⟨v, h, _⟩; exact hE ⟨v, h⟩
    simp only [refScimNs, hE, h3, not_false_eq_true, and_true, or_false]
    rw [if_neg, fails_bad']
    intro h
    exact hE ⟨_, lit_full (w := lit "ietf:params:scim:") (l := w) h⟩

theorem fails_7643 {s : Bytes} {k : ErrKind} {chk : Bool} : Fails (refScim ⟨false, chk⟩ s) k ↔ Why7643 s k := by
  by_cases hp : ∃ rest, HasPrefix s rest
  rotate_left
  · have hf := prefix_fails (k := refScimNs false) hp
    constructor
    · intro h
      rw [← fails_inj hf h]; exact hp
    · intro h
      have : k = .pfx := by
        cases k <;> simp only [Why7643] at h
        case pfx => rfl
        case scimNamespace => obtain ⟨r, h, _⟩ := h; exact absurd ⟨_, h⟩ hp
        case scimType => obtain ⟨r, h, _⟩ := h; exact absurd ⟨_, h⟩ hp
        case scimName => obtain ⟨r, ⟨_, _, _, h⟩, _⟩ := h; exact absurd ⟨_, h⟩ hp
        case scimOther => obtain ⟨r, ⟨_, _, _, _, _, h⟩, _⟩ := h; exact absurd ⟨_, h⟩ hp
        case scimOtherIncomplete => obtain ⟨r, ⟨_, _, _, _, _, h⟩, _⟩ := h; exact absurd ⟨_, h⟩ hp
      rw [this]; exact hf
  · obtain ⟨rest, hp⟩ := hp
    have hp' := hp
    obtain ⟨pre, h1, e⟩ := hp'
    have hu : ∀ r, HasPrefix s r ↔ r = rest := fun r =>
      ⟨fun h => hasPrefix_unique h hp, fun h => h ▸ hp⟩
    have hr : refScim ⟨false, chk⟩ s = refScimNs false pre rest := by
      simp only [refScim]; rw [e, refPrefix_urn h1]
    have hS : ∀ w, AfterScim s w ↔ rest = lit "ietf:params:scim:" ++ w := by
      intro w; simp only [AfterScim, hu]; exact eq_comm
    have hall : Fails (refScim ⟨false, chk⟩ s) k ↔
        (k = .scimNamespace ∧ ¬ ∃ v, rest = lit "ietf:params:scim:" ++ v) ∨
        (∃ w, AfterScim s w ∧ k = .scimType ∧ ¬ ∃ kw ty v, ScimType kw ty ∧ w = kw ++ lit ":" ++ v) ∨
        (∃ w, AfterType s w ∧ k = .scimName ∧ ¬ ∃ name x, ScimName name ∧ w = name ++ x ∧ (x = [] ∨ ∃ v, x = 58 :: v)) ∨
        (∃ w, AfterName s w ∧ OFault k w) := by
      rw [hr, fails_ns]
      constructor
      · rintro (h | ⟨v, h2, h | ⟨kw, ty, v, h3, rfl, h | ⟨name, v, h4, rfl, h⟩⟩⟩)
        · exact Or.inl h
        · exact Or.inr (Or.inl ⟨v, (hS v).mpr h2, h⟩)
        · exact Or.inr (Or.inr (Or.inl ⟨v, ⟨kw, ty, h3, (hS _).mpr h2⟩, h⟩))
        · exact Or.inr (Or.inr (Or.inr ⟨v, ⟨name, h4, kw, ty, h3, (hS _).mpr (by rw [h2]; simp [lit])⟩, h⟩))
      · rintro (h | ⟨v, h2, h⟩ | ⟨v, ⟨kw, ty, h3, h2⟩, h⟩ | ⟨v, ⟨name, h4, kw, ty, h3, h2⟩, h⟩)
        · exact Or.inl h
        · exact Or.inr ⟨v, (hS _).mp h2, Or.inl h⟩
        · exact Or.inr ⟨_, (hS _).mp h2, Or.inr ⟨kw, ty, v, h3, rfl, Or.inl h⟩⟩
        · exact Or.inr ⟨_, (hS _).mp h2, Or.inr ⟨kw, ty, _, h3, rfl, Or.inr ⟨name, v, h4, by simp [lit], h⟩⟩⟩
    rw [hall]
    cases k <;> simp only [Why7643, OFault, hu, exists_eq_left, exists_eq, true_and, not_true, reduceCtorEq, false_and, and_false,
      exists_false, or_self, false_or, or_false]

end Urn
