import Verif.Bridge
/-!
# Helper lemmas of the property theorems
-/
set_option autoImplicit false
namespace Urn
open Spec

/-! ## Characters -/

theorem lowerByte_eq : ∀ c : UInt8, lowerByte c = lower c := forall_byte (by decide +kernel)

theorem lower_ascii : ∀ c : UInt8, lower c < 128 ↔ c < 128 := forall_byte (by decide +kernel)

theorem toLower_ascii {uni : Bytes → Bytes} {w : Bytes} (h : ∀ c ∈ w, c < 128) : toLower uni w = lowerAll w := by
  have : w.all (fun c => decide (c < 128)) = true := by simpa using h
  simp only [toLower, this, if_true, lowerAll]
  apply List.map_congr_left
  intro c _; exact lowerByte_eq c

theorem nid_ascii : ∀ c : UInt8, isNidChar c = true → c < 128 := forall_byte (by decide +kernel)
theorem nid_ne_colon : ∀ c : UInt8, isNidChar c = true → c ≠ 58 := forall_byte (by decide +kernel)
theorem alpha_of_urn : ∀ c : UInt8, lower c = 117 ∨ lower c = 114 ∨ lower c = 110 → isAlpha c = true := forall_byte (by decide +kernel)
theorem alnum_of_alpha : ∀ c : UInt8, isAlpha c = true → isAlnum c = true := by intro c h; simp [isAlnum, h]

theorem Spec.IsUrn.alpha {w : Bytes} (h : IsUrn w) : ∀ c ∈ w, isAlpha c = true := by
  obtain ⟨a, b, c, rfl, h1, h2, h3⟩ := isUrn_iff.mp h
  intro x hx
  simp at hx
  rcases hx with rfl | rfl | rfl
  · exact alpha_of_urn _ (Or.inl h1)
  · exact alpha_of_urn _ (Or.inr (Or.inl h2))
  · exact alpha_of_urn _ (Or.inr (Or.inr h3))

theorem Spec.IsUrn.noColon {w : Bytes} (h : IsUrn w) : 58 ∉ w := by
  intro hc; have := h.alpha 58 hc; revert this; decide

theorem Spec.IsUrn.ne {w : Bytes} (h : IsUrn w) : w ≠ [] := by
  rintro rfl; have := h.length; simp at this

theorem Spec.Nid2141.noColon {w : Bytes} (h : Nid2141 w) : 58 ∉ w := fun hc => nid_ne_colon _ (h.chars 58 hc) rfl
theorem Spec.Nid8141.noColon {w : Bytes} (h : Nid8141 w) : 58 ∉ w := fun hc => nid_ne_colon _ (h.chars 58 hc) rfl
theorem Spec.Nid8141.ne {w : Bytes} (h : Nid8141 w) : w ≠ [] := by rintro rfl; have := h.two; simp at this
theorem Spec.PctSeq1.ne {first cls : UInt8 → Bool} {w : Bytes} (h : PctSeq1 first cls w) : w ≠ [] := by cases h <;> simp

/-- Splitting at the first colon. -/
theorem split_colon {a b x y : Bytes} (h : a ++ 58 :: x = b ++ 58 :: y) (ha : 58 ∉ a) (hb : 58 ∉ b) : a = b ∧ x = y := by
  induction a generalizing b with
  | nil =>
    cases b with
    | nil => simp at h; exact ⟨rfl, h⟩
    | cons c b => simp at h; exact absurd (by simp [h.1]) hb
  | cons c a ih =>
    cases b with
    | nil => simp at h; exact absurd (by simp [h.1]) ha
    | cons d b =>
      simp at h ha hb
      obtain ⟨h1, h2⟩ := ih h.2 ha.2 hb.2
      exact ⟨by rw [h.1, h1], h2⟩

/-! ## `String()` -/

/-- `String()` on complete URNs. -/
theorem string_eq {u : URN} (h1 : u.prefix ≠ []) (h2 : u.ID ≠ []) (h3 : u.SS ≠ []) :
    u.string = u.prefix ++ 58 :: u.ID ++ 58 :: u.SS ++ (if u.rComponent = [] then [] else 63 :: 43 :: u.rComponent) ++
      (if u.qComponent = [] then [] else 63 :: 61 :: u.qComponent) ++ (if u.fComponent = [] then [] else 35 :: u.fComponent) := by
  simp only [URN.string, h1, h2, h3, ne_eq, not_false_eq_true, and_self, if_true, if_false, List.nil_append]
  by_cases hr : u.rComponent = [] <;> by_cases hq : u.qComponent = [] <;> by_cases hf : u.fComponent = [] <;>
    simp [hr, hq, hf, lit]

theorem urn2141_string {s pre nid nss : Bytes} (h : Urn2141 s pre nid nss) : (urn2141 pre nid nss).string = s := by
  rw [string_eq h.hpre.ne h.hnid.nonempty h.hnss.1, h.eq]
  simp [urn2141]

theorem urnScim_string {s pre kw name tail other : Bytes} {ty : SchemaType} (h : UrnScim s pre kw ty name tail other) :
    (urnScim pre kw ty name tail other).string = s := by
  rw [string_eq h.hpre.ne (by simp [urnScim, lit]) (by simp [urnScim]), h.eq]
  simp [urnScim]

/-- The prefix stored for an RFC 8141 URN. -/
def pre8141 (pre nid : Bytes) : Bytes := if startsUrn nid then nid.take 3 else pre

theorem pre8141_urn {pre nid : Bytes} (h : IsUrn pre) : IsUrn (pre8141 pre nid) := by
  simp only [pre8141]
  split
  · rename_i hs
    obtain ⟨p, t, rfl, hp⟩ := startsUrn_iff.mp hs
    rw [List.take_append_of_le_length (by rw [hp.length]; exact Nat.le_refl _), ← hp.length, List.take_length]
    exact hp
  · exact h

/-- The fragment without the empty one. -/
def dropEmpty : Option Bytes → Option Bytes
  | some [] => none
  | f => f

theorem urn8141_string {s pre nid nss : Bytes} {r q f : Option Bytes} (h : Urn8141 s pre nid nss r q f) :
    (urn8141 pre nid nss r q f).string =
      pre8141 pre nid ++ 58 :: nid ++ 58 :: nss ++ opt (lit "?+") r ++ opt (lit "?=") q ++ opt (lit "#") (dropEmpty f) := by
  rw [string_eq (u := urn8141 pre nid nss r q f) (pre8141_urn h.hpre).ne h.hnid.ne (PctSeq1.ne h.hnss)]
  have hr : (if (urn8141 pre nid nss r q f).rComponent = [] then [] else 63 :: 43 :: (urn8141 pre nid nss r q f).rComponent) = opt (lit "?+") r := by
    cases r with
    | none => rfl
    | some w => have := (h.hr w rfl).ne; simp [urn8141, opt, lit, this]
  have hq : (if (urn8141 pre nid nss r q f).qComponent = [] then [] else 63 :: 61 :: (urn8141 pre nid nss r q f).qComponent) = opt (lit "?=") q := by
    cases q with
    | none => rfl
    | some w => have := (h.hq w rfl).ne; simp [urn8141, opt, lit, this]
  have hf : (if (urn8141 pre nid nss r q f).fComponent = [] then [] else 35 :: (urn8141 pre nid nss r q f).fComponent) = opt (lit "#") (dropEmpty f) := by
    cases f with
    | none => rfl
    | some w => cases w <;> simp [urn8141, opt, lit, dropEmpty]
  rw [hr, hq, hf]
  rfl

theorem Spec.Urn8141.reprint {s pre nid nss : Bytes} {r q f : Option Bytes} (h : Urn8141 s pre nid nss r q f) :
    Urn8141 (urn8141 pre nid nss r q f).string (pre8141 pre nid) nid nss r q (dropEmpty f) := by
  refine ⟨urn8141_string h, pre8141_urn h.hpre, h.hnid, h.hnss, h.hr, h.hq, ?_⟩
  intro w hw
  cases f with
  | none => simp [dropEmpty] at hw
  | some v =>
    cases v with
    | nil => simp [dropEmpty] at hw
    | cons c t => simp [dropEmpty] at hw; subst hw; exact h.hf _ rfl

theorem urn8141_reprint (pre nid nss : Bytes) (r q f : Option Bytes) :
    urn8141 (pre8141 pre nid) nid nss r q (dropEmpty f) = urn8141 pre nid nss r q f := by
  have h1 : (dropEmpty f).getD [] = f.getD [] := by
    cases f with
    | none => rfl
    | some v => cases v <;> rfl
  simp only [urn8141, h1, pre8141]
  by_cases h : startsUrn nid = true <;> simp [h]

/-! ## Bytes of accepted inputs -/

/-- The bytes allowed in an RFC 2141 or SCIM URN. -/
def okByte2 (c : UInt8) : Bool := isSss c || c == 37
/-- The bytes allowed in an RFC 8141 URN. -/
def okByte8 (c : UInt8) : Bool := isPcharSlashQ c || c == 37 || c == 35

theorem okByte2_of : ∀ c : UInt8, (isSss c = true ∨ c = 37 ∨ isAlnum c = true) → okByte2 c = true := forall_byte (by decide +kernel)
theorem okByte2_nid : ∀ c : UInt8, isNidChar c = true → okByte2 c = true := forall_byte (by decide +kernel)
theorem okByte8_of2 : ∀ c : UInt8, okByte2 c = true → okByte8 c = true := forall_byte (by decide +kernel)
theorem okByte8_of : ∀ c : UInt8, (isPcharSlashQ c = true ∨ c = 37 ∨ isAlnum c = true) → okByte8 c = true := forall_byte (by decide +kernel)
theorem okByte8_slash : ∀ c : UInt8, (isPcharSlash c = true ∨ c = 37 ∨ isAlnum c = true) → okByte8 c = true := forall_byte (by decide +kernel)
theorem alnum_nid : ∀ c : UInt8, isAlpha c = true → isNidChar c = true := forall_byte (by decide +kernel)

theorem Spec.Urn2141.bytes {s pre nid nss : Bytes} (h : Urn2141 s pre nid nss) : ∀ c ∈ s, okByte2 c = true := by
  intro c hc
  rw [h.eq] at hc
  simp only [List.append_assoc, List.cons_append, List.mem_append, List.mem_cons] at hc
  rcases hc with hc | rfl | hc | rfl | hc
  · exact okByte2_nid c (alnum_nid c (h.hpre.alpha c hc))
  · decide
  · exact okByte2_nid c (h.hnid.chars c hc)
  · decide
  · exact okByte2_of c (h.hnss.2.mem c hc)

theorem Spec.ScimType.bytes {kw : Bytes} {ty : SchemaType} (h : ScimType kw ty) : ∀ c ∈ kw, isAlnum c = true := by
  cases h <;> decide

theorem Spec.UrnScim.bytes {s pre kw name tail other : Bytes} {ty : SchemaType} (h : UrnScim s pre kw ty name tail other) :
    ∀ c ∈ s, okByte2 c = true := by
  intro c hc
  rw [h.eq] at hc
  simp only [List.mem_append, List.mem_cons] at hc
  rcases hc with hc | rfl | hc | rfl | hc | rfl | hc | hc
  · exact okByte2_nid c (alnum_nid c (h.hpre.alpha c hc))
  · decide
  · revert c; decide
  · decide
  · exact okByte2_of c (Or.inr (Or.inr (h.hkw.bytes c hc)))
  · decide
  · exact okByte2_of c (Or.inr (Or.inr (h.hname.2 c hc)))
  · cases h.htail with
    | none => simp at hc
    | some ho =>
      simp only [List.mem_cons] at hc
      rcases hc with rfl | hc
      · decide
      · exact okByte2_of c (ho.2.mem c hc)

theorem opt_mem {p : Bytes} {o : Option Bytes} {c : UInt8} (h : c ∈ opt p o) : c ∈ p ∨ ∃ w, o = some w ∧ c ∈ w := by
  cases o with
  | none => simp [opt] at h
  | some w =>
    simp only [opt, List.mem_append] at h
    rcases h with h | h
    · exact Or.inl h
    · exact Or.inr ⟨w, rfl, h⟩

theorem okByte8_marks : ∀ c ∈ lit "?+" ++ (lit "?=" ++ lit "#"), okByte8 c = true := by decide

theorem Spec.Urn8141.bytes {s pre nid nss : Bytes} {r q f : Option Bytes} (h : Urn8141 s pre nid nss r q f) :
    ∀ c ∈ s, okByte8 c = true := by
  intro c hc
  rw [h.eq] at hc
  simp only [List.append_assoc, List.cons_append, List.mem_append, List.mem_cons] at hc
  rcases hc with hc | rfl | hc | rfl | hc | hc | hc | hc
  · exact okByte8_of2 _ (okByte2_nid c (alnum_nid c (h.hpre.alpha c hc)))
  · decide
  · exact okByte8_of2 _ (okByte2_nid c (h.hnid.chars c hc))
  · decide
  · exact okByte8_slash c ((nss8141_seq h.hnss).mem c hc)
  · rcases opt_mem hc with hc | ⟨w, hw, hc⟩
    · exact okByte8_marks c (by simp [hc])
    · exact okByte8_of c ((h.hr w hw).seq.mem c hc)
  · rcases opt_mem hc with hc | ⟨w, hw, hc⟩
    · exact okByte8_marks c (by simp [hc])
    · exact okByte8_of c ((h.hq w hw).seq.mem c hc)
  · rcases opt_mem hc with hc | ⟨w, hw, hc⟩
    · exact okByte8_marks c (by simp [hc])
    · exact okByte8_of c ((h.hf w hw).mem c hc)

/-! ## The look-ahead -/

theorem lookahead_iff {s : Bytes} : lookahead s = true ↔ (s[4]? = some 117 ∨ s[4]? = some 85) ∧ s[7]? = some 58 := by
  simp [lookahead]

/-- The look-ahead does not depend on the case of letters. -/
theorem lookahead_map {s t : Bytes} (h : s.map lower = t.map lower) : lookahead s = lookahead t := by
  have key : ∀ s : Bytes, lookahead s = ((s.map lower)[4]? == some 117 && (s.map lower)[7]? == some 58) := by
    intro s
    rw [Bool.eq_iff_iff]
    simp only [lookahead_iff, List.getElem?_map, Bool.and_eq_true, beq_iff_eq]
    constructor
    · rintro ⟨h1 | h1, h2⟩ <;> rw [h1, h2] <;> decide
    · rintro ⟨h1, h2⟩
      rw [Option.map_eq_some_iff] at h1 h2
      obtain ⟨a, h1, h1'⟩ := h1
      obtain ⟨b, h2, h2'⟩ := h2
      rw [h1, h2]
      rw [lower_u] at h1'
      rw [lower_58] at h2'
      subst h2'
      exact ⟨by rcases h1' with rfl | rfl <;> simp, rfl⟩
  rw [key s, key t, h]

theorem lowerAll_lowerEsc (w : Bytes) : lowerAll (lowerEsc w) = lowerAll w := by
  induction w using lowerEsc.induct with
  | case1 a b w ih => simp only [lowerEsc, lowerAll, List.map_cons, lower_lower] at *; rw [ih]
  | case2 c w hne ih =>
    have : lowerEsc (c :: w) = c :: lowerEsc w := by
      rw [lowerEsc]
      intro a b w' h1 h2
      exact hne a b w' h1 h2
    rw [this]; simp only [lowerAll, List.map_cons] at *; rw [ih]
  | case3 => rfl

theorem EscEq_lowerAll {v w : Bytes} (h : EscEq v w) : lowerAll v = lowerAll w := by
  induction h with
  | nil => rfl
  | char _ _ ih => simp only [lowerAll, List.map_cons] at *; rw [ih]
  | pct h1 h2 _ ih => simp only [lowerAll, List.map_cons] at *; rw [ih, h1, h2]

end Urn
