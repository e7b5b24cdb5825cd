import Verif.Lang2141
/-!
# The language of the SCIM reference parser
-/
namespace Urn
open Spec

/-- The URN returned for `pre:ietf:params:scim:kw:name[:other]`. -/
def urnScim (pre kw : Bytes) (ty : SchemaType) (name tail other : Bytes) : URN :=
  { «prefix» := pre, ID := lit "ietf:params:scim", SS := kw ++ 58 :: (name ++ tail),
    norm := kw ++ 58 :: (name ++ lowerEsc tail), kind := .RFC7643,
    scim := some { Typ := ty, Name := name, Other := other,
                   pos := ((21 + kw.length + 1 + (if tail = [] then 0 else name.length + 1) : Nat) : Int) },
    tolower := if tail = [] then [] else ups .plain (kw.length + 1 + name.length + 1) other }

theorem name_steps {w : Bytes} {b q : Bool} :
    steps nameStep b w = some q ↔ (∀ c ∈ w, isAlnum c = true) ∧ q = (b || decide (w ≠ [])) := by
  induction w generalizing b with
  | nil => simp [steps]; exact eq_comm
  | cons c w ih =>
    simp only [steps, nameStep]
    by_cases h : isAlnum c = true
    · simp only [h, if_true, ih]
      simp [h]
    · simp [h]

theorem name_colon (b : Bool) : nameStep b 58 = none := by simp [nameStep, show isAlnum 58 = false by decide]

theorem lit_steps (w : Bytes) : ∀ v u, w = v ++ u → steps (litStep (litPat w)) v.length u = some w.length := by
  intro v u
  induction u generalizing v with
  | nil => intro h; simp [steps, h]
  | cons c u ih =>
    intro h
    have h1 : litStep (litPat w) v.length c = some (v.length + 1) := litStep_some.mpr ⟨by rw [h]; simp, rfl⟩
    have h2 := ih (v ++ [c]) (by rw [h]; simp)
    simp only [List.length_append, List.length_singleton] at h2
    simp only [steps, h1, h2]

theorem lit_munch (w r : Bytes) : munch (litStep (litPat w)) 0 (w ++ r) = (w.length, w, r) := by
  apply munch_eq
  · exact lit_steps w [] w rfl
  · intro c t _
    exact litStep_none.mpr (by simp)

/-- The scanner of a literal reads the longest common prefix. -/
theorem lit_read (w l : Bytes) : (munch (litStep (litPat w)) 0 l).2.1 = w.take (munch (litStep (litPat w)) 0 l).1 := by
  have key : ∀ l i, i ≤ w.length → (munch (litStep (litPat w)) i l).1 ≤ w.length ∧
      (munch (litStep (litPat w)) i l).2.1 = (w.drop i).take ((munch (litStep (litPat w)) i l).1 - i) ∧
      i ≤ (munch (litStep (litPat w)) i l).1 := by
    intro l
    induction l with
    | nil => intro i hi; simp [munch, hi]
    | cons c r ih =>
      intro i hi
      simp only [munch]
      cases hs : litStep (litPat w) i c with
      | none => simp [hi]
      | some j =>
        obtain ⟨h1, rfl⟩ := litStep_some.mp hs
        have hlt := lt_of_get h1
        obtain ⟨g1, g2, g3⟩ := ih (i + 1) (by omega)
        refine ⟨g1, ?_, by simp only; omega⟩
        simp only
        rw [g2]
        have hd : w.drop i = c :: w.drop (i + 1) := by
          rw [List.drop_eq_getElem_cons hlt]
          congr 1
          have := List.getElem?_eq_getElem hlt
          rw [this] at h1
          simpa using h1
        rw [hd]
        generalize (munch (litStep (litPat w)) (i + 1) r).1 = n at *
        rw [show n - i = (n - (i + 1)) + 1 by omega, List.take_succ_cons]
  have := (key l 0 (by omega)).2.1
  simpa using this

theorem lit_full {w l : Bytes} (h : (munch (litStep (litPat w)) 0 l).1 = w.length) :
    l = w ++ (munch (litStep (litPat w)) 0 l).2.2 := by
  have h1 := lit_read w l
  have h2 := munch_append (litStep (litPat w)) 0 l
  rw [h1, h, List.take_length] at h2
  exact h2.symm

theorem kwOf_type {kw : Bytes} {ty : SchemaType} (h : ScimType kw ty) :
    kw ≠ [] ∧ ∀ rest, (kw ++ rest).head?.bind kwOf = some (kw, ty) := by
  cases h <;> exact ⟨by decide, fun _ => rfl⟩

theorem kwOf_some {c : UInt8} {kw : Bytes} {ty : SchemaType} (h : kwOf c = some (kw, ty)) : ScimType kw ty := by
  simp only [kwOf] at h
  split at h
  · simp only [Option.some.injEq, Prod.mk.injEq] at h; obtain ⟨rfl, rfl⟩ := h; exact .api
  · split at h
    · simp only [Option.some.injEq, Prod.mk.injEq] at h; obtain ⟨rfl, rfl⟩ := h; exact .param
    · split at h
      · simp only [Option.some.injEq, Prod.mk.injEq] at h; obtain ⟨rfl, rfl⟩ := h; exact .schemas
      · simp at h

theorem refScimName_ok {hx : Bool} {pre kw name tail other : Bytes} {ty : SchemaType}
    (hn : ScimName name) (ht : ScimTail tail other) :
    refScimName hx pre kw ty (name ++ tail) (21 + kw.length + 1) = (some (urnScim pre kw ty name tail other), none) := by
  obtain ⟨h1, h2⟩ := hn
  have hs : steps nameStep false name = some true := name_steps.mpr ⟨h2, by simp [h1]⟩
  have hm : munch nameStep false (name ++ tail) = (true, name, tail) := munch_eq hs (by
    intro c t h
    cases ht with
    | none => simp at h
    | some _ => simp at h; rw [← h.1]; exact name_colon _)
  simp only [refScimName, hm, if_true]
  cases ht with
  | none => simp [urnScim, lowerEsc]
  | some ho =>
    obtain ⟨q, g1, g2⟩ := nss2141_iff.mp ho
    simp only [if_true, refScimOther, munch_eq_nil g1, g2, urnScim, List.cons_ne_nil, if_false,
      lowerGo_eq sss37 ho.2, lowerEsc_char (by decide : (58 : UInt8) ≠ 37)]
    rfl

/-- The result on a SCIM URN. -/
theorem refScim_wf {fl : Flags} {s pre kw name tail other : Bytes} {ty : SchemaType}
    (h : UrnScim s pre kw ty name tail other) :
    refScim fl s = (some (urnScim pre kw ty name tail other), none) := by
  obtain ⟨rfl, h1, h2, h3, h4⟩ := h
  have e : lit "ietf:params:scim" ++ 58 :: (kw ++ 58 :: (name ++ tail)) =
      lit "ietf:params:scim:" ++ (kw ++ 58 :: (name ++ tail)) := rfl
  have e2 : kw ++ 58 :: (name ++ tail) = (kw ++ lit ":") ++ (name ++ tail) := by simp; rfl
  obtain ⟨_, g2⟩ := kwOf_type h2
  rw [refScim, refPrefix_urn h1, e]
  simp only [refScimNs, lit_munch, show (lit "ietf:params:scim:").length = 17 from rfl, if_true, refScimType]
  rw [g2]
  simp only
  rw [e2]
  simp only [lit_munch, List.length_append, show (lit ":").length = 1 from rfl, if_true]
  exact refScimName_ok h3 h4

/-- The result on any other input. -/
theorem refScim_notwf {fl : Flags} {s : Bytes}
    (h : ∀ pre kw ty name tail other, ¬ UrnScim s pre kw ty name tail other) :
    ∃ e, refScim fl s = (none, some e) := by
  rcases refPrefix_cases s with ⟨pre, rest, h1, rfl⟩ | ⟨n, _, _, hb⟩
  rotate_left
  · exact ⟨_, hb _⟩
  rw [refScim, refPrefix_urn h1]
  simp only [refScimNs]
  by_cases hns : (munch (litStep (litPat (lit "ietf:params:scim:"))) 0 rest).1 = 17
  rotate_left
  · rw [if_neg hns]; exact ⟨_, rfl⟩
  rw [if_pos hns]
  have e1 := lit_full (w := lit "ietf:params:scim:") hns
  generalize (munch (litStep (litPat (lit "ietf:params:scim:"))) 0 rest).2.2 = rest1 at *
  clear hns
  subst e1
  simp only [refScimType]
  cases hk : rest1.head?.bind kwOf with
  | none => exact ⟨_, rfl⟩
  | some kt =>
    obtain ⟨kw, ty⟩ := kt
    have hkw : ScimType kw ty := by
      cases hh : rest1.head? with
      | none => simp [hh] at hk
      | some c => simp [hh] at hk; exact kwOf_some hk
    simp only
    by_cases hl : (munch (litStep (litPat (kw ++ lit ":"))) 0 rest1).1 = kw.length + 1
    rotate_left
    · rw [if_neg hl]; exact ⟨_, rfl⟩
    rw [if_pos hl]
    have e2 := lit_full (w := kw ++ lit ":") (l := rest1) (by rw [hl]; simp; rfl)
    generalize (munch (litStep (litPat (kw ++ lit ":"))) 0 rest1).2.2 = rest2 at *
    clear hl
    subst e2
    simp only [refScimName]
    have hs := steps_munch (stp := nameStep) false rest2
    have ha := munch_append nameStep false rest2
    generalize munch nameStep false rest2 = z at *
    obtain ⟨q, name, r⟩ := z
    simp only at *
    obtain ⟨h2, h3⟩ := name_steps.mp hs
    cases hq : q with
    | false => exact ⟨_, rfl⟩
    | true =>
      have hname : ScimName name := ⟨by rintro rfl; simp at h3; rw [h3] at hq; simp at hq, h2⟩
      simp only [if_true]
      cases r with
      | nil =>
        exfalso
        simp only [List.append_nil] at ha
        subst ha
        exact h pre kw ty name [] [] ⟨by simp; rfl, h1, hkw, hname, .none⟩
      | cons c other =>
        simp only
        by_cases hc : c = 58
        rotate_left
        · rw [if_neg hc]; exact ⟨_, rfl⟩
        rw [if_pos hc]
        subst hc ha
        have ho : ¬ Nss2141 other := fun ho =>
          h pre kw ty name (58 :: other) other ⟨by simp; rfl, h1, hkw, hname, .some ho⟩
        simp only [refScimOther]
        have hs := steps_munch (stp := nssStep isSss isSss) .start other
        have ha := munch_append (nssStep isSss isSss) .start other
        generalize munch (nssStep isSss isSss) .start other = y at *
        obtain ⟨q, w, r⟩ := y
        simp only at *
        cases r with
        | nil =>
          simp only [List.append_nil] at ha
          subst ha
          have hok : q.ok ≠ true := fun hok => ho (nss2141_iff.mpr ⟨q, hs, hok⟩)
          rw [if_pos rfl, if_neg hok]
          split <;> exact ⟨_, rfl⟩
        | cons c t => exact ⟨_, rfl⟩

/-- Exact language and results. -/
theorem refScim_iff {fl : Flags} {s : Bytes} {u : URN} :
    refScim fl s = (some u, none) ↔
      ∃ pre kw ty name tail other, UrnScim s pre kw ty name tail other ∧ u = urnScim pre kw ty name tail other := by
  by_cases h : ∃ pre kw ty name tail other, UrnScim s pre kw ty name tail other
  · obtain ⟨pre, kw, ty, name, tail, other, h⟩ := h
    constructor
    · intro h'
      rw [refScim_wf h] at h'
      simp at h'
      exact ⟨_, _, _, _, _, _, h, h'.symm⟩
    · rintro ⟨_, _, _, _, _, _, h', rfl⟩
      exact refScim_wf h'
  · have h' : ∀ pre kw ty name tail other, ¬ UrnScim s pre kw ty name tail other :=
      fun a b c d e f hu => h ⟨a, b, c, d, e, f, hu⟩
    obtain ⟨e, he⟩ := refScim_notwf (fl := fl) h'
    rw [he]
    constructor
    · intro h; simp at h
    · rintro ⟨_, _, _, _, _, _, hu, _⟩; exact absurd hu (h' _ _ _ _ _ _)

theorem refScim_or (fl : Flags) (s : Bytes) :
    (∃ u, refScim fl s = (some u, none)) ∨ (∃ e, refScim fl s = (none, some e)) := by
  by_cases h : ∃ pre kw ty name tail other, UrnScim s pre kw ty name tail other
  · obtain ⟨pre, kw, ty, name, tail, other, h⟩ := h
    exact Or.inl ⟨_, refScim_wf h⟩
  · exact Or.inr (refScim_notwf (fun a b c d e f hu => h ⟨a, b, c, d, e, f, hu⟩))

end Urn
