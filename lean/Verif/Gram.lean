import Verif.Main
/-!
# From scanners to grammars

The scanners of the reference parser accept exactly the grammars of `Spec.lean`.
-/
namespace Urn
open Spec

section Steps
variable {σ : Type} {stp : σ → UInt8 → Option σ}

/-- Run a scanner on a whole string. -/
def steps (stp : σ → UInt8 → Option σ) : σ → Bytes → Option σ
  | q, [] => some q
  | q, c :: w =>
      match stp q c with
      | none => none
      | some q' => steps stp q' w

theorem steps_cons (q : σ) (c : UInt8) (w : Bytes) : steps stp q (c :: w) = (stp q c).bind (fun q' => steps stp q' w) := by
  simp only [steps]; cases stp q c <;> rfl

theorem steps_append (q : σ) (v w : Bytes) : steps stp q (v ++ w) = (steps stp q v).bind (fun q' => steps stp q' w) := by
  induction v generalizing q with
  | nil => rfl
  | cons c v ih =>
    simp only [List.cons_append, steps_cons]
    cases stp q c <;> simp [ih]

theorem steps_munch (q : σ) (l : Bytes) : steps stp q (munch stp q l).2.1 = some (munch stp q l).1 := by
  induction l generalizing q with
  | nil => rfl
  | cons c r ih =>
    simp only [munch]
    cases h : stp q c with
    | none => rfl
    | some q' => simp only [steps, h]; exact ih q'

theorem munch_eq {q q' : σ} {w r : Bytes} (h : steps stp q w = some q')
    (hr : ∀ c t, r = c :: t → stp q' c = none) : munch stp q (w ++ r) = (q', w, r) := by
  induction w generalizing q with
  | nil =>
    simp only [steps, Option.some.injEq] at h
    subst h
    cases r with
    | nil => rfl
    | cons c t => simp only [List.nil_append, munch, hr c t rfl]
  | cons c w ih =>
    simp only [steps] at h
    cases hs : stp q c with
    | none => simp [hs] at h
    | some q1 =>
      simp only [hs] at h
      simp only [List.cons_append, munch, hs, ih h]

theorem munch_eq_nil {q q' : σ} {w : Bytes} (h : steps stp q w = some q') : munch stp q w = (q', w, []) := by
  have := munch_eq (r := []) h (by simp)
  simpa using this

end Steps

/-! ## Bytes -/

theorem not_upper_of_ge {c : UInt8} (h : ¬ isUpper c = true) : lower c = c := by simp [lower, h]

theorem lower_inj_range : ∀ c : UInt8, isAlnum (lower c) = isAlnum c := forall_byte (by decide +kernel)
theorem lower_lower : ∀ c : UInt8, lower (lower c) = lower c := forall_byte (by decide +kernel)
theorem lower_nid : ∀ c : UInt8, isNidChar (lower c) = isNidChar c := forall_byte (by decide +kernel)
theorem lower_58 : ∀ c : UInt8, lower c = 58 ↔ c = 58 := forall_byte (by decide +kernel)
theorem lower_45 : ∀ c : UInt8, lower c = 45 ↔ c = 45 := forall_byte (by decide +kernel)
theorem lower_37 : ∀ c : UInt8, lower c = 37 ↔ c = 37 := forall_byte (by decide +kernel)
theorem nid_of_alnum : ∀ c : UInt8, isAlnum c = true → isNidChar c = true := forall_byte (by decide +kernel)
theorem alnum_of_nid : ∀ c : UInt8, isNidChar c = true → c ≠ 45 → isAlnum c = true := forall_byte (by decide +kernel)
theorem alnum_of_lower {c : UInt8} {x : UInt8} (hx : isAlnum x = true) (h : lower c = x) : isAlnum c = true := by
  rw [← lower_inj_range, h]; exact hx
theorem lit_urn : lit "urn" = [117, 114, 110] := rfl

/-! ## The prefix -/

theorem isUrn_iff {w : Bytes} : IsUrn w ↔ ∃ a b c, w = [a, b, c] ∧ lower a = 117 ∧ lower b = 114 ∧ lower c = 110 := by
  simp only [IsUrn, lowerAll, lit_urn]
  constructor
  · intro h
    match w, h with
    | [a, b, c], h =>
      simp at h
      exact ⟨a, b, c, rfl, h⟩
    | [], h => simp at h
    | [_], h => simp at h
    | [_, _], h => simp at h
    | _ :: _ :: _ :: _ :: _, h => simp at h
  · rintro ⟨a, b, c, rfl, h1, h2, h3⟩
    simp [h1, h2, h3]

theorem Spec.IsUrn.length {w : Bytes} (h : IsUrn w) : w.length = 3 := by
  obtain ⟨a, b, c, rfl, _⟩ := isUrn_iff.mp h; rfl

theorem refPrefix_urn {pre rest : Bytes} {k : Bytes → Bytes → Res} (h : IsUrn pre) :
    refPrefix (pre ++ 58 :: rest) k = k pre rest := by
  obtain ⟨a, b, c, rfl, h1, h2, h3⟩ := isUrn_iff.mp h
  have hm : munch (litStep urnPat) 0 (([a, b, c] ++ [58]) ++ rest) = (4, [a, b, c] ++ [58], rest) := by
    apply munch_eq
    · simp [steps, litStep, urnPat, h1, h2, h3]
    · intro x t _; rfl
  simp only [List.cons_append, List.nil_append] at hm ⊢
  simp only [refPrefix, hm, if_true]
  rfl

/-- Inputs without the prefix. -/
theorem refPrefix_bad {s : Bytes} (h : ∀ pre rest, IsUrn pre → s ≠ pre ++ 58 :: rest) (k : Bytes → Bytes → Res) :
    refPrefix s k = bad .pfx (munch (litStep urnPat) 0 s).1 := by
  simp only [refPrefix]
  have h4 : (munch (litStep urnPat) 0 s).1 ≠ 4 := by
    intro h4
    have ha := munch_append (litStep urnPat) 0 s
    have hl := lit_state urnPat s 0
    have hs := steps_munch (stp := litStep urnPat) 0 s
    generalize munch (litStep urnPat) 0 s = x at *
    obtain ⟨i, w, r⟩ := x
    simp only at *
    subst h4
    match w, hs, hl with
    | [a, b, c, d], hs, _ =>
      have e0 : litStep urnPat 0 a = if lower a == 117 then some 1 else none := rfl
      have e1 : litStep urnPat 1 b = if lower b == 114 then some 2 else none := rfl
      have e2 : litStep urnPat 2 c = if lower c == 110 then some 3 else none := rfl
      have e3 : litStep urnPat 3 d = if d == 58 then some 4 else none := rfl
      by_cases h0 : lower a = 117 <;> by_cases h1 : lower b = 114 <;> by_cases h2 : lower c = 110 <;>
        by_cases h3 : d = 58 <;> simp [steps, e0, e1, e2, e3, h0, h1, h2, h3] at hs
      subst h3
      exact h [a, b, c] r (isUrn_iff.mpr ⟨a, b, c, rfl, h0, h1, h2⟩) ha.symm
    | [], _, hl => simp at hl
    | [_], _, hl => simp at hl
    | [_, _], _, hl => simp at hl
    | [_, _, _], _, hl => simp at hl
    | _ :: _ :: _ :: _ :: _ :: _, _, hl => simp at hl
  rw [if_neg h4]

/-- Either there is a prefix, or the error is about it. -/
theorem refPrefix_cases (s : Bytes) :
    (∃ pre rest, IsUrn pre ∧ s = pre ++ 58 :: rest) ∨
    (∃ n, n ≤ s.length ∧ n < 4 ∧ ∀ k, refPrefix s k = bad .pfx n) := by
  by_cases h : ∃ pre rest, IsUrn pre ∧ s = pre ++ 58 :: rest
  · exact Or.inl h
  · refine Or.inr ⟨(munch (litStep urnPat) 0 s).1, ?_, ?_, fun k => refPrefix_bad (fun pre rest hp hs => h ⟨pre, rest, hp, hs⟩) k⟩
    · have h1 := lit_state urnPat s 0
      have h2 := congrArg List.length (munch_append (litStep urnPat) 0 s)
      simp at h2
      omega
    · have h1 := lit_le urnPat s 0 (by decide)
      have h3 : urnPat.length = 4 := rfl
      have h2 : (munch (litStep urnPat) 0 s).1 ≠ 4 := by
        intro h4
        have := refPrefix_bad (s := s) (fun pre rest hp hs => h ⟨pre, rest, hp, hs⟩) (fun _ _ => (none, none))
        simp [refPrefix, h4, bad] at this
      omega

/-! ## RFC 2141 identifiers -/

theorem nid2_chars {k : Nat} (hk : k ≤ 32) (w : Bytes) (q : N2) :
    steps nid2Step (.chars k) w = some q ↔ (∀ c ∈ w, isNidChar c = true) ∧ k + w.length ≤ 32 ∧ q = .chars (k + w.length) := by
  induction w generalizing k with
  | nil => simp [steps, hk]; exact eq_comm
  | cons c w ih =>
    simp only [steps, nid2Step]
    by_cases h : isNidChar c = true ∧ k < 32
    · simp only [h, and_self, if_true]
      rw [ih (by omega)]
      simp only [List.mem_cons, forall_eq_or_imp, h.1, true_and, List.length_cons]
      rw [show k + 1 + w.length = k + (w.length + 1) by omega]
    · simp only [h, if_false]
      simp only [reduceCtorEq, List.mem_cons, forall_eq_or_imp, List.length_cons, false_iff, not_and]
      intro h1 h2
      exact absurd ⟨h1.1, by omega⟩ h

/-- What the identifier scanner accepts. -/
theorem nid2_steps {w : Bytes} {q : N2} (h : steps nid2Step .start w = some q) :
    (∀ c ∈ w, isNidChar c = true) ∧ w.length ≤ 32 ∧ w.head? ≠ some 45 ∧ (q = .start ↔ w = []) ∧
      (q = .u3 ↔ IsUrn w) := by
  have hu : ∀ {c : UInt8} {x : UInt8}, lower c = x → isAlnum x = true → isAlnum c = true := fun h hx => alnum_of_lower hx h
  match w, h with
  | [], h =>
    simp only [steps, Option.some.injEq] at h
    subst h
    simp [IsUrn, lowerAll, lit_urn]
  | c :: t, h =>
    simp only [steps] at h
    by_cases hc : isAlnum c = true
    rotate_left
    · simp [nid2Step, hc] at h
    have hcn := nid_of_alnum c hc
    have hd : c ≠ 45 := by rintro rfl; simp [show isAlnum 45 = false by decide] at hc
    have hhd : (c :: t).head? ≠ some 45 := by simp [hd]
    have notUrn : ∀ {t : Bytes} {k}, q = .chars k → ¬ IsUrn (c :: t) → (q = .u3 ↔ IsUrn (c :: t)) := by
      rintro t k rfl h; simp [h]
    by_cases h0 : lower c = 117
    rotate_left
    · simp only [nid2Step, hc, h0, if_true, if_false] at h
      obtain ⟨h1, h2, h3⟩ := (nid2_chars (by omega) t q).mp h
      refine ⟨by simp [hcn]; exact h1, by simp; omega, hhd, by simp [h3], notUrn h3 ?_⟩
      intro h
      obtain ⟨a, b, c', e, ha, _⟩ := isUrn_iff.mp h
      simp at e
      exact h0 (by rw [e.1]; exact ha)
    simp only [nid2Step, hc, h0, if_true] at h
    match t, h, hhd with
    | [], h, _ =>
      simp only [steps, Option.some.injEq] at h
      subst h
      refine ⟨by simp [hcn], by simp, by simp [hd], by simp, ?_⟩
      simp [IsUrn, lowerAll, lit_urn]
    | d :: t, h, _ =>
      simp only [steps] at h
      by_cases hd2 : isNidChar d = true
      rotate_left
      · simp [nid2Step, hd2] at h
      by_cases h1 : lower d = 114
      rotate_left
      · simp only [nid2Step, hd2, h1, if_true, if_false] at h
        obtain ⟨g1, g2, g3⟩ := (nid2_chars (by omega) t q).mp h
        refine ⟨by simp [hcn, hd2]; exact g1, by simp; omega, by simp [hd], by simp [g3], notUrn g3 ?_⟩
        intro h
        obtain ⟨a, b, c', e, _, ha, _⟩ := isUrn_iff.mp h
        simp at e
        exact h1 (by rw [e.2.1]; exact ha)
      simp only [nid2Step, hd2, h1, if_true] at h
      match t, h with
      | [], h =>
        simp only [steps, Option.some.injEq] at h
        subst h
        refine ⟨by simp [hcn, hd2], by simp, by simp [hd], by simp, ?_⟩
        simp [IsUrn, lowerAll, lit_urn]
      | e :: t, h =>
        simp only [steps] at h
        by_cases he : isNidChar e = true
        rotate_left
        · simp [nid2Step, he] at h
        by_cases h2 : lower e = 110
        rotate_left
        · simp only [nid2Step, he, h2, if_true, if_false] at h
          obtain ⟨g1, g2, g3⟩ := (nid2_chars (by omega) t q).mp h
          refine ⟨by simp [hcn, hd2, he]; exact g1, by simp; omega, by simp [hd], by simp [g3], notUrn g3 ?_⟩
          intro h
          obtain ⟨a, b, c', e, _, _, ha⟩ := isUrn_iff.mp h
          simp at e
          exact h2 (by rw [e.2.2.1]; exact ha)
        simp only [nid2Step, he, h2, if_true] at h
        match t, h with
        | [], h =>
          simp only [steps, Option.some.injEq] at h
          subst h
          refine ⟨by simp [hcn, hd2, he], by simp, by simp [hd], by simp, ?_⟩
          exact ⟨fun _ => isUrn_iff.mpr ⟨c, d, e, rfl, h0, h1, h2⟩, fun _ => rfl⟩
        | f :: t, h =>
          simp only [steps] at h
          by_cases hf : isNidChar f = true
          rotate_left
          · simp [nid2Step, hf] at h
          simp only [nid2Step, hf, if_true] at h
          obtain ⟨g1, g2, g3⟩ := (nid2_chars (by omega) t q).mp h
          refine ⟨by simp [hcn, hd2, he, hf]; exact g1, by simp; omega, by simp [hd], by simp [g3], notUrn g3 ?_⟩
          intro h
          have := h.length
          simp at this

/-- Conversely, it accepts every string of the right characters and length. -/
theorem nid2_complete {w : Bytes} (hc : ∀ c ∈ w, isNidChar c = true) (hl : w.length ≤ 32)
    (hd : w.head? ≠ some 45) : ∃ q, steps nid2Step .start w = some q := by
  have ch : ∀ {k : Nat} {t : Bytes}, (∀ c ∈ t, isNidChar c = true) → k + t.length ≤ 32 →
      ∃ q, steps nid2Step (.chars k) t = some q := fun h1 h2 =>
    ⟨_, (nid2_chars (by omega) _ _).mpr ⟨h1, h2, rfl⟩⟩
  cases w with
  | nil => exact ⟨_, rfl⟩
  | cons c t =>
    simp only [List.mem_cons, forall_eq_or_imp, List.length_cons, List.head?_cons, ne_eq, Option.some.injEq] at hc hl hd
    have ha := alnum_of_nid c hc.1 hd
    simp only [steps, nid2Step, ha, if_true]
    split
    · rename_i h; split at h <;> simp at h
    · rename_i q' h
      split at h
      · simp only [Option.some.injEq] at h; subst h
        cases t with
        | nil => exact ⟨_, rfl⟩
        | cons d t =>
          simp only [List.mem_cons, forall_eq_or_imp, List.length_cons] at hc hl
          simp only [steps, nid2Step, hc.2.1, if_true]
          split
          · rename_i h; split at h <;> simp at h
          · rename_i q' h
            split at h
            · simp only [Option.some.injEq] at h; subst h
              cases t with
              | nil => exact ⟨_, rfl⟩
              | cons e t =>
                simp only [List.mem_cons, forall_eq_or_imp, List.length_cons] at hc hl
                simp only [steps, nid2Step, hc.2.2.1, if_true]
                split
                · rename_i h; split at h <;> simp at h
                · rename_i q' h
                  split at h
                  · simp only [Option.some.injEq] at h; subst h
                    cases t with
                    | nil => exact ⟨_, rfl⟩
                    | cons f t =>
                      simp only [List.mem_cons, forall_eq_or_imp, List.length_cons] at hc hl
                      simp only [steps, nid2Step, hc.2.2.2.1, if_true]
                      exact ch hc.2.2.2.2 (by omega)
                  · simp only [Option.some.injEq] at h; subst h
                    exact ch hc.2.2.2 (by omega)
            · simp only [Option.some.injEq] at h; subst h
              exact ch hc.2.2 (by omega)
      · simp only [Option.some.injEq] at h; subst h
        exact ch hc.2 (by omega)

theorem N2.canEnd_iff (q : N2) : q.canEnd = true ↔ q ≠ .start ∧ q ≠ .u3 := by
  cases q <;> simp [N2.canEnd]

theorem nid2_iff {w : Bytes} : (∃ q, steps nid2Step .start w = some q ∧ q.canEnd = true) ↔ Nid2141 w := by
  constructor
  · rintro ⟨q, h, hc⟩
    obtain ⟨h1, h2, h3, h4, h5⟩ := nid2_steps h
    rw [N2.canEnd_iff] at hc
    exact ⟨fun h => hc.1 (h4.mpr h), h2, h1, h3, fun h => hc.2 (h5.mpr h)⟩
  · rintro ⟨h1, h2, h3, h4, h5⟩
    obtain ⟨q, hq⟩ := nid2_complete h3 h2 h4
    obtain ⟨_, _, _, g4, g5⟩ := nid2_steps hq
    exact ⟨q, hq, (N2.canEnd_iff q).mpr ⟨fun h => h1 (g4.mp h), fun h => h5 (g5.mp h)⟩⟩

theorem nid2_colon (q : N2) : nid2Step q 58 = none := by
  have h1 : isAlnum 58 = false := by decide
  have h2 : isNidChar 58 = false := by decide
  cases q <;> simp [nid2Step, h1, h2]

/-! ## Sequences with escapes -/

section
variable {first cls : UInt8 → Bool}

theorem bytes_ind {P : Bytes → Prop}
    (hs : ∀ w, (∀ v, v.length < w.length → P v) → P w) (w : Bytes) : P w := by
  have : ∀ n, ∀ w, w.length < n → P w := by
    intro n
    induction n with
    | zero => intro w h; omega
    | succ n ih => intro w h; exact hs w (fun v hv => ih v (by omega))
  exact this _ w (Nat.lt_succ_self _)

theorem nss_plain (hc : cls 37 = false) (w : Bytes) : ∀ q : Nss, q.ok = true →
    ((∃ q', steps (nssStep first cls) q w = some q' ∧ q'.ok = true) ↔ PctSeq cls w) := by
  induction w using bytes_ind with
  | hs w ih =>
    intro q hq
    have hq' : ∀ c, nssStep first cls q c = if c = 37 then some .h1 else if cls c then some .plain else none := by
      intro c; cases q <;> first | rfl | simp [Nss.ok] at hq
    match w, ih with
    | [], _ => exact ⟨fun _ => .nil, fun _ => ⟨q, rfl, hq⟩⟩
    | c :: t, ih =>
      by_cases h37 : c = 37
      · subst h37
        constructor
        · rintro ⟨q', h, hk⟩
          simp only [steps, hq', if_true] at h
          match t, h, ih with
          | [], h, _ => simp only [steps, Option.some.injEq] at h; subst h; simp [Nss.ok] at hk
          | [a], h, _ =>
            simp only [steps, nssStep] at h
            split at h
            · simp at h
            · rename_i h'; split at h' <;> simp at h'; subst h'; simp only [Option.some.injEq] at h; subst h; simp [Nss.ok] at hk
          | a :: b :: t, h, ih =>
            by_cases ha : isAlnum a = true <;> by_cases hb : isAlnum b = true <;> simp [steps, nssStep, ha, hb] at h
            exact .pct ha hb ((ih t (by simp only [List.length_cons]; omega) .ah rfl).mp ⟨q', h, hk⟩)
        · intro h
          cases h with
          | char h _ => rw [hc] at h; simp at h
          | pct ha hb h =>
            obtain ⟨q', h, hk⟩ := (ih _ (by simp; omega) .ah rfl).mpr h
            refine ⟨q', ?_, hk⟩
            rw [steps, hq', if_pos rfl]
            simp [steps, nssStep, ha, hb, h]
      · constructor
        · rintro ⟨q', h, hk⟩
          simp only [steps, hq', h37, if_false] at h
          by_cases hcl : cls c = true <;> simp [hcl] at h
          exact .char hcl ((ih t (by simp) .plain rfl).mp ⟨q', h, hk⟩)
        · intro h
          cases h with
          | char hcl h =>
            obtain ⟨q', h, hk⟩ := (ih _ (by simp) .plain rfl).mpr h
            exact ⟨q', by simp [steps, hq', h37, hcl, h], hk⟩
          | pct => exact absurd rfl h37

theorem nss_iff (hf : first 37 = false) (hc : cls 37 = false) {w : Bytes} :
    (∃ q', steps (nssStep first cls) .start w = some q' ∧ q'.ok = true) ↔ PctSeq1 first cls w := by
  match w with
  | [] =>
    constructor
    · rintro ⟨q', h, hk⟩; simp [steps] at h; subst h; simp [Nss.ok] at hk
    · intro h; cases h
  | c :: t =>
    by_cases h37 : c = 37
    · subst h37
      constructor
      · rintro ⟨q', h, hk⟩
        simp only [steps, nssStep, if_true] at h
        match t, h with
        | [], h => simp only [steps, Option.some.injEq] at h; subst h; simp [Nss.ok] at hk
        | [a], h =>
          simp only [steps, nssStep] at h
          split at h
          · simp at h
          · rename_i h'; split at h' <;> simp at h'; subst h'; simp only [Option.some.injEq] at h; subst h; simp [Nss.ok] at hk
        | a :: b :: t, h =>
          by_cases ha : isAlnum a = true <;> by_cases hb : isAlnum b = true <;> simp [steps, nssStep, ha, hb] at h
          exact .pct ha hb ((nss_plain hc t .ah rfl).mp ⟨q', h, hk⟩)
      · intro h
        cases h with
        | char h _ => rw [hf] at h; simp at h
        | pct ha hb h =>
          obtain ⟨q', h, hk⟩ := (nss_plain (first := first) hc _ .ah rfl).mpr h
          exact ⟨q', by simp [steps, nssStep, ha, hb, h], hk⟩
    · constructor
      · rintro ⟨q', h, hk⟩
        simp only [steps, nssStep, h37, if_false] at h
        by_cases hcl : first c = true <;> simp [hcl] at h
        exact .char hcl ((nss_plain hc t .plain rfl).mp ⟨q', h, hk⟩)
      · intro h
        cases h with
        | char hcl h =>
          obtain ⟨q', h, hk⟩ := (nss_plain (first := first) hc _ .plain rfl).mpr h
          exact ⟨q', by simp [steps, nssStep, h37, hcl, h], hk⟩
        | pct => exact absurd rfl h37

theorem pctSeq1_iff {w : Bytes} : PctSeq1 cls cls w ↔ w ≠ [] ∧ PctSeq cls w := by
  constructor
  · intro h
    cases h with
    | char h1 h2 => exact ⟨by simp, .char h1 h2⟩
    | pct h1 h2 h3 => exact ⟨by simp, .pct h1 h2 h3⟩
  · rintro ⟨h, h'⟩
    cases h' with
    | nil => exact absurd rfl h
    | char h1 h2 => exact .char h1 h2
    | pct h1 h2 h3 => exact .pct h1 h2 h3

/-! ## Lower casing -/

theorem lowerEsc_char {c : UInt8} (h : c ≠ 37) (w : Bytes) : lowerEsc (c :: w) = c :: lowerEsc w := by
  rw [lowerEsc]
  intro a b w h'
  exact absurd h' h

theorem lowerGo_eq (hc : cls 37 = false) {w : Bytes} (h : PctSeq cls w) : lowerGo .plain w = lowerEsc w := by
  induction h with
  | nil => rfl
  | @char c w h _ ih =>
    have h37 : c ≠ 37 := by rintro rfl; rw [hc] at h; simp at h
    rw [lowerEsc_char h37]
    simp [lowerGo, Esc.adv, h37, ih]
  | pct ha hb _ ih => simp [lowerGo, Esc.adv, lowerEsc, ih]

theorem Spec.PctSeq1.toSeq (hfc : ∀ c, first c = true → cls c = true) {w : Bytes} (h : PctSeq1 first cls w) : PctSeq cls w := by
  cases h with
  | char h1 h2 => exact .char (hfc _ h1) h2
  | pct h1 h2 h3 => exact .pct h1 h2 h3

theorem Spec.PctSeq.lowered (hc : cls 37 = false) {w : Bytes} (h : PctSeq cls w) : PctSeq cls (lowerEsc w) := by
  induction h with
  | nil => exact .nil
  | @char c w h _ ih =>
    have h37 : c ≠ 37 := by rintro rfl; rw [hc] at h; simp at h
    rw [lowerEsc_char h37]
    exact .char h ih
  | pct ha hb _ ih =>
    exact .pct (by rw [lower_inj_range]; exact ha) (by rw [lower_inj_range]; exact hb) ih

theorem Spec.PctSeq1.lowered (hf : first 37 = false) (hc : cls 37 = false) {w : Bytes} (h : PctSeq1 first cls w) :
    PctSeq1 first cls (lowerEsc w) := by
  cases h with
  | @char c w h1 h2 =>
    have h37 : c ≠ 37 := by rintro rfl; rw [hf] at h1; simp at h1
    rw [lowerEsc_char h37]
    exact .char h1 (h2.lowered hc)
  | pct ha hb h =>
    exact .pct (by rw [lower_inj_range]; exact ha) (by rw [lower_inj_range]; exact hb) (h.lowered hc)

theorem lowerEsc_idem (hc : cls 37 = false) {w : Bytes} (h : PctSeq cls w) : Spec.lowerEsc (Spec.lowerEsc w) = Spec.lowerEsc w := by
  induction h with
  | nil => rfl
  | @char c w h _ ih =>
    have h37 : c ≠ 37 := by rintro rfl; rw [hc] at h; simp at h
    rw [lowerEsc_char h37, lowerEsc_char h37, ih]
  | pct ha hb _ ih => simp [Spec.lowerEsc, ih, lower_lower]

/-- Two sequences have the same lower cased form iff they differ at most in the case of escapes. -/
theorem lowerEsc_eq_iff (hc : cls 37 = false) {v w : Bytes} (hv : PctSeq cls v) (hw : PctSeq cls w) :
    Spec.lowerEsc v = Spec.lowerEsc w ↔ EscEq v w := by
  constructor
  · intro h
    induction hv generalizing w with
    | nil =>
      cases hw with
      | nil => exact .nil
      | @char c w h1 _ =>
        have h37 : c ≠ 37 := by rintro rfl; rw [hc] at h1; simp at h1
        rw [lowerEsc_char h37] at h; simp [Spec.lowerEsc] at h
      | pct => simp [Spec.lowerEsc] at h
    | @char c v h1 _ ih =>
      have h37 : c ≠ 37 := by rintro rfl; rw [hc] at h1; simp at h1
      rw [lowerEsc_char h37] at h
      cases hw with
      | nil => simp [Spec.lowerEsc] at h
      | @char d w h2 hw =>
        have h37' : d ≠ 37 := by rintro rfl; rw [hc] at h2; simp at h2
        rw [lowerEsc_char h37'] at h
        simp at h
        obtain ⟨rfl, h⟩ := h
        exact .char h37 (ih hw h)
      | pct => simp [Spec.lowerEsc] at h; exact absurd h.1 h37
    | pct ha hb _ ih =>
      cases hw with
      | nil => simp [Spec.lowerEsc] at h
      | @char d w h2 hw =>
        have h37' : d ≠ 37 := by rintro rfl; rw [hc] at h2; simp at h2
        rw [lowerEsc_char h37'] at h
        simp [Spec.lowerEsc] at h; exact absurd h.1.symm h37'
      | pct ha' hb' hw =>
        simp [Spec.lowerEsc] at h
        exact .pct h.1 h.2.1 (ih hw h.2.2)
  · intro h
    clear hv hw
    induction h with
    | nil => rfl
    | char h37 _ ih => rw [lowerEsc_char h37, lowerEsc_char h37, ih]
    | pct h1 h2 _ ih => simp [Spec.lowerEsc, h1, h2, ih]

/-- The characters of a sequence. -/
theorem Spec.PctSeq.mem {w : Bytes} (h : PctSeq cls w) : ∀ c ∈ w, cls c = true ∨ c = 37 ∨ isAlnum c = true := by
  induction h with
  | nil => simp
  | char h _ ih => intro c hc; simp at hc; rcases hc with rfl | hc; exact Or.inl h; exact ih c hc
  | pct ha hb _ ih =>
    intro c hc
    simp at hc
    rcases hc with rfl | rfl | rfl | hc
    · exact Or.inr (Or.inl rfl)
    · exact Or.inr (Or.inr ha)
    · exact Or.inr (Or.inr hb)
    · exact ih c hc

theorem Spec.PctSeq.append {v w : Bytes} (hv : PctSeq cls v) (hw : PctSeq cls w) : PctSeq cls (v ++ w) := by
  induction hv with
  | nil => exact hw
  | char h _ ih => exact .char h ih
  | pct ha hb _ ih => exact .pct ha hb ih

theorem Spec.PctSeq.mono {cls' : UInt8 → Bool} (h : ∀ c, cls c = true → cls' c = true) {w : Bytes} (hw : PctSeq cls w) : PctSeq cls' w := by
  induction hw with
  | nil => exact .nil
  | char h1 _ ih => exact .char (h _ h1) ih
  | pct ha hb _ ih => exact .pct ha hb ih

end

end Urn
