import Verif.SpecErr
import Verif.ErrBest
/-!
# Error kinds of the reference parser
-/
set_option autoImplicit false
namespace Urn
open Spec

/-- The outcome is an error of this kind. -/
def Fails (x : Res) (k : ErrKind) : Prop := ∃ c, x = (none, some ⟨k, c⟩)

theorem fails_bad {k : ErrKind} {p : Nat} : Fails (bad k p) k := ⟨_, rfl⟩

theorem fails_bad_iff {k k' : ErrKind} {p : Nat} : Fails (bad k p) k' ↔ k = k' := by
  constructor
  · rintro ⟨c, h⟩; simp [bad] at h; exact h.1
  · rintro rfl; exact fails_bad

theorem fails_inj {x : Res} {k k' : ErrKind} (h : Fails x k) (h' : Fails x k') : k = k' := by
  obtain ⟨c, rfl⟩ := h
  obtain ⟨c', h'⟩ := h'
  simp at h'; exact h'.1

theorem not_fails_ok {o : Option URN} {k : ErrKind} : ¬ Fails (o, none) k := by rintro ⟨c, h⟩; simp at h

/-! ## Faults inside escapes, for any scanner -/

/-- Which states of a scanner are inside or after an escape, and from which an escape may start. -/
structure EscStates (σ : Type) (stp : σ → UInt8 → Option σ) (q0 : σ) where
  h1 : σ → Prop
  h2 : σ → Prop
  ah : σ → Prop
  G : σ → Prop
  start : ¬ h1 q0 ∧ ¬ h2 q0 ∧ ¬ ah q0
  to1 : ∀ q c q', stp q c = some q' → h1 q' → c = 37 ∧ G q
  to2 : ∀ q c q', stp q c = some q' → h2 q' → isAlnum c = true ∧ h1 q
  to3 : ∀ q c q', stp q c = some q' → ah q' → isAlnum c = true ∧ h2 q
  go1 : ∀ q, G q → ∃ q', stp q 37 = some q' ∧ h1 q'
  go2 : ∀ q c, h1 q → isAlnum c = true → ∃ q', stp q c = some q' ∧ h2 q'
  go3 : ∀ q c, h2 q → isAlnum c = true → ∃ q', stp q c = some q' ∧ ah q'
  no2 : ∀ q c, h1 q → isAlnum c = false → stp q c = none
  no3 : ∀ q c, h2 q → isAlnum c = false → stp q c = none

section
variable {σ : Type} {stp : σ → UInt8 → Option σ} {q0 : σ}

theorem esc1 (E : EscStates σ stp q0) {w : Bytes} {q : σ} (h : steps stp q0 w = some q) (hq : E.h1 q) :
    ∃ a p, w = a ++ [37] ∧ steps stp q0 a = some p ∧ E.G p := by
  rcases steps_snoc h with ⟨_, rfl⟩ | ⟨a, c, p, rfl, h1, h2⟩
  · exact absurd hq E.start.1
  · obtain ⟨rfl, hG⟩ := E.to1 _ _ _ h2 hq
    exact ⟨a, p, rfl, h1, hG⟩

theorem esc2 (E : EscStates σ stp q0) {w : Bytes} {q : σ} (h : steps stp q0 w = some q) (hq : E.h2 q) :
    ∃ a p x, w = a ++ [37, x] ∧ isAlnum x = true ∧ steps stp q0 a = some p ∧ E.G p := by
  rcases steps_snoc h with ⟨_, rfl⟩ | ⟨a, c, p, rfl, h1, h2⟩
  · exact absurd hq E.start.2.1
  · obtain ⟨hx, h3⟩ := E.to2 _ _ _ h2 hq
    obtain ⟨a', p', rfl, h4, h5⟩ := esc1 E h1 h3
    exact ⟨a', p', c, by simp, hx, h4, h5⟩

theorem esc3 (E : EscStates σ stp q0) {w : Bytes} {q : σ} (h : steps stp q0 w = some q) (hq : E.ah q) :
    ∃ a p x y, w = a ++ [37, x, y] ∧ isAlnum x = true ∧ isAlnum y = true ∧ steps stp q0 a = some p ∧ E.G p := by
  rcases steps_snoc h with ⟨_, rfl⟩ | ⟨a, c, p, rfl, h1, h2⟩
  · exact absurd hq E.start.2.2
  · obtain ⟨hx, h3⟩ := E.to3 _ _ _ h2 hq
    obtain ⟨a', p', x, rfl, hx', h4, h5⟩ := esc2 E h1 h3
    exact ⟨a', p', x, c, by simp, hx', hx, h4, h5⟩

/-- A fault inside or after an escape, in terms of where the scanner stops. -/
theorem escFault_iff (E : EscStates σ stp q0) {good : Bytes → Prop} {stop : UInt8 → Prop}
    (hg : ∀ a, good a ↔ ∃ p, steps stp q0 a = some p ∧ E.G p) (hstop : ∀ q c, E.ah q → stop c → stp q c = none)
    {w v r : Bytes} {q : σ} (h : munch stp q0 w = (q, v, r)) :
    EscFault good stop w ↔ (E.h1 q ∨ E.h2 q ∨ (E.ah q ∧ ∃ c t, r = c :: t ∧ stop c)) := by
  have hs := munch_steps h
  have ha := munch_append stp q0 w
  have ht := fun c t => munch_stop stp q0 w (c := c) (t := t)
  rw [h] at ha ht
  simp only at ha ht
  constructor
  · intro hf
    have key : ∀ {v' r' : Bytes} {q' : σ}, steps stp q0 v' = some q' → (∀ c t, r' = c :: t → stp q' c = none) → w = v' ++ r' →
        q' = q ∧ r' = r := by
      intro v' r' q' h1 h2 e
      have := munch_eq h1 h2
      rw [← e, h] at this
      simp at this; exact ⟨this.1.symm, this.2.2.symm⟩
    cases hf with
    | @first a t hga hn =>
      obtain ⟨p, h1, h2⟩ := (hg a).mp hga
      obtain ⟨q1, h3, h4⟩ := E.go1 p h2
      have := key (v' := a ++ [37]) (r' := t) (q' := q1) (by rw [steps_append, h1]; simp [steps, h3])
        (by rintro c t' rfl; exact E.no2 _ _ h4 (hn c rfl)) (by simp)
      left; rw [← this.1]; exact h4
    | @second a t x hga hx hn =>
      obtain ⟨p, h1, h2⟩ := (hg a).mp hga
      obtain ⟨q1, h3, h4⟩ := E.go1 p h2
      obtain ⟨q2, h5, h6⟩ := E.go2 q1 x h4 hx
      have := key (v' := a ++ [37, x]) (r' := t) (q' := q2) (by rw [steps_append, h1]; simp [steps, h3, h5])
        (by rintro c t' rfl; exact E.no3 _ _ h6 (hn c rfl)) (by simp)
      right; left; rw [← this.1]; exact h6
    | @after a t x y c hga hx hy hc =>
      obtain ⟨p, h1, h2⟩ := (hg a).mp hga
      obtain ⟨q1, h3, h4⟩ := E.go1 p h2
      obtain ⟨q2, h5, h6⟩ := E.go2 q1 x h4 hx
      obtain ⟨q3, h7, h8⟩ := E.go3 q2 y h6 hy
      have := key (v' := a ++ [37, x, y]) (r' := c :: t) (q' := q3) (by rw [steps_append, h1]; simp [steps, h3, h5, h7])
        (by rintro c' t' e; simp at e; rw [← e.1]; exact hstop _ _ h8 hc) (by simp)
      right; right; exact ⟨this.1 ▸ h8, c, t, this.2.symm, hc⟩
  · rintro (hq | hq | ⟨hq, c, t, rfl, hc⟩)
    · obtain ⟨a, p, rfl, h1, h2⟩ := esc1 E hs hq
      rw [← ha]
      simp only [List.append_assoc, List.cons_append, List.nil_append]
      refine .first ((hg a).mpr ⟨p, h1, h2⟩) ?_
      intro c hc
      cases hx : isAlnum c with
      | false => rfl
      | true =>
        obtain ⟨q2, h5, _⟩ := E.go2 q c hq hx
        cases r with
        | nil => simp at hc
        | cons d t => simp at hc; subst hc; rw [ht d t rfl] at h5; simp at h5
    · obtain ⟨a, p, x, rfl, hx, h1, h2⟩ := esc2 E hs hq
      rw [← ha]
      simp only [List.append_assoc, List.cons_append, List.nil_append]
      refine .second ((hg a).mpr ⟨p, h1, h2⟩) hx ?_
      intro c hc
      cases hy : isAlnum c with
      | false => rfl
      | true =>
        obtain ⟨q2, h5, _⟩ := E.go3 q c hq hy
        cases r with
        | nil => simp at hc
        | cons d t => simp at hc; subst hc; rw [ht d t rfl] at h5; simp at h5
    · obtain ⟨a, p, x, y, rfl, hx, hy, h1, h2⟩ := esc3 E hs hq
      rw [← ha]
      simp only [List.append_assoc, List.cons_append, List.nil_append]
      exact .after ((hg a).mpr ⟨p, h1, h2⟩) hx hy hc

end

/-- The scanner of specific strings and fragments. -/
def escNss (first cls : UInt8 → Bool) : EscStates Nss (nssStep first cls) .start where
  h1 q := q = .h1
  h2 q := q = .h2
  ah q := q = .ah
  G q := q = .start ∨ q.ok = true
  start := by simp
  to1 := by
    rintro q c q' h rfl
    cases q <;> simp only [nssStep] at h <;> (repeat' split at h) <;> simp at h <;> simp_all [Nss.ok]
  to2 := by
    rintro q c q' h rfl
    cases q <;> simp only [nssStep] at h <;> (repeat' split at h) <;> simp at h <;> simp_all
  to3 := by
    rintro q c q' h rfl
    cases q <;> simp only [nssStep] at h <;> (repeat' split at h) <;> simp at h <;> simp_all
  go1 := by
    rintro q (rfl | h)
    · exact ⟨.h1, rfl, rfl⟩
    · cases q <;> simp [Nss.ok] at h <;> exact ⟨.h1, rfl, rfl⟩
  go2 := by rintro q c rfl h; exact ⟨.h2, by simp [nssStep, h], rfl⟩
  go3 := by rintro q c rfl h; exact ⟨.ah, by simp [nssStep, h], rfl⟩
  no2 := by rintro q c rfl h; simp [nssStep, h]
  no3 := by rintro q c rfl h; simp [nssStep, h]

theorem nss_start_nil {first cls : UInt8 → Bool} {a : Bytes} (h : steps (nssStep first cls) .start a = some .start) : a = [] := by
  rcases steps_snoc h with ⟨rfl, _⟩ | ⟨w0, c, q0, rfl, _, h⟩
  · rfl
  · cases q0 <;> simp only [nssStep] at h <;> (repeat' split at h) <;> simp at h

theorem nss_good {first cls : UInt8 → Bool} (hf : first 37 = false) (hc : cls 37 = false) (a : Bytes) :
    (a = [] ∨ PctSeq1 first cls a) ↔ ∃ p, steps (nssStep first cls) .start a = some p ∧ (p = .start ∨ p.ok = true) := by
  constructor
  · rintro (rfl | h)
    · exact ⟨.start, rfl, Or.inl rfl⟩
    · obtain ⟨q, h1, h2⟩ := (nss_iff hf hc).mpr h
      exact ⟨q, h1, Or.inr h2⟩
  · rintro ⟨p, h1, rfl | h2⟩
    · exact Or.inl (nss_start_nil h1)
    · exact Or.inr ((nss_iff hf hc).mp ⟨p, h1, h2⟩)

theorem seq_good {cls : UInt8 → Bool} (hc : cls 37 = false) (a : Bytes) :
    PctSeq cls a ↔ ∃ p, steps (nssStep cls cls) .start a = some p ∧ (p = .start ∨ p.ok = true) := by
  rw [← nss_good hc hc, pctSeq1_iff]
  constructor
  · intro h; by_cases ha : a = []; exact Or.inl ha; exact Or.inr ⟨ha, h⟩
  · rintro (rfl | h); exact .nil; exact h.2

/-! ## RFC 2141 -/

theorem escFault2141_iff {w v r : Bytes} {q : Nss} (h : munch (nssStep isSss isSss) .start w = (q, v, r)) :
    EscFault2141 w ↔ (q = .h1 ∨ q = .h2 ∨ (q = .ah ∧ ∃ c t, r = c :: t ∧ isSss c = false ∧ c ≠ 37)) :=
  escFault_iff (escNss isSss isSss) (seq_good sss37) (by rintro q c rfl ⟨h1, h2⟩; simp [nssStep, h1, h2]) h

theorem fails_nss2141 {pre nid w : Bytes} {b : Nat} {k : ErrKind} :
    Fails (refNss2141 true pre nid w b) k ↔
      (k = .hex ∧ EscFault2141 w) ∨ (k = .specificString ∧ ¬ Nss2141 w ∧ ¬ EscFault2141 w) := by
  have hs := steps_munch (stp := nssStep isSss isSss) .start w
  have ha := munch_append (nssStep isSss isSss) .start w
  have ht := fun c t => munch_stop (nssStep isSss isSss) .start w (c := c) (t := t)
  by_cases hn : Nss2141 w
  · rw [refNss2141_ok hn]
    obtain ⟨q, h1, h2⟩ := nss2141_iff.mp hn
    have he : ¬ EscFault2141 w := by
      rw [escFault2141_iff (munch_eq_nil h1)]
      cases q <;> simp [Nss.ok] at h2 ⊢
    simp [not_fails_ok, he, hn]
  · rw [refNss2141_bad hn, fails_bad_iff]
    have hm := escFault2141_iff (w := w) rfl
    generalize munch (nssStep isSss isSss) .start w = x at *
    obtain ⟨q, v, r⟩ := x
    simp only at *
    have hah : q = .ah → ∃ c t, r = c :: t ∧ isSss c = false ∧ c ≠ 37 := by
      rintro rfl
      cases r with
      | nil => exact absurd (nss2141_iff.mpr ⟨.ah, by rw [List.append_nil] at ha; rw [← ha]; exact hs, rfl⟩) hn
      | cons c t =>
        refine ⟨c, t, rfl, ?_⟩
        have := ht c t rfl
        simp only [nssStep] at this
        (repeat' split at this) <;> simp at this
        exact ⟨by simp_all, by assumption⟩
    have hE : EscFault2141 w ↔ (q = .h1 ∨ q = .h2 ∨ q = .ah) := by
      rw [hm]
      constructor
      · rintro (h | h | h); exact Or.inl h; exact Or.inr (Or.inl h); exact Or.inr (Or.inr h.1)
      · rintro (h | h | h); exact Or.inl h; exact Or.inr (Or.inl h); exact Or.inr (Or.inr ⟨h, hah h⟩)
    rw [hE]
    cases q <;> simp [nssErr, hn] <;> exact eq_comm

theorem looksReserved_iff {s : Bytes} : LooksReserved s ↔ lookahead s = true := lookahead_iff.symm

theorem hasPrefix_of {s : Bytes} : (∃ rest, HasPrefix s rest) ∨ ∃ n, ∀ k, refPrefix s k = bad .pfx n := by
  rcases refPrefix_cases s with ⟨pre, rest, h1, h2⟩ | ⟨n, _, _, h⟩
  · exact Or.inl ⟨rest, pre, h1, h2⟩
  · exact Or.inr ⟨n, h⟩

theorem prefix_fails {s : Bytes} {k : Bytes → Bytes → Res} (h : ¬ ∃ rest, HasPrefix s rest) : Fails (refPrefix s k) .pfx := by
  rcases hasPrefix_of (s := s) with h' | ⟨n, h'⟩
  · exact absurd h' h
  · rw [h']; exact fails_bad

theorem hasPrefix_unique {s r r' : Bytes} (h : HasPrefix s r) (h' : HasPrefix s r') : r = r' := by
  obtain ⟨p, h1, rfl⟩ := h
  obtain ⟨p', h1', e⟩ := h'
  exact (split_colon e h1.noColon h1'.noColon).2

theorem fails_2141 {s : Bytes} {k : ErrKind} : Fails (ref2141 ⟨true, true⟩ s) k ↔ Why2141 s k := by
  by_cases hp : ∃ rest, HasPrefix s rest
  rotate_left
  · have hf := prefix_fails (k := refNid2141 ⟨true, true⟩) hp
    constructor
    · intro h
      rw [← fails_inj hf h]; exact hp
    · intro h
      have : k = .pfx := by
        cases k <;> simp only [Why2141] at h
        · rfl
        · obtain ⟨r, h, _⟩ := h; exact absurd ⟨r, h⟩ hp
        · obtain ⟨w, ⟨p, n, h1, _, h2⟩, _⟩ := h; exact absurd ⟨n ++ 58 :: w, p, h1, by simpa using h2⟩ hp
        · exact absurd h.1 hp
        · obtain ⟨w, ⟨p, n, h1, _, h2⟩, _⟩ := h; exact absurd ⟨n ++ 58 :: w, p, h1, by simpa using h2⟩ hp
      rw [this]; exact hf
  · obtain ⟨rest, hp⟩ := hp
    have hp' := hp
    obtain ⟨pre, h1, rfl⟩ := hp'
    have hu : ∀ r, HasPrefix (pre ++ 58 :: rest) r ↔ r = rest := fun r =>
      ⟨fun h => hasPrefix_unique h hp, fun h => h ▸ hp⟩
    have hA : ∀ w, AfterNid2141 (pre ++ 58 :: rest) w ↔ ∃ nid, Nid2141 nid ∧ rest = nid ++ 58 :: w := by
      intro w
      constructor
      · rintro ⟨p, n, hi, hn, e⟩
        have := (hu (n ++ 58 :: w)).mp ⟨p, hi, by simpa using e⟩
        exact ⟨n, hn, this.symm⟩
      · rintro ⟨n, hn, rfl⟩
        exact ⟨pre, n, h1, hn, by simp⟩
    have hW : Why2141 (pre ++ 58 :: rest) k ↔ (k = .noUrnWithinID ∧ lookahead (pre ++ 58 :: rest) = true) ∨
        (k = .identifier ∧ lookahead (pre ++ 58 :: rest) = false ∧ ¬ ∃ nid w, Nid2141 nid ∧ rest = nid ++ 58 :: w) ∨
        (∃ nid w, Nid2141 nid ∧ rest = nid ++ 58 :: w ∧ lookahead (pre ++ 58 :: rest) = false ∧
          ((k = .hex ∧ EscFault2141 w) ∨ (k = .specificString ∧ ¬ Nss2141 w ∧ ¬ EscFault2141 w))) := by
      cases k <;> simp only [Why2141, hu, hA, exists_eq_left, exists_eq, true_and, not_true, looksReserved_iff, reduceCtorEq, false_and, and_false,
        exists_false, or_self, false_or, or_false, Bool.not_eq_true]
      · constructor
        · rintro ⟨w, ⟨n, h2, h3⟩, h4, h5⟩; exact ⟨n, w, h2, h3, h4, h5⟩
        · rintro ⟨n, w, h2, h3, h4, h5⟩; exact ⟨w, ⟨n, h2, h3⟩, h4, h5⟩
      · constructor
        · rintro ⟨w, ⟨n, h2, h3⟩, h4, h5⟩; exact ⟨n, w, h2, h3, h4, h5⟩
        · rintro ⟨n, w, h2, h3, h4, h5⟩; exact ⟨w, ⟨n, h2, h3⟩, h4, h5⟩
    rw [hW]
    simp only [ref2141]
    rw [refPrefix_urn h1]
    by_cases hl : lookahead (pre ++ 58 :: rest) = true
    · have : refNid2141 ⟨true, true⟩ pre rest = bad .noUrnWithinID 7 := by
        simp only [refNid2141, clash_eq h1, hl, and_self, if_true]
      rw [this, fails_bad_iff, hl]
      simp [eq_comm]
    · by_cases hn : ∃ nid w, Nid2141 nid ∧ rest = nid ++ 58 :: w
      · obtain ⟨nid, w, h2, rfl⟩ := hn
        rw [refNid2141_nid h2, clash_eq h1, if_neg (by simp [hl]), fails_nss2141]
        constructor
        · intro h; exact Or.inr (Or.inr ⟨nid, w, h2, rfl, by simpa using hl, h⟩)
        · rintro (⟨_, h⟩ | ⟨_, _, h⟩ | ⟨n', w', h3, e, _, h⟩)
          · exact absurd h hl
          · exact absurd ⟨nid, w, h2, rfl⟩ h
          · rw [(split_colon e h2.noColon h3.noColon).2]; exact h
      · rw [refNid2141_bad (by intro a b h h'; exact hn ⟨a, b, h, h'⟩), clash_eq h1, if_neg (by simp [hl]), fails_bad_iff]
        constructor
        · intro h; exact Or.inr (Or.inl ⟨h.symm, by simpa using hl, hn⟩)
        · rintro (⟨_, h⟩ | ⟨h, _⟩ | ⟨n', w', h3, e, _⟩)
          · exact absurd h hl
          · exact h.symm
          · exact absurd ⟨n', w', h3, e⟩ hn

end Urn
