import Verif.ErrKindComp
/-!
# Error kinds of the reference parser: RFC 8141
-/
set_option autoImplicit false
namespace Urn
open Spec

/-! ## Specific strings -/

section
variable {w v r : Bytes} {q : Nss}

theorem escFaultNss_iff (h : munch (nssStep isPchar isPcharSlash) .start w = (q, v, r)) :
    EscFaultNss w ↔ (q = .h1 ∨ q = .h2 ∨ (q = .ah ∧ ∃ c t, r = c :: t ∧ isPcharSlashQ c = false ∧ c ≠ 37 ∧ c ≠ 35)) :=
  escFault_iff (escNss _ _) (nss_good pchar37 pcharSlash37)
    (by rintro q c rfl ⟨h1, h2, _⟩; simp [nssStep, h2, (psq_not h1).1]) h

theorem nss_stop {a t : Bytes} (h : munch (nssStep isPchar isPcharSlash) .start w = (q, v, r)) (ha : Nss8141 a)
    (ht : t = [] ∨ ∃ c t', t = c :: t' ∧ (c = 35 ∨ c = 63)) (e : w = a ++ t) : q.ok = true ∧ r = t := by
  obtain ⟨p, h1, h2⟩ := (nss_iff pchar37 pcharSlash37).mpr ha
  have := munch_unique h (r' := t) h1
    (by
      rintro d t' rfl
      rcases ht with ht | ⟨c, t'', ht, hc⟩
      · simp at ht
      · simp at ht; rw [ht.1]; rcases hc with rfl | rfl <;> cases p <;> simp [Nss.ok] at h2 <;> rfl) e
  exact ⟨this.1 ▸ h2, this.2.2.symm⟩

theorem startsNss_iff (h : munch (nssStep isPchar isPcharSlash) .start w = (q, v, r)) :
    StartsNss w ↔ q.ok = true ∧ (r = [] ∨ ∃ c t, r = c :: t ∧ (c = 35 ∨ c = 63)) := by
  have hs := munch_steps h
  have ha := munch_append (nssStep isPchar isPcharSlash) .start w
  rw [h] at ha
  constructor
  · rintro ⟨n, x, e, hn, hx⟩
    obtain ⟨h1, rfl⟩ := nss_stop h hn hx e
    exact ⟨h1, hx⟩
  · rintro ⟨h1, h2⟩
    exact ⟨v, r, ha.symm, (nss_iff pchar37 pcharSlash37).mp ⟨q, hs, h1⟩, h2⟩

theorem nss_then {P : Bytes → Prop} {c : UInt8} (hc : c = 35 ∨ c = 63)
    (h : munch (nssStep isPchar isPcharSlash) .start w = (q, v, r)) :
    (∃ n x, w = n ++ c :: x ∧ Nss8141 n ∧ P x) ↔ q.ok = true ∧ ∃ x, r = c :: x ∧ P x := by
  have hs := munch_steps h
  have ha := munch_append (nssStep isPchar isPcharSlash) .start w
  rw [h] at ha
  constructor
  · rintro ⟨n, x, e, hn, hx⟩
    obtain ⟨h1, rfl⟩ := nss_stop h hn (Or.inr ⟨c, x, rfl, hc⟩) e
    exact ⟨h1, x, rfl, hx⟩
  · rintro ⟨h1, x, rfl, h2⟩
    exact ⟨v, x, ha.symm, (nss_iff pchar37 pcharSlash37).mp ⟨q, hs, h1⟩, h2⟩

end

/-- Why a specific string and what follows it fails. -/
def NFault (k : ErrKind) (w : Bytes) : Prop :=
  (k = .hex ∧ EscFaultNss w) ∨ (k = .specificString8141 ∧ ¬ StartsNss w ∧ ¬ EscFaultNss w) ∨
  (∃ n x, w = n ++ 35 :: x ∧ Nss8141 n ∧ (k = .hex ∧ EscFaultF x)) ∨
  (∃ n x, w = n ++ 63 :: x ∧ Nss8141 n ∧ ((∃ y, x = 43 :: y ∧ RFault k y) ∨ (∃ y, x = 61 :: y ∧ QFault k y)))

theorem fails_RQComp {o : URN} {w : Bytes} {b : Nat} {k : ErrKind} : Fails (refRQComp true o w b) k ↔
    ((∃ y, w = 43 :: y ∧ RFault k y) ∨ (∃ y, w = 61 :: y ∧ QFault k y)) := by
  match w with
  | [] => simp [refRQComp, not_fails_ok]
  | c :: t =>
    by_cases h1 : c = 43
    · subst h1; simp [refRQComp, fails_R]
    · by_cases h2 : c = 61
      · subst h2; simp [refRQComp, fails_Q (Or.inl rfl)]
      · simp [refRQComp, h1, h2, not_fails_ok]

theorem fails_nss8141 {pre nid w : Bytes} {b : Nat} {k : ErrKind} : Fails (refNss8141 true pre nid w b) k ↔ NFault k w := by
  have ht := fun c t => munch_stop (nssStep isPchar isPcharSlash) .start w (c := c) (t := t)
  have hE := escFaultNss_iff (w := w) rfl
  have hS := startsNss_iff (w := w) rfl
  have h35 := nss_then (w := w) (P := fun x => k = .hex ∧ EscFaultF x) (Or.inl rfl) rfl
  have h63 := nss_then (w := w) (P := fun x => (∃ y, x = 43 :: y ∧ RFault k y) ∨ (∃ y, x = 61 :: y ∧ QFault k y)) (Or.inr rfl) rfl
  simp only [refNss8141, NFault]
  generalize munch (nssStep isPchar isPcharSlash) .start w = x at *
  obtain ⟨q, v, r⟩ := x
  simp only at *
  rw [hE, hS, h35, h63]
  have hah : ∀ c t, r = c :: t → q = .ah → isPcharSlash c = false ∧ c ≠ 37 := by
    rintro c t rfl rfl
    have := ht c t rfl
    simp only [nssStep] at this
    (repeat' split at this) <;> simp at this
    exact ⟨by simp_all, by assumption⟩
  cases r with
  | nil => cases q <;> simp [Nss.ok, fails_bad', not_fails_ok, nssErr]
  | cons c t =>
    by_cases e1 : c = 35
    · subst e1
      cases q <;> simp [Nss.ok, fails_bad', fails_F, nssErr]
    · by_cases e2 : c = 63
      · subst e2
        have p63 : isPcharSlashQ 63 = true := by decide
        cases q <;> simp [Nss.ok, fails_bad', fails_RQComp, nssErr, p63]
      · have hc : q = .ah → isPcharSlashQ c = false ∧ c ≠ 37 := by
          intro e
          have := hah c t rfl e
          refine ⟨?_, this.2⟩
          have h1 := this.1
          simp [isPcharSlash, isPcharSlashQ] at h1 ⊢
          exact ⟨h1, e2⟩
        cases q
        case ah => simp [Nss.ok, fails_bad', nssErr, e1, e2, hc rfl]
        all_goals simp [Nss.ok, fails_bad', nssErr, e1, e2]

/-! ## Identifiers -/

theorem u4_shape {w : Bytes} (h : steps nid8Step .start w = some .u4) :
    ∃ a b c, w = [a, b, c, 45] ∧ lower a = 117 ∧ lower b = 114 ∧ lower c = 110 := by
  rcases steps_snoc h with ⟨_, e⟩ | ⟨w1, c1, p1, rfl, h1, g1⟩
  · simp at e
  · have : c1 = 45 ∧ p1 = .u3 := by
      cases p1 <;> simp only [nid8Step] at g1 <;> (repeat' split at g1) <;> simp at g1 <;> simp_all
    obtain ⟨rfl, rfl⟩ := this
    rcases steps_snoc h1 with ⟨_, e⟩ | ⟨w2, c2, p2, rfl, h2, g2⟩
    · simp at e
    · have : lower c2 = 110 ∧ p2 = .u2 := by
        cases p2 <;> simp only [nid8Step] at g2 <;> (repeat' split at g2) <;> simp at g2 <;> simp_all
      obtain ⟨l2, rfl⟩ := this
      rcases steps_snoc h2 with ⟨_, e⟩ | ⟨w3, c3, p3, rfl, h3, g3⟩
      · simp at e
      · have : lower c3 = 114 ∧ p3 = .u1 := by
          cases p3 <;> simp only [nid8Step] at g3 <;> (repeat' split at g3) <;> simp at g3 <;> simp_all
        obtain ⟨l3, rfl⟩ := this
        rcases steps_snoc h3 with ⟨_, e⟩ | ⟨w4, c4, p4, rfl, h4, g4⟩
        · simp at e
        · have : lower c4 = 117 ∧ p4 = .start := by
            cases p4 <;> simp only [nid8Step] at g4 <;> (repeat' split at g4) <;> simp at g4 <;> simp_all
          obtain ⟨l4, rfl⟩ := this
          have : w4 = [] := by
            rcases steps_snoc h4 with ⟨rfl, _⟩ | ⟨w5, c5, p5, rfl, _, g5⟩
            · rfl
            · cases p5 <;> simp only [nid8Step] at g5 <;> (repeat' split at g5) <;> simp at g5
          subst this
          exact ⟨c4, c3, c2, rfl, l4, l3, l2⟩

theorem urn_letters : ∀ c : UInt8, (lower c = 117 ∨ lower c = 114 ∨ lower c = 110) → isAlnum c = true ∧ c ≠ 45 :=
  forall_byte (by decide +kernel)

theorem steps_u4 {a b c : UInt8} (h1 : lower a = 117) (h2 : lower b = 114) (h3 : lower c = 110) :
    steps nid8Step .start [a, b, c, 45] = some .u4 := by
  have ha := urn_letters a (Or.inl h1)
  have hb := urn_letters b (Or.inr (Or.inl h2))
  have hc := urn_letters c (Or.inr (Or.inr h3))
  simp [steps, nid8Step, ha, hb, hc, h1, h2, h3]

theorem badInformal_iff {w v r : Bytes} {q : N8} (h : munch nid8Step .start w = (q, v, r)) :
    BadInformal w ↔ q = .u4 ∧ ∃ c t, r = c :: t ∧ isAlnum c = true := by
  have hs := munch_steps h
  have ha := munch_append nid8Step .start w
  have ht := fun c t => munch_stop nid8Step .start w (c := c) (t := t)
  rw [h] at ha ht
  simp only at ha ht
  unfold BadInformal
  rw [informal_iff]
  constructor
  · rintro ⟨u, r', n, x, t, e, h1, h2, h3, hx⟩
    have hx' := badInf_alnum x hx
    have := munch_unique h (r' := x :: t) (steps_u4 h1 h2 h3)
      (by
        intro d t' e2
        simp at e2
        obtain ⟨rfl, _⟩ := e2
        have := (badInf_iff x hx'.1).mp hx
        simp only [nid8Step, hx'.2, if_false, this]) (by rw [e]; simp)
    exact ⟨this.1.symm, x, t, this.2.2.symm, hx'.1⟩
  · rintro ⟨rfl, c, t, rfl, hc⟩
    obtain ⟨a, b, d, rfl, h1, h2, h3⟩ := u4_shape hs
    refine ⟨a, b, d, c, t, by rw [← ha]; simp, h1, h2, h3, (badInf_iff c hc).mpr ?_⟩
    intro hd
    have := ht c t rfl
    simp only [nid8Step] at this
    (repeat' split at this) <;> simp at this

theorem nid_then {P : Bytes → Prop} {w v r : Bytes} {q : N8} (h : munch nid8Step .start w = (q, v, r)) :
    (∃ nid x, Nid8141 nid ∧ w = nid ++ 58 :: x ∧ P x) ↔ q.canEnd = true ∧ ∃ x, r = 58 :: x ∧ P x := by
  have hs := munch_steps h
  have ha := munch_append nid8Step .start w
  rw [h] at ha
  constructor
  · rintro ⟨n, x, hn, e, hx⟩
    obtain ⟨p, h1, h2⟩ := acc8_iff.mpr hn
    have := munch_unique h (r' := 58 :: x) h1 (by intro c t e; simp at e; rw [← e.1]; exact nid8_colon _) e
    exact ⟨this.1 ▸ h2, x, this.2.2.symm, hx⟩
  · rintro ⟨h1, x, rfl, hx⟩
    exact ⟨v, x, acc8_iff.mp ⟨q, hs, h1⟩, ha.symm, hx⟩

/-- Why an identifier and what follows it fails. -/
def IFault (k : ErrKind) (w : Bytes) : Prop :=
  (k = .informalID8141 ∧ BadInformal w) ∨
  (k = .identifier8141 ∧ ¬ BadInformal w ∧ ¬ ∃ nid x, Nid8141 nid ∧ w = nid ++ 58 :: x ∧ True) ∨
  (∃ nid x, Nid8141 nid ∧ w = nid ++ 58 :: x ∧ NFault k x)

theorem fails_nid8141 {pre w : Bytes} {k : ErrKind} : Fails (refNid8141 ⟨true, false⟩ pre w) k ↔ IFault k w := by
  have hB := badInformal_iff (w := w) rfl
  have hT := nid_then (w := w) (P := fun _ => True) rfl
  have hN := nid_then (w := w) (P := NFault k) rfl
  simp only [refNid8141, IFault]
  generalize munch nid8Step .start w = x at *
  obtain ⟨q, v, r⟩ := x
  simp only at *
  rw [hB, hT, hN]
  cases r with
  | nil => simp [fails_bad']
  | cons c t =>
    by_cases hc : c = 58 ∧ q.canEnd = true
    · obtain ⟨rfl, hq⟩ := hc
      have : q ≠ .u4 := by rintro rfl; simp [N8.canEnd] at hq
      simp [hq, this, fails_nss8141]
    · have hc' : c = 58 → q.canEnd = false := by intro e; simpa [e] using hc
      simp only [Bool.false_eq_true, false_and, if_false, hc]
      by_cases hu : q = .u4 ∧ isAlnum c = true
      · obtain ⟨rfl, hu⟩ := hu
        have : c ≠ 58 := by rintro rfl; exact absurd hu (by decide)
        simp [hu, fails_bad', N8.canEnd]
      · rw [if_neg hu, fails_bad']
        have h1 : ¬ (q = .u4 ∧ ∃ c' t', c :: t = c' :: t' ∧ isAlnum c' = true) := by
          rintro ⟨e, c', t', e', h⟩
          simp at e'; exact hu ⟨e, e'.1 ▸ h⟩
        have h2 : ∀ P : Bytes → Prop, ¬ (q.canEnd = true ∧ ∃ x, c :: t = 58 :: x ∧ P x) := by
          rintro P ⟨e, x, e', _⟩
          simp at e'; exact hc ⟨e'.1, e⟩
        have h3 : ¬ (q.canEnd = true ∧ ∃ x, c :: t = 58 :: x) := by simpa using h2 (fun _ => True)
        simp only [h1, h2, h3, not_false_eq_true, and_true, and_false, or_false, false_or]

/-! ## The whole text -/

theorem afterNid_iff {pre rest w : Bytes} (h1 : IsUrn pre) :
    AfterNid8141 (pre ++ 58 :: rest) w ↔ ∃ nid, Nid8141 nid ∧ rest = nid ++ 58 :: w := by
  constructor
  · rintro ⟨p, n, hi, hn, e⟩
    have e' : pre ++ 58 :: rest = p ++ 58 :: (n ++ 58 :: w) := by simpa using e
    exact ⟨n, hn, (split_colon e' h1.noColon hi.noColon).2⟩
  · rintro ⟨n, hn, rfl⟩
    exact ⟨pre, n, h1, hn, by simp⟩

theorem afterR_iff {s w : Bytes} : AfterR s w ↔ ∃ n, Nss8141 n ∧ AfterNid8141 s (n ++ 63 :: 43 :: w) := by
  constructor
  · rintro ⟨b, pre, nid, nss, h, rfl⟩
    exact ⟨nss, h.hnss, pre, nid, h.hpre, h.hnid, by rw [h.eq]; simp [opt, lit]⟩
  · rintro ⟨n, hn, pre, nid, h1, h2, rfl⟩
    exact ⟨_, pre, nid, n, ⟨rfl, h1, h2, hn, by simp, by simp, by simp⟩, by simp [opt, lit]⟩

theorem afterQ_iff {s w : Bytes} : AfterQ s w ↔
    (∃ n, Nss8141 n ∧ AfterNid8141 s (n ++ 63 :: 61 :: w)) ∨
    (∃ a c t, w = c :: t ∧ RComp a ∧ (isPchar c = true ∨ c = 37) ∧ AfterR s (a ++ lit "?=" ++ c :: t)) := by
  constructor
  · rintro ⟨b, pre, nid, nss, r, h, rfl, hr⟩
    cases r with
    | none => exact Or.inl ⟨nss, h.hnss, pre, nid, h.hpre, h.hnid, by rw [h.eq]; simp [opt, lit]⟩
    | some r =>
      obtain ⟨c, t, rfl, hc⟩ := hr (by simp)
      refine Or.inr ⟨r, c, t, rfl, h.hr r rfl, hc, afterR_iff.mpr ⟨nss, h.hnss, pre, nid, h.hpre, h.hnid, ?_⟩⟩
      rw [h.eq]; simp [opt, lit]
  · rintro (⟨n, hn, pre, nid, h1, h2, rfl⟩ | ⟨a, c, t, rfl, ha, hc, h⟩)
    · exact ⟨_, pre, nid, n, none, ⟨rfl, h1, h2, hn, by simp, by simp, by simp⟩, by simp [opt, lit], by simp⟩
    · obtain ⟨n, hn, pre, nid, h1, h2, rfl⟩ := afterR_iff.mp h
      exact ⟨_, pre, nid, n, some a, ⟨rfl, h1, h2, hn, by simp [ha], by simp, by simp⟩, by simp [opt, lit], fun _ => ⟨c, t, rfl, hc⟩⟩

theorem afterF_iff {s w : Bytes} : AfterF s w ↔
    (∃ n, Nss8141 n ∧ AfterNid8141 s (n ++ 35 :: w)) ∨ (∃ a, RComp a ∧ AfterR s (a ++ 35 :: w)) ∨ (∃ a, QComp a ∧ AfterQ s (a ++ 35 :: w)) := by
  constructor
  · rintro ⟨b, pre, nid, nss, r, q, h, rfl⟩
    cases q with
    | none =>
      cases r with
      | none => exact Or.inl ⟨nss, h.hnss, pre, nid, h.hpre, h.hnid, by rw [h.eq]; simp [opt]⟩
      | some r =>
        refine Or.inr (Or.inl ⟨r, h.hr r rfl, afterR_iff.mpr ⟨nss, h.hnss, pre, nid, h.hpre, h.hnid, ?_⟩⟩)
        rw [h.eq]; simp [opt, lit]
    | some q =>
      refine Or.inr (Or.inr ⟨q, h.hq q rfl, _, pre, nid, nss, r, ⟨rfl, h.hpre, h.hnid, h.hnss, h.hr, by simp, by simp⟩, ?_, ?_⟩)
      · rw [h.eq]; simp [opt, lit]
      · intro _
        obtain ⟨c, t, e, hc⟩ := (h.hq q rfl).head
        exact ⟨c, t ++ 35 :: w, by rw [e]; simp, hc⟩
  · rintro (⟨n, hn, pre, nid, h1, h2, rfl⟩ | ⟨a, ha, b, pre, nid, nss, h, rfl⟩ | ⟨a, ha, b, pre, nid, nss, r, h, rfl, _⟩)
    · exact ⟨_, pre, nid, n, none, none, ⟨rfl, h1, h2, hn, by simp, by simp, by simp⟩, by simp [opt]⟩
    · exact ⟨_, pre, nid, nss, some a, none, ⟨rfl, h.hpre, h.hnid, h.hnss, by simp [ha], by simp, by simp⟩, by rw [h.eq]; simp [opt, lit]⟩
    · exact ⟨_, pre, nid, nss, r, some a, ⟨rfl, h.hpre, h.hnid, h.hnss, h.hr, by simp [ha], by simp⟩, by rw [h.eq]; simp [opt, lit]⟩

/-- Where each kind of fault is. -/
theorem iFault_iff {s : Bytes} {pre rest : Bytes} {k : ErrKind} (h1 : IsUrn pre) (hs : s = pre ++ 58 :: rest) : IFault k rest ↔
    (k = .informalID8141 ∧ BadInformal rest) ∨
    (k = .identifier8141 ∧ ¬ BadInformal rest ∧ ¬ ∃ nid x, Nid8141 nid ∧ rest = nid ++ 58 :: x ∧ True) ∨
    (∃ w, AfterNid8141 s w ∧ ((k = .hex ∧ EscFaultNss w) ∨ (k = .specificString8141 ∧ ¬ StartsNss w ∧ ¬ EscFaultNss w))) ∨
    (∃ w, AfterR s w ∧ ((k = .rComponentStart8141 ∧ AgainR w) ∨ (k = .hex ∧ EscFaultR w) ∨
      (k = .malformedRComp8141 ∧ ¬ StartsR w ∧ ¬ AgainR w ∧ ¬ EscFaultR w))) ∨
    (∃ w, AfterQ s w ∧ ((k = .qComponentStart8141 ∧ AgainQ w) ∨ (k = .hex ∧ EscFaultQ w) ∨
      (k = .malformedQComp8141 ∧ ¬ StartsQ w ∧ ¬ AgainQ w ∧ ¬ EscFaultQ w))) ∨
    (∃ w, AfterF s w ∧ k = .hex ∧ EscFaultF w) := by
  have hN : ∀ w, AfterNid8141 s w ↔ ∃ nid, Nid8141 nid ∧ rest = nid ++ 58 :: w := by
    intro w; rw [hs]; exact afterNid_iff h1
  have hQ : ∀ w, AfterQ s w → QFault k w → (∃ w, AfterQ s w ∧ ((k = .qComponentStart8141 ∧ AgainQ w) ∨ (k = .hex ∧ EscFaultQ w) ∨
      (k = .malformedQComp8141 ∧ ¬ StartsQ w ∧ ¬ AgainQ w ∧ ¬ EscFaultQ w))) ∨ (∃ w, AfterF s w ∧ k = .hex ∧ EscFaultF w) := by
    rintro w hw (h | h | h | ⟨hk, a, x, rfl, ha, hx⟩)
    · exact Or.inl ⟨w, hw, Or.inl h⟩
    · exact Or.inl ⟨w, hw, Or.inr (Or.inl h)⟩
    · exact Or.inl ⟨w, hw, Or.inr (Or.inr h)⟩
    · exact Or.inr ⟨x, afterF_iff.mpr (Or.inr (Or.inr ⟨a, ha, hw⟩)), hk, hx⟩
  constructor
  · rintro (h | h | ⟨nid, x, hn, e, h⟩)
    · exact Or.inl h
    · exact Or.inr (Or.inl h)
    · have hA := (hN x).mpr ⟨nid, hn, e⟩
      rcases h with h | h | ⟨n, x, rfl, hn', h⟩ | ⟨n, x, rfl, hn', ⟨y, rfl, h⟩ | ⟨y, rfl, h⟩⟩
      · exact Or.inr (Or.inr (Or.inl ⟨x, hA, Or.inl h⟩))
      · exact Or.inr (Or.inr (Or.inl ⟨x, hA, Or.inr h⟩))
      · exact Or.inr (Or.inr (Or.inr (Or.inr (Or.inr ⟨x, afterF_iff.mpr (Or.inl ⟨n, hn', hA⟩), h⟩))))
      · have hR := afterR_iff.mpr ⟨n, hn', hA⟩
        refine Or.inr (Or.inr (Or.inr ?_))
        rcases h with h | h | h | ⟨hk, a, x, rfl, ha, hx⟩ | ⟨a, c, t, rfl, ha, hc, h⟩
        · exact Or.inl ⟨y, hR, Or.inl h⟩
        · exact Or.inl ⟨y, hR, Or.inr (Or.inl h)⟩
        · exact Or.inl ⟨y, hR, Or.inr (Or.inr h)⟩
        · exact Or.inr (Or.inr ⟨x, afterF_iff.mpr (Or.inr (Or.inl ⟨a, ha, hR⟩)), hk, hx⟩)
        · exact Or.inr (hQ _ (afterQ_iff.mpr (Or.inr ⟨a, c, t, rfl, ha, hc, hR⟩)) h)
      · exact Or.inr (Or.inr (Or.inr (Or.inr (hQ _ (afterQ_iff.mpr (Or.inl ⟨n, hn', hA⟩)) h))))
  · have up : ∀ w, AfterNid8141 s w → NFault k w → IFault k rest := by
      rintro w hw h
      obtain ⟨nid, hn, e⟩ := (hN w).mp hw
      exact Or.inr (Or.inr ⟨nid, w, hn, e, h⟩)
    have upR : ∀ w, AfterR s w → RFault k w → IFault k rest := by
      rintro w hw h
      obtain ⟨n, hn, hA⟩ := afterR_iff.mp hw
      exact up _ hA (Or.inr (Or.inr (Or.inr ⟨n, _, rfl, hn, Or.inl ⟨w, rfl, h⟩⟩)))
    have upQ : ∀ w, AfterQ s w → QFault k w → IFault k rest := by
      rintro w hw h
      rcases afterQ_iff.mp hw with ⟨n, hn, hA⟩ | ⟨a, c, t, rfl, ha, hc, hR⟩
      · exact up _ hA (Or.inr (Or.inr (Or.inr ⟨n, _, rfl, hn, Or.inr ⟨w, rfl, h⟩⟩)))
      · exact upR _ hR (Or.inr (Or.inr (Or.inr (Or.inr ⟨a, c, t, rfl, ha, hc, h⟩))))
    rintro (h | h | ⟨w, hw, h | h⟩ | ⟨w, hw, h | h | h⟩ | ⟨w, hw, h | h | h⟩ | ⟨w, hw, hk, hx⟩)
    · exact Or.inl h
    · exact Or.inr (Or.inl h)
    · exact up w hw (Or.inl h)
    · exact up w hw (Or.inr (Or.inl h))
    · exact upR w hw (Or.inl h)
    · exact upR w hw (Or.inr (Or.inl h))
    · exact upR w hw (Or.inr (Or.inr (Or.inl h)))
    · exact upQ w hw (Or.inl h)
    · exact upQ w hw (Or.inr (Or.inl h))
    · exact upQ w hw (Or.inr (Or.inr (Or.inl h)))
    · rcases afterF_iff.mp hw with ⟨n, hn, hA⟩ | ⟨a, ha, hR⟩ | ⟨a, ha, hQ'⟩
      · exact up _ hA (Or.inr (Or.inr (Or.inl ⟨n, w, rfl, hn, hk, hx⟩)))
      · exact upR _ hR (Or.inr (Or.inr (Or.inr (Or.inl ⟨hk, a, w, rfl, ha, hx⟩))))
      · exact upQ _ hQ' (Or.inr (Or.inr (Or.inr ⟨hk, a, w, rfl, ha, hx⟩)))

theorem AfterNid.pfx {s w : Bytes} (h : AfterNid8141 s w) : ∃ rest, HasPrefix s rest := by
  obtain ⟨p, n, h1, _, h2⟩ := h
  exact ⟨n ++ 58 :: w, p, h1, by simpa using h2⟩

theorem AfterR.pfx {s w : Bytes} (h : AfterR s w) : ∃ rest, HasPrefix s rest := by
  obtain ⟨_, _, h⟩ := afterR_iff.mp h
  exact AfterNid.pfx h

theorem AfterQ.pfx {s w : Bytes} (h : AfterQ s w) : ∃ rest, HasPrefix s rest := by
  rcases afterQ_iff.mp h with ⟨_, _, h⟩ | ⟨_, _, _, _, _, _, h⟩
  · exact AfterNid.pfx h
  · exact AfterR.pfx h

theorem AfterF.pfx {s w : Bytes} (h : AfterF s w) : ∃ rest, HasPrefix s rest := by
  rcases afterF_iff.mp h with ⟨_, _, h⟩ | ⟨_, _, h⟩ | ⟨_, _, h⟩
  · exact AfterNid.pfx h
  · exact AfterR.pfx h
  · exact AfterQ.pfx h

theorem fails_8141 {s : Bytes} {k : ErrKind} : Fails (ref8141 ⟨true, false⟩ s) k ↔ Why8141 s k := by
  by_cases hp : ∃ rest, HasPrefix s rest
  rotate_left
  · have hf := prefix_fails (k := refNid8141 ⟨true, false⟩) hp
    constructor
    · intro h
      rw [← fails_inj hf h]; exact hp
    · intro h
      have : k = .pfx := by
        cases k <;> simp only [Why8141] at h
        case pfx => rfl
        case informalID8141 => obtain ⟨r, h, _⟩ := h; exact absurd ⟨r, h⟩ hp
        case identifier8141 => obtain ⟨r, h, _⟩ := h; exact absurd ⟨r, h⟩ hp
        case specificString8141 => obtain ⟨w, h, _⟩ := h; exact absurd (AfterNid.pfx h) hp
        case rComponentStart8141 => obtain ⟨w, h, _⟩ := h; exact absurd (AfterR.pfx h) hp
        case malformedRComp8141 => obtain ⟨w, h, _⟩ := h; exact absurd (AfterR.pfx h) hp
        case qComponentStart8141 => obtain ⟨w, h, _⟩ := h; exact absurd (AfterQ.pfx h) hp
        case malformedQComp8141 => obtain ⟨w, h, _⟩ := h; exact absurd (AfterQ.pfx h) hp
        case hex =>
          rcases h with ⟨w, h, _⟩ | ⟨w, h, _⟩ | ⟨w, h, _⟩ | ⟨w, h, _⟩
          · exact absurd (AfterNid.pfx h) hp
          · exact absurd (AfterR.pfx h) hp
          · exact absurd (AfterQ.pfx h) hp
          · exact absurd (AfterF.pfx h) hp
      rw [this]; exact hf
  · obtain ⟨rest, hp⟩ := hp
    have hp' := hp
    obtain ⟨pre, h1, e⟩ := hp'
    have hu : ∀ r, HasPrefix s r ↔ r = rest := fun r =>
      ⟨fun h => hasPrefix_unique h hp, fun h => h ▸ hp⟩
    have hr : ref8141 ⟨true, false⟩ s = refNid8141 ⟨true, false⟩ pre rest := by
      simp only [ref8141]; rw [e, refPrefix_urn h1]
    rw [hr, fails_nid8141, iFault_iff h1 e]
    cases k <;> simp only [Why8141, hu, exists_eq_left, exists_eq, true_and, and_true, not_true, reduceCtorEq, false_and, and_false,
      exists_false, or_self, false_or, or_false]

end Urn
