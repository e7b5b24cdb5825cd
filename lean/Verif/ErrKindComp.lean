import Verif.ErrKindAux
/-!
# Error kinds of the reference parser: components and fragments
-/
set_option autoImplicit false
namespace Urn
open Spec

theorem munch_unique {σ : Type} {stp : σ → UInt8 → Option σ} {q0 q q' : σ} {w v r v' r' : Bytes} (h : munch stp q0 w = (q, v, r))
    (h1 : steps stp q0 v' = some q') (h2 : ∀ c t, r' = c :: t → stp q' c = none) (e : w = v' ++ r') : q' = q ∧ v' = v ∧ r' = r := by
  have := munch_eq h1 h2
  rw [← e, h] at this
  simp at this
  exact ⟨this.1.symm, this.2.1.symm, this.2.2.symm⟩

theorem startsAgain_iff {c : UInt8} : startsAgain c = true ↔ (isPchar c = true ∨ c = 37 ∨ c = 63 ∨ c = 35) := by
  simp [startsAgain, or_assoc]

theorem again_cons {c : UInt8} {t : Bytes} : Again (c :: t) ↔ startsAgain c = true := by
  rw [startsAgain_iff]
  simp [Again]

theorem again_nil : Again [] := Or.inl rfl

theorem startsAgain_slash {c : UInt8} (h : startsAgain c = true) : c ≠ 47 := by rintro rfl; revert h; decide

theorem fails_bad' {k k' : ErrKind} {p : Nat} : Fails (bad k p) k' ↔ k' = k := by rw [fails_bad_iff]; exact eq_comm

/-! ## Fragments -/

theorem escFaultF_iff {w v r : Bytes} {q : Nss} (h : munch (nssStep isPcharSlashQ isPcharSlashQ) .start w = (q, v, r)) :
    EscFaultF w ↔ (q = .h1 ∨ q = .h2 ∨ (q = .ah ∧ ∃ c t, r = c :: t ∧ isPcharSlashQ c = false ∧ c ≠ 37)) :=
  escFault_iff (escNss _ _) (seq_good (by decide)) (by rintro q c rfl ⟨h1, h2⟩; simp [nssStep, h1, h2]) h

theorem fails_F {o : URN} {w : Bytes} {b : Nat} {k : ErrKind} : Fails (refF true o w b) k ↔ (k = .hex ∧ EscFaultF w) := by
  have ht := fun c t => munch_stop (nssStep isPcharSlashQ isPcharSlashQ) .start w (c := c) (t := t)
  have hm := escFaultF_iff (w := w) rfl
  simp only [refF]
  generalize munch (nssStep isPcharSlashQ isPcharSlashQ) .start w = x at *
  obtain ⟨q, v, r⟩ := x
  simp only at *
  have hah : q = .ah → r ≠ [] → ∃ c t, r = c :: t ∧ isPcharSlashQ c = false ∧ c ≠ 37 := by
    rintro rfl hr
    cases r with
    | nil => exact absurd rfl hr
    | cons c t =>
      refine ⟨c, t, rfl, ?_⟩
      have := ht c t rfl
      simp only [nssStep] at this
      (repeat' split at this) <;> simp at this
      exact ⟨by simp_all, by assumption⟩
  rw [hm]
  by_cases h1 : r = [] ∧ (q = .start ∨ q.ok = true)
  · rw [if_pos h1]
    obtain ⟨rfl, h1⟩ := h1
    cases q <;> simp [Nss.ok, not_fails_ok] at h1 ⊢
  · rw [if_neg h1]
    cases q
    case start => simp [not_fails_ok]
    case plain => simp [not_fails_ok]
    case ah =>
      obtain ⟨c, t, rfl, h2, h3⟩ := hah rfl (by rintro rfl; simp [Nss.ok] at h1)
      simp [fails_bad', h2, h3]
    all_goals simp [fails_bad']

/-! ## q-components -/

/-- The scanner of q-components. -/
def escQ (q0 : Q) (h0 : q0 = .first ∨ q0 = .firstR) : EscStates Q qStep q0 where
  h1 q := q = .h1 ∨ q = .fh1
  h2 q := q = .h2 ∨ q = .fh2
  ah q := q = .ah
  G q := q = .first ∨ q = .firstR ∨ q.canEnd = true
  start := by rcases h0 with rfl | rfl <;> simp
  to1 := by
    rintro q c q' h (rfl | rfl) <;>
    cases q <;> simp only [qStep] at h <;> (repeat' split at h) <;> simp at h <;> simp_all [Q.canEnd]
  to2 := by
    rintro q c q' h (rfl | rfl) <;>
    cases q <;> simp only [qStep] at h <;> (repeat' split at h) <;> simp at h <;> simp_all
  to3 := by
    rintro q c q' h rfl
    cases q <;> simp only [qStep] at h <;> (repeat' split at h) <;> simp at h <;> simp_all
  go1 := by
    rintro q (rfl | rfl | h)
    · exact ⟨.h1, rfl, Or.inl rfl⟩
    · exact ⟨.fh1, rfl, Or.inr rfl⟩
    · cases q <;> simp [Q.canEnd] at h <;> exact ⟨.h1, rfl, Or.inl rfl⟩
  go2 := by
    rintro q c (rfl | rfl) h
    · exact ⟨.h2, by simp [qStep, h], Or.inl rfl⟩
    · exact ⟨.fh2, by simp [qStep, h], Or.inr rfl⟩
  go3 := by rintro q c (rfl | rfl) h <;> exact ⟨.ah, by simp [qStep, h], rfl⟩
  no2 := by rintro q c (rfl | rfl) h <;> simp [qStep, h]
  no3 := by rintro q c (rfl | rfl) h <;> simp [qStep, h]

theorem q_start_nil {q0 q : Q} {a : Bytes} (h : steps qStep q0 a = some q) (hq : q = .first ∨ q = .firstR) : a = [] ∧ q = q0 := by
  rcases steps_snoc h with ⟨rfl, rfl⟩ | ⟨w0, c, p, rfl, _, h⟩
  · exact ⟨rfl, rfl⟩
  · rcases hq with rfl | rfl <;> cases p <;> simp only [qStep] at h <;> (repeat' split at h) <;> simp at h

theorem q_good {q0 : Q} (h0 : q0 = .first ∨ q0 = .firstR) (a : Bytes) :
    (a = [] ∨ QComp a) ↔ ∃ p, steps qStep q0 a = some p ∧ (p = .first ∨ p = .firstR ∨ p.canEnd = true) := by
  constructor
  · rintro (rfl | h)
    · exact ⟨q0, rfl, by rcases h0 with rfl | rfl <;> simp⟩
    · obtain ⟨p, h1, h2⟩ := (accQ_first h0).mpr h
      exact ⟨p, h1, Or.inr (Or.inr h2)⟩
  · rintro ⟨p, h1, h2⟩
    rw [← or_assoc] at h2
    rcases h2 with h2 | h2
    · exact Or.inl (q_start_nil h1 h2).1
    · exact Or.inr ((accQ_first h0).mp ⟨p, h1, h2⟩)

theorem psq_of {c : UInt8} (h : isPcharSlash c = true) : isPcharSlashQ c = true := by
  simp [isPcharSlashQ, isPcharSlash] at h ⊢; rcases h with h | h <;> simp [h]

theorem psq_not {c : UInt8} (h : isPcharSlashQ c = false) : isPcharSlash c = false ∧ c ≠ 63 := by
  simp [isPcharSlashQ, isPcharSlash] at h ⊢; exact ⟨h.1, h.2⟩

theorem escFaultQ_iff {q0 : Q} (h0 : q0 = .first ∨ q0 = .firstR) {w v r : Bytes} {q : Q} (h : munch qStep q0 w = (q, v, r)) :
    EscFaultQ w ↔ ((q = .h1 ∨ q = .fh1) ∨ (q = .h2 ∨ q = .fh2) ∨
      (q = .ah ∧ ∃ c t, r = c :: t ∧ isPcharSlashQ c = false ∧ c ≠ 37 ∧ c ≠ 35)) :=
  escFault_iff (escQ q0 h0) (q_good h0)
    (by rintro q c rfl ⟨h1, h2, _⟩; obtain ⟨h3, h4⟩ := psq_not h1; simp [qStep, h2, h3, h4]) h

/-- What may follow `?=`: after an r-component a pchar or an escape. -/
def QStart (q0 : Q) (w : Bytes) : Prop :=
  q0 = .first ∨ (q0 = .firstR ∧ ∃ c t, w = c :: t ∧ (isPchar c = true ∨ c = 37))

theorem againQ_iff {q0 : Q} {w v r : Bytes} {q : Q} (h0 : QStart q0 w) (h : munch qStep q0 w = (q, v, r)) :
    AgainQ w ↔ (q = .first ∧ ∃ t, r = 63 :: 61 :: t ∧ Again t) ∨ (q = .qe ∧ Again r) := by
  have h0' : q0 = .first ∨ q0 = .firstR := by rcases h0 with h | ⟨h, _⟩; exact Or.inl h; exact Or.inr h
  have hs := munch_steps h
  have ha := munch_append qStep q0 w
  rw [h] at ha
  simp only at ha
  constructor
  · rintro ⟨v', t, e, hv, hA⟩
    rcases hv with rfl | hv
    · have e' : w = 63 :: 61 :: t := by simpa [lit] using e
      have hq0 : q0 = .first := by
        rcases h0 with h0 | ⟨_, c, t', e2, h3⟩
        · exact h0
        · rw [e'] at e2
          simp at e2
          rw [← e2.1] at h3; exact absurd h3 (by decide)
      subst hq0
      have := munch_unique h (v' := []) (r' := w) (q' := .first) rfl
        (by intro c t' e2; rw [e'] at e2; simp at e2; rw [← e2.1]; decide) rfl
      left; exact ⟨this.1.symm, t, by rw [← this.2.2]; exact e', hA⟩
    · obtain ⟨p, h1, h2⟩ := (accQ_first h0').mpr hv
      have := munch_unique h (v' := v' ++ lit "?=") (r' := t) (q' := .qe)
        (by rw [steps_append, h1]; cases p <;> simp [Q.canEnd] at h2 <;> rfl)
        (by
          rintro c t' rfl
          have := startsAgain_slash (again_cons.mp hA)
          simp [qStep, this]) e
      right; exact ⟨this.1.symm, this.2.2 ▸ hA⟩
  · rintro (⟨rfl, t, rfl, hA⟩ | ⟨rfl, hA⟩)
    · obtain ⟨rfl, _⟩ := q_start_nil hs (Or.inl rfl)
      exact ⟨[], t, by simpa [lit] using ha.symm, Or.inl rfl, hA⟩
    · rcases steps_snoc hs with ⟨_, e⟩ | ⟨v1, c, p, rfl, h1, h2⟩
      · rcases h0' with rfl | rfl <;> simp at e
      · have : c = 61 ∧ p = .qm := by
          cases p <;> simp only [qStep] at h2 <;> (repeat' split at h2) <;> simp at h2 <;> simp_all
        obtain ⟨rfl, rfl⟩ := this
        rcases steps_snoc h1 with ⟨_, e⟩ | ⟨v2, c, p, rfl, h3, h4⟩
        · rcases h0' with rfl | rfl <;> simp at e
        · have : c = 63 ∧ p.canEnd = true := by
            cases p <;> simp only [qStep] at h4 <;> (repeat' split at h4) <;> simp at h4 <;> simp_all [Q.canEnd]
          obtain ⟨rfl, h5⟩ := this
          exact ⟨v2, r, by rw [← ha]; simp [lit], Or.inr ((accQ_first h0').mp ⟨p, h3, h5⟩), hA⟩

theorem startsQ_iff {q0 : Q} {w v r : Bytes} {q : Q} (h0 : q0 = .first ∨ q0 = .firstR) (h : munch qStep q0 w = (q, v, r)) :
    StartsQ w ↔ q.canEnd = true ∧ (r = [] ∨ ∃ t, r = 35 :: t) := by
  have hs := munch_steps h
  have ha := munch_append qStep q0 w
  rw [h] at ha
  constructor
  · rintro ⟨v', x, e, hv, hx⟩
    obtain ⟨p, h1, h2⟩ := (accQ_first h0).mpr hv
    have := munch_unique h (v' := v') (r' := x) h1
      (by
        rintro c t rfl
        rcases hx with hx | ⟨t', hx⟩
        · simp at hx
        · simp at hx; rw [hx.1]; cases p <;> simp [Q.canEnd] at h2 <;> rfl) e
    exact ⟨this.1 ▸ h2, this.2.2 ▸ hx⟩
  · rintro ⟨h1, h2⟩
    exact ⟨v, r, ha.symm, (accQ_first h0).mp ⟨q, hs, h1⟩, h2⟩

theorem fragQ_iff {q0 : Q} {w v r : Bytes} {q : Q} (h0 : q0 = .first ∨ q0 = .firstR) (h : munch qStep q0 w = (q, v, r)) :
    (∃ a x, w = a ++ 35 :: x ∧ QComp a ∧ EscFaultF x) ↔ q.canEnd = true ∧ ∃ x, r = 35 :: x ∧ EscFaultF x := by
  have hs := munch_steps h
  have ha := munch_append qStep q0 w
  rw [h] at ha
  constructor
  · rintro ⟨v', x, e, hv, hx⟩
    obtain ⟨p, h1, h2⟩ := (accQ_first h0).mpr hv
    have := munch_unique h (v' := v') (r' := 35 :: x) h1
      (by
        rintro c t hx
        simp at hx; rw [← hx.1]; cases p <;> simp [Q.canEnd] at h2 <;> rfl) e
    exact ⟨this.1 ▸ h2, x, this.2.2.symm, hx⟩
  · rintro ⟨h1, x, rfl, h2⟩
    exact ⟨v, x, ha.symm, (accQ_first h0).mp ⟨q, hs, h1⟩, h2⟩

/-- Why a q-component fails. -/
def QFault (k : ErrKind) (w : Bytes) : Prop :=
  (k = .qComponentStart8141 ∧ AgainQ w) ∨ (k = .hex ∧ EscFaultQ w) ∨
  (k = .malformedQComp8141 ∧ ¬ StartsQ w ∧ ¬ AgainQ w ∧ ¬ EscFaultQ w) ∨
  (k = .hex ∧ ∃ a x, w = a ++ 35 :: x ∧ QComp a ∧ EscFaultF x)

theorem fails_QQ {t : Bytes} {b : Nat} {k : ErrKind} : Fails (refQQ t b) k ↔
    (k = .qComponentStart8141 ∧ ∃ t', t = 61 :: t' ∧ Again t') ∨ (k = .malformedQComp8141 ∧ ¬ ∃ t', t = 61 :: t' ∧ Again t') := by
  match t with
  | [] => simp [refQQ, fails_bad']
  | c :: t' =>
    by_cases hc : c = 61
    · subst hc
      match t' with
      | [] => simp [refQQ, fails_bad', again_nil]
      | d :: t'' =>
        cases hd : startsAgain d <;> simp [refQQ, fails_bad', again_cons, hd]
    · simp [refQQ, hc, fails_bad']

theorem fails_Q {o : URN} {q0 : Q} {w : Bytes} {b : Nat} {k : ErrKind} (h0 : QStart q0 w) :
    Fails (refQ true o q0 w b) k ↔ QFault k w := by
  have h0' : q0 = .first ∨ q0 = .firstR := by rcases h0 with h | ⟨h, _⟩; exact Or.inl h; exact Or.inr h
  have hs := steps_munch (stp := qStep) q0 w
  have ht := fun c t => munch_stop qStep q0 w (c := c) (t := t)
  have hE := escFaultQ_iff h0' (w := w) rfl
  have hA := againQ_iff h0 (w := w) rfl
  have hS := startsQ_iff h0' (w := w) rfl
  have hF := fragQ_iff h0' (w := w) rfl
  simp only [refQ, QFault]
  generalize munch qStep q0 w = x at *
  obtain ⟨q, v, r⟩ := x
  simp only at *
  rw [hE, hA, hS, hF]
  have hah : ∀ c t, r = c :: t → q = .ah → isPcharSlashQ c = false ∧ c ≠ 37 := by
    rintro c t rfl rfl
    have := ht c t rfl
    simp only [qStep] at this
    (repeat' split at this) <;> simp at this
    rename_i h1 h2 h3
    refine ⟨?_, h1⟩
    simp [isPcharSlashQ, isPcharSlash] at h3 ⊢
    exact ⟨h3, h2⟩
  cases r with
  | nil =>
    cases q <;> simp [Q.canEnd, fails_bad', not_fails_ok, qErr, again_nil]
  | cons c t =>
    by_cases h35 : c = 35
    · subst h35
      cases q <;> simp [Q.canEnd, fails_bad', fails_F, qErr, again_cons, startsAgain]
    · by_cases h63 : c = 63
      · subst h63
        cases q
        case first =>
          simp [Q.canEnd, fails_QQ]
        case ah => exact absurd (hah _ _ rfl rfl).1 (by decide)
        all_goals simp [Q.canEnd, fails_bad', qErr, again_cons, startsAgain]
      · have := hah c t rfl
        cases q
        case ah => have := this rfl; simp [Q.canEnd, fails_bad', qErr, h35, this]
        case qe => cases hsa : startsAgain c <;> simp [Q.canEnd, fails_bad', qErr, again_cons, hsa, h35]
        all_goals simp [Q.canEnd, fails_bad', qErr, h35, h63]

/-! ## r-components -/

/-- The scanner of r-components. -/
def escR : EscStates R rStep .first where
  h1 q := q = .h1
  h2 q := q = .h2
  ah q := q = .ah
  G q := q = .first ∨ (q.canEnd = true ∧ q ≠ .qe)
  start := by simp
  to1 := by
    rintro q c q' h rfl
    cases q <;> simp only [rStep] at h <;> (repeat' split at h) <;> simp at h <;> simp_all [R.canEnd]
  to2 := by
    rintro q c q' h rfl
    cases q <;> simp only [rStep] at h <;> (repeat' split at h) <;> simp at h <;> simp_all
  to3 := by
    rintro q c q' h rfl
    cases q <;> simp only [rStep] at h <;> (repeat' split at h) <;> simp at h <;> simp_all
  go1 := by
    rintro q (rfl | ⟨h, h'⟩)
    · exact ⟨.h1, rfl, rfl⟩
    · cases q <;> simp [R.canEnd] at h h' <;> exact ⟨.h1, rfl, rfl⟩
  go2 := by rintro q c rfl h; exact ⟨.h2, by simp [rStep, h], rfl⟩
  go3 := by rintro q c rfl h; exact ⟨.ah, by simp [rStep, h], rfl⟩
  no2 := by rintro q c rfl h; simp [rStep, h]
  no3 := by rintro q c rfl h; simp [rStep, h]

theorem r_start_nil {a : Bytes} (h : steps rStep .first a = some .first) : a = [] := by
  rcases steps_snoc h with ⟨rfl, _⟩ | ⟨w0, c, p, rfl, _, h⟩
  · rfl
  · cases p <;> simp only [rStep] at h <;> (repeat' split at h) <;> simp at h

/-- How the scanner gets to the state after a question mark. -/
theorem r_to_qm {a : Bytes} (h : steps rStep .first a = some .qm) : ∃ v, a = v ++ [63] ∧ RComp v := by
  rcases steps_snoc h with ⟨_, e⟩ | ⟨v, c, p, rfl, h1, h2⟩
  · simp at e
  · have : c = 63 ∧ p.canEnd = true := by
      cases p <;> simp only [rStep] at h2 <;> (repeat' split at h2) <;> simp at h2 <;> simp_all [R.canEnd]
    obtain ⟨rfl, h3⟩ := this
    exact ⟨v, rfl, accR_first.mp ⟨p, h1, h3⟩⟩

theorem r_to_qp {a : Bytes} (h : steps rStep .first a = some .qp) : ∃ v, a = v ++ lit "?+" ∧ RComp v := by
  rcases steps_snoc h with ⟨_, e⟩ | ⟨v1, c, p, rfl, h1, h2⟩
  · simp at e
  · have : c = 43 ∧ p = .qm := by
      cases p <;> simp only [rStep] at h2 <;> (repeat' split at h2) <;> simp at h2 <;> simp_all
    obtain ⟨rfl, rfl⟩ := this
    obtain ⟨v, rfl, h3⟩ := r_to_qm h1
    exact ⟨v, by simp [lit], h3⟩

theorem r_to_qe {a : Bytes} (h : steps rStep .first a = some .qe) : ∃ v, a = v ++ lit "?=" ∧ RComp v := by
  rcases steps_snoc h with ⟨_, e⟩ | ⟨v1, c, p, rfl, h1, h2⟩
  · simp at e
  · have : c = 61 ∧ p = .qm := by
      cases p <;> simp only [rStep] at h2 <;> (repeat' split at h2) <;> simp at h2 <;> simp_all
    obtain ⟨rfl, rfl⟩ := this
    obtain ⟨v, rfl, h3⟩ := r_to_qm h1
    exact ⟨v, by simp [lit], h3⟩

theorem r_qp {v : Bytes} (h : RComp v) : steps rStep .first (v ++ lit "?+") = some .qp := by
  obtain ⟨p, h1, h2⟩ := accR_first.mpr h
  rw [steps_append, h1]; cases p <;> simp [R.canEnd] at h2 <;> rfl

theorem r_qe {v : Bytes} (h : RComp v) : steps rStep .first (v ++ lit "?=") = some .qe := by
  obtain ⟨p, h1, h2⟩ := accR_first.mpr h
  rw [steps_append, h1]; cases p <;> simp [R.canEnd] at h2 <;> rfl

/-- Whatever the scanner reads up to `?=` leads to the same state. -/
theorem r_qe' {v : Bytes} {p : R} (h : steps rStep .first (v ++ lit "?=") = some p) : p = .qe := by
  rw [steps_append] at h
  cases hv : steps rStep .first v with
  | none => rw [hv] at h; simp at h
  | some x =>
    rw [hv] at h
    have hx : steps rStep x (lit "?=") = none ∨ steps rStep x (lit "?=") = some .qe := by cases x <;> decide
    simp only [Option.bind_some] at h
    rcases hx with hx | hx <;> rw [hx] at h <;> simp at h
    exact h.symm

theorem r_good (a : Bytes) : (a = [] ∨ RComp a ∧ ¬ ∃ v, a = v ++ lit "?=") ↔
    ∃ p, steps rStep .first a = some p ∧ (p = .first ∨ (p.canEnd = true ∧ p ≠ .qe)) := by
  constructor
  · rintro (rfl | ⟨h, h'⟩)
    · exact ⟨.first, rfl, Or.inl rfl⟩
    · obtain ⟨p, h1, h2⟩ := accR_first.mpr h
      refine ⟨p, h1, Or.inr ⟨h2, ?_⟩⟩
      rintro rfl
      obtain ⟨v, e, _⟩ := r_to_qe h1
      exact h' ⟨v, e⟩
  · rintro ⟨p, h1, rfl | ⟨h2, h3⟩⟩
    · exact Or.inl (r_start_nil h1)
    · refine Or.inr ⟨accR_first.mp ⟨p, h1, h2⟩, ?_⟩
      rintro ⟨v, rfl⟩
      exact h3 (r_qe' h1)

section
variable {w v r : Bytes} {q : R}

theorem escFaultR_iff (h : munch rStep .first w = (q, v, r)) :
    EscFaultR w ↔ (q = .h1 ∨ q = .h2 ∨ (q = .ah ∧ ∃ c t, r = c :: t ∧ isPcharSlashQ c = false ∧ c ≠ 37 ∧ c ≠ 35)) :=
  escFault_iff escR r_good
    (by rintro q c rfl ⟨h1, h2, _⟩; obtain ⟨h3, h4⟩ := psq_not h1; simp [rStep, h2, h3, h4]) h

theorem againR_iff (h : munch rStep .first w = (q, v, r)) :
    AgainR w ↔ (q = .first ∧ ∃ t, r = 63 :: 43 :: t ∧ Again t) ∨ (q = .qp ∧ Again r) := by
  have hs := munch_steps h
  have ha := munch_append rStep .first w
  rw [h] at ha
  simp only at ha
  constructor
  · rintro ⟨v', t, e, hv, hA⟩
    rcases hv with rfl | hv
    · have e' : w = 63 :: 43 :: t := by simpa [lit] using e
      have := munch_unique h (v' := []) (r' := w) (q' := .first) rfl
        (by intro c t' e2; rw [e'] at e2; simp at e2; rw [← e2.1]; decide) rfl
      left; exact ⟨this.1.symm, t, by rw [← this.2.2]; exact e', hA⟩
    · have := munch_unique h (r' := t) (r_qp hv)
        (by
          rintro c t' rfl
          have := startsAgain_slash (again_cons.mp hA)
          simp [rStep, this]) e
      right; exact ⟨this.1.symm, this.2.2 ▸ hA⟩
  · rintro (⟨rfl, t, rfl, hA⟩ | ⟨rfl, hA⟩)
    · obtain rfl := r_start_nil hs
      exact ⟨[], t, by simpa [lit] using ha.symm, Or.inl rfl, hA⟩
    · obtain ⟨v2, rfl, h1⟩ := r_to_qp hs
      exact ⟨v2, r, ha.symm, Or.inr h1, hA⟩

/-- Where the scanner stops when a q-component follows. -/
theorem r_stop {a t : Bytes} {c : UInt8} (h : munch rStep .first w = (q, v, r)) (ha : RComp a) (hc : isPchar c = true ∨ c = 37)
    (e : w = a ++ lit "?=" ++ c :: t) : q = .qe ∧ r = c :: t := by
  have := munch_unique h (r' := c :: t) (r_qe ha)
    (by
      intro d t' e2
      simp at e2
      obtain ⟨rfl, rfl⟩ := e2
      have h1 : c ≠ 47 := by rintro rfl; exact absurd hc (by decide)
      have h2 : c ≠ 63 := by rintro rfl; exact absurd hc (by decide)
      simp [rStep, h1, h2]) e
  exact ⟨this.1.symm, this.2.2.symm⟩

theorem frag_stop {a t : Bytes} (h : munch rStep .first w = (q, v, r)) (ha : RComp a) (ht : t = [] ∨ ∃ t', t = 35 :: t')
    (e : w = a ++ t) : q.canEnd = true ∧ r = t := by
  obtain ⟨p, h1, h2⟩ := accR_first.mpr ha
  have := munch_unique h (r' := t) h1
    (by
      rintro d t' rfl
      rcases ht with ht | ⟨t'', ht⟩
      · simp at ht
      · simp at ht; rw [ht.1]; cases p <;> simp [R.canEnd] at h2 <;> rfl) e
  exact ⟨this.1 ▸ h2, this.2.2.symm⟩

theorem startsR_iff (h : munch rStep .first w = (q, v, r)) :
    StartsR w ↔ (q.canEnd = true ∧ (r = [] ∨ ∃ t, r = 35 :: t)) ∨ (q = .qe ∧ ∃ c t, r = c :: t ∧ (isPchar c = true ∨ c = 37)) := by
  have hs := munch_steps h
  have ha := munch_append rStep .first w
  rw [h] at ha
  simp only at ha
  constructor
  · rintro ⟨v', x, e, hv, hx⟩
    rw [← or_assoc] at hx
    rcases hx with hx | ⟨c, t, rfl, hc⟩
    · obtain ⟨h1, rfl⟩ := frag_stop h hv hx e
      exact Or.inl ⟨h1, hx⟩
    · obtain ⟨h1, h2⟩ := r_stop h hv hc (t := t) (by rw [e]; simp)
      exact Or.inr ⟨h1, c, t, h2, hc⟩
  · rintro (⟨h1, h2⟩ | ⟨rfl, c, t, rfl, hc⟩)
    · exact ⟨v, r, ha.symm, accR_first.mp ⟨q, hs, h1⟩, by rcases h2 with h2 | h2; exact Or.inl h2; exact Or.inr (Or.inl h2)⟩
    · obtain ⟨v2, rfl, h1⟩ := r_to_qe hs
      exact ⟨v2, lit "?=" ++ c :: t, by rw [← ha]; simp, h1, Or.inr (Or.inr ⟨c, t, rfl, hc⟩)⟩

theorem fragR_iff (h : munch rStep .first w = (q, v, r)) :
    (∃ a x, w = a ++ 35 :: x ∧ RComp a ∧ EscFaultF x) ↔ q.canEnd = true ∧ ∃ x, r = 35 :: x ∧ EscFaultF x := by
  have hs := munch_steps h
  have ha := munch_append rStep .first w
  rw [h] at ha
  constructor
  · rintro ⟨v', x, e, hv, hx⟩
    obtain ⟨h1, rfl⟩ := frag_stop h hv (Or.inr ⟨x, rfl⟩) e
    exact ⟨h1, x, rfl, hx⟩
  · rintro ⟨h1, x, rfl, h2⟩
    exact ⟨v, x, ha.symm, accR_first.mp ⟨q, hs, h1⟩, h2⟩

theorem qR_iff {k : ErrKind} (h : munch rStep .first w = (q, v, r)) :
    (∃ a c t, w = a ++ lit "?=" ++ c :: t ∧ RComp a ∧ (isPchar c = true ∨ c = 37) ∧ QFault k (c :: t)) ↔
      q = .qe ∧ ∃ c t, r = c :: t ∧ (isPchar c = true ∨ c = 37) ∧ QFault k (c :: t) := by
  have hs := munch_steps h
  have ha := munch_append rStep .first w
  rw [h] at ha
  constructor
  · rintro ⟨a, c, t, e, hv, hc, hx⟩
    obtain ⟨h1, rfl⟩ := r_stop h hv hc e
    exact ⟨h1, c, t, rfl, hc, hx⟩
  · rintro ⟨rfl, c, t, rfl, hc, hx⟩
    obtain ⟨v2, rfl, h1⟩ := r_to_qe hs
    exact ⟨v2, c, t, ha.symm, h1, hc, hx⟩

end

/-- Why an r-component and what follows it fails. -/
def RFault (k : ErrKind) (w : Bytes) : Prop :=
  (k = .rComponentStart8141 ∧ AgainR w) ∨ (k = .hex ∧ EscFaultR w) ∨
  (k = .malformedRComp8141 ∧ ¬ StartsR w ∧ ¬ AgainR w ∧ ¬ EscFaultR w) ∨
  (k = .hex ∧ ∃ a x, w = a ++ 35 :: x ∧ RComp a ∧ EscFaultF x) ∨
  (∃ a c t, w = a ++ lit "?=" ++ c :: t ∧ RComp a ∧ (isPchar c = true ∨ c = 37) ∧ QFault k (c :: t))

theorem fails_RQ {t : Bytes} {b : Nat} {k : ErrKind} : Fails (refRQ t b) k ↔
    (k = .rComponentStart8141 ∧ ∃ t', t = 43 :: t' ∧ Again t') ∨ (k = .malformedRComp8141 ∧ ¬ ∃ t', t = 43 :: t' ∧ Again t') := by
  match t with
  | [] => simp [refRQ, fails_bad']
  | c :: t' =>
    by_cases hc : c = 43
    · subst hc
      match t' with
      | [] => simp [refRQ, fails_bad', again_nil]
      | d :: t'' =>
        cases hd : startsAgain d <;> simp [refRQ, fails_bad', again_cons, hd]
    · simp [refRQ, hc, fails_bad']

theorem fails_R {o : URN} {w : Bytes} {b : Nat} {k : ErrKind} : Fails (refR true o w b) k ↔ RFault k w := by
  have ht := fun c t => munch_stop rStep .first w (c := c) (t := t)
  have hE := escFaultR_iff (w := w) rfl
  have hA := againR_iff (w := w) rfl
  have hS := startsR_iff (w := w) rfl
  have hF := fragR_iff (w := w) rfl
  have hQ := qR_iff (w := w) (k := k) rfl
  simp only [refR, RFault]
  generalize munch rStep .first w = x at *
  obtain ⟨q, v, r⟩ := x
  simp only at *
  rw [hE, hA, hS, hF, hQ]
  have hah : ∀ c t, r = c :: t → q = .ah → isPcharSlashQ c = false ∧ c ≠ 37 := by
    rintro c t rfl rfl
    have := ht c t rfl
    simp only [rStep] at this
    (repeat' split at this) <;> simp at this
    rename_i h1 h2 h3
    refine ⟨?_, h1⟩
    simp [isPcharSlashQ, isPcharSlash] at h3 ⊢
    exact ⟨h3, h2⟩
  have p35 : isPchar 35 = false := by decide
  cases r with
  | nil =>
    cases q <;> simp [R.canEnd, fails_bad', not_fails_ok, rErr, again_nil]
  | cons c t =>
    by_cases h35 : c = 35
    · subst h35
      cases q <;> simp [R.canEnd, fails_bad', fails_F, rErr, again_cons, startsAgain, p35]
    · by_cases h63 : c = 63
      · subst h63
        cases q
        case first => simp [R.canEnd, fails_RQ]
        case ah => exact absurd (hah _ _ rfl rfl).1 (by decide)
        case qe => exact absurd (ht _ _ rfl) (by decide)
        all_goals simp [R.canEnd, fails_bad', rErr, again_cons, startsAgain]
      · have := hah c t rfl
        cases q
        case ah => have := this rfl; simp [R.canEnd, fails_bad', rErr, h35, this]
        case qp => cases hsa : startsAgain c <;> simp [R.canEnd, fails_bad', rErr, again_cons, hsa, h35]
        case qe =>
          by_cases hc : isPchar c = true ∨ c = 37
          · have h0 : QStart .firstR (c :: t) := Or.inr ⟨rfl, c, t, rfl, hc⟩
            simp [R.canEnd, hc, h35, fails_Q h0]
            constructor
            · intro h; exact ⟨c, t, ⟨rfl, rfl⟩, hc, h⟩
            · rintro ⟨_, _, ⟨rfl, rfl⟩, _, h⟩; exact h
          · simp [R.canEnd, fails_bad', rErr, h35, hc]
        all_goals simp [R.canEnd, fails_bad', rErr, h35, h63]

end Urn
