import Verif.Gram
/-!
# The scanners of RFC 8141 identifiers and components accept the grammars
-/
namespace Urn
open Spec

/-! ## r- and q-components -/

theorem pchar37 : isPchar 37 = false := by decide
theorem pcharSlash37 : isPcharSlash 37 = false := by decide
theorem pcharSlashQ37 : isPcharSlashQ 37 = false := by decide
theorem pcharSlashQ_iff : ∀ c : UInt8, isPcharSlashQ c = true ↔ c = 63 ∨ isPcharSlash c = true := by
  intro c; simp only [isPcharSlashQ, isPcharSlash, Bool.or_eq_true, beq_iff_eq]; exact or_comm
theorem alnum_ne : ∀ c : UInt8, isAlnum c = true → c ≠ 63 ∧ c ≠ 37 ∧ c ≠ 58 ∧ c ≠ 35 ∧ c ≠ 45 := forall_byte (by decide +kernel)

/-- Every `?x` in the string is followed by something that satisfies `P`. -/
def Follow (x : UInt8) (P : Bytes → Prop) (w : Bytes) : Prop := ∀ a b, w = a ++ 63 :: x :: b → P b

theorem follow_nil {x P} : Follow x P [] := by intro a b h; simp at h

theorem follow_cons {x P} {c : UInt8} {w : Bytes} (h : c ≠ 63) : Follow x P (c :: w) ↔ Follow x P w := by
  constructor
  · intro H a b e; exact H (c :: a) b (by rw [e]; rfl)
  · intro H a b e
    cases a with
    | nil => simp at e; exact absurd e.1 h
    | cons d a => simp at e; exact H a b e.2

theorem follow_qm {x P} {w : Bytes} : Follow x P (63 :: w) ↔ Follow x P w ∧ ∀ b, w = x :: b → P b := by
  constructor
  · intro H
    exact ⟨fun a b e => H (63 :: a) b (by rw [e]; rfl), fun b e => H [] b (by rw [e]; rfl)⟩
  · rintro ⟨H1, H2⟩ a b e
    cases a with
    | nil => simp at e; exact H2 b e
    | cons d a => simp at e; exact H1 a b e.2

/-- The tail of a component: characters, and conditions on what follows `?x` and `?y`. -/
def Tail (Pp Pe : Bytes → Prop) (w : Bytes) : Prop :=
  PctSeq isPcharSlashQ w ∧ Follow 43 Pp w ∧ Follow 61 Pe w

section
variable {Pp Pe : Bytes → Prop}

theorem tail_nil : Tail Pp Pe [] := ⟨.nil, follow_nil, follow_nil⟩

theorem pct_inv {cls : UInt8 → Bool} (hc : cls 37 = false) {t : Bytes} :
    PctSeq cls (37 :: t) ↔ ∃ a b t', t = a :: b :: t' ∧ isAlnum a = true ∧ isAlnum b = true ∧ PctSeq cls t' := by
  constructor
  · intro h
    cases h with
    | char h _ => rw [hc] at h; simp at h
    | pct ha hb h => exact ⟨_, _, _, rfl, ha, hb, h⟩
  · rintro ⟨a, b, t', rfl, ha, hb, h⟩
    exact .pct ha hb h

theorem char_inv {cls : UInt8 → Bool} {c : UInt8} (hc : c ≠ 37) {t : Bytes} :
    PctSeq cls (c :: t) ↔ cls c = true ∧ PctSeq cls t := by
  constructor
  · intro h
    cases h with
    | char h h' => exact ⟨h, h'⟩
    | pct => exact absurd rfl hc
  · rintro ⟨h, h'⟩; exact .char h h'

theorem tail_pct {t : Bytes} : Tail Pp Pe (37 :: t) ↔
    ∃ a b t', t = a :: b :: t' ∧ isAlnum a = true ∧ isAlnum b = true ∧ Tail Pp Pe t' := by
  simp only [Tail, pct_inv pcharSlashQ37, follow_cons (by decide : (37 : UInt8) ≠ 63)]
  constructor
  · rintro ⟨⟨a, b, t', rfl, ha, hb, h⟩, h2, h3⟩
    rw [follow_cons (alnum_ne a ha).1, follow_cons (alnum_ne b hb).1] at h2 h3
    exact ⟨a, b, t', rfl, ha, hb, h, h2, h3⟩
  · rintro ⟨a, b, t', rfl, ha, hb, h, h2, h3⟩
    rw [follow_cons (alnum_ne a ha).1, follow_cons (alnum_ne b hb).1, follow_cons (alnum_ne a ha).1, follow_cons (alnum_ne b hb).1]
    exact ⟨⟨a, b, t', rfl, ha, hb, h⟩, h2, h3⟩

theorem tail_char {c : UInt8} {t : Bytes} (h37 : c ≠ 37) (h63 : c ≠ 63) :
    Tail Pp Pe (c :: t) ↔ isPcharSlash c = true ∧ Tail Pp Pe t := by
  simp only [Tail, char_inv h37, follow_cons h63, pcharSlashQ_iff, h63, false_or, and_assoc]

theorem tail_qm {t : Bytes} : Tail Pp Pe (63 :: t) ↔
    Tail Pp Pe t ∧ (∀ b, t = 43 :: b → Pp b) ∧ (∀ b, t = 61 :: b → Pe b) := by
  simp only [Tail, char_inv (by decide : (63 : UInt8) ≠ 37), follow_qm, show isPcharSlashQ 63 = true by decide, true_and]
  constructor
  · rintro ⟨h1, ⟨h2, h3⟩, h4, h5⟩; exact ⟨⟨h1, h2, h4⟩, h3, h5⟩
  · rintro ⟨⟨h1, h2, h4⟩, h3, h5⟩; exact ⟨h1, ⟨h2, h3⟩, h4, h5⟩

end

/-- What may follow `?+` in an r-component. -/
def RPlus (b : Bytes) : Prop := b.head? = some 47
/-- What may follow `?=` in an r-component. -/
def REq (b : Bytes) : Prop := b = [] ∨ b.head? = some 47 ∨ b.head? = some 63

/-- Does the scanner accept from here? -/
def accR (q : R) (w : Bytes) : Prop := ∃ q', steps rStep q w = some q' ∧ q'.canEnd = true

theorem accR_cons {q : R} {c : UInt8} {w : Bytes} : accR q (c :: w) ↔ ∃ q', rStep q c = some q' ∧ accR q' w := by
  simp only [accR, steps_cons]
  cases rStep q c <;> simp

theorem accR_nil {q : R} : accR q [] ↔ q.canEnd = true := by simp [accR, steps]

/-- Acceptance from each of the states. -/
def RSpec (w : Bytes) : R → Prop
  | .first => True
  | .plain | .ah => Tail RPlus REq w
  | .h1 => ∃ a b t, w = a :: b :: t ∧ isAlnum a = true ∧ isAlnum b = true ∧ Tail RPlus REq t
  | .h2 => ∃ b t, w = b :: t ∧ isAlnum b = true ∧ Tail RPlus REq t
  | .qm => Tail RPlus REq (63 :: w)
  | .qp => RPlus w ∧ Tail RPlus REq w
  | .qe => REq w ∧ Tail RPlus REq w

theorem accR_iff (w : Bytes) (q : R) (hq : q ≠ .first) : accR q w ↔ RSpec w q := by
  induction w generalizing q with
  | nil =>
    rw [accR_nil]
    cases q
    case first => exact absurd rfl hq
    all_goals simp [RSpec, R.canEnd, tail_nil, RPlus, REq, tail_qm]
  | cons c t ih =>
    have ih := fun q hq => ih q hq
    rw [accR_cons]
    have hplain : (∃ q', (if c = 37 then some R.h1 else if c = 63 then some .qm
        else if isPcharSlash c then some .plain else none) = some q' ∧ accR q' t) ↔ Tail RPlus REq (c :: t) := by
      by_cases h37 : c = 37
      · subst h37
        simp only [if_true, Option.some.injEq, exists_eq_left', tail_pct]
        rw [ih .h1 (by simp)]
        rfl
      · by_cases h63 : c = 63
        · subst h63
          simp only [h37, if_false, if_true, Option.some.injEq, exists_eq_left']
          rw [ih .qm (by simp)]
          rfl
        · rw [tail_char h37 h63]
          by_cases hp : isPcharSlash c = true
          · simp only [h37, h63, hp, if_false, if_true, Option.some.injEq, exists_eq_left', true_and]
            rw [ih .plain (by simp)]
            rfl
          · simp [h37, h63, hp]
    cases q with
    | first => exact absurd rfl hq
    | plain => exact hplain
    | ah => exact hplain
    | h1 =>
      simp only [rStep, RSpec]
      by_cases ha : isAlnum c = true
      · simp only [ha, if_true, Option.some.injEq, exists_eq_left']
        rw [ih .h2 (by simp)]
        constructor
        · rintro ⟨b, t', rfl, hb, h⟩; exact ⟨c, b, t', rfl, ha, hb, h⟩
        · rintro ⟨a, b, t', e, _, hb, h⟩; simp at e; exact ⟨b, t', e.2, hb, h⟩
      · simp only [ha, if_false, reduceCtorEq, false_and, exists_false, false_iff, Bool.false_eq_true]
        rintro ⟨a, b, t', e, ha', _⟩; simp at e; rw [e.1] at ha; exact ha ha'
    | h2 =>
      simp only [rStep, RSpec]
      by_cases ha : isAlnum c = true
      · simp only [ha, if_true, Option.some.injEq, exists_eq_left']
        rw [ih .ah (by simp)]
        constructor
        · intro h; exact ⟨c, t, rfl, ha, h⟩
        · rintro ⟨b, t', e, _, h⟩; simp at e; rw [e.2]; exact h
      · simp only [ha, if_false, reduceCtorEq, false_and, exists_false, false_iff, Bool.false_eq_true]
        rintro ⟨a, t', e, ha', _⟩; simp at e; rw [e.1] at ha; exact ha ha'
    | qm =>
      simp only [RSpec]
      rw [tail_qm, ← hplain]
      by_cases h43 : c = 43
      · subst h43
        have e1 : rStep .qm 43 = some .qp := by decide
        have e2 : isPcharSlash 43 = true := by decide
        simp only [e1, Option.some.injEq, exists_eq_left', e2, if_true, (by decide : (43 : UInt8) ≠ 37), (by decide : (43 : UInt8) ≠ 63), if_false]
        rw [ih .qp (by simp), ih .plain (by simp)]
        simp only [RSpec]
        constructor
        · rintro ⟨h1, h2⟩; exact ⟨h2, by intro b e; simp at e; rw [← e]; exact h1, by intro b e; simp at e⟩
        · rintro ⟨h1, h2, _⟩; exact ⟨h2 t rfl, h1⟩
      · by_cases h61 : c = 61
        · subst h61
          have e1 : rStep .qm 61 = some .qe := by decide
          have e2 : isPcharSlash 61 = true := by decide
          simp only [e1, Option.some.injEq, exists_eq_left', e2, if_true, (by decide : (61 : UInt8) ≠ 37), (by decide : (61 : UInt8) ≠ 63), if_false]
          rw [ih .qe (by simp), ih .plain (by simp)]
          simp only [RSpec]
          constructor
          · rintro ⟨h1, h2⟩; exact ⟨h2, by intro b e; simp at e, by intro b e; simp at e; rw [← e]; exact h1⟩
          · rintro ⟨h1, _, h2⟩; exact ⟨h2 t rfl, h1⟩
        · simp only [rStep, h43, h61, if_false]
          constructor
          · intro h; exact ⟨h, by intro b e; simp at e; exact absurd e.1 h43, by intro b e; simp at e; exact absurd e.1 h61⟩
          · rintro ⟨h, _⟩; exact h
    | qp =>
      simp only [rStep, RSpec, RPlus, List.head?_cons, Option.some.injEq]
      by_cases h : c = 47
      · subst h
        simp only [if_true, Option.some.injEq, exists_eq_left', true_and]
        rw [ih .plain (by simp), tail_char (by decide) (by decide)]
        simp [RSpec, show isPcharSlash 47 = true by decide]
      · simp [h]
    | qe =>
      simp only [rStep, RSpec, REq, List.head?_cons, Option.some.injEq, List.cons_ne_nil, false_or]
      by_cases h : c = 47
      · subst h
        simp only [if_true, Option.some.injEq, exists_eq_left', true_and, true_or]
        rw [ih .plain (by simp), tail_char (by decide) (by decide)]
        simp [RSpec, show isPcharSlash 47 = true by decide]
      · by_cases h' : c = 63
        · subst h'
          simp only [h, if_true, if_false, Option.some.injEq, exists_eq_left', true_and, or_true]
          rw [ih .qm (by simp)]
          rfl
        · simp [h, h']

theorem rcomp_iff {w : Bytes} : RComp w ↔ Component w ∧ Follow 43 RPlus w ∧ Follow 61 REq w :=
  ⟨fun ⟨a, b, c⟩ => ⟨a, b, c⟩, fun ⟨a, b, c⟩ => ⟨a, b, c⟩⟩

theorem component_pct {t : Bytes} : Component (37 :: t) ↔
    ∃ a b t', t = a :: b :: t' ∧ isAlnum a = true ∧ isAlnum b = true ∧ PctSeq isPcharSlashQ t' := by
  constructor
  · intro h
    cases h with
    | char h _ => rw [pchar37] at h; simp at h
    | pct ha hb h => exact ⟨_, _, _, rfl, ha, hb, h⟩
  · rintro ⟨a, b, t', rfl, ha, hb, h⟩
    exact .pct ha hb h

theorem component_char {c : UInt8} {t : Bytes} (h37 : c ≠ 37) : Component (c :: t) ↔ isPchar c = true ∧ PctSeq isPcharSlashQ t := by
  constructor
  · intro h
    cases h with
    | char h h' => exact ⟨h, h'⟩
    | pct => exact absurd rfl h37
  · rintro ⟨h, h'⟩; exact .char h h'

theorem pchar_ne : ∀ c : UInt8, isPchar c = true → c ≠ 63 ∧ c ≠ 37 ∧ c ≠ 35 ∧ c ≠ 47 := forall_byte (by decide +kernel)

theorem accR_first {w : Bytes} : accR .first w ↔ RComp w := by
  rw [rcomp_iff]
  cases w with
  | nil =>
    rw [accR_nil]
    simp only [R.canEnd, Bool.false_eq_true, false_iff, not_and]
    intro h; cases h
  | cons c t =>
    rw [accR_cons]
    simp only [rStep]
    by_cases h37 : c = 37
    · subst h37
      simp only [if_true, Option.some.injEq, exists_eq_left']
      rw [accR_iff _ _ (by simp), component_pct]
      simp only [RSpec, follow_cons (by decide : (37 : UInt8) ≠ 63)]
      constructor
      · rintro ⟨a, b, t', rfl, ha, hb, h, h2, h3⟩
        rw [follow_cons (alnum_ne a ha).1, follow_cons (alnum_ne b hb).1, follow_cons (alnum_ne a ha).1, follow_cons (alnum_ne b hb).1]
        exact ⟨⟨a, b, t', rfl, ha, hb, h⟩, h2, h3⟩
      · rintro ⟨⟨a, b, t', rfl, ha, hb, h⟩, h2, h3⟩
        rw [follow_cons (alnum_ne a ha).1, follow_cons (alnum_ne b hb).1] at h2 h3
        exact ⟨a, b, t', rfl, ha, hb, h, h2, h3⟩
    · rw [component_char h37]
      by_cases hp : isPchar c = true
      · simp only [h37, hp, if_false, if_true, Option.some.injEq, exists_eq_left', true_and]
        rw [accR_iff _ _ (by simp), follow_cons (pchar_ne c hp).1, follow_cons (pchar_ne c hp).1]
        rfl
      · simp [h37, hp]

/-- What may follow `?=` in a q-component. -/
def QEq (b : Bytes) : Prop := b.head? = some 47

/-- Does the scanner accept from here? -/
def accQ (q : Q) (w : Bytes) : Prop := ∃ q', steps qStep q w = some q' ∧ q'.canEnd = true

theorem accQ_cons {q : Q} {c : UInt8} {w : Bytes} : accQ q (c :: w) ↔ ∃ q', qStep q c = some q' ∧ accQ q' w := by
  simp only [accQ, steps_cons]
  cases qStep q c <;> simp

theorem accQ_nil {q : Q} : accQ q [] ↔ q.canEnd = true := by simp [accQ, steps]

/-- No condition. -/
def Any (_ : Bytes) : Prop := True

/-- Acceptance from each of the states. -/
def QSpec (w : Bytes) : Q → Prop
  | .first | .firstR => True
  | .plain | .ah => Tail Any QEq w
  | .h1 | .fh1 => ∃ a b t, w = a :: b :: t ∧ isAlnum a = true ∧ isAlnum b = true ∧ Tail Any QEq t
  | .h2 | .fh2 => ∃ b t, w = b :: t ∧ isAlnum b = true ∧ Tail Any QEq t
  | .qm => Tail Any QEq (63 :: w)
  | .qe => QEq w ∧ Tail Any QEq w

theorem accQ_iff (w : Bytes) (q : Q) (hq : q ≠ .first ∧ q ≠ .firstR) : accQ q w ↔ QSpec w q := by
  induction w generalizing q with
  | nil =>
    rw [accQ_nil]
    cases q
    case first => exact absurd rfl hq.1
    case firstR => exact absurd rfl hq.2
    all_goals simp [QSpec, Q.canEnd, tail_nil, QEq, tail_qm, Any]
  | cons c t ih =>
    rw [accQ_cons]
    have hplain : (∃ q', (if c = 37 then some Q.h1 else if c = 63 then some .qm
        else if isPcharSlash c then some .plain else none) = some q' ∧ accQ q' t) ↔ Tail Any QEq (c :: t) := by
      by_cases h37 : c = 37
      · subst h37
        simp only [if_true, Option.some.injEq, exists_eq_left', tail_pct]
        rw [ih .h1 (by simp)]
        rfl
      · by_cases h63 : c = 63
        · subst h63
          simp only [h37, if_false, if_true, Option.some.injEq, exists_eq_left']
          rw [ih .qm (by simp)]
          rfl
        · rw [tail_char h37 h63]
          by_cases hp : isPcharSlash c = true
          · simp only [h37, h63, hp, if_false, if_true, Option.some.injEq, exists_eq_left', true_and]
            rw [ih .plain (by simp)]
            rfl
          · simp [h37, h63, hp]
    have hh1 : ∀ q2 : Q, (∀ w, QSpec w q2 ↔ ∃ b t, w = b :: t ∧ isAlnum b = true ∧ Tail Any QEq t) →
        (q2 ≠ .first ∧ q2 ≠ .firstR) →
        ((∃ q', (if isAlnum c = true then some q2 else none) = some q' ∧ accQ q' t) ↔
          ∃ a b t', c :: t = a :: b :: t' ∧ isAlnum a = true ∧ isAlnum b = true ∧ Tail Any QEq t') := by
      intro q2 hs hn
      by_cases ha : isAlnum c = true
      · simp only [ha, if_true, Option.some.injEq, exists_eq_left']
        rw [ih q2 hn, hs]
        constructor
        · rintro ⟨b, t', rfl, hb, h⟩; exact ⟨c, b, t', rfl, ha, hb, h⟩
        · rintro ⟨a, b, t', e, _, hb, h⟩; simp at e; exact ⟨b, t', e.2, hb, h⟩
      · simp only [ha, if_false, reduceCtorEq, false_and, exists_false, false_iff, Bool.false_eq_true]
        rintro ⟨a, b, t', e, ha', _⟩; simp at e; rw [e.1] at ha; exact ha ha'
    have hh2 : (∃ q', (if isAlnum c = true then some Q.ah else none) = some q' ∧ accQ q' t) ↔
          ∃ b t', c :: t = b :: t' ∧ isAlnum b = true ∧ Tail Any QEq t' := by
      by_cases ha : isAlnum c = true
      · simp only [ha, if_true, Option.some.injEq, exists_eq_left']
        rw [ih .ah (by simp)]
        constructor
        · intro h; exact ⟨c, t, rfl, ha, h⟩
        · rintro ⟨b, t', e, _, h⟩; simp at e; rw [e.2]; exact h
      · simp only [ha, if_false, reduceCtorEq, false_and, exists_false, false_iff, Bool.false_eq_true]
        rintro ⟨a, t', e, ha', _⟩; simp at e; rw [e.1] at ha; exact ha ha'
    cases q with
    | first => exact absurd rfl hq.1
    | firstR => exact absurd rfl hq.2
    | plain => exact hplain
    | ah => exact hplain
    | h1 => exact hh1 .h2 (fun _ => Iff.rfl) (by simp)
    | fh1 => exact hh1 .fh2 (fun _ => Iff.rfl) (by simp)
    | h2 => exact hh2
    | fh2 => exact hh2
    | qm =>
      simp only [QSpec]
      rw [tail_qm, ← hplain]
      by_cases h61 : c = 61
      · subst h61
        have e1 : qStep .qm 61 = some .qe := by decide
        have e2 : isPcharSlash 61 = true := by decide
        simp only [e1, Option.some.injEq, exists_eq_left', e2, if_true, (by decide : (61 : UInt8) ≠ 37), (by decide : (61 : UInt8) ≠ 63), if_false]
        rw [ih .qe (by simp), ih .plain (by simp)]
        simp only [QSpec]
        constructor
        · rintro ⟨h1, h2⟩; exact ⟨h2, fun _ _ => trivial, by intro b e; simp at e; rw [← e]; exact h1⟩
        · rintro ⟨h1, _, h2⟩; exact ⟨h2 t rfl, h1⟩
      · simp only [qStep, h61, if_false]
        constructor
        · intro h; exact ⟨h, fun _ _ => trivial, by intro b e; simp at e; exact absurd e.1 h61⟩
        · rintro ⟨h, _⟩; exact h
    | qe =>
      simp only [qStep, QSpec, QEq, List.head?_cons, Option.some.injEq]
      by_cases h : c = 47
      · subst h
        simp only [if_true, Option.some.injEq, exists_eq_left', true_and]
        rw [ih .plain (by simp), tail_char (by decide) (by decide)]
        simp [QSpec, show isPcharSlash 47 = true by decide]
      · simp [h]

theorem qcomp_iff {w : Bytes} : QComp w ↔ Component w ∧ Follow 61 QEq w :=
  ⟨fun ⟨a, b⟩ => ⟨a, b⟩, fun ⟨a, b⟩ => ⟨a, b⟩⟩

theorem accQ_first {w : Bytes} {q : Q} (hq : q = .first ∨ q = .firstR) : accQ q w ↔ QComp w := by
  rw [qcomp_iff]
  cases w with
  | nil =>
    rw [accQ_nil]
    have : q.canEnd = false := by rcases hq with rfl | rfl <;> rfl
    simp only [this, Bool.false_eq_true, false_iff, not_and]
    intro h; cases h
  | cons c t =>
    rw [accQ_cons]
    by_cases h37 : c = 37
    · subst h37
      have h1 : (∃ q', qStep q 37 = some q' ∧ accQ q' t) ↔
          ∃ a b t', t = a :: b :: t' ∧ isAlnum a = true ∧ isAlnum b = true ∧ Tail Any QEq t' := by
        rcases hq with rfl | rfl
        · simp only [qStep, if_true, Option.some.injEq, exists_eq_left']
          rw [accQ_iff _ _ (by simp)]; rfl
        · simp only [qStep, if_true, Option.some.injEq, exists_eq_left']
          rw [accQ_iff _ _ (by simp)]; rfl
      rw [h1, component_pct]
      simp only [follow_cons (by decide : (37 : UInt8) ≠ 63)]
      constructor
      · rintro ⟨a, b, t', rfl, ha, hb, h, _, h3⟩
        rw [follow_cons (alnum_ne a ha).1, follow_cons (alnum_ne b hb).1]
        exact ⟨⟨a, b, t', rfl, ha, hb, h⟩, h3⟩
      · rintro ⟨⟨a, b, t', rfl, ha, hb, h⟩, h3⟩
        rw [follow_cons (alnum_ne a ha).1, follow_cons (alnum_ne b hb).1] at h3
        exact ⟨a, b, t', rfl, ha, hb, h, fun _ _ _ => trivial, h3⟩
    · rw [component_char h37]
      have h1 : qStep q c = if isPchar c then some .plain else none := by
        rcases hq with rfl | rfl <;> simp [qStep, h37]
      by_cases hp : isPchar c = true
      · simp only [h1, hp, if_true, Option.some.injEq, exists_eq_left', true_and]
        rw [accQ_iff _ _ (by simp), follow_cons (pchar_ne c hp).1]
        simp only [QSpec, Tail]
        constructor
        · rintro ⟨a, _, b⟩; exact ⟨a, b⟩
        · rintro ⟨a, b⟩; exact ⟨a, fun _ _ _ => trivial, b⟩
      · simp [h1, hp]

/-! ## RFC 8141 identifiers -/

/-- Does the scanner accept from here? -/
def acc8 (q : N8) (w : Bytes) : Prop := ∃ q', steps nid8Step q w = some q' ∧ q'.canEnd = true

theorem acc8_cons {q : N8} {c : UInt8} {w : Bytes} : acc8 q (c :: w) ↔ ∃ q', nid8Step q c = some q' ∧ acc8 q' w := by
  simp only [acc8, steps_cons]
  cases nid8Step q c <;> simp

theorem acc8_nil {q : N8} : acc8 q [] ↔ q.canEnd = true := by simp [acc8, steps]

/-- The rest of an identifier of which `k` characters have been read; `e` says whether it may be
empty. -/
def Rest8 (e : Prop) (k : Nat) (w : Bytes) : Prop :=
  (∀ c ∈ w, isNidChar c = true) ∧ k + w.length ≤ 32 ∧ (w = [] → e) ∧ w.getLast? ≠ some 45

theorem getLast_cons_ne {c : UInt8} {t : Bytes} : (c :: t).getLast? ≠ some 45 ↔ (t = [] → c ≠ 45) ∧ t.getLast? ≠ some 45 := by
  cases t with
  | nil => simp
  | cons d t => simp [List.getLast?_cons_cons]

theorem rest8_dash {e : Prop} {k : Nat} {t : Bytes} : Rest8 e k (45 :: t) ↔ Rest8 False (k + 1) t := by
  simp only [Rest8, List.mem_cons, forall_eq_or_imp, show isNidChar 45 = true by decide, true_and, List.length_cons,
    getLast_cons_ne, ne_eq, not_true, imp_false, reduceCtorEq]
  constructor
  · rintro ⟨a, b, _, c, d⟩; exact ⟨a, by omega, c, d⟩
  · rintro ⟨a, b, c, d⟩; exact ⟨a, by omega, False.elim, c, d⟩

theorem rest8_char {e e' : Prop} {k : Nat} {c : UInt8} {t : Bytes} (hc : c ≠ 45) (he : e') :
    Rest8 e k (c :: t) ↔ isAlnum c = true ∧ Rest8 e' (k + 1) t := by
  have h1 : isNidChar c = true ↔ isAlnum c = true :=
    ⟨fun h => alnum_of_nid c h hc, nid_of_alnum c⟩
  simp only [Rest8, List.mem_cons, forall_eq_or_imp, h1, List.length_cons,
    getLast_cons_ne, ne_eq, hc, not_false_eq_true, implies_true, true_and, reduceCtorEq]
  constructor
  · rintro ⟨⟨a, a'⟩, b, _, d⟩; exact ⟨a, a', by omega, fun _ => he, d⟩
  · rintro ⟨a, a', b, c, d⟩; exact ⟨⟨a, a'⟩, by omega, False.elim, d⟩

theorem acc8_tail {i : Bool} (w : Bytes) : ∀ k, 1 ≤ k → k ≤ 32 →
    (acc8 (.al i k) w ↔ Rest8 (2 ≤ k) k w) ∧ (acc8 (.da i k) w ↔ Rest8 False k w) := by
  induction w with
  | nil => intro k h1 h2; simp [acc8_nil, N8.canEnd, Rest8, h2]
  | cons c t ih =>
    intro k h1 h2
    have key : ∀ e : Prop, ((∃ q', (if c = 45 then (if k < 31 then some (N8.da i (k + 1)) else none)
        else if isAlnum c ∧ k < 32 then some (.al i (k + 1)) else none) = some q' ∧ acc8 q' t) ↔ Rest8 e k (c :: t)) := by
      intro e
      by_cases hc : c = 45
      · subst hc
        rw [rest8_dash]
        by_cases hk : k < 31
        · simp only [hk, if_true, Option.some.injEq, exists_eq_left']
          exact (ih (k + 1) (by omega) (by omega)).2
        · simp only [hk, if_true, if_false, reduceCtorEq, false_and, exists_false, false_iff]
          rintro ⟨_, h, h', _⟩
          have : t = [] := by cases t with | nil => rfl | cons _ _ => simp at h; omega
          exact h' this
      · rw [rest8_char hc (by omega : 2 ≤ k + 1)]
        by_cases ha : isAlnum c = true ∧ k < 32
        · simp only [hc, if_false, ha, and_self, if_true, Option.some.injEq, exists_eq_left', true_and]
          exact (ih (k + 1) (by omega) (by omega)).1
        · simp only [hc, if_false, ha, reduceCtorEq, false_and, exists_false, false_iff]
          rintro ⟨h, _, h', _⟩
          exact ha ⟨h, by omega⟩
    constructor
    · rw [acc8_cons]; exact key _
    · rw [acc8_cons]; exact key _

/-- `urn-` is followed by a letter or `0`. -/
def BadInf (x : UInt8) : Prop := isAlpha x = true ∨ x = 48

theorem badInf_iff : ∀ x : UInt8, isAlnum x = true → (BadInf x ↔ ¬ (isDigit x = true ∧ x ≠ 48)) := by
  unfold BadInf
  exact forall_byte (by decide +kernel)

theorem digit_alnum : ∀ x : UInt8, isDigit x = true → isAlnum x = true ∧ x ≠ 45 := forall_byte (by decide +kernel)

theorem badInf_alnum : ∀ x : UInt8, BadInf x → isAlnum x = true ∧ x ≠ 45 := by
  unfold BadInf
  exact forall_byte (by decide +kernel)

theorem acc8_u4 (t : Bytes) : acc8 .u4 t ↔ Rest8 False 4 t ∧ ¬ ∃ x t', t = x :: t' ∧ BadInf x := by
  cases t with
  | nil => simp [acc8_nil, N8.canEnd, Rest8]
  | cons c t =>
    rw [acc8_cons]
    simp only [nid8Step]
    have hbad : (¬ ∃ x t', c :: t = x :: t' ∧ BadInf x) ↔ ¬ BadInf c := by
      constructor
      · intro h hb; exact h ⟨c, t, rfl, hb⟩
      · rintro h ⟨x, t', e, hb⟩; simp at e; rw [e.1] at h; exact h hb
    rw [hbad]
    by_cases hc : c = 45
    · subst hc
      rw [rest8_dash]
      simp only [if_true, Option.some.injEq, exists_eq_left']
      rw [(acc8_tail t 5 (by omega) (by omega)).2]
      have : ¬ BadInf 45 := by unfold BadInf; decide
      simp [this]
    · rw [rest8_char hc (by omega : 2 ≤ 5)]
      by_cases hd : isDigit c = true ∧ c ≠ 48
      · simp only [hc, if_false, hd, and_self, ne_eq, not_false_eq_true, if_true, Option.some.injEq, exists_eq_left']
        rw [(acc8_tail t 5 (by omega) (by omega)).1]
        have ha := (digit_alnum c hd.1).1
        have hb : ¬ BadInf c := by rw [badInf_iff c ha]; exact not_not_intro hd
        simp [ha, hb]
      · simp only [hc, if_false, hd, reduceCtorEq, false_and, exists_false, false_iff]
        rintro ⟨⟨ha, _⟩, hb⟩
        rw [badInf_iff c ha] at hb
        exact hb hd

theorem acc8_u3 (t : Bytes) : acc8 .u3 t ↔ Rest8 True 3 t ∧ ¬ ∃ x t', t = 45 :: x :: t' ∧ BadInf x := by
  cases t with
  | nil => simp [acc8_nil, N8.canEnd, Rest8]
  | cons c t =>
    rw [acc8_cons]
    simp only [nid8Step]
    by_cases hc : c = 45
    · subst hc
      rw [rest8_dash]
      simp only [if_true, Option.some.injEq, exists_eq_left']
      rw [acc8_u4]
      simp
    · rw [rest8_char hc (by omega : 2 ≤ 4)]
      have : ¬ ∃ x t', c :: t = 45 :: x :: t' ∧ BadInf x := by
        rintro ⟨x, t', e, _⟩; simp at e; exact hc e.1
      simp only [hc, if_false, this, not_false_eq_true, and_true]
      by_cases ha : isAlnum c = true
      · simp only [ha, if_true, Option.some.injEq, exists_eq_left', true_and]
        exact (acc8_tail t 4 (by omega) (by omega)).1
      · simp [ha]

theorem acc8_u2 (t : Bytes) : acc8 .u2 t ↔
    Rest8 True 2 t ∧ ¬ ∃ n x t', t = n :: 45 :: x :: t' ∧ lower n = 110 ∧ BadInf x := by
  cases t with
  | nil => simp [acc8_nil, N8.canEnd, Rest8]
  | cons c t =>
    rw [acc8_cons]
    simp only [nid8Step]
    by_cases hc : c = 45
    · subst hc
      rw [rest8_dash]
      simp only [if_true, Option.some.injEq, exists_eq_left']
      rw [(acc8_tail t 3 (by omega) (by omega)).2]
      have : ¬ ∃ n x t', 45 :: t = n :: 45 :: x :: t' ∧ lower n = 110 ∧ BadInf x := by
        rintro ⟨n, x, t', e, h, _⟩; simp at e; rw [← e.1] at h; revert h; decide
      simp only [this, not_false_eq_true, and_true]
    · rw [rest8_char hc (trivial : True)]
      by_cases ha : isAlnum c = true
      · by_cases hn : lower c = 110
        · simp only [hc, if_false, ha, hn, if_true, Option.some.injEq, exists_eq_left', true_and]
          rw [acc8_u3]
          constructor
          · rintro ⟨h1, h2⟩
            refine ⟨h1, ?_⟩
            rintro ⟨n, x, t', e, _, hb⟩; simp at e; exact h2 ⟨x, t', e.2, hb⟩
          · rintro ⟨h1, h2⟩
            refine ⟨h1, ?_⟩
            rintro ⟨x, t', e, hb⟩; exact h2 ⟨c, x, t', by rw [e], hn, hb⟩
        · simp only [hc, if_false, ha, hn, if_true, Option.some.injEq, exists_eq_left', true_and]
          rw [(acc8_tail t 3 (by omega) (by omega)).1]
          have : ¬ ∃ n x t', c :: t = n :: 45 :: x :: t' ∧ lower n = 110 ∧ BadInf x := by
            rintro ⟨n, x, t', e, h, _⟩; simp at e; rw [← e.1] at h; exact hn h
          simp only [this, not_false_eq_true, and_true]
          simp [Rest8]
      · simp [hc, ha]

theorem acc8_u1 (t : Bytes) : acc8 .u1 t ↔
    Rest8 False 1 t ∧ ¬ ∃ r n x t', t = r :: n :: 45 :: x :: t' ∧ lower r = 114 ∧ lower n = 110 ∧ BadInf x := by
  cases t with
  | nil => simp [acc8_nil, N8.canEnd, Rest8]
  | cons c t =>
    rw [acc8_cons]
    simp only [nid8Step]
    by_cases hc : c = 45
    · subst hc
      rw [rest8_dash]
      simp only [if_true, Option.some.injEq, exists_eq_left']
      rw [(acc8_tail t 2 (by omega) (by omega)).2]
      have : ¬ ∃ r n x t', 45 :: t = r :: n :: 45 :: x :: t' ∧ lower r = 114 ∧ lower n = 110 ∧ BadInf x := by
        rintro ⟨n, _, x, t', e, h, _⟩; simp at e; rw [← e.1] at h; revert h; decide
      simp only [this, not_false_eq_true, and_true]
    · rw [rest8_char hc (trivial : True)]
      by_cases ha : isAlnum c = true
      · by_cases hn : lower c = 114
        · simp only [hc, if_false, ha, hn, if_true, Option.some.injEq, exists_eq_left', true_and]
          rw [acc8_u2]
          constructor
          · rintro ⟨h1, h2⟩
            refine ⟨h1, ?_⟩
            rintro ⟨r, n, x, t', e, _, hb⟩; simp at e; exact h2 ⟨n, x, t', e.2, hb⟩
          · rintro ⟨h1, h2⟩
            refine ⟨h1, ?_⟩
            rintro ⟨n, x, t', e, hb⟩; exact h2 ⟨c, n, x, t', by rw [e], hn, hb⟩
        · simp only [hc, if_false, ha, hn, if_true, Option.some.injEq, exists_eq_left', true_and]
          rw [(acc8_tail t 2 (by omega) (by omega)).1]
          have : ¬ ∃ r n x t', c :: t = r :: n :: 45 :: x :: t' ∧ lower r = 114 ∧ lower n = 110 ∧ BadInf x := by
            rintro ⟨n, _, x, t', e, h, _⟩; simp at e; rw [← e.1] at h; exact hn h
          simp only [this, not_false_eq_true, and_true]
          simp [Rest8]
      · simp [hc, ha]

theorem informal_iff {w : Bytes} : (∃ p x t, w = p ++ 45 :: x :: t ∧ IsUrn p ∧ (isAlpha x = true ∨ x = 48)) ↔
    ∃ u r n x t, w = u :: r :: n :: 45 :: x :: t ∧ lower u = 117 ∧ lower r = 114 ∧ lower n = 110 ∧ BadInf x := by
  constructor
  · rintro ⟨p, x, t, rfl, hp, hx⟩
    obtain ⟨a, b, c, rfl, h1, h2, h3⟩ := isUrn_iff.mp hp
    exact ⟨a, b, c, x, t, rfl, h1, h2, h3, hx⟩
  · rintro ⟨u, r, n, x, t, rfl, h1, h2, h3, hx⟩
    exact ⟨[u, r, n], x, t, rfl, isUrn_iff.mpr ⟨u, r, n, rfl, h1, h2, h3⟩, hx⟩

theorem acc8_iff {w : Bytes} : acc8 .start w ↔ Nid8141 w := by
  have hN : Nid8141 w ↔ (∀ c ∈ w, isNidChar c = true) ∧ w.length ≤ 32 ∧ 2 ≤ w.length ∧ w.head? ≠ some 45 ∧ w.getLast? ≠ some 45 ∧
      ¬ ∃ p x t, w = p ++ 45 :: x :: t ∧ IsUrn p ∧ (isAlpha x = true ∨ x = 48) :=
    ⟨fun ⟨a, b, c, d, e, f⟩ => ⟨c, b, a, d, e, f⟩, fun ⟨c, b, a, d, e, f⟩ => ⟨a, b, c, d, e, f⟩⟩
  rw [hN, informal_iff]
  cases w with
  | nil => simp [acc8_nil, N8.canEnd]
  | cons c t =>
    rw [acc8_cons]
    simp only [nid8Step]
    by_cases ha : isAlnum c = true
    · have hc : c ≠ 45 := (alnum_ne c ha).2.2.2.2
      have hR : (∀ d ∈ c :: t, isNidChar d = true) ∧ (c :: t).length ≤ 32 ∧ 2 ≤ (c :: t).length ∧ (c :: t).head? ≠ some 45 ∧ (c :: t).getLast? ≠ some 45 ↔
          Rest8 False 1 t := by
        simp only [Rest8, List.mem_cons, forall_eq_or_imp, nid_of_alnum c ha, true_and, List.length_cons,
          getLast_cons_ne, ne_eq, hc, not_false_eq_true, implies_true, List.head?_cons, Option.some.injEq]
        constructor
        · rintro ⟨a, b, c, d⟩; exact ⟨a, by omega, fun h => by subst h; simp at c, d⟩
        · rintro ⟨a, b, c, d⟩; exact ⟨a, by omega, by cases t with | nil => exact absurd rfl c | cons _ _ => simp, d⟩
      have hR' : ∀ X : Prop, ((∀ d ∈ c :: t, isNidChar d = true) ∧ (c :: t).length ≤ 32 ∧ 2 ≤ (c :: t).length ∧ (c :: t).head? ≠ some 45 ∧ (c :: t).getLast? ≠ some 45 ∧ X ↔
          Rest8 False 1 t ∧ X) := by
        intro X; rw [← hR]; simp only [and_assoc]
      rw [hR']
      by_cases hu : lower c = 117
      · simp only [ha, hu, if_true, Option.some.injEq, exists_eq_left']
        rw [acc8_u1]
        constructor
        · rintro ⟨h1, h2⟩
          refine ⟨h1, ?_⟩
          rintro ⟨u, r, n, x, t', e, _, hb⟩; simp at e; exact h2 ⟨r, n, x, t', e.2, hb⟩
        · rintro ⟨h1, h2⟩
          refine ⟨h1, ?_⟩
          rintro ⟨r, n, x, t', e, hb⟩; exact h2 ⟨c, r, n, x, t', by rw [e], hu, hb⟩
      · simp only [ha, hu, if_true, if_false, Option.some.injEq, exists_eq_left']
        rw [(acc8_tail t 1 (by omega) (by omega)).1]
        have : ¬ ∃ u r n x t', c :: t = u :: r :: n :: 45 :: x :: t' ∧ lower u = 117 ∧ lower r = 114 ∧ lower n = 110 ∧ BadInf x := by
          rintro ⟨n, _, _, x, t', e, h, _⟩; simp at e; rw [← e.1] at h; exact hu h
        simp only [this, not_false_eq_true, and_true]
        simp [Rest8]
    · simp only [ha, if_false, reduceCtorEq, false_and, exists_false, false_iff, Bool.false_eq_true, List.mem_cons,
        forall_eq_or_imp, List.head?_cons, ne_eq, Option.some.injEq]
      rintro ⟨⟨h, _⟩, _, _, h', _⟩
      exact ha (alnum_of_nid c h h')

/-- Does the identifier start with `urn-`? -/
def startsUrn (w : Bytes) : Bool := decide (lowerAll (w.take 4) = lit "urn-")

theorem inf_tail {w : Bytes} : ∀ q q' : N8, steps nid8Step q w = some q' → (∃ i k, q = .al i k ∨ q = .da i k) → q'.inf = q.inf := by
  induction w with
  | nil => intro q q' h _; simp [steps] at h; rw [h]
  | cons c t ih =>
    rintro q q' h ⟨i, k, hq⟩
    simp only [steps_cons, Option.bind_eq_some_iff] at h
    obtain ⟨q1, h1, h2⟩ := h
    have : (∃ k', q1 = .al i k' ∨ q1 = .da i k') := by
      rcases hq with rfl | rfl <;> simp only [nid8Step] at h1 <;> (repeat' split at h1) <;>
        simp only [Option.some.injEq, reduceCtorEq] at h1 <;> subst h1 <;> exact ⟨k + 1, by simp⟩
    obtain ⟨k', hk⟩ := this
    have := ih q1 q' h2 ⟨i, k', hk⟩
    rw [this]
    rcases hk with rfl | rfl <;> rcases hq with rfl | rfl <;> rfl

theorem startsUrn_iff {w : Bytes} : startsUrn w = true ↔ ∃ p t, w = p ++ 45 :: t ∧ IsUrn p := by
  simp only [startsUrn, decide_eq_true_eq]
  constructor
  · intro h
    match w, h with
    | a :: b :: c :: d :: t, h =>
      simp [lowerAll, lit] at h
      refine ⟨[a, b, c], t, ?_, isUrn_iff.mpr ⟨a, b, c, rfl, h.1, h.2.1, h.2.2.1⟩⟩
      have := (lower_45 d).mp h.2.2.2
      subst this; rfl
    | [], h => simp [lowerAll, lit] at h
    | [_], h => simp [lowerAll, lit] at h
    | [_, _], h => simp [lowerAll, lit] at h
    | [_, _, _], h => simp [lowerAll, lit] at h
  · rintro ⟨p, t, rfl, hp⟩
    obtain ⟨a, b, c, rfl, h1, h2, h3⟩ := isUrn_iff.mp hp
    simp [lowerAll, lit, h1, h2, h3, show lower 45 = 45 from rfl]

/-- The flag of the scanner records whether the identifier starts with `urn-`. -/
theorem inf_iff {w : Bytes} {q : N8} (h : steps nid8Step .start w = some q) : q.inf = startsUrn w := by
  have key : ∀ {q0 : N8} {t : Bytes}, steps nid8Step q0 t = some q → (∃ i k, q0 = .al i k ∨ q0 = .da i k) →
      startsUrn w = q0.inf → q.inf = startsUrn w := by
    intro q0 t h1 h2 h3
    rw [inf_tail q0 q h1 h2, h3]
  have hfalse : (¬ ∃ p t, w = p ++ 45 :: t ∧ IsUrn p) → startsUrn w = false := by
    intro h
    rw [← startsUrn_iff] at h
    simpa using h
  have urnHead : ∀ {a b c d : UInt8} {t : Bytes}, ¬ (lower a = 117 ∧ lower b = 114 ∧ lower c = 110 ∧ d = 45) →
      w = a :: b :: c :: d :: t → startsUrn w = false := by
    intro a b c d t h hw
    apply hfalse
    rintro ⟨p, t', e, hp⟩
    obtain ⟨x, y, z, rfl, h1, h2, h3⟩ := isUrn_iff.mp hp
    rw [hw] at e
    simp at e
    obtain ⟨rfl, rfl, rfl, rfl, _⟩ := e
    exact h ⟨h1, h2, h3, rfl⟩
  have short : w.length < 4 → startsUrn w = false := by
    intro hl
    apply hfalse
    rintro ⟨p, t', e, hp⟩
    have := hp.length
    rw [e] at hl
    simp at hl
    omega
  have tailF : ∀ {q0 : N8} {t : Bytes}, steps nid8Step q0 t = some q → (∃ k, q0 = .al false k ∨ q0 = .da false k) →
      startsUrn w = false → q.inf = startsUrn w := by
    rintro q0 t h1 ⟨k, hk⟩ h3
    refine key h1 ⟨false, k, hk⟩ ?_
    rw [h3]; rcases hk with rfl | rfl <;> rfl
  have nu : ∀ {c : UInt8} {t : Bytes}, lower c ≠ 117 → w = c :: t → startsUrn w = false := by
    intro c t hc hw
    apply hfalse
    rintro ⟨p, t', e, hp⟩
    obtain ⟨x, y, z, rfl, h1, h2, h3⟩ := isUrn_iff.mp hp
    rw [hw] at e; simp at e; rw [← e.1] at h1; exact hc h1
  have nr : ∀ {c d : UInt8} {t : Bytes}, lower d ≠ 114 → w = c :: d :: t → startsUrn w = false := by
    intro c d t hc hw
    apply hfalse
    rintro ⟨p, t', e, hp⟩
    obtain ⟨x, y, z, rfl, h1, h2, h3⟩ := isUrn_iff.mp hp
    rw [hw] at e; simp at e; rw [← e.2.1] at h2; exact hc h2
  have nn : ∀ {c d f : UInt8} {t : Bytes}, lower f ≠ 110 → w = c :: d :: f :: t → startsUrn w = false := by
    intro c d f t hc hw
    apply hfalse
    rintro ⟨p, t', e, hp⟩
    obtain ⟨x, y, z, rfl, h1, h2, h3⟩ := isUrn_iff.mp hp
    rw [hw] at e; simp at e; rw [← e.2.2.1] at h3; exact hc h3
  have nd : ∀ {c d f g : UInt8} {t : Bytes}, g ≠ 45 → w = c :: d :: f :: g :: t → startsUrn w = false := by
    intro c d f g t hc hw
    exact urnHead (by simp [hc]) hw
  match w, h with
  | [], h => simp [steps] at h; subst h; rw [short (by simp)]; rfl
  | c :: t, h =>
    simp only [steps_cons, Option.bind_eq_some_iff] at h
    obtain ⟨q1, h1, h⟩ := h
    simp only [nid8Step] at h1
    split at h1
    rotate_left
    · simp at h1
    split at h1
    rotate_left
    · rename_i hu
      simp at h1; subst h1
      exact tailF h ⟨_, Or.inl rfl⟩ (nu hu rfl)
    rename_i hu
    simp at h1; subst h1
    match t, h with
    | [], h => simp [steps] at h; subst h; rw [short (by simp)]; rfl
    | d :: t, h =>
      simp only [steps_cons, Option.bind_eq_some_iff] at h
      obtain ⟨q1, h1, h⟩ := h
      simp only [nid8Step] at h1
      split at h1
      · rename_i hd
        simp at h1; subst h1
        exact tailF h ⟨_, Or.inr rfl⟩ (nr (by rw [hd]; decide) rfl)
      split at h1
      rotate_left
      · simp at h1
      split at h1
      rotate_left
      · rename_i hu
        simp at h1; subst h1
        exact tailF h ⟨_, Or.inl rfl⟩ (nr hu rfl)
      rename_i hr
      simp at h1; subst h1
      match t, h with
      | [], h => simp [steps] at h; subst h; rw [short (by simp)]; rfl
      | f :: t, h =>
        simp only [steps_cons, Option.bind_eq_some_iff] at h
        obtain ⟨q1, h1, h⟩ := h
        simp only [nid8Step] at h1
        split at h1
        · rename_i hd
          simp at h1; subst h1
          exact tailF h ⟨_, Or.inr rfl⟩ (nn (by rw [hd]; decide) rfl)
        split at h1
        rotate_left
        · simp at h1
        split at h1
        rotate_left
        · rename_i hu
          simp at h1; subst h1
          exact tailF h ⟨_, Or.inl rfl⟩ (nn hu rfl)
        rename_i hn
        simp at h1; subst h1
        match t, h with
        | [], h => simp [steps] at h; subst h; rw [short (by simp)]; rfl
        | g :: t, h =>
          simp only [steps_cons, Option.bind_eq_some_iff] at h
          obtain ⟨q1, h1, h⟩ := h
          simp only [nid8Step] at h1
          split at h1
          rotate_left
          · rename_i hd
            split at h1
            · simp at h1; subst h1
              exact tailF h ⟨_, Or.inl rfl⟩ (nd hd rfl)
            · simp at h1
          rename_i hd
          subst hd
          have hs : startsUrn (c :: d :: f :: 45 :: t) = true :=
            startsUrn_iff.mpr ⟨[c, d, f], t, rfl, isUrn_iff.mpr ⟨c, d, f, rfl, hu, hr, hn⟩⟩
          rw [hs]
          simp at h1; subst h1
          match t, h with
          | [], h => simp [steps] at h; subst h; rfl
          | x :: t, h =>
            simp only [steps_cons, Option.bind_eq_some_iff] at h
            obtain ⟨q1, h1, h⟩ := h
            simp only [nid8Step] at h1
            (repeat' split at h1) <;> simp only [Option.some.injEq, reduceCtorEq] at h1 <;> subst h1
            · rw [inf_tail _ q h ⟨true, 5, Or.inr rfl⟩]; rfl
            · rw [inf_tail _ q h ⟨true, 5, Or.inl rfl⟩]; rfl

theorem nid8_colon (q : N8) : nid8Step q 58 = none := by
  have h1 : isAlnum 58 = false := by decide
  have h2 : isDigit 58 = false := by decide
  cases q <;> simp [nid8Step, h1, h2]

end Urn
