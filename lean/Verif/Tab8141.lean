import Verif.RunPrefix
/-!
# Transition tables of the RFC 8141 automaton
-/
namespace Urn
open Tables Spec

/-! ## Identifier -/

/-- States of the identifier. -/
def N8.enc : N8 → Nat
  | .start => 87
  | .al _ k => if k = 1 then 88 else if k = 32 then 119 else 168 - k
  | .da _ k => 87 + k
  | .u1 => 167
  | .u2 => 168
  | .u3 => 169
  | .u4 => 170

/-- The scanner states that occur. -/
def N8.wf : N8 → Bool
  | .al _ k => decide (1 ≤ k ∧ k ≤ 32)
  | .da _ k => decide (2 ≤ k ∧ k ≤ 31)
  | _ => true

/-- Actions on errors. -/
def nid8Err : N8 → List Act
  | .start | .u1 | .u2 => [.errNid8141, .errPre]
  | _ => [.errNid8141]

/-- Expected transitions of the identifier. -/
def nid8Row (q : N8) (c : UInt8) : Nat × List Act :=
  match nid8Step q c with
  | some q' => (q'.enc,
      match q with
      | .start => if lower c = 117 then [.mark, .throwPreUrnErr] else [.mark]
      | .u3 => if c = 45 then [.setPre] else []
      | _ => [])
  | none =>
    if c = 58 ∧ q.canEnd then (120, [.setNid])
    else if q = .u4 ∧ isAlnum c then (171, [])
    else (0, nid8Err q)

theorem nid8Tab_al : ∀ k : Fin 32, ∀ c : Fin 256,
    tab (N8.al false (k + 1)).enc (UInt8.ofFin c) = nid8Row (.al false (k + 1)) (UInt8.ofFin c) := by
  rw [tab_eq]; decide +kernel

theorem nid8Tab_da : ∀ k : Fin 30, ∀ c : Fin 256,
    tab (N8.da false (k + 2)).enc (UInt8.ofFin c) = nid8Row (.da false (k + 2)) (UInt8.ofFin c) := by
  rw [tab_eq]; decide +kernel

/-- The flag of the scanner has no influence on the transitions. -/
theorem nid8Row_al (i : Bool) (k : Nat) (c : UInt8) : nid8Row (.al i k) c = nid8Row (.al false k) c := by
  by_cases h1 : c = 45 <;> by_cases h2 : k < 31 <;> by_cases h3 : isAlnum c = true ∧ k < 32 <;>
    simp only [nid8Row, nid8Step, h1, h2, h3, if_true, if_false, reduceCtorEq, false_and] <;> rfl

theorem nid8Row_da (i : Bool) (k : Nat) (c : UInt8) : nid8Row (.da i k) c = nid8Row (.da false k) c := by
  by_cases h1 : c = 45 <;> by_cases h2 : k < 31 <;> by_cases h3 : isAlnum c = true ∧ k < 32 <;>
    simp only [nid8Row, nid8Step, h1, h2, h3, if_true, if_false, reduceCtorEq, false_and] <;> rfl

theorem nid8Tab (q : N8) (hq : q.wf) (c : UInt8) : tab q.enc c = nid8Row q c := by
  cases q with
  | al i k =>
    simp only [N8.wf, decide_eq_true_eq] at hq
    have := nid8Tab_al ⟨k - 1, by omega⟩ c.toFin
    simp only [show k - 1 + 1 = k by omega] at this
    rw [nid8Row_al]
    exact this
  | da i k =>
    simp only [N8.wf, decide_eq_true_eq] at hq
    have := nid8Tab_da ⟨k - 2, by omega⟩ c.toFin
    simp only [show k - 2 + 2 = k by omega] at this
    rw [nid8Row_da]
    exact this
  | start => exact forall_byte (P := fun c => tab N8.start.enc c = nid8Row .start c) (by rw [tab_eq]; decide +kernel) c
  | u1 => exact forall_byte (P := fun c => tab N8.u1.enc c = nid8Row .u1 c) (by rw [tab_eq]; decide +kernel) c
  | u2 => exact forall_byte (P := fun c => tab N8.u2.enc c = nid8Row .u2 c) (by rw [tab_eq]; decide +kernel) c
  | u3 => exact forall_byte (P := fun c => tab N8.u3.enc c = nid8Row .u3 c) (by rw [tab_eq]; decide +kernel) c
  | u4 => exact forall_byte (P := fun c => tab N8.u4.enc c = nid8Row .u4 c) (by rw [tab_eq]; decide +kernel) c

theorem nid8Eof_al : ∀ k : Fin 32, eofTab (N8.al false (k + 1)).enc = some [.errNid8141] ∧
    (N8.al false (k + 1)).enc ≠ 0 ∧ toStateActions[(N8.al false (k + 1)).enc]? = some 0 := by decide +kernel

theorem nid8Eof_da : ∀ k : Fin 30, eofTab (N8.da false (k + 2)).enc = some [.errNid8141] ∧
    (N8.da false (k + 2)).enc ≠ 0 ∧ toStateActions[(N8.da false (k + 2)).enc]? = some 0 := by decide +kernel

theorem nid8Eof (q : N8) (hq : q.wf) : (∃ as, eofTab q.enc = some (.errNid8141 :: as)) ∧
    q.enc ≠ 0 ∧ toStateActions[q.enc]? = some 0 := by
  cases q with
  | al i k =>
    simp only [N8.wf, decide_eq_true_eq] at hq
    have := nid8Eof_al ⟨k - 1, by omega⟩
    simp only [show k - 1 + 1 = k by omega] at this
    exact ⟨⟨_, this.1⟩, this.2⟩
  | da i k =>
    simp only [N8.wf, decide_eq_true_eq] at hq
    have := nid8Eof_da ⟨k - 2, by omega⟩
    simp only [show k - 2 + 2 = k by omega] at this
    exact ⟨⟨_, this.1⟩, this.2⟩
  | start => exact ⟨⟨_, rfl⟩, by decide⟩
  | u1 => exact ⟨⟨_, rfl⟩, by decide⟩
  | u2 => exact ⟨⟨_, rfl⟩, by decide⟩
  | u3 => exact ⟨⟨_, rfl⟩, by decide⟩
  | u4 => exact ⟨⟨_, rfl⟩, by decide⟩

end Urn
