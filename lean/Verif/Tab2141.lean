import Verif.RunPrefix
/-!
# Transition tables of the RFC 2141 automaton
-/
namespace Urn
open Tables Spec

variable {m0 : Machine} {s : Bytes}

/-! ## Tables -/

/-- States of the identifier. -/
def N2.enc : N2 → Nat
  | .start => 5
  | .chars k => 5 + k
  | .u1 => 41
  | .u2 => 42
  | .u3 => 43

/-- The scanner states that occur. -/
def N2.wf : N2 → Bool
  | .chars k => decide (1 ≤ k ∧ k ≤ 32)
  | _ => true

/-- Expected transitions of the identifier. -/
def nid2Row (q : N2) (c : UInt8) : Nat × List Act :=
  match nid2Step q c with
  | some q' => (q'.enc, if q = .start then (if lower c = 117 then [.mark, .throwPreUrnErr] else [.mark]) else [])
  | none =>
    if c = 58 ∧ q.canEnd then (38, [.setNid])
    else (0, match q with
      | .chars _ => [.errNid]
      | .u3 => [.errNid, .errUrn]
      | _ => [.errNid, .errPre])

theorem nid2Tab_chars : ∀ k : Fin 32, ∀ c : Fin 256,
    tab (5 + (k + 1)) (UInt8.ofFin c) = nid2Row (.chars (k + 1)) (UInt8.ofFin c) := by
  rw [tab_eq]; decide +kernel

theorem nid2Tab (q : N2) (hq : q.wf) (c : UInt8) : tab q.enc c = nid2Row q c := by
  cases q with
  | chars k =>
    simp only [N2.wf, decide_eq_true_eq] at hq
    have := nid2Tab_chars ⟨k - 1, by omega⟩ c.toFin
    simp only [show k - 1 + 1 = k by omega] at this
    exact this
  | start => exact forall_byte (P := fun c => tab N2.start.enc c = nid2Row .start c) (by rw [tab_eq]; decide +kernel) c
  | u1 => exact forall_byte (P := fun c => tab N2.u1.enc c = nid2Row .u1 c) (by rw [tab_eq]; decide +kernel) c
  | u2 => exact forall_byte (P := fun c => tab N2.u2.enc c = nid2Row .u2 c) (by rw [tab_eq]; decide +kernel) c
  | u3 => exact forall_byte (P := fun c => tab N2.u3.enc c = nid2Row .u3 c) (by rw [tab_eq]; decide +kernel) c

theorem nid2Eof_chars : ∀ k : Fin 32, eofTab (5 + (k + 1)) = some [.errNid] ∧
    toStateActions[5 + ((k : Nat) + 1)]? = some 0 := by decide +kernel

theorem nid2Eof (q : N2) (hq : q.wf) : ∃ as, eofTab q.enc = some (.errNid :: as) := by
  cases q with
  | chars k =>
    simp only [N2.wf, decide_eq_true_eq] at hq
    have := (nid2Eof_chars ⟨k - 1, by omega⟩).1
    simp only [show k - 1 + 1 = k by omega] at this
    exact ⟨_, this⟩
  | start => exact ⟨_, rfl⟩
  | u1 => exact ⟨_, rfl⟩
  | u2 => exact ⟨_, rfl⟩
  | u3 => exact ⟨_, rfl⟩

theorem nid2State (q : N2) (hq : q.wf) : q.enc ≠ 0 ∧ toStateActions[q.enc]? = some 0 := by
  cases q with
  | chars k =>
    simp only [N2.wf, decide_eq_true_eq] at hq
    have := (nid2Eof_chars ⟨k - 1, by omega⟩).2
    simp only [show k - 1 + 1 = k by omega] at this
    exact ⟨by simp only [N2.enc]; omega, this⟩
  | start => decide
  | u1 => decide
  | u2 => decide
  | u3 => decide

theorem nid2_wf_step {q q' : N2} {c : UInt8} (hq : q.wf) (h : nid2Step q c = some q') : q'.wf := by
  cases q <;> simp only [nid2Step] at h
  case chars k =>
    split at h
    · injection h with h; subst h
      simp only [N2.wf, decide_eq_true_eq] at hq ⊢
      omega
    · simp at h
  all_goals
    split at h
    · try split at h
      all_goals (injection h with h; subst h; rfl)
    · simp at h

theorem nid2_ne_start {q q' : N2} {c : UInt8} (h : nid2Step q c = some q') : q' ≠ .start := by
  rintro rfl
  cases q <;> simp only [nid2Step] at h
  all_goals
    split at h
    · try split at h
      all_goals simp at h
    · simp at h

/-- States of the specific string. -/
def nss2Enc : Nss → Nat
  | .start => 38
  | .plain => 172
  | .ah => 173
  | .h1 => 39
  | .h2 => 40

theorem nss2Tab : NssTab isSss isSss [.mark] nss2Enc :=
  nssTab_of (by intro q; cases q <;> decide +kernel)

/-- Actions on a byte the scanner rejects, and at the end of the input when it may not end. -/
def nss2Err : Nss → List Act
  | .start | .plain => [.errNss]
  | _ => [.errHex, .errNss]

theorem nss2Bad (q : Nss) (c : UInt8) (h : nssStep isSss isSss q c = none) :
    tab (nss2Enc q) c = (0, nss2Err q) := by
  have : ∀ q, ∀ c : UInt8, nssStep isSss isSss q c = none → tab (nss2Enc q) c = (0, nss2Err q) := by
    intro q; cases q <;> exact forall_byte (by rw [tab_eq]; decide +kernel)
  exact this q c h

theorem nss2Eof : ∀ q, eofTab (nss2Enc q) = some (if q.ok then [.setNss, .baseType] else nss2Err q) := by
  intro q; cases q <;> rfl

theorem nss2Raise {q : Nss} {cs p : Nat} {pb : Int} {o : URN} :
    Raises m0 s (nss2Err q) cs p pb o ⟨nssErr (flagsOf m0.parsingMode).hx .specificString q, p⟩ := by
  cases q
  case start => exact raises_of (fun _ _ => rfl)
  case plain => exact raises_of (fun _ _ => rfl)
  all_goals exact raises_hex (fun _ => raises_of (fun _ _ => rfl))

end Urn
