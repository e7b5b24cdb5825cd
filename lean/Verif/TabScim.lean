import Verif.RunPrefix
/-!
# Transition tables of the RFC 7643 (SCIM) automaton
-/
namespace Urn
open Tables Spec

/-- The tables follow the literal `w` through the states `enc`, with actions `acts`, and do
`err` on any other byte (in the states from number `from_` on). -/
def LitTab (w : Bytes) (enc : Nat → Nat) (acts : Nat → List Act) (err : List Act) (from_ : Nat) : Prop :=
  (∀ i < w.length, ∀ c, w[i]? = some c → tab (enc i) c = (enc (i + 1), acts i)) ∧
  (∀ i < w.length, from_ ≤ i → ∀ c, w[i]? ≠ some c → tab (enc i) c = (0, err)) ∧
  (∀ i < w.length, eofTab (enc i) = some err) ∧
  (∀ i < w.length + 1, enc i ≠ 0 ∧ toStateActions[enc i]? = some 0)

theorem litTab_of {n : Nat} {w : Bytes} {enc acts err from_} (hn : w.length = n)
    (h1 : ∀ i : Fin n, ∀ c : Fin 256,
      if w[(i : Nat)]? = some (UInt8.ofFin c) then tab (enc i) (UInt8.ofFin c) = (enc (i + 1), acts i)
      else from_ ≤ (i : Nat) → tab (enc i) (UInt8.ofFin c) = (0, err))
    (h2 : ∀ i : Fin n, eofTab (enc i) = some err)
    (h3 : ∀ i : Fin (n + 1), enc i ≠ 0 ∧ toStateActions[enc i]? = some 0) :
    LitTab w enc acts err from_ := by
  subst hn
  refine ⟨fun i hi c hc => ?_, fun i hi hf c hc => ?_, fun i hi => h2 ⟨i, hi⟩, fun i hi => h3 ⟨i, hi⟩⟩
  · have := h1 ⟨i, hi⟩ c.toFin
    rw [show UInt8.ofFin c.toFin = c from rfl, if_pos hc] at this
    exact this
  · have := h1 ⟨i, hi⟩ c.toFin
    rw [show UInt8.ofFin c.toFin = c from rfl, if_neg hc] at this
    exact this hf

/-- Actions of the namespace. -/
def nsActs (i : Nat) : List Act :=
  if i = 0 then [.mark] else if i = 16 then [.setNid, .createScim] else []

theorem nsTab : LitTab (lit "ietf:params:scim:") (fun i => 48 + i) nsActs [.errScimNid] 0 := by
  rw [show lit "ietf:params:scim:" = [105, 101, 116, 102, 58, 112, 97, 114, 97, 109, 115, 58, 115, 99, 105, 109, 58] by decide]
  exact litTab_of (n := 17) rfl (by rw [tab_eq]; decide +kernel) (by decide +kernel) (by decide +kernel)

/-- Actions of the types. -/
def kwActs (n i : Nat) : List Act :=
  if i = 0 then [.mark] else if i = n then [.setScimType] else []

/-- States of the type `api`. -/
def apiEnc (i : Nat) : Nat := [65, 66, 67, 68, 69].getD i 0
/-- States of the type `param`. -/
def paramEnc (i : Nat) : Nat := [65, 73, 74, 75, 76, 68, 69].getD i 0
/-- States of the type `schemas`. -/
def schemasEnc (i : Nat) : Nat := [65, 77, 78, 79, 80, 81, 82, 68, 69].getD i 0

theorem apiTab : LitTab (lit "api" ++ lit ":") apiEnc (kwActs 3) [.errScimType] 1 := by
  rw [show lit "api" ++ lit ":" = [97, 112, 105, 58] by decide]
  exact litTab_of (n := 4) rfl (by rw [tab_eq]; decide +kernel) (by decide +kernel) (by decide +kernel)
theorem paramTab : LitTab (lit "param" ++ lit ":") paramEnc (kwActs 5) [.errScimType] 1 := by
  rw [show lit "param" ++ lit ":" = [112, 97, 114, 97, 109, 58] by decide]
  exact litTab_of (n := 6) rfl (by rw [tab_eq]; decide +kernel) (by decide +kernel) (by decide +kernel)
theorem schemasTab : LitTab (lit "schemas" ++ lit ":") schemasEnc (kwActs 7) [.errScimType] 1 := by
  rw [show lit "schemas" ++ lit ":" = [115, 99, 104, 101, 109, 97, 115, 58] by decide]
  exact litTab_of (n := 8) rfl (by rw [tab_eq]; decide +kernel) (by decide +kernel) (by decide +kernel)

theorem kwBad (c : UInt8) (h : kwOf c = none) : tab 65 c = (0, [.errScimType]) := by
  have : ∀ c : UInt8, kwOf c = none → tab 65 c = (0, [.errScimType]) := forall_byte (by rw [tab_eq]; decide +kernel)
  exact this c h

/-- States of the name. -/
def nameEnc : Bool → Nat
  | false => 69
  | true => 174

theorem nameTab (q : Bool) (c : UInt8) : tab (nameEnc q) c =
    if isAlnum c then (174, if q then [] else [.markScim])
    else if c = 58 ∧ q then (70, [.setScimName]) else (0, [.errScimName]) := by
  cases q
  · exact forall_byte (P := fun c => tab (nameEnc false) c =
      if isAlnum c then (174, if false then [] else [.markScim])
      else if c = 58 ∧ false then (70, [.setScimName]) else (0, [.errScimName])) (by rw [tab_eq]; decide +kernel) c
  · exact forall_byte (P := fun c => tab (nameEnc true) c =
      if isAlnum c then (174, if true then [] else [.markScim])
      else if c = 58 ∧ true then (70, [.setScimName]) else (0, [.errScimName])) (by rw [tab_eq]; decide +kernel) c

/-- States of the last part. -/
def otherEnc : Nss → Nat
  | .start => 70
  | .plain => 175
  | .ah => 176
  | .h1 => 71
  | .h2 => 72

theorem otherTab : NssTab isSss isSss [.markScim] otherEnc :=
  nssTab_of (by intro q; cases q <;> decide +kernel)

/-- Actions on errors. -/
def otherErr : Nss → List Act
  | .start | .plain => [.errScimOther]
  | _ => [.errHex, .errScimOther]

theorem otherBad (q : Nss) (c : UInt8) (h : nssStep isSss isSss q c = none) :
    tab (otherEnc q) c = (0, otherErr q) := by
  have : ∀ q, ∀ c : UInt8, nssStep isSss isSss q c = none → tab (otherEnc q) c = (0, otherErr q) := by
    intro q; cases q <;> exact forall_byte (by rw [tab_eq]; decide +kernel)
  exact this q c h

theorem otherEof : ∀ q, eofTab (otherEnc q) =
    some (if q.ok then [.setScimOther, .setNss, .scimType] else otherErr q) := by
  intro q; cases q <;> rfl

theorem otherFinal : ∀ q : Nss, q.ok = true → 172 ≤ otherEnc q ∧ otherEnc q ≠ 193 := by
  intro q; cases q <;> decide

end Urn
