import Verif.RunPrefix
/-!
# Transition tables of the RFC 8141 automaton: specific string and components
-/
namespace Urn
open Tables Spec

/-! ## Specific string -/

/-- States of the specific string. -/
def nss8Enc : Nss → Nat
  | .start => 120
  | .plain => 177
  | .ah => 181
  | .h1 => 123
  | .h2 => 124

theorem nss8Tab : NssTab isPchar isPcharSlash [.mark] nss8Enc :=
  nssTab_of (by intro q; cases q <;> decide +kernel)

/-- Actions on errors. -/
def nss8Err : Nss → List Act
  | .start | .plain => [.errNss8141]
  | _ => [.errHex, .errNss8141]

theorem nss8Bad (q : Nss) (c : UInt8) (h : nssStep isPchar isPcharSlash q c = none) :
    tab (nss8Enc q) c = if c = 35 ∧ q.ok then (178, [.setNss]) else if c = 63 ∧ q.ok then (125, [.setNss])
      else (0, nss8Err q) := by
  have : ∀ q, ∀ c : UInt8, nssStep isPchar isPcharSlash q c = none →
      tab (nss8Enc q) c = if c = 35 ∧ q.ok then (178, [.setNss]) else if c = 63 ∧ q.ok then (125, [.setNss])
        else (0, nss8Err q) := by
    intro q; cases q <;> exact forall_byte (by rw [tab_eq]; decide +kernel)
  exact this q c h

theorem nss8Eof : ∀ q, eofTab (nss8Enc q) = some (if q.ok then [.setNss, .rfc8141Type] else nss8Err q) := by
  intro q; cases q <;> rfl

theorem nss8Final : ∀ q : Nss, q.ok = true → 172 ≤ nss8Enc q ∧ nss8Enc q ≠ 193 := by
  intro q; cases q <;> decide

theorem rqTab (c : UInt8) : tab 125 c = if c = 43 then (126, []) else if c = 61 then (135, []) else (0, []) := by
  exact forall_byte (P := fun c => tab 125 c = if c = 43 then (126, []) else if c = 61 then (135, []) else (0, []))
    (by rw [tab_eq]; decide +kernel) c

/-! ## Fragment -/

/-- States of the fragment. -/
def fEnc : Nss → Nat
  | .start => 178
  | .plain => 179
  | .ah => 180
  | .h1 => 121
  | .h2 => 122

theorem fTab : NssTab isPcharSlashQ isPcharSlashQ [.mark] fEnc :=
  nssTab_of (by intro q; cases q <;> decide +kernel)

theorem fBad (q : Nss) (c : UInt8) (h : nssStep isPcharSlashQ isPcharSlashQ q c = none) :
    tab (fEnc q) c = (0, if q = .start ∨ q = .plain then [] else [.errHex]) := by
  have : ∀ q, ∀ c : UInt8, nssStep isPcharSlashQ isPcharSlashQ q c = none →
      tab (fEnc q) c = (0, if q = .start ∨ q = .plain then [] else [.errHex]) := by
    intro q; cases q <;> exact forall_byte (by rw [tab_eq]; decide +kernel)
  exact this q c h

theorem fEof : ∀ q, eofTab (fEnc q) = some (if q = .start then [.mark, .setFComponent, .rfc8141Type]
    else if q.ok then [.setFComponent, .rfc8141Type] else [.errHex]) := by
  intro q; cases q <;> rfl

/-! ## q-component -/

/-- States of the q-component. -/
def Q.enc : Q → Nat
  | .first => 135
  | .firstR => 186
  | .fh1 => 131
  | .fh2 => 132
  | .plain => 187
  | .ah => 188
  | .h1 => 129
  | .h2 => 130
  | .qm => 189
  | .qe => 190

/-- Escape position. -/
def Q.esc : Q → Esc
  | .h1 | .fh1 => .hex1
  | .h2 | .fh2 => .hex2
  | _ => .plain

/-- Is it one of the two initial states? -/
def Q.init : Q → Bool
  | .first | .firstR => true
  | _ => false

/-- Actions on errors. -/
def qErrActs : Q → List Act
  | .first | .plain | .qm | .qe => [.errMalformedQ]
  | .firstR => [.errMalformedR, .errMalformedQ]
  | .fh1 | .fh2 => [.errHex, .errMalformedR, .errMalformedQ]
  | .ah | .h1 | .h2 => [.errHex, .errMalformedQ]

/-- Expected transitions of the q-component (not for bytes rejected in the state shared with the
r-component). -/
def qRow (q : Q) (c : UInt8) : Nat × List Act :=
  match qStep q c with
  | some q' => (q'.enc, if q.init then [.markQStart, .mark]
      else if q.esc ≠ .plain ∧ isUpper c = true then [.tolower] else [])
  | none =>
    if c = 35 ∧ q.canEnd then (178, [.setQComponent])
    else if q = .first ∧ c = 63 then (136, [.markQStart, .mark])
    else if q = .qe ∧ startsAgain c then
      (if c = 35 then (178, [.markQStart, .setQComponent]) else if c = 63 then (189, [.markQStart])
       else if c = 37 then (129, [.markQStart]) else (187, [.markQStart]))
    else (0, qErrActs q)

theorem qTab (q : Q) (c : UInt8) (h : q ≠ .firstR ∨ qStep q c ≠ none) : tab q.enc c = qRow q c := by
  have : ∀ q : Q, ∀ c : UInt8, q ≠ .firstR ∨ qStep q c ≠ none → tab q.enc c = qRow q c := by
    intro q; cases q <;> exact forall_byte (by rw [tab_eq]; decide +kernel)
  exact this q c h

theorem qState (q : Q) : q.enc ≠ 0 ∧ toStateActions[q.enc]? = some 0 := by
  cases q <;> decide

theorem qEof (q : Q) (h : q ≠ .firstR) : eofTab q.enc = some (if q.canEnd then [.setQComponent, .rfc8141Type]
    else if q = .qe then [.markQStart, .setQComponent, .rfc8141Type] else qErrActs q) := by
  cases q <;> first | exact absurd rfl h | rfl

theorem qFinal : ∀ q : Q, q.canEnd = true → 172 ≤ q.enc ∧ q.enc ≠ 193 := by
  intro q; cases q <;> decide

theorem qqTab (c : UInt8) : tab 136 c = if c = 61 then (192, []) else (0, [.errMalformedQ]) := by
  exact forall_byte (P := fun c => tab 136 c = if c = 61 then (192, []) else (0, [.errMalformedQ]))
    (by rw [tab_eq]; decide +kernel) c

theorem qqeTab (c : UInt8) : ∃ t as, tab 192 c = (t, (if startsAgain c then .markQStart else .errMalformedQ) :: as) := by
  have : ∀ c : UInt8, (tab 192 c).2.head? = some (if startsAgain c then .markQStart else .errMalformedQ) :=
    forall_byte (by rw [tab_eq]; decide +kernel)
  have := this c
  rcases h : tab 192 c with ⟨t, l⟩
  rw [h] at this
  cases l with
  | nil => simp at this
  | cons a as =>
    simp only [List.head?_cons, Option.some.injEq] at this
    exact ⟨t, as, by rw [this]⟩

/-! ## r-component -/

/-- States of the r-component. -/
def R.enc : R → Nat
  | .first => 126
  | .plain => 182
  | .ah => 183
  | .h1 => 127
  | .h2 => 128
  | .qm => 184
  | .qp => 185
  | .qe => 186

/-- Escape position. -/
def R.esc : R → Esc
  | .h1 => .hex1
  | .h2 => .hex2
  | _ => .plain

/-- Actions on errors. -/
def rErrActs : R → List Act
  | .first | .plain | .qm | .qp => [.errMalformedR]
  | .qe => [.errMalformedR, .errMalformedQ]
  | .ah | .h1 | .h2 => [.errHex, .errMalformedR]

/-- Expected transitions of the r-component. -/
def rRow (q : R) (c : UInt8) : Nat × List Act :=
  match rStep q c with
  | some q' => (q'.enc, if q = .first then [.markRStart, .mark]
      else if q' = .qm then [.setRComponent]
      else if q.esc ≠ .plain ∧ isUpper c = true then [.tolower] else [])
  | none =>
    if c = 35 ∧ q.canEnd then (178, [.setRComponent])
    else if q = .first ∧ c = 63 then (133, [.markRStart, .mark])
    else if q = .qp ∧ startsAgain c then
      (if c = 35 then (178, [.markRStart, .setRComponent]) else if c = 63 then (184, [.markRStart, .setRComponent])
       else if c = 37 then (127, [.markRStart]) else (182, [.markRStart]))
    else if q = .qe ∧ c = 37 then (131, [.markQStart, .mark])
    else if q = .qe ∧ isPchar c then (187, [.markQStart, .mark])
    else (0, rErrActs q)

theorem rTab (q : R) (c : UInt8) : tab q.enc c = rRow q c := by
  have : ∀ q : R, ∀ c : UInt8, tab q.enc c = rRow q c := by
    intro q; cases q <;> exact forall_byte (by rw [tab_eq]; decide +kernel)
  exact this q c

theorem rState (q : R) : q.enc ≠ 0 ∧ toStateActions[q.enc]? = some 0 := by
  cases q <;> decide

theorem rEof (q : R) : eofTab q.enc = some (if q.canEnd then [.setRComponent, .rfc8141Type]
    else if q = .qp then [.markRStart, .setRComponent, .rfc8141Type] else rErrActs q) := by
  cases q <;> rfl

theorem rFinal : ∀ q : R, q.canEnd = true → 172 ≤ q.enc ∧ q.enc ≠ 193 := by
  intro q; cases q <;> decide

theorem rqqTab (c : UInt8) : tab 133 c = if c = 43 then (191, []) else (0, [.errMalformedR]) := by
  exact forall_byte (P := fun c => tab 133 c = if c = 43 then (191, []) else (0, [.errMalformedR]))
    (by rw [tab_eq]; decide +kernel) c

theorem rqpTab (c : UInt8) : ∃ t as, tab 191 c = (t, (if startsAgain c then .markRStart else .errMalformedR) :: as) := by
  have : ∀ c : UInt8, (tab 191 c).2.head? = some (if startsAgain c then .markRStart else .errMalformedR) :=
    forall_byte (by rw [tab_eq]; decide +kernel)
  have := this c
  rcases h : tab 191 c with ⟨t, l⟩
  rw [h] at this
  cases l with
  | nil => simp at this
  | cons a as =>
    simp only [List.head?_cons, Option.some.injEq] at this
    exact ⟨t, as, by rw [this]⟩

end Urn
