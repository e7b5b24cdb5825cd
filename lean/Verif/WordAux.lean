import Verif.Word
import Verif.Main
import Verif.RagelSim
/-!
# No sum or difference of the parser overflows

Lemmas for `PropsWord.lean`.
-/
set_option autoImplicit false
namespace Urn
open Tables

theorem wrap_id {w : Nat} {x : Int} (h1 : -(2 ^ (w - 1) : Nat) ≤ x) (h2 : x < (2 ^ (w - 1) : Nat)) (hw : 1 ≤ w) : wrap w x = x := by
  obtain ⟨k, rfl⟩ : ∃ k, w = k + 1 := ⟨w - 1, by omega⟩
  simp only [Nat.add_sub_cancel] at h1 h2
  unfold wrap
  rw [Int.bmod_def]
  have h3 : (2 ^ (k + 1) : Nat) = 2 * 2 ^ k := by rw [Nat.pow_succ]; omega
  rw [h3]
  generalize 2 ^ k = a at h1 h2
  have h4 : ((((2 * a : Nat) : Int) + 1) / 2) = a := by omega
  by_cases hx : 0 ≤ x
  · have : x % ((2 * a : Nat) : Int) = x := Int.emod_eq_of_lt hx (by omega)
    rw [this, h4, if_pos h2]
  · have : x % ((2 * a : Nat) : Int) = x + (2 * a : Nat) := by
      rw [← Int.add_emod_right]
      exact Int.emod_eq_of_lt (by omega) (by omega)
    rw [this, h4, if_neg (by omega)]
    omega

theorem index_bounds {d : Bytes} {i : Int} {c : UInt8} (h : index d i = .ok c) : 0 ≤ i ∧ i < d.length := by
  unfold index at h
  split at h
  · next h0 =>
    split at h
    · next hc =>
      obtain ⟨hl, _⟩ := List.getElem?_eq_some_iff.mp hc
      omega
    · cases h
  · cases h

theorem store_length {d d' : Bytes} {i : Int} {v : UInt8} (h : store d i v = .ok d') : d'.length = d.length := by
  unfold store at h
  split at h
  · injection h with h; subst h; simp
  · cases h

variable {w : Nat} {n : Nat}

/-- `n` is the length of a slice on a machine whose `int` has `w` bits. -/
def Fits (w n : Nat) : Prop := 4 ≤ w ∧ n < 2 ^ (w - 1)

theorem Fits.wrap (h : Fits w n) {x : Int} (h1 : -2 ≤ x ∨ -(n : Int) ≤ x) (h2 : x ≤ n ∨ x ≤ 7) : wrap w x = x := by
  have h3 : 2 ^ 3 ≤ 2 ^ (w - 1) := Nat.pow_le_pow_right (by omega) (by have := h.1; omega)
  have := h.2
  exact wrap_id (by omega) (by omega) (by have := h.1; omega)

theorem shiftAllBits_ok (h : Fits w n) {pb : Int} {delta : UInt8} : ∀ {is : List Int} {d d' : Bytes}, d.length = n →
    shiftAll pb delta is d = .ok d' → shiftAllBits w pb delta is d = .ok d' ∧ d'.length = n := by
  intro is
  induction is with
  | nil => intro d d' hd hs; simp only [shiftAll] at hs; injection hs with hs; subst hs; exact ⟨rfl, hd⟩
  | cons i is ih =>
    intro d d' hd hs
    simp only [shiftAll, bind, Except.bind] at hs
    cases hi : index d (pb + i) with
    | error e => rw [hi] at hs; cases hs
    | ok c =>
      rw [hi] at hs
      simp only at hs
      cases ht : store d (pb + i) (c + delta) with
      | error e => rw [ht] at hs; cases hs
      | ok d1 =>
        rw [ht] at hs
        simp only at hs
        have hb := index_bounds hi
        have hw : wrap w (pb + i) = pb + i := h.wrap (by omega) (by omega)
        have hl := store_length ht
        obtain ⟨h1, h2⟩ := ih (hl.trans hd) hs
        refine ⟨?_, h2⟩
        simp only [shiftAllBits, bind, Except.bind, hw, hi, ht, h1]

/-- The data of a machine in the middle of a call, at a point where actions run. -/
structure Mid (n : Nat) (m : Machine) : Prop where
  len : m.data.length = n
  pe : m.pe = n
  eof : m.eof = n
  pb0 : 0 ≤ m.pb
  pb1 : m.pb ≤ n

/-- What an action may change. -/
def After (n : Nat) (m : Machine) (fl : Flow) (m' : Machine) : Prop :=
  Mid n m' ∧ match fl with
    | .next => m'.p = m.p ∧ m'.cs = m.cs
    | .again => m'.p = m.p - 1 ∧ m'.cs = enFail

theorem after_raise {m : Machine} {o : URN} {k : ErrKind} {col : Int} (hm : Mid n m) :
    After n m (raise k col m o).1 (raise k col m o).2.1 := ⟨⟨hm.len, hm.pe, hm.eof, hm.pb0, hm.pb1⟩, rfl, rfl⟩

theorem raiseBits_eq (h : Fits w n) {m : Machine} {o : URN} {k : ErrKind} {col : Int} (h0 : 0 ≤ m.p) (h1 : m.p ≤ n) :
    raiseBits w k col m o = raise k col m o := by
  unfold raiseBits raise
  rw [h.wrap (by omega) (by omega)]

theorem execActBits_ok (h : Fits w n) {a : Act} {m m' : Machine} {o o' : URN} {fl : Flow} (hm : Mid n m) (h0 : 0 ≤ m.p) (h1 : m.p ≤ n)
    (ha : a = .throwPreUrnErr → m.p ≤ 4) (hx : execAct a m o = .ok (fl, m', o')) :
    execActBits w a m o = .ok (fl, m', o') ∧ After n m fl m' := by
  have hr : ∀ {k : ErrKind} {col : Int}, Except.ok (ε := Panic) (raise k col m o) = .ok (fl, m', o') →
      Except.ok (ε := Panic) (raiseBits w k col m o) = .ok (fl, m', o') ∧ After n m fl m' := by
    intro k col e
    rw [raiseBits_eq h h0 h1]
    refine ⟨e, ?_⟩
    injection e with e
    have := after_raise (k := k) (col := col) (o := o) hm
    rw [e] at this
    exact this
  have hn : ∀ {o1 : URN}, Except.ok (ε := Panic) (Flow.next, m, o1) = .ok (fl, m', o') → After n m fl m' := by
    intro o1 e
    injection e with e
    injection e with e1 e2
    injection e2 with e2 e3
    subst e1; subst e2
    exact ⟨hm, rfl, rfl⟩
  have hs : ∀ {f : Bytes → URN}, (do let t ← m.text; pure (Flow.next, m, f t)) = Except.ok (fl, m', o') → After n m fl m' := by
    intro f e
    simp only [bind, Except.bind, pure, Except.pure] at e
    cases ht : m.text with
    | error p => rw [ht] at e; cases e
    | ok t => rw [ht] at e; exact hn e
  cases a with
  | mark =>
    refine ⟨hx, ?_⟩
    simp only [execAct] at hx
    injection hx with hx
    injection hx with e1 e2
    injection e2 with e2 e3
    subst e1; subst e2
    exact ⟨⟨hm.len, hm.pe, hm.eof, h0, h1⟩, rfl, rfl⟩
  | tolower =>
    have hw : wrap w (m.p - m.pb) = m.p - m.pb := h.wrap (by have := hm.pb1; omega) (by have := hm.pb0; omega)
    simp only [execActBits, hw]
    exact ⟨hx, hn hx⟩
  | setPre => exact ⟨hx, hs hx⟩
  | throwPreUrnErr =>
    have hw : wrap w (m.p + 3) = m.p + 3 := h.wrap (by omega) (by have := ha rfl; omega)
    simp only [execAct] at hx
    simp only [execActBits, hw]
    split at hx
    · next hmode =>
      rw [if_pos hmode]
      split at hx
      · next hpos =>
        rw [if_pos hpos]
        simp only [bind, Except.bind] at hx ⊢
        cases hi : index m.data (m.p + 3) with
        | error p => rw [hi] at hx; cases hx
        | ok c =>
          rw [hi] at hx
          simp only at hx ⊢
          split at hx
          · next hc => rw [if_pos hc]; exact hr hx
          · next hc => rw [if_neg hc]; exact ⟨hx, hn hx⟩
      · next hpos => rw [if_neg hpos]; exact ⟨hx, hn hx⟩
    · next hmode => rw [if_neg hmode]; exact ⟨hx, hn hx⟩
  | setNid => exact ⟨hx, hs hx⟩
  | setNss =>
    simp only [execAct, bind, Except.bind, pure, Except.pure] at hx
    simp only [execActBits, bind, Except.bind, pure, Except.pure]
    cases h1 : m.text with
    | error p => rw [h1] at hx; cases hx
    | ok t =>
      rw [h1] at hx
      simp only at hx ⊢
      cases h2 : shiftAll m.pb 32 o.tolower m.data with
      | error p => rw [h2] at hx; cases hx
      | ok d1 =>
        rw [h2] at hx
        obtain ⟨e1, l1⟩ := shiftAllBits_ok h hm.len h2
        rw [e1]
        simp only at hx ⊢
        cases h3 : Machine.text { m with data := d1 } with
        | error p => rw [h3] at hx; cases hx
        | ok t1 =>
          rw [h3] at hx
          simp only at hx ⊢
          cases h4 : shiftAll m.pb (-32) o.tolower d1 with
          | error p => rw [h4] at hx; cases hx
          | ok d2 =>
            rw [h4] at hx
            obtain ⟨e2, l2⟩ := shiftAllBits_ok h l1 h4
            rw [e2]
            simp only at hx ⊢
            refine ⟨hx, ?_⟩
            injection hx with hx
            injection hx with e1 e2
            injection e2 with e2 e3
            subst e1; subst e2
            exact ⟨⟨l2, hm.pe, hm.eof, hm.pb0, hm.pb1⟩, rfl, rfl⟩
  | errPre => exact hr hx
  | errNid => exact hr hx
  | errNss => exact hr hx
  | errUrn => exact hr hx
  | errHex =>
    simp only [execAct] at hx
    simp only [execActBits]
    split at hx
    · next hc => rw [if_pos hc]; exact hr hx
    · next hc => rw [if_neg hc]; exact ⟨hx, hn hx⟩
  | baseType => exact ⟨hx, hn hx⟩
  | errScimNid => exact hr hx
  | errScimType => exact hr hx
  | errScimName => exact hr hx
  | errScimOther =>
    have hw : wrap w (m.p - 1) = m.p - 1 := h.wrap (by omega) (by omega)
    simp only [execAct] at hx
    simp only [execActBits, hw]
    split at hx
    · next hc => rw [if_pos hc]; exact hr hx
    · next hc => rw [if_neg hc]; exact hr hx
  | scimType => exact ⟨hx, hn hx⟩
  | createScim => exact ⟨hx, hn hx⟩
  | setScimType =>
    refine ⟨hx, ?_⟩
    simp only [execAct, bind, Except.bind, pure, Except.pure] at hx
    cases ht : m.text with
    | error p => rw [ht] at hx; cases hx
    | ok t =>
      rw [ht] at hx
      cases ho : o.scim with
      | none => rw [ho] at hx; cases hx
      | some s => rw [ho] at hx; exact hn hx
  | markScim =>
    refine ⟨hx, ?_⟩
    simp only [execAct] at hx
    cases ho : o.scim with
    | none => rw [ho] at hx; cases hx
    | some s => rw [ho] at hx; exact hn hx
  | setScimName =>
    refine ⟨hx, ?_⟩
    simp only [execAct, bind, Except.bind, pure, Except.pure] at hx
    cases ho : o.scim with
    | none => rw [ho] at hx; cases hx
    | some s =>
      rw [ho] at hx
      simp only at hx
      cases ht : slice m.data s.pos m.p with
      | error p => rw [ht] at hx; cases hx
      | ok t => rw [ht] at hx; exact hn hx
  | setScimOther =>
    refine ⟨hx, ?_⟩
    simp only [execAct, bind, Except.bind, pure, Except.pure] at hx
    cases ho : o.scim with
    | none => rw [ho] at hx; cases hx
    | some s =>
      rw [ho] at hx
      simp only at hx
      cases ht : slice m.data s.pos m.p with
      | error p => rw [ht] at hx; cases hx
      | ok t => rw [ht] at hx; exact hn hx
  | errNss8141 => exact hr hx
  | errNid8141 => exact hr hx
  | rfc8141Type => exact ⟨hx, hn hx⟩
  | setRComponent => exact ⟨hx, hs hx⟩
  | setQComponent => exact ⟨hx, hs hx⟩
  | setFComponent => exact ⟨hx, hs hx⟩
  | informalNidMatch =>
    have hw : wrap w (m.p - 1) = m.p - 1 := h.wrap (by omega) (by omega)
    simp only [execActBits, hw]
    refine ⟨hx, ?_⟩
    simp only [execAct] at hx
    injection hx with hx
    injection hx with e1 e2
    injection e2 with e2 e3
    subst e1; subst e2
    exact ⟨⟨hm.len, hm.pe, hm.eof, hm.pb0, hm.pb1⟩, rfl, rfl⟩
  | markRStart =>
    simp only [execAct] at hx
    simp only [execActBits]
    split at hx
    · next hc => rw [if_pos hc]; exact hr hx
    · next hc => rw [if_neg hc]; exact ⟨hx, hn hx⟩
  | markQStart =>
    simp only [execAct] at hx
    simp only [execActBits]
    split at hx
    · next hc => rw [if_pos hc]; exact hr hx
    · next hc => rw [if_neg hc]; exact ⟨hx, hn hx⟩
  | errMalformedR => exact hr hx
  | errMalformedQ => exact hr hx

theorem execActsBits_ok (h : Fits w n) : ∀ {as : List Act} {m m' : Machine} {o o' : URN} {fl : Flow}, Mid n m → 0 ≤ m.p → m.p ≤ n →
    (.throwPreUrnErr ∈ as → m.p ≤ 4) → execActs as m o = .ok (fl, m', o') →
    execActsBits w as m o = .ok (fl, m', o') ∧ After n m fl m' := by
  intro as
  induction as with
  | nil =>
    intro m m' o o' fl hm h0 h1 ha hx
    refine ⟨hx, ?_⟩
    simp only [execActs] at hx
    injection hx with hx
    injection hx with e1 e2
    injection e2 with e2 e3
    subst e1; subst e2
    exact ⟨hm, rfl, rfl⟩
  | cons a as ih =>
    intro m m' o o' fl hm h0 h1 ha hx
    simp only [execActs, bind, Except.bind, pure, Except.pure] at hx
    simp only [execActsBits, bind, Except.bind, pure, Except.pure]
    cases hx1 : execAct a m o with
    | error p => rw [hx1] at hx; cases hx
    | ok r =>
      rcases r with ⟨fl1, m1, o1⟩
      rw [hx1] at hx
      obtain ⟨e1, hm1, hp⟩ := execActBits_ok h hm h0 h1 (fun e => ha (by rw [e]; exact List.mem_cons_self)) hx1
      rw [e1]
      cases fl1 with
      | again =>
        simp only at hx ⊢
        refine ⟨hx, ?_⟩
        injection hx with hx
        injection hx with e1 e2
        injection e2 with e2 e3
        subst e1; subst e2
        exact ⟨hm1, hp⟩
      | next =>
        simp only at hx hp ⊢
        obtain ⟨e2, hm2, hp2⟩ := ih hm1 (by omega) (by omega) (fun e => by have := ha (List.mem_cons_of_mem _ e); omega) hx
        refine ⟨e2, hm2, ?_⟩
        cases fl with
        | next => exact ⟨by rw [hp2.1, hp.1], by rw [hp2.2, hp.2]⟩
        | again => exact ⟨by rw [hp2.1, hp.1], hp2.2⟩

/-- How many bytes have been read when the parser is in this state, for the states of the scheme. -/
def depth (cs : Nat) : Option Nat :=
  if 1 ≤ cs ∧ cs ≤ 5 then some (cs - 1)
  else if 44 ≤ cs ∧ cs ≤ 48 then some (cs - 44)
  else if 83 ≤ cs ∧ cs ≤ 87 then some (cs - 83)
  else none

/-- `depth` is right, and only states with a depth have the action that looks ahead. -/
def depthOk (cs : Nat) (c : UInt8) : Bool :=
  (match depth (tabF cs c).1 with
    | none => true
    | some k => 1 ≤ k && depth cs == some (k - 1)) &&
  (!((tabF cs c).2.contains .throwPreUrnErr) || (depth cs).isSome)

theorem depth_reps : (List.range 194).all (fun cs => Grammar.reps.all (depthOk cs)) = true := by decide +kernel

theorem depth_tab {cs : Nat} (h : cs < 194) (c : UInt8) : depthOk cs c = true := by
  have h1 := List.all_eq_true.mp (List.all_eq_true.mp depth_reps cs (List.mem_range.mpr h)) _ (Grammar.rep_mem' c)
  unfold depthOk at h1 ⊢
  rw [Grammar.rep_tab h c]
  exact h1

theorem depth_step {cs : Nat} {c : UInt8} (h : cs < 194) :
    (∀ k, depth (tab cs c).1 = some k → 1 ≤ k ∧ depth cs = some (k - 1)) ∧
    (.throwPreUrnErr ∈ (tab cs c).2 → ∃ k, depth cs = some k ∧ k ≤ 4) := by
  have h1 := depth_tab h c
  unfold depthOk at h1
  rw [Bool.and_eq_true, Bool.or_eq_true] at h1
  rw [tab_eq]
  refine ⟨fun k hk => ?_, fun hm => ?_⟩
  · have := h1.1
    simp only [hk] at this
    simpa using this
  · have := h1.2
    have hc : (tabF cs c).2.contains .throwPreUrnErr = true := List.contains_iff_mem.mpr hm
    simp only [hc] at this
    simp only [Bool.not_true, Bool.false_eq_true, false_or] at this
    obtain ⟨k, hk⟩ := Option.isSome_iff_exists.mp this
    refine ⟨k, hk, ?_⟩
    revert hk
    unfold depth
    split
    · intro e; injection e; omega
    · split
      · intro e; injection e; omega
      · split
        · intro e; injection e; omega
        · intro e; cases e

theorem eof_noPre : ∀ cs : Fin 194, ∀ l, eofTab cs = some l → Act.throwPreUrnErr ∉ l := by
  have : ∀ cs : Fin 194, (match eofTab cs with | none => true | some l => !l.contains .throwPreUrnErr) = true := by decide +kernel
  intro cs l hl hm
  have h := this cs
  rw [hl] at h
  simp only [List.contains_iff_mem.mpr hm] at h
  cases h

theorem toState_len : toStateActions.length = 194 := by decide +kernel
theorem eof_len : eofActions.length = 194 := by decide +kernel
theorem toState_fail : toStateActions[enFail]? = some 0 := by decide +kernel

/-- The invariant of the loop. -/
def LoopInv (n : Nat) (st : St) : Prop :=
  Mid n st.m ∧ match st.ctl with
    | .resume => 0 ≤ st.m.p ∧ st.m.p < n ∧ st.m.cs < 194 ∧ ∀ k, depth st.m.cs = some k → st.m.p = k
    | .again => -1 ≤ st.m.p ∧ st.m.p < n ∧ (st.m.cs = enFail ∨ 0 ≤ st.m.p ∧ ∀ k, depth st.m.cs = some k → st.m.p + 1 = k)
    | .testEof => st.m.p = n
    | .out => True

theorem stepBits_ok (h : Fits w n) {st st' : St} (hi : LoopInv n st) (hs : step st = .ok st') : stepBits w st = .ok st' ∧ LoopInv n st' := by
  rcases st with ⟨ctl, m, o⟩
  obtain ⟨hm, hi⟩ := hi
  simp only at hm hi
  cases ctl with
  | out =>
    simp only [step, pure, Except.pure] at hs
    injection hs with hs; subst hs
    exact ⟨rfl, hm, trivial⟩
  | resume =>
    obtain ⟨h0, h1, h2, h3⟩ := hi
    simp only [step, bind, Except.bind, pure, Except.pure] at hs
    simp only [stepBits, bind, Except.bind, pure, Except.pure]
    cases hx : index m.data m.p with
    | error p => rw [hx] at hs; cases hs
    | ok c =>
      rw [hx] at hs
      simp only at hs ⊢
      have hd := depth_step (c := c) h2
      cases hdis : dispatch m.cs c with
      | out =>
        rw [hdis] at hs
        simp only at hs ⊢
        injection hs with hs; subst hs
        exact ⟨rfl, hm, trivial⟩
      | tr k =>
        simp only [tab, hdis] at hd
        rw [hdis] at hs
        simp only at hs hd ⊢
        rcases htr : trRow k with ⟨t, f⟩
        rw [htr] at hs hd
        simp only at hs hd ⊢
        have hdep : ∀ k, depth t = some k → m.p + 1 = k := by
          intro k hk
          obtain ⟨a1, a2⟩ := hd.1 k hk
          have := h3 _ a2
          omega
        cases f with
        | none =>
          simp only at hs ⊢
          injection hs with hs; subst hs
          refine ⟨rfl, ⟨hm.len, hm.pe, hm.eof, hm.pb0, hm.pb1⟩, ?_⟩
          exact ⟨by simp only; omega, by simp only; omega, Or.inr ⟨h0, hdep⟩⟩
        | some f =>
          simp only at hs hd ⊢
          cases hx : execActs (fActs f) { m with cs := t } o with
          | error p => rw [hx] at hs; cases hs
          | ok r =>
            rcases r with ⟨fl, m1, o1⟩
            rw [hx] at hs
            have hp : Act.throwPreUrnErr ∈ fActs f → m.p ≤ 4 := by
              intro hm
              obtain ⟨k, hk, h4⟩ := hd.2 hm
              have := h3 k hk
              omega
            obtain ⟨e1, hm1, ha⟩ := execActsBits_ok h (m := { m with cs := t }) ⟨hm.len, hm.pe, hm.eof, hm.pb0, hm.pb1⟩ h0
              (Int.le_of_lt h1) hp hx
            rw [e1]
            simp only at hs ⊢
            injection hs with hs; subst hs
            refine ⟨rfl, hm1, ?_⟩
            cases fl with
            | next =>
              simp only at ha ⊢
              obtain ⟨a1, a2⟩ := ha
              exact ⟨by omega, by omega, Or.inr ⟨by omega, fun k hk => by rw [a2] at hk; have := hdep k hk; omega⟩⟩
            | again =>
              simp only at ha ⊢
              obtain ⟨a1, a2⟩ := ha
              exact ⟨by omega, by omega, Or.inl a2⟩
  | again =>
    obtain ⟨h0, h1, h2⟩ := hi
    have hw : wrap w (m.p + 1) = m.p + 1 := h.wrap (by omega) (by omega)
    have hlt : ∀ a, toStateActions[m.cs]? = some a → m.cs < 194 := by
      intro a ha
      obtain ⟨hl, _⟩ := List.getElem?_eq_some_iff.mp ha
      rw [toState_len] at hl
      exact hl
    simp only [step] at hs
    simp only [stepBits]
    split at hs
    · cases hs
    · next ht =>
      have hne : m.cs ≠ enFail := by
        intro e; rw [e, toState_fail] at ht; cases ht
      have hp : 0 ≤ m.p := by
        rcases h2 with h2 | h2
        · exact absurd h2 hne
        · exact h2.1
      simp only [bind, Except.bind, pure, Except.pure] at hs
      cases hx : execAct .informalNidMatch m o with
      | error p => rw [hx] at hs; cases hs
      | ok r =>
        rcases r with ⟨fl, m1, o1⟩
        rw [hx] at hs
        obtain ⟨e1, hm1, ha⟩ := execActBits_ok h hm hp (Int.le_of_lt h1) (fun e => by cases e) hx
        rw [ht]
        simp only [bind, Except.bind, pure, Except.pure]
        rw [e1]
        simp only at hs ⊢
        injection hs with hs; subst hs
        refine ⟨rfl, hm1, ?_⟩
        have hfl : fl = .again := by
          simp only [execAct] at hx
          injection hx with hx
          injection hx with e1 e2
          exact e1.symm
        subst hfl
        simp only at ha ⊢
        obtain ⟨a1, a2⟩ := ha
        exact ⟨by omega, by omega, Or.inl a2⟩
    · next a hn ht =>
      have hcs := hlt _ ht
      have hpe := hm.pe
      simp only [hw]
      have key : (if m.cs = 0 then pure (f := Except Panic) { ctl := Ctl.out, m := m, o := o : St }
          else
            if m.p + 1 ≠ m.pe then pure { ctl := Ctl.resume, m := { m with p := m.p + 1 }, o := o }
            else pure { ctl := Ctl.testEof, m := { m with p := m.p + 1 }, o := o }) = Except.ok st' := hs
      refine ⟨?_, ?_⟩
      · split
        · next e => rw [e] at ht; cases ht
        · next e => rw [e] at ht; injection ht with ht; exact absurd ht.symm hn
        · exact key
      · split at key
        · injection key with key; subst key; exact ⟨hm, trivial⟩
        · split at key
          · next hne =>
            injection key with key; subst key
            refine ⟨⟨hm.len, hm.pe, hm.eof, hm.pb0, hm.pb1⟩, ?_⟩
            simp only
            refine ⟨by omega, by omega, hcs, fun k hk => ?_⟩
            rcases h2 with h2 | h2
            · rw [h2] at hk; have : depth enFail = none := by decide
              rw [this] at hk; cases hk
            · exact h2.2 k hk
          · next hne =>
            injection key with key; subst key
            refine ⟨⟨hm.len, hm.pe, hm.eof, hm.pb0, hm.pb1⟩, ?_⟩
            simp only
            omega
  | testEof =>
    have hpe : m.p = m.eof := by rw [hm.eof]; exact hi
    simp only [step] at hs
    simp only [stepBits]
    rw [if_pos hpe] at hs ⊢
    cases he : eofActions[m.cs]? with
    | none => rw [he] at hs; cases hs
    | some k =>
      rw [he] at hs
      simp only [bind, Except.bind, pure, Except.pure] at hs ⊢
      have hl : m.cs < 194 := by
        obtain ⟨hl, _⟩ := List.getElem?_eq_some_iff.mp he
        rw [eof_len] at hl
        exact hl
      have hno : Act.throwPreUrnErr ∉ eofActs k := eof_noPre ⟨m.cs, hl⟩ _ (by simp only [eofTab, he, Option.map_some])
      cases hx : execActs (eofActs k) m o with
      | error p => rw [hx] at hs; cases hs
      | ok r =>
        rcases r with ⟨fl, m1, o1⟩
        rw [hx] at hs
        obtain ⟨e1, hm1, ha⟩ := execActsBits_ok h hm (by simp only at hi; omega) (by simp only at hi; omega) (fun e => absurd e hno) hx
        rw [e1]
        cases fl with
        | next =>
          simp only at hs ⊢
          injection hs with hs; subst hs
          exact ⟨rfl, hm1, trivial⟩
        | again =>
          simp only at hs ha hi ⊢
          injection hs with hs; subst hs
          refine ⟨rfl, hm1, ?_⟩
          obtain ⟨a1, a2⟩ := ha
          simp only
          exact ⟨by omega, by omega, Or.inl a2⟩

theorem loopBits_ok (h : Fits w n) : ∀ {b : Nat} {st : St} {r : Machine × URN}, LoopInv n st → run b st = .ok r → loopBits w b st = .ok r := by
  intro b
  induction b with
  | zero =>
    intro st r hi hr
    rcases st with ⟨ctl, m, o⟩
    cases ctl <;> simp only [run] at hr <;> first | cases hr; done | skip
    simp only [loopBits, hr]
  | succ b ih =>
    intro st r hi hr
    rcases st with ⟨ctl, m, o⟩
    by_cases hc : ctl = .out
    · subst hc
      simp only [run] at hr
      simp only [loopBits, hr]
    · cases hs : step ⟨ctl, m, o⟩ with
      | error p => cases ctl <;> first | exact absurd rfl hc | (simp only [run, hs] at hr; cases hr)
      | ok st' =>
        obtain ⟨e, hi'⟩ := stepBits_ok h hi hs
        have hr' : run b st' = .ok r := by
          cases ctl <;> simp only [run, hs] at hr <;> first | exact hr | exact absurd rfl hc
        have := ih hi' hr'
        cases ctl <;> simp only [loopBits, e] <;> first | exact this | exact absurd rfl hc

theorem loopInv_entry (m : Machine) (s : Bytes) (hs : Start m.startParsingAt) : LoopInv s.length (entry (m.init s)) := by
  have hm : Mid s.length (m.init s) := ⟨rfl, rfl, rfl, by simp [Machine.init], by simp [Machine.init]⟩
  have hp : (m.init s).p = 0 := rfl
  have hpe : (m.init s).pe = s.length := rfl
  have hcs : (m.init s).cs = m.startParsingAt := rfl
  unfold entry
  split
  · next h => exact ⟨hm, by simp only; omega⟩
  · next h =>
    split
    · exact ⟨hm, trivial⟩
    · next h2 =>
      refine ⟨hm, ?_⟩
      simp only
      rw [hcs]
      refine ⟨by omega, by omega, ?_, ?_⟩
      · rcases hs with e | e | e | e <;> rw [e] <;> decide
      · intro k hk
        rw [hp]
        rcases hs with e | e | e | e <;> rw [e] at hk <;> revert hk <;> simp (config := { decide := true }) [depth] <;> omega

/-- One call. -/
theorem parseBits_ok {m : Machine} {s : Bytes} (hs : Start m.startParsingAt) (h : Fits w s.length) : m.parseBits w s = m.parse s := by
  obtain ⟨m', o, h1, _⟩ := run_of_ends (run_entry m s hs) (by simp [fuelFor]; omega)
  have h2 := loopBits_ok h (loopInv_entry m s hs) h1
  simp only [Machine.parseBits, Machine.parse, h1, h2]

/-- The inputs of a list of calls. -/
def inputs : List Op → List Bytes
  | [] => []
  | .parse s :: ops => s :: inputs ops
  | _ :: ops => inputs ops

theorem inputs_mem {s : Bytes} {ops : List Op} (h : s ∈ inputs ops) : .parse s ∈ ops := by
  induction ops with
  | nil => simp [inputs] at h
  | cons op ops ih =>
    cases op with
    | parse t =>
      simp only [inputs, List.mem_cons] at h
      rcases h with rfl | h
      · exact List.mem_cons_self
      · exact List.mem_cons_of_mem _ (ih h)
    | withParsingMode x => exact List.mem_cons_of_mem _ (ih h)
    | error => exact List.mem_cons_of_mem _ (ih h)

theorem execAllBits_ok {ops : List Op} : ∀ {m : Machine}, Start m.startParsingAt → (∀ s ∈ inputs ops, Fits w s.length) →
    m.execAllBits w ops = m.execAll ops := by
  induction ops with
  | nil => intro m _ _; rfl
  | cons op ops ih =>
    intro m hm hin
    obtain ⟨m', out, h1, h2⟩ := exec_ok hm op
    have h3 : m.execBits w op = m.exec op := by
      cases op with
      | parse s => simp only [Machine.execBits, Machine.exec, parseBits_ok hm (hin s (by simp [inputs]))]
      | withParsingMode x => rfl
      | error => rfl
    have h4 : ∀ s ∈ inputs ops, Fits w s.length := by
      intro s hs
      refine hin s ?_
      cases op <;> simp [inputs, hs]
    simp only [Machine.execAllBits, Machine.execAll, h3, h1, Run.ok_bind, ih h2 h4]

end Urn
