import Verif.CostTab
import Verif.Main
/-!
# Bounds on the work of a run
-/
set_option autoImplicit false
set_option linter.unusedSimpArgs false
namespace Urn
open Tables Spec

/-! ## `set_nss` puts the bytes back -/

/-- One assignment of the loops. -/
def bump (i : Nat) (v : UInt8) (d : Bytes) : Bytes := d.modify i (· + v)

theorem shiftAll_bump {pb : Int} {v : UInt8} : ∀ {L : List Int} {d d' : Bytes}, shiftAll pb v L d = .ok d' →
    d' = L.foldl (fun d i => bump (pb + i).toNat v d) d
  | [], d, d', h => by simp only [shiftAll, Except.ok.injEq] at h; exact h.symm
  | i :: L, d, d', h => by
      simp only [shiftAll] at h
      obtain ⟨c, h1, h⟩ := bind_ok h
      obtain ⟨d1, h2, h⟩ := bind_ok h
      have := shiftAll_bump h
      rw [this, List.foldl_cons]
      congr 1
      simp only [store] at h2
      split at h2
      · simp only [Except.ok.injEq] at h2
        rw [← h2]
        apply List.ext_getElem?
        intro j
        simp only [index] at h1
        split at h1
        · split at h1
          · rename_i x hx
            simp only [Except.ok.injEq] at h1
            subst h1
            simp only [bump, List.getElem?_modify, List.getElem?_set]
            by_cases hj : (pb + i).toNat = j
            · subst hj
              have := lt_of_get hx
              simp [this, hx] at hx ⊢
              simp [hx]
            · simp [hj]
          · simp at h1
        · simp at h1
      · simp at h2

theorem bump_comm (i j : Nat) (v w : UInt8) (d : Bytes) : bump i v (bump j w d) = bump j w (bump i v d) := by
  apply List.ext_getElem?
  intro k
  simp only [bump, List.getElem?_modify]
  cases d[k]? with
  | none => simp
  | some c =>
    by_cases h1 : i = k <;> by_cases h2 : j = k <;> simp [h1, h2]
    simp [UInt8.add_assoc, UInt8.add_comm v w]

theorem bump_fold (i : Nat) (v w : UInt8) (pb : Int) : ∀ (L : List Int) (d : Bytes),
    bump i v (L.foldl (fun d i => bump (pb + i).toNat w d) d) = L.foldl (fun d i => bump (pb + i).toNat w d) (bump i v d)
  | [], _ => rfl
  | j :: L, d => by simp only [List.foldl_cons]; rw [bump_fold i v w pb L, bump_comm]

theorem bump_back (i : Nat) (d : Bytes) : bump i (-32) (bump i 32 d) = d := by
  apply List.ext_getElem?
  intro k
  simp only [bump, List.getElem?_modify]
  cases d[k]? with
  | none => simp
  | some c =>
    by_cases h1 : i = k <;> simp [h1]
    rw [UInt8.add_assoc]
    show c + (32 + (-32)) = c
    rw [show (32 + (-32) : UInt8) = 0 by decide]; simp

theorem shiftAll_back {pb : Int} {L : List Int} {d d1 d2 : Bytes} (h1 : shiftAll pb 32 L d = .ok d1) (h2 : shiftAll pb (-32) L d1 = .ok d2) :
    d2 = d := by
  rw [shiftAll_bump h2, shiftAll_bump h1]
  clear h1 h2
  induction L generalizing d with
  | nil => rfl
  | cons i L ih =>
    simp only [List.foldl_cons]
    rw [bump_fold, bump_back]
    exact ih

/-! ## Actions -/

theorem slice_inv {d : Bytes} {i j : Int} {t : Bytes} (h : slice d i j = .ok t) : (j - i).toNat ≤ d.length := by
  simp only [slice] at h
  split at h
  · omega
  · simp at h

/-- The flow of an action: on, or to the state of failure. -/
def Flows (m m' : Machine) (fl : Flow) : Prop := (fl = .next ∧ m'.p = m.p ∧ m'.cs = m.cs) ∨ (fl = .again ∧ m'.cs = 193)

theorem act_cost {a : Act} {m m' : Machine} {o o' : URN} {fl : Flow} {B : Nat} (h : execAct a m o = .ok (fl, m', o'))
    (hB : m.data.length ≤ B) (hT : o.tolower.length ≤ B) :
    actWork a m o ≤ wt a * B + lw a ∧ m'.data = m.data ∧ o'.tolower.length = o.tolower.length + lw a ∧ Flows m m' fl := by
  by_cases hq : quiet a = true
  · obtain ⟨e1, e2, e3, e4, e5, e6, e7⟩ := quiet_act hq h
    refine ⟨?_, e1, ?_, ?_⟩
    · cases a <;> simp only [quiet, Bool.false_eq_true] at hq <;> simp only [actWork, wt, lw, Nat.zero_mul, Nat.one_mul, Nat.le_refl, Nat.add_zero, Nat.zero_le]
      case setScimType | setPre | setNid | setRComponent | setQComponent | setFComponent =>
        all_goals
          simp only [execAct] at h
          obtain ⟨t, h1, h⟩ := bind_ok h
          exact Nat.le_trans (slice_inv h1) hB
      case setScimName | setScimOther =>
        all_goals
          simp only [execAct] at h
          cases hs : o.scim with
          | none => simp [hs] at h
          | some sc =>
            simp only [hs] at h
            obtain ⟨t, h1, h⟩ := bind_ok h
            simp only [scimLen, hs]
            exact Nat.le_trans (slice_inv h1) hB
    · rw [e4]; cases a <;> simp [quiet] at hq <;> rfl
    · rcases e7 with e7 | ⟨e7, e8, _⟩
      · exact Or.inl e7
      · exact Or.inr ⟨e7, e8⟩
  · cases a <;> simp [quiet] at hq
    case setNss =>
      simp only [execAct] at h
      obtain ⟨ss, h1, h⟩ := bind_ok h
      obtain ⟨d1, h2, h⟩ := bind_ok h
      obtain ⟨nm, h3, h⟩ := bind_ok h
      obtain ⟨d2, h4, h⟩ := bind_ok h
      simp only [pure, Except.pure, Except.ok.injEq, Prod.mk.injEq] at h
      obtain ⟨rfl, rfl, rfl⟩ := h
      refine ⟨?_, shiftAll_back h2 h4, rfl, Or.inl ⟨rfl, rfl, rfl⟩⟩
      have := slice_inv h1
      simp only [actWork, wt, lw, Machine.textLen]
      omega
    case mark =>
      simp only [execAct, Except.ok.injEq, Prod.mk.injEq] at h
      obtain ⟨rfl, rfl, rfl⟩ := h
      exact ⟨by simp [actWork], rfl, rfl, Or.inl ⟨rfl, rfl, rfl⟩⟩
    case tolower =>
      simp only [execAct, Except.ok.injEq, Prod.mk.injEq] at h
      obtain ⟨rfl, rfl, rfl⟩ := h
      exact ⟨by simp [actWork, wt, lw], rfl, by simp [lw], Or.inl ⟨rfl, rfl, rfl⟩⟩

theorem acts_cost {as : List Act} {B : Nat} : ∀ {m m' : Machine} {o o' : URN} {fl : Flow}, execActs as m o = .ok (fl, m', o') →
    m.data.length ≤ B → o.tolower.length + lws as ≤ B →
    actsWork as m o ≤ wts as * B + lws as ∧ m'.data = m.data ∧ o'.tolower.length ≤ o.tolower.length + lws as ∧ Flows m m' fl := by
  induction as with
  | nil =>
    intro m m' o o' fl h hB hT
    simp only [execActs, Except.ok.injEq, Prod.mk.injEq] at h
    obtain ⟨rfl, rfl, rfl⟩ := h
    exact ⟨by simp [actsWork], rfl, by simp, Or.inl ⟨rfl, rfl, rfl⟩⟩
  | cons a as ih =>
    intro m m' o o' fl h hB hT
    simp only [lws] at hT
    rcases execActs_cons h with ⟨m1, o1, h1, h2⟩ | ⟨rfl, h1⟩
    · obtain ⟨e1, e2, e3, e4⟩ := act_cost h1 hB (by omega)
      obtain ⟨f1, f2, f3, f4⟩ := ih h2 (by rw [e2]; exact hB) (by rw [e3]; omega)
      refine ⟨?_, by rw [f2, e2], by simp only [lws]; omega, ?_⟩
      · simp only [actsWork, h1, wts, lws, Nat.add_mul]; omega
      · rcases e4 with ⟨_, e4, e5⟩ | ⟨e4, _⟩
        · simpa only [Flows, e4, e5] using f4
        · simp at e4
    · obtain ⟨e1, e2, e3, e4⟩ := act_cost h1 hB (by omega)
      refine ⟨?_, e2, by simp only [lws]; omega, e4⟩
      simp only [actsWork, h1, wts, lws, Nat.add_mul]; omega

/-! ## Steps -/

/-- The question marks that have not been read. -/
def marks (st : St) : Nat := (st.m.data.drop (st.m.p + if st.ctl = .again then 1 else 0).toNat).count 63

/-- The copies that can still be made. -/
def pot (st : St) : Nat :=
  if st.ctl = .out then 0 else rank st.m.cs + if in8141 st.m.cs then marks st else 0

theorem pot_193 {st : St} (h : st.m.cs = 193) : pot st = 0 := by
  simp only [pot, h]; split <;> rfl

theorem pot_out {st : St} (h : st.ctl = .out) : pot st = 0 := by simp [pot, h]

theorem stepWork_resume {m : Machine} {o : URN} {c : UInt8} (h : index m.data m.p = .ok c) :
    stepWork ⟨.resume, m, o⟩ = 1 + actsWork (tab m.cs c).2 { m with cs := (tab m.cs c).1 } o := by
  simp only [stepWork, h, tab]
  cases hd : dispatch m.cs c with
  | out => simp [actsWork]
  | tr n =>
    rcases htr : trRow n with ⟨t, f⟩
    cases f with
    | none => simp [actsWork, htr]
    | some f => simp [htr]

theorem stepWork_eof {m : Machine} {o : URN} {as : List Act} (h : m.p = m.eof) (ha : eofTab m.cs = some as) :
    stepWork ⟨.testEof, m, o⟩ = 1 + actsWork as m o := by
  simp only [stepWork, h, if_true]
  simp only [eofTab] at ha
  cases he : eofActions[m.cs]? with
  | none => simp [he] at ha
  | some n => simp [he] at ha; simp [ha]

theorem testEof_o {m : Machine} {o : URN} {st' : St} {as : List Act} {fl : Flow} {m' : Machine} {o' : URN} (h : step ⟨.testEof, m, o⟩ = .ok st') (hp : m.p = m.eof)
    (ha : eofTab m.cs = some as) (hx : execActs as m o = .ok (fl, m', o')) : st'.o = o' := by
  simp only [step, if_pos hp] at h
  simp only [eofTab] at ha
  cases he : eofActions[m.cs]? with
  | none => simp [he] at ha
  | some n =>
    simp [he] at ha
    subst ha
    simp only [he, hx, bind, Except.bind] at h
    cases fl <;>
    · simp only [pure, Except.pure, Except.ok.injEq] at h
      rw [← h]

theorem count_drop {d : Bytes} {n : Nat} {c : UInt8} (h : d[n]? = some c) :
    (d.drop n).count 63 = (if c == 63 then 1 else 0) + (d.drop (n + 1)).count 63 := by
  obtain ⟨hn, h⟩ := List.getElem?_eq_some_iff.mp h
  rw [List.drop_eq_getElem_cons hn, h, List.count_cons]
  omega

theorem step_cost {st st' : St} {B : Nat} (h : step st = .ok st') (hcs : st.m.cs < 194) (hB : st.m.data.length ≤ B)
    (hT : st.o.tolower.length + 1 ≤ B) :
    stepWork st + pot st' * B ≤ 2 + pot st * B ∧ st'.m.data = st.m.data ∧ st'.o.tolower.length ≤ st.o.tolower.length + 1 ∧
      st'.m.cs < 194 := by
  rcases st with ⟨ctl, m, o⟩
  cases ctl with
  | out =>
    simp only [step, pure, Except.pure, Except.ok.injEq] at h
    subst h
    exact ⟨by simp [stepWork, pot], rfl, by simp, hcs⟩
  | again =>
    simp only [step] at h
    cases ht : toStateActions[m.cs]? with
    | none => rw [ht] at h; simp at h
    | some t =>
      rw [ht] at h
      by_cases h33 : t = 33
      · subst h33
        simp only [execAct, bind, Except.bind, pure, Except.pure, Except.ok.injEq] at h
        subst h
        refine ⟨?_, rfl, by simp, by simp [enFail]⟩
        rw [pot_193 rfl]; simp [stepWork]; omega
      · by_cases h0 : m.cs = 0
        · simp [h0, pure, Except.pure] at h
          subst h
          refine ⟨?_, rfl, by simp, by simp [h0]⟩
          rw [pot_out rfl]; simp [stepWork]; omega
        · by_cases hp : m.p + 1 = m.pe
          · simp [h0, hp, pure, Except.pure] at h
            subst h
            refine ⟨?_, rfl, by simp, hcs⟩
            simp [stepWork, pot, marks, hp]
          · simp [h0, hp, pure, Except.pure] at h
            subst h
            refine ⟨?_, rfl, by simp, hcs⟩
            simp [stepWork, pot, marks]
  | testEof =>
    rcases testEof_inv h with ⟨h1, h2⟩ | ⟨h1, as, fl, m', o', h2, h3, h4, h5, h6⟩
    · simp only [step, if_neg h2, pure, Except.pure, Except.ok.injEq] at h
      subst h
      refine ⟨?_, rfl, by simp, hcs⟩
      rw [pot_out rfl]; simp [stepWork, h2]; omega
    · have hc := costEof_all ⟨m.cs, hcs⟩
      simp only [costEof, h2, Bool.and_eq_true, Nat.ble_eq] at hc
      have ho := testEof_o h h1 h2 h3
      simp only at hB hT
      obtain ⟨e1, e2, e3, e4⟩ := acts_cost h3 hB (by omega)
      have hpot : pot st' = 0 := by
        rcases e4 with ⟨e4, _, _⟩ | ⟨_, e4⟩
        · exact pot_out (h5 e4)
        · exact pot_193 (by rw [h4]; exact e4)
      refine ⟨?_, by rw [h4, e2], by rw [ho]; simp only; omega, ?_⟩
      · rw [hpot, stepWork_eof h1 h2]
        have h7 : wts as * B ≤ rank m.cs * B := Nat.mul_le_mul_right _ hc.2
        have h8 : rank m.cs * B ≤ pot ⟨.testEof, m, o⟩ * B := Nat.mul_le_mul_right _ (by simp [pot])
        omega
      · rw [h4]
        rcases e4 with ⟨_, _, e4⟩ | ⟨_, e4⟩ <;> rw [e4]
        · exact hcs
        · decide
  | resume =>
    obtain ⟨c, h1, h2⟩ := resume_inv h
    obtain ⟨hp0, hp1, _⟩ := index_ok h1
    have hc := costChk_all hcs c
    simp only [costChk, ← tab_eq, Bool.and_eq_true, Nat.ble_eq, Nat.blt_eq] at hc
    obtain ⟨⟨⟨hc1, hc2⟩, hc3⟩, hc4⟩ := hc
    rw [stepWork_resume h1]
    rcases h2 with ⟨h2', h2⟩ | ⟨fl, m', o', h2, h3⟩
    · subst h2'
      refine ⟨?_, rfl, by simp, hcs⟩
      rw [h2, pot_out rfl]; simp [actsWork]; omega
    · subst h3
      simp only at hB hT
      obtain ⟨e1, e2, e3, e4⟩ := acts_cost h2 hB (by omega)
      have hcs' : m'.cs < 194 := by
        rcases e4 with ⟨_, _, e4⟩ | ⟨_, e4⟩ <;> rw [e4]
        · exact hc1
        · decide
      refine ⟨?_, e2, by simp only; omega, hcs'⟩
      have key : wts (tab m.cs c).2 + pot ⟨.again, m', o'⟩ ≤ pot ⟨.resume, m, o⟩ := by
        have hn : m.data[m.p.toNat]? = some c := by
          have : m.p = (m.p.toNat : Int) := by omega
          rw [this] at h1
          exact index_get h1
        have hm := count_drop hn
        have hr : wts (tab m.cs c).2 ≤ pot ⟨.resume, m, o⟩ := by
          simp only [pot, marks]
          cases h8 : in8141 m.cs <;> simp [h8] at hc3 ⊢
          · omega
          · rw [hm]
            cases h63 : (c == 63) <;> simp only [h63, cond_true, cond_false, if_true, if_false, Bool.false_eq_true] at hc3 ⊢ <;> omega
        rcases e4 with ⟨_, e4, e5⟩ | ⟨_, e4⟩
        · simp only at e4 e5 e2
          have e6 : (m.p + 1).toNat = m.p.toNat + 1 := by omega
          simp only [pot, marks, e4, e5, e2, if_true, e6, reduceCtorEq, if_false, Int.add_zero, hm]
          cases h8 : in8141 m.cs <;> simp only [h8, Bool.false_and, Bool.true_and, Bool.or_false, Bool.or_true, Bool.not_eq_true', Bool.false_eq_true, if_true, if_false, cond_false] at hc3 hc4 ⊢
          · simp only [hc4, Bool.false_eq_true, if_false]; omega
          · cases h63 : (c == 63) <;> cases h9 : in8141 (tab m.cs c).1 <;>
              simp only [h63, h9, cond_true, cond_false, if_true, if_false, Bool.false_eq_true] at hc3 ⊢ <;> omega
        · rw [pot_193 e4]; omega
      have := Nat.mul_le_mul_right B key
      rw [Nat.add_mul] at this
      omega

/-! ## Runs -/

theorem run_cost {B n : Nat} : ∀ {st : St} {r : Machine × URN}, run n st = .ok r → st.m.cs < 194 → st.m.data.length ≤ B →
    st.o.tolower.length + n ≤ B → runWork n st ≤ 2 * n + pot st * B := by
  induction n with
  | zero =>
    intro st r h _ _ _
    rcases st with ⟨ctl, m, o⟩
    cases ctl <;> simp [run] at h
    simp [runWork]
  | succ n ih =>
    intro st r h hcs hB hT
    by_cases ho : st.ctl = .out
    · rcases st with ⟨ctl, m, o⟩
      simp only at ho; subst ho
      simp [runWork]
    · cases hs : step st with
      | error p => rcases st with ⟨ctl, m, o⟩; cases ctl <;> simp [run, hs] at h ho
      | ok st' =>
        have h' : run n st' = .ok r := by rcases st with ⟨ctl, m, o⟩; cases ctl <;> simp [run, hs] at h ho <;> exact h
        obtain ⟨e1, e2, e3, e4⟩ := step_cost hs hcs hB (by omega)
        have e5 := ih h' e4 (by rw [e2]; exact hB) (by omega)
        have e6 : runWork (n + 1) st = stepWork st + runWork n st' := by
          rcases st with ⟨ctl, m, o⟩; cases ctl <;> simp [runWork, hs] at ho ⊢
        rw [e6]
        omega

theorem runWork_mono {n : Nat} : ∀ {st : St} {r : Machine × URN}, run n st = .ok r → ∀ {n' : Nat}, n ≤ n' → runWork n' st = runWork n st := by
  induction n with
  | zero =>
    intro st r h n' _
    rcases st with ⟨ctl, m, o⟩
    cases ctl <;> simp [run] at h
    simp [runWork]
  | succ n ih =>
    intro st r h n' hn
    obtain ⟨k, rfl⟩ : ∃ k, n' = k + 1 := ⟨n' - 1, by omega⟩
    rcases st with ⟨ctl, m, o⟩
    by_cases ho : ctl = .out
    · subst ho; simp [runWork]
    · cases hs : step ⟨ctl, m, o⟩ with
      | error p => cases ctl <;> simp [run, hs] at h ho
      | ok st' =>
        have h' : run n st' = .ok r := by cases ctl <;> simp [run, hs] at h ho <;> exact h
        have := ih h' (n' := k) (by omega)
        cases ctl <;> simp [runWork, hs, this] at ho ⊢

/-- The work of `Parse`: at most `rank + 2` times the number of rounds, and once more for every
question mark in the mode of RFC 8141. -/
theorem parseWork_le {m : Machine} (h : Start m.startParsingAt) (s : Bytes) :
    m.parseWork s ≤ (rank m.startParsingAt + (if in8141 m.startParsingAt then s.count 63 else 0) + 2) * (2 * s.length + 10) := by
  obtain ⟨m', o, h1, _⟩ := run_entry m s h
  have h2 : m.parseWork s = runWork (2 * s.length + 10) (entry (m.init s)) := runWork_mono h1 (by simp [fuelFor]; omega)
  have h3 : (entry (m.init s)).m.cs = m.startParsingAt := by simp only [entry]; (repeat' split) <;> rfl
  have h4 : (entry (m.init s)).m.data = s := by simp only [entry]; (repeat' split) <;> rfl
  have h5 : (entry (m.init s)).o.tolower = [] := by simp only [entry]; (repeat' split) <;> rfl
  have h6 : (entry (m.init s)).m.p = 0 := by simp only [entry]; (repeat' split) <;> rfl
  have h7 := run_cost (B := 2 * s.length + 10) h1 (by rw [h3]; rcases h with h | h | h | h <;> rw [h] <;> decide) (by rw [h4]; omega)
    (by rw [h5]; simp)
  have h8 : pot (entry (m.init s)) ≤ rank m.startParsingAt + if in8141 m.startParsingAt then s.count 63 else 0 := by
    simp only [pot, h3, marks, h4, h6]
    split
    · omega
    · apply Nat.add_le_add_left
      split
      · exact List.Sublist.count_le _ (List.drop_sublist _ _)
      · omega
  have h9 := Nat.mul_le_mul_right (2 * s.length + 10) h8
  rw [h2, Nat.add_mul]
  omega

/-! ## A family of texts for which the work is quadratic -/

variable {m0 : Machine} {s : Bytes}

/-- One byte of a run. -/
theorem char_work {cs p t : Nat} {pb pb' : Int} {o o' : URN} {c : UInt8} (b : Nat)
    (hc : s[p]? = some c) (ht : Trans m0 s cs c p pb o t pb' o') :
    runWork (b + 2) (cfg m0 s cs p pb o) = 2 + actsWork (tab cs c).2 (mk m0 s t p pb none) o + runWork b (cfg m0 s t (p + 1) pb' o') := by
  obtain ⟨h0, rfl, h1, h2, h3⟩ := ht
  have hp : p ≠ s.length := by have := lt_of_get hc; omega
  have e1 := resume_step hc (dispatch_ne_out h0 c) h3
  have e2 := again_step (m0 := m0) (s := s) (p := p + 1) (pb := pb') (err := none) (o := o') h2 h1
  have e3 : (((p + 1 : Nat) : Int) - 1) = (p : Int) := by omega
  rw [e3] at e2
  have e4 := stepWork_resume (m := mk m0 s cs p pb none) (o := o) (c := c) (index_of hc)
  have e5 : stepWork ⟨.again, mk m0 s (tab cs c).1 p pb' none, o'⟩ = 1 := rfl
  unfold cfg
  rw [if_neg hp, runWork, e1]
  simp only
  rw [runWork, e2, e4, e5]
  · simp only [mk]
    omega
  · simp
  · simp

/-- The work is at least that of the rest. -/
theorem char_work_le {cs p t : Nat} {pb pb' : Int} {o o' : URN} {c : UInt8} {b w : Nat}
    (hc : s[p]? = some c) (ht : Trans m0 s cs c p pb o t pb' o') (h : w ≤ runWork b (cfg m0 s t (p + 1) pb' o')) :
    w ≤ runWork (b + 2) (cfg m0 s cs p pb o) := by
  rw [char_work b hc ht]; omega

theorem tab_184 : tab 184 63 = (184, [.setRComponent]) := by rw [tab_eq]; decide +kernel
theorem tab_182 : tab 182 63 = (184, [.setRComponent]) := by rw [tab_eq]; decide +kernel

theorem trans_184 {p b : Nat} {o : URN} (h : b ≤ p) (hp : p ≤ s.length) :
    Trans m0 s 184 63 p b o 184 b { o with rComponent := sl s b p } := by
  refine ⟨by decide, by rw [tab_184], by decide, by decide, ?_⟩
  rw [tab_184]
  exact exec_cons_next (act_setR h hp)

/-- Every question mark copies the r-component read so far. -/
theorem marks_work (b r : Nat) : ∀ (k p : Nat) (o : URN), b ≤ p → p + k = s.length → (∀ j, p ≤ j → j < s.length → s[j]? = some 63) →
    k * k + 2 * (k * (p - b)) ≤ 2 * runWork (2 * k + r) (cfg m0 s 184 p b o)
  | 0, p, o, _, _, _ => by simp
  | k + 1, p, o, hb, hk, hs => by
      have hc := hs p (Nat.le_refl _) (by omega)
      have ht := trans_184 (m0 := m0) (s := s) (o := o) hb (by omega)
      have ih := marks_work b r k (p + 1) { o with rComponent := sl s b p } (by omega) (by omega) (fun j h1 h2 => hs j (by omega) h2)
      have e : 2 * (k + 1) + r = (2 * k + r) + 2 := by omega
      rw [e, char_work (2 * k + r) hc ht, tab_184]
      have e2 : actsWork [.setRComponent] (mk m0 s 184 p b none) o = p - b := by
        have := act_setR (m0 := m0) (s := s) (cs := 184) (err := none) (o := o) hb (by omega : p ≤ s.length)
        simp only [actsWork, this]
        simp only [actWork, Machine.textLen, mk]
        omega
      rw [e2]
      have e3 : p + 1 - b = (p - b) + 1 := by omega
      rw [e3] at ih
      generalize p - b = d at *
      generalize runWork (2 * k + r) _ = R at *
      have e4 : (k + 1) * (k + 1) = k * k + 2 * k + 1 := by rw [Nat.add_mul, Nat.mul_add]; omega
      have e5 : (k + 1) * d = k * d + d := by rw [Nat.add_mul]; omega
      have e6 : k * (d + 1) = k * d + k := by rw [Nat.mul_add]; omega
      omega

/-- `urn:ab:c?+a?` and `n` question marks. -/
def markText (n : Nat) : Bytes := lit "urn:ab:c?+a?" ++ List.replicate n 63

theorem markText_length (n : Nat) : (markText n).length = n + 12 := by
  simp only [markText, List.length_append, List.length_replicate]
  have : (lit "urn:ab:c?+a?").length = 12 := by decide
  omega

theorem markText_pre {n i : Nat} {c : UInt8} (h : (lit "urn:ab:c?+a?")[i]? = some c) : (markText n)[i]? = some c := by
  rw [markText, List.getElem?_append_left (lt_of_get h)]; exact h

theorem markText_rest {n j : Nat} (h1 : 12 ≤ j) (h2 : j < (markText n).length) : (markText n)[j]? = some 63 := by
  have e : (lit "urn:ab:c?+a?").length = 12 := by decide
  rw [markText_length] at h2
  rw [markText, List.getElem?_append_right (by omega), e]
  simp [List.getElem?_replicate]; omega

theorem act_setNss0 {cs p b : Nat} {err} {o : URN} (h : b ≤ p) (hp : p ≤ s.length) (ht : o.tolower = []) :
    execAct .setNss (mk m0 s cs p b err) o = .ok (.next, mk m0 s cs p b err, { o with SS := sl s b p, norm := sl s b p }) := by
  have e := text_ok (m0 := m0) (s := s) (cs := cs) (err := err) h hp
  simp only [execAct, ht, shiftAll, e, bind, Except.bind, pure, Except.pure]

theorem trans_of {cs p t : Nat} {pb pb' : Int} {o o' : URN} {c : UInt8} {as : List Act} (h0 : cs ≠ 0) (ht : tabF cs c = (t, as)) (h1 : t ≠ 0)
    (h2 : toStateActions[t]? = some 0) (hx : execActs as (mk m0 s t p pb none) o = .ok (.next, mk m0 s t p pb' none, o')) :
    Trans m0 s cs c p pb o t pb' o' := by
  rw [← tab_eq] at ht
  exact ⟨h0, by rw [ht], h1, h2, by rw [ht]; exact hx⟩

theorem markText_work (n r : Nat) (hm : m0.parsingMode = RFC8141Only) :
    n * n ≤ 2 * runWork (2 * n + r + 24) (cfg m0 (markText n) 83 0 0 {}) := by
  have hl := markText_length n
  have step {cs p t : Nat} {pb pb' : Int} {o o' : URN} {c : UInt8} {b : Nat} (hc : (lit "urn:ab:c?+a?")[p]? = some c)
      (ht : Trans m0 (markText n) cs c p pb o t pb' o') (h : n * n ≤ 2 * runWork b (cfg m0 (markText n) t (p + 1) pb' o')) :
      n * n ≤ 2 * runWork (b + 2) (cfg m0 (markText n) cs p pb o) := by
    rw [char_work b (markText_pre hc) ht]; omega
  refine step (t := 84) (o' := {}) (pb' := (0 : Nat)) (c := 117) (by decide) (trans_of (as := [.mark, .throwPreUrnErr]) (by decide) (by decide +kernel) (by decide) (by decide) ?_) ?_
  · refine (exec_cons_next act_mark).trans ?_
    simp only [execActs, execAct, mk, hm, ne_eq, not_true_eq_false, if_false, bind, Except.bind]
  refine step (t := 85) (o' := {}) (pb' := (0 : Nat)) (c := 114) (by decide) (trans_of (as := []) (by decide) (by decide +kernel) (by decide) (by decide) exec_nil) ?_
  refine step (t := 86) (o' := {}) (pb' := (0 : Nat)) (c := 110) (by decide) (trans_of (as := []) (by decide) (by decide +kernel) (by decide) (by decide) exec_nil) ?_
  refine step (t := 87) (o' := _) (pb' := (0 : Nat)) (c := 58) (by decide) (trans_of (as := [.setPre]) (by decide) (by decide +kernel) (by decide) (by decide)
    ((exec_cons_next (act_setPre (by omega) (by omega))).trans exec_nil)) ?_
  refine step (t := 88) (o' := _) (pb' := (4 : Nat)) (c := 97) (by decide) (trans_of (as := [.mark]) (by decide) (by decide +kernel) (by decide) (by decide)
    ((exec_cons_next act_mark).trans exec_nil)) ?_
  refine step (t := 166) (o' := _) (pb' := (4 : Nat)) (c := 98) (by decide) (trans_of (as := []) (by decide) (by decide +kernel) (by decide) (by decide) exec_nil) ?_
  refine step (t := 120) (o' := _) (pb' := (4 : Nat)) (c := 58) (by decide) (trans_of (as := [.setNid]) (by decide) (by decide +kernel) (by decide) (by decide)
    ((exec_cons_next (act_setNid (by omega) (by omega))).trans exec_nil)) ?_
  refine step (t := 177) (o' := _) (pb' := (7 : Nat)) (c := 99) (by decide) (trans_of (as := [.mark]) (by decide) (by decide +kernel) (by decide) (by decide)
    ((exec_cons_next act_mark).trans exec_nil)) ?_
  refine step (t := 125) (o' := _) (pb' := (7 : Nat)) (c := 63) (by decide) (trans_of (as := [.setNss]) (by decide) (by decide +kernel) (by decide) (by decide)
    ((exec_cons_next (act_setNss0 (by omega) (by omega) rfl)).trans exec_nil)) ?_
  refine step (t := 126) (o' := _) (pb' := (7 : Nat)) (c := 43) (by decide) (trans_of (as := []) (by decide) (by decide +kernel) (by decide) (by decide) exec_nil) ?_
  refine step (t := 182) (o' := _) (pb' := (10 : Nat)) (c := 97) (by decide) (trans_of (as := [.markRStart, .mark]) (by decide) (by decide +kernel) (by decide) (by decide)
    ((exec_cons_next (o' := _) rfl).trans ((exec_cons_next act_mark).trans exec_nil))) ?_
  refine step (t := 184) (o' := _) (pb' := (10 : Nat)) (c := 63) (by decide) (trans_of (as := [.setRComponent]) (by decide) (by decide +kernel) (by decide) (by decide)
    ((exec_cons_next (act_setR (by omega) (by omega))).trans exec_nil)) ?_
  exact Nat.le_trans (Nat.le_add_right _ _)
    (marks_work (m0 := m0) (s := markText n) 10 r n 12 _ (by omega) (by omega) (fun j h1 h2 => markText_rest h1 h2))

end Urn
