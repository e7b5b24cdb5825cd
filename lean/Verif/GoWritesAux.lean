import Verif.GoWrites
import Verif.WordAux
import Verif.PropsConc
/-!
# `parseWrites` says which bytes are in the list of writes
-/
set_option autoImplicit false
namespace Urn.GoLang
open Tables

/-- One of these is a write to a byte whose index is in `q`. -/
def touches (q : Int → Bool) (l : List (Nat × UInt8)) : Bool := l.any fun x => q x.1

@[simp] theorem touches_nil (q : Int → Bool) : touches q [] = false := rfl

theorem touches_append (q : Int → Bool) (a b : List (Nat × UInt8)) : touches q (a ++ b) = (touches q a || touches q b) := List.any_append

theorem touches_shift (q : Int → Bool) (pb : Int) (delta : UInt8) : ∀ (is : List Int) (d : Bytes),
    touches q (shiftW pb delta is d) = is.any fun i => q (pb + i).toNat
  | [], _ => rfl
  | i :: is, d => by
      simp only [shiftW, touches, List.any_cons]
      have := touches_shift q pb delta is (d.set (pb + i).toNat (d.getD (pb + i).toNat 0 + delta))
      rw [touches] at this
      rw [this]

theorem shift_bounds {pb : Int} {delta : UInt8} : ∀ {is : List Int} {d d' : Bytes}, shiftAll pb delta is d = .ok d' →
    ∀ i ∈ is, 0 ≤ pb + i ∧ pb + i < d.length
  | [], _, _, _ => by simp
  | i :: is, d, d', hs => by
      simp only [shiftAll] at hs
      obtain ⟨c, h1, hs⟩ := bind_ok hs
      obtain ⟨d1, h2, hs⟩ := bind_ok hs
      have := shift_bounds hs
      rw [store_length h2] at this
      intro x hx
      rcases List.mem_cons.1 hx with rfl | hx
      · exact index_bounds h1
      · exact this x hx

theorem any_congr {α : Type} {p q : α → Bool} : ∀ {l : List α}, (∀ x ∈ l, p x = q x) → l.any p = l.any q
  | [], _ => rfl
  | a :: l, h => by rw [List.any_cons, List.any_cons, h a List.mem_cons_self, any_congr fun x hx => h x (List.mem_cons_of_mem _ hx)]

section
variable {w n : Nat} {q : Int → Bool}

theorem actWrites_eq (h : Fits w n) {a : Act} {m m' : Machine} {o o' : URN} {fl : Flow} (hm : Mid n m) (hx : execAct a m o = .ok (fl, m', o')) :
    actWrites w q a m o = touches q (actW a m o) := by
  cases a
  case setNss =>
    simp only [execAct] at hx
    obtain ⟨t, -, hx⟩ := bind_ok hx
    obtain ⟨d, h1, hx⟩ := bind_ok hx
    simp only [actWrites, actW, h1, touches_append, touches_shift, Bool.or_self]
    apply any_congr
    intro i hi
    have := shift_bounds h1 i hi
    rw [hm.len] at this
    rw [h.wrap (by omega) (by omega), Int.toNat_of_nonneg this.1]
  all_goals rfl

theorem actsWrite_eq (h : Fits w n) : ∀ {as : List Act} {m m' : Machine} {o o' : URN} {fl : Flow}, Mid n m → 0 ≤ m.p → m.p ≤ n →
    (.throwPreUrnErr ∈ as → m.p ≤ 4) → execActs as m o = .ok (fl, m', o') → actsWrite w q as m o = touches q (actsW as m o) := by
  intro as
  induction as with
  | nil => intro m m' o o' fl hm h0 h1 ha hx; rfl
  | cons a as ih =>
      intro m m' o o' fl hm h0 h1 ha hx
      simp only [execActs, bind, Except.bind, pure, Except.pure] at hx
      simp only [actsWrite, actsW]
      rw [touches_append]
      cases hx1 : execAct a m o with
      | error p => rw [hx1] at hx; cases hx
      | ok r =>
          rcases r with ⟨fl1, m1, o1⟩
          rw [hx1] at hx
          obtain ⟨e1, hm1, hp⟩ := execActBits_ok h hm h0 h1 (fun e => ha (by rw [e]; exact List.mem_cons_self)) hx1
          rw [e1, actWrites_eq h hm hx1]
          cases fl1 with
          | again => rfl
          | next =>
              simp only at hx hp
              exact congrArg _ (ih hm1 (by omega) (by omega) (fun e => by have := ha (List.mem_cons_of_mem _ e); omega) hx)

theorem stepWrites_eq (h : Fits w n) {st st' : St} (hi : LoopInv n st) (hs : step st = .ok st') : stepWrites w q st = touches q (stepW st) := by
  rcases st with ⟨ctl, m, o⟩
  obtain ⟨hm, hi⟩ := hi
  simp only at hm hi
  cases ctl with
  | out => simp [stepWrites, stepW]
  | again => simp [stepWrites, stepW]
  | resume =>
      obtain ⟨h0, h1, h2, h3⟩ := hi
      simp only [step, bind, Except.bind, pure, Except.pure] at hs
      simp only [stepWrites, stepW]
      cases hx : index m.data m.p with
      | error p => simp
      | ok c =>
          rw [hx] at hs
          simp only at hs ⊢
          have hd := depth_step (c := c) h2
          simp only [tab] at hd ⊢
          cases hdis : dispatch m.cs c with
          | out => simp [actsW]
          | tr k =>
              rw [hdis] at hs hd
              simp only at hs hd ⊢
              cases hf : (trRow k).2 with
              | none => simp [hf, actsW]
              | some f =>
                  rw [hf] at hs hd
                  simp only [hf] at hs hd ⊢
                  cases hx : execActs (fActs f) { m with cs := (trRow k).1 } o with
                  | error p => rw [hx] at hs; cases hs
                  | ok r =>
                      rcases r with ⟨fl, m1, o1⟩
                      have hp : Act.throwPreUrnErr ∈ fActs f → m.p ≤ 4 := by
                        intro hm
                        obtain ⟨k, hk, h4⟩ := hd.2 hm
                        have := h3 k hk
                        omega
                      exact actsWrite_eq h (m := { m with cs := (trRow k).1 }) ⟨hm.len, hm.pe, hm.eof, hm.pb0, hm.pb1⟩ h0 (Int.le_of_lt h1) hp hx
  | testEof =>
      have hpe : m.p = m.eof := by rw [hm.eof]; exact hi
      simp only [step] at hs
      simp only [stepWrites, stepW, eofTab]
      rw [if_pos hpe] at hs
      rw [if_pos hpe, if_pos hpe]
      cases he : eofActions[m.cs]? with
      | none => simp
      | some k =>
          rw [he] at hs
          simp only [bind, Except.bind, pure, Except.pure, Option.map_some] at hs ⊢
          have hl : m.cs < 194 := by
            obtain ⟨hl, _⟩ := List.getElem?_eq_some_iff.mp he
            rw [eof_len] at hl
            exact hl
          have hno : Act.throwPreUrnErr ∉ eofActs k := eof_noPre ⟨m.cs, hl⟩ _ (by simp only [eofTab, he, Option.map_some])
          cases hx : execActs (eofActs k) m o with
          | error p => rw [hx] at hs; cases hs
          | ok r =>
              rcases r with ⟨fl, m1, o1⟩
              exact actsWrite_eq h hm (by simp only at hi; omega) (by simp only at hi; omega) (fun e => absurd e hno) hx

theorem loopWrites_out (w : Nat) (q : Int → Bool) (b : Nat) (m : Machine) (o : URN) : loopWrites w q b ⟨.out, m, o⟩ = false := by
  induction b with
  | zero => rfl
  | succ b ih => simp [loopWrites, stepWrites, stepBits, pure, Except.pure, ih]

theorem loopWrites_eq (h : Fits w n) : ∀ {b : Nat} {st : St} {r : Machine × URN}, LoopInv n st → run b st = .ok r → loopWrites w q b st = touches q (runW b st) := by
  intro b
  induction b with
  | zero =>
      intro st r hi hr
      rcases st with ⟨ctl, m, o⟩
      cases ctl <;> simp [loopWrites, runW]
  | succ b ih =>
      intro st r hi hr
      by_cases hc : st.ctl = .out
      · rcases st with ⟨ctl, m, o⟩
        cases hc
        rw [loopWrites_out]
        simp [runW]
      · cases hs : step st with
        | error p =>
            rcases st with ⟨ctl, m, o⟩
            cases ctl <;> first | exact absurd rfl hc | (simp only [run, hs] at hr; cases hr)
        | ok st' =>
            obtain ⟨e, hi'⟩ := stepBits_ok h hi hs
            have hr' : run b st' = .ok r := by
              rcases st with ⟨ctl, m, o⟩
              cases ctl <;> simp only [run, hs] at hr <;> first | exact hr | exact absurd rfl hc
            have e2 : runW (b + 1) st = stepW st ++ runW b st' := by
              rcases st with ⟨ctl, m, o⟩
              cases ctl <;> first | exact absurd rfl hc | simp only [runW, hs]
            rw [loopWrites, e, e2, touches_append, stepWrites_eq h hi hs]
            exact congrArg _ (ih hi' hr')

/-- The call writes to a byte exactly if that is in the list of its writes. -/
theorem parseWrites_eq {m : Machine} {s : Bytes} (hm : Reachable m) (h : Fits w s.length) :
    parseWrites w q m s = touches q ((m.parseP s.length).alone s).2.2 := by
  obtain ⟨r, -, -, h2⟩ := parse_alone hm s
  obtain ⟨m', o, h1, _⟩ := run_of_ends (run_entry m s hm.start) (by simp [fuelFor]; omega)
  rw [h2]
  exact loopWrites_eq h (loopInv_entry m s hm.start) h1
end

end Urn.GoLang
