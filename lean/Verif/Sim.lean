import Verif.Machine
import Verif.Fast
import Verif.Spec
/-!
# Running the automaton: general lemmas

`Ends m0 s b st u e` says that the loop started in configuration `st` stops after at most `b`
steps without panic, with the buffer equal to `s`, and that `Parse` then returns `(u, e)`.
-/
namespace Urn
open Tables

/-- All bytes. -/
theorem forall_byte {P : UInt8 → Prop} (h : ∀ i : Fin 256, P (UInt8.ofFin i)) : ∀ c, P c :=
  fun c => h c.toFin

/-- Target state and actions of a transition. -/
def tab (cs : Nat) (c : UInt8) : Nat × List Act :=
  match dispatch cs c with
  | .out => (0, [])
  | .tr n => let (t, f) := trRow n; (t, match f with | none => [] | some f => fActs f)

/-- `tab`, in a form that the kernel evaluates quickly. -/
def tabF (cs : Nat) (c : UInt8) : Nat × List Act :=
  bif Nat.beq cs 0 then (0, [])
  else (fun x : Nat × Option Nat => (x.1, match x.2 with | none => [] | some f => fActsF f))
    (trRowF (trOfF cs c))

theorem tab_eq : tab = tabF := by
  funext cs c
  by_cases h : cs = 0
  · subst h; rfl
  · have hb : Nat.beq cs 0 = false := by cases cs with | zero => exact absurd rfl h | succ n => rfl
    simp only [tab, tabF, dispatch, h, if_false, hb, cond_false, trOfF_eq, trRowF_eq, fActsF_eq]

/-- EOF actions of a state. -/
def eofTab (cs : Nat) : Option (List Act) := (eofActions[cs]?).map eofActs

/-- A machine in the middle of a run on `s`. -/
def mk (m0 : Machine) (s : Bytes) (cs : Nat) (p pb : Int) (err : Option Err) : Machine :=
  { m0 with data := s, cs := cs, p := p, pe := s.length, eof := s.length, pb := pb, err := err }

/-- The configuration just before the byte at `p` is examined (or at the end). -/
def cfg (m0 : Machine) (s : Bytes) (cs p : Nat) (pb : Int) (o : URN) : St :=
  ⟨if p = s.length then .testEof else .resume, mk m0 s cs p pb none, o⟩

/-- How a run ends. -/
def Ends (m0 : Machine) (s : Bytes) (b : Nat) (st : St) (u : Option URN) (e : Option Err) : Prop :=
  ∃ m o, run b st = .ok (m, o) ∧ m.data = s ∧ m.err = e ∧ result m o = (u, e) ∧
    m.startParsingAt = m0.startParsingAt ∧ m.parsingMode = m0.parsingMode ∧
    m.parsingModeSet = m0.parsingModeSet

theorem run_mono {b : Nat} {st : St} {r} (h : run b st = .ok r) : ∀ {b'}, b ≤ b' → run b' st = .ok r := by
  induction b generalizing st with
  | zero =>
    intro b' _
    rcases st with ⟨ctl, m, o⟩
    cases ctl <;> simp [run] at h ⊢
    exact h
  | succ n ih =>
    intro b' hb
    rcases st with ⟨ctl, m, o⟩
    obtain ⟨k, rfl⟩ : ∃ k, b' = k + 1 := ⟨b' - 1, by omega⟩
    cases ctl
    case out => simpa [run] using h
    all_goals
      rw [run] at h ⊢
      · cases hs : step _ with
        | error p => simp [hs] at h
        | ok s' =>
          simp only [hs] at h ⊢
          exact ih h (by omega)
      all_goals (intros; simp_all)

variable {m0 : Machine} {s : Bytes}

theorem Ends.mono {b b' st u e} (h : Ends m0 s b st u e) (hb : b ≤ b') : Ends m0 s b' st u e := by
  obtain ⟨m, o, h1, h2⟩ := h
  exact ⟨m, o, run_mono h1 hb, h2⟩

theorem Ends.step {b st st' u e} (hs : step st = .ok st') (hc : st.ctl ≠ .out)
    (h : Ends m0 s b st' u e) : Ends m0 s (b + 1) st u e := by
  obtain ⟨m, o, h1, h2⟩ := h
  refine ⟨m, o, ?_, h2⟩
  rcases st with ⟨ctl, m1, o1⟩
  cases ctl <;> simp_all [run]

/-- The next label after `_again` in a state without to-state action. -/
theorem again_step {cs : Nat} {p : Nat} {pb : Int} {err : Option Err} {o : URN}
    (h1 : toStateActions[cs]? = some 0) (h0 : cs ≠ 0) :
    step ⟨.again, mk m0 s cs ((p : Int) - 1) pb err, o⟩ =
      .ok ⟨if p = s.length then .testEof else .resume, mk m0 s cs p pb err, o⟩ := by
  have e : (p : Int) - 1 + 1 = p := by omega
  simp only [step, mk, h1, h0, if_false, e]
  by_cases hp : p = s.length
  · simp [hp, pure, Except.pure]
  · have : (p : Int) ≠ s.length := by omega
    simp [hp, this, pure, Except.pure]

theorem index_of {d : Bytes} {p : Nat} {c : UInt8} (h : d[p]? = some c) : index d p = .ok c := by
  simp [index, h]

/-- Executing a transition. -/
theorem resume_step {cs p : Nat} {pb : Int} {err} {o : URN} {c : UInt8} {m'' o'' fl}
    (hc : s[p]? = some c) (hout : dispatch cs c ≠ .out)
    (hx : execActs (tab cs c).2 (mk m0 s (tab cs c).1 p pb err) o = .ok (fl, m'', o'')) :
    step ⟨.resume, mk m0 s cs p pb err, o⟩ = .ok ⟨.again, m'', o''⟩ := by
  have hi := index_of hc
  simp only [step]
  simp only [mk, hi] at hx ⊢
  simp only [bind, Except.bind, pure, Except.pure] at hx ⊢
  cases hd : dispatch cs c with
  | out => exact absurd hd hout
  | tr n =>
    simp only [tab, hd] at hx ⊢
    rcases htr : trRow n with ⟨t, f⟩
    simp only [htr] at hx ⊢
    cases f with
    | none =>
      simp only [execActs] at hx
      injection hx with hx
      injection hx with _ hx
      injection hx with hx1 hx2
      simp [← hx1, ← hx2]
    | some f =>
      simp only at hx ⊢
      simp [hx]

/-- `dispatch` never jumps straight out, except in the error state 0. -/
theorem dispatch_ne_out {cs : Nat} (h : cs ≠ 0) (c : UInt8) : dispatch cs c ≠ .out := by
  simp [dispatch, h]

/-- A transition that keeps the machine running. -/
def Trans (m0 : Machine) (s : Bytes) (cs : Nat) (c : UInt8) (p : Nat) (pb : Int) (o : URN)
    (t : Nat) (pb' : Int) (o' : URN) : Prop :=
  cs ≠ 0 ∧ (tab cs c).1 = t ∧ t ≠ 0 ∧ toStateActions[t]? = some 0 ∧
  execActs (tab cs c).2 (mk m0 s t p pb none) o = .ok (.next, mk m0 s t p pb' none, o')

theorem lt_of_get {d : Bytes} {p : Nat} {c : UInt8} (h : d[p]? = some c) : p < d.length := by
  obtain ⟨h, _⟩ := List.getElem?_eq_some_iff.mp h
  exact h

theorem Ends.char {cs p t : Nat} {pb pb' : Int} {o o' : URN} {c : UInt8} {b u e}
    (hc : s[p]? = some c) (ht : Trans m0 s cs c p pb o t pb' o')
    (h : Ends m0 s b (cfg m0 s t (p + 1) pb' o') u e) :
    Ends m0 s (b + 2) (cfg m0 s cs p pb o) u e := by
  obtain ⟨h0, rfl, h1, h2, h3⟩ := ht
  have hp : p ≠ s.length := by have := lt_of_get hc; omega
  have e1 := resume_step hc (dispatch_ne_out h0 c) h3
  have e2 := again_step (m0 := m0) (s := s) (p := p + 1) (pb := pb') (err := none) (o := o') h2 h1
  have e3 : (((p + 1 : Nat) : Int) - 1) = (p : Int) := by omega
  rw [e3] at e2
  unfold cfg
  rw [if_neg hp]
  exact Ends.step e1 (by simp) (Ends.step e2 (by simp) h)

/-- Once in the failure state, the rest of the input is skipped. -/
theorem fail_loop {p : Nat} {pb : Int} {o : URN} {er : Err} (k : Nat) (hk : p + k = s.length) :
    Ends m0 s (2 * k + 2)
      ⟨if p = s.length then .testEof else .resume, mk m0 s 193 p pb (some er), o⟩
      none (some er) := by
  induction k generalizing p with
  | zero =>
    have hp : p = s.length := by omega
    subst hp
    simp only [if_true]
    refine Ends.step (st' := ⟨.out, mk m0 s 193 s.length pb (some er), o⟩) ?_ (by simp) ?_
    · simp only [_root_.Urn.step, mk, if_true]
      rfl
    · exact ⟨_, _, rfl, rfl, rfl, rfl, rfl, rfl, rfl⟩
  | succ k ih =>
    have hp : p ≠ s.length := by omega
    have hlt : p < s.length := by omega
    have hc : s[p]? = some s[p] := List.getElem?_eq_getElem hlt
    generalize s[p] = c at hc
    simp only [hp, if_false]
    have htab : tab 193 c = (193, []) ∨ tab 193 c = (0, []) := by
      revert c; exact fun c _ => forall_byte (P := fun c => tab 193 c = (193, []) ∨ tab 193 c = (0, [])) (by rw [tab_eq]; decide +kernel) c
    rcases htab with htab | htab
    · have e1 : _root_.Urn.step ⟨.resume, mk m0 s 193 p pb (some er), o⟩ = .ok ⟨.again, mk m0 s 193 p pb (some er), o⟩ :=
        resume_step (fl := .next) hc (dispatch_ne_out (by decide) c) (by rw [htab]; rfl)
      have e2 := again_step (m0 := m0) (s := s) (p := p + 1) (pb := pb) (err := some er) (o := o) (cs := 193) (by decide) (by decide)
      have e3 : (((p + 1 : Nat) : Int) - 1) = (p : Int) := by omega
      rw [e3] at e2
      exact Ends.step e1 (by simp) (Ends.step e2 (by simp) (ih (by omega)))
    · have e1 : _root_.Urn.step ⟨.resume, mk m0 s 193 p pb (some er), o⟩ = .ok ⟨.again, mk m0 s 0 p pb (some er), o⟩ :=
        resume_step (fl := .next) hc (dispatch_ne_out (by decide) c) (by rw [htab]; rfl)
      have e2 : _root_.Urn.step ⟨.again, mk m0 s 0 p pb (some er), o⟩ = .ok ⟨.out, mk m0 s 0 p pb (some er), o⟩ := rfl
      refine Ends.mono (b := 2) ?_ (by omega)
      exact Ends.step e1 (by simp) (Ends.step e2 (by simp) ⟨_, _, rfl, rfl, rfl, rfl, rfl, rfl, rfl⟩)

/-- After an error action at position `p`. -/
theorem fail_again {p : Nat} {pb : Int} {o : URN} {er : Err} (hp : p ≤ s.length) :
    Ends m0 s (2 * (s.length - p) + 3)
      ⟨.again, mk m0 s 193 ((p : Int) - 1) pb (some er), o⟩ none (some er) := by
  have e2 := again_step (m0 := m0) (s := s) (p := p) (pb := pb) (err := some er) (o := o) (cs := 193) (by decide) (by decide)
  exact Ends.step e2 (by simp) (fail_loop (s.length - p) (by omega))

/-- The effect of raising an error. -/
def Raises (m0 : Machine) (s : Bytes) (acts : List Act) (cs p : Nat) (pb : Int) (o : URN)
    (er : Err) : Prop :=
  ∃ pb' o', execActs acts (mk m0 s cs p pb none) o =
    .ok (.again, mk m0 s 193 ((p : Int) - 1) pb' (some er), o')

/-- A byte that makes the machine fail. -/
theorem Ends.bad {cs p : Nat} {pb : Int} {o : URN} {c : UInt8} {er : Err}
    (hc : s[p]? = some c) (h0 : cs ≠ 0)
    (h : Raises m0 s (tab cs c).2 (tab cs c).1 p pb o er) :
    Ends m0 s (2 * (s.length - p) + 4) (cfg m0 s cs p pb o) none (some er) := by
  obtain ⟨pb', o', h⟩ := h
  have hp := lt_of_get hc
  have e1 := resume_step hc (dispatch_ne_out h0 c) h
  unfold cfg
  rw [if_neg (by omega)]
  exact Ends.step e1 (by simp) (fail_again (by omega))

/-- A byte that stops the machine without an error. -/
theorem Ends.stop {cs p : Nat} {pb : Int} {o : URN} {c : UInt8}
    (hc : s[p]? = some c) (h0 : cs ≠ 0) (ht : (tab cs c).1 = 0)
    (h : ∃ fl, execActs (tab cs c).2 (mk m0 s 0 p pb none) o = .ok (fl, mk m0 s 0 p pb none, o)) :
    Ends m0 s 2 (cfg m0 s cs p pb o) none none := by
  obtain ⟨fl, h⟩ := h
  have hp := lt_of_get hc
  have e1 := resume_step (err := none) (fl := fl) hc (dispatch_ne_out h0 c) (by rw [ht]; exact h)
  have e2 : _root_.Urn.step ⟨.again, mk m0 s 0 p pb none, o⟩ = .ok ⟨.out, mk m0 s 0 p pb none, o⟩ := rfl
  unfold cfg
  rw [if_neg (by omega)]
  exact Ends.step e1 (by simp) (Ends.step e2 (by simp) ⟨_, _, rfl, rfl, rfl, rfl, rfl, rfl, rfl⟩)

theorem eof_step {cs : Nat} {pb : Int} {o : URN} {acts : List Act} {fl m'' o''}
    (ha : eofTab cs = some acts)
    (hx : execActs acts (mk m0 s cs s.length pb none) o = .ok (fl, m'', o'')) :
    _root_.Urn.step ⟨.testEof, mk m0 s cs s.length pb none, o⟩ =
      .ok ⟨match fl with | .again => .again | .next => .out, m'', o''⟩ := by
  simp only [eofTab, Option.map_eq_some_iff] at ha
  obtain ⟨n, hn, rfl⟩ := ha
  have e1 : (mk m0 s cs s.length pb none).cs = cs := rfl
  have e2 : (mk m0 s cs s.length pb none).p = (mk m0 s cs s.length pb none).eof := rfl
  simp only [_root_.Urn.step, e1, e2, if_true, hn, hx]
  cases fl <;> rfl

/-- End of input in a state where this is an error. -/
theorem Ends.eofBad {cs : Nat} {pb : Int} {o : URN} {acts : List Act} {er : Err}
    (ha : eofTab cs = some acts) (h : Raises m0 s acts cs s.length pb o er) :
    Ends m0 s 4 (cfg m0 s cs s.length pb o) none (some er) := by
  obtain ⟨pb', o', h⟩ := h
  have e1 := eof_step ha h
  unfold cfg
  rw [if_pos rfl]
  refine Ends.step e1 (by simp) ?_
  have := fail_again (m0 := m0) (s := s) (p := s.length) (pb := pb') (o := o') (er := er) (Nat.le_refl _)
  simpa using this

/-- End of input in an accepting state. -/
theorem Ends.eofOk {cs : Nat} {pb pb' : Int} {o o' : URN} {acts : List Act}
    (ha : eofTab cs = some acts) (hf : 172 ≤ cs) (hf' : cs ≠ 193)
    (h : execActs acts (mk m0 s cs s.length pb none) o = .ok (.next, mk m0 s cs s.length pb' none, o')) :
    Ends m0 s 4 (cfg m0 s cs s.length pb o) (some o') none := by
  have e1 := eof_step ha h
  unfold cfg
  rw [if_pos rfl]
  refine Ends.mono (b := 1) (Ends.step e1 (by simp) ?_) (by omega)
  refine ⟨_, _, rfl, rfl, rfl, ?_, rfl, rfl, rfl⟩
  have : ¬ (cs < firstFinal ∨ cs = enFail) := by simp [firstFinal, enFail]; omega
  simp [result, mk, this]

/-- End of input in a state that is neither accepting nor an error. -/
theorem Ends.eofNil {cs : Nat} {pb pb' : Int} {o o' : URN} {acts : List Act}
    (ha : eofTab cs = some acts) (hf : cs < 172)
    (h : execActs acts (mk m0 s cs s.length pb none) o = .ok (.next, mk m0 s cs s.length pb' none, o')) :
    Ends m0 s 4 (cfg m0 s cs s.length pb o) none none := by
  have e1 := eof_step ha h
  unfold cfg
  rw [if_pos rfl]
  refine Ends.mono (b := 1) (Ends.step e1 (by simp) ?_) (by omega)
  refine ⟨_, _, rfl, rfl, rfl, ?_, rfl, rfl, rfl⟩
  have : (cs < firstFinal ∨ cs = enFail) := by simp [firstFinal]; omega
  simp [result, mk, this]

/-! ## Maximal munch -/

/-- Read bytes as long as `step` allows: the final state, the bytes read, the rest. -/
def munch {σ : Type} (step : σ → UInt8 → Option σ) : σ → Bytes → σ × Bytes × Bytes
  | q, [] => (q, [], [])
  | q, c :: r =>
      match step q c with
      | none => (q, [], c :: r)
      | some q' => let x := munch step q' r; (x.1, c :: x.2.1, x.2.2)

theorem munch_append {σ} (step : σ → UInt8 → Option σ) (q : σ) (l : Bytes) :
    (munch step q l).2.1 ++ (munch step q l).2.2 = l := by
  induction l generalizing q with
  | nil => rfl
  | cons c r ih =>
    simp only [munch]
    split
    · rfl
    · simp [ih]

theorem munch_stop {σ} (step : σ → UInt8 → Option σ) (q : σ) (l : Bytes) {c t}
    (h : (munch step q l).2.2 = c :: t) : step (munch step q l).1 c = none := by
  induction l generalizing q with
  | nil => simp [munch] at h
  | cons c' r ih =>
    simp only [munch] at h ⊢
    split at h
    · simp at h; obtain ⟨rfl, rfl⟩ := h; simp_all
    · simp only at h ⊢; simp_all

theorem drop_cons {p : Nat} {c : UInt8} {r : Bytes} (h : s.drop p = c :: r) :
    s[p]? = some c ∧ s.drop (p + 1) = r := by
  constructor
  · have := congrArg List.head? h
    simpa using this
  · have := congrArg List.tail h
    simpa using this

/-- The machine follows a maximal munch. -/
theorem munch_sim {σ : Type} (stp : σ → UInt8 → Option σ) (enc : σ → Nat)
    (J : σ → Nat → Int → URN → Prop)
    (H : ∀ q q' c p pb o, J q p pb o → s[p]? = some c → stp q c = some q' →
      ∃ pb' o', J q' (p + 1) pb' o' ∧ Trans m0 s (enc q) c p pb o (enc q') pb' o')
    (rest : Bytes) (q : σ) (p : Nat) (pb : Int) (o : URN) (hr : s.drop p = rest) (hJ : J q p pb o) :
    ∃ pb' o', J (munch stp q rest).1 (p + (munch stp q rest).2.1.length) pb' o' ∧
      s.drop (p + (munch stp q rest).2.1.length) = (munch stp q rest).2.2 ∧
      ∀ b u e,
        Ends m0 s b (cfg m0 s (enc (munch stp q rest).1) (p + (munch stp q rest).2.1.length) pb' o') u e →
        Ends m0 s (b + 2 * (munch stp q rest).2.1.length) (cfg m0 s (enc q) p pb o) u e := by
  induction rest generalizing q p pb o with
  | nil => exact ⟨pb, o, hJ, hr, fun b u e h => h⟩
  | cons c r ih =>
    simp only [munch]
    cases hs : stp q c with
    | none => exact ⟨pb, o, hJ, hr, fun b u e h => h⟩
    | some q' =>
      obtain ⟨hc, hr'⟩ := drop_cons hr
      obtain ⟨pb', o', hJ', ht⟩ := H q q' c p pb o hJ hc hs
      obtain ⟨pb2, o2, hJ2, hd, hE⟩ := ih q' (p + 1) pb' o' hr' hJ'
      simp only [List.length_cons]
      have e : p + ((munch stp q' r).2.1.length + 1) = p + 1 + (munch stp q' r).2.1.length := by omega
      rw [e]
      refine ⟨pb2, o2, hJ2, hd, fun b u e h => ?_⟩
      refine Ends.mono (Ends.char hc ht (hE b u e h)) (by omega)

end Urn
