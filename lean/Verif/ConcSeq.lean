import Verif.Conc
import Verif.Sim
/-!
# One call alone does what `Machine.parse` says
-/
set_option autoImplicit false
namespace Urn
open Tables

/-- Alone, `p` returns `a` and leaves the buffer `d'`, after the writes `W`. -/
def Does {α : Type} (p : Prog α) (d : Bytes) (a : α) (d' : Bytes) (W : List (Nat × UInt8)) : Prop :=
  p.alone d = (.ok a, d', W)

theorem Does.pure {α : Type} {a : α} {d : Bytes} : Does (pure a : Prog α) d a d [] := rfl

theorem alone_bind {α β : Type} (p : Prog α) (f : α → Prog β) : ∀ {d a d1 W1}, p.alone d = (.ok a, d1, W1) →
    (p.bind f).alone d = (((f a).alone d1).1, ((f a).alone d1).2.1, W1 ++ ((f a).alone d1).2.2) := by
  induction p with
  | done r =>
    intro d a d1 W1 h
    simp only [Prog.alone, Prod.mk.injEq] at h
    obtain ⟨rfl, rfl, rfl⟩ := h
    simp [Prog.bind]
  | read i k ih =>
    intro d a d1 W1 h
    simp only [Prog.alone, Prog.bind] at h ⊢
    exact ih _ h
  | write i c k ih =>
    intro d a d1 W1 h
    simp only [Prog.alone, Prog.bind, Prod.mk.injEq] at h ⊢
    obtain ⟨h1, h2, h3⟩ := h
    have := ih (d := d.set i c) (a := a) (d1 := d1) (W1 := (k.alone (d.set i c)).2.2) (by rw [← h1, ← h2])
    rw [this, ← h3]
    exact ⟨rfl, rfl, rfl⟩

theorem Does.bind {α β : Type} {p : Prog α} {f : α → Prog β} {d d1 d2 : Bytes} {a : α} {b : β} {W1 W2 : List (Nat × UInt8)}
    (h1 : Does p d a d1 W1) (h2 : Does (f a) d1 b d2 W2) : Does (p >>= f) d b d2 (W1 ++ W2) := by
  show (p.bind f).alone d = _
  rw [alone_bind p f h1, h2]

theorem Does.bind' {α β : Type} {p : Prog α} {f : α → Prog β} {d d1 d2 : Bytes} {a : α} {b : β} {W2 : List (Nat × UInt8)}
    (h1 : Does p d a d1 []) (h2 : Does (f a) d1 b d2 W2) : Does (p >>= f) d b d2 W2 := Does.bind h1 h2

theorem Does.map {α β : Type} {p : Prog α} {f : α → Prog β} {d d1 : Bytes} {a : α} {b : β} {W1 : List (Nat × UInt8)}
    (h1 : Does p d a d1 W1) (h2 : Does (f a) d1 b d1 []) : Does (p >>= f) d b d1 W1 := by
  have := Does.bind h1 h2
  rwa [List.append_nil] at this

theorem index_ok {d : Bytes} {i : Int} {c : UInt8} (h : index d i = .ok c) : 0 ≤ i ∧ i < d.length ∧ d.getD i.toNat 0 = c := by
  simp only [index] at h
  split at h
  · rename_i h0
    split at h
    · rename_i c' hc
      injection h with h
      have := lt_of_get hc
      refine ⟨h0, by omega, ?_⟩
      simp [List.getD_eq_getElem?_getD, hc, h]
    · simp at h
  · simp at h

theorem getP_does {d : Bytes} {i : Int} {c : UInt8} (h : index d i = .ok c) : Does (getP d.length i) d c d [] := by
  obtain ⟨h0, h1, h2⟩ := index_ok h
  simp only [Does, getP, h0, h1, and_self, if_true, Prog.alone, h2]
  rfl

theorem store_ok {d d' : Bytes} {i : Int} {c : UInt8} (h : store d i c = .ok d') : 0 ≤ i ∧ i < d.length ∧ d' = d.set i.toNat c := by
  simp only [store] at h
  split at h
  · rename_i h0; injection h with h; exact ⟨h0.1, h0.2, h.symm⟩
  · simp at h

theorem putP_does {d d' : Bytes} {i : Int} {c : UInt8} (h : store d i c = .ok d') : Does (putP d.length i c) d () d' [(i.toNat, c)] := by
  obtain ⟨h0, h1, rfl⟩ := store_ok h
  simp only [Does, putP, h0, h1, and_self, if_true, Prog.alone]
  rfl

theorem copyP_does (d : Bytes) (k : Nat) : ∀ b, b + k ≤ d.length → Does (copyP b k) d ((d.drop b).take k) d [] := by
  induction k with
  | zero => intro b _; simp [copyP]; exact Does.pure
  | succ k ih =>
    intro b hb
    have h1 : d.drop b = d.getD b 0 :: d.drop (b + 1) := by
      rw [List.drop_eq_getElem_cons (by omega)]
      simp [List.getD_eq_getElem?_getD, List.getElem?_eq_getElem (show b < d.length by omega)]
    rw [h1, List.take_succ_cons]
    have := Does.bind' (f := fun l => (Pure.pure (d.getD b 0 :: l) : Prog Bytes)) (ih (b + 1) (by omega)) Does.pure
    exact this

theorem sliceP_does {d t : Bytes} {i j : Int} (h : slice d i j = .ok t) : Does (sliceP d.length i j) d t d [] := by
  simp only [slice] at h
  split at h
  · rename_i h0
    injection h with h
    simp only [sliceP, if_pos h0]
    rw [← h]
    exact copyP_does d _ _ (by omega)
  · simp at h

/-- The writes of one of the loops of `set_nss`. -/
def shiftW (pb : Int) (delta : UInt8) : List Int → Bytes → List (Nat × UInt8)
  | [], _ => []
  | i :: is, d =>
      let c := d.getD (pb + i).toNat 0 + delta
      ((pb + i).toNat, c) :: shiftW pb delta is (d.set (pb + i).toNat c)

theorem bind_ok {α β : Type} {x : Except Panic α} {f : α → Except Panic β} {b : β} (h : (x >>= f) = .ok b) : ∃ a, x = .ok a ∧ f a = .ok b := by
  cases x with
  | error p => simp [bind, Except.bind] at h
  | ok a => exact ⟨a, rfl, h⟩

theorem shiftP_does {pb : Int} {delta : UInt8} {is : List Int} : ∀ {d d' : Bytes}, shiftAll pb delta is d = .ok d' →
    Does (shiftP d.length pb delta is) d () d' (shiftW pb delta is d) ∧ d'.length = d.length := by
  induction is with
  | nil => intro d d' h; simp only [shiftAll] at h; injection h with h; subst h; exact ⟨Does.pure, rfl⟩
  | cons i is ih =>
    intro d d' h
    simp only [shiftAll] at h
    obtain ⟨c, h1, h⟩ := bind_ok h
    obtain ⟨d1, h2, h⟩ := bind_ok h
    have h3 := store_ok h2
    have h4 := index_ok h1
    have hl : d1.length = d.length := by rw [h3.2.2]; simp
    obtain ⟨h5, h6⟩ := ih h
    refine ⟨?_, by rw [h6, hl]⟩
    simp only [shiftP, shiftW, h4.2.2]
    refine Does.bind' (getP_does h1) ?_
    rw [← h3.2.2]
    rw [hl] at h5
    exact Does.bind (putP_does h2) h5

/-- The machine as its goroutine sees it. -/
def Machine.forget (m : Machine) : Machine := { m with data := [] }

/-- The writes of an action. -/
def actW (a : Act) (m : Machine) (o : URN) : List (Nat × UInt8) :=
  match a with
  | .setNss => shiftW m.pb 32 o.tolower m.data ++
      match shiftAll m.pb 32 o.tolower m.data with
      | .ok d => shiftW m.pb (-32) o.tolower d
      | .error _ => []
  | _ => []

theorem actP_does {a : Act} {m m' : Machine} {o o' : URN} {fl : Flow} (h : execAct a m o = .ok (fl, m', o')) :
    Does (actP m.data.length a m.forget o) m.data (fl, m'.forget, o') m'.data (actW a m o) ∧ m'.data.length = m.data.length := by
  have hp : m.forget.p = m.p := rfl
  have hpb : m.forget.pb = m.pb := rfl
  have hpe : m.forget.pe = m.pe := rfl
  have hmode : m.forget.parsingMode = m.parsingMode := rfl
  have hraise : ∀ k c, raise k c m.forget o = (let x := raise k c m o; (x.1, x.2.1.forget, x.2.2)) := fun _ _ => rfl
  cases a
  case setNss =>
    simp only [execAct] at h
    obtain ⟨ss, h1, h⟩ := bind_ok h
    obtain ⟨d1, h2, h⟩ := bind_ok h
    obtain ⟨nm, h3, h⟩ := bind_ok h
    obtain ⟨d2, h4, h⟩ := bind_ok h
    injection h with h
    simp only [Prod.mk.injEq] at h
    obtain ⟨rfl, rfl, rfl⟩ := h
    obtain ⟨h5, h6⟩ := shiftP_does h2
    obtain ⟨h7, h8⟩ := shiftP_does h4
    refine ⟨?_, by simp only at h8 ⊢; omega⟩
    simp only [actP, actW, textP, hp, hpb, h2]
    refine Does.bind' (sliceP_does h1) (Does.bind h5 ?_)
    rw [← h6]
    refine Does.bind' (sliceP_does h3) ?_
    exact Does.map h7 Does.pure
  case throwPreUrnErr =>
    simp only [execAct] at h
    simp only [actP, hmode, hp, hpe]
    split at h
    · rename_i hm
      rw [if_pos hm]
      split at h
      · rename_i hlt
        rw [if_pos hlt]
        obtain ⟨c, h1, h⟩ := bind_ok h
        split at h
        · rename_i hc
          simp only [pure, Except.pure, Except.ok.injEq] at h
          simp only [raise, Prod.mk.injEq] at h
          obtain ⟨rfl, rfl, rfl⟩ := h
          refine ⟨Does.bind' (getP_does h1) ?_, rfl⟩
          rw [if_pos hc]; rfl
        · rename_i hc
          simp only [pure, Except.pure, Except.ok.injEq, Prod.mk.injEq] at h
          obtain ⟨rfl, rfl, rfl⟩ := h
          refine ⟨Does.bind' (getP_does h1) ?_, rfl⟩
          rw [if_neg hc]; rfl
      · rename_i hlt
        rw [if_neg hlt]
        injection h with h; simp only [Prod.mk.injEq] at h
        obtain ⟨rfl, rfl, rfl⟩ := h
        exact ⟨rfl, rfl⟩
    · rename_i hm
      rw [if_neg hm]
      injection h with h; simp only [Prod.mk.injEq] at h
      obtain ⟨rfl, rfl, rfl⟩ := h
      exact ⟨rfl, rfl⟩
  case setScimType =>
    simp only [execAct] at h
    obtain ⟨t, h1, h⟩ := bind_ok h
    simp only [actP, textP, hp, hpb]
    cases hs : o.scim with
    | none => simp [hs] at h
    | some sc =>
      simp only [hs, pure, Except.pure, Except.ok.injEq, Prod.mk.injEq] at h
      obtain ⟨rfl, rfl, rfl⟩ := h
      exact ⟨Does.bind' (sliceP_does h1) Does.pure, rfl⟩
  case setScimName =>
    simp only [execAct] at h
    simp only [actP, hp]
    cases hs : o.scim with
    | none => simp [hs] at h
    | some sc =>
      simp only [hs] at h
      obtain ⟨t, h1, h⟩ := bind_ok h
      simp only [pure, Except.pure, Except.ok.injEq, Prod.mk.injEq] at h
      obtain ⟨rfl, rfl, rfl⟩ := h
      exact ⟨Does.bind' (sliceP_does h1) Does.pure, rfl⟩
  case setScimOther =>
    simp only [execAct] at h
    simp only [actP, hp]
    cases hs : o.scim with
    | none => simp [hs] at h
    | some sc =>
      simp only [hs] at h
      obtain ⟨t, h1, h⟩ := bind_ok h
      simp only [pure, Except.pure, Except.ok.injEq, Prod.mk.injEq] at h
      obtain ⟨rfl, rfl, rfl⟩ := h
      exact ⟨Does.bind' (sliceP_does h1) Does.pure, rfl⟩
  case setPre | setNid | setRComponent | setQComponent | setFComponent =>
    all_goals
      simp only [execAct] at h
      obtain ⟨t, h1, h⟩ := bind_ok h
      simp only [pure, Except.pure, Except.ok.injEq, Prod.mk.injEq] at h
      obtain ⟨rfl, rfl, rfl⟩ := h
      simp only [actP, textP, hp, hpb]
      exact ⟨Does.bind' (sliceP_does h1) Does.pure, trivial⟩
  case mark | tolower | errPre | errNid | errNss | errUrn | baseType | errScimNid | errScimType | errScimName | scimType |
      createScim | errNss8141 | errNid8141 | rfc8141Type | informalNidMatch | errMalformedR | errMalformedQ =>
    all_goals
      simp only [execAct, raise, Except.ok.injEq, Prod.mk.injEq] at h
      obtain ⟨rfl, rfl, rfl⟩ := h
      exact ⟨rfl, rfl⟩
  case errHex | errScimOther | markRStart | markQStart =>
    all_goals
      simp only [execAct] at h
      simp only [actP, execAct, hmode, hp, hpe]
      split at h <;> rename_i hc
      · rw [if_pos hc]
        simp only [raise, Except.ok.injEq, Prod.mk.injEq] at h
        obtain ⟨rfl, rfl, rfl⟩ := h
        exact ⟨rfl, rfl⟩
      · rw [if_neg hc]
        simp only [raise, Except.ok.injEq, Prod.mk.injEq] at h
        obtain ⟨rfl, rfl, rfl⟩ := h
        exact ⟨rfl, rfl⟩
  case markScim =>
    simp only [execAct] at h
    simp only [actP, execAct, hp]
    cases hs : o.scim with
    | none => simp [hs] at h
    | some sc =>
      simp only [hs, Except.ok.injEq, Prod.mk.injEq] at h
      obtain ⟨rfl, rfl, rfl⟩ := h
      exact ⟨rfl, rfl⟩

/-- The writes of a block of actions. -/
def actsW : List Act → Machine → URN → List (Nat × UInt8)
  | [], _, _ => []
  | a :: as, m, o =>
      actW a m o ++ match execAct a m o with
        | .ok (.next, m', o') => actsW as m' o'
        | _ => []

theorem actsP_does {as : List Act} : ∀ {m m' : Machine} {o o' : URN} {fl : Flow}, execActs as m o = .ok (fl, m', o') →
    Does (actsP m.data.length as m.forget o) m.data (fl, m'.forget, o') m'.data (actsW as m o) ∧ m'.data.length = m.data.length := by
  induction as with
  | nil =>
    intro m m' o o' fl h
    simp only [execActs, Except.ok.injEq, Prod.mk.injEq] at h
    obtain ⟨rfl, rfl, rfl⟩ := h
    exact ⟨rfl, rfl⟩
  | cons a as ih =>
    intro m m' o o' fl h
    simp only [execActs] at h
    obtain ⟨⟨fl1, m1, o1⟩, h1, h⟩ := bind_ok h
    obtain ⟨h2, h3⟩ := actP_does h1
    simp only [actsP, actsW, h1]
    cases fl1 with
    | again =>
      simp only [pure, Except.pure, Except.ok.injEq, Prod.mk.injEq] at h
      obtain ⟨rfl, rfl, rfl⟩ := h
      exact ⟨Does.bind h2 Does.pure, h3⟩
    | next =>
      simp only at h
      obtain ⟨h4, h5⟩ := ih h
      rw [h3] at h4 h5
      exact ⟨Does.bind h2 h4, h5⟩

/-- The state as its goroutine sees it. -/
def St.forget (s : St) : St := { s with m := s.m.forget }

/-- The writes of one step. -/
def stepW (s : St) : List (Nat × UInt8) :=
  match s.ctl with
  | .resume =>
      match index s.m.data s.m.p with
      | .ok c => actsW (tab s.m.cs c).2 { s.m with cs := (tab s.m.cs c).1 } s.o
      | .error _ => []
  | .testEof =>
      if s.m.p = s.m.eof then
        match eofTab s.m.cs with
        | some as => actsW as s.m s.o
        | none => []
      else []
  | _ => []

theorem stepP_does {s s' : St} (h : step s = .ok s') :
    Does (stepP s.m.data.length s.forget) s.m.data s'.forget s'.m.data (stepW s) ∧ s'.m.data.length = s.m.data.length := by
  rcases s with ⟨ctl, m, o⟩
  cases ctl with
  | resume =>
    simp only [step] at h
    obtain ⟨c, h1, h⟩ := bind_ok h
    have hcs : m.forget.cs = m.cs := rfl
    have hp : m.forget.p = m.p := rfl
    simp only [stepP, stepW, St.forget, hp, hcs, h1, tab]
    suffices H : Does (match dispatch m.cs c with
        | .out => pure { ctl := Ctl.out, m := m.forget, o := o }
        | .tr t => _) m.data s'.forget s'.m.data _ ∧ s'.m.data.length = m.data.length from
      ⟨Does.bind' (getP_does h1) H.1, H.2⟩
    cases hd : dispatch m.cs c with
    | out =>
      simp only [hd, pure, Except.pure, Except.ok.injEq] at h
      subst h
      exact ⟨rfl, rfl⟩
    | tr t =>
      rcases htr : trRow t with ⟨tg, f⟩
      simp only [hd, htr] at h ⊢
      cases f with
      | none =>
        simp only [pure, Except.pure, Except.ok.injEq] at h
        subst h
        exact ⟨rfl, rfl⟩
      | some f =>
        simp only at h ⊢
        obtain ⟨⟨fl, m1, o1⟩, h2, h⟩ := bind_ok h
        simp only [pure, Except.pure, Except.ok.injEq] at h
        subst h
        obtain ⟨h3, h4⟩ := actsP_does h2
        exact ⟨Does.map h3 Does.pure, h4⟩
  | again =>
    have e1 : m.forget.p = m.p := rfl
    have e2 : m.forget.pe = m.pe := rfl
    have e3 : m.forget.cs = m.cs := rfl
    simp only [step] at h
    simp only [stepP, stepW, St.forget, step, e1, e2, e3]
    cases ht : toStateActions[m.cs]? with
    | none => rw [ht] at h; simp at h
    | some t =>
      rw [ht] at h
      by_cases h33 : t = 33
      · subst h33
        simp only [execAct, bind, Except.bind, pure, Except.pure, Except.ok.injEq] at h
        subst h
        exact ⟨rfl, rfl⟩
      · by_cases h0 : m.cs = 0
        · simp [h0, pure, Except.pure] at h ⊢
          subst h
          exact ⟨rfl, rfl⟩
        · by_cases hp : m.p + 1 = m.pe
          · simp [h0, hp, pure, Except.pure] at h ⊢
            subst h
            exact ⟨rfl, rfl⟩
          · simp [h0, hp, pure, Except.pure] at h ⊢
            subst h
            exact ⟨rfl, rfl⟩
  | testEof =>
    simp only [step] at h
    have e1 : m.forget.p = m.p := rfl
    have e2 : m.forget.eof = m.eof := rfl
    have e3 : m.forget.cs = m.cs := rfl
    simp only [stepP, stepW, St.forget, e1, e2, e3, eofTab]
    split at h
    · rename_i h0
      rw [if_pos h0, if_pos h0]
      split at h
      · simp at h
      · rename_i t ht
        simp only [ht, Option.map_some]
        obtain ⟨⟨fl, m1, o1⟩, h2, h⟩ := bind_ok h
        obtain ⟨h3, h4⟩ := actsP_does h2
        cases fl <;>
        · simp only [pure, Except.pure, Except.ok.injEq] at h
          subst h
          exact ⟨Does.map h3 Does.pure, h4⟩
    · rename_i h0
      rw [if_neg h0, if_neg h0]
      simp only [pure, Except.pure, Except.ok.injEq] at h
      subst h
      exact ⟨rfl, rfl⟩
  | out =>
    simp only [step, pure, Except.pure, Except.ok.injEq] at h
    subst h
    exact ⟨rfl, rfl⟩

/-- The writes of a run. -/
def runW : Nat → St → List (Nat × UInt8)
  | _, ⟨.out, _, _⟩ => []
  | 0, _ => []
  | k + 1, s => stepW s ++ match step s with
      | .ok s' => runW k s'
      | .error _ => []

theorem runP_does {k : Nat} : ∀ {s : St} {m : Machine} {o : URN}, run k s = .ok (m, o) →
    Does (runP s.m.data.length k s.forget) s.m.data (m.forget, o) m.data (runW k s) := by
  induction k with
  | zero =>
    intro s m o h
    rcases s with ⟨ctl, m1, o1⟩
    cases ctl <;> simp [run] at h
    obtain ⟨rfl, rfl⟩ := h
    rfl
  | succ k ih =>
    intro s m o h
    rcases s with ⟨ctl, m1, o1⟩
    cases ctl
    case out =>
      simp [run] at h
      obtain ⟨rfl, rfl⟩ := h
      rfl
    all_goals
      simp only [run] at h
      split at h
      case h_2 => simp at h
      case h_1 s' hs =>
        obtain ⟨h1, h2⟩ := stepP_does hs
        have h3 := ih h
        rw [h2] at h3
        simp only [runW, hs]
        exact Does.bind h1 h3

/-- All the writes of a call of `Parse` on `s`. -/
def Machine.writes (m : Machine) (s : Bytes) : List (Nat × UInt8) := runW (fuelFor s.length) (entry (m.init s))

theorem entry_forget (m : Machine) : (entry m).forget = entry m.forget := by
  have e1 : m.forget.p = m.p := rfl
  have e2 : m.forget.pe = m.pe := rfl
  have e3 : m.forget.cs = m.cs := rfl
  simp only [entry, e1, e2, e3]
  split
  · rfl
  · split <;> rfl

theorem parseP_does {m : Machine} {s : Bytes} {r : Parsed} (h : m.parse s = .ok r) :
    Does (m.parseP s.length) s (r.urn, r.err) r.m.data (m.writes s) := by
  simp only [Machine.parse] at h
  cases hr : run (fuelFor s.length) (entry (m.init s)) with
  | diverge => simp [hr] at h
  | panic p => simp [hr] at h
  | ok x =>
    obtain ⟨m1, o1⟩ := x
    simp only [hr, Run.ok_bind, Run.pure_eq, Run.ok.injEq] at h
    have h1 := runP_does hr
    have hent : ∀ x : Machine, (entry x).m = x := by intro x; simp only [entry]; split <;> (try split) <;> rfl
    have e1 : (entry (m.init s)).m.data = s := by rw [hent]; rfl
    have e2 : (entry (m.init s)).forget = entry { m with data := [], p := 0, pb := 0, pe := s.length, eof := s.length, err := none, cs := m.startParsingAt } := by
      rw [entry_forget]; rfl
    rw [e1, e2] at h1
    subst h
    have e3 : result m1.forget o1 = result m1 o1 := rfl
    refine Does.map h1 ?_
    simp only [e3]
    rfl

end Urn
