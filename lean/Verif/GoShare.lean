import Verif.GoShareSpec
import Verif.GoSlice
import Verif.PropsText
/-!
# The accesses of calls of methods of machines
-/
set_option autoImplicit false
namespace Urn.GoLang
open Spec

theorem log_left {α β : Type} {t : Io α} {f : α → Io β} {h : Heap} {x : Access} (hx : x ∈ t.log h) : x ∈ (t.bind f).log h := by
  rw [log_bind]
  exact List.mem_append_left _ hx

/-- The accesses of the statements of a function. -/
theorem callT_body {P : Prog} {X : Ext} {n : Nat} {rs : List Ty} {env : Env} {ss : Stmts} {h : Heap} {x : Access}
    (hx : x ∈ (execsT P X (callT P X n) n ss env).log h) : x ∈ (callT P X (n + 1) rs env ss).log h := by
  rw [callT]
  apply log_left
  rw [jumpsT.eq_def]
  exact log_left hx

section
variable {X : Ext} {h : Heap} {a n : Nat} {m : Machine} {c : MCall} {b : Buf} {s : Bytes}

/-- An assignment to a field of the machine. -/
theorem asg_log {d : Val} {f : String} {e : Expr} {v : Val} {ss : Stmts} {env : Env} {D : CallT} {c : Cell} (hm : h[a]? = some (.obj (machVal d m)))
    (he : evalsT prog X D (.cons e .nil) env = .done (.ok ([v], env))) (hl : get "m" env = some (.ptr "machine" (some a)))
    (hf : (Cell.obj (machVal d m)).fix (.field f v) = some c) :
    (execsT prog X D n (.cons (asg (mSel f) e) ss) env).log h = ⟨true, a, .field f⟩ :: (execsT prog X D n ss env).log (h.set a c) := by
  have ho : h.own a (.field f v) = some c := by
    unfold Heap.own
    rw [hm]
    exact hf
  rw [execsT, asg, execT, he]
  simp [one, assignT, evalT, lookup, hl, Res.some!, Io.bind, setFieldT, storeT, Io.log, ho, Upd.part]

/-- `Parse` sets the error to nil and looks where to start. -/
theorem parse_log (hm : MachineAt h a m) : (⟨true, a, .field "err"⟩ : Access) ∈ ((MCall.parse b s).run prog X (n + 1) a).log h ∧
    (⟨false, a, .field "startParsingAt"⟩ : Access) ∈ ((MCall.parse b s).run prog X (n + 1) a).log h := by
  obtain ⟨-, b0, n0, hm⟩ := hm
  have hl := (List.getElem?_eq_some_iff.1 hm).1
  have hset : ∀ x, (h.set a x)[a]? = some x := fun x => List.getElem?_set_self hl
  have key : (MCall.parse b s).run prog X (n + 1) a = callT prog X (n + 1) [.ptr (.name "URN"), .name "error"]
      [("m", .ptr "machine" (some a)), ("input", b.val s.length)] parseBody := by
    have hc : coerce .nil (b.val s.length) = b.val s.length := by simp [coerce]
    unfold MCall.run runMethodT methodT
    simp only [find_parse, Io.pure_eq, Io.bind_eq, Io.bind, callFnT, parseFn_eq, bindParams, Res.some!, zero_bytes, hc]
    rfl
  have hlen : ∃ k : Nat, evalsT prog X (callT prog X n) (.cons (.call (.id "len") (.cons (.id "input") .nil) false) .nil)
      [("m", .ptr "machine" (some a)), ("input", b.val s.length)] = .done (.ok ([.int "int" k], [("m", .ptr "machine" (some a)), ("input", b.val s.length)])) := by
    cases b with
    | nil => exact ⟨0, by simp [evalsT, evalT, lookup, get, Res.some!, Io.bind, one, callNameT, Buf.val]⟩
    | part a' pre post cap => exact ⟨s.length, by simp [evalsT, evalT, lookup, get, Res.some!, Io.bind, one, callNameT, Buf.val]⟩
  obtain ⟨k, hlen⟩ := hlen
  suffices hs : ∃ r, (execsT prog X (callT prog X n) n parseBody [("m", .ptr "machine" (some a)), ("input", b.val s.length)]).log h =
      ⟨true, a, .field "data"⟩ :: ⟨true, a, .field "p"⟩ :: ⟨true, a, .field "pb"⟩ :: ⟨true, a, .field "pe"⟩ :: ⟨true, a, .field "eof"⟩ :: ⟨true, a, .field "err"⟩ ::
        ⟨false, a, .field "startParsingAt"⟩ :: r by
    obtain ⟨r, hr⟩ := hs
    rw [key]
    exact ⟨callT_body (by rw [hr]; simp), callT_body (by rw [hr]; simp)⟩
  have hg : get "m" [("m", Val.ptr "machine" (some a)), ("input", b.val s.length)] = some (.ptr "machine" (some a)) := rfl
  unfold parseBody
  rw [asg_log (d := b0.val n0) (m := m) (v := b.val s.length) (c := .obj (machVal (b.val s.length) m)) hm (by simp [evalsT, evalT, lookup, get, Res.some!, Io.bind, one]) hg
    (by simp [Cell.fix, machVal, get, set, val_coerce])]
  rw [asg_log (d := b.val s.length) (m := m) (v := .int "" 0) (c := .obj (machVal (b.val s.length) { m with p := 0 })) (hset _)
    (by simp [evalsT, evalT, Io.bind, one]) hg (by simp [Cell.fix, machVal, get, set, coerce]), List.set_set]
  rw [asg_log (d := b.val s.length) (m := { m with p := 0 }) (v := .int "" 0) (c := .obj (machVal (b.val s.length) { m with p := 0, pb := 0 })) (hset _)
    (by simp [evalsT, evalT, Io.bind, one]) hg (by simp [Cell.fix, machVal, get, set, coerce]), List.set_set]
  rw [asg_log (d := b.val s.length) (m := { m with p := 0, pb := 0 }) (v := .int "int" k) (c := .obj (machVal (b.val s.length) { m with p := 0, pb := 0, pe := k })) (hset _)
    hlen hg (by simp [Cell.fix, machVal, get, set, coerce]), List.set_set]
  rw [asg_log (d := b.val s.length) (m := { m with p := 0, pb := 0, pe := k }) (v := .int "int" k) (c := .obj (machVal (b.val s.length) { m with p := 0, pb := 0, pe := k, eof := k })) (hset _)
    hlen hg (by simp [Cell.fix, machVal, get, set, coerce]), List.set_set]
  rw [asg_log (d := b.val s.length) (m := { m with p := 0, pb := 0, pe := k, eof := k }) (v := .nil)
    (c := .obj (machVal (b.val s.length) { m with p := 0, pb := 0, pe := k, eof := k, err := none })) (hset _)
    (by simp [evalsT, evalT, look_nil, get, Res.some!, Io.bind, one]) hg (by simp [Cell.fix, machVal, get, set, errVal_coerce]; rfl), List.set_set]
  rw [execsT, asg, execT]
  simp only [evalsT, evalT, lookup, get, Res.some!, Io.bind_eq, Io.pure_eq, Io.bind, one, fieldT, loadFieldT, Io.log, if_true, reduceCtorEq, ite_true]
  exact ⟨_, rfl⟩

/-- `WithParsingMode` writes to the field for the mode, and, if the package has the mode, to the field for where to start. -/
theorem setMode_log {x : ParsingMode} (hm : MachineAt h a m) : ∃ l, ((MCall.withParsingMode x).run prog X (n + 1) a).log h =
    ⟨true, a, .field "parsingMode"⟩ :: ⟨false, a, .field "parsingMode"⟩ :: l ∧ (KnownMode x → (⟨true, a, .field "startParsingAt"⟩ : Access) ∈ l) ∧
    ∀ y ∈ l, y = ⟨true, a, .field "startParsingAt"⟩ ∨ y = ⟨true, a, .field "parsingModeSet"⟩ := by
  obtain ⟨-, b0, n0, hm⟩ := hm
  have hl := (List.getElem?_eq_some_iff.1 hm).1
  have hset : ∀ x, (h.set a x)[a]? = some x := fun x => List.getElem?_set_self hl
  have key : (MCall.withParsingMode x).run prog X (n + 1) a = callT prog X (n + 1) [] [("m", .ptr "machine" (some a)), ("x", .int "ParsingMode" x)] setModeFn.body := by
    unfold MCall.run runMethodT methodT
    simp [find_setMode, Io.pure_eq, Io.bind_eq, Io.bind, callFnT, setModeFn, bindParams, Res.some!, zero_mode, coerce]
  rw [key, callT, jumpsT.eq_def]
  by_cases h1 : x = 1
  · refine ⟨[⟨true, a, .field "startParsingAt"⟩, ⟨true, a, .field "parsingModeSet"⟩], ?_, by simp, by simp⟩
    simp [setModeFn, execsT, execT, execCasesT, execDefaultT, evalsT, evalT, one, lookup, get, fieldT, setFieldT, loadFieldT, storeT, assignT, hm, hset, machVal, set, coerce,
        Io.bind, Io.log, Heap.own, Heap.at, Cell.fix, Cell.see, Upd.part, Res.some!, eqVal, common, inScopeT, jumpsT, entryT, c_RFC2141Only, c_RFC8141Only, c_RFC7643Only,
        c_enMain, c_enRfc8141Only, c_enScimOnly, c_true, h1]
  by_cases h3 : x = 3
  · refine ⟨[⟨true, a, .field "startParsingAt"⟩, ⟨true, a, .field "parsingModeSet"⟩], ?_, by simp, by simp⟩
    simp [setModeFn, execsT, execT, execCasesT, execDefaultT, evalsT, evalT, one, lookup, get, fieldT, setFieldT, loadFieldT, storeT, assignT, hm, hset, machVal, set, coerce,
        Io.bind, Io.log, Heap.own, Heap.at, Cell.fix, Cell.see, Upd.part, Res.some!, eqVal, common, inScopeT, jumpsT, entryT, c_RFC2141Only, c_RFC8141Only, c_RFC7643Only,
        c_enMain, c_enRfc8141Only, c_enScimOnly, c_true, h3]
  by_cases h2 : x = 2
  · refine ⟨[⟨true, a, .field "startParsingAt"⟩, ⟨true, a, .field "parsingModeSet"⟩], ?_, by simp, by simp⟩
    simp [setModeFn, execsT, execT, execCasesT, execDefaultT, evalsT, evalT, one, lookup, get, fieldT, setFieldT, loadFieldT, storeT, assignT, hm, hset, machVal, set, coerce,
        Io.bind, Io.log, Heap.own, Heap.at, Cell.fix, Cell.see, Upd.part, Res.some!, eqVal, common, inScopeT, jumpsT, entryT, c_RFC2141Only, c_RFC8141Only, c_RFC7643Only,
        c_enMain, c_enRfc8141Only, c_enScimOnly, c_true, h2]
  have h1' : (x == 1) = false := by simpa using h1
  have h2' : (x == 2) = false := by simpa using h2
  have h3' : (x == 3) = false := by simpa using h3
  refine ⟨[⟨true, a, .field "parsingModeSet"⟩], ?_, fun h => ?_, by simp⟩
  · simp [setModeFn, execsT, execT, execCasesT, execDefaultT, evalsT, evalT, one, lookup, get, fieldT, setFieldT, loadFieldT, storeT, assignT, hm, hset, machVal, set, coerce,
        Io.bind, Io.log, Heap.own, Heap.at, Cell.fix, Cell.see, Upd.part, Res.some!, eqVal, common, inScopeT, jumpsT, entryT, c_RFC2141Only, c_RFC8141Only, c_RFC7643Only,
        c_enMain, c_enRfc8141Only, c_enScimOnly, c_true, h1, h2, h3, h1', h2', h3']
  · rcases h with h | h | h
    · exact absurd h h1
    · exact absurd h h2
    · exact absurd h h3

theorem error_log (hm : MachineAt h a m) : (MCall.error.run prog X (n + 1) a).log h = [⟨false, a, .field "err"⟩] := by
  obtain ⟨-, b0, n0, hm⟩ := hm
  unfold MCall.run runMethodT methodT
  have e : Heap.at h a (.field "err") = some (.obj (errVal m.err)) := by
    unfold Heap.at
    rw [hm]
    rfl
  simp only [find_error, Io.pure_eq, Io.bind_eq, Io.bind, callFnT, errorFn, bindParams, Res.some!]
  rw [callT, jumpsT.eq_def]
  simp [execsT, execT, evalsT, evalT, lookup, get, Res.some!, Io.bind, one, fieldT, loadFieldT, Io.log, e]

/-- Calls that mix have accesses of the machine that are in conflict. -/
theorem call_mixes {m' : Machine} {d : MCall} (hm : MachineAt h a m) (hm' : MachineAt h a m') (hc : c.Known) (hd : d.Known) (hx : c.Mixes d) :
    ∃ x y, x ∈ (c.run prog X (n + 1) a).log h ∧ y ∈ (d.run prog X (n + 1) a).log h ∧ x.cell = a ∧ x.Conflict y := by
  have hp : ∀ (b : Buf) (s : Bytes) {m : Machine} (_ : MachineAt h a m) (c : MCall) (_ : c.Known), ∃ x y, x ∈ ((MCall.parse b s).run prog X (n + 1) a).log h ∧ y ∈ (c.run prog X (n + 1) a).log h ∧
      x.cell = a ∧ x.Conflict y := by
    intro b s m hm c hc
    cases c with
    | parse b' s' => exact ⟨_, _, (parse_log hm).1, (parse_log hm).1, rfl, rfl, rfl, .inl rfl⟩
    | withParsingMode x =>
        obtain ⟨l, h1, h2, -⟩ := setMode_log (X := X) (n := n) (x := x) hm
        exact ⟨_, ⟨true, a, .field "startParsingAt"⟩, (parse_log hm).2, h1 ▸ List.mem_cons_of_mem _ (List.mem_cons_of_mem _ (h2 hc)), rfl, rfl, rfl, .inr rfl⟩
    | error => exact ⟨_, ⟨false, a, .field "err"⟩, (parse_log hm).1, by rw [error_log hm]; exact List.mem_cons_self, rfl, rfl, rfl, .inl rfl⟩
  have swap : ∀ {c d : MCall}, (∃ x y, x ∈ (c.run prog X (n + 1) a).log h ∧ y ∈ (d.run prog X (n + 1) a).log h ∧ x.cell = a ∧ x.Conflict y) →
      ∃ x y, x ∈ (d.run prog X (n + 1) a).log h ∧ y ∈ (c.run prog X (n + 1) a).log h ∧ x.cell = a ∧ x.Conflict y :=
    fun ⟨x, y, h1, h2, h3, h4⟩ => ⟨y, x, h2, h1, h4.1.symm.trans h3, h4.1.symm, h4.2.1.symm, h4.2.2.symm⟩
  cases c with
  | parse b s => exact hp b s hm' d hd
  | withParsingMode x => cases d with
    | parse b s => exact swap (hp b s hm _ hc)
    | withParsingMode x' =>
        obtain ⟨l, h1, -⟩ := setMode_log (X := X) (n := n) (x := x) hm
        obtain ⟨l', h1', -⟩ := setMode_log (X := X) (n := n) (x := x') hm
        exact ⟨⟨true, a, .field "parsingMode"⟩, ⟨true, a, .field "parsingMode"⟩, h1 ▸ List.mem_cons_self, h1' ▸ List.mem_cons_self, rfl, rfl, rfl, .inl rfl⟩
    | error => exact hx.elim
  | error => cases d with
    | parse b s => exact swap (hp b s hm _ hc)
    | withParsingMode x' => exact hx.elim
    | error => exact hx.elim

/-- What calls that are not of `Parse` access. -/
def MCall.Uses (x : Access) : MCall → Prop
  | .parse _ _ => True
  | .withParsingMode _ => ∃ f, x.part = .field f ∧ f ≠ "err"
  | .error => x.part = .field "err" ∧ x.write = false

theorem call_uses (hm : MachineAt h a m) : ∀ x, x ∈ (c.run prog X (n + 1) a).log h → c.Uses x := by
  intro x hx
  cases c with
  | parse b s => trivial
  | withParsingMode y =>
      obtain ⟨l, h1, -, h3⟩ := setMode_log (X := X) (n := n) (x := y) hm
      rw [h1] at hx
      simp only [List.mem_cons] at hx
      rcases hx with rfl | rfl | hx
      · exact ⟨_, rfl, by decide⟩
      · exact ⟨_, rfl, by decide⟩
      · rcases h3 x hx with rfl | rfl <;> exact ⟨_, rfl, by decide⟩
  | error =>
      rw [error_log hm, List.mem_singleton] at hx
      cases hx
      exact ⟨rfl, rfl⟩

/-- Of the memory, only the machine and the bytes of the slice. -/
def MCall.view (a : Nat) (c : MCall) (h : Heap) : Heap := h.mapIdx fun i d => if i = a then d else
  match c with
  | .parse (.part a' pre _ _) s => if i = a' then .win pre.length s else .none
  | _ => .none

theorem MCall.view_get (a : Nat) (c : MCall) (h : Heap) (i : Nat) : (c.view a h)[i]? = h[i]?.map fun d => if i = a then d else
    match c with
    | .parse (.part a' pre _ _) s => if i = a' then .win pre.length s else .none
    | _ => .none := by
  unfold MCall.view
  rw [List.getElem?_mapIdx]

theorem MCall.view_len (a : Nat) (c : MCall) (h : Heap) : (c.view a h).length = h.length := by unfold MCall.view; rw [List.length_mapIdx]

theorem MCall.view_machine (a : Nat) (c : MCall) (h : Heap) : (c.view a h)[a]? = h[a]? := by
  rw [MCall.view_get]
  simp

theorem MCall.view_hides (hc : c.Fits X h) : Hides (c.view a h) h where
  len := MCall.view_len a c h
  cell i x d hx hd := by
    rw [MCall.view_get, hd] at hx
    cases hx
    dsimp only
    split
    · exact .same d
    · cases c with
      | withParsingMode x => exact .none d
      | error => exact .none d
      | parse b s =>
          cases b with
          | nil => exact .none d
          | part a' pre post cap =>
              dsimp only
              split
              · rename_i e
                subst e
                have := hc.1.1
                rw [hd] at this
                cases this
                exact .win pre s post
              · exact .none d

theorem apart (hm : MachineAt h a m) {a' cap : Nat} {pre post : Bytes} (hb : (Buf.part a' pre post cap).has h s) : a' ≠ a := by
  rintro rfl
  obtain ⟨-, b0, n0, hm⟩ := hm
  rw [hb.1] at hm
  cases hm

theorem MCall.view_seen (hm : MachineAt h a m) (hb : b.has h s) : b.seen .win ((MCall.parse b s).view a h) s := by
  cases b with
  | nil => exact hb
  | part a' pre post cap =>
      refine ⟨?_, hb.2⟩
      rw [MCall.view_get, hb.1]
      simp [cellOf, apart hm hb]

/-- What is accessed is the machine or in the slice. -/
def MCall.Owns (a : Nat) (c : MCall) (x : Access) : Prop :=
  x.cell = a ∨ match c with | .parse b s => b.Owns s.length x | _ => False

theorem MCall.view_log {α : Type} {t : Io α} (hc : c.Fits X h) (hr : t.run (c.view a h) ≠ .stuck) : ∀ x, x ∈ t.log h → x.cell < h.length → c.Owns a x := by
  intro x hx hl
  obtain ⟨h1, h2, -⟩ := hides_run t _ h (MCall.view_hides hc) hr
  obtain ⟨d, h3, h4⟩ := h2 x (h1 ▸ hx) (by rw [MCall.view_len]; exact hl)
  rw [MCall.view_get, List.getElem?_eq_getElem hl] at h3
  cases h3
  by_cases ea : x.cell = a
  · exact .inl ea
  refine .inr ?_
  dsimp only at h4
  rw [if_neg ea] at h4
  have hno : ¬ Cell.none.may x.write x.part := by cases x.write <;> cases x.part <;> exact id
  cases c with
  | withParsingMode x => exact hno h4
  | error => exact hno h4
  | parse b s =>
      cases b with
      | nil => exact hno h4
      | part a pre post cap =>
          dsimp only at h4
          by_cases e : x.cell = a
          · rw [if_pos e] at h4
            cases hp : x.part with
            | all => rw [hp] at h4; cases hw : x.write <;> rw [hw] at h4 <;> exact h4.elim
            | field f => rw [hp] at h4; cases hw : x.write <;> rw [hw] at h4 <;> exact h4.elim
            | bytes i n =>
                rw [hp] at h4
                have h5 : pre.length ≤ i ∧ i + n ≤ pre.length + s.length := by cases hw : x.write <;> rw [hw] at h4 <;> exact h4
                exact ⟨e, i, n, hp, h5⟩
          · rw [if_neg e] at h4
            exact (hno h4).elim

/-- As `OutIs`, and what the results point to is new. -/
def OutNew (g : Heap) (lo : Nat) : Out → List Val → Prop
  | .parsed u e, vs => ∃ p, vs = [.ptr "URN" p, errVal e] ∧ UrnNew g lo p u
  | .unit, vs => vs = []
  | .err e, vs => vs = [errVal e]

theorem UrnNew.near {g k l : Heap} {p : Option Nat} {o : Option URN} (hp : UrnNew g h.length p o) (hk : Hides g k) (hl : Near h k l) : UrnPtr l p o := by
  have key : ∀ (a : Nat) (v : Val), h.length ≤ a → g[a]? = some (Cell.obj v) → l[a]? = some (Cell.obj v) := fun a v hla ha => by
    rw [hl.2 a hla]
    obtain ⟨d, h1, h2⟩ := hk.get ha
    cases h2
    exact h1
  cases o with
  | none => exact hp
  | some o =>
      obtain ⟨a, rfl, h1, sp, h2, h3⟩ := hp
      apply UrnAt.ptr (lo := h.length)
      refine ⟨h1, sp, key a _ h1 h2, ?_⟩
      cases hs : o.scim with
      | none => rw [hs] at h3; exact h3
      | some s =>
          rw [hs] at h3
          obtain ⟨b, h6, h7, h8⟩ := h3
          exact ⟨b, h6, key b _ h8 h7, h8⟩

theorem OutNew.near {g k l : Heap} {o : Out} {vs : List Val} (hp : OutNew g h.length o vs) (hk : Hides g k) (hl : Near h k l) : OutIs l o vs := by
  cases o with
  | unit => exact hp
  | err e => exact hp
  | parsed u e =>
      obtain ⟨p, h1, h2⟩ := hp
      exact ⟨p, h1, h2.near hk hl⟩

/-- What a call does when only the machine and the slice are seen. -/
theorem call_run (hm : MachineAt h a m) (hc : c.Fits X h) : ∃ m' out, m.exec c.op = .ok (m', out) ∧ Reachable m' ∧ ∃ N, ∀ n, N ≤ n → ∃ vs g k b n0,
    (c.run prog X n a).run (c.view a h) = .ok (vs, g) ∧ (c.run prog X n a).run h = .ok (vs, k) ∧ Hides g k ∧ OutNew g h.length out vs ∧
    k[a]? = some (.obj (machVal (Buf.val b n0) m')) ∧ c.Keeps k := by
  obtain ⟨hr, b0, n0, ha⟩ := hm
  have hv : (c.view a h)[a]? = some (.obj (machVal (b0.val n0) m)) := by rw [MCall.view_machine]; exact ha
  have key : ∀ {n : Nat} {vs : List Val} {g : Heap} {v : Val}, (c.run prog X n a).run (c.view a h) = .ok (vs, g) → g[a]? = some (.obj v) →
      ∃ k, (c.run prog X n a).run h = .ok (vs, k) ∧ Hides g k ∧ k[a]? = some (.obj v) := by
    intro n vs g v e hg
    have hh := (hides_run _ _ h (MCall.view_hides hc) (by rw [e]; intro e; cases e)).2.2
    rw [e] at hh
    obtain ⟨k, hk1, hk2⟩ := hh
    obtain ⟨d, h1, h2⟩ := hk2.get hg
    cases h2
    exact ⟨k, hk1, hk2, h1⟩
  cases c with
  | error =>
      refine ⟨m, .err m.error, rfl, hr, ?_⟩
      obtain ⟨N, hN⟩ := does_method find_error (error_call (X := X) (n := 0) hv)
      refine ⟨N, fun n hn => ?_⟩
      have e := hN n hn
      dsimp only at e
      rw [runMethod_same] at e
      obtain ⟨k, h1, h2, h3⟩ := key e hv
      exact ⟨_, _, k, b0, n0, e, h1, h2, rfl, h3, trivial⟩
  | withParsingMode x =>
      refine ⟨_, .unit, rfl, hr.execAll (ops := [.withParsingMode x]) (outs := [.unit]) rfl, ?_⟩
      obtain ⟨N, hN⟩ := does_method find_setMode (setMode_call (X := X) (n := 0) (x := x) hv)
      refine ⟨N, fun n hn => ?_⟩
      have e := hN n hn
      dsimp only at e
      rw [runMethod_same] at e
      obtain ⟨k, h1, h2, h3⟩ := key e (List.getElem?_set_self (List.getElem?_eq_some_iff.1 hv).1)
      exact ⟨_, _, k, b0, n0, e, h1, h2, rfl, h3, trivial⟩
  | parse b s =>
      obtain ⟨r, e1, e2, -⟩ := parse_alone hr s
      refine ⟨r.m, .parsed r.urn r.err, by simp only [MCall.op, Machine.exec, e1, Run.ok_bind, Run.pure_eq], ?_, ?_⟩
      · exact hr.execAll (ops := [.parse s]) (outs := [.parsed r.urn r.err]) (by simp only [Machine.execAll, Machine.exec, e1, Run.ok_bind, Run.pure_eq])
      obtain ⟨g, ao, e, h1, h2, h3, h4, h5⟩ := parse_call_seen (X := X) (n := 9 * s.length + 70) hv (MCall.view_seen ⟨hr, b0, n0, ha⟩ hc.1) (fun e => by cases e)
        (start_lt hr.start) ((parseBits_start hr.start hc.2).trans e1) (Nat.le_refl _)
      obtain ⟨N, hN⟩ := does_method find_parse e
      refine ⟨N, fun n hn => ?_⟩
      have e := hN n hn
      dsimp only at e
      rw [runMethod_same] at e
      obtain ⟨k, k1, k2, k3⟩ := key e h1
      refine ⟨_, _, k, b, s.length, e, k1, k2, ⟨_, rfl, ?_⟩, k3, ?_⟩
      · rw [MCall.view_len] at h4
        cases hu : r.urn with
        | none => rfl
        | some u => exact ⟨ao, rfl, h4 u hu⟩
      · rw [e2] at h2
        show b.Reads k s
        clear h5 h3 key e hc k1 hN
        cases b with
        | nil => exact h2
        | part a pre post cap =>
            apply k2.at
            unfold Heap.at
            rw [h2.1]
            have := cut_cellOf (w := .win) (pre := pre) (d := s) (post := post) (i := 0) (n := s.length) (by omega)
            rw [Nat.add_zero, List.drop_zero, List.take_length] at this
            dsimp only
            rw [Cell.see_bytes, this]
            rfl

/-! ## The bytes of the slice -/

theorem call_writes_iff (hf : X.Fits s) (hm : Reachable m) (j : Nat) : parseWrites X.bits (Seen.rom j).no m s = true ↔ (MCall.parse b s).WritesAt m j := by
  rw [parseWrites_eq hm ⟨by have := X.bits_eq; omega, hf⟩]
  unfold touches
  rw [List.any_eq_true]
  constructor
  · rintro ⟨x, h1, h2⟩
    have h2 : x.1 = j := by simpa [Seen.no, Int.ofNat_inj] using h2
    exact ⟨x.2, h2 ▸ h1⟩
  · rintro ⟨c, h2⟩
    exact ⟨_, h2, by simp [Seen.no]⟩

theorem call_upper (hm : Reachable m) {j : Nat} (hw : (MCall.parse b s).WritesAt m j) : UpperEscape s j := by
  obtain ⟨c, hw⟩ := hw
  obtain ⟨L, -, h1, h2, -⟩ := C39_writes m hm s
  rw [h1] at hw
  apply h2
  simp only [List.mem_append, List.mem_map, Prod.mk.injEq] at hw
  rcases hw with ⟨i, hi, rfl, -⟩ | ⟨i, hi, rfl, -⟩ <;> exact hi

theorem call_lt (hm : Reachable m) {j : Nat} (hw : (MCall.parse b s).WritesAt m j) : j < s.length := by
  obtain ⟨c, h, -⟩ := call_upper hm hw
  exact (List.getElem?_eq_some_iff.1 h).1

/-- The text writes to a byte of the slice exactly if the model does. -/
theorem call_writesAt (hm : MachineAt h a m) (hb : b.has h s) (hf : X.Fits s) (j : Nat) : ∃ N, ∀ n, N ≤ n →
    ((∃ x, x ∈ ((MCall.parse b s).run prog X n a).log h ∧ x.write = true ∧ b.At j x) ↔ (MCall.parse b s).WritesAt m j) := by
  obtain ⟨m', out, -, -, N1, hN1⟩ := call_run (X := X) (c := .parse b s) hm ⟨hb, hf⟩
  have hm2 := hm
  obtain ⟨hr, b0, n0, ha⟩ := hm2
  obtain ⟨r, e1, -, -⟩ := parse_alone hr s
  have hp := (parseBits_start hr.start hf).trans e1
  cases b with
  | nil =>
      refine ⟨0, fun n _ => ⟨fun ⟨x, _, _, hx⟩ => hx.elim, fun hw => ?_⟩⟩
      have := call_lt hr hw
      rw [show s = [] from hb] at this
      cases this
  | part a' pre post cap =>
      have hne := apart hm hb
      have hg : (lock a' (pre.length + j) h)[a]? = some (.obj (machVal (b0.val n0) m)) := by rw [lock_ne h (Ne.symm hne)]; exact ha
      have hseen := Buf.has_guard hb j
      by_cases hw : (MCall.parse (.part a' pre post cap) s).WritesAt m j
      · refine ⟨N1 + (9 * s.length + 70), fun n hn => ⟨fun _ => hw, fun _ => ?_⟩⟩
        obtain ⟨vs, g, k, -, -, -, e, -⟩ := hN1 n (by omega)
        have e2 := parse_call_stuck (X := X) (n := n) hg hseen ((call_writes_iff hf hr j).2 hw) (start_lt hr.start) hp (by omega)
        have e3 : ((MCall.parse (.part a' pre post cap) s).run prog X n a).run (lock a' (pre.length + j) h) = .stuck := by
          unfold MCall.run
          rw [← runMethod_same]
          simp only [runMethod, method, find_parse, Res.ok_bind]
          exact e2
        exact ⟨_, less_write _ h (List.getElem?_eq_some_iff.1 hb.1).1 e3 (by rw [e]; intro e; cases e), rfl, rfl, by decide, by decide, by omega, by omega⟩
      · obtain ⟨g, ao, e, -⟩ := parse_call_seen (X := X) (n := 9 * s.length + 70) hg hseen (fun _ => by
            cases hq : parseWrites X.bits (Seen.rom j).no m s with
            | false => rfl
            | true => exact absurd ((call_writes_iff hf hr j).1 hq) hw) (start_lt hr.start) hp (Nat.le_refl _)
        obtain ⟨N, hN⟩ := does_method find_parse e
        refine ⟨N, fun n hn => ⟨fun ⟨x, hx, hxw, hj⟩ => ?_, fun h => absurd h hw⟩⟩
        have e := hN n hn
        dsimp only at e
        rw [runMethod_same] at e
        have hl := hj.lt hb
        obtain ⟨h1, h2, -⟩ := hides_run ((MCall.parse (.part a' pre post cap) s).run prog X n a) _ h (lock_hides a' (pre.length + j) h) (by
          unfold MCall.run
          rw [e]
          intro e
          cases e)
        obtain ⟨c, h3, h4⟩ := h2 x (h1 ▸ hx) (by rw [lock_len]; exact hl)
        have hg : (lock a' (pre.length + j) h)[x.cell]? = some (.rom (pre.length + j) (pre ++ s ++ post)) := by
          rw [hj.1, lock_eq, hb.1]
          rfl
        rw [hg] at h3
        cases h3
        rw [hxw] at h4
        have hm := hj.2
        cases hp : x.part with
        | all => rw [hp] at h4; exact h4.elim
        | field f => rw [hp] at h4; exact h4.elim
        | bytes i n =>
            rw [hp] at h4 hm
            obtain ⟨-, h5⟩ : _ ∧ (true = true → ¬ (i ≤ pre.length + j ∧ pre.length + j < i + n)) := h4
            obtain ⟨-, -, h6, h7⟩ : 0 < n ∧ 0 < 1 ∧ i < pre.length + j + 1 ∧ pre.length + j < i + n := hm
            exact (h5 rfl ⟨by omega, h7⟩).elim

/-- If the text is accepted, every byte is accessed. -/
theorem call_accesses (hm : MachineAt h a m) (hb : b.has h s) (hf : X.Fits s) {r : Parsed} (hr : m.parse s = .ok r) (hu : r.urn ≠ none) {j : Nat} (hj : j < s.length) :
    ∃ N, ∀ n, N ≤ n → ∃ x, x ∈ ((MCall.parse b s).run prog X n a).log h ∧ b.At j x := by
  cases b with
  | nil => rw [show s = [] from hb] at hj; cases hj
  | part a' pre post cap =>
      have ha : a' < h.length := (List.getElem?_eq_some_iff.1 hb.1).1
      have hne := apart hm hb
      obtain ⟨m1, o1, x1, -, N1, hN1⟩ := call_run (X := X) (c := .parse (.part a' pre post cap) s) hm ⟨hb, hf⟩
      have hb' : (Buf.part a' pre post cap).has (h.set a' (.arr (pre ++ s.set j 0 ++ post))) (s.set j 0) :=
        ⟨by rw [List.getElem?_set_self ha], by rw [List.length_set]; exact hb.2⟩
      have hm' : MachineAt (h.set a' (.arr (pre ++ s.set j 0 ++ post))) a m := by
        obtain ⟨q, b0, n0, e⟩ := hm
        exact ⟨q, b0, n0, by rw [List.getElem?_set_ne hne]; exact e⟩
      obtain ⟨m2, o2, x2, -, N2, hN2⟩ := call_run (X := X) (c := .parse (.part a' pre post cap) (s.set j 0)) hm' ⟨hb', by unfold Ext.Fits; rw [List.length_set]; exact hf⟩
      refine ⟨N1 + N2, fun n hn => Classical.byContradiction fun hno => ?_⟩
      obtain ⟨v1, g1, k1, -, -, -, e1, -, q1, -⟩ := hN1 n (by omega)
      obtain ⟨v2, g2, k2, -, -, -, e2, -, q2, -⟩ := hN2 n (by omega)
      unfold MCall.run at e1 e2 hno
      dsimp only at e1 e2 hno
      rw [List.length_set] at e2
      generalize ht : runMethodT prog X n (.ptr "machine" (some a)) "Parse" [(Buf.part a' pre post cap).val s.length] = t at e1 e2 hno
      obtain ⟨g, hg⟩ := agree_run t (h.set a' (.arr (pre ++ s.set j 0 ++ post))) h _ _ e1 (by rw [List.length_set]) fun x hx => by
        by_cases e : x.cell = a'
        · have hm : ¬ x.part.Meets (.bytes (pre.length + j) 1) := fun hm => hno ⟨x, hx, e, hm⟩
          rw [e]
          unfold Heap.Agree
          rw [List.getElem?_set_self ha, hb.1]
          have hset : pre ++ s.set j 0 ++ post = (pre ++ s ++ post).set (pre.length + j) 0 := by
            rw [List.append_assoc, List.append_assoc, List.set_append, if_neg (by omega), Nat.add_sub_cancel_left, List.set_append, if_pos hj]
          rw [hset]
          cases hp : x.part with
          | all => rw [hp] at hm; exact absurd trivial hm
          | field f => rfl
          | bytes i m =>
              rw [hp] at hm
              refine ⟨by simp [Cell.Like], cut_set_ne fun hi => hm ?_⟩
              exact ⟨by omega, by decide, by omega, by omega⟩
        · exact .of (List.getElem?_set_ne (fun h => e h.symm))
      rw [hg] at e2
      injection e2 with e2
      injection e2 with e2 e3
      obtain ⟨p', hp', -, -⟩ := parse_alone hm.1 (s.set j 0)
      simp only [MCall.op, Machine.exec, hr, hp', Run.ok_bind, Run.pure_eq] at x1 x2
      cases x1
      cases x2
      obtain ⟨p1, w1, z1⟩ := q1
      obtain ⟨p2, w2, z2⟩ := q2
      rw [← e2, w1] at w2
      have ep : p1 = p2 := by simp at w2; exact w2.1
      subst ep
      have : p'.urn ≠ none := by
        intro e
        rw [e] at z2
        cases hru : r.urn with
        | none => exact hu hru
        | some o =>
            rw [hru] at z1
            obtain ⟨a, h1, -⟩ := z1
            rw [show p1 = none from z2] at h1
            cases h1
      have := (C34_printable_any m hm.1 _ p' hp' this 0 (List.mem_set hj 0)).1
      exact absurd this (by decide)

/-! ## All accesses of a call -/

/-- The access is to the byte of the slice with this index. -/
def MCall.At (j : Nat) (x : Access) : MCall → Prop
  | .parse b _ => b.At j x
  | _ => False

def MCall.len : MCall → Nat
  | .parse _ s => s.length
  | _ => 0

theorem call_accs (hm : MachineAt h a m) (hc : c.Fits X h) : ∃ N, ∀ n, N ≤ n →
    (∀ x, x ∈ (c.run prog X n a).log h → x.cell < h.length → c.Owns a x) ∧
    (∀ x, x ∈ (c.run prog X n a).log h → c.Uses x) ∧
    (∀ j, (∃ x, x ∈ (c.run prog X n a).log h ∧ x.write = true ∧ c.At j x) ↔ c.WritesAt m j) ∧
    (c.Accepts m → ∀ j, j < c.len → ∃ x, x ∈ (c.run prog X n a).log h ∧ c.At j x) := by
  obtain ⟨m', out, -, -, N1, hN1⟩ := call_run hm hc
  have h1 : ∀ n, N1 ≤ n → ∀ x, x ∈ (c.run prog X n a).log h → x.cell < h.length → c.Owns a x := fun n hn => by
    obtain ⟨vs, g, k, -, -, e, -⟩ := hN1 n hn
    exact MCall.view_log hc (by rw [e]; intro e; cases e)
  cases c with
  | withParsingMode x =>
      exact ⟨N1 + 1, fun n hn => ⟨h1 n (by omega), by obtain ⟨k, rfl⟩ : ∃ k, n = k + 1 := ⟨n - 1, by omega⟩; exact call_uses hm,
        fun j => ⟨fun ⟨x, _, _, h⟩ => h, fun h => h.elim⟩, fun _ j hj => absurd hj (Nat.not_lt_zero j)⟩⟩
  | error =>
      exact ⟨N1 + 1, fun n hn => ⟨h1 n (by omega), by obtain ⟨k, rfl⟩ : ∃ k, n = k + 1 := ⟨n - 1, by omega⟩; exact call_uses hm,
        fun j => ⟨fun ⟨x, _, _, h⟩ => h, fun h => h.elim⟩, fun _ j hj => absurd hj (Nat.not_lt_zero j)⟩⟩
  | parse b s =>
      obtain ⟨hb, hf⟩ := hc
      obtain ⟨N2, h2⟩ := bound_all (List.range s.length) _ fun j _ => call_writesAt (X := X) hm hb hf j
      obtain ⟨r, hr, -, -⟩ := parse_alone hm.1 s
      have h3 : ∃ N, ∀ n, N ≤ n → r.urn ≠ none → ∀ j ∈ List.range s.length, ∃ x, x ∈ ((MCall.parse b s).run prog X n a).log h ∧ b.At j x := by
        by_cases hu : r.urn = none
        · exact ⟨0, fun n _ h => absurd hu h⟩
        · obtain ⟨N, hN⟩ := bound_all (List.range s.length) _ fun j hj => call_accesses (X := X) hm hb hf hr hu (List.mem_range.1 hj)
          exact ⟨N, fun n hn _ => hN n hn⟩
      obtain ⟨N3, h3⟩ := h3
      refine ⟨N1 + N2 + N3 + 1, fun n hn => ⟨h1 n (by omega), fun _ _ => trivial, fun j => ?_, fun ⟨r', hr', hu⟩ j hj => ?_⟩⟩
      · by_cases hj : j < s.length
        · exact h2 n (by omega) j (List.mem_range.2 hj)
        · refine ⟨fun ⟨x, hx, _, hxj⟩ => ?_, fun hw => absurd (call_lt hm.1 hw) hj⟩
          have hxj : b.At j x := hxj
          have ho := h1 n (by omega) x hx (hxj.lt hb)
          cases b with
          | nil => exact hxj.elim
          | part a' pre post cap =>
              rcases ho with e | ⟨-, i, k, h4, h5, h6⟩
              · exact absurd (hxj.1.symm.trans e) (apart hm hb)
              have hm := hxj.2
              rw [h4] at hm
              obtain ⟨-, -, h7, h8⟩ : 0 < k ∧ 0 < 1 ∧ i < pre.length + j + 1 ∧ pre.length + j < i + k := hm
              omega
      · rw [hr] at hr'
        cases hr'
        exact h3 n (by omega) hu j (List.mem_range.2 hj)

/-! ## Goroutines -/

/-- The access is to a field of the machine that the call uses, or to a byte of the slice. -/
def MCall.Region (a : Nat) (x : Access) (c : MCall) : Prop :=
  (x.cell = a ∧ ∃ y, c.Uses y ∧ x.part.Meets y.part) ∨ match c with | .parse b s => b.Touches s.length x | _ => False

/-- A write of a call is not to what another call uses. -/
theorem call_away {a a' : Nat} {m m' : Machine} {c d : MCall} {x : Access} (hm : MachineAt h a m) (hc : c.Fits X h) (hm' : MachineAt h a' m') (hd : d.Fits X h)
    (h1 : a = a' → ¬ c.Mixes d) (h2 : ∀ k, c.WritesAt m k → ¬ c.Shares k d) (ho : c.Owns a x) (hw : x.write = true) (he : c.Uses x)
    (hx : ∀ j, c.At j x → c.WritesAt m j) : ¬ d.Region a' x := by
  intro hr
  have hr' : (x.cell = a' ∧ ∃ y, d.Uses y ∧ x.part.Meets y.part) ∨ ∃ b s, d = .parse b s ∧ b.Touches s.length x := by
    unfold MCall.Region at hr
    cases d with
    | parse b s => exact hr.imp_right fun h => ⟨b, s, rfl, h⟩
    | _ => exact hr.imp_right fun h => h.elim
  have ho' : x.cell = a ∨ ∃ b s, c = .parse b s ∧ b.Owns s.length x := by
    unfold MCall.Owns at ho
    cases c with
    | parse b s => exact ho.imp_right fun h => ⟨b, s, rfl, h⟩
    | _ => exact ho.imp_right fun h => h.elim
  rcases ho' with e | ⟨b, s, rfl, e⟩
  · rcases hr' with ⟨e', y, h3, h4⟩ | ⟨b', s', rfl, e'⟩
    · have h1 := h1 (e.symm.trans e')
      cases c with
      | parse b s => exact h1 trivial
      | error => rw [he.2] at hw; cases hw
      | withParsingMode v => cases d with
        | parse b s => exact h1 trivial
        | withParsingMode v' => exact h1 trivial
        | error =>
            obtain ⟨f, h5, h6⟩ := he
            rw [h5, h3.1] at h4
            exact h6 h4
    · cases b' with
      | nil => exact e'.elim
      | part a2 pre post cap => exact apart hm hd.1 (e'.1.symm.trans e)
  · rcases hr' with ⟨e', -⟩ | ⟨b', s', rfl, e'⟩
    · cases b with
      | nil => exact e.elim
      | part a2 pre post cap => exact apart hm' hc.1 (e.1.symm.trans e')
    · obtain ⟨k, h3, h4⟩ := e.common e'
      exact h2 k (hx k h3) h4

/-- A conflict is with what the other call uses. -/
theorem call_region {a a' : Nat} {m : Machine} {c d : MCall} {x y : Access} (hm : MachineAt h a m) (hd : d.Fits X h)
    (hx : c.Owns a x) (hy : d.Owns a' y) (hu : d.Uses y) (hxy : x.Conflict y) : d.Region a' x := by
  rcases hy with e | hy
  · exact .inl ⟨hxy.1.trans e, y, hu, hxy.2.1⟩
  · cases d with
    | withParsingMode x => exact hy.elim
    | error => exact hy.elim
    | parse b' s' =>
        refine .inr ?_
        rcases hx with e | hx
        · cases b' with
          | nil => exact hy.elim
          | part a2 pre post cap => exact absurd (hy.1.symm.trans (hxy.1.symm.trans e)) (apart hm hd.1)
        · cases c with
          | withParsingMode x => exact hx.elim
          | error => exact hx.elim
          | parse b s => exact Buf.Owns.conflict hx hy hxy

theorem call_always (cs : List (Nat × Machine × MCall)) (hm : ∀ c ∈ cs, MachineAt h c.1 c.2.1 ∧ c.2.2.Fits X h)
    (h1 : ∀ (i j : Nat) c d, i ≠ j → cs[i]? = some c → cs[j]? = some d → c.1 = d.1 → ¬ c.2.2.Mixes d.2.2)
    (h2 : ∀ (i j : Nat) c d k, i ≠ j → cs[i]? = some c → cs[j]? = some d → c.2.2.WritesAt c.2.1 k → ¬ c.2.2.Shares k d.2.2) :
    ∃ N, ∀ n, N ≤ n → Always h (cs.map fun c => c.2.2.run prog X n c.1) fun i y =>
      ∃ c m' out vs l, cs[i]? = some c ∧ c.2.1.exec c.2.2.op = .ok (m', out) ∧ y = .ok (vs, l) ∧ OutIs l out vs ∧ c.2.2.Keeps l ∧
        ((∀ (j : Nat) d, j ≠ i → cs[j]? = some d → d.1 = c.1 → d.2.2 = .error) → MachineAt l c.1 m') := by
  obtain ⟨N, hN⟩ := bound_all cs _ fun c hc => call_accs (hm c hc).1 (hm c hc).2
  obtain ⟨K, hK⟩ := bound_all cs (fun c n => ∃ m' out, c.2.1.exec c.2.2.op = .ok (m', out) ∧ Reachable m' ∧ ∃ vs g k b n0,
      (c.2.2.run prog X n c.1).run (c.2.2.view c.1 h) = .ok (vs, g) ∧ (c.2.2.run prog X n c.1).run h = .ok (vs, k) ∧ Hides g k ∧ OutNew g h.length out vs ∧
      k[c.1]? = some (.obj (machVal (Buf.val b n0) m')) ∧ c.2.2.Keeps k) fun c hc => by
    obtain ⟨m', out, e1, e2, N, hN⟩ := call_run (hm c hc).1 (hm c hc).2
    exact ⟨N, fun n hn => ⟨m', out, e1, e2, hN n hn⟩⟩
  have key : ∀ n, N ≤ n → ∀ (i j : Nat) c d x, i ≠ j → cs[i]? = some c → cs[j]? = some d → x ∈ (c.2.2.run prog X n c.1).log h → x.write = true →
      x.cell < h.length → ¬ d.2.2.Region d.1 x := by
    intro n hn i j c d x hij hi hj hx hw hl
    have hc := hm c (List.mem_of_getElem? hi)
    have hd := hm d (List.mem_of_getElem? hj)
    obtain ⟨a1, a2, a4, -⟩ := hN n hn c (List.mem_of_getElem? hi)
    exact call_away hc.1 hc.2 hd.1 hd.2 (h1 i j c d hij hi hj) (fun k => h2 i j c d k hij hi hj) (a1 x hx hl) hw (a2 x hx) fun j hj => (a4 j).1 ⟨x, hx, hw, hj⟩
  refine ⟨N + K, fun n hn => always_same (noConflict_map fun i j c d x y hij hi hj hx hy hl hxy => ?_) (fun i t ht vs k' hk' l hnear hsame => ?_) fun i t ht => ?_⟩
  · have hc := hm c (List.mem_of_getElem? hi)
    have hd := hm d (List.mem_of_getElem? hj)
    obtain ⟨ox, ux, -⟩ := hN n (by omega) c (List.mem_of_getElem? hi)
    obtain ⟨oy, uy, -⟩ := hN n (by omega) d (List.mem_of_getElem? hj)
    have ox := ox x hx hl
    have hl' : y.cell < h.length := hxy.1 ▸ hl
    have oy := oy y hy hl'
    rcases hxy.2.2 with e | e
    · exact key n (by omega) i j c d x hij hi hj hx e hl (call_region hc.1 hd.2 ox oy (uy y hy) hxy)
    · exact key n (by omega) j i d c y (fun e => hij e.symm) hj hi hy e hl' (call_region hd.1 hc.2 oy ox (ux x hx) ⟨hxy.1.symm, hxy.2.1.symm, hxy.2.2.symm⟩)
  · rw [List.getElem?_map] at ht
    cases hi : cs[i]? with
    | none => rw [hi] at ht; cases ht
    | some c =>
        rw [hi] at ht
        cases ht
        obtain ⟨m', out, e1, e2, vs', g, k, b0, n0, -, e4, e5, e6, e7, e8⟩ := hK n (by omega) c (List.mem_of_getElem? hi)
        rw [e4] at hk'
        cases hk'
        have hlt : ∀ (j : Nat) u x, j ≠ i → (cs.map fun c => c.2.2.run prog X n c.1)[j]? = some u → x ∈ u.log h → x.write = true → c.2.2.Region c.1 x → h.length ≤ x.cell := by
          intro j u x hj hu hx hw hr
          rw [List.getElem?_map] at hu
          cases hd : cs[j]? with
          | none => rw [hd] at hu; cases hu
          | some d =>
              rw [hd] at hu
              cases hu
              apply Nat.le_of_not_lt
              intro hlt
              exact key n (by omega) j i d c x hj hd hi hx hw hlt hr
        refine ⟨c, m', out, _, l, rfl, e1, rfl, e6.near e5 hnear, ?_, fun hone => ⟨e2, b0, n0, ?_⟩⟩
        · revert e8 hlt
          generalize c.2.2 = d
          intro e8 hlt
          cases d with
          | withParsingMode x => trivial
          | error => trivial
          | parse b s =>
              cases b with
              | nil => exact e8
              | part a2 pre post cap =>
                  exact (hsame a2 _ fun j u x hj hu hx hw hcl hp => hcl ▸ hlt j u x hj hu hx hw (.inr ⟨hcl, hp⟩)).trans e8
        · have hc := hm c (List.mem_of_getElem? hi)
          have := hsame c.1 .all fun j u x hj hu hx hw hcl _ => by
            apply Nat.le_of_not_lt
            intro hlt
            rw [List.getElem?_map] at hu
            cases hd : cs[j]? with
            | none => rw [hd] at hu; cases hu
            | some d =>
                rw [hd] at hu
                cases hu
                obtain ⟨o, u, -⟩ := hN n (by omega) d (List.mem_of_getElem? hd)
                have o := o x hx (hcl ▸ hlt)
                have hd' := hm d (List.mem_of_getElem? hd)
                have : x.cell = d.1 := by
                  rcases o with o | o
                  · exact o
                  · have hf := hd'.2
                    revert o hf
                    generalize d.2.2 = z
                    intro o hf
                    cases z with
                    | parse b s =>
                        cases b with
                        | nil => exact o.elim
                        | part a2 pre post cap => exact absurd (o.1.symm.trans hcl) (apart hc.1 hf.1)
                    | _ => exact o.elim
                have e := hone j d hj hd (this.symm.trans hcl)
                have u := u x hx
                rw [e] at u
                rw [u.2] at hw
                cases hw
          rw [Heap.at, Heap.at, e7] at this
          cases hl : l[c.1]? with
          | none => rw [hl] at this; cases this
          | some q =>
              rw [hl] at this
              cases q <;> simp [Cell.see] at this
              rw [this]
  · rw [List.getElem?_map] at ht
    cases hi : cs[i]? with
    | none => rw [hi] at ht; cases ht
    | some c =>
        rw [hi] at ht
        cases ht
        obtain ⟨m', out, e1, e2, vs', g, k, b0, n0, -, e4, -⟩ := hK n (by omega) c (List.mem_of_getElem? hi)
        exact ⟨_, e4⟩

/-! ## Clients with machines of their own -/

theorem callOp_same (P : Prog) (n : Nat) (v : Val) (op : Urn.Op) (h : Heap) : SameV (callOp P X n v op h) (callOpT P X n v op) h := by
  cases op with
  | parse s => exact runMethod_same P X n v _ _ _
  | withParsingMode x => exact runMethod_same P X n v _ _ _
  | error => exact runMethod_same P X n v _ _ _

theorem callOps_same (P : Prog) (n : Nat) (v : Val) : ∀ (ops : List Urn.Op) (h : Heap), SameV (callOps P X n v ops h) (callOpsT P X n v ops) h
  | [], h => rfl
  | op :: ops, h => by
      rw [callOps, callOpsT]
      exact .bind (callOp_same P n v op h) fun _ h => .bind (callOps_same P n v ops h) fun _ _ => rfl

theorem client_same (P : Prog) (n : Nat) (xs : List ParsingMode) (ops : List Urn.Op) (h : Heap) : SameV (client P X n xs ops h) (clientT P X n xs ops) h :=
  .bind (.bind (makeOptions_same P X n xs h) fun _ h => runFn_same P X n _ _ _ h) fun _ h => .bindR .done fun v => callOps_same P n v ops h

/-- Only hidden cells. -/
theorem mask_none_new {h k : Heap} (hk : ∀ c, c < (mask (fun _ => false) h).length → k[c]? = (mask (fun _ => false) h)[c]?) :
    ∀ (a : Nat) (v : Val), k[a]? = some (Cell.obj v) → h.length ≤ a := by
  intro a v ha
  apply Nat.le_of_not_lt
  intro hlt
  rw [hk a (by rw [mask_len]; exact hlt), mask_get, List.getElem?_eq_getElem hlt] at ha
  cases ha

theorem outs_near {g k l : Heap} (hnew : ∀ (a : Nat) (v : Val), g[a]? = some (Cell.obj v) → h.length ≤ a) (hk : Hides g k) (hl : Near h k l) :
    ∀ (os : List Out) (vs : List (List Val)), OutsAre g os vs → OutsAre l os vs
  | [], [], _ => trivial
  | o :: os, v :: vs, ⟨h1, h2⟩ => by
      refine ⟨?_, outs_near hnew hk hl os vs h2⟩
      cases o with
      | unit => exact h1
      | err e => exact h1
      | parsed u e =>
          obtain ⟨p, e1, e2⟩ := h1
          exact ⟨p, e1, e2.near hnew hk hl⟩

theorem client_always {P : Prog} (hP : IsProgram files P) (cs : List (List ParsingMode × List Urn.Op)) (hf : ∀ c ∈ cs, ∀ op ∈ c.2, OpFits X op) :
    ∃ N, ∀ n, N ≤ n → Always h (cs.map fun c => clientT P X n c.1 c.2) fun i y =>
      ∃ c m m' outs vs l, cs[i]? = some c ∧ newMachine (c.1.map withParsingMode) = .ok m ∧ m.execAll c.2 = .ok (m', outs) ∧ y = .ok (vs, l) ∧ OutsAre l outs vs := by
  obtain ⟨N, hN⟩ := bound_all cs (fun c n => ∃ m m' outs vs g, newMachine (c.1.map withParsingMode) = .ok m ∧ m.execAll c.2 = .ok (m', outs) ∧
      (clientT P X n c.1 c.2).run (mask (fun _ => false) h) = .ok (vs, g) ∧ OutsAre g outs vs ∧
      ∀ (a : Nat) (v : Val), g[a]? = some (Cell.obj v) → h.length ≤ a) fun c hc => by
    obtain ⟨m, m', outs, vs, g, h1, h2, ⟨N, hN⟩, h4, h5⟩ := C63_history hP X (mask (fun _ => false) h) c.1 c.2 (hf c hc)
    refine ⟨N, fun n hn => ⟨m, m', outs, vs, g, h1, h2, ?_, h4, mask_none_new h5⟩⟩
    have := hN n hn
    dsimp only at this
    rw [client_same] at this
    exact this
  refine ⟨N, fun n hn => always_of (noConflict_map fun i j c d x y hij hi hj hx hy hl _ => ?_) fun i t ht r hr => ?_⟩
  · obtain ⟨m, m', outs, vs, g, -, -, e, -⟩ := hN n hn c (List.mem_of_getElem? hi)
    cases mask_log (by rw [e]; intro e; cases e) x hx hl
  · rw [List.getElem?_map] at ht
    cases hi : cs[i]? with
    | none => rw [hi] at ht; cases ht
    | some c =>
        rw [hi] at ht
        cases ht
        obtain ⟨m, m', outs, vs, g, h1, h2, e, h4, h5⟩ := hN n hn c (List.mem_of_getElem? hi)
        have hh := (hides_run _ _ h (mask_hides _ h) (by rw [e]; intro e; cases e)).2.2
        rw [e] at hh
        obtain ⟨k, hk1, hk2⟩ := hh
        rw [hk1] at hr
        cases r with
        | ok z =>
            obtain ⟨w, l⟩ := z
            obtain ⟨rfl, hl⟩ := hr
            exact ⟨c, m, m', outs, vs, l, rfl, h1, h2, rfl, outs_near h5 hk2 hl _ _ h4⟩
        | _ => exact hr.elim

end
end Urn.GoLang
