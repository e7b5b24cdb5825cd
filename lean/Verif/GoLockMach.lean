import Verif.GoLockAux
import Verif.PropsText
import Verif.GoShare
/-!
# A machine behind a lock: proofs
-/
set_option autoImplicit false
namespace Urn.GoLang.Lock

section
variable {X : Ext} {h h' : Heap} {a : Nat} {m m' : Machine}

theorem has_except {b : Buf} {s : Bytes} (hm : MachineAt h a m) (hk : ∀ c, c < h.length → c ≠ a → h'[c]? = h[c]?) (hb : b.has h s) : b.has h' s := by
  cases b with
  | nil => exact hb
  | part c pre post cap =>
      refine ⟨?_, hb.2⟩
      have hc := hb.1
      obtain ⟨-, b0, n0, ha⟩ := hm
      rw [hk c (List.getElem?_eq_some_iff.1 hc).1 (by rintro rfl; rw [ha] at hc; cases hc)]
      exact hc

theorem fits_except {c : MCall} (hm : MachineAt h a m) (hk : ∀ c, c < h.length → c ≠ a → h'[c]? = h[c]?) (hc : c.Fits X h) : c.Fits X h' := by
  cases c with
  | parse b s => exact ⟨has_except hm hk hc.1, hc.2⟩
  | withParsingMode x => trivial
  | error => trivial

theorem outIs_except {out : Out} {vs : List Val} (hm : MachineAt h a m) (hk : ∀ c, c < h.length → c ≠ a → h'[c]? = h[c]?) (ho : OutIs h out vs) : OutIs h' out vs := by
  cases out with
  | parsed u e =>
      obtain ⟨p, rfl, hu⟩ := ho
      obtain ⟨-, b, n, hm⟩ := hm
      exact ⟨p, rfl, hu.except ⟨_, _, hm⟩ hk⟩
  | unit => exact ho
  | err e => exact ho

theorem outsAre_except {outs : List Out} {vss : List (List Val)} (hm : MachineAt h a m) (hk : ∀ c, c < h.length → c ≠ a → h'[c]? = h[c]?) (ho : OutsAre h outs vss) : OutsAre h' outs vss := by
  induction outs generalizing vss with
  | nil => cases vss <;> exact ho
  | cons o os ih =>
      cases vss with
      | nil => exact ho
      | cons v vs => exact ⟨outIs_except hm hk ho.1, ih ho.2⟩

theorem outsAre_snoc {outs : List Out} {vss : List (List Val)} {o : Out} {v : List Val} (ho : OutsAre h outs vss) (h1 : OutIs h o v) : OutsAre h (outs ++ [o]) (vss ++ [v]) := by
  induction outs generalizing vss with
  | nil =>
      cases vss with
      | nil => exact ⟨h1, trivial⟩
      | cons v vs => exact ho.elim
  | cons o os ih =>
      cases vss with
      | nil => exact ho.elim
      | cons v vs => exact ⟨ho.1, ih ho.2⟩

theorem outsAre_length {outs : List Out} {vss : List (List Val)} (ho : OutsAre h outs vss) : vss.length = outs.length := by
  induction outs generalizing vss with
  | nil => cases vss with | nil => rfl | cons v vs => exact ho.elim
  | cons o os ih =>
      cases vss with
      | nil => exact ho.elim
      | cons v vs => simp [ih ho.2]

/-- One call in the text and in the model. -/
theorem call_text (c : MCall) (hm : MachineAt h a m) (hc : c.Fits X h) : ∃ m' out vs h', m.exec c.op = .ok (m', out) ∧
    Does (fun n => (c.run prog X n a).run h) (vs, h') ∧ OutIs h' out vs ∧ MachineAt h' a m' ∧ ∀ c, c < h.length → c ≠ a → h'[c]? = h[c]? := by
  cases c with
  | parse b s =>
      obtain ⟨r, p, h', h1, ⟨N, h2⟩, h3, -, h4, h5⟩ := C63_parse isProgram_prog X h a m hm b s hc.1 hc.2
      refine ⟨r.m, .parsed r.urn r.err, _, h', by simp only [MCall.op, Machine.exec, h1, Run.ok_bind, Run.pure_eq], ⟨N, fun n hn => ?_⟩, ⟨p, rfl, h3⟩, h4, h5⟩
      have e := h2 n hn
      dsimp only at e
      rw [runMethod_same] at e
      exact e
  | withParsingMode x =>
      obtain ⟨h', ⟨N, h1⟩, h2, h3⟩ := (C63_methods isProgram_prog X h a m hm).1 x
      refine ⟨_, _, _, h', rfl, ⟨N, fun n hn => ?_⟩, rfl, h2, h3⟩
      have e := h1 n hn
      dsimp only at e
      rw [runMethod_same] at e
      exact e
  | error =>
      obtain ⟨N, h1⟩ := (C63_methods isProgram_prog X h a m hm).2
      refine ⟨_, _, _, h, rfl, ⟨N, fun n hn => ?_⟩, rfl, hm, fun _ _ _ => rfl⟩
      have e := h1 n hn
      dsimp only at e
      rw [runMethod_same] at e
      exact e

/-- In the model, goroutine `i` makes its next call. -/
def machStep (i : Nat) (x : Machine × List Call × List (List MCall)) : Run (Machine × List Call × List (List MCall)) :=
  match x.2.2[i]? with
  | some (c :: cs) => x.1.exec c.op >>= fun r => .ok (r.1, x.2.1 ++ [⟨i, c, r.2⟩], x.2.2.set i cs)
  | _ => .diverge

structure MachInv (X : Ext) (h0 : Heap) (a : Nat) (m0 : Machine) (css : List (List MCall)) (h : Heap) (ws : List (Worker (List (List Val)) MCall))
    (x : Machine × List Call × List (List MCall)) : Prop where
  mach : MachineAt h a x.1
  calls : m0.execAll (x.2.1.map fun c => c.call.op) = .ok (x.1, x.2.1.map Call.out)
  frame : ∀ c, c < h0.length → c ≠ a → h[c]? = h0[c]?
  wlen : ws.length = css.length
  each : ∀ i, i < css.length → ∃ vss rest, ws[i]? = some ⟨vss, rest⟩ ∧ x.2.2[i]? = some rest ∧ css[i]? = some ((mine i x.2.1).map Call.call ++ rest) ∧
    OutsAre h ((mine i x.2.1).map Call.out) vss
  who : ∀ c ∈ x.2.1, c.who < css.length

theorem mine_snoc (i j : Nat) (log : List Call) (c : MCall) (o : Out) : mine i (log ++ [⟨j, c, o⟩]) = if j = i then mine i log ++ [⟨j, c, o⟩] else mine i log := by
  unfold mine
  rw [List.filter_append]
  by_cases hj : j = i <;> simp [hj]

theorem mach_follows {h0 : Heap} {m0 : Machine} {css : List (List MCall)} (hm0 : MachineAt h0 a m0) (hf : ∀ cs ∈ css, ∀ c ∈ cs, c.Fits X h0) :
    Follows (fun n => callSec prog X n a) machStep (MachInv X h0 a m0 css) := by
  intro h ws x i s t ts inv hi
  obtain ⟨m, log, tds⟩ := x
  have hil : i < css.length := by rw [← inv.wlen]; exact (List.getElem?_eq_some_iff.1 hi).1
  obtain ⟨vss, rest, e1, e2, e3, e4⟩ := inv.each i hil
  rw [hi] at e1
  cases e1
  dsimp only at e2 e3 e4
  have hfit : t.Fits X h := by
    have h1 := hf _ (List.mem_of_getElem? e3) t (by simp)
    exact fits_except hm0 inv.frame h1
  obtain ⟨m', out, vs, h', d1, d2, d3, d4, d5⟩ := call_text t inv.mach hfit
  dsimp only at d1
  have hst : machStep i (m, log, tds) = .ok (m', log ++ [⟨i, t, out⟩], tds.set i ts) := by
    simp only [machStep, e2, d1, Run.ok_bind]
  rw [hst]
  refine ⟨s ++ [vs], h', ?_, d4, ?_, ?_, ?_, ?_, ?_⟩
  · obtain ⟨N, hN⟩ := d2
    refine ⟨N, fun n hn => ?_⟩
    have e := hN n hn
    dsimp only at e ⊢
    rw [callSec, Io.bind_eq, Io.run_bind, e]
    rfl
  · simp only [List.map_append, List.map_cons, List.map_nil]
    rw [execAll_append, inv.calls]
    simp only [Run.ok_bind, Machine.execAll, d1, Run.pure_eq]
  · intro c hc hca
    rw [d5 c _ hca, inv.frame c hc hca]
    have := length_le inv.mach inv.frame
    omega
  · simpa using inv.wlen
  · intro j hj
    by_cases hij : i = j
    · subst hij
      refine ⟨s ++ [vs], ts, List.getElem?_set_self (List.getElem?_eq_some_iff.1 hi).1, List.getElem?_set_self (List.getElem?_eq_some_iff.1 e2).1, ?_, ?_⟩
      · rw [mine_snoc, if_pos rfl, e3]
        simp
      · rw [mine_snoc, if_pos rfl]
        simp only [List.map_append, List.map_cons, List.map_nil]
        exact outsAre_snoc (outsAre_except inv.mach d5 e4) d3
    · obtain ⟨vss', rest', f1, f2, f3, f4⟩ := inv.each j hj
      refine ⟨vss', rest', by rw [List.getElem?_set_ne hij, f1], by dsimp only; rw [List.getElem?_set_ne hij]; exact f2, ?_, ?_⟩
      · rw [mine_snoc, if_neg hij]; exact f3
      · rw [mine_snoc, if_neg hij]; exact outsAre_except inv.mach d5 f4
  · intro c hc
    rcases List.mem_append.1 hc with hc | hc
    · exact inv.who c hc
    · cases List.mem_singleton.1 hc
      exact hil

theorem mach_start {css : List (List MCall)} (hm : MachineAt h a m) : MachInv X h a m css h (css.map fun cs => ⟨[], cs⟩) (m, [], css) := by
  refine ⟨hm, rfl, fun _ _ _ => rfl, by simp, fun i hi => ⟨[], css[i], by simp [hi], by simp [hi], by simp [mine, hi], trivial⟩, by simp⟩

theorem mach_log {x y : Machine × List Call × List (List MCall)} (order : List Nat) (hs : mserial machStep order x = .ok y) : ∃ extra, y.2.1 = x.2.1 ++ extra := by
  induction order generalizing x with
  | nil => cases hs; exact ⟨[], by simp⟩
  | cons i is ih =>
      rw [mserial] at hs
      obtain ⟨m, log, tds⟩ := x
      cases he : machStep i (m, log, tds) with
      | ok z =>
          rw [he, Run.ok_bind] at hs
          obtain ⟨e, h1⟩ := ih hs
          unfold machStep at he
          dsimp only at he
          split at he
          · rename_i c cs _
            cases hx : m.exec c.op with
            | ok r =>
                rw [hx] at he
                cases he
                exact ⟨_, by rw [h1, List.append_assoc]⟩
            | panic p => rw [hx] at he; cases he
            | diverge => rw [hx] at he; cases he
          · cases he
      | panic p => rw [he] at hs; cases hs
      | diverge => rw [he] at hs; cases hs

theorem mach_linear {h0 : Heap} {css : List (List MCall)} {n : Nat} {w : World (List (List Val)) MCall} {x : Machine × List Call × List (List MCall)}
    {ws' : List (Worker (List (List Val)) MCall)} (inv : MachInv X h0 a m css h' ws' x)
    (hw : w.Is (callSec prog X n a) h' ws') :
    Linear a m css w x.2.1 := by
  rcases w with ⟨mem, ws, lock⟩
  cases lock with
  | none =>
      obtain ⟨rfl, rfl⟩ := hw
      refine ⟨⟨x.1, inv.calls, fun _ => inv.mach⟩, fun i hi => ?_, inv.who⟩
      obtain ⟨vss, rest, e1, -, e3, e4⟩ := inv.each i hi
      exact ⟨vss, rest, [], e1, by simpa using e3, by simpa using outsAre_length e4, fun _ => e4, .inl rfl⟩
  | some y =>
      obtain ⟨j, io⟩ := y
      obtain ⟨s, t, ts, h1, h2, -⟩ := hw
      dsimp only at h2
      subst h2
      refine ⟨⟨x.1, inv.calls, fun h => (by cases h)⟩, fun i hi => ?_, inv.who⟩
      obtain ⟨vss, rest, e1, -, e3, e4⟩ := inv.each i hi
      by_cases hij : j = i
      · subst hij
        rw [h1] at e1
        cases e1
        exact ⟨_, ts, [t], List.getElem?_set_self (List.getElem?_eq_some_iff.1 h1).1, by simpa using e3, by simpa using outsAre_length e4, fun h => (by cases h), .inr ⟨t, io, rfl, rfl⟩⟩
      · exact ⟨vss, rest, [], by dsimp only; rw [List.getElem?_set_ne hij]; exact e1, by simpa using e3, by simpa using outsAre_length e4, fun h => (by cases h), .inl rfl⟩

theorem mach_total {x : Machine × List Call × List (List MCall)} {h0 : Heap} {m0 : Machine} {css : List (List MCall)} {ws : List (Worker (List (List Val)) MCall)} (hm0 : MachineAt h0 a m0)
    (hf : ∀ cs ∈ css, ∀ c ∈ cs, c.Fits X h0) (inv : MachInv X h0 a m0 css h ws x) {i : Nat} {s : List (List Val)} {t : MCall} {ts : List MCall} (hi : ws[i]? = some ⟨s, t :: ts⟩) :
    ∃ y, machStep i x = .ok y := by
  have hil : i < css.length := by rw [← inv.wlen]; exact (List.getElem?_eq_some_iff.1 hi).1
  obtain ⟨vss, rest, e1, e2, e3, e4⟩ := inv.each i hil
  rw [hi] at e1
  cases e1
  have hfit : t.Fits X h := fits_except hm0 inv.frame (hf _ (List.mem_of_getElem? e3) t (by simp))
  obtain ⟨m', out, vs, h', d1, -⟩ := call_text t inv.mach hfit
  exact ⟨(m', x.2.1 ++ [⟨i, t, out⟩], x.2.2.set i ts), by simp only [machStep, e2, d1, Run.ok_bind]⟩

theorem machine_locked (css : List (List MCall)) (hm : MachineAt h a m) (hf : ∀ cs ∈ css, ∀ c ∈ cs, c.Fits X h) : ∃ N, ∀ n, N ≤ n →
    (∀ sched later, ∃ log extra,
      Linear a m css ((World.mk h (css.map fun cs => ⟨[], cs⟩) none).run (callSec prog X n a) sched) log ∧
      Linear a m css ((World.mk h (css.map fun cs => ⟨[], cs⟩) none).run (callSec prog X n a) (sched ++ later)) (log ++ extra)) ∧
    ∃ K, ∀ sched, Rounds css.length K sched → ((World.mk h (css.map fun cs => ⟨[], cs⟩) none).run (callSec prog X n a) sched).Finished := by
  obtain ⟨N, hN⟩ := follows_all (mach_follows hm hf) _ rfl (mach_start (X := X) (css := css) hm)
  refine ⟨N, fun n hn => ⟨fun sched later => ?_, ?_⟩⟩
  · have h0 : Explains (callSec prog X n a) h (css.map fun cs => ⟨[], cs⟩) (World.mk h (css.map fun cs => ⟨[], cs⟩) none) [] := ⟨h, _, rfl, rfl, rfl⟩
    obtain ⟨o1, h1⟩ := run_explains sched h0
    obtain ⟨o2, h2⟩ := run_explains later h1
    rw [← World.run_append] at h2
    obtain ⟨g1, ws1, s1, k1⟩ := h1
    obtain ⟨g2, ws2, s2, k2⟩ := h2
    obtain ⟨y1, m1, i1, -⟩ := hN n hn _ _ _ s1
    obtain ⟨y2, m2, i2, -⟩ := hN n hn _ _ _ s2
    rw [mserial_append, m1, Run.ok_bind] at m2
    obtain ⟨extra, he⟩ := mach_log o2 m2
    refine ⟨y1.2.1, extra, mach_linear (n := n) i1 k1, ?_⟩
    rw [← he]
    exact mach_linear (n := n) i2 k2
  · refine ends_free _ rfl (by simp) fun order h' ws' i s t ts hs hi => ?_
    obtain ⟨y, -, i1, i2⟩ := hN n hn _ _ _ hs
    obtain ⟨z, hz⟩ := mach_total hm hf i1 hi
    have := i2 i s t ts hi
    rw [hz] at this
    exact this

end
end Urn.GoLang.Lock
