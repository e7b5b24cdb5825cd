import Verif.GoLockAux
import Verif.GoRaceEnd
/-!
# URNs and SCIM structs behind a lock: proofs
-/
set_option autoImplicit false
namespace Urn.GoLang.Lock
open Urn.Heap (Mem Got Act)

section
variable {X : Ext} {M : Mem} {h : Heap} {U S : List Nat}

theorem addGot_mem {R : Regs} (g : Got) : (∀ p ∈ R.urns, p ∈ (R.addGot g).urns) ∧ (∀ p ∈ R.scims, p ∈ (R.addGot g).scims) ∧
    (∀ k ∈ g.urns, some k ∈ (R.addGot g).urns) ∧ ∀ k ∈ g.scims, some k ∈ (R.addGot g).scims := by
  cases g with
  | urn p ok | urn8141 p e =>
      refine ⟨fun q hq => List.mem_append.2 (.inl hq), fun q hq => hq, fun k hk => ?_, fun k hk => by cases hk⟩
      have : p = some k := by simpa [Got.urns] using hk
      simp [Regs.addGot, this]
  | scim p =>
      refine ⟨fun q hq => hq, fun q hq => List.mem_append.2 (.inl hq), fun k hk => (by cases hk), fun k hk => ?_⟩
      have : p = some k := by simpa [Got.scims] using hk
      simp [Regs.addGot, this]
  | unit | bool | bytes | kind | fields | err => exact ⟨fun q hq => hq, fun q hq => hq, fun k hk => (by cases hk), fun k hk => by cases hk⟩

/-- All pointers that were returned are in variables. -/
theorem run_mem (ss : List Step) : ∀ {R R1 : Regs} {M M1 : Mem} {gs : List Got}, runModel X ss R M = .ok (gs, R1, M1) →
    (∀ p ∈ R.urns, p ∈ R1.urns) ∧ (∀ p ∈ R.scims, p ∈ R1.scims) ∧ ∀ g ∈ gs, (∀ k ∈ g.urns, some k ∈ R1.urns) ∧ ∀ k ∈ g.scims, some k ∈ R1.scims := by
  induction ss with
  | nil => intro R R1 M M1 gs e; cases e; exact ⟨fun _ h => h, fun _ h => h, fun _ h => by cases h⟩
  | cons s ss ih =>
      intro R R1 M M1 gs e
      rw [runModel] at e
      cases ha : M.act X.uni X.json (s.act R) with
      | diverge => rw [ha] at e; cases e
      | panic p => rw [ha] at e; cases e
      | ok y =>
          obtain ⟨M2, g⟩ := y
          rw [ha] at e
          simp only [Run.ok_bind] at e
          cases hr : runModel X ss (R.addGot g) M2 with
          | diverge => rw [hr] at e; cases e
          | panic p => rw [hr] at e; cases e
          | ok z =>
              obtain ⟨gs2, R2, M3⟩ := z
              rw [hr] at e
              cases e
              obtain ⟨h1, h2, h3⟩ := ih hr
              obtain ⟨a1, a2, a3, a4⟩ := addGot_mem (R := R) g
              refine ⟨fun p hp => h1 p (a1 p hp), fun p hp => h2 p (a2 p hp), fun g' hg => ?_⟩
              rcases List.mem_cons.1 hg with rfl | hg
              · exact ⟨fun k hk => h1 _ (a3 k hk), fun k hk => h2 _ (a4 k hk)⟩
              · exact h3 g' hg

theorem valsAll_app {ss : List Step} {gs : List Got} (hg : ∀ g ∈ gs, Fits g U S) (l m : List Nat) :
    valsAll X (look (U ++ l)) (look (S ++ m)) ss gs = valsAll X (look U) (look S) ss gs := by
  induction ss generalizing gs with
  | nil => rfl
  | cons s ss ih =>
      cases gs with
      | nil => rfl
      | cons g gs =>
          simp only [valsAll, List.zipWith_cons_cons]
          rw [vals_app (hg g (List.mem_cons_self ..))]
          exact congrArg _ (ih fun g' hg' => hg g' (List.mem_cons_of_mem _ hg'))

theorem Fits.app {g : Got} (hg : Fits g U S) (l m : List Nat) : Fits g (U ++ l) (S ++ m) :=
  ⟨fun k hk => by have := hg.1 k hk; simp; omega, fun k hk => by have := hg.2 k hk; simp; omega⟩

/-- A goroutine in the model and in the text. -/
structure SameWorker (X : Ext) (U S : List Nat) (m : MWorker) (x : Option (Worker (List (List Val) × Regs) (List Step))) : Prop where
  is : x = some ⟨(valsAll X (look U) (look S) m.steps m.gots, mapR U S m.regs), m.todo⟩
  regs : RegsFit m.regs U S
  gots : ∀ g ∈ m.gots, Fits g U S
  len : m.gots.length = m.steps.length
  todo : ∀ ss ∈ m.todo, ∀ s ∈ ss, s.Fits X

theorem SameWorker.app {m : MWorker} {x : Option (Worker (List (List Val) × Regs) (List Step))} (hs : SameWorker X U S m x) (l k : List Nat) : SameWorker X (U ++ l) (S ++ k) m x := by
  refine ⟨?_, hs.regs.app l k, fun g hg => Fits.app (hs.gots g hg) l k, hs.len, hs.todo⟩
  rw [valsAll_app hs.gots, mapR_app hs.regs]
  exact hs.is

structure ClientInv (X : Ext) (U S : List Nat) (h : Heap) (ws : List (Worker (List (List Val) × Regs) (List Step))) (x : Mem × List MWorker) (l k : List Nat) : Prop where
  sim : Sim x.1 h (U ++ l) (S ++ k)
  len : x.2.length = ws.length
  each : ∀ (i : Nat) (m : MWorker), x.2[i]? = some m → SameWorker X (U ++ l) (S ++ k) m ws[i]?

theorem client_follows (U S : List Nat) : Follows (fun n => runSec prog cprog X n) (modelStep X) (fun h ws x => ∃ l k, ClientInv X U S h ws x l k) := by
  intro h ws x i s t ts inv hi
  obtain ⟨l, k, sim, len, each⟩ := inv
  obtain ⟨M, ms⟩ := x
  dsimp only at sim len each
  obtain ⟨m, hm⟩ : ∃ m, ms[i]? = some m := ⟨_, List.getElem?_eq_getElem (by rw [len]; exact (List.getElem?_eq_some_iff.1 hi).1)⟩
  have hw := each i m hm
  have e := hw.is
  rw [hi] at e
  obtain ⟨ss, gs, R, td⟩ := m
  dsimp only at e
  cases e
  have hg := run_good (X := X) t (hw.todo t (List.mem_cons_self ..)) sim hw.regs
  simp only [modelStep, hm]
  cases hr : runModel X t R M with
  | diverge => rw [hr] at hg; exact hg.elim
  | panic p =>
      rw [hr] at hg
      obtain ⟨N, hN⟩ := hg
      refine ⟨N, fun n hn => ?_⟩
      dsimp only
      rw [runSec, Io.bind_eq, Io.run_bind, tree_panic (hN n hn)]
      rfl
  | ok y =>
      obtain ⟨gs1, R1, M1⟩ := y
      rw [hr] at hg
      obtain ⟨U', S', h', ⟨N, hN⟩, r1, r2, r3, -⟩ := hg
      simp only [Run.ok_bind]
      refine ⟨(valsAll X (look (U ++ l)) (look (S ++ k)) ss gs ++ valsAll X (look (U ++ l ++ U')) (look (S ++ k ++ S')) t gs1, mapR (U ++ l ++ U') (S ++ k ++ S') R1), h', ⟨N, fun n hn => ?_⟩, l ++ U', k ++ S', by simpa using r1, by simpa using len, fun j m hj => ?_⟩
      · dsimp only
        rw [runSec, Io.bind_eq, Io.run_bind, tree_ok (hN n hn)]
        rfl
      · dsimp only at hj
        rw [← List.append_assoc, ← List.append_assoc]
        by_cases hij : i = j
        · subst hij
          rw [List.getElem?_set_self (List.getElem?_eq_some_iff.1 hm).1] at hj
          cases hj
          rw [List.getElem?_set_self (List.getElem?_eq_some_iff.1 hi).1]
          obtain ⟨q1, q2, q3⟩ := run_mem t hr
          refine ⟨?_, r2, ?_, ?_, fun ss hss => hw.todo ss (List.mem_cons_of_mem _ hss)⟩
          · have e1 : valsAll X (look (U ++ l ++ U')) (look (S ++ k ++ S')) (ss ++ t) (gs ++ gs1) =
                valsAll X (look (U ++ l)) (look (S ++ k)) ss gs ++ valsAll X (look (U ++ l ++ U')) (look (S ++ k ++ S')) t gs1 := by
              rw [← valsAll_app (U := U ++ l) (S := S ++ k) hw.gots U' S']
              exact List.zipWith_append hw.len.symm
            rw [e1]
          · intro g hg
            rcases List.mem_append.1 hg with hg | hg
            · exact Fits.app (hw.gots g hg) U' S'
            · exact ⟨fun x hx => r2.1 _ ((q3 g hg).1 x hx) x rfl, fun x hx => r2.2 _ ((q3 g hg).2 x hx) x rfl⟩
          · have := hw.len
            simp only [List.length_append]
            dsimp only at this
            omega
        · rw [List.getElem?_set_ne hij] at hj ⊢
          exact (each j m hj).app U' S'

theorem modelSerial_eq (order : List Nat) : ∀ x, modelSerial X order x = mserial (modelStep X) order x := by
  induction order with
  | nil => exact fun _ => rfl
  | cons i is ih =>
      intro x
      simp only [modelSerial, mserial]
      cases modelStep X i x with
      | ok y => exact ih y
      | panic p => rfl
      | diverge => rfl

theorem client_locked {cs : List (Regs × List (List Step))} (r : Sim M h U S) (hR : ∀ c ∈ cs, RegsFit c.1 U S) (hf : ∀ c ∈ cs, ∀ ss ∈ c.2, ∀ s ∈ ss, s.Fits X) :
    ∃ N, ∀ n, N ≤ n →
      (∀ sched order, Explains (runSec prog cprog X n) h (cs.map fun c => ⟨([], c.1.addr (look U) (look S)), c.2⟩)
          ((World.mk h (cs.map fun c => ⟨([], c.1.addr (look U) (look S)), c.2⟩) none).run (runSec prog cprog X n) sched) order →
        ClientLinear X (look U) (look S) M (cs.map fun c => { regs := c.1, todo := c.2 })
          ((World.mk h (cs.map fun c => ⟨([], c.1.addr (look U) (look S)), c.2⟩) none).run (runSec prog cprog X n) sched) order) ∧
      ((∀ order p, modelSerial X order (M, cs.map fun c => { regs := c.1, todo := c.2 }) ≠ .panic p) →
        ∃ K, ∀ sched, Rounds cs.length K sched →
          ((World.mk h (cs.map fun c => ⟨([], c.1.addr (look U) (look S)), c.2⟩) none).run (runSec prog cprog X n) sched).Finished) := by
  have inv0 : ∃ l k, ClientInv X U S h (cs.map fun c => ⟨([], c.1.addr (look U) (look S)), c.2⟩) (M, cs.map fun c => { regs := c.1, todo := c.2 }) l k := by
    refine ⟨[], [], by simpa using r, by simp, fun i m hm => ?_⟩
    rw [List.append_nil, List.append_nil]
    rw [List.getElem?_map] at hm ⊢
    cases hc : cs[i]? with
    | none => rw [hc] at hm; cases hm
    | some c =>
        rw [hc] at hm
        cases hm
        exact ⟨rfl, hR c (List.mem_of_getElem? hc), by simp, rfl, hf c (List.mem_of_getElem? hc)⟩
  obtain ⟨N, hN⟩ := follows_all (client_follows U S) _ rfl inv0
  refine ⟨N, fun n hn => ⟨fun sched order he => ?_, fun hp => ?_⟩⟩
  · generalize ((World.mk h (cs.map fun c => ⟨([], c.1.addr (look U) (look S)), c.2⟩) none).run (runSec prog cprog X n) sched) = w at he ⊢
    obtain ⟨g1, ws1, s1, k1⟩ := he
    obtain ⟨y1, m1, ⟨l, k, i1⟩, a1⟩ := hN n hn _ _ _ s1
    obtain ⟨M', ms'⟩ := y1
    refine ⟨M', ms', by rw [modelSerial_eq]; exact m1, ?_⟩
    rcases w with ⟨mem, ws, lock⟩
    cases lock with
    | none =>
        obtain ⟨rfl, rfl⟩ := k1
        refine ⟨look (U ++ l), look (S ++ k), fun j hj => look_app fun x hx => ?_, fun j hj => look_app fun x hx => ?_, i1.len, fun i m hm => ?_⟩
        · cases hx; rw [r.lenU]; exact hj
        · cases hx; rw [r.lenS]; exact hj
        · have := i1.each i m hm
          exact ⟨_, this.is, i1.sim.sameEnd this.regs⟩
    | some z =>
        obtain ⟨i, io⟩ := z
        obtain ⟨s, t, ts, e1, e2, e3⟩ := k1
        have := a1 i s t ts e1
        dsimp only at e3 ⊢
        rw [e3]
        cases hm : modelStep X i (M', ms') with
        | ok y => rw [hm] at this; exact this
        | panic p => rw [hm] at this; exact this
        | diverge => rw [hm] at this; exact this.elim
  · refine (ends_free _ rfl (by simp) fun order h' ws' i s t ts hs hi => ?_)
    obtain ⟨y, m1, -, i2⟩ := hN n hn _ _ _ hs
    have := i2 i s t ts hi
    cases hz : modelStep X i y with
    | ok z => rw [hz] at this; exact this
    | diverge => rw [hz] at this; exact this.elim
    | panic p =>
        refine absurd ?_ (hp (order ++ [i]) p)
        rw [modelSerial_eq, mserial_append, m1, Run.ok_bind, mserial, hz]
        rfl

end
end Urn.GoLang.Lock
