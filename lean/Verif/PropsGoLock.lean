import Verif.GoLockMach
import Verif.GoLockClient
import Verif.PropsShare
import Verif.PropsRace
/-!
# The text of the package behind a lock

C78 of `properties.jsonl`.  Goroutines that share a machine race (C76), and so do goroutines that assign to URNs that others use (C73).  Here they make their calls
with one lock held, as described in `GoLock.lean`, and it is shown for the text of the package what they get.
-/
set_option autoImplicit false
namespace Urn.GoLang
open Lock

/-- Whatever goroutines do with the lock held, there is an order in which they do it one after the other that explains how things are, under every schedule.  Later
on this order is only continued. -/
theorem C78_serial {σ τ : Type} (sec : τ → σ → Io σ) (h : Heap) (ws : List (Worker σ τ)) (sched later : List Nat) : ∃ order extra,
    Explains sec h ws ((Lock.World.mk h ws none).run sec sched) order ∧ Explains sec h ws ((Lock.World.mk h ws none).run sec (sched ++ later)) (order ++ extra) := by
  obtain ⟨o1, h1⟩ := run_explains (sec := sec) (w := Lock.World.mk h ws none) (order := []) sched ⟨h, ws, rfl, rfl, rfl⟩
  obtain ⟨o2, h2⟩ := run_explains later h1
  rw [← Lock.World.run_append] at h2
  exact ⟨o1, o2, h1, h2⟩

/-- Two goroutines that each read a byte and write it back plus one: with the lock, none of this gets lost. -/
example : ∃ w : Lock.World Unit Unit, w = (Lock.World.mk [.arr [0]] [⟨(), [()]⟩, ⟨(), [()]⟩] none).run
      (fun _ _ => .read 0 (.bytes 0 1) fun c => match c with | .arr [x] => .write 0 (.byte 0 (x + 1)) (.done (.ok ())) | _ => .done .stuck)
      [0, 1, 0, 1, 0, 1, 0, 1, 1, 1, 1] ∧ w.mem = [.arr [2]] ∧ w.Finished := by
  refine ⟨_, rfl, rfl, rfl, ?_⟩
  intro x hx
  have hx : x ∈ [(⟨(), []⟩ : Worker Unit Unit), ⟨(), []⟩] := hx
  simp only [List.mem_cons, List.not_mem_nil, or_false] at hx
  rcases hx with rfl | rfl <;> rfl

/-- Any number of goroutines call methods of one machine with the lock held; their slices may overlap.  Under every schedule there is an order of the calls that
have returned in which the model returns what they returned, and it is only continued later; and after some number of rounds all goroutines have made all their calls. -/
theorem C78_machine {P : Prog} (hP : IsProgram files P) (X : Ext) (h : Heap) (a : Nat) (m : Machine) (hm : MachineAt h a m) (css : List (List MCall))
    (hf : ∀ cs ∈ css, ∀ c ∈ cs, c.Fits X h) :
    ∃ N, ∀ n, N ≤ n → ∃ w : List Nat → Lock.World (List (List Val)) MCall,
      (∀ sched, w sched = (Lock.World.mk h (css.map fun cs => ⟨[], cs⟩) none).run (callSec P X n a) sched) ∧
      (∀ sched later, ∃ log extra, Linear a m css (w sched) log ∧ Linear a m css (w (sched ++ later)) (log ++ extra)) ∧
      ∃ K, ∀ sched, Rounds css.length K sched → (w sched).Finished := by
  cases program_eq hP
  obtain ⟨N, hN⟩ := machine_locked css hm hf
  exact ⟨N, fun n hn => ⟨_, fun _ => rfl, hN n hn⟩⟩

/-- Three goroutines on one machine: two parse the same slice, and one sets the mode and asks for the error.  Each gets done. -/
example {P : Prog} (hP : IsProgram files P) (X : Ext) : ∃ n sched, ∃ w : Lock.World (List (List Val)) MCall,
    w = (Lock.World.mk Cases.mem2 [⟨[], [Cases.parse2]⟩, ⟨[], [Cases.parse2]⟩, ⟨[], [.withParsingMode RFC8141Only, .error]⟩] none).run (callSec P X n 0) sched ∧ w.Finished ∧
      ∃ vss, w.ws[2]? = some ⟨vss, []⟩ ∧ vss.length = 2 := by
  obtain ⟨N, hN⟩ := C78_machine hP X Cases.mem2 0 _ Cases.mem2_0 [[Cases.parse2], [Cases.parse2], [.withParsingMode RFC8141Only, .error]] (by
    intro cs hcs c hc
    simp only [List.mem_cons, List.not_mem_nil, or_false] at hcs
    rcases hcs with rfl | rfl | rfl
    · cases List.mem_singleton.1 hc; exact Cases.parse2_fits X
    · cases List.mem_singleton.1 hc; exact Cases.parse2_fits X
    · simp only [List.mem_cons, List.not_mem_nil, or_false] at hc
      rcases hc with rfl | rfl <;> trivial)
  obtain ⟨w, hw, h1, K, h2⟩ := hN N (Nat.le_refl _)
  have hround : ∀ K, ∃ sched, Rounds 3 K sched := by
    intro K
    induction K with
    | zero => exact ⟨[], trivial⟩
    | succ K ih =>
        obtain ⟨s, hs⟩ := ih
        refine ⟨[0, 1, 2] ++ s, _, s, rfl, fun i hi => ?_, hs⟩
        match i, hi with
        | 0, _ | 1, _ | 2, _ => simp
        | i + 3, hi => omega
  obtain ⟨sched, hs⟩ := hround K
  have hfin := h2 sched hs
  obtain ⟨log, -, hl, -⟩ := h1 sched []
  obtain ⟨vss, rest, now, e1, e2, e3, -, e4⟩ := hl.each 2 (by decide)
  refine ⟨N, sched, w sched, hw sched, hfin, vss, ?_⟩
  have hr : rest = [] := hfin.2 _ (List.mem_of_getElem? e1)
  subst hr
  rcases e4 with rfl | ⟨c, io, -, e4⟩
  · refine ⟨e1, ?_⟩
    have := congrArg List.length (Option.some.inj e2)
    simp only [List.append_nil, List.length_map] at this
    rw [e3, ← this]
    rfl
  · rw [hfin.1] at e4; cases e4

/-- So, when all are done, there is one order of all the calls that explains all that was returned. -/
theorem C78_linearizable {P : Prog} (hP : IsProgram files P) (X : Ext) (h : Heap) (a : Nat) (m : Machine) (hm : MachineAt h a m) (css : List (List MCall))
    (hf : ∀ cs ∈ css, ∀ c ∈ cs, c.Fits X h) :
    ∃ N, ∀ n, N ≤ n → ∀ sched w, w = (Lock.World.mk h (css.map fun cs => ⟨[], cs⟩) none).run (callSec P X n a) sched → w.Finished →
      ∃ (log : List Lock.Call) (m' : Machine), m.execAll (log.map fun c => c.call.op) = .ok (m', log.map Lock.Call.out) ∧ MachineAt w.mem a m' ∧ (∀ c ∈ log, c.who < css.length) ∧
        ∀ i, i < css.length → css[i]? = some ((mine i log).map Lock.Call.call) ∧ ∃ vss, w.ws[i]? = some ⟨vss, []⟩ ∧ OutsAre w.mem ((mine i log).map Lock.Call.out) vss := by
  obtain ⟨N, hN⟩ := C78_machine hP X h a m hm css hf
  refine ⟨N, fun n hn sched w hw hfin => ?_⟩
  obtain ⟨w', hw', h1, -⟩ := hN n hn
  rw [← hw' sched] at hw
  subst hw
  obtain ⟨log, -, ⟨⟨m', c1, c2⟩, c3, c4⟩, -⟩ := h1 sched []
  refine ⟨log, m', c1, c2 hfin.1, c4, fun i hi => ?_⟩
  obtain ⟨vss, rest, now, e1, e2, -, e3, e4⟩ := c3 i hi
  have hr : rest = [] := hfin.2 _ (List.mem_of_getElem? e1)
  subst hr
  rcases e4 with rfl | ⟨c, io, -, e4⟩
  · exact ⟨by simpa using e2, vss, e1, e3 hfin.1⟩
  · rw [hfin.1] at e4; cases e4

/-- A goroutine that sets the mode and one that parses. -/
example {P : Prog} (hP : IsProgram files P) (X : Ext) : ∃ N, ∀ n, N ≤ n → ∀ sched w,
    w = (Lock.World.mk Cases.mem2 [⟨[], [Cases.parse2]⟩, ⟨[], [.withParsingMode RFC8141Only]⟩] none).run (callSec P X n 0) sched → w.Finished →
      ∃ vs, w.ws[0]? = some ⟨[vs], []⟩ := by
  obtain ⟨N, hN⟩ := C78_linearizable hP X Cases.mem2 0 _ Cases.mem2_0 [[Cases.parse2], [.withParsingMode RFC8141Only]] (by
    intro cs hcs c hc
    simp only [List.mem_cons, List.not_mem_nil, or_false] at hcs
    rcases hcs with rfl | rfl
    · cases List.mem_singleton.1 hc; exact Cases.parse2_fits X
    · cases List.mem_singleton.1 hc; trivial)
  refine ⟨N, fun n hn sched w hw hfin => ?_⟩
  obtain ⟨log, m', -, -, -, h4⟩ := hN n hn sched w hw hfin
  obtain ⟨e1, vss, e2, e3⟩ := h4 0 (by decide)
  have hl := outsAre_length e3
  have := congrArg List.length (Option.some.inj e1)
  rw [List.length_map] at this hl
  rw [← this] at hl
  match vss, hl with
  | [vs], _ => exact ⟨vs, e2⟩

/-- The main goroutine makes any calls, and then starts goroutines that have some of its pointers, and that make calls and assign to URNs and SCIM structs with the lock held, several calls at a time if they like.  Under every schedule there is an order in which they
do it one after the other in the model that explains how things are, and it is only continued later; a call panics only if it panics in the model in this order.  If in the
model nothing panics in any order, then after some number of rounds all goroutines are done. -/
theorem C78_clients {P C : Prog} (hP : IsProgram files P) (hC : IsProgram [clientGo] C) (X : Ext) (ss : List Step) (hf : ∀ s ∈ ss, s.Fits X) (h0 : Heap)
    (gs : List Urn.Heap.Got) (R : Regs) (M : Urn.Heap.Mem) (hm : runModel X ss {} {} = .ok (gs, R, M)) (cs : List (Regs × List (List Step)))
    (hR : ∀ c ∈ cs, (∀ p ∈ c.1.urns, p ∈ R.urns) ∧ ∀ p ∈ c.1.scims, p ∈ R.scims) (hfs : ∀ c ∈ cs, ∀ ss ∈ c.2, ∀ s ∈ ss, s.Fits X) :
    ∃ f g R' h, Does (fun n => runText P C X n ss {} h0) (valsAll X f g ss gs, R', h) ∧ SameEnd f g M R h R' ∧
      ∃ N, ∀ n, N ≤ n → ∃ w : List Nat → Lock.World (List (List Val) × Regs) (List Step),
        (∀ sched, w sched = (Lock.World.mk h (cs.map fun c => ⟨([], c.1.addr f g), c.2⟩) none).run (runSec P C X n) sched) ∧
        (∀ sched later, ∃ order extra, ClientLinear X f g M (cs.map fun c => { regs := c.1, todo := c.2 }) (w sched) order ∧
          ClientLinear X f g M (cs.map fun c => { regs := c.1, todo := c.2 }) (w (sched ++ later)) (order ++ extra)) ∧
        ((∀ order p, modelSerial X order (M, cs.map fun c => { regs := c.1, todo := c.2 }) ≠ .panic p) →
          ∃ K, ∀ sched, Rounds cs.length K sched → (w sched).Finished) := by
  cases program_eq hP
  cases client_eq hC
  have hg := run_good (X := X) ss hf (R := {}) (Sim.empty h0) ⟨by simp, by simp⟩
  rw [hm] at hg
  obtain ⟨U, S, h, h1, h2, h3, h4, h5⟩ := hg
  have hfit : ∀ c ∈ cs, RegsFit c.1 U S := fun c hc => h3.sub (hR c hc).1 (hR c hc).2
  refine ⟨_, _, _, h, h1, h2.sameEnd h3, ?_⟩
  obtain ⟨N, hN⟩ := client_locked (X := X) h2 hfit hfs
  refine ⟨N, fun n hn => ⟨_, fun _ => rfl, fun sched later => ?_, (hN n hn).2⟩⟩
  obtain ⟨order, extra, k1, k2⟩ := C78_serial (runSec prog cprog X n) h (cs.map fun c => ⟨([], c.1.addr (look U) (look S)), c.2⟩) sched later
  exact ⟨order, extra, (hN n hn).1 _ _ k1, (hN n hn).1 _ _ k2⟩

namespace Cases

/-- In the model: the main goroutine makes a URN, two goroutines fill it in and look at its text. -/
def fill (x y : String) : List Step := [.setID 0 (lit x), .setSS 0 (lit y), .stringOf 0]
def fillM : Urn.Heap.Mem := { urns := [{}] }
def fillers : List MWorker := [{ regs := ⟨[some 0], []⟩, todo := [fill "a" "b"] }, { regs := ⟨[some 0], []⟩, todo := [fill "c" "d"] }]

theorem fill_serial (X : Ext) : ∀ (order : List Nat) (M' : Urn.Heap.Mem) (ms' : List MWorker), modelSerial X order (fillM, fillers) = .ok (M', ms') → (∀ m ∈ ms', m.todo = []) →
    ∃ R, ms'[0]? = some ⟨fill "a" "b", [.unit, .unit, .bytes (lit "urn:a:b")], R, []⟩
  | [], M', ms', h, hd => by cases h; exact absurd (hd _ (List.mem_cons_self ..)) (by simp)
  | [0], M', ms', h, hd => by
      cases h
      exact absurd (hd _ (List.mem_cons_of_mem _ (List.mem_cons_self ..))) (by simp)
  | [1], M', ms', h, hd => by cases h; exact absurd (hd _ (List.mem_cons_self ..)) (by simp)
  | 0 :: 1 :: [], M', ms', h, _ => by cases h; exact ⟨_, rfl⟩
  | 1 :: 0 :: [], M', ms', h, _ => by cases h; exact ⟨_, rfl⟩
  | 0 :: 0 :: is, _, _, h, _ => by cases h
  | 1 :: 1 :: is, _, _, h, _ => by cases h
  | 0 :: 1 :: 0 :: is, _, _, h, _ => by cases h
  | 0 :: 1 :: 1 :: is, _, _, h, _ => by cases h
  | 1 :: 0 :: 0 :: is, _, _, h, _ => by cases h
  | 1 :: 0 :: 1 :: is, _, _, h, _ => by cases h
  | (i + 2) :: is, _, _, h, _ => by cases h
  | 0 :: (i + 2) :: is, _, _, h, _ => by cases h
  | 1 :: (i + 2) :: is, _, _, h, _ => by cases h
  | 0 :: 1 :: (i + 2) :: is, _, _, h, _ => by cases h
  | 1 :: 0 :: (i + 2) :: is, _, _, h, _ => by cases h

end Cases

/-- Two goroutines fill in one URN and look at its text: each sees what it has filled in. -/
example {P C : Prog} (hP : IsProgram files P) (hC : IsProgram [clientGo] C) (X : Ext) (h0 : Heap) : ∃ a R' h,
    Does (fun n => runText P C X n [.newURN] {} h0) ([[.ptr "URN" (some a)]], R', h) ∧
      ∃ N, ∀ n, N ≤ n → ∀ sched w, w = (Lock.World.mk h [⟨([], ⟨[some a], []⟩), [Cases.fill "a" "b"]⟩, ⟨([], ⟨[some a], []⟩), [Cases.fill "c" "d"]⟩] none).run (runSec P C X n) sched →
        w.Finished → ∃ R', w.ws[0]? = some ⟨([[], [], [.str (lit "urn:a:b")]], R'), []⟩ := by
  obtain ⟨f, g, R', h, h1, ⟨⟨-, h2⟩, -⟩, N, hN⟩ := C78_clients hP hC X [.newURN] (by simp [Step.Fits]) h0 _ _ _ rfl
    [(⟨[some 0], []⟩, [Cases.fill "a" "b"]), (⟨[some 0], []⟩, [Cases.fill "c" "d"])]
    (by simp [Regs.addGot]) (by simp [Step.Fits, Cases.fill])
  obtain ⟨⟨a, ha⟩, -⟩ := h2 0 (by decide)
  refine ⟨a, R', h, ?_, N, fun n hn sched w hw hfin => ?_⟩
  · have : valsAll X f g [.newURN] [.urn (some 0) true] = [[.ptr "URN" (some a)]] := by simp [valsAll, Step.vals, ha]
    rw [← this]
    exact h1
  · obtain ⟨w', hw', h3, -⟩ := hN n hn
    have e : w = w' sched := by
      rw [hw, hw']
      simp only [List.map_cons, List.map_nil, Regs.addr, ha]
    subst e
    obtain ⟨order, -, ⟨M', ms', k1, k2⟩, -⟩ := h3 sched []
    rw [hfin.1] at k2
    obtain ⟨f', g', -, -, k3, k4⟩ := k2
    have hd : ∀ m ∈ ms', m.todo = [] := by
      intro m hm
      obtain ⟨i, hi⟩ := List.getElem?_of_mem hm
      obtain ⟨R2, k5, -⟩ := k4 i m hi
      exact hfin.2 _ (List.mem_of_getElem? k5)
    obtain ⟨R, hr⟩ := Cases.fill_serial X order M' ms' k1 hd
    obtain ⟨R2, k5, -⟩ := k4 0 _ hr
    exact ⟨R2, k5⟩

end Urn.GoLang
