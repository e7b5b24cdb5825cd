import Verif.ConcSeq
/-!
# Interleavings
-/
set_option autoImplicit false
namespace Urn
open Tables

/-! ## Programs that stay inside their buffer -/

/-- All accesses are below `n`, whatever is read. -/
inductive Bounded {α : Type} (n : Nat) : Prog α → Prop where
  | done (r : Run α) : Bounded n (.done r)
  | read {i : Nat} {k : UInt8 → Prog α} : i < n → (∀ c, Bounded n (k c)) → Bounded n (.read i k)
  | write {i : Nat} {c : UInt8} {k : Prog α} : i < n → Bounded n k → Bounded n (.write i c k)

theorem Bounded.pure {α : Type} {n : Nat} (a : α) : Bounded n (pure a : Prog α) := .done _

theorem Bounded.bind {α β : Type} {n : Nat} {p : Prog α} {f : α → Prog β} (h : Bounded n p) (hf : ∀ a, Bounded n (f a)) :
    Bounded n (p >>= f) := by
  show Bounded n (p.bind f)
  induction h with
  | done r =>
    cases r with
    | ok a => exact hf a
    | panic p => exact .done _
    | diverge => exact .done _
  | read hi _ ih => exact .read hi ih
  | write hi _ ih => exact .write hi ih

theorem getP_bounded (n : Nat) (i : Int) : Bounded n (getP n i) := by
  unfold getP
  split
  · exact .read (by omega) (fun c => .done _)
  · exact .done _

theorem putP_bounded (n : Nat) (i : Int) (c : UInt8) : Bounded n (putP n i c) := by
  unfold putP
  split
  · exact .write (by omega) (.done _)
  · exact .done _

theorem copyP_bounded (n k : Nat) : ∀ b, b + k ≤ n → Bounded n (copyP b k) := by
  induction k with
  | zero => intro b _; exact .done _
  | succ k ih =>
    intro b hb
    exact .read (by omega) (fun c => Bounded.bind (ih (b + 1) (by omega)) (fun _ => .done _))

theorem sliceP_bounded (n : Nat) (i j : Int) : Bounded n (sliceP n i j) := by
  unfold sliceP
  split
  · exact copyP_bounded _ _ _ (by omega)
  · exact .done _

theorem shiftP_bounded (n : Nat) (pb : Int) (delta : UInt8) (is : List Int) : Bounded n (shiftP n pb delta is) := by
  induction is with
  | nil => exact .done _
  | cons i is ih => exact Bounded.bind (getP_bounded _ _) (fun c => Bounded.bind (putP_bounded _ _ _) (fun _ => ih))

theorem liftP_bounded {α : Type} (n : Nat) (x : Except Panic α) : Bounded n (liftP x) := by
  cases x <;> exact .done _

theorem actP_bounded (n : Nat) (a : Act) (m : Machine) (o : URN) : Bounded n (actP n a m o) := by
  have ht : Bounded n (textP n m) := sliceP_bounded _ _ _
  cases a
  case setPre | setNid | setRComponent | setQComponent | setFComponent => all_goals exact Bounded.bind ht (fun _ => .done _)
  case throwPreUrnErr =>
    simp only [actP]
    split
    · split
      · refine Bounded.bind (getP_bounded _ _) (fun c => ?_)
        split <;> exact .done _
      · exact .done _
    · exact .done _
  case setNss =>
    exact Bounded.bind ht (fun _ => Bounded.bind (shiftP_bounded _ _ _ _) (fun _ => Bounded.bind ht (fun _ => Bounded.bind (shiftP_bounded _ _ _ _) (fun _ => .done _))))
  case setScimType =>
    refine Bounded.bind ht (fun _ => ?_)
    split <;> exact .done _
  case setScimName | setScimOther =>
    all_goals
      simp only [actP]
      split
      · exact .done _
      · exact Bounded.bind (sliceP_bounded _ _ _) (fun _ => .done _)
  all_goals
    simp only [actP]
    exact liftP_bounded _ _

theorem actsP_bounded (n : Nat) (as : List Act) : ∀ (m : Machine) (o : URN), Bounded n (actsP n as m o) := by
  induction as with
  | nil => intro m o; exact .done _
  | cons a as ih =>
    intro m o
    refine Bounded.bind (actP_bounded _ _ _ _) ?_
    rintro ⟨fl, m', o'⟩
    cases fl
    · exact ih _ _
    · exact .done _

theorem stepP_bounded (n : Nat) (s : St) : Bounded n (stepP n s) := by
  rcases s with ⟨ctl, m, o⟩
  cases ctl with
  | resume =>
    simp only [stepP]
    refine Bounded.bind (getP_bounded _ _) (fun c => ?_)
    cases hd : dispatch m.cs c with
    | out => exact .done _
    | tr t =>
      rcases htr : trRow t with ⟨tg, f⟩
      simp only [htr]
      cases f with
      | none => exact .done _
      | some f => exact Bounded.bind (actsP_bounded _ _ _ _) (fun _ => .done _)
  | again => exact liftP_bounded _ _
  | testEof =>
    simp only [stepP]
    split
    · split
      · exact .done _
      · refine Bounded.bind (actsP_bounded _ _ _ _) ?_
        rintro ⟨fl, m', o'⟩
        cases fl <;> exact .done _
    · exact .done _
  | out => exact .done _

theorem runP_bounded (n k : Nat) : ∀ s : St, Bounded n (runP n k s) := by
  induction k with
  | zero =>
    intro s
    rcases s with ⟨ctl, m, o⟩
    cases ctl <;> exact .done _
  | succ k ih =>
    intro s
    rcases s with ⟨ctl, m, o⟩
    cases ctl
    case out => exact .done _
    all_goals exact Bounded.bind (stepP_bounded _ _) (fun s' => ih s')

theorem parseP_bounded (m : Machine) (n : Nat) : Bounded n (m.parseP n) :=
  Bounded.bind (runP_bounded _ _ _) (fun _ => .done _)

/-! ## Windows -/

/-- The window lies in memory. -/
def Window.Fits (w : Window) (h : Bytes) : Prop := w.off + w.len ≤ h.length

/-- Address `a` is in the window. -/
def Window.Has (w : Window) (a : Nat) : Prop := w.off ≤ a ∧ a < w.off + w.len

theorem Window.of_length {w : Window} {h : Bytes} (hf : w.Fits h) : (w.of h).length = w.len := by
  unfold Window.Fits at hf; simp [Window.of]; omega

theorem Window.of_get {w : Window} {h : Bytes} {i : Nat} (hi : i < w.len) : (w.of h).getD i 0 = h.getD (w.off + i) 0 := by
  simp [Window.of, List.getD_eq_getElem?_getD, hi]

theorem Window.of_set {w : Window} {h : Bytes} {i : Nat} {c : UInt8} (hi : i < w.len) : w.of (h.set (w.off + i) c) = (w.of h).set i c := by
  simp only [Window.of]
  refine List.ext_getElem? ?_
  intro j
  simp only [List.getElem?_take, List.getElem?_drop, List.getElem?_set, List.length_take, List.length_drop]
  split
  · by_cases hij : i = j
    · subst hij
      simp only [if_true]
      by_cases hl : w.off + i < h.length
      · rw [if_pos hl, if_pos (by omega)]
      · rw [if_neg hl, if_neg (by omega)]
    · rw [if_neg (by omega), if_neg hij]
  · split
    · omega
    · rfl

theorem Window.of_set_other {w : Window} {h : Bytes} {a : Nat} {c : UInt8} (hi : ¬ w.Has a) : w.of (h.set a c) = w.of h := by
  unfold Window.Has at hi
  simp only [Window.of]
  refine List.ext_getElem? ?_
  intro j
  simp only [List.getElem?_take, List.getElem?_drop, List.getElem?_set]
  split
  · rw [if_neg (by omega)]
  · rfl

/-! ## The invariant of an interleaving -/

/-- What is left of program `i` does, alone on the present contents of its window, what the whole
program does alone on the initial contents. -/
structure Agrees {α : Type} (w : Window) (p : Prog α) (mem : Bytes) (r : Run α) (d' : Bytes) (W : List (Nat × UInt8)) : Prop where
  bounded : Bounded w.len p
  result : (p.alone (w.of mem)).1 = r
  final : (p.alone (w.of mem)).2.1 = d'
  writes : ∀ x ∈ (p.alone (w.of mem)).2.2, x ∈ W

/-- No call writes to the buffer of another one. -/
def Apart {ι : Type} (win : ι → Window) (W : ι → List (Nat × UInt8)) : Prop :=
  ∀ i j, i ≠ j → ∀ x ∈ W j, ¬ (win i).Has ((win j).off + x.1)

variable {ι α : Type} [DecidableEq ι]

theorem agrees_step {win : ι → Window} {W : ι → List (Nat × UInt8)} {r : ι → Run α} {d' : ι → Bytes} (hA : Apart win W) {c : Sys ι α}
    (hfit : ∀ i, (win i).Fits c.mem) (hc : ∀ i, Agrees (win i) (c.prog i) c.mem (r i) (d' i) (W i)) (t : ι) :
    (∀ i, (win i).Fits (c.step win t).mem) ∧ (∀ i, Agrees (win i) ((c.step win t).prog i) (c.step win t).mem (r i) (d' i) (W i)) ∧
    (∀ a, (∀ i, ∀ x ∈ W i, (win i).off + x.1 ≠ a) → (c.step win t).mem.getD a 0 = c.mem.getD a 0) ∧
    (c.step win t).mem.length = c.mem.length := by
  have ht := hc t
  simp only [Sys.step]
  cases hp : c.prog t with
  | done x => exact ⟨hfit, hc, fun _ _ => rfl, rfl⟩
  | read j k =>
    refine ⟨hfit, ?_, fun _ _ => rfl, rfl⟩
    intro i
    by_cases hi : i = t
    · subst hi
      simp only [if_true]
      rw [hp] at ht
      obtain ⟨h1, h2, h3, h4⟩ := ht
      cases h1 with
      | read hj hk =>
        simp only [Prog.alone] at h2 h3 h4
        rw [Window.of_get hj] at h2 h3 h4
        exact ⟨hk _, h2, h3, h4⟩
    · simp only [if_neg hi]; exact hc i
  | write j b k =>
    rw [hp] at ht
    obtain ⟨h1, h2, h3, h4⟩ := ht
    cases h1 with
    | write hj hk =>
      simp only [Prog.alone] at h2 h3 h4
      rw [← Window.of_set hj] at h2 h3 h4
      have hmem : (j, b) ∈ W t := h4 _ (List.mem_cons_self ..)
      refine ⟨?_, ?_, ?_, by simp⟩
      · intro i; have := hfit i; unfold Window.Fits at this ⊢; simpa using this
      · intro i
        by_cases hi : i = t
        · subst hi
          simp only [if_true]
          exact ⟨hk, h2, h3, fun x hx => h4 x (List.mem_cons_of_mem _ hx)⟩
        · simp only [if_neg hi]
          obtain ⟨g1, g2, g3, g4⟩ := hc i
          have e : (win i).of (c.mem.set ((win t).off + j) b) = (win i).of c.mem := Window.of_set_other (hA i t hi _ hmem)
          exact ⟨g1, by rw [e]; exact g2, by rw [e]; exact g3, by rw [e]; exact g4⟩
      · intro a ha
        have := ha t _ hmem
        simp only at this ⊢
        rw [List.getD_eq_getElem?_getD, List.getD_eq_getElem?_getD, List.getElem?_set_ne this]

theorem agrees_exec {win : ι → Window} {W : ι → List (Nat × UInt8)} {r : ι → Run α} {d' : ι → Bytes} (hA : Apart win W) (sched : List ι) :
    ∀ {c : Sys ι α}, (∀ i, (win i).Fits c.mem) → (∀ i, Agrees (win i) (c.prog i) c.mem (r i) (d' i) (W i)) →
    (∀ i, Agrees (win i) ((c.exec win sched).prog i) (c.exec win sched).mem (r i) (d' i) (W i)) ∧
    (∀ a, (∀ i, ∀ x ∈ W i, (win i).off + x.1 ≠ a) → (c.exec win sched).mem.getD a 0 = c.mem.getD a 0) ∧
    (c.exec win sched).mem.length = c.mem.length := by
  induction sched with
  | nil => intro c _ hc; exact ⟨hc, fun _ _ => rfl, rfl⟩
  | cons t ts ih =>
    intro c hfit hc
    obtain ⟨h1, h2, h3, h4⟩ := agrees_step hA hfit hc t
    obtain ⟨g1, g2, g3⟩ := ih h1 h2
    exact ⟨g1, fun a ha => by rw [← h3 a ha]; exact g2 a ha, by rw [← h4]; exact g3⟩

/-- Progress: each access made brings a call nearer to its end. -/
theorem progress_step {win : ι → Window} {W : ι → List (Nat × UInt8)} {r : ι → Run α} {d' : ι → Bytes} (hA : Apart win W) {c : Sys ι α}
    (hc : ∀ i, Agrees (win i) (c.prog i) c.mem (r i) (d' i) (W i)) (t i : ι) :
    ((c.step win t).prog i).accesses ((win i).of (c.step win t).mem) = (c.prog i).accesses ((win i).of c.mem) - (if t = i then 1 else 0) := by
  have ht := hc t
  simp only [Sys.step]
  cases hp : c.prog t with
  | done x =>
    simp only
    split
    · rename_i h; subst h; rw [hp]; rfl
    · rfl
  | read j k =>
    simp only
    rw [hp] at ht
    obtain ⟨h1, _, _, _⟩ := ht
    cases h1 with
    | read hj hk =>
      by_cases hi : t = i
      · subst hi
        simp only [if_true, hp, Prog.accesses]
        rw [Window.of_get hj]; rfl
      · simp only [if_neg hi, if_neg (Ne.symm hi)]; rfl
  | write j b k =>
    simp only
    rw [hp] at ht
    obtain ⟨h1, h2, h3, h4⟩ := ht
    cases h1 with
    | write hj hk =>
      simp only [Prog.alone] at h4
      have hmem : (j, b) ∈ W t := h4 _ (List.mem_cons_self ..)
      by_cases hi : t = i
      · subst hi
        simp only [if_true, hp, Prog.accesses]
        rw [Window.of_set hj]; rfl
      · simp only [if_neg hi, if_neg (Ne.symm hi)]
        rw [Window.of_set_other (hA i t (Ne.symm hi) _ hmem)]; rfl

theorem progress_exec {win : ι → Window} {W : ι → List (Nat × UInt8)} {r : ι → Run α} {d' : ι → Bytes} (hA : Apart win W) (i : ι) (sched : List ι) :
    ∀ {c : Sys ι α}, (∀ i, (win i).Fits c.mem) → (∀ i, Agrees (win i) (c.prog i) c.mem (r i) (d' i) (W i)) →
    ((c.exec win sched).prog i).accesses ((win i).of (c.exec win sched).mem) = (c.prog i).accesses ((win i).of c.mem) - sched.count i := by
  induction sched with
  | nil => intro c _ _; rfl
  | cons t ts ih =>
    intro c hfit hc
    obtain ⟨h1, h2, h3, h4⟩ := agrees_step hA hfit hc t
    have := ih h1 h2
    show ((Sys.exec win (c.step win t) ts).prog i).accesses _ = _
    rw [List.count_cons]
    show (((c.step win t).exec win ts).prog i).accesses ((win i).of ((c.step win t).exec win ts).mem) = _
    rw [this, progress_step hA hc t i]
    simp only [beq_iff_eq]
    omega

theorem accesses_zero {p : Prog α} {d : Bytes} (h : p.accesses d = 0) : ∃ r, p = .done r := by
  cases p with
  | done r => exact ⟨r, rfl⟩
  | read i k => simp [Prog.accesses] at h
  | write i c k => simp [Prog.accesses] at h


/-! ## Schedules that run one call for a while -/

theorem Window.of_whole (mem : Bytes) : Window.of ⟨0, mem.length⟩ mem = mem := by simp [Window.of]

theorem exec_append (win : ι → Window) (c : Sys ι α) (a b : List ι) : c.exec win (a ++ b) = (c.exec win a).exec win b := by
  simp [Sys.exec, List.foldl_append]

/-- Replace the program of `i`. -/
def Sys.put (c : Sys ι α) (i : ι) (p : Prog α) (mem : Bytes) : Sys ι α := ⟨mem, fun t => if t = i then p else c.prog t⟩

theorem put_put (c : Sys ι α) (i : ι) (p q : Prog α) (mem mem' : Bytes) : (c.put i p mem).put i q mem' = c.put i q mem' := by
  simp only [Sys.put, Sys.mk.injEq, true_and]
  funext t
  split <;> rfl

theorem put_self {c : Sys ι α} {i : ι} {p : Prog α} {mem : Bytes} (h : c.prog i = p) (hm : c.mem = mem) : c.put i p mem = c := by
  rcases c with ⟨m, f⟩
  simp only [Sys.put, Sys.mk.injEq]
  refine ⟨hm.symm, ?_⟩
  funext t
  split
  · rename_i h'; rw [h']; exact h.symm
  · rfl

/-- A call that is alone on the processor runs to its end. -/
theorem exec_alone {win : ι → Window} {i : ι} {n : Nat} (hw : win i = ⟨0, n⟩) (p : Prog α) : ∀ (c : Sys ι α), c.prog i = p → c.mem.length = n → Bounded n p →
    c.exec win (List.replicate (p.accesses c.mem) i) = c.put i (.done (p.alone c.mem).1) (p.alone c.mem).2.1 := by
  induction p with
  | done r => intro c hp _ _; exact (put_self hp rfl).symm
  | read j k ih =>
    intro c hp hl hb
    cases hb with
    | read hj hk =>
      simp only [Prog.accesses, List.replicate_succ, Prog.alone]
      have e : c.step win i = c.put i (k (c.mem.getD j 0)) c.mem := by simp only [Sys.step, hp, hw, Nat.zero_add, Sys.put]
      show (c.step win i).exec win _ = _
      rw [e]
      have := ih (c.mem.getD j 0) (c.put i (k (c.mem.getD j 0)) c.mem) (by simp [Sys.put]) hl (hk _)
      rw [put_put] at this
      exact this
  | write j b k ih =>
    intro c hp hl hb
    cases hb with
    | write hj hk =>
      simp only [Prog.accesses, List.replicate_succ, Prog.alone]
      have e : c.step win i = c.put i k (c.mem.set j b) := by simp only [Sys.step, hp, hw, Nat.zero_add, Sys.put]
      show (c.step win i).exec win _ = _
      rw [e]
      have := ih (c.put i k (c.mem.set j b)) (by simp [Sys.put]) (by simpa [Sys.put] using hl) hk
      rw [put_put] at this
      exact this

/-- A call that will write can be stopped just after its first write. -/
theorem exec_first {win : ι → Window} {i : ι} {n : Nat} (hw : win i = ⟨0, n⟩) (p : Prog α) : ∀ (c : Sys ι α) {x : Nat × UInt8} {W : List (Nat × UInt8)},
    c.prog i = p → (p.alone c.mem).2.2 = x :: W →
    ∃ k q, c.exec win (List.replicate k i) = c.put i q (c.mem.set x.1 x.2) := by
  induction p with
  | done r => intro c x W _ h; simp [Prog.alone] at h
  | read j k ih =>
    intro c x W hp h
    simp only [Prog.alone] at h
    have e : c.step win i = c.put i (k (c.mem.getD j 0)) c.mem := by simp only [Sys.step, hp, hw, Nat.zero_add, Sys.put]
    obtain ⟨l, q, h1⟩ := ih (c.mem.getD j 0) (c.put i (k (c.mem.getD j 0)) c.mem) (by simp [Sys.put]) h
    refine ⟨l + 1, q, ?_⟩
    rw [List.replicate_succ]
    show (c.step win i).exec win _ = _
    rw [e, h1, put_put]; rfl
  | write j b k ih =>
    intro c x W hp h
    simp only [Prog.alone] at h
    injection h with h _
    refine ⟨1, k, ?_⟩
    show c.step win i = _
    simp only [Sys.step, hp, hw, Nat.zero_add, Sys.put, ← h]

end Urn
