import Verif.GoLock
/-!
# Goroutines behind a lock: proofs that do not depend on what they do
-/
set_option autoImplicit false
namespace Urn.GoLang.Lock

section
variable {σ τ : Type} {sec : τ → σ → Io σ}

theorem serial_append (o o' : List Nat) (h : Heap) (ws : List (Worker σ τ)) :
    serial sec (o ++ o') h ws = serial sec o h ws >>= fun r => serial sec o' r.1 r.2 := by
  induction o generalizing h ws with
  | nil => rfl
  | cons i is ih =>
      simp only [List.cons_append, serial]
      split
      · rename_i s t ts _
        cases hr : (sec t s).run h with
        | ok r => exact ih _ _
        | panic p => rfl
        | stuck => rfl
        | more => rfl
      · rfl

theorem World.run_cons (w : World σ τ) (i : Nat) (is : List Nat) : w.run sec (i :: is) = (w.step sec i).run sec is := rfl

theorem World.run_append (w : World σ τ) (a b : List Nat) : w.run sec (a ++ b) = (w.run sec a).run sec b := by
  simp [World.run, List.foldl_append]

theorem step_explains {h : Heap} {ws : List (Worker σ τ)} {w : World σ τ} {order : List Nat} (he : Explains sec h ws w order) (i : Nat) :
    ∃ extra, Explains sec h ws (w.step sec i) (order ++ extra) := by
  obtain ⟨h', ws', h1, h2⟩ := he
  rcases w with ⟨mem, wws, lock⟩
  cases lock with
  | none =>
      obtain ⟨rfl, rfl⟩ := h2
      refine ⟨[], ?_⟩
      rw [List.append_nil]
      simp only [World.step]
      split
      · rename_i s t ts hi
        exact ⟨mem, wws, h1, s, t, ts, hi, rfl, rfl⟩
      · exact ⟨mem, wws, h1, rfl, rfl⟩
  | some x =>
      obtain ⟨j, io⟩ := x
      obtain ⟨s, t, ts, h3, h4, h5⟩ := h2
      dsimp only at h4 h5
      subst h4
      by_cases hij : i = j
      · subst hij
        cases io with
        | done r =>
            cases r with
            | ok s' =>
                refine ⟨[i], mem, ws'.set i ⟨s', ts⟩, ?_, ?_⟩
                · rw [serial_append, h1]
                  show serial sec [i] h' ws' = _
                  simp only [serial, h3]
                  rw [← h5]
                  rfl
                · simp only [World.step, if_pos]
                  refine ⟨rfl, List.ext_getElem? fun k => ?_⟩
                  dsimp only
                  rw [List.getElem?_modify]
                  by_cases hk : i = k
                  · subst hk
                    have hl := (List.getElem?_eq_some_iff.1 h3).1
                    simp [List.getElem?_set_self hl]
                  · simp [hk, List.getElem?_set_ne hk]
            | panic p => exact ⟨[], by rw [List.append_nil]; simp only [World.step, if_pos]; exact ⟨h', ws', h1, s, t, ts, h3, rfl, h5⟩⟩
            | stuck => exact ⟨[], by rw [List.append_nil]; simp only [World.step, if_pos]; exact ⟨h', ws', h1, s, t, ts, h3, rfl, h5⟩⟩
            | more => exact ⟨[], by rw [List.append_nil]; simp only [World.step, if_pos]; exact ⟨h', ws', h1, s, t, ts, h3, rfl, h5⟩⟩
        | read a p k =>
            refine ⟨[], ?_⟩
            rw [List.append_nil]
            rw [Io.run] at h5
            simp only [World.step, if_pos]
            cases hc : mem.at a p with
            | none => rw [hc] at h5; exact ⟨h', ws', h1, s, t, ts, h3, rfl, h5⟩
            | some c => rw [hc] at h5; exact ⟨h', ws', h1, s, t, ts, h3, rfl, h5⟩
        | write a u k =>
            refine ⟨[], ?_⟩
            rw [List.append_nil]
            rw [Io.run] at h5
            simp only [World.step, if_pos]
            cases hc : mem.own a u with
            | none => rw [hc] at h5; exact ⟨h', ws', h1, s, t, ts, h3, rfl, h5⟩
            | some c => rw [hc] at h5; exact ⟨h', ws', h1, s, t, ts, h3, rfl, h5⟩
        | alloc c k =>
            refine ⟨[], ?_⟩
            rw [List.append_nil]
            rw [Io.run] at h5
            simp only [World.step, if_pos]
            exact ⟨h', ws', h1, s, t, ts, h3, rfl, h5⟩
      · refine ⟨[], ?_⟩
        rw [List.append_nil]
        simp only [World.step, if_neg hij]
        exact ⟨h', ws', h1, s, t, ts, h3, rfl, h5⟩

theorem run_explains {h : Heap} {ws : List (Worker σ τ)} (sched : List Nat) : ∀ {w : World σ τ} {order : List Nat}, Explains sec h ws w order →
    ∃ extra, Explains sec h ws (w.run sec sched) (order ++ extra) := by
  induction sched with
  | nil => exact fun he => ⟨[], by rw [List.append_nil]; exact he⟩
  | cons i is ih =>
      intro w order he
      obtain ⟨e1, he1⟩ := step_explains he i
      obtain ⟨e2, he2⟩ := ih he1
      exact ⟨e1 ++ e2, by rw [← List.append_assoc]; exact he2⟩

/-! ## All get done -/

theorem Rounds.pre {n K : Nat} {s : List Nat} (p : List Nat) (h : Rounds n K s) : Rounds n K (p ++ s) := by
  cases K with
  | zero => trivial
  | succ K =>
      obtain ⟨r, rest, rfl, h1, h2⟩ := h
      exact ⟨p ++ r, rest, by simp, fun i hi => List.mem_append.2 (.inr (h1 i hi)), h2⟩

theorem Rounds.mono {n : Nat} : ∀ {K K' : Nat} {s : List Nat}, K ≤ K' → Rounds n K' s → Rounds n K s
  | 0, _, _, _, _ => trivial
  | K + 1, 0, _, h, _ => absurd h (by omega)
  | K + 1, K' + 1, s, h, hr => by
      obtain ⟨r, rest, rfl, h1, h2⟩ := hr
      exact ⟨r, rest, rfl, h1, Rounds.mono (by omega) h2⟩

/-- The first turn of a goroutine of which `p` holds. -/
theorem Rounds.first {n K : Nat} {s : List Nat} (p : Nat → Prop) (hp : ∃ i, i < n ∧ p i) (h : Rounds n (K + 1) s) :
    ∃ pre i post, s = pre ++ i :: post ∧ p i ∧ (∀ j ∈ pre, ¬ p j) ∧ Rounds n K post := by
  obtain ⟨i, hi, hpi⟩ := hp
  obtain ⟨r, rest, rfl, h1, h2⟩ := h
  have hmem := h1 i hi
  clear h1
  induction r with
  | nil => cases hmem
  | cons j r ih =>
      by_cases hj : p j
      · exact ⟨[], j, r ++ rest, rfl, hj, by simp, h2.pre r⟩
      · have : i ∈ r := by
          rcases List.mem_cons.1 hmem with rfl | h
          · exact absurd hpi hj
          · exact h
        obtain ⟨pre, k, post, e, h3, h4, h5⟩ := ih this
        refine ⟨j :: pre, k, post, by simp [e], h3, ?_, h5⟩
        intro x hx
        rcases List.mem_cons.1 hx with rfl | hx
        · exact hj
        · exact h4 x hx

theorem run_same {w : World σ τ} (s : List Nat) (h : ∀ i ∈ s, w.step sec i = w) : w.run sec s = w := by
  induction s with
  | nil => rfl
  | cons i is ih =>
      rw [World.run_cons, h i (List.mem_cons_self ..)]
      exact ih fun j hj => h j (List.mem_cons_of_mem _ hj)

theorem Finished.run {w : World σ τ} (hw : w.Finished) (s : List Nat) : w.run sec s = w := by
  refine run_same s fun i _ => ?_
  rcases w with ⟨mem, ws, lock⟩
  obtain ⟨h1, h2⟩ := hw
  dsimp only at h1 h2
  subst h1
  simp only [World.step]
  split
  · rename_i s t ts hi
    exact absurd (h2 _ (List.mem_of_getElem? hi)) (by simp)
  · rfl

/-- After `K` rounds, all is done. -/
def Ends (sec : τ → σ → Io σ) (n K : Nat) (w : World σ τ) : Prop := ∀ s, Rounds n K s → (w.run sec s).Finished

theorem Ends.mono {n K K' : Nat} {w : World σ τ} (h : Ends sec n K w) (hK : K ≤ K') : Ends sec n K' w := fun s hs => h s (hs.mono hK)

theorem ends_held {n j K : Nat} {ws : List (Worker σ τ)} (hj : j < n) {s' : σ} {h' : Heap} (io : Io σ) : ∀ {h : Heap}, io.run h = .ok (s', h') →
    Ends sec n K ⟨h', ws.modify j fun x => { x with state := s' }, none⟩ → Ends sec n (io.steps h + 1 + K) ⟨h, ws, some (j, io)⟩ := by
  have skip : ∀ {h : Heap} {io : Io σ} {m : Nat} {w' : World σ τ}, (World.mk h ws (some (j, io))).step sec j = w' → Ends sec n m w' → Ends sec n (m + 1) ⟨h, ws, some (j, io)⟩ := by
    intro h io m w' hw he s hs
    obtain ⟨pre, i, post, rfl, rfl, h1, h2⟩ := hs.first (fun i => i = j) ⟨j, hj, rfl⟩
    rw [World.run_append, run_same pre, World.run_cons, hw]
    · exact he post h2
    · intro k hk
      simp only [World.step]
      rw [if_neg (h1 k hk)]
  induction io with
  | done r =>
      intro h hr he
      cases r with
      | ok s =>
          cases hr
          have := skip (h := h') (io := .done (.ok s')) (m := K) (w' := ⟨h', ws.modify j fun x => { x with state := s' }, none⟩) (by simp [World.step]) he
          exact this.mono (by simp only [Io.steps]; omega)
      | panic p => cases hr
      | stuck => cases hr
      | more => cases hr
  | read a p k ih =>
      intro h hr he
      rw [Io.run] at hr
      cases hc : h.at a p with
      | none => rw [hc] at hr; cases hr
      | some c =>
          rw [hc] at hr
          have := skip (h := h) (io := .read a p k) (w' := ⟨h, ws, some (j, k c)⟩) (by simp [World.step, hc]) (ih c hr he)
          exact this.mono (by simp only [Io.steps, hc]; omega)
  | write a u k ih =>
      intro h hr he
      rw [Io.run] at hr
      cases hc : h.own a u with
      | none => rw [hc] at hr; cases hr
      | some c =>
          rw [hc] at hr
          have := skip (h := h) (io := .write a u k) (w' := ⟨h.set a c, ws, some (j, k)⟩) (by simp [World.step, hc]) (ih hr he)
          exact this.mono (by simp only [Io.steps, hc]; omega)
  | alloc c k ih =>
      intro h hr he
      rw [Io.run] at hr
      have := skip (h := h) (io := .alloc c k) (w' := ⟨h ++ [c], ws, some (j, k h.length)⟩) (by simp [World.step]) (ih h.length hr he)
      exact this.mono (by simp only [Io.steps]; omega)

/-- How much there is to do. -/
def load (ws : List (Worker σ τ)) : Nat := (ws.map fun x => x.todo.length).sum

theorem load_set {i : Nat} {ws : List (Worker σ τ)} {s s' : σ} {t : τ} {ts : List τ} (hi : ws[i]? = some ⟨s, t :: ts⟩) : load ws = load (ws.set i ⟨s', ts⟩) + 1 := by
  induction ws generalizing i with
  | nil => cases hi
  | cons x xs ih =>
      cases i with
      | zero => cases hi; simp [load]; omega
      | succ i =>
          have := ih (i := i) (by simpa using hi)
          simp only [load, List.set_cons_succ, List.map_cons, List.sum_cons] at this ⊢
          omega

/-- What each goroutine has to do next ends, in every order. -/
def Safe (sec : τ → σ → Io σ) (h : Heap) (ws : List (Worker σ τ)) : Prop :=
  ∀ (order : List Nat) (h' : Heap) (ws' : List (Worker σ τ)) (i : Nat) (s : σ) (t : τ) (ts : List τ), serial sec order h ws = .ok (h', ws') → ws'[i]? = some ⟨s, t :: ts⟩ → ∃ r, (sec t s).run h' = .ok r

theorem Safe.next {h h' : Heap} {ws : List (Worker σ τ)} (hs : Safe sec h ws) {i : Nat} {s s' : σ} {t : τ} {ts : List τ} (hi : ws[i]? = some ⟨s, t :: ts⟩)
    (hr : (sec t s).run h = .ok (s', h')) : Safe sec h' (ws.set i ⟨s', ts⟩) := by
  intro order h2 ws2 j s2 t2 ts2 h1 h2'
  refine hs (i :: order) h2 ws2 j s2 t2 ts2 ?_ h2'
  simp only [serial, hi, hr]
  exact h1

theorem bound_lt (n : Nat) (Q : Nat → Nat → Prop) (hq : ∀ i, i < n → ∃ N, ∀ m, N ≤ m → Q i m) : ∃ N, ∀ m, N ≤ m → ∀ i, i < n → Q i m := by
  induction n with
  | zero => exact ⟨0, fun _ _ i hi => absurd hi (by omega)⟩
  | succ n ih =>
      obtain ⟨N, hN⟩ := ih fun i hi => hq i (by omega)
      obtain ⟨N', hN'⟩ := hq n (by omega)
      refine ⟨N + N', fun m hm i hi => ?_⟩
      by_cases e : i = n
      · subst e; exact hN' m (by omega)
      · exact hN m (by omega) i (by omega)

theorem ends_free {n : Nat} : ∀ (l : Nat) {h : Heap} {ws : List (Worker σ τ)}, load ws = l → ws.length = n → Safe sec h ws → ∃ K, Ends sec n K ⟨h, ws, none⟩ := by
  intro l
  induction l with
  | zero =>
      intro h ws hl _ _
      refine ⟨0, fun s _ => ?_⟩
      have hf : (World.mk h ws none : World σ τ).Finished := by
        refine ⟨rfl, fun x hx => ?_⟩
        obtain ⟨i, hi⟩ := List.getElem?_of_mem hx
        rcases x with ⟨s, _ | ⟨t, ts⟩⟩
        · rfl
        · have := load_set (s' := s) hi
          dsimp only at this
          omega
      rw [Finished.run hf]
      exact hf
  | succ l ih =>
      intro h ws hl hn hs
      obtain ⟨K, hK⟩ := bound_lt n (fun i K => ∀ s t ts, ws[i]? = some ⟨s, t :: ts⟩ → Ends sec n K ⟨h, ws.set i ⟨s, ts⟩, some (i, sec t s)⟩) (by
        intro i hi
        cases hw : ws[i]? with
        | none => exact ⟨0, fun _ _ s t ts h => (by cases h)⟩
        | some x =>
            rcases x with ⟨s, _ | ⟨t, ts⟩⟩
            · exact ⟨0, fun _ _ s t ts h => (by cases h)⟩
            · obtain ⟨⟨s', h'⟩, hr⟩ := hs [] h ws i s t ts rfl hw
              have hl' := load_set (s' := s') hw
              obtain ⟨K, hK⟩ := ih (h := h') (ws := ws.set i ⟨s', ts⟩) (by omega) (by simpa using hn) (hs.next hw hr)
              refine ⟨(sec t s).steps h + 1 + K, fun m hm s1 t1 ts1 e => ?_⟩
              cases e
              refine (ends_held hi (sec t s) hr ?_).mono hm
              have e : (ws.set i ⟨s, ts⟩).modify i (fun x => { x with state := s' }) = ws.set i ⟨s', ts⟩ := by
                refine List.ext_getElem? fun k => ?_
                rw [List.getElem?_modify]
                by_cases hk : i = k
                · subst hk
                  have hl := (List.getElem?_eq_some_iff.1 hw).1
                  simp [List.getElem?_set_self hl]
                · simp [hk, List.getElem?_set_ne hk]
              rw [e]
              exact hK)
      have hex : ∃ i, i < n ∧ ∃ s t ts, ws[i]? = some ⟨s, t :: ts⟩ := by
        refine Classical.byContradiction fun hne => ?_
        have : load ws = 0 := by
          have hz : ∀ x ∈ ws, x.todo.length = 0 := by
            intro x hx
            obtain ⟨i, hi⟩ := List.getElem?_of_mem hx
            rcases x with ⟨s, _ | ⟨t, ts⟩⟩
            · rfl
            · exact absurd ⟨i, by rw [← hn]; exact (List.getElem?_eq_some_iff.1 hi).1, s, t, ts, hi⟩ hne
          unfold load
          clear hl hs hK hn hne
          induction ws with
          | nil => rfl
          | cons x xs ih =>
              simp only [List.map_cons, List.sum_cons, hz x (List.mem_cons_self ..)]
              simpa using ih fun y hy => hz y (List.mem_cons_of_mem _ hy)
        omega
      refine ⟨K + 1, fun sched hsched => ?_⟩
      obtain ⟨pre, i, post, rfl, ⟨s, t, ts, hi⟩, h1, h2⟩ := hsched.first (fun i => ∃ s t ts, ws[i]? = some ⟨s, t :: ts⟩) hex
      rw [World.run_append, run_same pre, World.run_cons]
      · have : (World.mk h ws none).step sec i = ⟨h, ws.set i ⟨s, ts⟩, some (i, sec t s)⟩ := by simp [World.step, hi]
        rw [this]
        exact hK K (Nat.le_refl _) i (by rw [← hn]; exact (List.getElem?_eq_some_iff.1 hi).1) s t ts hi post h2
      · intro k hk
        simp only [World.step]
        split
        · rename_i s' t' ts' hk'
          exact absurd ⟨s', t', ts', hk'⟩ (h1 k hk)
        · rfl

end

/-! ## Against a model -/

section
variable {σ τ α : Type} {sec : Nat → τ → σ → Io σ} {mstep : Nat → α → Run α} {Inv : Heap → List (Worker σ τ) → α → Prop}

def mserial (mstep : Nat → α → Run α) : List Nat → α → Run α
  | [], x => .ok x
  | i :: is, x => mstep i x >>= mserial mstep is

theorem mserial_append (o o' : List Nat) (x : α) : mserial mstep (o ++ o') x = mserial mstep o x >>= mserial mstep o' := by
  induction o generalizing x with
  | nil => rfl
  | cons i is ih =>
      simp only [List.cons_append, mserial]
      cases hr : mstep i x with
      | ok y => exact ih y
      | panic p => rfl
      | diverge => rfl

/-- What a task does, if there is a model of it. -/
def Agrees (f : Nat → Res (σ × Heap)) : Run α → Prop
  | .ok _ => ∃ r, Does f r
  | .panic p => Panics f p
  | .diverge => False

/-- The same with enough fuel. -/
def AgreesAt (f : Res (σ × Heap)) : Run α → Prop
  | .ok _ => ∃ r, f = .ok r
  | .panic p => f = .panic p
  | .diverge => False

/-- One section follows the model. -/
def Follows (sec : Nat → τ → σ → Io σ) (mstep : Nat → α → Run α) (Inv : Heap → List (Worker σ τ) → α → Prop) : Prop :=
  ∀ h ws x i s t ts, Inv h ws x → ws[i]? = some ⟨s, t :: ts⟩ →
    match mstep i x with
    | .ok y => ∃ s' h', Does (fun n => (sec n t s).run h) (s', h') ∧ Inv h' (ws.set i ⟨s', ts⟩) y
    | .panic p => Panics (fun n => (sec n t s).run h) p
    | .diverge => False

theorem follows_all (hf : Follows sec mstep Inv) : ∀ (l : Nat) {h : Heap} {ws : List (Worker σ τ)} {x : α}, load ws = l → Inv h ws x →
    ∃ N, ∀ n, N ≤ n → ∀ order h' ws', serial (sec n) order h ws = .ok (h', ws') → ∃ y, mserial mstep order x = .ok y ∧ Inv h' ws' y ∧
      ∀ i s t ts, ws'[i]? = some ⟨s, t :: ts⟩ → AgreesAt ((sec n t s).run h') (mstep i y) := by
  intro l
  induction l with
  | zero =>
      intro h ws x hl hi
      have hno : ∀ (i : Nat) (s : σ) (t : τ) (ts : List τ), ws[i]? ≠ some ⟨s, t :: ts⟩ := fun i s t ts hw => by
        have := load_set (s' := s) hw
        omega
      refine ⟨0, fun n _ order h' ws' hs => ?_⟩
      cases order with
      | nil => cases hs; exact ⟨x, rfl, hi, fun i s t ts hw => absurd hw (hno i s t ts)⟩
      | cons i is =>
          simp only [serial] at hs
          split at hs
          · rename_i hw
            exact (hno _ _ _ _ hw).elim
          · cases hs
  | succ l ih =>
      intro h ws x hl hinv
      obtain ⟨N, hN⟩ := bound_lt ws.length (fun i n => ∀ s t ts, ws[i]? = some ⟨s, t :: ts⟩ → AgreesAt ((sec n t s).run h) (mstep i x) ∧
          ∀ s' h', (sec n t s).run h = .ok (s', h') → ∃ y, mstep i x = .ok y ∧ ∀ order h2 ws2, serial (sec n) order h' (ws.set i ⟨s', ts⟩) = .ok (h2, ws2) →
            ∃ z, mserial mstep order y = .ok z ∧ Inv h2 ws2 z ∧ ∀ i s t ts, ws2[i]? = some ⟨s, t :: ts⟩ → AgreesAt ((sec n t s).run h2) (mstep i z)) (by
        intro i hi
        cases hw : ws[i]? with
        | none => exact ⟨0, fun _ _ s t ts h => (by cases h)⟩
        | some w =>
            rcases w with ⟨s, _ | ⟨t, ts⟩⟩
            · exact ⟨0, fun _ _ s t ts h => (by cases h)⟩
            · have hstep := hf h ws x i s t ts hinv hw
              cases hm : mstep i x with
              | diverge => rw [hm] at hstep; exact hstep.elim
              | panic p =>
                  rw [hm] at hstep
                  obtain ⟨N, hN⟩ := hstep
                  refine ⟨N, fun n hn s1 t1 ts1 e => ?_⟩
                  cases e
                  refine ⟨hN n hn, fun s' h' hr => ?_⟩
                  have hN := hN n hn
                  dsimp only at hN
                  rw [hN] at hr
                  cases hr
              | ok y =>
                  rw [hm] at hstep
                  obtain ⟨s', h', ⟨N, hN⟩, hinv'⟩ := hstep
                  have hl' := load_set (s' := s') hw
                  obtain ⟨N', hN'⟩ := ih (by omega) hinv'
                  refine ⟨N + N', fun n hn s1 t1 ts1 e => ?_⟩
                  cases e
                  have hr := hN n (by omega)
                  dsimp only at hr
                  refine ⟨⟨_, hr⟩, fun s2 h2 hr' => ?_⟩
                  rw [hr] at hr'
                  cases hr'
                  exact ⟨y, rfl, hN' n (by omega)⟩)
      refine ⟨N, fun n hn order h' ws' hs => ?_⟩
      cases order with
      | nil =>
          cases hs
          exact ⟨x, rfl, hinv, fun i s t ts hw => (hN n hn i (List.getElem?_eq_some_iff.1 hw).1 s t ts hw).1⟩
      | cons i is =>
          simp only [serial] at hs
          split at hs
          · rename_i s t ts hw
            obtain ⟨-, h2⟩ := hN n hn i (List.getElem?_eq_some_iff.1 hw).1 s t ts hw
            cases hr : (sec n t s).run h with
            | ok r =>
                rw [hr] at hs
                obtain ⟨y, hy, h3⟩ := h2 r.1 r.2 hr
                obtain ⟨z, h4, h5⟩ := h3 is h' ws' hs
                refine ⟨z, ?_, h5⟩
                simp only [mserial, hy, Run.ok_bind, h4]
            | panic p => rw [hr] at hs; cases hs
            | stuck => rw [hr] at hs; cases hs
            | more => rw [hr] at hs; cases hs
          · cases hs

end
end Urn.GoLang.Lock
