import Verif.GoRaceAux
/-!
# Goroutines with conflicts race
-/
set_option autoImplicit false
namespace Urn.GoLang
variable {α : Type}

theorem run_cons (w : World α) (i : Nat) (l : List Nat) : w.run (i :: l) = (w.step i).run l := rfl

theorem run_append (w : World α) (l m : List Nat) : w.run (l ++ m) = (w.run l).run m := by
  unfold World.run
  rw [List.foldl_append]

/-- Record an access if it is to memory that was there. -/
def World.touch (w : World α) (i : Nat) (x : Access) : World α := if x.cell < w.mem.length then w.access i x else w

theorem touch_mem (w : World α) (i : Nat) (x : Access) : (w.touch i x).mem = w.mem := by unfold World.touch; split <;> rfl
theorem touch_gos (w : World α) (i : Nat) (x : Access) : (w.touch i x).gos = w.gos := by unfold World.touch; split <;> rfl
theorem touch_old (w : World α) (i : Nat) (x : Access) {y : Nat × Access} (hy : y ∈ w.accesses) : y ∈ (w.touch i x).accesses := by
  unfold World.touch
  split
  · exact List.mem_cons_of_mem _ hy
  · exact hy
theorem touch_new (w : World α) (i : Nat) (x : Access) (hx : x.cell < w.mem.length) : (i, x) ∈ (w.touch i x).accesses := by
  unfold World.touch
  rw [if_pos hx]
  exact List.mem_cons_self

section
variable {w : World α} {i : Nat} {new : Heap}

theorem step_alloc {c : Cell} {k : Nat → Io α} (hg : w.gos[i]? = some ⟨.alloc c k, new⟩) :
    w.step i = w.go i ⟨k (w.mem ++ new).length, new ++ [c]⟩ := by
  unfold World.step
  rw [hg]

theorem step_read {a : Nat} {p : Part} {k : Cell → Io α} (hg : w.gos[i]? = some ⟨.read a p k, new⟩) :
    w.step i = match Heap.at (w.mem ++ new) a p with
      | some c => (w.touch i ⟨false, a, p⟩).go i ⟨k c, new⟩
      | none => (w.touch i ⟨false, a, p⟩).go i ⟨.done .stuck, new⟩ := by
  unfold World.step
  rw [hg]
  rfl

theorem step_write {a : Nat} {u : Upd} {k : Io α} (hg : w.gos[i]? = some ⟨.write a u k, new⟩) :
    w.step i = match Heap.own (w.mem ++ new) a u with
      | some c => if a < w.mem.length then { w.touch i ⟨true, a, u.part⟩ with mem := w.mem.set a c }.go i ⟨k, new⟩
          else (w.touch i ⟨true, a, u.part⟩).go i ⟨k, new.set (a - w.mem.length) c⟩
      | none => (w.touch i ⟨true, a, u.part⟩).go i ⟨.done .stuck, new⟩ := by
  unfold World.step
  rw [hg]
  have e : (if a < w.mem.length then w.access i ⟨true, a, u.part⟩ else w) = w.touch i ⟨true, a, u.part⟩ := rfl
  dsimp only
  rw [e, touch_mem]
  cases Heap.own (w.mem ++ new) a u <;> rfl

/-- What is true after goroutine `i` has run on its own. -/
structure After (w : World α) (i : Nat) (l : List Access) (w' : World α) : Prop where
  len : w'.mem.length = w.mem.length
  acc : ∀ x ∈ l, x.cell < w.mem.length → (i, x) ∈ w'.accesses
  old : ∀ y ∈ w.accesses, y ∈ w'.accesses
  gos : ∀ j : Nat, j ≠ i → w'.gos[j]? = w.gos[j]?
  mem : ∀ c p, (∀ x ∈ l, x.write = true → x.cell = c → ¬ x.part.Meets p) → Heap.Agree w'.mem w.mem c p

theorem after_done {l : List Access} (hl : l = []) : After w i l w := by
  subst hl
  exact ⟨rfl, fun x hx => (by cases hx), fun _ hy => hy, fun _ _ => rfl, fun _ _ _ => .of rfl⟩

theorem append_set_left {m n : Heap} {a : Nat} {c : Cell} (h : a < m.length) : (m ++ n).set a c = m.set a c ++ n := by
  rw [List.set_append, if_pos h]

theorem append_set_right {m n : Heap} {a : Nat} {c : Cell} (h : ¬ a < m.length) : (m ++ n).set a c = m ++ n.set (a - m.length) c := by
  rw [List.set_append, if_neg h]

theorem gos_lt {g : Goroutine α} (hg : w.gos[i]? = some g) : i < w.gos.length := (List.getElem?_eq_some_iff.1 hg).1

/-- A goroutine that runs on its own makes its accesses. -/
theorem solo (t : Io α) : ∀ (w : World α) (i : Nat) (new : Heap), w.gos[i]? = some ⟨t, new⟩ →
    ∃ k, After w i (t.log (w.mem ++ new)) (w.run (List.replicate k i)) := by
  induction t with
  | done r => intro w i new _; exact ⟨0, after_done rfl⟩
  | alloc c k ih =>
      intro w i new hg
      have hs := step_alloc hg
      have hi := gos_lt hg
      obtain ⟨n, hn⟩ := ih (w.mem ++ new).length (w.step i) i (new ++ [c]) (by rw [hs]; simp [World.go, hi])
      refine ⟨n + 1, ?_⟩
      rw [List.replicate_succ, run_cons]
      have hm : (w.step i).mem = w.mem := by rw [hs]; rfl
      rw [hm, ← List.append_assoc] at hn
      exact ⟨hn.len.trans (by rw [hm]), fun x hx hl => hn.acc x hx (by rw [hm]; exact hl), fun y hy => hn.old y (by rw [hs]; exact hy),
        fun j hj => (hn.gos j hj).trans (by rw [hs]; exact List.getElem?_set_ne (fun e => hj e.symm)), fun c p hc => (hn.mem c p hc).trans (.of (by rw [hm]))⟩
  | read a p k ih =>
      intro w i new hg
      have hs := step_read hg
      have hi := gos_lt hg
      rw [Io.log]
      cases hc : Heap.at (w.mem ++ new) a p with
      | none =>
          rw [hc] at hs
          refine ⟨1, ?_⟩
          rw [List.replicate_succ, run_cons, hs]
          refine ⟨congrArg List.length (touch_mem w i _), fun x hx hl => ?_, fun y hy => touch_old _ _ _ hy, fun j hj => ?_, fun c p _ => .of (congrArg (·[c]?) (touch_mem w i _))⟩
          · rw [List.mem_singleton] at hx
            subst hx
            exact touch_new _ _ _ hl
          · exact (List.getElem?_set_ne (fun e => hj e.symm)).trans (by rw [touch_gos])
      | some c =>
          rw [hc] at hs
          obtain ⟨n, hn⟩ := ih c (w.step i) i new (by rw [hs]; simp [World.go, touch_gos, hi])
          refine ⟨n + 1, ?_⟩
          rw [List.replicate_succ, run_cons]
          have hm : (w.step i).mem = w.mem := by rw [hs]; exact touch_mem _ _ _
          rw [hm] at hn
          refine ⟨hn.len.trans (by rw [hm]), fun x hx hl => ?_, fun y hy => hn.old y (by rw [hs]; exact touch_old _ _ _ hy),
            fun j hj => (hn.gos j hj).trans (by rw [hs]; exact (List.getElem?_set_ne (fun e => hj e.symm)).trans (by rw [touch_gos])),
            fun c p hc => (hn.mem c p fun x h => hc x (List.mem_cons_of_mem _ h)).trans (.of (by rw [hm]))⟩
          rcases List.mem_cons.1 hx with rfl | hx
          · exact hn.old _ (by rw [hs]; exact touch_new _ _ _ hl)
          · exact hn.acc x hx (by rw [hm]; exact hl)
  | write a u k ih =>
      intro w i new hg
      have hs := step_write hg
      have hi := gos_lt hg
      rw [Io.log]
      cases hc : Heap.own (w.mem ++ new) a u with
      | none =>
          rw [hc] at hs
          refine ⟨1, ?_⟩
          rw [List.replicate_succ, run_cons, hs]
          refine ⟨congrArg List.length (touch_mem w i _), fun x hx hl => ?_, fun y hy => touch_old _ _ _ hy, fun j hj => ?_, fun c p _ => .of (congrArg (·[c]?) (touch_mem w i _))⟩
          · rw [List.mem_singleton] at hx
            subst hx
            exact touch_new _ _ _ hl
          · exact (List.getElem?_set_ne (fun e => hj e.symm)).trans (by rw [touch_gos])
      | some c =>
          rw [hc] at hs
          dsimp only at hs ⊢
          by_cases ha : a < w.mem.length
          · rw [if_pos ha] at hs
            obtain ⟨n, hn⟩ := ih (w.step i) i new (by rw [hs]; simp [World.go, touch_gos, hi])
            refine ⟨n + 1, ?_⟩
            rw [List.replicate_succ, run_cons]
            have hm : (w.step i).mem = w.mem.set a c := by rw [hs]; rfl
            rw [hm, ← append_set_left ha] at hn
            refine ⟨hn.len.trans (by rw [hm, List.length_set]), fun x hx hl => ?_, fun y hy => hn.old y (by rw [hs]; exact touch_old _ _ _ hy),
              fun j hj => (hn.gos j hj).trans (by rw [hs]; exact (List.getElem?_set_ne (fun e => hj e.symm)).trans (by rw [touch_gos])),
              fun b p hb => (hn.mem b p fun x h => hb x (List.mem_cons_of_mem _ h)).trans ?_⟩
            · rcases List.mem_cons.1 hx with rfl | hx
              · exact hn.old _ (by rw [hs]; exact touch_new _ _ _ hl)
              · exact hn.acc x hx (by rw [hm, List.length_set]; exact hl)
            · rw [hm]
              exact Heap.Agree.other ((own_congr (List.getElem?_append_left ha)).symm.trans hc) fun e => hb _ List.mem_cons_self rfl e
          · rw [if_neg ha] at hs
            obtain ⟨n, hn⟩ := ih (w.step i) i (new.set (a - w.mem.length) c) (by rw [hs]; simp [World.go, touch_gos, hi])
            refine ⟨n + 1, ?_⟩
            rw [List.replicate_succ, run_cons]
            have hm : (w.step i).mem = w.mem := by rw [hs]; exact touch_mem _ _ _
            rw [hm, ← append_set_right ha] at hn
            refine ⟨hn.len.trans (by rw [hm]), fun x hx hl => ?_, fun y hy => hn.old y (by rw [hs]; exact touch_old _ _ _ hy),
              fun j hj => (hn.gos j hj).trans (by rw [hs]; exact (List.getElem?_set_ne (fun e => hj e.symm)).trans (by rw [touch_gos])),
              fun b p hb => (hn.mem b p fun x h => hb x (List.mem_cons_of_mem _ h)).trans (.of (by rw [hm]))⟩
            rcases List.mem_cons.1 hx with rfl | hx
            · exact absurd hl ha
            · exact hn.acc x hx (by rw [hm]; exact hl)

theorem touch_race {j : Nat} {x y : Access} (hx : (i, x) ∈ w.accesses) (hij : i ≠ j) (hc : y.Conflict x) (hl : y.cell < w.mem.length) : (w.touch j y).raced = true := by
  unfold World.touch
  rw [if_pos hl]
  simp only [World.access, Bool.or_eq_true, List.any_eq_true, Bool.and_eq_true, bne_iff_ne, ne_eq, decide_eq_true_eq]
  exact .inr ⟨(i, x), hx, hij, hc⟩

/-- After goroutine `i` has made the accesses `l`, goroutine `j` makes the first access that is in conflict with one of these. -/
theorem hits (i : Nat) (l : List Access) (u : Io α) : ∀ (w : World α) (j : Nat) (new H : Heap), i ≠ j → w.gos[j]? = some ⟨u, new⟩ →
    (∀ x ∈ l, x.cell < w.mem.length → (i, x) ∈ w.accesses) → H.length = (w.mem ++ new).length →
    (∀ (c : Nat) (p : Part), (∀ x ∈ l, x.write = true → x.cell = c → ¬ x.part.Meets p) → Heap.Agree H (w.mem ++ new) c p) →
    (∀ c : Nat, w.mem.length ≤ c → H[c]? = (w.mem ++ new)[c]?) →
    (∃ y ∈ u.log H, ∃ x ∈ l, y.Conflict x ∧ y.cell < w.mem.length) → ∃ k, (w.run (List.replicate k j)).raced = true := by
  induction u with
  | done r => rintro w j new H _ _ _ _ _ _ ⟨y, hy, _⟩; cases hy
  | alloc c k ih =>
      rintro w j new H hij hg hl hH hm hn' ⟨y, hy, hx⟩
      have hs := step_alloc hg
      have hi := gos_lt hg
      have hm' : (w.step j).mem = w.mem := by rw [hs]; rfl
      obtain ⟨n, hn⟩ := ih (w.mem ++ new).length (w.step j) j (new ++ [c]) (H ++ [c]) hij (by rw [hs]; simp [World.go, hi])
        (by rw [hm']; intro x hx hl'; rw [hs]; exact hl x hx hl') (by rw [hm', List.length_append, hH]; simp; omega) (by
          rw [hm']
          intro b p hb
          by_cases hlt : b < H.length
          · exact (hm b p hb).congr (List.getElem?_append_left hlt) (by rw [← List.append_assoc]; exact List.getElem?_append_left (hH ▸ hlt))
          · exact .of (by rw [← List.append_assoc, List.getElem?_append_right (by omega), List.getElem?_append_right (by omega), hH])) (by
          rw [hm']
          intro b hb
          rw [← List.append_assoc, List.getElem?_append, List.getElem?_append, hH]
          split
          · exact hn' b hb
          · rfl) (by rw [hm']; rw [Io.log, hH] at hy; exact ⟨y, hy, hx⟩)
      exact ⟨n + 1, by rw [List.replicate_succ, run_cons]; exact hn⟩
  | read a p k ih =>
      rintro w j new H hij hg hl hH hm hn' ⟨y, hy, x, hx, hc, hlen⟩
      have hs := step_read hg
      have hi := gos_lt hg
      by_cases hr : ∃ x ∈ l, (⟨false, a, p⟩ : Access).Conflict x ∧ a < w.mem.length
      · obtain ⟨x, hx, hc, ha⟩ := hr
        have := touch_race (j := j) (hl x hx (by rw [← hc.1]; exact ha)) hij hc ha
        refine ⟨1, ?_⟩
        rw [List.replicate_succ, run_cons, hs]
        split <;> exact this
      · have he : Heap.at H a p = Heap.at (w.mem ++ new) a p := by
          by_cases h2 : a < w.mem.length
          · exact (hm a p fun x hx hw hcl hp => hr ⟨x, hx, ⟨hcl.symm, hp.symm, .inr hw⟩, h2⟩).at
          · exact at_congr (hn' a (by omega))
        rw [Io.log] at hy
        rcases List.mem_cons.1 hy with rfl | hy
        · exact absurd ⟨x, hx, hc, hlen⟩ hr
        · rw [he] at hy
          cases hat : Heap.at (w.mem ++ new) a p with
          | none => rw [hat] at hy; cases hy
          | some c =>
              rw [hat] at hy hs
              have hm' : (w.step j).mem = w.mem := by rw [hs]; exact touch_mem _ _ _
              obtain ⟨n, hn⟩ := ih c (w.step j) j new H hij (by rw [hs]; simp [World.go, touch_gos, hi])
                (by rw [hm']; intro x hx hl'; rw [hs]; exact touch_old _ _ _ (hl x hx hl')) (by rw [hm', hH]) (by rw [hm']; exact hm) (by rw [hm']; exact hn')
                (by rw [hm']; exact ⟨y, hy, x, hx, hc, hlen⟩)
              exact ⟨n + 1, by rw [List.replicate_succ, run_cons]; exact hn⟩
  | write a u k ih =>
      rintro w j new H hij hg hl hH hm hn' ⟨y, hy, x, hx, hc, hlen⟩
      have hs := step_write hg
      have hi := gos_lt hg
      by_cases hr : ∃ x ∈ l, (⟨true, a, u.part⟩ : Access).Conflict x ∧ a < w.mem.length
      · obtain ⟨x, hx, hc, ha⟩ := hr
        have := touch_race (j := j) (hl x hx (by rw [← hc.1]; exact ha)) hij hc ha
        refine ⟨1, ?_⟩
        rw [List.replicate_succ, run_cons, hs]
        split
        · rw [if_pos ha]; exact this
        · exact this
      · have he : Heap.Agree H (w.mem ++ new) a u.part := by
          by_cases h2 : a < w.mem.length
          · exact hm a u.part fun x hx hw hcl hp => hr ⟨x, hx, ⟨hcl.symm, hp.symm, .inr hw⟩, h2⟩
          · exact .of (hn' a (by omega))
        rw [Io.log] at hy
        rcases List.mem_cons.1 hy with rfl | hy
        · exact absurd ⟨x, hx, hc, hlen⟩ hr
        · cases hat : Heap.own (w.mem ++ new) a u with
          | none => rw [he.symm.own_none hat] at hy; cases hy
          | some c =>
              obtain ⟨d, hd⟩ := he.symm.own hat
              rw [hd] at hy
              rw [hat] at hs
              dsimp only at hy hs
              have hset : ∀ (b : Nat) (p : Part), (∀ x ∈ l, x.write = true → x.cell = b → ¬ x.part.Meets p) →
                  Heap.Agree (H.set a d) ((w.mem ++ new).set a c) b p := fun b p hb => (hm b p hb).set hd hat
              have hset' : ∀ b : Nat, w.mem.length ≤ b → (H.set a d)[b]? = ((w.mem ++ new).set a c)[b]? := fun b hb => by
                by_cases e : a = b
                · subst e
                  rw [own_congr (hn' a hb), hat] at hd
                  cases hd
                  rw [List.getElem?_set_self (by rw [hH]; exact own_lt hat), List.getElem?_set_self (own_lt hat)]
                · rw [List.getElem?_set_ne e, List.getElem?_set_ne e, hn' b hb]
              by_cases hal : a < w.mem.length
              · rw [if_pos hal] at hs
                have hm' : (w.step j).mem = w.mem.set a c := by rw [hs]; rfl
                obtain ⟨n, hn⟩ := ih (w.step j) j new (H.set a d) hij (by rw [hs]; simp [World.go, touch_gos, hi])
                  (by rw [hm', List.length_set]; intro x hx hl'; rw [hs]; exact touch_old _ _ _ (hl x hx hl'))
                  (by rw [hm', ← append_set_left hal, List.length_set, List.length_set, hH]) (by rw [hm', ← append_set_left hal]; exact hset)
                  (by rw [hm', List.length_set, ← append_set_left hal]; exact hset')
                  (by rw [hm', List.length_set]; exact ⟨y, hy, x, hx, hc, hlen⟩)
                exact ⟨n + 1, by rw [List.replicate_succ, run_cons]; exact hn⟩
              · rw [if_neg hal] at hs
                have hm' : (w.step j).mem = w.mem := by rw [hs]; exact touch_mem _ _ _
                obtain ⟨n, hn⟩ := ih (w.step j) j (new.set (a - w.mem.length) c) (H.set a d) hij (by rw [hs]; simp [World.go, touch_gos, hi])
                  (by rw [hm']; intro x hx hl'; rw [hs]; exact touch_old _ _ _ (hl x hx hl'))
                  (by rw [hm', ← append_set_right hal, List.length_set, List.length_set, hH]) (by rw [hm', ← append_set_right hal]; exact hset) (by rw [hm', ← append_set_right hal]; exact hset')
                  (by rw [hm']; exact ⟨y, hy, x, hx, hc, hlen⟩)
                exact ⟨n + 1, by rw [List.replicate_succ, run_cons]; exact hn⟩
end

/-- If two goroutines would, alone, make accesses that are in conflict, then there is a schedule with a race. -/
theorem races {h : Heap} {ts : List (Io α)} {i j : Nat} {t u : Io α} {x y : Access} (hij : i ≠ j) (hi : ts[i]? = some t) (hj : ts[j]? = some u)
    (hx : x ∈ t.log h) (hy : y ∈ u.log h) (hl : x.cell < h.length) (hc : x.Conflict y) : ∃ sched : List Nat, ((World.start h ts).run sched).raced = true := by
  obtain ⟨k, hk⟩ := solo t (World.start h ts) i [] (by simp [World.start, hi])
  have e : ((World.start h ts).mem ++ [] : Heap) = h := List.append_nil h
  rw [e] at hk
  have hlen : ((World.start h ts).run (List.replicate k i)).mem.length = h.length := hk.len
  obtain ⟨n, hn⟩ := hits i (t.log h) u ((World.start h ts).run (List.replicate k i)) j [] h hij
    ((hk.gos j (fun e => hij e.symm)).trans (by simp [World.start, hj])) (fun x hx hl => hk.acc x hx (by rw [← hk.len]; exact hl))
    (by rw [List.append_nil, hlen]) (fun c p hcl => by
      rw [List.append_nil]
      exact (hk.mem c p hcl).symm) (fun c h1 => by
      rw [List.append_nil]
      rw [List.getElem?_eq_none (by rw [hlen] at h1; exact h1), List.getElem?_eq_none h1])
    ⟨y, hy, x, hx, ⟨hc.1.symm, hc.2.1.symm, hc.2.2.symm⟩, by rw [hlen, ← hc.1]; exact hl⟩
  exact ⟨List.replicate k i ++ List.replicate n j, by rw [run_append]; exact hn⟩

end Urn.GoLang
