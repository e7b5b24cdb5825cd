import Verif.GoPart
/-!
# Goroutines without conflicts do not disturb each other
-/
set_option autoImplicit false
namespace Urn.GoLang
variable {α : Type}

/-- Nobody but `i` writes to this part of memory. -/
def Quiet (h : Heap) (ts : List (Io α)) (i c : Nat) (p : Part) : Prop :=
  ∀ j u x, j ≠ i → ts[j]? = some u → x ∈ u.log h → x.write = true → x.cell = c → ¬ x.part.Meets p

/-- Goroutine `i` with the memory `H` that it would see if it was alone. -/
structure GoInv (h : Heap) (ts : List (Io α)) (mem : Heap) (i : Nat) (t : Io α) (n : Nat) (g : Goroutine α) (H : Heap) : Prop where
  len : H.length = h.length + g.new.length
  new : ∀ c, g.new[c]? = H[h.length + c]?
  old : ∀ c p, c < h.length → Quiet h ts i c p → Heap.Agree mem H c p
  run : g.todo.run H = t.run h
  log : ∀ x, x ∈ g.todo.log H → x ∈ t.log h
  steps : g.todo.steps H = t.steps h - n

structure RaceInv (h : Heap) (ts : List (Io α)) (sched : List Nat) (w : World α) : Prop where
  len : w.mem.length = h.length
  go : ∀ (i : Nat) (t : Io α), ts[i]? = some t → ∃ g H, w.gos[i]? = some g ∧ GoInv h ts w.mem i t (sched.count i) g H
  gos : ∀ i : Nat, ts[i]? = none → w.gos[i]? = none
  acc : ∀ i x, (i, x) ∈ w.accesses → x.cell < h.length ∧ ∃ t, ts[i]? = some t ∧ x ∈ t.log h
  raced : w.raced = false

theorem start_inv (h : Heap) (ts : List (Io α)) : RaceInv h ts [] (World.start h ts) where
  len := rfl
  go i t ht := by
    refine ⟨⟨t, []⟩, h, by simp [World.start, ht], ⟨rfl, fun c => ?_, fun _ _ _ _ => .of rfl, rfl, fun _ hx => hx, rfl⟩⟩
    simp
  gos i hi := by simp [World.start, hi]
  acc i x hx := by simp [World.start] at hx
  raced := rfl

/-- What goroutine `i` sees where nobody else writes. -/
theorem GoInv.sees {h : Heap} {ts : List (Io α)} {mem : Heap} {i : Nat} {t : Io α} {n : Nat} {g : Goroutine α} {H : Heap}
    (hg : GoInv h ts mem i t n g H) (hl : mem.length = h.length) {c : Nat} {p : Part} (hq : c < h.length → Quiet h ts i c p) :
    Heap.Agree (mem ++ g.new) H c p ∧ (h.length ≤ c → (mem ++ g.new)[c]? = H[c]?) := by
  by_cases hc : c < h.length
  · exact ⟨(hg.old c p hc (hq hc)).congr (List.getElem?_append_left (by omega)) rfl, fun h1 => by omega⟩
  · have : (mem ++ g.new)[c]? = H[c]? := by
      rw [List.getElem?_append_right (by omega), hg.new, hl, Nat.add_sub_of_le (by omega)]
    exact ⟨.of this, fun _ => this⟩

theorem quiet {h : Heap} {ts : List (Io α)} (hn : NoConflict h ts) {i : Nat} {t : Io α} (ht : ts[i]? = some t) {x : Access} (hx : x ∈ t.log h)
    (hc : x.cell < h.length) : Quiet h ts i x.cell x.part :=
  fun j u y hj hu hy hw hcl hp => hn i j t u x y (fun e => hj e.symm) ht hu hx hy hc ⟨hcl.symm, hp.symm, .inr hw⟩

theorem no_race {h : Heap} {ts : List (Io α)} (hn : NoConflict h ts) {sched : List Nat} {w : World α} (hw : RaceInv h ts sched w) {i : Nat} {t : Io α}
    (ht : ts[i]? = some t) {x : Access} (hx : x ∈ t.log h) (hc : x.cell < h.length) : (w.access i x).raced = false := by
  simp only [World.access, hw.raced, Bool.false_or, List.any_eq_false, Bool.and_eq_true, bne_iff_ne, ne_eq, decide_eq_true_eq, not_and]
  intro ⟨j, y⟩ hy hj
  obtain ⟨-, u, hu, hyu⟩ := hw.acc j y hy
  exact hn i j t u x y (fun e => hj e.symm) ht hu hx hyu hc

theorem access_inv {h : Heap} {ts : List (Io α)} (hn : NoConflict h ts) {sched : List Nat} {w : World α} (hw : RaceInv h ts sched w) {i : Nat} {t : Io α}
    (ht : ts[i]? = some t) {x : Access} (hx : x ∈ t.log h) :
    RaceInv h ts sched (if x.cell < w.mem.length then w.access i x else w) := by
  split
  · rename_i hc
    rw [hw.len] at hc
    refine ⟨hw.len, hw.go, hw.gos, fun j y hy => ?_, no_race hn hw ht hx hc⟩
    simp only [World.access, List.mem_cons, Prod.mk.injEq] at hy
    rcases hy with ⟨rfl, rfl⟩ | hy
    · exact ⟨hc, t, ht, hx⟩
    · exact hw.acc j y hy
  · exact hw

/-- Goroutine `i` goes on; the memory that others see stays. -/
theorem go_inv {h : Heap} {ts : List (Io α)} {sched : List Nat} {w : World α} (hw : RaceInv h ts sched w) {i : Nat} {t : Io α}
    (ht : ts[i]? = some t) {g : Goroutine α} {H mem : Heap} (hg : GoInv h ts mem i t (sched.count i + 1) g H) (hl : mem.length = h.length)
    (hm : ∀ j u c p, j ≠ i → ts[j]? = some u → c < h.length → Quiet h ts j c p → Heap.Agree mem w.mem c p) :
    RaceInv h ts (sched ++ [i]) ({ w with mem := mem }.go i g) := by
  have hi : i < w.gos.length := by
    obtain ⟨g', _, h1, _⟩ := hw.go i t ht
    exact (List.getElem?_eq_some_iff.1 h1).1
  refine ⟨hl, fun j u hu => ?_, fun j hj => ?_, hw.acc, hw.raced⟩
  · by_cases hj : j = i
    · subst hj
      rw [ht] at hu; cases hu
      refine ⟨g, H, by simp [World.go, hi], ?_⟩
      rw [List.count_append, List.count_singleton_self]
      exact hg
    · obtain ⟨g', H', h1, h2⟩ := hw.go j u hu
      refine ⟨g', H', ?_, ?_⟩
      · simp only [World.go]
        rw [List.getElem?_set_ne (fun e => hj e.symm)]
        exact h1
      · rw [List.count_append, List.count_singleton, if_neg (by simpa using fun e => hj e.symm), Nat.add_zero]
        exact ⟨h2.len, h2.new, fun c p hc hq => (hm j u c p hj hu hc hq).trans (h2.old c p hc hq), h2.run, h2.log, h2.steps⟩
  · simp only [World.go]
    have := hw.gos j hj
    rw [List.getElem?_eq_none_iff] at *
    rw [List.length_set]
    exact this

theorem count_inv {h : Heap} {ts : List (Io α)} {sched : List Nat} {w : World α} (hw : RaceInv h ts sched w) {i : Nat}
    (hd : ∀ g, w.gos[i]? = some g → ∃ r, g.todo = .done r) : RaceInv h ts (sched ++ [i]) w := by
  refine ⟨hw.len, fun j u hu => ?_, hw.gos, hw.acc, hw.raced⟩
  obtain ⟨g, H, h1, h2⟩ := hw.go j u hu
  refine ⟨g, H, h1, ?_⟩
  by_cases hj : j = i
  · subst hj
    obtain ⟨r, hr⟩ := hd g h1
    refine ⟨h2.len, h2.new, h2.old, h2.run, h2.log, ?_⟩
    have := h2.steps
    rw [hr] at this ⊢
    rw [Io.steps] at this ⊢
    rw [List.count_append]
    omega
  · rw [List.count_append, List.count_singleton, if_neg (by simpa using fun e => hj e.symm), Nat.add_zero]
    exact h2

theorem step_inv {h : Heap} {ts : List (Io α)} (hn : NoConflict h ts) {sched : List Nat} {w : World α} (hw : RaceInv h ts sched w) (i : Nat) :
    RaceInv h ts (sched ++ [i]) (w.step i) := by
  unfold World.step
  cases ht : ts[i]? with
  | none =>
      rw [hw.gos i ht]
      exact count_inv hw fun g hg => by rw [hw.gos i ht] at hg; cases hg
  | some t =>
      obtain ⟨g, H, h1, h2⟩ := hw.go i t ht
      rw [h1]
      dsimp only
      have hl : (w.mem ++ g.new).length = H.length := by rw [List.length_append, hw.len, h2.len]
      obtain ⟨todo, new⟩ := g
      cases todo with
      | done r => exact count_inv hw fun g hg => by rw [h1] at hg; cases hg; exact ⟨r, rfl⟩
      | alloc c k =>
          dsimp only at *
          refine go_inv (mem := w.mem) (H := H ++ [c]) hw ht ⟨?_, fun a => ?_, fun a p ha hq => ?_, ?_, fun x hx => ?_, ?_⟩ hw.len (fun _ _ _ _ _ _ _ _ => .of rfl)
          · simp only [List.length_append, h2.len, List.length_singleton]; omega
          · have hn := h2.new a
            have hL := h2.len
            dsimp only at *
            by_cases ha : a < new.length
            · rw [List.getElem?_append_left ha, List.getElem?_append_left (by omega)]; exact hn
            · rw [List.getElem?_append_right (by omega), List.getElem?_append_right (by omega), hL]
              congr 1
              omega
          · exact (h2.old a p ha hq).congr rfl (List.getElem?_append_left (by rw [h2.len]; omega))
          · rw [hl]; exact h2.run
          · rw [hl] at hx; exact h2.log x hx
          · rw [hl]
            have := h2.steps
            simp only [Io.steps] at this ⊢
            omega
      | read a p k =>
          dsimp only at *
          have hx : (⟨false, a, p⟩ : Access) ∈ t.log h := h2.log _ (by rw [Io.log]; exact List.mem_cons_self)
          have hq : a < h.length → Quiet h ts i a p := fun ha => quiet hn ht hx ha
          have hs := (h2.sees hw.len hq).1.at
          have hw' := access_inv hn hw ht hx
          generalize hW : (if a < w.mem.length then w.access i ⟨false, a, p⟩ else w) = W at hw' ⊢
          have hm : W.mem = w.mem := by subst hW; split <;> rfl
          dsimp only at hs
          rw [hs]
          have r1 := h2.run
          have r2 := h2.log
          have r3 := h2.steps
          dsimp only at r1 r2 r3
          rw [Io.run] at r1
          rw [Io.log] at r2
          rw [Io.steps] at r3
          cases hc : Heap.at H a p with
          | some c =>
              rw [hc] at r1 r2 r3
              dsimp only at *
              refine go_inv (w := W) (mem := W.mem) (H := H) hw' ht ⟨h2.len, h2.new, ?_, r1, fun x hx => r2 x (List.mem_cons_of_mem _ hx), ?_⟩ (hm ▸ hw.len) (fun _ _ _ _ _ _ _ _ => .of rfl)
              · rw [hm]; exact h2.old
              · dsimp only; omega
          | none =>
              rw [hc] at r1 r2 r3
              dsimp only at *
              refine go_inv (w := W) (mem := W.mem) (H := H) hw' ht ⟨h2.len, h2.new, ?_, r1, fun x hx => (by cases hx), ?_⟩ (hm ▸ hw.len) (fun _ _ _ _ _ _ _ _ => .of rfl)
              · rw [hm]; exact h2.old
              · dsimp only [Io.steps]; omega
      | write a u k =>
          dsimp only at *
          have hx : (⟨true, a, u.part⟩ : Access) ∈ t.log h := h2.log _ (by rw [Io.log]; exact List.mem_cons_self)
          have hq : a < h.length → Quiet h ts i a u.part := fun ha => quiet hn ht hx ha
          have hs := h2.sees hw.len hq
          have hw' := access_inv hn hw ht hx
          generalize hW : (if a < w.mem.length then w.access i ⟨true, a, u.part⟩ else w) = W at hw' ⊢
          have hm : W.mem = w.mem := by subst hW; split <;> rfl
          obtain ⟨hs, hs'⟩ := hs
          dsimp only at hs hs'
          have r1 := h2.run
          have r2 := h2.log
          have r3 := h2.steps
          dsimp only at r1 r2 r3
          rw [Io.run] at r1
          rw [Io.log] at r2
          rw [Io.steps] at r3
          cases hc : Heap.own H a u with
          | some d =>
              obtain ⟨c, hc'⟩ := hs.symm.own hc
              rw [hc] at r1 r2 r3
              rw [hc']
              dsimp only at *
              split
              · rename_i ha
                rw [hw'.len] at ha
                refine go_inv (w := W) (mem := W.mem.set a c) (H := H.set a d) hw' ht ⟨?_, fun b => ?_, fun b q hb hqb => ?_, r1, fun x hx => r2 x (List.mem_cons_of_mem _ hx), ?_⟩ ?_ ?_
                · rw [List.length_set]; exact h2.len
                · dsimp only
                  rw [List.getElem?_set_ne (by omega)]; exact h2.new b
                · have h3 : Heap.Agree (w.mem ++ new) H b q := (h2.old b q hb hqb).congr (List.getElem?_append_left (by rw [hw.len]; exact hb)) rfl
                  refine (h3.set hc' hc).congr ?_ rfl
                  rw [hm, List.set_append, if_pos (by rw [hw.len]; exact ha)]
                  exact (List.getElem?_append_left (by rw [List.length_set, hw.len]; exact hb)).symm
                · dsimp only; omega
                · rw [List.length_set]; exact hw'.len
                · intro j v b q hj hv hb hqb
                  have hown : Heap.own W.mem a u = some c := by
                    rw [hm, ← hc']
                    exact own_congr (List.getElem?_append_left (by rw [hw.len]; exact ha)).symm
                  exact Heap.Agree.other hown fun e => hqb i t _ (fun e => hj e.symm) ht hx rfl e
              · rename_i ha
                rw [hw'.len] at ha
                have ecd : c = d := by
                  rw [own_congr (hs' (by omega)), hc] at hc'
                  cases hc'
                  rfl
                subst ecd
                refine go_inv (w := W) (mem := W.mem) (H := H.set a c) hw' ht ⟨?_, fun b => ?_, fun b q hb hqb => ?_, r1, fun x hx => r2 x (List.mem_cons_of_mem _ hx), ?_⟩ hw'.len (fun _ _ _ _ _ _ _ _ => .of rfl)
                · dsimp only; rw [List.length_set, List.length_set]; exact h2.len
                · dsimp only
                  have := h2.new b
                  have hL := h2.len
                  dsimp only at this hL
                  rw [hw'.len, List.getElem?_set, List.getElem?_set, this]
                  by_cases e : a = h.length + b
                  · rw [if_pos (by omega), if_pos e]
                    by_cases e' : a < H.length
                    · rw [if_pos (by omega), if_pos e']
                    · rw [if_neg (by omega), if_neg e']
                  · rw [if_neg (by omega), if_neg e]
                · rw [hm]; exact (h2.old b q hb hqb).congr rfl (List.getElem?_set_ne (by omega))
                · dsimp only; omega
          | none =>
              rw [hc] at r1 r2 r3
              rw [hs.symm.own_none hc]
              dsimp only at *
              refine go_inv (w := W) (mem := W.mem) (H := H) hw' ht ⟨h2.len, h2.new, ?_, r1, fun x hx => (by cases hx), ?_⟩ (hm ▸ hw.len) (fun _ _ _ _ _ _ _ _ => .of rfl)
              · rw [hm]; exact h2.old
              · dsimp only [Io.steps]; omega

theorem run_inv {h : Heap} {ts : List (Io α)} (hn : NoConflict h ts) : ∀ (sched done : List Nat) (w : World α), RaceInv h ts done w →
    RaceInv h ts (done ++ sched) (w.run sched)
  | [], done, w, hw => by rw [List.append_nil]; exact hw
  | i :: sched, done, w, hw => by
      have := run_inv hn sched (done ++ [i]) (w.step i) (step_inv hn hw i)
      rw [List.append_assoc, List.singleton_append] at this
      exact this

theorem undisturbed {h : Heap} {ts : List (Io α)} (hn : NoConflict h ts) : Undisturbed h ts := by
  have hi := fun sched => run_inv hn sched [] _ (start_inv h ts)
  simp only [List.nil_append] at hi
  refine ⟨fun sched => (hi sched).raced, fun i t ht => ⟨fun sched hs => ?_, fun sched r hr => ?_⟩⟩
  · obtain ⟨g, H, h1, h2⟩ := (hi sched).go i t ht
    have h3 := h2.steps
    rw [Nat.sub_eq_zero_of_le hs] at h3
    unfold World.result
    rw [h1]
    obtain ⟨todo, new⟩ := g
    cases todo with
    | done r => cases r <;> rfl
    | _ => simp only [Io.steps] at h3; omega
  · obtain ⟨g, H, h1, h2⟩ := (hi sched).go i t ht
    unfold World.result at hr
    rw [h1] at hr
    obtain ⟨todo, new⟩ := g
    have h3 := h2.run
    have hm := (hi sched).len
    have hl := h2.len
    dsimp only at h3 hl
    cases todo with
    | done q =>
        cases q with
        | ok a =>
            cases hr
            rw [Io.run] at h3
            rw [← h3]
            refine ⟨rfl, by rw [List.length_append, hm, hl], fun c hc => ?_, fun c p hc => ?_⟩
            · exact (h2.sees hm fun hlt j u x hj hu hx hw hcl => absurd (hc j u x hj hu hx hw hcl) (by omega) : _ ∧ _).1.eq
            · exact (h2.sees hm fun hlt j u x hj hu hx hw hcl hp => absurd (hc j u x hj hu hx hw hcl hp) (by omega) : _ ∧ _).1.at
        | panic p => cases hr; rw [Io.run] at h3; rw [← h3]
        | stuck => cases hr; rw [Io.run] at h3; rw [← h3]; trivial
        | more => cases hr; rw [Io.run] at h3; rw [← h3]; trivial
    | _ => cases hr

end Urn.GoLang
