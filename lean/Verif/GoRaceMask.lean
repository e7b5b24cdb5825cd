import Verif.GoRaceAux
import Verif.GoClientSim
/-!
# What a call does not need, it does not access

The theorems about the text of the package hold for all memories.  So they hold for a memory in which all but the arguments is
replaced by cells that a program must not use.
-/
set_option autoImplicit false
namespace Urn.GoLang

/-- What a program may do with it: read or write this part. -/
def Cell.may : Cell → (write : Bool) → Part → Prop
  | .obj _, _, .all | .obj _, _, .field _ => True
  | .arr b, _, .bytes i n => i + n ≤ b.length
  | .rom j b, w, .bytes i n => i + n ≤ b.length ∧ (w = true → ¬ (i ≤ j ∧ j < i + n))
  | .win lo b, _, .bytes i n => lo ≤ i ∧ i + n ≤ lo + b.length
  | _, _, _ => False

theorem Cell.may_like {c d : Cell} {w : Bool} {p : Part} (h : c.Like d) (hm : c.may w p) : d.may w p := by
  cases c <;> cases d <;> first | exact h.elim | skip
  all_goals cases p <;> cases w <;> simp_all [Cell.may, Cell.Like]

theorem cut_some {b : Bytes} {i n : Nat} {x : Bytes} (h : cutBytes b i n = some x) : i + n ≤ b.length := by
  unfold cutBytes at h
  split at h
  · assumption
  · cases h

theorem Cell.may_see {c x : Cell} {p : Part} (h : c.see p = some x) : c.may false p := by
  cases p with
  | all => cases c <;> first | trivial | cases h
  | field f => rw [Cell.see_field] at h; cases c <;> first | trivial | cases h
  | bytes i n =>
      rw [Cell.see_bytes] at h
      cases hc : c.cut i n with
      | none => rw [hc] at h; cases h
      | some l =>
          cases c with
          | arr b => exact cut_some hc
          | rom j b => exact ⟨cut_some hc, fun e => by cases e⟩
          | win lo b =>
              simp only [Cell.cut] at hc
              split at hc
              · have := cut_some hc
                exact ⟨by assumption, by omega⟩
              · cases hc
          | _ => cases hc

theorem Cell.may_fix {c x : Cell} {u : Upd} (h : c.fix u = some x) : c.may true u.part := by
  cases u with
  | all v => cases c <;> first | trivial | cases h
  | field f v =>
      obtain ⟨_, _, _, _, rfl, -, -, -⟩ := Cell.fix_field h
      trivial
  | byte i y =>
      rw [Cell.fix_byte] at h
      cases c with
      | arr b =>
          simp only [Cell.poke] at h
          split at h
          · show i + 1 ≤ b.length; omega
          · cases h
      | rom j b =>
          simp only [Cell.poke] at h
          split at h
          · exact ⟨show i + 1 ≤ b.length by omega, fun _ => by omega⟩
          · cases h
      | win lo b =>
          simp only [Cell.poke] at h
          split at h
          · show lo ≤ i ∧ i + 1 ≤ lo + b.length; omega
          · cases h
      | _ => cases h

/-- The same, but the program may do less with it. -/
inductive Cell.Under : Cell → Cell → Prop
  | same (c : Cell) : Cell.Under c c
  | none (c : Cell) : Cell.Under .none c
  | rom (j : Nat) (b : Bytes) : Cell.Under (.rom j b) (.arr b)
  | win (pre b post : Bytes) : Cell.Under (.win pre.length b) (.arr (pre ++ b ++ post))

theorem Cell.Under.see {c d x : Cell} {p : Part} (h : c.Under d) (hc : c.see p = some x) : d.see p = some x := by
  cases h with
  | same => exact hc
  | none => cases p <;> cases hc
  | rom j b => cases p <;> first | cases hc; done | exact hc
  | win pre b post =>
      cases p with
      | all => cases hc
      | field f => cases hc
      | bytes i n =>
          obtain ⟨h1, h2⟩ : pre.length ≤ i ∧ i + n ≤ pre.length + b.length := Cell.may_see hc
          obtain ⟨j, rfl⟩ : ∃ j, i = pre.length + j := ⟨i - pre.length, by omega⟩
          rw [Cell.see_bytes] at hc ⊢
          have e1 := cut_cellOf (w := .win) (pre := pre) (d := b) (post := post) (i := j) (n := n) (by omega)
          have e2 := cut_cellOf (w := .all) (pre := pre) (d := b) (post := post) (i := j) (n := n) (by omega)
          simp only [cellOf] at e1 e2
          rw [e1] at hc
          rw [e2]
          exact hc

theorem Cell.Under.fix {c d c' : Cell} {u : Upd} (h : c.Under d) (hc : c.fix u = some c') : ∃ d', d.fix u = some d' ∧ c'.Under d' := by
  cases h with
  | same => exact ⟨c', hc, .same c'⟩
  | none => cases u <;> cases hc
  | rom j b =>
      cases u with
      | all v => cases hc
      | field f v => cases hc
      | byte i x =>
          rw [Cell.fix_byte] at hc ⊢
          simp only [Cell.poke] at hc ⊢
          split at hc
          · rename_i hi
            cases hc
            rw [if_pos hi.1]
            exact ⟨_, rfl, .rom _ _⟩
          · cases hc
  | win pre b post =>
      cases u with
      | all v => cases hc
      | field f v => cases hc
      | byte i x =>
          rw [Cell.fix_byte] at hc ⊢
          simp only [Cell.poke] at hc ⊢
          split at hc
          · cases hc
            obtain ⟨j, rfl⟩ : ∃ j, i = pre.length + j := ⟨i - pre.length, by omega⟩
            rw [if_pos (by simp only [List.length_append]; omega)]
            refine ⟨_, rfl, ?_⟩
            rw [Nat.add_sub_cancel_left, List.append_assoc, List.set_append, if_neg (by omega), Nat.add_sub_cancel_left, List.set_append, if_pos (by omega),
              ← List.append_assoc]
            exact .win _ _ _
          · cases hc

/-- `g` is `h`, but in `g` a program may use less. -/
structure Hides (g h : Heap) : Prop where
  len : g.length = h.length
  cell : ∀ (a : Nat) (c d : Cell), g[a]? = some c → h[a]? = some d → c.Under d

theorem Hides.get {g h : Heap} (hh : Hides g h) {a : Nat} {c : Cell} (hc : g[a]? = some c) : ∃ d, h[a]? = some d ∧ c.Under d := by
  have := (List.getElem?_eq_some_iff.1 hc).1
  have e : h[a]? = some (h[a]'(hh.len ▸ this)) := List.getElem?_eq_getElem _
  exact ⟨_, e, hh.cell a c _ hc e⟩

theorem Hides.at {g h : Heap} (hh : Hides g h) {a : Nat} {p : Part} {c : Cell} (hc : Heap.at g a p = some c) : Heap.at h a p = some c := by
  obtain ⟨d, h1, h2⟩ := at_some hc
  obtain ⟨e, h3, h4⟩ := hh.get h1
  unfold Heap.at
  rw [h3]
  exact h4.see h2

theorem Hides.own {g h : Heap} (hh : Hides g h) {a : Nat} {u : Upd} {c : Cell} (hc : Heap.own g a u = some c) : ∃ d, Heap.own h a u = some d ∧ Hides (g.set a c) (h.set a d) := by
  obtain ⟨d, h1, h2⟩ := own_some hc
  obtain ⟨e, h3, h4⟩ := hh.get h1
  obtain ⟨f, h5, h6⟩ := h4.fix h2
  refine ⟨f, by unfold Heap.own; rw [h3]; exact h5, by rw [List.length_set, List.length_set, hh.len], fun b x y hx hy => ?_⟩
  by_cases e : a = b
  · subst e
    rw [List.getElem?_set_self (own_lt hc)] at hx
    rw [List.getElem?_set_self (by rw [← hh.len]; exact own_lt hc)] at hy
    cases hx; cases hy
    exact h6
  · rw [List.getElem?_set_ne e] at hx hy
    exact hh.cell b x y hx hy

theorem Hides.append {g h : Heap} (hh : Hides g h) (c : Cell) : Hides (g ++ [c]) (h ++ [c]) where
  len := by rw [List.length_append, List.length_append, hh.len]
  cell b x y hx hy := by
    by_cases e : b < h.length
    · rw [List.getElem?_append_left (by rw [hh.len]; exact e)] at hx
      rw [List.getElem?_append_left e] at hy
      exact hh.cell b x y hx hy
    · rw [List.getElem?_append_right (by rw [hh.len]; omega), hh.len] at hx
      rw [List.getElem?_append_right (by omega), hx] at hy
      cases hy
      exact .same _

/-- What a program may do there. -/
def Heap.may (h : Heap) (x : Access) : Prop := ∃ c, h[x.cell]? = some c ∧ c.may x.write x.part

/-- What is done in `g` accesses only what may be used in `g`. -/
theorem hides_run {α : Type} (t : Io α) : ∀ (g h : Heap), Hides g h → t.run g ≠ .stuck →
    t.log g = t.log h ∧ (∀ x, x ∈ t.log g → x.cell < g.length → Heap.may g x) ∧
    match t.run g with
    | .ok (a, g') => ∃ h', t.run h = .ok (a, h') ∧ Hides g' h'
    | .panic p => t.run h = .panic p
    | .stuck => False
    | .more => t.run h = .more := by
  induction t with
  | done r =>
      intro g h hh hr
      refine ⟨rfl, fun x hx => (by cases hx), ?_⟩
      cases r with
      | ok a => exact ⟨h, rfl, hh⟩
      | panic p => rfl
      | stuck => exact hr rfl
      | more => rfl
  | read a p k ih =>
      intro g h hh hr
      rw [Io.run] at hr
      simp only [Io.log, Io.run]
      cases hc : Heap.at g a p with
      | none => rw [hc] at hr; exact absurd rfl hr
      | some c =>
          rw [hc] at hr
          rw [hh.at hc]
          obtain ⟨h1, h2, h3⟩ := ih c g h hh hr
          refine ⟨congrArg _ h1, fun x hx hl => ?_, h3⟩
          rcases List.mem_cons.1 hx with rfl | hx
          · obtain ⟨d, h4, h5⟩ := at_some hc
            exact ⟨d, h4, Cell.may_see h5⟩
          · exact h2 x hx hl
  | write a u k ih =>
      intro g h hh hr
      rw [Io.run] at hr
      simp only [Io.log, Io.run]
      cases hc : Heap.own g a u with
      | none => rw [hc] at hr; exact absurd rfl hr
      | some c =>
          rw [hc] at hr
          obtain ⟨d, hd, hs⟩ := hh.own hc
          rw [hd]
          obtain ⟨h1, h2, h3⟩ := ih (g.set a c) (h.set a d) hs hr
          refine ⟨congrArg _ h1, fun x hx hl => ?_, h3⟩
          obtain ⟨e, h4, h5⟩ := own_some hc
          rcases List.mem_cons.1 hx with rfl | hx
          · exact ⟨e, h4, Cell.may_fix h5⟩
          · obtain ⟨f, h6, h7⟩ := h2 x hx (by rw [List.length_set]; exact hl)
            by_cases e' : a = x.cell
            · subst e'
              rw [List.getElem?_set_self (own_lt hc)] at h6
              cases h6
              exact ⟨e, h4, Cell.may_like (Cell.fix_like h5).symm h7⟩
            · rw [List.getElem?_set_ne e'] at h6
              exact ⟨f, h6, h7⟩
  | alloc c k ih =>
      intro g h hh hr
      rw [Io.run] at hr
      simp only [Io.log, Io.run]
      obtain ⟨h1, h2, h3⟩ := ih g.length (g ++ [c]) (h ++ [c]) (hh.append c) hr
      rw [hh.len] at h1 h2 h3
      rw [hh.len]
      refine ⟨h1, fun x hx hl => ?_, h3⟩
      rw [← hh.len] at hl
      obtain ⟨f, h6, h7⟩ := h2 x hx (by rw [List.length_append]; omega)
      rw [List.getElem?_append_left hl] at h6
      exact ⟨f, h6, h7⟩

/-- Only the cells in `S` may be used. -/
def mask (S : Nat → Bool) (h : Heap) : Heap := h.mapIdx fun a c => if S a then c else .none

theorem mask_get (S : Nat → Bool) (h : Heap) (a : Nat) : (mask S h)[a]? = h[a]?.map fun c => if S a then c else .none := by
  unfold mask
  rw [List.getElem?_mapIdx]

theorem mask_len (S : Nat → Bool) (h : Heap) : (mask S h).length = h.length := by unfold mask; rw [List.length_mapIdx]

theorem mask_in {S : Nat → Bool} (h : Heap) {a : Nat} (ha : S a = true) : (mask S h)[a]? = h[a]? := by
  rw [mask_get, ha]
  cases h[a]? <;> rfl

theorem mask_hides (S : Nat → Bool) (h : Heap) : Hides (mask S h) h where
  len := mask_len S h
  cell a c d hc hd := by
    rw [mask_get, hd] at hc
    cases hc
    cases S a with
    | true => exact .same d
    | false => exact .none d

/-- A call that is done with the cells in `S` accesses no other cells. -/
theorem mask_log {α : Type} {t : Io α} {S : Nat → Bool} {h : Heap} (hr : t.run (mask S h) ≠ .stuck) :
    ∀ x, x ∈ t.log h → x.cell < h.length → S x.cell = true := by
  intro x hx hl
  obtain ⟨h1, h2, -⟩ := hides_run t _ h (mask_hides S h) hr
  obtain ⟨c, h3, h4⟩ := h2 x (h1 ▸ hx) (by rw [mask_len]; exact hl)
  cases hs : S x.cell with
  | true => rfl
  | false =>
      rw [mask_get, hs, List.getElem?_eq_getElem hl] at h3
      cases h3
      cases x.write <;> cases x.part <;> exact h4.elim

end Urn.GoLang
