import Verif.GoSliceSpec
import Verif.GoStuck
import Verif.GoWritesAux
import Verif.GoRaceEnd
/-!
# A call whose input has a byte that must not be written to

If a call is done with an input that has a byte that must not be written to, it does not write to this byte.  And if it is stuck, but is
done when it may write to the byte, it writes to it.  If a call does not access a byte, it returns the same whatever this byte is.
-/
set_option autoImplicit false
namespace Urn.GoLang
open Spec

/-- The byte with index `k` of this array must not be written to. -/
def Cell.lock (k : Nat) : Cell → Cell
  | .arr b => .rom k b
  | c => c

/-- The byte with index `k` of the array at `a` must not be written to. -/
def lock (a k : Nat) (h : Heap) : Heap := h.mapIdx fun i c => if i = a then c.lock k else c

theorem lock_get (a k : Nat) (h : Heap) (i : Nat) : (lock a k h)[i]? = h[i]?.map fun c => if i = a then c.lock k else c := by
  unfold lock
  rw [List.getElem?_mapIdx]

theorem lock_len (a k : Nat) (h : Heap) : (lock a k h).length = h.length := by unfold lock; rw [List.length_mapIdx]

theorem lock_ne {a k i : Nat} (h : Heap) (hi : i ≠ a) : (lock a k h)[i]? = h[i]? := by
  rw [lock_get]
  simp [hi]

theorem lock_eq (a k : Nat) (h : Heap) : (lock a k h)[a]? = h[a]?.map (Cell.lock k) := by
  rw [lock_get]
  simp

theorem lock_at (a k : Nat) (h : Heap) (i : Nat) (p : Part) : Heap.at (lock a k h) i p = Heap.at h i p := by
  by_cases e : i = a
  · subst e
    unfold Heap.at
    rw [lock_eq]
    cases h[i]? with
    | none => rfl
    | some c => cases c <;> cases p <;> rfl
  · exact at_congr (lock_ne h e)

theorem lock_set {a k i : Nat} {h : Heap} {c c' : Cell} (hc : c' = if i = a then c.lock k else c) : (lock a k h).set i c' = lock a k (h.set i c) := by
  apply List.ext_getElem?
  intro n
  rw [List.getElem?_set, lock_get, lock_get, List.getElem?_set, lock_len]
  by_cases e : i = n
  · subst e
    rw [if_pos rfl, if_pos rfl]
    split
    · rw [hc]; rfl
    · rfl
  · rw [if_neg e, if_neg e]

theorem lock_append {a k : Nat} {h : Heap} (ha : a < h.length) (c : Cell) : lock a k h ++ [c] = lock a k (h ++ [c]) := by
  apply List.ext_getElem?
  intro n
  rw [lock_get]
  by_cases e : n < h.length
  · rw [List.getElem?_append_left (by rw [lock_len]; exact e), List.getElem?_append_left e, lock_get]
  · rw [List.getElem?_append_right (by rw [lock_len]; omega), List.getElem?_append_right (by omega), lock_len]
    have : n ≠ a := by omega
    simp [this]

theorem lock_hides (a k : Nat) (h : Heap) : Hides (lock a k h) h where
  len := lock_len a k h
  cell i c d hc hd := by
    rw [lock_get, hd] at hc
    cases hc
    dsimp only
    split
    · cases d with
      | arr b => exact .rom k b
      | _ => exact .same _
    · exact .same _

/-- What is stuck when this byte must not be written to, and not otherwise, writes to it. -/
theorem less_write {α : Type} {a k : Nat} (t : Io α) : ∀ h : Heap, a < h.length → t.run (lock a k h) = .stuck → t.run h ≠ .stuck →
    (⟨true, a, .bytes k 1⟩ : Access) ∈ t.log h := by
  induction t with
  | done r => intro h _ hg hh; cases r <;> first | cases hg; done | exact absurd rfl hh
  | read i p t ih =>
      intro h ha hg hh
      simp only [Io.run] at hg hh
      rw [lock_at] at hg
      simp only [Io.log]
      cases hc : Heap.at h i p with
      | none => rw [hc] at hh; exact absurd rfl hh
      | some c =>
          rw [hc] at hg hh
          exact List.mem_cons_of_mem _ (ih c h ha hg hh)
  | write i u t ih =>
      intro h ha hg hh
      simp only [Io.run] at hg hh
      simp only [Io.log]
      cases hc : Heap.own h i u with
      | none => rw [hc] at hh; exact absurd rfl hh
      | some c =>
          rw [hc] at hh
          have key : ∀ c', Heap.own (lock a k h) i u = some c' → c' = (if i = a then c.lock k else c) →
              (⟨true, a, .bytes k 1⟩ : Access) ∈ (⟨true, i, u.part⟩ : Access) :: t.log (h.set i c) := by
            intro c' h1 h2
            rw [h1] at hg
            dsimp only at hg
            rw [lock_set h2] at hg
            exact List.mem_cons_of_mem _ (ih (h.set i c) (by rw [List.length_set]; exact ha) hg hh)
          by_cases e : i = a
          · subst e
            obtain ⟨d, hd, hf⟩ := own_some hc
            have hl : (lock i k h)[i]? = some (d.lock k) := by rw [lock_eq, hd]; rfl
            have ho : Heap.own (lock i k h) i u = (d.lock k).fix u := by unfold Heap.own; rw [hl]
            cases d with
            | arr b =>
                cases u with
                | all v => cases hf
                | field f v => cases hf
                | byte j x =>
                    rw [Cell.fix_byte] at hf
                    simp only [Cell.poke] at hf
                    split at hf
                    case isFalse => cases hf
                    rename_i hj
                    cases hf
                    by_cases e : j = k
                    · subst e
                      exact List.mem_cons_self
                    · refine key (.rom k (b.set j x)) ?_ (by rw [if_pos rfl]; rfl)
                      rw [ho]
                      simp only [Cell.lock, Cell.fix_byte, Cell.poke]
                      rw [if_pos ⟨hj, e⟩]
            | rom j b =>
                have hf' := hf
                rw [show (Cell.rom j b).lock k = .rom j b from rfl, hf] at ho
                refine key c ho ?_
                have := Cell.fix_like hf'
                cases c <;> first | exact this.elim | simp [Cell.lock]
            | obj v =>
                have hf' := hf
                rw [show (Cell.obj v).lock k = .obj v from rfl, hf] at ho
                refine key c ho ?_
                have := Cell.fix_like hf'
                cases c <;> first | exact this.elim | simp [Cell.lock]
            | win lo b =>
                have hf' := hf
                rw [show (Cell.win lo b).lock k = .win lo b from rfl, hf] at ho
                refine key c ho ?_
                have := Cell.fix_like hf'
                cases c <;> first | exact this.elim | simp [Cell.lock]
            | none => cases u <;> cases hf
          · exact key c (by rw [own_congr (lock_ne h e)]; exact hc) (by rw [if_neg e])
  | alloc c t ih =>
      intro h ha hg hh
      simp only [Io.run] at hg hh
      simp only [Io.log]
      rw [lock_len, lock_append ha] at hg
      exact ih h.length (h ++ [c]) (by rw [List.length_append]; omega) hg hh

/-- What does not access what differs returns the same. -/
theorem agree_run {α : Type} (t : Io α) : ∀ (g h h' : Heap) (a : α), t.run h = .ok (a, h') → g.length = h.length →
    (∀ x, x ∈ t.log h → Heap.Agree g h x.cell x.part) → ∃ g', t.run g = .ok (a, g') := by
  induction t with
  | done r =>
      intro g h h' a e _ _
      cases r with
      | ok b => cases e; exact ⟨_, rfl⟩
      | panic p => cases e
      | stuck => cases e
      | more => cases e
  | read i p t ih =>
      intro g h h' a e hl hx
      simp only [Io.run] at e ⊢
      simp only [Io.log] at hx
      rw [(hx _ List.mem_cons_self).at]
      dsimp only
      cases hc : Heap.at h i p with
      | none => rw [hc] at e; cases e
      | some c =>
          rw [hc] at e hx
          exact ih c g h h' a e hl fun x h1 => hx x (List.mem_cons_of_mem _ h1)
  | write i u t ih =>
      intro g h h' a e hl hx
      simp only [Io.run] at e ⊢
      simp only [Io.log] at hx
      cases hc : Heap.own h i u with
      | none => rw [hc] at e; cases e
      | some c =>
          rw [hc] at e hx
          obtain ⟨d, hd⟩ := (hx _ List.mem_cons_self).symm.own hc
          rw [hd]
          exact ih _ _ h' a e (by rw [List.length_set, List.length_set, hl]) fun x h1 => (hx x (List.mem_cons_of_mem _ h1)).set hd hc
  | alloc c t ih =>
      intro g h h' a e hl hx
      simp only [Io.run] at e ⊢
      simp only [Io.log] at hx
      rw [hl]
      refine ih h.length _ _ h' a e (by rw [List.length_append, List.length_append, hl]) fun x h1 => ?_
      by_cases e : x.cell < h.length
      · exact (hx x h1).congr (List.getElem?_append_left (by omega)) (List.getElem?_append_left e)
      · apply Heap.Agree.of
        rw [List.getElem?_append_right (by omega), List.getElem?_append_right (by omega), hl]

section
variable {X : Ext} {h : Heap} {b : Buf} {s : Bytes}

/-- The same memory, but the byte of the slice with index `j` must not be written to. -/
def Buf.guard : Buf → (j : Nat) → Heap → Heap
  | .nil, _, h => h
  | .part a pre _ _, j, h => lock a (pre.length + j) h

theorem Buf.has_guard (hb : b.has h s) (j : Nat) : b.seen (.rom j) (b.guard j h) s := by
  cases b with
  | nil => exact hb
  | part a pre post cap =>
      refine ⟨?_, hb.2⟩
      show (lock a (pre.length + j) h)[a]? = _
      rw [lock_eq, hb.1]
      rfl

theorem Buf.At.lt {j : Nat} {x : Access} (hb : b.has h s) (hx : b.At j x) : x.cell < h.length := by
  cases b with
  | nil => exact hx.elim
  | part a pre post cap =>
      rw [hx.1]
      exact (List.getElem?_eq_some_iff.1 hb.1).1

theorem writes_iff {xs : List ParsingMode} {m : Machine} (hf : X.Fits s) (hm : newMachine (xs.map withParsingMode) = .ok m) (j : Nat) :
    parseWrites X.bits (Seen.rom j).no m s = true ↔ WritesAt xs s j := by
  rw [parseWrites_eq (reachable_new hm) ⟨by have := X.bits_eq; omega, hf⟩]
  unfold touches
  rw [List.any_eq_true]
  constructor
  · rintro ⟨x, h1, h2⟩
    have h2 : x.1 = j := by simpa [Seen.no, Int.ofNat_inj] using h2
    exact ⟨m, x.2, hm, h2 ▸ h1⟩
  · rintro ⟨m', c, h1, h2⟩
    rw [hm] at h1
    cases h1
    exact ⟨_, h2, by simp [Seen.no]⟩

theorem writesAt_upper {xs : List ParsingMode} {j : Nat} (hw : WritesAt xs s j) : UpperEscape s j := by
  obtain ⟨m, c, hm, hw⟩ := hw
  obtain ⟨L, -, h1, h2, -⟩ := C39_writes m (reachable_new hm) s
  rw [h1] at hw
  apply h2
  simp only [List.mem_append, List.mem_map, Prod.mk.injEq] at hw
  rcases hw with ⟨i, hi, rfl, -⟩ | ⟨i, hi, rfl, -⟩ <;> exact hi

theorem writesAt_lt {xs : List ParsingMode} {j : Nat} (hw : WritesAt xs s j) : j < s.length := by
  obtain ⟨c, h, -⟩ := writesAt_upper hw
  exact (List.getElem?_eq_some_iff.1 h).1

theorem guard_ok {xs : List ParsingMode} {j : Nat} (hb : b.seen (.rom j) h s) (hf : X.Fits s) (hw : ¬ WritesAt xs s j) :
    ∃ N, ∀ n, N ≤ n → callParse prog X n (b.val s.length) xs h ≠ .stuck := by
  obtain ⟨r, hr⟩ := C01_parse_returns s (xs.map withParsingMode)
  obtain ⟨h', p, e, -⟩ := pkgParse_seen (X := X) xs hb (fun _ m hm => by
    cases hq : parseWrites X.bits (Seen.rom j).no m s with
    | false => rfl
    | true => exact absurd ((writes_iff hf hm j).1 hq) hw) hf hr (Nat.le_refl _)
  have hd : Does (fun n => callParse prog X n (b.val s.length) xs h) ([.ptr "URN" p, .bool r.ok], h') :=
    Does.bind (g := fun n (r : List Val × Heap) => runFn prog X n "Parse" (b.val s.length :: r.1) false r.2) (does_options xs)
      (does_fn find_pkgParse e)
  obtain ⟨N, hN⟩ := hd
  refine ⟨N, fun n hn e => ?_⟩
  have := hN n hn
  dsimp only at this
  rw [e] at this
  cases this

theorem guard_stuck {xs : List ParsingMode} {j : Nat} (hb : b.seen (.rom j) h s) (hf : X.Fits s) (hw : WritesAt xs s j) :
    ∃ N, ∀ n, N ≤ n → callParse prog X n (b.val s.length) xs h = .stuck := by
  obtain ⟨r, hr⟩ := C01_parse_returns s (xs.map withParsingMode)
  obtain ⟨N, hN⟩ := does_options (X := X) (h := h) xs
  refine ⟨N + (9 * s.length + 75), fun n hn => ?_⟩
  have e := pkgParse_stuck (X := X) (n := n) xs hb (fun m hm => (writes_iff hf hm j).2 hw) hf hr (by omega)
  have e2 := hN n (by omega)
  dsimp only at e2
  unfold callParse
  rw [e2]
  simp only [Res.ok_bind, runFn, find_pkgParse]
  exact e

/-- All accesses are to the slice. -/
theorem parse_owns {P : Prog} (hP : IsProgram files P) {xs : List ParsingMode} (hb : b.has h s) (hf : X.Fits s) : ∃ N, ∀ n, N ≤ n →
    ∀ x, x ∈ (callParseT P X n (b.val s.length) xs).log h → x.cell < h.length → b.Owns s.length x := by
  obtain ⟨K, hK⟩ := parse_always hP X h [(b, s, xs)] (by simp [hb, hf])
  exact ⟨K, fun n hn => (hK n hn).1 (b, s, xs) (by simp)⟩

/-- The text writes to a byte of the slice exactly if the model does. -/
theorem parse_writesAt {P : Prog} (hP : IsProgram files P) {xs : List ParsingMode} (hb : b.has h s) (hf : X.Fits s) (j : Nat) : ∃ N, ∀ n, N ≤ n →
    ((∃ x, x ∈ (callParseT P X n (b.val s.length) xs).log h ∧ x.write = true ∧ b.At j x) ↔ WritesAt xs s j) := by
  cases program_eq hP
  obtain ⟨r, p, k, hr, ⟨N1, hN1⟩, -⟩ := C64_parse hP X h b s hb hf xs
  by_cases hw : WritesAt xs s j
  · obtain ⟨N2, hN2⟩ := guard_stuck (X := X) (Buf.has_guard hb j) hf hw
    refine ⟨N1 + N2, fun n hn => ⟨fun _ => hw, fun _ => ?_⟩⟩
    have e1 := hN1 n (by omega)
    dsimp only at e1
    have e2 := hN2 n (by omega)
    rw [callParse_same] at e1 e2
    cases b with
    | nil =>
        have hs : s = [] := hb
        have := writesAt_lt hw
        rw [hs] at this
        cases this
    | part a pre post cap =>
        cases e3 : (callParseT prog X n ((Buf.part a pre post cap).val s.length) xs).run (lock a (pre.length + j) h) with
        | stuck =>
            have h1 := less_write _ h (List.getElem?_eq_some_iff.1 hb.1).1 e3 (by rw [e1]; intro e; cases e)
            exact ⟨_, h1, rfl, rfl, by decide, by decide, by omega, by omega⟩
        | _ => rw [show (Buf.part a pre post cap).guard j h = lock a (pre.length + j) h from rfl, e3] at e2; cases e2
  · obtain ⟨N2, hN2⟩ := guard_ok (X := X) (Buf.has_guard hb j) hf hw
    refine ⟨N1 + N2, fun n hn => ⟨fun ⟨x, hx, hxw, hj⟩ => ?_, fun h => absurd h hw⟩⟩
    have e2 := hN2 n (by omega)
    rw [callParse_same] at e2
    have hl := hj.lt hb
    cases b with
    | nil => exact hj.elim
    | part a pre post cap =>
        obtain ⟨h1, h2, -⟩ := hides_run (callParseT prog X n ((Buf.part a pre post cap).val s.length) xs) _ h (lock_hides a (pre.length + j) h) e2
        obtain ⟨c, h3, h4⟩ := h2 x (h1 ▸ hx) (by rw [lock_len]; exact hl)
        have hg : (lock a (pre.length + j) h)[x.cell]? = some (.rom (pre.length + j) (pre ++ s ++ post)) := by
          rw [hj.1, lock_eq, hb.1]
          rfl
        rw [hg] at h3
        cases h3
        rw [hxw] at h4
        have hm := hj.2
        cases hp : x.part with
        | all => rw [hp] at h4; exact h4.elim
        | field f => rw [hp] at h4; exact h4.elim
        | bytes i n =>
            rw [hp] at h4 hm
            obtain ⟨-, h5⟩ : _ ∧ (true = true → ¬ (i ≤ pre.length + j ∧ pre.length + j < i + n)) := h4
            obtain ⟨-, -, h6, h7⟩ : 0 < n ∧ 0 < 1 ∧ i < pre.length + j + 1 ∧ pre.length + j < i + n := hm
            exact (h5 rfl ⟨by omega, h7⟩).elim

/-- If the text is accepted, every byte is accessed. -/
theorem parse_accesses {P : Prog} (hP : IsProgram files P) {xs : List ParsingMode} (hb : b.has h s) (hf : X.Fits s) {r : ParseResult}
    (hr : parse s (xs.map withParsingMode) = .ok r) (hu : r.urn ≠ none) {j : Nat} (hj : j < s.length) : ∃ N, ∀ n, N ≤ n →
    ∃ x, x ∈ (callParseT P X n (b.val s.length) xs).log h ∧ b.At j x := by
  cases b with
  | nil => rw [show s = [] from hb] at hj; cases hj
  | part a pre post cap =>
      have ha : a < h.length := (List.getElem?_eq_some_iff.1 hb.1).1
      obtain ⟨r', p, k, hr', ⟨N1, hN1⟩, hp, -⟩ := C64_parse hP X h _ s hb hf xs
      rw [hr] at hr'
      cases hr'
      have hb' : (Buf.part a pre post cap).has (h.set a (.arr (pre ++ s.set j 0 ++ post))) (s.set j 0) :=
        ⟨by rw [List.getElem?_set_self ha], by rw [List.length_set]; exact hb.2⟩
      obtain ⟨r2, p2, k2, hr2, ⟨N2, hN2⟩, hp2, -⟩ := C64_parse hP X _ _ (s.set j 0) hb' (by unfold Ext.Fits; rw [List.length_set]; exact hf) xs
      refine ⟨N1 + N2, fun n hn => Classical.byContradiction fun hno => ?_⟩
      have e1 := hN1 n (by omega)
      have e2 := hN2 n (by omega)
      dsimp only at e1 e2
      rw [callParse_same] at e1 e2
      rw [List.length_set] at e2
      obtain ⟨t, ht⟩ : ∃ t, t = callParseT P X n ((Buf.part a pre post cap).val s.length) xs := ⟨_, rfl⟩
      rw [← ht] at e1 e2 hno
      cases e3 : t.run h with
      | ok y =>
          rw [e3] at e1
          obtain ⟨g, hg⟩ := agree_run t (h.set a (.arr (pre ++ s.set j 0 ++ post))) h _ _ e3 (by rw [List.length_set]) fun x hx => by
            by_cases e : x.cell = a
            · have hm : ¬ x.part.Meets (.bytes (pre.length + j) 1) := fun hm => hno ⟨x, hx, e, hm⟩
              rw [e]
              unfold Heap.Agree
              rw [List.getElem?_set_self ha, hb.1]
              have hset : pre ++ s.set j 0 ++ post = (pre ++ s ++ post).set (pre.length + j) 0 := by
                rw [List.append_assoc, List.append_assoc, List.set_append, if_neg (by omega), Nat.add_sub_cancel_left, List.set_append, if_pos hj]
              rw [hset]
              cases hp : x.part with
              | all => rw [hp] at hm; exact absurd trivial hm
              | field f => rfl
              | bytes i m =>
                  rw [hp] at hm
                  refine ⟨by simp [Cell.Like], cut_set_ne fun hi => hm ?_⟩
                  exact ⟨by omega, by decide, by omega, by omega⟩
            · exact .of (List.getElem?_set_ne (fun h => e h.symm))
          rw [hg] at e2
          cases e1
          have ep : p = p2 := by injection e2 with e2; simp at e2; exact e2.1.1
          subst ep
          have : r2.urn ≠ none := by
            intro e
            rw [e] at hp2
            cases hru : r.urn with
            | none => exact hu hru
            | some o =>
                rw [hru] at hp
                obtain ⟨a, v, h1, -⟩ := hp
                rw [show p = none from hp2] at h1
                cases h1
          obtain ⟨m, hm, -⟩ := newMachine_ok (xs.map withParsingMode)
          obtain ⟨p', hp', -⟩ := parse_alone (reachable_new hm) (s.set j 0)
          have hpu : p'.urn = r2.urn := by
            simp only [parse, hm, Run.ok_bind, hp'] at hr2
            split at hr2 <;> cases hr2 <;> simp_all
          have := (C34_printable_any m (reachable_new hm) _ p' hp' (by rw [hpu]; exact this) 0 (List.mem_set hj 0)).1
          exact absurd this (by decide)
      | panic p => rw [e3] at e1; cases e1
      | stuck => rw [e3] at e1; cases e1
      | more => rw [e3] at e1; cases e1

/-- The accesses of a call. -/
theorem parse_accs {P : Prog} (hP : IsProgram files P) {xs : List ParsingMode} (hb : b.has h s) (hf : X.Fits s) : ∃ N, ∀ n, N ≤ n →
    (∀ x, x ∈ (callParseT P X n (b.val s.length) xs).log h → x.cell < h.length → b.Owns s.length x) ∧
    (∀ j, (∃ x, x ∈ (callParseT P X n (b.val s.length) xs).log h ∧ x.write = true ∧ b.At j x) ↔ WritesAt xs s j) ∧
    ∀ r, parse s (xs.map withParsingMode) = .ok r → r.urn ≠ none → ∀ j, j < s.length → ∃ x, x ∈ (callParseT P X n (b.val s.length) xs).log h ∧ b.At j x := by
  obtain ⟨N1, h1⟩ := parse_owns hP (xs := xs) hb hf
  obtain ⟨N2, h2⟩ := bound_all (List.range s.length) _ fun j _ => parse_writesAt hP (xs := xs) hb hf j
  obtain ⟨r, hr⟩ := C01_parse_returns s (xs.map withParsingMode)
  have h3 : ∃ N, ∀ n, N ≤ n → r.urn ≠ none → ∀ j ∈ List.range s.length, ∃ x, x ∈ (callParseT P X n (b.val s.length) xs).log h ∧ b.At j x := by
    by_cases hu : r.urn = none
    · exact ⟨0, fun n _ h => absurd hu h⟩
    · obtain ⟨N, hN⟩ := bound_all (List.range s.length) _ fun j hj => parse_accesses hP hb hf hr hu (List.mem_range.1 hj)
      exact ⟨N, fun n hn _ => hN n hn⟩
  obtain ⟨N3, h3⟩ := h3
  refine ⟨N1 + N2 + N3, fun n hn => ⟨h1 n (by omega), fun j => ?_, fun r' hr' hu j hj => ?_⟩⟩
  · by_cases hj : j < s.length
    · exact h2 n (by omega) j (List.mem_range.2 hj)
    · refine ⟨fun ⟨x, hx, _, hxj⟩ => ?_, fun hw => absurd (writesAt_lt hw) hj⟩
      have ho := h1 n (by omega) x hx (hxj.lt hb)
      cases b with
      | nil => exact hxj.elim
      | part a pre post cap =>
          obtain ⟨-, i, k, h4, h5, h6⟩ := ho
          have hm := hxj.2
          rw [h4] at hm
          obtain ⟨-, -, h7, h8⟩ : 0 < k ∧ 0 < 1 ∧ i < pre.length + j + 1 ∧ pre.length + j < i + k := hm
          omega
  · rw [hr] at hr'
    cases hr'
    exact h3 n (by omega) hu j (List.mem_range.2 hj)

end

/-- An access to both slices is to a byte of both. -/
theorem Buf.Owns.common {b c : Buf} {m n : Nat} {x : Access} (hx : b.Owns m x) (hc : c.Touches n x) : ∃ k, b.At k x ∧ c.Holds n b k := by
  cases b with
  | nil => exact hx.elim
  | part a pre post cap =>
      cases c with
      | nil => exact hc.elim
      | part a' pre' post' cap' =>
          obtain ⟨h1, i, l, h2, h3, h4⟩ := hx
          obtain ⟨h5, h6⟩ := hc
          rw [h2] at h6
          obtain ⟨e1, e2, e3, e4⟩ : 0 < l ∧ 0 < n ∧ i < pre'.length + n ∧ pre'.length < i + l := h6
          refine ⟨max i pre'.length - pre.length, ⟨h1, ?_⟩, h5.symm.trans h1, by omega, by omega⟩
          rw [h2]
          exact ⟨e1, by decide, by omega, by omega⟩

theorem Buf.Owns.conflict {b c : Buf} {m n : Nat} {x y : Access} (hx : b.Owns m x) (hy : c.Owns n y) (hc : x.Conflict y) : c.Touches n x := by
  cases b with
  | nil => exact hx.elim
  | part a pre post cap =>
      cases c with
      | nil => exact hy.elim
      | part a' pre' post' cap' =>
          obtain ⟨h1, i, k, h2, h3, h4⟩ := hx
          obtain ⟨h5, j, l, h6, h7, h8⟩ := hy
          obtain ⟨h9, h10, -⟩ := hc
          rw [h2, h6] at h10
          obtain ⟨e1, e2, e3, e4⟩ : 0 < k ∧ 0 < l ∧ i < j + l ∧ j < i + k := h10
          refine ⟨h9.trans h5, ?_⟩
          rw [h2]
          exact ⟨e1, by omega, by omega, by omega⟩

/-- Accesses to the same byte. -/
theorem Buf.At.meets {b c : Buf} {n k : Nat} {x : Access} (hx : b.At k x) (hc : c.Holds n b k) :
    ∃ j, j < n ∧ ∀ y, c.At j y → x.cell = y.cell ∧ x.part.Meets y.part := by
  cases b with
  | nil => exact hx.elim
  | part a pre post cap =>
      cases c with
      | nil => exact hc.elim
      | part a' pre' post' cap' =>
          obtain ⟨h1, h2⟩ := hx
          obtain ⟨rfl, h3, h4⟩ : a' = a ∧ pre'.length ≤ pre.length + k ∧ pre.length + k < pre'.length + n := hc
          refine ⟨pre.length + k - pre'.length, by omega, fun y ⟨h5, h6⟩ => ⟨h1.trans h5.symm, ?_⟩⟩
          cases hp : x.part with
          | all => cases y.part <;> trivial
          | field f => rw [hp] at h2; exact h2.elim
          | bytes i l =>
              cases hq : y.part with
              | all => trivial
              | field f => rw [hq] at h6; exact h6.elim
              | bytes i' l' =>
                  rw [hp] at h2
                  rw [hq] at h6
                  obtain ⟨e1, -, e2, e3⟩ : 0 < l ∧ 0 < 1 ∧ i < pre.length + k + 1 ∧ pre.length + k < i + l := h2
                  obtain ⟨e4, -, e5, e6⟩ : 0 < l' ∧ 0 < 1 ∧ i' < pre'.length + (pre.length + k - pre'.length) + 1 ∧
                    pre'.length + (pre.length + k - pre'.length) < i' + l' := h6
                  exact ⟨e1, e4, by omega, by omega⟩

end Urn.GoLang
