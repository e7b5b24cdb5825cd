import Verif.GoRace
/-!
# Parts of memory

What a write changes and what it leaves as it is.
-/
set_option autoImplicit false
namespace Urn.GoLang

theorem Part.Meets.symm {p q : Part} (h : p.Meets q) : q.Meets p := by
  cases p <;> cases q <;> first | trivial | exact h.elim | exact Eq.symm h | exact ⟨h.2.1, h.1, h.2.2.2, h.2.2.1⟩

theorem meets_all (p : Part) : p.Meets .all := by cases p <;> trivial

/-- The same kind of thing, of the same size. -/
def Cell.Like : Cell → Cell → Prop
  | .obj _, .obj _ => True
  | .arr b, .arr d => b.length = d.length
  | .rom j b, .rom k d => j = k ∧ b.length = d.length
  | .win lo b, .win lo' d => lo = lo' ∧ b.length = d.length
  | .none, .none => True
  | _, _ => False

theorem Cell.Like.refl (c : Cell) : c.Like c := by cases c <;> simp [Cell.Like]
theorem Cell.Like.symm {c d : Cell} (h : c.Like d) : d.Like c := by
  cases c <;> cases d <;> simp_all [Cell.Like]
theorem Cell.Like.trans {c d e : Cell} (h : c.Like d) (h' : d.Like e) : c.Like e := by
  cases c <;> cases d <;> first | exact h.elim | skip
  all_goals cases e <;> first | exact h'.elim | simp_all [Cell.Like]

/-- A field of a struct. -/
def Cell.got : Cell → String → Option Val
  | .obj (.struct _ fs), f => get f fs
  | _, _ => Option.none

/-- The same in this part. -/
def Cell.Agree (p : Part) (c d : Cell) : Prop := match p with
  | .all => c = d
  | .field f => c.got f = d.got f
  | .bytes i n => c.Like d ∧ c.cut i n = d.cut i n

theorem Cell.Agree.refl (p : Part) (c : Cell) : c.Agree p c := by cases p <;> first | rfl | exact ⟨.refl c, rfl⟩
theorem Cell.Agree.symm {p : Part} {c d : Cell} (h : c.Agree p d) : d.Agree p c := by cases p <;> first | exact Eq.symm h | exact ⟨h.1.symm, h.2.symm⟩
theorem Cell.Agree.trans {p : Part} {c d e : Cell} (h : c.Agree p d) (h' : d.Agree p e) : c.Agree p e := by
  cases p <;> first | exact Eq.trans h h' | exact ⟨h.1.trans h'.1, h.2.trans h'.2⟩

theorem Cell.see_bytes (c : Cell) (i n : Nat) : c.see (.bytes i n) = (c.cut i n).map .arr := by
  cases c with
  | obj v => cases v <;> rfl
  | _ => rfl
theorem Cell.see_field (c : Cell) (f : String) : c.see (.field f) = (c.got f).map .obj := by
  cases c with
  | obj v => cases v <;> rfl
  | _ => rfl
theorem Cell.fix_byte (c : Cell) (i : Nat) (x : UInt8) : c.fix (.byte i x) = c.poke i x := by
  cases c with
  | obj v => cases v <;> rfl
  | _ => rfl

theorem Cell.Agree.see {p : Part} {c d : Cell} (h : c.Agree p d) : c.see p = d.see p := by
  cases p with
  | all => exact congrArg (·.see .all) (show c = d from h)
  | field f => rw [Cell.see_field, Cell.see_field, show c.got f = d.got f from h]
  | bytes i n => rw [Cell.see_bytes, Cell.see_bytes, h.2]

theorem set_some : ∀ {fs : Env} {f : String} {old v : Val}, get f fs = some old → ∃ fs', set f v fs = some fs'
  | [], _, _, _, h => by cases h
  | (x, w) :: fs, f, old, v, h => by
      rw [get] at h
      rw [set]
      split at h
      · rename_i e
        rw [if_pos e]
        exact ⟨_, rfl⟩
      · rename_i e
        rw [if_neg e]
        obtain ⟨fs', h1⟩ := set_some (v := v) h
        rw [h1]
        exact ⟨_, rfl⟩

theorem get_set : ∀ {fs fs' : Env} {f : String} {v : Val} (g : String), set f v fs = some fs' → get g fs' = if g = f then some v else get g fs
  | [], _, _, _, _, h => by cases h
  | (x, w) :: fs, fs', f, v, g, h => by
      rw [set] at h
      split at h
      · rename_i e
        cases h
        subst e
        rw [get, get]
        split <;> rename_i e'
        · rw [if_pos e'.symm]
        · rw [if_neg (Ne.symm e')]
      · rename_i e
        cases h1 : set f v fs with
        | none => rw [h1] at h; cases h
        | some fs1 =>
            rw [h1] at h
            cases h
            rw [get, get, get_set g h1]
            split
            · rename_i e'
              subst e'
              rw [if_neg e]
            · rfl

/-- What an assignment to a field does. -/
theorem Cell.fix_field {c c' : Cell} {f : String} {v : Val} (h : c.fix (.field f v) = some c') :
    ∃ t fs old fs', c = .obj (.struct t fs) ∧ get f fs = some old ∧ set f (coerce old v) fs = some fs' ∧ c' = .obj (.struct t fs') := by
  cases c with
  | obj w =>
      cases w with
      | struct t fs =>
          simp only [Cell.fix] at h
          cases h1 : get f fs with
          | none => rw [h1] at h; cases h
          | some old =>
              rw [h1] at h
              dsimp only at h
              cases h2 : set f (coerce old v) fs with
              | none => rw [h2] at h; cases h
              | some fs' => rw [h2] at h; cases h; exact ⟨t, fs, old, fs', rfl, h1, h2, rfl⟩
      | _ => cases h
  | _ => cases h

theorem Cell.fix_got {c : Cell} {f : String} {v old : Val} (h : c.got f = some old) : ∃ c', c.fix (.field f v) = some c' := by
  cases c with
  | obj w =>
      cases w with
      | struct t fs =>
          have h : get f fs = some old := h
          obtain ⟨fs', h1⟩ := set_some (v := coerce old v) h
          exact ⟨.obj (.struct t fs'), by simp only [Cell.fix, h, h1, Option.map_some]⟩
      | _ => cases h
  | _ => cases h

/-- What an assignment to a field does to the fields. -/
theorem Cell.got_fix {c c' : Cell} {f : String} {v : Val} (h : c.fix (.field f v) = some c') (g : String) :
    c'.got g = if g = f then (c.got f).map (coerce · v) else c.got g := by
  obtain ⟨t, fs, old, fs', rfl, h1, h2, rfl⟩ := Cell.fix_field h
  show get g fs' = if g = f then (get f fs).map _ else get g fs
  rw [get_set g h2, h1]
  rfl

theorem cut_set (b : Bytes) (k : Nat) (x : UInt8) (i n : Nat) :
    cutBytes (b.set k x) i n = (cutBytes b i n).map fun l => if i ≤ k then l.set (k - i) x else l := by
  unfold cutBytes
  rw [List.length_set]
  split
  · rw [List.drop_set]
    by_cases h : k < i
    · rw [if_pos h, Option.map_some, if_neg (by omega)]
    · rw [if_neg h, Option.map_some, if_pos (by omega), List.take_set]
  · rfl

theorem cut_set_ne {b : Bytes} {k : Nat} {x : UInt8} {i n : Nat} (h : ¬ (i ≤ k ∧ k < i + n)) : cutBytes (b.set k x) i n = cutBytes b i n := by
  rw [cut_set]
  by_cases h1 : i ≤ k
  · simp only [if_pos h1]
    unfold cutBytes
    split
    · rw [Option.map_some, List.set_eq_of_length_le (by rw [List.length_take, List.length_drop]; omega)]
    · rfl
  · have : (fun l : Bytes => if i ≤ k then l.set (k - i) x else l) = id := by funext l; rw [if_neg h1]; rfl
    rw [this, Option.map_id]
    rfl

/-- What can be written to one can be written to the other. -/
theorem Cell.Agree.fix_some {c d c' : Cell} {u : Upd} (h : c.Agree u.part d) (hc : c.fix u = some c') : ∃ d', d.fix u = some d' := by
  cases u with
  | all v => exact ⟨c', (show c = d from h) ▸ hc⟩
  | field f v =>
      obtain ⟨t, fs, old, fs', rfl, h1, h2, rfl⟩ := Cell.fix_field hc
      exact Cell.fix_got ((show _ = d.got f from h).symm.trans h1)
  | byte i x =>
      obtain ⟨h, -⟩ := h
      rw [Cell.fix_byte] at hc ⊢
      cases c <;> cases d <;> first | exact h.elim | cases hc; done | skip
      · simp only [Cell.poke] at hc ⊢
        split at hc
        · rename_i hi
          cases hc
          have h : _ = _ := h
          rw [if_pos (by omega)]
          exact ⟨_, rfl⟩
        · cases hc
      all_goals
        simp only [Cell.poke] at hc ⊢
        split at hc
        · rename_i hi
          cases hc
          obtain ⟨rfl, h⟩ := h
          rw [if_pos (by omega)]
          exact ⟨_, rfl⟩
        · cases hc

theorem Cell.fix_like {c c' : Cell} {u : Upd} (hc : c.fix u = some c') : c.Like c' := by
  cases u with
  | all v => cases c <;> cases hc; trivial
  | field f v =>
      obtain ⟨t, fs, old, fs', rfl, h1, h2, rfl⟩ := Cell.fix_field hc
      trivial
  | byte i x =>
      rw [Cell.fix_byte] at hc
      cases c <;> first | cases hc; done | skip
      all_goals
        simp only [Cell.poke] at hc
        split at hc
        · cases hc; simp [Cell.Like]
        · cases hc

/-- The same write keeps things the same. -/
theorem Cell.Agree.fix {p : Part} {c d c' d' : Cell} {u : Upd} (h : c.Agree p d) (hc : c.fix u = some c') (hd : d.fix u = some d') : c'.Agree p d' := by
  cases p with
  | all =>
      have : c = d := h
      subst this
      rw [hc] at hd
      cases hd
      rfl
  | field g =>
      have h : c.got g = d.got g := h
      show c'.got g = d'.got g
      cases u with
      | all v =>
          cases c <;> cases hc
          cases d <;> cases hd
          rfl
      | field f v =>
          rw [Cell.got_fix hc, Cell.got_fix hd]
          split
          · rename_i e; subst e; rw [h]
          · exact h
      | byte k x =>
          rw [Cell.fix_byte] at hc hd
          have key : ∀ {c c' : Cell}, c.poke k x = some c' → c'.got g = Option.none := by
            intro c c' hc
            cases c <;> first | cases hc; done | skip
            all_goals
              simp only [Cell.poke] at hc
              split at hc
              · cases hc; rfl
              · cases hc
          rw [key hc, key hd]
  | bytes i n =>
      obtain ⟨h4, h3⟩ := h
      refine ⟨(Cell.fix_like hc).symm.trans (h4.trans (Cell.fix_like hd)), ?_⟩
      cases u with
      | all v =>
          cases c <;> cases hc
          cases d <;> cases hd
          rfl
      | field f v =>
          obtain ⟨_, _, _, _, rfl, -, -, rfl⟩ := Cell.fix_field hc
          obtain ⟨_, _, _, _, rfl, -, -, rfl⟩ := Cell.fix_field hd
          rfl
      | byte k x =>
          rw [Cell.fix_byte] at hc hd
          cases c <;> cases d <;> first | exact h4.elim | cases hc; done | skip
          · simp only [Cell.poke] at hc hd
            split at hc
            · split at hd
              · cases hc; cases hd
                show cutBytes _ i n = cutBytes _ i n
                rw [cut_set, cut_set]
                exact congrArg _ h3
              · cases hd
            · cases hc
          · simp only [Cell.poke] at hc hd
            split at hc
            · split at hd
              · cases hc; cases hd
                show cutBytes _ i n = cutBytes _ i n
                rw [cut_set, cut_set]
                exact congrArg _ h3
              · cases hd
            · cases hc
          · obtain ⟨rfl, h5⟩ := h4
            simp only [Cell.poke] at hc hd
            split at hc
            · split at hd
              · cases hc; cases hd
                simp only [Cell.cut] at h3 ⊢
                split
                · rename_i hi
                  rw [if_pos hi, if_pos hi] at h3
                  rw [cut_set, cut_set, h3]
                · rfl
              · cases hd
            · cases hc

/-- A write leaves everything else as it is. -/
theorem Cell.fix_agree {p : Part} {c c' : Cell} {u : Upd} (hc : c.fix u = some c') (hp : ¬ u.part.Meets p) : c.Agree p c' := by
  cases p with
  | all => exact absurd (meets_all _) hp
  | field g =>
      cases u with
      | all v => exact absurd trivial hp
      | byte k x =>
          rw [Cell.fix_byte] at hc
          show c.got g = c'.got g
          cases c <;> first | cases hc; done | skip
          all_goals
            simp only [Cell.poke] at hc
            split at hc
            · cases hc; rfl
            · cases hc
      | field f v =>
          have hp : ¬ f = g := hp
          show c.got g = c'.got g
          rw [Cell.got_fix hc, if_neg (Ne.symm hp)]
  | bytes i n =>
      refine ⟨Cell.fix_like hc, ?_⟩
      cases u with
      | all v => exact absurd trivial hp
      | field f v =>
          obtain ⟨_, _, _, _, rfl, -, -, rfl⟩ := Cell.fix_field hc
          rfl
      | byte k x =>
          rw [Cell.fix_byte] at hc
          have hp : ¬ (0 < 1 ∧ 0 < n ∧ k < i + n ∧ i < k + 1) := hp
          cases c <;> first | cases hc; done | skip
          all_goals
            simp only [Cell.poke] at hc
            split at hc
            · cases hc
              simp only [Cell.cut]
              first
              | exact (cut_set_ne (by omega)).symm
              | (split
                 · exact (cut_set_ne (by omega)).symm
                 · rfl)
            · cases hc

/-! ## In memory -/

/-- The same in this part of what is at this address. -/
def Heap.Agree (g h : Heap) (a : Nat) (p : Part) : Prop :=
  match g[a]?, h[a]? with
  | some c, some d => c.Agree p d
  | none, none => True
  | _, _ => False

section
variable {f g h : Heap} {a b : Nat} {p : Part} {u : Upd} {c d : Cell}

theorem Heap.Agree.of (e : g[a]? = h[a]?) : Heap.Agree g h a p := by
  unfold Heap.Agree
  rw [e]
  cases h[a]? with
  | none => trivial
  | some c => exact .refl p c

theorem Heap.Agree.symm (h1 : Heap.Agree g h a p) : Heap.Agree h g a p := by
  unfold Heap.Agree at *
  cases e1 : g[a]? <;> cases e2 : h[a]? <;> rw [e1, e2] at h1 <;>
    first | exact h1.elim | trivial | exact Cell.Agree.symm h1

theorem Heap.Agree.trans (h1 : Heap.Agree f g a p) (h2 : Heap.Agree g h a p) : Heap.Agree f h a p := by
  unfold Heap.Agree at *
  cases e1 : f[a]? <;> cases e2 : g[a]? <;> cases e3 : h[a]? <;> rw [e1, e2] at h1 <;> rw [e2, e3] at h2 <;>
    first | exact h1.elim | exact h2.elim | trivial | exact Cell.Agree.trans h1 h2

theorem Heap.Agree.congr {g' h' : Heap} (h1 : Heap.Agree g h a p) (e1 : g'[a]? = g[a]?) (e2 : h'[a]? = h[a]?) : Heap.Agree g' h' a p := by
  unfold Heap.Agree at *
  rw [e1, e2]
  exact h1

theorem Heap.Agree.at (h1 : Heap.Agree g h a p) : Heap.at g a p = Heap.at h a p := by
  unfold Heap.Agree at h1
  unfold Heap.at
  split at h1
  · rename_i e1 e2; rw [e1, e2]; exact Cell.Agree.see h1
  · rename_i e1 e2; rw [e1, e2]
  · exact h1.elim

theorem Heap.Agree.eq (h1 : Heap.Agree g h a .all) : g[a]? = h[a]? := by
  unfold Heap.Agree at h1
  split at h1
  · rename_i e1 e2; rw [e1, e2]; exact congrArg some h1
  · rename_i e1 e2; rw [e1, e2]
  · exact h1.elim

theorem own_some (hc : Heap.own g a u = some c) : ∃ d, g[a]? = some d ∧ d.fix u = some c := by
  unfold Heap.own at hc
  split at hc
  · exact ⟨_, by assumption, hc⟩
  · cases hc

theorem at_some (hc : Heap.at g a p = some c) : ∃ d, g[a]? = some d ∧ d.see p = some c := by
  unfold Heap.at at hc
  split at hc
  · exact ⟨_, by assumption, hc⟩
  · cases hc

theorem own_lt (hc : Heap.own g a u = some c) : a < g.length := by
  obtain ⟨d, h1, -⟩ := own_some hc
  exact (List.getElem?_eq_some_iff.1 h1).1

theorem at_congr (e : g[a]? = h[a]?) : Heap.at g a p = Heap.at h a p := by unfold Heap.at; rw [e]
theorem own_congr (e : g[a]? = h[a]?) : Heap.own g a u = Heap.own h a u := by unfold Heap.own; rw [e]

theorem Heap.Agree.own (h1 : Heap.Agree g h a u.part) (hc : Heap.own g a u = some c) : ∃ d, Heap.own h a u = some d := by
  obtain ⟨c', e1, e2⟩ := own_some hc
  unfold Heap.Agree at h1
  rw [e1] at h1
  cases e3 : h[a]? with
  | none => rw [e3] at h1; exact h1.elim
  | some d =>
      rw [e3] at h1
      obtain ⟨d', h2⟩ := Cell.Agree.fix_some h1 e2
      exact ⟨d', by unfold Heap.own; rw [e3]; exact h2⟩

theorem Heap.Agree.own_none (h1 : Heap.Agree g h a u.part) (hc : Heap.own g a u = none) : Heap.own h a u = none := by
  cases e : Heap.own h a u with
  | none => rfl
  | some d =>
      obtain ⟨c, h2⟩ := h1.symm.own e
      rw [hc] at h2
      cases h2

/-- The same write in both. -/
theorem Heap.Agree.set (h1 : Heap.Agree g h b p) (hc : Heap.own g a u = some c) (hd : Heap.own h a u = some d) :
    Heap.Agree (g.set a c) (h.set a d) b p := by
  by_cases e : a = b
  · subst e
    obtain ⟨c', e1, e2⟩ := own_some hc
    obtain ⟨d', e3, e4⟩ := own_some hd
    unfold Heap.Agree at *
    rw [List.getElem?_set_self (own_lt hc), List.getElem?_set_self (own_lt hd)]
    rw [e1, e3] at h1
    exact Cell.Agree.fix h1 e2 e4
  · exact h1.congr (List.getElem?_set_ne e) (List.getElem?_set_ne e)

/-- A write somewhere else. -/
theorem Heap.Agree.other (hc : Heap.own g a u = some c) (hp : a = b → ¬ u.part.Meets p) : Heap.Agree (g.set a c) g b p := by
  by_cases e : a = b
  · subst e
    obtain ⟨c', e1, e2⟩ := own_some hc
    unfold Heap.Agree
    rw [List.getElem?_set_self (own_lt hc), e1]
    exact Cell.Agree.symm (Cell.fix_agree e2 (hp rfl))
  · exact .of (List.getElem?_set_ne e)
end

end Urn.GoLang
