import Verif.GoRaceEnd
/-!
# Goroutines whose results depend on their order race
-/
set_option autoImplicit false
namespace Urn.GoLang
open Urn.Heap (Mem Got)

/-- Only the parts of memory that are accessed matter. -/
theorem accessed_same {α : Type} (t : Io α) : ∀ (h g h' : Heap) (a : α), t.run h = .ok (a, h') → h.length = g.length →
    (∀ x, x ∈ t.log h → Heap.Agree h g x.cell x.part) → ∃ k, t.run g = .ok (a, k) := by
  induction t with
  | done r =>
      intro h g h' a e _ _
      cases r with
      | ok b => cases e; exact ⟨_, rfl⟩
      | panic p => cases e
      | stuck => cases e
      | more => cases e
  | alloc d k ih =>
      intro h g h' a e hl hx
      rw [Io.run] at e
      rw [Io.log] at hx
      rw [Io.run, ← hl]
      refine ih _ _ (g ++ [d]) _ _ e (by rw [List.length_append, List.length_append, hl]) fun x hx' => ?_
      by_cases hlt : x.cell < h.length
      · exact (hx x hx').congr (List.getElem?_append_left hlt) (List.getElem?_append_left (hl ▸ hlt))
      · exact .of (by rw [List.getElem?_append_right (by omega), List.getElem?_append_right (by omega), hl])
  | read b p k ih =>
      intro h g h' a e hl hx
      rw [Io.run] at e
      rw [Io.log] at hx
      have hb' := (hx _ List.mem_cons_self).at
      rw [Io.run, ← hb']
      cases hb : Heap.at h b p with
      | none => rw [hb] at e; cases e
      | some d =>
          rw [hb] at e hx
          exact ih d _ _ _ _ e hl fun x h => hx x (List.mem_cons_of_mem _ h)
  | write b u k ih =>
      intro h g h' a e hl hx
      rw [Io.run] at e
      rw [Io.log] at hx
      have hb' := hx _ List.mem_cons_self
      rw [Io.run]
      cases hb : Heap.own h b u with
      | none => rw [hb] at e; cases e
      | some y =>
          obtain ⟨z, hz⟩ := hb'.own hb
          rw [hb] at e hx
          rw [hz]
          exact ih _ _ _ _ e (by rw [List.length_set, List.length_set]; exact hl) fun x h => (hx x (List.mem_cons_of_mem _ h)).set hb hz

/-- A result that is not a pointer and not an error. -/
def Plain : Got → Prop
  | .bool _ | .bytes _ | .kind _ | .fields _ _ _ => True
  | _ => False

theorem kindNum_inj {k k' : Kind} (e : kindNum k = kindNum k') : k = k' := by
  cases k <;> cases k' <;> first | rfl | (exact absurd e (by decide))

theorem vals_plain {X : Ext} {f g f' g' : Option Nat → Option Nat} {s : Step} {x y : Got} (hx : Plain x) (hy : Plain y)
    (e : s.vals X f g x = s.vals X f' g' y) : x = y := by
  cases x <;> first | exact hx.elim | skip
  all_goals (cases y <;> first | exact hy.elim | skip)
  all_goals (cases s <;> simp only [Step.vals, List.cons.injEq, Val.str.injEq, Val.bool.injEq, Val.int.injEq, reduceCtorEq, false_and, and_true, true_and] at e)
  all_goals first
    | (cases e; rfl)
    | (obtain ⟨rfl, rfl, rfl⟩ := e; rfl)
    | exact congrArg Got.kind (kindNum_inj e)
    | exact e.2.elim

theorem valsAll_get {X : Ext} {f g : Option Nat → Option Nat} {ss : List Step} {gs : List Got} {i : Nat} {s : Step} {x : Got} (hs : ss[i]? = some s)
    (hx : gs[i]? = some x) : (valsAll X f g ss gs)[i]? = some (s.vals X f g x) := by
  unfold valsAll
  rw [List.getElem?_zipWith, hs, hx]

/-- The memory after calls that make no objects, without the memory that they made. -/
theorem Sim.take {M : Mem} {h : Heap} {U S : List Nat} {n : Nat} (r : Sim M h U S) (hU : ∀ a ∈ U, a < n) (hS : ∀ a ∈ S, a < n) : Sim M (h.take n) U S where
  lenU := r.lenU
  lenS := r.lenS
  ndU := r.ndU
  ndS := r.ndS
  urn i a x h1 h2 := (r.urn i a x h1 h2).frame (List.getElem?_take_of_lt (hU a (List.mem_of_getElem? h1)))
  scim j b s h1 h2 := (List.getElem?_take_of_lt (hS b (List.mem_of_getElem? h1))).trans (r.scim j b s h1 h2)

/-- The accesses that conflict. -/
theorem order_log {X : Ext} {M M1 : Mem} {h hh : Heap} {U S : List Nat} {R R1 : Regs} (r : Sim M h U S) (hR : RegsFit R U S) {ws rs : List Step}
    (hr : ∀ s ∈ rs, s.Fits X) {vss : List (List Val)} {N1 : Nat} (hN1 : ∀ n, N1 ≤ n → runText prog cprog X n ws (mapR U S R) h = .ok (vss, R1, hh))
    (r1 : Sim M1 hh U S) {gs gs' : List Got} {R2 R3 : Regs} {M2 M3 : Mem}
    (h2 : runModel X rs R M = .ok (gs, R2, M2)) (h3 : runModel X rs R M1 = .ok (gs', R3, M3))
    {k : Nat} {x y : Got} (hx : gs[k]? = some x) (hy : gs'[k]? = some y) (px : Plain x) (py : Plain y) (hxy : x ≠ y) :
    ∃ N, ∀ n, N ≤ n → ∃ w z, w ∈ (runTextT prog cprog X n ws (mapR U S R)).log h ∧ w.write = true ∧ w.cell = z.cell ∧ w.part.Meets z.part ∧
      z ∈ (runTextT prog cprog X n rs (mapR U S R)).log h ∧ z.cell < h.length := by
  have r2 := r1.take (n := h.length) (fun a ha => r.ltU ha) (fun a ha => r.ltS ha)
  have g2 := run_good (X := X) rs hr r hR
  have g3 := run_good (X := X) rs hr r2 hR
  rw [h2] at g2
  rw [h3] at g3
  obtain ⟨U2, S2, k2, ⟨N2, hN2⟩, -, -, l2, -⟩ := g2
  obtain ⟨U3, S3, k3, ⟨N3, hN3⟩, -, -, l3, -⟩ := g3
  refine ⟨N1 + N2 + N3, fun n hn => ?_⟩
  have t1 := tree_ok (hN1 n (by omega))
  have t2 := tree_ok (hN2 n (by omega))
  have t3 := tree_ok (hN3 n (by omega))
  have hle : h.length ≤ hh.length := run_grows _ _ _ _ t1
  have hlen : (hh.take h.length).length = h.length := by rw [List.length_take]; omega
  have hrd : ∃ z ∈ (runTextT prog cprog X n rs (mapR U S R)).log h, ¬ Heap.Agree h (hh.take h.length) z.cell z.part := by
    apply Classical.byContradiction
    intro hno
    obtain ⟨k4, t4⟩ := accessed_same _ _ (hh.take h.length) _ _ t2 hlen.symm fun z hz => Classical.byContradiction fun hn => hno ⟨z, hz, hn⟩
    rw [t3] at t4
    simp only [Res.ok.injEq, Prod.mk.injEq] at t4
    obtain ⟨s, hsk⟩ : ∃ s, rs[k]? = some s := by
      have : k < rs.length := by rw [← l2]; exact (List.getElem?_eq_some_iff.1 hx).1
      exact ⟨_, List.getElem?_eq_getElem this⟩
    have e := congrArg (fun l => l[k]?) t4.1.1
    simp only [valsAll_get hsk hx, valsAll_get hsk hy, Option.some.injEq] at e
    exact hxy (vals_plain py px e).symm
  obtain ⟨z, hz, hne⟩ := hrd
  have hlt : z.cell < h.length := by
    apply Classical.byContradiction
    intro hge
    exact hne (.of (by rw [List.getElem?_eq_none (by omega), List.getElem?_eq_none (by omega)]))
  obtain ⟨w, hw1, hw2, hw3, hw4⟩ := changed_write (q := z.part) _ _ _ _ z.cell t1 hlt fun ha =>
    hne (ha.symm.congr rfl (List.getElem?_take_of_lt hlt))
  exact ⟨w, z, hw1, hw2, hw3, hw4, hz, hlt⟩

theorem order_races {X : Ext} {M : Mem} {h : Heap} {U S : List Nat} {R : Regs} (r : Sim M h U S) (hR : RegsFit R U S) {ws rs : List Step} {cs : List (List Step)}
    {i j : Nat} (hij : i ≠ j) (hi : cs[i]? = some ws) (hj : cs[j]? = some rs)
    (hw : ∀ s ∈ ws, s.Fits X) (hr : ∀ s ∈ rs, s.Fits X) {gw gs gs' : List Got} {R1 R2 R3 : Regs} {M1 M2 M3 : Mem}
    (h1 : runModel X ws R M = .ok (gw, R1, M1)) (hu : M1.urns.length = M.urns.length) (hs : M1.scims.length = M.scims.length)
    (h2 : runModel X rs R M = .ok (gs, R2, M2)) (h3 : runModel X rs R M1 = .ok (gs', R3, M3))
    {k : Nat} {x y : Got} (hx : gs[k]? = some x) (hy : gs'[k]? = some y) (px : Plain x) (py : Plain y) (hxy : x ≠ y) :
    ∃ N, ∀ n, N ≤ n → Races h (cs.map fun c => runTextT prog cprog X n c (mapR U S R)) := by
  have g1 := run_good (X := X) ws hw r hR
  rw [h1] at g1
  obtain ⟨U', S', hh, ⟨N1, hN1⟩, r1, -, -, -⟩ := g1
  have eU : U' = [] := by
    have := r1.lenU
    rw [List.length_append, r.lenU, hu] at this
    exact List.length_eq_zero_iff.1 (by omega)
  have eS : S' = [] := by
    have := r1.lenS
    rw [List.length_append, r.lenS, hs] at this
    exact List.length_eq_zero_iff.1 (by omega)
  subst eU eS
  simp only [List.append_nil] at r1 hN1
  obtain ⟨N, hN⟩ := order_log r hR hr hN1 r1 h2 h3 hx hy px py hxy
  refine ⟨N, fun n hn => ?_⟩
  obtain ⟨w, z, hw1, hw2, hw3, hw4, hz, hlt⟩ := hN n hn
  exact races hij (by rw [List.getElem?_map, hi]; rfl) (by rw [List.getElem?_map, hj]; rfl) hw1 hz (by rw [hw3]; exact hlt) ⟨hw3, hw4, .inl hw2⟩

end Urn.GoLang
