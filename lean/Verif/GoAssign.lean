import Verif.GoField
import Verif.GoOrder
/-!
# An assignment races with all that depends on the field
-/
set_option autoImplicit false
namespace Urn.GoLang
open Urn.Heap (Mem Got)

section
variable {X : Ext} {M : Mem} {h : Heap} {U S : List Nat} {R : Regs}

theorem log_set {n : Nat} {rs : List Ty} {env : Env} {x y t f : String} {a : Nat} {v : Val} (hp : get x env = some (.ptr t (some a))) (hv : get y env = some v) :
    ⟨true, a, .field f⟩ ∈ (callT prog X (n + 1) rs env (.cons (.assign (.cons (.sel (.id x) f) .nil) (.cons (.id y) .nil)) .nil)).log h := by
  rw [callT, jumpsT.eq_def, execsT, execT, evalsT, evalT]
  simp only [hp, hv, lookup, Res.some!, Io.bind_eq, Io.bind, one, Io.pure_eq, List.cons_append, List.nil_append, assignT, evalT, evalsT]
  exact List.mem_cons_self

/-- An assignment writes to the field, whatever the value is. -/
theorem assign_log {s : Step} (hs : s.assigns = true) {u : Use} (hu : u ∈ s.uses R) {a : Nat} (ha : AddrOf U S a u.place) (n : Nat) :
    ⟨true, a, u.part⟩ ∈ (callClientT prog cprog X (n + 1) (s.text (mapR U S R)).1 (s.text (mapR U S R)).2).log h := by
  have hU : ∀ {p f}, u ∈ Place.sets (Place.urns (R.urn p)) f → look U (R.urn p) = some a ∧ u.part = .field f := fun {p f} hu => by
    obtain ⟨q, hq, rfl⟩ := List.mem_map.1 hu
    cases hp : R.urn p with
    | none => rw [hp] at hq; cases hq
    | some k => rw [hp] at hq; simp [Place.urns] at hq; subst hq; exact ⟨ha, rfl⟩
  have hS : ∀ {p f}, u ∈ Place.sets (Place.scims (R.scim p)) f → look S (R.scim p) = some a ∧ u.part = .field f := fun {p f} hu => by
    obtain ⟨q, hq, rfl⟩ := List.mem_map.1 hu
    cases hp : R.scim p with
    | none => rw [hp] at hq; cases hq
    | some k => rw [hp] at hq; simp [Place.scims] at hq; subst hq; exact ⟨ha, rfl⟩
  cases s <;> first | cases hs | skip
  all_goals simp only [Step.text, mapR_urn, mapR_scim]
  case setID p v =>
    obtain ⟨e1, e2⟩ := hU hu
    rw [e1, e2, cl_startT (g := fn% cfn "setID") (env := [("p", .ptr "URN" (some a)), ("v", .str v)]) (by kernel_rfl) rfl (by simp [bindParams, zero_urn, zero_string, coerce])]
    exact log_set rfl rfl
  case setSS p v =>
    obtain ⟨e1, e2⟩ := hU hu
    rw [e1, e2, cl_startT (g := fn% cfn "setSS") (env := [("p", .ptr "URN" (some a)), ("v", .str v)]) (by kernel_rfl) rfl (by simp [bindParams, zero_urn, zero_string, coerce])]
    exact log_set rfl rfl
  case setType p v =>
    obtain ⟨e1, e2⟩ := hS hu
    rw [e1, e2, cl_startT (g := fn% cfn "setType") (env := [("p", .ptr "SCIM" (some a)), ("v", .int "Type" v)]) (by kernel_rfl) rfl (by simp [bindParams, zero_scim, zero_type, coerce])]
    exact log_set rfl rfl
  case setName p v =>
    obtain ⟨e1, e2⟩ := hS hu
    rw [e1, e2, cl_startT (g := fn% cfn "setName") (env := [("p", .ptr "SCIM" (some a)), ("v", .str v)]) (by kernel_rfl) rfl (by simp [bindParams, zero_scim, zero_string, coerce])]
    exact log_set rfl rfl
  case setOther p v =>
    obtain ⟨e1, e2⟩ := hS hu
    rw [e1, e2, cl_startT (g := fn% cfn "setOther") (env := [("p", .ptr "SCIM" (some a)), ("v", .str v)]) (by kernel_rfl) rfl (by simp [bindParams, zero_scim, zero_string, coerce])]
    exact log_set rfl rfl

/-- The accesses of a call that comes after others. -/
theorem log_after {n : Nat} (pre : List Step) : ∀ {s : Step} {post : List Step} {R R' : Regs} {h h' : Heap} {vss : List (List Val)}, (runTextT prog cprog X n pre R).run h = .ok ((vss, R'), h') →
    ∀ x ∈ (callClientT prog cprog X n (s.text R').1 (s.text R').2).log h', x ∈ (runTextT prog cprog X n (pre ++ s :: post) R).log h := by
  induction pre with
  | nil =>
      intro s post R R' h h' vss e x hx
      cases e
      rw [List.nil_append, runTextT, Io.bind_eq, log_bind]
      exact List.mem_append_left _ hx
  | cons t pre ih =>
      intro s post R R' h h' vss e x hx
      rw [runTextT, Io.bind_eq, Io.run_bind] at e
      rw [List.cons_append, runTextT, Io.bind_eq, log_bind]
      refine List.mem_append_right _ ?_
      cases hr : (callClientT prog cprog X n (t.text R).1 (t.text R).2).run h with
      | ok y =>
          rw [hr] at e
          obtain ⟨vs, h1⟩ := y
          dsimp only at e ⊢
          rw [Io.bind_eq, log_bind]
          refine List.mem_append_left _ ?_
          replace e : ((runTextT prog cprog X n pre (R.addVals vs)).bind fun y => Io.done (.ok (vs :: y.1, y.2))).run h1 = .ok ((vss, R'), h') := e
          rw [Io.run_bind] at e
          cases hr' : (runTextT prog cprog X n pre (R.addVals vs)).run h1 with
          | ok z =>
              rw [hr'] at e
              obtain ⟨⟨vss', R1⟩, h2⟩ := z
              cases e
              exact ih hr' x hx
          | _ => rw [hr'] at e; cases e
      | _ => rw [hr] at e; cases e

theorem AddrOf.app {c : Nat} {p : Place} (ha : AddrOf U S c p) (U' S' : List Nat) : AddrOf (U ++ U') (S ++ S') c p := by
  cases p with
  | urn k => exact (List.getElem?_append_left (List.getElem?_eq_some_iff.1 ha).1).trans ha
  | scim k => exact (List.getElem?_append_left (List.getElem?_eq_some_iff.1 ha).1).trans ha

theorem assign_part {s : Step} (hs : s.assigns = true) {u : Use} (hu : u ∈ s.uses R) : u.part ≠ .all := by
  cases s <;> first | cases hs | skip
  all_goals
    obtain ⟨q, hq, rfl⟩ := List.mem_map.1 hu
    exact fun e => nomatch e

theorem assign_len {s : Step} (hs : s.assigns = true) {gs : List Got} {R' : Regs} {M' : Mem} (h1 : runModel X [s] R M = .ok (gs, R', M')) :
    M'.urns.length = M.urns.length ∧ M'.scims.length = M.scims.length := by
  have hO : ∀ {p : Heap.Ptr} {x : Heap.Obj} {M' : Mem}, M.setObj p x = .ok M' → M'.urns.length = M.urns.length ∧ M'.scims.length = M.scims.length := by
    intro p x M' e
    unfold Mem.setObj at e
    split at e
    · cases e
    · split at e
      · cases e; exact ⟨List.length_set, rfl⟩
      · cases e
  have hS : ∀ {p : Heap.Ptr} {x : SCIM} {M' : Mem}, M.setScim p x = .ok M' → M'.urns.length = M.urns.length ∧ M'.scims.length = M.scims.length := by
    intro p x M' e
    unfold Mem.setScim at e
    split at e
    · cases e
    · split at e
      · cases e; exact ⟨rfl, List.length_set⟩
      · cases e
  cases s <;> first | cases hs | skip
  all_goals
    simp only [runModel, Step.act, Mem.act, Run.pure_eq, bind, Run.bind] at h1
    split at h1
    · rename_i hy
      split at hy
      · split at hy
        · rename_i hz
          cases hy
          cases h1
          first | exact hO hz | exact hS hz
        all_goals cases hy
      all_goals cases hy
    all_goals cases h1

theorem assign_races (r : Sim M h U S) (hR : RegsFit R U S) {pre post rs : List Step} {s s' : Step} {cs : List (List Step)}
    {i j : Nat} (hij : i ≠ j) (hi : cs[i]? = some (pre ++ s :: post)) (hj : cs[j]? = some rs) (hp : ∀ s ∈ pre, s.Fits X) (hr : ∀ s ∈ rs, s.Fits X)
    {gp : List Got} {R1 : Regs} {M1 : Mem} (h1 : runModel X pre R M = .ok (gp, R1, M1)) (hs : s.assigns = true) (hs' : s'.assigns = true) (hu : s.uses R1 = s'.uses R)
    {gw gs gs' : List Got} {R2 R3 R4 : Regs} {M2 M3 M4 : Mem} (h2 : runModel X [s'] R M = .ok (gw, R2, M2))
    (h3 : runModel X rs R M = .ok (gs, R3, M3)) (h4 : runModel X rs R M2 = .ok (gs', R4, M4))
    {k : Nat} {x y : Got} (hx : gs[k]? = some x) (hy : gs'[k]? = some y) (px : Plain x) (py : Plain y) (hxy : x ≠ y) :
    ∃ N, ∀ n, N ≤ n → Races h (cs.map fun c => runTextT prog cprog X n c (mapR U S R)) := by
  have hf' : s'.Fits X := by cases s' <;> first | (cases hs'; done) | (cases hs'; simp [Step.Fits])
  have g1 := run_good (X := X) [s'] (fun t ht => by rw [List.mem_singleton.1 ht]; exact hf') r hR
  rw [h2] at g1
  obtain ⟨U', S', hh, ⟨N1, hN1⟩, r1, -, -, -⟩ := g1
  obtain ⟨lu, ls⟩ := assign_len hs' h2
  have eU : U' = [] := by
    have := r1.lenU
    rw [List.length_append, r.lenU, lu] at this
    exact List.length_eq_zero_iff.1 (by omega)
  have eS : S' = [] := by
    have := r1.lenS
    rw [List.length_append, r.lenS, ls] at this
    exact List.length_eq_zero_iff.1 (by omega)
  subst eU eS
  simp only [List.append_nil] at r1 hN1
  have g0 := run_good (X := X) pre hp r hR
  rw [h1] at g0
  obtain ⟨Up, Sp, hq, ⟨Np, hNp⟩, -, -, -, -⟩ := g0
  obtain ⟨N2, hN2⟩ := order_log r hR hr hN1 r1 h3 h4 hx hy px py hxy
  refine ⟨N2 + Np + 1, fun n hn => ?_⟩
  obtain ⟨w, z, hw1, hw2, hw3, hw4, hz, hlt⟩ := hN2 n (by omega)
  have hw5 : w ∈ (callClientT prog cprog X n (s'.text (mapR U S R)).1 (s'.text (mapR U S R)).2).log h := by
    rw [runTextT, Io.bind_eq, log_bind] at hw1
    rcases List.mem_append.1 hw1 with hw1 | hw1
    · exact hw1
    · split at hw1 <;> cases hw1
  obtain ⟨u, hu1, hu2⟩ := step_used r hR s' hf' n w hw5 (by rw [hw3]; exact hlt)
  obtain ⟨ha, hpt, -⟩ := hu2
  have hpt : w.part = u.part := hpt.resolve_left (assign_part hs' hu1)
  rw [← hu] at hu1
  obtain ⟨n, rfl⟩ : ∃ m, n = m + 1 := ⟨n - 1, by omega⟩
  have hl := log_after pre (s := s) (post := post) (tree_ok (hNp (n + 1) (by omega))) _ (assign_log (X := X) (h := hq) hs hu1 (ha.app Up Sp) n)
  rw [← hpt] at hl
  exact races hij (by rw [List.getElem?_map, hi]; rfl) (by rw [List.getElem?_map, hj]; rfl) hl hz (by rw [hw3]; exact hlt) ⟨hw3, hw4, .inl rfl⟩
end
end Urn.GoLang
