import Verif.GoClientStep
/-!
# Clients: all calls
-/
set_option autoImplicit false
set_option linter.unusedSimpArgs false
namespace Urn.GoLang
open Urn.Heap

section
variable {X : Ext} {M : Mem} {h : Heap} {U S : List Nat}

theorem Panics.bind {α β : Type} {f : Nat → Res α} {g : Nat → α → Res β} {p : Panic} (h : Panics f p) : Panics (fun n => f n >>= g n) p := by
  obtain ⟨N, h⟩ := h
  exact ⟨N, fun n hn => by dsimp only; rw [h n hn]; rfl⟩

theorem Does.panics {α β : Type} {f : Nat → Res α} {g : Nat → α → Res β} {a : α} {p : Panic} (h : Does f a) (h' : Panics (fun n => g n a) p) :
    Panics (fun n => f n >>= g n) p := by
  obtain ⟨N, h⟩ := h
  obtain ⟨N', h'⟩ := h'
  exact ⟨N + N', fun n hn => by dsimp only; rw [h n (by omega)]; exact h' n (by omega)⟩

theorem vals_app {st : Step} {g : Got} (hg : Fits g U S) (l m : List Nat) :
    st.vals X (look (U ++ l)) (look (S ++ m)) g = st.vals X (look U) (look S) g := by
  cases g with
  | urn p ok =>
      have e : look (U ++ l) p = look U p := look_app (fun k hk => hg.1 k (by simp [Got.urns, hk]))
      cases st <;> simp [Step.vals, e]
  | urn8141 p e =>
      have e : look (U ++ l) p = look U p := look_app (fun k hk => hg.1 k (by simp [Got.urns, hk]))
      cases st <;> simp [Step.vals, e]
  | scim p =>
      have e : look (S ++ m) p = look S p := look_app (fun k hk => hg.2 k (by simp [Got.scims, hk]))
      cases st <;> simp [Step.vals, e]
  | unit => cases st <;> rfl
  | bool => cases st <;> rfl
  | bytes => cases st <;> rfl
  | kind => cases st <;> rfl
  | fields => cases st <;> rfl
  | err => cases st <;> rfl

theorem RegsFit.app {R : Regs} (hR : RegsFit R U S) (l m : List Nat) : RegsFit R (U ++ l) (S ++ m) :=
  ⟨fun p hp k hk => by simp; have := hR.1 p hp k hk; omega, fun p hp k hk => by simp; have := hR.2 p hp k hk; omega⟩

theorem RegsFit.add {R : Regs} {g : Got} (hR : RegsFit R U S) (hg : Fits g U S) : RegsFit (R.addGot g) U S := by
  cases g with
  | urn p ok | urn8141 p e =>
      refine ⟨fun q hq k hk => ?_, hR.2⟩
      simp only [Regs.addGot, List.mem_append, List.mem_singleton] at hq
      rcases hq with hq | rfl
      · exact hR.1 q hq k hk
      · exact hg.1 k (by simp [Got.urns, hk])
  | scim p =>
      refine ⟨hR.1, fun q hq k hk => ?_⟩
      simp only [Regs.addGot, List.mem_append, List.mem_singleton] at hq
      rcases hq with hq | rfl
      · exact hR.2 q hq k hk
      · exact hg.2 k (by simp [Got.scims, hk])
  | unit | bool | bytes | kind | fields | err => exact hR

theorem mapR_app {R : Regs} (hR : RegsFit R U S) (l m : List Nat) : mapR (U ++ l) (S ++ m) R = mapR U S R := by
  unfold mapR
  congr 1
  · exact List.map_congr_left fun p hp => look_app (hR.1 p hp)
  · exact List.map_congr_left fun p hp => look_app (hR.2 p hp)

/-- Calls in the text do what the actions in the model do. -/
def GoodRun (X : Ext) (h : Heap) (U S : List Nat) (ss : List Step) (R : Regs) : Run (List Got × Regs × Mem) → Prop
  | .ok (gs, R1, M1) => ∃ U' S' h', Does (fun n => runText prog cprog X n ss (mapR U S R) h)
        (valsAll X (look (U ++ U')) (look (S ++ S')) ss gs, mapR (U ++ U') (S ++ S') R1, h') ∧
      Sim M1 h' (U ++ U') (S ++ S') ∧ RegsFit R1 (U ++ U') (S ++ S') ∧ gs.length = ss.length ∧ ∀ c, c < h.length → c ∉ U → c ∉ S → h'[c]? = h[c]?
  | .panic p => Panics (fun n => runText prog cprog X n ss (mapR U S R) h) p
  | .diverge => False

theorem run_good (ss : List Step) : (∀ s ∈ ss, s.Fits X) → ∀ {M : Mem} {h : Heap} {U S : List Nat} {R : Regs}, Sim M h U S → RegsFit R U S → GoodRun X h U S ss R (runModel X ss R M) := by
  induction ss with
  | nil =>
      intro hf M h U S R r hR
      exact ⟨[], [], h, by simpa [runText, valsAll] using Does.pure, by simpa using r, by simpa using hR, rfl, fun _ _ _ _ => rfl⟩
  | cons s ss ih =>
      intro hf M h U S R r hR
      have hg := step_good (X := X) r hR s (hf s (List.mem_cons_self ..))
      rw [runModel]
      cases ha : M.act X.uni X.json (s.act R) with
      | diverge => rw [ha] at hg; exact hg.elim
      | panic p =>
          rw [ha] at hg
          exact Panics.bind hg
      | ok y =>
          obtain ⟨M1, g⟩ := y
          rw [ha] at hg
          obtain ⟨U1, S1, h1, h2, h3, h4, h5, h6, h7, h8⟩ := hg
          have hR1 := (hR.app U1 S1).add h4
          have hi := ih (fun t ht => hf t (List.mem_cons_of_mem _ ht)) h3 hR1
          have hm : mapR (U ++ U1) (S ++ S1) (R.addGot g) = (mapR U S R).addVals (s.vals X (look (U ++ U1)) (look (S ++ S1)) g) := by
            rw [h5 R, mapR_app hR]
          simp only [Run.ok_bind]
          cases hr : runModel X ss (R.addGot g) M1 with
          | diverge => rw [hr] at hi; exact hi.elim
          | panic p =>
              rw [hr] at hi
              unfold GoodRun at hi
              dsimp only at hi
              rw [hm] at hi
              exact Does.panics h2 (Panics.bind hi)
          | ok y =>
              obtain ⟨gs, R2, M2⟩ := y
              rw [hr] at hi
              obtain ⟨U2, S2, h2', i1, i2, i3, i4, i5⟩ := hi
              rw [hm] at i1
              refine ⟨U1 ++ U2, S1 ++ S2, h2', ?_, by simpa using i2, by simpa using i3, by simp [i4], ?_⟩
              · refine Does.bind h2 (Does.bind i1 ?_)
                have e := vals_app (X := X) (st := s) h4 U2 S2
                simp only [List.append_assoc] at e ⊢
                simp only [valsAll, List.zipWith_cons_cons, e]
                exact Does.pure
              · intro c hc hcU hcS
                have e1 := h8 c hc hcU hcS
                have hc1 : c < h1.length := by
                  rw [List.getElem?_eq_getElem hc] at e1
                  exact (List.getElem?_eq_some_iff.1 e1).1
                rw [i5 c hc1, e1]
                · intro hh
                  rcases List.mem_append.1 hh with hh | hh
                  · exact hcU hh
                  · exact absurd (h6 c hh) (by omega)
                · intro hh
                  rcases List.mem_append.1 hh with hh | hh
                  · exact hcS hh
                  · exact absurd (h7 c hh) (by omega)

theorem look_inj {n : Nat} (hn : U.length = n) (hU : U.Nodup) : Inj (look U) n := by
  subst hn
  refine ⟨rfl, fun i hi => ⟨⟨U[i], List.getElem?_eq_getElem hi⟩, fun j _ he => ?_⟩⟩
  exact (List.getElem?_inj hi hU).1 he

theorem Sim.sameEnd {R : Regs} (r : Sim M h U S) (hR : RegsFit R U S) : SameEnd (look U) (look S) M R h (mapR U S R) := by
  refine ⟨look_inj r.lenU r.ndU, look_inj r.lenS r.ndS, rfl, rfl, fun p hp => ?_, fun p hp => ?_, fun i x hx => ?_, fun i s hs => ?_⟩
  · cases p with
    | none => exact .inl rfl
    | some k =>
        obtain ⟨a, x, _, hx, _⟩ := r.lookU (hR.1 _ hp k rfl)
        exact .inr ⟨k, x, rfl, hx⟩
  · cases p with
    | none => exact .inl rfl
    | some k =>
        obtain ⟨a, x, _, hx, _⟩ := r.lookS (hR.2 _ hp k rfl)
        exact .inr ⟨k, x, rfl, hx⟩
  · obtain ⟨a, y, h1, h2, h3⟩ := r.lookU (k := i) (by rw [r.lenU]; exact (List.getElem?_eq_some_iff.1 hx).1)
    rw [hx] at h2
    cases h2
    have e : look U (some i) = some a := h1
    rw [e]
    exact r.ptr h3
  · obtain ⟨a, y, h1, h2, h3⟩ := r.lookS (k := i) (by rw [r.lenS]; exact (List.getElem?_eq_some_iff.1 hs).1)
    rw [hs] at h2
    cases h2
    exact ⟨a, h1, h3⟩

theorem Sim.empty (h : Heap) : Sim {} h [] [] := ⟨rfl, rfl, .nil, .nil, by simp, by simp⟩

theorem runModel_snoc (ss : List Step) (s : Step) : ∀ (R : Regs) (M : Mem), runModel X (ss ++ [s]) R M =
    runModel X ss R M >>= fun y => y.2.2.act X.uni X.json (s.act y.2.1) >>= fun z => .ok (y.1 ++ [z.2], y.2.1.addGot z.2, z.1) := by
  induction ss with
  | nil =>
      intro R M
      simp only [List.nil_append, runModel, Run.ok_bind]
      cases M.act X.uni X.json (s.act R) <;> rfl
  | cons t ss ih =>
      intro R M
      simp only [List.cons_append, runModel]
      cases M.act X.uni X.json (t.act R) with
      | ok y =>
          simp only [Run.ok_bind, ih]
          cases runModel X ss (R.addGot y.2) y.1 with
          | ok z =>
              simp only [Run.ok_bind, Run.pure_eq]
              cases z.2.2.act X.uni X.json (s.act z.2.1) <;> rfl
          | panic p => rfl
          | diverge => rfl
      | panic p => rfl
      | diverge => rfl

theorem valid_step {R : Regs} (r : Sim M h U S) (hR : RegsFit R U S) (s : Step) : Valid M (s.act R) := by
  have hu : ∀ p, ∀ x ∈ (R.urn p).toList, x < M.urns.length := fun p x hx => by
    rw [← r.lenU]; exact hR.urn p x (by simpa using hx)
  have hs : ∀ p, ∀ x ∈ (R.scim p).toList, x < M.scims.length := fun p x hx => by
    rw [← r.lenS]; exact hR.scim p x (by simpa using hx)
  constructor
  · cases s <;> simp only [Step.act, Heap.Act.urns, List.mem_append] <;> intro x hx
    all_goals first
      | exact hu _ x hx
      | exact hx.elim (hu _ x) (hu _ x)
      | cases hx
  · cases s <;> simp only [Step.act, Heap.Act.scims, List.mem_append] <;> intro x hx
    all_goals first
      | exact hs _ x hx
      | exact hx.elim (hs _ x) (hs _ x)
      | cases hx

theorem run_nil (ss : List Step) : (∀ s ∈ ss, s.Fits X) → ∀ {M : Mem} {h : Heap} {U S : List Nat} {R : Regs}, Sim M h U S → RegsFit R U S →
    (∃ y, runModel X ss R M = .ok y) ∨ runModel X ss R M = .panic .nilDeref := by
  induction ss with
  | nil => intro _ M h U S R _ _; exact .inl ⟨_, rfl⟩
  | cons s ss ih =>
      intro hf M h U S R r hR
      have hg := step_good (X := X) r hR s (hf s (List.mem_cons_self ..))
      have hv := C58_nil X.uni X.json M _ (valid_step r hR s)
      rw [runModel]
      cases ha : M.act X.uni X.json (s.act R) with
      | diverge => rw [ha] at hg; exact hg.elim
      | panic p =>
          right
          by_cases hn : NilPanics X.json (s.act R)
          · rw [hv.1 hn] at ha
            cases ha
            rfl
          · obtain ⟨_, _, he⟩ := hv.2 hn
            rw [he] at ha
            cases ha
      | ok y =>
          obtain ⟨M1, g⟩ := y
          rw [ha] at hg
          obtain ⟨U1, S1, h1, h2, h3, h4, h5, h6, h7, h8⟩ := hg
          rcases ih (fun t ht => hf t (List.mem_cons_of_mem _ ht)) h3 ((hR.app U1 S1).add h4) with ⟨z, hz⟩ | hz
          · left
            simp only [Run.ok_bind, hz]
            exact ⟨_, rfl⟩
          · right
            simp only [Run.ok_bind, hz]
            rfl

end
end Urn.GoLang
