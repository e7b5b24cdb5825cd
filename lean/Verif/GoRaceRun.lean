import Verif.GoRacePure
import Verif.GoClientRun
/-!
# Which cells a client accesses
-/
set_option autoImplicit false
set_option linter.unusedSimpArgs false
namespace Urn.GoLang
open Urn.Heap

/-! ## The trees of clients -/

theorem callClient_same (P C : Prog) (X : Ext) (n : Nat) (f : String) (vs : List Val) (h : Heap) :
    SameV (callClient P C X n f vs h) (callClientT P C X n f vs) h :=
  .bindR .done fun g => callFn_same (callN_same P X n) g none vs false h

theorem runText_same (P C : Prog) (X : Ext) (n : Nat) : ∀ (ss : List Step) (R : Regs) (h : Heap),
    runText P C X n ss R h = (runTextT P C X n ss R).run h >>= fun y => .ok (y.1.1, y.1.2, y.2)
  | [], R, h => rfl
  | s :: ss, R, h => by
      rw [runText, runTextT, Io.bind_eq, Io.run_bind, callClient_same P C X n _ _ h]
      cases (callClientT P C X n (s.text R).1 (s.text R).2).run h with
      | ok y =>
          simp only [Res.ok_bind, Io.bind_eq, Io.run_bind, runText_same P C X n ss]
          cases (runTextT P C X n ss (R.addVals y.1)).run y.2 <;> rfl
      | panic p => rfl
      | stuck => rfl
      | more => rfl

theorem makeOptions_same (P : Prog) (X : Ext) (n : Nat) : ∀ (xs : List ParsingMode) (h : Heap), SameV (makeOptions P X n xs h) (makeOptionsT P X n xs) h
  | [], h => rfl
  | x :: xs, h => by
      rw [makeOptions, makeOptionsT]
      exact .bind (runFn_same P X n _ _ _ h) fun v h => .bindR .done fun v => .bind (makeOptions_same P X n xs h) fun _ _ => rfl

theorem callParse_same (P : Prog) (X : Ext) (n : Nat) (s : Val) (xs : List ParsingMode) (h : Heap) :
    SameV (callParse P X n s xs h) (callParseT P X n s xs) h :=
  .bind (makeOptions_same P X n xs h) fun _ h => runFn_same P X n _ _ _ h

theorem runText_mono (P C : Prog) (X : Ext) (m n : Nat) (hn : m ≤ n) : ∀ (ss : List Step) (R : Regs) (h : Heap),
    Le (runText P C X m ss R h) (runText P C X n ss R h)
  | [], R, h => .refl _
  | s :: ss, R, h => .bind (callClient_mono P C X _ _ h m n hn) fun y => .bind (runText_mono P C X m n hn ss _ y.2) fun _ => .refl _

/-! ## Programs that are not stuck -/

theorem Does.never {α : Type} {f : Nat → Res α} {a : α} (hf : ∀ m n, m ≤ n → Le (f m) (f n)) (h : Does f a) (n : Nat) : f n ≠ .stuck := by
  obtain ⟨N, h⟩ := h
  intro e
  rcases hf n (n + N) (by omega) with h1 | h1
  · rw [h1] at e; cases e
  · rw [h1, h _ (by omega)] at e; cases e

theorem Panics.never {α : Type} {f : Nat → Res α} {p : Panic} (hf : ∀ m n, m ≤ n → Le (f m) (f n)) (h : Panics f p) (n : Nat) : f n ≠ .stuck := by
  obtain ⟨N, h⟩ := h
  intro e
  rcases hf n (n + N) (by omega) with h1 | h1
  · rw [h1] at e; cases e
  · rw [h1, h _ (by omega)] at e; cases e

theorem Does.only {α : Type} {f : Nat → Res α} {a b : α} (hf : ∀ m n, m ≤ n → Le (f m) (f n)) (h : Does f a) {n : Nat} (e : f n = .ok b) : b = a := by
  obtain ⟨N, h⟩ := h
  rcases hf n (n + N) (by omega) with h1 | h1
  · rw [h1] at e; cases e
  · rw [h1, h _ (by omega)] at e; cases e; rfl

theorem Panics.not_ok {α : Type} {f : Nat → Res α} {p : Panic} {b : α} (hf : ∀ m n, m ≤ n → Le (f m) (f n)) (h : Panics f p) {n : Nat} (e : f n = .ok b) : False := by
  obtain ⟨N, h⟩ := h
  rcases hf n (n + N) (by omega) with h1 | h1
  · rw [h1] at e; cases e
  · rw [h1, h _ (by omega)] at e; cases e

/-! ## What can be reached -/

section
variable {X : Ext} {M : Mem} {h : Heap} {U S : List Nat} {R : Regs}

/-- Numbers of the objects that can be reached. -/
noncomputable def keepU (M : Mem) (R : Regs) : List Nat := open Classical in (List.range M.urns.length).filter fun k => decide (R.Reach M (.urn k))
noncomputable def keepS (M : Mem) (R : Regs) : List Nat := open Classical in (List.range M.scims.length).filter fun k => decide (R.Reach M (.scim k))

theorem mem_keepU {k : Nat} : k ∈ keepU M R ↔ k < M.urns.length ∧ R.Reach M (.urn k) := by simp [keepU]
theorem mem_keepS {k : Nat} : k ∈ keepS M R ↔ k < M.scims.length ∧ R.Reach M (.scim k) := by simp [keepS]
theorem nodup_keepU : (keepU M R).Nodup := List.Pairwise.filter _ List.nodup_range
theorem nodup_keepS : (keepS M R).Nodup := List.Pairwise.filter _ List.nodup_range

/-- An address list without the others. -/
def pick (U K : List Nat) : List Nat := K.map fun k => U[k]?.getD 0

theorem get_pick {K : List Nat} {i : Nat} (hK : ∀ k ∈ K, k < U.length) : (pick U K)[i]? = K[i]?.bind fun k => U[k]? := by
  unfold pick
  rw [List.getElem?_map]
  cases hi : K[i]? with
  | none => rfl
  | some k =>
      have := hK k (List.mem_of_getElem? hi)
      simp [List.getElem?_eq_getElem this]

theorem nodup_pick {K : List Nat} (hU : U.Nodup) (hn : K.Nodup) (hK : ∀ k ∈ K, k < U.length) : (pick U K).Nodup := by
  unfold pick
  unfold List.Nodup
  rw [List.pairwise_map]
  refine List.Pairwise.imp_of_mem ?_ hn
  intro a b ha hb hab e
  rw [List.getElem?_eq_getElem (hK a ha), List.getElem?_eq_getElem (hK b hb)] at e
  refine hab ((List.getElem?_inj (hK a ha) hU).1 ?_)
  rw [List.getElem?_eq_getElem (hK a ha), List.getElem?_eq_getElem (hK b hb)]
  exact congrArg some e

/-- The new number of an object. -/
def renum (K : List Nat) (p : Option Nat) : Option Nat := p.map fun k => K.idxOf k

theorem get_idxOf {K : List Nat} {k : Nat} (hk : k ∈ K) : K[K.idxOf k]? = some k := by
  rw [List.getElem?_eq_getElem (List.idxOf_lt_length_of_mem hk)]
  simp

theorem look_pick {K : List Nat} {p : Option Nat} (hK : ∀ k ∈ K, k < U.length) (hp : ∀ k, p = some k → k ∈ K) : look (pick U K) (renum K p) = look U p := by
  cases p with
  | none => rfl
  | some k =>
      simp only [look, renum, Option.map_some, Option.bind_some]
      rw [get_pick hK, get_idxOf (hp k rfl)]
      rfl


/-- The memory of the model without the others. -/
noncomputable def part (M : Mem) (R : Regs) : Mem where
  urns := (keepU M R).map fun k => { (M.urns[k]?.getD {}) with scim := renum (keepS M R) (M.urns[k]?.getD {}).scim }
  scims := (keepS M R).map fun k => M.scims[k]?.getD {}

noncomputable def partR (M : Mem) (R : Regs) : Regs := ⟨R.urns.map (renum (keepU M R)), R.scims.map (renum (keepS M R))⟩

theorem Sim.part (r : Sim M h U S) (h' : Heap) (hh : ∀ c, c ∈ pick U (keepU M R) ∨ c ∈ pick S (keepS M R) → h'[c]? = h[c]?) :
    Sim (part M R) h' (pick U (keepU M R)) (pick S (keepS M R)) := by
  have kU : ∀ k ∈ keepU M R, k < U.length := fun k hk => by rw [r.lenU]; exact (mem_keepU.1 hk).1
  have kS : ∀ k ∈ keepS M R, k < S.length := fun k hk => by rw [r.lenS]; exact (mem_keepS.1 hk).1
  refine ⟨by simp [pick, GoLang.part], by simp [pick, GoLang.part], nodup_pick r.ndU nodup_keepU kU, nodup_pick r.ndS nodup_keepS kS, ?_, ?_⟩
  · intro i a x h1 h2
    have ha := hh a (.inl (List.mem_of_getElem? h1))
    rw [get_pick kU] at h1
    simp only [GoLang.part, List.getElem?_map] at h2
    cases hi : (keepU M R)[i]? with
    | none => rw [hi] at h1; cases h1
    | some k =>
        rw [hi] at h1 h2
        have hk := mem_keepU.1 (List.mem_of_getElem? hi)
        obtain ⟨b, y, h3, h4, h5⟩ := r.lookU (k := k) (by rw [r.lenU]; exact hk.1)
        simp only [Option.bind_some, h3, Option.some.injEq] at h1
        subst h1
        simp only [h4, Option.map_some, Option.getD_some, Option.some.injEq] at h2
        subst h2
        obtain ⟨tl, h6, h7, h8⟩ := h5
        have hs : ∀ j, y.scim = some j → j ∈ keepS M R := fun j hj => mem_keepS.2 ⟨by rw [← r.lenS]; exact h8 j hj, .inr ⟨k, y, hk.2, h4, hj⟩⟩
        refine ⟨tl, ?_, h7, ?_⟩
        · rw [ha, h6]
          dsimp only
          rw [look_pick kS hs]
        · intro j hj
          cases hy : y.scim with
          | none => simp [hy, renum] at hj
          | some m =>
              simp only [hy, renum, Option.map_some, Option.some.injEq] at hj
              subst hj
              rw [pick, List.length_map]
              exact List.idxOf_lt_length_of_mem (hs m hy)
  · intro j b s h1 h2
    have hb := hh b (.inr (List.mem_of_getElem? h1))
    rw [get_pick kS] at h1
    simp only [GoLang.part, List.getElem?_map] at h2
    cases hi : (keepS M R)[j]? with
    | none => rw [hi] at h1; cases h1
    | some k =>
        rw [hi] at h1 h2
        have hk := mem_keepS.1 (List.mem_of_getElem? hi)
        obtain ⟨c, y, h3, h4, h5⟩ := r.lookS (k := k) (by rw [r.lenS]; exact hk.1)
        simp only [Option.bind_some, h3, Option.some.injEq] at h1
        subst h1
        simp only [h4, Option.map_some, Option.getD_some, Option.some.injEq] at h2
        subst h2
        rw [hb, h5]

theorem partR_fit (r : Sim M h U S) (hR : RegsFit R U S) : RegsFit (partR M R) (pick U (keepU M R)) (pick S (keepS M R)) ∧
    mapR (pick U (keepU M R)) (pick S (keepS M R)) (partR M R) = mapR U S R := by
  have kU : ∀ k ∈ keepU M R, k < U.length := fun k hk => by rw [r.lenU]; exact (mem_keepU.1 hk).1
  have kS : ∀ k ∈ keepS M R, k < S.length := fun k hk => by rw [r.lenS]; exact (mem_keepS.1 hk).1
  have u : ∀ p ∈ R.urns, ∀ k, p = some k → k ∈ keepU M R := fun p hp k hk => mem_keepU.2 ⟨by rw [← r.lenU]; exact hR.1 p hp k hk, by subst hk; exact hp⟩
  have s : ∀ p ∈ R.scims, ∀ k, p = some k → k ∈ keepS M R := fun p hp k hk => mem_keepS.2 ⟨by rw [← r.lenS]; exact hR.2 p hp k hk, .inl (by subst hk; exact hp)⟩
  refine ⟨⟨fun p hp k hk => ?_, fun p hp k hk => ?_⟩, ?_⟩
  · obtain ⟨q, hq, rfl⟩ := List.mem_map.1 hp
    cases q with
    | none => cases hk
    | some j => cases hk; rw [pick, List.length_map]; exact List.idxOf_lt_length_of_mem (u _ hq j rfl)
  · obtain ⟨q, hq, rfl⟩ := List.mem_map.1 hp
    cases q with
    | none => cases hk
    | some j => cases hk; rw [pick, List.length_map]; exact List.idxOf_lt_length_of_mem (s _ hq j rfl)
  · unfold mapR partR
    simp only [List.map_map]
    congr 1
    · exact List.map_congr_left fun p hp => look_pick kU (u p hp)
    · exact List.map_congr_left fun p hp => look_pick kS (s p hp)

/-- The address of a place. -/
def AddrOf (U S : List Nat) (c : Nat) : Place → Prop
  | .urn k => U[k]? = some c
  | .scim k => S[k]? = some c

theorem mem_pick {K : List Nat} {c : Nat} (hK : ∀ k ∈ K, k < U.length) (hc : c ∈ pick U K) : ∃ k ∈ K, U[k]? = some c := by
  unfold pick at hc
  obtain ⟨k, hk, rfl⟩ := List.mem_map.1 hc
  exact ⟨k, hk, by rw [List.getElem?_eq_getElem (hK k hk)]; rfl⟩

theorem runTextT_stuck {P C : Prog} {n : Nat} {ss : List Step} {h : Heap} (hr : runText P C X n ss R h ≠ .stuck) : (runTextT P C X n ss R).run h ≠ .stuck := by
  intro e
  rw [runText_same, e] at hr
  exact hr rfl

/-- Calls do not access what cannot be reached. -/
theorem reach_log (r : Sim M h U S) (hR : RegsFit R U S) (ss : List Step) (hf : ∀ s ∈ ss, s.Fits X) (n : Nat) :
    ∀ x, x ∈ (runTextT prog cprog X n ss (mapR U S R)).log h → x.cell < h.length → ∃ p, R.Reach M p ∧ AddrOf U S x.cell p := by
  have kU : ∀ k ∈ keepU M R, k < U.length := fun k hk => by rw [r.lenU]; exact (mem_keepU.1 hk).1
  have kS : ∀ k ∈ keepS M R, k < S.length := fun k hk => by rw [r.lenS]; exact (mem_keepS.1 hk).1
  intro x hx hl
  let keep : Nat → Bool := fun c => (pick U (keepU M R)).contains c || (pick S (keepS M R)).contains c
  have r' : Sim (part M R) (mask keep h) _ _ := r.part (R := R) (mask keep h) fun c hc => mask_in h (by simpa [keep] using hc)
  obtain ⟨hR', hm⟩ := partR_fit r hR
  have hg := run_good ss hf r' hR'
  rw [← hm] at hx
  have hn : runText prog cprog X n ss (mapR (pick U (keepU M R)) (pick S (keepS M R)) (partR M R)) (mask keep h) ≠ .stuck := by
    revert hg
    cases runModel X ss (partR M R) (part M R) with
    | ok y => rintro ⟨_, _, _, h1, _⟩; exact Does.never (fun m n hmn => runText_mono _ _ _ m n hmn _ _ _) h1 n
    | panic p => intro h1; exact Panics.never (fun m n hmn => runText_mono _ _ _ m n hmn _ _ _) h1 n
    | diverge => exact False.elim
  have := mask_log (runTextT_stuck hn) x hx hl
  simp only [keep, Bool.or_eq_true, List.contains_iff_mem] at this
  rcases this with h1 | h1
  · obtain ⟨k, hk, hc⟩ := mem_pick kU h1
    exact ⟨.urn k, (mem_keepU.1 hk).2, hc⟩
  · obtain ⟨k, hk, hc⟩ := mem_pick kS h1
    exact ⟨.scim k, (mem_keepS.1 hk).2, hc⟩

end
end Urn.GoLang
