import Verif.GoTables
/-!
# What the comparison of machine.go with the tables says

Consequences of the checks in `GoTables.lean`, as statements about labels and cases.
-/
set_option autoImplicit false
namespace Urn.GoLang
open Tables (Act)

theorem labelsOK_spec : ∀ {b : Stmts}, labelsOK b = true → ∀ {x : Bool × Nat}, some x ∈ labelsOf b →
    ∃ r, suffixAt b (nameOf x) = some r ∧ ∃ y, nameOf y = nameOf x ∧ decode (codes (nameOf x)) = some y ∧ labelOK y r = true
  | .nil, _, _, h => by simp [labelsOf] at h
  | .cons s ss, hb, x, h => by
      cases s
      case label l =>
        simp only [labelsOK, Bool.and_eq_true] at hb
        simp only [labelsOf, List.mem_cons] at h
        by_cases hl : l = nameOf x
        · simp only [suffixAt, hl, if_true]
          refine ⟨ss, rfl, ?_⟩
          rw [hl] at hb
          have hsome : ∃ y, decode (codes (nameOf x)) = some y := by
            rcases h with h | h
            · exact ⟨x, by rw [← hl]; exact h.symm⟩
            · obtain ⟨r, _, y, _, hy, _⟩ := labelsOK_spec hb.2 h
              exact ⟨y, hy⟩
          obtain ⟨y, hy⟩ := hsome
          rw [hy] at hb
          simp only [Bool.and_eq_true, decide_eq_true_eq] at hb
          exact ⟨y, hb.1.1.symm, hy, hb.1.2⟩
        · simp only [suffixAt, hl, if_false]
          rcases h with h | h
          · exfalso
            apply hl
            rw [← h] at hb
            simp only [Bool.and_eq_true, decide_eq_true_eq] at hb
            exact hb.1.1
          · exact labelsOK_spec hb.2 h
      all_goals
        simp only [labelsOK] at hb
        simp only [labelsOf] at h
        simp only [suffixAt]
        exact labelsOK_spec hb h

set_option maxRecDepth 10000000 in
theorem decode_names : (List.range 250).all (fun n => decide (decode (codes (trName n)) = some (true, n))) = true ∧
    (List.range 52).all (fun n => decide (decode (codes (fName n)) = some (false, n))) = true := by
  constructor <;> decide +kernel

/-- A `tr` label: set the state, and go to the `f` label or to `_again`. -/
theorem tr_label {n : Nat} (hn : n < 250) : ∃ r, suffixAt parseBlock (trName n) =
    some (.cons (asg (mSel "cs") (.num (Tables.trRow n).1)) (.cons (.goto (fLabel (Tables.trRow n).2)) r)) := by
  have h1 := List.all_eq_true.1 tr_there n (List.mem_range.2 hn)
  have h2 : some (true, n) ∈ labelsOf parseBlock := by rw [labelList_eq]; simpa using h1
  obtain ⟨r, hr, y, _, hd, hok⟩ := labelsOK_spec labels_ok h2
  have h3 := List.all_eq_true.1 decode_names.1 n (List.mem_range.2 hn)
  have h4 : decode (codes (nameOf (true, n))) = some (true, n) := of_decide_eq_true h3
  rw [h4] at hd
  cases hd
  unfold labelOK at hok
  split at hok
  · rename_i a b r' heq
    cases heq
    simp only [Bool.and_eq_true] at hok
    refine ⟨r', ?_⟩
    rw [Stmt.same_eq _ _ hok.1, Stmt.same_eq _ _ hok.2] at hr
    exact hr
  · cases hok
  · rename_i heq
    cases heq

theorem fLabel_lt : (List.range 250).all (fun n => match (Tables.trRow n).2 with | some f => decide (f < 52) | none => true) = true := by
  decide +kernel

/-- An `f` label: the actions of the table, and `goto _again`. -/
theorem f_label {n f : Nat} (hn : n < 250) (hf : (Tables.trRow n).2 = some f) : ∃ r, suffixAt parseBlock (fName f) =
    some ((actsStmts (Tables.fActs f)).append (.cons (.goto "_again") r)) := by
  have h1 := List.all_eq_true.1 f_there n (List.mem_range.2 hn)
  have h5 := List.all_eq_true.1 fLabel_lt n (List.mem_range.2 hn)
  simp only [hf, decide_eq_true_eq] at h1 h5
  have h2 : some (false, f) ∈ labelsOf parseBlock := by rw [labelList_eq]; simpa using h1
  obtain ⟨r, hr, y, _, hd, hok⟩ := labelsOK_spec labels_ok h2
  have h3 := List.all_eq_true.1 decode_names.2 f (List.mem_range.2 h5)
  have h4 : decode (codes (nameOf (false, f))) = some (false, f) := of_decide_eq_true h3
  rw [h4] at hd
  cases hd
  simp only [labelOK] at hok
  split at hok
  · rename_i s r' hs
    refine ⟨r', ?_⟩
    rw [strip_eq hs, Stmt.same_eq _ _ hok] at hr
    exact hr
  · cases hok

/-! ## Cases -/

theorem append_nil : ∀ a : Stmts, a.append .nil = a
  | .nil => rfl
  | .cons s ss => by rw [Stmts.append, append_nil ss]

theorem eofOK_spec {k : Nat} : ∀ {cs : Cases}, eofOK cs = true → k ∈ caseNums cs →
    findCase cs k = some (actsStmts (Tables.eofActs k))
  | .nil, _, h => by simp [caseNums] at h
  | .default _ _, h, _ => by simp [eofOK] at h
  | .case e body cs, ho, h => by
      cases e <;> simp only [eofOK] at ho
      case num j =>
        simp only [Bool.and_eq_true] at ho
        simp only [caseNums, List.mem_cons] at h
        simp only [findCase]
        by_cases hj : j = k
        · subst hj
          simp only [Nat.beq_refl, if_true]
          split at ho
          · rename_i hs
            rw [strip_eq hs, append_nil]
          · cases ho.1
        · have : Nat.beq j k = false := by
            rw [Bool.eq_false_iff]
            intro h'
            exact hj (Nat.eq_of_beq_eq_true h')
          simp only [this]
          exact eofOK_spec ho.2 (h.resolve_left fun h' => hj h'.symm)
      all_goals cases ho

/-- The cases at the end of the input: none for the action 0, the actions of the table for the others. -/
theorem eof_case {k : Nat} (h : k ∈ Tables.eofActions) :
    (k = 0 ∧ noCase eofCases k = true) ∨ findCase eofCases k = some (actsStmts (Tables.eofActs k)) := by
  have h1 := List.all_eq_true.1 eof_there k h
  split at h1
  · rename_i hk
    exact .inl ⟨hk, by rw [hk]; exact h1⟩
  · right
    exact eofOK_spec eof_ok (by simpa using h1)

/-- The entry of a list of pairs. -/
def assoc {α : Type} (k : Nat) : List (Nat × α) → Option α
  | [] => none
  | (j, v) :: r => if j = k then some v else assoc k r

theorem assoc_trees {k : Nat} {t : Tree} : ∀ {cs : Cases}, assoc k (caseTrees cs) = some (some t) →
    ∃ body, findCase cs k = some body ∧ toTree curExpr body = some t
  | .nil, h => by simp [caseTrees, assoc] at h
  | .default _ _, h => by simp [caseTrees, assoc] at h
  | .case e body cs, h => by
      cases e <;> simp only [caseTrees, assoc] at h
      case num j =>
        simp only [findCase]
        split at h
        · rename_i hj
          subst hj
          exact ⟨body, by simp, Option.some.inj h⟩
        · rename_i hj
          have : Nat.beq j k = false := by
            rw [Bool.eq_false_iff]
            intro h'
            exact hj (Nat.eq_of_beq_eq_true h')
          simp only [this]
          exact assoc_trees h
      all_goals cases h

/-- The conditions that occur, with numbers that are bytes, and `tr` labels that exist. -/
def condOK : Cond → Bool
  | .cmp .eq k | .cmp .lt k | .cmp .gt k | .cmp .ge k => decide (k < 256)
  | .and (.rcmp a .le) (.cmp .le b) => decide (a < 256) && decide (b < 256)
  | _ => false
def ntreeOK : NTree → Bool
  | .tr n => decide (n < 250)
  | .ite c a b => condOK c && (ntreeOK a && ntreeOK b)

theorem trees_ok : stTrees.all (fun x => ntreeOK x.2) = true := by decide +kernel
theorem trees_there : (List.range 194).all (fun k => k == 0 || (assoc k stTrees).isSome) = true := by decide +kernel

theorem toNat_ofNat {k : Nat} (h : k < 256) : (UInt8.ofNat k).toNat = k := by
  simp; omega

theorem condOK_holds {k : Cond} (h : condOK k = true) (c : UInt8) : k.holds c.toNat = decide (k.prop c) := by
  unfold condOK at h
  rw [Bool.eq_iff_iff]
  split at h
  · have h' : _ < 256 := of_decide_eq_true h
    simp only [Cond.holds, Cond.prop, cmpNat, decide_eq_true_eq, beq_iff_eq, ← UInt8.toNat_inj, toNat_ofNat h', Nat.beq_eq]
  · have h' : _ < 256 := of_decide_eq_true h
    simp only [Cond.holds, Cond.prop, cmpNat, decide_eq_true_eq, UInt8.lt_iff_toNat_lt, toNat_ofNat h', Nat.ble_eq]
    omega
  · have h' : _ < 256 := of_decide_eq_true h
    simp only [Cond.holds, Cond.prop, cmpNat, decide_eq_true_eq, gt_iff_lt, UInt8.lt_iff_toNat_lt, toNat_ofNat h', Nat.ble_eq]
    omega
  · have h' : _ < 256 := of_decide_eq_true h
    simp only [Cond.holds, Cond.prop, cmpNat, decide_eq_true_eq, ge_iff_le, UInt8.le_iff_toNat_le, toNat_ofNat h', Nat.ble_eq]
  · simp only [Bool.and_eq_true, decide_eq_true_eq] at h
    simp only [Cond.holds, Cond.prop, cmpNat, decide_eq_true_eq, Bool.and_eq_true, UInt8.le_iff_toNat_le, toNat_ofNat h.1,
      toNat_ofNat h.2, Nat.ble_eq]
  · cases h

theorem ntree_eval (c : UInt8) : ∀ {t : NTree}, ntreeOK t = true →
    t.toTree.eval c.toNat = some (trName (t.eval c)) ∧ t.eval c < 250
  | .tr n, h => by
      simp only [ntreeOK, decide_eq_true_eq] at h
      exact ⟨rfl, h⟩
  | .ite k a b, h => by
      simp only [ntreeOK, Bool.and_eq_true] at h
      simp only [NTree.toTree, Tree.eval, NTree.eval, condOK_holds h.1]
      by_cases hp : k.prop c
      · simpa [hp] using ntree_eval c h.2.1
      · simpa [hp] using ntree_eval c h.2.2

theorem assoc_mem {α : Type} {k : Nat} {v : α} : ∀ {l : List (Nat × α)}, assoc k l = some v → (k, v) ∈ l
  | [], h => by simp [assoc] at h
  | (j, w) :: r, h => by
      simp only [assoc] at h
      split at h
      · rename_i hj
        cases h
        simp [hj]
      · exact List.mem_cons_of_mem _ (assoc_mem h)

theorem assoc_map {α β : Type} {k : Nat} {v : α} {f : α → β} : ∀ {l : List (Nat × α)}, assoc k l = some v →
    assoc k (l.map fun x => (x.1, f x.2)) = some (f v)
  | [], h => by simp [assoc] at h
  | (j, w) :: r, h => by
      simp only [assoc, List.map_cons] at h ⊢
      split
      · rename_i hj
        simp only [hj, if_true] at h
        cases h
        rfl
      · rename_i hj
        simp only [hj, if_false] at h
        exact assoc_map h

theorem assoc_append {α : Type} {k : Nat} : ∀ (l m : List (Nat × α)), assoc k (l ++ m) = (assoc k l).or (assoc k m)
  | [], m => by simp [assoc]
  | (j, v) :: l, m => by
      simp only [List.cons_append, assoc]
      split
      · simp
      · exact assoc_append l m

theorem map_pair_eq {α β : Type} {f g : Nat × α → β} : ∀ {l : List (Nat × α)},
    (l.map fun x => (x.1, f x)) = (l.map fun x => (x.1, g x)) → ∀ x ∈ l, f x = g x
  | [], _, _, h => by cases h
  | y :: l, h, x, hx => by
      simp only [List.map_cons, List.cons.injEq, Prod.mk.injEq, true_and] at h
      rcases List.mem_cons.1 hx with rfl | hx
      · exact h.1
      · exact map_pair_eq h.2 x hx

theorem assoc_second {k : Nat} {nt : NTree} {x : Option Tree} (h0 : k ≠ 0) : ∀ {l : List (Nat × NTree)}, assoc k l = some nt →
    assoc k ((l.take 1).map (fun x => (x.1, some x.2.toTree)) ++ (0, x) :: (l.drop 1).map (fun x => (x.1, some x.2.toTree))) =
      some (some nt.toTree)
  | [], h => by simp [assoc] at h
  | (j, v) :: r, h => by
      simp only [assoc] at h
      simp only [List.take_succ_cons, List.take_zero, List.drop_succ_cons, List.drop_zero, List.map_cons, List.map_nil,
        List.cons_append, List.nil_append, assoc, Ne.symm h0, if_false]
      split
      · rename_i hj
        simp only [hj, if_true] at h
        cases h
        rfl
      · rename_i hj
        simp only [hj, if_false] at h
        exact assoc_map (f := fun t => some t.toTree) h

/-- A state other than 0: the code of its case jumps to the `tr` label of the table. -/
theorem state_case {k : Nat} (h0 : k ≠ 0) (hk : k < 194) : ∃ body t, findCase resumeCases k = some body ∧
    toTree curExpr body = some t ∧ ∀ c : UInt8, t.eval c.toNat = some (trName (Tables.trOf k c)) ∧ Tables.trOf k c < 250 := by
  have h1 := List.all_eq_true.1 trees_there k (List.mem_range.2 hk)
  simp only [Bool.or_eq_true, beq_iff_eq, h0, false_or] at h1
  obtain ⟨nt, hnt⟩ := Option.isSome_iff_exists.1 h1
  have h2 : assoc k (caseTrees resumeCases) = some (some nt.toTree) := by
    rw [states_text]
    exact assoc_second h0 hnt
  obtain ⟨body, hb, ht⟩ := assoc_trees h2
  have hmem := assoc_mem hnt
  have hok := List.all_eq_true.1 trees_ok _ hmem
  refine ⟨body, _, hb, ht, fun c => ?_⟩
  have h5 := map_pair_eq (f := fun x => fun c => x.2.eval c) (g := fun x => fun c => Tables.trOf x.1 c) states_model _ hmem
  have h6 : nt.eval c = Tables.trOf k c := congrFun h5 c
  rw [← h6]
  exact ntree_eval c hok

/-- State 0 goes to `_out`. -/
theorem state_zero : ∃ body t, findCase resumeCases 0 = some body ∧ toTree curExpr body = some t ∧
    ∀ c : UInt8, t.eval c.toNat = some "_out" := by
  have h2 : assoc 0 (caseTrees resumeCases) = some (some (.jump "_out")) := by
    rw [states_text]
    rfl
  obtain ⟨body, hb, ht⟩ := assoc_trees h2
  exact ⟨body, _, hb, ht, fun _ => rfl⟩

end Urn.GoLang
