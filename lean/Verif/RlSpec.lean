import Verif.RlGo
import Verif.GoSpecAux
/-!
# Words for the text of the grammar, and lemmas about them
-/
set_option autoImplicit false
set_option maxRecDepth 10000000
namespace Urn.RlLang
open GoLang (Prog Ext Heap Val Decl Stmts IsProgram files Does Locs Rep envOf sigOf execs callN get Buf callParse UrnPtr)
open Grammar (Inst)
open Tables (Act)

/-- machine.go.rl -/
def rlFile : List String := RlSource.rlText.flatten

/-- The file has these parts, and these statements in its blocks. -/
def IsGrammar (f : List String) (ps : List Part) (ss : List RStmt) : Prop :=
  parts (f.map GoLang.codes) = some ps ∧ parseParts ps = some ss

/-- The names of the instantiations. -/
def instName : Inst → String
  | .main => "main"
  | .scimOnly => "scim_only"
  | .rfc8141Only => "rfc8141_only"
  | .fail => "fail"

/-- An expression stands for `r`: it does when names are replaced to every depth that is large enough. -/
def StandsFor (ss : List RStmt) (e : RExp) (r : Ragel.Rl) : Prop := ∃ N, ∀ n, N ≤ n → expand ss n e = some r

/-- The numbers of the entry states that `fgoto` needs, from the constants of machine.go. -/
def enOf (P : Prog) (x : String) : Option Nat :=
  if x = "fail" then
    match get "enFail" P.consts with
    | some (.int _ n) => some n.toNat
    | _ => none
  else none

/-- The name of a constant or variable. -/
def valName : Decl → Option String
  | .val x _ _ => some x
  | _ => none

theorem expand_succ (ss : List RStmt) : ∀ (n : Nat) (e : RExp) (r : Ragel.Rl), expand ss n e = some r → expand ss (n + 1) e = some r
  | 0, e, r, h => by simp [expand] at h
  | n + 1, e, r, h => by
      have two : ∀ (f : Ragel.Rl → Ragel.Rl → Ragel.Rl) (a b : RExp),
          (do pure (f (← expand ss n a) (← expand ss n b)) : Option Ragel.Rl) = some r →
          (do pure (f (← expand ss (n + 1) a) (← expand ss (n + 1) b)) : Option Ragel.Rl) = some r := by
        intro f a b h
        cases ha : expand ss n a with
        | none => rw [ha] at h; cases h
        | some x =>
          cases hb : expand ss n b with
          | none => rw [ha, hb] at h; cases h
          | some y =>
            rw [ha, hb] at h
            rw [expand_succ ss n a x ha, expand_succ ss n b y hb]
            exact h
      have one : ∀ (f : Ragel.Rl → Ragel.Rl) (a : RExp), (do pure (f (← expand ss n a)) : Option Ragel.Rl) = some r →
          (do pure (f (← expand ss (n + 1) a)) : Option Ragel.Rl) = some r := by
        intro f a h
        cases ha : expand ss n a with
        | none => rw [ha] at h; cases h
        | some x =>
            rw [ha] at h
            rw [expand_succ ss n a x ha]
            exact h
      cases e with
      | name x =>
          simp only [expand] at h ⊢
          cases hl : lookup x ss with
          | none => rw [hl] at h; exact h
          | some e => rw [hl] at h; exact expand_succ ss n e r h
      | lit cs => exact h
      | cls rs => exact h
      | cat a b => exact two _ a b h
      | leftGuarded a b => exact two _ a b h
      | finishGuarded a b => exact two _ a b h
      | alt a b => exact two _ a b h
      | diff a b => exact two _ a b h
      | star a => exact one _ a h
      | plus a => exact one _ a h
      | opt a => exact one _ a h
      | rep lo hi a =>
          rcases Classical.em (lo = 2 ∧ hi = 2) with ⟨rfl, rfl⟩ | h2
          · exact one _ a h
          · cases lo with
            | zero => exact one (.upTo hi) a h
            | succ lo =>
              exfalso
              rw [expand] at h
              · cases h
              · intro e e'; exact h2 ⟨e, e'⟩
              · intro e; cases e
      | «with» a l =>
          rw [expand] at h ⊢
          cases ha : expand ss n a with
          | none => rw [ha] at h; cases h
          | some x =>
            rw [ha] at h
            rw [expand_succ ss n a x ha]
            exact h

theorem StandsFor.of {ss : List RStmt} {e : RExp} {r : Ragel.Rl} {n : Nat} (h : expand ss n e = some r) : StandsFor ss e r := by
  refine ⟨n, fun k hk => ?_⟩
  obtain ⟨d, rfl⟩ := Nat.exists_eq_add_of_le hk
  induction d with
  | zero => exact h
  | succ d ih => exact expand_succ ss _ e r (ih (by omega))

theorem StandsFor.unique {ss : List RStmt} {e : RExp} {r r' : Ragel.Rl} (h : StandsFor ss e r) (h' : StandsFor ss e r') : r = r' := by
  obtain ⟨N, h⟩ := h
  obtain ⟨N', h'⟩ := h'
  have := (h (N + N') (by omega)).symm.trans (h' (N + N') (by omega))
  cases this
  rfl

theorem isGrammar : IsGrammar rlFile rlParts rlStmts := by
  refine ⟨?_, rl_stmts⟩
  rw [rlFile, rl_codes]
  exact rl_parts

theorem grammar_eq {ps : List Part} {ss : List RStmt} (h : IsGrammar rlFile ps ss) : ps = rlParts ∧ ss = rlStmts := by
  have h1 := h.1.symm.trans isGrammar.1
  cases h1
  have h2 := h.2.symm.trans isGrammar.2
  cases h2
  exact ⟨rfl, rfl⟩

def natMem (c : Nat) (rs : List (Nat × Nat)) : Bool := rs.any fun r => r.1 ≤ c && c ≤ r.2

theorem natMem_cut (c : Nat) (r b : Nat × Nat) : natMem c (cut r b) = ((r.1 ≤ c && c ≤ r.2) && !(b.1 ≤ c && c ≤ b.2)) := by
  obtain ⟨lo, hi⟩ := r
  obtain ⟨lo', hi'⟩ := b
  rw [Bool.eq_iff_iff]
  simp only [cut, natMem]
  split
  · simp; omega
  · split <;> split <;> simp <;> omega

theorem natMem_flatMap (c : Nat) (b : Nat × Nat) (rs : List (Nat × Nat)) :
    natMem c (rs.flatMap fun r => cut r b) = (natMem c rs && !(b.1 ≤ c && c ≤ b.2)) := by
  induction rs with
  | nil => rfl
  | cons r rs ih =>
    have h : natMem c ((r :: rs).flatMap fun r => cut r b) = (natMem c (cut r b) || natMem c (rs.flatMap fun r => cut r b)) := by
      simp [natMem]
    rw [h, ih, natMem_cut]
    simp only [natMem, List.any_cons]
    cases (decide (r.1 ≤ c) && decide (c ≤ r.2)) <;> cases (decide (b.1 ≤ c) && decide (c ≤ b.2)) <;> simp

theorem natMem_cutAll (c : Nat) (bs : List (Nat × Nat)) : ∀ rs, natMem c (cutAll rs bs) = (natMem c rs && !natMem c bs) := by
  induction bs with
  | nil => intro rs; simp [cutAll, natMem]
  | cons b bs ih =>
    intro rs
    rw [cutAll, ih, natMem_flatMap]
    simp only [natMem, List.any_cons]
    cases (decide (b.1 ≤ c) && decide (c ≤ b.2)) <;> simp

theorem cut_lt {r b x : Nat × Nat} (hr : r.1 < 256 ∧ r.2 < 256) (h : x ∈ cut r b) : x.1 < 256 ∧ x.2 < 256 := by
  unfold cut at h
  split at h
  · simp at h; subst h; exact hr
  · rw [List.mem_append] at h
    rcases h with h | h
    · split at h
      · simp at h; subst h; exact ⟨hr.1, by dsimp only; omega⟩
      · cases h
    · split at h
      · simp at h; subst h; exact ⟨by dsimp only; omega, hr.2⟩
      · cases h

theorem cutAll_lt (bs : List (Nat × Nat)) : ∀ rs, (∀ r ∈ rs, r.1 < 256 ∧ r.2 < 256) → ∀ x ∈ cutAll rs bs, x.1 < 256 ∧ x.2 < 256 := by
  induction bs with
  | nil => intro rs h; exact h
  | cons b bs ih =>
    intro rs h
    refine ih _ fun r hr => ?_
    obtain ⟨q, hq, hr⟩ := List.mem_flatMap.1 hr
    exact cut_lt (h q hq) hr

theorem natMem_ofRanges (c : UInt8) (rs : Ragel.Ranges) : natMem c.toNat (ofRanges rs) = Ragel.mem c rs := by
  induction rs with
  | nil => rfl
  | cons r rs ih =>
    have h : natMem c.toNat (ofRanges (r :: rs)) = ((decide (r.1 ≤ c) && decide (c ≤ r.2)) || natMem c.toNat (ofRanges rs)) := rfl
    rw [h, ih]
    rfl

theorem mem_toRanges (c : UInt8) (rs : List (Nat × Nat)) (h : ∀ r ∈ rs, r.1 < 256 ∧ r.2 < 256) :
    Ragel.mem c (toRanges rs) = natMem c.toNat rs := by
  induction rs with
  | nil => rfl
  | cons r rs ih =>
    have hr := h r (.head _)
    have e : Ragel.mem c (toRanges (r :: rs)) =
        ((decide (UInt8.ofNat r.1 ≤ c) && decide (c ≤ UInt8.ofNat r.2)) || Ragel.mem c (toRanges rs)) := rfl
    rw [e, ih fun x hx => h x (.tail _ hx)]
    simp only [natMem, List.any_cons, UInt8.le_iff_toNat_le, UInt8.toNat_ofNat', Nat.mod_eq_of_lt hr.1, Nat.mod_eq_of_lt hr.2]

theorem enOf_prog : enOf GoLang.prog = en := by
  funext x
  simp only [enOf, en, en_fail]
  rfl

theorem actionOf_mem {x : String} {code : List (List Nat)} {ss : List RStmt} (h : RStmt.action x code ∈ ss)
    (hn : (ss.filterMap actionName).Nodup) : actionOf x ss = some code := by
  induction ss with
  | nil => cases h
  | cons s ss ih =>
    rcases List.mem_cons.1 h with rfl | h'
    · simp [actionOf]
    · cases s with
      | action y c =>
          simp only [List.filterMap_cons, actionName, List.nodup_cons] at hn
          have hx : y ≠ x := by
            rintro rfl
            exact hn.1 (List.mem_filterMap.2 ⟨_, h', rfl⟩)
          simp only [actionOf, hx, if_false]
          exact ih h' hn.2
      | _ => exact ih h' hn

theorem mark_mem : ∃ code, RStmt.action "mark" code ∈ rlStmts := by
  have h : "mark" ∈ rlStmts.filterMap actionName := by rw [rl_names]; decide
  obtain ⟨s, hs, e⟩ := List.mem_filterMap.1 h
  cases s with
  | action x code =>
      cases e
      exact ⟨code, hs⟩
  | _ => cases e

end Urn.RlLang
