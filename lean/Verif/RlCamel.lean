import Verif.PropsTools
/-!
# snake2camel, computed in one pass for each underscore

The definition in `Tools.lean` searches as a regular expression does, which takes long.  `camel` has the same results.
-/
set_option autoImplicit false
namespace Urn.Tools
open SpecTools

/-- Whether the text ends with a lower case letter and then digits; `f` says whether that is so of what comes before it. -/
def runs : Bool → Bytes → Bool
  | f, [] => f
  | f, c :: t => runs (SpecTools.isLower c || (f && SpecTools.isDigit c)) t

/-- Rewrite the last underscore that is to be rewritten. -/
def camelStep : Bool → Bytes → Option Bytes
  | _, [] => none
  | f, c :: t =>
      match camelStep (SpecTools.isLower c || (f && SpecTools.isDigit c)) t with
      | some r => some (c :: r)
      | none =>
          match f && c == 95, t with
          | true, y :: b => if isAlnum y then some (upper y :: b) else none
          | _, _ => none

theorem runs_append (f : Bool) (p q : Bytes) : runs f (p ++ q) = runs (runs f p) q := by
  induction p generalizing f with
  | nil => rfl
  | cons c p ih => exact ih _

theorem runs_digits {f : Bool} {ds : Bytes} (h : ∀ d ∈ ds, SpecTools.isDigit d = true) (hf : f = true) : runs f ds = true := by
  induction ds generalizing f with
  | nil => exact hf
  | cons d ds ih =>
    have h1 := h d (by simp)
    exact ih (fun e he => h e (by simp [he])) (by simp [h1, hf])

theorem runs_true {p : Bytes} (h : runs false p = true) :
    ∃ a x ds, p = a ++ x :: ds ∧ SpecTools.isLower x = true ∧ ∀ d ∈ ds, SpecTools.isDigit d = true := by
  have key : ∀ (p : Bytes) (f : Bool), runs f p = true → (f = true ∧ ∀ d ∈ p, SpecTools.isDigit d = true) ∨
      ∃ a x ds, p = a ++ x :: ds ∧ SpecTools.isLower x = true ∧ ∀ d ∈ ds, SpecTools.isDigit d = true := by
    intro p
    induction p with
    | nil => intro f h; exact .inl ⟨h, by simp⟩
    | cons c p ih =>
      intro f h
      rcases ih _ h with ⟨h1, h2⟩ | ⟨a, x, ds, h1, h2, h3⟩
      · by_cases hl : SpecTools.isLower c = true
        · exact .inr ⟨[], c, p, rfl, hl, h2⟩
        · simp only [hl, Bool.false_or, Bool.and_eq_true] at h1
          exact .inl ⟨h1.1, by simp [h1.2]; exact h2⟩
      · exact .inr ⟨c :: a, x, ds, by simp [h1], h2, h3⟩
  rcases key p false h with ⟨h1, _⟩ | h1
  · cases h1
  · exact h1

theorem runs_of {a ds : Bytes} {x : UInt8} (hx : SpecTools.isLower x = true) (hd : ∀ d ∈ ds, SpecTools.isDigit d = true) (f : Bool) :
    runs f (a ++ x :: ds) = true := by
  rw [runs_append]
  show runs (SpecTools.isLower x || _) ds = true
  exact runs_digits hd (by simp [hx])

theorem camelStep_none {t : Bytes} {f : Bool} (h : camelStep f t = none) :
    ∀ q y b, t = q ++ 95 :: y :: b → isAlnum y = true → runs f q = false := by
  induction t generalizing f with
  | nil => intro q y b e; cases q <;> cases e
  | cons c t ih =>
    intro q y b e hy
    simp only [camelStep] at h
    cases hr : camelStep (SpecTools.isLower c || (f && SpecTools.isDigit c)) t with
    | some r => rw [hr] at h; cases h
    | none =>
      rw [hr] at h
      cases q with
      | nil =>
        injection e with e1 e2
        subst e1 e2
        cases f with
        | false => rfl
        | true => simp [hy] at h
      | cons d q =>
        injection e with e1 e2
        subst e1
        exact ih hr q y b e2 hy

theorem camelStep_some {t r : Bytes} {f : Bool} (h : camelStep f t = some r) :
    ∃ q y b, t = q ++ 95 :: y :: b ∧ isAlnum y = true ∧ runs f q = true ∧ r = q ++ upper y :: b ∧
      ∀ q' y' b', t = q' ++ 95 :: y' :: b' → isAlnum y' = true → runs f q' = true → b.length ≤ b'.length := by
  induction t generalizing f r with
  | nil => cases h
  | cons c t ih =>
    simp only [camelStep] at h
    cases hr : camelStep (SpecTools.isLower c || (f && SpecTools.isDigit c)) t with
    | some s =>
      rw [hr] at h
      cases h
      obtain ⟨q, y, b, e, hy, hq, rfl, hm⟩ := ih hr
      refine ⟨c :: q, y, b, by simp [e], hy, hq, rfl, ?_⟩
      intro q' y' b' e' hy' hq'
      cases q' with
      | nil =>
        cases e'
        have : (y' :: b').length = (q ++ 95 :: y :: b).length := by rw [e]
        simp at this
        omega
      | cons d q' =>
        cases e'
        exact hm q' y' b' rfl hy' hq'
    | none =>
      rw [hr] at h
      cases hc : (f && c == 95) with
      | false => rw [hc] at h; cases t <;> cases h
      | true =>
        rw [hc] at h
        simp only [Bool.and_eq_true, beq_iff_eq] at hc
        cases t with
        | nil => cases h
        | cons y b =>
          dsimp only at h
          split at h
          · rename_i hy
            cases h
            refine ⟨[], y, b, by simp [hc.2], hy, hc.1, rfl, ?_⟩
            intro q' y' b' e' hy' hq'
            cases q' with
            | nil => cases e'; exact Nat.le_refl _
            | cons d q' =>
              injection e' with e1 e2
              subst e1
              rw [e2] at hr
              have := camelStep_none hr q' y' b' rfl hy'
              rw [show runs f (c :: q') = runs (SpecTools.isLower c || (f && SpecTools.isDigit c)) q' from rfl, this] at hq'
              cases hq'
          · cases h

theorem camelStep_step {t r : Bytes} (h : camelStep false t = some r) : Step t r := by
  obtain ⟨q, y, b, e, hy, hq, rfl, hm⟩ := camelStep_some h
  obtain ⟨a, x, ds, rfl, hx, hd⟩ := runs_true hq
  refine ⟨a, x, ds, y, b, ⟨by simp [e], hx, hd, hy⟩, ?_, by simp⟩
  intro a' x' ds' y' b' hs
  exact hm (a' ++ x' :: ds') y' b' (by simp [hs.eq]) hs.hy (runs_of hs.hx hs.hds _)

theorem camelStep_done {t : Bytes} (h : camelStep false t = none) : ¬ HasSnake t := by
  rintro ⟨a, x, ds, y, b, hs⟩
  have := camelStep_none h (a ++ x :: ds) y b (by simp [hs.eq]) hs.hy
  rw [runs_of hs.hx hs.hds] at this
  cases this

/-- Rewrite all underscores that are to be rewritten, with a bound on their number. -/
def camelLine : Nat → Bytes → Option Bytes
  | 0, _ => none
  | n + 1, t =>
      match camelStep false t with
      | none => some t
      | some r => camelLine n r

theorem camelLine_eq {n : Nat} {t r : Bytes} (h : camelLine n t = some r) : Steps t r ∧ ¬ HasSnake r := by
  induction n generalizing t with
  | zero => cases h
  | succ n ih =>
    simp only [camelLine] at h
    cases hs : camelStep false t with
    | none => rw [hs] at h; cases h; exact ⟨.refl, camelStep_done hs⟩
    | some t' =>
      rw [hs] at h
      have := ih h
      exact ⟨.step (camelStep_step hs) this.1, this.2⟩

/-- All lines. -/
def camelLines (n : Nat) : List Bytes → Option (List Bytes)
  | [] => some []
  | l :: ls =>
      match camelLine n l, camelLines n ls with
      | some l', some ls' => some (l' :: ls')
      | _, _ => none

theorem camelLines_eq {n : Nat} {ls ls' : List Bytes} (h : camelLines n ls = some ls') :
    Linewise (fun l l' => Steps l l' ∧ ¬ HasSnake l') ls ls' := by
  induction ls generalizing ls' with
  | nil => cases h; exact .nil
  | cons l ls ih =>
    simp only [camelLines] at h
    cases h1 : camelLine n l with
    | none => rw [h1] at h; cases h
    | some l' =>
      cases h2 : camelLines n ls with
      | none => rw [h1, h2] at h; cases h
      | some ls'' =>
        rw [h1, h2] at h
        cases h
        exact .cons (camelLine_eq h1) (ih h2)

/-- What the tool does, from what `camelLines` does. -/
theorem camel_eq {n fuel : Nat} {t r : Bytes} (hf : t.count 95 + 2 ≤ fuel) (h : camelLines n (lines t) = some (lines r)) :
    snake2camel fuel t = .ok r :=
  (C52_exact hf).mpr (camelLines_eq h)

end Urn.Tools
