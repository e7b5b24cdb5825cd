import Verif.RunBase
/-!
# Runs through the prefix `urn:`
-/
namespace Urn
open Tables Spec

variable {m0 : Machine} {s : Bytes}

/-- A run from position `p` that ends with the result `r`, within the step bound. -/
def Gives (m0 : Machine) (s : Bytes) (cs p : Nat) (pb : Int) (o : URN) (r : Res) : Prop :=
  Ends m0 s (2 * (s.length - p) + 10) (cfg m0 s cs p pb o) r.1 r.2

theorem Gives.bad {cs p : Nat} {pb : Int} {o : URN} {c : UInt8} {k : ErrKind} {p' : Nat}
    (hc : s[p]? = some c) (h0 : cs ≠ 0)
    (h : Raises m0 s (tab cs c).2 (tab cs c).1 p pb o ⟨k, p'⟩) :
    Gives m0 s cs p pb o (bad k p') :=
  Ends.mono (Ends.bad hc h0 h) (by omega)

theorem Gives.eofBad {cs p : Nat} {pb : Int} {o : URN} {acts : List Act} {k : ErrKind} {p' : Nat}
    (hp : p = s.length) (ha : eofTab cs = some acts) (h : Raises m0 s acts cs p pb o ⟨k, p'⟩) :
    Gives m0 s cs p pb o (Urn.bad k p') := by
  subst hp
  exact Ends.mono (Ends.eofBad ha h) (by omega)

theorem Gives.eofOk {cs p : Nat} {pb pb' : Int} {o o' : URN} {acts : List Act}
    (hp : p = s.length) (ha : eofTab cs = some acts) (hf : 172 ≤ cs) (hf' : cs ≠ 193)
    (h : execActs acts (mk m0 s cs p pb none) o = .ok (.next, mk m0 s cs p pb' none, o')) :
    Gives m0 s cs p pb o (some o', none) := by
  subst hp
  exact Ends.mono (Ends.eofOk ha hf hf' h) (by omega)

theorem Gives.eofNil {cs p : Nat} {pb pb' : Int} {o o' : URN} {acts : List Act}
    (hp : p = s.length) (ha : eofTab cs = some acts) (hf : cs < 172)
    (h : execActs acts (mk m0 s cs p pb none) o = .ok (.next, mk m0 s cs p pb' none, o')) :
    Gives m0 s cs p pb o (none, none) := by
  subst hp
  exact Ends.mono (Ends.eofNil ha hf h) (by omega)

theorem Gives.stop {cs p : Nat} {pb : Int} {o : URN} {c : UInt8}
    (hc : s[p]? = some c) (h0 : cs ≠ 0) (ht : (tab cs c).1 = 0)
    (h : ∃ fl, execActs (tab cs c).2 (mk m0 s 0 p pb none) o = .ok (fl, mk m0 s 0 p pb none, o)) :
    Gives m0 s cs p pb o (none, none) :=
  Ends.mono (Ends.stop hc h0 ht h) (by omega)

theorem Gives.char {cs p t : Nat} {pb pb' : Int} {o o' : URN} {c : UInt8} {r : Res}
    (hc : s[p]? = some c) (ht : Trans m0 s cs c p pb o t pb' o')
    (h : Gives m0 s t (p + 1) pb' o' r) : Gives m0 s cs p pb o r := by
  have := lt_of_get hc
  exact Ends.mono (Ends.char hc ht h) (by omega)

theorem length_of_drop {b : Nat} {r : Bytes} (h : s.drop b = r) (hb : b ≤ s.length) :
    s.length = b + r.length := by
  rw [← h]; simp; omega

/-- Use of `munch_sim` with the bound of `Gives`. -/
theorem Gives.munch {cs p cs' : Nat} {pb pb' : Int} {o o' : URN} {r : Res} {n : Nat}
    (hle : p + n ≤ s.length)
    (H : ∀ b u e, Ends m0 s b (cfg m0 s cs' (p + n) pb' o') u e →
      Ends m0 s (b + 2 * n) (cfg m0 s cs p pb o) u e)
    (h : Gives m0 s cs' (p + n) pb' o' r) : Gives m0 s cs p pb o r :=
  Ends.mono (H _ _ _ h) (by omega)

theorem munch_le {σ} {stp : σ → UInt8 → Option σ} {q : σ} {b : Nat} {l : Bytes}
    (h : s.drop b = l) (hb : b ≤ s.length) : b + (munch stp q l).2.1.length ≤ s.length := by
  have h1 := length_of_drop h hb
  have h2 := congrArg List.length (munch_append stp q l)
  simp at h2
  omega

theorem lit_state (pat : List (UInt8 → Bool)) (l : Bytes) (i : Nat) :
    (munch (litStep pat) i l).1 = i + (munch (litStep pat) i l).2.1.length := by
  induction l generalizing i with
  | nil => rfl
  | cons c r ih =>
    simp only [munch]
    cases h : litStep pat i c with
    | none => rfl
    | some j =>
      have : j = i + 1 := by
        simp only [litStep] at h
        split at h
        · split at h <;> simp_all
        · simp at h
      subst this
      simp only [ih, List.length_cons]
      omega

theorem lit_le (pat : List (UInt8 → Bool)) (l : Bytes) (i : Nat) (hi : i ≤ pat.length) :
    (munch (litStep pat) i l).1 ≤ pat.length := by
  induction l generalizing i with
  | nil => exact hi
  | cons c r ih =>
    simp only [munch]
    cases h : litStep pat i c with
    | none => exact hi
    | some j =>
      apply ih
      simp only [litStep] at h
      split at h
      · rename_i f hf
        have := (List.getElem?_eq_some_iff.mp hf).1
        split at h <;> simp_all
        omega
      · simp at h

/-- Actions of the transitions of the prefix. -/
def preActs (i : Nat) : List Act :=
  if i = 0 then [.mark, .throwPreUrnErr] else if i = 3 then [.setPre] else []

/-- The tables on the prefix, from entry state `base`. -/
def PreTab (base : Nat) : Prop :=
  (∀ i < 4, ∀ c, tab (base + i) c =
    match litStep urnPat i c with
    | some _ => (base + i + 1, preActs i)
    | none => (0, [.errPre])) ∧
  (∀ i < 4, eofTab (base + i) = some [.errPre]) ∧
  (∀ i < 5, base + i ≠ 0 ∧ toStateActions[base + i]? = some 0)

theorem preTab_of {base : Nat}
    (h : ∀ i : Fin 4, ∀ c : Fin 256, tab (base + i) (UInt8.ofFin c) =
      match litStep urnPat i (UInt8.ofFin c) with
      | some _ => (base + i + 1, preActs i)
      | none => (0, [.errPre]))
    (h2 : ∀ i : Fin 4, eofTab (base + i) = some [.errPre])
    (h3 : ∀ i : Fin 5, base + i ≠ 0 ∧ toStateActions[base + (i : Nat)]? = some 0) : PreTab base :=
  ⟨fun i hi c => h ⟨i, hi⟩ c.toFin, fun i hi => h2 ⟨i, hi⟩, fun i hi => h3 ⟨i, hi⟩⟩

theorem preTab1 : PreTab 1 := preTab_of (by rw [tab_eq]; decide +kernel) (by decide +kernel) (by decide +kernel)
theorem preTab44 : PreTab 44 := preTab_of (by rw [tab_eq]; decide +kernel) (by decide +kernel) (by decide +kernel)
theorem preTab83 : PreTab 83 := preTab_of (by rw [tab_eq]; decide +kernel) (by decide +kernel) (by decide +kernel)

theorem sl_zero (p : Nat) : sl s 0 p = s.take p := by simp [sl]

/-- Running the prefix. -/
theorem prefix_run {base : Nat} (hT : PreTab base) {k : Bytes → Bytes → Res}
    (hk : ∀ rest, s.drop 4 = rest → 4 ≤ s.length →
      Gives m0 s (base + 4) 4 0 { «prefix» := s.take 3 } (k (s.take 3) rest)) :
    Gives m0 s base 0 0 {} (refPrefix s k) := by
  obtain ⟨hT1, hT2, hT3⟩ := hT
  have H := munch_sim (m0 := m0) (s := s) (litStep urnPat) (fun i => base + i)
    (fun i p pb o => p = i ∧ pb = 0 ∧ o = if i = 4 then { «prefix» := s.take 3 } else {})
    (by
      rintro i j c p pb o ⟨rfl, rfl, rfl⟩ hc hq
      have hi : p < 4 := by
        simp only [litStep] at hq
        split at hq
        · rename_i f hf; exact (List.getElem?_eq_some_iff.mp hf).1
        · simp at hq
      have hj : j = p + 1 := by
        simp only [litStep] at hq
        split at hq
        · split at hq <;> simp_all
        · simp at hq
      subst hj
      have ht := hT1 p hi c
      simp only [hq] at ht
      have hp := lt_of_get hc
      have h4 : p ≠ 4 := by omega
      refine ⟨0, (if p + 1 = 4 then { «prefix» := s.take 3 } else {}), ⟨rfl, rfl, rfl⟩, (hT3 p (by omega)).1, by rw [ht]; rfl,
        (hT3 (p + 1) (by omega)).1, (hT3 (p + 1) (by omega)).2, ?_⟩
      simp only [h4, if_false, ht]
      rcases (by omega : p = 0 ∨ p = 1 ∨ p = 2 ∨ p = 3) with rfl | rfl | rfl | rfl
      · have : preActs 0 = [.mark, .throwPreUrnErr] := rfl
        rw [this, throw_ok (fun _ h => absurd rfl h)]
        rfl
      · rfl
      · rfl
      · have : preActs 3 = [.setPre] := rfl
        rw [this]
        have h := act_setPre (m0 := m0) (s := s) (cs := base + (3 + 1)) (p := 3) (b := 0) (err := none)
          (o := {}) (by omega) (by omega)
        rw [sl_zero] at h
        exact exec_cons_next h)
    s 0 0 0 {} (by simp) ⟨rfl, rfl, rfl⟩
  obtain ⟨pb', o', ⟨hp, rfl, rfl⟩, hd, hE⟩ := H
  have hle : 0 + (munch (litStep urnPat) 0 s).2.1.length ≤ s.length := munch_le (by simp) (by omega)
  refine Gives.munch (cs := base + 0) hle hE ?_
  have hst := lit_state urnPat s 0
  have hlen := lit_le urnPat s 0 (by decide)
  have hstop := fun c t => munch_stop (litStep urnPat) 0 s (c := c) (t := t)
  unfold refPrefix
  generalize munch (litStep urnPat) 0 s = x at *
  obtain ⟨i, w, r⟩ := x
  simp only at *
  have hi : 0 + w.length = i := by omega
  rw [hi] at hle hd ⊢
  by_cases h4 : i = 4
  · subst h4
    simp only [if_true]
    exact hk r hd (by omega)
  · simp only [h4, if_false]
    have hi4 : i < 4 := by have : urnPat.length = 4 := rfl; omega
    cases r with
    | nil =>
      have : s.length = i := by have := length_of_drop hd hle; simpa using this
      exact Gives.eofBad (by omega) (hT2 i hi4) (raises_of (fun _ _ => rfl))
    | cons c t =>
      obtain ⟨hc, _⟩ := drop_cons hd
      have hs := hstop c t rfl
      have ht := hT1 i hi4 c
      simp only [hs] at ht
      exact Gives.bad hc (hT3 i (by omega)).1 (by rw [ht]; exact raises_of (fun _ _ => rfl))

end Urn
