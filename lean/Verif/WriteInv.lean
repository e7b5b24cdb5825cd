import Verif.WriteTab
import Verif.ConcSeq
/-!
# The writes of a run
-/
set_option autoImplicit false
namespace Urn
open Tables Spec

/-! ## Letters inside escapes -/

/-- Positions (counted from `k`) of the upper case letters inside percent escapes. -/
def escUpper : Nat → Bytes → List Nat
  | k, 37 :: a :: b :: w => (if isUpper a then [k + 1] else []) ++ ((if isUpper b then [k + 2] else []) ++ escUpper (k + 3) w)
  | k, _ :: w => escUpper (k + 1) w
  | _, [] => []

theorem escUpper_cons {k : Nat} {c : UInt8} {w : Bytes} (h : c ≠ 37) : escUpper k (c :: w) = escUpper (k + 1) w := by
  rw [escUpper.eq_2]
  rintro a b w' h1 _
  exact h h1

theorem ups_escUpper : ∀ (n : Nat) (w : Bytes) (k : Nat), w.length ≤ n → escs .plain w = .plain →
    ups .plain k w = (escUpper k w).map Int.ofNat := by
  intro n
  induction n with
  | zero => intro w k h _; have : w = [] := List.length_eq_zero_iff.mp (by omega); subst this; rfl
  | succ n ih =>
    intro w k hl h
    cases w with
    | nil => rfl
    | cons c w =>
      by_cases hc : c = 37
      · subst hc
        match w with
        | [] => simp [escs, Esc.adv] at h
        | [a] => simp [escs, Esc.adv] at h
        | a :: b :: w =>
          have h' : escs .plain w = .plain := by simpa [escs, Esc.adv] using h
          have := ih w (k + 3) (by simp at hl; omega) h'
          simp only [ups, escUpper, Esc.adv, if_true, List.map_append]
          rw [this]
          simp only [ne_eq, not_true_eq_false, false_and, if_false, List.nil_append, reduceCtorEq, not_false_eq_true, true_and]
          congr 1
          · split <;> simp
          · congr 1
            split <;> simp
            omega
      · have h' : escs .plain w = .plain := by simpa [escs, Esc.adv, hc] using h
        rw [escUpper_cons hc]
        simp only [ups, Esc.adv, hc, if_false, ne_eq, not_true_eq_false, false_and, List.nil_append]
        exact ih w (k + 1) (by simp at hl; omega) h'

/-- Members of the list are upper case letters inside escapes. -/
theorem escUpper_mem : ∀ (n : Nat) (w : Bytes) (k j : Nat), w.length ≤ n → j ∈ escUpper k w →
    ∃ i c, j = k + i ∧ w[i]? = some c ∧ isUpper c = true ∧ ((1 ≤ i ∧ w[i - 1]? = some 37) ∨ (2 ≤ i ∧ w[i - 2]? = some 37)) := by
  intro n
  induction n with
  | zero => intro w k j h hj; have : w = [] := List.length_eq_zero_iff.mp (by omega); subst this; simp [escUpper] at hj
  | succ n ih =>
    intro w k j hl hj
    cases w with
    | nil => simp [escUpper] at hj
    | cons c w =>
      have key : ∀ (pre v : Bytes), pre.length ≤ 3 → 1 ≤ pre.length → v.length ≤ n → j ∈ escUpper (k + pre.length) v →
          ∃ i c, j = k + i ∧ (pre ++ v)[i]? = some c ∧ isUpper c = true ∧
            ((1 ≤ i ∧ (pre ++ v)[i - 1]? = some 37) ∨ (2 ≤ i ∧ (pre ++ v)[i - 2]? = some 37)) := by
        intro pre v _ _ hv hj
        obtain ⟨i, c, h1, h2, h3, h4⟩ := ih v (k + pre.length) j hv hj
        refine ⟨pre.length + i, c, by omega, ?_, h3, ?_⟩
        · rw [List.getElem?_append_right (by omega)]; simpa using h2
        · rcases h4 with ⟨h4, h5⟩ | ⟨h4, h5⟩
          · left; refine ⟨by omega, ?_⟩
            rw [List.getElem?_append_right (by omega), show pre.length + i - 1 - pre.length = i - 1 by omega]; exact h5
          · right; refine ⟨by omega, ?_⟩
            rw [List.getElem?_append_right (by omega), show pre.length + i - 2 - pre.length = i - 2 by omega]; exact h5
      by_cases hc : c = 37
      · subst hc
        match w with
        | [] => simp [escUpper] at hj
        | [a] =>
          rw [escUpper.eq_2 _ _ _ (by rintro a b w' h1; simp)] at hj
          exact key [37] [a] (by simp) (by simp) (by simp at hl ⊢; omega) hj
        | a :: b :: w =>
          simp only [escUpper, List.mem_append] at hj
          rcases hj with hj | hj | hj
          · split at hj
            · rename_i hu; simp at hj; exact ⟨1, a, hj, rfl, hu, Or.inl ⟨by omega, rfl⟩⟩
            · simp at hj
          · split at hj
            · rename_i hu; simp at hj; exact ⟨2, b, hj, rfl, hu, Or.inr ⟨by omega, rfl⟩⟩
            · simp at hj
          · exact key [37, a, b] w (by simp) (by simp) (by simp at hl; omega) hj
      · rw [escUpper_cons hc] at hj
        exact key [c] w (by simp) (by simp) (by simp at hl; omega) hj

theorem escUpper_ge {w : Bytes} {k j : Nat} (h : j ∈ escUpper k w) : k < j ∧ j < k + w.length := by
  obtain ⟨i, c, h1, h2, _, h4⟩ := escUpper_mem _ w k j (Nat.le_refl _) h
  have := lt_of_get h2
  rcases h4 with h4 | h4 <;> omega

theorem escUpper_sorted : ∀ (n : Nat) (w : Bytes) (k : Nat), w.length ≤ n → (escUpper k w).Pairwise (· < ·) := by
  intro n
  induction n with
  | zero => intro w k h; have : w = [] := List.length_eq_zero_iff.mp (by omega); subst this; simp [escUpper]
  | succ n ih =>
    intro w k hl
    match w with
    | [] => simp [escUpper]
    | c :: w =>
      by_cases hc : c = 37
      · subst hc
        match w with
        | [] => simp [escUpper]
        | [a] =>
          rw [escUpper.eq_2 _ _ _ (by rintro a b w' h1; simp)]
          exact ih [a] _ (by simp at hl ⊢; omega)
        | a :: b :: w =>
          simp only [escUpper]
          have h0 := ih w (k + 3) (by simp at hl; omega)
          have h1 : ∀ j ∈ escUpper (k + 3) w, k + 3 < j := fun j hj => (escUpper_ge hj).1
          rw [List.pairwise_append, List.pairwise_append]
          refine ⟨by split <;> simp, ⟨by split <;> simp, h0, ?_⟩, ?_⟩
          · intro x hx y hy
            have := h1 y hy
            split at hx <;> simp at hx; omega
          · intro x hx y hy
            split at hx <;> simp at hx
            rw [List.mem_append] at hy
            rcases hy with hy | hy
            · split at hy <;> simp at hy; omega
            · have := h1 y hy; omega
      · rw [escUpper_cons hc]
        exact ih w _ (by simp at hl; omega)

/-- Escapes are `%` and two letters or digits; the last one may be incomplete. -/
def EscOk (w : Bytes) : Prop := ∀ i c, w[i]? = some c → escs .plain (w.take i) ≠ .plain → isAlnum c = true

theorem escUpper_of : ∀ (n : Nat) (w : Bytes) (k x : Nat), w.length ≤ n → EscOk w → escs .plain w = .plain → UpperEscape w x → k + x ∈ escUpper k w := by
  intro n
  induction n with
  | zero =>
    intro w k x h _ _ hu
    have : w = [] := List.length_eq_zero_iff.mp (by omega)
    subst this
    obtain ⟨c, h1, _⟩ := hu
    simp at h1
  | succ n ih =>
    intro w k x hl hok hpl hu
    cases w with
    | nil => obtain ⟨c, h1, _⟩ := hu; simp at h1
    | cons c w =>
      by_cases hc : c = 37
      · subst hc
        match w with
        | [] => simp [escs, Esc.adv] at hpl
        | [a] => simp [escs, Esc.adv] at hpl
        | a :: b :: w =>
          have ha : isAlnum a = true := hok 1 a rfl (by simp [escs, Esc.adv])
          have hb : isAlnum b = true := hok 2 b rfl (by simp [escs, Esc.adv])
          have ha' : a ≠ 37 := by rintro rfl; simp [isAlnum, isDigit, isAlpha, isUpper, isLower] at ha
          have hb' : b ≠ 37 := by rintro rfl; simp [isAlnum, isDigit, isAlpha, isUpper, isLower] at hb
          have hok' : EscOk w := by
            intro i c h1 h2
            exact hok (i + 3) c (by simpa using h1) (by simpa [escs, Esc.adv] using h2)
          have hpl' : escs .plain w = .plain := by simpa [escs, Esc.adv] using hpl
          simp only [escUpper, List.mem_append]
          obtain ⟨u, h1, h2, h3⟩ := hu
          match x with
          | 0 => simp at h1; subst h1; simp [isUpper] at h2
          | 1 => simp at h1; subst h1; left; simp [h2]
          | 2 => simp at h1; subst h1; right; left; simp [h2]
          | x + 3 =>
            right; right
            have : k + (x + 3) = (k + 3) + x := by omega
            rw [this]
            refine ih w (k + 3) x (by simp at hl; omega) hok' hpl' ⟨u, by simpa using h1, h2, ?_⟩
            match x with
            | 0 => simp [ha', hb'] at h3
            | 1 => simp [hb'] at h3; left; simpa using h3
            | x + 2 => simpa using h3
      · have hok' : EscOk w := by
          intro i c' h1 h2
          exact hok (i + 1) c' (by simpa using h1) (by simpa [escs, Esc.adv, hc] using h2)
        have hpl' : escs .plain w = .plain := by simpa [escs, Esc.adv, hc] using hpl
        rw [escUpper_cons hc]
        obtain ⟨u, h1, h2, h3⟩ := hu
        match x with
        | 0 => simp at h3
        | x + 1 =>
          have : k + (x + 1) = (k + 1) + x := by omega
          rw [this]
          refine ih w (k + 1) x (by simp at hl; omega) hok' hpl' ⟨u, by simpa using h1, h2, ?_⟩
          match x with
          | 0 => simp [hc] at h3
          | 1 => simp [hc] at h3; left; simpa using h3
          | x + 2 => simpa using h3

/-- The list holds exactly the positions of upper case letters in escapes. -/
theorem escUpper_iff {w : Bytes} (h1 : EscOk w) (h2 : escs .plain w = .plain) (k j : Nat) :
    j ∈ escUpper k w ↔ k ≤ j ∧ UpperEscape w (j - k) := by
  constructor
  · intro h
    obtain ⟨i, c, e1, e2, e3, e4⟩ := escUpper_mem _ w k j (Nat.le_refl _) h
    refine ⟨by omega, c, ?_⟩
    rw [show j - k = i by omega]
    exact ⟨e2, e3, e4⟩
  · rintro ⟨h3, h4⟩
    have := escUpper_of _ w k _ (Nat.le_refl _) h1 h2 h4
    rwa [show k + (j - k) = j by omega] at this

/-! ## The two loops -/

theorem set_getD_ne {d : Bytes} {i j : Nat} {v : UInt8} (h : i ≠ j) : (d.set i v).getD j 0 = d.getD j 0 := by
  simp [List.getD_eq_getElem?_getD, List.getElem?_set_ne h]

theorem set_getD_eq {d : Bytes} {i : Nat} {v : UInt8} (h : i < d.length) : (d.set i v).getD i 0 = v := by
  simp [List.getD_eq_getElem?_getD, h]

/-- A loop over distinct positions writes each of them once. -/
theorem shiftW_eq {b : Nat} {delta : UInt8} {L : List Nat} : ∀ {d : Bytes}, L.Pairwise (· < ·) →
    shiftW b delta (L.map Int.ofNat) d = L.map (fun j => (b + j, d.getD (b + j) 0 + delta)) := by
  induction L with
  | nil => intro d _; rfl
  | cons i L ih =>
    intro d hs
    rw [List.pairwise_cons] at hs
    have e : ((b : Int) + Int.ofNat i).toNat = b + i := by simp; omega
    simp only [List.map_cons, shiftW, e]
    rw [ih hs.2]
    congr 1
    refine List.map_congr_left ?_
    intro j hj
    have := hs.1 j hj
    rw [set_getD_ne (by omega)]

theorem shiftAll_keep {b : Nat} {delta : UInt8} {L : List Nat} : ∀ {d d' : Bytes}, shiftAll b delta (L.map Int.ofNat) d = .ok d' →
    d'.length = d.length ∧ ∀ i, (∀ j ∈ L, b + j ≠ i) → d'.getD i 0 = d.getD i 0 := by
  induction L with
  | nil => intro d d' h; simp [shiftAll] at h; subst h; exact ⟨rfl, fun _ _ => rfl⟩
  | cons i L ih =>
    intro d d' h
    simp only [List.map_cons, shiftAll] at h
    obtain ⟨c, h1, hA⟩ := bind_ok h
    obtain ⟨d1, h2, hB⟩ := bind_ok hA
    obtain ⟨_, _, h6⟩ := store_ok h2
    have e : ((b : Int) + Int.ofNat i).toNat = b + i := by simp; omega
    rw [e] at h6
    obtain ⟨g1, g2⟩ := ih hB
    refine ⟨by rw [g1, h6, List.length_set], ?_⟩
    intro j hj
    simp at hj
    rw [g2 j hj.2, h6, set_getD_ne (by omega)]

theorem shiftAll_get {b : Nat} {delta : UInt8} {L : List Nat} : ∀ {d d' : Bytes}, L.Pairwise (· < ·) →
    shiftAll b delta (L.map Int.ofNat) d = .ok d' → ∀ j ∈ L, d'.getD (b + j) 0 = d.getD (b + j) 0 + delta := by
  induction L with
  | nil => intro d d' _ _ j hj; simp at hj
  | cons i L ih =>
    intro d d' hs h j hj
    rw [List.pairwise_cons] at hs
    have e : ((b : Int) + Int.ofNat i).toNat = b + i := by simp; omega
    simp only [List.map_cons, shiftAll] at h
    obtain ⟨c, h1, hA⟩ := bind_ok h
    obtain ⟨d1, h2, hB⟩ := bind_ok hA
    obtain ⟨_, _, h3⟩ := index_ok h1
    obtain ⟨h4, h5, h6⟩ := store_ok h2
    rw [e] at h3 h6
    simp only [List.mem_cons] at hj
    rcases hj with hj | hj
    · rw [hj, (shiftAll_keep hB).2 (b + i) (fun j hj => by have := hs.1 j hj; omega), h6, set_getD_eq (by simp at h5; omega), h3]
    · have := hs.1 j hj
      rw [ih hs.2 hB j hj, h6, set_getD_ne (by omega)]

/-- The second loop undoes the first. -/
theorem shiftAll_undo {b : Nat} {delta : UInt8} {L : List Nat} {d d1 d2 : Bytes} (hs : L.Pairwise (· < ·))
    (h1 : shiftAll b delta (L.map Int.ofNat) d = .ok d1) (h2 : shiftAll b (-delta) (L.map Int.ofNat) d1 = .ok d2) : d2 = d := by
  have l1 := shiftAll_keep h1
  have l2 := shiftAll_keep h2
  have key : ∀ i, d2.getD i 0 = d.getD i 0 := by
    intro i
    by_cases hi : ∃ j ∈ L, b + j = i
    · obtain ⟨j, hj, rfl⟩ := hi
      rw [shiftAll_get hs h2 j hj, shiftAll_get hs h1 j hj, UInt8.add_assoc, UInt8.add_right_neg, UInt8.add_zero]
    · have hi' : ∀ j ∈ L, b + j ≠ i := fun j hj h => hi ⟨j, hj, h⟩
      rw [l2.2 i hi', l1.2 i hi']
  refine List.ext_getElem (by rw [l2.1, l1.1]) ?_
  intro i h1 h2
  have := key i
  rw [List.getD_eq_getElem?_getD, List.getD_eq_getElem?_getD, List.getElem?_eq_getElem h1, List.getElem?_eq_getElem h2] at this
  simpa using this

/-! ## The invariant -/

/-- Number of colons. -/
def colons (w : Bytes) : Nat := w.count 58

/-- The specific string of `s`, which starts after the colon number `k`, is between `b` and `e`. -/
structure NssAt (s : Bytes) (k b e : Nat) : Prop where
  le : b ≤ e
  bound : e ≤ s.length
  colon : 1 ≤ b ∧ s[b - 1]? = some 58
  count : colons (s.take b) = k
  inside : ∀ c ∈ sl s b e, c ≠ 63 ∧ c ≠ 35
  ok : EscOk (sl s b e)
  esc : escs .plain (sl s b e) = .plain
  stop : e = s.length ∨ s[e]? = some 63 ∨ s[e]? = some 35

/-- The writes of a call: the letters inside the escapes of the specific string are first
lowercased and then restored. -/
def Good (s : Bytes) (k : Nat) (W : List (Nat × UInt8)) : Prop :=
  ∃ b e, NssAt s k b e ∧
    W = (escUpper b (sl s b e)).map (fun j => (j, lower (s.getD j 0))) ++
        (escUpper b (sl s b e)).map (fun j => (j, s.getD j 0))

theorem escUpper_shift : ∀ (n : Nat) (w : Bytes) (k b : Nat), w.length ≤ n → escUpper (b + k) w = (escUpper k w).map (b + ·) := by
  intro n
  induction n with
  | zero => intro w k b h; have : w = [] := List.length_eq_zero_iff.mp (by omega); subst this; rfl
  | succ n ih =>
    intro w k b hl
    match w with
    | [] => rfl
    | c :: w =>
      by_cases hc : c = 37
      · subst hc
        match w with
        | [] => rfl
        | [a] =>
          have e2 : ∀ k, escUpper k [37, a] = escUpper (k + 1) [a] := fun k => escUpper.eq_2 _ _ _ (by rintro a b w' h1; simp)
          rw [e2, e2]
          exact ih [a] (k + 1) b (by simp at hl ⊢; omega)
        | x :: y :: w =>
          have := ih w (k + 3) b (by simp at hl; omega)
          simp only [escUpper, List.map_append, ← this, Nat.add_assoc]
          congr 1
          · split <;> simp
          · congr 1
            split <;> simp
      · rw [escUpper_cons hc, escUpper_cons hc]
        exact ih w (k + 1) b (by simp at hl; omega)

/-- What is known of a state of class `nss`: `n` bytes have been read. -/
structure InNss (s : Bytes) (k : Nat) (h : Esc) (n : Nat) (pb : Int) (o : URN) (b : Nat) : Prop where
  pb : pb = b
  le : b ≤ n
  bound : n ≤ s.length
  colon : 1 ≤ b ∧ s[b - 1]? = some 58
  count : colons (s.take b) = k
  inside : ∀ c ∈ sl s b n, c ≠ 63 ∧ c ≠ 35
  ok : EscOk (sl s b n)
  low : o.tolower = ups .plain 0 (sl s b n)
  esc : escs .plain (sl s b n) = h

/-- The invariant, after `n` bytes. -/
def J (s : Bytes) (K : Nat) (cs : Nat) (n : Nat) (pb : Int) (o : URN) : Prop :=
  cs < 194 ∧ n ≤ s.length ∧ match cls cs with
  | .pre k K' => K' = K ∧ o.tolower = [] ∧ colons (s.take n) = k
  | .ready k => k = K ∧ o.tolower = [] ∧ colons (s.take n) = k ∧ 1 ≤ n ∧ s[n - 1]? = some 58
  | .nss k h => k = K ∧ ∃ b, InNss s k h n pb o b
  | .post => True


/-! ## Actions -/

theorem quiet_act {a : Act} {m m' : Machine} {o o' : URN} {fl : Flow} (hq : quiet a = true) (h : execAct a m o = .ok (fl, m', o')) :
    m'.data = m.data ∧ m'.pe = m.pe ∧ m'.eof = m.eof ∧ o'.tolower = o.tolower ∧ m'.pb = m.pb ∧ actW a m o = [] ∧
      ((fl = .next ∧ m'.p = m.p ∧ m'.cs = m.cs) ∨ (fl = .again ∧ m'.cs = 193 ∧ m'.p = m.p - 1)) := by
  cases a <;> simp only [quiet, Bool.false_eq_true] at hq
  case throwPreUrnErr =>
    simp only [execAct] at h
    split at h
    · split at h
      · obtain ⟨c, h1, h⟩ := bind_ok h
        split at h <;>
        · simp only [raise, pure, Except.pure, Except.ok.injEq, Prod.mk.injEq] at h
          obtain ⟨rfl, rfl, rfl⟩ := h
          simp [actW, enFail]
      · simp only [Except.ok.injEq, Prod.mk.injEq] at h
        obtain ⟨rfl, rfl, rfl⟩ := h
        simp [actW]
    · simp only [Except.ok.injEq, Prod.mk.injEq] at h
      obtain ⟨rfl, rfl, rfl⟩ := h
      simp [actW]
  case setScimType =>
    simp only [execAct] at h
    obtain ⟨t, h1, h⟩ := bind_ok h
    cases hs : o.scim with
    | none => simp [hs] at h
    | some sc =>
      simp only [hs, pure, Except.pure, Except.ok.injEq, Prod.mk.injEq] at h
      obtain ⟨rfl, rfl, rfl⟩ := h
      simp [actW]
  case setScimName | setScimOther =>
    all_goals
      simp only [execAct] at h
      cases hs : o.scim with
      | none => simp [hs] at h
      | some sc =>
        simp only [hs] at h
        obtain ⟨t, h1, h⟩ := bind_ok h
        simp only [pure, Except.pure, Except.ok.injEq, Prod.mk.injEq] at h
        obtain ⟨rfl, rfl, rfl⟩ := h
        simp [actW]
  case setPre | setNid | setRComponent | setQComponent | setFComponent =>
    all_goals
      simp only [execAct] at h
      obtain ⟨t, h1, h⟩ := bind_ok h
      simp only [pure, Except.pure, Except.ok.injEq, Prod.mk.injEq] at h
      obtain ⟨rfl, rfl, rfl⟩ := h
      simp [actW]
  case errPre | errNid | errNss | errUrn | baseType | errScimNid | errScimType | errScimName | scimType |
      createScim | errNss8141 | errNid8141 | rfc8141Type | informalNidMatch | errMalformedR | errMalformedQ =>
    all_goals
      simp only [execAct, raise, Except.ok.injEq, Prod.mk.injEq] at h
      obtain ⟨rfl, rfl, rfl⟩ := h
      simp [actW, enFail]
  case errHex | errScimOther | markRStart | markQStart =>
    all_goals
      simp only [execAct] at h
      split at h <;>
      · simp only [raise, Except.ok.injEq, Prod.mk.injEq] at h
        obtain ⟨rfl, rfl, rfl⟩ := h
        simp [actW, enFail]
  case markScim =>
    simp only [execAct] at h
    cases hs : o.scim with
    | none => simp [hs] at h
    | some sc =>
      simp only [hs, Except.ok.injEq, Prod.mk.injEq] at h
      obtain ⟨rfl, rfl, rfl⟩ := h
      simp [actW]

theorem actsW_cons_next {a : Act} {as : List Act} {m m' : Machine} {o o' : URN} (h : execAct a m o = .ok (.next, m', o')) :
    actsW (a :: as) m o = actW a m o ++ actsW as m' o' := by simp only [actsW, h]

theorem actsW_cons_again {a : Act} {as : List Act} {m m' : Machine} {o o' : URN} (h : execAct a m o = .ok (.again, m', o')) :
    actsW (a :: as) m o = actW a m o := by simp only [actsW, h, List.append_nil]

theorem execActs_cons {a : Act} {as : List Act} {m m' : Machine} {o o' : URN} {fl : Flow} (h : execActs (a :: as) m o = .ok (fl, m', o')) :
    (∃ m1 o1, execAct a m o = .ok (.next, m1, o1) ∧ execActs as m1 o1 = .ok (fl, m', o')) ∨
    (fl = .again ∧ execAct a m o = .ok (.again, m', o')) := by
  simp only [execActs] at h
  obtain ⟨⟨f, m1, o1⟩, h1, h⟩ := bind_ok h
  cases f with
  | next => exact Or.inl ⟨m1, o1, h1, h⟩
  | again =>
    simp only [pure, Except.pure, Except.ok.injEq, Prod.mk.injEq] at h
    obtain ⟨rfl, rfl, rfl⟩ := h
    exact Or.inr ⟨rfl, h1⟩

/-- Frame of a block: what all blocks preserve. -/
structure Frame (m m' : Machine) : Prop where
  data : m'.data = m.data
  pe : m'.pe = m.pe
  eof : m'.eof = m.eof

theorem quiet_acts {as : List Act} : ∀ {m m' : Machine} {o o' : URN} {fl : Flow}, as.all quiet = true → execActs as m o = .ok (fl, m', o') →
    Frame m m' ∧ o'.tolower = o.tolower ∧ m'.pb = m.pb ∧ actsW as m o = [] ∧
      ((fl = .next ∧ m'.p = m.p ∧ m'.cs = m.cs) ∨ (fl = .again ∧ m'.cs = 193 ∧ m'.p = m.p - 1)) := by
  induction as with
  | nil =>
    intro m m' o o' fl _ h
    simp only [execActs, Except.ok.injEq, Prod.mk.injEq] at h
    obtain ⟨rfl, rfl, rfl⟩ := h
    exact ⟨⟨rfl, rfl, rfl⟩, rfl, rfl, rfl, Or.inl ⟨rfl, rfl, rfl⟩⟩
  | cons a as ih =>
    intro m m' o o' fl hq h
    simp only [List.all_cons, Bool.and_eq_true] at hq
    rcases execActs_cons h with ⟨m1, o1, h1, h2⟩ | ⟨rfl, h1⟩
    · obtain ⟨e1, e2, e3, e4, e5, e6, e7⟩ := quiet_act hq.1 h1
      obtain ⟨f, f4, f5, f6, f7⟩ := ih hq.2 h2
      rw [actsW_cons_next h1, e6, f6]
      rcases e7 with ⟨_, e7, e8⟩ | ⟨e7, _⟩
      · refine ⟨⟨by rw [f.data, e1], by rw [f.pe, e2], by rw [f.eof, e3]⟩, by rw [f4, e4], by rw [f5, e5], rfl, ?_⟩
        rw [e7, e8] at f7; exact f7
      · simp at e7
    · obtain ⟨e1, e2, e3, e4, e5, e6, e7⟩ := quiet_act hq.1 h1
      rw [actsW_cons_again h1, e6]
      rcases e7 with ⟨e7, _⟩ | ⟨_, e7, e8⟩
      · simp at e7
      · exact ⟨⟨e1, e2, e3⟩, e4, e5, rfl, Or.inr ⟨rfl, e7, e8⟩⟩

/-- Actions other than `set_nss`. -/
theorem noSet_act {a : Act} {m m' : Machine} {o o' : URN} {fl : Flow} (hq : noSet a = true) (h : execAct a m o = .ok (fl, m', o')) :
    Frame m m' ∧ actW a m o = [] ∧ (noSetLow a = true → o'.tolower = o.tolower) ∧
      ((fl = .next ∧ m'.p = m.p ∧ m'.cs = m.cs) ∨ (fl = .again ∧ m'.cs = 193 ∧ m'.p = m.p - 1)) := by
  by_cases hqq : quiet a = true
  · obtain ⟨e1, e2, e3, e4, e5, e6, e7⟩ := quiet_act hqq h
    exact ⟨⟨e1, e2, e3⟩, e6, fun _ => e4, e7⟩
  · cases a <;> simp [quiet] at hqq
    case setNss => simp [noSet] at hq
    all_goals
      simp only [execAct, Except.ok.injEq, Prod.mk.injEq] at h
      obtain ⟨rfl, rfl, rfl⟩ := h
      exact ⟨⟨rfl, rfl, rfl⟩, rfl, by simp [noSetLow], Or.inl ⟨rfl, rfl, rfl⟩⟩

theorem noSet_acts {as : List Act} : ∀ {m m' : Machine} {o o' : URN} {fl : Flow}, as.all noSet = true → execActs as m o = .ok (fl, m', o') →
    Frame m m' ∧ actsW as m o = [] ∧ (as.all noSetLow = true → o'.tolower = o.tolower) ∧
      ((fl = .next ∧ m'.p = m.p ∧ m'.cs = m.cs) ∨ (fl = .again ∧ m'.cs = 193 ∧ m'.p = m.p - 1)) := by
  induction as with
  | nil =>
    intro m m' o o' fl _ h
    simp only [execActs, Except.ok.injEq, Prod.mk.injEq] at h
    obtain ⟨rfl, rfl, rfl⟩ := h
    exact ⟨⟨rfl, rfl, rfl⟩, rfl, fun _ => rfl, Or.inl ⟨rfl, rfl, rfl⟩⟩
  | cons a as ih =>
    intro m m' o o' fl hq h
    simp only [List.all_cons, Bool.and_eq_true] at hq
    rcases execActs_cons h with ⟨m1, o1, h1, h2⟩ | ⟨rfl, h1⟩
    · obtain ⟨e, e6, e4, e7⟩ := noSet_act hq.1 h1
      obtain ⟨f, f6, f4, f7⟩ := ih hq.2 h2
      rw [actsW_cons_next h1, e6, f6]
      rcases e7 with ⟨_, e7, e8⟩ | ⟨e7, _⟩
      · refine ⟨⟨by rw [f.data, e.data], by rw [f.pe, e.pe], by rw [f.eof, e.eof]⟩, rfl, ?_, ?_⟩
        · intro hl
          simp only [List.all_cons, Bool.and_eq_true] at hl
          rw [f4 hl.2, e4 hl.1]
        · rw [e7, e8] at f7; exact f7
      · simp at e7
    · obtain ⟨e, e6, e4, e7⟩ := noSet_act hq.1 h1
      rw [actsW_cons_again h1, e6]
      rcases e7 with ⟨e7, _⟩ | ⟨_, e7, e8⟩
      · simp at e7
      · refine ⟨e, rfl, ?_, Or.inr ⟨rfl, e7, e8⟩⟩
        intro hl
        simp only [List.all_cons, Bool.and_eq_true] at hl
        exact e4 hl.1

theorem noSetLow_noSet {as : List Act} (h : as.all noSetLow = true) : as.all noSet = true := by
  rw [List.all_eq_true] at h ⊢
  intro a ha
  have := h a ha
  cases a <;> simp_all [noSetLow, noSet]

/-- `set_nss` at position `e`. -/
theorem setNss_good {s : Bytes} {k e b : Nat} {m m' : Machine} {o o' : URN} {fl : Flow} (hd : m.data = s)
    (hI : InNss s k .plain e m.pb o b) (hstop : e = s.length ∨ s[e]? = some 63 ∨ s[e]? = some 35)
    (h : execAct .setNss m o = .ok (fl, m', o')) :
    m'.data = s ∧ m'.pe = m.pe ∧ m'.eof = m.eof ∧ m'.p = m.p ∧ m'.cs = m.cs ∧ fl = .next ∧ Good s k (actW .setNss m o) := by
  have hL : o.tolower = (escUpper 0 (sl s b e)).map Int.ofNat := by
    rw [hI.low]; exact ups_escUpper _ _ _ (Nat.le_refl _) hI.esc
  have hs := escUpper_sorted _ (sl s b e) 0 (Nat.le_refl _)
  simp only [execAct] at h
  obtain ⟨ss, h1, h⟩ := bind_ok h
  obtain ⟨d1, h2, h⟩ := bind_ok h
  obtain ⟨nm, h3, h⟩ := bind_ok h
  obtain ⟨d2, h4, h⟩ := bind_ok h
  simp only [pure, Except.pure, Except.ok.injEq, Prod.mk.injEq] at h
  obtain ⟨rfl, rfl, rfl⟩ := h
  have hmem : ∀ j ∈ escUpper 0 (sl s b e), isUpper (s.getD (b + j) 0) = true := by
    intro j hj
    obtain ⟨i, c, e1, e2, e3, _⟩ := escUpper_mem _ _ _ _ (Nat.le_refl _) hj
    have hlt := lt_of_get e2
    rw [sl_length hI.bound] at hlt
    simp only [sl, List.getElem?_take, List.getElem?_drop, if_pos hlt] at e2
    rw [show b + j = b + i by omega]
    simp [List.getD_eq_getElem?_getD, e2, e3]
  rw [hL, hI.pb] at h2 h4
  have g1 := shiftAll_get hs h2
  have hback : d2 = s := by rw [← hd]; exact shiftAll_undo hs h2 h4
  refine ⟨hback, rfl, rfl, rfl, rfl, rfl, b, e, ⟨hI.le, hI.bound, hI.colon, hI.count, hI.inside, hI.ok, hI.esc, hstop⟩, ?_⟩
  simp only [actW, hL, hI.pb, h2]
  rw [shiftW_eq hs, shiftW_eq hs]
  have esh := escUpper_shift _ (sl s b e) 0 b (Nat.le_refl _)
  rw [Nat.add_zero] at esh
  rw [esh]
  simp only [List.map_map]
  congr 1
  · refine List.map_congr_left ?_
    intro j hj
    simp only [Function.comp]
    rw [hd, (upper_shift _ (hmem j hj)).1]
  · refine List.map_congr_left ?_
    intro j hj
    simp only [Function.comp]
    rw [g1 j hj, hd]
    congr 1
    have := upper_shift _ (hmem j hj)
    rw [this.1, this.2]


theorem setsOnce_acts {s : Bytes} {k e b : Nat} {as : List Act} : ∀ {m m' : Machine} {o o' : URN} {fl : Flow}, setsOnce as = true →
    m.data = s → InNss s k .plain e m.pb o b → (e = s.length ∨ s[e]? = some 63 ∨ s[e]? = some 35) →
    execActs as m o = .ok (fl, m', o') →
    Frame m m' ∧ (actsW as m o = [] ∨ Good s k (actsW as m o)) ∧
      ((fl = .next ∧ m'.cs = m.cs) ∨ (fl = .again ∧ m'.cs = 193)) := by
  induction as with
  | nil => intro m m' o o' fl hq; simp [setsOnce] at hq
  | cons a as ih =>
    intro m m' o o' fl hq hd hI hstop h
    by_cases ha : a = .setNss
    · subst ha
      simp only [setsOnce] at hq
      rcases execActs_cons h with ⟨m1, o1, h1, h2⟩ | ⟨rfl, h1⟩
      · obtain ⟨e1, e2, e3, e4, e5, e6, e7⟩ := setNss_good hd hI hstop h1
        obtain ⟨f, f4, f5, f6, f7⟩ := quiet_acts hq h2
        rw [actsW_cons_next h1, f6, List.append_nil]
        refine ⟨⟨by rw [f.data, e1, hd], by rw [f.pe, e2], by rw [f.eof, e3]⟩, Or.inr e7, ?_⟩
        rcases f7 with ⟨g1, _, g2⟩ | ⟨g1, g2, _⟩
        · exact Or.inl ⟨g1, by rw [g2, e5]⟩
        · exact Or.inr ⟨g1, g2⟩
      · obtain ⟨e1, e2, e3, e4, e5, e6, e7⟩ := setNss_good hd hI hstop h1
        simp at e6
    · have hq' : quiet a = true ∧ setsOnce as = true := by
        cases a <;> simp_all [setsOnce]
      rcases execActs_cons h with ⟨m1, o1, h1, h2⟩ | ⟨rfl, h1⟩
      · obtain ⟨e1, e2, e3, e4, e5, e6, e7⟩ := quiet_act hq'.1 h1
        rcases e7 with ⟨_, _, e8⟩ | ⟨e7, _⟩
        · have hI' : InNss s k .plain e m1.pb o1 b :=
            ⟨by rw [e5]; exact hI.pb, hI.le, hI.bound, hI.colon, hI.count, hI.inside, hI.ok, by rw [e4]; exact hI.low, hI.esc⟩
          obtain ⟨f, f6, f7⟩ := ih hq'.2 (by rw [e1, hd]) hI' hstop h2
          rw [actsW_cons_next h1, e6, List.nil_append]
          rw [e8] at f7
          exact ⟨⟨by rw [f.data, e1], by rw [f.pe, e2], by rw [f.eof, e3]⟩, f6, f7⟩
        · simp at e7
      · obtain ⟨e1, e2, e3, e4, e5, e6, e7⟩ := quiet_act hq'.1 h1
        rw [actsW_cons_again h1, e6]
        rcases e7 with ⟨e7, _⟩ | ⟨_, e7, e8⟩
        · simp at e7
        · exact ⟨⟨e1, e2, e3⟩, Or.inl rfl, Or.inr ⟨rfl, e7⟩⟩

/-! ## Steps -/

theorem resume_inv {m : Machine} {o : URN} {st' : St} (h : step ⟨.resume, m, o⟩ = .ok st') :
    ∃ c, index m.data m.p = .ok c ∧
      ((st' = ⟨.out, m, o⟩ ∧ (tab m.cs c).2 = []) ∨ ∃ fl m' o', execActs (tab m.cs c).2 { m with cs := (tab m.cs c).1 } o = .ok (fl, m', o') ∧ st' = ⟨.again, m', o'⟩) := by
  simp only [step] at h
  obtain ⟨c, h1, h⟩ := bind_ok h
  refine ⟨c, h1, ?_⟩
  cases hd : dispatch m.cs c with
  | out =>
    simp only [hd, pure, Except.pure, Except.ok.injEq] at h
    exact Or.inl ⟨h.symm, by simp [tab, hd]⟩
  | tr t =>
    right
    rcases htr : trRow t with ⟨tg, f⟩
    simp only [hd, htr] at h
    simp only [tab, hd, htr]
    cases f with
    | none =>
      simp only [pure, Except.pure, Except.ok.injEq] at h
      exact ⟨.next, { m with cs := tg }, o, rfl, h.symm⟩
    | some f =>
      simp only at h
      obtain ⟨⟨fl, m1, o1⟩, h2, h⟩ := bind_ok h
      simp only [pure, Except.pure, Except.ok.injEq] at h
      exact ⟨fl, m1, o1, h2, h.symm⟩

theorem again_inv {m : Machine} {o : URN} {st' : St} (h : step ⟨.again, m, o⟩ = .ok st') :
    st'.m.cs = 193 ∨ st'.ctl = .out ∨ (st' = ⟨.resume, { m with p := m.p + 1 }, o⟩ ∧ m.p + 1 ≠ m.pe) ∨
      (st' = ⟨.testEof, { m with p := m.p + 1 }, o⟩ ∧ m.p + 1 = m.pe) := by
  simp only [step] at h
  cases ht : toStateActions[m.cs]? with
  | none => rw [ht] at h; simp at h
  | some t =>
    rw [ht] at h
    by_cases h33 : t = 33
    · subst h33
      simp only [execAct, bind, Except.bind, pure, Except.pure, Except.ok.injEq] at h
      subst h
      exact Or.inl rfl
    · by_cases h0 : m.cs = 0
      · simp [h0, pure, Except.pure] at h
        subst h
        exact Or.inr (Or.inl rfl)
      · by_cases hp : m.p + 1 = m.pe
        · simp [h0, hp, pure, Except.pure] at h
          subst h
          exact Or.inr (Or.inr (Or.inr ⟨by simp [hp], hp⟩))
        · simp [h0, hp, pure, Except.pure] at h
          subst h
          exact Or.inr (Or.inr (Or.inl ⟨rfl, hp⟩))

theorem testEof_inv {m : Machine} {o : URN} {st' : St} (h : step ⟨.testEof, m, o⟩ = .ok st') :
    (st'.ctl = .out ∧ m.p ≠ m.eof) ∨ (m.p = m.eof ∧ ∃ as fl m' o', eofTab m.cs = some as ∧ execActs as m o = .ok (fl, m', o') ∧
      st'.m = m' ∧ (fl = .next → st'.ctl = .out) ∧ (fl = .again → st'.ctl = .again)) := by
  simp only [step] at h
  split at h
  · rename_i he
    right
    refine ⟨he, ?_⟩
    cases hn : eofActions[m.cs]? with
    | none => rw [hn] at h; simp at h
    | some n =>
      simp only [hn] at h
      obtain ⟨⟨fl, m1, o1⟩, h2, h⟩ := bind_ok h
      refine ⟨eofActs n, fl, m1, o1, by simp [eofTab, hn], h2, ?_⟩
      cases fl <;>
      · simp only [pure, Except.pure, Except.ok.injEq] at h
        subst h
        simp
  · rename_i he
    simp only [pure, Except.pure, Except.ok.injEq] at h
    subst h
    exact Or.inl ⟨rfl, he⟩

/-- Nothing is written any more. -/
def Over (st : St) : Prop := st.ctl = .out ∨ (st.m.cs < 194 ∧ cls st.m.cs = .post)

theorem over_193 {st : St} (h : st.m.cs = 193) : Over st := Or.inr ⟨by rw [h]; decide, by rw [h]; rfl⟩

theorem chk_get {cs : Nat} (h : cs < 194) (c : UInt8) : chk cs c = true := chk_all ⟨cs, h⟩ c.toFin

theorem eofChk_get {cs : Nat} (h : cs < 194) : eofChk cs = true := eofChk_all ⟨cs, h⟩

theorem over_step {st st' : St} (h : Over st) (hs : step st = .ok st') : stepW st = [] ∧ Over st' := by
  rcases st with ⟨ctl, m, o⟩
  cases ctl with
  | out => simp only [step, pure, Except.pure, Except.ok.injEq] at hs; subst hs; exact ⟨rfl, h⟩
  | resume =>
    obtain ⟨c, h1, h2⟩ := resume_inv hs
    rcases h with h | ⟨hlt, h⟩
    · simp at h
    · simp only at hlt h
      have hc := chk_get hlt c
      simp only [chk, ← tab_eq, h, Bool.and_eq_true, beq_iff_eq, Nat.blt_eq] at hc
      simp only [stepW, h1]
      rcases h2 with ⟨h2', h2⟩ | ⟨fl, m', o', h2, h3⟩
      · rw [h2]; exact ⟨rfl, Or.inl (by rw [h2'])⟩
      · obtain ⟨f, f1, _, f2⟩ := noSet_acts hc.2.1 h2
        subst h3
        refine ⟨f1, ?_⟩
        rcases f2 with ⟨_, _, f2⟩ | ⟨_, f2, _⟩
        · right; simp only [f2]; exact ⟨hc.1, hc.2.2⟩
        · exact over_193 f2
  | again =>
    refine ⟨rfl, ?_⟩
    rcases again_inv hs with h1 | h1 | ⟨h1, _⟩ | ⟨h1, _⟩
    · exact over_193 h1
    · exact Or.inl h1
    all_goals
      subst h1
      rcases h with h | h
      · simp at h
      · exact Or.inr h
  | testEof =>
    rcases h with h | ⟨hlt, h⟩
    · simp at h
    · simp only at hlt h
      simp only [stepW]
      rcases testEof_inv hs with ⟨h1, h2⟩ | ⟨h1, as, fl, m', o', h2, h3, h4, h5, h6⟩
      · rw [if_neg h2]; exact ⟨rfl, Or.inl h1⟩
      · have hc := eofChk_get hlt
        simp only [eofChk, h2, h] at hc
        rw [if_pos h1]
        simp only [h2]
        obtain ⟨f, f1, _, f2⟩ := noSet_acts hc h3
        refine ⟨f1, ?_⟩
        rcases f2 with ⟨f3, _, f2⟩ | ⟨_, f2, _⟩
        · exact Or.inl (h5 f3)
        · exact over_193 (by rw [h4]; exact f2)


/-- The invariant of a run on `s` that has not written yet. -/
structure Inv (s : Bytes) (K : Nat) (st : St) : Prop where
  data : st.m.data = s
  pe : st.m.pe = s.length
  eof : st.m.eof = s.length
  pos : ∃ n : Nat, (st.m.p + if st.ctl = .again then 1 else 0) = n ∧ (st.ctl = .testEof → n = s.length) ∧
    J s K st.m.cs n st.m.pb st.o

theorem index_get {d : Bytes} {n : Nat} {c : UInt8} (h : index d n = .ok c) : d[n]? = some c := by
  obtain ⟨_, h2, h3⟩ := index_ok h
  simp only [Int.toNat_natCast] at h3
  have : n < d.length := by simpa using h2
  rw [← h3, List.getD_eq_getElem?_getD]
  simp [this]

theorem colons_succ {s : Bytes} {n : Nat} {c : UInt8} (h : s[n]? = some c) : colons (s.take (n + 1)) = colons (s.take n) + (if c == 58 then 1 else 0) := by
  have : s.take (n + 1) = s.take n ++ [c] := by rw [List.take_add_one, h]; rfl
  rw [this]
  simp [colons, List.count_append, List.count_cons]

/-- One byte of the specific string. -/
theorem InNss.next {s : Bytes} {k n b : Nat} {h : Esc} {pb : Int} {o o' : URN} {c : UInt8} (hI : InNss s k h n pb o b) (hc : s[n]? = some c)
    (hn1 : c ≠ 63) (hn2 : c ≠ 35) (hal : h = .plain ∨ isAlnum c = true)
    (ho : o'.tolower = o.tolower ++ (if h ≠ .plain ∧ isUpper c = true then [(n : Int) - pb] else [])) :
    InNss s k (h.adv c) (n + 1) pb o' b := by
  have hlt := lt_of_get hc
  have hle := hI.le
  have e := sl_succ hc hI.le
  refine ⟨hI.pb, by omega, by omega, hI.colon, hI.count, ?_, ?_, ?_, ?_⟩
  · intro x hx
    rw [e, List.mem_append] at hx
    rcases hx with hx | hx
    · exact hI.inside x hx
    · simp at hx; subst hx; exact ⟨hn1, hn2⟩
  · intro i x h1 h2
    rw [e] at h1 h2
    by_cases hi : i < (sl s b n).length
    · rw [List.getElem?_append_left hi] at h1
      rw [List.take_append_of_le_length (by omega)] at h2
      exact hI.ok i x h1 h2
    · have hi' := lt_of_get h1
      simp at hi'
      have hi'' : i = (sl s b n).length := by omega
      subst hi''
      simp at h1 h2
      subst h1
      rw [hI.esc] at h2
      rcases hal with h | h
      · exact absurd h h2
      · exact h
  · rw [e, ups_snoc, hI.esc, ← hI.low, ho, sl_length (by omega), hI.pb]
    congr 2
    simp; omega
  · rw [e, escs_snoc, hI.esc]

theorem inv_resume {s : Bytes} {K : Nat} {m : Machine} {o : URN} {st' : St} (hi : Inv s K ⟨.resume, m, o⟩) (hs : step ⟨.resume, m, o⟩ = .ok st') :
    (stepW ⟨.resume, m, o⟩ = [] ∧ (Inv s K st' ∨ Over st')) ∨ (Good s K (stepW ⟨.resume, m, o⟩) ∧ Over st') := by
  obtain ⟨hd, hpe, heof, n, hp, _, hlt, hn, hJ⟩ := hi
  simp only at hd hpe heof hp hJ hlt
  have hp : m.p = n := by simpa using hp
  obtain ⟨c, h1, h2⟩ := resume_inv hs
  have hc := chk_get hlt c
  have hsc : s[n]? = some c := by rw [hd, hp] at h1; exact index_get h1
  have hn1 := lt_of_get hsc
  simp only [stepW, h1]
  rcases h2 with ⟨h2', h2⟩ | ⟨fl, m', o', h2, h3⟩
  · rw [h2]; exact Or.inl ⟨rfl, Or.inr (Or.inl (by rw [h2']))⟩
  subst h3
  simp only [chk, ← tab_eq, Bool.and_eq_true, Nat.blt_eq] at hc
  obtain ⟨htlt, hc⟩ := hc
  -- a state after which nothing is written
  have hpost : cls (tab m.cs c).1 = .post → ((fl = .next ∧ m'.cs = (tab m.cs c).1) ∨ (fl = .again ∧ m'.cs = 193)) → Over ⟨.again, m', o'⟩ := by
    intro hcl hm
    rcases hm with ⟨_, hm⟩ | ⟨_, hm⟩
    · right; simp only [hm]; exact ⟨htlt, hcl⟩
    · exact over_193 hm
  have hinv : Frame m m' → m'.p = m.p → J s K m'.cs (n + 1) m'.pb o' → Inv s K ⟨.again, m', o'⟩ := by
    intro f hp' hj
    exact ⟨by simp only [f.data, hd], by simp only [f.pe, hpe], by simp only [f.eof, heof], n + 1, by simp [hp', hp], by simp, hj⟩
  cases hcl : cls m.cs with
  | post => exact Or.inl (by
      have := over_step (Or.inr ⟨hlt, hcl⟩) hs
      simp only [stepW, h1] at this
      exact ⟨this.1, Or.inr this.2⟩)
  | pre k K' =>
    simp only [hcl, Bool.and_eq_true, Bool.or_eq_true, beq_iff_eq] at hc hJ
    obtain ⟨rfl, ht, hcol⟩ := hJ
    obtain ⟨f, f1, f2, f3⟩ := noSet_acts (noSetLow_noSet hc.1) h2
    refine Or.inl ⟨f1, ?_⟩
    have hcs := colons_succ hsc
    rcases f3 with ⟨g1, g2, g3⟩ | ⟨_, g2, _⟩
    · rcases hc.2 with (hc2 | hc2) | ⟨⟨hc2, hc3⟩, hc4⟩
      · exact Or.inr (hpost hc2 (Or.inl ⟨g1, g3⟩))
      · left
        refine hinv ⟨f.data, f.pe, f.eof⟩ g2 ⟨by rw [g3]; exact htlt, hn1, ?_⟩
        rw [g3]; simp only [hc2]
        refine ⟨trivial, by rw [f2 hc.1, ht], ?_⟩
        rw [hcs, hcol]
        simp only [beq_iff_eq]
        split <;> rfl
      · left
        refine hinv ⟨f.data, f.pe, f.eof⟩ g2 ⟨by rw [g3]; exact htlt, hn1, ?_⟩
        rw [g3]; simp only [hc4]
        refine ⟨trivial, by rw [f2 hc.1, ht], ?_, by omega, by simpa [hc2] using hsc⟩
        rw [hcs, hcol, hc2]; simpa using hc3
    · exact Or.inr (over_193 g2)
  | ready k =>
    simp only [hcl, beq_iff_eq] at hc hJ
    obtain ⟨rfl, ht, hcol, hn0, hprev⟩ := hJ
    split at hc
    · rename_i hpc
      obtain ⟨f, f1, f2, f3⟩ := noSet_acts hc h2
      refine Or.inl ⟨f1, Or.inr (hpost hpc ?_)⟩
      rcases f3 with ⟨g1, g2, g3⟩ | ⟨g1, g2, _⟩
      · exact Or.inl ⟨g1, g3⟩
      · exact Or.inr ⟨g1, g2⟩
    · simp only [Bool.and_eq_true, bne_iff_ne, ne_eq, beq_iff_eq] at hc
      obtain ⟨⟨⟨hc1, hc2⟩, hc3⟩, hc4⟩ := hc
      rcases hts : (tab m.cs c).2 with _ | ⟨a, as⟩
      · rw [hts] at hc1; simp at hc1
      · rw [hts] at hc1 h2
        cases a <;> simp only [Bool.false_eq_true] at hc1
        rcases execActs_cons h2 with ⟨m1, o1, h4, h5⟩ | ⟨rfl, h4⟩
        · rw [actsW_cons_next h4]
          simp only [execAct, Except.ok.injEq, Prod.mk.injEq] at h4
          obtain ⟨_, rfl, rfl⟩ := h4
          obtain ⟨f, f4, f5, f6, f7⟩ := quiet_acts hc1 h5
          rw [f6]
          refine Or.inl ⟨rfl, ?_⟩
          rcases f7 with ⟨g1, g2, g3⟩ | ⟨_, g2, _⟩
          · left
            refine hinv ⟨f.data, f.pe, f.eof⟩ g2 ⟨by rw [g3]; exact htlt, hn1, ?_⟩
            rw [g3]; simp only [hc2]
            refine ⟨trivial, n, ?_⟩
            have h0 : InNss s k .plain n (n : Int) o n := ⟨rfl, Nat.le_refl _, hn, ⟨hn0, hprev⟩, hcol, by simp [sl_self], by simp [sl_self, EscOk], by simp [sl_self, ups, ht], by simp [sl_self, escs]⟩
            rw [f5]
            simp only [hp]
            exact h0.next hsc hc3 hc4 (Or.inl rfl) (by simp [f4])
          · exact Or.inr (over_193 g2)
        · simp [execAct] at h4
  | nss k h =>
    simp only [hcl, beq_iff_eq] at hc hJ
    obtain ⟨rfl, b, hI⟩ := hJ
    split at hc
    · rename_i hpc
      simp only [Bool.or_eq_true, Bool.and_eq_true, beq_iff_eq] at hc
      rcases hc with hc | ⟨⟨hc1, hc2⟩, hc3⟩
      · obtain ⟨f, f4, f5, f6, f7⟩ := quiet_acts hc h2
        refine Or.inl ⟨f6, Or.inr (hpost hpc ?_)⟩
        rcases f7 with ⟨g1, g2, g3⟩ | ⟨g1, g2, _⟩
        · exact Or.inl ⟨g1, g3⟩
        · exact Or.inr ⟨g1, g2⟩
      · subst hc1
        obtain ⟨f, f6, f7⟩ := setsOnce_acts (s := s) (k := k) (e := n) (b := b) (m := { m with cs := (tab m.cs c).1 }) hc2 hd hI
          (Or.inr (by rcases hc3 with rfl | rfl; exact Or.inl hsc; exact Or.inr hsc)) h2
        have := hpost hpc f7
        rcases f6 with f6 | f6
        · exact Or.inl ⟨f6, Or.inr this⟩
        · exact Or.inr ⟨f6, this⟩
    · simp only [Bool.and_eq_true, bne_iff_ne, ne_eq, beq_iff_eq] at hc
      obtain ⟨⟨⟨⟨hc1, hc2⟩, hc3⟩, hal⟩, hc4⟩ := hc
      simp only [Bool.or_eq_true, beq_iff_eq] at hal
      split at hc4
      · rename_i hup
        simp only [beq_iff_eq] at hc4
        rw [hc4] at h2 ⊢
        simp only [execActs, execAct, bind, Except.bind, Except.ok.injEq, Prod.mk.injEq] at h2
        obtain ⟨_, rfl, rfl⟩ := h2
        refine Or.inl ⟨by simp [actsW, actW, execAct], Or.inl (hinv ⟨rfl, rfl, rfl⟩ rfl ⟨htlt, hn1, ?_⟩)⟩
        simp only [hc1]
        exact ⟨trivial, b, hI.next hsc hc2 hc3 hal (by rw [if_pos hup, hp])⟩
      · rename_i hup
        obtain ⟨f, f4, f5, f6, f7⟩ := quiet_acts hc4 h2
        refine Or.inl ⟨f6, ?_⟩
        rcases f7 with ⟨g1, g2, g3⟩ | ⟨g1, g2, _⟩
        · left
          refine hinv ⟨f.data, f.pe, f.eof⟩ g2 ⟨by rw [g3]; exact htlt, hn1, ?_⟩
          rw [g3]; simp only [hc1]
          refine ⟨trivial, b, ?_⟩
          rw [f5]
          exact hI.next hsc hc2 hc3 hal (by rw [if_neg hup, f4, List.append_nil])
        · exact Or.inr (over_193 g2)

theorem inv_step {s : Bytes} {K : Nat} {st st' : St} (hi : Inv s K st) (hs : step st = .ok st') :
    (stepW st = [] ∧ (Inv s K st' ∨ Over st')) ∨ (Good s K (stepW st) ∧ Over st') := by
  rcases st with ⟨ctl, m, o⟩
  cases ctl with
  | resume => exact inv_resume hi hs
  | out => simp only [step, pure, Except.pure, Except.ok.injEq] at hs; subst hs; exact Or.inl ⟨rfl, Or.inr (Or.inl rfl)⟩
  | again =>
    refine Or.inl ⟨rfl, ?_⟩
    obtain ⟨hd, hpe, heof, n, hp, _, hJ⟩ := hi
    simp only [if_true] at hp
    rcases again_inv hs with h1 | h1 | ⟨h1, _⟩ | ⟨h1, h2⟩
    · exact Or.inr (over_193 h1)
    · exact Or.inr (Or.inl h1)
    · subst h1
      exact Or.inl ⟨hd, hpe, heof, n, by simpa using hp, by simp, hJ⟩
    · subst h1
      simp only at hpe
      exact Or.inl ⟨hd, hpe, heof, n, by simpa using hp, fun _ => by omega, hJ⟩
  | testEof =>
    obtain ⟨hd, hpe, heof, n, hp, hn, hlt, _, hJ⟩ := hi
    simp only [forall_const] at hd hpe heof hp hn hJ hlt
    simp only [stepW]
    rcases testEof_inv hs with ⟨h1, h2⟩ | ⟨h1, as, fl, m', o', h2, h3, h4, h5, h6⟩
    · rw [if_neg h2]; exact Or.inl ⟨rfl, Or.inr (Or.inl h1)⟩
    · rw [if_pos h1]
      simp only [h2]
      have hc := eofChk_get hlt
      simp only [eofChk, h2] at hc
      have hov : ((fl = .next ∧ m'.cs = m.cs) ∨ (fl = .again ∧ m'.cs = 193)) → Over st' := by
        rintro (⟨g, _⟩ | ⟨_, g⟩)
        · exact Or.inl (h5 g)
        · exact over_193 (by rw [h4]; exact g)
      have hno : as.all noSet = true → actsW as m o = [] ∧ Over st' := by
        intro hc
        obtain ⟨f, f1, _, f2⟩ := noSet_acts hc h3
        refine ⟨f1, hov ?_⟩
        rcases f2 with ⟨g1, g2, g3⟩ | ⟨g1, g2, _⟩
        · exact Or.inl ⟨g1, g3⟩
        · exact Or.inr ⟨g1, g2⟩
      cases hcl : cls m.cs with
      | nss k h =>
        simp only [hcl, Bool.or_eq_true, Bool.and_eq_true, beq_iff_eq] at hc hJ
        obtain ⟨rfl, b, hI⟩ := hJ
        rcases hc with hc | ⟨rfl, hc⟩
        · obtain ⟨f, f4, f5, f6, f7⟩ := quiet_acts hc h3
          refine Or.inl ⟨f6, Or.inr (hov ?_)⟩
          rcases f7 with ⟨g1, g2, g3⟩ | ⟨g1, g2, _⟩
          · exact Or.inl ⟨g1, g3⟩
          · exact Or.inr ⟨g1, g2⟩
        · obtain ⟨f, f6, f7⟩ := setsOnce_acts (s := s) (k := k) (e := n) (b := b) hc hd hI (Or.inl hn) h3
          rcases f6 with f6 | f6
          · exact Or.inl ⟨f6, Or.inr (hov f7)⟩
          · exact Or.inr ⟨f6, hov f7⟩
      | _ =>
        simp only [hcl] at hc
        have := hno hc
        exact Or.inl ⟨this.1, Or.inr this.2⟩

/-! ## Runs -/

theorem over_run {k : Nat} : ∀ {st : St} {r : Machine × URN}, Over st → run k st = .ok r → runW k st = [] := by
  induction k with
  | zero =>
    intro st r _ h
    rcases st with ⟨ctl, m, o⟩
    cases ctl <;> simp [run] at h
    rfl
  | succ k ih =>
    intro st r ho h
    rcases st with ⟨ctl, m, o⟩
    by_cases hc : ctl = .out
    · subst hc; rfl
    · rw [run.eq_3 _ _ (by rintro m o h; injection h with h; exact hc h)] at h
      cases hs : step ⟨ctl, m, o⟩ with
      | error p => rw [hs] at h; simp at h
      | ok st' =>
        rw [hs] at h
        obtain ⟨h1, h2⟩ := over_step ho hs
        rw [runW.eq_3 _ _ (by rintro m o h; injection h with h; exact hc h), h1, hs]
        simpa using ih h2 h

theorem inv_run {s : Bytes} {K : Nat} {k : Nat} : ∀ {st : St} {r : Machine × URN}, Inv s K st → run k st = .ok r →
    runW k st = [] ∨ Good s K (runW k st) := by
  induction k with
  | zero =>
    intro st r _ h
    rcases st with ⟨ctl, m, o⟩
    cases ctl <;> simp [run] at h
    exact Or.inl rfl
  | succ k ih =>
    intro st r ho h
    rcases st with ⟨ctl, m, o⟩
    by_cases hc : ctl = .out
    · subst hc; exact Or.inl rfl
    · rw [run.eq_3 _ _ (by rintro m o h; injection h with h; exact hc h)] at h
      cases hs : step ⟨ctl, m, o⟩ with
      | error p => rw [hs] at h; simp at h
      | ok st' =>
        rw [hs] at h
        rw [runW.eq_3 _ _ (by rintro m o h; injection h with h; exact hc h), hs]
        rcases inv_step ho hs with ⟨h1, h2 | h2⟩ | ⟨h1, h2⟩
        · rw [h1]; simpa using ih h2 h
        · rw [h1]; left; simpa using over_run h2 h
        · have := over_run h2 h
          simp only at this ⊢
          rw [this, List.append_nil]
          exact Or.inr h1


/-- The number of colons before the specific string: two, or four in the SCIM parser. -/
def nssColons (start : Nat) : Nat := if start = 44 then 4 else 2

theorem entry_inv {m : Machine} {s : Bytes} (hst : m.startParsingAt ∈ [1, 44, 83]) :
    Inv s (nssColons m.startParsingAt) (entry (m.init s)) := by
  have hlt : m.startParsingAt < 194 := by
    simp only [List.mem_cons, List.not_mem_nil, or_false] at hst
    rcases hst with h | h | h <;> rw [h] <;> decide
  have hJ : J s (nssColons m.startParsingAt) m.startParsingAt 0 0 { tolower := [] } := by
    refine ⟨hlt, Nat.zero_le _, ?_⟩
    simp only [List.mem_cons, List.not_mem_nil, or_false] at hst
    rcases hst with h | h | h <;> rw [h] <;> exact ⟨rfl, rfl, rfl⟩
  simp only [entry]
  have e1 : (m.init s).p = 0 := rfl
  have e2 : (m.init s).pe = s.length := rfl
  have e3 : (m.init s).cs = m.startParsingAt := rfl
  split
  · rename_i h
    rw [e1, e2] at h
    exact ⟨rfl, rfl, rfl, 0, rfl, fun _ => by omega, hJ⟩
  · split
    · rename_i _ h
      rw [e3] at h; rw [h] at hst; simp at hst
    · exact ⟨rfl, rfl, rfl, 0, rfl, by simp, hJ⟩

/-- All writes of a call are those of one normalization of the specific string, or there are none. -/
theorem writes_good {m : Machine} {s : Bytes} {r : Parsed} (h : m.parse s = .ok r) (hst : m.startParsingAt ∈ [1, 44, 83]) :
    m.writes s = [] ∨ Good s (nssColons m.startParsingAt) (m.writes s) := by
  simp only [Machine.parse] at h
  cases hr : run (fuelFor s.length) (entry (m.init s)) with
  | diverge => simp [hr] at h
  | panic p => simp [hr] at h
  | ok x =>
    exact inv_run (entry_inv hst) hr

end Urn
