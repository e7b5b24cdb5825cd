import Verif.GoClientSim
/-!
# Clients: one call in the text is one action in the model
-/
set_option autoImplicit false
set_option linter.unusedSimpArgs false
set_option maxRecDepth 10000000
namespace Urn.GoLang
open Urn.Heap

theorem callClient_mono (P C : Prog) (X : Ext) (f : String) (vs : List Val) (h : Heap) (m n : Nat) (hn : m ≤ n) :
    Le (callClient P C X m f vs h) (callClient P C X n f vs h) :=
  .bind (.refl _) fun _ => callFn_mono (callN_mono P X m n hn) _ _ _ _ _

theorem Panics.of {α : Type} {f : Nat → Res α} {p : Panic} (hf : ∀ m n, m ≤ n → Le (f m) (f n)) {N : Nat} (h : f N = .panic p) : Panics f p := by
  refine ⟨N, fun n hn => ?_⟩
  rcases hf N n hn with h1 | h1
  · rw [h] at h1; cases h1
  · rw [← h1, h]

/-- Registers of the model as registers of the text. -/
def mapR (U S : List Nat) (R : Regs) : Regs := ⟨R.urns.map (look U), R.scims.map (look S)⟩

/-- The pointers in a result point to objects. -/
def Fits (g : Got) (U S : List Nat) : Prop := (∀ k ∈ g.urns, k < U.length) ∧ ∀ k ∈ g.scims, k < S.length

/-- The pointers in a result and in the Go values are the same ones. -/
def Adds (g : Got) (vs : List Val) (U S : List Nat) : Prop := ∀ R, mapR U S (R.addGot g) = (mapR U S R).addVals vs

/-- A call of a function does what the model says. -/
def Good (X : Ext) (h : Heap) (U S : List Nat) (name : String) (vs : List Val) (st : Step) : Run (Mem × Got) → Prop
  | .ok (M', g) => ∃ U' S' h', Does (fun n => callClient prog cprog X n name vs h) (st.vals X (look (U ++ U')) (look (S ++ S')) g, h') ∧
      Sim M' h' (U ++ U') (S ++ S') ∧ Fits g (U ++ U') (S ++ S') ∧ Adds g (st.vals X (look (U ++ U')) (look (S ++ S')) g) (U ++ U') (S ++ S') ∧
      (∀ a ∈ U', h.length ≤ a) ∧ (∀ a ∈ S', h.length ≤ a) ∧ ∀ c, c < h.length → c ∉ U → c ∉ S → h'[c]? = h[c]?
  | .panic p => Panics (fun n => callClient prog cprog X n name vs h) p
  | .diverge => False

section
variable {X : Ext} {M M' : Mem} {h h' : Heap} {U S : List Nat} {name : String} {vs ws : List Val} {tl : Val} {st : Step} {g : Got} {k : Option Nat} {N : Nat}

theorem Good.ok (U' S' : List Nat) (e : callClient prog cprog X N name vs h = .ok (ws, h')) (hv : ws = st.vals X (look (U ++ U')) (look (S ++ S')) g)
    (r : Sim M' h' (U ++ U') (S ++ S')) (hf : Fits g (U ++ U') (S ++ S')) (ha : Adds g ws (U ++ U') (S ++ S'))
    (h1 : ∀ a ∈ U', h.length ≤ a) (h2 : ∀ a ∈ S', h.length ≤ a) (h3 : ∀ c, c < h.length → c ∉ U → c ∉ S → h'[c]? = h[c]?) :
    Good X h U S name vs st (.ok (M', g)) := by
  subst hv
  exact ⟨U', S', h', .of (callClient_mono _ _ _ _ _ _) e, r, hf, ha, h1, h2, h3⟩

theorem Good.panic {p : Panic} (e : callClient prog cprog X N name vs h = .panic p) : Good X h U S name vs st (.panic p) :=
  Panics.of (callClient_mono _ _ _ _ _ _) e

/-- Nothing is changed. -/
theorem Good.same (r : Sim M h U S) (e : callClient prog cprog X N name vs h = .ok (ws, h')) (hv : ws = st.vals X (look U) (look S) g)
    (hf : Fits g U S) (ha : Adds g ws U S) (h3 : ∀ c, c < h.length → h'[c]? = h[c]?) :
    Good X h U S name vs st (.ok (M, g)) :=
  Good.ok (M' := M) [] [] e (by simpa using hv) (by simpa using r.frame h3) (by simpa using hf) (by simpa using ha) (by simp) (by simp) fun c hc _ _ => h3 c hc

/-- Follow a pointer to a URN. -/
theorem Good.follow (r : Sim M h U S) (hk : ∀ i, k = some i → i < U.length) {f : Option Nat → List Val} {G : Obj → Run (Mem × Got)}
    (hn : ∃ N, callClient prog cprog X N name (f none) h = .panic .nilDeref)
    (hs : ∀ i a x, k = some i → U[i]? = some a → M.urns[i]? = some x → UrnCell h S a x → Good X h U S name (f (some a)) st (G x)) :
    Good X h U S name (f (look U k)) st (M.obj k >>= G) := by
  cases k with
  | none =>
      obtain ⟨N, hN⟩ := hn
      exact .panic hN
  | some i =>
      obtain ⟨a, x, h1, h2, h3⟩ := r.lookU (hk i rfl)
      have h4 := hs i a x rfl h1 h2 h3
      simp only [Mem.obj, h2, Run.ok_bind, look, Option.bind, h1]
      exact h4

/-- Follow a pointer to a SCIM struct. -/
theorem Good.followS (r : Sim M h U S) (hk : ∀ i, k = some i → i < S.length) {f : Option Nat → List Val} {G : SCIM → Run (Mem × Got)}
    (hn : ∃ N, callClient prog cprog X N name (f none) h = .panic .nilDeref)
    (hs : ∀ i a x, k = some i → S[i]? = some a → M.scims[i]? = some x → h[a]? = some (.obj (scimVal x)) → Good X h U S name (f (some a)) st (G x)) :
    Good X h U S name (f (look S k)) st (M.scim k >>= G) := by
  cases k with
  | none =>
      obtain ⟨N, hN⟩ := hn
      exact .panic hN
  | some i =>
      obtain ⟨a, x, h1, h2, h3⟩ := r.lookS (hk i rfl)
      have h4 := hs i a x rfl h1 h2 h3
      simp only [Mem.scim, h2, Run.ok_bind, look, Option.bind, h1]
      exact h4

theorem setObj_at {i : Nat} {x : Obj} {y : Obj} (hi : M.urns[i]? = some y) : M.setObj (some i) x = .ok { M with urns := M.urns.set i x } := by
  simp [Mem.setObj, (List.getElem?_eq_some_iff.1 hi).1]

theorem setScim_at {i : Nat} {x : SCIM} {y : SCIM} (hi : M.scims[i]? = some y) : M.setScim (some i) x = .ok { M with scims := M.scims.set i x } := by
  simp [Mem.setScim, (List.getElem?_eq_some_iff.1 hi).1]

/-- A URN is overwritten. -/
theorem Good.write (r : Sim M h U S) {i a : Nat} {x y : Obj} (hi : U[i]? = some a) (hy : M.urns[i]? = some y)
    (e : callClient prog cprog X N name vs h = .ok ([], h.set a (.obj (urnValW (look S x.scim) tl x.fields)))) (hp : posVal x.fields.tolower tl)
    (hx : ∀ k, x.scim = some k → k < S.length) (hv : st.vals X (look U) (look S) .unit = []) :
    Good X h U S name vs st (M.setObj (some i) x >>= fun M => pure (M, .unit)) := by
  rw [setObj_at hy]
  have hal := r.ltU (List.mem_of_getElem? hi)
  refine Good.ok (M' := { M with urns := M.urns.set i x }) [] [] e (by simpa using hv.symm) ?_ (by simp [Fits, Got.urns, Got.scims]) (fun R => by simp [mapR, Regs.addGot, Regs.addVals]) (by simp) (by simp) ?_
  · simp only [List.append_nil]
    exact r.setUrn hi ⟨tl, List.getElem?_set_self hal, hp, hx⟩ fun c _ hc => List.getElem?_set_ne (Ne.symm hc)
  · intro c _ hc _
    exact List.getElem?_set_ne (by rintro rfl; exact hc (List.mem_of_getElem? hi))

/-- A SCIM struct is overwritten. -/
theorem Good.writeS (r : Sim M h U S) {i a : Nat} {x y : SCIM} (hi : S[i]? = some a) (hy : M.scims[i]? = some y)
    (e : callClient prog cprog X N name vs h = .ok ([], h.set a (.obj (scimVal x)))) (hv : st.vals X (look U) (look S) .unit = []) :
    Good X h U S name vs st (M.setScim (some i) x >>= fun M => pure (M, .unit)) := by
  rw [setScim_at hy]
  have hal := r.ltS (List.mem_of_getElem? hi)
  refine Good.ok (M' := { M with scims := M.scims.set i x }) [] [] e (by simpa using hv.symm) ?_ (by simp [Fits, Got.urns, Got.scims]) (fun R => by simp [mapR, Regs.addGot, Regs.addVals]) (by simp) (by simp) ?_
  · simp only [List.append_nil]
    exact r.setScim hi (List.getElem?_set_self hal) fun c _ hc => List.getElem?_set_ne (Ne.symm hc)
  · intro c _ _ hc
    exact List.getElem?_set_ne (by rintro rfl; exact hc (List.mem_of_getElem? hi))

/-! ## Each function -/

theorem addsNo {U S : List Nat} (h1 : ∀ R : Regs, R.addGot g = R) (h2 : ∀ R : Regs, R.addVals ws = R) : Adds g ws U S := fun R => by rw [h1, h2]

theorem g_string (r : Sim M h U S) (hk : ∀ i, k = some i → i < U.length) (p : Nat) :
    Good X h U S "stringOf" [.ptr "URN" (look U k)] (.stringOf p) (M.act X.uni X.json (.string k)) := by
  refine Good.follow r hk (f := fun q => [.ptr "URN" q]) ⟨2, by rw [cl_stringOf, string_nil]; rfl⟩ fun i a x hi ha hx hc => ?_
  refine Good.same (N := 2) (ws := [.str (M.value x).string]) r ?_ (by simp [Step.vals]) (by simp [Fits, Got.urns, Got.scims]) (fun R => by simp [mapR, Regs.addGot, Regs.addVals]) fun _ _ => rfl
  rw [cl_stringOf, string_call (r.ptr hc)]
  simp [conv, zero_string, coerce]

theorem g_rfc (r : Sim M h U S) (hk : ∀ i, k = some i → i < U.length) (p : Nat) :
    Good X h U S "rfc" [.ptr "URN" (look U k)] (.rfc p) (M.act X.uni X.json (.rfc k)) := by
  refine Good.follow r hk (f := fun q => [.ptr "URN" q]) ⟨2, by rw [cl_rfc, rfc_nil]; rfl⟩ fun i a x hi ha hx hc => ?_
  refine Good.same (N := 2) (ws := [.int "Kind" (kindNum (M.value x).rfc)]) r ?_ (by simp [Step.vals]) (by simp [Fits, Got.urns, Got.scims]) (fun R => by simp [mapR, Regs.addGot, Regs.addVals]) fun _ _ => rfl
  have e := rfc_text (X := X) (n := 0) (r.ptr hc)
  simp only [runMethod, method, find_rfc, Res.ok_bind] at e
  rw [cl_rfc]
  refine (congrArg (· >>= _) e).trans ?_
  simp [conv, zero_kind, coerce]

theorem g_isSCIM (r : Sim M h U S) (hk : ∀ i, k = some i → i < U.length) (p : Nat) :
    Good X h U S "isSCIM" [.ptr "URN" (look U k)] (.isSCIM p) (M.act X.uni X.json (.isSCIM k)) := by
  refine Good.follow r hk (f := fun q => [.ptr "URN" q]) ⟨2, by rw [cl_isSCIM, isScim_nil]; rfl⟩ fun i a x hi ha hx hc => ?_
  refine Good.same (N := 2) (ws := [.bool (M.value x).isSCIM]) r ?_ (by simp [Step.vals]) (by simp [Fits, Got.urns, Got.scims]) (fun R => by simp [mapR, Regs.addGot, Regs.addVals]) fun _ _ => rfl
  have e := isScim_text (X := X) (n := 0) (r.ptr hc)
  simp only [runMethod, method, find_isScim, Res.ok_bind] at e
  rw [cl_isSCIM]
  refine (congrArg (· >>= _) e).trans ?_
  simp [conv, zero_bool, coerce]

theorem g_rComponent (r : Sim M h U S) (hk : ∀ i, k = some i → i < U.length) (p : Nat) :
    Good X h U S "rComponent" [.ptr "URN" (look U k)] (.rComponent p) (M.act X.uni X.json (.rComponent k)) := by
  refine Good.follow r hk (f := fun q => [.ptr "URN" q]) ⟨2, by rw [cl_rComponent, r_nil]; rfl⟩ fun i a x hi ha hx hc => ?_
  refine Good.same (N := 2) (ws := [.str (M.value x).getR]) r ?_ (by simp [Step.vals]) (by simp [Fits, Got.urns, Got.scims]) (fun R => by simp [mapR, Regs.addGot, Regs.addVals]) fun _ _ => rfl
  have e := r_text (X := X) (n := 0) (r.ptr hc)
  simp only [runMethod, method, find_r, Res.ok_bind] at e
  rw [cl_rComponent]
  refine (congrArg (· >>= _) e).trans ?_
  simp [conv, zero_string, coerce]

theorem g_qComponent (r : Sim M h U S) (hk : ∀ i, k = some i → i < U.length) (p : Nat) :
    Good X h U S "qComponent" [.ptr "URN" (look U k)] (.qComponent p) (M.act X.uni X.json (.qComponent k)) := by
  refine Good.follow r hk (f := fun q => [.ptr "URN" q]) ⟨2, by rw [cl_qComponent, q_nil]; rfl⟩ fun i a x hi ha hx hc => ?_
  refine Good.same (N := 2) (ws := [.str (M.value x).getQ]) r ?_ (by simp [Step.vals]) (by simp [Fits, Got.urns, Got.scims]) (fun R => by simp [mapR, Regs.addGot, Regs.addVals]) fun _ _ => rfl
  have e := q_text (X := X) (n := 0) (r.ptr hc)
  simp only [runMethod, method, find_q, Res.ok_bind] at e
  rw [cl_qComponent]
  refine (congrArg (· >>= _) e).trans ?_
  simp [conv, zero_string, coerce]

theorem g_fComponent (r : Sim M h U S) (hk : ∀ i, k = some i → i < U.length) (p : Nat) :
    Good X h U S "fComponent" [.ptr "URN" (look U k)] (.fComponent p) (M.act X.uni X.json (.fComponent k)) := by
  refine Good.follow r hk (f := fun q => [.ptr "URN" q]) ⟨2, by rw [cl_fComponent, f_nil]; rfl⟩ fun i a x hi ha hx hc => ?_
  refine Good.same (N := 2) (ws := [.str (M.value x).getF]) r ?_ (by simp [Step.vals]) (by simp [Fits, Got.urns, Got.scims]) (fun R => by simp [mapR, Regs.addGot, Regs.addVals]) fun _ _ => rfl
  have e := f_text (X := X) (n := 0) (r.ptr hc)
  simp only [runMethod, method, find_f, Res.ok_bind] at e
  rw [cl_fComponent]
  refine (congrArg (· >>= _) e).trans ?_
  simp [conv, zero_string, coerce]

theorem g_scimOf (r : Sim M h U S) (hk : ∀ i, k = some i → i < U.length) (p : Nat) :
    Good X h U S "scimOf" [.ptr "URN" (look U k)] (.scimOf p) (M.act X.uni X.json (.scim k)) := by
  refine Good.follow r hk (f := fun q => [.ptr "URN" q]) ⟨2, by rw [cl_scimOf, scim_nil]; rfl⟩ fun i a x hi ha hx hc => ?_
  refine Good.same (N := 2) (ws := [.ptr "SCIM" (look S (if x.fields.kind ≠ .RFC7643 then none else x.scim))]) r ?_ (by simp [Step.vals]) ?_ (fun R => by simp [mapR, Regs.addGot, Regs.addVals]) fun _ _ => rfl
  · obtain ⟨tl, h1, h2, h3⟩ := hc
    rw [cl_scimOf]
    by_cases hk : x.fields.kind = .RFC7643
    · simp [scimFn, callFn, bindParams, callN, execs, exec, evals, eval, one, lookup, get, field, loadObj, h1, urnValW, zero_scim, coerce, jumps_ret,
        inScope, entry, jumps, c_RFC7643, binVal, eqVal, common, hk, kindNum, conv]
    · have hkn : (kindNum x.fields.kind == 2) = false := by
        rw [kindNum_eq]
        exact beq_eq_false_iff_ne.2 hk
      simp [scimFn, callFn, bindParams, callN, execs, exec, evals, eval, one, lookup, get, field, loadObj, h1, urnValW, zero_scim, coerce, jumps_ret,
        inScope, entry, jumps, c_RFC7643, c_nil, binVal, eqVal, common, hk, hkn, conv, look]
  · refine ⟨by simp [Got.urns], fun k hk => ?_⟩
    obtain ⟨tl, h1, h2, h3⟩ := hc
    simp only [Got.scims, Option.mem_toList] at hk
    split at hk
    · cases hk
    · exact h3 k hk

theorem g_normalize (r : Sim M h U S) (hk : ∀ i, k = some i → i < U.length) (p : Nat) :
    Good X h U S "normalize" [.ptr "URN" (look U k)] (.normalize p) (M.act X.uni X.json (.normalize k)) := by
  refine Good.follow r hk (f := fun q => [.ptr "URN" q]) ⟨2, by rw [cl_normalize, normalize_nil]; rfl⟩ fun i a x hi ha hx hc => ?_
  refine Good.ok (N := 2) (ws := [.ptr "URN" (some h.length)]) (h' := h ++ [.obj (urnValW none .nil ((M.value x).normalize X.uni))]) [h.length] [] ?_ ?_ ?_ ?_ ?_ (by simp) (by simp)
    (fun c hc _ _ => List.getElem?_append_left hc)
  · rw [cl_normalize, normalize_call (r.ptr hc)]
    simp [conv, zero_urn, coerce]
  · simp [Step.vals, Mem.new, look, ← r.lenU]
  · simp only [List.append_nil]
    refine (r.frame fun c hc => List.getElem?_append_left hc).newUrn (fun hh => absurd (r.ltU hh) (by omega)) ⟨.nil, by simp [look], ?_, by simp⟩
    exact .inr ⟨rfl, rfl⟩
  · simp [Fits, Mem.new, Got.urns, Got.scims, r.lenU]
  · intro R; simp [mapR, Regs.addGot, Regs.addVals, Mem.new, look, ← r.lenU]

theorem g_newURN (r : Sim M h U S) : Good X h U S "newURN" [] .newURN (M.act X.uni X.json .newURN) := by
  refine Good.ok (N := 1) (ws := [.ptr "URN" (some h.length)]) (h' := h ++ [.obj (urnValW none .nil {})]) [h.length] [] cl_newURN ?_ ?_ ?_ ?_ (by simp) (by simp)
    (fun c hc _ _ => List.getElem?_append_left hc)
  · simp [Step.vals, Mem.new, look, ← r.lenU]
  · simp only [List.append_nil]
    refine (r.frame fun c hc => List.getElem?_append_left hc).newUrn (fun hh => absurd (r.ltU hh) (by omega)) ⟨.nil, by simp [look], ?_, by simp⟩
    exact .inr ⟨rfl, rfl⟩
  · simp [Fits, Mem.new, Got.urns, Got.scims, r.lenU]
  · intro R; simp [mapR, Regs.addGot, Regs.addVals, Mem.new, look, ← r.lenU]

theorem g_newSCIM (r : Sim M h U S) : Good X h U S "newSCIM" [] .newSCIM (M.act X.uni X.json .newSCIM) := by
  refine Good.ok (N := 1) (ws := [.ptr "SCIM" (some h.length)]) (h' := h ++ [.obj (scimVal {})]) [] [h.length] cl_newSCIM ?_ ?_ ?_ ?_ (by simp) (by simp)
    (fun c hc _ _ => List.getElem?_append_left hc)
  · simp [Step.vals, look, ← r.lenS]
  · simp only [List.append_nil]
    exact (r.frame fun c hc => List.getElem?_append_left hc).newScim (fun hh => absurd (r.ltS hh) (by omega)) (by simp)
  · simp [Fits, Got.urns, Got.scims, r.lenS]
  · intro R; simp [mapR, Regs.addGot, Regs.addVals, look, ← r.lenS]

theorem g_equal {l : Option Nat} (r : Sim M h U S) (hk : ∀ i, k = some i → i < U.length) (hl : ∀ i, l = some i → i < U.length) (p q : Nat) :
    Good X h U S "equal" [.ptr "URN" (look U k), .ptr "URN" (look U l)] (.equal p q) (M.act X.uni X.json (.equal k l)) := by
  have done : ∀ {b : Bool} {e : Heap} {vs : List Val}, callClient prog cprog X 3 "equal" vs h = .ok ([.bool b], h ++ e) →
      Good X h U S "equal" vs (.equal p q) (.ok (M, .bool b)) := fun e1 =>
    Good.same r e1 (by simp [Step.vals]) (by simp [Fits, Got.urns, Got.scims]) (fun R => by simp [mapR, Regs.addGot, Regs.addVals]) (fun c hc => List.getElem?_append_left hc)
  cases l with
  | none =>
      refine done (e := []) ?_
      rw [cl_equal, look_none, equal_none]
      simp [conv, zero_bool, coerce]
  | some j =>
      obtain ⟨c, y, h1, h2, h3⟩ := r.lookU (hl j rfl)
      have e : look U (some j) = some c := h1
      rw [e]
      refine Good.follow r hk (f := fun q => [.ptr "URN" q, .ptr "URN" (some c)]) ⟨3, by rw [cl_equal, equal_nil]; rfl⟩ fun i a x hi ha hx hc => ?_
      obtain ⟨e, he⟩ := equal_call (X := X) (n := 0) (r.ptr hc) (r.ptr h3)
      simp only [Mem.obj, h2, Run.ok_bind]
      refine done (e := e) ?_
      rw [cl_equal, he]
      simp [conv, zero_bool, coerce]

theorem g_marshalJSON (r : Sim M h U S) (hk : ∀ i, k = some i → i < U.length) (p : Nat) :
    Good X h U S "marshalJSON" [.ptr "URN" (look U k)] (.marshalJSON p) (M.act X.uni X.json (.marshalJSON k)) := by
  refine Good.follow r hk (f := fun q => [.ptr "URN" q]) ⟨_, cl_marshalJSON_nil (n := 0)⟩ fun i a x hi ha hx hc => ?_
  obtain ⟨h', h1, h2⟩ := cl_marshalJSON (X := X) (n := 0) (r.ptr hc)
  exact Good.same r h2 (by simp [Step.vals]) (by simp [Fits, Got.urns, Got.scims]) (fun R => by simp [mapR, Regs.addGot, Regs.addVals]) h1

theorem g_marshal8141 (r : Sim M h U S) (hk : ∀ i, k = some i → i < U.length) (p : Nat) :
    Good X h U S "marshal8141" [.ptr "URN" (look U k)] (.marshal8141 p) (M.act X.uni X.json (.marshal8141 k)) := by
  refine Good.follow r hk (f := fun q => [.ptr "URN" q]) ⟨_, cl_marshal8141_nil (n := 0)⟩ fun i a x hi ha hx hc => ?_
  obtain ⟨h', h1, h2⟩ := cl_marshal8141 (X := X) (n := 0) (r.ptr hc)
  exact Good.same r h2 (by simp [Step.vals]) (by simp [Fits, Got.urns, Got.scims]) (fun R => by simp [mapR, Regs.addGot, Regs.addVals]) h1

theorem g_scimMarshalJSON (r : Sim M h U S) (hk : ∀ i, k = some i → i < S.length) (p : Nat) :
    Good X h U S "scimMarshalJSON" [.ptr "SCIM" (look S k)] (.scimMarshalJSON p) (M.act X.uni X.json (.scimMarshalJSON k)) := by
  refine Good.followS r hk (f := fun q => [.ptr "SCIM" q]) ⟨_, cl_scimMarshalJSON_nil (n := 0)⟩ fun i a x hi ha hx hc => ?_
  obtain ⟨h', h1, h2⟩ := cl_scimMarshalJSON (X := X) (n := 0) hc
  exact Good.same r h2 (by simp [Step.vals]) (by simp [Fits, Got.urns, Got.scims]) (fun R => by simp [mapR, Regs.addGot, Regs.addVals]) h1

theorem g_scimString (r : Sim M h U S) (hk : ∀ i, k = some i → i < S.length) (p : Nat) :
    Good X h U S "scimString" [.ptr "SCIM" (look S k)] (.scimString p) (M.act X.uni X.json (.scimString k)) := by
  refine Good.followS r hk (f := fun q => [.ptr "SCIM" q]) ⟨2, by rw [cl_scimString, scimString_nil]; rfl⟩ fun i a x hi ha hx hc => ?_
  refine Good.same (N := 4) (ws := [.str x.string]) r ?_ (by simp [Step.vals]) (by simp [Fits, Got.urns, Got.scims]) (fun R => by simp [mapR, Regs.addGot, Regs.addVals]) fun _ _ => rfl
  rw [cl_scimString, scimString_call hc]
  simp [conv, zero_string, coerce]

theorem g_scimFields (r : Sim M h U S) (hk : ∀ i, k = some i → i < S.length) (p : Nat) :
    Good X h U S "scimFields" [.ptr "SCIM" (look S k)] (.scimFields p) (M.act X.uni X.json (.scimFields k)) := by
  refine Good.followS r hk (f := fun q => [.ptr "SCIM" q]) ⟨_, cl_scimFields_nil (n := 0)⟩ fun i a x hi ha hx hc => ?_
  exact Good.same r (cl_scimFields (n := 0) hc) (by simp [Step.vals]) (by simp [Fits, Got.urns, Got.scims]) (fun R => by simp [mapR, Regs.addGot, Regs.addVals]) fun _ _ => rfl

theorem g_getID (r : Sim M h U S) (hk : ∀ i, k = some i → i < U.length) (p : Nat) :
    Good X h U S "getID" [.ptr "URN" (look U k)] (.getID p) (M.act X.uni X.json (.id k)) := by
  refine Good.follow r hk (f := fun q => [.ptr "URN" q]) ⟨1, by rw [cl_getID]; rfl⟩ fun i a x hi ha hx hc => ?_
  obtain ⟨tl, h1, h2, h3⟩ := hc
  refine Good.same (N := 1) (ws := [.str x.fields.ID]) r ?_ (by simp [Step.vals]) (by simp [Fits, Got.urns, Got.scims]) (fun R => by simp [mapR, Regs.addGot, Regs.addVals]) fun _ _ => rfl
  rw [cl_getID]
  simp [field, loadObj, h1, urnValW, get, conv, zero_string, coerce]

theorem g_getSS (r : Sim M h U S) (hk : ∀ i, k = some i → i < U.length) (p : Nat) :
    Good X h U S "getSS" [.ptr "URN" (look U k)] (.getSS p) (M.act X.uni X.json (.ss k)) := by
  refine Good.follow r hk (f := fun q => [.ptr "URN" q]) ⟨1, by rw [cl_getSS]; rfl⟩ fun i a x hi ha hx hc => ?_
  obtain ⟨tl, h1, h2, h3⟩ := hc
  refine Good.same (N := 1) (ws := [.str x.fields.SS]) r ?_ (by simp [Step.vals]) (by simp [Fits, Got.urns, Got.scims]) (fun R => by simp [mapR, Regs.addGot, Regs.addVals]) fun _ _ => rfl
  rw [cl_getSS]
  simp [field, loadObj, h1, urnValW, get, conv, zero_string, coerce]

theorem g_setID (r : Sim M h U S) (hk : ∀ i, k = some i → i < U.length) (p : Nat) (v : Bytes) :
    Good X h U S "setID" [.ptr "URN" (look U k), .str v] (.setID p v) (M.act X.uni X.json (.setID k v)) := by
  refine Good.follow r hk (f := fun q => [.ptr "URN" q, .str v]) ⟨1, by rw [cl_setID]; rfl⟩ fun i a x hi ha hx hc => ?_
  subst hi
  obtain ⟨tl, h1, h2, h3⟩ := hc
  refine Good.write (N := 1) (tl := tl) r ha hx ?_ h2 h3 (by simp [Step.vals])
  rw [cl_setID]
  simp [setField, loadObj, h1, urnValW, get, set, coerce]

theorem g_setSS (r : Sim M h U S) (hk : ∀ i, k = some i → i < U.length) (p : Nat) (v : Bytes) :
    Good X h U S "setSS" [.ptr "URN" (look U k), .str v] (.setSS p v) (M.act X.uni X.json (.setSS k v)) := by
  refine Good.follow r hk (f := fun q => [.ptr "URN" q, .str v]) ⟨1, by rw [cl_setSS]; rfl⟩ fun i a x hi ha hx hc => ?_
  subst hi
  obtain ⟨tl, h1, h2, h3⟩ := hc
  refine Good.write (N := 1) (tl := tl) r ha hx ?_ h2 h3 (by simp [Step.vals])
  rw [cl_setSS]
  simp [setField, loadObj, h1, urnValW, get, set, coerce]

theorem g_setType (r : Sim M h U S) (hk : ∀ i, k = some i → i < S.length) (p : Nat) (v : Int) :
    Good X h U S "setType" [.ptr "SCIM" (look S k), .int "Type" v] (.setType p v) (M.act X.uni X.json (.setType k v)) := by
  refine Good.followS r hk (f := fun q => [.ptr "SCIM" q, .int "Type" v]) ⟨1, by rw [cl_setType]; rfl⟩ fun i a x hi ha hx hc => ?_
  subst hi
  refine Good.writeS (N := 1) r ha hx ?_ (by simp [Step.vals])
  rw [cl_setType]
  simp [setField, loadObj, hc, scimVal, get, set, coerce]

theorem g_setName (r : Sim M h U S) (hk : ∀ i, k = some i → i < S.length) (p : Nat) (v : Bytes) :
    Good X h U S "setName" [.ptr "SCIM" (look S k), .str v] (.setName p v) (M.act X.uni X.json (.setName k v)) := by
  refine Good.followS r hk (f := fun q => [.ptr "SCIM" q, .str v]) ⟨1, by rw [cl_setName]; rfl⟩ fun i a x hi ha hx hc => ?_
  subst hi
  refine Good.writeS (N := 1) r ha hx ?_ (by simp [Step.vals])
  rw [cl_setName]
  simp [setField, loadObj, hc, scimVal, get, set, coerce]

theorem g_setOther (r : Sim M h U S) (hk : ∀ i, k = some i → i < S.length) (p : Nat) (v : Bytes) :
    Good X h U S "setOther" [.ptr "SCIM" (look S k), .str v] (.setOther p v) (M.act X.uni X.json (.setOther k v)) := by
  refine Good.followS r hk (f := fun q => [.ptr "SCIM" q, .str v]) ⟨1, by rw [cl_setOther]; rfl⟩ fun i a x hi ha hx hc => ?_
  subst hi
  refine Good.writeS (N := 1) r ha hx ?_ (by simp [Step.vals])
  rw [cl_setOther]
  simp [setField, loadObj, hc, scimVal, get, set, coerce]

theorem g_copyURN {l : Option Nat} (r : Sim M h U S) (hk : ∀ i, k = some i → i < U.length) (hl : ∀ i, l = some i → i < U.length) (p q : Nat) :
    Good X h U S "copyURN" [.ptr "URN" (look U k), .ptr "URN" (look U l)] (.copyURN p q) (M.act X.uni X.json (.copy k l)) := by
  refine Good.follow r hl (f := fun q => [.ptr "URN" (look U k), .ptr "URN" q]) ⟨1, by rw [cl_copyURN]; rfl⟩ fun i a x hi ha hx hc => ?_
  obtain ⟨tl, h1, h2, h3⟩ := hc
  cases k with
  | none =>
      refine Good.panic (N := 1) ?_
      rw [cl_copyURN]
      simp [derefPtr, loadObj, h1, setDeref, look]
  | some j =>
      obtain ⟨b, y, h4, h5, tl', h6, -⟩ := r.lookU (hk j rfl)
      have e : look U (some j) = some b := h4
      rw [e]
      refine Good.write (N := 1) (tl := tl) r h4 h5 ?_ h2 h3 (by simp [Step.vals])
      rw [cl_copyURN]
      simp [derefPtr, loadObj, h1, setDeref, h6]

theorem g_copySCIM {l : Option Nat} (r : Sim M h U S) (hk : ∀ i, k = some i → i < S.length) (hl : ∀ i, l = some i → i < S.length) (p q : Nat) :
    Good X h U S "copySCIM" [.ptr "SCIM" (look S k), .ptr "SCIM" (look S l)] (.copySCIM p q) (M.act X.uni X.json (.copySCIM k l)) := by
  refine Good.followS r hl (f := fun q => [.ptr "SCIM" (look S k), .ptr "SCIM" q]) ⟨1, by rw [cl_copySCIM]; rfl⟩ fun i a x hi ha hx hc => ?_
  cases k with
  | none =>
      refine Good.panic (N := 1) ?_
      rw [cl_copySCIM]
      simp [derefPtr, loadObj, hc, setDeref, look]
  | some j =>
      obtain ⟨b, y, h4, h5, h6⟩ := r.lookS (hk j rfl)
      have e : look S (some j) = some b := h4
      rw [e]
      refine Good.writeS (N := 1) r h4 h5 ?_ (by simp [Step.vals])
      rw [cl_copySCIM]
      simp [derefPtr, loadObj, hc, setDeref, h6]

/-! ## Functions that parse -/

theorem UrnAt.with {lo a : Nat} {u : URN} (r : UrnAt h lo a u) : UrnWith h lo a u := r.2

theorem UrnAt.lt {lo a : Nat} {u : URN} (r : UrnAt h lo a u) : lo ≤ a := r.1

/-- A new URN. -/
theorem Sim.fresh (r : Sim M h U S) {a : Nat} {u : URN} (hk : ∀ c, c < h.length → h'[c]? = h[c]?) (hu : UrnAt h' h.length a u) :
    ∃ S', Sim ((M.made u).1.new (M.made u).2).1 h' (U ++ [a]) (S ++ S') ∧ ∀ b ∈ S', h.length ≤ b := by
  obtain ⟨S', h1, h2, h3⟩ := (r.frame hk).made hu.with fun b hb => r.ltS hb
  exact ⟨S', h1.newUrn (fun hh => absurd (r.ltU hh) (by have := hu.lt; omega)) h2, h3⟩

theorem made_len (u : URN) : (M.made u).1.urns.length = M.urns.length := by
  unfold Mem.made
  cases u.scim <;> rfl

theorem g_parse (r : Sim M h U S) (s : Bytes) (hf : X.Fits s) (modes : List ParsingMode) :
    Good X h U S "parse" [.str s, .list (modes.map (.int "ParsingMode"))] (.parse s modes) (M.act X.uni X.json (.parse s (modes.map withParsingMode))) := by
  obtain ⟨res, hr⟩ := C01_parse_returns s (modes.map withParsingMode)
  obtain ⟨h', p, h1, h2, h3⟩ := cl_parse (X := X) (h := h) modes hf hr (Nat.le_refl _)
  simp only [Mem.act, hr, Run.ok_bind]
  cases hu : res.urn with
  | none =>
      rw [hu] at h2
      cases h2
      exact Good.same r h1 (by simp [Step.vals, look]) (by simp [Fits, Got.urns, Got.scims]) (fun R => by simp [mapR, Regs.addGot, Regs.addVals, look]) h3
  | some u =>
      rw [hu] at h2
      obtain ⟨a, rfl, h2⟩ := h2
      obtain ⟨S', h4, h5⟩ := r.fresh h3 h2
      refine Good.ok [a] S' h1 ?_ h4 ?_ ?_ (by simpa using h2.lt) h5 fun c hc _ _ => h3 c hc
      · simp [Step.vals, Mem.new, look, made_len, ← r.lenU]
      · simp [Fits, Mem.new, Got.urns, Got.scims, made_len, r.lenU]
      · intro R; simp [mapR, Regs.addGot, Regs.addVals, Mem.new, look, made_len, ← r.lenU]

theorem newBytes_has (s : Bytes) : Buf.has (h ++ [Cell.arr s]) (.part h.length [] [] s.length) s := ⟨by simp, Nat.le_refl _, by simp⟩

theorem coerce_jerr (s : Bytes) (e : Option JErr) : conv [.name "error"] ([jerrVal X s e], h) = .ok ([jerrVal X s e], h) := by
  cases e with
  | none => simp [conv, zero_error, jerrVal, coerce]
  | some e => cases e <;> simp [conv, zero_error, jerrVal, coerce]

theorem unmarshal_act (M : Mem) (k : Option Nat) (s : Bytes) : ∃ u e, ({} : URN).unmarshalJSON X.json s = .ok (u, e) ∧
    M.act X.uni X.json (.unmarshalJSON k s) = match e with
      | none => (M.made u).1.setObj k (M.made u).2 >>= fun M => pure (M, .err none)
      | some e => .ok (M, .err (some e)) := by
  simp only [URN.unmarshalJSON, Mem.act]
  cases hj : X.json.unmarshal s with
  | none => exact ⟨_, _, rfl, rfl⟩
  | some str =>
      obtain ⟨r, hr⟩ := C01_parse_returns str []
      have hok := (C22_ok_iff RFC2141Only (Or.inl rfl) str).2 r hr
      simp only [hr, Run.ok_bind]
      cases ho : r.ok with
      | false => exact ⟨_, _, rfl, rfl⟩
      | true =>
          cases hu : r.urn with
          | none => exact absurd hu (hok.1 ho)
          | some u => exact ⟨u, none, rfl, rfl⟩

theorem g_unmarshalJSON (r : Sim M h U S) (hk : ∀ i, k = some i → i < U.length) (p : Nat) (s : Bytes) (hf : X.FitsJson s) :
    Good X h U S "unmarshalJSON" [.ptr "URN" (look U k), .str s] (.unmarshalJSON p s) (M.act X.uni X.json (.unmarshalJSON k s)) := by
  obtain ⟨u, e, h1, h2⟩ := unmarshal_act (X := X) M k s
  rw [h2]
  have hb := newBytes_has (h := h) s
  have r0 := r.frame (h' := h ++ [.arr s]) fun c hc => List.getElem?_append_left hc
  cases k with
  | none =>
      obtain ⟨N, hN⟩ := unmarshal_nil hb hf h1
      have hN := hN N (Nat.le_refl _)
      cases e with
      | none =>
          refine Good.panic (N := N + 1) ?_
          rw [cl_unmarshalJSON]
          exact congrArg (· >>= _) hN
      | some e =>
          obtain ⟨h', h3, h4⟩ := hN
          refine Good.same (N := N + 1) r ((cl_unmarshalJSON).trans ((congrArg (· >>= _) h3).trans (coerce_jerr _ _))) rfl (by simp [Fits, Got.urns, Got.scims]) ?_ ?_
          · intro R; cases e <;> simp [mapR, Regs.addGot, Regs.addVals, jerrVal]
          · intro c hc
            rw [h4 c (by simp; omega), List.getElem?_append_left hc]
  | some i =>
      obtain ⟨a, x, h3, h4, h5⟩ := r.lookU (hk i rfl)
      have h6 : (h ++ [Cell.arr s])[a]? = some (.obj _) := (List.getElem?_append_left h5.lt).trans h5.choose_spec.1
      obtain ⟨N, hN⟩ := unmarshal_obj (X := X) h6 hb hf h1
      obtain ⟨h', h7, h8, h9⟩ := hN N (Nat.le_refl _)
      have el : look U (some i) = some a := h3
      rw [el]
      have h8' : ∀ c, c < h.length → c ≠ a → h'[c]? = h[c]? := fun c hc hca => by
        rw [h8 c (by simp; omega) hca, List.getElem?_append_left hc]
      cases e with
      | none =>
          dsimp only at h9 ⊢
          obtain ⟨S', h10, h11⟩ := r0.over h3 h9 (by simp) h8
          rw [setObj_at (y := x) (by rw [made_urns]; exact h4)]
          refine Good.ok (N := N + 1) (M' := { (M.made u).1 with urns := (M.made u).1.urns.set i (M.made u).2 }) [] S'
            ((cl_unmarshalJSON).trans ((congrArg (· >>= _) h7).trans (coerce_jerr _ _))) rfl (by simpa using h10) (by simp [Fits, Got.urns, Got.scims]) ?_ (by simp)
            (fun b hb => by have := h11 b hb; simp at this; omega) ?_
          · intro R; simp [mapR, Regs.addGot, Regs.addVals, jerrVal]
          · intro c hc hca _
            exact h8' c hc (by rintro rfl; exact hca (List.mem_of_getElem? h3))
      | some e =>
          dsimp only at h9 ⊢
          refine Good.same (N := N + 1) r ((cl_unmarshalJSON).trans ((congrArg (· >>= _) h7).trans (coerce_jerr _ _))) rfl (by simp [Fits, Got.urns, Got.scims]) ?_ ?_
          · intro R; cases e <;> simp [mapR, Regs.addGot, Regs.addVals, jerrVal]
          · intro c hc
            by_cases hca : c = a
            · subst hca
              rw [h9.1, List.getElem?_append_left hc]
            · exact h8' c hc hca

theorem g_scimUnmarshalJSON (r : Sim M h U S) (hk : ∀ i, k = some i → i < S.length) (p : Nat) (s : Bytes) (hf : X.FitsJson s) :
    Good X h U S "scimUnmarshalJSON" [.ptr "SCIM" (look S k), .str s] (.scimUnmarshalJSON p s) (M.act X.uni X.json (.scimUnmarshalJSON k s)) := by
  obtain ⟨x, e, h1, -⟩ := scim_unmarshal_receiver X.json {} {} s
  simp only [Mem.act, h1, Run.ok_bind]
  have hb := newBytes_has (h := h) s
  obtain ⟨N, hN⟩ := scimUnmarshal_gen (a := look S k) hb hf h1
  obtain ⟨h', h2, h3⟩ := hN N (Nat.le_refl _)
  have h2' : ∀ c, c < h.length → h'[c]? = h[c]? := fun c hc => by
    rw [h2 c (by simp; omega), List.getElem?_append_left hc]
  have h4 := (cl_scimUnmarshalJSON (X := X) (n := N) (h := h) (p := look S k) (s := s)).trans (congrArg (· >>= conv [.name "error"]) h3)
  cases e with
  | some e =>
      refine Good.same (N := N + 1) r (h4.trans (coerce_jerr _ _)) rfl (by simp [Fits, Got.urns, Got.scims]) ?_ h2'
      intro R; cases e <;> simp [mapR, Regs.addGot, Regs.addVals, jerrVal]
  | none =>
      cases k with
      | none =>
          refine Good.panic (N := N + 1) (h4.trans ?_)
          simp [look, setDeref]
      | some i =>
          obtain ⟨a, y, h5, h6, h7⟩ := r.lookS (hk i rfl)
          have hal := r.ltS (List.mem_of_getElem? h5)
          have hal' : a < h'.length := by
            have := (h2' a hal).trans h7
            exact (List.getElem?_eq_some_iff.1 this).1
          simp only [setScim_at h6, Run.ok_bind]
          refine Good.ok (N := N + 1) (ws := [.nil]) (h' := h'.set a (.obj (scimVal x))) (M' := { M with scims := M.scims.set i x }) [] [] (h4.trans ?_) rfl ?_ (by simp [Fits, Got.urns, Got.scims]) ?_ (by simp) (by simp) ?_
          · have el : look S (some i) = some a := h5
            simp [el, setDeref, loadObj, (h2' a hal).trans h7, conv, zero_error, coerce]
          · simp only [List.append_nil]
            exact (r.frame h2').setScim h5 (List.getElem?_set_self hal') fun c _ hc => List.getElem?_set_ne (Ne.symm hc)
          · intro R; simp [mapR, Regs.addGot, Regs.addVals]
          · intro c hc _ hcS
            rw [List.getElem?_set_ne (by rintro rfl; exact hcS (List.mem_of_getElem? h5))]
            exact h2' c hc

theorem unmarshal8141_act (M : Mem) (k : Option Nat) (s : Bytes) : ∃ u e, ({} : URN8141).unmarshalJSON X.json s = .ok (u, e) ∧
    M.act X.uni X.json (.unmarshal8141 k s) = match e with
      | none => match u.urn with
          | none => .ok (M, .urn8141 none none)
          | some u => .ok (((M.made u).1.new (M.made u).2).1, .urn8141 ((M.made u).1.new (M.made u).2).2 none)
      | some e => .ok (M, .urn8141 k (some e)) := by
  simp only [URN8141.unmarshalJSON, Mem.act]
  cases hj : X.json.unmarshal s with
  | none => exact ⟨_, _, rfl, rfl⟩
  | some str =>
      obtain ⟨r, hr⟩ := C01_parse_returns str [withParsingMode RFC8141Only]
      simp only [hr, Run.ok_bind]
      cases ho : r.ok with
      | false => exact ⟨_, _, rfl, rfl⟩
      | true =>
          refine ⟨⟨r.urn⟩, none, rfl, ?_⟩
          cases hu : r.urn <;> rfl

theorem g_unmarshal8141 (r : Sim M h U S) (hk : ∀ i, k = some i → i < U.length) (p : Nat) (s : Bytes) (hf : X.FitsJson s) :
    Good X h U S "unmarshal8141" [.ptr "URN" (look U k), .str s] (.unmarshal8141 p s) (M.act X.uni X.json (.unmarshal8141 k s)) := by
  obtain ⟨u, e, h1, h2⟩ := unmarshal8141_act (X := X) M k s
  rw [h2]
  obtain ⟨N, hN⟩ := cl_unmarshal8141 (h := h) (p := look U k) hf h1
  obtain ⟨h', p', h3, h4, h5, h6⟩ := hN N (Nat.le_refl _)
  cases e with
  | some e =>
      cases h6 (by simp)
      refine Good.same r h3 rfl ?_ ?_ h4
      · refine ⟨fun i hi => hk i ?_, by simp [Got.scims]⟩
        simpa [Got.urns] using hi
      · intro R; cases e <;> simp [mapR, Regs.addGot, Regs.addVals, jerrVal]
  | none =>
      replace h5 := h5 rfl
      dsimp only
      cases hu : u.urn with
      | none =>
          rw [hu] at h5
          cases h5
          exact Good.same r h3 rfl (by simp [Fits, Got.urns, Got.scims]) (fun R => by simp [mapR, Regs.addGot, Regs.addVals, jerrVal, look]) h4
      | some v =>
          rw [hu] at h5
          obtain ⟨a, rfl, h5⟩ := h5
          replace h5 := h5.mono (Nat.le_succ _)
          obtain ⟨S', h7, h8⟩ := r.fresh h4 h5
          refine Good.ok [a] S' h3 ?_ h7 ?_ ?_ (by simpa using h5.lt) h8 fun c hc _ _ => h4 c hc
          · simp [Step.vals, Mem.new, look, made_len, ← r.lenU]
          · simp [Fits, Mem.new, Got.urns, Got.scims, made_len, r.lenU]
          · intro R; simp [mapR, Regs.addGot, Regs.addVals, Mem.new, look, made_len, ← r.lenU, jerrVal]

/-! ## Any function -/

/-- The pointers that a client has point to objects. -/
def RegsFit (R : Regs) (U S : List Nat) : Prop := (∀ p ∈ R.urns, ∀ k, p = some k → k < U.length) ∧ ∀ p ∈ R.scims, ∀ k, p = some k → k < S.length

theorem RegsFit.urn {R : Regs} (hR : RegsFit R U S) (p : Nat) : ∀ i, R.urn p = some i → i < U.length := by
  intro i hi
  unfold Regs.urn at hi
  cases hp : R.urns[p]? with
  | none => rw [hp] at hi; cases hi
  | some x => rw [hp] at hi; exact hR.1 x (List.mem_of_getElem? hp) i hi

theorem RegsFit.scim {R : Regs} (hR : RegsFit R U S) (p : Nat) : ∀ i, R.scim p = some i → i < S.length := by
  intro i hi
  unfold Regs.scim at hi
  cases hp : R.scims[p]? with
  | none => rw [hp] at hi; cases hi
  | some x => rw [hp] at hi; exact hR.2 x (List.mem_of_getElem? hp) i hi

theorem mapR_urn (U S : List Nat) (R : Regs) (p : Nat) : (mapR U S R).urn p = look U (R.urn p) := by
  simp only [mapR, Regs.urn, List.getElem?_map]
  cases R.urns[p]? <;> rfl

theorem mapR_scim (U S : List Nat) (R : Regs) (p : Nat) : (mapR U S R).scim p = look S (R.scim p) := by
  simp only [mapR, Regs.scim, List.getElem?_map]
  cases R.scims[p]? <;> rfl

theorem step_good (r : Sim M h U S) {R : Regs} (hR : RegsFit R U S) (st : Step) (hf : st.Fits X) :
    Good X h U S (st.text (mapR U S R)).1 (st.text (mapR U S R)).2 st (M.act X.uni X.json (st.act R)) := by
  cases st <;> simp only [Step.text, Step.act, mapR_urn, mapR_scim]
  case parse => exact g_parse r _ hf _
  case newURN => exact g_newURN r
  case newSCIM => exact g_newSCIM r
  case equal => exact g_equal r (hR.urn _) (hR.urn _) _ _
  case copyURN => exact g_copyURN r (hR.urn _) (hR.urn _) _ _
  case copySCIM => exact g_copySCIM r (hR.scim _) (hR.scim _) _ _
  case normalize => exact g_normalize r (hR.urn _) _
  case stringOf => exact g_string r (hR.urn _) _
  case isSCIM => exact g_isSCIM r (hR.urn _) _
  case scimOf => exact g_scimOf r (hR.urn _) _
  case rfc => exact g_rfc r (hR.urn _) _
  case rComponent => exact g_rComponent r (hR.urn _) _
  case qComponent => exact g_qComponent r (hR.urn _) _
  case fComponent => exact g_fComponent r (hR.urn _) _
  case marshalJSON => exact g_marshalJSON r (hR.urn _) _
  case getID => exact g_getID r (hR.urn _) _
  case getSS => exact g_getSS r (hR.urn _) _
  case marshal8141 => exact g_marshal8141 r (hR.urn _) _
  case unmarshalJSON => exact g_unmarshalJSON r (hR.urn _) _ _ hf
  case setID => exact g_setID r (hR.urn _) _ _
  case setSS => exact g_setSS r (hR.urn _) _ _
  case unmarshal8141 => exact g_unmarshal8141 r (hR.urn _) _ _ hf
  case scimString => exact g_scimString r (hR.scim _) _
  case scimMarshalJSON => exact g_scimMarshalJSON r (hR.scim _) _
  case scimFields => exact g_scimFields r (hR.scim _) _
  case scimUnmarshalJSON => exact g_scimUnmarshalJSON r (hR.scim _) _ _ hf
  case setType => exact g_setType r (hR.scim _) _ _
  case setName => exact g_setName r (hR.scim _) _ _
  case setOther => exact g_setOther r (hR.scim _) _ _

end
end Urn.GoLang
