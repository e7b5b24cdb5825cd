import Verif.GoRaceRun
/-!
# Which cells a client writes to
-/
set_option autoImplicit false
set_option linter.unusedSimpArgs false
set_option maxRecDepth 10000000
namespace Urn.GoLang
open Urn.Heap

/-- Functions that do not write to memory, and what they use. -/
def quietNames : List String := ["len", "append", "string", "fmt", "strings", "json", "String", "TypeFromString", "MarshalJSON", "Normalize", "Equal", "IsSCIM",
  "SCIM", "RFC", "FComponent", "QComponent", "RComponent"]

def quietClients : List String := ["newURN", "newSCIM", "normalize", "equal", "stringOf", "isSCIM", "scimOf", "rfc", "rComponent", "qComponent",
  "fComponent", "marshalJSON", "getID", "getSS", "scimString", "scimMarshalJSON", "scimFields", "marshal8141"]

theorem quiet_prog : prog.funcs.all (fun g => !quietNames.contains g.name || pureFn quietNames g) = true := by kernel_rfl

theorem quiet_client : cprog.funcs.all (fun g => !quietClients.contains g.name || pureFn quietNames g) = true := by kernel_rfl

theorem quiet_fn : ∀ g ∈ prog.funcs, quietNames.contains g.name = true → pureFn quietNames g = true := by
  intro g hg hn
  have := List.all_eq_true.1 quiet_prog g hg
  rw [hn] at this
  exact this

theorem quiet_call {X : Ext} {n : Nat} {f : String} (hf : quietClients.contains f = true) (vs : List Val) : (callClientT prog cprog X n f vs).Silent Any := by
  unfold callClientT
  refine Io.Silent.bind (Q := fun g => pureFn quietNames g = true) ?_ fun g hg => callFnT_silent (callT_silent quiet_fn X n) hg none vs false
  cases hg : findFn cprog none f with
  | none => trivial
  | some g =>
      obtain ⟨h1, h2⟩ := findFn_mem hg
      have := List.all_eq_true.1 quiet_client g h1
      rw [h2, hf] at this
      exact this

section
variable {X : Ext} {M : Mem} {h : Heap} {U S : List Nat} {R : Regs} {f : String} {vs : List Val}

theorem Good.never {st : Step} : ∀ {r : Run (Mem × Got)}, Good X h U S f vs st r → ∀ n, callClient prog cprog X n f vs h ≠ .stuck
  | .ok _, ⟨_, _, _, h1, _⟩, n => Does.never (fun _ _ hmn => callClient_mono _ _ _ _ _ _ _ _ hmn) h1 n
  | .panic _, h1, n => Panics.never (fun _ _ hmn => callClient_mono _ _ _ _ _ _ _ _ hmn) h1 n
  | .diverge, h1, _ => h1.elim

theorem never_ok {N : Nat} {r : List Val × Heap} (e : callClient prog cprog X N f vs h = .ok r) (n : Nat) : callClient prog cprog X n f vs h ≠ .stuck :=
  Does.never (fun _ _ hmn => callClient_mono _ _ _ _ _ _ _ _ hmn) (Does.of (callClient_mono _ _ _ _ _ _) e) n

theorem never_panic {N : Nat} {p : Panic} (e : callClient prog cprog X N f vs h = .panic p) (n : Nat) : callClient prog cprog X n f vs h ≠ .stuck :=
  Panics.never (fun _ _ hmn => callClient_mono _ _ _ _ _ _ _ _ hmn) (Panics.of (callClient_mono _ _ _ _ _ _) e) n

theorem call_log {keep : Nat → Bool} (hn : ∀ n, callClient prog cprog X n f vs (mask keep h) ≠ .stuck) (n : Nat) :
    ∀ x, x ∈ (callClientT prog cprog X n f vs).log h → x.cell < h.length → keep x.cell = true :=
  mask_log fun e => hn n ((callClient_same prog cprog X n f vs _).trans e)

/-- Only the cell of `p`. -/
def only (p : Option Nat) (c : Nat) : Bool := p == some c

theorem w_parse (s : Bytes) (hf : X.Fits s) (modes : List ParsingMode) (n : Nat) :
    callClient prog cprog X n "parse" [.str s, .list (modes.map (.int "ParsingMode"))] h ≠ .stuck := by
  obtain ⟨res, hr⟩ := C01_parse_returns s (modes.map withParsingMode)
  obtain ⟨h', p, h1, -⟩ := cl_parse (X := X) (h := h) modes hf hr (Nat.le_refl _)
  exact never_ok h1 n

theorem w_unmarshal8141 (p : Option Nat) (s : Bytes) (hf : X.FitsJson s) (n : Nat) : callClient prog cprog X n "unmarshal8141" [.ptr "URN" p, .str s] h ≠ .stuck := by
  obtain ⟨u, e, h1, -⟩ := unmarshal8141_act (X := X) {} none s
  obtain ⟨N, hN⟩ := cl_unmarshal8141 (h := h) (p := p) hf h1
  obtain ⟨h', p', h3, -⟩ := hN N (Nat.le_refl _)
  exact never_ok h3 n

theorem w_unmarshalJSON (p : Option Nat) (hp : ∀ a, p = some a → ∃ v, h[a]? = some (.obj v)) (s : Bytes) (hf : X.FitsJson s) (n : Nat) :
    callClient prog cprog X n "unmarshalJSON" [.ptr "URN" p, .str s] h ≠ .stuck := by
  obtain ⟨u, e, h1, -⟩ := unmarshal_act (X := X) {} none s
  have hb := newBytes_has (h := h) s
  cases p with
  | none =>
      obtain ⟨N, hN⟩ := unmarshal_nil hb hf h1
      have hN := hN N (Nat.le_refl _)
      cases e with
      | none => exact never_panic (N := N + 1) ((cl_unmarshalJSON).trans (congrArg (· >>= _) hN)) n
      | some e =>
          obtain ⟨h', h3, -⟩ := hN
          exact never_ok (N := N + 1) ((cl_unmarshalJSON).trans ((congrArg (· >>= _) h3).trans (coerce_jerr _ _))) n
  | some a =>
      obtain ⟨v, hv⟩ := hp a rfl
      have h6 : (h ++ [Cell.arr s])[a]? = some (.obj v) := (List.getElem?_append_left (List.getElem?_eq_some_iff.1 hv).1).trans hv
      obtain ⟨N, hN⟩ := unmarshal_obj (X := X) h6 hb hf h1
      obtain ⟨h', h7, -⟩ := hN N (Nat.le_refl _)
      exact never_ok (N := N + 1) ((cl_unmarshalJSON).trans ((congrArg (· >>= _) h7).trans (coerce_jerr _ _))) n

theorem w_setID (p : Option Nat) (hp : ∀ a, p = some a → ∃ q tl u, h[a]? = some (.obj (urnValW q tl u))) (v : Bytes) (n : Nat) :
    callClient prog cprog X n "setID" [.ptr "URN" p, .str v] h ≠ .stuck := by
  cases p with
  | none => exact never_panic (N := 1) (p := .nilDeref) (by rw [cl_setID]; rfl) n
  | some a =>
      obtain ⟨q, tl, u, ha⟩ := hp a rfl
      refine never_ok (N := 1) (r := ([], h.set a (.obj (urnValW q tl { u with ID := v })))) ?_ n
      rw [cl_setID]
      simp [setField, loadObj, ha, urnValW, get, set, coerce]

theorem w_setSS (p : Option Nat) (hp : ∀ a, p = some a → ∃ q tl u, h[a]? = some (.obj (urnValW q tl u))) (v : Bytes) (n : Nat) :
    callClient prog cprog X n "setSS" [.ptr "URN" p, .str v] h ≠ .stuck := by
  cases p with
  | none => exact never_panic (N := 1) (p := .nilDeref) (by rw [cl_setSS]; rfl) n
  | some a =>
      obtain ⟨q, tl, u, ha⟩ := hp a rfl
      refine never_ok (N := 1) (r := ([], h.set a (.obj (urnValW q tl { u with SS := v })))) ?_ n
      rw [cl_setSS]
      simp [setField, loadObj, ha, urnValW, get, set, coerce]

/-- A memory in which only one SCIM struct may be used. -/
theorem sim_scim {b : Nat} {s : SCIM} (hb : h[b]? = some (.obj (scimVal s))) : Sim { scims := [s] } h [] [b] :=
  ⟨rfl, rfl, .nil, by simp, by simp, by
    intro j c t h1 h2
    cases j with
    | zero => simp at h1 h2; subst h1; subst h2; exact hb
    | succ j => simp at h1⟩

/-! ## Assignments of structs -/

/-- It writes to no cell but one. -/
def Io.Writes {α : Type} (p : Option Nat) (Q : α → Prop) : Io α → Prop
  | done (.ok a) => Q a
  | done _ => True
  | read _ _ k => ∀ c, Writes p Q (k c)
  | write a _ k => p = some a ∧ Writes p Q k
  | alloc _ k => ∀ a, Writes p Q (k a)

theorem Io.Writes.bind {α β : Type} {p : Option Nat} {Q : α → Prop} {Q' : β → Prop} {t : Io α} {f : α → Io β} (ht : t.Writes p Q) (hf : ∀ a, Q a → (f a).Writes p Q') :
    (t.bind f).Writes p Q' := by
  induction t with
  | done r => cases r with
    | ok a => exact hf a ht
    | _ => trivial
  | read a p k ih => exact fun c => ih c (ht c)
  | write a u k ih => exact ⟨ht.1, ih ht.2⟩
  | alloc c k ih => exact fun a => ih a (ht a)

theorem Io.Silent.writes {α : Type} {p : Option Nat} {Q : α → Prop} {t : Io α} (ht : t.Silent Q) : t.Writes p Q := by
  induction t with
  | done r => cases r with
    | ok a => exact ht
    | _ => trivial
  | read a p k ih => exact fun c => ih c (ht c)
  | write a u k ih => exact ht.elim
  | alloc c k ih => exact fun a => ih a (ht a)

theorem Io.Writes.log {α : Type} {p : Option Nat} {Q : α → Prop} {t : Io α} : ∀ {h : Heap}, t.Writes p Q → ∀ x, x ∈ t.log h → x.write = true → p = some x.cell := by
  induction t with
  | done r => intro h _ x hx; cases hx
  | read a p k ih =>
      intro h ht x hx hw
      rw [Io.log] at hx
      rcases List.mem_cons.1 hx with rfl | hx
      · cases hw
      · split at hx
        · exact ih _ (ht _) x hx hw
        · cases hx
  | write a u k ih =>
      intro h ht x hx hw
      rw [Io.log] at hx
      rcases List.mem_cons.1 hx with rfl | hx
      · exact ht.1
      · split at hx
        · exact ih ht.2 x hx hw
        · cases hx
  | alloc c k ih => intro h ht x hx hw; exact ih _ (ht _) x hx hw

theorem cl_startT {n : Nat} {f : String} {g : Fn} {vs : List Val} {env : Env} (hg : findFn cprog none f = some g) (hr : g.recv = none)
    (he : bindParams prog false g.params vs = some env) : callClientT prog cprog X n f vs = callT prog X n g.results env g.body := by
  have e : callFnT prog (callT prog X n) g none vs false = callT prog X n g.results env g.body := by
    unfold callFnT
    rw [he, hr]
    rfl
  unfold callClientT
  rw [hg]
  exact e

theorem setDerefT_writes (t : String) (p : Option Nat) (v : Val) : (setDerefT (.ptr t p) v).Writes p Any := by
  cases p with
  | none => trivial
  | some a => exact (loadObjT_silent a).writes.bind fun _ _ => ⟨rfl, trivial⟩

theorem copyT (t : String) (p q : Option Nat) : ∀ n, (callT prog X n [] [("p", .ptr t p), ("q", .ptr t q)]
      (.cons (.assign (.cons (.un .deref (.id "p")) .nil) (.cons (.un .deref (.id "q")) .nil)) .nil)).Writes p Any
  | 0 => trivial
  | n + 1 => by
      rw [callT]
      have hq : (evalsT prog X (callT prog X n) (.cons (.un .deref (.id "q")) .nil) [("p", .ptr t p), ("q", .ptr t q)]).Writes p
          fun y => y.2 = [("p", .ptr t p), ("q", .ptr t q)] := by
        rw [evalsT, evalT, evalT]
        cases q with
        | none => trivial
        | some b => intro c; cases c <;> first | trivial | (rw [evalsT]; rfl)
      have ha : ∀ v, (assignT prog X (callT prog X n) (.un .deref (.id "p")) v [("p", .ptr t p), ("q", .ptr t q)]).Writes p Any := by
        intro v
        unfold assignT
        dsimp only
        rw [evalT]
        exact (setDerefT_writes t p v).bind fun _ _ => trivial
      refine Io.Writes.bind (Q := Any) ?_ fun y _ => ?_
      · rw [jumpsT]
        refine Io.Writes.bind (Q := fun y => y.1 = .next) ?_ fun y hy => ?_
        · rw [execsT, execT]
          refine Io.Writes.bind (Q := fun y => y.1 = .next) ?_ fun y hy => ?_
          · refine hq.bind fun y hy => (silent_done.writes).bind fun v _ => ?_
            rw [hy]
            exact (ha v).bind fun _ _ => rfl
          · obtain ⟨s, e⟩ := y
            cases hy
            dsimp only
            rw [execsT]
            rfl
        · obtain ⟨s, e⟩ := y
          cases hy
          trivial
      · obtain ⟨s, e⟩ := y
        cases s with
        | ret vs => dsimp only; split <;> trivial
        | next => dsimp only; split <;> trivial
        | goto l => trivial

theorem copy_log {h : Heap} (p q : Option Nat) (n : Nat) :
    (∀ x, x ∈ (callClientT prog cprog X n "copyURN" [.ptr "URN" p, .ptr "URN" q]).log h → x.write = true → p = some x.cell) ∧
    (∀ x, x ∈ (callClientT prog cprog X n "copySCIM" [.ptr "SCIM" p, .ptr "SCIM" q]).log h → x.write = true → p = some x.cell) := by
  constructor
  · rw [cl_startT (g := fn% cfn "copyURN") (env := [("p", .ptr "URN" p), ("q", .ptr "URN" q)]) (by kernel_rfl) rfl (by simp [bindParams, zero_urn, coerce])]
    exact (copyT "URN" p q n).log
  · rw [cl_startT (g := fn% cfn "copySCIM") (env := [("p", .ptr "SCIM" p), ("q", .ptr "SCIM" q)]) (by kernel_rfl) rfl (by simp [bindParams, zero_scim, coerce])]
    exact (copyT "SCIM" p q n).log
/-! ## One call -/

theorem step_writes (r : Sim M h U S) (hR : RegsFit R U S) (st : Step) (hf : st.Fits X) (n : Nat) :
    ∀ x, x ∈ (callClientT prog cprog X n (st.text (mapR U S R)).1 (st.text (mapR U S R)).2).log h → x.write = true → x.cell < h.length →
      ∃ p ∈ st.target R, AddrOf U S x.cell p := by
  have hU : ∀ p, ∀ c, look U (R.urn p) = some c → ∃ q ∈ Place.urns (R.urn p), AddrOf U S c q := fun p c hc => by
    cases hp : R.urn p with
    | none => rw [hp] at hc; cases hc
    | some k => rw [hp] at hc; exact ⟨.urn k, by simp [Place.urns], hc⟩
  have hS : ∀ p, ∀ c, look S (R.scim p) = some c → ∃ q ∈ Place.scims (R.scim p), AddrOf U S c q := fun p c hc => by
    cases hp : R.scim p with
    | none => rw [hp] at hc; cases hc
    | some k => rw [hp] at hc; exact ⟨.scim k, by simp [Place.scims], hc⟩
  have cU : ∀ p a, look U (R.urn p) = some a → ∃ q tl u, (mask (only (look U (R.urn p))) h)[a]? = some (.obj (urnValW q tl u)) := fun p a ha => by
    rw [mask_in h (by simp [only, ha])]
    cases hp : R.urn p with
    | none => rw [hp] at ha; cases ha
    | some k =>
        rw [hp] at ha
        obtain ⟨b, x, h1, -, tl, h2, -⟩ := r.lookU (hR.urn p k hp)
        cases (show some b = some a from h1.symm.trans ha)
        exact ⟨_, _, _, h2⟩
  have cS : ∀ p, ∃ M' S' k, Sim M' (mask (only (look S (R.scim p))) h) [] S' ∧ (∀ i, k = some i → i < S'.length) ∧ look S' k = look S (R.scim p) := fun p => by
    cases hp : R.scim p with
    | none => exact ⟨{}, [], none, Sim.empty _, by simp, rfl⟩
    | some k =>
        obtain ⟨b, s, h1, -, h2⟩ := r.lookS (hR.scim p k hp)
        have e : look S (some k) = some b := h1
        rw [e]
        exact ⟨_, [b], some 0, sim_scim (s := s) (by rw [mask_in h (by simp [only])]; exact h2), by simp, rfl⟩
  have mU : ∀ p {f vs}, (∀ n, callClient prog cprog X n f vs (mask (only (look U (R.urn p))) h) ≠ .stuck) →
      ∀ x, x ∈ (callClientT prog cprog X n f vs).log h → x.write = true → x.cell < h.length → ∃ q ∈ Place.urns (R.urn p), AddrOf U S x.cell q :=
    fun p f vs hn x hx _ hl => hU p _ (by simpa [only] using call_log hn n x hx hl)
  have mS : ∀ p {f vs}, (∀ n, callClient prog cprog X n f vs (mask (only (look S (R.scim p))) h) ≠ .stuck) →
      ∀ x, x ∈ (callClientT prog cprog X n f vs).log h → x.write = true → x.cell < h.length → ∃ q ∈ Place.scims (R.scim p), AddrOf U S x.cell q :=
    fun p f vs hn x hx _ hl => hS p _ (by simpa [only] using call_log hn n x hx hl)
  have quiet : ∀ {f vs} (ts : List Place), quietClients.contains f = true → ∀ x, x ∈ (callClientT prog cprog X n f vs).log h → x.write = true → x.cell < h.length →
      ∃ q ∈ ts, AddrOf U S x.cell q := fun ts hq x hx hw _ => by
    rw [(quiet_call hq _).log x hx] at hw
    cases hw
  have none : ∀ {f vs} (ts : List Place), (∀ n, callClient prog cprog X n f vs (mask (fun _ => false) h) ≠ .stuck) → ∀ x, x ∈ (callClientT prog cprog X n f vs).log h →
      x.write = true → x.cell < h.length → ∃ q ∈ ts, AddrOf U S x.cell q := fun ts hn x hx _ hl => by
    cases call_log hn n x hx hl
  cases st <;> simp only [Step.text, Step.target, mapR_urn, mapR_scim]
  case parse s modes => exact none _ (w_parse s hf modes)
  case unmarshal8141 p s => exact none _ (w_unmarshal8141 _ s hf)
  case unmarshalJSON p s => exact mU p (w_unmarshalJSON _ (fun a ha => (cU p a ha).elim fun _ h => h.elim fun _ h => h.elim fun _ h => ⟨_, h⟩) s hf)
  case setID p v => exact mU p (w_setID _ (cU p) v)
  case setSS p v => exact mU p (w_setSS _ (cU p) v)
  case copyURN p q => exact fun x hx hw _ => hU p _ ((copy_log _ _ n).1 x hx hw)
  case copySCIM p q => exact fun x hx hw _ => hS p _ ((copy_log _ _ n).2 x hx hw)
  case scimUnmarshalJSON p s => obtain ⟨M', S', k, r', hk, e⟩ := cS p; exact mS p (by rw [← e] at r' ⊢; exact (g_scimUnmarshalJSON r' hk p s hf).never)
  case setType p v => obtain ⟨M', S', k, r', hk, e⟩ := cS p; exact mS p (by rw [← e] at r' ⊢; exact (g_setType r' hk p v).never)
  case setName p v => obtain ⟨M', S', k, r', hk, e⟩ := cS p; exact mS p (by rw [← e] at r' ⊢; exact (g_setName r' hk p v).never)
  case setOther p v => obtain ⟨M', S', k, r', hk, e⟩ := cS p; exact mS p (by rw [← e] at r' ⊢; exact (g_setOther r' hk p v).never)
  all_goals exact quiet _ rfl

/-! ## Many calls -/

theorem log_bind {α β : Type} (t : Io α) (f : α → Io β) : ∀ h : Heap, (t.bind f).log h = t.log h ++ match t.run h with | .ok (a, h') => (f a).log h' | _ => [] := by
  induction t with
  | done r => intro h; cases r <;> rfl
  | read a p k ih =>
      intro h
      simp only [Io.bind, Io.log, Io.run]
      cases h.at a p with
      | none => rfl
      | some c => simp only [ih, List.cons_append]
  | write a u k ih =>
      intro h
      simp only [Io.bind, Io.log, Io.run]
      cases h.own a u with
      | none => rfl
      | some d => simp only [ih, List.cons_append]
  | alloc c k ih => intro h; simp only [Io.bind, Io.log, Io.run, ih]

theorem run_grows {α : Type} (t : Io α) : ∀ (h h' : Heap) (a : α), t.run h = .ok (a, h') → h.length ≤ h'.length := by
  induction t with
  | done r => intro h h' a e; cases r <;> cases e; exact Nat.le_refl _
  | read b p k ih =>
      intro h h' a e
      rw [Io.run] at e
      split at e
      · exact ih _ _ _ _ e
      · cases e
  | write b u k ih =>
      intro h h' a e
      rw [Io.run] at e
      split at e
      · have := ih _ _ _ e
        rwa [List.length_set] at this
      · cases e
  | alloc c k ih =>
      intro h h' a e
      rw [Io.run] at e
      have := ih _ _ _ _ e
      rw [List.length_append] at this
      omega

theorem AddrOf.old {U' S' : List Nat} {c m : Nat} {p : Place} (ha : AddrOf (U ++ U') (S ++ S') c p) (hc : c < m)
    (hU : ∀ a ∈ U', m ≤ a) (hS : ∀ a ∈ S', m ≤ a) : AddrOf U S c p := by
  cases p with
  | urn k =>
      unfold AddrOf at *
      dsimp only at ha ⊢
      rw [List.getElem?_append] at ha
      split at ha
      · exact ha
      · exact absurd (hU c (List.mem_of_getElem? ha)) (by omega)
  | scim k =>
      unfold AddrOf at *
      dsimp only at ha ⊢
      rw [List.getElem?_append] at ha
      split at ha
      · exact ha
      · exact absurd (hS c (List.mem_of_getElem? ha)) (by omega)

theorem run_writes (n : Nat) (ss : List Step) : (∀ s ∈ ss, s.Fits X) → ∀ {M : Mem} {h : Heap} {U S : List Nat} {R : Regs}, Sim M h U S → RegsFit R U S →
    ∀ x, x ∈ (runTextT prog cprog X n ss (mapR U S R)).log h → x.write = true → x.cell < h.length → ∃ p ∈ targets X ss R M, AddrOf U S x.cell p := by
  induction ss with
  | nil => intro _ M h U S R _ _ x hx; cases hx
  | cons s ss ih =>
      intro hf M h U S R r hR x hx hw hl
      have hfs := hf s (List.mem_cons_self ..)
      rw [runTextT, Io.bind_eq, log_bind] at hx
      rw [targets]
      rcases List.mem_append.1 hx with hx | hx
      · obtain ⟨p, hp, ha⟩ := step_writes r hR s hfs n x hx hw hl
        exact ⟨p, List.mem_append_left _ hp, ha⟩
      · have hs := (callClient_same prog cprog X n (s.text (mapR U S R)).1 (s.text (mapR U S R)).2 h)
        cases hr : (callClientT prog cprog X n (s.text (mapR U S R)).1 (s.text (mapR U S R)).2).run h with
        | ok y =>
            have hs : callClient prog cprog X n (s.text (mapR U S R)).1 (s.text (mapR U S R)).2 h = .ok y := hs.trans hr
            rw [hr] at hx
            dsimp only at hx
            have hg := step_good (X := X) r hR s hfs
            have mono := callClient_mono prog cprog X (s.text (mapR U S R)).1 (s.text (mapR U S R)).2 h
            cases ha : M.act X.uni X.json (s.act R) with
            | diverge => rw [ha] at hg; exact hg.elim
            | panic p => rw [ha] at hg; exact (Panics.not_ok mono hg hs).elim
            | ok z =>
                obtain ⟨M1, g⟩ := z
                rw [ha] at hg
                obtain ⟨U1, S1, h1, h2, h3, h4, h5, h6, h7, h8⟩ := hg
                cases Does.only mono h2 hs
                have hR1 := (hR.app U1 S1).add h4
                have hm : mapR (U ++ U1) (S ++ S1) (R.addGot g) = (mapR U S R).addVals (s.vals X (look (U ++ U1)) (look (S ++ S1)) g) := by
                  rw [h5 R, mapR_app hR]
                have hlen : h.length ≤ h1.length := run_grows _ _ _ _ hr
                rw [← hm, Io.bind_eq, log_bind] at hx
                rcases List.mem_append.1 hx with hx | hx
                · obtain ⟨p, hp, hq⟩ := ih (fun t ht => hf t (List.mem_cons_of_mem _ ht)) h3 hR1 x hx hw (by omega)
                  exact ⟨p, List.mem_append_right _ hp, hq.old hl h6 h7⟩
                · cases hr : (runTextT prog cprog X n ss (mapR (U ++ U1) (S ++ S1) (R.addGot g))).run h1 with
                  | ok y => rw [hr] at hx; cases hx
                  | _ => rw [hr] at hx; cases hx
        | _ => rw [hr] at hx; cases hx
end
end Urn.GoLang
