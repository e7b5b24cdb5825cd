import Verif.GoCheckRules
/-!
# Calls of the package in the checks
-/
set_option autoImplicit false
set_option linter.unusedSimpArgs false
namespace Urn.GoLang

/-- What was in memory is still there. -/
def Keep (h h' : Heap) : Prop := ∀ c, c < h.length → h'[c]? = h[c]?

theorem Keep.refl {h : Heap} : Keep h h := fun _ _ => rfl
theorem Keep.length {h h' : Heap} (k : Keep h h') : h.length ≤ h'.length := by
  cases hl : h.length with
  | zero => omega
  | succ n =>
      have := k n (by omega)
      rw [List.getElem?_eq_getElem (by omega : n < h.length)] at this
      have := (List.getElem?_eq_some_iff.1 this).1
      omega
theorem Keep.trans {h h' h'' : Heap} (k : Keep h h') (k' : Keep h' h'') : Keep h h'' := fun c hc =>
  (k' c (by have := k.length; omega)).trans (k c hc)
theorem Keep.app {h e : Heap} : Keep h (h ++ e) := fun _ hc => List.getElem?_append_left hc
theorem Keep.buf {h h' : Heap} {b : Buf} {s : Bytes} (k : Keep h h') (hb : b.has h s) : b.has h' s := by
  cases b with
  | nil => exact hb
  | part a pre post cap => exact ⟨by rw [k a (List.getElem?_eq_some_iff.1 hb.1).1]; exact hb.1, hb.2⟩
theorem Keep.urn {h h' : Heap} {p : Option Nat} {u : Option URN} (k : Keep h h') (hu : UrnPtr h p u) : UrnPtr h' p u := hu.keep' k

theorem zero_int (P : Prog) : zero P 3 (.name "int") = .int "int" 0 := by simp [zero]
theorem zero_byte (P : Prog) : zero P 3 (.name "byte") = .int "byte" 0 := by simp [zero]

theorem coerce_val (b : Buf) (k : Nat) (v : Val) (hv : v = .nil ∨ v = .int "int" 0) : coerce v (b.val k) = b.val k := by
  rcases hv with rfl | rfl <;> cases b <;> rfl
theorem coerce_errVal (e : Option Err) : coerceDefault (errVal e) = errVal e := by cases e <;> rfl
theorem coerce_jerrVal (X : Ext) (d : Bytes) (e : Option JErr) : coerceDefault (jerrVal X d e) = jerrVal X d e := by
  rcases e with _ | e
  · rfl
  · cases e <;> rfl

/-! ## Checks that return true -/

def EvT (X : Ext) (env : Env) (h : Heap) (e : Expr) : Prop := ∃ h', Ev X env h e [.bool true] h'
def ExT (X : Ext) (env : Env) (h : Heap) (ss : Stmts) : Prop := ∃ h', Ex X env h ss [.bool true] h'

section
variable {X : Ext} {env : Env} {h h1 h2 h3 : Heap} {a b e : Expr} {es : Exprs} {vs ws : List Val} {v w x y : Val} {f s : String} {ss as bs : Stmts}

theorem EvT.of (he : Ev X env h e [.bool true] h1) : EvT X env h e := ⟨_, he⟩
theorem EvT.and (ha : Ev X env h a [.bool true] h1) (hb : EvT X env h1 b) : EvT X env h (.bin .and a b) := by
  obtain ⟨h', hb⟩ := hb
  exact ⟨h', .and_true ha hb⟩
theorem EvT.or_false (ha : Ev X env h a [.bool false] h1) (hb : EvT X env h1 b) : EvT X env h (.bin .or a b) := by
  obtain ⟨h', hb⟩ := hb
  exact ⟨h', .or_false ha hb⟩
theorem EvT.or_true (ha : Ev X env h a [.bool true] h1) : EvT X env h (.bin .or a b) := ⟨h1, .or_true ha⟩

theorem ExT.ret (he : EvT X env h e) : ExT X env h (.cons (.ret (.cons e .nil)) ss) := by
  obtain ⟨h', he⟩ := he
  exact ⟨h', .ret (.one he)⟩
theorem ExT.expr (he : Ev X env h e vs h1) (hr : ExT X env h1 ss) : ExT X env h (.cons (.expr e) ss) := by
  obtain ⟨h', hr⟩ := hr
  exact ⟨h', .expr he hr⟩
theorem ExT.define {p : String} (he : Ev X env h e [v] h1) (hv : coerceDefault v = v) (hr : ExT X ((p, v) :: env) h1 ss) :
    ExT X env h (.cons (.define [p] (.cons e .nil)) ss) := by
  obtain ⟨h', hr⟩ := hr
  exact ⟨h', .define he rfl (by simpa [hv] using hr)⟩
theorem ExT.define2 {p q : String} (he : Ev X env h e [v, w] h1) (hv : coerceDefault v = v) (hw : coerceDefault w = w)
    (hr : ExT X ((p, v) :: (q, w) :: env) h1 ss) : ExT X env h (.cons (.define [p, q] (.cons e .nil)) ss) := by
  obtain ⟨h', hr⟩ := hr
  exact ⟨h', .define he rfl (by simpa [hv, hw] using hr)⟩
theorem ExT.if_false (hc : Ev X env h e [.bool false] h1) (hr : ExT X env h1 ss) : ExT X env h (.cons (.if_ .nil e as .nil) ss) := by
  obtain ⟨h', hr⟩ := hr
  exact ⟨h', .if_false hc hr⟩
theorem ExT.if_true (hl : noLabels as = true) (hc : Ev X env h e [.bool true] h1) (hr : ExT X env h1 as) :
    ExT X env h (.cons (.if_ .nil e as bs) ss) := by
  obtain ⟨h', hr⟩ := hr
  exact ⟨h', .if_true hl hc hr⟩
/-- `if c { x += e }`, whatever `c` is. -/
theorem ExT.if_add {p : String} {t t' : Bytes} {env' : Env} {c : Bool} (hc : Ev X env h e [.bool c] h) (hp : get p env = some (.str t))
    (ha : Ev X env h a [.str t'] h) (hs : set p (.str (t ++ if c then t' else [])) env = some env') (hlen : env'.length = env.length)
    (h0 : c = false → env' = env) (hr : ExT X env' h ss) :
    ExT X env h (.cons (.if_ .nil e (.cons (.add (.id p) a) .nil) .nil) ss) := by
  cases c with
  | true =>
      obtain ⟨h', hr⟩ := hr
      exact ⟨h', .if_add hc hp ha hs hlen hr⟩
  | false => exact .if_false hc (h0 rfl ▸ hr)
theorem ExT.setIndex {i : Expr} {t : String} {k : Int} (he : Ev X env h e [x] h) (hv : Ev X env h b [v] h) (hi : Ev X env h i [.int t k] h)
    (hs : setIndex h v k x = .ok h1) (hr : ExT X env h1 ss) :
    ExT X env h (.cons (.assign (.cons (.index b i) .nil) (.cons e .nil)) ss) := by
  obtain ⟨h', hr⟩ := hr
  exact ⟨h', .setIndex he hv hi hs hr⟩

theorem holds {f : String} {g : Fn} (hg : findFn tprog none f = some g) (hr : g.recv = none) (ht : g.results = [.name "bool"])
    (hp : bindParams prog false g.params vs = some env) (he : ExT X env h g.body) : Holds prog tprog X f vs h := by
  obtain ⟨h', he⟩ := he
  exact holds_of hg hr ht hp he

/-! ## Names -/

theorem Ev.true (he : get "true" env = none) : Ev X env h (.id "true") [.bool .true] h := .id (by simp [lookup, he, c_true])
theorem Ev.false (he : get "false" env = none) : Ev X env h (.id "false") [.bool .false] h := .id (by simp [lookup, he, c_false])
theorem Ev.nil (he : get "nil" env = none) : Ev X env h (.id "nil") [.nil] h := .id (by simp [lookup, he, c_nil])
theorem Ev.var (hx : get s env = some v) : Ev X env h (.id s) [v] h := .id (by simp [lookup, hx])

theorem Ev.notF (he : Ev X env h e [.bool .false] h1) : Ev X env h (.un .not e) [.bool .true] h1 := he.not
theorem Ev.notT (he : Ev X env h e [.bool .true] h1) : Ev X env h (.un .not e) [.bool .false] h1 := he.not

/-- `x == y` for texts. -/
theorem Ev.eqStr {t t' : Bytes} (ha : Ev X env h a [.str t] h1) (hb : Ev X env h1 b [.str t'] h2) : Ev X env h (.bin .eq a b) [.bool (t == t')] h2 :=
  .bin (by simp) ha hb rfl
theorem Ev.eqSame {t t' : Bytes} (ha : Ev X env h a [.str t] h1) (hb : Ev X env h1 b [.str t'] h2) (ht : t = t') : Ev X env h (.bin .eq a b) [.bool .true] h2 := by
  have := Ev.eqStr ha hb
  rwa [ht, beq_self_eq_true] at this
theorem Ev.neStr {t t' : Bytes} (ha : Ev X env h a [.str t] h1) (hb : Ev X env h1 b [.str t'] h2) : Ev X env h (.bin .ne a b) [.bool (!(t == t'))] h2 :=
  .bin (by simp) ha hb rfl
theorem Ev.eqBool {t t' : Bool} (ha : Ev X env h a [.bool t] h1) (hb : Ev X env h1 b [.bool t'] h2) : Ev X env h (.bin .eq a b) [.bool (t == t')] h2 :=
  .bin (by simp) ha hb rfl
theorem Ev.neBool {t t' : Bool} (ha : Ev X env h a [.bool t] h1) (hb : Ev X env h1 b [.bool t'] h2) : Ev X env h (.bin .ne a b) [.bool (!(t == t'))] h2 :=
  .bin (by simp) ha hb rfl
theorem Ev.eqInt {t : String} {k k' : Int} (ha : Ev X env h a [.int t k] h1) (hb : Ev X env h1 b [.int t k'] h2) (hk : k = k') :
    Ev X env h (.bin .eq a b) [.bool .true] h2 :=
  .bin (by simp) ha hb (by simp [binVal, eqVal, common, hk])
theorem Ev.add {t t' : Bytes} (ha : Ev X env h a [.str t] h1) (hb : Ev X env h1 b [.str t'] h2) : Ev X env h (.bin .add a b) [.str (t ++ t')] h2 :=
  .bin (by simp) ha hb rfl
/-- `p == nil`, `p != nil` -/
theorem Ev.isNil {t : String} {p : Option Nat} (he : get "nil" env = none) (ha : Ev X env h a [.ptr t p] h1) :
    Ev X env h (.bin .eq a (.id "nil")) [.bool p.isNone] h1 :=
  .bin (by simp) ha (.nil he) rfl
theorem Ev.notNil {t : String} {p : Option Nat} (he : get "nil" env = none) (ha : Ev X env h a [.ptr t p] h1) :
    Ev X env h (.bin .ne a (.id "nil")) [.bool (!p.isNone)] h1 :=
  .bin (by simp) ha (.nil he) rfl
theorem Ev.errNil {r : Option Err} (he : get "nil" env = none) (ha : Ev X env h a [errVal r] h1) :
    Ev X env h (.bin .eq a (.id "nil")) [.bool r.isNone] h1 :=
  .bin (by simp) ha (.nil he) (by cases r <;> rfl)
theorem Ev.jerrNil {r : Option JErr} {d : Bytes} (he : get "nil" env = none) (ha : Ev X env h a [jerrVal X d r] h1) :
    Ev X env h (.bin .eq a (.id "nil")) [.bool r.isNone] h1 :=
  .bin (by simp) ha (.nil he) (by rcases r with _ | r <;> first | rfl | (cases r <;> rfl))

/-- `if !ok { return true }` -/
theorem ExT.guard {k : Bool} (hk : get "ok" env = some (.bool k)) (ht : get "true" env = none) (hr : k = true → ExT X env h ss) :
    ExT X env h (.cons (.if_ .nil (.un .not (.id "ok")) (.cons (.ret (.cons (.id "true") .nil)) .nil) .nil) ss) := by
  cases k with
  | true => exact .if_false (.not (.var hk)) (hr rfl)
  | false => exact .if_true rfl (.not (.var hk)) (.ret (.of (.true ht)))
/-- `if !ok || p == nil { return true }` -/
theorem ExT.guard2 {k : Bool} {p t : String} {c : Option Nat} (hk : get "ok" env = some (.bool k)) (hp : get p env = some (.ptr t c)) (ht : get "true" env = none)
    (hn : get "nil" env = none) (hr : k = true → ∀ c', c = some c' → ExT X env h ss) :
    ExT X env h (.cons (.if_ .nil (.bin .or (.un .not (.id "ok")) (.bin .eq (.id p) (.id "nil"))) (.cons (.ret (.cons (.id "true") .nil)) .nil) .nil) ss) := by
  cases k with
  | false => exact .if_true rfl (.or_true (.not (.var hk))) (.ret (.of (.true ht)))
  | true =>
      cases c with
      | none => exact .if_true rfl (.or_false (.not (.var hk)) (.isNil hn (.var hp))) (.ret (.of (.true ht)))
      | some c => exact .if_false (.or_false (.not (.var hk)) (.isNil hn (.var hp))) (hr rfl c rfl)

/-! ## Parse -/

theorem does_parse {b : Buf} {s : Bytes} (hb : b.has h s) (hf : X.Fits s) (xs : List ParsingMode) :
    ∃ r p h', parse s (xs.map withParsingMode) = .ok r ∧
      Does (fun n => runFn prog X n "Parse" (b.val s.length :: xs.map optVal) false h) ([.ptr "URN" p, .bool r.ok], h') ∧ UrnPtr h' p r.urn ∧ Keep h h' := by
  obtain ⟨r, hr⟩ := C01_parse_returns s (xs.map withParsingMode)
  obtain ⟨h', p, e, h1, h2, h3, h4⟩ := pkgParse_call (X := X) xs hb hf hr (Nat.le_refl _)
  rw [C03_buffer_restored _ _ _ hr] at h2
  exact ⟨r, p, h', hr, does_fn find_pkgParse e, h1.ptr, has_same hb h2 h4⟩

/-- `WithParsingMode(m)` -/
theorem Ev.mode {m : ParsingMode} (hf : get "WithParsingMode" env = none) (he : Ev X env h e [.int "ParsingMode" m] h1) :
    Ev X env h (.call (.id "WithParsingMode") (.cons e .nil) .false) [optVal m] h1 :=
  .call hf (by decide) (.one he) (does_fn (N := 1) find_option option_call)

/-- `Parse(e, options)` -/
theorem ev_parse {b : Buf} {s : Bytes} (xs : List ParsingMode) (hf : get "Parse" env = none) (hb : b.has h s) (hs : X.Fits s) (he : Ev X env h e [b.val s.length] h)
    (ho : Evs X env h es (xs.map optVal) h) :
    ∃ r p h', parse s (xs.map withParsingMode) = .ok r ∧ Ev X env h (.call (.id "Parse") (.cons e es) false) [.ptr "URN" p, .bool r.ok] h' ∧
      UrnPtr h' p r.urn ∧ Keep h h' := by
  obtain ⟨r, p, h', h1, h2, h3, h4⟩ := does_parse (X := X) hb hs xs
  exact ⟨r, p, h', h1, .call hf (by decide) (.cons he ho) h2, h3, h4⟩

/-- `Parse(e)`: the mode is RFC 2141, and the result is a URN or false. -/
theorem ev_parse0 {b : Buf} {s : Bytes} (hf : get "Parse" env = none) (hb : b.has h s) (hs : X.Fits s) (he : Ev X env h e [b.val s.length] h) :
    ∃ p h', Keep h h' ∧
      (Ev X env h (.call (.id "Parse") (.cons e .nil) false) [.ptr "URN" p, .bool false] h' ∧ p = none ∧ ¬ Accepts RFC2141Only s ∨
       ∃ c u, p = some c ∧ Ev X env h (.call (.id "Parse") (.cons e .nil) false) [.ptr "URN" p, .bool true] h' ∧
        ParsesTo RFC2141Only s u ∧ UrnPtr h' p (some u)) := by
  obtain ⟨r, p, h', h1, h2, h3, h4⟩ := ev_parse (X := X) [] hf hb hs he .nil
  rw [List.map_nil, C25_default.2] at h1
  refine ⟨p, h', h4, ?_⟩
  cases hu : r.urn with
  | none =>
      left
      rw [hu] at h3
      have hk := ((C22_ok_iff RFC2141Only (.inl rfl) s).1 r h1)
      rw [hu] at hk
      have : r.ok = false := by cases ho : r.ok <;> simp_all
      rw [this] at h2
      refine ⟨h2, h3, ?_⟩
      rintro ⟨u, r', h5, h6⟩
      rw [h1] at h5
      cases h5
      rw [hu] at h6
      cases h6
  | some u =>
      right
      rw [hu] at h3
      have hk := C22_urn_ok _ _ _ h1 (by rw [hu]; simp)
      rw [hk] at h2
      have ⟨c, _, hc, _⟩ := h3
      exact ⟨c, u, hc, h2, ⟨r, h1, hu⟩, h3⟩

/-- `Parse(e, WithParsingMode(m))` -/
theorem ev_parse1 {b : Buf} {s : Bytes} {m : Expr} {x : ParsingMode} (hf : get "Parse" env = none) (hg : get "WithParsingMode" env = none) (hb : b.has h s) (hs : X.Fits s)
    (he : Ev X env h e [b.val s.length] h) (hm : Ev X env h m [.int "ParsingMode" x] h) :
    ∃ r p h', parse s [withParsingMode x] = .ok r ∧
      Ev X env h (.call (.id "Parse") (.cons e (.cons (.call (.id "WithParsingMode") (.cons m .nil) false) .nil)) false) [.ptr "URN" p, .bool r.ok] h' ∧
      UrnPtr h' p r.urn ∧ Keep h h' :=
  ev_parse [x] hf hb hs he (.one (.mode hg hm))

/-- What is known after `if !ok || u == nil { return true }`. -/
theorem urn_some {p : Option Nat} {r : ParseResult} {c : Nat} {s : Bytes} {x : ParsingMode} (hr : parse s [withParsingMode x] = .ok r) (hu : UrnPtr h p r.urn)
    (hc : p = some c) : ∃ u, ParsesTo x s u ∧ UrnPtr h (some c) (some u) := by
  subst hc
  cases hv : r.urn with
  | none => rw [hv] at hu; cases hu
  | some u => exact ⟨u, ⟨r, hr, hv⟩, hv ▸ hu⟩

/-! ## Methods and fields of URNs -/

variable {p q : String} {c : Nat} {u : URN}

theorem ev_string (hp : get p env = some (.ptr "URN" (some c))) (hu : UrnPtr h (some c) (some u)) :
    Ev X env h (.call (.sel (.id p) "String") .nil false) [.str u.string] h := .meth0 hp (C65_reads isProgram_prog X h c u hu).1
theorem ev_rfc (hp : get p env = some (.ptr "URN" (some c))) (hu : UrnPtr h (some c) (some u)) :
    Ev X env h (.call (.sel (.id p) "RFC") .nil false) [.int "Kind" (kindNum u.rfc)] h := .meth0 hp (C65_reads isProgram_prog X h c u hu).2.1
theorem ev_isScim (hp : get p env = some (.ptr "URN" (some c))) (hu : UrnPtr h (some c) (some u)) :
    Ev X env h (.call (.sel (.id p) "IsSCIM") .nil false) [.bool u.isSCIM] h := .meth0 hp (C65_reads isProgram_prog X h c u hu).2.2.1
theorem ev_r (hp : get p env = some (.ptr "URN" (some c))) (hu : UrnPtr h (some c) (some u)) :
    Ev X env h (.call (.sel (.id p) "RComponent") .nil false) [.str u.getR] h := .meth0 hp (C65_reads isProgram_prog X h c u hu).2.2.2.1
theorem ev_q (hp : get p env = some (.ptr "URN" (some c))) (hu : UrnPtr h (some c) (some u)) :
    Ev X env h (.call (.sel (.id p) "QComponent") .nil false) [.str u.getQ] h := .meth0 hp (C65_reads isProgram_prog X h c u hu).2.2.2.2.1
theorem ev_f (hp : get p env = some (.ptr "URN" (some c))) (hu : UrnPtr h (some c) (some u)) :
    Ev X env h (.call (.sel (.id p) "FComponent") .nil false) [.str u.getF] h := .meth0 hp (C65_reads isProgram_prog X h c u hu).2.2.2.2.2.1
theorem ev_scim (hp : get p env = some (.ptr "URN" (some c))) (hu : UrnPtr h (some c) (some u)) :
    ∃ q, Ev X env h (.call (.sel (.id p) "SCIM") .nil false) [.ptr "SCIM" q] h ∧ ScimAt h q u.getSCIM := by
  obtain ⟨q, h1, h2⟩ := (C65_reads isProgram_prog X h c u hu).2.2.2.2.2.2
  exact ⟨q, .meth0 hp h1, h2⟩

theorem ev_id (hp : get p env = some (.ptr "URN" (some c))) (hu : UrnPtr h (some c) (some u)) : Ev X env h (.sel (.id p) "ID") [.str u.ID] h := by
  obtain ⟨_, v, hc, hv, sp, tl, rfl, _⟩ := hu
  cases hc
  exact .sel (.var hp) (by simp [field, loadObj, hv, urnValW, get])
theorem ev_ss (hp : get p env = some (.ptr "URN" (some c))) (hu : UrnPtr h (some c) (some u)) : Ev X env h (.sel (.id p) "SS") [.str u.SS] h := by
  obtain ⟨_, v, hc, hv, sp, tl, rfl, _⟩ := hu
  cases hc
  exact .sel (.var hp) (by simp [field, loadObj, hv, urnValW, get])

/-- `p.Equal(q)` -/
theorem ev_equal {d : Option Nat} {x : Option URN} (hp : get p env = some (.ptr "URN" (some c))) (hu : UrnPtr h (some c) (some u))
    (hq : get q env = some (.ptr "URN" d)) (hx : UrnPtr h d x) :
    ∃ h', Ev X env h (.call (.sel (.id p) "Equal") (.cons (.id q) .nil) false) [.bool (u.equal X.uni x)] h' ∧ Keep h h' := by
  obtain ⟨h', h1, h2⟩ := C65_equal isProgram_prog X h c u hu d x hx
  exact ⟨h', .meth hp find_equal (.one (.var hq)) h1, h2⟩
/-- `p.Equal(nil)` -/
theorem ev_equal_nil (hp : get p env = some (.ptr "URN" (some c))) (hn : get "nil" env = none) :
    Ev X env h (.call (.sel (.id p) "Equal") (.cons (.id "nil") .nil) false) [.bool false] h := by
  refine .meth hp find_equal (.one (.nil hn)) (does_method (N := 1) find_equal ?_)
  have : callFn prog (callN prog X 1) equalFn (some (.ptr "URN" (some c))) [.nil] false h =
      callFn prog (callN prog X 1) equalFn (some (.ptr "URN" (some c))) [.ptr "URN" none] false h := by
    simp [equalFn, callFn, bindParams, zero_urn, coerce]
  rw [this]
  exact equal_none (n := 0)

/-- `p.Normalize()` -/
theorem ev_normalize (hp : get p env = some (.ptr "URN" (some c))) (hu : UrnPtr h (some c) (some u)) :
    ∃ d h', Ev X env h (.call (.sel (.id p) "Normalize") .nil false) [.ptr "URN" (some d)] h' ∧ UrnPtr h' (some d) (some (u.normalize X.uni)) ∧ Keep h h' := by
  obtain ⟨h', h1, h2, h3⟩ := C65_normalize isProgram_prog X h c u hu
  exact ⟨_, h', .meth0 hp h1, h2, h3⟩
/-- `p.Normalize().String()` -/
theorem ev_normalString (hp : get p env = some (.ptr "URN" (some c))) (hu : UrnPtr h (some c) (some u)) :
    ∃ h', Ev X env h (.call (.sel (.call (.sel (.id p) "Normalize") .nil false) "String") .nil false) [.str (u.normalize X.uni).string] h' ∧ Keep h h' := by
  obtain ⟨d, h', h1, h2, h3⟩ := ev_normalize (X := X) hp hu
  exact ⟨h', .methCall h1 (C65_reads isProgram_prog X h' d _ h2).1, h3⟩

/-- `string(b)` -/
theorem ev_bytes {b : Buf} {t : Bytes} (hs : get "string" env = none) (hp : get p env = some (b.val t.length)) (hb : b.has h t) :
    Ev X env h (.call (.id "string") (.cons (.id p) .nil) false) [.str t] h := .string hs (.var hp) (toStr_val hb)

/-- `string(b[i:j])` -/
theorem ev_sub {b : Buf} {t : Bytes} {i j : Nat} {ty ty' : String} {ei ej : Expr} (hs : get "string" env = none) (hp : get p env = some (b.val t.length)) (hb : b.has h t)
    (hi : Ev X env h ei [.int ty i] h) (hj : Ev X env h ej [.int ty' j] h) (hij : i ≤ j) (hjl : j ≤ t.length) :
    Ev X env h (.call (.id "string") (.cons (.slice (.id p) ei ej) .nil) false) [.str ((t.drop i).take (j - i))] h := by
  cases b with
  | nil =>
      cases hb
      have : j = 0 := by simpa using hjl
      subst this
      have : i = 0 := by omega
      subst this
      exact .string hs (.slice (w := .nil) (.var hp) hi hj (by simp [Buf.val, sliceVal])) rfl
  | part a pre post cap =>
      obtain ⟨h1, h2, h3⟩ := hb
      refine .string hs (.slice (w := .bytes a (pre.length + i) (j - i) (cap - i)) (.var hp) hi hj ?_) ?_
      · have : (0 : Int) ≤ i ∧ (i : Int) ≤ j ∧ (j : Int) ≤ cap := by omega
        simp [Buf.val, sliceVal, this]
      · simp only [toStr, loadBytes_cellOf (w := .all) h1 (i := i) (n := j - i) (by omega), Res.ok_bind, Res.pure_eq]
/-- `len(b)` -/
theorem ev_len {b : Buf} {t : Bytes} (hs : get "len" env = none) (hp : get p env = some (b.val t.length)) (hb : b.has h t) :
    Ev X env h (.call (.id "len") (.cons (.id p) .nil) false) [.int "int" t.length] h :=
  .len hs (.var hp) (by rintro rfl; cases hb; rfl)

/-- `Parse([]byte(e), WithParsingMode(m))` for a text that is accepted. -/
theorem ev_reparse {e m : Expr} {t : Bytes} {x : ParsingMode} (hf : get "Parse" env = none) (hg : get "WithParsingMode" env = none)
    (he : Ev X env h e [.str t] h) (hm : Ev X env (newBytes h t).2 m [.int "ParsingMode" x] (newBytes h t).2) (hs : X.Fits t) (hu : ParsesTo x t u) :
    ∃ d h', Ev X env h (.call (.id "Parse") (.cons (.conv (.slice (.name "byte")) e) (.cons (.call (.id "WithParsingMode") (.cons m .nil) false) .nil)) false)
        [.ptr "URN" (some d), .bool true] h' ∧ Keep h h' ∧ UrnPtr h' (some d) (some u) := by
  obtain ⟨r, hr, hv⟩ := hu
  have hb : Buf.has (newBytes h t).2 (.part h.length [] [] t.length) t := ⟨by simp [newBytes], Nat.le_refl _, by simp⟩
  obtain ⟨r', p, h', h1, h2, h3, h4⟩ := does_parse (X := X) hb hs [x]
  simp only [List.map_cons, List.map_nil] at h1 h2
  rw [hr] at h1
  cases h1
  rw [C22_urn_ok _ _ _ hr (by rw [hv]; simp)] at h2
  rw [hv] at h3
  have ⟨d, _, hd, _⟩ := h3
  subst hd
  exact ⟨d, h', .call hf (by decide) (.cons (.conv he) (.one (.mode hg hm))) h2, Keep.trans .app h4, h3⟩

/-- What `String` returns for a URN that was parsed is not longer than the input. -/
theorem string_le {x : ParsingMode} {s : Bytes} (hm : KnownMode x) (hu : ParsesTo x s u) : u.string.length ≤ s.length := by
  rcases hm with rfl | rfl | rfl
  · rw [C07_round_trip s u hu]; exact Nat.le_refl _
  · obtain ⟨_, _, _, _, _, _, _, _, _, _, _, _, _, _, h, _⟩ := C10_pieces s u hu
    rw [h]; exact Nat.le_refl _
  · obtain ⟨pre, nid, nss, r, q, f, h, rfl⟩ := parsesTo_8141.mp hu
    have h3 := Spec.IsUrn.length h.hpre
    have hp : (urn8141 pre nid nss r q f).prefix.length ≤ 3 ∧ (urn8141 pre nid nss r q f).prefix ≠ [] := by
      simp only [urn8141]
      split
      · rename_i hs
        obtain ⟨p, t, e, hp⟩ := startsUrn_iff.1 hs
        have := Spec.IsUrn.length hp
        subst e
        rw [List.take_append_of_le_length (by omega), List.take_of_length_le (by omega)]
        exact ⟨by omega, by rintro rfl; simp at this⟩
      · exact ⟨by omega, by rintro rfl; simp at h3⟩
    rw [h.eq]
    have key : ∀ (w : Bytes) (o : Option Bytes) (k : Bytes), (if o.getD [] ≠ [] then k ++ (w ++ o.getD []) else k).length ≤ k.length + (Spec.opt w o).length := by
      rintro w (_ | o) k
      · simp
      · split <;> simp [Spec.opt]
    unfold URN.string
    split
    · dsimp only
      rw [if_neg hp.2]
      refine Nat.le_trans (key _ f _) ?_
      simp only [List.length_append]
      refine Nat.le_trans (Nat.add_le_add_right (Nat.le_trans (key _ q _) (Nat.add_le_add_right (key _ r _) _)) _) ?_
      simp only [List.length_append, List.length_nil, List.length_cons, urn8141, show (lit ":").length = 1 from rfl] at hp ⊢
      omega
    · exact Nat.zero_le _

/-- The same for the normal text. -/
theorem normal_le {x : ParsingMode} {s : Bytes} (hm : KnownMode x) (hu : ParsesTo x s u) (uni : Bytes → Bytes) : (u.normalize uni).string.length ≤ s.length := by
  rw [normalize_string hm hu]
  have hl : ∀ w : Bytes, (Spec.lowerEsc w).length = w.length := by
    intro w
    induction w using Spec.lowerEsc.induct <;> simp_all [Spec.lowerEsc]
  have hp : ∃ pre rest, s = pre ++ 58 :: (u.ID ++ 58 :: (u.SS ++ rest)) ∧ pre.length = 3 := by
    rcases hm with rfl | rfl | rfl
    · obtain ⟨pre, nid, nss, h, -, rfl⟩ := parsesTo_2141.mp hu
      exact ⟨pre, [], by rw [h.eq]; simp [urn2141], Spec.IsUrn.length h.hpre⟩
    · obtain ⟨pre, kw, ty, name, tail, other, h, rfl⟩ := parsesTo_7643.mp hu
      exact ⟨pre, [], by rw [h.eq]; simp [urnScim, lit], Spec.IsUrn.length h.hpre⟩
    · obtain ⟨pre, nid, nss, r, q, f, h, rfl⟩ := parsesTo_8141.mp hu
      exact ⟨pre, Spec.opt (lit "?+") r ++ (Spec.opt (lit "?=") q ++ Spec.opt (lit "#") f), by rw [h.eq]; simp [urn8141],
        Spec.IsUrn.length h.hpre⟩
  obtain ⟨pre, rest, rfl, h3⟩ := hp
  simp [Spec.lowerAll, hl, lit]
  omega

/-! ## Machines -/

/-- The slice is still there if only the machine has changed. -/
theorem buf_except {h h' : Heap} {am : Nat} {m : Machine} {b : Buf} {t : Bytes} (hb : b.has h t) (hm : MachineAt h am m)
    (hk : ∀ c, c < h.length → c ≠ am → h'[c]? = h[c]?) : b.has h' t := by
  cases b with
  | nil => exact hb
  | part a pre post cap =>
      obtain ⟨-, b0, n0, hm⟩ := hm
      refine ⟨?_, hb.2⟩
      rw [hk a (List.getElem?_eq_some_iff.1 hb.1).1 ?_]
      · exact hb.1
      · rintro rfl
        have := hb.1
        rw [hm] at this
        cases this

/-- `NewMachine(WithParsingMode(m))` -/
theorem ev_new {m : ParsingMode} (hf : get "NewMachine" env = none) (hg : get "WithParsingMode" env = none) (he : Ev X env h e [.int "ParsingMode" m] h) :
    ∃ k a h', newMachine [withParsingMode m] = .ok k ∧ Ev X env h (.call (.id "NewMachine") (.cons (.call (.id "WithParsingMode") (.cons e .nil) false) .nil) false) [.ptr "machine" (some a)] h' ∧
      MachineAt h' a k ∧ Keep h h' := by
  obtain ⟨k, h1, -, h2⟩ := newMachine_call (X := X) (n := 0) (h := h) [m]
  rw [← spread_new] at h2
  exact ⟨k, _, _, h1, .call hf (by decide) (.one (.mode hg he)) (does_fn find_newMachine h2), ⟨reachable_new h1, .nil, 0, by simp⟩, .app⟩

/-- `m.Parse(b)` -/
theorem ev_machineParse {b : Buf} {t : Bytes} {am : Nat} {m : Machine} (hp : get p env = some (.ptr "machine" (some am))) (hm : MachineAt h am m)
    (hq : get q env = some (b.val t.length)) (hb : b.has h t) (hs : X.Fits t) :
    ∃ r d h', m.parse t = .ok r ∧ Ev X env h (.call (.sel (.id p) "Parse") (.cons (.id q) .nil) false) [.ptr "URN" d, errVal r.err] h' ∧ UrnPtr h' d r.urn ∧
      MachineAt h' am r.m ∧ ∀ c, c < h.length → c ≠ am → h'[c]? = h[c]? := by
  obtain ⟨r, d, h', h1, h2, h3, -, h4, h5⟩ := C63_parse isProgram_prog X h am m hm b t hb hs
  exact ⟨r, d, h', h1, .meth hp find_parse (.one (.var hq)) h2, h3, h4, h5⟩

/-- A URN is still there when an element of a slice is set. -/
theorem urn_set {d : Nat} {old new : Bytes} {p : Option Nat} {u : Option URN} (hu : UrnPtr h p u) (hd : h[d]? = some (.arr old)) : UrnPtr (h.set d (.arr new)) p u := by
  cases u with
  | none => exact hu
  | some u =>
      obtain ⟨a, v, ha, hv, sp, tl, h1, h2, h3⟩ := hu
      subst ha h1
      have ne : ∀ (k : Nat) (w : Val), h[k]? = some (.obj w) → (h.set d (.arr new))[k]? = some (.obj w) := by
        intro k w hk
        rw [List.getElem?_set_ne]
        · exact hk
        · rintro rfl
          rw [hd] at hk
          cases hk
      refine ⟨a, _, rfl, ne _ _ hv, sp, tl, rfl, h2, ?_⟩
      unfold ScimAt at h3 ⊢
      split
      · rename_i hs; rw [hs] at h3; exact h3
      · rename_i hs
        rw [hs] at h3
        obtain ⟨c, hc, hd⟩ := h3
        exact ⟨c, hc, ne _ _ hd⟩
end
end Urn.GoLang
