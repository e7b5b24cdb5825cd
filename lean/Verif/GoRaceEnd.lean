import Verif.GoRaceSpec
import Verif.GoRaceConv
import Verif.GoRaceWrite
import Verif.PropsCheck
/-!
# From computations without conflicts to every schedule
-/
set_option autoImplicit false
namespace Urn.GoLang
open Urn.Heap (Mem Got)

section
variable {α : Type}

theorem bound_all {β : Type} (l : List β) (Q : β → Nat → Prop) (hq : ∀ b ∈ l, ∃ N, ∀ n, N ≤ n → Q b n) : ∃ N, ∀ n, N ≤ n → ∀ b ∈ l, Q b n := by
  induction l with
  | nil => exact ⟨0, fun _ _ _ hb => (by cases hb)⟩
  | cons b l ih =>
      obtain ⟨N, hN⟩ := ih fun b hb => hq b (List.mem_cons_of_mem _ hb)
      obtain ⟨K, hK⟩ := hq b List.mem_cons_self
      refine ⟨N + K, fun n hn c hc => ?_⟩
      rcases List.mem_cons.1 hc with rfl | hc
      · exact hK n (by omega)
      · exact hN n (by omega) c hc

/-- The memory that a goroutine sees at the end (`l`) and the memory when it is alone (`k`). -/
def Near (h k l : Heap) : Prop := k.length = l.length ∧ ∀ c, h.length ≤ c → l[c]? = k[c]?

/-- What a goroutine returns alone and what it returns with others. -/
def NearRes (h : Heap) : Res (α × Heap) → Res (α × Heap) → Prop
  | .ok (a, k), .ok (b, l) => a = b ∧ Near h k l
  | .panic p, .panic q => p = q
  | .stuck, .stuck | .more, .more => True
  | _, _ => False

theorem always_of {h : Heap} {ts : List (Io α)} {Q : Nat → Res (α × Heap) → Prop} (hn : NoConflict h ts)
    (hQ : ∀ i t, ts[i]? = some t → ∀ r, NearRes h (t.run h) r → Q i r) : Always h ts Q := by
  have hu := undisturbed hn
  refine ⟨hu.noRace, fun i hi => ?_⟩
  have ht : ts[i]? = some ts[i] := List.getElem?_eq_getElem hi
  refine ⟨⟨_, (hu.alone i _ ht).done⟩, fun sched r hr => hQ i _ ht r ?_⟩
  have := (hu.alone i _ ht).same sched r hr
  revert this
  cases (ts[i]).run h with
  | ok y =>
      cases r with
      | ok z =>
          rintro ⟨h1, h2, h3⟩
          exact ⟨h1, h2, fun c hc => h3.1 c fun _ _ _ _ _ _ _ _ => hc⟩
      | _ => exact id
  | _ => cases r <;> exact id

/-- As `always_of`, with what is known about memory that others do not write to. -/
theorem always_same {h : Heap} {ts : List (Io α)} {Q : Nat → Res (α × Heap) → Prop} (hn : NoConflict h ts)
    (hQ : ∀ i t, ts[i]? = some t → ∀ a k, t.run h = .ok (a, k) → ∀ l, Near h k l →
      (∀ c p, (∀ j u x, j ≠ i → ts[j]? = some u → x ∈ u.log h → x.write = true → x.cell = c → x.part.Meets p → h.length ≤ c) → l.at c p = k.at c p) → Q i (.ok (a, l)))
    (hok : ∀ (i : Nat) (t : Io α), ts[i]? = some t → ∃ y, t.run h = .ok y) : Always h ts Q := by
  have hu := undisturbed hn
  refine ⟨hu.noRace, fun i hi => ?_⟩
  have ht : ts[i]? = some ts[i] := List.getElem?_eq_getElem hi
  refine ⟨⟨_, (hu.alone i _ ht).done⟩, fun sched r hr => ?_⟩
  have := (hu.alone i _ ht).same sched r hr
  obtain ⟨⟨a, k⟩, e⟩ := hok i _ ht
  rw [e] at this
  cases r with
  | ok z =>
      obtain ⟨b, l⟩ := z
      obtain ⟨h1, h2, h3, h4⟩ := this
      cases h1
      exact hQ i _ ht a k e l ⟨h2, fun c hc => h3 c fun _ _ _ _ _ _ _ _ => hc⟩ h4
  | _ => exact this.elim

theorem Always.mono {h : Heap} {ts : List (Io α)} {Q Q' : Nat → Res (α × Heap) → Prop} (ha : Always h ts Q) (hq : ∀ i y, Q i y → Q' i y) : Always h ts Q' :=
  ⟨ha.1, fun i hi => ⟨(ha.2 i hi).1, fun sched r hr => hq i r ((ha.2 i hi).2 sched r hr)⟩⟩

theorem conflict_races {h : Heap} {ts : List (Io α)} (hn : ¬ NoConflict h ts) : Races h ts := by
  unfold NoConflict at hn
  simp only [Classical.not_forall, Classical.not_not] at hn
  obtain ⟨i, j, t, u, x, y, hij, hi, hj, hx, hy, hl, hc⟩ := hn
  exact races hij hi hj hx hy hl hc

theorem noConflict_map {β : Type} {h : Heap} {cs : List β} {F : β → Io α} (hc : ∀ (i j : Nat) c d x y, i ≠ j → cs[i]? = some c → cs[j]? = some d →
    x ∈ (F c).log h → y ∈ (F d).log h → x.cell < h.length → ¬ x.Conflict y) : NoConflict h (cs.map F) := by
  intro i j t u x y hij hi hj
  rw [List.getElem?_map] at hi hj
  cases hi' : cs[i]? with
  | none => rw [hi'] at hi; cases hi
  | some c =>
      cases hj' : cs[j]? with
      | none => rw [hj'] at hj; cases hj
      | some d =>
          rw [hi'] at hi; rw [hj'] at hj
          cases hi; cases hj
          exact hc i j c d x y hij hi' hj'

/-- The cells of different goroutines are different. -/
theorem noConflict_own {β : Type} {h : Heap} {cs : List β} {F : β → Io α} {own : β → List Nat}
    (hown : ∀ (i j : Nat) c d, i ≠ j → cs[i]? = some c → cs[j]? = some d → ∀ a ∈ own c, a ∉ own d)
    (hF : ∀ c ∈ cs, (F c).run (mask (fun a => (own c).contains a) h) ≠ .stuck) : NoConflict h (cs.map F) := by
  apply noConflict_map
  intro i j c d x y hij hi hj hx hy hl hxy
  have h1 := mask_log (hF c (List.mem_of_getElem? hi)) x hx hl
  have h2 := mask_log (hF d (List.mem_of_getElem? hj)) y hy (by rw [← hxy.1]; exact hl)
  rw [← hxy.1] at h2
  exact hown i j c d hij hi hj x.cell (by simpa using h1) (by simpa using h2)
end

/-! ## Objects that are shared -/

section
variable {X : Ext} {M : Mem} {h : Heap} {U S : List Nat} {R : Regs}

theorem AddrOf.same (r : Sim M h U S) {c : Nat} {p q : Place} (hp : AddrOf U S c p) (hq : AddrOf U S c q) : p = q := by
  cases p with
  | urn k =>
      cases q with
      | urn l =>
          have hp : U[k]? = some c := hp
          have hq : U[l]? = some c := hq
          rw [(List.getElem?_inj (List.getElem?_eq_some_iff.1 hp).1 r.ndU).1 (hp.trans hq.symm)]
      | scim l => exact (r.disj (List.mem_of_getElem? hp) (List.mem_of_getElem? hq)).elim
  | scim k =>
      cases q with
      | scim l =>
          have hp : S[k]? = some c := hp
          have hq : S[l]? = some c := hq
          rw [(List.getElem?_inj (List.getElem?_eq_some_iff.1 hp).1 r.ndS).1 (hp.trans hq.symm)]
      | urn l => exact (r.disj (List.mem_of_getElem? hq) (List.mem_of_getElem? hp)).elim

theorem RegsFit.sub {T : Regs} (hR : RegsFit R U S) (hu : ∀ p ∈ T.urns, p ∈ R.urns) (hs : ∀ p ∈ T.scims, p ∈ R.scims) : RegsFit T U S :=
  ⟨fun p hp => hR.1 p (hu p hp), fun p hp => hR.2 p (hs p hp)⟩

theorem addr_look : R.addr (look U) (look S) = mapR U S R := rfl

theorem noConflict_shared (r : Sim M h U S) {cs : List (Regs × List Step)} (hR : ∀ c ∈ cs, RegsFit c.1 U S) (hf : ∀ c ∈ cs, ∀ s ∈ c.2, s.Fits X)
    (hsep : ∀ (i j : Nat) c d, i ≠ j → cs[i]? = some c → cs[j]? = some d → ∀ p ∈ targets X c.2 c.1 M, ¬ d.1.Reach M p) (n : Nat) :
    NoConflict h (cs.map fun c => runTextT prog cprog X n c.2 (c.1.addr (look U) (look S))) := by
  apply noConflict_map
  intro i j c d x y hij hi hj hx hy hl hxy
  have hc := List.mem_of_getElem? hi
  have hd := List.mem_of_getElem? hj
  have hl' : y.cell < h.length := hxy.1 ▸ hl
  rcases hxy.2.2 with hw | hw
  · obtain ⟨p, hp, hpa⟩ := run_writes n c.2 (hf c hc) r (hR c hc) x hx hw hl
    obtain ⟨q, hq, hqa⟩ := reach_log r (hR d hd) d.2 (hf d hd) n y hy hl'
    rw [← hxy.1] at hqa
    rw [AddrOf.same r hpa hqa] at hp
    exact hsep i j c d hij hi hj q hp hq
  · obtain ⟨p, hp, hpa⟩ := run_writes n d.2 (hf d hd) r (hR d hd) y hy hw hl'
    obtain ⟨q, hq, hqa⟩ := reach_log r (hR c hc) c.2 (hf c hc) n x hx hl
    rw [hxy.1] at hqa
    rw [AddrOf.same r hpa hqa] at hp
    exact hsep j i d c (Ne.symm hij) hj hi q hp hq

theorem tree_ok {P C : Prog} {n : Nat} {ss : List Step} {y : List (List Val) × Regs × Heap} (e : runText P C X n ss R h = .ok y) :
    (runTextT P C X n ss R).run h = .ok ((y.1, y.2.1), y.2.2) := by
  rw [runText_same] at e
  cases hr : (runTextT P C X n ss R).run h with
  | ok z => rw [hr] at e; cases e; rfl
  | panic p => rw [hr] at e; cases e
  | stuck => rw [hr] at e; cases e
  | more => rw [hr] at e; cases e

theorem tree_panic {P C : Prog} {n : Nat} {ss : List Step} {p : Panic} (e : runText P C X n ss R h = .panic p) : (runTextT P C X n ss R).run h = .panic p := by
  rw [runText_same] at e
  cases hr : (runTextT P C X n ss R).run h with
  | ok z => rw [hr] at e; cases e
  | panic p => rw [hr] at e; cases e; rfl
  | stuck => rw [hr] at e; cases e
  | more => rw [hr] at e; cases e

theorem returned_of (r : Sim M h U S) (hR : RegsFit R U S) (ss : List Step) (hf : ∀ s ∈ ss, s.Fits X) : ∃ N, ∀ n, N ≤ n →
    ∀ y, NearRes h ((runTextT prog cprog X n ss (R.addr (look U) (look S))).run h) y → Returned X (look U) (look S) M ss (runModel X ss R M) y := by
  have hg := run_good ss hf r hR
  rw [addr_look]
  cases hm : runModel X ss R M with
  | diverge => rw [hm] at hg; exact hg.elim
  | panic p =>
      rw [hm] at hg
      obtain ⟨N, hN⟩ := hg
      refine ⟨N, fun n hn y hy => ?_⟩
      rw [tree_panic (hN n hn)] at hy
      cases y with
      | panic q => cases hy; rfl
      | _ => exact hy.elim
  | ok z =>
      obtain ⟨gs, R1, M1⟩ := z
      rw [hm] at hg
      obtain ⟨U', S', h', ⟨N, hN⟩, h2, h3, h4, -⟩ := hg
      refine ⟨N, fun n hn y hy => ?_⟩
      rw [tree_ok (hN n hn)] at hy
      cases y with
      | ok y =>
          obtain ⟨⟨vss, T⟩, l⟩ := y
          obtain ⟨e, -⟩ := hy
          cases e
          refine ⟨_, _, _, l, rfl, h4, rfl, rfl, look_inj h2.lenU h2.ndU, look_inj h2.lenS h2.ndS, fun k hk => ?_, fun k hk => ?_⟩
          · exact look_app fun l hl => by cases hl; rw [r.lenU]; exact hk
          · exact look_app fun l hl => by cases hl; rw [r.lenS]; exact hk
      | _ => exact hy.elim
end

theorem targets_reads {X : Ext} (ss : List Step) : (∀ s ∈ ss, s.reads = true) → ∀ (R : Regs) (M : Mem), targets X ss R M = [] := by
  induction ss with
  | nil => intros; rfl
  | cons s ss ih =>
      intro hs R M
      rw [targets]
      have h1 : s.target R = [] := by
        have := hs s List.mem_cons_self
        cases s <;> first | rfl | cases this
      rw [h1, List.nil_append]
      split
      · exact ih (fun s h => hs s (List.mem_cons_of_mem _ h)) _ _
      · rfl

/-! ## Checks -/

theorem Buf.has_mask {h : Heap} {b : Buf} {s : Bytes} {own : Nat → Bool} (hb : b.has h s) (ho : ∀ a ∈ b.cells, own a = true) : b.has (mask own h) s := by
  cases b with
  | nil => exact hb
  | part a pre post cap => exact ⟨(mask_in h (ho a List.mem_cons_self)).trans hb.1, hb.2⟩

theorem Check.mask {X : Ext} {h : Heap} {f : String} {vs : List Val} {bs : List Buf} (hc : Check X h f vs bs) {own : Nat → Bool}
    (ho : ∀ b ∈ bs, ∀ a ∈ b.cells, own a = true) : Check X (mask own h) f vs bs := by
  cases hc with
  | unchanged b s hb hf mode => exact .unchanged b s (Buf.has_mask hb (ho b (by simp))) hf mode
  | independent b s hb hf mode i hi c => exact .independent b s (Buf.has_mask hb (ho b (by simp))) hf mode i hi c
  | reports b s hb hf mode hm => exact .reports b s (Buf.has_mask hb (ho b (by simp))) hf mode hm
  | exclusive b s hb hf mode => exact .exclusive b s (Buf.has_mask hb (ho b (by simp))) hf mode
  | roundTrip b s hb hf => exact .roundTrip b s (Buf.has_mask hb (ho b (by simp))) hf
  | pieces b s hb hf => exact .pieces b s (Buf.has_mask hb (ho b (by simp))) hf
  | pieces8141 b s hb hf => exact .pieces8141 b s (Buf.has_mask hb (ho b (by simp))) hf
  | scim b s hb hf => exact .scim b s (Buf.has_mask hb (ho b (by simp))) hf
  | agree b s hb hf => exact .agree b s (Buf.has_mask hb (ho b (by simp))) hf
  | stable b s hb hf mode hm => exact .stable b s (Buf.has_mask hb (ho b (by simp))) hf mode hm
  | equivalence a b c s t w ha h1 hb h2 hc h3 x y z =>
      exact .equivalence a b c s t w (Buf.has_mask ha (ho a (by simp))) h1 (Buf.has_mask hb (ho b (by simp))) h2 (Buf.has_mask hc (ho c (by simp))) h3 x y z
  | normal b s hb hf mode hm => exact .normal b s (Buf.has_mask hb (ho b (by simp))) hf mode hm
  | canonical a b s t ha h1 hb h2 mode hm => exact .canonical a b s t (Buf.has_mask ha (ho a (by simp))) h1 (Buf.has_mask hb (ho b (by simp))) h2 mode hm
  | reuse a b s t ha h1 hb h2 mode => exact .reuse a b s t (Buf.has_mask ha (ho a (by simp))) h1 (Buf.has_mask hb (ho b (by simp))) h2 mode
  | last b s hb hf x mode hm => exact .last b s (Buf.has_mask hb (ho b (by simp))) hf x mode hm
  | json hj b s hb hf => exact .json hj b s (Buf.has_mask hb (ho b (by simp))) hf
  | unmarshal b d s t hb h1 hd h2 => exact .unmarshal b d s t (Buf.has_mask hb (ho b (by simp))) h1 (Buf.has_mask hd (ho d (by simp))) h2
  | built id ss => exact .built id ss
  | names s => exact .names s

theorem Check.holds {P C : Prog} (hP : IsProgram files P) (hC : IsProgram [checkGo] C) {X : Ext} {h : Heap} {f : String} {vs : List Val} {bs : List Buf}
    (hc : Check X h f vs bs) : Holds P C X f vs h := by
  cases hc with
  | unchanged b s hb hf mode => exact C69_unchanged hP hC X h b s hb hf mode
  | independent b s hb hf mode i hi c => exact C69_independent hP hC X h b s hb hf mode i hi c
  | reports b s hb hf mode hm => exact C69_reports hP hC X h b s hb hf mode hm
  | exclusive b s hb hf mode => exact C69_exclusive hP hC X h b s hb hf mode
  | roundTrip b s hb hf => exact C69_round_trip hP hC X h b s hb hf
  | pieces b s hb hf => exact C69_pieces hP hC X h b s hb hf
  | pieces8141 b s hb hf => exact C69_pieces_8141 hP hC X h b s hb hf
  | scim b s hb hf => exact C69_scim hP hC X h b s hb hf
  | agree b s hb hf => exact C69_agree hP hC X h b s hb hf
  | stable b s hb hf mode hm => exact C69_stable hP hC X h b s hb hf mode hm
  | equivalence a b c s t w ha h1 hb h2 hc h3 x y z => exact C69_equivalence hP hC X h a b c s t w ha h1 hb h2 hc h3 x y z
  | normal b s hb hf mode hm => exact C69_normal hP hC X h b s hb hf mode hm
  | canonical a b s t ha h1 hb h2 mode hm => exact C69_canonical hP hC X h a b s t ha h1 hb h2 mode hm
  | reuse a b s t ha h1 hb h2 mode => exact C69_reuse hP hC X h a b s t ha h1 hb h2 mode
  | last b s hb hf x mode hm => exact C69_last hP hC X h b s hb hf x mode hm
  | json hj b s hb hf => exact C69_json hP hC X h hj b s hb hf
  | unmarshal b d s t hb h1 hd h2 => exact C69_unmarshal hP hC X h b d s t hb h1 hd h2
  | built id ss => exact C69_built hP hC X h id ss
  | names s => exact C69_names hP hC X h s

/-! ## Results that are new -/

/-- A pointer to a URN that was made after `h`, in a memory that has nothing but arrays and hidden cells in `h`. -/
theorem UrnPtr.near {h g k l : Heap} {p : Option Nat} {o : Option URN} (hp : UrnPtr g p o) (hnew : ∀ (a : Nat) (v : Val), g[a]? = some (Cell.obj v) → h.length ≤ a)
    (hk : Hides g k) (hl : Near h k l) : UrnPtr l p o := by
  have key : ∀ (a : Nat) (v : Val), g[a]? = some (Cell.obj v) → l[a]? = some (Cell.obj v) := fun a v ha => by
    rw [hl.2 a (hnew a v ha)]
    obtain ⟨d, h1, h2⟩ := hk.get ha
    cases h2
    exact h1
  cases o with
  | none => exact hp
  | some o =>
      obtain ⟨a, v, h1, h2, sp, tl, h3, h4, h5⟩ := hp
      refine ⟨a, v, h1, key a v h2, sp, tl, h3, h4, ?_⟩
      cases hs : o.scim with
      | none => rw [hs] at h5; exact h5
      | some s =>
          rw [hs] at h5
          obtain ⟨b, h6, h7⟩ := h5
          exact ⟨b, h6, key b _ h7⟩

/-! ## Accesses that are made -/

theorem changed_write {α : Type} {q : Part} (t : Io α) : ∀ (h h' : Heap) (a : α) (c : Nat), t.run h = .ok (a, h') → c < h.length → ¬ Heap.Agree h' h c q →
    ∃ x, x ∈ t.log h ∧ x.write = true ∧ x.cell = c ∧ x.part.Meets q := by
  induction t with
  | done r =>
      intro h h' a c e hc hne
      cases r with
      | ok b => cases e; exact absurd (.of rfl) hne
      | panic p => cases e
      | stuck => cases e
      | more => cases e
  | alloc d k ih =>
      intro h h' a c e hc hne
      rw [Io.run] at e
      rw [Io.log]
      exact ih _ _ _ _ _ e (by rw [List.length_append]; omega) fun ha => hne (ha.congr rfl (List.getElem?_append_left hc).symm)
  | read b p k ih =>
      intro h h' a c e hc hne
      rw [Io.run] at e
      rw [Io.log]
      cases hb : Heap.at h b p with
      | none => rw [hb] at e; cases e
      | some d =>
          rw [hb] at e
          obtain ⟨x, hx, h1⟩ := ih d _ _ _ _ e hc hne
          exact ⟨x, List.mem_cons_of_mem _ hx, h1⟩
  | write b u k ih =>
      intro h h' a c e hc hne
      rw [Io.run] at e
      rw [Io.log]
      cases hb : Heap.own h b u with
      | none => rw [hb] at e; cases e
      | some d =>
          rw [hb] at e
          by_cases hbc : b = c ∧ u.part.Meets q
          · exact ⟨_, List.mem_cons_self, rfl, hbc⟩
          · obtain ⟨x, hx, h1⟩ := ih _ _ _ _ e (by rw [List.length_set]; exact hc) fun ha => hne (ha.trans (.other hb fun e hm => hbc ⟨e, hm⟩))
            exact ⟨x, List.mem_cons_of_mem _ hx, h1⟩

/-- A write is in conflict with itself. -/
theorem write_meets {α : Type} (t : Io α) : ∀ (h : Heap) (x : Access), x ∈ t.log h → x.write = true → x.part.Meets x.part := by
  induction t with
  | done r => intro h x hx; cases hx
  | alloc d k ih => intro h x hx; exact ih _ _ x hx
  | read b p k ih =>
      intro h x hx hw
      rw [Io.log] at hx
      rcases List.mem_cons.1 hx with rfl | hx
      · cases hw
      · split at hx
        · exact ih _ _ x hx hw
        · cases hx
  | write b u k ih =>
      intro h x hx hw
      rw [Io.log] at hx
      rcases List.mem_cons.1 hx with rfl | hx
      · cases u with
        | all v => trivial
        | field f v => rfl
        | byte i y => show 0 < 1 ∧ 0 < 1 ∧ i < i + 1 ∧ i < i + 1; omega
      · split at hx
        · exact ih _ x hx hw
        · cases hx

theorem Hides.refl (h : Heap) : Hides h h := ⟨rfl, fun a c d hc hd => by rw [hc] at hd; cases hd; exact .same c⟩

/-- A struct is accessed as a whole, or a field of it. -/
theorem obj_part {α : Type} {t : Io α} {h : Heap} {x : Access} {v : Val} (hr : t.run h ≠ .stuck) (hx : x ∈ t.log h) (hv : h[x.cell]? = some (.obj v)) :
    x.part = .all ∨ ∃ f, x.part = .field f := by
  obtain ⟨c, h1, h2⟩ := (hides_run t h h (.refl h) hr).2.1 x hx (List.getElem?_eq_some_iff.1 hv).1
  rw [hv] at h1
  cases h1
  obtain ⟨w, a, p⟩ := x
  cases p with
  | all => exact .inl rfl
  | field f => exact .inr ⟨f, rfl⟩
  | bytes i n => exact h2.elim

/-- What is not accessed does not matter. -/
theorem unread_same {α : Type} {c : Nat} {q : Part} (t : Io α) : ∀ (h g h' : Heap) (a : α), t.run h = .ok (a, h') → h.length = g.length →
    (∀ b p, ¬ (b = c ∧ p.Meets q) → Heap.Agree h g b p) → (∀ x, x ∈ t.log h → ¬ (x.cell = c ∧ x.part.Meets q)) → ∃ k, t.run g = .ok (a, k) := by
  induction t with
  | done r =>
      intro h g h' a e _ _ _
      cases r with
      | ok b => cases e; exact ⟨_, rfl⟩
      | panic p => cases e
      | stuck => cases e
      | more => cases e
  | alloc d k ih =>
      intro h g h' a e hl hg hx
      rw [Io.run] at e
      rw [Io.log] at hx
      rw [Io.run, ← hl]
      refine ih _ _ (g ++ [d]) _ _ e (by rw [List.length_append, List.length_append, hl]) (fun b p hb => ?_) hx
      by_cases hlt : b < h.length
      · exact (hg b p hb).congr (List.getElem?_append_left hlt) (List.getElem?_append_left (hl ▸ hlt))
      · exact .of (by rw [List.getElem?_append_right (by omega), List.getElem?_append_right (by omega), hl])
  | read b p k ih =>
      intro h g h' a e hl hg hx
      rw [Io.run] at e
      rw [Io.log] at hx
      have hb' := (hg b p (hx _ List.mem_cons_self)).at
      rw [Io.run, ← hb']
      cases hb : Heap.at h b p with
      | none => rw [hb] at e; cases e
      | some d =>
          rw [hb] at e hx
          exact ih d _ _ _ _ e hl hg fun x h => hx x (List.mem_cons_of_mem _ h)
  | write b u k ih =>
      intro h g h' a e hl hg hx
      rw [Io.run] at e
      rw [Io.log] at hx
      have hb' := hg b u.part (hx _ List.mem_cons_self)
      rw [Io.run]
      cases hb : Heap.own h b u with
      | none => rw [hb] at e; cases e
      | some y =>
          obtain ⟨z, hz⟩ := hb'.own hb
          rw [hb] at e hx
          rw [hz]
          exact ih _ _ _ _ e (by rw [List.length_set, List.length_set]; exact hl) (fun b p h => (hg b p h).set hb hz) fun x h => hx x (List.mem_cons_of_mem _ h)

theorem vals_bytes {X : Ext} {f g f' g' : Option Nat → Option Nat} {s : Step} {b b' : Bytes} (e : s.vals X f g (.bytes b) = s.vals X f' g' (.bytes b')) : b = b' := by
  cases s <;> simp only [Step.vals, List.cons.injEq, Val.str.injEq] at e <;> exact e.1

theorem setID_model {X : Ext} {R : Regs} {M : Mem} {p : Nat} {v : Bytes} {ss : List Step} {y : List Got × Regs × Mem} (e : runModel X (.setID p v :: ss) R M = .ok y) :
    ∃ k x, R.urn p = some k ∧ M.urns[k]? = some x ∧
      runModel X (.setID p v :: ss) R M = (runModel X ss R { M with urns := M.urns.set k { x with fields := { x.fields with ID := v } } } >>= fun z => .ok (.unit :: z.1, z.2.1, z.2.2)) := by
  rw [runModel] at e ⊢
  simp only [Step.act, Urn.Heap.Mem.act] at e ⊢
  cases hp : R.urn p with
  | none => rw [hp] at e; cases e
  | some k =>
      cases hx : M.urns[k]? with
      | none => rw [hp] at e; simp only [Urn.Heap.Mem.obj, hx] at e; cases e
      | some x =>
          refine ⟨k, x, rfl, hx, ?_⟩
          have hk : k < M.urns.length := (List.getElem?_eq_some_iff.1 hx).1
          simp only [Urn.Heap.Mem.obj, hx, Urn.Heap.Mem.setObj, if_pos hk]
          rfl

theorem writer_races {X : Ext} {M : Mem} {h : Heap} {U S : List Nat} {R : Regs} (r : Sim M h U S) (hR : RegsFit R U S) {p : Nat} {v : Bytes} {s : Step}
    (hs : s.Fits X) {b b' : Bytes} {R1 R2 : Regs} {M1 M2 : Mem} (h1 : runModel X [s] R M = .ok ([.bytes b], R1, M1))
    (h2 : runModel X [.setID p v, s] R M = .ok ([.unit, .bytes b'], R2, M2)) (hb : b ≠ b') :
    ∃ N, ∀ n, N ≤ n → Races h [runTextT prog cprog X n [.setID p v] (mapR U S R), runTextT prog cprog X n [s] (mapR U S R)] := by
  obtain ⟨k, x, hp, hx, e⟩ := setID_model h2
  rw [h2] at e
  obtain ⟨a, y, ha, hy, tl, hc, htl, hsc⟩ := r.lookU (k := k) (by rw [r.lenU]; exact (List.getElem?_eq_some_iff.1 hx).1)
  rw [hx] at hy
  cases hy
  have hlt : a < h.length := (List.getElem?_eq_some_iff.1 hc).1
  have hv : v ≠ x.fields.ID := by
    rintro rfl
    have e2 : M.urns.set k x = M.urns := by
      rw [List.getElem?_eq_some_iff] at hx
      obtain ⟨hk, rfl⟩ := hx
      exact List.set_getElem_self hk
    have e3 : ({ M with urns := M.urns.set k { x with fields := { x.fields with ID := x.fields.ID } } } : Mem) = M := by
      show ({ M with urns := M.urns.set k x } : Mem) = M
      rw [e2]
    rw [e3, h1] at e
    cases e
    exact hb rfl
  -- the writer
  have hw := run_good (X := X) [.setID p v] (by intro t ht; rw [List.mem_singleton] at ht; subst ht; trivial) r hR
  have hwm : runModel X [.setID p v] R M = .ok ([.unit], R, { M with urns := M.urns.set k { x with fields := { x.fields with ID := v } } }) := by
    have hk : k < M.urns.length := (List.getElem?_eq_some_iff.1 hx).1
    rw [runModel]
    simp only [Step.act, Urn.Heap.Mem.act, hp, Urn.Heap.Mem.obj, hx, Urn.Heap.Mem.setObj, if_pos hk]
    rfl
  rw [hwm] at hw
  obtain ⟨U', S', hh, ⟨N1, hN1⟩, r1, -, -, -⟩ := hw
  obtain ⟨tl', hc', -⟩ := r1.urn k a _ (by rw [List.getElem?_append_left (List.getElem?_eq_some_iff.1 ha).1]; exact ha)
    (by show (M.urns.set k _)[k]? = _; rw [List.getElem?_set_self (List.getElem?_eq_some_iff.1 hx).1])
  have hne : ¬ Heap.Agree hh h a (.field "ID") := by
    unfold Heap.Agree
    rw [hc', hc]
    intro e
    have e : some (Val.str v) = some (Val.str x.fields.ID) := by simpa [Cell.Agree, Cell.got, urnValW, get] using e
    cases e
    exact hv rfl
  -- the reader
  have r2 := r.setUrn (h' := h.set a (.obj (urnValW (look S x.scim) tl { x.fields with ID := v }))) (x := { x with fields := { x.fields with ID := v } }) ha
    ⟨tl, by rw [List.getElem?_set_self hlt], htl, hsc⟩ (fun c _ hca => List.getElem?_set_ne fun e => hca e.symm)
  have hg1 := run_good (X := X) [s] (by intro t ht; rw [List.mem_singleton] at ht; subst ht; exact hs) r hR
  have hg2 := run_good (X := X) [s] (by intro t ht; rw [List.mem_singleton] at ht; subst ht; exact hs) r2 hR
  rw [h1] at hg1
  cases hm2 : runModel X [s] R { M with urns := M.urns.set k { x with fields := { x.fields with ID := v } } } with
  | diverge => rw [hm2] at e; cases e
  | panic q => rw [hm2] at e; cases e
  | ok z =>
      obtain ⟨gs, R3, M3⟩ := z
      rw [hm2] at e hg2
      cases e
      obtain ⟨U1, S1, k1, ⟨N2, hN2⟩, -⟩ := hg1
      obtain ⟨U2, S2, k2, ⟨N3, hN3⟩, -⟩ := hg2
      refine ⟨N1 + N2 + N3, fun n hn => ?_⟩
      have t1 := tree_ok (hN1 n (by omega))
      have t2 := tree_ok (hN2 n (by omega))
      have t3 := tree_ok (hN3 n (by omega))
      obtain ⟨x', hwr, hxw, hxa, hxp⟩ := changed_write _ _ _ _ a t1 hlt hne
      have hrd : ∃ y ∈ (runTextT prog cprog X n [s] (mapR U S R)).log h, y.cell = a ∧ y.part.Meets (.field "ID") := by
        apply Classical.byContradiction
        intro hno
        obtain ⟨k3, t4⟩ := unread_same (c := a) (q := .field "ID") _ _ (h.set a (.obj (urnValW (look S x.scim) tl { x.fields with ID := v }))) _ _ t2
          (by rw [List.length_set]) (fun b p hbp => by
            by_cases hba : b = a
            · subst hba
              have hown : Heap.own h b (.field "ID" (.str v)) = some (.obj (urnValW (look S x.scim) tl { x.fields with ID := v })) := by
                unfold Heap.own
                rw [hc]
                simp [Cell.fix, urnValW, get, set, coerce]
              exact (Heap.Agree.other hown fun _ hm => hbp ⟨rfl, hm.symm⟩).symm
            · exact .of (List.getElem?_set_ne fun e => hba e.symm).symm) (fun y hy e => hno ⟨y, hy, e⟩)
        rw [t3] at t4
        simp only [Res.ok.injEq, Prod.mk.injEq, valsAll, List.zipWith_cons_cons, List.zipWith_nil_left, List.cons.injEq] at t4
        exact hb (vals_bytes t4.1.1.1).symm
      obtain ⟨y, hy, hya, hyp⟩ := hrd
      have hp := obj_part (by rw [t1]; intro e; cases e) hwr (by rw [hxa]; exact hc)
      have hq := obj_part (by rw [t2]; intro e; cases e) hy (by rw [hya]; exact hc)
      refine races (i := 0) (j := 1) (by decide) rfl rfl hwr hy (by rw [hxa]; exact hlt) ⟨hxa.trans hya.symm, ?_, .inl hxw⟩
      rcases hp with hp | ⟨f, hp⟩
      · rw [hp]; exact (meets_all _).symm
      · rcases hq with hq | ⟨f', hq⟩
        · rw [hq]; exact meets_all _
        · rw [hp] at hxp ⊢
          rw [hq] at hyp ⊢
          exact Eq.trans hxp (Eq.symm hyp)

/-! ## Two goroutines with the same slice -/

def Res.isOk {α : Type} : Res α → Bool
  | .ok _ => true
  | _ => false

/-- The accesses of `Parse` to a slice with this contents, which is in cell 0, and whether it returns. -/
def parseLog (X : Ext) (s : Bytes) : Bool × Bool :=
  let t := callParseT prog X 200 (.bytes 0 0 s.length s.length) []
  ((t.log [.arr s]).any fun x => x.write && x.cell == 0, (t.run [.arr s]).isOk)

theorem parseLog_write (X : Ext) : parseLog X (lit "urn:a:%2F") = (true, true) := by
  obtain ⟨bits, hb, uni, json, err⟩ := X
  rcases hb with rfl | rfl <;> kernel_rfl

theorem Res.isOk_iff {α : Type} {r : Res α} (h : r.isOk = true) : ∃ a, r = .ok a := by
  cases r with
  | ok a => exact ⟨a, rfl⟩
  | _ => cases h

/-! ## Goroutines that parse -/

/-- Of the memory, only the bytes of a slice with this contents. -/
def view (b : Buf) (s : Bytes) (h : Heap) : Heap := h.mapIdx fun a _ => match b with
  | .nil => .none
  | .part a' pre _ _ => if a = a' then .win pre.length s else .none

theorem view_get (b : Buf) (s : Bytes) (h : Heap) (a : Nat) : (view b s h)[a]? = h[a]?.map fun _ => match b with
    | .nil => .none
    | .part a' pre _ _ => if a = a' then .win pre.length s else .none := by
  unfold view
  rw [List.getElem?_mapIdx]

theorem view_len (b : Buf) (s : Bytes) (h : Heap) : (view b s h).length = h.length := by unfold view; rw [List.length_mapIdx]

section
variable {b : Buf} {s : Bytes} {h : Heap}

theorem view_hides (hb : b.has h s) : Hides (view b s h) h where
  len := view_len b s h
  cell a c d hc hd := by
    rw [view_get, hd] at hc
    cases hc
    cases b with
    | nil => exact .none d
    | part a' pre post cap =>
        dsimp only
        split
        · rename_i e
          subst e
          have h1 := hb.1
          rw [hd] at h1
          cases h1
          exact .win pre s post
        · exact .none d

theorem view_seen (hb : b.has h s) : b.seen .win (view b s h) s := by
  cases b with
  | nil => exact hb
  | part a pre post cap =>
      refine ⟨?_, hb.2⟩
      rw [view_get, hb.1]
      simp [cellOf]

/-- What is accessed is in the slice. -/
theorem view_log {α : Type} {t : Io α} (hb : b.has h s) (hr : t.run (view b s h) ≠ .stuck) : ∀ x, x ∈ t.log h → x.cell < h.length → b.Owns s.length x := by
  intro x hx hl
  obtain ⟨h1, h2, -⟩ := hides_run t _ h (view_hides hb) hr
  obtain ⟨c, h3, h4⟩ := h2 x (h1 ▸ hx) (by rw [view_len]; exact hl)
  rw [view_get, List.getElem?_eq_getElem hl] at h3
  cases h3
  have hno : ¬ Cell.none.may x.write x.part := by cases x.write <;> cases x.part <;> exact id
  cases b with
  | nil => exact hno h4
  | part a pre post cap =>
      dsimp only at h4
      by_cases e : x.cell = a
      · rw [if_pos e] at h4
        cases hp : x.part with
        | all => rw [hp] at h4; cases hw : x.write <;> rw [hw] at h4 <;> exact h4.elim
        | field f => rw [hp] at h4; cases hw : x.write <;> rw [hw] at h4 <;> exact h4.elim
        | bytes i n =>
            rw [hp] at h4
            have h5 : pre.length ≤ i ∧ i + n ≤ pre.length + s.length := by cases hw : x.write <;> rw [hw] at h4 <;> exact h4
            exact ⟨e, i, n, hp, h5⟩
      · rw [if_neg e] at h4
        exact (hno h4).elim

/-- Nothing else is in the memory in the end. -/
theorem Buf.view_new {h' : Heap} {d : Bytes} (h1 : b.seen .win h' d) (h2 : ∀ a, a < (view b s h).length → b.away a → h'[a]? = (view b s h)[a]?) :
    ∀ (a : Nat) (v : Val), h'[a]? = some (Cell.obj v) → h.length ≤ a := by
  intro a v ha
  apply Nat.le_of_not_lt
  intro hlt
  have key : ∀ {c : Cell}, (view b s h)[a]? = some c → c ≠ .obj v := by
    intro c hc
    rw [view_get, List.getElem?_eq_getElem hlt] at hc
    cases hc
    cases b with
    | nil => exact fun e => by cases e
    | part a' pre post cap => dsimp only; split <;> exact fun e => by cases e
  cases b with
  | nil =>
      rw [h2 a (by rw [view_len]; exact hlt) trivial] at ha
      exact key ha rfl
  | part a' pre post cap =>
      by_cases e : a = a'
      · subst e
        rw [h1.1] at ha
        cases ha
      · rw [h2 a (by rw [view_len]; exact hlt) e] at ha
        exact key ha rfl

end

/-- The access is to bytes of the slice, maybe also to others. -/
def Buf.Touches : Buf → (len : Nat) → Access → Prop
  | .nil, _, _ => False
  | .part a pre _ _, len, x => x.cell = a ∧ x.part.Meets (.bytes pre.length len)

/-- What goroutines that call `Parse` return if their accesses are not in conflict; and each of them accesses only its slice. -/
theorem parse_always {P : Prog} (hP : IsProgram files P) (X : Ext) (h : Heap) (cs : List (Buf × Bytes × List ParsingMode))
    (hb : ∀ c ∈ cs, c.1.has h c.2.1 ∧ X.Fits c.2.1) : ∃ N, ∀ n, N ≤ n →
    (∀ c ∈ cs, ∀ x, x ∈ (callParseT P X n (c.1.val c.2.1.length) c.2.2).log h → x.cell < h.length → c.1.Owns c.2.1.length x) ∧
    (NoConflict h (cs.map fun c => callParseT P X n (c.1.val c.2.1.length) c.2.2) →
      Always h (cs.map fun c => callParseT P X n (c.1.val c.2.1.length) c.2.2) fun i y =>
        ∃ c r p l, cs[i]? = some c ∧ parse c.2.1 (c.2.2.map withParsingMode) = .ok r ∧ y = .ok ([.ptr "URN" p, .bool r.ok], l) ∧ UrnPtr l p r.urn ∧
          ((∀ (j : Nat) d x, j ≠ i → cs[j]? = some d → x ∈ (callParseT P X n (d.1.val d.2.1.length) d.2.2).log h → x.write = true → x.cell < h.length →
            ¬ c.1.Touches c.2.1.length x) → c.1.Reads l c.2.1)) := by
  cases program_eq hP
  have hown : ∀ c ∈ cs, ∃ N, ∀ n, N ≤ n → ∃ r p k g, parse c.2.1 (c.2.2.map withParsingMode) = .ok r ∧
      (callParseT prog X n (c.1.val c.2.1.length) c.2.2).run (view c.1 c.2.1 h) = .ok ([.ptr "URN" p, .bool r.ok], g) ∧
      (callParseT prog X n (c.1.val c.2.1.length) c.2.2).run h = .ok ([.ptr "URN" p, .bool r.ok], k) ∧
      Hides g k ∧ UrnPtr g p r.urn ∧ (∀ (a : Nat) (v : Val), g[a]? = some (Cell.obj v) → h.length ≤ a) ∧ c.1.Reads k c.2.1 := by
    intro c hc
    obtain ⟨r, hr⟩ := C01_parse_returns c.2.1 (c.2.2.map withParsingMode)
    obtain ⟨g, p, e, hu, h2, -, h4⟩ := pkgParse_seen (X := X) c.2.2 (view_seen (hb c hc).1) (fun e => by cases e) (hb c hc).2 hr (Nat.le_refl _)
    obtain ⟨N, hN⟩ : Does (fun n => callParse prog X n (c.1.val c.2.1.length) c.2.2 (view c.1 c.2.1 h)) ([.ptr "URN" p, .bool r.ok], g) :=
      Does.bind (g := fun n (r : List Val × Heap) => runFn prog X n "Parse" (c.1.val c.2.1.length :: r.1) false r.2) (does_options c.2.2)
        (does_fn find_pkgParse e)
    refine ⟨N, fun n hn => ?_⟩
    have e := hN n hn
    dsimp only at e
    rw [callParse_same] at e
    have hh := (hides_run _ _ h (view_hides (hb c hc).1) (by rw [e]; intro e; cases e)).2.2
    rw [e] at hh
    obtain ⟨k, hk1, hk2⟩ := hh
    refine ⟨r, p, k, g, hr, e, hk1, hk2, hu.ptr, Buf.view_new h2 h4, ?_⟩
    rw [C03_buffer_restored _ _ _ hr] at h2
    revert h2
    generalize c.1 = b
    cases b with
    | nil => exact id
    | part a pre post cap =>
        intro h2
        apply hk2.at
        unfold Heap.at
        rw [h2.1]
        have := cut_cellOf (w := .win) (pre := pre) (d := c.2.1) (post := post) (i := 0) (n := c.2.1.length) (by omega)
        rw [Nat.add_zero, List.drop_zero, List.take_length] at this
        dsimp only
        rw [Cell.see_bytes, this]
        rfl
  obtain ⟨N, hN⟩ := bound_all cs _ hown
  refine ⟨N, fun n hn => ⟨fun c hc => view_log (hb c hc).1 fun e => ?_, fun hnc => always_same hnc (fun i t ht a k' hk' l hnear hsame => ?_) fun i t ht => ?_⟩⟩
  · obtain ⟨r, p, k, g, -, h2, -⟩ := hN n hn c hc
    rw [h2] at e
    cases e
  · rw [List.getElem?_map] at ht
    cases hi : cs[i]? with
    | none => rw [hi] at ht; cases ht
    | some c =>
        rw [hi] at ht
        cases ht
        obtain ⟨r, p, k, g, h1, -, h3, h4, h5, h6, h7⟩ := hN n hn c (List.mem_of_getElem? hi)
        rw [h3] at hk'
        cases hk'
        refine ⟨c, r, p, l, rfl, h1, rfl, h5.near h6 h4 hnear, fun hq => ?_⟩
        revert h7 hq
        generalize c.1 = b
        cases b with
        | nil => exact fun h _ => h
        | part a pre post cap =>
            intro h7 hq
            refine (hsame a _ fun j u x hj hu hx hw hcl hp => ?_).trans h7
            rw [List.getElem?_map] at hu
            cases hd : cs[j]? with
            | none => rw [hd] at hu; cases hu
            | some d =>
                rw [hd] at hu
                cases hu
                apply Nat.le_of_not_lt
                intro hlt
                exact hq j d x hj hd hx hw (by omega) ⟨hcl, hp⟩
  · rw [List.getElem?_map] at ht
    cases hi : cs[i]? with
    | none => rw [hi] at ht; cases ht
    | some c =>
        rw [hi] at ht
        cases ht
        obtain ⟨r, p, k, g, -, -, h3, -⟩ := hN n hn c (List.mem_of_getElem? hi)
        exact ⟨_, h3⟩

theorem Buf.Owns.touches {b c : Buf} {m n : Nat} {x : Access} (hx : b.Owns m x) (hc : c.Touches n x) : c.Overlap n b m := by
  cases c with
  | nil => exact hc.elim
  | part a pre post cap =>
      cases b with
      | nil => exact hx.elim
      | part a' pre' post' cap' =>
          obtain ⟨h1, i, k, h2, h3, h4⟩ := hx
          obtain ⟨h5, h6⟩ := hc
          rw [h2] at h6
          obtain ⟨e1, e2, e3, e4⟩ : 0 < k ∧ 0 < n ∧ i < pre.length + n ∧ pre.length < i + k := h6
          exact ⟨h5.symm.trans h1, by omega, by omega, by omega, by omega⟩

/-- Accesses that meet are to slices that overlap. -/
theorem Buf.Owns.overlap {b c : Buf} {m n : Nat} {x y : Access} (hx : b.Owns m x) (hy : c.Owns n y) (hc : x.Conflict y) : b.Overlap m c n := by
  cases b with
  | nil => exact hx.elim
  | part a pre post cap =>
      cases c with
      | nil => exact hy.elim
      | part a' pre' post' cap' =>
          obtain ⟨h1, i, k, h2, h3, h4⟩ := hx
          obtain ⟨h5, j, l, h6, h7, h8⟩ := hy
          obtain ⟨h9, h10, -⟩ := hc
          rw [h2, h6] at h10
          obtain ⟨e1, e2, e3, e4⟩ : 0 < k ∧ 0 < l ∧ i < j + l ∧ j < i + k := h10
          exact ⟨h1.symm.trans (h9.trans h5), by omega, by omega, by omega, by omega⟩

end Urn.GoLang
