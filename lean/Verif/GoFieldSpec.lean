import Verif.GoRace
/-!
# What calls use

Which fields of the structs of urn.go and scim.go a call reads and assigns to.
-/
set_option autoImplicit false
namespace Urn.GoLang
open Urn.Heap (Mem Got)

/-- Use of memory: whether it may be assigned to, the URN or the SCIM struct, and the part of it. -/
structure Use where
  write : Bool
  place : Place
  part : Part

/-- Uses of what a pointer points to. -/
def Place.reads (ps : List Place) (fs : List String) : List Use := ps.flatMap fun p => fs.map fun f => ⟨false, p, .field f⟩
def Place.sets (ps : List Place) (f : String) : List Use := ps.map fun p => ⟨true, p, .field f⟩
def Place.gets (ps : List Place) : List Use := ps.map fun p => ⟨false, p, .all⟩
def Place.changes (ps : List Place) : List Use := ps.map fun p => ⟨true, p, .all⟩

/-- What a call may use: for some functions these are single fields. -/
def Step.uses (R : Regs) : Step → List Use
  | .parse _ _ | .newURN | .newSCIM | .unmarshal8141 _ _ => []
  | .getID p => Place.reads (Place.urns (R.urn p)) ["ID"]
  | .getSS p => Place.reads (Place.urns (R.urn p)) ["SS"]
  | .setID p _ => Place.sets (Place.urns (R.urn p)) "ID"
  | .setSS p _ => Place.sets (Place.urns (R.urn p)) "SS"
  | .normalize p => Place.reads (Place.urns (R.urn p)) ["ID", "norm"]
  | .equal p q => Place.reads (Place.urns (R.urn p) ++ Place.urns (R.urn q)) ["ID", "norm"]
  | .isSCIM p | .rfc p => Place.reads (Place.urns (R.urn p)) ["kind"]
  | .scimOf p => Place.reads (Place.urns (R.urn p)) ["kind", "scim"]
  | .rComponent p => Place.reads (Place.urns (R.urn p)) ["rComponent"]
  | .qComponent p => Place.reads (Place.urns (R.urn p)) ["qComponent"]
  | .fComponent p => Place.reads (Place.urns (R.urn p)) ["fComponent"]
  | .stringOf p | .marshalJSON p | .marshal8141 p => Place.gets (Place.urns (R.urn p))
  | .unmarshalJSON p _ => Place.changes (Place.urns (R.urn p))
  | .copyURN p q => Place.changes (Place.urns (R.urn p)) ++ Place.gets (Place.urns (R.urn q))
  | .scimString p | .scimMarshalJSON p | .scimFields p => Place.gets (Place.scims (R.scim p))
  | .setType p _ => Place.sets (Place.scims (R.scim p)) "Type"
  | .setName p _ => Place.sets (Place.scims (R.scim p)) "Name"
  | .setOther p _ => Place.sets (Place.scims (R.scim p)) "Other"
  | .scimUnmarshalJSON p _ => Place.changes (Place.scims (R.scim p))
  | .copySCIM p q => Place.changes (Place.scims (R.scim p)) ++ Place.gets (Place.scims (R.scim q))

/-- Assignments to a field. -/
def Step.assigns : Step → Bool
  | .setID _ _ | .setSS _ _ | .setType _ _ | .setName _ _ | .setOther _ _ => true
  | _ => false

/-- What a call uses in any case, if it does not panic, for calls that are listed here. -/
def Step.does (R : Regs) : Step → List Use
  | .getID p => Place.reads (Place.urns (R.urn p)) ["ID"]
  | .getSS p => Place.reads (Place.urns (R.urn p)) ["SS"]
  | .setID p _ => Place.sets (Place.urns (R.urn p)) "ID"
  | .setSS p _ => Place.sets (Place.urns (R.urn p)) "SS"
  | .normalize p => Place.reads (Place.urns (R.urn p)) ["ID", "norm"]
  | .equal p q => if R.urn p = none ∨ R.urn q = none then [] else Place.reads (Place.urns (R.urn p) ++ Place.urns (R.urn q)) ["ID", "norm"]
  | .stringOf p => Place.reads (Place.urns (R.urn p)) ["ID"]
  | .marshalJSON p => Place.gets (Place.urns (R.urn p))
  | .scimMarshalJSON p => Place.gets (Place.scims (R.scim p))
  | .isSCIM p | .rfc p | .scimOf p => Place.reads (Place.urns (R.urn p)) ["kind"]
  | .rComponent p => Place.reads (Place.urns (R.urn p)) ["rComponent"]
  | .qComponent p => Place.reads (Place.urns (R.urn p)) ["qComponent"]
  | .fComponent p => Place.reads (Place.urns (R.urn p)) ["fComponent"]
  | .copyURN p q => if R.urn p = none ∨ R.urn q = none then [] else Place.changes (Place.urns (R.urn p)) ++ Place.gets (Place.urns (R.urn q))
  | .scimFields p => Place.reads (Place.scims (R.scim p)) ["Type", "Name", "Other"]
  | .setType p _ => Place.sets (Place.scims (R.scim p)) "Type"
  | .setName p _ => Place.sets (Place.scims (R.scim p)) "Name"
  | .setOther p _ => Place.sets (Place.scims (R.scim p)) "Other"
  | .copySCIM p q => if R.scim p = none ∨ R.scim q = none then [] else Place.changes (Place.scims (R.scim p)) ++ Place.gets (Place.scims (R.scim q))
  | _ => []

/-- Calls that use in any case what they may use. -/
def Step.simple : Step → Bool
  | .parse _ _ | .newURN | .newSCIM | .unmarshal8141 _ _ | .getID _ | .getSS _ | .setID _ _ | .setSS _ _ | .normalize _ | .isSCIM _ | .rfc _ => true
  | .rComponent _ | .qComponent _ | .fComponent _ | .marshalJSON _ | .setType _ _ | .setName _ _ | .setOther _ _ | .scimMarshalJSON _ => true
  | _ => false

/-- What calls may use, one after the other. -/
def uses (X : Ext) : List Step → Regs → Mem → List Use
  | [], _, _ => []
  | s :: ss, R, M => s.uses R ++
      match M.act X.uni X.json (s.act R) with
      | .ok (M, g) => uses X ss (R.addGot g) M
      | _ => []

/-- What calls use in any case, one after the other. -/
def does (X : Ext) : List Step → Regs → Mem → List Use
  | [], _, _ => []
  | s :: ss, R, M => s.does R ++
      match M.act X.uni X.json (s.act R) with
      | .ok (M, g) => does X ss (R.addGot g) M
      | _ => []

/-- It is in this memory. -/
def Place.In (M : Mem) : Place → Prop
  | .urn k => k < M.urns.length
  | .scim k => k < M.scims.length

/-- Two of the goroutines use a part of memory that both can reach, and one of them writes to it; `us` is what a goroutine uses. -/
def Clash (us : Regs × List Step → List Use) (M : Mem) (cs : List (Regs × List Step)) : Prop :=
  ∃ (i j : Nat) (c d : Regs × List Step), i ≠ j ∧ cs[i]? = some c ∧ cs[j]? = some d ∧
    ∃ u ∈ us c, ∃ v ∈ us d, u.place = v.place ∧ u.place.In M ∧ u.part.Meets v.part ∧ (u.write = true ∨ v.write = true)

end Urn.GoLang
