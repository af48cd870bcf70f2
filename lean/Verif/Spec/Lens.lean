import Verif.Spec.Layout
import Verif.Spec.History

/-!
# Which values pin down their bits; which call was the last
-/

namespace Midi2

/-- The value is written to the wire in one way only.  The others: no note attribute, whose
data field may hold anything; no bank, likewise; no channel, for which there are several
codes; no alteration, whose degree may be anything. -/
def Fld.definite : (f : Fld) → f.Ty → Bool
  | .noteAttribute, none => false
  | .programBank, none => false
  | .flexOptionalChannel, none => false
  | .alteration _, none => false
  | _, _ => true

/-- The message has the value of a property with the fields `ps` in the one form its setter
writes.  (The setter cannot write the controller `EffectDepth` 5 at all.) -/
def Fld.Settled (b : List (BitVec 32)) (ps : List (Nat × Nat × Nat)) : (f : Fld) → f.Ty → Prop
  | .programBank, some _ => fieldAt b 1 16 1 = some 0 ∧ fieldAt b 1 24 1 = some 0
  | .programBank, none => fieldAt b 1 16 8 = some 0 ∧ fieldAt b 1 24 8 = some 0
  | .flexOptionalChannel, none => fieldAt b 0 10 2 = some 1 ∧ fieldAt b 0 12 4 = some 0
  | .alteration _, none => valueOf b ps 0 = some 0
  | .controller, v => ∀ d, v ≠ .effectDepth 5 d
  | _, _ => True

/-- The last call of the setter with the given name. -/
def lastSet (calls : List SetCall) (name : String) : Option SetCall :=
  calls.reverse.find? fun c => c.name == name

/-- The call sets the note attribute to `None`. -/
def SetCall.clearsAttribute : SetCall → Bool
  | ⟨_, .noteAttribute, none⟩ => true
  | _ => false

/-- The data of the note attribute a call sets. -/
def SetCall.attributeData : SetCall → Option (BitVec 16)
  | ⟨_, .noteAttribute, some (.manufacturerSpecific d)⟩ => some d
  | ⟨_, .noteAttribute, some (.profileSpecific d)⟩ => some d
  | ⟨_, .noteAttribute, some (.pitch7_9 d)⟩ => some d
  | _ => none

/-- The data of the last call that set a note attribute and did not clear it. -/
def lastAttributeData (calls : List SetCall) : Option (BitVec 16) :=
  calls.reverse.findSome? SetCall.attributeData

end Midi2
