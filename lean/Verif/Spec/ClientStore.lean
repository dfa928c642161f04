import Verif.Model.ClientStore

/-! Vocabulary about registrations. -/
namespace Verif.Spec
open Verif.Uniuri Verif.ClientStore

/-- The operation registers the object at this address. -/
def Registers (r : Nat) (o : Op) : Prop := ∃ bs, o = .register r bs

/-- The operation is a registration that draws this identifier. -/
def Draws (id : Str) (o : Op) : Prop := ∃ r bs, o = .register r bs ∧ id16 sizes bs = some id

/-- How often an object is registered. -/
def timesRegistered (r : Nat) (ops : List Op) : Nat :=
  ops.countP fun | .register r' _ => r' == r | .create _ => false

end Verif.Spec
