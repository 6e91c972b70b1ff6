import Verif.Model.Threads

/-!
# What may cross threads
-/

namespace Verif

/-- Who has a handle in another thread can do there with the elements what the handle allows: move them (`T: Send`), read them (`&T: Send`, that
is, `T: Sync`), or exchange them for others (`&mut T: Send`, that is, `T: Send`). -/
def Handle.MayMove (elem : AutoTraits) : Handle → Prop
  | vector => elem.send = true
  | iter => elem.sync = true
  | iterMut => elem.send = true

/-- Who has a reference to a handle in another thread can read the elements there. -/
def Handle.MayShare (elem : AutoTraits) : Handle → Prop
  | _ => elem.sync = true

/-- Who has a handle for elements of type `T₁` as one for elements of type `T₂` can get a `T₂` out, and, if it is mutable, put one in. -/
def Handle.MayStandFor (le ge : Prop) : Handle → Prop
  | vector => le
  | iter => le
  | iterMut => le ∧ ge

end Verif
