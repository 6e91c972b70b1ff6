import Verif.Model.Client

/-!
# Length and metadata, for every program (C59)

A vector records, for each element, the pointer metadata (for a trait object the vtable, for a slice the length). The list of
these is what decides how many elements there are and as what type each is read. Here is what each call may do to that list; the
bytes of the elements play no role.
-/

namespace Verif
section
variable {T : UTy} {β M : Type}

/-- How one of the three implementations records elements. `M` is the type of its entries. -/
structure Recording (V : Type) (T : UTy) (β M : Type) where
  /-- the entries of a vector, in order -/
  entries : V → List M
  /-- the entry for an element with this size and metadata -/
  entry : Nat → T.Meta → M
  /-- what a `remove` that panics after the bounds check leaves of the entries -/
  failed : List M → List M
  /-- the entry belongs to a value of this type and length -/
  shows : M → Val T β → Prop

/-- The entries after a call with the observation `o`. -/
def Recording.after {V : Type} (K : Recording V T β M) (o : Out T β) (l : List M) : Op T β → List M
  | .push x | .pushWith (.value x) => match o with
    | .panicked => l
    | _ => l ++ [K.entry x.size x.md]
  | .insert i x | .insertWith i (.value x) => match o with
    | .panicked => l
    | _ => l.take i ++ K.entry x.size x.md :: l.drop i
  | .pop _ => l.dropLast
  | .remove i _ => match o with
    | .panicked => if i < l.length then K.failed l else l
    | _ => l.eraseIdx i
  | _ => l

/-- What a call may report if the entries are `l`. -/
def Recording.Sees {V : Type} (K : Recording V T β M) (o : Out T β) (l : List M) : Op T β → Prop
  | .len => o = .number l.length
  | .push _ => o = .done ∨ o = .panicked
  | .pushWith s => (o = .done ∧ ∃ x, s = .value x) ∨ o = .panicked
  | .insert i _ => (o = .done ∧ i ≤ l.length) ∨ o = .panicked
  | .insertWith i s => (o = .done ∧ i ≤ l.length ∧ ∃ x, s = .value x) ∨ o = .panicked
  | .pop _ => (o = .nothing ∧ l = []) ∨ (l ≠ [] ∧ (o = .done ∨ o = .panicked ∨ ∃ x m, o = .value x ∧ l.getLast? = some m ∧ K.shows m x))
  | .remove i _ => (i < l.length ∧ (o = .done ∨ ∃ x m, o = .value x ∧ l[i]? = some m ∧ K.shows m x)) ∨ o = .panicked
  | .get i => (o = .nothing ∧ l.length ≤ i) ∨ ∃ x m, o = .value x ∧ l[i]? = some m ∧ K.shows m x
  | .index i => (o = .panicked ∧ l.length ≤ i) ∨ ∃ x m, o = .value x ∧ l[i]? = some m ∧ K.shows m x
  | .set i _ => (o = .nothing ∧ l.length ≤ i) ∨ (o = .done ∧ i < l.length)
  | _ => True

/-- The observations of a program fit the entries, from the entries `l` to the entries `l'`. -/
def Recording.Follows {V : Type} (K : Recording V T β M) : List (Env (Val T β) × Op T β) → List (Out T β) → List M → List M → Prop
  | [], os, l, l' => os = [] ∧ l' = l
  | (_, op) :: ops, os, l, l' => ∃ o rest, os = o :: rest ∧ K.Sees o l op ∧ K.Follows ops rest (K.after o l op) l'

end

/-- Dynamically aligned elements: the metadata itself. -/
def UVec.recording (T : UTy) (β : Type) : Recording (UVec T β) T β T.Meta where
  entries v := v.elems.map (·.rem)
  entry _ md := md
  failed l := l
  shows md x := x.md = md

/-- The records of statically aligned elements: the remainder of the metadata, and the size, which is the distance of the end of
the element from the end of the one before it (`prev`). -/
def AVec.entriesFrom {R : Type} (prev : Int) : List (Info R) → List (R × Int)
  | [] => []
  | e :: es => (e.rem, e.endOff - prev) :: AVec.entriesFrom e.endOff es

/-- Statically aligned elements: what is left of the metadata, and the size; the metadata is computed from both. -/
def AVec.recording (A : ATy) (β : Type) : Recording (AVec A β) A.ty β (A.R × Int) where
  entries v := AVec.entriesFrom 0 v.elems
  entry n md := (A.enc md, n)
  failed l := l
  shows m x := x.md = A.dec m.1 m.2.toNat

/-- Sized elements have no metadata. A `remove` that fails has already given up one element. -/
def SVec.recording (sz al : Nat) (β : Type) : Recording (SVec sz al β) (sizedTy sz al) β Unit where
  entries v := List.replicate v.len ()
  entry _ _ := ()
  failed l := l.dropLast
  shows _ _ := True

end Verif
