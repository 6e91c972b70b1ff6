import Verif.Spec.Holds
import Verif.Spec.Guards
import Verif.Spec.Sized
import Verif.Model.Traits

/-!
# Comparison, hashing and searching of lists

The same loops on lists. The methods of the elements are programs, so these are programs too: they call the method for one element
after the other.
-/

namespace Verif
variable {σ ρ : Type} {T U : UTy} {β γ : Type}

/-- `w` is a borrowed vector, of one of the three kinds, with the elements `xs`. -/
inductive Borrowed (c : Cfg) [Inhabited β] : (T : UTy) → Walk T β → List (Val T β) → Prop
  | unaligned {T : UTy} {v : UVec T β} {xs : List (Val T β)} (h : v.Holds c xs) : Borrowed c T (v.walk c) xs
  | aligned {A : ATy} {v : AVec A β} {xs : List (Val A.ty β)} (hA : A.Fits c) (h : v.Holds c xs) : Borrowed c A.ty (v.walk c) xs
  | sized {sz al : Nat} {v : SVec sz al β} {xs : List (Val (sizedTy sz al) β)} (h : v.Holds c xs) :
      Borrowed c (sizedTy sz al) v.walk xs

/-- From here on `next` returns references to the elements `ys` in order, and then `None` forever. -/
def Walk.Left (w : Walk T β) : w.It → List (Val T β) → Prop
  | it, [] => w.next it = some (none, it)
  | it, y :: ys => ∃ r it', w.next it = some (some r, it') ∧ w.read r = y ∧ w.Left it' ys

/-- The lists are equally long and corresponding elements are equal. -/
def listEq (e : Val T β → Val U γ → Exec σ Bool) : List (Val T β) → List (Val U γ) → Exec σ Bool := fun xs ys =>
  if xs.length = ys.length then go xs ys else pure false
where
  go : List (Val T β) → List (Val U γ) → Exec σ Bool
    | x :: xs, y :: ys => do
      if ← e x y then go xs ys else pure false
    | _, _ => pure true

/-- Lexicographic order. -/
def listCmp (k : Val T β → Val U γ → Exec σ Ordering) : List (Val T β) → List (Val U γ) → Exec σ Ordering
  | [], [] => pure .eq
  | [], _ :: _ => pure .lt
  | _ :: _, [] => pure .gt
  | x :: xs, y :: ys => do
    match ← k x y with
    | .lt => pure .lt
    | .gt => pure .gt
    | .eq => listCmp k xs ys

/-- Lexicographic order when elements may be incomparable. -/
def listPartialCmp (k : Val T β → Val U γ → Exec σ (Option Ordering)) : List (Val T β) → List (Val U γ) → Exec σ (Option Ordering)
  | [], [] => pure (some .eq)
  | [], _ :: _ => pure (some .lt)
  | _ :: _, [] => pure (some .gt)
  | x :: xs, y :: ys => do
    match ← k x y with
    | none => pure none
    | some .lt => pure (some .lt)
    | some .gt => pure (some .gt)
    | some .eq => listPartialCmp k xs ys

/-- One element after the other. -/
def listForEach (f : Val T β → Exec σ Unit) : List (Val T β) → Exec σ Unit
  | [] => pure ()
  | x :: xs => do
    f x
    listForEach f xs

/-- One element after the other, until an error. -/
def listTry {ε : Type} (f : Val T β → Exec σ (Except ε Unit)) : List (Val T β) → Exec σ (Except ε Unit)
  | [] => pure (.ok ())
  | x :: xs => do
    match ← f x with
    | .error e => pure (.error e)
    | .ok () => listTry f xs

/-- The first result, its index, and the elements after it; `f` is not called for these. -/
def listFind (f : Val T β → Exec σ (Option ρ)) : List (Val T β) → Exec σ (Option (Nat × ρ) × List (Val T β))
  | [] => pure (none, [])
  | x :: xs => do
    match ← f x with
    | some a => pure (some (0, a), xs)
    | none => do
      let r ← listFind f xs
      pure (r.1.map fun p => (p.1 + 1, p.2), r.2)

/-- What `f` finds: the element itself if it is accepted. -/
def accepts (f : Val T β → Exec σ Bool) (x : Val T β) : Exec σ (Option (Val T β)) := do
  if ← f x then pure (some x) else pure none

/-- What `f` finds: the element itself if it is rejected. -/
def rejects (f : Val T β → Exec σ Bool) (x : Val T β) : Exec σ (Option (Val T β)) := do
  if ← f x then pure none else pure (some x)

/-- The results agree, and the iterator that is left has the elements that should be left. -/
def Walk.Agrees {α : Type} (w : Walk T β) (r : Res σ (α × w.It)) (q : Res σ (α × List (Val T β))) : Prop :=
  match q with
  | .ok (a, rest) s => ∃ it, r = .ok (a, it) s ∧ w.Left it rest
  | .panic s => r = .panic s
  | .abort => r = .abort
  | .ub => r = .ub

/-- The elements are cloned one after the other; the clones are `ys`, and the state goes from `s` to `s'`. -/
inductive ClonedVals (cl : Val T β → Exec σ (Val T β)) : List (Val T β) → σ → List (Val T β) → σ → Prop
  | nil (s : σ) : ClonedVals cl [] s [] s
  | cons {x y : Val T β} {xs ys : List (Val T β)} {s s1 s' : σ} : cl x s = .ok y s1 → ClonedVals cl xs s1 ys s' →
      ClonedVals cl (x :: xs) s (y :: ys) s'

/-- Cloning an element is not UB and gives a possible value; said for each element in the state in which it is cloned. -/
def CloneSound (c : Cfg) (cl : Val T β → Exec σ (Val T β)) : List (Val T β) → σ → Prop
  | [], _ => True
  | x :: xs, s => cl x s ≠ .ub ∧ ∀ y s', cl x s = .ok y s' → y.WF c ∧ CloneSound c cl xs s'

end Verif
