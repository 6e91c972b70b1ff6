import Verif.Model.Api

/-!
# What an iterator over a vector should do

A double-ended iterator is a queue of indices: `next` takes the first, `next_back` the last, `nth(n)` discards `n` and takes
the next, `nth_back(n)` does so at the back.
-/

namespace Verif

/-- A call on an iterator. -/
inductive ICall where
  | next
  | nextBack
  | nth (n : Nat)
  | nthBack (n : Nat)

namespace ICall

/-- What the call returns and what remains. -/
def spec : ICall → List Nat → Option Nat × List Nat
  | .next, l => (l.head?, l.tail)
  | .nextBack, l => (l.getLast?, l.dropLast)
  | .nth n, l => ((l.drop n).head?, l.drop (n + 1))
  | .nthBack n, l => ((l.take (l.length - n)).getLast?, l.take (l.length - (n + 1)))

/-- What a sequence of calls returns and what remains. -/
def specRun : List ICall → List Nat → List (Option Nat) × List Nat
  | [], l => ([], l)
  | k :: ks, l => ((k.spec l).1 :: (specRun ks (k.spec l).2).1, (specRun ks (k.spec l).2).2)

/-- A sequence of calls on a real iterator; `none` = UB. -/
def runCalls {I R : Type} (step : ICall → I → Option (Option R × I)) : List ICall → I → Option (List (Option R) × I)
  | [], it => some ([], it)
  | k :: ks, it => do
    let (r, it') ← step k it
    let (rs, it'') ← runCalls step ks it'
    pure (r :: rs, it'')

/-- Does the call move the front of the iterator? -/
def movesFront : ICall → Bool
  | .next => true
  | .nextBack => false
  | .nth _ => true
  | .nthBack _ => false

/-- The calls for which the code works: once the front has moved (`adv`), not `next_back` for the sole element left (nor
`nth_back`, when it gets that far), and not `nth(0)`. -/
def Ok (adv : Bool) (left : List Nat) : ICall → Prop
  | .next => True
  | .nextBack => adv = false ∨ left.length ≠ 1
  | .nth n => adv = false ∨ n ≠ 0 ∨ left = []
  | .nthBack n => adv = false ∨ n + 1 < left.length ∨ left = []

/-- All calls of the sequence are `Ok`. -/
def OkRun : List ICall → Bool → List Nat → Prop
  | [], _, _ => True
  | k :: ks, adv, l => k.Ok adv l ∧ OkRun ks (adv || k.movesFront) (k.spec l).2

/-- The calls that return a wrong reference: those for which the code takes 0 for the start of the element although the front
has moved (`adv`), `next_back` or `nth_back` when it takes the sole element left, and `nth(0)`. -/
def fault (adv : Bool) (left : List Nat) : ICall → Bool
  | .next => false
  | .nextBack => adv && left.length == 1
  | .nth n => adv && n == 0
  | .nthBack n => adv && n + 1 == left.length

/-- Which calls of a sequence return a wrong reference. -/
def faults : List ICall → Bool → List Nat → List Bool
  | [], _, _ => []
  | k :: ks, adv, l => k.fault adv l :: faults ks (adv || k.movesFront) (k.spec l).2

/-- The outputs of the code: for each index the reference `right` to that element or, where the call is at fault, the reference
`wrong`. -/
def outputs {R : Type} (right wrong : Nat → Option R) (is : List (Option Nat)) (fs : List Bool) : List (Option R) :=
  List.zipWith (fun o (f : Bool) => o.bind (if f then wrong else right)) is fs

/-- The code of one call, dynamically aligned elements. -/
def unaligned {T : UTy} {β : Type} [Inhabited β] (c : Cfg) (h : Heap β) : ICall → UIter T → Option (Option (Ref T) × UIter T)
  | .next, it => it.next c h
  | .nextBack, it => it.nextBack c h
  | .nth n, it => it.nth c h n
  | .nthBack n, it => it.nthBack c h n

/-- The code of one call, statically aligned elements. -/
def aligned {A : ATy} {β : Type} [Inhabited β] (c : Cfg) (h : Heap β) :
    ICall → AIter A → Option (Option (Ref A.ty) × AIter A)
  | .next, it => it.next c h
  | .nextBack, it => it.nextBack c h
  | .nth n, it => it.nth c h n
  | .nthBack n, it => it.nthBack c h n

/-- The code of one call on the iterator (`slice::Iter`). -/
def sized (sz al : Nat) : ICall → SVec.Iter → Option (Option (Ref (sizedTy sz al)) × SVec.Iter)
  | .next, it => some (it.next.1.map (⟨0, ·, ()⟩), it.next.2)
  | .nextBack, it => some (it.nextBack.1.map (⟨0, ·, ()⟩), it.nextBack.2)
  | .nth n, it => some ((it.nth n).1.map (⟨0, ·, ()⟩), (it.nth n).2)
  | .nthBack n, it => some ((it.nthBack n).1.map (⟨0, ·, ()⟩), (it.nthBack n).2)

/-- The indices returned by the calls of `next`. -/
def fronts : List ICall → List (Option Nat) → List Nat
  | .next :: ks, some i :: os => i :: fronts ks os
  | _ :: ks, _ :: os => fronts ks os
  | _, _ => []

/-- The indices returned by the calls of `next_back`. -/
def backs : List ICall → List (Option Nat) → List Nat
  | .nextBack :: ks, some i :: os => i :: backs ks os
  | _ :: ks, _ :: os => backs ks os
  | _, _ => []

end ICall

/-- What `get(i)` returns. -/
def refTo {S : Type} {T : UTy} {β : Type} (P : Provider S T β) (v : S) (i : Nat) : Option (Ref T) := (Api.get P v i).join

/-- The reference that a call at fault returns for element `i`, dynamically aligned elements: with the metadata of the element,
but to the memory at the start of the vector. -/
def UVec.wrongRef {T : UTy} {β : Type} [Inhabited β] (c : Cfg) (v : UVec T β) (i : Nat) : Option (Ref T) :=
  (refTo (unalignedP c T) v i).map (fun r => ⟨r.base, 0, r.md⟩)

/-- The same for statically aligned elements: to the memory at the start of the vector, with the metadata of a value that
reaches from there to the end of the element. -/
def AVec.wrongRef {A : ATy} {β : Type} [Inhabited β] (c : Cfg) (v : AVec A β) (i : Nat) : Option (Ref A.ty) :=
  (refTo (alignedP c A) v i).map (fun r => ⟨r.base, 0, A.dec (A.enc r.md) (r.off + A.ty.sizeOf r.md)⟩)

/-- The metadata recovered for a larger size (helper.rs:7–75) is that of a value that is not larger than this size. -/
def ATy.Within (A : ATy) : Prop := ∀ md n, A.ty.sizeOf md ≤ n → A.ty.sizeOf (A.dec (A.enc md) n) ≤ n

theorem ATy.Within.full (T : UTy) (al : Nat) : (ATy.full T al).Within := fun _ _ h => h

theorem ATy.Within.slice (sz al : Nat) : (ATy.slice sz al).Within := fun _ n _ => by
  show (if sz = 0 then 0 else n / sz : Nat) * sz ≤ n
  split
  · omega
  · exact Nat.div_mul_le_self n sz

/-- The memory of two references is disjoint. -/
def Ref.Disjoint {T : UTy} (r s : Ref T) : Prop := r.off + T.sizeOf r.md ≤ s.off ∨ s.off + T.sizeOf s.md ≤ r.off

end Verif
