import Verif.Model.Client

/-!
# Loops over the elements: comparison, hashing, formatting, serialization, `clone`, and the searching methods of iterators

Transcription of src/lib.rs:1293–1340 (methods of the iterators) and 1440–1537 (trait implementations).

The methods of the elements (`eq`, `cmp`, `hash`, …) are arbitrary programs: they may have effects on a state `σ`, panic or end the
process. Simplification: they get the value of the element, so an element with interior mutability cannot change during the
loop. The vectors are only borrowed and are not part of the state.

The loops are given fuel, one more than the length of the vector; running out of it would be `ub`, and the theorems exclude it.
-/

namespace Verif
variable {σ ρ : Type} {T U : UTy} {β γ : Type}

/-- A borrowed vector, as the loops see it: `iter()`, `next`, the value behind a reference, and `len()`. -/
structure Walk (T : UTy) (β : Type) where
  It : Type
  start : It
  /-- `none` = UB -/
  next : It → Option (Option (Ref T) × It)
  read : Ref T → Val T β
  len : Nat

section
variable [Inhabited β]

/-- A borrowed vector of dynamically aligned elements. -/
def UVec.walk (c : Cfg) (v : UVec T β) : Walk T β := ⟨UIter T, v.iter, fun it => it.next c v.heap, fun r => r.read v.heap, v.len⟩

/-- A borrowed vector of statically aligned unsized elements. -/
def AVec.walk {A : ATy} (c : Cfg) (v : AVec A β) : Walk A.ty β :=
  ⟨AIter A, v.iter, fun it => it.next c v.heap, fun r => r.read v.heap, v.len⟩

end

/-- A borrowed vector of sized elements. -/
def SVec.walk {sz al : Nat} (v : SVec sz al β) : Walk (sizedTy sz al) β :=
  ⟨SVec.Iter, v.iter, fun it => some (it.next.1.map (⟨0, ·, ()⟩), it.next.2), fun r => v.slot r.off, v.len⟩

namespace Walk

/-- A loop over the elements: `f` is called with the number of the round and the element, and can leave the loop with a result.
This is `for elem in self { … }`, and the provided methods of `Iterator`, which call `next` in a loop. The rest of the iterator is
returned too. -/
def each (w : Walk T β) (f : Nat → Val T β → Exec σ (Option ρ)) : Nat → Nat → w.It → Exec σ (Option ρ × w.It)
  | 0, _, _ => Exec.ub
  | fuel + 1, k, it => do
    let p ← Exec.orUb (w.next it)
    match p.1 with
    | none => pure (none, p.2)
    | some r => do
      match ← f k (w.read r) with
      | some a => pure (some a, p.2)
      | none => each w f fuel (k + 1) p.2

/-- The loop over a whole vector. -/
def all (w : Walk T β) (f : Nat → Val T β → Exec σ (Option ρ)) : Exec σ (Option ρ × w.It) := w.each f (w.len + 1) 0 w.start

/-- A loop over `a.iter().zip(b)`. `Zip::next` calls `next` of the first iterator, and then that of the second one if the first one
has returned something. -/
def zip (a : Walk T β) (b : Walk U γ) (f : Val T β → Val U γ → Exec σ (Option ρ)) : Nat → a.It → b.It → Exec σ (Option ρ)
  | 0, _, _ => Exec.ub
  | fuel + 1, i, j => do
    let p ← Exec.orUb (a.next i)
    match p.1 with
    | none => pure none
    | some l => do
      let q ← Exec.orUb (b.next j)
      match q.1 with
      | none => pure none
      | some r => do
        match ← f (a.read l) (b.read r) with
        | some x => pure (some x)
        | none => zip a b f fuel p.2 q.2

/-- `PartialEq::eq` (1473–1475), where `e` is `l == r` -/
def eq (a : Walk T β) (b : Walk U γ) (e : Val T β → Val U γ → Exec σ Bool) : Exec σ Bool :=
  if a.len = b.len then do
    let r ← a.zip b (fun l r => do
      if ← e l r then pure none else pure (some ())) (a.len + 1) a.start b.start
    pure r.isNone
  else pure false

/-- `PartialOrd::partial_cmp` (1485–1493), where `k` is `l.partial_cmp(r)` -/
def partialCmp (a : Walk T β) (b : Walk U γ) (k : Val T β → Val U γ → Exec σ (Option Ordering)) : Exec σ (Option Ordering) := do
  let r ← a.zip b (fun l r => do
    match ← k l r with
    | some .eq => pure none
    | res => pure (some res)) (a.len + 1) a.start b.start
  match r with
  | some res => pure res
  | none => pure (some (compare a.len b.len))

/-- `Ord::cmp` (1501–1509), where `k` is `l.cmp(r)` -/
def cmp (a : Walk T β) (b : Walk U γ) (k : Val T β → Val U γ → Exec σ Ordering) : Exec σ Ordering := do
  let r ← a.zip b (fun l r => do
    match ← k l r with
    | .eq => pure none
    | res => pure (some res)) (a.len + 1) a.start b.start
  match r with
  | some res => pure res
  | none => pure (compare a.len b.len)

/-- `Hash::hash` (1517–1521), where `h` is `elem.hash(state)`. The length is not hashed. -/
def hash (w : Walk T β) (h : Val T β → Exec σ Unit) : Exec σ Unit := do
  let _ ← w.all (ρ := Unit) (fun _ x => do
    h x
    pure none)
  pure ()

/-- `Serialize::serialize` (1532–1541). The serializer is in the state; `seq` is `serialize_seq`, `elem` is `serialize_element`
and `fin` is `end`, each of which can return an error. -/
def serialize {ε δ : Type} (w : Walk T β) (seq : Option Nat → Exec σ (Except ε Unit)) (elem : Val T β → Exec σ (Except ε Unit))
    (fin : Exec σ (Except ε δ)) : Exec σ (Except ε δ) := do
  match ← seq (some w.len) with
  | .error e => pure (.error e)
  | .ok () => do
    let r ← w.all (fun _ x => do
      match ← elem x with
      | .error e => pure (some e)
      | .ok () => pure none)
    match r.1 with
    | some e => pure (.error e)
    | none => fin

/-- `Debug::fmt` (1445–1447): `debug_list`, an `entry` per element, `finish`. (`DebugList` remembers a failed entry, and the loop
goes on.) -/
def debug {δ : Type} (w : Walk T β) (list : Exec σ Unit) (entry : Val T β → Exec σ Unit) (fin : Exec σ δ) : Exec σ δ := do
  list
  let _ ← w.all (ρ := Unit) (fun _ x => do
    entry x
    pure none)
  fin

/-! The methods of the iterators that call `next` in a loop (1293–1340; the inner iterators inherit them from `Iterator`). They start
from an iterator `it` of the vector, and the methods that take `&mut self` leave it behind. -/

/-- `for_each` (1294–1299) -/
def forEach (w : Walk T β) (f : Val T β → Exec σ Unit) (it : w.It) : Exec σ Unit := do
  let _ ← w.each (ρ := Unit) (fun _ x => do
    f x
    pure none) (w.len + 1) 0 it
  pure ()

/-- `all` (1302–1307) -/
def allOf (w : Walk T β) (f : Val T β → Exec σ Bool) (it : w.It) : Exec σ (Bool × w.It) := do
  let r ← w.each (fun _ x => do
    if ← f x then pure none else pure (some ())) (w.len + 1) 0 it
  pure (r.1.isNone, r.2)

/-- `any` (1310–1315) -/
def anyOf (w : Walk T β) (f : Val T β → Exec σ Bool) (it : w.It) : Exec σ (Bool × w.It) := do
  let r ← w.each (fun _ x => do
    if ← f x then pure (some ()) else pure none) (w.len + 1) 0 it
  pure (r.1.isSome, r.2)

/-- `find` (1318–1323); the result is the value seen through the reference returned. -/
def find (w : Walk T β) (f : Val T β → Exec σ Bool) (it : w.It) : Exec σ (Option (Val T β) × w.It) :=
  w.each (fun _ x => do
    if ← f x then pure (some x) else pure none) (w.len + 1) 0 it

/-- `find_map` (1326–1331) -/
def findMap (w : Walk T β) (f : Val T β → Exec σ (Option ρ)) (it : w.It) : Exec σ (Option ρ × w.It) :=
  w.each (fun _ x => f x) (w.len + 1) 0 it

/-- `position` (1334–1339); the result counts from where the iterator is. -/
def position (w : Walk T β) (f : Val T β → Exec σ Bool) (it : w.It) : Exec σ (Option Nat × w.It) :=
  w.each (fun k x => do
    if ← f x then pure (some k) else pure none) (w.len + 1) 0 it

end Walk

/-- `Clone::clone` (1455–1465); only sized types can be cloned. `cl` is `elem.clone()`, and the environment of round `k` is
`envs k`. A clone that `push` does not accept is dropped by it. If something unwinds, the new vector is dropped (with environment `envD`). -/
def SVec.clone {sz al : Nat} (c : Cfg) (env envD : Env (Val (sizedTy sz al) β)) (envs : Nat → Env (Val (sizedTy sz al) β))
    (cl : Val (sizedTy sz al) β → Exec σ (Val (sizedTy sz al) β)) (v : SVec sz al β) (s : σ) : Res (σ × SVec sz al β) Unit :=
  match v.byteCapacity c with
  | none => .ub
  | some bytes =>
    match Api.withCapacityBytesAlign (sizedP c sz al) env (v.capacity c) bytes al with
    | .ub => .ub
    | .abort => .abort
    | .panic ret => .panic (s, ret)
    | .ok _ ret =>
      Exec.onUnwind (do
        let _ ← v.walk.all (ρ := Unit) (fun k x => do
          let y ← liftL (cl x)
          liftR ((sizedM c sz al).giving (envs k) y (Api.push c (sizedP c sz al) (envs k) y))
          pure none)
        pure ()) (liftR (SVec.drop envD)) (s, ret)

end Verif
