import Verif.Model.Api
import Verif.Model.Sinks
import Verif.Spec.Reserve
import Verif.Spec.Shrink
import Verif.Spec.Iter

/-!
# Programs that use a vector

A client program is a list of calls of the public interface of `UnsizedVec` (src/lib.rs:190–1240), each with its own
environment (allocator answers, destructors that panic). A panicking call is caught (as by `std::panic::catch_unwind`)
and the program goes on with the vector as the panic left it.
-/

namespace Verif

/-- What a client can do with a vector, for one of the three implementations: the interface, and reading and writing through
references. -/
structure Machine (V : Type) (T : UTy) (β : Type) where
  P : Provider V T β
  /-- the value seen through a reference -/
  read : V → Ref T → Val T β
  /-- `*r = value` through a mutable reference -/
  store : Ref T → List β → Exec V Unit
  /-- the references returned by the calls on a fresh iterator; `none` = UB -/
  calls : V → List ICall → Option (List (Option (Ref T)))
  /-- `Drop for UnsizedVec` -/
  drop : Env (Val T β) → Exec V Unit
  /-- the values whose destructor has run while they were property of the vector or of one of its functions, in order -/
  drops : V → List (Val T β)
  /-- one more destructor has run -/
  note : Val T β → V → V

section
variable {β : Type} [Inhabited β]

/-- A vector of dynamically aligned elements. -/
def unalignedM (c : Cfg) (T : UTy) : Machine (UVec T β) T β where
  P := unalignedP c T
  read v r := r.read v.heap
  store r bs := do
    let v ← Exec.get
    let h ← Exec.orUb (r.store v.heap bs)
    Exec.set { v with heap := h }
  calls v ks := (ICall.runCalls (ICall.unaligned c v.heap) ks v.iter).map (·.1)
  drop := UVec.drop c
  drops v := v.drops
  note x v := { v with drops := v.drops ++ [x] }

/-- A vector of statically aligned unsized elements. -/
def alignedM (c : Cfg) (A : ATy) : Machine (AVec A β) A.ty β where
  P := alignedP c A
  read v r := r.read v.heap
  store r bs := do
    let v ← Exec.get
    let h ← Exec.orUb (r.store v.heap bs)
    Exec.set { v with heap := h }
  calls v ks := (ICall.runCalls (ICall.aligned c v.heap) ks v.iter).map (·.1)
  drop := AVec.drop c
  drops v := v.drops
  note x v := { v with drops := v.drops ++ [x] }

/-- A vector of sized elements. -/
def sizedM (c : Cfg) (sz al : Nat) : Machine (SVec sz al β) (sizedTy sz al) β where
  P := sizedP c sz al
  read v r := v.slot r.off
  store r bs := do
    Exec.require (bs.length = sz)
    SVec.memwrite c r.off bs
  calls v ks := (ICall.runCalls (ICall.sized sz al) ks v.iter).map (·.1)
  drop := SVec.drop
  drops v := v.drops
  note x v := { v with drops := v.drops ++ [x] }

end

section
variable {V : Type} {T : UTy} {β : Type}

/-- The destructor of a value that a function of the vector owns. -/
def Machine.dropArg (M : Machine V T β) (env : Env (Val T β)) (x : Val T β) : Exec V Unit := do
  Exec.modify (M.note x)
  if env.dropPanics x then Exec.panic else pure ()

/-- A call of `push` or `insert` (src/lib.rs:775–792, 938–945) with the argument `x`, which is passed by value: if the function
panics, it still owns `x` (`mem::forget_unsized` is the last thing it does), and `x` is dropped while unwinding. -/
def Machine.giving (M : Machine V T β) (env : Env (Val T β)) (x : Val T β) (m : Exec V Unit) : Exec V Unit :=
  Exec.onUnwind m (M.dropArg env x)

/-- What a program passes to `push_with` and `insert_with`. -/
inductive Src (T : UTy) (β : Type) where
  /-- an emplacable that delivers a value -/
  | value (x : Val T β)
  /-- an emplacable whose closure panics at once -/
  | panics
  /-- an emplacable that announces a value, writes some bytes of it, and then panics -/
  | fails (md : T.Meta) (bs : List β)

/-- The code of such an emplacable. Its state is the list of values whose destructor it has run: when it is dropped, so is the
value. -/
def Src.code (env : Env (Val T β)) : Src T β → Exec (List (Val T β)) (Started (List (Val T β)) T β)
  | value x => pure ⟨⟨x.size, x.align⟩, x.md, fun s => .done x.bytes s,
      fun ds => if env.dropPanics x then .panic (ds ++ [x]) else .ok () (ds ++ [x]), pure ()⟩
  | panics => Exec.panic
  | fails md bs => pure ⟨⟨T.sizeOf md, T.alignOf md⟩, md, fun s => .unwind bs s, pure (), pure ()⟩

/-- What a program does with the emplacable returned by `pop_into` and `remove_into`. -/
inductive Dst where
  /-- move the value out -/
  | take
  /-- drop the emplacable -/
  | drop
  /-- `Emplacable::forget` -/
  | forget
  /-- give it to an emplacer that panics before it has taken the value -/
  | panics
  deriving DecidableEq

/-- The emplacer; its state is the value that has been moved out. -/
def Dst.code : Dst → Emplacer (Option (Val T β)) T β
  | take => fun _ md => pure (.place (fun bs => Exec.set (some ⟨md, bs⟩)) (pure ()) (pure ()))
  | drop => Sink.dropping
  | forget => Sink.forgetting
  | panics => fun _ _ => Exec.panic

/-- A call. -/
inductive Op (T : UTy) (β : Type) where
  | push (x : Val T β)
  | pushWith (s : Src T β)
  | insert (i : Nat) (x : Val T β)
  | insertWith (i : Nat) (s : Src T β)
  /-- `pop_into`, and what becomes of the result -/
  | pop (d : Dst)
  /-- `remove_into`, and what becomes of the result -/
  | remove (i : Nat) (d : Dst)
  /-- the methods of the `reserve` family -/
  | reserve (q : Reservation)
  /-- the methods of the `try_reserve` family -/
  | tryReserve (q : Reservation)
  /-- the methods of the `shrink` family -/
  | shrink (q : Shrinking)
  /-- `get(i)`, and read what it refers to -/
  | get (i : Nat)
  /-- `v[i]`, and read it -/
  | index (i : Nat)
  /-- `get_mut(i)`, and overwrite what it refers to -/
  | set (i : Nat) (bs : List β)
  | len
  /-- `iter()`, the calls `ks` on the iterator, and read what the results refer to -/
  | iter (ks : List ICall)
  /-- `iter_mut()`, the calls `ks` on the iterator, keep all references, and then overwrite what they refer to (the first one
  with the first of `bss`, and so on) -/
  | iterMut (ks : List ICall) (bss : List (List β))

/-- What the program observes. -/
inductive Out (T : UTy) (β : Type) where
  | done
  | panicked
  /-- a `try_` method returned an error -/
  | failed (e : TRE)
  /-- `None` -/
  | nothing
  | value (x : Val T β)
  | number (n : Nat)
  | values (l : List (Option (Val T β)))

/-- Use a vector as the right-hand state of an exchange. The left-hand state is the log of the destructors that are run on
that side. -/
def onRight {α : Type} (M : Machine V T β) (m : Exec (List (Val T β) × V) α) : Exec V α := fun v =>
  match m ([], v) with
  | .ok a (ds, v') => .ok a (ds.foldl (fun v x => M.note x v) v')
  | .panic (ds, v') => .panic (ds.foldl (fun v x => M.note x v) v')
  | .abort => .abort
  | .ub => .ub

/-- Use a vector as the left-hand state of an exchange; the result is the final right-hand state. -/
def onLeft {τ : Type} (t : τ) (m : Exec (V × τ) Unit) : Exec V τ := fun v =>
  match m (v, t) with
  | .ok _ (v', t') => .ok t' v'
  | .panic (v', _) => .panic v'
  | .abort => .abort
  | .ub => .ub

/-- Overwrite what the references refer to, in order. -/
def storeAll (M : Machine V T β) : List (Option (Ref T)) → List (List β) → Exec V Unit
  | some r :: rs, bs :: bss => do
    M.store r bs
    storeAll M rs bss
  | none :: rs, _ :: bss => storeAll M rs bss
  | _, _ => pure ()

/-- The value that was moved out, if any. -/
def outOf : Option (Val T β) → Out T β
  | some x => .value x
  | none => .done

/-- The code of a call. -/
def Op.exec (c : Cfg) (M : Machine V T β) (env : Env (Val T β)) : Op T β → Exec V (Out T β)
  | push x => do
    M.giving env x (Api.push c M.P env x)
    pure .done
  | pushWith s => do
    onRight M (Api.pushWithRun M.P env (s.code env))
    pure .done
  | insert i x => do
    M.giving env x (Api.insert c M.P env i x)
    pure .done
  | insertWith i s => do
    onRight M (Api.insertWithRun M.P env i (s.code env))
    pure .done
  | pop d => do
    let v ← Exec.get
    match Api.popInto M.P env v with
    | none => pure .nothing
    | some e => do
      let t ← onLeft none (run e d.code)
      pure (outOf t)
  | remove i d => do
    let t ← onLeft none (run (Api.removeInto M.P env i) d.code)
    pure (outOf t)
  | reserve q => do
    q.run c M.P env
    pure .done
  | tryReserve q => do
    match ← q.attempt c M.P env with
    | .ok () => pure .done
    | .error e => pure (.failed e)
  | shrink q => do
    q.run c M.P env
    pure .done
  | get i => do
    let v ← Exec.get
    match ← Exec.orUb (Api.get M.P v i) with
    | some r => pure (.value (M.read v r))
    | none => pure .nothing
  | index i => do
    let r ← Api.index M.P i
    let v ← Exec.get
    pure (.value (M.read v r))
  | set i bs => do
    let v ← Exec.get
    match ← Exec.orUb (Api.get M.P v i) with
    | some r => do
      M.store r bs
      pure .done
    | none => pure .nothing
  | len => do
    let v ← Exec.get
    pure (.number (M.P.len v))
  | iter ks => do
    let v ← Exec.get
    let rs ← Exec.orUb (M.calls v ks)
    pure (.values (rs.map (·.map (M.read v))))
  | iterMut ks bss => do
    let v ← Exec.get
    let rs ← Exec.orUb (M.calls v ks)
    storeAll M rs bss
    pure .done

/-- `catch_unwind`: a panic becomes an observation. -/
def caught (m : Exec V (Out T β)) : Exec V (Out T β) := fun v =>
  match m v with
  | .panic v' => .ok .panicked v'
  | r => r

/-- A program: calls in order, each with the environment it meets. The result is what has been observed. -/
def runOps (c : Cfg) (M : Machine V T β) : List (Env (Val T β) × Op T β) → Exec V (List (Out T β))
  | [] => pure []
  | (env, op) :: rest => do
    let o ← caught (op.exec c M env)
    let os ← runOps c M rest
    pure (o :: os)

end
end Verif
