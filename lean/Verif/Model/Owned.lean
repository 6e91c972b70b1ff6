import Verif.Model.Collect
import Verif.Model.Sources

/-!
# Owned containers made of emplacables

Transcription of `Emplacable::get`, the conversions into `Vec`, `String`, `CString`, `OsString`, `PathBuf`, `Rc` and `Arc`, the
`Extend` and `FromIterator` implementations of `Vec`, and the macros `unsize!` and `by_value_str!` (emplacable/src/lib.rs; line
numbers refer to that file unless another one is named), and of `push_unsize`, `insert_unsize` (src/lib.rs). The conversions of the
standard library (`Vec::push`, `<[T]>::into_vec`, `From<Box<T>> for Rc<T>`) are transcribed from its source.
-/

namespace Verif

namespace Sink
variable {σ : Type} {β : Type}

/-- `Emplacable::get` (476–498): the value is written into a `MaybeUninit`, which does not drop anything when the closure unwinds.
`assume_init` of a buffer that has not been filled is UB. -/
def getVal {sz al : Nat} (e : Emplacable σ (sizedTy sz al) β) : Exec σ (Val (sizedTy sz al) β) := fun s =>
  match run e (getting ⟨sz, al⟩) (s, []) with
  | .ok _ st => if st.2.length = sz then .ok ⟨(), st.2⟩ st.1 else .ub
  | .panic st => .panic st.1
  | .abort => .abort
  | .ub => .ub

/-- `From<Emplacable<[T], F>> for Vec<T>` and `into_vec` (1466–1487): `box_new_with(emplacable).into_vec()`. The buffer of the vector
is that of the box; length and capacity are the length of the slice. The result is pointer, length and capacity. The same code
with `str`, `CStr`, `OsStr`, `Path` is in 1530–1588: for these the elements are bytes. -/
def intoVec {sz al : Nat} [Inhabited β] {X : Type} (env : Env X) (e : Emplacable σ (sliceTy sz al) β) :
    Exec (σ × BoxSt (sliceTy sz al) β) (Nat × Nat × Nat) := do
  run e (boxing env)
  let st ← Exec.get
  let b ← Exec.orUb st.2.made
  Exec.set (st.1, { st.2 with made := none })
  pure (b.1, b.2, b.2)

/-- The state of `rc_new_with`: the box, the memory of the `Rc`, and the `Rc` once it exists (pointer to the counters, offset of the
value, metadata). -/
structure RcSt (T : UTy) (β : Type) where
  box : BoxSt T β
  heap : Heap β
  made : Option (Nat × Nat × T.Meta)
  drops : List (Val T β)

/-- Round up; `Layout::size_rounded_up_to_custom_align` (core). -/
def roundUp (n a : Nat) : Nat := (n + a - 1) / a * a

/-- Where the value starts in an `RcInner<T>`: two counters, then the value at its alignment (`Layout::extend` in
`rc_inner_layout_for_value_layout`, alloc/src/rc.rs). -/
def rcOffset (c : Cfg) (l : Layout) : Nat := roundUp (2 * (c.bits / 8)) l.align

/-- `rc_inner_layout_for_value_layout`: `Layout::new::<RcInner<()>>().extend(l)`, padded to its alignment. -/
def rcLayout (c : Cfg) (l : Layout) : Layout :=
  ⟨roundUp (rcOffset c l + l.size) (max c.usizeAlign l.align), max c.usizeAlign l.align⟩

section
variable {T : UTy} [Inhabited β]

/-- Dropping the `Box<T>` that `Rc::from_box` still owns when it unwinds: the destructor runs, and the memory is released even if
the destructor panics. -/
def dropBox (env : Env (Val T β)) : Exec (RcSt T β) Unit := do
  let t ← Exec.get
  let b ← Exec.orUb t.box.made
  let bs ← Exec.orUb (t.box.heap.read b.1 0 (T.sizeOf b.2))
  let h ← Exec.orUb (t.box.heap.deallocate b.1 ⟨T.sizeOf b.2, T.alignOf b.2⟩)
  Exec.set { t with box := ⟨h, none⟩, drops := t.drops ++ [⟨b.2, bs⟩] }
  if env.dropPanics ⟨b.2, bs⟩ then Exec.panic else pure ()

/-- `From<Box<T>> for Rc<T>` (`Rc::from_box`): compute the layout (`unwrap` of `Layout::extend`), allocate, copy the value,
release the box without dropping the value. `Arc` does the same. -/
def rcFromBox (c : Cfg) (env : Env (Val T β)) : Exec (RcSt T β) Unit := do
  let t ← Exec.get
  let b ← Exec.orUb t.box.made
  let l : Layout := ⟨T.sizeOf b.2, T.alignOf b.2⟩
  Exec.onUnwind (Exec.assert (rcOffset c l + l.size + (max c.usizeAlign l.align - 1) ≤ c.isizeMax)) (dropBox env)
  match t.heap.allocate env (rcLayout c l) with
  | none => Exec.abort
  | some (h, p, _) => do
    let bs ← Exec.orUb (t.box.heap.read b.1 0 l.size)
    let h ← Exec.orUb (h.write p (rcOffset c l) bs)
    let hb ← Exec.orUb (t.box.heap.deallocate b.1 l)
    Exec.set { t with box := ⟨hb, none⟩, heap := h, made := some (p, rcOffset c l, b.2) }

/-- The box part of the state of `rc_new_with`. -/
def onBox {α : Type} (m : Exec (σ × BoxSt T β) α) : Exec (σ × RcSt T β) α := fun st =>
  match m (st.1, st.2.box) with
  | .ok a st' => .ok a (st'.1, { st.2 with box := st'.2 })
  | .panic st' => .panic (st'.1, { st.2 with box := st'.2 })
  | .abort => .abort
  | .ub => .ub

/-- `rc_new_with`, `arc_new_with` (1636–1641, 1704–1709), and `rc_pin_with`, `arc_pin_with`, `From<Emplacable<T, F>> for Rc<T>` and
`for Arc<T>`, which call them: `box_new_with(emplacable).into()`. -/
def rcNewWith (c : Cfg) (env : Env (Val T β)) (e : Emplacable σ T β) : Exec (σ × RcSt T β) Unit := do
  onBox (run e (boxing env))
  liftR (rcFromBox c env)

/-- `rc_new`, `arc_new` (1622–1627, 1690–1695): `box_new(value).into()`. -/
def rcNew (c : Cfg) (env : Env (Val T β)) (x : Val T β) : Exec (RcSt T β) Unit := do
  let t ← Exec.get
  match boxNew env x t.box with
  | .ok _ b => Exec.set { t with box := b }
  | .panic b => do
    Exec.set { t with box := b }
    Exec.panic
  | .abort => Exec.abort
  | .ub => Exec.ub
  rcFromBox c env

/-- Dropping the last `Rc<T>`: the destructor runs on the value behind the counters, then the memory is released, with the layout
computed again from the value. -/
def rcDrop (c : Cfg) (env : Env (Val T β)) : Exec (RcSt T β) Unit := do
  let t ← Exec.get
  let r ← Exec.orUb t.made
  let l : Layout := ⟨T.sizeOf r.2.2, T.alignOf r.2.2⟩
  Exec.require ((r.1 + rcOffset c l) % l.align = 0)
  let bs ← Exec.orUb (t.heap.read r.1 (rcOffset c l) l.size)
  let h ← Exec.orUb (t.heap.deallocate r.1 (rcLayout c l))
  Exec.set { t with heap := h, made := none, drops := t.drops ++ [⟨r.2.2, bs⟩] }
  if env.dropPanics ⟨r.2.2, bs⟩ then Exec.panic else pure ()

end
end Sink

namespace SVec
variable {σ : Type} {sz al : Nat} {β : Type} [Inhabited β]

/-- The destructor of a value that a function of `Vec` owns. -/
def dropArg (env : Env (Val (sizedTy sz al) β)) (x : Val (sizedTy sz al) β) : Exec (SVec sz al β) Unit := do
  Exec.modify (fun v => { v with drops := v.drops ++ [x] })
  if env.dropPanics x then Exec.panic else pure ()

/-- `Vec::push` (std): grow if there is no free slot; if that panics, the argument is dropped. -/
def vecPush (c : Cfg) (env : Env (Val (sizedTy sz al) β)) (x : Val (sizedTy sz al) β) : Exec (SVec sz al β) Unit := do
  Exec.onUnwind (do
    let r ← tryReserve c env 1
    unwrapReserve r) (dropArg env x)
  let v ← Exec.get
  memwrite c v.len x.bytes
  setLen c (v.len + 1)

/-- The loop of `extend_inner` (1520–1522): `vec.push(emplacable.get())`. -/
def pushGot (c : Cfg) : List (Env (Val (sizedTy sz al) β) × Emplacable σ (sizedTy sz al) β) → Exec (σ × SVec sz al β) Unit
  | [] => pure ()
  | (env, e) :: rest => do
    let x ← liftL (Sink.getVal e)
    liftR (vecPush c env x)
    pushGot c rest

/-- `Extend<Emplacable<T, F>> for Vec<T>` (1506–1527). `hint` is the lower bound of `size_hint`, `dropIter` drops the iterator, as in
`Verif.extend`. -/
def vecExtend (c : Cfg) (env : Env (Val (sizedTy sz al) β)) (hint : Nat)
    (items : List (Env (Val (sizedTy sz al) β) × Emplacable σ (sizedTy sz al) β)) (dropIter : Exec σ Unit) :
    Exec (σ × SVec sz al β) Unit := do
  Exec.onUnwind (do
    liftR (do
      let r ← tryReserve c env hint
      unwrapReserve r)
    pushGot c items) (liftL dropIter)
  liftL dropIter

/-- `FromIterator<Emplacable<T, F>> for Vec<T>` (1490–1503). If something unwinds, the vector is dropped. -/
def vecFromIter (c : Cfg) (env envD : Env (Val (sizedTy sz al) β)) (hint : Nat)
    (items : List (Env (Val (sizedTy sz al) β) × Emplacable σ (sizedTy sz al) β)) (dropIter : Exec σ Unit) (s : σ) :
    Res (σ × SVec sz al β) Unit :=
  Exec.onUnwind (vecExtend c env hint items dropIter) (liftR (SVec.drop envD)) (s, SVec.new)

end SVec

namespace Source
variable {β : Type} {V : Type} {U : UTy}

/-- The stack slot of `unsize!` (`ImplementationDetailDoNotUse`, 129–157): what has been stored in it. -/
structure Slot (β : Type) where
  bytes : Option (List β)

/-- `Box::new_in(val, a)` (147) with the allocator that hands out the slot (164–176): its debug assertion compares the layouts. A
zero-sized value needs no memory. -/
def slotBox {sz al : Nat} (c : Cfg) (x : Val (sizedTy sz al) β) : Exec (Slot β) Unit := do
  if sz = 0 then pure ()
  else do
    Exec.debugAssert c.debug ((⟨x.size, x.align⟩ : Layout) = ⟨sz, al⟩)
    Exec.require (x.bytes.length ≤ sz)
    Exec.set ⟨some x.bytes⟩

/-- `*boxed_unsized` (250): move the value with metadata `md` out of the slot. Reading what is not there is UB. -/
def slotTake (U : UTy) (md : U.Meta) : Exec (Slot β) (Val U β) := do
  let s ← Exec.get
  if U.sizeOf md = 0 then pure ⟨md, []⟩
  else do
    let bs ← Exec.orUb s.bytes
    Exec.require (U.sizeOf md ≤ bs.length)
    pure ⟨md, bs.take (U.sizeOf md)⟩

/-- The macro `unsize!` (229–252), where `md` is the metadata of the coercion of the type of `x` to `U`. -/
def unsizeMacro {sz al : Nat} (c : Cfg) (U : UTy) (md : U.Meta) (x : Val (sizedTy sz al) β) : Exec (Slot β) (Val U β) := do
  slotBox c x
  slotTake U md

/-- The macro `by_value_str!` (275–303): the literal is copied into a buffer of its length, and the buffer is moved out as a `str`. -/
def byValueStr (lit : List β) : Exec (Slot β) (Val (sliceTy 1 1) β) := do
  Exec.set ⟨some lit⟩
  slotTake (sliceTy 1 1) (lit.length : Nat)

end Source

namespace Api
variable {β V : Type} {U : UTy}

/-- A macro that evaluates to a value, on a fresh slot. -/
def evalSlot {α : Type} (m : Exec (Source.Slot β) α) : Exec V α := fun v =>
  match m ⟨none⟩ with
  | .ok a _ => .ok a v
  | .panic _ => .panic v
  | .abort => .abort
  | .ub => .ub

/-- `push_unsize` (src/lib.rs:964–966) -/
def pushUnsize {sz al : Nat} (c : Cfg) (M : Machine V U β) (env : Env (Val U β)) (md : U.Meta) (x : Val (sizedTy sz al) β) : Exec V Unit := do
  let y ← evalSlot (Source.unsizeMacro c U md x)
  M.giving env y (Api.push c M.P env y)

/-- `insert_unsize` (src/lib.rs:811–816) -/
def insertUnsize {sz al : Nat} (c : Cfg) (M : Machine V U β) (env : Env (Val U β)) (index : Nat) (md : U.Meta) (x : Val (sizedTy sz al) β) :
    Exec V Unit := do
  let y ← evalSlot (Source.unsizeMacro c U md x)
  M.giving env y (Api.insert c M.P env index y)

end Api

/-- An argument of `unsize_vec!`: an expression of a sized type, of size `sz` and alignment `al`, that coerces to `U` with metadata
`md`. Evaluating it may have effects on the state `σ`, and may panic. -/
structure Coercible (σ : Type) (U : UTy) (β : Type) where
  sz : Nat
  al : Nat
  md : U.Meta
  eval : Exec σ (Val (sizedTy sz al) β)

/-- The repetition in `unsize_vec!` (src/lib.rs:1626): each argument is evaluated and given to `push_unsize`. -/
def pushCoercibles {σ V β : Type} {U : UTy} (c : Cfg) (M : Machine V U β) : List (Env (Val U β) × Coercible σ U β) → Exec (σ × V) Unit
  | [] => pure ()
  | (env, a) :: rest => do
    let x ← liftL a.eval
    liftR (Api.pushUnsize c M env a.md x)
    pushCoercibles c M rest

/-- `unsize_vec!` (src/lib.rs:1618–1630). If something unwinds, the vector is dropped (with environment `envD`). -/
def unsizeVec {σ V β : Type} {U : UTy} (c : Cfg) (M : Machine V U β) (envD : Env (Val U β))
    (args : List (Env (Val U β) × Coercible σ U β)) (s : σ) : Res (σ × V) Unit :=
  Exec.onUnwind (pushCoercibles c M args) (liftR (M.drop envD)) (s, Api.new M.P)
end Verif
