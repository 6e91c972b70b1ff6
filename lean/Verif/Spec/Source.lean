import Verif.Spec.Emplace
import Verif.Model.Sources

/-!
# What an emplacable stands for

The statements about the crate `emplacable` are about values: a value is its metadata and its bytes; `given env x`
(Spec/Emplace) is the emplacable that owns just `x`.
-/

namespace Verif
variable {σ τ : Type} {T : UTy} {β : Type}

/-- The slice with the elements `xs`, all of the same size: its metadata is their number, its bytes are theirs one after the
other. -/
def sliceOf {sz al : Nat} (xs : List (Val (sizedTy sz al) β)) : Val (sliceTy sz al) β :=
  ⟨(xs.length : Nat), (xs.map Val.bytes).flatten⟩

/-- The array with the elements `xs`. -/
def arrayOf {sz al : Nat} (xs : List (Val (sizedTy sz al) β)) (n : Nat) : Val (Source.arrayTy sz al n) β :=
  ⟨(), (xs.map Val.bytes).flatten⟩

/-- All values have as many bytes as their type. -/
def AllSized {sz al : Nat} (xs : List (Val (sizedTy sz al) β)) : Prop := ∀ x ∈ xs, x.bytes.length = sz

/-- A type of size `sz` and alignment `al` is possible, and so is an array of `n` of them. -/
structure ElemOk (c : Cfg) (sz al n : Nat) : Prop where
  align_pow : ∃ k, k < c.bits ∧ al = 2 ^ k
  align_dvd : al ∣ sz
  size_le : n * sz + (al - 1) ≤ c.isizeMax

/-- `x` is in the box at `p`: it lies at the start of a live allocation with its layout, or it has no bytes and there is no
allocation. -/
structure BoxHolds (c : Cfg) (h : Heap β) (p : Nat) (x : Val T β) : Prop where
  wf : x.WF c
  block : BlockOk h p x.size x.align
  bytes : BytesAre h.mem 0 x.bytes

/-- The elements `xs` are in the `Vec` at `p` with capacity `cap`. -/
structure VecHolds {sz al : Nat} (c : Cfg) (h : Heap β) (p cap : Nat) (xs : List (Val (sizedTy sz al) β)) : Prop where
  ok : ElemOk c sz al cap
  sized : AllSized xs
  len : xs.length ≤ cap
  capOk : cap * sz ≤ c.usizeMax
  block : BlockOk h p (cap * sz) al
  bytes : BytesAre h.mem 0 (xs.map Val.bytes).flatten

/-- The emplacables deliver the values `xs` one after the other, the first one starting in state `s`; the last one ends in `s'`. -/
inductive Delivered {sz al : Nat} : List (Emplacable σ (sizedTy sz al) β) → σ → List (Val (sizedTy sz al) β) → σ → Prop
  | nil (s : σ) : Delivered [] s [] s
  | cons {e : Emplacable σ (sizedTy sz al) β} {es : List (Emplacable σ (sizedTy sz al) β)} {s s1 s' : σ}
      {x : Val (sizedTy sz al) β} {xs : List (Val (sizedTy sz al) β)} :
      e.Runs s x (.ok () s1) → Delivered es s1 xs s' → Delivered (e :: es) s (x :: xs) s'

/-- The emplacables are dropped one after the other, without a panic. -/
inductive Dropped : List (Emplacable σ T β) → σ → σ → Prop
  | nil (s : σ) : Dropped [] s s
  | cons {e : Emplacable σ T β} {es : List (Emplacable σ T β)} {s s1 s' : σ} :
      run e Sink.dropping (s, ()) = .ok () (s1, ()) → Dropped es s1 s' → Dropped (e :: es) s s'

/-- `clone` makes `ys` out of `xs`, one after the other. -/
inductive Cloned (clone : List β → Exec σ (List β)) : List (List β) → σ → List (List β) → σ → Prop
  | nil (s : σ) : Cloned clone [] s [] s
  | cons {x y : List β} {xs ys : List (List β)} {s s1 s' : σ} :
      clone x s = .ok y s1 → Cloned clone xs s1 ys s' → Cloned clone (x :: xs) s (y :: ys) s'

/-- The emplacable announces the layout that belongs to `x`, delivers exactly `x`, and the source side ends in state `s'`. -/
def Emplacable.Delivers (e : Emplacable σ T β) (s : σ) (x : Val T β) (s' : σ) : Prop :=
  e.Runs s x (.ok () s') ∧ ∀ st s1, e s = .ok st s1 → st.layout = ⟨x.size, x.align⟩

/-- The emplacable is safe, whatever state it is used in: it fulfils its contract when its value is taken, and dropping it is not
undefined behaviour. It may panic or end the process at any point. -/
def Emplacable.Safe (c : Cfg) (e : Emplacable σ T β) : Prop :=
  (∀ s, e.Sound c s) ∧ ∀ s, run e Sink.dropping (s, ()) ≠ .ub

/-- The code of `e` unwinds with state `s'`, before or after it has delivered its value. -/
def Emplacable.Breaks (e : Emplacable σ T β) (s s' : σ) : Prop :=
  e.Unwinds s s' ∨ ∃ x, e.Runs s x (.panic s')

/-- The emplacer takes the value: it never drops or forgets it. -/
def Emplacer.Takes (m : Emplacer τ T β) : Prop :=
  ∀ l md t p t1, m l md t = .ok p t1 → ∃ store commit rollback, p = .place store commit rollback

/-- The box that `box_new_with` made holds `x`: an allocation of exactly its layout, or none if it has no bytes. -/
structure BoxMade (c : Cfg) (t : Sink.BoxSt T β) (x : Val T β) (p : Nat) : Prop where
  made : t.made = some (p, x.md)
  wf : x.WF c
  pos : 0 < p
  align : x.align ∣ p
  none : x.size = 0 → t.heap.block = none
  some : 0 < x.size → ∃ b, t.heap.block = some b ∧ b.addr = p ∧ b.reqSize = x.size ∧ b.align = x.align ∧ x.size ≤ b.granted
  bytes : BytesAre t.heap.mem 0 x.bytes

end Verif
