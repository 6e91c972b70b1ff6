import Verif.Spec.Collect
import Verif.Model.Owned

/-!
# What the owned containers of the crate `emplacable` hold
-/

namespace Verif
variable {σ : Type} {T : UTy} {β : Type}

namespace SVec
variable {sz al : Nat}

/-- Appending to a `Vec` with the contents `ys`, in which room for `hint` elements has been reserved, unwinds with the contents `zs`,
after the values `ds` have been dropped, in state `s'`. The items before item number `k` have been appended. Then that item panicked
(before or after it wrote its value, which is then lost); or the reserved room was used up and a vector of one more element would be too
large, so that the value of the item was dropped. -/
def GotStops (c : Cfg) (hint : Nat) (items : List (Env (Val (sizedTy sz al) β) × Emplacable σ (sizedTy sz al) β)) (s : σ)
    (ys zs ds : List (Val (sizedTy sz al) β)) (s' : σ) : Prop :=
  ∃ k env e xs s1, items[k]? = some (env, e) ∧ Yielded (ofEmplacables (items.take k)) s xs s1 ∧ zs = ys ++ xs ∧
    ((ds = [] ∧ e.Breaks s1 s') ∨
      ∃ x, ds = [x] ∧ e.Runs s1 x (.ok () s') ∧ hint ≤ k ∧ Fails c sz env (ys.length + k) 1 .capacityOverflow)

/-- The same for the end of the process: item number `k` ends it; or the reserved room was used up, and the allocator refused the memory for
one more element, or the destructor of the value panicked while it was dropped as above. -/
def GotEnds (c : Cfg) (hint : Nat) (items : List (Env (Val (sizedTy sz al) β) × Emplacable σ (sizedTy sz al) β)) (s : σ)
    (ys : List (Val (sizedTy sz al) β)) : Prop :=
  ∃ k env e xs s1, items[k]? = some (env, e) ∧ Yielded (ofEmplacables (items.take k)) s xs s1 ∧
    (e.Aborts s1 ∨ ∃ x s', e.Runs s1 x (.ok () s') ∧ hint ≤ k ∧ (Fails c sz env (ys.length + k) 1 .allocError ∨
      (Fails c sz env (ys.length + k) 1 .capacityOverflow ∧ env.dropPanics x = true)))

/-- `extend` unwinds before it drops the iterator: a vector with `hint` more elements would be too large, or as above. -/
def VecStops (c : Cfg) (env : Env (Val (sizedTy sz al) β)) (hint : Nat)
    (items : List (Env (Val (sizedTy sz al) β) × Emplacable σ (sizedTy sz al) β)) (s : σ)
    (ys zs ds : List (Val (sizedTy sz al) β)) (s' : σ) : Prop :=
  (Fails c sz env ys.length hint .capacityOverflow ∧ zs = ys ∧ ds = [] ∧ s' = s) ∨ GotStops c hint items s ys zs ds s'

/-- `extend` ends the process before it drops the iterator: the allocator refuses the memory for `hint` more elements, or as above. -/
def VecEnds (c : Cfg) (env : Env (Val (sizedTy sz al) β)) (hint : Nat)
    (items : List (Env (Val (sizedTy sz al) β) × Emplacable σ (sizedTy sz al) β)) (s : σ)
    (ys : List (Val (sizedTy sz al) β)) : Prop :=
  Fails c sz env ys.length hint .allocError ∨ GotEnds c hint items s ys

/-- The result of `extend` on the `Vec` `v` with contents `ys`. It returns: the items have yielded some values, one after the other, and
these have been appended; nothing has been dropped. It unwinds: the vector holds the old contents and what was yielded before it was
stopped, the iterator has been dropped, and no value that is in the vector. -/
def VecExtended (c : Cfg) (env : Env (Val (sizedTy sz al) β)) (hint : Nat)
    (items : List (Env (Val (sizedTy sz al) β) × Emplacable σ (sizedTy sz al) β)) (dropIter : Exec σ Unit) (s : σ) (v : SVec sz al β)
    (ys : List (Val (sizedTy sz al) β)) (r : Res (σ × SVec sz al β) Unit) : Prop :=
  r.Meets
    (fun _ st => ∃ xs s1, Yielded (ofEmplacables items) s xs s1 ∧ dropIter s1 = .ok () st.1 ∧ st.2.Holds c (ys ++ xs) ∧
      st.2.drops = v.drops)
    (fun st => (∃ zs ds s1, VecStops c env hint items s ys zs ds s1 ∧ dropIter s1 = .ok () st.1 ∧ st.2.Holds c zs ∧
        st.2.drops = v.drops ++ ds) ∨
      ∃ xs s1, Yielded (ofEmplacables items) s xs s1 ∧ dropIter s1 = .panic st.1 ∧ st.2.Holds c (ys ++ xs) ∧ st.2.drops = v.drops)
    (VecEnds c env hint items s ys ∨
      (∃ zs ds s1, VecStops c env hint items s ys zs ds s1 ∧ (dropIter s1 = .abort ∨ ∃ s2, dropIter s1 = .panic s2)) ∨
      ∃ xs s1, Yielded (ofEmplacables items) s xs s1 ∧ dropIter s1 = .abort)

/-- The result of `from_iter`. It returns: the vector holds exactly what was yielded. It unwinds: everything that was yielded has been
dropped, each value once. -/
def VecCollected (c : Cfg) (env envD : Env (Val (sizedTy sz al) β)) (hint : Nat)
    (items : List (Env (Val (sizedTy sz al) β) × Emplacable σ (sizedTy sz al) β)) (dropIter : Exec σ Unit) (s : σ)
    (r : Res (σ × SVec sz al β) Unit) : Prop :=
  r.Meets
    (fun _ st => ∃ xs s1, Yielded (ofEmplacables items) s xs s1 ∧ dropIter s1 = .ok () st.1 ∧ st.2.Holds c xs ∧ st.2.drops = [])
    (fun st => (∃ zs ds s1, VecStops c env hint items s [] zs ds s1 ∧ dropIter s1 = .ok () st.1 ∧ st.2.drops = ds ++ zs) ∨
      ∃ xs s1, Yielded (ofEmplacables items) s xs s1 ∧ dropIter s1 = .panic st.1 ∧ st.2.drops = xs)
    (VecEnds c env hint items s [] ∨
      (∃ zs ds s1, VecStops c env hint items s [] zs ds s1 ∧
        (dropIter s1 = .abort ∨ (∃ s2, dropIter s1 = .panic s2) ∨ ∃ x ∈ zs, envD.dropPanics x = true)) ∨
      ∃ xs s1, Yielded (ofEmplacables items) s xs s1 ∧
        (dropIter s1 = .abort ∨ ((∃ s2, dropIter s1 = .panic s2) ∧ ∃ x ∈ xs, envD.dropPanics x = true)))

end SVec

/-- The `Rc` holds `x`: the allocation at `p` consists of the two counters, which are aligned, and of the value behind them, at the
first offset possible for its alignment, and is no larger than the alignments require. -/
structure RcMade (c : Cfg) (t : Sink.RcSt T β) (x : Val T β) (p off : Nat) : Prop where
  made : t.made = some (p, off, x.md)
  wf : x.WF c
  pos : 0 < p
  counters : c.usizeAlign ∣ p
  offset : LeastMultiple x.align (2 * (c.bits / 8)) off
  aligned : x.align ∣ p + off
  block : ∃ b, t.heap.block = some b ∧ b.addr = p ∧ LeastMultiple (max c.usizeAlign x.align) (off + x.size) b.reqSize ∧
    b.align = max c.usizeAlign x.align ∧ b.reqSize ≤ b.granted ∧ b.reqSize ≤ c.isizeMax
  bytes : BytesAre t.heap.mem off x.bytes

/-- Two counters and the value `x` behind them, at its alignment, exceed the largest possible object. -/
def RcTooLarge (c : Cfg) (x : Val T β) : Prop :=
  ∃ off, LeastMultiple x.align (2 * (c.bits / 8)) off ∧ c.isizeMax < off + x.size + (max c.usizeAlign x.align - 1)

/-- The allocator refuses the memory for two counters and a value of the given size and alignment: the smallest multiple of both
alignments that has room for them. -/
def RcRefused (c : Cfg) {X : Type} (env : Env X) (size align : Nat) : Prop :=
  ∃ off n, LeastMultiple align (2 * (c.bits / 8)) off ∧ LeastMultiple (max c.usizeAlign align) (off + size) n ∧
    env.alloc ⟨n, max c.usizeAlign align⟩ = none

/-- The argument of `unsize_vec!` evaluates to possible values only, and the metadata describes their type. -/
structure Coercible.Sound (c : Cfg) {U : UTy} (a : Coercible σ U β) : Prop where
  size : U.sizeOf a.md = a.sz
  align : U.alignOf a.md = a.al
  noUb : ∀ s, a.eval s ≠ .ub
  wf : ∀ {s x s'}, a.eval s = .ok x s' → x.WF c

/-- What the argument stands for: the value it evaluates to, with the metadata of the coercion and the same bytes. -/
def Coercible.item {U : UTy} (a : Coercible σ U β) : Item σ U β :=
  .value (a.eval >>= fun x => pure ⟨a.md, x.bytes⟩)

/-- The arguments as items of `unsized_vec!`. -/
def ofCoercibles {U : UTy} (args : List (Env (Val U β) × Coercible σ U β)) : List (Env (Val U β) × Item σ U β) :=
  args.map fun p => (p.1, p.2.item)

end Verif
