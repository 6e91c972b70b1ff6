import Verif.Spec.Source
import Verif.Spec.Sized
import Verif.Spec.Drop
import Verif.Model.Collect

/-!
# What the items of `extend`, `collect` and `unsized_vec!` stand for
-/

namespace Verif
variable {σ V : Type} {T : UTy} {β : Type}

namespace Item

/-- The item, evaluated in state `s`, yields the value `x` and leaves the state `s'`. -/
def Yields : Item σ T β → σ → Val T β → σ → Prop
  | value m, s, x, s' => m s = .ok x s'
  | emplacable e, s, x, s' => e.Runs s x (.ok () s')

/-- The item panics in state `s` before there is a value. -/
def Unwinds : Item σ T β → σ → σ → Prop
  | value m, s, s' => m s = .panic s'
  | emplacable e, s, s' => e.Unwinds s s'

/-- The item is an emplacable that panics after it has delivered the value `x`. -/
def UnwindsAfter : Item σ T β → σ → Val T β → σ → Prop
  | value _, _, _, _ => False
  | emplacable e, s, x, s' => e.Runs s x (.panic s')

/-- The item ends the process. -/
def Aborts : Item σ T β → σ → Prop
  | value m, s => m s = .abort
  | emplacable e, s => e.Aborts s

/-- The item asks for a place of size `n` with alignment `al`, and is then in state `s'`. -/
def Asks : Item σ T β → σ → Nat → Nat → σ → Prop
  | value m, s, n, al, s' => ∃ x, m s = .ok x s' ∧ x.size = n ∧ x.align = al
  | emplacable e, s, n, al, s' => ∃ md, e.Announces s md s' ∧ T.sizeOf md = n ∧ T.alignOf md = al

/-- What a function that was given the item drops if it does not accept it: a value. (What becomes of the value of an emplacable is up to
the emplacable.) -/
def Drops : Item σ T β → σ → List (Val T β) → Prop
  | value m, s, d => ∃ x s', m s = .ok x s' ∧ d = [x]
  | emplacable _, _, d => d = []

/-- The item is well-behaved: evaluating a value is not UB and gives a possible value; an emplacable keeps its contract. -/
def Sound (c : Cfg) : Item σ T β → σ → Prop
  | value m, s => m s ≠ .ub ∧ ∀ x s', m s = .ok x s' → x.WF c
  | emplacable e, s => e.Sound c s

end Item

/-- All items are well-behaved, each one in the state that the items before it leave. -/
def AllSound (c : Cfg) : List (Env (Val T β) × Item σ T β) → σ → Prop
  | [], _ => True
  | (_, it) :: rest, s => it.Sound c s ∧ ∀ x s', it.Yields s x s' → AllSound c rest s'

/-- All items ask only for places with property `R`. -/
def AllAsk (R : Nat → Nat → Prop) : List (Env (Val T β) × Item σ T β) → σ → Prop
  | [], _ => True
  | (_, it) :: rest, s => (∀ n al s', it.Asks s n al s' → R n al) ∧ ∀ x s', it.Yields s x s' → AllAsk R rest s'

/-- The items yield the values `xs` one after the other; the state goes from `s` to `s'`. -/
inductive Yielded : List (Env (Val T β) × Item σ T β) → σ → List (Val T β) → σ → Prop
  | nil (s : σ) : Yielded [] s [] s
  | cons {env : Env (Val T β)} {it : Item σ T β} {rest : List (Env (Val T β) × Item σ T β)} {s s1 s' : σ} {x : Val T β}
      {xs : List (Val T β)} : it.Yields s x s1 → Yielded rest s1 xs s' → Yielded ((env, it) :: rest) s (x :: xs) s'

/-- The environments that the items meet all satisfy `R`. -/
def AllEnv (R : Env (Val T β) → Prop) (items : List (Env (Val T β) × Item σ T β)) : Prop := ∀ p ∈ items, R p.1

/-- Appending item after item to the contents `ys` of the vector `v` unwinds with the contents `zs` and the state `s'`: the items
before item number `k` have been appended, and then that item panicked, or there was no room for it; then it was dropped. `d` are
the values that have been dropped so far: none, or this one. `NoRoom env v zs n al`
says that the vector `v` with the contents `zs` can have no room for `n` more bytes with alignment `al`. -/
def StoppedAt (c : Cfg) (M : Machine V T β) (NoRoom : Env (Val T β) → V → List (Val T β) → Nat → Nat → Prop)
    (items : List (Env (Val T β) × Item σ T β)) (s : σ) (v : V) (ys zs d : List (Val T β)) (s' : σ) : Prop :=
  ∃ k env it xs s1 v1, items[k]? = some (env, it) ∧ Yielded (items.take k) s xs s1 ∧
    pushItems c M (items.take k) (s, v) = .ok () (s1, v1) ∧
    ((zs = ys ++ xs ∧ ((it.Unwinds s1 s' ∧ d = []) ∨
        ∃ n al, it.Asks s1 n al s' ∧ NoRoom env v1 (ys ++ xs) n al ∧ it.Drops s1 d)) ∨
      ∃ x, zs = ys ++ xs ++ [x] ∧ it.UnwindsAfter s1 x s' ∧ d = [])

/-- Appending item after item ends the process: one of the items did, or there was no room for it (the
allocator refused the memory, or the destructor of the value that was not accepted panicked, too). -/
def EndedAt (c : Cfg) (M : Machine V T β) (NoRoom : Env (Val T β) → V → List (Val T β) → Nat → Nat → Prop)
    (items : List (Env (Val T β) × Item σ T β)) (s : σ) (v : V) (ys : List (Val T β)) : Prop :=
  ∃ k env it xs s1 v1, items[k]? = some (env, it) ∧ Yielded (items.take k) s xs s1 ∧
    pushItems c M (items.take k) (s, v) = .ok () (s1, v1) ∧
    (it.Aborts s1 ∨ ∃ n al s', it.Asks s1 n al s' ∧ NoRoom env v1 (ys ++ xs) n al)

/-- There is room for every item in the vectors that the loop goes through. -/
def AlwaysRoom (c : Cfg) (M : Machine V T β) (NoRoom : Env (Val T β) → V → List (Val T β) → Nat → Nat → Prop)
    (items : List (Env (Val T β) × Item σ T β)) (s : σ) (v : V) (ys : List (Val T β)) : Prop :=
  ∀ k env it xs s1 v1, items[k]? = some (env, it) → Yielded (items.take k) s xs s1 →
    pushItems c M (items.take k) (s, v) = .ok () (s1, v1) → ∀ n al s', it.Asks s1 n al s' → ¬ NoRoom env v1 (ys ++ xs) n al

/-- `extend` unwinds: the reservation that it begins with failed, or it stopped at an item. The contents are then `zs` and the
state is `s'`. -/
def ExtendStops (c : Cfg) (M : Machine V T β) (NoMore : Env (Val T β) → V → List (Val T β) → Nat → Prop)
    (NoRoom : Env (Val T β) → V → List (Val T β) → Nat → Nat → Prop) (env : Env (Val T β)) (hint : Nat)
    (items : List (Env (Val T β) × Item σ T β)) (s : σ) (v : V) (ys zs : List (Val T β)) (s' : σ) : Prop :=
  (NoMore env v ys hint ∧ zs = ys ∧ s' = s) ∨
    ∃ v1, Api.reserveExact M.P env hint v = .ok () v1 ∧ StoppedAt c M NoRoom items s v1 ys zs [] s'

/-- `extend` ends the process before it unwinds. -/
def ExtendEnds (c : Cfg) (M : Machine V T β) (NoMore : Env (Val T β) → V → List (Val T β) → Nat → Prop)
    (NoRoom : Env (Val T β) → V → List (Val T β) → Nat → Nat → Prop) (env : Env (Val T β)) (hint : Nat)
    (items : List (Env (Val T β) × Item σ T β)) (s : σ) (v : V) (ys : List (Val T β)) : Prop :=
  NoMore env v ys hint ∨ ∃ v1, Api.reserveExact M.P env hint v = .ok () v1 ∧ EndedAt c M NoRoom items s v1 ys

/-- If `R` does not hold, then no item is a plain value. -/
def PlainIf (R : Prop) (items : List (Env (Val T β) × Item σ T β)) : Prop := ∀ p ∈ items, ∀ m, p.2 = .value m → R

/-- The items of an iterator that yields emplacables. -/
def ofEmplacables (items : List (Env (Val T β) × Emplacable σ T β)) : List (Env (Val T β) × Item σ T β) :=
  items.map fun p => (p.1, .emplacable p.2)

/-- No room in a vector of dynamically aligned elements for one more element of size `n` and alignment `al`: for some of its
bytes the memory is refused, or they exceed the address space. -/
def UVec.NoRoom (c : Cfg) (env : Env (Val T β)) (v : UVec T β) (xs : List (Val T β)) (n al : Nat) : Prop :=
  ∃ b, b ≤ n ∧ (env.Refuses (xs.length + 1) (v.request xs b al) ∨ v.TooLarge c xs 1 b al)

/-- No room for `n` more elements of unknown size. -/
def UVec.NoMore (c : Cfg) (env : Env (Val T β)) (v : UVec T β) (xs : List (Val T β)) (n : Nat) : Prop :=
  env.Refuses (xs.length + n) (v.request xs 0 1) ∨ v.TooLarge c xs n 0 1

/-- The same for statically aligned elements. -/
def AVec.NoMore {A : ATy} (c : Cfg) (env : Env (Val A.ty β)) (v : AVec A β) (xs : List (Val A.ty β)) (n : Nat) : Prop :=
  env.Refuses (xs.length + n) (v.request 0) ∨ v.TooLarge c xs n 0

/-- The same for sized elements. -/
def SVec.NoMore {sz al : Nat} (c : Cfg) (env : Env (Val (sizedTy sz al) β)) (_v : SVec sz al β)
    (xs : List (Val (sizedTy sz al) β)) (n : Nat) : Prop :=
  ∃ e, SVec.Fails c sz env xs.length n e

/-- The same for statically aligned elements. -/
def AVec.NoRoom {A : ATy} (c : Cfg) (env : Env (Val A.ty β)) (v : AVec A β) (xs : List (Val A.ty β)) (n _al : Nat) : Prop :=
  ∃ b, b ≤ n ∧ (env.Refuses (xs.length + 1) (v.request b) ∨ v.TooLarge c xs 1 b)

/-- How to read a vector: its contents, the values whose destructor it has run, and when there is no room. -/
structure Reading (V : Type) (T : UTy) (β : Type) where
  Holds : V → List (Val T β) → Prop
  drops : V → List (Val T β)
  NoMore : Env (Val T β) → V → List (Val T β) → Nat → Prop
  NoRoom : Env (Val T β) → V → List (Val T β) → Nat → Nat → Prop
  /-- all memory has been given back -/
  Freed : V → Prop

/-- (`G`: whether the byte capacity is known to be a multiple of the alignment.) -/
def UVec.reading (G : Prop) (c : Cfg) : Reading (UVec T β) T β :=
  ⟨UVec.Represents G c, UVec.drops, UVec.NoMore c, UVec.NoRoom c, fun v => v.heap.block = none ∧ v.heap.leaks = 0⟩

def AVec.reading {A : ATy} (c : Cfg) : Reading (AVec A β) A.ty β :=
  ⟨AVec.Holds c, AVec.drops, AVec.NoMore c, AVec.NoRoom c, fun v => v.heap.block = none ∧ v.heap.leaks = 0⟩

/-- (The memory of a `Vec` is not modelled at the level of blocks.) -/
def SVec.reading {sz al : Nat} (c : Cfg) : Reading (SVec sz al β) (sizedTy sz al) β :=
  ⟨SVec.Holds c, SVec.drops, SVec.NoMore c, fun env v _ _ _ => v.NoSlot c env, fun v => v.slots = 0⟩

namespace Reading
variable (R : Reading V T β)

/-- The result of `extend` on the vector `v` with contents `ys`. It returns: the items have yielded some values, one after the
other, and these have been appended. It unwinds: the vector holds the old contents and what was yielded before `extend` was
stopped; the iterator has been dropped. It ends the process: for the same reasons, or because dropping the iterator failed. No
destructor of an element is run, and there is no undefined behaviour. -/
def Extends (c : Cfg) (M : Machine V T β) (env : Env (Val T β)) (hint : Nat) (items : List (Env (Val T β) × Emplacable σ T β))
    (dropIter : Exec σ Unit) (s : σ) (v : V) (ys : List (Val T β)) (r : Res (σ × V) Unit) : Prop :=
  r.Meets
    (fun _ st => ∃ xs s1, Yielded (ofEmplacables items) s xs s1 ∧ dropIter s1 = .ok () st.1 ∧ R.Holds st.2 (ys ++ xs) ∧
      R.drops st.2 = R.drops v)
    (fun st => R.drops st.2 = R.drops v ∧
      ((∃ zs s1, ExtendStops c M R.NoMore R.NoRoom env hint (ofEmplacables items) s v ys zs s1 ∧
        dropIter s1 = .ok () st.1 ∧ R.Holds st.2 zs) ∨
      ∃ xs s1, Yielded (ofEmplacables items) s xs s1 ∧ dropIter s1 = .panic st.1 ∧ R.Holds st.2 (ys ++ xs)))
    (ExtendEnds c M R.NoMore R.NoRoom env hint (ofEmplacables items) s v ys ∨
      (∃ zs s1, ExtendStops c M R.NoMore R.NoRoom env hint (ofEmplacables items) s v ys zs s1 ∧
        (dropIter s1 = .abort ∨ ∃ s2, dropIter s1 = .panic s2)) ∨
      ∃ xs s1, Yielded (ofEmplacables items) s xs s1 ∧ dropIter s1 = .abort)

/-- The result of `from_iter`; `v` is the empty vector that it starts with. It returns: the vector holds exactly what was yielded.
It unwinds: what was yielded before has been dropped, each value once, and the memory has been given back. It ends the process:
for the reasons above, or because the destructor of an element panics while something else unwinds. -/
def Collects (c : Cfg) (M : Machine V T β) (env envD : Env (Val T β)) (hint : Nat) (items : List (Env (Val T β) × Emplacable σ T β))
    (dropIter : Exec σ Unit) (s : σ) (v : V) (r : Res (σ × V) Unit) : Prop :=
  r.Meets
    (fun _ st => ∃ xs s1, Yielded (ofEmplacables items) s xs s1 ∧ dropIter s1 = .ok () st.1 ∧ R.Holds st.2 xs ∧ R.drops st.2 = [])
    (fun st => R.Freed st.2 ∧
      ((∃ zs s1, ExtendStops c M R.NoMore R.NoRoom env hint (ofEmplacables items) s v [] zs s1 ∧
        dropIter s1 = .ok () st.1 ∧ R.drops st.2 = zs) ∨
      ∃ xs s1, Yielded (ofEmplacables items) s xs s1 ∧ dropIter s1 = .panic st.1 ∧ R.drops st.2 = xs))
    (ExtendEnds c M R.NoMore R.NoRoom env hint (ofEmplacables items) s v [] ∨
      (∃ zs s1, ExtendStops c M R.NoMore R.NoRoom env hint (ofEmplacables items) s v [] zs s1 ∧
        (dropIter s1 = .abort ∨ (∃ s2, dropIter s1 = .panic s2) ∨ ∃ x ∈ zs, envD.dropPanics x = true)) ∨
      ∃ xs s1, Yielded (ofEmplacables items) s xs s1 ∧
        (dropIter s1 = .abort ∨ ((∃ s2, dropIter s1 = .panic s2) ∧ ∃ x ∈ xs, envD.dropPanics x = true)))

/-- The result of `unsized_vec!` and `unsize_vec!`. It returns: the vector holds exactly what was yielded. It unwinds: what was yielded
before has been dropped, each value once, after the value that was not accepted, if any; the memory has been given back. -/
def Lists (c : Cfg) (M : Machine V T β) (envD : Env (Val T β)) (items : List (Env (Val T β) × Item σ T β))
    (s : σ) (v : V) (r : Res (σ × V) Unit) : Prop :=
  r.Meets
    (fun _ st => ∃ xs, Yielded items s xs st.1 ∧ R.Holds st.2 xs ∧ R.drops st.2 = [])
    (fun st => R.Freed st.2 ∧ ∃ zs d, StoppedAt c M R.NoRoom items s v [] zs d st.1 ∧ R.drops st.2 = d ++ zs)
    (EndedAt c M R.NoRoom items s v [] ∨ ∃ zs d s1, StoppedAt c M R.NoRoom items s v [] zs d s1 ∧ ∃ x ∈ zs, envD.dropPanics x = true)

end Reading
end Verif
