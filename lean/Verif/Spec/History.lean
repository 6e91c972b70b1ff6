import Verif.Model.Client
import Verif.Spec.Guards
import Verif.Spec.Sized
import Verif.Spec.Emplace

/-!
# What a program should observe

A vector is a list of values. `Op.onList` says what each call does to the list and what the program observes. The second
list is the log of destructor runs: of elements of the vector, and of values that were given to one of its functions and not
accepted.
-/

namespace Verif
section
variable {V : Type} {T : UTy} {β : Type}

/-- The state of the specification: the contents, and the values dropped so far. -/
structure Ideal (T : UTy) (β : Type) where
  contents : List (Val T β)
  dropped : List (Val T β)

/-- The value `x` has been taken out and is used up by `d`: what is observed, and the new log of destructor runs. -/
def Dst.onList (panics : Val T β → Bool) (x : Val T β) (ds : List (Val T β)) : Dst → Out T β × List (Val T β)
  | .take => (.value x, ds)
  | .drop => (if panics x then .panicked else .done, ds ++ [x])
  | .forget => (.done, ds)
  | .panics => (.panicked, ds)

/-- The elements with the given indices are overwritten, in order. -/
def overwrite : List (Option Nat) → List (List β) → List (Val T β) → List (Val T β)
  | some i :: is, bs :: bss, xs => overwrite is bss (xs.modify i fun x => ⟨x.md, bs⟩)
  | none :: is, _ :: bss, xs => overwrite is bss xs
  | _, _, xs => xs

/-- The indices that the calls on a new iterator return. -/
def visited (ks : List ICall) (xs : List (Val T β)) : List (Option Nat) := (ICall.specRun ks (List.range xs.length)).1

/-- What a call does when there is enough memory. -/
def Op.onList (panics : Val T β → Bool) : Op T β → Ideal T β → Out T β × Ideal T β
  | push x, s => (.done, ⟨s.contents ++ [x], s.dropped⟩)
  | pushWith (.value x), s => (.done, ⟨s.contents ++ [x], s.dropped⟩)
  | pushWith _, s => (.panicked, s)
  | insert i x, s =>
    if i ≤ s.contents.length then (.done, ⟨s.contents.take i ++ x :: s.contents.drop i, s.dropped⟩)
    else (.panicked, ⟨s.contents, s.dropped ++ [x]⟩)
  | insertWith i (.value x), s =>
    if i ≤ s.contents.length then (.done, ⟨s.contents.take i ++ x :: s.contents.drop i, s.dropped⟩)
    else (.panicked, ⟨s.contents, s.dropped ++ [x]⟩)
  | insertWith _ _, s => (.panicked, s)
  | pop d, s =>
    match s.contents.getLast? with
    | none => (.nothing, s)
    | some x => ((d.onList panics x s.dropped).1, ⟨s.contents.dropLast, (d.onList panics x s.dropped).2⟩)
  | remove i d, s =>
    match s.contents[i]? with
    | none => (.panicked, s)
    | some x => ((d.onList panics x s.dropped).1,
        ⟨if d = .panics then s.contents else s.contents.eraseIdx i, (d.onList panics x s.dropped).2⟩)
  | reserve _, s => (.done, s)
  | tryReserve _, s => (.done, s)
  | shrink _, s => (.done, s)
  | get i, s =>
    match s.contents[i]? with
    | some x => (.value x, s)
    | none => (.nothing, s)
  | index i, s =>
    match s.contents[i]? with
    | some x => (.value x, s)
    | none => (.panicked, s)
  | set i bs, s =>
    match s.contents[i]? with
    | some x => (.done, ⟨s.contents.set i ⟨x.md, bs⟩, s.dropped⟩)
    | none => (.nothing, s)
  | len, s => (.number s.contents.length, s)
  | iter ks, s => (.values ((visited ks s.contents).map (·.bind (s.contents[·]?))), s)
  | iterMut ks bss, s => (.done, ⟨overwrite (visited ks s.contents) bss s.contents, s.dropped⟩)

/-- The calls that may need memory. -/
def Op.Allocates : Op T β → Prop
  | push _ | pushWith _ | insert _ _ | insertWith _ _ | reserve _ | tryReserve _ => True
  | _ => False

/-- The observation that a call could not get memory. -/
def Op.Failed : Op T β → Out T β → Prop
  | tryReserve _, o => o = .panicked ∨ ∃ e, o = .failed e
  | _, o => o = .panicked

/-- The state after a call that could not get memory: nothing is changed, and the value given to `push` or `insert` has been
dropped. (A value that is delivered by an emplacable is not: it leaks, unless the index is wrong.) -/
def Op.refused : Op T β → Ideal T β → Ideal T β
  | push x, s | insert _ x, s => ⟨s.contents, s.dropped ++ [x]⟩
  | insertWith i (.value x), s => if i ≤ s.contents.length then s else ⟨s.contents, s.dropped ++ [x]⟩
  | _, s => s

/-- The call is refused because of its index, and the destructor of its argument panics as well. This ends the process. -/
def Op.Dies (panics : Val T β → Bool) (xs : List (Val T β)) : Op T β → Prop
  | insert i x | insertWith i (.value x) => xs.length < i ∧ panics x = true
  | insertWith i .panics => xs.length < i
  | _ => False

/-- What may be observed: what the list does; or, if memory is short (`short`), failure with nothing changed. -/
def Op.Allows (op : Op T β) (short : Prop) (panics : Val T β → Bool) (s : Ideal T β) (o : Out T β) (s' : Ideal T β) : Prop :=
  (o, s') = op.onList panics s ∨ (short ∧ op.Allocates ∧ op.Failed o ∧ s' = op.refused s)

/-- The observations `os` of a program are those of a list, except that calls that need memory may fail. -/
def Explains : List (Env (Val T β) × Op T β) → Ideal T β → List (Out T β) → Ideal T β → Prop
  | [], s, os, s' => os = [] ∧ s' = s
  | (env, op) :: rest, s, os, s' => ∃ o os' s1, os = o :: os' ∧ op.Allows True env.dropPanics s o s1 ∧ Explains rest s1 os' s'

/-- What a program does to a list when there is always enough memory. -/
def listRun : List (Env (Val T β) × Op T β) → Ideal T β → List (Out T β) × Ideal T β
  | [], s => ([], s)
  | (env, op) :: rest, s =>
    ((op.onList env.dropPanics s).1 :: (listRun rest (op.onList env.dropPanics s).2).1,
      (listRun rest (op.onList env.dropPanics s).2).2)

/-- What safe Rust and the safety contract of `Emplacable` guarantee about the arguments of a call. For `set` and `iterMut`, the
new values have the size of the old ones. -/
def Op.WF (c : Cfg) (xs : List (Val T β)) : Op T β → Prop
  | push x | insert _ x | pushWith (.value x) | insertWith _ (.value x) => x.WF c
  | pushWith (.fails md bs) | insertWith _ (.fails md bs) => MetaOk c md ∧ bs.length ≤ T.sizeOf md
  | set i bs => ∀ x, xs[i]? = some x → bs.length = x.size
  | iterMut ks bss => ∀ p ∈ (visited ks xs).zip bss, ∀ x, p.1.bind (xs[·]?) = some x → p.2.length = x.size
  | _ => True

/-- The state `v` of the vector is the state `s` of the list. -/
def Tracks (M : Machine V T β) (H : V → List (Val T β) → Prop) (v : V) (s : Ideal T β) : Prop :=
  H v s.contents ∧ M.drops v = s.dropped

/-- `Q` holds before each call of the program, as long as it runs. -/
def Along (c : Cfg) (M : Machine V T β) (H : V → List (Val T β) → Prop) (Q : Env (Val T β) → Op T β → V → List (Val T β) → Prop) :
    List (Env (Val T β) × Op T β) → V → Ideal T β → Prop
  | [], _, _ => True
  | (env, op) :: rest, v, s => Q env op v s.contents ∧
      ∀ o v' s', caught (op.exec c M env) v = .ok o v' → Tracks M H v' s' → op.Allows True env.dropPanics s o s' →
        Along c M H Q rest v' s'

/-- `Q` holds before each call of the program on the list, whichever calls fail for lack of memory. -/
def AlongList (Q : Env (Val T β) → Op T β → List (Val T β) → Prop) : List (Env (Val T β) × Op T β) → Ideal T β → Prop
  | [], _ => True
  | (env, op) :: rest, s => Q env op s.contents ∧ ∀ o s', op.Allows True env.dropPanics s o s' → AlongList Q rest s'

/-! ## Ownership -/

/-- Values that become property of the vector or of the function by a call with observation `o`: the argument of `push` and
`insert`, whether or not it is accepted; the value of an emplacable when it is delivered, and when the emplacable is dropped
because of a wrong index. An overwritten value counts as handed out, its new contents as handed in. -/
def Op.gained (xs : List (Val T β)) : Op T β → Out T β → List (Val T β)
  | push x, _ | insert _ x, _ | pushWith (.value x), .done | insertWith _ (.value x), .done => [x]
  | insertWith i (.value x), .panicked => if i ≤ xs.length then [] else [x]
  | set i bs, .done => (xs[i]?.map (fun x => ⟨x.md, bs⟩)).toList
  | iterMut ks bss, .done => ((visited ks xs).zip bss).filterMap fun p => (p.1.bind (xs[·]?)).map fun x => ⟨x.md, p.2⟩
  | _, _ => []

/-- Values that a call moves out of the vector or forgets. -/
def Op.released (xs : List (Val T β)) : Op T β → List (Val T β)
  | pop .drop => []
  | pop _ => xs.getLast?.toList
  | remove _ .drop | remove _ .panics => []
  | remove i _ => xs[i]?.toList
  | set i _ => xs[i]?.toList
  | iterMut ks bss => ((visited ks xs).zip bss).filterMap fun p => p.1.bind (xs[·]?)
  | _ => []

/-- The values gained and released by a program with observations `os`. -/
inductive Ledger : List (Env (Val T β) × Op T β) → Ideal T β → List (Out T β) → Ideal T β → List (Val T β) → List (Val T β) → Prop
  | nil (s : Ideal T β) : Ledger [] s [] s [] []
  | cons {env : Env (Val T β)} {op : Op T β} {rest s o s1 os s' g r} (h : op.Allows True env.dropPanics s o s1)
      (t : Ledger rest s1 os s' g r) :
      Ledger ((env, op) :: rest) s (o :: os) s' (op.gained s.contents o ++ g) (op.released s.contents ++ r)

end

/-! ## The calls that are covered

For these calls the three implementations do what a list does. Outside, see the counterexamples listed in DESIGN.md. -/

namespace UVec
variable {T : UTy} {β : Type}

/-- The number of elements, bytes, and the alignment a call needs room for. -/
def demand : Op T β → Nat × Nat × Nat
  | .push x | .insert _ x | .pushWith (.value x) | .insertWith _ (.value x) => (1, x.size, x.align)
  | .pushWith (.fails md _) | .insertWith _ (.fails md _) => (1, T.sizeOf md, T.alignOf md)
  | .reserve q | .tryReserve q => (q.slots, q.bytes, q.align)
  | _ => (0, 0, 1)

/-- Memory is short for a call: it is one that asks for memory, and something is refused, or the request exceeds the address space.
The calls that ask for no memory are never short of it. -/
def Short (c : Cfg) (env : Env (Val T β)) (op : Op T β) (v : UVec T β) (xs : List (Val T β)) : Prop :=
  match op with
  | .push _ | .pushWith _ | .insert _ _ | .insertWith _ _ | .reserve _ | .tryReserve _ =>
    (∃ n l, env.Refuses n l) ∨ v.TooLarge c xs (demand op).1 (demand op).2.1 (demand op).2.2
  | .shrink _ => env.infoShrink = false
  | _ => False

/-- Covered calls, dynamically aligned elements. Either shrinking must leave a byte capacity that is a multiple of the alignment
(`mult`), or `push` and `insert` need room for the padding. -/
def Covered (mult : Prop) (c : Cfg) (env : Env (Val T β)) (op : Op T β) (v : UVec T β) (xs : List (Val T β)) : Prop :=
  match op with
  | .push x => v.ZstOk x.size x.align ∧ (¬ mult → x.align ≤ v.align → v.RoomOk xs x.size)
  | .pushWith (.value x) => v.ZstOk x.size x.align
  | .pushWith (.fails md _) => v.ZstOk (T.sizeOf md) (T.alignOf md)
  | .insert i x => v.ZstOk x.size x.align ∧ (¬ mult → x.align ≤ v.align → v.RoomOk xs x.size) ∧ (i ≤ xs.length → InsertOk xs i (max v.align x.align) ∧
      totalWidth (padTo (max v.align x.align)) (xs.take i) = i)
  | .insertWith i (.value x) => v.ZstOk x.size x.align ∧ (i ≤ xs.length → InsertOk xs i (max v.align x.align))
  | .insertWith i (.fails md _) => v.ZstOk (T.sizeOf md) (T.alignOf md) ∧
      (i ≤ xs.length → InsertOk xs i (max v.align (T.alignOf md)))
  | .remove i d => (d ≠ .panics → i < xs.length → v.RemoveOk xs i) ∧
      (d = .drop → ∀ x, xs[i]? = some x → env.dropPanics x = false)
  | .reserve q | .tryReserve q => IsAlign c q.align
  | .shrink q => IsAlign c (q.align c) ∧ v.ShrinkOk xs (q.align c) ∧ (mult → v.CapOk xs (q.bytes c) (q.align c))
  | .iter ks | .iterMut ks _ => ICall.OkRun ks false (List.range xs.length)
  | _ => True

end UVec

namespace AVec
variable {A : ATy} {β : Type}

/-- Memory is short for a call, as for dynamically aligned elements. -/
def Short (c : Cfg) (env : Env (Val A.ty β)) (op : Op A.ty β) (v : AVec A β) (xs : List (Val A.ty β)) : Prop :=
  match op with
  | .push _ | .pushWith _ | .insert _ _ | .insertWith _ _ | .reserve _ | .tryReserve _ =>
    (∃ n l, env.Refuses n l) ∨ v.TooLarge c xs (UVec.demand op).1 (UVec.demand op).2.1
  | .shrink _ => env.infoShrink = false
  | _ => False

/-- Covered calls, statically aligned elements: all, except for `insert` (unless the elements in front occupy exactly as many
bytes as there are), dropping the result of `remove_into` if the destructor panics, and the calls on an iterator that return a
wrong reference. -/
def Covered (env : Env (Val A.ty β)) (op : Op A.ty β) (xs : List (Val A.ty β)) : Prop :=
  match op with
  | .insert i _ => i ≤ xs.length → totalWidth id (xs.take i) = i
  | .iter ks | .iterMut ks _ => ICall.OkRun ks false (List.range xs.length)
  | .remove i .drop => ∀ x, xs[i]? = some x → env.dropPanics x = false
  | _ => True

end AVec

namespace SVec
variable {sz al : Nat} {β : Type}

/-- Memory is short for a call: there is no free slot and no way to get one; a reservation asks for more than there is. The calls
that ask for no memory are never short of it. -/
def Short (c : Cfg) (env : Env (Val (sizedTy sz al) β)) (op : Op (sizedTy sz al) β) (v : SVec sz al β)
    (xs : List (Val (sizedTy sz al) β)) : Prop :=
  match op with
  | .reserve q | .tryReserve q => ¬ (xs.length + q.slots ≤ v.capacity c ∧ q.bytes ≤ v.free c * sz) ∧
      (q.bytes ≤ q.slots * sz → ∃ e, Fails c sz env xs.length q.slots e)
  | .shrink _ => env.infoShrink = false
  | .push _ | .pushWith _ | .insert _ _ | .insertWith _ _ => v.NoSlot c env
  | _ => False

/-- Covered calls, sized elements: all, except for what makes the user of the result of `remove_into` panic; and, if the elements
are zero-sized, the calls that divide by their size (`push`, `insert` with a right index, shrinking, reserving bytes and
`reserve_exact`; see C35). -/
def Covered (env : Env (Val (sizedTy sz al) β)) (op : Op (sizedTy sz al) β) (xs : List (Val (sizedTy sz al) β)) : Prop :=
  match op with
  | .push _ | .shrink _ => 0 < sz
  | .insert i _ => i ≤ xs.length → 0 < sz
  | .reserve q => 0 < sz ∨ ∃ n, q = .elems n
  | .tryReserve q => 0 < sz ∨ ∃ n, q = .elems n ∨ q = .exact n
  | .remove i .drop => ∀ x, xs[i]? = some x → env.dropPanics x = false
  | .remove _ .panics => False
  | _ => True

end SVec
end Verif
