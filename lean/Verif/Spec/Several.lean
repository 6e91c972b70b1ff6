import Verif.Model.Several
import Verif.Spec.History

/-!
# What a program that uses several vectors should observe

Each vector is a list. A move takes a value out of one list and puts it into another.
-/

namespace Verif
section
variable {V : Type} {T : UTy} {β : Type}

/-- The value taken out of a list, and what is left; nothing if the list is empty or the index wrong. -/
def Take.pick (xs : List (Val T β)) : Take → Option (Val T β × List (Val T β))
  | .last => xs.getLast?.map fun x => (x, xs.dropLast)
  | .at i => xs[i]?.map fun x => (x, xs.eraseIdx i)

/-- The list with the value put in; nothing if the index is wrong. -/
def Put.place (x : Val T β) (xs : List (Val T β)) : Put → Option (List (Val T β))
  | .push => some (xs ++ [x])
  | .insert i => if i ≤ xs.length then some (xs.take i ++ x :: xs.drop i) else none

/-- What is left in the first list if there is no memory for the value in the second: `pop_into` has already taken it out (it
leaks), `remove_into` has not. -/
def Take.kept (xs : List (Val T β)) : Take → List (Val T β)
  | .last => xs.dropLast
  | .at _ => xs

/-- The call on the second vector, with a value of one's own. -/
def Put.op (x : Val T β) : Put → Op T β
  | .push => .pushWith (.value x)
  | .insert i => .insertWith i (.value x)

/-- What a command does when there is enough memory. A value for which the index is wrong is dropped. -/
def Cmd.onLists (panics : Val T β → Bool) : Cmd T β → (Nat → Ideal T β) → Out T β × (Nat → Ideal T β)
  | call k op, s => ((op.onList panics (s k)).1, put s k (op.onList panics (s k)).2)
  | move t j p k, s =>
    match t.pick (s j).contents with
    | none => (.panicked, s)
    | some (x, ys) =>
      match p.place x (s k).contents with
      | some zs => (.done, put (put s j ⟨ys, (s j).dropped⟩) k ⟨zs, (s k).dropped⟩)
      | none => (.panicked, put s j ⟨ys, (s j).dropped ++ [x]⟩)

/-- What may be observed: what the lists do; or, if memory is short (`short`), failure, with everything as it was (except for a
value that `pop_into` has taken out). -/
def Cmd.Allows (cmd : Cmd T β) (short : Prop) (panics : Val T β → Bool) (s : Nat → Ideal T β) (o : Out T β) (s' : Nat → Ideal T β) :
    Prop :=
  match cmd with
  | .call k op => ∃ u, op.Allows short panics (s k) o u ∧ s' = put s k u
  | .move t j p k => (o, s') = (Cmd.move t j p k).onLists panics s ∨
      (short ∧ o = .panicked ∧ ∃ x ys zs, t.pick (s j).contents = some (x, ys) ∧ p.place x (s k).contents = some zs ∧
        s' = put s j ⟨t.kept (s j).contents, (s j).dropped⟩)

/-- The command is refused because of an index, and the destructor of the value panics as well. This ends the process. -/
def Cmd.Dies (panics : Val T β → Bool) (s : Nat → List (Val T β)) : Cmd T β → Prop
  | call k op => op.Dies panics (s k)
  | move t j p k => ∃ x ys, t.pick (s j) = some (x, ys) ∧ p.place x (s k) = none ∧ panics x = true

/-- The observations `os` of a program are those of lists, except that commands that need memory may fail. -/
def ExplainsAll : List (Env (Val T β) × Cmd T β) → (Nat → Ideal T β) → List (Out T β) → (Nat → Ideal T β) → Prop
  | [], s, os, s' => os = [] ∧ s' = s
  | (env, cmd) :: rest, s, os, s' => ∃ o os' s1, os = o :: os' ∧ cmd.Allows True env.dropPanics s o s1 ∧ ExplainsAll rest s1 os' s'

/-- What a program does to lists when there is always enough memory. -/
def listsRun : List (Env (Val T β) × Cmd T β) → (Nat → Ideal T β) → List (Out T β) × (Nat → Ideal T β)
  | [], s => ([], s)
  | (env, cmd) :: rest, s =>
    ((cmd.onLists env.dropPanics s).1 :: (listsRun rest (cmd.onLists env.dropPanics s).2).1,
      (listsRun rest (cmd.onLists env.dropPanics s).2).2)

/-- The vectors are the lists. -/
def TracksAll (M : Machine V T β) (H : V → List (Val T β) → Prop) (f : Nat → V) (s : Nat → Ideal T β) : Prop :=
  ∀ k, Tracks M H (f k) (s k)

/-- The lists. -/
def listsOf (s : Nat → Ideal T β) : Nat → List (Val T β) := fun k => (s k).contents

/-- `Q` holds before each command of the program, as long as it runs. -/
def AlongAll (c : Cfg) (M : Machine V T β) (H : V → List (Val T β) → Prop)
    (Q : Env (Val T β) → Cmd T β → (Nat → V) → (Nat → List (Val T β)) → Prop) :
    List (Env (Val T β) × Cmd T β) → (Nat → V) → (Nat → Ideal T β) → Prop
  | [], _, _ => True
  | (env, cmd) :: rest, f, s => Q env cmd f (listsOf s) ∧
      ∀ o f' s', caught (cmd.exec c M env) f = .ok o f' → TracksAll M H f' s' → cmd.Allows True env.dropPanics s o s' →
        AlongAll c M H Q rest f' s'

/-- `Q` holds before each command of the program on the lists, whichever commands fail for lack of memory. -/
def AlongLists (Q : Env (Val T β) → Cmd T β → (Nat → List (Val T β)) → Prop) : List (Env (Val T β) × Cmd T β) → (Nat → Ideal T β) → Prop
  | [], _ => True
  | (env, cmd) :: rest, s => Q env cmd (listsOf s) ∧ ∀ o s', cmd.Allows True env.dropPanics s o s' → AlongLists Q rest s'

/-- The command asks for calls for which `Q` holds: of the call itself, or of the two calls that make up a move. A move is between
different vectors. -/
def Cmd.Asks (c : Cfg) (Q : Op T β → Nat → Prop) (s : Nat → List (Val T β)) : Cmd T β → Prop
  | call k op => op.WF c (s k) ∧ Q op k
  | move t j p k => j ≠ k ∧ ∀ x ys, t.pick (s j) = some (x, ys) → (∀ i, t = .at i → Q (.remove i .take) j) ∧ Q (p.op x) k

/-- Memory is short for a command, where `Q` says when it is for a call. -/
def Cmd.Lacks (Q : Op T β → Nat → Prop) (s : Nat → List (Val T β)) : Cmd T β → Prop
  | call k op => Q op k
  | move t j p k => ∃ x ys, t.pick (s j) = some (x, ys) ∧ Q (p.op x) k

/-- The command moves an element out of the middle of a vector. -/
def Cmd.Removes : Cmd T β → Prop
  | move (.at _) _ _ _ => True
  | _ => False

/-! ## Ownership -/

/-- Values that become property of the vectors by a command. A move brings nothing in. -/
def Cmd.gained (s : Nat → List (Val T β)) : Cmd T β → Out T β → List (Val T β)
  | call k op, o => op.gained (s k) o
  | move _ _ _ _, _ => []

/-- Values that a command moves out of all the vectors or loses: a move does so only if `pop_into` has taken out the value and there
is no memory for it in the other vector. -/
def Cmd.released (s : Nat → List (Val T β)) : Cmd T β → Out T β → List (Val T β)
  | call k op, _ => op.released (s k)
  | move .last j p k, .panicked =>
    match (s j).getLast? with
    | some x => if (p.place x (s k)).isSome then [x] else []
    | none => []
  | move _ _ _ _, _ => []

/-- The values gained and released by a program with observations `os`. -/
inductive Books : List (Env (Val T β) × Cmd T β) → (Nat → Ideal T β) → List (Out T β) → (Nat → Ideal T β) → List (Val T β) →
    List (Val T β) → Prop
  | nil (s : Nat → Ideal T β) : Books [] s [] s [] []
  | cons {env : Env (Val T β)} {cmd : Cmd T β} {rest s o s1 os s' g r} (h : cmd.Allows True env.dropPanics s o s1)
      (t : Books rest s1 os s' g r) :
      Books ((env, cmd) :: rest) s (o :: os) s' (cmd.gained (listsOf s) o ++ g) (cmd.released (listsOf s) o ++ r)

/-- Only the vectors below `n` are used, and moves are between different ones. -/
def Cmd.Below (n : Nat) : Cmd T β → Prop
  | call k _ => k < n
  | move _ j _ k => j < n ∧ k < n ∧ j ≠ k

/-- All that is in the vectors below `n`. -/
def allIn (n : Nat) (s : Nat → Ideal T β) : List (Val T β) := (List.range n).flatMap fun k => (s k).contents

/-- All that has been dropped by the vectors below `n`. -/
def allDropped (n : Nat) (s : Nat → Ideal T β) : List (Val T β) := (List.range n).flatMap fun k => (s k).dropped

end
end Verif
