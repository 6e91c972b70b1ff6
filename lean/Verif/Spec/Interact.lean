import Verif.Model.Interact
import Verif.Spec.History

/-!
# Programs that decide what to do next: specification
-/

namespace Verif
variable {V : Type} {T : UTy} {β : Type}

/-- The program on a list, when there is always enough memory. -/
def listInteract (σ : Strategy T β) : Nat → List (Out T β) → Ideal T β → List (Out T β) × Ideal T β
  | 0, h, s => (h, s)
  | n + 1, h, s =>
    match σ h with
    | none => (h, s)
    | some (env, op) => listInteract σ n (h ++ [(op.onList env.dropPanics s).1]) (op.onList env.dropPanics s).2

/-- The observations `os` are those of the program on a list, except that calls that need memory may fail. -/
def ExplainsFor (σ : Strategy T β) : Nat → List (Out T β) → Ideal T β → List (Out T β) → Ideal T β → Prop
  | 0, h, s, os, s' => os = h ∧ s' = s
  | n + 1, h, s, os, s' =>
    (σ h = none ∧ os = h ∧ s' = s) ∨
      ∃ env op o s1, σ h = some (env, op) ∧ op.Allows True env.dropPanics s o s1 ∧ ExplainsFor σ n (h ++ [o]) s1 os s'

/-- `Q` holds before each call of the program, as long as it runs. -/
def Throughout (c : Cfg) (M : Machine V T β) (H : V → List (Val T β) → Prop) (Q : Env (Val T β) → Op T β → V → List (Val T β) → Prop)
    (σ : Strategy T β) : Nat → List (Out T β) → V → Ideal T β → Prop
  | 0, _, _, _ => True
  | n + 1, h, v, s => ∀ env op, σ h = some (env, op) → Q env op v s.contents ∧
      ∀ o v' s', caught (op.exec c M env) v = .ok o v' → Tracks M H v' s' → op.Allows True env.dropPanics s o s' →
        Throughout c M H Q σ n (h ++ [o]) v' s'

/-- `Q` holds before each call of the program on the list, whichever calls fail for lack of memory. -/
def ThroughoutList (Q : Env (Val T β) → Op T β → List (Val T β) → Prop) (σ : Strategy T β) : Nat → List (Out T β) → Ideal T β → Prop
  | 0, _, _ => True
  | n + 1, h, s => ∀ env op, σ h = some (env, op) → Q env op s.contents ∧
      ∀ o s', op.Allows True env.dropPanics s o s' → ThroughoutList Q σ n (h ++ [o]) s'

/-- Two programs make the same calls when they have observed the same, on values with the same destructors. -/
def SameStrategy (σ τ : Strategy T β) : Prop :=
  ∀ h, (σ h).map (fun x => (x.1.dropPanics, x.2)) = (τ h).map (fun x => (x.1.dropPanics, x.2))

end Verif
