import Verif.Proofs.Layouts
import Verif.Props.History

/-!
# C31: the requests made to the allocator

"The allocator is asked only for layouts of non-zero size that `Layout` permits" is stated as: however the allocator would
answer any other request, no call can tell the difference. Nothing is assumed about the state of the vector.
-/

namespace Verif
variable {T : UTy} {A : ATy} {β : Type} [Inhabited β] {c : Cfg}

/-- C31: no call on a vector of dynamically aligned elements asks for a layout that is empty or invalid. -/
theorem C31_requests_unaligned {env : Env (Val T β)} {f : Layout → Option (Nat × Nat)}
    (hf : ∀ l : Layout, 0 < l.size → l.Valid c → f l = env.alloc l) (op : Op T β) :
    op.exec c (unalignedM c T) { env with alloc := f } = op.exec c (unalignedM c T) env ∧
      (unalignedM c T).drop { env with alloc := f } = (unalignedM c T).drop env :=
  ⟨(UVec.same_calls (fun l hl => hf l hl.1 hl.2)).exec c rfl op, UVec.drop_same⟩

/-- C31: no call on a vector of statically aligned elements asks for a layout that is empty or invalid. -/
theorem C31_requests_aligned {env : Env (Val A.ty β)} {f : Layout → Option (Nat × Nat)}
    (hf : ∀ l : Layout, 0 < l.size → l.Valid c → f l = env.alloc l) (op : Op A.ty β) :
    op.exec c (alignedM c A) { env with alloc := f } = op.exec c (alignedM c A) env ∧
      (alignedM c A).drop { env with alloc := f } = (alignedM c A).drop env :=
  ⟨(AVec.same_calls (fun l hl => hf l hl.1 hl.2)).exec c rfl op, AVec.drop_same⟩

/-- The environments of a program with the answers of the allocator replaced. -/
def reanswer {X : Type} {O : Type} (f : Env X → Layout → Option (Nat × Nat)) (prog : List (Env X × O)) : List (Env X × O) :=
  prog.map fun (env, op) => ({ env with alloc := f env }, op)

/-- C31: no program on a vector of dynamically aligned elements asks for a layout that is empty or invalid. -/
theorem C31_requests_program_unaligned {f : Env (Val T β) → Layout → Option (Nat × Nat)} (prog : List (Env (Val T β) × Op T β))
    (hf : ∀ env ∈ prog.map (·.1), ∀ l : Layout, 0 < l.size → l.Valid c → f env l = env.alloc l) :
    runOps c (unalignedM c T) (reanswer f prog) = runOps c (unalignedM c T) prog := by
  induction prog with
  | nil => rfl
  | cons p ps ih =>
    obtain ⟨env, op⟩ := p
    show runOps c _ ((_, op) :: reanswer f ps) = _
    simp only [runOps]
    rw [(C31_requests_unaligned (hf env (by simp)) op).1, ih (fun e he => hf e (by simp_all))]

/-- C31: no program on a vector of statically aligned elements asks for a layout that is empty or invalid. -/
theorem C31_requests_program_aligned {f : Env (Val A.ty β) → Layout → Option (Nat × Nat)}
    (prog : List (Env (Val A.ty β) × Op A.ty β))
    (hf : ∀ env ∈ prog.map (·.1), ∀ l : Layout, 0 < l.size → l.Valid c → f env l = env.alloc l) :
    runOps c (alignedM c A) (reanswer f prog) = runOps c (alignedM c A) prog := by
  induction prog with
  | nil => rfl
  | cons p ps ih =>
    obtain ⟨env, op⟩ := p
    show runOps c _ ((_, op) :: reanswer f ps) = _
    simp only [runOps]
    rw [(C31_requests_aligned (hf env (by simp)) op).1, ih (fun e he => hf e (by simp_all))]

namespace Sample

/-- Did the call return? -/
def returns {σ α : Type} : Res σ α → Bool
  | .ok _ _ => true
  | _ => false

/-- An allocator that answers a request for no bytes with an error, and other requests as before. -/
def noEmpty (env : Env (Val Dyn Nat)) (l : Layout) : Option (Nat × Nat) := if l.size = 0 then none else env.alloc l

/-- The hypothesis holds for an allocator that differs, and the allocator does matter: one that refuses a request
for eight bytes makes the same push abort. -/
example : (∀ l : Layout, 0 < l.size → l.Valid c64 → noEmpty env l = (env : Env (Val Dyn Nat)).alloc l) ∧ (noEmpty env ⟨0, 1⟩).isSome = false ∧
    returns ((Op.push (dyn 8 [1, 2, 3, 4, 5, 6, 7, 8])).exec c64 (unalignedM c64 Dyn) { env with alloc := noEmpty env } (UVec.newAlignPtr c64)) = true ∧
    returns ((Op.push (dyn 8 [1, 2, 3, 4, 5, 6, 7, 8])).exec c64 (unalignedM c64 Dyn) { env with alloc := fun _ => none } (UVec.newAlignPtr c64)) =
      false :=
  ⟨fun l hl _ => if_neg (by omega), by decide, by decide +kernel, by decide +kernel⟩

end Sample
end Verif
