import Verif.Proofs.UImpl
import Verif.Proofs.AImpl

/-!
# The abstraction relations determine what a user sees
-/

namespace Verif
variable {β : Type} [Inhabited β]

omit [Inhabited β] in
theorem mapM_range_eq {α : Type} {f : Nat → Option α} {xs : List α}
    (h : ∀ i (hi : i < xs.length), f i = some xs[i]) : (List.range xs.length).mapM f = some xs := by
  have key : ∀ (l : List Nat) (g : Nat → α), (∀ i ∈ l, f i = some (g i)) → l.mapM f = some (l.map g) := by
    intro l g hl
    induction l with
    | nil => rfl
    | cons a l ih =>
      rw [List.mapM_cons, hl a (by simp), ih (fun i hi => hl i (by simp [hi]))]
      rfl
  by_cases hx : xs = []
  · subst hx; rfl
  have : Nonempty α := ⟨xs.head hx⟩
  have d : α := xs.head hx
  rw [key _ (fun i => xs.getD i d)]
  · congr 1
    apply List.ext_getElem
    · simp
    · intro i h1 h2; simp [List.getElem?_eq_getElem h2]
  · intro i hi
    have hi' : i < xs.length := by simpa using hi
    rw [h i hi']
    simp [List.getElem?_eq_getElem hi']

theorem UVec.Represents.observe_eq {T : UTy} {G : Prop} {c : Cfg} {v : UVec T β} {xs : List (Val T β)} (h : v.Represents G c xs) :
    v.observe c = some xs := by
  unfold UVec.observe
  rw [h.len_eq]
  refine mapM_range_eq (fun i hi => ?_)
  rw [UVec.getUnchecked_eq h i hi, Option.map_some, UVec.read_elem h i hi]

theorem AVec.Holds.observe_eq {A : ATy} {c : Cfg} {v : AVec A β} {xs : List (Val A.ty β)} (hA : A.Fits c)
    (h : v.Holds c xs) : v.observe c = some xs := by
  unfold AVec.observe
  rw [h.len_eq]
  refine mapM_range_eq (fun i hi => ?_)
  rw [AVec.getUnchecked_eq hA h i hi, Option.map_some, AVec.read_elem h i hi]

end Verif
