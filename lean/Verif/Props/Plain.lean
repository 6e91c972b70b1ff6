import Verif.Proofs.Plain
import Verif.Props.Interact
import Verif.Props.Life

/-!
# C36, C37, C64, C66 for dynamically aligned elements, with conditions that do not refer to the vector

The theorems about programs on `UnsizedVec<dyn Trait>` in `Props/History`, `Props/Same` and `Props/Interact` ask for `UVec.Covered`,
which refers to the state of the vector at each call. Here the condition (`UVec.Plain`) refers to the program and to the list only.
-/

namespace Verif
section
variable {β : Type} [Inhabited β] {c d : Cfg} {A : ATy} {T : UTy} {sz al hi hi' : Nat}

/-- C36, dynamically aligned elements, programs without shrinking: the conditions can be checked on a list. `hi` is any
bound for the alignments that the program is concerned with. -/
theorem C36_program_unaligned_plain_partial (hhi : IsAlign c hi) {v : UVec T β} {s : Ideal T β}
    (h : Tracks (unalignedM c T) (UVec.Holds c) v s) (hv : v.align ≤ hi) (ops : List (Env (Val T β) × Op T β))
    (hs : AlongList (fun env op xs => (env.Valid ∧ env.Exact) ∧ op.WF c xs ∧ UVec.Plain c v.align hi env op xs) ops s) :
    (runOps c (unalignedM c T) ops v).Meets
      (fun os v' => ∃ s', Tracks (unalignedM c T) (UVec.Holds c) v' s' ∧ Explains ops s os s' ∧
        (Along c (unalignedM c T) (UVec.Holds c) (fun env op v xs => ¬ UVec.Short c env op v xs) ops v s → (os, s') = listRun ops s))
      (fun _ => False)
      (¬ Along c (unalignedM c T) (UVec.Holds c) (fun env op v xs => ¬ UVec.Short c env op v xs ∧ ¬ op.Dies env.dropPanics xs) ops v s) :=
  C36_program_unaligned_partial h ops (UVec.plain_along hhi hs h (Nat.le_refl _) hv)

/-- C37, dynamically aligned elements: the whole life of a new vector, with conditions that can be checked on a list. -/
theorem C37_wholeLife_unaligned_plain_partial (hhi : IsAlign c hi) (hu : IsAlign c c.usizeAlign) (hv : c.usizeAlign ≤ hi)
    (ops : List (Env (Val T β) × Op T β))
    (hs : AlongList (fun env op xs => (env.Valid ∧ env.Exact) ∧ op.WF c xs ∧ UVec.Plain c c.usizeAlign hi env op xs) ops ⟨[], []⟩)
    (env : Env (Val T β)) :
    (runLife c (unalignedM c T) ops env (UVec.newAlignPtr c)).Meets
      (fun _ v' => Accounted ops v'.drops [] ∧ v'.heap.block = none ∧ v'.heap.leaks = 0)
      (fun v' => ∃ lost ds x, v'.drops = ds ++ [x] ∧ env.dropPanics x = true ∧ Accounted ops v'.drops lost)
      (¬ Along c (unalignedM c T) (UVec.Holds c) (fun env op v xs => ¬ UVec.Short c env op v xs ∧ ¬ op.Dies env.dropPanics xs) ops
        (UVec.newAlignPtr c) ⟨[], []⟩) :=
  C37_wholeLife_unaligned_partial hu ops
    (UVec.plain_along hhi hs ⟨UVec.newAlignPtr_holds hu, rfl⟩ (Nat.le_refl c.usizeAlign) hv) env

/-- C64, statically and dynamically aligned elements, with conditions that can be checked on a list (except for the memory). -/
theorem C64_aligned_unaligned_plain_partial (hA : A.Lawful c) (hhi : IsAlign d hi) {v : AVec A β} {w : UVec A.ty β} {s : Ideal A.ty β}
    (hv : Tracks (alignedM c A) (AVec.Holds c) v s) (hw : Tracks (unalignedM d A.ty) (UVec.Holds d) w s) (hl : w.align ≤ hi)
    {p q : List (Env (Val A.ty β) × Op A.ty β)} (hc : SameCalls p q)
    (hs : AlongList (fun env op xs => env.Valid ∧ op.WF c xs ∧ AVec.Covered env op xs) p s)
    (hs' : AlongList (fun env op xs => (env.Valid ∧ env.Exact) ∧ op.WF d xs ∧ UVec.Plain d w.align hi env op xs) q s)
    (hq : Along c (alignedM c A) (AVec.Holds c) (fun env op v xs => ¬ AVec.Short c env op v xs ∧ ¬ op.Dies env.dropPanics xs) p v s)
    (hq' : Along d (unalignedM d A.ty) (UVec.Holds d) (fun env op v xs => ¬ UVec.Short d env op v xs ∧ ¬ op.Dies env.dropPanics xs) q w s) :
    Indistinguishable (alignedM c A) (unalignedM d A.ty) (AVec.Holds c) (UVec.Holds d) (runOps c (alignedM c A) p v)
      (runOps d (unalignedM d A.ty) q w) :=
  C64_aligned_unaligned_partial hA hv hw hc hs (UVec.plain_along hhi hs' hw (Nat.le_refl _) hl) hq hq'

/-- C64, two vectors of dynamically aligned elements, with conditions that can be checked on a list (except for the memory). -/
theorem C64_unaligned_plain_partial (hhi : IsAlign c hi) (hhi' : IsAlign d hi') {v w : UVec T β} {s : Ideal T β}
    (hv : Tracks (unalignedM c T) (UVec.Holds c) v s) (hw : Tracks (unalignedM d T) (UVec.Holds d) w s)
    (hl : v.align ≤ hi) (hl' : w.align ≤ hi') {p q : List (Env (Val T β) × Op T β)} (hc : SameCalls p q)
    (hs : AlongList (fun env op xs => (env.Valid ∧ env.Exact) ∧ op.WF c xs ∧ UVec.Plain c v.align hi env op xs) p s)
    (hs' : AlongList (fun env op xs => (env.Valid ∧ env.Exact) ∧ op.WF d xs ∧ UVec.Plain d w.align hi' env op xs) q s)
    (hq : Along c (unalignedM c T) (UVec.Holds c) (fun env op v xs => ¬ UVec.Short c env op v xs ∧ ¬ op.Dies env.dropPanics xs) p v s)
    (hq' : Along d (unalignedM d T) (UVec.Holds d) (fun env op v xs => ¬ UVec.Short d env op v xs ∧ ¬ op.Dies env.dropPanics xs) q w s) :
    Indistinguishable (unalignedM c T) (unalignedM d T) (UVec.Holds c) (UVec.Holds d) (runOps c (unalignedM c T) p v)
      (runOps d (unalignedM d T) q w) :=
  C64_unaligned_partial hv hw hc (UVec.plain_along hhi hs hv (Nat.le_refl _) hl) (UVec.plain_along hhi' hs' hw (Nat.le_refl _) hl') hq hq'

/-- C66, dynamically aligned elements, programs without shrinking: the conditions can be checked on a list. -/
theorem C66_program_unaligned_plain_partial (hhi : IsAlign c hi) {v : UVec T β} {s : Ideal T β}
    (h : Tracks (unalignedM c T) (UVec.Holds c) v s) (hv : v.align ≤ hi) (σ : Strategy T β) (n : Nat)
    (hs : ThroughoutList (fun env op xs => (env.Valid ∧ env.Exact) ∧ op.WF c xs ∧ UVec.Plain c v.align hi env op xs) σ n [] s) :
    (interact c (unalignedM c T) σ n [] v).Meets
      (fun os v' => ∃ s', Tracks (unalignedM c T) (UVec.Holds c) v' s' ∧ ExplainsFor σ n [] s os s' ∧
        (Throughout c (unalignedM c T) (UVec.Holds c) (fun env op v xs => ¬ UVec.Short c env op v xs) σ n [] v s →
          (os, s') = listInteract σ n [] s))
      (fun _ => False)
      (¬ Throughout c (unalignedM c T) (UVec.Holds c) (fun env op v xs => ¬ UVec.Short c env op v xs ∧ ¬ op.Dies env.dropPanics xs)
        σ n [] v s) :=
  C66_program_unaligned_partial h σ n (UVec.plain_throughout hhi hs h (Nat.le_refl _) hv)

end

/-! ## Examples -/
section
open Sample

/-- Elements of three alignments, one of them of size zero; insertions at the front; a removal. -/
def progPlain : List (Env (Val Dyn Nat) × Op Dyn Nat) :=
  [(env, .push (dyn 16 (List.range 16))), (env, .insert 0 (dyn 2 [1, 2])), (env, .insertWith 0 (.value (dyn 4 [4, 5, 6, 7]))),
   (env, .pushWith (.value (dyn 8 []))), (env, .len), (env, .get 1), (env, .remove 0 .take), (env, .get 1), (env, .pop .take)]

theorem progPlain_ok : AlongList (fun env op xs => (env.Valid ∧ env.Exact) ∧ op.WF c64d xs ∧ UVec.Plain c64d 8 32 env op xs) progPlain ⟨[], []⟩ := by
  have he := And.intro (env_valid (X := Val Dyn Nat)) (env_exact (X := Val Dyn Nat))
  refine ⟨⟨he, dyn_wf 4 _ (by decide) (by decide) (by decide) c64d (.inr rfl), by decide, .inl (by decide)⟩, fun _ _ _ =>
    ⟨⟨he, dyn_wf 1 _ (by decide) (by decide) (by decide) c64d (.inr rfl), ⟨by decide, .inl (by decide)⟩, fun _ => rfl⟩, fun _ _ _ =>
    ⟨⟨he, dyn_wf 2 _ (by decide) (by decide) (by decide) c64d (.inr rfl), ⟨by decide, .inl (by decide)⟩, ?_⟩, fun _ _ _ =>
    ⟨⟨he, dyn_wf 3 _ (by decide) (by decide) (by decide) c64d (.inr rfl), by decide, .inr (by decide)⟩, fun _ _ _ =>
    ⟨⟨he, trivial, trivial⟩, fun _ _ _ => ⟨⟨he, trivial, trivial⟩, fun _ _ _ =>
    ⟨⟨he, trivial, fun _ h => absurd h (Nat.lt_irrefl 0), nofun⟩, fun _ _ _ => ⟨⟨he, trivial, trivial⟩, fun _ _ _ =>
    ⟨⟨he, trivial, trivial⟩, fun _ _ _ => trivial⟩⟩⟩⟩⟩⟩⟩⟩⟩
  intro h y hy
  rw [List.eq_nil_of_length_eq_zero h.symm] at hy
  cases hy

example := C36_program_unaligned_plain_partial (c := c64d) (hi := 32) ⟨5, by decide, rfl⟩ (v := UVec.newAlignPtr c64d) (s := ⟨[], []⟩)
  ⟨UVec.newAlignPtr_holds c64d_usizeAlign, rfl⟩ (by decide) progPlain progPlain_ok
example := C37_wholeLife_unaligned_plain_partial (c := c64d) (hi := 32) ⟨5, by decide, rfl⟩ c64d_usizeAlign (by decide) progPlain progPlain_ok
  env
example : observed (runOps c64d (unalignedM c64d Dyn) progPlain (UVec.newAlignPtr c64d)) =
    some [[0], [0], [0], [0], [4, 4], [5, 1, 2], [5, 4, 5, 6, 7], 5 :: List.range 16, [5]] := by decide +kernel

/-- A program that never ends: it adds elements at the front, and every second time asks how many there are. -/
def fronts : Strategy Dyn Nat := fun h => some (env, if h.length % 2 = 0 then .insert 0 (dyn 4 [h.length, 1, 2, 3]) else .len)

theorem fronts_ok : ∀ (n : Nat) h s, ThroughoutList (fun env op xs => (env.Valid ∧ env.Exact) ∧ op.WF c64d xs ∧ UVec.Plain c64d 8 8 env op xs)
    fronts n h s
  | 0, _, _ => trivial
  | n + 1, h, s => by
    rintro e op ho
    obtain ⟨rfl, rfl⟩ := Prod.mk.inj (Option.some.inj ho)
    refine ⟨⟨⟨env_valid, env_exact⟩, ?_⟩, fun o s' _ => fronts_ok n _ _⟩
    split
    · exact ⟨dyn_wf 2 [h.length, 1, 2, 3] (by decide) ⟨1, rfl⟩ (by show 4 + 3 ≤ c64d.isizeMax; decide) c64d (.inr rfl),
        ⟨by show 4 ≤ 8; decide, .inl (by show 0 < 4; decide)⟩, fun _ => rfl⟩
    · exact ⟨trivial, trivial⟩

example (n : Nat) := C66_program_unaligned_plain_partial (c := c64d) (hi := 8) ⟨3, by decide, rfl⟩ (v := UVec.newAlignPtr c64d) (s := ⟨[], []⟩)
  ⟨UVec.newAlignPtr_holds c64d_usizeAlign, rfl⟩ (by decide) fronts n (fronts_ok n _ _)

end
end Verif
