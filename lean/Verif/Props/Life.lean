import Verif.Props.History
import Verif.Props.Sized

/-!
# C37: the life of a vector, also with destructors that panic at its end

The vector is created empty, used by a program, and dropped. What was handed to it is accounted for on every path on which
the process survives.
-/

namespace Verif
section
variable {T : UTy} {A : ATy} {β : Type} [Inhabited β] {c : Cfg} {sz al : Nat}

/-- A program, and then `Drop for UnsizedVec` (src/inner/unaligned.rs:306–344, src/inner/aligned.rs:75–112, std's `Vec`). -/
def runLife {V : Type} (c : Cfg) (M : Machine V T β) (ops : List (Env (Val T β) × Op T β)) (env : Env (Val T β)) :
    Exec V (List (Out T β)) := do
  let os ← runOps c M ops
  M.drop env
  pure os

/-- Every value handed to the vector by the program has been dropped (`ds`, each as often as it was handed in), lost (`lost`), or
was moved out or forgotten. -/
def Accounted (ops : List (Env (Val T β) × Op T β)) (ds lost : List (Val T β)) : Prop :=
  ∃ os s g r, Ledger ops ⟨[], []⟩ os s g r ∧ List.Perm g (ds ++ lost ++ r)

omit [Inhabited β] in
theorem accounted_of {ops : List (Env (Val T β) × Op T β)} {os : List (Out T β)} {s : Ideal T β} (h : Explains ops ⟨[], []⟩ os s)
    {ds lost ys : List (Val T β)} (hd : ds = s.dropped ++ ys) (hl : s.contents = ys ++ lost) : Accounted ops ds lost := by
  obtain ⟨g, r, h8, h9⟩ := C37_balance h
  refine ⟨os, s, g, r, h8, ?_⟩
  simp only [List.append_nil] at h9
  refine h9.trans (List.Perm.append_right r ?_)
  rw [hd, hl, List.append_assoc s.dropped]
  exact List.perm_append_comm

/-- C37, statically aligned elements: on return everything is accounted for, nothing is lost, and the memory is free. If a
destructor panics at the end, then only the values behind it in the vector are lost, and no value is dropped twice. The process is
aborted only if memory is short, or the destructor of an argument that is rejected because of a wrong index panics. -/
theorem C37_wholeLife_aligned_partial (hA : A.Lawful c) (ops : List (Env (Val A.ty β) × Op A.ty β))
    (hs : AlongList (fun env op xs => env.Valid ∧ op.WF c xs ∧ AVec.Covered env op xs) ops ⟨[], []⟩) (env : Env (Val A.ty β)) :
    (runLife c (alignedM c A) ops env AVec.new).Meets
      (fun _ v' => Accounted ops v'.drops [] ∧ v'.heap.block = none ∧ v'.heap.leaks = 0)
      (fun v' => ∃ lost ds x, v'.drops = ds ++ [x] ∧ env.dropPanics x = true ∧ Accounted ops v'.drops lost)
      (¬ Along c (alignedM c A) (AVec.Holds c) (fun env op v xs => ¬ AVec.Short c env op v xs ∧ ¬ op.Dies env.dropPanics xs) ops AVec.new ⟨[], []⟩) := by
  have h := C36_program_aligned_partial hA (v := AVec.new) (s := ⟨[], []⟩) ⟨AVec.new_holds hA.fits, rfl⟩ ops hs
  refine Res.Meets.bind (h.mono (fun _ _ h => h) (fun _ h => h.elim) (fun h => h)) ?_
  rintro os v ⟨s', ⟨h1, h2⟩, h3, _⟩
  refine Res.Meets.bind (Q := fun _ v' => Accounted ops v'.drops [] ∧ v'.heap.block = none ∧ v'.heap.leaks = 0)
    ((C21_drop_aligned hA.fits h1 env).mono ?_ ?_ False.elim) (fun _ _ h => Res.Meets.of_ok rfl h)
  · rintro _ v' ⟨_, h4, h5, h6⟩
    exact ⟨accounted_of h3 (h4.trans (congrArg (· ++ _) h2)) (List.append_nil _).symm, h5, h6⟩
  · rintro v' ⟨ds, ⟨ys, x, zs, e1, rfl, h4, _⟩, h5⟩
    refine ⟨zs, v.drops ++ ys, x, by rw [h5, List.append_assoc], h4, accounted_of h3 (h5.trans (congrArg (· ++ _) h2)) ?_⟩
    rw [e1, List.append_assoc]; rfl

/-- C37, dynamically aligned elements. -/
theorem C37_wholeLife_unaligned_partial {G : Prop} (hu : IsAlign c c.usizeAlign) (ops : List (Env (Val T β) × Op T β))
    (hs : Along c (unalignedM c T) (UVec.Represents G c) (fun env op v xs => (env.Valid ∧ (G → env.Exact)) ∧ op.WF c xs ∧ UVec.Covered G c env op v xs)
      ops (UVec.newAlignPtr c) ⟨[], []⟩) (env : Env (Val T β)) :
    (runLife c (unalignedM c T) ops env (UVec.newAlignPtr c)).Meets
      (fun _ v' => Accounted ops v'.drops [] ∧ v'.heap.block = none ∧ v'.heap.leaks = 0)
      (fun v' => ∃ lost ds x, v'.drops = ds ++ [x] ∧ env.dropPanics x = true ∧ Accounted ops v'.drops lost)
      (¬ Along c (unalignedM c T) (UVec.Represents G c) (fun env op v xs => ¬ UVec.Short c env op v xs ∧ ¬ op.Dies env.dropPanics xs) ops (UVec.newAlignPtr c)
        ⟨[], []⟩) := by
  have h := C36_program_unaligned_partial (v := UVec.newAlignPtr c) (s := ⟨[], []⟩) ⟨UVec.newAlignPtr_represents hu, rfl⟩ ops hs
  refine Res.Meets.bind (h.mono (fun _ _ h => h) (fun _ h => h.elim) (fun h => h)) ?_
  rintro os v ⟨s', ⟨h1, h2⟩, h3, _⟩
  refine Res.Meets.bind (Q := fun _ v' => Accounted ops v'.drops [] ∧ v'.heap.block = none ∧ v'.heap.leaks = 0)
    ((C21_drop_unaligned h1 env).mono ?_ ?_ False.elim) (fun _ _ h => Res.Meets.of_ok rfl h)
  · rintro _ v' ⟨_, h4, h5, h6⟩
    exact ⟨accounted_of h3 (h4.trans (congrArg (· ++ _) h2)) (List.append_nil _).symm, h5, h6⟩
  · rintro v' ⟨ds, ⟨ys, x, zs, e1, rfl, h4, _⟩, h5⟩
    refine ⟨zs, v.drops ++ ys, x, by rw [h5, List.append_assoc], h4, accounted_of h3 (h5.trans (congrArg (· ++ _) h2)) ?_⟩
    rw [e1, List.append_assoc]; rfl

/-- C37, sized elements: nothing is lost even if a destructor panics, and the memory is free. The process is aborted only if memory is short, two
destructors panic, or the destructor of a rejected argument panics. -/
theorem C37_wholeLife_sized_partial (ops : List (Env (Val (sizedTy sz al) β) × Op (sizedTy sz al) β))
    (hs : AlongList (fun env op xs => op.WF c xs ∧ SVec.Covered env op xs) ops ⟨[], []⟩) (env : Env (Val (sizedTy sz al) β)) :
    (runLife c (sizedM c sz al) ops env SVec.new).Meets
      (fun _ v' => Accounted ops v'.drops [] ∧ v'.slots = 0)
      (fun v' => (Accounted ops v'.drops [] ∧ v'.slots = 0) ∧ ∃ x ∈ v'.drops, env.dropPanics x = true)
      (¬ Along c (sizedM c sz al) (SVec.Holds c) (fun env op v xs => ¬ SVec.Short c env op v xs ∧ ¬ op.Dies env.dropPanics xs) ops SVec.new ⟨[], []⟩ ∨
        ∃ os v xs, runOps c (sizedM c sz al) ops SVec.new = .ok os v ∧ v.Holds c xs ∧
          ∃ i j, ∃ (hi : i < xs.length) (hj : j < xs.length), i < j ∧ env.dropPanics xs[i] = true ∧ env.dropPanics xs[j] = true) := by
  have h := C36_program_sized_partial (v := SVec.new) (s := ⟨[], []⟩) ⟨SVec.new_holds, rfl⟩ ops hs
  unfold runLife
  rw [Exec.bind_apply]
  cases hr : runOps c (sizedM c sz al) ops SVec.new with
  | panic v => rw [hr] at h; exact h.elim
  | ub => rw [hr] at h; exact h
  | abort => rw [hr] at h; exact .inl h
  | ok os v =>
    rw [hr] at h
    obtain ⟨s', ⟨h1, h2⟩, h3, _⟩ := h
    refine Res.Meets.bind (Q := fun _ v' => Accounted ops v'.drops [] ∧ v'.slots = 0)
      ((C21_drop_sized h1 env).mono ?_ ?_ ?_) (fun _ _ h => Res.Meets.of_ok rfl h)
    · rintro _ v' ⟨⟨h4, _⟩, _, h5⟩
      exact ⟨accounted_of h3 (h4.trans (congrArg (· ++ _) h2)) (List.append_nil _).symm, h5⟩
    · rintro v' ⟨⟨h4, x, hx, hp⟩, _, h5⟩
      exact ⟨⟨accounted_of h3 (h4.trans (congrArg (· ++ _) h2)) (List.append_nil _).symm, h5⟩, x,
        by rw [h4]; exact List.mem_append_right _ hx, hp⟩
    · exact fun h => .inr ⟨os, v, _, rfl, h1, h⟩

end

/-! ## Examples -/
section
open Sample

/-- An environment in which destroying a value that begins with `k` panics. -/
def envBad {T : UTy} (k : Nat) : Env (Val T Nat) := { (env : Env (Val T Nat)) with dropPanics := fun x => x.bytes.head? == some k }

/-- The values dropped, and whether a panic came out. -/
def dropsOf {V α : Type} {T : UTy} (f : V → List (Val T Nat)) : Res V α → Option (Bool × List (List Nat))
  | .ok _ v => some (false, (f v).map (·.bytes))
  | .panic v => some (true, (f v).map (·.bytes))
  | _ => none

/-- Three values, the second of which panics when destroyed: the third is lost with `[str]`, but not with sized elements. -/
example : dropsOf (·.drops) (runLife c64d (alignedM c64d Bytes)
    [(env, .push (bytes [1, 2])), (env, .push (bytes [3])), (env, .push (bytes [4, 5]))] (envBad 3) AVec.new) =
    some (true, [[1, 2], [3]]) := by decide +kernel
example : dropsOf (·.drops) (runLife c64d (sizedM c64d 2 1)
    [(env, .push ⟨(), [1, 2]⟩), (env, .push ⟨(), [3, 3]⟩), (env, .push ⟨(), [4, 5]⟩)] (envBad 3) SVec.new) =
    some (true, [[1, 2], [3, 3], [4, 5]]) := by decide +kernel
example : dropsOf (·.drops) (runLife c64d (unalignedM c64d Dyn)
    [(env, .push (dyn 1 [1, 2])), (env, .push (dyn 2 [3, 4])), (env, .pop .take)] (envBad 3) (UVec.newAlignPtr c64d)) =
    some (false, [[1, 2]]) := by decide +kernel

/-- An element with a wrong index is destroyed at once, the stored one at the end; if its destructor panics the process ends. -/
example : dropsOf (·.drops) (runLife c64d (alignedM c64d Bytes)
    [(env, .push (bytes [1, 2])), (env, .insert 9 (bytes [3])), (env, .insertWith 9 (.value (bytes [4])))] env AVec.new) =
    some (false, [[3], [4], [1, 2]]) := by decide +kernel
example : dropsOf (·.drops) (runLife c64d (alignedM c64d Bytes)
    [(env, .push (bytes [1, 2])), (envBad 3, .insert 9 (bytes [3]))] env AVec.new) = none := by decide +kernel

/-- The hypotheses are met by the programs of `Verif/Props/History.lean`. -/
example : Bytes.Lawful c64d ∧ AlongList (fun env op xs => env.Valid ∧ op.WF c64d xs ∧ AVec.Covered env op xs) progA ⟨[], []⟩ :=
  ⟨bytes_lawful c64d (.inr rfl), progA_ok⟩
example : IsAlign c64d c64d.usizeAlign ∧ Along c64d (unalignedM c64d Dyn) (UVec.Holds c64d)
    (fun env op v xs => (env.Valid ∧ (True → env.Exact)) ∧ op.WF c64d xs ∧ UVec.Covered True c64d env op v xs) progU (UVec.newAlignPtr c64d) ⟨[], []⟩ :=
  ⟨c64d_usizeAlign, progU_ok⟩
example : 0 < 2 ∧ AlongList (fun env op xs => op.WF c64d xs ∧ SVec.Covered env op xs) progS ⟨[], []⟩ := ⟨by decide, progS_ok⟩

end
end Verif
