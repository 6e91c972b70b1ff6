import Verif.Proofs.Docs
import Verif.Props.Several
import Verif.Props.Plain
import Verif.Props.Unsize

/-!
# C67: the examples in the documentation

The programs of `Model/Docs` show what the documentation says (`Spec/Docs`), for all values in place of the literals, unless memory
is short: then some call panics, or the process is aborted. `envs i` is the environment of call number `i`. Partial: the examples of
`unsize` and `unsized_vec!` do not show what the documentation says (`C67_counterexample_unsize`,
`C67_counterexample_unsizedVec`).
-/

namespace Verif
open Docs
section
variable {β : Type} [Inhabited β] {c : Cfg} {A : ATy} {T : UTy} {sz al hi : Nat}

/-- C67, dynamically aligned elements, one vector. -/
theorem C67_examples_unaligned_partial (hu : IsAlign c c.usizeAlign) (hhi : IsAlign c hi) (hl : c.usizeAlign ≤ hi) (e : Ex T β)
    (envs : Nat → Env (Val T β)) (he : ∀ i, (envs i).Valid ∧ (envs i).Exact) (hd : ∀ i x, (envs i).dropPanics x = false)
    (hw : ∀ x ∈ e.vals, x.WF c ∧ UVec.Addable c.usizeAlign hi x.size x.align) :
    (runOps c (unalignedM c T) (inTurn envs e.ops) (UVec.newAlignPtr c)).Meets
      (fun os v' => (os = e.shows ∧ v'.Holds c e.leaves ∧ v'.drops = e.drops) ∨ (.panicked ∈ os ∧
        ¬ Along c (unalignedM c T) (UVec.Holds c) (fun env op v xs => ¬ UVec.Short c env op v xs) (inTurn envs e.ops)
          (UVec.newAlignPtr c) ⟨[], []⟩))
      (fun _ => False)
      (¬ Along c (unalignedM c T) (UVec.Holds c) (fun env op v xs => ¬ UVec.Short c env op v xs) (inTurn envs e.ops)
        (UVec.newAlignPtr c) ⟨[], []⟩) := by
  refine documented (UVec.client True c T) e hd ⟨UVec.newAlignPtr_holds hu, rfl⟩
    (UVec.plain_along hhi (along_all fun x hx xs => ?_) ⟨UVec.newAlignPtr_holds hu, rfl⟩ (Nat.le_refl c.usizeAlign) hl)
  obtain ⟨⟨i, h1⟩, h2⟩ := mem_inTurn hx
  clear hx
  obtain ⟨env, op⟩ := x
  dsimp only at h1 h2 ⊢
  subst h1
  refine ⟨he i, ?_⟩
  rcases Ex.mem_ops h2 with ⟨x, hx, rfl | rfl⟩ | ⟨n, rfl⟩ | rfl | rfl | rfl | rfl | rfl
  · exact hw x hx
  · exact ⟨(hw x hx).1, (hw x hx).2, fun _ => rfl⟩
  · exact ⟨trivial, okRun_next _ _ _⟩
  · exact ⟨trivial, trivial⟩
  · exact ⟨trivial, trivial⟩
  · exact ⟨trivial, trivial⟩
  · exact ⟨trivial, trivial⟩
  · exact ⟨trivial, fun _ h => absurd h (Nat.lt_irrefl 0), fun h => nomatch h⟩

/-- C67, statically aligned elements, one vector. -/
theorem C67_examples_aligned_partial (hA : A.Lawful c) (e : Ex A.ty β) (envs : Nat → Env (Val A.ty β)) (he : ∀ i, (envs i).Valid)
    (hd : ∀ i x, (envs i).dropPanics x = false) (hw : ∀ x ∈ e.vals, x.WF c) :
    (runOps c (alignedM c A) (inTurn envs e.ops) AVec.new).Meets
      (fun os v' => (os = e.shows ∧ v'.Holds c e.leaves ∧ v'.drops = e.drops) ∨ (.panicked ∈ os ∧
        ¬ Along c (alignedM c A) (AVec.Holds c) (fun env op v xs => ¬ AVec.Short c env op v xs) (inTurn envs e.ops) AVec.new ⟨[], []⟩))
      (fun _ => False)
      (¬ Along c (alignedM c A) (AVec.Holds c) (fun env op v xs => ¬ AVec.Short c env op v xs) (inTurn envs e.ops) AVec.new ⟨[], []⟩) := by
  refine documented (AVec.client hA) e hd ⟨AVec.new_holds hA.fits, rfl⟩
    (AlongList.along (fun _ _ _ _ h => h) _ _ _ (along_all (Q := fun env op xs => env.Valid ∧ op.WF c xs ∧ AVec.Covered env op xs) fun x hx xs => ?_))
  obtain ⟨⟨i, h1⟩, h2⟩ := mem_inTurn hx
  clear hx
  obtain ⟨env, op⟩ := x
  dsimp only at h1 h2 ⊢
  subst h1
  refine ⟨he i, ?_⟩
  rcases Ex.mem_ops h2 with ⟨x, hx, rfl | rfl⟩ | ⟨n, rfl⟩ | rfl | rfl | rfl | rfl | rfl
  · exact ⟨hw x hx, trivial⟩
  · exact ⟨hw x hx, fun _ => rfl⟩
  · exact ⟨trivial, okRun_next _ _ _⟩
  all_goals exact ⟨trivial, trivial⟩

/-- C67, sized elements, one vector. Zero-sized elements are not covered: `push` divides by their size (C35). -/
theorem C67_examples_sized_partial (hsz : 0 < sz) (e : Ex (sizedTy sz al) β) (envs : Nat → Env (Val (sizedTy sz al) β))
    (hd : ∀ i x, (envs i).dropPanics x = false) (hw : ∀ x ∈ e.vals, x.WF c) :
    (runOps c (sizedM c sz al) (inTurn envs e.ops) SVec.new).Meets
      (fun os v' => (os = e.shows ∧ v'.Holds c e.leaves ∧ v'.drops = e.drops) ∨ (.panicked ∈ os ∧
        ¬ Along c (sizedM c sz al) (SVec.Holds c) (fun env op v xs => ¬ SVec.Short c env op v xs) (inTurn envs e.ops) SVec.new ⟨[], []⟩))
      (fun _ => False)
      (¬ Along c (sizedM c sz al) (SVec.Holds c) (fun env op v xs => ¬ SVec.Short c env op v xs) (inTurn envs e.ops) SVec.new ⟨[], []⟩) := by
  refine documented SVec.client e hd ⟨SVec.new_holds, rfl⟩
    (AlongList.along (fun _ _ _ _ h => ⟨trivial, h⟩) _ _ _ (along_all (Q := fun env op xs => op.WF c xs ∧ SVec.Covered env op xs) fun x hx xs => ?_))
  obtain ⟨⟨i, h1⟩, h2⟩ := mem_inTurn hx
  clear hx
  obtain ⟨env, op⟩ := x
  dsimp only at h1 h2 ⊢
  subst h1
  rcases Ex.mem_ops h2 with ⟨x, hx, rfl | rfl⟩ | ⟨n, rfl⟩ | rfl | rfl | rfl | rfl | rfl
  · exact ⟨hw x hx, hsz⟩
  · exact ⟨hw x hx, fun _ => hsz⟩
  all_goals exact ⟨trivial, trivial⟩

/-! ## Two vectors -/

/-- C67, dynamically aligned elements, two vectors. The elements are not of size zero. -/
theorem C67_two_unaligned_partial (hu : IsAlign c c.usizeAlign) (e : Ex2 T β) (envs : Nat → Env (Val T β))
    (he : ∀ i, (envs i).Valid ∧ (envs i).Exact) (hw : ∀ x ∈ e.vals, x.WF c ∧ 0 < x.size) :
    (runCmds c (unalignedM c T) (inTurn envs e.cmds) (fun _ => UVec.newAlignPtr c)).Meets
      (fun os f' => (os = e.shows ∧ ((f' 0).Holds c e.leaves.1 ∧ (f' 0).drops = []) ∧ ((f' 1).Holds c e.leaves.2 ∧ (f' 1).drops = [])) ∨
        (.panicked ∈ os ∧ ¬ AlongAll c (unalignedM c T) (UVec.Holds c)
          (fun env cmd f s => ¬ cmd.Lacks (fun op k => UVec.Short c env op (f k) (s k)) s) (inTurn envs e.cmds)
          (fun _ => UVec.newAlignPtr c) (fun _ => ⟨[], []⟩)))
      (fun _ => False)
      (¬ AlongAll c (unalignedM c T) (UVec.Holds c)
        (fun env cmd f s => ¬ cmd.Lacks (fun op k => UVec.Short c env op (f k) (s k)) s) (inTurn envs e.cmds)
        (fun _ => UVec.newAlignPtr c) (fun _ => ⟨[], []⟩)) := by
  refine documented2 e (C63_program_unaligned_partial (G := True) (fun _ => ⟨UVec.newAlignPtr_holds hu, rfl⟩) _
    (alongAll_all (I := Everywhere fun x => 0 < x.size) (fun _ _ h => nomatch h)
      (fun x hx s o s' hs ha => Ex2.everywhere (fun x hx => (hw x hx).2) (mem_inTurn hx).2 hs ha) fun x hx f s hs => ?_))
  obtain ⟨⟨i, h1⟩, h2⟩ := mem_inTurn hx
  clear hx
  obtain ⟨env, cmd⟩ := x
  dsimp only at h1 h2 ⊢
  subst h1
  refine ⟨⟨(he i).1, fun _ => (he i).2⟩, ?_⟩
  have hz : ∀ (v : UVec T β) (x : Val T β), 0 < x.size → v.ZstOk x.size x.align := fun v x h _ h0 => absurd h0 (Nat.ne_of_gt h)
  have hp : ∀ x ys, Take.last.pick (listsOf s 0) = some (x, ys) → 0 < x.size := fun x ys h => hs 0 x (by
    rw [show (s 0).contents = ys ++ [x] from pick_last h]; simp)
  rcases Ex2.mem_cmds h2 with ⟨k, x, hx, rfl⟩ | ⟨k, rfl⟩ | ⟨k, rfl⟩ | rfl | rfl
  · exact ⟨(hw x hx).1, hz _ x (hw x hx).2, fun h => absurd trivial h⟩
  · exact ⟨trivial, trivial⟩
  · exact ⟨trivial, trivial⟩
  · refine ⟨by decide, fun x ys h => ⟨fun _ h => (nomatch h), hz _ x (hp x ys h), fun _ => ?_⟩⟩
    cases h1 : listsOf s 1 with
    | nil => exact .inr (.inl rfl)
    | cons y zs => exact .inl (Nat.succ_pos _)
  · exact ⟨by decide, fun x ys h => ⟨fun _ h => (nomatch h), hz _ x (hp x ys h)⟩⟩

/-- C67, statically aligned elements, two vectors. -/
theorem C67_two_aligned_partial (hA : A.Lawful c) (e : Ex2 A.ty β) (envs : Nat → Env (Val A.ty β)) (he : ∀ i, (envs i).Valid)
    (hw : ∀ x ∈ e.vals, x.WF c) :
    (runCmds c (alignedM c A) (inTurn envs e.cmds) (fun _ => AVec.new)).Meets
      (fun os f' => (os = e.shows ∧ ((f' 0).Holds c e.leaves.1 ∧ (f' 0).drops = []) ∧ ((f' 1).Holds c e.leaves.2 ∧ (f' 1).drops = [])) ∨
        (.panicked ∈ os ∧ ¬ AlongAll c (alignedM c A) (AVec.Holds c)
          (fun env cmd f s => ¬ cmd.Lacks (fun op k => AVec.Short c env op (f k) (s k)) s) (inTurn envs e.cmds)
          (fun _ => AVec.new) (fun _ => ⟨[], []⟩)))
      (fun _ => False)
      (¬ AlongAll c (alignedM c A) (AVec.Holds c)
        (fun env cmd f s => ¬ cmd.Lacks (fun op k => AVec.Short c env op (f k) (s k)) s) (inTurn envs e.cmds)
        (fun _ => AVec.new) (fun _ => ⟨[], []⟩)) := by
  refine documented2 e (C63_program_aligned_partial hA (fun _ => ⟨AVec.new_holds hA.fits, rfl⟩) _ (alongLists_all fun x hx s => ?_))
  obtain ⟨⟨i, h1⟩, h2⟩ := mem_inTurn hx
  clear hx
  obtain ⟨env, cmd⟩ := x
  dsimp only at h1 h2 ⊢
  subst h1
  refine ⟨he i, ?_⟩
  rcases Ex2.mem_cmds h2 with ⟨k, x, hx, rfl⟩ | ⟨k, rfl⟩ | ⟨k, rfl⟩ | rfl | rfl
  · exact ⟨hw x hx, trivial⟩
  · exact ⟨trivial, trivial⟩
  · exact ⟨trivial, trivial⟩
  · exact ⟨by decide, fun x ys h => ⟨fun _ h => (nomatch h), trivial⟩⟩
  · exact ⟨by decide, fun x ys h => ⟨fun _ h => (nomatch h), trivial⟩⟩

/-- C67, sized elements, two vectors. -/
theorem C67_two_sized_partial (hsz : 0 < sz) (e : Ex2 (sizedTy sz al) β) (envs : Nat → Env (Val (sizedTy sz al) β))
    (hw : ∀ x ∈ e.vals, x.WF c) :
    (runCmds c (sizedM c sz al) (inTurn envs e.cmds) (fun _ => SVec.new)).Meets
      (fun os f' => (os = e.shows ∧ ((f' 0).Holds c e.leaves.1 ∧ (f' 0).drops = []) ∧ ((f' 1).Holds c e.leaves.2 ∧ (f' 1).drops = [])) ∨
        (.panicked ∈ os ∧ ¬ AlongAll c (sizedM c sz al) (SVec.Holds c)
          (fun env cmd f s => ¬ cmd.Lacks (fun op k => SVec.Short c env op (f k) (s k)) s) (inTurn envs e.cmds)
          (fun _ => SVec.new) (fun _ => ⟨[], []⟩)))
      (fun _ => False)
      (¬ AlongAll c (sizedM c sz al) (SVec.Holds c)
        (fun env cmd f s => ¬ cmd.Lacks (fun op k => SVec.Short c env op (f k) (s k)) s) (inTurn envs e.cmds)
        (fun _ => SVec.new) (fun _ => ⟨[], []⟩)) := by
  refine documented2 e (C63_program_sized_partial (fun _ => ⟨SVec.new_holds, rfl⟩) _
    (AlongLists.along (fun _ _ _ _ h => h) _ _ _ (alongLists_all (Q := fun env cmd s => cmd.Asks c (fun op k => SVec.Covered env op (s k)) s ∧
      ¬ cmd.Removes) fun x hx s => ?_) |>.imp fun _ _ _ _ h => ⟨h.1, fun hr => absurd hr h.2⟩))
  obtain ⟨⟨i, h1⟩, h2⟩ := mem_inTurn hx
  clear hx
  obtain ⟨env, cmd⟩ := x
  dsimp only at h1 h2 ⊢
  subst h1
  rcases Ex2.mem_cmds h2 with ⟨k, x, hx, rfl⟩ | ⟨k, rfl⟩ | ⟨k, rfl⟩ | rfl | rfl
  · exact ⟨⟨hw x hx, hsz⟩, fun h => h⟩
  · exact ⟨⟨trivial, trivial⟩, fun h => h⟩
  · exact ⟨⟨trivial, trivial⟩, fun h => h⟩
  · exact ⟨⟨by decide, fun x ys h => ⟨fun _ h => (nomatch h), trivial⟩⟩, fun h => h⟩
  · exact ⟨⟨by decide, fun x ys h => ⟨fun _ h => (nomatch h), trivial⟩⟩, fun h => h⟩

/-! ## The examples that are wrong -/

/-- C67, the example of `unsized_vec!` (src/lib.rs 1572–1584), statically aligned elements: a vector of sized values is unsized and
its last element is removed. It always gives the last but one element. -/
theorem C67_unsizedVec_aligned (hA : A.Lawful c) (hX : A.Exact) {r : RawVec β} {xs : List (List β)} {y z : List β}
    (h : r.Holds c (xs ++ [y, z])) {md : A.ty.Meta} (hs : A.ty.sizeOf md = r.elemSize) (ha : A.ALIGN = r.elemAlign)
    (h0 : A.ty.sizeOf (A.dec (A.enc md) 0) = 0) (h1 : A.enc (A.dec (A.enc md) 0) = A.enc md) {env env' : Env (Val A.ty β)} {v : AVec A β}
    (hv : AVec.unsize c env r md () = .ok v ()) (he : env'.Valid) :
    ∃ v', runOps c (alignedM c A) [(env', .remove (xs.length + 1) .take)] v = .ok [.value (unsized md y)] v' := by
  have hx : ∃ w ws, xs ++ [y, z] = w :: ws := by cases xs <;> exact ⟨_, _, rfl⟩
  obtain ⟨w, ws, hx⟩ := hx
  rw [hx] at h
  obtain ⟨h2, h3⟩ := C22_unsize_aligned_holds hA hX h hs ha h0 h1 hv
  rw [← hx, show (xs ++ [y, z]).dropLast = xs ++ [y] by simp] at h2
  have h4 := C36_program_aligned_partial hA (v := v) (s := ⟨_, []⟩) ⟨h2, h3⟩ [(env', .remove (xs.length + 1) .take)]
    ⟨⟨he, trivial, trivial⟩, fun _ _ _ => trivial⟩
  generalize hr : runOps c (alignedM c A) [(env', .remove (xs.length + 1) .take)] v = r' at h4 ⊢
  have hne : ∀ s : Ideal A.ty β, Along c (alignedM c A) (AVec.Holds c) (fun env op v xs => ¬ AVec.Short c env op v xs ∧ ¬ op.Dies env.dropPanics xs)
      [(env', .remove (xs.length + 1) .take)] v s := fun s => ⟨⟨fun h => h, fun h => h⟩, fun _ _ _ _ _ _ => trivial⟩
  cases r' with
  | ok os v' =>
    obtain ⟨s', _, _, h5⟩ := h4
    have h6 := congrArg Prod.fst (h5 ⟨fun h => h, fun _ _ _ _ _ _ => trivial⟩)
    have h7 : os = [.value (unsized md y)] := by
      refine h6.trans ?_
      simp [listRun, Op.onList, Dst.onList]
    exact ⟨v', by rw [h7]⟩
  | panic v' => exact h4.elim
  | abort => exact absurd (hne _) h4
  | ub => exact h4.elim

end

/-! ## Examples and counterexamples -/
section
open Sample

/-- A vector of `u32`s, as in the documentation of `unsize`: `vec![3, 4, 5]`. -/
def rawWords : RawVec Nat where
  elemSize := 4
  elemAlign := 4
  ptr := 4096
  cap := 3
  len := 3
  heap := ⟨fun i => [3, 0, 0, 0, 4, 0, 0, 0, 5, 0, 0, 0].getD i 0, some ⟨4096, 12, 12, 4⟩, 0⟩

theorem rawWords_holds : rawWords.Holds c64 [[3, 0, 0, 0], [4, 0, 0, 0], [5, 0, 0, 0]] := by
  refine ⟨rfl, by decide, ⟨2, by decide, rfl⟩, by decide, by decide, by decide, by decide, ?_, by
    refine ⟨?_, ?_, ?_, ?_, ?_, ?_, ?_⟩ <;> decide, rfl⟩
  decide

/-- The example of `unsize` (src/lib.rs 1143–1154) shows `[3, 3, 4]`. -/
theorem C67_counterexample_unsize : (UVec.fromSized (T := Dyn) c64 rawWords (4, 4)).bind (UVec.observe c64) =
    some [dyn 4 [3, 0, 0, 0], dyn 4 [3, 0, 0, 0], dyn 4 [4, 0, 0, 0]] := by decide

/-- The elements of the example of `unsized_vec!` (bytes in place of `u32`s): `[[23, 17], [16, 34], [23, 47]]`. -/
def rawPairs : RawVec Nat where
  elemSize := 2
  elemAlign := 1
  ptr := 4096
  cap := 3
  len := 3
  heap := ⟨fun i => [23, 17, 16, 34, 23, 47].getD i 0, some ⟨4096, 6, 6, 1⟩, 0⟩

theorem rawPairs_holds : rawPairs.Holds c64 ([[23, 17]] ++ [[16, 34], [23, 47]]) := by
  refine ⟨rfl, by decide, ⟨0, by decide, rfl⟩, by decide, by decide, by decide, by decide, ?_, by
    refine ⟨?_, ?_, ?_, ?_, ?_, ?_, ?_⟩ <;> decide, rfl⟩
  decide

/-- The example of `unsized_vec!` moves `[16, 34]` into the other vector, not `[23, 47]`. -/
theorem C67_counterexample_unsizedVec : (AVec.fromSized (A := Bytes) c64 rawPairs (2 : Nat)).bind
    (fun v => observed (runOps c64 (alignedM c64 Bytes) [(env, .remove 2 .take)] v)) = some [[5, 16, 34]] := by decide +kernel

/-- The example of `UnsizedVec` with two values of different alignment. -/
def exMain : Ex Dyn Nat := .main [dyn 4 [5, 0, 0, 0]] (dyn 1 [7, 8, 9])

theorem exMain_vals : ∀ x ∈ exMain.vals, x.WF c64d ∧ UVec.Addable c64d.usizeAlign 8 x.size x.align := by
  intro x hx
  have hx : x ∈ [dyn 4 [5, 0, 0, 0], dyn 1 [7, 8, 9]] := hx
  simp only [List.mem_cons, List.not_mem_nil, or_false] at hx
  rcases hx with rfl | rfl
  · exact ⟨dyn_wf 2 _ (by decide) (by decide) (by decide) _ (.inr rfl), by unfold UVec.Addable; decide⟩
  · exact ⟨dyn_wf 0 _ (by decide) (by decide) (by decide) _ (.inr rfl), by unfold UVec.Addable; decide⟩

example : observed (runOps c64d (unalignedM c64d Dyn) (inTurn (fun _ => env) exMain.ops) (UVec.newAlignPtr c64d)) =
    some (exMain.shows.map Out.digits) := by decide +kernel
example : exMain.shows = [.done, .done, .values [some (dyn 4 [5, 0, 0, 0]), some (dyn 1 [7, 8, 9]), none], .number 2, .value (dyn 1 [7, 8, 9]), .number 1] := rfl

attribute [local irreducible] runOps runCmds

example := C67_examples_unaligned_partial (c := c64d) (hi := 8) c64d_usizeAlign ⟨3, by decide, rfl⟩ (by decide) exMain (fun _ => env)
  (fun _ => ⟨env_valid, env_exact⟩) (fun _ _ => rfl) exMain_vals

/-- The example of `pop_into`, with slices. -/
example := C67_examples_aligned_partial (c := c64d) (bytes_lawful c64d (.inr rfl)) (.pop (bytes [1]) (bytes []) (bytes [2, 3])) (fun _ => env)
  (fun _ => env_valid) (fun _ _ => rfl) (by
    intro x hx
    have hx : x ∈ [bytes [1], bytes [], bytes [2, 3]] := hx
    simp only [List.mem_cons, List.not_mem_nil, or_false] at hx
    rcases hx with rfl | rfl | rfl <;> exact bytes_wf _ (by decide) _ (.inr rfl))

/-- The example of `remove_into`, with values of size 2. -/
example := C67_examples_sized_partial (c := c64d) (sz := 2) (al := 1) (by decide) (.remove ⟨(), [1, 2]⟩ ⟨(), [3, 4]⟩) (fun _ => (env : Env (Val (sizedTy 2 1) Nat)))
  (fun _ _ => rfl) (by
    intro x hx
    have hx : x ∈ [(⟨(), [1, 2]⟩ : Val (sizedTy 2 1) Nat), ⟨(), [3, 4]⟩] := hx
    simp only [List.mem_cons, List.not_mem_nil, or_false] at hx
    rcases hx with rfl | rfl <;> exact ⟨rfl, ⟨0, by decide, rfl⟩, ⟨2, rfl⟩, by show 2 + 0 ≤ _; decide⟩)

/-- The example of `insert_with`, with values of three alignments. -/
def exInsert : Ex2 Dyn Nat := .insertWith (dyn 4 [1, 2, 3, 4]) (dyn 16 (List.range 16)) (dyn 1 [3])

theorem exInsert_vals : ∀ x ∈ exInsert.vals, x.WF c64d ∧ 0 < x.size := by
  intro x hx
  have hx : x ∈ [dyn 4 [1, 2, 3, 4], dyn 16 (List.range 16), dyn 1 [3]] := hx
  simp only [List.mem_cons, List.not_mem_nil, or_false] at hx
  rcases hx with rfl | rfl | rfl
  · exact ⟨dyn_wf 2 _ (by decide) (by decide) (by decide) _ (.inr rfl), by decide⟩
  · exact ⟨dyn_wf 4 _ (by decide) (by decide) (by decide) _ (.inr rfl), by decide⟩
  · exact ⟨dyn_wf 0 _ (by decide) (by decide) (by decide) _ (.inr rfl), by decide⟩

example := C67_two_unaligned_partial (c := c64d) c64d_usizeAlign exInsert (fun _ => env) (fun _ => ⟨env_valid, env_exact⟩) exInsert_vals

unseal runCmds in
example : observed (runCmds c64d (unalignedM c64d Dyn) (inTurn (fun _ => env) exInsert.cmds) (fun _ => UVec.newAlignPtr c64d)) =
    some (exInsert.shows.map Out.digits) := by decide +kernel

/-- The example of `push_with`, with slices. -/
example := C67_two_aligned_partial (c := c64d) (bytes_lawful c64d (.inr rfl)) (.pushWith (bytes [1]) (bytes [])) (fun _ => env)
  (fun _ => env_valid) (by
    intro x hx
    have hx : x ∈ [bytes [1], bytes []] := hx
    simp only [List.mem_cons, List.not_mem_nil, or_false] at hx
    rcases hx with rfl | rfl <;> exact bytes_wf _ (by decide) _ (.inr rfl))

/-- The literals of the documentation. -/
example : ∃ v, AVec.unsize (A := Bytes) c64 env rawPairs (2 : Nat) () = .ok v () ∧
    ∃ v', runOps c64 (alignedM c64 Bytes) [(env, .remove 2 .take)] v = .ok [.value (bytes [16, 34])] v' :=
  ⟨_, rfl, C67_unsizedVec_aligned (bytes_lawful _ (.inl rfl)) (fun _ => rfl) rawPairs_holds (md := (2 : Nat)) rfl rfl rfl rfl (env := env) rfl
    env_valid⟩

end
end Verif
