import Verif.Proofs.SeveralInst
import Verif.Props.History

/-!
# C63: programs that use several vectors

The programs are lists of commands (`Verif/Model/Several.lean`): calls on one of any number of vectors, and moves of an element, in
place, from one vector to another. Panics are caught and the program goes on. As for C36, the theorems cover the commands for
which the code does what it should.
-/

namespace Verif
section
variable {T : UTy} {A : ATy} {β : Type} [Inhabited β] {c : Cfg} {sz al : Nat}

omit [Inhabited β] in
/-- The moves of C44 are moves in this sense. -/
theorem moving_last {V : Type} (P : Provider V T β) (env : Env (Val T β)) (s : V × V) : moving P env .last .push s = moveLast P env s := by
  unfold moving moveLast
  rw [Exec.get_bind]
  cases h : Api.popInto P env s.1 with
  | none =>
    refine Exec.bind_panic (liftL_panic ?_)
    unfold Take.open
    dsimp only
    rw [Exec.get_bind, h]; rfl
  | some e =>
    refine Exec.bind_ok (liftL_ok ?_)
    unfold Take.open
    dsimp only
    rw [Exec.get_bind, h]; rfl

omit [Inhabited β] in
theorem moving_at {V : Type} (P : Provider V T β) (env : Env (Val T β)) (i : Nat) (s : V × V) (hi : i < P.len s.1) :
    moving P env (.at i) .push s = moveAt P env i s := by
  unfold moving moveAt
  refine Exec.bind_ok (liftL_ok ?_)
  unfold Take.open
  dsimp only
  rw [Exec.get_bind]
  exact Exec.bind_ok (if_pos hi)

/-- C63, statically aligned elements: a program of covered commands has no undefined behaviour; what it observes is what the same
commands on lists would show, except that a command that needs memory may fail and then changes nothing (but an element already
taken out by `pop_into` is lost); and if memory is never short there is no exception. The process is aborted only if memory is
short, or if a value is rejected because of a wrong index and its destructor panics. -/
theorem C63_program_aligned_partial (hA : A.Lawful c) {f : Nat → AVec A β} {s : Nat → Ideal A.ty β}
    (h : TracksAll (alignedM c A) (AVec.Holds c) f s) (cmds : List (Env (Val A.ty β) × Cmd A.ty β))
    (hs : AlongLists (fun env cmd s => env.Valid ∧ cmd.Asks c (fun op k => AVec.Covered env op (s k)) s) cmds s) :
    (runCmds c (alignedM c A) cmds f).Meets
      (fun os f' => ∃ s', TracksAll (alignedM c A) (AVec.Holds c) f' s' ∧ ExplainsAll cmds s os s' ∧
        (AlongAll c (alignedM c A) (AVec.Holds c) (fun env cmd f s => ¬ cmd.Lacks (fun op k => AVec.Short c env op (f k) (s k)) s) cmds f s →
          (os, s') = listsRun cmds s))
      (fun _ => False)
      (¬ AlongAll c (alignedM c A) (AVec.Holds c)
        (fun env cmd f s => ¬ cmd.Lacks (fun op k => AVec.Short c env op (f k) (s k)) s ∧ ¬ cmd.Dies env.dropPanics s) cmds f s) :=
  (AVec.mover hA).history cmds f s h (AlongLists.along (fun _ _ _ _ h => ⟨h.1, h.2, fun _ => .inl fun _ => rfl⟩) cmds f s hs)

/-- C63, sized elements. Moving an element out of the middle is covered only if there is memory for it in the other vector: if not, an
element is lost (`C63_counterexample_sized`). -/
theorem C63_program_sized_partial {f : Nat → SVec sz al β} {s : Nat → Ideal (sizedTy sz al) β}
    (h : TracksAll (sizedM c sz al) (SVec.Holds c) f s) (cmds : List (Env (Val (sizedTy sz al) β) × Cmd (sizedTy sz al) β))
    (hs : AlongAll c (sizedM c sz al) (SVec.Holds c) (fun env cmd f s => cmd.Asks c (fun op k => SVec.Covered env op (s k)) s ∧
      (cmd.Removes → ¬ cmd.Lacks (fun op k => SVec.Short c env op (f k) (s k)) s)) cmds f s) :
    (runCmds c (sizedM c sz al) cmds f).Meets
      (fun os f' => ∃ s', TracksAll (sizedM c sz al) (SVec.Holds c) f' s' ∧ ExplainsAll cmds s os s' ∧
        (AlongAll c (sizedM c sz al) (SVec.Holds c) (fun env cmd f s => ¬ cmd.Lacks (fun op k => SVec.Short c env op (f k) (s k)) s) cmds f s →
          (os, s') = listsRun cmds s))
      (fun _ => False)
      (¬ AlongAll c (sizedM c sz al) (SVec.Holds c)
        (fun env cmd f s => ¬ cmd.Lacks (fun op k => SVec.Short c env op (f k) (s k)) s ∧ ¬ cmd.Dies env.dropPanics s) cmds f s) :=
  SVec.mover.history cmds f s h (hs.imp (fun _ _ _ _ h => ⟨trivial, h.1, fun hr => .inr (h.2 hr)⟩))

/-- C63, dynamically aligned elements. Which commands are covered depends on the alignment and the memory of the vectors at that
time. -/
theorem C63_program_unaligned_partial {G : Prop} {f : Nat → UVec T β} {s : Nat → Ideal T β}
    (h : TracksAll (unalignedM c T) (UVec.Represents G c) f s) (cmds : List (Env (Val T β) × Cmd T β))
    (hs : AlongAll c (unalignedM c T) (UVec.Represents G c) (fun env cmd f s => (env.Valid ∧ (G → env.Exact)) ∧
      cmd.Asks c (fun op k => UVec.Covered G c env op (f k) (s k)) s) cmds f s) :
    (runCmds c (unalignedM c T) cmds f).Meets
      (fun os f' => ∃ s', TracksAll (unalignedM c T) (UVec.Represents G c) f' s' ∧ ExplainsAll cmds s os s' ∧
        (AlongAll c (unalignedM c T) (UVec.Represents G c) (fun env cmd f s => ¬ cmd.Lacks (fun op k => UVec.Short c env op (f k) (s k)) s) cmds f s →
          (os, s') = listsRun cmds s))
      (fun _ => False)
      (¬ AlongAll c (unalignedM c T) (UVec.Represents G c)
        (fun env cmd f s => ¬ cmd.Lacks (fun op k => UVec.Short c env op (f k) (s k)) s ∧ ¬ cmd.Dies env.dropPanics s) cmds f s) :=
  (UVec.mover G c T).history cmds f s h (hs.imp (fun _ _ _ _ h => ⟨h.1, h.2, fun _ => .inl fun _ => rfl⟩))

/-! ## Ownership -/

omit [Inhabited β] in
/-- C63, ownership: in every run that is explained by lists, every value handed to one of the vectors (`g`), in one of them before or
dropped before is afterwards exactly one of: in one of the vectors, dropped, moved out of all of them or lost (`r`). -/
theorem C63_balance {n : Nat} {cmds : List (Env (Val T β) × Cmd T β)} {s : Nat → Ideal T β} {os : List (Out T β)} {s' : Nat → Ideal T β}
    (h : ExplainsAll cmds s os s') (hb : ∀ p ∈ cmds, p.2.Below n) :
    ∃ g r, Books cmds s os s' g r ∧ List.Perm (g ++ (allIn n s ++ allDropped n s)) (allIn n s' ++ allDropped n s' ++ r) := by
  obtain ⟨g, r, h1⟩ := h.books
  exact ⟨g, r, h1, h1.balance hb⟩

omit [Inhabited β] in
/-- The books of a program that starts with empty vectors, after all of them have been dropped. -/
theorem books_life {n : Nat} {cmds : List (Env (Val T β) × Cmd T β)} {os : List (Out T β)} {s' : Nat → Ideal T β}
    (h : ExplainsAll cmds (fun _ => ⟨[], []⟩) os s') (hb : ∀ p ∈ cmds, p.2.Below n) {ds : Nat → List (Val T β)}
    (hd : ∀ k, ds k = (s' k).dropped ++ (s' k).contents) :
    ∃ g r, Books cmds (fun _ => ⟨[], []⟩) os s' g r ∧ List.Perm g ((List.range n).flatMap ds ++ r) := by
  obtain ⟨g, r, h1, h2⟩ := C63_balance h hb
  refine ⟨g, r, h1, ?_⟩
  have h3 : ∀ n, allIn n (fun _ => (⟨[], []⟩ : Ideal T β)) = [] ∧ allDropped n (fun _ => (⟨[], []⟩ : Ideal T β)) = [] := by
    intro n; unfold allIn allDropped; simp
  have h4 : ∀ n, List.Perm (allIn n s' ++ allDropped n s') ((List.range n).flatMap ds) := by
    intro n
    unfold allIn allDropped
    induction n with
    | zero => exact List.Perm.refl _
    | succ n ih =>
      refine perm_of_counts fun a => ?_
      have := ih.count_eq a
      simp only [List.range_succ, List.flatMap_append, List.flatMap_cons, List.flatMap_nil, List.append_nil, List.count_append, hd] at this ⊢
      omega
  rw [(h3 n).1, (h3 n).2] at h2
  simp only [List.append_nil] at h2
  exact h2.trans ((h4 n).append_right r)

/-- C63, statically aligned elements: the whole life of several vectors. They are created, used by a program that moves elements
between them, and dropped: if no destructor panics at the end, then every value that was handed to one of them has been dropped
exactly once, or was moved out or lost, and all memory is free. -/
theorem C63_life_aligned_partial (hA : A.Lawful c) {n : Nat} (cmds : List (Env (Val A.ty β) × Cmd A.ty β))
    (hs : AlongLists (fun env cmd s => env.Valid ∧ cmd.Asks c (fun op k => AVec.Covered env op (s k)) s) cmds (fun _ => ⟨[], []⟩))
    (hb : ∀ p ∈ cmds, p.2.Below n) (env : Env (Val A.ty β)) (hp : ∀ x, env.dropPanics x = false) {os : List (Out A.ty β)}
    {f : Nat → AVec A β} (hr : runCmds c (alignedM c A) cmds (fun _ => AVec.new) = .ok os f) :
    ∃ (f' : Nat → AVec A β) (s' : Nat → Ideal A.ty β) (g r : List (Val A.ty β)),
      (∀ k, (alignedM c A).drop env (f k) = .ok () (f' k) ∧ (f' k).heap.block = none ∧ (f' k).heap.leaks = 0) ∧
      Books cmds (fun _ => ⟨[], []⟩) os s' g r ∧ List.Perm g ((List.range n).flatMap (fun k => (f' k).drops) ++ r) := by
  have h := C63_program_aligned_partial hA (f := fun _ => AVec.new) (s := fun _ => ⟨[], []⟩) (fun _ => ⟨AVec.new_holds hA.fits, rfl⟩) cmds hs
  rw [hr] at h
  obtain ⟨s', h1, h2, _⟩ := h
  have h3 : ∀ k, ∃ v', (alignedM c A).drop env (f k) = .ok () v' ∧ (v'.heap.block = none ∧ v'.heap.leaks = 0) ∧
      v'.drops = (s' k).dropped ++ (s' k).contents := by
    intro k
    obtain ⟨v', h4, h5, h6, h7⟩ := C21_drop_aligned_returns hA.fits (h1 k).1 (env := env) (fun x _ => hp x)
    exact ⟨v', h4, ⟨h6, h7⟩, h5.trans (by rw [show (f k).drops = (s' k).dropped from (h1 k).2])⟩
  have h4 := fun k => (h3 k).choose_spec
  obtain ⟨g, r, h5, h6⟩ := books_life h2 hb (fun k => (h4 k).2.2)
  exact ⟨fun k => (h3 k).choose, s', g, r, fun k => ⟨(h4 k).1, (h4 k).2.1⟩, h5, h6⟩

/-- C63, the whole life, dynamically aligned elements. -/
theorem C63_life_unaligned_partial {G : Prop} (hu : IsAlign c c.usizeAlign) {n : Nat} (cmds : List (Env (Val T β) × Cmd T β))
    (hs : AlongAll c (unalignedM c T) (UVec.Represents G c) (fun env cmd f s => (env.Valid ∧ (G → env.Exact)) ∧
      cmd.Asks c (fun op k => UVec.Covered G c env op (f k) (s k)) s) cmds (fun _ => UVec.newAlignPtr c) (fun _ => ⟨[], []⟩))
    (hb : ∀ p ∈ cmds, p.2.Below n) (env : Env (Val T β)) (hp : ∀ x, env.dropPanics x = false) {os : List (Out T β)}
    {f : Nat → UVec T β} (hr : runCmds c (unalignedM c T) cmds (fun _ => UVec.newAlignPtr c) = .ok os f) :
    ∃ (f' : Nat → UVec T β) (s' : Nat → Ideal T β) (g r : List (Val T β)),
      (∀ k, (unalignedM c T).drop env (f k) = .ok () (f' k) ∧ (f' k).heap.block = none ∧ (f' k).heap.leaks = 0) ∧
      Books cmds (fun _ => ⟨[], []⟩) os s' g r ∧ List.Perm g ((List.range n).flatMap (fun k => (f' k).drops) ++ r) := by
  have h := C63_program_unaligned_partial (f := fun _ => UVec.newAlignPtr c) (s := fun _ => ⟨[], []⟩)
    (fun _ => ⟨UVec.newAlignPtr_represents hu, rfl⟩) cmds hs
  rw [hr] at h
  obtain ⟨s', h1, h2, _⟩ := h
  have h3 : ∀ k, ∃ v', (unalignedM c T).drop env (f k) = .ok () v' ∧ (v'.heap.block = none ∧ v'.heap.leaks = 0) ∧
      v'.drops = (s' k).dropped ++ (s' k).contents := by
    intro k
    obtain ⟨v', h4, h5, h6, h7⟩ := C21_drop_unaligned_returns (h1 k).1 (env := env) (fun x _ => hp x)
    exact ⟨v', h4, ⟨h6, h7⟩, h5.trans (by rw [show (f k).drops = (s' k).dropped from (h1 k).2])⟩
  have h4 := fun k => (h3 k).choose_spec
  obtain ⟨g, r, h5, h6⟩ := books_life h2 hb (fun k => (h4 k).2.2)
  exact ⟨fun k => (h3 k).choose, s', g, r, fun k => ⟨(h4 k).1, (h4 k).2.1⟩, h5, h6⟩

/-- C63, the whole life, sized elements. -/
theorem C63_life_sized_partial {n : Nat} (cmds : List (Env (Val (sizedTy sz al) β) × Cmd (sizedTy sz al) β))
    (hs : AlongAll c (sizedM c sz al) (SVec.Holds c) (fun env cmd f s => cmd.Asks c (fun op k => SVec.Covered env op (s k)) s ∧
      (cmd.Removes → ¬ cmd.Lacks (fun op k => SVec.Short c env op (f k) (s k)) s)) cmds (fun _ => SVec.new) (fun _ => ⟨[], []⟩))
    (hb : ∀ p ∈ cmds, p.2.Below n) (env : Env (Val (sizedTy sz al) β)) (hp : ∀ x, env.dropPanics x = false)
    {os : List (Out (sizedTy sz al) β)} {f : Nat → SVec sz al β} (hr : runCmds c (sizedM c sz al) cmds (fun _ => SVec.new) = .ok os f) :
    ∃ (f' : Nat → SVec sz al β) (s' : Nat → Ideal (sizedTy sz al) β) (g r : List (Val (sizedTy sz al) β)),
      (∀ k, (sizedM c sz al).drop env (f k) = .ok () (f' k)) ∧
      Books cmds (fun _ => ⟨[], []⟩) os s' g r ∧ List.Perm g ((List.range n).flatMap (fun k => (f' k).drops) ++ r) := by
  have h := C63_program_sized_partial (f := fun _ => SVec.new) (s := fun _ => ⟨[], []⟩) (fun _ => ⟨SVec.new_holds, rfl⟩) cmds hs
  rw [hr] at h
  obtain ⟨s', h1, h2, _⟩ := h
  have h3 : ∀ k, ∃ v', (sizedM c sz al).drop env (f k) = .ok () v' ∧ v'.drops = (s' k).dropped ++ (s' k).contents := by
    intro k
    have h5 := C21_drop_sized (h1 k).1 env
    cases h6 : SVec.drop env (f k) with
    | ok u v' =>
      rw [h6] at h5
      exact ⟨v', h6, h5.1.1.trans (by rw [show (f k).drops = (s' k).dropped from (h1 k).2])⟩
    | panic v' =>
      rw [h6] at h5
      obtain ⟨⟨_, x, _, h7⟩, _⟩ := h5
      rw [hp x] at h7; cases h7
    | abort =>
      rw [h6] at h5
      obtain ⟨i, j, hi, hj, _, h7, _⟩ := h5
      rw [hp] at h7; cases h7
    | ub => rw [h6] at h5; exact h5.elim
  have h4 := fun k => (h3 k).choose_spec
  obtain ⟨g, r, h5, h6⟩ := books_life h2 hb (fun k => (h4 k).2)
  exact ⟨fun k => (h3 k).choose, s', g, r, fun k => (h4 k).1, h5, h6⟩

omit [Inhabited β] in
/-- The other vector cannot have one more element: its memory would exceed the address space. -/
theorem SVec.pushWith_overflow {a : SVec sz al β} {env : Env (Val (sizedTy sz al) β)} (hf : a.capacity c = a.len)
    (hm : maxSlots c sz < a.len + 1) (lay : Layout) (md : Unit) : SVec.pushWith c env lay md a = .panic a := by
  have h1 : stdReserve (maxSlots c sz) (a.capacity c) a.len 1 env.infoGrow = .error .capacityOverflow := by
    unfold stdReserve
    rw [if_neg (by omega), if_pos hm]
  have h2 : SVec.tryReserve c env 1 a = .ok (.error .capacityOverflow) a := by
    unfold SVec.tryReserve
    rw [Exec.get_bind, h1]; rfl
  unfold SVec.pushWith
  rw [Exec.bind_ok h2]
  exact Exec.bind_panic rfl

/-- What the code does in the case that `C63_program_sized_partial` leaves out: if the other vector cannot have one more element, the
move panics, and the last element of the first vector is lost: it is in neither vector, and it is not dropped. -/
theorem C63_move_sized_overflow {a b : SVec sz al β} {ys : List (Val (sizedTy sz al) β)} (hb : b.Holds c ys)
    (env : Env (Val (sizedTy sz al) β)) {i : Nat} (hi : i < ys.length) (hf : a.capacity c = a.len) (hm : SVec.maxSlots c sz < a.len + 1) :
    ∃ b', moving (sizedP c sz al) env (.at i) .push (b, a) = .panic (b', a) ∧ b'.Holds c ys.dropLast ∧ b'.drops = b.drops := by
  rw [moving_at _ _ _ _ (by show i < b.len; rw [hb.len]; exact hi)]
  have h1 := C05_removeInto_sized hb env hi (Api.pushWith (sizedP c sz al) env) a
  rw [given_run_panic (m := Api.pushWith (sizedP c sz al) env) (SVec.pushWith_overflow hf hm _ ())] at h1
  obtain ⟨b', h2, h3⟩ := h1.panic
  exact ⟨b', h2, h3⟩

end

/-! ## Examples -/
section
open Sample

theorem observed_ok {σ : Type} {T : UTy} {r : Res σ (List (Out T Nat))} {l : List (List Nat)} (h : observed r = some l) : ∃ os f, r = .ok os f := by
  cases r with
  | ok os f => exact ⟨os, f, rfl⟩
  | panic _ => nomatch h
  | abort => nomatch h
  | ub => nomatch h

/-- Four moves between three vectors: an element from the middle to the end of another vector; the last element to the front of it; an
element that is dropped because of a wrong index; and one from an empty vector, which panics. -/
def progM : List (Env (Val Bytes.ty Nat) × Cmd Bytes.ty Nat) :=
  [(env, .call 0 (.push (bytes [1]))), (env, .call 0 (.push (bytes [2, 3]))), (env, .call 0 (.push (bytes [4, 5, 6]))),
   (env, .move (.at 1) 0 .push 1), (env, .move .last 0 (.insert 0) 1), (env, .move .last 0 (.insert 9) 2), (env, .move .last 2 .push 0),
   (env, .call 1 (.get 0)), (env, .call 1 (.get 1)), (env, .call 0 .len)]

theorem progM_ok : AlongLists (fun env cmd s => env.Valid ∧ cmd.Asks c64d (fun op k => AVec.Covered env op (s k)) s) progM (fun _ => ⟨[], []⟩) := by
  have w : ∀ bs : List Nat, bs.length ≤ 3 → (bytes bs).WF c64d :=
    fun bs h => bytes_wf bs (Nat.le_trans h (by decide)) c64d (.inr rfl)
  exact ⟨⟨env_valid, w _ (by decide), trivial⟩, fun _ _ _ => ⟨⟨env_valid, w _ (by decide), trivial⟩, fun _ _ _ =>
    ⟨⟨env_valid, w _ (by decide), trivial⟩, fun _ _ _ =>
    ⟨⟨env_valid, by decide, fun _ _ _ => ⟨fun _ _ => trivial, trivial⟩⟩, fun _ _ _ =>
    ⟨⟨env_valid, by decide, fun _ _ _ => ⟨fun _ _ => trivial, trivial⟩⟩, fun _ _ _ =>
    ⟨⟨env_valid, by decide, fun _ _ _ => ⟨fun _ _ => trivial, trivial⟩⟩, fun _ _ _ =>
    ⟨⟨env_valid, by decide, fun _ _ _ => ⟨fun _ _ => trivial, trivial⟩⟩, fun _ _ _ =>
    ⟨⟨env_valid, trivial, trivial⟩, fun _ _ _ => ⟨⟨env_valid, trivial, trivial⟩, fun _ _ _ => ⟨⟨env_valid, trivial, trivial⟩, fun _ _ _ => trivial⟩⟩⟩⟩⟩⟩⟩⟩⟩⟩

example := C63_program_aligned_partial (bytes_lawful c64d (.inr rfl)) (f := fun _ => AVec.new) (s := fun _ => ⟨[], []⟩)
  (fun _ => ⟨AVec.new_holds (bytes_lawful c64d (.inr rfl)).fits, rfl⟩) progM progM_ok

theorem progM_run : observed (runCmds c64d (alignedM c64d Bytes) progM (fun _ => AVec.new)) =
    some [[0], [0], [0], [0], [0], [1], [1], [5, 4, 5, 6], [5, 2, 3], [4, 0]] := by decide +kernel

/-- Only the vectors 0 to 2 are used. -/
theorem progM_below : ∀ p ∈ progM, p.2.Below 3 := by
  intro p hp
  simp only [progM, List.mem_cons, List.not_mem_nil, or_false] at hp
  rcases hp with rfl | rfl | rfl | rfl | rfl | rfl | rfl | rfl | rfl | rfl <;> (unfold Cmd.Below; decide)

example : True := by
  obtain ⟨os, f, h⟩ := observed_ok progM_run
  have := C63_life_aligned_partial (bytes_lawful c64d (.inr rfl)) progM progM_ok progM_below env (fun _ => rfl) h
  trivial

/-- Moves of sized elements: the last one to the front of another vector, one from the middle to the end, one to a wrong index. -/
def progN : List (Env (Val (sizedTy 2 1) Nat) × Cmd (sizedTy 2 1) Nat) :=
  [(env, .call 0 (.push ⟨(), [1, 2]⟩)), (env, .call 0 (.push ⟨(), [3, 4]⟩)), (env, .call 1 (.push ⟨(), [5, 6]⟩)),
   (env, .move .last 0 (.insert 0) 1), (env, .move .last 0 (.insert 4) 1), (env, .call 1 (.get 0)), (env, .call 0 .len)]

theorem progN_ok : AlongAll c64d (sizedM c64d 2 1) (SVec.Holds c64d) (fun env cmd f s => cmd.Asks c64d (fun op k => SVec.Covered env op (s k)) s ∧
    (cmd.Removes → ¬ cmd.Lacks (fun op k => SVec.Short c64d env op (f k) (s k)) s)) progN (fun _ => SVec.new) (fun _ => ⟨[], []⟩) := by
  have w : ∀ bs : List Nat, bs.length = 2 → (⟨(), bs⟩ : Val (sizedTy 2 1) Nat).WF c64d :=
    fun bs h => ⟨h, ⟨0, by decide, rfl⟩, Nat.one_dvd _, by show 2 + (1 - 1) ≤ c64d.isizeMax; decide⟩
  exact ⟨⟨⟨w _ rfl, Nat.two_pos⟩, fun h => False.elim h⟩, fun _ _ _ _ _ _ => ⟨⟨⟨w _ rfl, Nat.two_pos⟩, fun h => False.elim h⟩, fun _ _ _ _ _ _ =>
    ⟨⟨⟨w _ rfl, Nat.two_pos⟩, fun h => False.elim h⟩, fun _ _ _ _ _ _ =>
    ⟨⟨⟨by decide, fun _ _ _ => ⟨fun _ _ => trivial, trivial⟩⟩, fun h => False.elim h⟩, fun _ _ _ _ _ _ =>
    ⟨⟨⟨by decide, fun _ _ _ => ⟨fun _ _ => trivial, trivial⟩⟩, fun h => False.elim h⟩, fun _ _ _ _ _ _ =>
    ⟨⟨⟨trivial, trivial⟩, fun h => False.elim h⟩, fun _ _ _ _ _ _ => ⟨⟨⟨trivial, trivial⟩, fun h => False.elim h⟩, fun _ _ _ _ _ _ => trivial⟩⟩⟩⟩⟩⟩⟩

section
attribute [local irreducible] runCmds

example := C63_program_sized_partial (c := c64d) (β := Nat) (sz := 2) (al := 1) (f := fun _ => SVec.new) (s := fun _ => ⟨[], []⟩) (fun _ => ⟨SVec.new_holds, rfl⟩) progN progN_ok

theorem progN_below : ∀ p ∈ progN, p.2.Below 2 := by
  intro p hp
  simp only [progN, List.mem_cons, List.not_mem_nil, or_false] at hp
  rcases hp with rfl | rfl | rfl | rfl | rfl | rfl | rfl <;> (unfold Cmd.Below; decide)

theorem progN_run : observed (runCmds c64d (sizedM c64d 2 1) progN (fun _ => SVec.new)) = some [[0], [0], [0], [0], [1], [5, 3, 4], [4, 0]] := by decide +kernel

example : True := by
  obtain ⟨os, f, h⟩ := observed_ok progN_run
  have := C63_life_sized_partial (β := Nat) (sz := 2) (al := 1) (c := c64d) progN progN_ok progN_below env (fun _ => rfl) h
  trivial

end

/-- A configuration with a small address space: there is room for two elements of 60 bytes. -/
def c8 : Cfg := ⟨8, true, 1, 100⟩

/-- A vector with two elements of 60 bytes. -/
def vecB : SVec 60 1 Nat where
  mem i := if i < 2 then List.replicate 60 i else []
  slots := 2
  len := 2
  drops := []
  allocs := 1

/-- C63 does not hold for moving an element out of the middle of a vector of sized elements when there is no memory for it: the move
panics, and the last element (not the one that was to be moved) is lost. -/
theorem C63_counterexample_sized : ∃ f, runCmds c8 (sizedM c8 60 1) [(env, .move (.at 0) 0 .push 1)] (fun _ => vecB) = .ok [.panicked] f ∧
    (f 0).len = 1 ∧ (f 0).mem 0 = List.replicate 60 0 ∧ (f 0).drops = [] ∧ (f 1).len = 2 ∧ (f 1).drops = [] :=
  ⟨_, rfl, rfl, rfl, rfl, rfl, rfl⟩

/-- The hypotheses of `C63_move_sized_overflow` are met by `vecB`. -/
example : vecB.capacity c8 = vecB.len ∧ SVec.maxSlots c8 60 < vecB.len + 1 := by decide

/-- Moves between vectors of different alignment. -/
def progV : List (Env (Val Dyn Nat) × Cmd Dyn Nat) :=
  [(env, .call 0 (.push (dyn 1 [1, 2, 3]))), (env, .call 1 (.push (dyn 16 (List.range 16)))), (env, .call 1 (.push (dyn 1 [7]))), (env, .move .last 1 .push 0), (env, .call 0 (.get 1))]

/-- Pushing an element that is not empty leaves no empty element behind. -/
theorem push_keeps_large {k j : Nat} {x : Val Dyn Nat} {p : Val Dyn Nat → Bool} {s s' : Nat → Ideal Dyn Nat} {o : Out Dyn Nat} (hx : x.size ≠ 0)
    (h : (Cmd.call k (.push x)).Allows True p s o s') (hs : ∀ y ∈ (s j).contents, y.size ≠ 0) : ∀ y ∈ (s' j).contents, y.size ≠ 0 := by
  obtain ⟨u, h1, rfl⟩ := h
  by_cases hj : j = k
  · subst hj
    rw [put_same]
    rcases h1 with h1 | ⟨_, _, _, h1⟩
    · obtain ⟨_, rfl⟩ := Prod.mk.inj h1
      intro y hy
      rcases List.mem_append.1 hy with hy | hy
      · exact hs y hy
      · rw [List.mem_singleton.1 hy]; exact hx
    · rw [h1]; exact hs
  · rw [put_other _ _ hj]; exact hs

theorem progV_ok : AlongAll c64d (unalignedM c64d Dyn) (UVec.Represents True c64d) (fun env cmd f s => (env.Valid ∧ (True → env.Exact)) ∧
    cmd.Asks c64d (fun op k => UVec.Covered True c64d env op (f k) (s k)) s) progV (fun _ => UVec.newAlignPtr c64d) (fun _ => ⟨[], []⟩) := by
  have e : (env : Env (Val Dyn Nat)).Valid ∧ (True → (env : Env (Val Dyn Nat)).Exact) := ⟨env_valid, fun _ => env_exact⟩
  refine ⟨⟨e, dyn_wf 0 _ (by decide) (by decide) (by decide) _ (.inr rfl), ?_⟩, fun _ _ _ _ _ h1 =>
    ⟨⟨e, dyn_wf 4 _ (by decide) (by decide) (by decide) _ (.inr rfl), ?_⟩, fun _ _ _ _ _ h2 =>
    ⟨⟨e, dyn_wf 0 _ (by decide) (by decide) (by decide) _ (.inr rfl), ?_⟩, fun _ _ s3 _ _ h3 =>
    ⟨⟨e, by decide, fun x ys h => ⟨fun _ h => (nomatch h), fun _ h0 => ?_⟩⟩, fun _ _ _ _ _ _ =>
    ⟨⟨e, trivial, trivial⟩, fun _ _ _ _ _ _ => trivial⟩⟩⟩⟩⟩
  · exact ⟨fun _ h => absurd h (by decide), fun h => absurd trivial h⟩
  · exact ⟨fun _ h => absurd h (by decide), fun h => absurd trivial h⟩
  · exact ⟨fun _ h => absurd h (by decide), fun h => absurd trivial h⟩
  · have h4 := push_keeps_large (j := 1) (by decide) h3 (push_keeps_large (by decide) h2 (push_keeps_large (by decide) h1 (fun _ h => nomatch h)))
    obtain ⟨y, h5, h6⟩ := Option.map_eq_some_iff.1 (show (s3 1).contents.getLast?.map _ = some (x, ys) from h)
    obtain ⟨rfl, _⟩ := Prod.mk.inj h6
    exact absurd h0 (h4 _ (List.mem_of_getLast? h5))

attribute [local irreducible] runCmds

example := C63_program_unaligned_partial (f := fun _ => UVec.newAlignPtr c64d) (s := fun _ => ⟨[], []⟩)
  (fun _ => ⟨UVec.newAlignPtr_represents c64d_usizeAlign, rfl⟩) progV progV_ok

theorem progV_below : ∀ p ∈ progV, p.2.Below 2 := by
  intro p hp
  simp only [progV, List.mem_cons, List.not_mem_nil, or_false] at hp
  rcases hp with rfl | rfl | rfl | rfl | rfl <;> (unfold Cmd.Below; decide)

theorem progV_run : observed (runCmds c64d (unalignedM c64d Dyn) progV (fun _ => UVec.newAlignPtr c64d)) = some [[0], [0], [0], [0], [5, 7]] := by decide +kernel

example : True := by
  obtain ⟨os, f, h⟩ := observed_ok progV_run
  have := C63_life_unaligned_partial (G := True) (T := Dyn) (c := c64d) c64d_usizeAlign progV progV_ok progV_below env (fun _ => rfl) h
  trivial

end
end Verif
