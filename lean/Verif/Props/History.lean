import Verif.Proofs.HistoryInst
import Verif.Props.Drop
import Verif.Props.Access
import Verif.Spec.Samples

/-!
# C20, C24, C31, C36, C37: sequences of calls

The programs are lists of calls (`Verif/Model/Client.lean`); panics are caught and the program goes on. The theorems cover all
programs of calls for which the code does what it should (`Covered`); for the others, see the counterexamples to C03, C05,
C18, C20, C26 and C27.
-/

namespace Verif
section
variable {T : UTy} {A : ATy} {β : Type} [Inhabited β] {c : Cfg} {sz al : Nat}

/-! ## C36 -/

/-- C36, statically aligned elements: a program of covered calls has no undefined behaviour; what it observes is what the same
calls on a list would show, except that a call that needs memory may fail and then changes nothing; and if memory is never
short there is no exception. The process is aborted only if memory is short, or if an argument is rejected because of a wrong
index and its destructor panics. -/
theorem C36_program_aligned_partial (hA : A.Lawful c) {v : AVec A β} {s : Ideal A.ty β} (h : Tracks (alignedM c A) (AVec.Holds c) v s)
    (ops : List (Env (Val A.ty β) × Op A.ty β))
    (hs : AlongList (fun env op xs => env.Valid ∧ op.WF c xs ∧ AVec.Covered env op xs) ops s) :
    (runOps c (alignedM c A) ops v).Meets
      (fun os v' => ∃ s', Tracks (alignedM c A) (AVec.Holds c) v' s' ∧ Explains ops s os s' ∧
        (Along c (alignedM c A) (AVec.Holds c) (fun env op v xs => ¬ AVec.Short c env op v xs) ops v s → (os, s') = listRun ops s))
      (fun _ => False)
      (¬ Along c (alignedM c A) (AVec.Holds c) (fun env op v xs => ¬ AVec.Short c env op v xs ∧ ¬ op.Dies env.dropPanics xs) ops v s) :=
  (AVec.client hA).history ops v s h (AlongList.along (fun _ _ _ _ h => h) ops v s hs)

/-- C36, sized elements. -/
theorem C36_program_sized_partial {v : SVec sz al β} {s : Ideal (sizedTy sz al) β}
    (h : Tracks (sizedM c sz al) (SVec.Holds c) v s) (ops : List (Env (Val (sizedTy sz al) β) × Op (sizedTy sz al) β))
    (hs : AlongList (fun env op xs => op.WF c xs ∧ SVec.Covered env op xs) ops s) :
    (runOps c (sizedM c sz al) ops v).Meets
      (fun os v' => ∃ s', Tracks (sizedM c sz al) (SVec.Holds c) v' s' ∧ Explains ops s os s' ∧
        (Along c (sizedM c sz al) (SVec.Holds c) (fun env op v xs => ¬ SVec.Short c env op v xs) ops v s → (os, s') = listRun ops s))
      (fun _ => False)
      (¬ Along c (sizedM c sz al) (SVec.Holds c) (fun env op v xs => ¬ SVec.Short c env op v xs ∧ ¬ op.Dies env.dropPanics xs) ops v s) :=
  SVec.client.history ops v s h (AlongList.along (fun _ _ _ _ h => ⟨trivial, h⟩) ops v s hs)

/-- C36, dynamically aligned elements. Which calls are covered depends on the alignment and the memory of the vector at that
time. -/
theorem C36_program_unaligned_partial {G : Prop} {v : UVec T β} {s : Ideal T β} (h : Tracks (unalignedM c T) (UVec.Represents G c) v s)
    (ops : List (Env (Val T β) × Op T β))
    (hs : Along c (unalignedM c T) (UVec.Represents G c) (fun env op v xs => (env.Valid ∧ (G → env.Exact)) ∧ op.WF c xs ∧ UVec.Covered G c env op v xs)
      ops v s) :
    (runOps c (unalignedM c T) ops v).Meets
      (fun os v' => ∃ s', Tracks (unalignedM c T) (UVec.Represents G c) v' s' ∧ Explains ops s os s' ∧
        (Along c (unalignedM c T) (UVec.Represents G c) (fun env op v xs => ¬ UVec.Short c env op v xs) ops v s → (os, s') = listRun ops s))
      (fun _ => False)
      (¬ Along c (unalignedM c T) (UVec.Represents G c) (fun env op v xs => ¬ UVec.Short c env op v xs ∧ ¬ op.Dies env.dropPanics xs) ops v s) :=
  (UVec.client G c T).history ops v s h hs

/-! ## C37 -/

omit [Inhabited β] in
/-- C37: in every run that is explained by a list, every value handed to the vector (`g`), in it before or dropped before is
afterwards exactly one of: in the vector, dropped, moved out or forgotten (`r`). -/
theorem C37_balance {ops : List (Env (Val T β) × Op T β)} {s : Ideal T β} {os : List (Out T β)} {s' : Ideal T β}
    (h : Explains ops s os s') :
    ∃ g r, Ledger ops s os s' g r ∧ List.Perm (g ++ (s.contents ++ s.dropped)) (s'.contents ++ s'.dropped ++ r) := by
  obtain ⟨g, r, h1⟩ := h.ledger
  exact ⟨g, r, h1, h1.balance⟩

/-- C37, statically aligned elements: the whole life of a vector. It is created, used by a program, and dropped: if no
destructor panics at the end, then every value it was given has been dropped exactly once, or was moved out or forgotten, and
the memory is free. -/
theorem C37_life_aligned_partial (hA : A.Lawful c) (ops : List (Env (Val A.ty β) × Op A.ty β))
    (hs : AlongList (fun env op xs => env.Valid ∧ op.WF c xs ∧ AVec.Covered env op xs) ops ⟨[], []⟩)
    (env : Env (Val A.ty β)) (hp : ∀ x, env.dropPanics x = false) {os : List (Out A.ty β)} {v : AVec A β}
    (hr : runOps c (alignedM c A) ops AVec.new = .ok os v) :
    ∃ v' s' g r, (alignedM c A).drop env v = .ok () v' ∧ Ledger ops ⟨[], []⟩ os s' g r ∧ List.Perm g (v'.drops ++ r) ∧
      v'.heap.block = none ∧ v'.heap.leaks = 0 := by
  have h := C36_program_aligned_partial hA (v := AVec.new) (s := ⟨[], []⟩) ⟨AVec.new_holds hA.fits, rfl⟩ ops hs
  rw [hr] at h
  obtain ⟨s', ⟨h1, h2⟩, h3, _⟩ := h
  obtain ⟨v', h4, h5, h6, h7⟩ := C21_drop_aligned_returns hA.fits h1 (env := env) (fun x _ => hp x)
  obtain ⟨g, r, h8, h9⟩ := C37_balance h3
  refine ⟨v', s', g, r, h4, h8, ?_, h6, h7⟩
  rw [h5, show v.drops = s'.dropped from h2]
  simp only [List.append_nil] at h9
  exact h9.trans ((List.perm_append_comm).append_right r)

/-- C37, dynamically aligned elements: the whole life of a vector. -/
theorem C37_life_unaligned_partial {G : Prop} (hu : IsAlign c c.usizeAlign) (ops : List (Env (Val T β) × Op T β))
    (hs : Along c (unalignedM c T) (UVec.Represents G c) (fun env op v xs => (env.Valid ∧ (G → env.Exact)) ∧ op.WF c xs ∧ UVec.Covered G c env op v xs)
      ops (UVec.newAlignPtr c) ⟨[], []⟩)
    (env : Env (Val T β)) (hp : ∀ x, env.dropPanics x = false) {os : List (Out T β)} {v : UVec T β}
    (hr : runOps c (unalignedM c T) ops (UVec.newAlignPtr c) = .ok os v) :
    ∃ v' s' g r, (unalignedM c T).drop env v = .ok () v' ∧ Ledger ops ⟨[], []⟩ os s' g r ∧ List.Perm g (v'.drops ++ r) ∧
      v'.heap.block = none ∧ v'.heap.leaks = 0 := by
  have h := C36_program_unaligned_partial (v := UVec.newAlignPtr c) (s := ⟨[], []⟩) ⟨UVec.newAlignPtr_represents hu, rfl⟩ ops hs
  rw [hr] at h
  obtain ⟨s', ⟨h1, h2⟩, h3, _⟩ := h
  obtain ⟨v', h4, h5, h6, h7⟩ := C21_drop_unaligned_returns h1 (env := env) (fun x _ => hp x)
  obtain ⟨g, r, h8, h9⟩ := C37_balance h3
  refine ⟨v', s', g, r, h4, h8, ?_, h6, h7⟩
  rw [h5, show v.drops = s'.dropped from h2]
  simp only [List.append_nil] at h9
  exact h9.trans ((List.perm_append_comm).append_right r)

/-! ## C20, C24, C31 -/

/-- The queries of the interface are consistent (C20). -/
def Consistent (c : Cfg) {V : Type} (P : Provider V T β) (v : V) : Prop :=
  P.len v ≤ P.capacity v ∧ ∃ bl bc, P.byteLen v = some bl ∧ P.byteCapacity v = some bc ∧ bl ≤ bc ∧ bc ≤ c.isizeMax

/-- Every element is at an address that is a multiple of its alignment, and the alignment of the vector is not smaller (C24). -/
def ElementsAligned {V : Type} (P : Provider V T β) (v : V) : Prop :=
  ∀ i < P.len v, ∃ r, P.getUnchecked v i = some r ∧ T.alignOf r.md ∣ r.base + r.off ∧ T.alignOf r.md ≤ P.align v

omit [Inhabited β] in
/-- A program that keeps the vector in states described by lists keeps everything that follows from such a description. -/
theorem always_of_history {V : Type} {M : Machine V T β} {H : V → List (Val T β) → Prop} {G : V → Prop}
    (hG : ∀ v xs, H v xs → G v) {ops : List (Env (Val T β) × Op T β)} {v : V} {s : Ideal T β} {R : List (Out T β) → Ideal T β → Prop}
    {no : Prop}
    (h : (runOps c M ops v).Meets (fun os v' => ∃ s', Tracks M H v' s' ∧ Explains ops s os s' ∧ R os s') (fun _ => False) no) :
    (runOps c M ops v).Meets (fun _ v' => G v') (fun _ => False) True :=
  h.mono (fun _ _ ⟨_, h1, _⟩ => hG _ _ h1.1) (fun _ h => h) (fun _ => trivial)

/-- C20, C24 and C31, statically aligned elements: after any program of covered calls, lengths are at most the capacities, the
elements are aligned, and the vector owns exactly the memory block it believes to own, with no other block left behind. No call
violates the contract of the allocator, since this would be undefined behaviour. -/
theorem C20_C24_C31_program_aligned_partial (hA : A.Lawful c) {v : AVec A β} {xs : List (Val A.ty β)} (h : v.Holds c xs)
    (ops : List (Env (Val A.ty β) × Op A.ty β))
    (hs : AlongList (fun env op xs => env.Valid ∧ op.WF c xs ∧ AVec.Covered env op xs) ops ⟨xs, v.drops⟩) :
    (runOps c (alignedM c A) ops v).Meets
      (fun _ v' => Consistent c (alignedP c A) v' ∧ ElementsAligned (alignedP c A) v' ∧
        BlockOk v'.heap v'.ptr v'.byteCap A.ALIGN ∧ v'.byteCap + (A.ALIGN - 1) ≤ c.isizeMax ∧ v'.heap.leaks = 0)
      (fun _ => False) True := by
  refine always_of_history ?_ (C36_program_aligned_partial hA ⟨h, rfl⟩ ops hs)
  intro v' ys h'
  have h1 := h'.capMax
  have h2 := IsAlign.sub_one_le hA.al
  unfold VS.max at h1
  refine ⟨⟨?_, _, _, (AVec.impl hA).byteLen_eq h', rfl, h'.cap, ?_⟩, ?_, h'.block, ?_, h'.leaks⟩
  · show v'.len ≤ v'.elemsCap
    rw [h'.len_eq]; exact h'.recs
  · exact Nat.le_trans h'.capMax (VS.max_le_isizeMax _ _)
  · intro i hi
    have hi' : i < ys.length := by rw [← h'.len_eq]; exact hi
    obtain ⟨r, h3, _, h4, h5, _, h6⟩ := C06_get_aligned hA.fits h' hi'
    have h7 : (alignedP c A).getUnchecked v' i = some r := by
      unfold Api.get at h3
      rw [if_pos hi] at h3
      cases hg : (alignedP c A).getUnchecked v' i with
      | none => rw [hg] at h3; cases h3
      | some r' => rw [hg] at h3; injection h3 with h3
    refine ⟨r, h7, ?_, ?_⟩
    · have e : r.md = ys[i].md := congrArg Val.md h4
      rw [h5, e]; exact Nat.dvd_of_mod_eq_zero h6
    · exact Nat.le_of_dvd hA.al.pos (hA.dvd _)
  · omega

/-- C20, C24 and C31, dynamically aligned elements. -/
theorem C20_C24_C31_program_unaligned_partial {G : Prop} {v : UVec T β} {xs : List (Val T β)} (h : v.Represents G c xs) (ops : List (Env (Val T β) × Op T β))
    (hs : Along c (unalignedM c T) (UVec.Represents G c) (fun env op v xs => (env.Valid ∧ (G → env.Exact)) ∧ op.WF c xs ∧ UVec.Covered G c env op v xs)
      ops v ⟨xs, v.drops⟩) :
    (runOps c (unalignedM c T) ops v).Meets
      (fun _ v' => Consistent c (unalignedP c T) v' ∧ ElementsAligned (unalignedP c T) v' ∧
        BlockOk v'.heap v'.ptr v'.byteCap v'.align ∧ v'.byteCap + (v'.align - 1) ≤ c.isizeMax ∧ v'.heap.leaks = 0)
      (fun _ => False) True := by
  refine always_of_history ?_ (C36_program_unaligned_partial ⟨h, rfl⟩ ops hs)
  intro v' ys h'
  refine ⟨⟨?_, _, _, (UVec.impl G c T).byteLen_eq h', rfl, h'.cap, h'.capMax⟩, ?_, h'.block, ?_, h'.leaks⟩
  · show v'.len ≤ v'.elemsCap
    rw [h'.len_eq]; exact h'.recs
  · intro i hi
    have hi' : i < ys.length := by rw [← h'.len_eq]; exact hi
    obtain ⟨r, h3, _, h4, h5, _, h6⟩ := C06_get_unaligned h' hi'
    have h7 : (unalignedP c T).getUnchecked v' i = some r := by
      unfold Api.get at h3
      rw [if_pos hi] at h3
      cases hg : (unalignedP c T).getUnchecked v' i with
      | none => rw [hg] at h3; cases h3
      | some r' => rw [hg] at h3; injection h3 with h3
    have e : r.md = ys[i].md := congrArg Val.md h4
    refine ⟨r, h7, ?_, ?_⟩
    · rw [h5, e]; exact Nat.dvd_of_mod_eq_zero h6
    · rw [e]; exact Nat.le_of_dvd h'.al.pos (h'.elemAl _ (List.getElem_mem hi'))
  · exact h'.room

/-- C20, sized elements. -/
theorem C20_program_sized_partial {v : SVec sz al β} {xs : List (Val (sizedTy sz al) β)} (h : v.Holds c xs)
    (ops : List (Env (Val (sizedTy sz al) β) × Op (sizedTy sz al) β))
    (hs : AlongList (fun env op xs => op.WF c xs ∧ SVec.Covered env op xs) ops ⟨xs, v.drops⟩) :
    (runOps c (sizedM c sz al) ops v).Meets (fun _ v' => Consistent c (sizedP c sz al) v') (fun _ => False) True := by
  refine always_of_history ?_ (C36_program_sized_partial ⟨h, rfl⟩ ops hs)
  intro v' ys h'
  refine ⟨?_, _, _, SVec.byteLen_eq h', SVec.byteCapacity_eq h', ?_, h'.capMax⟩
  · show v'.len ≤ v'.capacity c
    rw [h'.len]; exact h'.cap
  · exact Nat.mul_le_mul_right _ h'.cap

end

/-! ## Examples -/
section
open Sample

/-- A program with a caught panic, a refused allocation, and a value that is moved out. -/
def progA : List (Env (Val Bytes.ty Nat) × Op Bytes.ty Nat) :=
  [(env, .push (bytes [1, 2])), (env, .pushWith (.value (bytes [3]))), (env, .pushWith .panics),
   (envFull, .push (bytes [4, 5, 6])), (env, .index 7), (env, .remove 0 .take), (env, .get 0), (env, .pop .drop), (env, .len)]

theorem envFull_valid {X : Type} : (envFull : Env X).Valid := by intro l p x _ h; cases h

theorem progA_ok : AlongList (fun env op xs => env.Valid ∧ op.WF c64d xs ∧ AVec.Covered env op xs) progA ⟨[], []⟩ := by
  have w : ∀ bs : List Nat, bs.length ≤ 3 → (bytes bs).WF c64d :=
    fun bs h => bytes_wf bs (Nat.le_trans h (by decide)) c64d (.inr rfl)
  exact ⟨⟨env_valid, w _ (by decide), trivial⟩, fun _ _ _ => ⟨⟨env_valid, w _ (by decide), trivial⟩, fun _ _ _ =>
    ⟨⟨env_valid, trivial, trivial⟩, fun _ _ _ => ⟨⟨envFull_valid, w _ (by decide), trivial⟩, fun _ _ _ =>
    ⟨⟨env_valid, trivial, trivial⟩, fun _ _ _ => ⟨⟨env_valid, trivial, trivial⟩, fun _ _ _ =>
    ⟨⟨env_valid, trivial, trivial⟩, fun _ _ _ => ⟨⟨env_valid, trivial, trivial⟩, fun _ _ _ =>
    ⟨⟨env_valid, trivial, trivial⟩, fun _ _ _ => trivial⟩⟩⟩⟩⟩⟩⟩⟩⟩


/-- An observation as a list of numbers. -/
def Out.digits {T : UTy} : Out T Nat → List Nat
  | .done => [0]
  | .panicked => [1]
  | .failed _ => [2]
  | .nothing => [3]
  | .number n => [4, n]
  | .value x => 5 :: x.bytes
  | .values l => 6 :: l.flatMap (fun x => (x.map (·.bytes)).getD [])

/-- What the program observes, if it does not abort. -/
def observed {V : Type} {T : UTy} (r : Res V (List (Out T Nat))) : Option (List (List Nat)) :=
  match r with
  | .ok os _ => some (os.map Out.digits)
  | _ => none

/-- What the program observes up to the refused allocation, and without it. (A refused allocation ends the process, as
`handle_alloc_error` does.) -/
example : observed (runOps c64d (alignedM c64d Bytes) (progA.take 3) AVec.new) = some [[0], [0], [1]] := by decide +kernel
example : observed (runOps c64d (alignedM c64d Bytes) (progA.eraseIdx 3) AVec.new) =
    some [[0], [0], [1], [1], [5, 1, 2], [5, 3], [0], [4, 0]] := by decide +kernel

/-- The hypotheses of the theorems are met by the empty vector and `progA`. -/
example : Bytes.Lawful c64d ∧ Tracks (alignedM c64d Bytes) (AVec.Holds c64d) (AVec.new : AVec Bytes Nat) ⟨[], []⟩ ∧
    AlongList (fun env op xs => env.Valid ∧ op.WF c64d xs ∧ AVec.Covered env op xs) progA ⟨[], []⟩ :=
  ⟨bytes_lawful c64d (.inr rfl), ⟨AVec.new_holds (bytes_lawful c64d (.inr rfl)).fits, rfl⟩, progA_ok⟩

/-- A program on dynamically aligned elements that raises the alignment. -/
def progU : List (Env (Val Dyn Nat) × Op Dyn Nat) :=
  [(env, .push (dyn 1 [1, 2, 3])), (env, .push (dyn 16 (List.range 16))), (env, .pushWith .panics), (env, .pop .take), (env, .get 0)]

theorem progU_ok : Along c64d (unalignedM c64d Dyn) (UVec.Holds c64d)
    (fun env op v xs => (env.Valid ∧ (True → env.Exact)) ∧ op.WF c64d xs ∧ UVec.Covered True c64d env op v xs) progU (UVec.newAlignPtr c64d) ⟨[], []⟩ := by
  refine ⟨⟨⟨env_valid, (fun _ => env_exact)⟩, dyn_wf 0 _ (by decide) (by decide) (by decide) _ (.inr rfl), ?_⟩, fun _ _ _ _ _ _ =>
    ⟨⟨⟨env_valid, (fun _ => env_exact)⟩, dyn_wf 4 _ (by decide) (by decide) (by decide) _ (.inr rfl), ?_⟩, fun _ _ _ _ _ _ =>
    ⟨⟨⟨env_valid, (fun _ => env_exact)⟩, trivial, trivial⟩, fun _ _ _ _ _ _ => ⟨⟨⟨env_valid, (fun _ => env_exact)⟩, trivial, trivial⟩, fun _ _ _ _ _ _ =>
    ⟨⟨⟨env_valid, (fun _ => env_exact)⟩, trivial, trivial⟩, fun _ _ _ _ _ _ => trivial⟩⟩⟩⟩⟩
  · exact ⟨fun _ h => absurd h (by decide), fun h => absurd trivial h⟩
  · exact ⟨fun _ h => absurd h (by decide), fun h => absurd trivial h⟩

theorem c64d_usizeAlign : IsAlign c64d c64d.usizeAlign := ⟨3, by decide, rfl⟩

/-- The hypotheses of the theorems are met by the empty vector and `progU`. -/
example : Tracks (unalignedM c64d Dyn) (UVec.Holds c64d) (UVec.newAlignPtr c64d : UVec Dyn Nat) ⟨[], []⟩ ∧
    Along c64d (unalignedM c64d Dyn) (UVec.Holds c64d)
      (fun env op v xs => (env.Valid ∧ (True → env.Exact)) ∧ op.WF c64d xs ∧ UVec.Covered True c64d env op v xs) progU (UVec.newAlignPtr c64d) ⟨[], []⟩ :=
  ⟨⟨UVec.newAlignPtr_holds c64d_usizeAlign, rfl⟩, progU_ok⟩

example : observed (runOps c64d (unalignedM c64d Dyn) progU (UVec.newAlignPtr c64d)) =
    some [[0], [0], [1], 5 :: List.range 16, [5, 1, 2, 3]] := by decide +kernel

/-- An allocator that returns five bytes more than were asked for. -/
def envMore : Env (Val Dyn Nat) := { (env : Env (Val Dyn Nat)) with alloc := fun l => some (max 1 l.align, 5) }

theorem envMore_valid : envMore.Valid := by
  intro l p x hl h
  simp only [envMore, Option.some.injEq, Prod.mk.injEq] at h
  obtain ⟨rfl, _⟩ := h
  rw [Nat.max_eq_right hl]
  exact ⟨hl, Nat.dvd_refl _⟩

/-- A program whose first reservation gets more than was asked for, that then shrinks to a byte capacity of 21, which is not a multiple of the alignment 8, and
then goes on. -/
def progOdd : List (Env (Val Dyn Nat) × Op Dyn Nat) :=
  [(envMore, .reserve (.exactCapBytesAlign 3 24 8)), (env, .push (dyn 8 [1, 2, 3, 4, 5, 6, 7, 8])), (env, .shrink (.capBytesAlign 3 21 8)), (env, .get 0),
    (env, .push (dyn 1 [9, 9, 9])), (env, .pushWith (.value (dyn 1 [4, 4, 4, 4, 4]))), (env, .remove 0 .take), (env, .pop .take)]

theorem UVec.roomOk_of {G : Prop} {c : Cfg} {v : UVec Dyn Nat} {xs : List (Val Dyn Nat)} {n k : Nat} (h : v.Represents G c xs) (hb : v.alignedByteLen c = some n)
    (hk : n + padTo v.align k ≤ v.byteCap) : v.RoomOk xs k := by
  rw [alignedByteLen_eq h] at hb
  cases hb
  exact .inr (.inl hk)

/-- The vector after a call. -/
def Res.stateOr {σ α : Type} (s : σ) : Res σ α → σ
  | .ok _ s' | .panic s' => s'
  | _ => s

theorem Res.stateOr_ok {σ α : Type} {r : Res σ α} {a : α} {s s' : σ} (h : r = .ok a s') : s' = r.stateOr s := by rw [h]; rfl

theorem progOdd_ok : Along c64d (unalignedM c64d Dyn) (UVec.Stores c64d)
    (fun env op v xs => (env.Valid ∧ (False → env.Exact)) ∧ op.WF c64d xs ∧ UVec.Covered False c64d env op v xs) progOdd (UVec.newAlignPtr c64d) ⟨[], []⟩ := by
  have w8 : (dyn 8 [1, 2, 3, 4, 5, 6, 7, 8]).WF c64d := dyn_wf 3 _ (by decide) (by decide) (by decide) _ (.inr rfl)
  have w3 : (dyn 1 [9, 9, 9]).WF c64d := dyn_wf 0 _ (by decide) (by decide) (by decide) _ (.inr rfl)
  have w5 : (dyn 1 [4, 4, 4, 4, 4]).WF c64d := dyn_wf 0 _ (by decide) (by decide) (by decide) _ (.inr rfl)
  have a8 : IsAlign c64d 8 := ⟨3, by decide, rfl⟩
  refine ⟨⟨⟨envMore_valid, False.elim⟩, trivial, a8⟩, fun _ v1 s1 e1 t1 _ => ?_⟩
  have e1 := Res.stateOr_ok (s := UVec.newAlignPtr c64d) e1
  subst e1
  refine ⟨⟨⟨env_valid, False.elim⟩, w8, fun h => absurd h (by decide +kernel), fun _ _ => UVec.roomOk_of (n := 0) t1.1 (by decide +kernel) (by decide +kernel)⟩,
    fun _ v2 s2 e2 t2 _ => ?_⟩
  have e2 := Res.stateOr_ok (s := UVec.newAlignPtr c64d) e2
  subst e2
  refine ⟨⟨⟨env_valid, False.elim⟩, trivial, a8, fun x _ => ?_, False.elim⟩, fun _ v3 s3 e3 t3 _ => ?_⟩
  · refine congrArg (padTo · x.size) (Nat.le_antisymm (Nat.le_trans ?_ (Nat.le_max_left _ _)) (UVec.shrunkAlign_le t2.1 8))
    exact Nat.le_min.mpr ⟨by decide +kernel, Nat.le_refl _⟩
  have e3 := Res.stateOr_ok (s := UVec.newAlignPtr c64d) e3
  subst e3
  refine ⟨⟨⟨env_valid, False.elim⟩, trivial, trivial⟩, fun _ v4 s4 e4 t4 _ => ?_⟩
  have e4 := Res.stateOr_ok (s := UVec.newAlignPtr c64d) e4
  subst e4
  refine ⟨⟨⟨env_valid, False.elim⟩, w3, fun h => absurd h (by decide +kernel), fun _ _ => UVec.roomOk_of (n := 8) t4.1 (by decide +kernel) (by decide +kernel)⟩,
    fun _ v5 s5 e5 t5 _ => ?_⟩
  have e5 := Res.stateOr_ok (s := UVec.newAlignPtr c64d) e5
  subst e5
  refine ⟨⟨⟨env_valid, False.elim⟩, w5, fun h => absurd h (by decide +kernel)⟩, fun _ v6 s6 e6 t6 _ => ?_⟩
  have e6 := Res.stateOr_ok (s := UVec.newAlignPtr c64d) e6
  subst e6
  refine ⟨⟨⟨env_valid, False.elim⟩, trivial, fun _ _ => .inr (.inl rfl), fun h => by cases h⟩, fun _ v7 s7 e7 t7 _ => ?_⟩
  exact ⟨⟨⟨env_valid, False.elim⟩, trivial, trivial⟩, fun _ _ _ _ _ _ => trivial⟩

/-- The hypotheses are met by `progOdd`; after the reservation the byte capacity is 29, after the shrink 21. -/
example : Tracks (unalignedM c64d Dyn) (UVec.Stores c64d) (UVec.newAlignPtr c64d : UVec Dyn Nat) ⟨[], []⟩ ∧
    Along c64d (unalignedM c64d Dyn) (UVec.Stores c64d)
      (fun env op v xs => (env.Valid ∧ (False → env.Exact)) ∧ op.WF c64d xs ∧ UVec.Covered False c64d env op v xs) progOdd (UVec.newAlignPtr c64d) ⟨[], []⟩ ∧
    ((runOps c64d (unalignedM c64d Dyn) (progOdd.take 1) (UVec.newAlignPtr c64d)).stateOr UVec.newAlign1).byteCap = 29 ∧
    ((runOps c64d (unalignedM c64d Dyn) (progOdd.take 3) (UVec.newAlignPtr c64d)).stateOr UVec.newAlign1).byteCap = 21 :=
  ⟨⟨UVec.newAlignPtr_represents c64d_usizeAlign, rfl⟩, progOdd_ok, by decide +kernel, by decide +kernel⟩

example : observed (runOps c64d (unalignedM c64d Dyn) progOdd (UVec.newAlignPtr c64d)) =
    some [[0], [0], [0], [5, 1, 2, 3, 4, 5, 6, 7, 8], [0], [0], [5, 1, 2, 3, 4, 5, 6, 7, 8], [5, 4, 4, 4, 4, 4]] := by decide +kernel

/-- A program on sized elements. -/
def progS : List (Env (Val (sizedTy 2 1) Nat) × Op (sizedTy 2 1) Nat) :=
  [(env, .push ⟨(), [1, 2]⟩), (env, .insert 0 ⟨(), [3, 4]⟩), (env, .index 2), (env, .remove 1 .take), (env, .pop .forget)]

theorem progS_ok : AlongList (fun env op xs => op.WF c64d xs ∧ SVec.Covered env op xs) progS ⟨[], []⟩ := by
  have w : ∀ bs : List Nat, bs.length = 2 → (⟨(), bs⟩ : Val (sizedTy 2 1) Nat).WF c64d :=
    fun bs h => ⟨h, ⟨0, by decide, rfl⟩, Nat.one_dvd _, by show 2 + (1 - 1) ≤ c64d.isizeMax; decide⟩
  exact ⟨⟨w _ rfl, Nat.two_pos⟩, fun _ _ _ => ⟨⟨w _ rfl, fun _ => Nat.two_pos⟩, fun _ _ _ => ⟨⟨trivial, trivial⟩, fun _ _ _ =>
    ⟨⟨trivial, trivial⟩, fun _ _ _ => ⟨⟨trivial, trivial⟩, fun _ _ _ => trivial⟩⟩⟩⟩⟩

/-- The hypotheses of the theorems are met by the empty vector and `progS`. -/
example : Tracks (sizedM c64d 2 1) (SVec.Holds c64d) (SVec.new : SVec 2 1 Nat) ⟨[], []⟩ ∧
    AlongList (fun env op xs => op.WF c64d xs ∧ SVec.Covered env op xs) progS ⟨[], []⟩ :=
  ⟨⟨SVec.new_holds, rfl⟩, progS_ok⟩

example : observed (runOps c64d (sizedM c64d 2 1) progS SVec.new) = some [[0], [0], [1], [5, 1, 2], [0]] := by decide +kernel

/-- A program on zero-sized elements. -/
def progZ : List (Env (Val (sizedTy 0 4) Nat) × Op (sizedTy 0 4) Nat) :=
  [(env, .reserve (.elems 7)), (env, .pushWith (.value ⟨(), []⟩)), (env, .insertWith 0 (.value ⟨(), []⟩)), (env, .insert 5 ⟨(), []⟩),
    (env, .len), (env, .iter [.nextBack, .next, .next]), (env, .remove 1 .take), (env, .pop .drop), (env, .len)]

theorem progZ_ok : AlongList (fun env op xs => op.WF c64d xs ∧ SVec.Covered env op xs) progZ ⟨[], []⟩ := by
  have w : (⟨(), []⟩ : Val (sizedTy 0 4) Nat).WF c64d :=
    ⟨rfl, ⟨2, by decide, rfl⟩, ⟨0, rfl⟩, by show 0 + (4 - 1) ≤ c64d.isizeMax; decide⟩
  refine ⟨⟨trivial, .inr ⟨7, rfl⟩⟩, fun _ s1 h1 => ⟨⟨w, trivial⟩, fun _ s2 h2 => ⟨⟨w, trivial⟩, fun _ s3 h3 => ⟨⟨w, ?_⟩, fun _ _ _ =>
    ⟨⟨trivial, trivial⟩, fun _ _ _ => ⟨⟨trivial, trivial⟩, fun _ _ _ => ⟨⟨trivial, trivial⟩, fun _ _ _ => ⟨⟨trivial, trivial⟩,
      fun _ _ _ => ⟨⟨trivial, trivial⟩, fun _ _ _ => trivial⟩⟩⟩⟩⟩⟩⟩⟩⟩
  have e1 : s1.contents.length ≤ 0 := by
    rcases h1 with h | ⟨-, -, -, h⟩
    · cases h; exact Nat.le_refl _
    · cases h; exact Nat.le_refl _
  have e2 : s2.contents.length ≤ 1 := by
    rcases h2 with h | ⟨-, -, -, h⟩
    · cases h; simp only [List.length_append, List.length_singleton]; omega
    · subst h; exact Nat.le_succ_of_le e1
  have e3 : s3.contents.length ≤ 2 := by
    rcases h3 with h | ⟨-, -, -, h⟩
    · simp only [Op.onList, Nat.zero_le, if_true] at h
      cases h; simpa using e2
    · simp only [Op.refused, Nat.zero_le, if_true] at h
      subst h; omega
  intro h4
  omega

/-- The hypotheses of the theorems are met by the empty vector and `progZ`. -/
example : Tracks (sizedM c64d 0 4) (SVec.Holds c64d) (SVec.new : SVec 0 4 Nat) ⟨[], []⟩ ∧
    AlongList (fun env op xs => op.WF c64d xs ∧ SVec.Covered env op xs) progZ ⟨[], []⟩ :=
  ⟨⟨SVec.new_holds, rfl⟩, progZ_ok⟩

example : observed (runOps c64d (sizedM c64d 0 4) progZ SVec.new) =
    some [[0], [0], [0], [1], [4, 2], [6], [5], [0], [4, 0]] := by decide +kernel

/-- A program that collects mutable references from the end of a vector, writes through all of them, and looks at the result
from both ends. -/
def progJ : List (Env (Val Bytes.ty Nat) × Op Bytes.ty Nat) :=
  [(env, .iterMut [.nextBack, .nextBack, .nextBack, .nextBack] [[7, 8, 9], [5, 5], [6], [1]]), (env, .iter [.nextBack, .nthBack 1, .next])]

theorem progJ_ok : AlongList (fun env op xs => env.Valid ∧ op.WF c64d xs ∧ AVec.Covered env op xs) progJ ⟨listA, []⟩ := by
  refine ⟨⟨env_valid, ?_, ?_⟩, fun _ _ _ => ⟨⟨env_valid, trivial, ?_⟩, fun _ _ _ => trivial⟩⟩
  · intro p hp x hx
    have hp' : p = (some 2, [7, 8, 9]) ∨ p = (some 1, [5, 5]) ∨ p = (some 0, [6]) ∨ p = (none, [1]) := by
      simpa [visited, ICall.specRun, ICall.spec, listA, show List.range 3 = [0, 1, 2] from rfl] using hp
    rcases hp' with rfl | rfl | rfl | rfl <;> cases hx <;> rfl
  · exact ⟨.inl rfl, .inl rfl, .inl rfl, .inl rfl, trivial⟩
  · exact ⟨.inl rfl, .inl rfl, trivial, trivial⟩

/-- Not a program of safe Rust: the second write is not of the right size. -/
example : ¬ (Op.iterMut [.nextBack, .nextBack, .next, .next] [[7, 8, 9], [], [6]] : Op Bytes.ty Nat).WF c64d listA := by
  intro h
  exact absurd (h (some 1, []) (by decide) (bytes [2, 3]) rfl) (by decide)

/-- The hypotheses of the theorems are met by `vecA` and `progJ`, and what is observed. -/
example : Tracks (alignedM c64d Bytes) (AVec.Holds c64d) vecA ⟨listA, []⟩ ∧
    AlongList (fun env op xs => env.Valid ∧ op.WF c64d xs ∧ AVec.Covered env op xs) progJ ⟨listA, []⟩ :=
  ⟨⟨vecA_holds c64d (.inr rfl), rfl⟩, progJ_ok⟩

example : observed (runOps c64d (alignedM c64d Bytes) progJ vecA) = some [[0], [6, 7, 8, 9, 6]] ∧
    (listRun progJ ⟨listA, []⟩).1.map Out.digits = [[0], [6, 7, 8, 9, 6]] := by decide +kernel

/-- C36 is false of programs that use an iterator from both ends: after `next`, the last element is seen where it is not, and a
write through the reference to it overwrites another element. -/
theorem C36_counterexample_iter :
    observed (runOps c64d (alignedM c64d Bytes) [(env, .iter [.next, .nextBack, .nextBack])] vecA) = some [[6, 1, 4, 5, 6, 1, 2, 3]] ∧
    (listRun [((env : Env (Val Bytes.ty Nat)), .iter [.next, .nextBack, .nextBack])] ⟨listA, []⟩).1.map Out.digits =
      [[6, 1, 4, 5, 6, 2, 3]] ∧
    observed (runOps c64d (unalignedM c64d Dyn)
      [(env, .iterMut [.next, .nextBack] [[1, 1, 1], [9, 9, 9, 9, 9, 9, 9, 9]]), (env, .iter [.next, .next])] vecU) =
      some [[0], [6, 9, 9, 9, 11, 12, 13, 14, 15, 16, 17, 18]] ∧
    (listRun [((env : Env (Val Dyn Nat)), .iterMut [.next, .nextBack] [[1, 1, 1], [9, 9, 9, 9, 9, 9, 9, 9]]), (env, .iter [.next, .next])]
      ⟨listU, []⟩).1.map Out.digits = [[0], [6, 1, 1, 1, 9, 9, 9, 9, 9, 9, 9, 9]] := by decide +kernel

end
end Verif
