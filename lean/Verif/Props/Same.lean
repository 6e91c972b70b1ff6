import Verif.Proofs.Same
import Verif.Props.History

/-!
# C64: the implementation, the allocator and the history of a vector cannot be observed

`UnsizedVec<T>` is one of three implementations, and which one is decided by specialization (inner.rs:208–220,
inner/unaligned.rs:1072–1074, inner/aligned.rs:682–684, inner/sized.rs:331–333): the
implementation for statically aligned types is used where the general one would do, and the one for sized types where both others
would do. So a program must not be able to tell them apart.
-/

namespace Verif
section
variable {β : Type} [Inhabited β] {c d : Cfg} {A : ATy} {T : UTy} {sz al : Nat}

/-- C64: the implementation for statically aligned elements and the general one are interchangeable: a program that is covered for
both and never short of memory makes the same observations, and leaves the same elements. The two runs may use different
allocators, vectors with different capacities, different builds and different pointer widths (`c`, `d`). -/
theorem C64_aligned_unaligned_partial {G : Prop} (hA : A.Lawful c) {v : AVec A β} {w : UVec A.ty β} {s : Ideal A.ty β}
    (hv : Tracks (alignedM c A) (AVec.Holds c) v s) (hw : Tracks (unalignedM d A.ty) (UVec.Represents G d) w s)
    {p q : List (Env (Val A.ty β) × Op A.ty β)} (hc : SameCalls p q)
    (hs : AlongList (fun env op xs => env.Valid ∧ op.WF c xs ∧ AVec.Covered env op xs) p s)
    (hs' : Along d (unalignedM d A.ty) (UVec.Represents G d) (fun env op v xs => (env.Valid ∧ (G → env.Exact)) ∧ op.WF d xs ∧
      UVec.Covered G d env op v xs) q w s)
    (hq : Along c (alignedM c A) (AVec.Holds c) (fun env op v xs => ¬ AVec.Short c env op v xs ∧ ¬ op.Dies env.dropPanics xs) p v s)
    (hq' : Along d (unalignedM d A.ty) (UVec.Represents G d) (fun env op v xs => ¬ UVec.Short d env op v xs ∧ ¬ op.Dies env.dropPanics xs) q w s) :
    Indistinguishable (alignedM c A) (unalignedM d A.ty) (AVec.Holds c) (UVec.Represents G d) (runOps c (alignedM c A) p v)
      (runOps d (unalignedM d A.ty) q w) :=
  (AVec.client hA).agree (UVec.client G d A.ty) hc hv hw (AlongList.along (fun _ _ _ _ h => h) p v s hs) hs' hq hq'

/-- C64: `Vec` for sized elements and the implementation for statically aligned elements are interchangeable. -/
theorem C64_sized_aligned_partial (hal : IsAlign d al) {v : SVec sz al β} {w : AVec (ATy.sized sz al) β} {s : Ideal (sizedTy sz al) β}
    (hv : Tracks (sizedM c sz al) (SVec.Holds c) v s) (hw : Tracks (alignedM d (ATy.sized sz al)) (AVec.Holds d) w s)
    {p q : List (Env (Val (sizedTy sz al) β) × Op (sizedTy sz al) β)} (hc : SameCalls p q)
    (hs : AlongList (fun env op xs => op.WF c xs ∧ SVec.Covered env op xs) p s)
    (hs' : AlongList (fun env op xs => env.Valid ∧ op.WF d xs ∧ AVec.Covered (A := ATy.sized sz al) env op xs) q s)
    (hq : Along c (sizedM c sz al) (SVec.Holds c) (fun env op v xs => ¬ SVec.Short c env op v xs ∧ ¬ op.Dies env.dropPanics xs) p v s)
    (hq' : Along d (alignedM d (ATy.sized sz al)) (AVec.Holds d) (fun env op v xs => ¬ AVec.Short d env op v xs ∧ ¬ op.Dies env.dropPanics xs)
      q w s) :
    Indistinguishable (sizedM c sz al) (alignedM d (ATy.sized sz al)) (SVec.Holds c) (AVec.Holds d) (runOps c (sizedM c sz al) p v)
      (runOps d (alignedM d (ATy.sized sz al)) q w) :=
  SVec.client.agree (AVec.client (ATy.sized_lawful hal)) hc hv hw (AlongList.along (fun _ _ _ _ h => ⟨trivial, h⟩) p v s hs)
    (AlongList.along (fun _ _ _ _ h => h) q w s hs') hq hq'

/-- C64: `Vec` for sized elements and the general implementation are interchangeable. -/
theorem C64_sized_unaligned_partial {G : Prop} {v : SVec sz al β} {w : UVec (sizedTy sz al) β} {s : Ideal (sizedTy sz al) β}
    (hv : Tracks (sizedM c sz al) (SVec.Holds c) v s) (hw : Tracks (unalignedM d (sizedTy sz al)) (UVec.Represents G d) w s)
    {p q : List (Env (Val (sizedTy sz al) β) × Op (sizedTy sz al) β)} (hc : SameCalls p q)
    (hs : AlongList (fun env op xs => op.WF c xs ∧ SVec.Covered env op xs) p s)
    (hs' : Along d (unalignedM d (sizedTy sz al)) (UVec.Represents G d) (fun env op v xs => (env.Valid ∧ (G → env.Exact)) ∧ op.WF d xs ∧
      UVec.Covered G d env op v xs) q w s)
    (hq : Along c (sizedM c sz al) (SVec.Holds c) (fun env op v xs => ¬ SVec.Short c env op v xs ∧ ¬ op.Dies env.dropPanics xs) p v s)
    (hq' : Along d (unalignedM d (sizedTy sz al)) (UVec.Represents G d) (fun env op v xs => ¬ UVec.Short d env op v xs ∧
      ¬ op.Dies env.dropPanics xs) q w s) :
    Indistinguishable (sizedM c sz al) (unalignedM d (sizedTy sz al)) (SVec.Holds c) (UVec.Represents G d) (runOps c (sizedM c sz al) p v)
      (runOps d (unalignedM d (sizedTy sz al)) q w) :=
  SVec.client.agree (UVec.client G d (sizedTy sz al)) hc hv hw (AlongList.along (fun _ _ _ _ h => ⟨trivial, h⟩) p v s hs) hs' hq hq'

/-- C64: two vectors of statically aligned elements that hold the same elements are indistinguishable, whatever their capacity, their
address, what has been done with them before, and whatever their allocators do. -/
theorem C64_aligned_partial (hA : A.Lawful c) (hA' : A.Lawful d) {v w : AVec A β} {s : Ideal A.ty β}
    (hv : Tracks (alignedM c A) (AVec.Holds c) v s) (hw : Tracks (alignedM d A) (AVec.Holds d) w s)
    {p q : List (Env (Val A.ty β) × Op A.ty β)} (hc : SameCalls p q)
    (hs : AlongList (fun env op xs => env.Valid ∧ op.WF c xs ∧ AVec.Covered env op xs) p s)
    (hs' : AlongList (fun env op xs => env.Valid ∧ op.WF d xs ∧ AVec.Covered env op xs) q s)
    (hq : Along c (alignedM c A) (AVec.Holds c) (fun env op v xs => ¬ AVec.Short c env op v xs ∧ ¬ op.Dies env.dropPanics xs) p v s)
    (hq' : Along d (alignedM d A) (AVec.Holds d) (fun env op v xs => ¬ AVec.Short d env op v xs ∧ ¬ op.Dies env.dropPanics xs) q w s) :
    Indistinguishable (alignedM c A) (alignedM d A) (AVec.Holds c) (AVec.Holds d) (runOps c (alignedM c A) p v) (runOps d (alignedM d A) q w) :=
  (AVec.client hA).agree (AVec.client hA') hc hv hw (AlongList.along (fun _ _ _ _ h => h) p v s hs)
    (AlongList.along (fun _ _ _ _ h => h) q w s hs') hq hq'

/-- C64: two vectors of sized elements that hold the same elements are indistinguishable. -/
theorem C64_sized_partial {v w : SVec sz al β} {s : Ideal (sizedTy sz al) β}
    (hv : Tracks (sizedM c sz al) (SVec.Holds c) v s) (hw : Tracks (sizedM d sz al) (SVec.Holds d) w s)
    {p q : List (Env (Val (sizedTy sz al) β) × Op (sizedTy sz al) β)} (hc : SameCalls p q)
    (hs : AlongList (fun env op xs => op.WF c xs ∧ SVec.Covered env op xs) p s)
    (hs' : AlongList (fun env op xs => op.WF d xs ∧ SVec.Covered env op xs) q s)
    (hq : Along c (sizedM c sz al) (SVec.Holds c) (fun env op v xs => ¬ SVec.Short c env op v xs ∧ ¬ op.Dies env.dropPanics xs) p v s)
    (hq' : Along d (sizedM d sz al) (SVec.Holds d) (fun env op v xs => ¬ SVec.Short d env op v xs ∧ ¬ op.Dies env.dropPanics xs) q w s) :
    Indistinguishable (sizedM c sz al) (sizedM d sz al) (SVec.Holds c) (SVec.Holds d) (runOps c (sizedM c sz al) p v)
      (runOps d (sizedM d sz al) q w) :=
  SVec.client.agree SVec.client hc hv hw (AlongList.along (fun _ _ _ _ h => ⟨trivial, h⟩) p v s hs)
    (AlongList.along (fun _ _ _ _ h => ⟨trivial, h⟩) q w s hs') hq hq'

/-- C64: two vectors of dynamically aligned elements that hold the same elements are indistinguishable; their alignments (`align()`),
and so the padding between the elements, may be different. -/
theorem C64_unaligned_partial {G G' : Prop} {v w : UVec T β} {s : Ideal T β}
    (hv : Tracks (unalignedM c T) (UVec.Represents G c) v s) (hw : Tracks (unalignedM d T) (UVec.Represents G' d) w s)
    {p q : List (Env (Val T β) × Op T β)} (hc : SameCalls p q)
    (hs : Along c (unalignedM c T) (UVec.Represents G c) (fun env op v xs => (env.Valid ∧ (G → env.Exact)) ∧ op.WF c xs ∧
      UVec.Covered G c env op v xs) p v s)
    (hs' : Along d (unalignedM d T) (UVec.Represents G' d) (fun env op v xs => (env.Valid ∧ (G' → env.Exact)) ∧ op.WF d xs ∧
      UVec.Covered G' d env op v xs) q w s)
    (hq : Along c (unalignedM c T) (UVec.Represents G c) (fun env op v xs => ¬ UVec.Short c env op v xs ∧ ¬ op.Dies env.dropPanics xs) p v s)
    (hq' : Along d (unalignedM d T) (UVec.Represents G' d) (fun env op v xs => ¬ UVec.Short d env op v xs ∧ ¬ op.Dies env.dropPanics xs) q w s) :
    Indistinguishable (unalignedM c T) (unalignedM d T) (UVec.Represents G c) (UVec.Represents G' d) (runOps c (unalignedM c T) p v)
      (runOps d (unalignedM d T) q w) :=
  (UVec.client G c T).agree (UVec.client G' d T) hc hv hw hs hs' hq hq'

end

/-! ## Examples -/
section
open Sample

/-- A push, and calls that need no memory. -/
def progW : List (Env (Val (sizedTy 2 1) Nat) × Op (sizedTy 2 1) Nat) :=
  [(env, .push ⟨(), [1, 2]⟩), (env, .get 0), (env, .len), (env, .pop .take)]

theorem progW_wf (bs : List Nat) (h : bs.length = 2) : (⟨(), bs⟩ : Val (sizedTy 2 1) Nat).WF c64d :=
  ⟨h, ⟨0, by decide, rfl⟩, Nat.one_dvd _, by show 2 + (1 - 1) ≤ c64d.isizeMax; decide⟩

theorem progW_sized : AlongList (fun env op xs => op.WF c64d xs ∧ SVec.Covered env op xs) progW ⟨[], []⟩ :=
  ⟨⟨progW_wf _ rfl, Nat.two_pos⟩, fun _ _ _ => ⟨⟨trivial, trivial⟩, fun _ _ _ => ⟨⟨trivial, trivial⟩, fun _ _ _ => ⟨⟨trivial, trivial⟩, fun _ _ _ =>
    trivial⟩⟩⟩⟩

theorem progW_aligned : AlongList (fun env op xs => env.Valid ∧ op.WF c64d xs ∧ AVec.Covered (A := ATy.sized 2 1) env op xs) progW ⟨[], []⟩ :=
  ⟨⟨env_valid, progW_wf _ rfl, trivial⟩, fun _ _ _ => ⟨⟨env_valid, trivial, trivial⟩, fun _ _ _ => ⟨⟨env_valid, trivial, trivial⟩, fun _ _ _ =>
    ⟨⟨env_valid, trivial, trivial⟩, fun _ _ _ => trivial⟩⟩⟩⟩

/-- There are never more than two elements. -/
theorem progW_short {V : Type} {M : Machine V (sizedTy 2 1) Nat} {H : V → List (Val (sizedTy 2 1) Nat) → Prop}
    {Q : Env (Val (sizedTy 2 1) Nat) → Op (sizedTy 2 1) Nat → V → List (Val (sizedTy 2 1) Nat) → Prop} {v : V}
    (h1 : Q env (.push ⟨(), [1, 2]⟩) v []) (h2 : ∀ op v xs, H v xs → xs.length ≤ 1 → (∃ i, op = .get i) ∨ op = .len ∨ op = .pop .take → Q env op v xs) :
    Along c64d M H Q progW v ⟨[], []⟩ := by
  refine ⟨h1, fun o v1 s1 _ ht1 ha1 => ?_⟩
  have l1 : s1.contents.length ≤ 1 := by
    rcases ha1 with ha1 | ⟨_, _, _, ha1⟩
    · obtain ⟨_, rfl⟩ := Prod.mk.inj ha1; exact Nat.le_refl _
    · rw [ha1]; exact Nat.zero_le _
  refine ⟨h2 _ _ _ ht1.1 l1 (.inl ⟨0, rfl⟩), fun o v2 s2 _ ht2 ha2 => ?_⟩
  have l2 : s2.contents.length ≤ 1 := by
    rcases ha2 with ha2 | ⟨_, ha2, _⟩
    · have h3 : ((Op.get 0 : Op (sizedTy 2 1) Nat).onList (env (X := Val (sizedTy 2 1) Nat)).dropPanics s1).2 = s1 := by
        unfold Op.onList; dsimp only; split <;> rfl
      rw [← ha2] at h3
      dsimp only at h3
      rw [h3]; exact l1
    · exact ha2.elim
  refine ⟨h2 _ _ _ ht2.1 l2 (.inr (.inl rfl)), fun o v3 s3 _ ht3 ha3 => ?_⟩
  have l3 : s3.contents.length ≤ 1 := by
    rcases ha3 with ha3 | ⟨_, ha3, _⟩
    · obtain ⟨_, rfl⟩ := Prod.mk.inj ha3; exact l2
    · exact ha3.elim
  exact ⟨h2 _ _ _ ht3.1 l3 (.inr (.inr rfl)), fun _ _ _ _ _ _ => trivial⟩

theorem progW_sized_quiet : Along c64d (sizedM c64d 2 1) (SVec.Holds c64d) (fun env op v xs => ¬ SVec.Short c64d env op v xs ∧ ¬ op.Dies env.dropPanics xs)
    progW SVec.new ⟨[], []⟩ := by
  have h : ∀ (v : SVec 2 1 Nat) xs, v.Holds c64d xs → xs.length ≤ 1 → ¬ v.NoSlot c64d (env (X := Val (sizedTy 2 1) Nat)) := by
    rintro v xs hv hx ⟨_, e, ⟨_, h1⟩ | h1⟩
    · rw [hv.len] at h1
      have : 2 < SVec.maxSlots c64d 2 := by decide
      omega
    · exact nomatch h1
  refine progW_short ⟨h _ _ SVec.new_holds (Nat.zero_le _), id⟩ fun op v xs hv hx hop => ?_
  rcases hop with ⟨i, rfl⟩ | rfl | rfl <;> exact ⟨id, id⟩

theorem progW_aligned_quiet : Along c64d (alignedM c64d (ATy.sized 2 1)) (AVec.Holds c64d)
    (fun env op v xs => ¬ AVec.Short c64d env op v xs ∧ ¬ op.Dies env.dropPanics xs) progW AVec.new ⟨[], []⟩ := by
  have h : ¬ AVec.Short (A := ATy.sized 2 1) c64d (env (X := Val (sizedTy 2 1) Nat)) (.push ⟨(), [1, 2]⟩) AVec.new [] := by
    rintro (⟨n, l, h | h⟩ | h | h)
    · exact nomatch h
    · exact nomatch h
    · exact absurd h (by decide)
    · exact absurd h (by decide)
  refine progW_short ⟨h, id⟩
    fun op v xs hv hx hop => ?_
  rcases hop with ⟨i, rfl⟩ | rfl | rfl
  all_goals exact ⟨id, id⟩

example := C64_sized_aligned_partial (c := c64d) (d := c64d) (β := Nat) (sz := 2) (al := 1) ⟨0, by decide, rfl⟩ (v := SVec.new) (w := AVec.new) (s := ⟨[], []⟩)
  ⟨SVec.new_holds, rfl⟩ ⟨AVec.new_holds (ATy.sized_lawful ⟨0, by decide, rfl⟩).fits, rfl⟩ (p := progW) (q := progW) rfl progW_sized progW_aligned
  progW_sized_quiet progW_aligned_quiet

/-- Inserting an element between two others. -/
def progX : List (Env (Val (sizedTy 2 1) Nat) × Op (sizedTy 2 1) Nat) :=
  [(env, .push ⟨(), [1, 2]⟩), (env, .push ⟨(), [3, 4]⟩), (env, .insert 1 ⟨(), [5, 6]⟩), (env, .get 0), (env, .get 1), (env, .get 2)]

/-- C64 is false of `insert`: it does the right thing for sized elements, and something else in the other implementations. -/
theorem C64_counterexample :
    observed (runOps c64d (sizedM c64d 2 1) progX SVec.new) = some [[0], [0], [0], [5, 1, 2], [5, 5, 6], [5, 3, 4]] ∧
    observed (runOps c64d (alignedM c64d (ATy.sized 2 1)) progX AVec.new) ≠ some [[0], [0], [0], [5, 1, 2], [5, 5, 6], [5, 3, 4]] ∧
    observed (runOps c64d (unalignedM c64d (sizedTy 2 1)) progX (UVec.newAlignPtr c64d)) ≠
      some [[0], [0], [0], [5, 1, 2], [5, 5, 6], [5, 3, 4]] := by decide +kernel

end
end Verif
