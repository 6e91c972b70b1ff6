import Verif.Props.Life
import Verif.Props.Shrink

/-!
# C52: no value out of thin air, and no uninitialised byte

The type of bytes is a parameter of the model, and fresh memory consists of `default` bytes. So with `Option B` as type of bytes, the
bytes `none` are those that have never been written since the memory was allocated. Reading one is undefined behaviour in Rust.
-/

namespace Verif
section
variable {T : UTy} {A : ATy} {β : Type} {c : Cfg} {sz al : Nat}

/-- The values that a call gives to the vector satisfy `Q`. -/
def Op.Gives (Q : Val T β → Prop) : Op T β → Prop
  | push x | insert _ x | pushWith (.value x) | insertWith _ (.value x) => Q x
  | set _ bs => ∀ x, Q x → Q ⟨x.md, bs⟩
  | iterMut _ bss => ∀ bs ∈ bss, ∀ x, Q x → Q ⟨x.md, bs⟩
  | _ => True

/-- The values that the program sees in an observation satisfy `Q`. -/
def Out.All (Q : Val T β → Prop) : Out T β → Prop
  | value x => Q x
  | values l => ∀ x, some x ∈ l → Q x
  | _ => True

/-- All values in the vector and all destroyed ones satisfy `Q`. -/
def Ideal.All (Q : Val T β → Prop) (s : Ideal T β) : Prop := (∀ x ∈ s.contents, Q x) ∧ ∀ x ∈ s.dropped, Q x

theorem Dst.onList_all {Q : Val T β → Prop} {x : Val T β} (hx : Q x) {ds : List (Val T β)} (hd : ∀ y ∈ ds, Q y)
    (p : Val T β → Bool) (d : Dst) : (d.onList p x ds).1.All Q ∧ ∀ y ∈ (d.onList p x ds).2, Q y := by
  cases d with
  | take => exact ⟨hx, hd⟩
  | drop =>
    refine ⟨?_, fun y hy => ?_⟩
    · unfold Dst.onList
      dsimp only
      split <;> trivial
    · unfold Dst.onList at hy
      rcases List.mem_append.1 hy with h | h
      · exact hd y h
      · rw [List.mem_singleton] at h; exact h ▸ hx
  | forget => exact ⟨trivial, hd⟩
  | panics => exact ⟨trivial, hd⟩

theorem overwrite_all {Q : Val T β → Prop} : ∀ (is : List (Option Nat)) (bss : List (List β)) {xs : List (Val T β)},
    (∀ bs ∈ bss, ∀ x, Q x → Q ⟨x.md, bs⟩) → (∀ x ∈ xs, Q x) → ∀ x ∈ overwrite is bss xs, Q x
  | [], _, _, _, h => h
  | none :: _, [], _, _, h => h
  | some _ :: _, [], _, _, h => h
  | none :: is, _ :: bss, _, hg, h => overwrite_all is bss (fun b hb => hg b (List.mem_cons_of_mem _ hb)) h
  | some i :: is, bs :: bss, xs, hg, h => by
    refine overwrite_all is bss (fun b hb => hg b (List.mem_cons_of_mem _ hb)) (xs := xs.modify i _) fun x hx => ?_
    cases hi : xs[i]? with
    | none => rw [List.modify_eq_self (List.getElem?_eq_none_iff.1 hi)] at hx; exact h x hx
    | some y =>
      rw [modify_some hi] at hx
      rcases List.mem_or_eq_of_mem_set hx with h1 | h1
      · exact h x h1
      · exact h1 ▸ hg bs List.mem_cons_self y (h y (List.mem_of_getElem? hi))

theorem Op.onList_all {Q : Val T β → Prop} (p : Val T β → Bool) (op : Op T β) (hg : op.Gives Q) {s : Ideal T β} (hs : s.All Q) :
    (op.onList p s).1.All Q ∧ (op.onList p s).2.All Q := by
  obtain ⟨h1, h2⟩ := hs
  have happ : ∀ x, Q x → ∀ y ∈ s.contents ++ [x], Q y := fun x hx y hy => by
    rcases List.mem_append.1 hy with h | h
    · exact h1 y h
    · rw [List.mem_singleton] at h; exact h ▸ hx
  have hrej : ∀ x, Q x → ∀ y ∈ s.dropped ++ [x], Q y := fun x hx y hy => by
    rcases List.mem_append.1 hy with h | h
    · exact h2 y h
    · rw [List.mem_singleton] at h; exact h ▸ hx
  have hins : ∀ x, Q x → ∀ i, ∀ y ∈ s.contents.take i ++ x :: s.contents.drop i, Q y := fun x hx i y hy => by
    rcases List.mem_append.1 hy with h | h
    · exact h1 y (List.mem_of_mem_take h)
    · rcases List.mem_cons.1 h with h | h
      · exact h ▸ hx
      · exact h1 y (List.mem_of_mem_drop h)
  have hget : ∀ {i : Nat} {x}, s.contents[i]? = some x → Q x := fun h => h1 _ (List.mem_of_getElem? h)
  cases op with
  | push x => exact ⟨trivial, happ x hg, h2⟩
  | pushWith src =>
    cases src with
    | value x => exact ⟨trivial, happ x hg, h2⟩
    | panics => exact ⟨trivial, h1, h2⟩
    | fails md bs => exact ⟨trivial, h1, h2⟩
  | insert i x =>
    unfold Op.onList
    dsimp only
    split
    · exact ⟨trivial, hins x hg i, h2⟩
    · exact ⟨trivial, h1, hrej x hg⟩
  | insertWith i src =>
    cases src with
    | value x =>
      unfold Op.onList
      dsimp only
      split
      · exact ⟨trivial, hins x hg i, h2⟩
      · exact ⟨trivial, h1, hrej x hg⟩
    | panics => exact ⟨trivial, h1, h2⟩
    | fails md bs => exact ⟨trivial, h1, h2⟩
  | pop d =>
    unfold Op.onList
    dsimp only
    split
    · exact ⟨trivial, h1, h2⟩
    · next x hx =>
      obtain ⟨g1, g2⟩ := Dst.onList_all (h1 _ (List.mem_of_getLast? hx)) h2 p d
      exact ⟨g1, fun y hy => h1 y (List.dropLast_subset _ hy), g2⟩
  | remove i d =>
    unfold Op.onList
    dsimp only
    split
    · exact ⟨trivial, h1, h2⟩
    · next x hx =>
      obtain ⟨g1, g2⟩ := Dst.onList_all (hget hx) h2 p d
      refine ⟨g1, fun y hy => ?_, g2⟩
      dsimp only at hy
      split at hy
      · exact h1 y hy
      · exact h1 y (List.mem_of_mem_eraseIdx hy)
  | reserve q => exact ⟨trivial, h1, h2⟩
  | tryReserve q => exact ⟨trivial, h1, h2⟩
  | shrink q => exact ⟨trivial, h1, h2⟩
  | get i =>
    unfold Op.onList
    dsimp only
    split
    · next x hx => exact ⟨hget hx, h1, h2⟩
    · exact ⟨trivial, h1, h2⟩
  | index i =>
    unfold Op.onList
    dsimp only
    split
    · next x hx => exact ⟨hget hx, h1, h2⟩
    · exact ⟨trivial, h1, h2⟩
  | set i bs =>
    unfold Op.onList
    dsimp only
    split
    · next x hx =>
      refine ⟨trivial, fun y hy => ?_, h2⟩
      rcases List.mem_or_eq_of_mem_set hy with h | h
      · exact h1 y h
      · exact h ▸ hg x (hget hx)
    · exact ⟨trivial, h1, h2⟩
  | len => exact ⟨trivial, h1, h2⟩
  | iter k =>
    refine ⟨fun x hx => ?_, h1, h2⟩
    obtain ⟨o, _, hi⟩ := List.mem_map.1 hx
    obtain ⟨i, rfl, hi⟩ := Option.bind_eq_some_iff.1 hi
    exact hget hi
  | iterMut ks bss => exact ⟨trivial, overwrite_all _ bss hg h1, h2⟩

theorem Op.refused_all {Q : Val T β → Prop} (op : Op T β) (hg : op.Gives Q) {s : Ideal T β} (hs : s.All Q) : (op.refused s).All Q := by
  obtain ⟨h1, h2⟩ := hs
  have hrej : ∀ x, Q x → ∀ y ∈ s.dropped ++ [x], Q y := fun x hx y hy => by
    rcases List.mem_append.1 hy with h | h
    · exact h2 y h
    · rw [List.mem_singleton] at h; exact h ▸ hx
  cases op with
  | push x => exact ⟨h1, hrej x hg⟩
  | insert i x => exact ⟨h1, hrej x hg⟩
  | insertWith i src =>
    cases src with
    | value x =>
      unfold Op.refused
      dsimp only
      split
      · exact ⟨h1, h2⟩
      · exact ⟨h1, hrej x hg⟩
    | panics => exact ⟨h1, h2⟩
    | fails md bs => exact ⟨h1, h2⟩
  | _ => exact ⟨h1, h2⟩

/-- C52: whatever holds of the values a program gives to a vector (and of those in it before) holds of all values that the program
sees in it, and of all that are destroyed. -/
theorem C52_explained {Q : Val T β → Prop} : ∀ (ops : List (Env (Val T β) × Op T β)), (∀ p ∈ ops, p.2.Gives Q) → ∀ {s s' : Ideal T β}
    {os : List (Out T β)}, s.All Q → Explains ops s os s' → (∀ o ∈ os, o.All Q) ∧ s'.All Q := by
  intro ops
  induction ops with
  | nil =>
    rintro _ s s' os hs ⟨rfl, rfl⟩
    exact ⟨fun o ho => (by cases ho), hs⟩
  | cons p ops ih =>
    obtain ⟨env, op⟩ := p
    rintro hg s s' os hs ⟨o, os', s1, rfl, ha, he⟩
    have h1 : o.All Q ∧ s1.All Q := by
      rcases ha with h | ⟨_, _, hf, rfl⟩
      · have := Op.onList_all env.dropPanics op (hg (env, op) (by simp)) hs
        rw [← h] at this
        exact this
      · refine ⟨?_, Op.refused_all op (hg (env, op) (by simp)) hs⟩
        have : o = .panicked ∨ ∃ e, o = .failed e := by
          cases op <;> first | exact hf | exact .inl hf
        rcases this with rfl | ⟨e, rfl⟩ <;> trivial
    obtain ⟨h2, h3⟩ := ih (fun p hp => hg p (List.mem_cons_of_mem _ hp)) h1.2 he
    refine ⟨fun o' ho => ?_, h3⟩
    rcases List.mem_cons.1 ho with rfl | ho
    · exact h1.1
    · exact h2 o' ho

variable [Inhabited β] {Q : Val T β → Prop} {QA : Val A.ty β → Prop} {QS : Val (sizedTy sz al) β → Prop}

/-- C52, statically aligned elements: a program of covered calls that gives a vector only values with `Q`, sees, leaves and destroys only
values with `Q`. -/
theorem C52_program_aligned_partial (hA : A.Lawful c) {v : AVec A β} {s : Ideal A.ty β} (h : Tracks (alignedM c A) (AVec.Holds c) v s)
    (hs0 : s.All QA) (ops : List (Env (Val A.ty β) × Op A.ty β)) (hg : ∀ p ∈ ops, p.2.Gives QA)
    (hs : AlongList (fun env op xs => env.Valid ∧ op.WF c xs ∧ AVec.Covered env op xs) ops s) :
    (runOps c (alignedM c A) ops v).Meets
      (fun os v' => (∀ o ∈ os, o.All QA) ∧ (∀ x ∈ v'.drops, QA x) ∧ ∃ xs, v'.observe c = some xs ∧ ∀ x ∈ xs, QA x)
      (fun _ => False) True :=
  (C36_program_aligned_partial hA h ops hs).mono
    (fun os v' ⟨s', h1, h2, _⟩ => by
      obtain ⟨g1, g2, g3⟩ := C52_explained ops hg hs0 h2
      exact ⟨g1, by rw [show v'.drops = s'.dropped from h1.2]; exact g3, _, AVec.Holds.observe_eq hA.fits h1.1, g2⟩)
    (fun _ h => h) (fun _ => trivial)

/-- C52, dynamically aligned elements. -/
theorem C52_program_unaligned_partial {G : Prop} {v : UVec T β} {s : Ideal T β} (h : Tracks (unalignedM c T) (UVec.Represents G c) v s)
    (hs0 : s.All Q) (ops : List (Env (Val T β) × Op T β)) (hg : ∀ p ∈ ops, p.2.Gives Q)
    (hs : Along c (unalignedM c T) (UVec.Represents G c) (fun env op v xs => (env.Valid ∧ (G → env.Exact)) ∧ op.WF c xs ∧ UVec.Covered G c env op v xs)
      ops v s) :
    (runOps c (unalignedM c T) ops v).Meets
      (fun os v' => (∀ o ∈ os, o.All Q) ∧ (∀ x ∈ v'.drops, Q x) ∧ ∃ xs, v'.observe c = some xs ∧ ∀ x ∈ xs, Q x)
      (fun _ => False) True :=
  (C36_program_unaligned_partial h ops hs).mono
    (fun os v' ⟨s', h1, h2, _⟩ => by
      obtain ⟨g1, g2, g3⟩ := C52_explained ops hg hs0 h2
      exact ⟨g1, by rw [show v'.drops = s'.dropped from h1.2]; exact g3, _, h1.1.observe_eq, g2⟩)
    (fun _ h => h) (fun _ => trivial)

/-- C52, sized elements. -/
theorem C52_program_sized_partial {v : SVec sz al β} {s : Ideal (sizedTy sz al) β}
    (h : Tracks (sizedM c sz al) (SVec.Holds c) v s) (hs0 : s.All QS)
    (ops : List (Env (Val (sizedTy sz al) β) × Op (sizedTy sz al) β)) (hg : ∀ p ∈ ops, p.2.Gives QS)
    (hs : AlongList (fun env op xs => op.WF c xs ∧ SVec.Covered env op xs) ops s) :
    (runOps c (sizedM c sz al) ops v).Meets
      (fun os v' => (∀ o ∈ os, o.All QS) ∧ (∀ x ∈ v'.drops, QS x) ∧ ∃ xs, v'.observe = some xs ∧ ∀ x ∈ xs, QS x)
      (fun _ => False) True :=
  (C36_program_sized_partial h ops hs).mono
    (fun os v' ⟨s', h1, h2, _⟩ => by
      obtain ⟨g1, g2, g3⟩ := C52_explained ops hg hs0 h2
      exact ⟨g1, by rw [show v'.drops = s'.dropped from h1.2]; exact g3, _, SVec.Holds.observe_eq h1.1, g2⟩)
    (fun _ h => h) (fun _ => trivial)

end

section
variable {T : UTy} {A : ATy} {B : Type} {c : Cfg} {sz al : Nat}

/-- All bytes of the value have been written. -/
def Val.Init (x : Val T (Option B)) : Prop := none ∉ x.bytes

/-- C52, uninitialised memory, statically aligned elements: a program of covered calls that gives a new vector initialised values
only, never sees a value with an uninitialised byte, nor is such a value destroyed. -/
theorem C52_uninit_aligned_partial (hA : A.Lawful c) (ops : List (Env (Val A.ty (Option B)) × Op A.ty (Option B)))
    (hg : ∀ p ∈ ops, p.2.Gives Val.Init)
    (hs : AlongList (fun env op xs => env.Valid ∧ op.WF c xs ∧ AVec.Covered env op xs) ops ⟨[], []⟩) :
    (runOps c (alignedM c A) ops AVec.new).Meets
      (fun os v' => (∀ o ∈ os, o.All Val.Init) ∧ (∀ x ∈ v'.drops, x.Init) ∧ ∃ xs, v'.observe c = some xs ∧ ∀ x ∈ xs, x.Init)
      (fun _ => False) True :=
  C52_program_aligned_partial hA ⟨AVec.new_holds hA.fits, rfl⟩ ⟨fun _ h => (by cases h), fun _ h => (by cases h)⟩ ops hg hs

/-- C52, uninitialised memory, dynamically aligned elements. -/
theorem C52_uninit_unaligned_partial {G : Prop} (hu : IsAlign c c.usizeAlign) (ops : List (Env (Val T (Option B)) × Op T (Option B)))
    (hg : ∀ p ∈ ops, p.2.Gives Val.Init)
    (hs : Along c (unalignedM c T) (UVec.Represents G c) (fun env op v xs => (env.Valid ∧ (G → env.Exact)) ∧ op.WF c xs ∧ UVec.Covered G c env op v xs)
      ops (UVec.newAlignPtr c) ⟨[], []⟩) :
    (runOps c (unalignedM c T) ops (UVec.newAlignPtr c)).Meets
      (fun os v' => (∀ o ∈ os, o.All Val.Init) ∧ (∀ x ∈ v'.drops, x.Init) ∧ ∃ xs, v'.observe c = some xs ∧ ∀ x ∈ xs, x.Init)
      (fun _ => False) True :=
  C52_program_unaligned_partial ⟨UVec.newAlignPtr_represents hu, rfl⟩ ⟨fun _ h => (by cases h), fun _ h => (by cases h)⟩ ops hg hs

/-- C52, uninitialised memory, sized elements. -/
theorem C52_uninit_sized_partial (ops : List (Env (Val (sizedTy sz al) (Option B)) × Op (sizedTy sz al) (Option B)))
    (hg : ∀ p ∈ ops, p.2.Gives Val.Init) (hs : AlongList (fun env op xs => op.WF c xs ∧ SVec.Covered env op xs) ops ⟨[], []⟩) :
    (runOps c (sizedM c sz al) ops SVec.new).Meets
      (fun os v' => (∀ o ∈ os, o.All Val.Init) ∧ (∀ x ∈ v'.drops, x.Init) ∧ ∃ xs, v'.observe = some xs ∧ ∀ x ∈ xs, x.Init)
      (fun _ => False) True :=
  C52_program_sized_partial ⟨SVec.new_holds, rfl⟩ ⟨fun _ h => (by cases h), fun _ h => (by cases h)⟩ ops hg hs

end

section
open Sample

/-- The uninitialised bytes in an observation. -/
def Out.holes {T : UTy} : Out T (Option Nat) → Nat
  | .value x => (x.bytes.filter (·.isNone)).length
  | _ => 0

/-- The number of uninitialised bytes that each call shows. -/
def holes {V : Type} {T : UTy} (r : Res V (List (Out T (Option Nat)))) : Option (List Nat) :=
  match r with
  | .ok os _ => some (os.map Out.holes)
  | _ => none

/-- A program that the theorem does not cover because of `shrink_to_fit`: two elements of one byte in a vector with alignment 8. -/
def progHole : List (Env (Val Dyn (Option Nat)) × Op Dyn (Option Nat)) :=
  [(env, .push ⟨(1, 1), [some 1]⟩), (env, .push ⟨(1, 1), [some 2]⟩), (env, .get 1), (env, .shrink .toFit), (env, .get 1)]

/-- C52 fails after `shrink_to_fit` (see C18): the second element, read as `2` before, is an uninitialised byte afterwards. -/
theorem C52_counterexample :
    (∀ p ∈ progHole, p.2.Gives Val.Init) ∧
    holes (runOps c64 (unalignedM c64 Dyn) progHole (UVec.newAlignPtr c64)) = some [0, 0, 0, 0, 1] := by
  refine ⟨?_, by decide +kernel⟩
  intro p hp
  simp only [progHole, List.mem_cons, List.not_mem_nil, or_false] at hp
  rcases hp with rfl | rfl | rfl | rfl | rfl
  · exact fun h => by simp at h
  · exact fun h => by simp at h
  · trivial
  · trivial
  · trivial

/-- The first three calls are covered. -/
example : Along c64 (unalignedM c64 Dyn) (UVec.Holds c64)
    (fun env op v xs => (env.Valid ∧ (True → env.Exact)) ∧ op.WF c64 xs ∧ UVec.Covered True c64 env op v xs) (progHole.take 3) (UVec.newAlignPtr c64) ⟨[], []⟩ := by
  have w : ∀ b : Option Nat, (⟨(1, 1), [b]⟩ : Val Dyn (Option Nat)).WF c64 := fun b =>
    ⟨rfl, ⟨0, by decide, rfl⟩, Nat.one_dvd _, by show 1 + (1 - 1) ≤ c64.isizeMax; decide⟩
  refine ⟨⟨⟨env_valid, (fun _ => env_exact)⟩, w _, ?_⟩, fun _ _ _ _ _ _ => ⟨⟨⟨env_valid, (fun _ => env_exact)⟩, w _, ?_⟩, fun _ _ _ _ _ _ =>
    ⟨⟨⟨env_valid, (fun _ => env_exact)⟩, trivial, trivial⟩, fun _ _ _ _ _ _ => trivial⟩⟩⟩
  · exact ⟨fun _ h => absurd h (by decide), fun h => absurd trivial h⟩
  · exact ⟨fun _ h => absurd h (by decide), fun h => absurd trivial h⟩

end
end Verif
