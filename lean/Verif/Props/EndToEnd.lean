import Verif.Props.Move
import Verif.Props.History
import Verif.Props.FromSized

/-!
# C57: the documented memory layout

src/lib.rs:154–180 says how the elements lie in memory. It is stated here about the references that `get` returns: where they
point to, and the size of what they point to.
-/

namespace Verif
section
variable {V : Type} {T : UTy} {A : ATy} {β : Type} {c : Cfg} {sz al : Nat}

/-- The elements lie one after the other: `get` finds every element; the first one is at the start; where the space of an element
ends, the next one begins; and the space of the last one ends before `room`. An element whose size is `n` has the space
`width n`. -/
structure EndToEnd (P : Provider V T β) (v : V) (width : Nat → Nat) (room : Nat) : Prop where
  found : ∀ i, i < P.len v → ∃ r, Api.get P v i = some (some r)
  first : ∀ r, Api.get P v 0 = some (some r) → r.off = 0
  next : ∀ i r s, Api.get P v i = some (some r) → Api.get P v (i + 1) = some (some s) →
    s.base = r.base ∧ s.off = r.off + width (T.sizeOf r.md)
  last : ∀ i r, Api.get P v i = some (some r) → r.off + width (T.sizeOf r.md) ≤ room

/-- Every element begins and ends inside the block, and two different elements do not overlap (this is what is meant by "one
after the other"). -/
theorem EndToEnd.apart {P : Provider V T β} {v : V} {width : Nat → Nat} {room : Nat} (h : EndToEnd P v width room)
    (hw : ∀ n, n ≤ width n) {i j : Nat} {r s : Ref T} (hij : i < j) (hi : Api.get P v i = some (some r))
    (hj : Api.get P v j = some (some s)) : r.off + T.sizeOf r.md ≤ s.off ∧ s.off + T.sizeOf s.md ≤ room ∧ s.base = r.base := by
  have key : ∀ k s, Api.get P v (i + 1 + k) = some (some s) → r.off + width (T.sizeOf r.md) ≤ s.off ∧ s.base = r.base := by
    intro k
    induction k with
    | zero =>
      intro s hs
      obtain ⟨h1, h2⟩ := h.next i r s hi hs
      exact ⟨by omega, h1⟩
    | succ k ih =>
      intro s hs
      have hl : i + 1 + (k + 1) < P.len v := by
        refine Nat.lt_of_not_le fun hn => ?_
        unfold Api.get at hs
        rw [if_neg (by omega)] at hs
        cases hs
      obtain ⟨t, ht⟩ := h.found (i + 1 + k) (by omega)
      obtain ⟨h1, h2⟩ := ih t ht
      obtain ⟨h3, h4⟩ := h.next _ t s ht hs
      exact ⟨by omega, h3.trans h2⟩
  obtain ⟨k, rfl⟩ : ∃ k, j = i + 1 + k := ⟨j - i - 1, by omega⟩
  obtain ⟨h1, h2⟩ := key k s hj
  have h3 := h.last _ s hj
  have h4 := hw (T.sizeOf r.md)
  have h5 := hw (T.sizeOf s.md)
  exact ⟨by omega, by omega, h2⟩

/-- A vector whose `get` is known. -/
theorem endToEnd_of {P : Provider V T β} {v : V} {width : Nat → Nat} {room b : Nat} {xs : List (Val T β)} (hl : P.len v = xs.length)
    (hg : ∀ i (hi : i < xs.length), P.getUnchecked v i = some ⟨b, totalWidth width (xs.take i), xs[i].md⟩)
    (hr : totalWidth width xs ≤ room) : EndToEnd P v width room := by
  have g : ∀ i (hi : i < xs.length), Api.get P v i = some (some ⟨b, totalWidth width (xs.take i), xs[i].md⟩) := by
    intro i hi
    unfold Api.get
    rw [if_pos (by rw [hl]; exact hi), hg i hi]; rfl
  have inv : ∀ i r, Api.get P v i = some (some r) → ∃ hi : i < xs.length, r = ⟨b, totalWidth width (xs.take i), xs[i].md⟩ := by
    intro i r h
    by_cases hi : i < xs.length
    · refine ⟨hi, ?_⟩
      rw [g i hi] at h
      injection h with h; injection h with h
      exact h.symm
    · unfold Api.get at h
      rw [if_neg (by rw [hl]; exact hi)] at h
      cases h
  have step : ∀ i (hi : i < xs.length),
      totalWidth width (xs.take (i + 1)) = totalWidth width (xs.take i) + width (T.sizeOf xs[i].md) := by
    intro i hi
    rw [List.take_succ_eq_append_getElem hi, totalWidth_append]
    show _ = _ + width xs[i].size
    simp [totalWidth]
  refine ⟨fun i hi => ⟨_, g i (by rw [← hl]; exact hi)⟩, ?_, ?_, ?_⟩
  · intro r h
    obtain ⟨_, rfl⟩ := inv 0 r h
    rfl
  · intro i r s h h'
    obtain ⟨hi, rfl⟩ := inv i r h
    obtain ⟨_, rfl⟩ := inv (i + 1) s h'
    exact ⟨rfl, step i hi⟩
  · intro i r h
    obtain ⟨hi, rfl⟩ := inv i r h
    have h1 := step i hi
    have h2 : totalWidth width (xs.take (i + 1)) ≤ totalWidth width xs := by
      conv => rhs; rw [← List.take_append_drop (i + 1) xs, totalWidth_append]
      exact Nat.le_add_right _ _
    exact Nat.le_trans (Nat.le_of_eq h1.symm) (Nat.le_trans h2 hr)

variable [Inhabited β]

/-- C57, dynamically aligned elements: the elements lie end to end, each padded to the alignment of the vector, which is at least
that of every element. -/
theorem C57_unaligned {G : Prop} {v : UVec T β} {xs : List (Val T β)} (h : v.Represents G c xs) :
    EndToEnd (unalignedP c T) v (padTo v.align) v.byteCap ∧
    ∀ i r, Api.get (unalignedP c T) v i = some (some r) → T.alignOf r.md ≤ v.align := by
  have hl : (unalignedP c T).len v = xs.length := h.len_eq
  refine ⟨endToEnd_of (xs := xs) hl (UVec.getUnchecked_eq h) h.cap, fun i r hr => ?_⟩
  unfold Api.get at hr
  by_cases hi : i < xs.length
  · rw [if_pos (by rw [hl]; exact hi)] at hr
    rw [show (unalignedP c T).getUnchecked v i = _ from UVec.getUnchecked_eq h i hi] at hr
    injection hr with hr; injection hr with hr
    subst hr
    exact Nat.le_of_dvd h.al.pos (h.elemAl _ (List.getElem_mem hi))
  · rw [if_neg (by rw [hl]; exact hi)] at hr
    cases hr

/-- C57, statically aligned elements: the elements lie end to end, without padding. -/
theorem C57_aligned (hA : A.Fits c) {v : AVec A β} {xs : List (Val A.ty β)} (h : v.Holds c xs) :
    EndToEnd (alignedP c A) v id v.byteCap :=
  endToEnd_of (xs := xs) h.len_eq (AVec.getUnchecked_eq hA h) h.cap

omit [Inhabited β] in
/-- C57, sized elements: they lie in the slots of a `Vec` (the offsets of the model count slots). -/
theorem C57_sized {v : SVec sz al β} {xs : List (Val (sizedTy sz al) β)} (h : v.Holds c xs) :
    EndToEnd (sizedP c sz al) v (fun _ => 1) (v.capacity c) := by
  have w : ∀ ys : List (Val (sizedTy sz al) β), totalWidth (fun _ => 1) ys = ys.length := by
    intro ys
    induction ys with
    | nil => rfl
    | cons y ys ih => show 1 + totalWidth _ ys = ys.length + 1; rw [ih]; omega
  refine endToEnd_of (xs := xs) (b := 0) h.len ?_ ?_
  · intro i hi
    show (if i < v.len then _ else _) = _
    rw [if_pos (by rw [h.len]; exact hi)]
    rw [w, List.length_take, Nat.min_eq_left (Nat.le_of_lt hi)]
    rfl
  · rw [w]; exact h.cap

/-- C57, programs with dynamically aligned elements: from a new vector, by any program of covered calls. -/
theorem C57_program_unaligned_partial {G : Prop} (hu : IsAlign c c.usizeAlign) (ops : List (Env (Val T β) × Op T β))
    (hs : Along c (unalignedM c T) (UVec.Represents G c) (fun env op v xs => (env.Valid ∧ (G → env.Exact)) ∧ op.WF c xs ∧ UVec.Covered G c env op v xs)
      ops (Api.new (unalignedP c T)) ⟨[], []⟩) :
    (runOps c (unalignedM c T) ops (Api.new (unalignedP c T))).Meets
      (fun _ v => EndToEnd (unalignedP c T) v (padTo v.align) v.byteCap ∧
        ∀ i r, Api.get (unalignedP c T) v i = some (some r) → T.alignOf r.md ≤ v.align)
      (fun _ => False) True :=
  always_of_history (fun _ _ h => C57_unaligned h) (C36_program_unaligned_partial (G := G) ⟨UVec.newAlignPtr_represents hu, rfl⟩ ops hs)

/-- C57, programs with statically aligned elements. -/
theorem C57_program_aligned_partial (hA : A.Lawful c) (ops : List (Env (Val A.ty β) × Op A.ty β))
    (hs : AlongList (fun env op xs => env.Valid ∧ op.WF c xs ∧ AVec.Covered env op xs) ops ⟨[], []⟩) :
    (runOps c (alignedM c A) ops (Api.new (alignedP c A))).Meets
      (fun _ v => EndToEnd (alignedP c A) v id v.byteCap) (fun _ => False) True :=
  always_of_history (fun _ _ h => C57_aligned hA.fits h) (C36_program_aligned_partial hA ⟨AVec.new_holds hA.fits, rfl⟩ ops hs)

/-- C57, programs with sized elements. -/
theorem C57_program_sized_partial (ops : List (Env (Val (sizedTy sz al) β) × Op (sizedTy sz al) β))
    (hs : AlongList (fun env op xs => op.WF c xs ∧ SVec.Covered env op xs) ops ⟨[], []⟩) :
    (runOps c (sizedM c sz al) ops (Api.new (sizedP c sz al))).Meets
      (fun _ v => EndToEnd (sizedP c sz al) v (fun _ => 1) (v.capacity c)) (fun _ => False) True :=
  always_of_history (fun _ _ h => C57_sized h) (C36_program_sized_partial ⟨SVec.new_holds, rfl⟩ ops hs)

end

section
open Sample

/-- Trait objects of sizes 3 and 8 with alignment 8: they begin at 0 and 8, and the space ends at 16. -/
example : vecU.Holds c64 listU ∧ ((List.range 2).map fun i => (Api.get (unalignedP c64 Dyn) vecU i).bind (·.map (fun r => r.off))) = [some 0, some 8] :=
  ⟨vecU_holds _ (.inl rfl), by decide⟩

/-- Slices of bytes of lengths 1, 2 and 3: they begin at 0, 1 and 3. -/
example : vecA.Holds c64 listA ∧
    ((List.range 3).map fun i => (Api.get (alignedP c64 Bytes) vecA i).bind (·.map (fun r => (r.off, Bytes.ty.sizeOf r.md)))) =
      [some (0, 1), some (1, 2), some (3, 3)] := ⟨vecA_holds _ (.inl rfl), by decide⟩

/-- C57 is false of vectors made by unsizing (C22): the first two elements, of two bytes each, are found at the same place, for
trait objects … -/
theorem C57_counterexample_unaligned : (UVec.fromSized (T := Dyn) c64 rawVec (2, 1)).map (fun v => (List.range 3).map fun i =>
    (Api.get (unalignedP c64 Dyn) v i).bind (·.map (fun r => (r.off, Dyn.sizeOf r.md)))) =
      some [some (0, 2), some (0, 2), some (2, 2)] := by decide

/-- … and so `EndToEnd` does not hold, whatever the alignment and the capacity. -/
theorem C57_counterexample {v : UVec Dyn Nat} (h : UVec.fromSized (T := Dyn) c64 rawVec (2, 1) = some v) (room : Nat) :
    ¬ EndToEnd (unalignedP c64 Dyn) v (padTo v.align) room := by
  intro he
  have h1 : UVec.fromSized (T := Dyn) c64 rawVec (2, 1) = some _ := rfl
  rw [h1] at h
  injection h with h
  subst h
  have h2 := he.next 0 _ _ rfl rfl
  exact absurd h2.2 (by decide)

end
end Verif
