import Verif.Proofs.ShapeInst
import Verif.Props.NoLoss

/-!
# C59: length and metadata follow the list

The theorems are about all programs, from every state of the vector, with every behaviour of allocator and destructors, as long as
there is no undefined behaviour and the process is not aborted. Panics are caught (see `runOps`). In particular the programs need
not avoid the calls for which the bytes of elements get lost (`DESIGN.md`, disagreements): the number of the elements and the
type each of them is read as are right even then.
-/

namespace Verif
section
variable {T : UTy} {A : ATy} {β : Type} [Inhabited β] {c : Cfg} {sz al : Nat}

/-- C59, dynamically aligned elements. -/
theorem C59_unaligned {ops : List (Env (Val T β) × Op T β)} {v v' : UVec T β} {os : List (Out T β)}
    (h : runOps c (unalignedM c T) ops v = .ok os v') :
    (UVec.recording T β).Follows ops os (v.elems.map (·.rem)) (v'.elems.map (·.rem)) := by
  have k := runOps_follows (c := c) (UVec.recording_lawful (T := T) (β := β) c) ops v
  rw [h] at k
  exact k

/-- C59, statically aligned elements. -/
theorem C59_aligned {ops : List (Env (Val A.ty β) × Op A.ty β)} {v v' : AVec A β} {os : List (Out A.ty β)}
    (h : runOps c (alignedM c A) ops v = .ok os v') :
    (AVec.recording A β).Follows ops os (AVec.entriesFrom 0 v.elems) (AVec.entriesFrom 0 v'.elems) := by
  have k := runOps_follows (c := c) (AVec.recording_lawful (β := β) c A) ops v
  rw [h] at k
  exact k

/-- C59, sized elements. -/
theorem C59_sized {ops : List (Env (Val (sizedTy sz al) β) × Op (sizedTy sz al) β)} {v v' : SVec sz al β} {os : List (Out (sizedTy sz al) β)}
    (h : runOps c (sizedM c sz al) ops v = .ok os v') :
    (SVec.recording sz al β).Follows ops os (List.replicate v.len ()) (List.replicate v'.len ()) := by
  have k := runOps_follows (c := c) (SVec.recording_lawful (β := β) c sz al) ops v
  rw [h] at k
  exact k

/-- C59, a program that starts with a new vector starts with the empty list. -/
theorem C59_new_unaligned {ops : List (Env (Val T β) × Op T β)} {v' : UVec T β} {os : List (Out T β)}
    (h : runOps c (unalignedM c T) ops (Api.new (unalignedP c T)) = .ok os v') :
    (UVec.recording T β).Follows ops os [] (v'.elems.map (·.rem)) :=
  C59_unaligned h

omit [Inhabited β] in
/-- If the metadata can be recovered, then the records of statically aligned elements say what the metadata says. -/
theorem follows_metadata (hA : A.Lawful c) : ∀ {ops : List (Env (Val A.ty β) × Op A.ty β)} {os : List (Out A.ty β)} {l : List A.ty.Meta} {e' : List (A.R × Int)},
    (AVec.recording A β).Follows ops os (l.map fun md => (A.enc md, (A.ty.sizeOf md : Int))) e' →
    ∃ l', e' = l'.map (fun md => (A.enc md, (A.ty.sizeOf md : Int))) ∧ (UVec.recording A.ty β).Follows ops os l l'
  | [], os, l, e', h => ⟨l, h.2, h.1, rfl⟩
  | (_, op) :: ops, os, l, e', h => by
    obtain ⟨o, rest, rfl, hs, hf⟩ := h
    have hshow : ∀ (i : Option A.ty.Meta) (x : Val A.ty β), (∃ m, i.map (fun md => (A.enc md, (A.ty.sizeOf md : Int))) = some m ∧ (AVec.recording A β).shows m x) →
        ∃ md, i = some md ∧ (UVec.recording A.ty β).shows md x := by
      rintro (_ | md) x ⟨m, h1, h2⟩
      · cases h1
      · cases h1
        exact ⟨md, rfl, Eq.trans h2 (hA.keeps md)⟩
    have hafter : (AVec.recording A β).after o (l.map fun md => (A.enc md, (A.ty.sizeOf md : Int))) op =
        ((UVec.recording A.ty β).after o l op).map fun md => (A.enc md, (A.ty.sizeOf md : Int)) := by
      cases op with
      | push x => cases o <;> simp only [Recording.after, List.map_append] <;> rfl
      | pushWith s => cases s with
        | value x => cases o <;> simp only [Recording.after, List.map_append] <;> rfl
        | panics => rfl
        | fails md bs => rfl
      | insert i x => cases o <;> simp only [Recording.after, List.map_append, List.map_take, List.map_cons, List.map_drop] <;> rfl
      | insertWith i s => cases s with
        | value x => cases o <;> simp only [Recording.after, List.map_append, List.map_take, List.map_cons, List.map_drop] <;> rfl
        | panics => rfl
        | fails md bs => rfl
      | pop d => simp only [Recording.after, List.map_dropLast]
      | remove i d =>
        cases o <;> simp only [Recording.after, List.eraseIdx_eq_take_drop_succ, List.map_append, List.map_take, List.map_drop, List.length_map]
        split <;> rfl
      | _ => rfl
    rw [hafter] at hf
    obtain ⟨l', h1, h2⟩ := follows_metadata hA hf
    refine ⟨l', h1, o, rest, rfl, ?_, h2⟩
    clear hf h2 h1 hafter
    cases op with
    | len => simpa only [Recording.Sees, List.length_map] using hs
    | insert i x => simpa only [Recording.Sees, List.length_map] using hs
    | insertWith i s => simpa only [Recording.Sees, List.length_map] using hs
    | set i bs => simpa only [Recording.Sees, List.length_map] using hs
    | push x => exact hs
    | pushWith x => exact hs
    | pop d =>
      rcases hs with ⟨h1, h2⟩ | ⟨h1, h2 | h2 | ⟨x, m, h2, h3, h4⟩⟩
      · exact .inl ⟨h1, List.map_eq_nil_iff.1 h2⟩
      · exact .inr ⟨fun h => h1 (h ▸ rfl), .inl h2⟩
      · exact .inr ⟨fun h => h1 (h ▸ rfl), .inr (.inl h2)⟩
      · rw [List.getLast?_map] at h3
        obtain ⟨md, h5, h6⟩ := hshow _ x ⟨m, h3, h4⟩
        exact .inr ⟨fun h => h1 (h ▸ rfl), .inr (.inr ⟨x, md, h2, h5, h6⟩)⟩
    | remove i d =>
      rcases hs with ⟨h1, h2 | ⟨x, m, h2, h3, h4⟩⟩ | h1
      · exact .inl ⟨by simpa only [List.length_map] using h1, .inl h2⟩
      · rw [List.getElem?_map] at h3
        obtain ⟨md, h5, h6⟩ := hshow _ x ⟨m, h3, h4⟩
        exact .inl ⟨by simpa only [List.length_map] using h1, .inr ⟨x, md, h2, h5, h6⟩⟩
      · exact .inr h1
    | get i =>
      rcases hs with ⟨h1, h2⟩ | ⟨x, m, h2, h3, h4⟩
      · exact .inl ⟨h1, by simpa only [List.length_map] using h2⟩
      · rw [List.getElem?_map] at h3
        obtain ⟨md, h5, h6⟩ := hshow _ x ⟨m, h3, h4⟩
        exact .inr ⟨x, md, h2, h5, h6⟩
    | index i =>
      rcases hs with ⟨h1, h2⟩ | ⟨x, m, h2, h3, h4⟩
      · exact .inl ⟨h1, by simpa only [List.length_map] using h2⟩
      · rw [List.getElem?_map] at h3
        obtain ⟨md, h5, h6⟩ := hshow _ x ⟨m, h3, h4⟩
        exact .inr ⟨x, md, h2, h5, h6⟩
    | _ => trivial

/-- C59, statically aligned elements whose metadata can be recovered (`[S]` with `S` not zero-sized, `str`, `CStr`), from a new
vector: what the program sees is explained by a list of metadata, as for dynamically aligned elements. -/
theorem C59_new_aligned (hA : A.Lawful c) {ops : List (Env (Val A.ty β) × Op A.ty β)} {v' : AVec A β} {os : List (Out A.ty β)}
    (h : runOps c (alignedM c A) ops (Api.new (alignedP c A)) = .ok os v') :
    ∃ l : List A.ty.Meta, l.length = v'.len ∧ (UVec.recording A.ty β).Follows ops os [] l := by
  obtain ⟨l, h1, h2⟩ := follows_metadata hA (l := []) (C59_aligned h)
  refine ⟨l, ?_, h2⟩
  have := congrArg List.length h1
  rw [AVec.entriesFrom_length, List.length_map] at this
  exact this.symm

end

/-! ## Examples -/
section
open Sample

/-- An insertion in the middle of a vector of slices of bytes: the bytes of the elements get lost (disagreement 1 of `DESIGN.md`), but their number
and the length of each are right. There are two caught panics, and a value that is dropped because its emplacer panics. -/
def progShape : List (Env (Val Bytes.ty Nat) × Op Bytes.ty Nat) :=
  [(env, .push (bytes [1, 2])), (env, .push (bytes [3, 4, 5])), (env, .insert 1 (bytes [6, 7, 8, 9])), (env, .pushWith .panics), (env, .insert 7 (bytes [0])),
    (env, .get 0), (env, .get 1), (env, .remove 0 .take), (env, .len), (env, .pop .panics), (env, .len)]

example : observed (runOps c64 (alignedM c64 Bytes) progShape (Api.new (alignedP c64 Bytes))) =
    some [[0], [0], [0], [1], [1], [5, 1, 6], [5, 7, 8, 9, 2], [5, 1, 6], [4, 2], [1], [4, 1]] := by decide +kernel

example : ∃ l : List Nat, l.length = 1 ∧ ∃ os, (UVec.recording Bytes.ty Nat).Follows progShape os [] l := by
  have h : ∃ os v', runOps c64 (alignedM c64 Bytes) progShape (Api.new (alignedP c64 Bytes)) = .ok os v' ∧ v'.len = 1 := by
    have h1 : (fun v : AVec Bytes Nat => v.len) ((runOps c64 (alignedM c64 Bytes) progShape (Api.new (alignedP c64 Bytes))).stateOr AVec.new) = 1 := by decide +kernel
    have h2 : (observed (runOps c64 (alignedM c64 Bytes) progShape (Api.new (alignedP c64 Bytes)))).isSome = true := by decide +kernel
    revert h1 h2
    cases runOps c64 (alignedM c64 Bytes) progShape (Api.new (alignedP c64 Bytes)) with
    | ok os v' => exact fun h1 _ => ⟨os, v', rfl, h1⟩
    | panic s => exact fun _ h => nomatch h
    | abort => exact fun _ h => absurd h (by decide)
    | ub => exact fun _ h => absurd h (by decide)
  obtain ⟨os, v', h1, h2⟩ := h
  obtain ⟨l, h3, h4⟩ := C59_new_aligned (bytes_lawful c64 (.inl rfl)) h1
  exact ⟨l, h3.trans h2, os, h4⟩

/-- Dynamically aligned elements: the same, with elements of different alignments. -/
example : observed (runOps c64 (unalignedM c64 Dyn)
      [(env, .push (dyn 1 [1, 2, 3])), (env, .push (dyn 4 [4, 5, 6, 7])), (env, .insert 1 (dyn 2 [8, 9])), (env, .get 9), (env, .remove 1 .panics), (env, .len)]
      (Api.new (unalignedP c64 Dyn))) =
    some [[0], [0], [0], [3], [1], [4, 3]] := by decide +kernel

/-- Sized elements: the removal that panics has given up an element (disagreement 20). -/
example : observed (runOps c64 (sizedM c64 2 1)
      [(env, .push ⟨(), [1, 2]⟩), (env, .push ⟨(), [3, 4]⟩), (env, .remove 0 .panics), (env, .len)] (Api.new (sizedP c64 2 1) : SVec 2 1 Nat)) =
    some [[0], [0], [1], [4, 1]] := by decide +kernel

end
end Verif
