import Verif.Props.Access
import Verif.Props.Insert

/-!
# C28: what becomes of the metadata of any statically aligned element

A slice of zero-sized elements does not get its length back. The theorems of this file say exactly what is stored instead,
for every statically aligned type: the same bytes, with the metadata recomputed from the size (`ATy.stored`). Everything
else about adding an element is as in C01, C03 and C04.
-/

namespace Verif
open Sample

section
variable {A : ATy} {β : Type} [Inhabited β] {c : Cfg}

/-- Slices of any elements, also zero-sized ones, meet what the theorems about reading, removing, reserving, shrinking and
dropping assume. -/
theorem C28_slice_fits {sz al : Nat} (hal : IsAlign c al) : (ATy.slice sz al).Fits c := by
  refine ATy.Exact.fits (fun _ => rfl) hal (fun (md : Nat) => ?_) (fun _ => rfl)
  show (if sz = 0 then 0 else md * sz / sz) * sz = md * sz
  split
  · next h => simp [h]
  · next h => rw [Nat.mul_div_cancel _ (by omega)]

/-- So does `str`. For `CStr` see `C60_cstr_lawful`. -/
theorem C28_full_fits {T : UTy} {al : Nat} (hal : IsAlign c al) (hT : ∀ md, T.alignOf md = al) : (ATy.full T al).Fits c :=
  (C28_full_lawful hal hT).fits

omit [Inhabited β] in
/-- A slice is stored with its bytes; its length is kept, or is 0 if its elements are zero-sized. -/
theorem C28_slice_stored {sz al : Nat} (x : Val (ATy.slice sz al).ty β) :
    (ATy.slice sz al).stored x = if sz = 0 then ⟨(0 : Nat), x.bytes⟩ else x := by
  split
  · next h => simp only [ATy.stored, ATy.slice, h, ↓reduceIte]
  · next h =>
    cases x with
    | mk md bs =>
      have : (ATy.slice sz al).dec ((ATy.slice sz al).enc md) ((ATy.slice sz al).ty.sizeOf md) = md := C28_slice (by omega) md
      show (Val.mk _ bs : Val (ATy.slice sz al).ty β) = ⟨md, bs⟩
      exact congrArg (fun m => Val.mk m bs) this

/-- `push` for every statically aligned type. -/
theorem C28_push_aligned (hA : A.Fits c) {v : AVec A β} {xs : List (Val A.ty β)} (h : v.Holds c xs)
    {env : Env (Val A.ty β)} (hv : env.Valid) {x : Val A.ty β} (hx : x.WF c) :
    (Api.push c (alignedP c A) env x v).Meets
      (fun _ v' => v'.Holds c (xs ++ [A.stored x]) ∧ v'.drops = v.drops)
      (fun v' => v'.Holds c xs ∧ v'.drops = v.drops ∧
        (env.Refuses (xs.length + 1) (v.request (x.size - v.spare xs)) ∨ v.TooLarge c xs 1 (x.size - v.spare xs)))
      (env.Refuses (xs.length + 1) (v.request (x.size - v.spare xs))) :=
  ((AVec.implF hA).push_meets h hv hx (fun _ _ => trivial) (fun _ => trivial)).mono (fun _ _ h => ⟨h.1, h.2.1⟩)
    (fun _ h => ⟨h.1.holds, h.1.drops, h.2⟩) (fun h => h)

/-- `insert` for every statically aligned type, for the indices for which it works (C03). -/
theorem C28_insert_aligned_partial (hA : A.Fits c) {v : AVec A β} {xs : List (Val A.ty β)} (h : v.Holds c xs)
    {env : Env (Val A.ty β)} (hv : env.Valid) {x : Val A.ty β} (hx : x.WF c) {i : Nat} (hi : i ≤ xs.length)
    (hg : totalWidth id (xs.take i) = i) :
    (Api.insert c (alignedP c A) env i x v).Meets
      (fun _ v' => v'.Holds c (xs.take i ++ A.stored x :: xs.drop i) ∧ v'.drops = v.drops)
      (fun v' => v'.Holds c xs ∧ v'.drops = v.drops ∧
        (env.Refuses (xs.length + 1) (v.request (x.size - v.spare xs)) ∨ v.TooLarge c xs 1 (x.size - v.spare xs)))
      (env.Refuses (xs.length + 1) (v.request (x.size - v.spare xs))) :=
  ((AVec.implF hA).insert_meets h hv hx (fun _ _ => trivial) (fun _ => trivial) hi (fun _ _ => hg)).mono (fun _ _ h => h)
    (fun _ h => ⟨h.1.holds, h.1.drops, h.2⟩) (fun h => h)

/-- `insert_with` for every statically aligned type. -/
theorem C28_insertWith_aligned (hA : A.Fits c) {v : AVec A β} {xs : List (Val A.ty β)} (h : v.Holds c xs)
    {env : Env (Val A.ty β)} (hv : env.Valid) {e : Emplacable σ A.ty β} {s : σ} (hs : e.Sound c s) {i : Nat}
    (hi : i ≤ xs.length) :
    (Api.insertWithRun (alignedP c A) env i e (s, v)).Meets
      (fun _ st => ∃ x : Val A.ty β, x.WF c ∧ e.Runs s x (.ok () st.1) ∧
        st.2.Holds c (xs.take i ++ A.stored x :: xs.drop i) ∧ st.2.drops = v.drops)
      (fun st => (st.2.Holds c xs ∧ st.2.drops = v.drops ∧
          (e.Unwinds s st.1 ∨ ∃ md, e.Announces s md st.1 ∧
            (env.Refuses (xs.length + 1) (v.request (A.ty.sizeOf md)) ∨ v.TooLarge c xs 1 (A.ty.sizeOf md)))) ∨
        ∃ x : Val A.ty β, x.WF c ∧ e.Runs s x (.panic st.1) ∧ st.2.Holds c (xs.take i ++ A.stored x :: xs.drop i) ∧
          st.2.drops = v.drops)
      ((∃ md s1, e.Announces s md s1 ∧ env.Refuses (xs.length + 1) (v.request (A.ty.sizeOf md))) ∨ e.Aborts s) :=
  (AVec.implF hA).insertWith_meets h hv hs (fun _ _ _ _ _ => trivial) hi (fun _ _ _ => trivial)

/-- `push_with` for every statically aligned type. -/
theorem C28_pushWith_aligned (hA : A.Fits c) {v : AVec A β} {xs : List (Val A.ty β)} (h : v.Holds c xs)
    {env : Env (Val A.ty β)} (hv : env.Valid) {e : Emplacable σ A.ty β} {s : σ} (hs : e.Sound c s) :
    (Api.pushWithRun (alignedP c A) env e (s, v)).Meets
      (fun _ st => ∃ x : Val A.ty β, x.WF c ∧ e.Runs s x (.ok () st.1) ∧ st.2.Holds c (xs ++ [A.stored x]) ∧
        st.2.drops = v.drops)
      (fun st => (st.2.Holds c xs ∧ st.2.drops = v.drops ∧
          (e.Unwinds s st.1 ∨ ∃ md, e.Announces s md st.1 ∧
            (env.Refuses (xs.length + 1) (v.request (A.ty.sizeOf md)) ∨ v.TooLarge c xs 1 (A.ty.sizeOf md)))) ∨
        ∃ x : Val A.ty β, x.WF c ∧ e.Runs s x (.panic st.1) ∧ st.2.Holds c (xs ++ [A.stored x]) ∧ st.2.drops = v.drops)
      ((∃ md s1, e.Announces s md s1 ∧ env.Refuses (xs.length + 1) (v.request (A.ty.sizeOf md))) ∨ e.Aborts s) :=
  (AVec.implF hA).pushWith_meets h hv hs (fun _ _ _ _ _ => trivial)

end

/-! The hypotheses can be met by a slice of five zero-sized elements, of which the length is lost. -/

/-- A slice of five zero-sized elements. -/
def units : Val (ATy.slice 0 1).ty Nat := ⟨(5 : Nat), []⟩

example : (ATy.slice 0 1).Fits c64 ∧ (AVec.new : AVec (ATy.slice 0 1) Nat).Holds c64 [] ∧ units.WF c64 ∧
    ((ATy.slice 0 1).stored units).md = (0 : Nat) := by
  refine ⟨C28_slice_fits ⟨0, by decide, rfl⟩, ⟨fun _ h => absurd h List.not_mem_nil, fun _ h => absurd h List.not_mem_nil, rfl,
    Nat.zero_le _, Nat.le_refl _, Nat.zero_le _, trivial, ⟨by decide, by decide, rfl⟩, rfl⟩,
    ⟨rfl, ⟨0, by decide, rfl⟩, by decide, by decide⟩, rfl⟩

/-- A vector that holds such slices: two of them have been pushed. -/
example : ∃ v1 v2, Api.push c64 (alignedP c64 (ATy.slice 0 1)) env units AVec.new = .ok () v1 ∧
    Api.push c64 (alignedP c64 (ATy.slice 0 1)) env units v1 = .ok () v2 ∧
    (v2.observe c64).map (List.map Val.bytes) = some [[], []] := ⟨_, _, rfl, rfl, rfl⟩

end Verif
