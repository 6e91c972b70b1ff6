import Verif.Proofs.Repairs
import Verif.Props.IterExact
import Verif.Props.FromSized
import Verif.Props.Insert

/-!
# The disagreements have the causes that DESIGN.md names

C03, C10 and C22 are false of the code. The theorems here are about the code with the faulty expressions replaced
(`Model/Repairs.lean`); they say nothing about the code as it stands. With the replacement the properties hold without the
guards of the `_partial` theorems, so nothing else is wrong with these functions. They are not claimed in the manifest.
-/

namespace Verif
open ICall Sample

section
variable {T : UTy} {A : ATy} {β : Type} [Inhabited β] {c : Cfg}

/-- C09, C10 and C48 of the corrected iterator, dynamically aligned elements: every sequence of calls returns what the queue of
indices says. -/
theorem repaired_calls_unaligned {G : Prop} {v : UVec T β} {xs : List (Val T β)} (h : v.Represents G c xs) (ks : List ICall) :
    ∃ it, runCalls (ICall.unalignedRepaired c v.heap) ks v.iter =
        some ((specRun ks (List.range xs.length)).1.map (·.bind (refTo (unalignedP c T) v)), it) ∧
      it.len = (specRun ks (List.range xs.length)).2.length := by
  obtain ⟨it, i, j, h1, h2, h3⟩ := (UVec.iter_repaired h).run ks v.iter 0 xs.length false (UVec.iter_covers h) (fun _ => rfl)
  rw [Nat.sub_zero, ← List.range_eq_range'] at h1 h2
  refine ⟨it, ?_, by rw [h2, h3.len h]; simp⟩
  rw [h1, outputs_congr (fun i hi => refTo_eq_unaligned h hi) (fun i hi => refTo_eq_unaligned h hi) ks false
    (fun a ha => List.mem_range.1 ha), outputs_same _ _ _ (by rw [specRun_length, faults_length])]

/-- The same for statically aligned elements. -/
theorem repaired_calls_aligned (hA : A.Fits c) {v : AVec A β} {xs : List (Val A.ty β)} (h : v.Holds c xs) (ks : List ICall) :
    ∃ it, runCalls (ICall.alignedRepaired c v.heap) ks v.iter =
        some ((specRun ks (List.range xs.length)).1.map (·.bind (refTo (alignedP c A) v)), it) ∧
      it.len = (specRun ks (List.range xs.length)).2.length := by
  obtain ⟨it, i, j, h1, h2, h3⟩ := (AVec.iter_repaired hA h).run ks v.iter 0 xs.length false (AVec.iter_covers h) (fun _ => rfl)
  rw [Nat.sub_zero, ← List.range_eq_range'] at h1 h2
  refine ⟨it, ?_, by rw [h2, h3.len h]; simp⟩
  rw [h1, outputs_congr (fun i hi => refTo_eq_aligned h hi) (fun i hi => refTo_eq_aligned h hi) ks false
    (fun a ha => List.mem_range.1 ha), outputs_same _ _ _ (by rw [specRun_length, faults_length])]

/-- C03 of the corrected `insert`, statically aligned elements. -/
theorem repaired_insert_aligned (hA : A.Lawful c) {v : AVec A β} {xs : List (Val A.ty β)} (h : v.Holds c xs)
    {env : Env (Val A.ty β)} (hv : env.Valid) {x : Val A.ty β} (hx : x.WF c) {i : Nat} (hi : i ≤ xs.length) :
    (Api.insert c (alignedRepairedP c A) env i x v).Meets
      (fun _ v' => v'.Holds c (xs.take i ++ x :: xs.drop i) ∧ v'.drops = v.drops)
      (fun v' => v'.Holds c xs ∧ v'.drops = v.drops ∧
        (env.Refuses (xs.length + 1) (v.request (x.size - v.spare xs)) ∨ v.TooLarge c xs 1 (x.size - v.spare xs)))
      (env.Refuses (xs.length + 1) (v.request (x.size - v.spare xs))) :=
  ((AVec.implRepaired hA.fits).insert_meets h hv hx (fun _ _ => trivial) (fun _ => trivial) hi (fun _ _ => trivial)).mono
    (fun _ _ h => ⟨by have h1 := h.1; rwa [show (AVec.implRepaired (β := β) hA.fits).st x = x from hA.stored x] at h1, h.2⟩)
    (fun _ h => ⟨h.1.holds, h.1.drops, h.2⟩) (fun h => h)

/-- C03 of the corrected `insert`, dynamically aligned elements. The condition `ZstOk` on elements of size zero remains: it is
another disagreement, in the reservation. -/
theorem repaired_insert_unaligned {v : UVec T β} {xs : List (Val T β)} (h : v.Holds c xs)
    {env : Env (Val T β)} (hv : env.Valid) (he : env.Exact) {x : Val T β} (hx : x.WF c) (hz : v.ZstOk x.size x.align)
    {i : Nat} (hi : i ≤ xs.length) :
    (Api.insert c (unalignedRepairedP c T) env i x v).Meets
      (fun _ v' => v'.Holds c (xs.take i ++ x :: xs.drop i) ∧ v'.drops = v.drops)
      (fun v' => v'.Holds c xs ∧ v'.drops = v.drops ∧
        (env.Refuses (xs.length + 1) (v.request xs (x.size - v.spare xs) x.align) ∨
          v.TooLarge c xs 1 (x.size - v.spare xs) x.align))
      (env.Refuses (xs.length + 1) (v.request xs (x.size - v.spare xs) x.align)) :=
  ((UVec.implRepaired True c T).insert_meets h ⟨hv, fun _ => he⟩ hx hz (fun _ => .inl (h.capDvd trivial)) hi
    (fun _ _ => trivial)).mono (fun _ _ h => h) (fun _ h => ⟨h.1.holds, h.1.drops, h.2⟩) (fun h => h)

/-- C22 of the corrected conversion, dynamically aligned elements. -/
theorem repaired_unsize_unaligned {r : RawVec β} {xs : List (List β)} (h : r.Holds c xs) {md : T.Meta}
    (hs : T.sizeOf md = r.elemSize) (ha : T.alignOf md = r.elemAlign) :
    ∃ v, UVec.fromSizedRepaired c r md = some v ∧ v.Holds c (xs.map (unsized md)) ∧
      v.observe c = some (xs.map (unsized md)) ∧ v.drops = [] := by
  refine ⟨_, UVec.fromSizedRepaired_eq h md, ?_⟩
  suffices hh : UVec.Holds c _ (xs.map (unsized md)) from ⟨hh, hh.observe_eq, rfl⟩
  have h1 := h.capMax
  have h2 := VS.max_le_isizeMax c r.elemAlign
  have hw : padTo r.elemAlign (T.sizeOf md) = T.sizeOf md := by rw [hs]; exact padTo_of_dvd h.al.pos h.sizeDvd
  refine ⟨h.wf hs ha, h.al, ?_, ?_, ?_, ?_, ?_, ?_, ?_, h.block, h.leaks⟩
  · intro x hx
    obtain ⟨bs, -, rfl⟩ := List.mem_map.mp hx
    show T.alignOf md ∣ _
    rw [ha]; exact Nat.dvd_refl _
  · rw [infosFrom_unsized hw, hs]; rfl
  · simp
  · rw [totalWidth_unsized]
    show _ * padTo r.elemAlign _ ≤ _
    rw [hw, hs]; exact h.mul_le (Nat.le_refl _)
  · exact fun _ => Nat.dvd_mul_left_of_dvd h.sizeDvd _
  · exact h.al.room (Nat.dvd_mul_left_of_dvd h.sizeDvd _) (show r.cap * r.elemSize ≤ _ by omega)
  · refine memAt_unsized hw xs 0 fun i hi => ?_
    rw [hs, Nat.zero_add]; exact h.mem i hi

/-- C22 of the corrected conversion, statically aligned elements. -/
theorem repaired_unsize_aligned (hA : A.Lawful c) (hX : A.Exact) {r : RawVec β} {xs : List (List β)} (h : r.Holds c xs)
    {md : A.ty.Meta} (hs : A.ty.sizeOf md = r.elemSize) (ha : A.ALIGN = r.elemAlign) :
    ∃ v : AVec A β, AVec.fromSizedRepaired c r md = some v ∧ v.Holds c (xs.map (unsized md)) ∧
      v.observe c = some (xs.map (unsized md)) ∧ v.drops = [] := by
  refine ⟨_, AVec.fromSizedRepaired_eq h ha.symm md, ?_⟩
  suffices hh : AVec.Holds c _ (xs.map (unsized md)) from ⟨hh, hh.observe_eq hA.fits, rfl⟩
  have h1 := h.capMax
  refine ⟨h.wf hs (by rw [hX, ha]), fun x _ => hA.keeps x.md, ?_, ?_, ?_, ?_, ?_, ?_, h.leaks⟩
  · rw [infosFrom_unsized rfl, hs]
  · simp
  · rw [totalWidth_unsized]
    show _ * A.ty.sizeOf md ≤ _
    rw [hs]; exact h.mul_le (Nat.le_refl _)
  · rw [ha]; exact h1
  · refine memAt_unsized rfl xs 0 fun i hi => ?_
    rw [hs, Nat.zero_add]; exact h.mem i hi
  · rw [ha]; exact h.block

end

/-! ## The witnesses of the counterexamples, with the corrected functions -/

/-- `C10_C11_counterexample_aligned` -/
example : (runCalls (ICall.alignedRepaired c64 vecA.heap) [.next, .nth 0, .nextBack] vecA.iter).map
    (fun p => p.1.map (Option.map (fun r => (r.read vecA.heap).bytes))) = some [some [1], some [2, 3], some [4, 5, 6]] := rfl

/-- `C10_C11_counterexample_unaligned` -/
example : (runCalls (ICall.unalignedRepaired c64 vecU.heap) [.next, .nextBack] vecU.iter).map
    (fun p => p.1.map (Option.map (fun r => r.read vecU.heap))) = some (listU.map some) := rfl

/-- `C03_counterexample_aligned` -/
example : ∃ v', Api.insert c64 (alignedRepairedP c64 Bytes) env 2 (bytes [7, 8]) vecA = .ok () v' ∧
    v'.observe c64 = some [bytes [1], bytes [2, 3], bytes [7, 8], bytes [4, 5, 6]] := ⟨_, rfl, rfl⟩

/-- `C03_counterexample_unaligned` -/
example : ∃ v', Api.insert c64 (unalignedRepairedP c64 Dyn) env 1 (dyn 1 [7, 8]) vecU = .ok () v' ∧
    v'.observe c64 = some [dyn 1 [1, 2, 3], dyn 1 [7, 8], dyn 8 [11, 12, 13, 14, 15, 16, 17, 18]] := ⟨_, rfl, rfl⟩

/-- `C03_C04_counterexample_end` -/
example : ∃ v', Api.insert c64 (unalignedRepairedP c64 Dyn) env 1 (dyn 1 [7]) vecPad = .ok () v' ∧
    v'.observe c64 = some [dyn 1 [1, 2, 3], dyn 1 [7]] := ⟨_, rfl, rfl⟩

/-- `C22_counterexample_unaligned`, `C22_counterexample_aligned` -/
example : (UVec.fromSizedRepaired (T := Dyn) c64 rawVec (2, 1)).bind (UVec.observe c64) =
      some [dyn 1 [1, 2], dyn 1 [3, 4], dyn 1 [5, 6]] ∧
    (AVec.fromSizedRepaired (A := Bytes) c64 rawVec (2 : Nat)).bind (AVec.observe c64) =
      some [bytes [1, 2], bytes [3, 4], bytes [5, 6]] := by decide

end Verif
