import Verif.Model.Sized
import Verif.Model.Exec

/-!
# What counts as undefined behaviour: the vectors of the standard library

The elements of a vector of sized elements, and the records of the other two implementations, are in a `Vec` of the standard
library. Here is what the model forbids for these: an access outside of the capacity, a length beyond the capacity, a record where
there is no room for one.
-/

namespace Verif
namespace SVec
variable {sz al : Nat} {β : Type} {c : Cfg} {v : SVec sz al β}

theorem require_ub {σ α : Type} {p : Prop} [Decidable p] {f : Unit → Exec σ α} {s : σ} (h : (Exec.require p >>= f) s ≠ .ub) :
    p ∧ (Exec.require p >>= f) s = f () s := by
  by_cases hp : p
  · refine ⟨hp, ?_⟩
    rw [Exec.bind_apply]
    unfold Exec.require
    rw [if_pos hp]
  · refine absurd ?_ h
    rw [Exec.bind_apply]
    unfold Exec.require
    rw [if_neg hp]

/-- Moving elements: source and destination are within the capacity; other slots stay as they are. -/
theorem memory_move {src dst n : Nat} (h : memmove c src dst n v ≠ .ub) :
    src + n ≤ v.capacity c ∧ dst + n ≤ v.capacity c ∧ ∃ v', memmove c src dst n v = .ok () v' ∧ v'.len = v.len ∧ v'.slots = v.slots ∧
      (∀ i, i < n → v'.mem (dst + i) = v.mem (src + i)) ∧ ∀ i, i < dst ∨ dst + n ≤ i → v'.mem i = v.mem i := by
  unfold memmove at h ⊢
  rw [Exec.get_bind] at h ⊢
  obtain ⟨h1, h2⟩ := require_ub h
  rw [h2]
  refine ⟨h1.1, h1.2, _, rfl, rfl, rfl, fun i hi => ?_, fun i hi => ?_⟩
  · show (if dst ≤ dst + i ∧ dst + i < dst + n then _ else _) = _
    rw [if_pos (by omega), Nat.add_sub_cancel_left]
  · show (if dst ≤ i ∧ i < dst + n then _ else _) = _
    rw [if_neg (by omega)]

/-- Storing an element: the slot is within the capacity, the value no larger than a slot; other slots stay as they are. -/
theorem memory_store {i : Nat} {bs : List β} (h : memwrite c i bs v ≠ .ub) :
    i < v.capacity c ∧ bs.length ≤ sz ∧ ∃ v', memwrite c i bs v = .ok () v' ∧ v'.len = v.len ∧ v'.slots = v.slots ∧
      (v'.mem i).take bs.length = bs ∧ ∀ j, j ≠ i → v'.mem j = v.mem j := by
  unfold memwrite at h ⊢
  rw [Exec.get_bind] at h ⊢
  obtain ⟨h1, h2⟩ := require_ub h
  rw [h2]
  refine ⟨h1.1, h1.2, _, rfl, rfl, rfl, ?_, fun j hj => if_neg hj⟩
  show (if i = i then _ else _ : List β).take _ = _
  rw [if_pos rfl, List.take_left']
  rfl

/-- Copying an element out: the slot is within the capacity. -/
theorem memory_take {i : Nat} (h : copyOut c i v ≠ .ub) : i < v.capacity c ∧ copyOut c i v = .done (v.mem i) v := by
  unfold copyOut at h ⊢
  by_cases e : i + 1 ≤ v.capacity c
  · rw [if_pos e]; exact ⟨e, rfl⟩
  · rw [if_neg e] at h; exact absurd rfl h

/-- Running the destructor of an element: the slot is within the capacity, and the destructor gets what is in it. -/
theorem memory_drop {i : Nat} {env : Env (Val (sizedTy sz al) β)} (h : dropInPlace c env i v ≠ .ub) :
    i < v.capacity c ∧ dropInPlace c env i v = (if env.dropPanics ⟨(), v.mem i⟩ then .panic { v with drops := v.drops ++ [⟨(), v.mem i⟩] }
      else .ok () { v with drops := v.drops ++ [⟨(), v.mem i⟩] }) := by
  unfold dropInPlace at h ⊢
  rw [Exec.get_bind] at h ⊢
  obtain ⟨h1, h2⟩ := require_ub h
  rw [h2]
  refine ⟨h1, ?_⟩
  show (if env.dropPanics (v.slot i) = true then Exec.panic else pure () : Exec (SVec sz al β) Unit) _ = _
  unfold slot
  split <;> rfl

/-- The length is at most the capacity. -/
theorem memory_setLen {n : Nat} (h : setLen c n v ≠ .ub) : n ≤ v.capacity c ∧ setLen c n v = .ok () { v with len := n } := by
  unfold setLen at h ⊢
  rw [Exec.get_bind] at h ⊢
  obtain ⟨h1, h2⟩ := require_ub h
  exact ⟨h1, h2⟩

/-- A reference to an element is defined only below the length. -/
theorem memory_get {i : Nat} {x : Val (sizedTy sz al) β} (h : v.getUnchecked i = some x) : i < v.len ∧ x.bytes = v.mem i := by
  unfold getUnchecked at h
  by_cases e : i < v.len
  · rw [if_pos e] at h
    cases h
    exact ⟨e, rfl⟩
  · rw [if_neg e] at h; cases h

end SVec

/-- A record can be added only where there is room for it. -/
theorem UVec.memory_record {T : UTy} {β : Type} {v : UVec T β} {info : Info T.Meta} (h : infoPush info v ≠ .ub) :
    v.elems.length < v.elemsCap ∧ infoPush info v = .ok () { v with elems := v.elems ++ [info] } := by
  unfold infoPush at h ⊢
  rw [Exec.get_bind] at h ⊢
  obtain ⟨h1, h2⟩ := SVec.require_ub h
  exact ⟨h1, h2⟩

/-- The same in front of another one. -/
theorem UVec.memory_record_at {T : UTy} {β : Type} {v : UVec T β} {i : Nat} {info : Info T.Meta} (h : infoInsert i info v ≠ .ub) :
    v.elems.length < v.elemsCap ∧ i ≤ v.elems.length ∧ infoInsert i info v = .ok () { v with elems := v.elems.take i ++ info :: v.elems.drop i } := by
  unfold infoInsert at h ⊢
  rw [Exec.get_bind] at h ⊢
  obtain ⟨h1, h2⟩ := SVec.require_ub h
  exact ⟨h1.1, h1.2, h2⟩

/-- A record can be added only where there is room for it. -/
theorem AVec.memory_record {A : ATy} {β : Type} {v : AVec A β} {info : Info A.R} (h : infoPush info v ≠ .ub) :
    v.elems.length < v.elemsCap ∧ infoPush info v = .ok () { v with elems := v.elems ++ [info] } := by
  unfold infoPush at h ⊢
  rw [Exec.get_bind] at h ⊢
  obtain ⟨h1, h2⟩ := SVec.require_ub h
  exact ⟨h1, h2⟩

/-- The same in front of another one. -/
theorem AVec.memory_record_at {A : ATy} {β : Type} {v : AVec A β} {i : Nat} {info : Info A.R} (h : infoInsert i info v ≠ .ub) :
    v.elems.length < v.elemsCap ∧ i ≤ v.elems.length ∧ infoInsert i info v = .ok () { v with elems := v.elems.take i ++ info :: v.elems.drop i } := by
  unfold infoInsert at h ⊢
  rw [Exec.get_bind] at h ⊢
  obtain ⟨h1, h2⟩ := SVec.require_ub h
  exact ⟨h1.1, h1.2, h2⟩

/-- A vector with two slots: the second one can be read, a third one cannot. -/
example : (∃ bs v', (SVec.copyOut ⟨64, false, 8, 2 ^ 60⟩ 1 (⟨fun i => [i], 2, 1, [], 0⟩ : SVec 1 1 Nat)) = .done bs v' ∧ bs = [1]) ∧
    (SVec.copyOut ⟨64, false, 8, 2 ^ 60⟩ 2 (⟨fun i => [i], 2, 1, [], 0⟩ : SVec 1 1 Nat)) = .ub :=
  ⟨⟨_, _, rfl, rfl⟩, rfl⟩

end Verif
