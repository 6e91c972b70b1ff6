import Verif.Spec.Guards

/-!
# Concrete types, values, environments and vectors

Used in the examples that show that the hypotheses of the theorems can be met, and in the counterexamples.
Bytes are natural numbers.
-/

namespace Verif.Sample

/-- A 64-bit target without debug assertions. -/
def c64 : Cfg := ⟨64, false, 8, 2 ^ 59⟩

/-- The same target with debug assertions. -/
def c64d : Cfg := ⟨64, true, 8, 2 ^ 59⟩

/-- A dynamically aligned type, e.g. `dyn Trait`: the metadata (vtable) determines size and alignment. -/
abbrev Dyn : UTy := ⟨Nat × Nat, Prod.fst, Prod.snd⟩

/-- The slice type `[u8]`. -/
abbrev Bytes : ATy := ATy.slice 1 1

/-- The slice type `[u16]`. -/
abbrev Words : ATy := ATy.slice 2 2

/-- A value of `Dyn`. -/
def dyn (align : Nat) (bytes : List Nat) : Val Dyn Nat := ⟨(bytes.length, align), bytes⟩

/-- A value of `[u8]`. -/
def bytes (bs : List Nat) : Val Bytes.ty Nat := ⟨bs.length, bs⟩

instance : DecidableEq (Val Dyn Nat) := fun a b =>
  if h : a.md = b.md ∧ a.bytes = b.bytes then isTrue (by cases a; cases b; simp_all)
  else isFalse (by rintro rfl; exact h ⟨rfl, rfl⟩)

instance : DecidableEq (Val Bytes.ty Nat) := fun a b =>
  if h : (show Nat from a.md) = (show Nat from b.md) ∧ a.bytes = b.bytes then
    isTrue (by cases a; cases b; cases h.1; cases h.2; rfl)
  else isFalse (by rintro rfl; exact h ⟨rfl, rfl⟩)

/-- An environment in which every request succeeds: a block of alignment `a` is at address `4096 * a`; the element-info
`Vec` grows to exactly what is asked for; destructors do not panic. -/
def env {X : Type} : Env X where
  alloc l := some (4096 * max 1 l.align, 0)
  infoGrow _ := .ok 0
  infoShrink := true
  dropPanics _ := false

/-- Like `env`, but every destructor panics. -/
def envPanics {X : Type} : Env X := { (env : Env X) with dropPanics := fun _ => true }

/-- Like `env`, but the allocator always fails. -/
def envFull {X : Type} : Env X := { (env : Env X) with alloc := fun _ => none }

/-- A vector of `Dyn` with alignment 8 that holds a 3-byte element of alignment 1 and an 8-byte element of alignment 8. -/
def vecU : UVec Dyn Nat where
  ptr := 65536
  byteCap := 24
  elems := [⟨(3, 1), 3⟩, ⟨(8, 8), 16⟩]
  elemsCap := 4
  align := 8
  heap := ⟨fun i => [1, 2, 3, 0, 0, 0, 0, 0, 11, 12, 13, 14, 15, 16, 17, 18].getD i 0, some ⟨65536, 24, 24, 8⟩, 0⟩
  drops := []

/-- The contents of `vecU`. -/
def listU : List (Val Dyn Nat) := [dyn 1 [1, 2, 3], dyn 8 [11, 12, 13, 14, 15, 16, 17, 18]]

/-- A vector of `[u8]` with three elements of lengths 1, 2 and 3. -/
def vecA : AVec Bytes Nat where
  ptr := 65536
  byteCap := 10
  elems := [⟨(), 1⟩, ⟨(), 3⟩, ⟨(), 6⟩]
  elemsCap := 4
  heap := ⟨fun i => [1, 2, 3, 4, 5, 6].getD i 0, some ⟨65536, 10, 10, 1⟩, 0⟩
  drops := []

/-- The contents of `vecA`. -/
def listA : List (Val Bytes.ty Nat) := [bytes [1], bytes [2, 3], bytes [4, 5, 6]]

instance {β : Type} [DecidableEq β] (mem : Nat → β) (off : Nat) (bs : List β) : Decidable (BytesAre mem off bs) :=
  inferInstanceAs (Decidable (∀ i (h : i < bs.length), mem (off + i) = bs[i]))

theorem dyn_wf (k : Nat) (bs : List Nat) (hk : k < 64) (hd : 2 ^ k ∣ bs.length)
    (hs : bs.length + (2 ^ k - 1) ≤ c64.isizeMax) (c : Cfg) (hc : c = c64 ∨ c = c64d) : (dyn (2 ^ k) bs).WF c := by
  rcases hc with rfl | rfl <;> exact ⟨rfl, ⟨k, hk, rfl⟩, hd, hs⟩

theorem bytes_wf (bs : List Nat) (hs : bs.length ≤ c64.isizeMax) (c : Cfg) (hc : c = c64 ∨ c = c64d) : (bytes bs).WF c := by
  have e : (bytes bs).size = bs.length := Nat.mul_one _
  rcases hc with rfl | rfl <;>
    exact ⟨e.symm, ⟨0, by decide, rfl⟩, by rw [e]; exact Nat.one_dvd _, by rw [e]; exact hs⟩

theorem env_valid {X : Type} : (env : Env X).Valid := by
  intro l p x hl h
  simp only [env, Option.some.injEq, Prod.mk.injEq] at h
  obtain ⟨rfl, rfl⟩ := h
  rw [Nat.max_eq_right hl]
  exact ⟨by omega, Nat.dvd_mul_left _ _⟩

theorem env_exact {X : Type} : (env : Env X).Exact := by
  intro l p x h
  simp only [env, Option.some.injEq, Prod.mk.injEq] at h
  exact h.2.symm

theorem env_grants {X : Type} (n : Nat) (l : Layout) : ¬ (env : Env X).Refuses n l := by
  rintro (⟨e, h⟩ | h) <;> cases h

theorem bytes_lawful (c : Cfg) (hc : c = c64 ∨ c = c64d) : Bytes.Lawful c := by
  refine ATy.Exact.lawful (fun _ => rfl) ?_ (fun (md : Nat) => ?_)
  · rcases hc with rfl | rfl <;> exact ⟨0, by decide, rfl⟩
  · show (if (1 : Nat) = 0 then 0 else md * 1 / 1) = md
    simp

theorem vecU_holds (c : Cfg) (hc : c = c64 ∨ c = c64d) : vecU.Holds c listU := by
  have hb : c.bits = 64 := by rcases hc with rfl | rfl <;> rfl
  have hi : c.isizeMax = 2 ^ 63 - 1 := by rcases hc with rfl | rfl <;> rfl
  refine ⟨?_, ⟨3, by rw [hb]; decide, rfl⟩, by decide, by decide, by decide, by decide, by decide,
    by rw [hi]; decide, by refine ⟨?_, ?_, trivial⟩ <;> decide, by refine ⟨?_, ?_, ?_, ?_, ?_, ?_, ?_⟩ <;> decide, rfl⟩
  intro x hx
  simp only [listU, List.mem_cons, List.not_mem_nil, or_false] at hx
  rcases hx with rfl | rfl
  · exact dyn_wf 0 _ (by decide) (by decide) (by decide) c hc
  · exact dyn_wf 3 _ (by decide) (by decide) (by decide) c hc

theorem vecA_holds (c : Cfg) (hc : c = c64 ∨ c = c64d) : vecA.Holds c listA := by
  refine ⟨?_, fun x _ => (bytes_lawful c hc).keeps x.md, rfl, by decide, by decide, ?_, by refine ⟨?_, ?_, ?_, trivial⟩ <;> decide,
    by refine ⟨?_, ?_, ?_, ?_, ?_, ?_, ?_⟩ <;> decide, rfl⟩
  · intro x hx
    simp only [listA, List.mem_cons, List.not_mem_nil, or_false] at hx
    rcases hx with rfl | rfl | rfl <;> exact bytes_wf _ (by decide) c hc
  · rcases hc with rfl | rfl <;> decide

end Verif.Sample
