import Verif.Proofs.BuildsHolds
import Verif.Props.Shape

/-!
# C61: debug builds and release builds

A `debug_assert!` is evaluated only in builds with debug assertions. The theorems compare the two builds of the same program
from the same state: `c.checked` and `c.release` differ in nothing else. (The overflow checks of debug builds are a separate
switch of the compiler and are not part of this comparison.)
-/

namespace Verif
open Sample
section
variable {T : UTy} {A : ATy} {β : Type} [Inhabited β] {c : Cfg} {sz al : Nat}

/-! ## Whatever the state -/

/-- C61: in every state of the vector, reachable or not, a call does the same in both builds, or it evaluates assertions and the
debug build panics. -/
theorem C61_call_unaligned (env : Env (Val T β)) (op : Op T β) (v : UVec T β) :
    op.StopsEarly env (op.exec c.checked (unalignedM c.checked T) env v) (op.exec c.release (unalignedM c.release T) env v) :=
  (unaligned_builds T).exec env op v

theorem C61_call_aligned (env : Env (Val A.ty β)) (op : Op A.ty β) (v : AVec A β) :
    op.StopsEarly env (op.exec c.checked (alignedM c.checked A) env v) (op.exec c.release (alignedM c.release A) env v) :=
  (aligned_builds A).exec env op v

omit [Inhabited β] in
theorem C61_call_sized (env : Env (Val (sizedTy sz al) β)) (op : Op (sizedTy sz al) β) (v : SVec sz al β) :
    op.StopsEarly env (op.exec c.checked (sizedM c.checked sz al) env v) (op.exec c.release (sizedM c.release sz al) env v) :=
  (sized_builds sz al).exec env op v

/-- C61: shrinking vectors of statically aligned and of sized elements evaluates no assertion at all. -/
theorem C61_shrink_aligned (env : Env (Val A.ty β)) (q : Shrinking) :
    (Op.shrink q).exec c.checked (alignedM c.checked A) env = (Op.shrink q).exec c.release (alignedM (β := β) c.release A) env := by
  have h : ∀ n b a, Api.shrinkCapacityBytesAlignTo (alignedP c.checked A) env n b a =
      Api.shrinkCapacityBytesAlignTo (alignedP (β := β) c.release A) env n b a := by
    intro n b a
    unfold Api.shrinkCapacityBytesAlignTo
    simp only [alignedP, builds]
    rfl
  have h1 : q.run c.checked (alignedP c.checked A) env = q.run c.release (alignedP (β := β) c.release A) env := by
    cases q with
    | toFit => exact h 0 0 1
    | elems n => exact h n c.usizeMax (2 ^ (c.bits - 1))
    | capBytes n b => exact h n b (2 ^ (c.bits - 1))
    | capBytesAlign n b al => exact h n b al
  dsimp only [Op.exec, alignedM]
  rw [h1]

omit [Inhabited β] in
theorem C61_shrink_sized (env : Env (Val (sizedTy sz al) β)) (q : Shrinking) :
    (Op.shrink q).exec c.checked (sizedM c.checked sz al) env = (Op.shrink q).exec c.release (sizedM (β := β) c.release sz al) env := by
  cases q <;> rfl

/-- C61: a program that observes no panic in the debug build behaves in the release build exactly as it does there: testing a
debug build says something about the release build. Nothing is assumed about the program and the state it starts from. -/
theorem C61_tested_unaligned (ops : List (Env (Val T β) × Op T β)) {v v' : UVec T β} {os : List (Out T β)}
    (hr : runOps c.checked (unalignedM c.checked T) ops v = .ok os v') (hp : .panicked ∉ os) :
    runOps c.release (unalignedM c.release T) ops v = .ok os v' :=
  (unaligned_builds T).runOps ops v hr hp

theorem C61_tested_aligned (ops : List (Env (Val A.ty β) × Op A.ty β)) {v v' : AVec A β} {os : List (Out A.ty β)}
    (hr : runOps c.checked (alignedM c.checked A) ops v = .ok os v') (hp : .panicked ∉ os) :
    runOps c.release (alignedM c.release A) ops v = .ok os v' :=
  (aligned_builds A).runOps ops v hr hp

omit [Inhabited β] in
theorem C61_tested_sized (ops : List (Env (Val (sizedTy sz al) β) × Op (sizedTy sz al) β)) {v v' : SVec sz al β}
    {os : List (Out (sizedTy sz al) β)} (hr : runOps c.checked (sizedM c.checked sz al) ops v = .ok os v') (hp : .panicked ∉ os) :
    runOps c.release (sizedM c.release sz al) ops v = .ok os v' :=
  (sized_builds sz al).runOps ops v hr hp

/-! ## Vectors that hold a list -/

/-- C61: a covered call on a vector that holds a list does the same in both builds, unless a reservation fails: there the debug
build panics. -/
theorem C61_holds_unaligned_partial {G : Prop} {v : UVec T β} {xs : List (Val T β)} (h : v.Represents G c.checked xs)
    {env : Env (Val T β)} (hv : env.Valid) (he : G → env.Exact) {op : Op T β} (hw : op.WF c.checked xs)
    (hc : UVec.Covered G c.checked env op v xs) :
    op.exec c.checked (unalignedM c.checked T) env v = op.exec c.release (unalignedM c.release T) env v ∨
      op.PanicsOnFailure (op.exec c.checked (unalignedM c.checked T) env v) (op.exec c.release (unalignedM c.release T) env v) :=
  ((unaligned_agree G T).exec h ⟨hv, he⟩ hw hc trivial).imp id fun h => h.2

theorem C61_holds_aligned_partial (hA : A.Lawful c.checked) {v : AVec A β} {xs : List (Val A.ty β)} (h : v.Holds c.checked xs)
    {env : Env (Val A.ty β)} (hv : env.Valid) {op : Op A.ty β} (hw : op.WF c.checked xs) (hc : AVec.Covered env op xs) :
    op.exec c.checked (alignedM c.checked A) env v = op.exec c.release (alignedM c.release A) env v ∨
      op.PanicsOnFailure (op.exec c.checked (alignedM c.checked A) env v) (op.exec c.release (alignedM c.release A) env v) :=
  ((aligned_agree hA).exec h hv hw hc trivial).imp id fun h => h.2

/-- C61, sized elements: there is no exception, but the bytes asked for must be those of the elements asked for. -/
theorem C61_holds_sized_partial {v : SVec sz al β} {xs : List (Val (sizedTy sz al) β)} (h : v.Holds c.checked xs)
    {env : Env (Val (sizedTy sz al) β)} {op : Op (sizedTy sz al) β} (hw : op.WF c.checked xs) (hc : SVec.Covered env op xs)
    (ho : op.Fitting sz) :
    op.exec c.checked (sizedM c.checked sz al) env v = op.exec c.release (sizedM c.release sz al) env v :=
  (sized_agree.exec h trivial hw hc ho).elim id fun h => h.1.elim

/-- C61: a program of covered calls that runs to its end in the release build, with no reservation failing on the way, behaves
in the debug build exactly as it does there. -/
theorem C61_deployed_unaligned_partial {G : Prop} {v : UVec T β} {s : Ideal T β}
    (h : Tracks (unalignedM c.checked T) (UVec.Represents G c.checked) v s) (ops : List (Env (Val T β) × Op T β))
    (hs : Along c.checked (unalignedM c.checked T) (UVec.Represents G c.checked)
      (fun env op v xs => (env.Valid ∧ (G → env.Exact)) ∧ op.WF c.checked xs ∧ UVec.Covered G c.checked env op v xs) ops v s)
    {os : List (Out T β)} {v' : UVec T β} (hr : runOps c.release (unalignedM c.release T) ops v = .ok os v') (hf : ∀ e, .failed e ∉ os) :
    runOps c.checked (unalignedM c.checked T) ops v = .ok os v' :=
  (unaligned_agree G T).runOps ops v s h (hs.imp fun _ _ _ _ h => ⟨h, trivial⟩) hr hf

theorem C61_deployed_aligned_partial (hA : A.Lawful c.checked) {v : AVec A β} {s : Ideal A.ty β}
    (h : Tracks (alignedM c.checked A) (AVec.Holds c.checked) v s) (ops : List (Env (Val A.ty β) × Op A.ty β))
    (hs : AlongList (fun env op xs => env.Valid ∧ op.WF c.checked xs ∧ AVec.Covered env op xs) ops s)
    {os : List (Out A.ty β)} {v' : AVec A β} (hr : runOps c.release (alignedM c.release A) ops v = .ok os v') (hf : ∀ e, .failed e ∉ os) :
    runOps c.checked (alignedM c.checked A) ops v = .ok os v' :=
  (aligned_agree hA).runOps ops v s h (AlongList.along (fun _ _ _ _ h => ⟨h, trivial⟩) ops v s hs) hr hf

/-- C61: if memory is never short, a program of covered calls has one behaviour, whatever the build. -/
theorem C61_plenty_unaligned_partial {G : Prop} {v : UVec T β} {s : Ideal T β}
    (h : Tracks (unalignedM c.checked T) (UVec.Represents G c.checked) v s) (ops : List (Env (Val T β) × Op T β))
    (hs : Along c.checked (unalignedM c.checked T) (UVec.Represents G c.checked)
      (fun env op v xs => ((env.Valid ∧ (G → env.Exact)) ∧ op.WF c.checked xs ∧ UVec.Covered G c.checked env op v xs) ∧
        ¬ UVec.Short c.checked env op v xs) ops v s) :
    runOps c.checked (unalignedM c.checked T) ops v = runOps c.release (unalignedM c.release T) ops v :=
  Agreement.runOps_eq (UVec.client G c.checked T) _ ops v s h
    (hs.imp fun _ _ _ _ h => ⟨h.1, fun _ ht => (unaligned_agree G T).exec_plenty ht h.1.1 h.1.2.1 h.1.2.2 trivial h.2⟩)

theorem C61_plenty_aligned_partial (hA : A.Lawful c.checked) {v : AVec A β} {s : Ideal A.ty β}
    (h : Tracks (alignedM c.checked A) (AVec.Holds c.checked) v s) (ops : List (Env (Val A.ty β) × Op A.ty β))
    (hs : Along c.checked (alignedM c.checked A) (AVec.Holds c.checked)
      (fun env op v xs => (env.Valid ∧ op.WF c.checked xs ∧ AVec.Covered env op xs) ∧ ¬ AVec.Short c.checked env op v xs) ops v s) :
    runOps c.checked (alignedM c.checked A) ops v = runOps c.release (alignedM c.release A) ops v :=
  Agreement.runOps_eq (AVec.client hA) _ ops v s h
    (hs.imp fun _ _ _ _ h => ⟨h.1, fun _ ht => (aligned_agree hA).exec_plenty ht h.1.1 h.1.2.1 h.1.2.2 trivial h.2⟩)

/-- C61, sized elements: whether or not memory is short. -/
theorem C61_program_sized_partial {v : SVec sz al β} {s : Ideal (sizedTy sz al) β}
    (h : Tracks (sizedM c.checked sz al) (SVec.Holds c.checked) v s) (ops : List (Env (Val (sizedTy sz al) β) × Op (sizedTy sz al) β))
    (hs : AlongList (fun env op xs => op.WF c.checked xs ∧ SVec.Covered env op xs ∧ op.Fitting sz) ops s) :
    runOps c.checked (sizedM c.checked sz al) ops v = runOps c.release (sizedM c.release sz al) ops v :=
  Agreement.runOps_eq SVec.client _ ops v s h
    (AlongList.along (fun _ _ _ _ h => ⟨⟨trivial, h.1, h.2.1⟩, fun _ ht => C61_holds_sized_partial ht.1 h.1 h.2.1 h.2.2⟩) ops v s hs)

/-- C61: dropping a vector, in any state, evaluates no assertion. -/
theorem C61_drop : (unalignedM (β := β) c.checked T).drop = (unalignedM c.release T).drop ∧
    (alignedM (β := β) c.checked A).drop = (alignedM c.release A).drop ∧ (sizedM (β := β) c.checked sz al).drop = (sizedM c.release sz al).drop :=
  ⟨(unaligned_builds T).drop, (aligned_builds A).drop, (sized_builds sz al).drop⟩

end

/-! ## Overflow checks

A debug build also checks `+` and `-` for overflow. In the source these operators occur, apart from constants, only inside `debug_assert!`
(src/lib.rs:555, 585; src/inner/aligned.rs:244, 471, 472; src/inner/sized.rs:228; src/inner/unaligned.rs:597, 847, 849), in two forms; all
other arithmetic is done with `checked_`, `saturating_` and `unchecked_` methods. The model computes with natural numbers there. It makes no
difference: where the operation overflows, the assertion is false. -/

section
variable {σ : Type} {c : Cfg}

/-- `x + y` in a debug build -/
def plusChecked (c : Cfg) (x y : Nat) : Exec σ Nat := if x + y ≤ c.usizeMax then pure (x + y) else Exec.panic

/-- `x - y` in a debug build -/
def minusChecked (x y : Nat) : Exec σ Nat := if y ≤ x then pure (x - y) else Exec.panic

/-- `debug_assert!(cap >= x + y)`: nothing is evaluated in a release build. -/
def assertSum (c : Cfg) (cap x y : Nat) : Exec σ Unit :=
  if c.debug then do
    let s ← plusChecked c x y
    Exec.assert (cap ≥ s)
  else pure ()

/-- `debug_assert!(cap - len > 0)` -/
def assertDifference (c : Cfg) (cap len : Nat) : Exec σ Unit :=
  if c.debug then do
    let d ← minusChecked cap len
    Exec.assert (d > 0)
  else pure ()

/-- C61: with overflow checks the assertion on a sum is the one of the model, since a capacity is a `usize`. -/
theorem C61_overflow_sum {cap : Nat} (hc : cap ≤ c.usizeMax) (x y : Nat) :
    (assertSum c cap x y : Exec σ Unit) = Exec.debugAssert c.debug (cap ≥ x + y) := by
  funext s
  unfold assertSum Exec.debugAssert plusChecked
  cases c.debug with
  | false => rfl
  | true =>
    rw [if_pos rfl]
    by_cases h : x + y ≤ cap
    · rw [if_pos (by omega), if_neg (fun h' => h'.2 h)]
      exact if_pos h
    · rw [if_pos (And.intro rfl h)]
      by_cases h1 : x + y ≤ c.usizeMax
      · rw [if_pos h1]; exact if_neg h
      · rw [if_neg h1]; rfl

/-- C61: so is the assertion on a difference. -/
theorem C61_overflow_difference (cap len : Nat) :
    (assertDifference c cap len : Exec σ Unit) = Exec.debugAssert c.debug (cap - len > 0) := by
  funext s
  unfold assertDifference Exec.debugAssert minusChecked
  cases c.debug with
  | false => rfl
  | true =>
    rw [if_pos rfl]
    by_cases h : len ≤ cap
    · rw [if_pos h]
      by_cases h1 : cap - len > 0
      · rw [if_neg (fun h' => h'.2 h1)]; exact if_pos h1
      · rw [if_pos (And.intro rfl h1)]; exact if_neg h1
    · rw [if_neg h, if_pos (And.intro rfl (by omega))]; rfl

/-- The hypothesis holds of every capacity; and the sum of two `usize`s can overflow. -/
example : (16 : Nat) ≤ c64.usizeMax ∧ unwinds (assertSum c64d 16 c64d.usizeMax 1 ()) = true ∧
    unwinds (assertDifference c64d 3 4 ()) = true ∧ unwinds (assertSum c64d 16 8 8 ()) = false := by decide

end

/-! ## The hypotheses are met -/

example : c64.checked = c64d ∧ c64d.release = c64 := ⟨rfl, rfl⟩

/-- Programs that are tested in the debug build. -/
example : observed (runOps c64.checked (unalignedM c64.checked Dyn) (progU.eraseIdx 2) (UVec.newAlignPtr c64)) =
    some [[0], [0], 5 :: List.range 16, [5, 1, 2, 3]] := by decide +kernel
example : observed (runOps c64.checked (alignedM c64.checked Bytes) progJ vecA) = some [[0], [6, 7, 8, 9, 6]] := by decide +kernel
example : observed (runOps c64.checked (sizedM c64.checked 2 1) (progS.eraseIdx 2) SVec.new) = some [[0], [0], [5, 1, 2], [0]] := by
  decide +kernel

/-- A call on a vector that holds a list, with memory available and without. -/
example : vecU.Represents True c64.checked listU ∧ (env : Env (Val Dyn Nat)).Valid ∧ (env : Env (Val Dyn Nat)).Exact ∧
    (Op.get 1 : Op Dyn Nat).WF c64.checked listU ∧ UVec.Covered True c64.checked env (.get 1) vecU listU :=
  ⟨vecU_holds _ (.inr rfl), env_valid, env_exact, trivial, trivial⟩
example : (Op.tryReserve (.capBytes 0 (2 ^ 63)) : Op Dyn Nat).PanicsOnFailure
    ((Op.tryReserve (.capBytes 0 (2 ^ 63))).exec c64.checked (unalignedM c64.checked Dyn) env vecU)
    ((Op.tryReserve (.capBytes 0 (2 ^ 63))).exec c64.release (unalignedM c64.release Dyn) env vecU) :=
  ⟨trivial, .capacityOverflow, vecU, rfl, rfl⟩
example : (Op.push (dyn 1 [1, 2, 3, 4, 5, 6, 7, 8, 9])).PanicsOnFailure
    ((Op.push (dyn 1 [1, 2, 3, 4, 5, 6, 7, 8, 9])).exec c64.checked (unalignedM c64.checked Dyn) envFull vecU)
    ((Op.push (dyn 1 [1, 2, 3, 4, 5, 6, 7, 8, 9])).exec c64.release (unalignedM c64.release Dyn) envFull vecU) :=
  ⟨rfl, _, rfl⟩
example : Bytes.Lawful c64.checked ∧ Tracks (alignedM c64.checked Bytes) (AVec.Holds c64.checked) vecA ⟨listA, []⟩ ∧
    AlongList (fun env op xs => env.Valid ∧ op.WF c64.checked xs ∧ AVec.Covered env op xs) progJ ⟨listA, []⟩ ∧
    observed (runOps c64.release (alignedM c64.release Bytes) progJ vecA) = some [[0], [6, 7, 8, 9, 6]] :=
  ⟨bytes_lawful _ (.inr rfl), ⟨vecA_holds _ (.inr rfl), rfl⟩, progJ_ok, by decide +kernel⟩
example : Tracks (unalignedM c64.checked Dyn) (UVec.Holds c64.checked) (UVec.newAlignPtr c64 : UVec Dyn Nat) ⟨[], []⟩ ∧
    Along c64.checked (unalignedM c64.checked Dyn) (UVec.Holds c64.checked)
      (fun env op v xs => (env.Valid ∧ (True → env.Exact)) ∧ op.WF c64.checked xs ∧ UVec.Covered True c64.checked env op v xs) progU
      (UVec.newAlignPtr c64) ⟨[], []⟩ ∧
    observed (runOps c64.release (unalignedM c64.release Dyn) progU (UVec.newAlignPtr c64)) =
      some [[0], [0], [1], 5 :: List.range 16, [5, 1, 2, 3]] :=
  ⟨⟨UVec.newAlignPtr_holds c64d_usizeAlign, rfl⟩, progU_ok, by decide +kernel⟩

/-- Memory is not short. -/
example : ¬ UVec.Short c64.checked env (.push (dyn 1 [1, 2, 3, 4, 5, 6, 7, 8, 9])) vecU listU := by
  rintro (⟨n, l, h⟩ | h)
  · rcases h with h | h <;> exact nomatch h
  · rcases h with h | h
    · revert h; decide
    · revert h; unfold UVec.BytesTooLarge; decide

theorem progS_fits : AlongList (fun env op xs => op.WF c64.checked xs ∧ SVec.Covered env op xs ∧ op.Fitting 2) progS ⟨[], []⟩ := by
  have h := progS_ok
  exact ⟨⟨h.1.1, h.1.2, trivial⟩, fun o s ha => have h := h.2 o s ha; ⟨⟨h.1.1, h.1.2, trivial⟩, fun o s ha => have h := h.2 o s ha;
    ⟨⟨h.1.1, h.1.2, trivial⟩, fun o s ha => have h := h.2 o s ha; ⟨⟨h.1.1, h.1.2, trivial⟩, fun o s ha => have h := h.2 o s ha;
    ⟨⟨h.1.1, h.1.2, trivial⟩, fun _ _ _ => trivial⟩⟩⟩⟩⟩

/-! ## The builds differ -/

/-- C61 fails: a reservation that fails is reported by the release build and makes the debug build panic. -/
theorem C61_counterexample : vecU.Holds c64.checked listU ∧ vecA.Holds c64.checked listA ∧
    Reservation.attempt c64.release (unalignedP c64.release Dyn) env (.capBytes 0 (2 ^ 63)) vecU = .ok (.error .capacityOverflow) vecU ∧
    Reservation.attempt c64.checked (unalignedP c64.checked Dyn) env (.capBytes 0 (2 ^ 63)) vecU = .panic vecU ∧
    Reservation.attempt c64.release (alignedP c64.release Bytes) env (.capBytes 0 (2 ^ 63)) vecA = .ok (.error .capacityOverflow) vecA ∧
    Reservation.attempt c64.checked (alignedP c64.checked Bytes) env (.capBytes 0 (2 ^ 63)) vecA = .panic vecA :=
  ⟨vecU_holds _ (.inr rfl), vecA_holds _ (.inr rfl), rfl, rfl, rfl, rfl⟩

/-- C61 fails for sized elements: with room for two more elements of two bytes, a request for 100 bytes succeeds in the release build
and panics in the debug build. -/
theorem C61_counterexample_sized : vecP.Holds c64.checked listP ∧
    unwinds (Reservation.attempt c64.checked (sizedP c64.checked 2 2) env (.capBytes 0 100) vecP) = true ∧
    ¬ unwinds (Reservation.attempt c64.release (sizedP c64.release 2 2) env (.capBytes 0 100) vecP) = true :=
  ⟨vecP_holds _ (.inr rfl), by decide, by decide⟩

/-- C61 fails for `push` with no memory involved: the address of a fresh vector is not aligned for the zero-sized value. The release
build accepts the value, and the program later finds another one wrong; the debug build panics. -/
theorem C61_counterexample_push : (UVec.newAlignPtr c64 : UVec Dyn Nat).Holds c64.checked [] ∧ (dyn 16 []).WF c64 ∧ envOdd.Valid ∧
    (∃ v, Api.push c64.checked (unalignedP c64.checked Dyn) envOdd (dyn 16 []) (UVec.newAlignPtr c64) = .panic v) ∧
    (∃ v, Api.push c64.release (unalignedP c64.release Dyn) envOdd (dyn 16 []) (UVec.newAlignPtr c64) = .ok () v) := by
  obtain ⟨h1, h2, h3, v, -, h4, -⟩ := C01_counterexample
  exact ⟨UVec.newAlignPtr_holds c64d_usizeAlign, h1, h2, h3, v, h4⟩

end Verif
