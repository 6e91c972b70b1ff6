import Verif.Proofs.RaiseStep
import Verif.Proofs.UImpl
import Verif.Proofs.AImpl
import Verif.Spec.Samples

/-!
# C15, C16: when and by how much the storage grows
-/

namespace Verif
open Sample

section
variable {T : UTy} {A : ATy} {β : Type} [Inhabited β] {c : Cfg}

/-! ## C15 -/

/-- C15 for `push`, statically aligned elements: with room for the element, the result does not depend on the environment
at all (so the allocator is not consulted), and capacity and addresses are unchanged. (`A.stored x` is `x`, except for
slices of zero-sized elements, see C28.) -/
theorem C15_push_aligned (hA : A.Fits c) {v : AVec A β} {xs : List (Val A.ty β)} (h : v.Holds c xs)
    {x : Val A.ty β} (hx : x.WF c) (h1 : xs.length < v.elemsCap) (h2 : x.size ≤ v.spare xs) :
    ∃ v', (∀ env, Api.push c (alignedP c A) env x v = .ok () v') ∧ v'.Holds c (xs ++ [A.stored x]) ∧
      v'.elemsCap = v.elemsCap ∧ v'.byteCap = v.byteCap ∧ v'.ptr = v.ptr ∧ v'.heap.block = v.heap.block := by
  have hc := h.cap
  unfold AVec.spare at h2
  have key := fun env => (AVec.implF hA).push_idle h env hx h1
    (show totalWidth id xs + x.size ≤ v.byteCap by omega) trivial trivial
  obtain ⟨v', _, hp, h3, _, h5, h6, _, h8⟩ := key ⟨fun _ => none, fun _ => .ok 0, true, fun _ => false⟩
  refine ⟨v', fun env => ?_, h3, h5, h6, congrArg Prod.fst h8, congrArg Prod.snd h8⟩
  obtain ⟨v'', h9, hp', _⟩ := key env
  rw [hp] at hp'
  cases hp'
  exact h9

/-- C15 for `push`, dynamically aligned elements. -/
theorem C15_push_unaligned {v : UVec T β} {xs : List (Val T β)} (h : v.Holds c xs)
    {x : Val T β} (hx : x.WF c) (h1 : xs.length < v.elemsCap) (h2 : x.size ≤ v.spare xs) (h3 : x.align ≤ v.align) :
    ∃ v', (∀ env, Api.push c (unalignedP c T) env x v = .ok () v') ∧ v'.Holds c (xs ++ [x]) ∧
      v'.elemsCap = v.elemsCap ∧ v'.byteCap = v.byteCap ∧ v'.align = v.align ∧ v'.ptr = v.ptr ∧
      v'.heap.block = v.heap.block := by
  have hc := h.cap
  unfold UVec.spare at h2
  have key := fun env => (UVec.impl True c T).push_idle h env hx h1
    (show totalWidth (padTo v.align) xs + x.size ≤ v.byteCap by omega) h3 (.inl (h.capDvd trivial))
  obtain ⟨v', _, hp, h3, _, h5, h6, h7, h8⟩ := key ⟨fun _ => none, fun _ => .ok 0, true, fun _ => false⟩
  refine ⟨v', fun env => ?_, h3, h5, h6, h7, congrArg Prod.fst h8, congrArg Prod.snd h8⟩
  obtain ⟨v'', h9, hp', _⟩ := key env
  rw [hp] at hp'
  cases hp'
  exact h9

/-- C15 for `insert`, statically aligned elements, for the indices for which `insert` works (see C03). -/
theorem C15_insert_aligned_partial (hA : A.Fits c) {v : AVec A β} {xs : List (Val A.ty β)} (h : v.Holds c xs)
    {x : Val A.ty β} (hx : x.WF c) (h1 : xs.length < v.elemsCap) (h2 : x.size ≤ v.spare xs) {i : Nat}
    (hi : i ≤ xs.length) (hg : totalWidth id (xs.take i) = i) :
    ∃ v', (∀ env, Api.insert c (alignedP c A) env i x v = .ok () v') ∧ v'.Holds c (xs.take i ++ A.stored x :: xs.drop i) ∧
      v'.elemsCap = v.elemsCap ∧ v'.byteCap = v.byteCap ∧ v'.ptr = v.ptr ∧ v'.heap.block = v.heap.block := by
  have hc := h.cap
  unfold AVec.spare at h2
  have key := fun env => (AVec.implF hA).insert_idle h env hx h1
    (show totalWidth id xs + x.size ≤ v.byteCap by omega) trivial trivial hi hg
  obtain ⟨v', _, hp, h3, _, h5, h6, _, h8⟩ := key ⟨fun _ => none, fun _ => .ok 0, true, fun _ => false⟩
  refine ⟨v', fun env => ?_, h3, h5, h6, congrArg Prod.fst h8, congrArg Prod.snd h8⟩
  obtain ⟨v'', h9, hp', _⟩ := key env
  rw [hp] at hp'
  cases hp'
  exact h9

/-- C15 for `insert`, dynamically aligned elements, for the indices for which `insert` works (see C03). -/
theorem C15_insert_unaligned_partial {v : UVec T β} {xs : List (Val T β)} (h : v.Holds c xs)
    {x : Val T β} (hx : x.WF c) (h1 : xs.length < v.elemsCap) (h2 : x.size ≤ v.spare xs) (h3 : x.align ≤ v.align)
    {i : Nat} (hi : i ≤ xs.length) (hg : v.InsertPlainOk xs i) :
    ∃ v', (∀ env, Api.insert c (unalignedP c T) env i x v = .ok () v') ∧ v'.Holds c (xs.take i ++ x :: xs.drop i) ∧
      v'.elemsCap = v.elemsCap ∧ v'.byteCap = v.byteCap ∧ v'.align = v.align ∧ v'.ptr = v.ptr ∧
      v'.heap.block = v.heap.block := by
  have hc := h.cap
  unfold UVec.spare at h2
  have key := fun env => (UVec.impl True c T).insert_idle h env hx h1
    (show totalWidth (padTo v.align) xs + x.size ≤ v.byteCap by omega) h3 (.inl (h.capDvd trivial)) hi hg
  obtain ⟨v', _, hp, h3, _, h5, h6, h7, h8⟩ := key ⟨fun _ => none, fun _ => .ok 0, true, fun _ => false⟩
  refine ⟨v', fun env => ?_, h3, h5, h6, h7, congrArg Prod.fst h8, congrArg Prod.snd h8⟩
  obtain ⟨v'', h9, hp', _⟩ := key env
  rw [hp] at hp'
  cases hp'
  exact h9

/-- The hypotheses can be met. -/
example : vecU.Holds c64 listU ∧ (dyn 4 [1, 2, 3, 4]).WF c64 ∧ listU.length < vecU.elemsCap ∧
    (dyn 4 [1, 2, 3, 4]).size ≤ vecU.spare listU ∧ (dyn 4 [1, 2, 3, 4]).align ≤ vecU.align ∧ vecU.InsertPlainOk listU 0 :=
  ⟨vecU_holds _ (.inl rfl), dyn_wf 2 _ (by decide) (by decide) (by decide) _ (.inl rfl), by decide, by decide, by decide,
    ⟨.inl (by decide), rfl⟩⟩

example : Bytes.Lawful c64 ∧ vecA.Holds c64 listA ∧ (bytes [7, 8]).WF c64 ∧ listA.length < vecA.elemsCap ∧
    (bytes [7, 8]).size ≤ vecA.spare listA ∧ totalWidth id (listA.take 1) = 1 :=
  ⟨bytes_lawful _ (.inl rfl), vecA_holds _ (.inl rfl), bytes_wf _ (by decide) _ (.inl rfl), by decide, by decide, rfl⟩

/-- C15 is false for `push_with` and `insert_with`: although one more element and four more bytes fit, the emplacers
ask the allocator for more memory; when it fails, the process is aborted. -/
theorem C15_counterexample :
    listU.length < vecU.elemsCap ∧ (dyn 4 [1, 2, 3, 4]).size ≤ vecU.spare listU ∧
    (dyn 4 [1, 2, 3, 4]).align ≤ vecU.align ∧
    Api.pushWithRun (unalignedP c64 Dyn) envFull (given env (dyn 4 [1, 2, 3, 4])) ([], vecU) = .abort ∧
    Api.insertWithRun (unalignedP c64 Dyn) envFull 0 (given env (dyn 4 [1, 2, 3, 4])) ([], vecU) = .abort ∧
    listA.length < vecA.elemsCap ∧ (bytes [7, 8]).size ≤ vecA.spare listA ∧
    Api.pushWithRun (alignedP c64 Bytes) envFull (given env (bytes [7, 8])) ([], vecA) = .abort ∧
    Api.insertWithRun (alignedP c64 Bytes) envFull 0 (given env (bytes [7, 8])) ([], vecA) = .abort :=
  ⟨by decide, by decide, by decide, rfl, rfl, by decide, by decide, rfl, rfl⟩

/-! ## C16 -/

/-- C16, statically aligned elements: when `push` returns, either the storage was left alone or its capacity has at
least doubled, provided that the allocator can satisfy the request for twice the capacity. -/
theorem C16_push_aligned (hA : A.Fits c) {v : AVec A β} {xs : List (Val A.ty β)} (h : v.Holds c xs)
    {env : Env (Val A.ty β)} (hv : env.Valid) {x : Val A.ty β} (hx : x.WF c)
    (hm : env.alloc (v.request (max (x.size - v.spare xs) v.byteCap)) ≠ none)
    (hl : (v.request (max (x.size - v.spare xs) v.byteCap)).size ≤ VS.max c A.ALIGN)
    {v' : AVec A β} (hr : Api.push c (alignedP c A) env x v = .ok () v') :
    (v'.byteCap = v.byteCap ∧ v'.ptr = v.ptr ∧ v'.heap.block = v.heap.block) ∨ 2 * v.byteCap ≤ v'.byteCap := by
  have key := (AVec.implF hA).push_meets h hv hx (fun _ _ => trivial) (fun _ => trivial)
  rw [hr] at key
  obtain ⟨_, _, v1, hE, _, hb, _, hblk⟩ := key
  have hc := h.cap
  have hw : (AVec.implF hA).width v xs = totalWidth id xs := rfl
  have hw1 : (AVec.implF hA).width v1 xs = totalWidth id xs := rfl
  have hbc : (AVec.implF hA).bcap v = v.byteCap := rfl
  have hu : (AVec.implF hA).unused v xs = v.spare xs := rfl
  have hb' : v'.byteCap = (AVec.implF hA).bcap v1 := hb
  unfold AVec.spare at hu
  by_cases hn : x.size ≤ v.byteCap - totalWidth id xs
  · left
    obtain ⟨e1, e2, _⟩ := hE.calm (by rw [hw, hbc]; omega) trivial
    have e3 : (v'.ptr, v'.heap.block) = (v.ptr, v.heap.block) := hblk.trans e2
    exact ⟨hb'.trans e1, congrArg Prod.fst e3, congrArg Prod.snd e3⟩
  · right
    have := hE.grown (by rw [hu]; omega) (Nat.not_lt.mpr hl) hm
    rw [hw, hw1, hbc, hu, ← hb'] at this
    omega

/-- C16, dynamically aligned elements, when memory is needed for the element. Partial: not covered is the case that only
the alignment has to be raised (`C16_counterexample`). -/
theorem C16_push_unaligned_partial {v : UVec T β} {xs : List (Val T β)} (h : v.Holds c xs)
    {env : Env (Val T β)} (hv : env.Valid) (he : env.Exact) {x : Val T β} (hx : x.WF c) (hz : v.ZstOk x.size x.align)
    (hm : env.alloc (v.request xs (max (x.size - v.spare xs) v.byteCap) x.align) ≠ none)
    (hl : ¬ UVec.BytesTooLarge c v xs (max (x.size - v.spare xs) v.byteCap) x.align)
    (hg : v.spare xs < x.size ∨ x.align ≤ v.align)
    {v' : UVec T β} (hr : Api.push c (unalignedP c T) env x v = .ok () v') :
    (v'.byteCap = v.byteCap ∧ v'.ptr = v.ptr ∧ v'.heap.block = v.heap.block ∧ v'.align = v.align) ∨
      2 * v.byteCap ≤ v'.byteCap := by
  have key := (UVec.impl True c T).push_meets h ⟨hv, (fun _ => he)⟩ hx hz (fun _ => .inl (h.capDvd trivial))
  rw [hr] at key
  obtain ⟨_, _, v1, hE, _, hb, ha, hblk⟩ := key
  have hc := h.cap
  have hw : (UVec.impl True c T).width v xs = totalWidth (padTo v.align) xs := rfl
  have hw1 : (UVec.impl True c T).width v1 xs = totalWidth (padTo v1.align) xs := rfl
  have hbc : (UVec.impl True c T).bcap v = v.byteCap := rfl
  have hu : (UVec.impl True c T).unused v xs = v.spare xs := rfl
  have hb' : v'.byteCap = (UVec.impl True c T).bcap v1 := hb
  have hmono : totalWidth (padTo v.align) xs ≤ totalWidth (padTo v1.align) xs :=
    totalWidth_mono_align h.al.pos (show v1.Holds c xs from hE.holds).al.pos
      (h.al.dvd_of_le (show v1.Holds c xs from hE.holds).al hE.alignMono) xs
  unfold UVec.spare at hu hg
  by_cases hn : x.size ≤ v.byteCap - totalWidth (padTo v.align) xs
  · left
    obtain ⟨e1, e2, e3⟩ := hE.calm (by rw [hw, hbc]; omega) (show x.align ≤ v.align by omega)
    have e4 : (v'.ptr, v'.heap.block) = (v.ptr, v.heap.block) := hblk.trans e2
    exact ⟨hb'.trans e1, congrArg Prod.fst e4, congrArg Prod.snd e4, ha.trans e3⟩
  · right
    have := hE.grown (by rw [hu]; omega) hl hm
    rw [hw, hw1, hbc, hu, ← hb'] at this
    omega


/-- C16 is false when only the alignment has to be raised: the storage is moved, but its capacity stays the same. -/
theorem C16_counterexample :
    ∃ v0 v1, Api.withCapacityBytesAlign (unalignedP c64 Dyn) env 2 8 1 = .ok () v0 ∧ v0.byteCap = 8 ∧ v0.ptr = 4096 ∧
      Api.push c64 (unalignedP c64 Dyn) env (dyn 2 [1, 2]) v0 = .ok () v1 ∧ v1.byteCap = 8 ∧ v1.ptr = 8192 :=
  ⟨_, _, rfl, rfl, rfl, rfl, rfl, rfl⟩

/-! ### total copying -/

/-- Push the values one after the other, counting the bytes that the allocator has to copy: the whole old capacity
whenever the block changes. `none` if a push does not return. -/
def pushAll {V : Type} (c : Cfg) (P : Provider V T β) (env : Env (Val T β)) (cap : V → Nat) (block : V → Option Block) :
    List (Val T β) → V → Option (V × Nat)
  | [], v => some (v, 0)
  | x :: xs, v =>
    match Api.push c P env x v with
    | .ok () v1 =>
      (pushAll c P env cap block xs v1).map (fun r => (r.1, (if block v1 = block v then 0 else cap v) + r.2))
    | _ => none

omit [Inhabited β] in
/-- The argument behind the two theorems below. -/
theorem pushAll_bound {V : Type} {P : Provider V T β} {env : Env (Val T β)} {cap : V → Nat} {block : V → Option Block}
    {J : V → List (Val T β) → Prop} {all : List (Val T β)}
    (step : ∀ v xs x rest, xs ++ x :: rest = all → J v xs → ∃ v1, Api.push c P env x v = .ok () v1 ∧ J v1 (xs ++ [x]) ∧
      (block v1 = block v ∧ cap v1 = cap v ∨ 2 * cap v ≤ cap v1)) (ys : List (Val T β)) :
    ∀ (v : V) (xs : List (Val T β)), xs ++ ys = all → J v xs →
      ∃ v' n, pushAll c P env cap block ys v = some (v', n) ∧ J v' all ∧ n + cap v ≤ cap v' := by
  induction ys with
  | nil => intro v xs h1 h2; rw [List.append_nil] at h1; exact ⟨v, 0, rfl, h1 ▸ h2, by omega⟩
  | cons y ys ih =>
    intro v xs h1 h2
    obtain ⟨v1, h3, h4, h5⟩ := step v xs y ys h1 h2
    obtain ⟨v', n, h6, h7, h8⟩ := ih v1 (xs ++ [y]) (by rw [List.append_assoc]; exact h1) h4
    refine ⟨v', (if block v1 = block v then 0 else cap v) + n, ?_, h7, ?_⟩
    · unfold pushAll; rw [h3]; dsimp only; rw [h6]; rfl
    · by_cases hb : block v1 = block v
      · rw [if_pos hb]; rcases h5 with h5 | h5 <;> omega
      · rw [if_neg hb]; rcases h5 with h5 | h5
        · exact absurd h5.1 hb
        · omega

/-- C16, total cost for statically aligned elements: pushing the elements `xs` onto a new vector, with an allocator that
grants exactly what is asked for, copies at most twice as many bytes as the elements have. -/
theorem C16_total_aligned (hA : A.Lawful c) {env : Env (Val A.ty β)} (hv : env.Valid) (he : env.Exact)
    (hg : ∀ l, env.alloc l ≠ none) (hi : ∀ n, ∃ k, env.infoGrow n = .ok k) {xs : List (Val A.ty β)}
    (hx : ∀ x ∈ xs, x.WF c) (hlen : xs.length ≤ c.infoMax) (hsize : 2 * totalWidth id xs ≤ VS.max c A.ALIGN) :
    ∃ v' n, pushAll c (alignedP c A) env AVec.byteCap (fun v => v.heap.block) xs AVec.new = some (v', n) ∧
      v'.Holds c xs ∧ n ≤ 2 * totalWidth id xs := by
  have key := pushAll_bound (c := c) (P := alignedP c A) (env := env) (cap := AVec.byteCap) (block := fun v => v.heap.block)
    (J := fun v ys => v.Holds c ys ∧ v.byteCap ≤ 2 * totalWidth id ys) (all := xs) ?_ xs AVec.new [] rfl ?_
  · obtain ⟨v', n, h1, ⟨h2, h3⟩, h4⟩ := key
    exact ⟨v', n, h1, h2, by omega⟩
  · rintro v ys x rest hall ⟨hH, hcap⟩
    have hw : totalWidth id xs = totalWidth id ys + (x.size + totalWidth id rest) := by rw [← hall, totalWidth_append]; rfl
    have hl : xs.length = ys.length + (rest.length + 1) := by rw [← hall]; simp
    have hxw : x.WF c := hx x (by rw [← hall]; simp)
    obtain ⟨v1, h1, h2, h3, h4⟩ := AVec.push_step hA hv he hg hi hxw (by omega) (by omega) hH hcap
    exact ⟨v1, h1, ⟨h2, h3⟩, h4⟩
  · refine ⟨⟨fun x h => absurd h (List.not_mem_nil), fun x h => absurd h (List.not_mem_nil), rfl, Nat.zero_le _, Nat.le_refl _,
      Nat.zero_le _, trivial, ⟨hA.al.pos, Nat.dvd_refl _, rfl⟩, rfl⟩, Nat.zero_le _⟩

/-- C16, total cost for dynamically aligned elements. Partial: the alignment of the elements must not exceed that of a
new vector (`align_of::<usize>()`). Sizes are counted rounded up to that alignment. -/
theorem C16_total_unaligned_partial (hu : IsAlign c c.usizeAlign) {env : Env (Val T β)} (hv : env.Valid) (he : env.Exact)
    (hg : ∀ l, env.alloc l ≠ none) (hi : ∀ n, ∃ k, env.infoGrow n = .ok k) {xs : List (Val T β)}
    (hx : ∀ x ∈ xs, x.WF c ∧ x.align ≤ c.usizeAlign) (hlen : xs.length ≤ c.infoMax)
    (hsize : 2 * totalWidth (padTo c.usizeAlign) xs ≤ c.isizeMax) :
    ∃ v' n, pushAll c (unalignedP c T) env UVec.byteCap (fun v => v.heap.block) xs (UVec.newAlignPtr c) = some (v', n) ∧
      v'.Holds c xs ∧ n ≤ 2 * totalWidth (padTo c.usizeAlign) xs := by
  have key := pushAll_bound (c := c) (P := unalignedP c T) (env := env) (cap := UVec.byteCap) (block := fun v => v.heap.block)
    (J := fun v ys => v.Holds c ys ∧ v.align = c.usizeAlign ∧ v.byteCap ≤ 2 * totalWidth (padTo c.usizeAlign) ys)
    (all := xs) ?_ xs (UVec.newAlignPtr c) [] rfl ?_
  · obtain ⟨v', n, h1, ⟨h2, _, h3⟩, h4⟩ := key
    exact ⟨v', n, h1, h2, by omega⟩
  · rintro v ys x rest hall ⟨hH, hal, hcap⟩
    obtain ⟨hxw, hxa⟩ := hx x (by rw [← hall]; simp)
    rw [← hal] at hxa hcap hsize ⊢
    have hw : totalWidth (padTo v.align) xs =
        totalWidth (padTo v.align) ys + (padTo v.align x.size + totalWidth (padTo v.align) rest) := by
      rw [← hall, totalWidth_append]; rfl
    have hl : xs.length = ys.length + (rest.length + 1) := by rw [← hall]; simp
    have hlp := le_padTo hH.al.pos x.size
    obtain ⟨v1, h1, h2, h3, h4, h5⟩ := UVec.push_step hv he hg hi hxw hxa (by omega) (by omega) hH hcap
    exact ⟨v1, h1, ⟨h2, h3, h4⟩, h5⟩
  · refine ⟨⟨fun x h => absurd h (List.not_mem_nil), hu, fun x h => absurd h (List.not_mem_nil), rfl, Nat.zero_le _,
      Nat.le_refl _, fun _ => Nat.dvd_zero _, hu.room (Nat.dvd_zero _) (Nat.zero_le _), trivial, ⟨hu.pos, Nat.dvd_refl _, rfl⟩, rfl⟩, rfl, Nat.zero_le _⟩

omit [Inhabited β] in
/-- `pushAll_bound` for pushes some of which are allowed to copy the storage without doubling it: at most `B` bytes each. -/
theorem pushAll_bound_except {V : Type} {P : Provider V T β} {env : Env (Val T β)} {cap : V → Nat} {block : V → Option Block}
    {J : V → List (Val T β) → Prop} {all : List (Val T β)} {count : List (Val T β) → Nat} {B : Nat}
    (step : ∀ v xs x rest, xs ++ x :: rest = all → J v xs → ∃ v1, Api.push c P env x v = .ok () v1 ∧ J v1 (xs ++ [x]) ∧ count xs ≤ count (xs ++ [x]) ∧
      (block v1 = block v ∧ cap v1 = cap v ∨ 2 * cap v ≤ cap v1 ∨ cap v ≤ B ∧ cap v ≤ cap v1 ∧ count (xs ++ [x]) = count xs + 1)) (ys : List (Val T β)) :
    ∀ (v : V) (xs : List (Val T β)), xs ++ ys = all → J v xs →
      ∃ v' n, pushAll c P env cap block ys v = some (v', n) ∧ J v' all ∧ n + cap v + count xs * B ≤ cap v' + count all * B := by
  induction ys with
  | nil => intro v xs h1 h2; rw [List.append_nil] at h1; subst h1; exact ⟨v, 0, rfl, h2, by omega⟩
  | cons y ys ih =>
    intro v xs h1 h2
    obtain ⟨v1, h3, h4, hc, h5⟩ := step v xs y ys h1 h2
    obtain ⟨v', n, h6, h7, h8⟩ := ih v1 (xs ++ [y]) (by rw [List.append_assoc]; exact h1) h4
    refine ⟨v', (if block v1 = block v then 0 else cap v) + n, ?_, h7, ?_⟩
    · unfold pushAll; rw [h3]; dsimp only; rw [h6]; rfl
    · have hm := Nat.mul_le_mul_right B hc
      rcases h5 with ⟨h5, h9⟩ | h5 | ⟨h5, h9, h10⟩
      · rw [if_pos h5]; omega
      · split <;> omega
      · rw [h10, Nat.add_mul] at h8
        split <;> omega

/-- C16, total cost for dynamically aligned elements of any alignment: each time the alignment has to be raised, at most as much again
is copied. Partial: elements without bytes must not have a larger alignment than a new vector (`C12_counterexample`). Sizes are counted rounded
up to the largest alignment. -/
theorem C16_total_raising_partial (hu : IsAlign c c.usizeAlign) {env : Env (Val T β)} (hv : env.Valid) (he : env.Exact)
    (hg : ∀ l, env.alloc l ≠ none) (hi : ∀ n, ∃ k, env.infoGrow n = .ok k) {xs : List (Val T β)}
    (hx : ∀ x ∈ xs, x.WF c ∧ (0 < x.size ∨ x.align ≤ c.usizeAlign)) (hlen : xs.length ≤ c.infoMax)
    (hsize : 2 * totalWidth (padTo (topAlign c.usizeAlign xs)) xs ≤ c.isizeMax) :
    ∃ v' n, pushAll c (unalignedP c T) env UVec.byteCap (fun v => v.heap.block) xs (UVec.newAlignPtr c) = some (v', n) ∧
      v'.Holds c xs ∧ v'.align = topAlign c.usizeAlign xs ∧
      n ≤ (1 + raises c.usizeAlign xs) * (2 * totalWidth (padTo (topAlign c.usizeAlign xs)) xs) := by
  have key := pushAll_bound_except (c := c) (P := unalignedP c T) (env := env) (cap := UVec.byteCap) (block := fun v => v.heap.block)
    (J := fun v ys => v.Holds c ys ∧ v.align = topAlign c.usizeAlign ys ∧ v.byteCap ≤ 2 * totalWidth (padTo v.align) ys)
    (all := xs) (count := raises c.usizeAlign) (B := 2 * totalWidth (padTo (topAlign c.usizeAlign xs)) xs) ?_ xs (UVec.newAlignPtr c) [] rfl ?_
  · obtain ⟨v', n, h1, ⟨h2, h3, h4⟩, h5⟩ := key
    rw [h3] at h4
    refine ⟨v', n, h1, h2, h3, ?_⟩
    rw [Nat.add_mul, Nat.one_mul]
    omega
  · rintro v ys x rest hall ⟨hH, hal, hcap⟩
    obtain ⟨hxw, hxz⟩ := hx x (by rw [← hall]; simp)
    have htop : IsAlign c (topAlign c.usizeAlign xs) := topAlign_isAlign hu fun y hy => (hx y hy).1.align_pow
    have hma : max v.align x.align ≤ topAlign c.usizeAlign xs := by
      rw [← hall, topAlign_append, ← hal]; exact le_topAlign _ rest
    have hm := hH.al.max hxw.align_pow
    have hw : totalWidth (padTo (topAlign c.usizeAlign xs)) xs =
        totalWidth (padTo (topAlign c.usizeAlign xs)) ys + (padTo (topAlign c.usizeAlign xs) x.size + totalWidth (padTo (topAlign c.usizeAlign xs)) rest) := by
      rw [← totalWidth_cons, ← totalWidth_append, hall]
    have hw1 := totalWidth_mono_align hm.pos htop.pos (hm.dvd_of_le htop hma) ys
    have hw2 := padTo_le_of_dvd_dvd hm.pos htop.pos (hm.dvd_of_le htop hma) x.size
    have hw3 := totalWidth_mono_align hH.al.pos hm.pos (hH.al.dvd_of_le hm (Nat.le_max_left _ _)) ys
    have hl : xs.length = ys.length + (rest.length + 1) := by rw [← hall]; simp
    obtain ⟨v1, h1, h2, h2', h3, h3', h4⟩ := UVec.push_any_step hv he hg hi hxw
      (hxz.imp id fun h => Nat.le_trans h (hal ▸ le_topAlign _ _)) (by omega) (by omega) hH hcap
    have hr : raises c.usizeAlign (ys ++ [x]) = raises c.usizeAlign ys + if v.align < x.align then 1 else 0 := by
      rw [raises_append, hal]; rfl
    refine ⟨v1, h1, ⟨h2, by rw [h2', topAlign_append, hal]; rfl, by rw [h2']; exact h3⟩, by omega, ?_⟩
    rcases h4 with h4 | h4 | h4
    · exact .inr (.inr ⟨by omega, h3', by rw [hr, if_pos h4]⟩)
    · exact .inl h4
    · exact .inr (.inl h4)
  · refine ⟨⟨fun x h => absurd h (List.not_mem_nil), hu, fun x h => absurd h (List.not_mem_nil), rfl, Nat.zero_le _,
      Nat.le_refl _, fun _ => Nat.dvd_zero _, hu.room (Nat.dvd_zero _) (Nat.zero_le _), trivial, ⟨hu.pos, Nat.dvd_refl _, rfl⟩, rfl⟩, rfl, Nat.zero_le _⟩

/-- Elements of alignment 4 and 16: the second push copies the 8 bytes of storage, since it raises the alignment. -/
example : topAlign c64.usizeAlign [dyn 4 [1, 2, 3, 4], dyn 16 [1, 2, 3, 4, 5, 6, 7, 8, 9, 10, 11, 12, 13, 14, 15, 16]] = 16 ∧
    raises c64.usizeAlign [dyn 4 [1, 2, 3, 4], dyn 16 [1, 2, 3, 4, 5, 6, 7, 8, 9, 10, 11, 12, 13, 14, 15, 16]] = 1 ∧
    ((pushAll c64 (unalignedP c64 Dyn) env UVec.byteCap (fun v => v.heap.block)
      [dyn 4 [1, 2, 3, 4], dyn 16 [1, 2, 3, 4, 5, 6, 7, 8, 9, 10, 11, 12, 13, 14, 15, 16]] (UVec.newAlignPtr c64)).map Prod.snd) = some 8 :=
  ⟨by decide, by decide, by decide +kernel⟩

/-- The hypotheses can be met, and the bound is meaningful: pushing three slices copies 3 bytes out of 6. -/
example : (∀ l, (env : Env (Val Bytes.ty Nat)).alloc l ≠ none) ∧
    (∀ n, ∃ k, (env : Env (Val Bytes.ty Nat)).infoGrow n = .ok k) ∧ (∀ x ∈ listA, x.WF c64) ∧
    ∃ v', pushAll c64 (alignedP c64 Bytes) env AVec.byteCap (fun v => v.heap.block) listA AVec.new = some (v', 4) :=
  ⟨fun _ => (by intro h; cases h), fun _ => ⟨0, rfl⟩, (vecA_holds c64 (.inl rfl)).wf, _, rfl⟩

end
end Verif
