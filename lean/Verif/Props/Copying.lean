import Verif.Proofs.Inversion
import Verif.Props.Collect
import Verif.Props.GrowthExact

/-!
# C55: how much is copied while a vector is filled with emplacables

`extend`, `from_iter` and `unsized_vec!` (with emplacables) call `push_with` for item after item, and `push_with` replaces the storage by
one that is larger by the size of the item, every time (see C15). So the bytes that are copied grow with the square of the number of
items, and it does not help to reserve memory beforehand. For statically aligned elements the amount is determined exactly.
-/

namespace Verif
open Sample

section
variable {σ V : Type} {T : UTy} {A : ATy} {β : Type} {c : Cfg}

/-- One item after the other (`pushItems`), counting the bytes that are copied: whenever the storage is replaced, all of the old one. -/
def countItems (c : Cfg) (M : Machine V T β) (cap : V → Nat) (block : V → Option Block) :
    List (Env (Val T β) × Item σ T β) → σ × V → Option ((σ × V) × Nat)
  | [], st => some (st, 0)
  | (env, it) :: rest, st =>
    match it.push c M env st with
    | .ok () st1 =>
      (countItems c M cap block rest st1).map (fun r => (r.1, (if block st1.2 = block st.2 then 0 else cap st.2) + r.2))
    | _ => none

/-- The bytes that are copied if the storage, of `cap` bytes in the beginning, is replaced for every value that is not empty, by one that
is larger by the size of the value. -/
def everyTime : Nat → List (Val T β) → Nat
  | _, [] => 0
  | cap, x :: xs => (if x.size = 0 then 0 else cap) + everyTime (cap + x.size) xs

/-- The amount is quadratic: for `k` values of at least `m` bytes it is at least `k * cap + m * (0 + 1 + … + (k - 1))`. -/
theorem everyTime_quadratic {m : Nat} (hm : 0 < m) : ∀ (xs : List (Val T β)) (cap : Nat), (∀ x ∈ xs, m ≤ x.size) →
    2 * xs.length * cap + m * (xs.length * (xs.length - 1)) ≤ 2 * everyTime cap xs
  | [], _, _ => by simp [everyTime]
  | x :: xs, cap, h => by
    have h1 := h x (by simp)
    have ih := everyTime_quadratic hm xs (cap + x.size) (fun y hy => h y (by simp [hy]))
    have h2 : 2 * xs.length * (cap + m) ≤ 2 * xs.length * (cap + x.size) := Nat.mul_le_mul_left _ (by omega)
    unfold everyTime
    rw [if_neg (by omega), List.length_cons, Nat.add_sub_cancel]
    generalize hk : xs.length = k at *
    cases k with
    | zero => simp at ih ⊢; omega
    | succ k =>
      rw [Nat.add_sub_cancel] at ih
      have h3 : m * ((k + 1 + 1) * (k + 1)) = m * ((k + 1) * k) + 2 * (k + 1) * m := by
        rw [show (k + 1 + 1) * (k + 1) = (k + 1) * k + 2 * (k + 1) by rw [Nat.mul_comm, Nat.mul_add (k + 1) k 2 |>.symm.symm]; omega,
          Nat.mul_add, Nat.mul_comm m (2 * (k + 1))]
      have h4 : 2 * (k + 1 + 1) * cap = 2 * (k + 1) * cap + 2 * cap := by
        simp only [Nat.add_mul, Nat.mul_add]
      have h5 : 2 * (k + 1) * (cap + m) = 2 * (k + 1) * cap + 2 * (k + 1) * m := Nat.mul_add _ _ _
      omega

theorem everyTime_mono : ∀ (xs : List (Val T β)) {a b : Nat}, a ≤ b → everyTime a xs ≤ everyTime b xs
  | [], _, _, _ => Nat.le_refl _
  | x :: xs, a, b, h => by
    have := everyTime_mono xs (show a + x.size ≤ b + x.size by omega)
    unfold everyTime
    split <;> omega

variable [Inhabited β]

/-- One `push_with`, statically aligned elements. -/
theorem AVec.pushWith_grown (hA : A.Fits c) {v : AVec A β} {xs : List (Val A.ty β)} (h : v.Holds c xs)
    {env : Env (Val A.ty β)} (hv : env.Valid) {e : Emplacable σ A.ty β} {s s' : σ} (hs : e.Sound c s) {v' : AVec A β}
    (hr : Api.pushWithRun (alignedP c A) env e (s, v) = .ok () (s', v')) :
    ∃ x : Val A.ty β, e.Runs s x (.ok () s') ∧ v'.Holds c (xs ++ [A.stored x]) ∧ AVec.Grown env v v' x.size := by
  have key := run_meets (e := e) (m := Api.pushWith (alignedP c A) env) (t := v) (P := fun _ _ => True) (A := fun _ => True)
    (Before := fun _ => True) (After := fun x v' => v'.Holds c (xs ++ [A.stored x]) ∧ AVec.Grown env v v' x.size) hs trivial
    (fun st s1 hst => (AVec.pushWith_meets hA h hv (hs.metaOk st s1 hst)).mono
      (fun _ _ h => h.mono (fun _ _ => trivial) (fun _ _ h => ⟨h.1, h.2.2⟩)) (fun _ _ => trivial) (fun _ => trivial))
  unfold Api.pushWithRun at hr
  rw [hr] at key
  obtain ⟨x, _, h1, h2⟩ := key
  exact ⟨x, h1, h2⟩

/-- One `push_with`, dynamically aligned elements. -/
theorem UVec.pushWith_grown {v : UVec T β} {xs : List (Val T β)} (h : v.Holds c xs)
    {env : Env (Val T β)} (hv : env.Valid) (he : env.Exact) {e : Emplacable σ T β} {s s' : σ} (hs : e.Sound c s)
    (hz : ∀ md s1, e.Announces s md s1 → v.ZstOk (T.sizeOf md) (T.alignOf md)) {v' : UVec T β}
    (hr : Api.pushWithRun (unalignedP c T) env e (s, v) = .ok () (s', v')) :
    ∃ x : Val T β, e.Runs s x (.ok () s') ∧ v'.Holds c (xs ++ [x]) ∧ v.align ≤ v'.align ∧ UVec.Grown env v v' xs x.size x.align := by
  have key := run_meets (e := e) (m := Api.pushWith (unalignedP c T) env) (t := v) (P := fun _ _ => True) (A := fun _ => True)
    (Before := fun _ => True) (After := fun x v' => v'.Holds c (xs ++ [x]) ∧ v.align ≤ v'.align ∧ UVec.Grown env v v' xs x.size x.align) hs trivial
    (fun st s1 hst => (UVec.pushWith_meets h hv (fun _ => he) (hs.metaOk st s1 hst) (hz _ s1 ⟨st, hst, rfl⟩)).mono
      (fun _ _ h => h.mono (fun _ _ => trivial) (fun _ _ h => ⟨h.1, h.2.2⟩)) (fun _ _ => trivial) (fun _ => trivial))
  unfold Api.pushWithRun at hr
  rw [hr] at key
  obtain ⟨x, _, h1, h2⟩ := key
  exact ⟨x, h1, h2⟩

/-- C55 is false: the loop of `extend`, `from_iter` and `unsized_vec!`, statically aligned elements. Whenever it returns, the byte
capacity has grown by the bytes of all items, however much there was before, and all of the storage has been copied once for each item
that is not empty. If the allocator grants exactly what is asked for, these amounts are exact. -/
theorem C55_loop_aligned (hA : A.Fits c) : ∀ {items : List (Env (Val A.ty β) × Emplacable σ A.ty β)} {s s' : σ} {v v' : AVec A β}
    {ys : List (Val A.ty β)}, v.Holds c ys → AllEnv Env.Valid (ofEmplacables items) → AllSound c (ofEmplacables items) s →
    pushItems c (alignedM c A) (ofEmplacables items) (s, v) = .ok () (s', v') →
    ∃ xs n, Yielded (ofEmplacables items) s xs s' ∧
      countItems c (alignedM c A) AVec.byteCap (fun v => v.heap.block) (ofEmplacables items) (s, v) = some ((s', v'), n) ∧
      v.byteCap + totalWidth id xs ≤ v'.byteCap ∧ everyTime v.byteCap xs ≤ n ∧
      (AllEnv Env.Exact (ofEmplacables items) → v'.byteCap = v.byteCap + totalWidth id xs ∧ n = everyTime v.byteCap xs)
  | [], s, s', v, v', ys, _, _, _, hr => by
    cases hr
    exact ⟨[], 0, .nil _, rfl, Nat.le_refl _, Nat.le_refl _, fun _ => ⟨rfl, rfl⟩⟩
  | (env, e) :: items, s, s', v, v', ys, h, hv, hs, hr => by
    have hcons : ofEmplacables ((env, e) :: items) = (env, .emplacable e) :: ofEmplacables items := rfl
    rw [hcons] at hv hs hr ⊢
    rw [Appends.pushItems_cons] at hr
    have hp : (Item.emplacable e : Item σ A.ty β).push c (alignedM c A) env (s, v) = Api.pushWithRun (alignedP c A) env e (s, v) := rfl
    cases h1 : Api.pushWithRun (alignedP c A) env e (s, v) with
    | ub => rw [Exec.bind_ub (hp.trans h1)] at hr; cases hr
    | abort => rw [Exec.bind_abort (hp.trans h1)] at hr; cases hr
    | panic st => rw [Exec.bind_panic (hp.trans h1)] at hr; cases hr
    | ok u st =>
      obtain ⟨s1, v1⟩ := st
      rw [Exec.bind_ok (hp.trans h1)] at hr
      obtain ⟨x, h2, h3, hg⟩ := AVec.pushWith_grown hA h (hv (env, .emplacable e) (by simp)) hs.1 h1
      obtain ⟨xs, n, h4, h5, h6, h7, h8⟩ := C55_loop_aligned hA h3 (fun p hp => hv p (by simp [hp])) (hs.2 x s1 h2) hr
      have hle := hg.le
      have hm := everyTime_mono xs hle
      have hsz : totalWidth id (x :: xs) = x.size + totalWidth id xs := by simp
      refine ⟨x :: xs, (if v1.heap.block = v.heap.block then 0 else v.byteCap) + n, .cons h2 h4, ?_, by omega, ?_, fun hE => ?_⟩
      · unfold countItems
        rw [hp, h1]
        dsimp only
        rw [h5, Option.map_some]
      · unfold everyTime
        by_cases h0 : x.size = 0
        · rw [if_pos h0]; omega
        · rw [if_neg h0, if_neg (hg.fresh (by omega))]; omega
      · obtain ⟨h9, h10⟩ := h8 (fun p hp => hE p (by simp [hp]))
        have h11 := hg.exact (hE (env, .emplacable e) (by simp))
        refine ⟨by omega, ?_⟩
        unfold everyTime
        rw [← h11]
        by_cases h0 : x.size = 0
        · rw [if_pos h0, if_pos (hg.idle h0).1]; omega
        · rw [if_neg h0, if_neg (hg.fresh (by omega))]; omega

/-- The same loop, dynamically aligned elements: at least these amounts. -/
theorem C55_loop_unaligned : ∀ {items : List (Env (Val T β) × Emplacable σ T β)} {s s' : σ} {v v' : UVec T β}
    {ys : List (Val T β)}, v.Holds c ys → AllEnv (fun e => e.Valid ∧ e.Exact) (ofEmplacables items) →
    AllSound c (ofEmplacables items) s → AllAsk v.ZstOk (ofEmplacables items) s →
    pushItems c (unalignedM c T) (ofEmplacables items) (s, v) = .ok () (s', v') →
    ∃ xs n, Yielded (ofEmplacables items) s xs s' ∧
      countItems c (unalignedM c T) UVec.byteCap (fun v => v.heap.block) (ofEmplacables items) (s, v) = some ((s', v'), n) ∧
      v.byteCap + totalWidth id xs ≤ v'.byteCap ∧ everyTime v.byteCap xs ≤ n
  | [], s, s', v, v', ys, _, _, _, _, hr => by
    cases hr
    exact ⟨[], 0, .nil _, rfl, Nat.le_refl _, Nat.le_refl _⟩
  | (env, e) :: items, s, s', v, v', ys, h, hv, hs, hz, hr => by
    have hcons : ofEmplacables ((env, e) :: items) = (env, .emplacable e) :: ofEmplacables items := rfl
    rw [hcons] at hv hs hz hr ⊢
    rw [Appends.pushItems_cons] at hr
    have hp : (Item.emplacable e : Item σ T β).push c (unalignedM c T) env (s, v) = Api.pushWithRun (unalignedP c T) env e (s, v) := rfl
    cases h1 : Api.pushWithRun (unalignedP c T) env e (s, v) with
    | ub => rw [Exec.bind_ub (hp.trans h1)] at hr; cases hr
    | abort => rw [Exec.bind_abort (hp.trans h1)] at hr; cases hr
    | panic st => rw [Exec.bind_panic (hp.trans h1)] at hr; cases hr
    | ok u st =>
      obtain ⟨s1, v1⟩ := st
      rw [Exec.bind_ok (hp.trans h1)] at hr
      have he := hv (env, .emplacable e) (by simp)
      obtain ⟨x, h2, h3, ha, hg⟩ := UVec.pushWith_grown h he.1 he.2 hs.1
        (fun md s1 hm => hz.1 _ _ s1 ⟨md, hm, rfl, rfl⟩) h1
      have hle := hg.le
      obtain ⟨xs, n, h4, h5, h6, h7⟩ := C55_loop_unaligned h3 (fun p hp => hv p (by simp [hp])) (hs.2 x s1 h2)
        (Appends.allAsk_mono (UVec.zstOk_mono ha (by omega)) (hz.2 x s1 h2)) hr
      have hm := everyTime_mono xs hle
      have hsz : totalWidth id (x :: xs) = x.size + totalWidth id xs := by simp
      refine ⟨x :: xs, (if v1.heap.block = v.heap.block then 0 else v.byteCap) + n, .cons h2 h4, ?_, by omega, ?_⟩
      · unfold countItems
        rw [hp, h1]
        dsimp only
        rw [h5, Option.map_some]
      · unfold everyTime
        by_cases h0 : x.size = 0
        · rw [if_pos h0]; omega
        · rw [if_neg h0, if_neg (hg.fresh (by omega))]; omega

omit [Inhabited β] in
/-- If `extend` returns, the reservation, the loop and the destructor of the iterator have returned. -/
theorem extend_ok {M : Machine V T β} {env : Env (Val T β)} {hint : Nat} {items : List (Env (Val T β) × Emplacable σ T β)}
    {dropIter : Exec σ Unit} {s s' : σ} {v v' : V} (hr : extend c M env hint items dropIter (s, v) = .ok () (s', v')) :
    ∃ v1 s1, Api.reserveExact M.P env hint v = .ok () v1 ∧ pushItems c M (ofEmplacables items) (s, v1) = .ok () (s1, v') ∧
      dropIter s1 = .ok () s' := by
  unfold extend at hr
  obtain ⟨_, ⟨s1, v2⟩, h1, h2⟩ := Exec.bind_ok_inv hr
  obtain ⟨_, ⟨s2, v1⟩, h3, h4⟩ := Exec.bind_ok_inv (Exec.onUnwind_ok_inv h1)
  obtain ⟨rfl, h5⟩ := liftR_ok_inv h3
  obtain ⟨h6, rfl⟩ := liftL_ok_inv h2
  exact ⟨v1, s1, h5, h4, h6⟩

/-- C55 is false for `extend`, statically aligned elements: however much memory there is, it replaces the storage for each item that is
not empty. -/
theorem C55_extend_aligned (hA : A.Fits c) {v v' : AVec A β} {ys : List (Val A.ty β)} (h : v.Holds c ys) {env : Env (Val A.ty β)}
    (hv : env.Valid) {hint : Nat} {items : List (Env (Val A.ty β) × Emplacable σ A.ty β)} {s s' : σ}
    (hi : AllEnv Env.Valid (ofEmplacables items)) (hs : AllSound c (ofEmplacables items) s) {dropIter : Exec σ Unit}
    (hr : extend c (alignedM c A) env hint items dropIter (s, v) = .ok () (s', v')) :
    ∃ xs s1 v1 n, Yielded (ofEmplacables items) s xs s1 ∧ Api.reserveExact (alignedP c A) env hint v = .ok () v1 ∧
      countItems c (alignedM c A) AVec.byteCap (fun v => v.heap.block) (ofEmplacables items) (s, v1) = some ((s1, v'), n) ∧
      v.byteCap + totalWidth id xs ≤ v'.byteCap ∧ everyTime v.byteCap xs ≤ n := by
  obtain ⟨v1, s1, h1, h2, _⟩ := extend_ok hr
  have key := run_aligned hA h hv (.exact hint) (isAlign_one_of hA.al)
  replace h1 : Api.reserveExact (alignedP c A) env hint v = .ok () v1 := h1
  have hq : (Reservation.exact hint).run c (alignedP c A) env v = Api.reserveExact (alignedP c A) env hint v := rfl
  rw [hq, h1] at key
  have hm : v.byteCap ≤ v1.byteCap := key.bytesMono
  obtain ⟨xs, n, h3, h4, h5, h6, _⟩ := C55_loop_aligned hA key.holds hi hs h2
  have := everyTime_mono xs hm
  exact ⟨xs, s1, v1, n, h3, h1, h4, by omega, by omega⟩

/-- C55 is false for `extend` in the same way, dynamically aligned elements. -/
theorem C55_extend_unaligned {v v' : UVec T β} {ys : List (Val T β)} (h : v.Holds c ys) {env : Env (Val T β)}
    (hv : env.Valid) (he : env.Exact) {hint : Nat} {items : List (Env (Val T β) × Emplacable σ T β)} {s s' : σ}
    (hi : AllEnv (fun e => e.Valid ∧ e.Exact) (ofEmplacables items)) (hs : AllSound c (ofEmplacables items) s)
    (hz : AllAsk v.ZstOk (ofEmplacables items) s) {dropIter : Exec σ Unit}
    (hr : extend c (unalignedM c T) env hint items dropIter (s, v) = .ok () (s', v')) :
    ∃ xs s1 v1 n, Yielded (ofEmplacables items) s xs s1 ∧ Api.reserveExact (unalignedP c T) env hint v = .ok () v1 ∧
      countItems c (unalignedM c T) UVec.byteCap (fun v => v.heap.block) (ofEmplacables items) (s, v1) = some ((s1, v'), n) ∧
      v.byteCap + totalWidth id xs ≤ v'.byteCap ∧ everyTime v.byteCap xs ≤ n := by
  obtain ⟨v1, s1, h1, h2, _⟩ := extend_ok hr
  have key := run_unaligned h hv (fun _ => he) (.exact hint) (isAlign_one_of h.al)
  replace h1 : Api.reserveExact (unalignedP c T) env hint v = .ok () v1 := h1
  have hq : (Reservation.exact hint).run c (unalignedP c T) env v = Api.reserveExact (unalignedP c T) env hint v := rfl
  rw [hq, h1] at key
  have hm : v.byteCap ≤ v1.byteCap := key.bytesMono
  obtain ⟨xs, n, h3, h4, h5, h6⟩ := C55_loop_unaligned key.holds hi hs
    (Appends.allAsk_mono (UVec.zstOk_mono key.alignMono hm) hz) h2
  have := everyTime_mono xs hm
  exact ⟨xs, s1, v1, n, h3, h1, h4, by omega, by omega⟩

/-- In particular: `k` items of at least `m` bytes each are collected into a vector with at least `m * (0 + 1 + … + (k - 1))` bytes copied.
Statically aligned elements. -/
theorem C55_fromIter_aligned (hA : A.Fits c) {v' : AVec A β} {env envD : Env (Val A.ty β)}
    (hv : env.Valid) {hint : Nat} {items : List (Env (Val A.ty β) × Emplacable σ A.ty β)} {s s' : σ}
    (hi : AllEnv Env.Valid (ofEmplacables items)) (hs : AllSound c (ofEmplacables items) s) {dropIter : Exec σ Unit}
    (hr : fromIter c (alignedM c A) env envD hint items dropIter s = .ok () (s', v')) {m : Nat} (hm : 0 < m)
    (hbig : ∀ xs s1, Yielded (ofEmplacables items) s xs s1 → ∀ x ∈ xs, m ≤ x.size) :
    ∃ xs s1 v1 n, Yielded (ofEmplacables items) s xs s1 ∧ Api.reserveExact (alignedP c A) env hint AVec.new = .ok () v1 ∧
      countItems c (alignedM c A) AVec.byteCap (fun v => v.heap.block) (ofEmplacables items) (s, v1) = some ((s1, v'), n) ∧
      m * (xs.length * (xs.length - 1)) ≤ 2 * n := by
  obtain ⟨xs, s1, v1, n, h1, h2, h3, _, h5⟩ := C55_extend_aligned hA (AVec.new_holds hA) hv hi hs (Exec.onUnwind_ok_inv hr)
  have := everyTime_quadratic hm xs (AVec.new : AVec A β).byteCap (hbig xs s1 h1)
  exact ⟨xs, s1, v1, n, h1, h2, h3, by omega⟩

/-- The same for dynamically aligned elements. -/
theorem C55_fromIter_unaligned (hu : IsAlign c c.usizeAlign) {v' : UVec T β} {env envD : Env (Val T β)}
    (hv : env.Valid) (he : env.Exact) {hint : Nat} {items : List (Env (Val T β) × Emplacable σ T β)} {s s' : σ}
    (hi : AllEnv (fun e => e.Valid ∧ e.Exact) (ofEmplacables items)) (hs : AllSound c (ofEmplacables items) s) {dropIter : Exec σ Unit}
    (hr : fromIter c (unalignedM c T) env envD hint items dropIter s = .ok () (s', v')) {m : Nat} (hm : 0 < m)
    (hz : AllAsk (fun n _ => 0 < n) (ofEmplacables items) s)
    (hbig : ∀ xs s1, Yielded (ofEmplacables items) s xs s1 → ∀ x ∈ xs, m ≤ x.size) :
    ∃ xs s1 v1 n, Yielded (ofEmplacables items) s xs s1 ∧
      Api.reserveExact (unalignedP c T) env hint (UVec.newAlignPtr c) = .ok () v1 ∧
      countItems c (unalignedM c T) UVec.byteCap (fun v => v.heap.block) (ofEmplacables items) (s, v1) = some ((s1, v'), n) ∧
      m * (xs.length * (xs.length - 1)) ≤ 2 * n := by
  obtain ⟨xs, s1, v1, n, h1, h2, h3, _, h5⟩ := C55_extend_unaligned (UVec.newAlignPtr_holds hu) hv he hi hs
    (Appends.allAsk_mono (fun n al h0 _ h1 => absurd h1 (by omega)) hz) (Exec.onUnwind_ok_inv hr)
  have := everyTime_quadratic hm xs (UVec.newAlignPtr c : UVec T β).byteCap (hbig xs s1 h1)
  exact ⟨xs, s1, v1, n, h1, h2, h3, by omega⟩

omit [Inhabited β] in
/-- Values given to `unsized_vec!` are pushed with `push`. -/
theorem countItems_values {M : Machine V T β} {env : Env (Val T β)} {cap : V → Nat} {block : V → Option Block} (s : σ) :
    ∀ (xs : List (Val T β)) (v : V), countItems c M cap block (xs.map fun x => (env, .value (pure x))) (s, v) =
      (pushAll c M.P env cap block xs v).map (fun r => ((s, r.1), r.2))
  | [], _ => rfl
  | x :: xs, v => by
    unfold countItems pushAll
    have hp : (Item.value (pure x) : Item σ T β).push c M env (s, v) = liftR (M.giving env x (Api.push c M.P env x)) (s, v) := rfl
    rw [List.map_cons]
    dsimp only
    rw [hp]
    cases h : Api.push c M.P env x v with
    | ub => rw [liftR_ub (giving_ub h)]; rfl
    | abort => rw [liftR_abort (giving_abort h)]; rfl
    | panic v1 =>
      have h1 := giving_panic (M := M) (env := env) (x := x) h
      by_cases hd : env.dropPanics x = true
      · rw [if_pos hd] at h1; rw [liftR_abort h1]; rfl
      · rw [if_neg hd] at h1; rw [liftR_panic h1]; rfl
    | ok u v1 =>
      rw [liftR_ok (giving_ok h)]
      dsimp only
      rw [countItems_values s xs v1]
      cases pushAll c M.P env cap block xs v1 <;> rfl

/-- C55 holds for `unsized_vec!` with values, statically aligned elements: at most twice the bytes of the values are copied, if the
allocator grants exactly what is asked for. -/
theorem C55_unsizedVec_values_aligned_partial (hA : A.Lawful c) {env : Env (Val A.ty β)} (hv : env.Valid) (he : env.Exact)
    (hg : ∀ l, env.alloc l ≠ none) (hi : ∀ n, ∃ k, env.infoGrow n = .ok k) {xs : List (Val A.ty β)}
    (hx : ∀ x ∈ xs, x.WF c) (hlen : xs.length ≤ c.infoMax) (hsize : 2 * totalWidth id xs ≤ VS.max c A.ALIGN) (s : σ) :
    ∃ v' n, countItems c (alignedM c A) AVec.byteCap (fun v => v.heap.block) (xs.map fun x => (env, .value (pure x))) (s, AVec.new) =
        some ((s, v'), n) ∧ v'.Holds c xs ∧ n ≤ 2 * totalWidth id xs := by
  obtain ⟨v', n, h1, h2, h3⟩ := C16_total_aligned hA hv he hg hi hx hlen hsize
  exact ⟨v', n, (countItems_values s xs _).trans (congrArg _ h1), h2, h3⟩

/-- The same for dynamically aligned elements, whose alignment does not exceed that of a new vector. -/
theorem C55_unsizedVec_values_unaligned_partial (hu : IsAlign c c.usizeAlign) {env : Env (Val T β)} (hv : env.Valid) (he : env.Exact)
    (hg : ∀ l, env.alloc l ≠ none) (hi : ∀ n, ∃ k, env.infoGrow n = .ok k) {xs : List (Val T β)}
    (hx : ∀ x ∈ xs, x.WF c ∧ x.align ≤ c.usizeAlign) (hlen : xs.length ≤ c.infoMax)
    (hsize : 2 * totalWidth (padTo c.usizeAlign) xs ≤ c.isizeMax) (s : σ) :
    ∃ v' n, countItems c (unalignedM c T) UVec.byteCap (fun v => v.heap.block) (xs.map fun x => (env, .value (pure x)))
        (s, UVec.newAlignPtr c) = some ((s, v'), n) ∧ v'.Holds c xs ∧ n ≤ 2 * totalWidth (padTo c.usizeAlign) xs := by
  obtain ⟨v', n, h1, h2, h3⟩ := C16_total_unaligned_partial hu hv he hg hi hx hlen hsize
  exact ⟨v', n, (countItems_values s xs _).trans (congrArg _ h1), h2, h3⟩

/-- The same for dynamically aligned elements of any alignment (but those without bytes): at most as much again for each time that the
alignment is raised. -/
theorem C55_unsizedVec_values_raising_partial (hu : IsAlign c c.usizeAlign) {env : Env (Val T β)} (hv : env.Valid) (he : env.Exact)
    (hg : ∀ l, env.alloc l ≠ none) (hi : ∀ n, ∃ k, env.infoGrow n = .ok k) {xs : List (Val T β)}
    (hx : ∀ x ∈ xs, x.WF c ∧ (0 < x.size ∨ x.align ≤ c.usizeAlign)) (hlen : xs.length ≤ c.infoMax)
    (hsize : 2 * totalWidth (padTo (topAlign c.usizeAlign xs)) xs ≤ c.isizeMax) (s : σ) :
    ∃ v' n, countItems c (unalignedM c T) UVec.byteCap (fun v => v.heap.block) (xs.map fun x => (env, .value (pure x)))
        (s, UVec.newAlignPtr c) = some ((s, v'), n) ∧ v'.Holds c xs ∧
      n ≤ (1 + raises c.usizeAlign xs) * (2 * totalWidth (padTo (topAlign c.usizeAlign xs)) xs) := by
  obtain ⟨v', n, h1, h2, _, h3⟩ := C16_total_raising_partial hu hv he hg hi hx hlen hsize
  exact ⟨v', n, (countItems_values s xs _).trans (congrArg _ h1), h2, h3⟩

end

namespace Sample

/-- Five items of two bytes each. -/
def fivePairs : List (Env (Val Bytes.ty Nat) × Emplacable (List (Val Bytes.ty Nat)) Bytes.ty Nat) :=
  (List.replicate 5 (env, bytes [1, 2])).map fun p => (p.1, given p.1 p.2)

theorem fivePairs_ok : AllEnv Env.Valid (ofEmplacables fivePairs) ∧ AllEnv Env.Exact (ofEmplacables fivePairs) ∧
    AllSound c64 (ofEmplacables fivePairs) [] := by
  refine ⟨?_, ?_, given_allSound (List.replicate 5 (env, bytes [1, 2])) [] fun p hp => ?_⟩
  · intro p hp
    simp only [ofEmplacables, fivePairs, List.map_replicate, List.mem_replicate] at hp
    rw [hp.2]; exact env_valid
  · intro p hp
    simp only [ofEmplacables, fivePairs, List.map_replicate, List.mem_replicate] at hp
    rw [hp.2]; exact env_exact
  · rw [List.eq_of_mem_replicate hp]
    exact bytes_wf _ (by decide) _ (.inl rfl)

end Sample

/-- The hypotheses can be met. -/
example : vecA.Holds c64 listA ∧ AllEnv Env.Valid (ofEmplacables fivePairs) ∧ AllEnv Env.Exact (ofEmplacables fivePairs) ∧
    AllSound c64 (ofEmplacables fivePairs) [] := ⟨vecA_holds _ (.inl rfl), fivePairs_ok⟩

/-- Collecting them copies 0 + 2 + 4 + 6 + 8 = 20 bytes. Pushing the same values copies 2 + 4 + 8 = 14 bytes. -/
theorem C55_counterexample :
    (countItems c64 (alignedM c64 Bytes) AVec.byteCap (fun v => v.heap.block) (ofEmplacables fivePairs) ([], AVec.new)).map Prod.snd =
      some 20 ∧
    (countItems c64 (alignedM c64 Bytes) AVec.byteCap (fun v => v.heap.block)
      ((List.replicate 5 (bytes [1, 2])).map fun x => (env, .value (pure x))) (([] : List Nat), AVec.new)).map Prod.snd = some 14 ∧
    everyTime 0 (List.replicate 5 (bytes [1, 2])) = 20 := by
  refine ⟨?_, ?_, ?_⟩ <;> decide +kernel

/-- The loop returns for `vecA` (10 bytes of storage, 6 in use): it then has 10 + 10 bytes, and 10 + 12 + 14 + 16 + 18 = 70 have been
copied, as `C55_loop_aligned` says. -/
example : returned AVec.byteCap (pushItems c64 (alignedM c64 Bytes) (ofEmplacables fivePairs) ([], vecA)) = some 20 ∧
    (countItems c64 (alignedM c64 Bytes) AVec.byteCap (fun v => v.heap.block) (ofEmplacables fivePairs) ([], vecA)).map Prod.snd =
      some 70 ∧ everyTime vecA.byteCap (List.replicate 5 (bytes [1, 2])) = 70 := by
  refine ⟨?_, ?_, ?_⟩ <;> decide +kernel

/-- The hypotheses of `C55_fromIter_unaligned` can be met, and the call returns. -/
example : IsAlign c64 c64.usizeAlign ∧ AllAsk (fun n _ => 0 < n) (ofEmplacables dynItems) [] ∧
    (∀ xs s1, Yielded (ofEmplacables dynItems) [] xs s1 → ∀ x ∈ xs, 1 ≤ x.size) ∧
    returned UVec.byteCap (fromIter c64 (unalignedM c64 Dyn) env env 2 dynItems noDrop []) = some 48 := by
  refine ⟨⟨3, by decide, rfl⟩, ⟨?_, fun _ s' _ => ⟨?_, fun _ _ _ => trivial⟩⟩, ?_, by decide +kernel⟩
  · rintro n al s' ⟨md, ⟨st, h2, rfl⟩, rfl, rfl⟩
    cases h2; decide
  · rintro n al s' ⟨md, ⟨st, h2, rfl⟩, rfl, rfl⟩
    cases h2; decide
  · intro xs s1 h
    simp only [ofEmplacables, dynItems, List.map] at h
    cases h with
    | cons h1 h2 =>
      obtain ⟨rfl, rfl⟩ := h1.unique (given_yields _ _ _)
      cases h2 with
      | cons h3 h4 =>
        obtain ⟨rfl, rfl⟩ := h3.unique (given_yields _ _ _)
        cases h4
        decide

end Verif
