import Verif.Proofs.Collect
import Verif.Props.Drop
import Verif.Props.Sized
import Verif.Props.Push

/-!
# C32: `extend`, `collect` and the macros append the items in order

The theorems are about arbitrary items: each may have effects, panic or end the process (`Item.Sound` asks only for the safety
contract). `Reading.Extends`, `Collects` and `Lists` (Spec/Collect) say what the result is in each case; the theorems with
`returns` say what they amount to when no item panics and there is room.
-/

namespace Verif
open Sample

section
variable {σ : Type} {T : UTy} {A : ATy} {sz al : Nat} {β : Type} [Inhabited β] {c : Cfg}

/-! ## extend -/

/-- C32, `extend` for statically aligned elements. -/
theorem C32_extend_aligned (hA : A.Lawful c) {v : AVec A β} {ys : List (Val A.ty β)} (h : v.Holds c ys) {env : Env (Val A.ty β)}
    (hv : env.Valid) (hint : Nat) {items : List (Env (Val A.ty β) × Emplacable σ A.ty β)} {s : σ}
    (hi : AllEnv Env.Valid (ofEmplacables items)) (hs : AllSound c (ofEmplacables items) s) {dropIter : Exec σ Unit}
    (hd : ∀ s, dropIter s ≠ .ub) :
    (AVec.reading c).Extends c (alignedM c A) env hint items dropIter s v ys
      (extend c (alignedM c A) env hint items dropIter (s, v)) :=
  (AVec.appends hA (isAlign_one_of hA.al)).extend_meets h hv hi hs (allAsk_true _ _ fun _ _ => trivial) hd

/-- C32, `extend` for dynamically aligned elements. Partial: not covered are zero-sized items whose alignment exceeds that of a
vector without memory (see `C01_counterexample`). -/
theorem C32_extend_unaligned_partial {G : Prop} {v : UVec T β} {ys : List (Val T β)} (h : v.Represents G c ys) {env : Env (Val T β)}
    (hv : env.Valid) (he : G → env.Exact) (hint : Nat) {items : List (Env (Val T β) × Emplacable σ T β)} {s : σ}
    (hi : AllEnv (fun e => e.Valid ∧ (G → e.Exact)) (ofEmplacables items)) (hs : AllSound c (ofEmplacables items) s)
    (hz : AllAsk v.ZstOk (ofEmplacables items) s) {dropIter : Exec σ Unit} (hd : ∀ s, dropIter s ≠ .ub) :
    (UVec.reading G c).Extends c (unalignedM c T) env hint items dropIter s v ys
      (extend c (unalignedM c T) env hint items dropIter (s, v)) :=
  (UVec.appends G c (isAlign_one_of h.al)).extend_meets h ⟨hv, he⟩ hi hs hz hd

/-- C32, `extend` for sized elements. Partial: not zero-sized elements (`C32_counterexample_sized`). -/
theorem C32_extend_sized_partial {v : SVec sz al β} {ys : List (Val (sizedTy sz al) β)} (h : v.Holds c ys) (hz : 0 < sz)
    (env : Env (Val (sizedTy sz al) β)) (hint : Nat)
    {items : List (Env (Val (sizedTy sz al) β) × Emplacable σ (sizedTy sz al) β)} {s : σ}
    (hs : AllSound c (ofEmplacables items) s) {dropIter : Exec σ Unit} (hd : ∀ s, dropIter s ≠ .ub) :
    (SVec.reading c).Extends c (sizedM c sz al) env hint items dropIter s v ys
      (extend c (sizedM c sz al) env hint items dropIter (s, v)) :=
  (SVec.appends c hz).extend_meets h trivial (fun _ _ => trivial) hs (allAsk_true _ _ fun _ _ => trivial) hd

/-- What a user sees: if the items yield `xs`, the iterator can be dropped, and there is room, `extend` returns with `xs`
appended. -/
theorem C32_extend_aligned_returns (hA : A.Lawful c) {v : AVec A β} {ys xs : List (Val A.ty β)} (h : v.Holds c ys)
    {env : Env (Val A.ty β)} (hv : env.Valid) (hint : Nat) {items : List (Env (Val A.ty β) × Emplacable σ A.ty β)} {s s1 s' : σ}
    (hi : AllEnv Env.Valid (ofEmplacables items)) (hs : AllSound c (ofEmplacables items) s) {dropIter : Exec σ Unit}
    (hd : ∀ s, dropIter s ≠ .ub) (hy : Yielded (ofEmplacables items) s xs s1) (hd1 : dropIter s1 = .ok () s')
    (hn : ¬ AVec.NoMore c env v ys hint)
    (hr : ∀ v1, Api.reserveExact (alignedP c A) env hint v = .ok () v1 →
      AlwaysRoom c (alignedM c A) (AVec.NoRoom c) (ofEmplacables items) s v1 ys) :
    v.observe c = some ys ∧
    ∃ v', extend c (alignedM c A) env hint items dropIter (s, v) = .ok () (s', v') ∧ v'.observe c = some (ys ++ xs) := by
  obtain ⟨v', h1, h2⟩ := Reading.Extends.returns (C32_extend_aligned hA h hv hint hi hs hd) hy hd1 hn hr
  exact ⟨h.observe_eq hA.fits, v', h1, AVec.Holds.observe_eq hA.fits h2.1⟩

theorem C32_extend_unaligned_returns_partial {G : Prop} {v : UVec T β} {ys xs : List (Val T β)} (h : v.Represents G c ys) {env : Env (Val T β)}
    (hv : env.Valid) (he : G → env.Exact) (hint : Nat) {items : List (Env (Val T β) × Emplacable σ T β)} {s s1 s' : σ}
    (hi : AllEnv (fun e => e.Valid ∧ (G → e.Exact)) (ofEmplacables items)) (hs : AllSound c (ofEmplacables items) s)
    (hz : AllAsk v.ZstOk (ofEmplacables items) s) {dropIter : Exec σ Unit} (hd : ∀ s, dropIter s ≠ .ub)
    (hy : Yielded (ofEmplacables items) s xs s1) (hd1 : dropIter s1 = .ok () s') (hn : ¬ UVec.NoMore c env v ys hint)
    (hr : ∀ v1, Api.reserveExact (unalignedP c T) env hint v = .ok () v1 →
      AlwaysRoom c (unalignedM c T) (UVec.NoRoom c) (ofEmplacables items) s v1 ys) :
    v.observe c = some ys ∧
    ∃ v', extend c (unalignedM c T) env hint items dropIter (s, v) = .ok () (s', v') ∧ v'.observe c = some (ys ++ xs) := by
  obtain ⟨v', h1, h2⟩ := Reading.Extends.returns (C32_extend_unaligned_partial h hv he hint hi hs hz hd) hy hd1 hn hr
  exact ⟨h.observe_eq, v', h1, UVec.Represents.observe_eq h2.1⟩

theorem C32_extend_sized_returns_partial {v : SVec sz al β} {ys xs : List (Val (sizedTy sz al) β)} (h : v.Holds c ys) (hz : 0 < sz)
    (env : Env (Val (sizedTy sz al) β)) (hint : Nat)
    {items : List (Env (Val (sizedTy sz al) β) × Emplacable σ (sizedTy sz al) β)} {s s1 s' : σ}
    (hs : AllSound c (ofEmplacables items) s) {dropIter : Exec σ Unit} (hd : ∀ s, dropIter s ≠ .ub)
    (hy : Yielded (ofEmplacables items) s xs s1) (hd1 : dropIter s1 = .ok () s') (hn : ¬ SVec.NoMore c env v ys hint)
    (hr : ∀ v1, Api.reserveExact (sizedP c sz al) env hint v = .ok () v1 →
      AlwaysRoom c (sizedM c sz al) (fun env v _ _ _ => v.NoSlot c env) (ofEmplacables items) s v1 ys) :
    v.observe = some ys ∧
    ∃ v', extend c (sizedM c sz al) env hint items dropIter (s, v) = .ok () (s', v') ∧ v'.observe = some (ys ++ xs) := by
  obtain ⟨v', h1, h2⟩ := Reading.Extends.returns (C32_extend_sized_partial h hz env hint hs hd) hy hd1 hn hr
  exact ⟨h.observe_eq, v', h1, SVec.Holds.observe_eq h2.1⟩

/-! ## collect -/

/-- C32, `from_iter` for statically aligned elements. -/
theorem C32_fromIter_aligned (hA : A.Lawful c) {env : Env (Val A.ty β)} (hv : env.Valid) (envD : Env (Val A.ty β)) (hint : Nat)
    {items : List (Env (Val A.ty β) × Emplacable σ A.ty β)} {s : σ}
    (hi : AllEnv Env.Valid (ofEmplacables items)) (hs : AllSound c (ofEmplacables items) s) {dropIter : Exec σ Unit}
    (hd : ∀ s, dropIter s ≠ .ub) :
    (AVec.reading c).Collects c (alignedM c A) env envD hint items dropIter s AVec.new
      (fromIter c (alignedM c A) env envD hint items dropIter s) :=
  (AVec.appends hA (isAlign_one_of hA.al)).fromIter_meets (AVec.new_holds hA.fits) rfl hv hi hs (allAsk_true _ _ fun _ _ => trivial) hd
    (AVec.drop_reading hA.fits envD)

/-- C32, `from_iter` for dynamically aligned elements. Partial: not covered are zero-sized items whose alignment exceeds that of
`usize`. -/
theorem C32_fromIter_unaligned_partial {G : Prop} (hu : IsAlign c c.usizeAlign) {env : Env (Val T β)} (hv : env.Valid) (he : G → env.Exact)
    (envD : Env (Val T β)) (hint : Nat) {items : List (Env (Val T β) × Emplacable σ T β)} {s : σ}
    (hi : AllEnv (fun e => e.Valid ∧ (G → e.Exact)) (ofEmplacables items)) (hs : AllSound c (ofEmplacables items) s)
    (hz : AllAsk (fun n al => n = 0 → al ≤ c.usizeAlign) (ofEmplacables items) s) {dropIter : Exec σ Unit}
    (hd : ∀ s, dropIter s ≠ .ub) :
    (UVec.reading G c).Collects c (unalignedM c T) env envD hint items dropIter s (UVec.newAlignPtr c)
      (fromIter c (unalignedM c T) env envD hint items dropIter s) :=
  (UVec.appends G c (isAlign_one_of hu)).fromIter_meets (UVec.newAlignPtr_represents hu) rfl ⟨hv, he⟩ hi hs
    (Appends.allAsk_mono (fun _ _ h _ => h) hz) hd (UVec.drop_reading envD)

/-- C32, `from_iter` for sized elements. Partial: not zero-sized elements. -/
theorem C32_fromIter_sized_partial (hz : 0 < sz) (env envD : Env (Val (sizedTy sz al) β)) (hint : Nat)
    {items : List (Env (Val (sizedTy sz al) β) × Emplacable σ (sizedTy sz al) β)} {s : σ}
    (hs : AllSound c (ofEmplacables items) s) {dropIter : Exec σ Unit} (hd : ∀ s, dropIter s ≠ .ub) :
    (SVec.reading c).Collects c (sizedM c sz al) env envD hint items dropIter s SVec.new
      (fromIter c (sizedM c sz al) env envD hint items dropIter s) :=
  (SVec.appends c hz).fromIter_meets SVec.new_holds rfl trivial (fun _ _ => trivial) hs (allAsk_true _ _ fun _ _ => trivial) hd
    (SVec.drop_reading envD)

theorem C32_fromIter_aligned_returns (hA : A.Lawful c) {xs : List (Val A.ty β)} {env : Env (Val A.ty β)} (hv : env.Valid)
    (envD : Env (Val A.ty β)) (hint : Nat) {items : List (Env (Val A.ty β) × Emplacable σ A.ty β)} {s s1 s' : σ}
    (hi : AllEnv Env.Valid (ofEmplacables items)) (hs : AllSound c (ofEmplacables items) s) {dropIter : Exec σ Unit}
    (hd : ∀ s, dropIter s ≠ .ub) (hy : Yielded (ofEmplacables items) s xs s1) (hd1 : dropIter s1 = .ok () s')
    (hn : ¬ AVec.NoMore c env (AVec.new : AVec A β) [] hint)
    (hr : ∀ v1, Api.reserveExact (alignedP c A) env hint AVec.new = .ok () v1 →
      AlwaysRoom c (alignedM c A) (AVec.NoRoom c) (ofEmplacables items) s v1 []) :
    ∃ v', fromIter c (alignedM c A) env envD hint items dropIter s = .ok () (s', v') ∧ v'.observe c = some xs := by
  obtain ⟨v', h1, h2⟩ := Reading.Collects.returns (C32_fromIter_aligned hA hv envD hint hi hs hd) hy hd1 hn hr
  exact ⟨v', h1, AVec.Holds.observe_eq hA.fits h2.1⟩

theorem C32_fromIter_unaligned_returns_partial {G : Prop} (hu : IsAlign c c.usizeAlign) {xs : List (Val T β)} {env : Env (Val T β)} (hv : env.Valid)
    (he : G → env.Exact) (envD : Env (Val T β)) (hint : Nat) {items : List (Env (Val T β) × Emplacable σ T β)} {s s1 s' : σ}
    (hi : AllEnv (fun e => e.Valid ∧ (G → e.Exact)) (ofEmplacables items)) (hs : AllSound c (ofEmplacables items) s)
    (hz : AllAsk (fun n al => n = 0 → al ≤ c.usizeAlign) (ofEmplacables items) s) {dropIter : Exec σ Unit}
    (hd : ∀ s, dropIter s ≠ .ub) (hy : Yielded (ofEmplacables items) s xs s1) (hd1 : dropIter s1 = .ok () s')
    (hn : ¬ UVec.NoMore c env (UVec.newAlignPtr c : UVec T β) [] hint)
    (hr : ∀ v1, Api.reserveExact (unalignedP c T) env hint (UVec.newAlignPtr c) = .ok () v1 →
      AlwaysRoom c (unalignedM c T) (UVec.NoRoom c) (ofEmplacables items) s v1 []) :
    ∃ v', fromIter c (unalignedM c T) env envD hint items dropIter s = .ok () (s', v') ∧ v'.observe c = some xs := by
  obtain ⟨v', h1, h2⟩ := Reading.Collects.returns (C32_fromIter_unaligned_partial hu hv he envD hint hi hs hz hd) hy hd1 hn hr
  exact ⟨v', h1, UVec.Represents.observe_eq h2.1⟩

theorem C32_fromIter_sized_returns_partial (hz : 0 < sz) {xs : List (Val (sizedTy sz al) β)} (env envD : Env (Val (sizedTy sz al) β))
    (hint : Nat) {items : List (Env (Val (sizedTy sz al) β) × Emplacable σ (sizedTy sz al) β)} {s s1 s' : σ}
    (hs : AllSound c (ofEmplacables items) s) {dropIter : Exec σ Unit} (hd : ∀ s, dropIter s ≠ .ub)
    (hy : Yielded (ofEmplacables items) s xs s1) (hd1 : dropIter s1 = .ok () s')
    (hn : ¬ SVec.NoMore c env (SVec.new : SVec sz al β) [] hint)
    (hr : ∀ v1, Api.reserveExact (sizedP c sz al) env hint SVec.new = .ok () v1 →
      AlwaysRoom c (sizedM c sz al) (fun env v _ _ _ => v.NoSlot c env) (ofEmplacables items) s v1 []) :
    ∃ v', fromIter c (sizedM c sz al) env envD hint items dropIter s = .ok () (s', v') ∧ v'.observe = some xs := by
  obtain ⟨v', h1, h2⟩ := Reading.Collects.returns (C32_fromIter_sized_partial hz env envD hint hs hd) hy hd1 hn hr
  exact ⟨v', h1, SVec.Holds.observe_eq h2.1⟩

/-! ## The macros -/

/-- C32, `unsized_vec!` and `unsize_vec!` for statically aligned elements. -/
theorem C32_unsizedVec_aligned (hA : A.Lawful c) (envD : Env (Val A.ty β)) {items : List (Env (Val A.ty β) × Item σ A.ty β)} {s : σ}
    (hi : AllEnv Env.Valid items) (hs : AllSound c items s) :
    (AVec.reading c).Lists c (alignedM c A) envD items s AVec.new (unsizedVec c (alignedM c A) envD items s) :=
  (AVec.appends hA (isAlign_one_of hA.al)).unsizedVec_meets (AVec.new_holds hA.fits) rfl hi (fun _ _ _ _ => trivial) hs (allAsk_true _ _ fun _ _ => trivial)
    (AVec.drop_reading hA.fits envD)

/-- C32, the macros for dynamically aligned elements. Partial: not covered are zero-sized items whose alignment exceeds that of
`usize`. If there are plain values among the items (`PlainIf`), the allocator must not return more than was asked for. -/
theorem C32_unsizedVec_unaligned_partial {G : Prop} (hu : IsAlign c c.usizeAlign) (envD : Env (Val T β)) {items : List (Env (Val T β) × Item σ T β)}
    {s : σ} (hi : AllEnv (fun e => e.Valid ∧ (G → e.Exact)) items) (hp : PlainIf G items) (hs : AllSound c items s)
    (hz : AllAsk (fun n al => n = 0 → al ≤ c.usizeAlign) items s) :
    (UVec.reading G c).Lists c (unalignedM c T) envD items s (UVec.newAlignPtr c) (unsizedVec c (unalignedM c T) envD items s) :=
  (UVec.appends G c (isAlign_one_of hu)).unsizedVec_meets (UVec.newAlignPtr_represents hu) rfl hi hp hs
    (Appends.allAsk_mono (fun _ _ h _ => h) hz) (UVec.drop_reading envD)

/-- C32, the macros for sized elements. Partial: not zero-sized elements. -/
theorem C32_unsizedVec_sized_partial (hz : 0 < sz) (envD : Env (Val (sizedTy sz al) β))
    {items : List (Env (Val (sizedTy sz al) β) × Item σ (sizedTy sz al) β)} {s : σ} (hs : AllSound c items s) :
    (SVec.reading c).Lists c (sizedM c sz al) envD items s SVec.new (unsizedVec c (sizedM c sz al) envD items s) :=
  (SVec.appends c hz).unsizedVec_meets SVec.new_holds rfl (fun _ _ => trivial) (fun _ _ _ _ => trivial) hs (allAsk_true _ _ fun _ _ => trivial)
    (SVec.drop_reading envD)

theorem C32_unsizedVec_aligned_returns (hA : A.Lawful c) {xs : List (Val A.ty β)} (envD : Env (Val A.ty β))
    {items : List (Env (Val A.ty β) × Item σ A.ty β)} {s s' : σ} (hi : AllEnv Env.Valid items) (hs : AllSound c items s)
    (hy : Yielded items s xs s') (hr : AlwaysRoom c (alignedM c A) (AVec.NoRoom c) items s (AVec.new : AVec A β) []) :
    ∃ v', unsizedVec c (alignedM c A) envD items s = .ok () (s', v') ∧ v'.observe c = some xs := by
  obtain ⟨v', h1, h2⟩ := Reading.Lists.returns (C32_unsizedVec_aligned hA envD hi hs) hy hr
  exact ⟨v', h1, AVec.Holds.observe_eq hA.fits h2.1⟩

theorem C32_unsizedVec_unaligned_returns_partial {G : Prop} (hu : IsAlign c c.usizeAlign) {xs : List (Val T β)} (envD : Env (Val T β))
    {items : List (Env (Val T β) × Item σ T β)} {s s' : σ} (hi : AllEnv (fun e => e.Valid ∧ (G → e.Exact)) items) (hp : PlainIf G items) (hs : AllSound c items s)
    (hz : AllAsk (fun n al => n = 0 → al ≤ c.usizeAlign) items s)
    (hy : Yielded items s xs s')
    (hr : AlwaysRoom c (unalignedM c T) (UVec.NoRoom c) items s (UVec.newAlignPtr c : UVec T β) []) :
    ∃ v', unsizedVec c (unalignedM c T) envD items s = .ok () (s', v') ∧ v'.observe c = some xs := by
  obtain ⟨v', h1, h2⟩ := Reading.Lists.returns (C32_unsizedVec_unaligned_partial hu envD hi hp hs hz) hy hr
  exact ⟨v', h1, UVec.Represents.observe_eq h2.1⟩

theorem C32_unsizedVec_sized_returns_partial (hz : 0 < sz) {xs : List (Val (sizedTy sz al) β)} (envD : Env (Val (sizedTy sz al) β))
    {items : List (Env (Val (sizedTy sz al) β) × Item σ (sizedTy sz al) β)} {s s' : σ} (hs : AllSound c items s)
    (hy : Yielded items s xs s')
    (hr : AlwaysRoom c (sizedM c sz al) (fun env v _ _ _ => v.NoSlot c env) items s (SVec.new : SVec sz al β) []) :
    ∃ v', unsizedVec c (sizedM c sz al) envD items s = .ok () (s', v') ∧ v'.observe = some xs := by
  obtain ⟨v', h1, h2⟩ := Reading.Lists.returns (C32_unsizedVec_sized_partial hz envD hs) hy hr
  exact ⟨v', h1, SVec.Holds.observe_eq h2.1⟩

end

/-! ## Examples and counterexamples -/

namespace Sample

/-- Two items of `Dyn`; the state is the list of values that have been dropped. -/
def dynItems : List (Env (Val Dyn Nat) × Emplacable (List (Val Dyn Nat)) Dyn Nat) :=
  [(env, given env (dyn 16 (List.replicate 32 7))), (env, given env (dyn 1 [5]))]

/-- Two items of `[u8]`. -/
def byteItems : List (Env (Val Bytes.ty Nat) × Emplacable (List (Val Bytes.ty Nat)) Bytes.ty Nat) :=
  [(env, given env (bytes [7, 8, 9])), (env, given env (bytes []))]

/-- The iterator is dropped without effect. -/
def noDrop {σ : Type} : Exec σ Unit := pure ()

theorem given_yields {T : UTy} {β : Type} (env : Env (Val T β)) (x : Val T β) (ds : List (Val T β)) :
    (Item.emplacable (given env x)).Yields ds x ds := ⟨_, ds, ds, rfl, rfl, rfl, rfl⟩

/-- Items that own a possible value each. -/
theorem given_allSound {T : UTy} {β : Type} {c : Cfg} : ∀ (l : List (Env (Val T β) × Val T β)) (ds : List (Val T β)),
    (∀ p ∈ l, p.2.WF c) → AllSound c (ofEmplacables (l.map fun p => (p.1, given p.1 p.2))) ds
  | [], _, _ => trivial
  | p :: l, ds, h => ⟨given_sound (h p (by simp)) p.1 ds, fun _ s' _ => given_allSound l s' fun q hq => h q (by simp [hq])⟩

/-- What can be seen of the vector if the call returned. -/
def returned {σ V α : Type} (see : V → α) : Res (σ × V) Unit → Option α
  | .ok _ st => some (see st.2)
  | _ => none

/-- What can be seen of the vector if the call unwound. -/
def unwound {σ V α : Type} (see : V → α) : Res (σ × V) Unit → Option α
  | .panic st => some (see st.2)
  | _ => none

end Sample

/-- The hypotheses can be met. -/
example : vecU.Holds c64 listU ∧ AllEnv (fun e => e.Valid ∧ e.Exact) (ofEmplacables dynItems) ∧
    AllSound c64 (ofEmplacables dynItems) [] ∧ AllAsk vecU.ZstOk (ofEmplacables dynItems) [] ∧
    Yielded (ofEmplacables dynItems) [] [dyn 16 (List.replicate 32 7), dyn 1 [5]] [] ∧ ¬ UVec.NoMore c64 env vecU listU 2 := by
  refine ⟨vecU_holds _ (.inl rfl), ?_, ?_, ?_, .cons (given_yields _ _ _) (.cons (given_yields _ _ _) (.nil _)), ?_⟩
  · intro p hp
    simp only [ofEmplacables, dynItems, List.map, List.mem_cons, List.not_mem_nil, or_false] at hp
    rcases hp with rfl | rfl <;> exact ⟨env_valid, env_exact⟩
  · refine given_allSound [(env, dyn 16 (List.replicate 32 7)), (env, dyn 1 [5])] [] ?_
    intro p hp
    simp only [List.mem_cons, List.not_mem_nil, or_false] at hp
    rcases hp with rfl | rfl
    · exact dyn_wf 4 _ (by decide) (by decide) (by decide) _ (.inl rfl)
    · exact dyn_wf 0 _ (by decide) (by decide) (by decide) _ (.inl rfl)
  · exact allAsk_true _ _ fun n al h => absurd h (by decide)
  · rintro (h | h)
    · exact env_grants _ _ h
    · exact absurd h (by unfold UVec.TooLarge UVec.BytesTooLarge; decide)

/-- There is room in every vector that the loop goes through. -/
example : AlwaysRoom c64 (unalignedM c64 Dyn) (UVec.NoRoom c64) (ofEmplacables dynItems) [] (UVec.newAlignPtr c64 : UVec Dyn Nat) [] := by
  intro k env' it xs s1 v1 hk hy hp n al s' ha hn
  obtain ⟨b, hb, h1⟩ := hn
  match k with
  | 0 =>
    cases hk; cases hy; cases hp
    obtain ⟨md, ⟨st, h2, rfl⟩, rfl, rfl⟩ := ha
    cases h2
    rcases h1 with h1 | h1 | h1
    · exact env_grants _ _ h1
    · exact absurd h1 (by decide)
    · have hb : b ≤ 32 := hb
      revert h1
      show ¬ (2 ^ 63 - 1 < padTo 16 (padTo 16 0 + b))
      have := padTo_lt (a := 16) (n := padTo 16 0 + b) (by decide)
      have h0 : padTo 16 0 = 0 := by decide
      omega
  | 1 =>
    cases hk
    simp only [ofEmplacables, dynItems, List.map, List.take] at hy
    cases hy with
    | cons h2 h3 =>
      cases h3
      obtain ⟨rfl, rfl⟩ := h2.unique (given_yields _ _ _)
      obtain ⟨md, ⟨st, h2, rfl⟩, rfl, rfl⟩ := ha
      cases h2
      have hv : v1 = (match pushItems c64 (unalignedM c64 Dyn) ((ofEmplacables dynItems).take 1) ([], (UVec.newAlignPtr c64 : UVec Dyn Nat)) with
        | .ok _ (_, v) => v
        | _ => UVec.newAlignPtr c64) := by rw [hp]
      have hb : b ≤ 1 := hb
      have hcap : v1.byteCap = 32 := by rw [hv]; decide +kernel
      have hal : v1.align = 16 := by rw [hv]; decide +kernel
      rcases h1 with h1 | h1 | h1
      · exact env_grants _ _ h1
      · exact absurd h1 (by decide)
      · revert h1
        unfold UVec.BytesTooLarge UVec.request
        rw [hcap, hal]
        show ¬ (2 ^ 63 - 1 < padTo 16 (padTo 16 32 + b))
        have := padTo_lt (a := 16) (n := padTo 16 32 + b) (by decide)
        have h0 : padTo 16 32 = 32 := by decide
        omega
  | k + 2 => simp [ofEmplacables, dynItems] at hk

/-- A test of the model: `extend`, `from_iter` and `unsized_vec!`. -/
example : returned (UVec.observe c64) (extend c64 (unalignedM c64 Dyn) env 2 dynItems noDrop ([], vecU)) =
      some (some (listU ++ [dyn 16 (List.replicate 32 7), dyn 1 [5]])) ∧
    returned (AVec.observe c64) (fromIter c64 (alignedM c64 Bytes) env env 1 byteItems noDrop []) =
      some (some [bytes [7, 8, 9], bytes []]) ∧
    returned (AVec.observe c64) (unsizedVec c64 (alignedM c64 Bytes) env
      [(env, .value (pure (bytes [1]))), (env, .emplacable (given env (bytes [2, 3])))] []) =
      some (some [bytes [1], bytes [2, 3]]) := by
  refine ⟨?_, ?_, ?_⟩ <;> decide +kernel

/-- A test of the model: the second item panics; `extend` keeps the first one, and `unsized_vec!` drops it. -/
example : unwound (AVec.observe c64) (extend c64 (alignedM c64 Bytes) env 2
      [(env, given env (bytes [7])), (env, (Exec.panic : Exec _ (Started _ _ _)))] noDrop ([], vecA)) =
      some (some (listA ++ [bytes [7]])) ∧
    unwound (fun v => (v.drops, v.heap.block.isNone)) (unsizedVec c64 (alignedM c64 Bytes) env
      [(env, .value (pure (bytes [1]))), (env, .value (Exec.panic : Exec (List Nat) _))] []) = some ([bytes [1]], true) := by
  refine ⟨?_, ?_⟩ <;> decide +kernel

/-- A test of the model: there is no room for the second value; `push` destroys it, and then `unsized_vec!` the first one. If the destructor
of the second value panics, the process ends. -/
example : unwound (fun v => (v.drops, v.heap.block.isNone)) (unsizedVec c64 (alignedM c64 Bytes) env
      [(env, .value (pure (bytes [1]))), (⟨(env : Env Unit).alloc, fun _ => .error .capacityOverflow, false, fun _ => false⟩, .value (pure (bytes [2])))] ()) =
      some ([bytes [2], bytes [1]], true) ∧
    unsizedVec c64 (alignedM c64 Bytes) env
      [(env, .value (pure (bytes [1]))), (⟨(env : Env Unit).alloc, fun _ => .error .capacityOverflow, false, fun _ => true⟩, .value (pure (bytes [2])))] () =
      .abort := by
  refine ⟨?_, ?_⟩
  · decide +kernel
  · rfl

/-- C32 is false of the code for zero-sized elements: `extend` panics, even with an iterator without items. -/
theorem C32_counterexample_sized :
    (SVec.new : SVec 0 1 Nat).Holds c64 [] ∧
    unwound SVec.len (extend c64 (sizedM c64 0 1) env 0 [] noDrop ((), (SVec.new : SVec 0 1 Nat))) = some 0 ∧
    unwound SVec.len (fromIter c64 (sizedM c64 0 1) env env 1 [(env, given env (⟨(), []⟩ : Val (sizedTy 0 1) Nat))] noDrop []) =
      some 0 := by
  refine ⟨SVec.new_holds, ?_, ?_⟩ <;> decide +kernel

/-- C32 is false of the code for dynamically aligned elements: collecting a zero-sized value of alignment 16 and a byte returns, but
`get(0)` is a misaligned reference (undefined behaviour). -/
theorem C32_counterexample_unaligned : (dyn 16 []).WF c64 ∧
    returned (fun v => (Api.get (unalignedP c64 Dyn) v 0).isNone) (fromIter c64 (unalignedM c64 Dyn) envOdd envOdd 2
      [(envOdd, given env (dyn 16 [])), (envOdd, given env (dyn 1 [5]))] noDrop []) = some true :=
  ⟨dyn_wf 4 _ (by decide) (by decide) (by decide) _ (.inl rfl), by decide +kernel⟩

end Verif
