import Verif.Proofs.Protocol
import Verif.Props.Insert
import Verif.Props.Remove
import Verif.Props.Sized
import Verif.Props.Emplacable
import Verif.Props.Combine

/-!
# C69: both sides of the emplacement protocol

`Emplacer.Keeps` (Spec/Protocol) is the safety contract of `Emplacer::from_fn`, `Emplacable.Keeps` that of `Emplacable::from_fn` and
`Emplacer::into_fn`. An exchange between two sides that keep their contracts, whoever wrote them, is never undefined behaviour, and does
one of the things the documentation allows. Then: the emplacers and the emplacables of the two crates keep the contract, and what
`pop_into` and `remove_into` return can be given to any emplacer that does.
-/

namespace Verif
open Sample

section
variable {σ τ : Type} {T : UTy} {A : ATy} {β : Type} {c : Cfg} {sz al : Nat}

/-- C69: an emplacable and an emplacer that keep their contracts. If the exchange returns, the value was delivered, dropped or forgotten;
if it unwinds or ends the process, one of the two sides did so of its own accord. -/
theorem C69_exchange {e : Emplacable σ T β} {m : Emplacer τ T β} {s : σ} {t : τ} (hs : e.Keeps c s)
    (hm : ∀ md s1, e.Announces s md s1 → m.Keeps md t) :
    (run e m (s, t)).Meets (fun _ st => Served e s st.1) (fun st => Blames e m s t st.1 st.2) (Ends e m s t) :=
  exchange_keeps hs.sound hs.dropped hs.forgotten hm

/-! ### The emplacers of the two crates -/

/-- C69 for `Drop for Emplacable`. -/
theorem C69_dropping (md : T.Meta) (t : τ) : (Sink.dropping : Emplacer τ T β).Keeps md t where
  noUb := by intro h; cases h
  place := by intro _ _ _ _ h; cases h
  dropIt := by intro _ _ h; cases h; exact ⟨_, rfl⟩
  skip := by intro _ _ h; cases h

/-- C69 for `Emplacable::forget`. -/
theorem C69_forgetting (md : T.Meta) (t : τ) : (Sink.forgetting : Emplacer τ T β).Keeps md t where
  noUb := by intro h; cases h
  place := by intro _ _ _ _ h; cases h
  dropIt := by intro _ _ h; cases h
  skip := by intro _ _ h h'; cases h; cases h'

/-- C69 for `Emplacable::get`, whose buffer has the layout of the type. -/
theorem C69_getting (t : List β) : (Sink.getting ⟨sz, al⟩ : Emplacer (List β) (sizedTy sz al) β).Keeps () t where
  noUb := by intro h; cases h
  place := by
    intro _ _ _ _ h bs hbs
    cases h
    refine ⟨bs, ?_, ⟨bs, rfl⟩, fun _ => ⟨bs, rfl⟩⟩
    have h1 : bs.length ≤ sz := hbs
    show (do Exec.require (bs.length ≤ sz); Exec.set bs : Exec (List β) Unit) t = _
    rw [Exec.require_bind h1]; rfl
  dropIt := by intro _ _ h; cases h
  skip := by intro _ _ h; cases h

variable [Inhabited β]

/-- C69 for `box_new_with`. -/
theorem C69_boxing {X : Type} {env : Env X} (hv : env.Valid) {t : Sink.BoxSt T β} (ht : t.heap.block = none) {md : T.Meta}
    (hmd : MetaOk c md) : (Sink.boxing env : Emplacer (Sink.BoxSt T β) T β).Keeps md t :=
  Emplacer.keeps_of_meets (boxing_meets env hv ht hmd)

/-- C69 for `push_with`, statically aligned elements. -/
theorem C69_pushWith_aligned (hA : A.Fits c) {v : AVec A β} {xs : List (Val A.ty β)} (h : v.Holds c xs) {env : Env (Val A.ty β)}
    (hv : env.Valid) {md : A.ty.Meta} (hmd : MetaOk c md) : ((alignedP c A).pushWith env).Keeps md v :=
  Emplacer.keeps_of_meets (AVec.pushWith_meets hA h hv hmd)

/-- C69 for `insert_with`, statically aligned elements. -/
theorem C69_insertWith_aligned (hA : A.Fits c) {v : AVec A β} {xs : List (Val A.ty β)} (h : v.Holds c xs) {env : Env (Val A.ty β)}
    (hv : env.Valid) {md : A.ty.Meta} (hmd : MetaOk c md) {i : Nat} (hi : i ≤ xs.length) :
    ((alignedP c A).insertWithUnchecked env i).Keeps md v :=
  Emplacer.keeps_of_meets (AVec.insertWith_meets hA h hv hmd i hi)

/-- C69 for `push_with`, dynamically aligned elements. Partial: see `ZstOk`. (In the excluded case the pointer that the emplacer hands out
is misaligned, `C04_pushWith_zst_unaligned`.) -/
theorem C69_pushWith_unaligned_partial {G : Prop} {v : UVec T β} {xs : List (Val T β)} (h : v.Represents G c xs) {env : Env (Val T β)}
    (hv : env.Valid) (he : G → env.Exact) {md : T.Meta} (hmd : MetaOk c md) (hz : v.ZstOk (T.sizeOf md) (T.alignOf md)) :
    ((unalignedP c T).pushWith env).Keeps md v :=
  Emplacer.keeps_of_meets (UVec.pushWith_meets h hv he hmd hz)

/-- C69 for `insert_with`, dynamically aligned elements. Partial: see `ZstOk` and `InsertOk`; `C69_counterexample`. -/
theorem C69_insertWith_unaligned_partial {G : Prop} {v : UVec T β} {xs : List (Val T β)} (h : v.Represents G c xs) {env : Env (Val T β)}
    (hv : env.Valid) (he : G → env.Exact) {md : T.Meta} (hmd : MetaOk c md) (hz : v.ZstOk (T.sizeOf md) (T.alignOf md)) {i : Nat}
    (hi : i ≤ xs.length) (hg : UVec.InsertOk xs i (max v.align (T.alignOf md))) :
    ((unalignedP c T).insertWithUnchecked env i).Keeps md v :=
  Emplacer.keeps_of_meets (UVec.insertWith_meets h hv he hmd hz i hi hg)

/-- C69 for `push_with`, sized elements. -/
theorem C69_pushWith_sized {v : SVec sz al β} {xs : List (Val (sizedTy sz al) β)} (h : v.Holds c xs) (env : Env (Val (sizedTy sz al) β))
    (hmd : MetaOk (T := sizedTy sz al) c ()) : ((sizedP c sz al).pushWith env).Keeps () v :=
  Emplacer.keeps_of_meets (T := sizedTy sz al) (SVec.pushWith_meets h env hmd)

/-- C69 for `insert_with`, sized elements. -/
theorem C69_insertWith_sized {v : SVec sz al β} {xs : List (Val (sizedTy sz al) β)} (h : v.Holds c xs) (env : Env (Val (sizedTy sz al) β))
    (hmd : MetaOk (T := sizedTy sz al) c ()) {i : Nat} (hi : i ≤ xs.length) : ((sizedP c sz al).insertWithUnchecked env i).Keeps () v :=
  Emplacer.keeps_of_meets (T := sizedTy sz al) (SVec.insertWith_meets h env hmd hi)

/-! ### The emplacables of the crate `emplacable` -/

omit [Inhabited β] in
/-- C69 for a value. -/
theorem C69_value (env : Env (Val T β)) {x : Val T β} (hx : x.WF c) (s : Source.St (Val T β) β) : (Source.value env x).Keeps c s where
  sound := (C47_value env hx).1 s
  dropped := (C47_value env hx).2 s
  forgotten := by rw [(C39_value env x s ()).2]; simp

omit [Inhabited β] in
/-- C69 for `&str` and the like. -/
theorem C69_text (hb : 0 < c.bits) {bs : List β} (hl : bs.length ≤ c.isizeMax) (s : σ) :
    (Source.text bs : Emplacable σ (sliceTy 1 1) β).Keeps c s where
  sound := (C47_text hb hl).1 s
  dropped := (C47_text hb hl).2 s
  forgotten := by intro h; cases h

omit [Inhabited β] in
/-- C69 for `&[T]` with `T: Clone`. -/
theorem C69_cloned {clone : List β → Exec σ (List β)} (hc : ∀ x s, clone x s ≠ .ub)
    (hl : ∀ x s y s', clone x s = .ok y s' → y.length = sz) {xs : List (List β)} (ho : ElemOk c sz al xs.length) (s : σ) :
    (Source.cloned sz al clone xs).Keeps c s where
  sound := (C47_cloned hc hl ho).1 s
  dropped := (C47_cloned hc hl ho).2 s
  forgotten := by intro h; cases h

omit [Inhabited β] in
/-- C69 for an array of emplacables that are safe. -/
theorem C69_array {es : List (Emplacable σ (sizedTy sz al) β)} (ho : ElemOk c sz al es.length) (h : ∀ e ∈ es, e.Safe c) (s : σ) :
    (Source.array sz al es).Keeps c s where
  sound := (C47_array ho h).1 s
  dropped := (C47_array ho h).2 s
  forgotten := by intro h; cases h

/-- C69 for `Box<T>`. -/
theorem C69_box {s : Source.St (Val T β) β} {p : Nat} {x : Val T β} (hb : BoxHolds c s.heap p x) (env : Env (Val T β)) :
    (Source.boxed env p x.md).Keeps c s := by
  obtain ⟨⟨s1, h1, _⟩, h2, h3⟩ := C39_box_partial hb env ()
  obtain ⟨s', h4, _⟩ := C40_box hb env
  refine ⟨C40_sound h4 hb.wf, ?_, by rw [h1]; simp⟩
  cases hp : env.dropPanics x with
  | false => obtain ⟨s2, h5, _⟩ := h2 hp; rw [h5]; simp
  | true => obtain ⟨s2, h5, _⟩ := h3 hp; rw [h5]; simp

/-- C69 for `Vec<T>`: kept exactly if the vector is full or its elements have no size (`C41_counterexample`). -/
theorem C69_vector_partial {s : Source.St (Val (sizedTy sz al) β) β} {p cap : Nat} {xs : List (Val (sizedTy sz al) β)}
    (hv : VecHolds c s.heap p cap xs) (env : Env (Val (sizedTy sz al) β)) :
    Emplacable.Keeps c (Source.vector c sz al env p xs.length cap) s ↔ cap = xs.length ∨ sz = 0 := by
  obtain ⟨s', hr, _, _, _, hi⟩ := C41_vector_partial hv env
  obtain ⟨⟨s1, h1, _⟩, h2, h3⟩ := C39_vector_partial hv env ()
  constructor
  · intro h
    refine hi.2 ⟨hr, fun st s1 h1 => ?_⟩
    obtain ⟨st', s1', s2, h4, h5, _⟩ := hr
    rw [h1] at h4; cases h4
    rw [h.sound.layout st s1 h1, h5]; rfl
  · intro h
    refine ⟨C40_sound (hi.1 h) ?_, ?_, by rw [h1]; simp⟩
    · exact hv.ok.sliceWF hv.sized hv.len
    · by_cases hp : ∀ x ∈ xs, env.dropPanics x = false
      · obtain ⟨s2, h4, _⟩ := h2 hp; rw [h4]; simp
      · obtain ⟨ys, y, zs, rfl, h5, h6⟩ := firstPanic hp
        rw [h3 ys y zs rfl h5 h6]; simp

/-! ### The emplacables of `pop_into` and `remove_into`, given to any emplacer -/

omit [Inhabited β] in
theorem given_exchange {x : Val T β} (hx : x.WF c) (env : Env (Val T β)) (ds : List (Val T β)) {m : Emplacer τ T β} {t : τ}
    (hm : m.Keeps x.md t) : run (given env x) m (ds, t) ≠ .ub := by
  intro h
  have := exchange_keeps (m := m) (t := t) (given_sound hx env ds) (by rw [given, givenAs_run_drop]; split <;> (intro h; cases h))
    (by intro h; cases h) (by rintro md s1 ⟨st, h1, h2⟩; cases h1; cases h2; exact hm)
  rw [h] at this
  exact this

/-- C69 for `pop_into`, dynamically aligned elements. -/
theorem C69_popInto_unaligned {G : Prop} {v : UVec T β} {xs : List (Val T β)} {x : Val T β} (h : v.Represents G c (xs ++ [x]))
    (env : Env (Val T β)) {m : Emplacer τ T β} {t : τ} (hm : m.Keeps x.md t) :
    ∃ e, Api.popInto (unalignedP c T) env v = some e ∧ run e m (v, t) ≠ .ub := by
  obtain ⟨e, h1, h2⟩ := (C02_popInto_unaligned (τ := τ) h env).2 xs x rfl
  exact ⟨e, h1, (h2 m t).noUb (given_exchange (h.wf x (by simp)) env _ hm)⟩

/-- C69 for `pop_into`, statically aligned elements. Partial: `ALIGN` must be the alignment of the values, as it is for slices and `str`
but not for `CStr` (`C60_cstr_contract`). -/
theorem C69_popInto_aligned_partial (hA : A.Fits c) (hX : A.Exact) {v : AVec A β} {xs : List (Val A.ty β)} {x : Val A.ty β}
    (h : v.Holds c (xs ++ [x])) (env : Env (Val A.ty β)) {m : Emplacer τ A.ty β} {t : τ} (hm : m.Keeps x.md t) :
    ∃ e, Api.popInto (alignedP c A) env v = some e ∧ run e m (v, t) ≠ .ub := by
  obtain ⟨e, h1, h2⟩ := (C02_popInto_exact_partial (τ := τ) hA hX h env).2 xs x rfl
  exact ⟨e, h1, (h2 m t).noUb (given_exchange (h.wf x (by simp)) env _ hm)⟩

/-- C69 for `pop_into`, sized elements. -/
theorem C69_popInto_sized {v : SVec sz al β} {xs : List (Val (sizedTy sz al) β)} {x : Val (sizedTy sz al) β} (h : v.Holds c (xs ++ [x]))
    (env : Env (Val (sizedTy sz al) β)) {m : Emplacer τ (sizedTy sz al) β} {t : τ} (hm : m.Keeps x.md t) :
    ∃ e, Api.popInto (sizedP c sz al) env v = some e ∧ run e m (v, t) ≠ .ub := by
  obtain ⟨e, h1, h2⟩ := (C02_popInto_sized (τ := τ) h env).2 xs x rfl
  exact ⟨e, h1, (h2 m t).noUb (given_exchange (h.wf x (by simp)) env _ hm)⟩

/-- C69 for `remove_into`, dynamically aligned elements. Partial: see `RemoveOk` (`C05_counterexample`). -/
theorem C69_removeInto_unaligned_partial {G : Prop} {v : UVec T β} {xs : List (Val T β)} (h : v.Represents G c xs)
    (env : Env (Val T β)) {i : Nat} (hi : i < xs.length) (hr : v.RemoveOk xs i) {m : Emplacer τ T β} {t : τ} (hm : m.Keeps xs[i].md t) :
    run (Api.removeInto (unalignedP c T) env i) m (v, t) ≠ .ub :=
  (C05_removeInto_unaligned_partial h env hi hr m t).noUb (given_exchange (h.wf _ (List.getElem_mem hi)) env _ hm)

/-- C69 for `remove_into`, statically aligned elements. Partial: as for `pop_into`. -/
theorem C69_removeInto_aligned_partial (hA : A.Fits c) (hX : A.Exact) {v : AVec A β} {xs : List (Val A.ty β)} (h : v.Holds c xs)
    (env : Env (Val A.ty β)) {i : Nat} (hi : i < xs.length) {m : Emplacer τ A.ty β} {t : τ} (hm : m.Keeps xs[i].md t) :
    run (Api.removeInto (alignedP c A) env i) m (v, t) ≠ .ub :=
  (C05_removeInto_exact_partial hA hX h env hi m t).noUb (given_exchange (h.wf _ (List.getElem_mem hi)) env _ hm)

/-- C69 for `remove_into`, sized elements. -/
theorem C69_removeInto_sized {v : SVec sz al β} {xs : List (Val (sizedTy sz al) β)} (h : v.Holds c xs)
    (env : Env (Val (sizedTy sz al) β)) {i : Nat} (hi : i < xs.length) {m : Emplacer τ (sizedTy sz al) β} {t : τ}
    (hm : m.Keeps xs[i].md t) : run (Api.removeInto (sizedP c sz al) env i) m (v, t) ≠ .ub :=
  (C05_removeInto_sized h env hi m t).noUb (given_exchange (h.wf _ (List.getElem_mem hi)) env _ hm)

end

/-- C69 is false of `insert_with` at the end of a dynamically aligned vector with padding behind its last element: the emplacer does not
keep its contract, whatever the emplacable. -/
theorem C69_counterexample : vecPad.Holds c64 [dyn 1 [1, 2, 3]] ∧ MetaOk (T := Dyn) c64 (dyn 1 [7]).md ∧
    ¬ ((unalignedP c64 Dyn).insertWithUnchecked env 1).Keeps (dyn 1 [7]).md vecPad :=
  ⟨vecPad_holds, (dyn_wf 0 _ (by decide) (by decide) (by decide) _ (.inl rfl)).metaOk, fun h => h.noUb rfl⟩

/-! The hypotheses can be met, also by sides that are not part of the crates. -/

/-- An emplacer that counts how often it is asked, takes values of up to 4 bytes, has larger ones dropped, and refuses (by a panic) the
fourth. -/
def choosy : Emplacer (Nat × List Nat) Dyn Nat := fun l _ t =>
  if t.1 = 3 then .panic t
  else if l.size ≤ 4 then .ok (.place (fun bs => Exec.modify fun t => (t.1, t.2 ++ bs)) (Exec.modify fun t => (t.1 + 1, t.2)) (pure ())) t
  else .ok (.dropIt (pure ())) (t.1 + 1, t.2)

theorem choosy_keeps (md : Dyn.Meta) (t : Nat × List Nat) : choosy.Keeps md t := by
  unfold choosy
  refine ⟨?_, ?_, ?_, ?_⟩
  · dsimp only; split
    · simp
    · split <;> simp
  all_goals
    dsimp only
    split
    · intros; contradiction
    · split
      · first
          | (intro _ _ _ _ h bs _; cases h; exact ⟨_, rfl, ⟨_, rfl⟩, fun _ => ⟨_, rfl⟩⟩)
          | (intro _ _ h; cases h)
      · first
          | (intro _ _ h; cases h; exact ⟨_, rfl⟩)
          | (intro _ _ h; cases h)
          | (intro _ _ _ _ h; cases h)

/-- `choosy` and `pop_into`: it lets the last element of `vecU` be dropped, then takes the first one. -/
example := C69_popInto_unaligned (m := choosy) (t := (0, [])) (xs := [dyn 1 [1, 2, 3]]) (x := dyn 8 [11, 12, 13, 14, 15, 16, 17, 18])
  (vecU_holds c64 (.inl rfl)) env (choosy_keeps _ _)
example : ∃ v', run ((unalignedP c64 Dyn).popIntoUnchecked env) choosy (vecU, (0, [])) = .ok () (v', (1, [])) ∧
    v'.drops = [dyn 8 [11, 12, 13, 14, 15, 16, 17, 18]] := ⟨_, rfl, rfl⟩
example : ∃ v', run (Api.removeInto (unalignedP c64 Dyn) env 0) choosy (vecU, (0, [])) = .ok () (v', (1, [1, 2, 3])) ∧
    v'.drops = [] := ⟨_, rfl, rfl⟩
example : run (Api.removeInto (unalignedP c64 Dyn) env 0) choosy (vecU, (3, [])) = .panic (vecU, (3, [])) := rfl

/-- `C69_exchange` for an emplacable that writes three bytes and panics, and for `choosy`: the panic is the emplacable's. -/
def unwindingShort : Emplacable Nat Dyn Nat := (pure
  { layout := ⟨4, 4⟩, md := (4, 4), write := fun s => .unwind [1, 2, 3] (s + 1), dropVal := pure (), finish := pure () } :
    Exec Nat (Started Nat Dyn Nat))

theorem unwindingShort_keeps : unwindingShort.Keeps c64 5 := by
  refine ⟨⟨(by intro h; cases h), ?_, ?_, ?_, ?_, ?_⟩, (by intro h; cases h), (by intro h; cases h)⟩
  · intro st s1 h; cases h; rfl
  · intro st s1 h; cases h; exact ⟨⟨2, by decide, rfl⟩, by decide, by decide⟩
  · intro st s1 h h'; cases h; cases h'
  · intro st s1 bs s2 h h'; cases h; cases h'
  · intro st s1 bs s2 h h'; cases h; cases h'; decide

example := C69_exchange (m := choosy) (t := (0, [])) unwindingShort_keeps (fun md _ _ => choosy_keeps md _)
example : run unwindingShort choosy (5, (0, [])) = .panic (6, (0, [1, 2, 3])) := rfl

example := C69_insertWith_unaligned_partial (i := 1) (md := (dyn 4 [1, 2, 3, 4]).md) (vecU_holds c64 (.inl rfl)) (env_valid (X := Val Dyn Nat))
  (fun _ => env_exact) (dyn_wf 2 [1, 2, 3, 4] (by decide) (by decide) (by decide) _ (.inl rfl)).metaOk (by intro h; cases h) (by decide)
  (.inl (by decide))
example := C69_insertWith_aligned (i := 1) (md := (bytes [1, 2]).md) (bytes_lawful c64 (.inl rfl)).fits (vecA_holds c64 (.inl rfl))
  (env_valid (X := Val Bytes.ty Nat)) (bytes_wf [1, 2] (by decide) c64 (.inl rfl)).metaOk (by decide)
example := C69_insertWith_sized (i := 1) (vecP_holds c64 (.inl rfl)) env (pair_wf 1 2 c64 (.inl rfl)).metaOk (by decide)
example := C69_boxing (t := noBox) (env_valid (X := Unit)) rfl (bytes_wf [1, 2] (by decide) c64 (.inl rfl)).metaOk
example : Emplacable.Keeps c64 (Source.vector c64 1 1 env 4096 2 2) fullSt := (C69_vector_partial fullSt_holds env).2 (.inl rfl)
example : ¬ Emplacable.Keeps c64 (Source.vector c64 1 1 env 4096 2 4) vecSt := fun h => by
  have := (C69_vector_partial vecSt_holds env).1 h
  revert this; decide

end Verif
